import Verif.Display
import Verif.Props.Descriptors
import Verif.Props.Text
/-!
# C78: texts of errors
-/
set_option autoImplicit false
namespace Amqp
open Dec

/-! ### Lemmas -/

theorem utf8_inj {a b : List Char} (h : utf8 a = utf8 b) : a = b := by
  have h1 : a.utf8Encode = b.utf8Encode := by
    unfold List.utf8Encode
    unfold utf8 at h
    rw [h]
  have h2 := congrArg ByteArray.utf8Decode? h1
  rw [List.utf8Decode?_utf8Encode, List.utf8Decode?_utf8Encode] at h2
  injection h2 with h2
  simpa using h2

theorem txt_inj {a b : String} (h : txt a = txt b) : a = b := String.toList_inj.1 (utf8_inj h)

theorem num_inj {a b : Nat} (h : num a = num b) : a = b := by
  have := utf8_inj h
  rw [Nat.toList_repr, Nat.toList_repr] at this
  rw [← Nat.ofDigitChars_ten_toDigits (n := a), this, Nat.ofDigitChars_ten_toDigits]

theorem utf8_digits : ∀ l : List Char, (∀ c ∈ l, c.isDigit = true) →
    ∀ x ∈ utf8 l, 0x30 ≤ x.toNat ∧ x.toNat ≤ 0x39
  | [], _, x, hx => by simp [utf8] at hx
  | c :: t, h, x, hx => by
    rw [utf8, List.flatMap_cons] at hx
    rcases List.mem_append.1 hx with h1 | h1
    · have hc := h c (by simp)
      simp only [Char.isDigit, Bool.and_eq_true, decide_eq_true_eq] at hc
      have h2 : 0x30 ≤ c.val.toNat := hc.1
      have h3 : c.val.toNat ≤ 0x39 := hc.2
      unfold String.utf8EncodeChar at h1
      simp only at h1
      rw [if_pos (by omega)] at h1
      simp only [List.mem_singleton] at h1
      subst h1
      rw [UInt8.toNat_ofNat']
      omega
    · exact utf8_digits t (fun d hd => h d (by simp [hd])) x h1

theorem num_digits (n : Nat) : ∀ x ∈ num n, 0x30 ≤ x.toNat ∧ x.toNat ≤ 0x39 := by
  refine utf8_digits _ fun c hc => ?_
  rw [Nat.toList_repr] at hc
  exact Nat.isDigit_of_mem_toDigits (by decide) (by decide) hc

/-- How the text of an error begins. -/
def ParseError.head : ParseError → String
  | .invalidSize => "Loaded item size is invalid"
  | .incomplete _ => "More data required during frame parsing: 'Some("
  | .invalidFormatCode _ => "Unexpected format code: '"
  | .invalidChar _ => "Invalid value converting to char: "
  | .invalidDescriptor _ => "Unexpected descriptor: '"
  | .unexpectedFrameType _ => "Unexpected frame type: '"
  | .requiredFieldOmitted _ => "Required field '\""
  | .unknownEnumOption _ => "Unknown \""
  | .utf8Error u => match u.errorLen with
    | some _ => "invalid utf-8 sequence of "
    | none => "incomplete utf-8 byte sequence from index "
/-- The rest. -/
def ParseError.tail : ParseError → Bytes
  | .invalidSize => []
  | .incomplete n => num n ++ txt ")'"
  | .invalidFormatCode c => num c.toNat ++ txt "'"
  | .invalidChar c => num c.toNat
  | .invalidDescriptor d => d.debug ++ txt "'"
  | .unexpectedFrameType t => num t.toNat ++ txt "'"
  | .requiredFieldOmitted n => txt n ++ txt "\"' was omitted."
  | .unknownEnumOption n => txt n ++ txt "\" option."
  | .utf8Error u => match u.errorLen with
    | some n => num n ++ (txt " bytes from index " ++ num u.validUpTo)
    | none => num u.validUpTo

theorem txt_append (a b : String) : txt a ++ txt b = txt (a ++ b) := by
  simp [txt, utf8, String.toList_append]

theorem text_eq (e : ParseError) : e.text = txt e.head ++ e.tail := by
  cases e with
  | invalidSize => simp [ParseError.text, ParseError.head, ParseError.tail]
  | incomplete n =>
    simp only [ParseError.text, ParseError.head, ParseError.tail, ← List.append_assoc, txt_append]
    simp only [List.append_assoc, txt_append]; rfl
  | invalidFormatCode c => simp [ParseError.text, ParseError.head, ParseError.tail]
  | invalidChar c => simp [ParseError.text, ParseError.head, ParseError.tail]
  | invalidDescriptor d => simp [ParseError.text, ParseError.head, ParseError.tail]
  | unexpectedFrameType t => simp [ParseError.text, ParseError.head, ParseError.tail]
  | requiredFieldOmitted n =>
    simp only [ParseError.text, ParseError.head, ParseError.tail, quoted, txt_append, ← String.append_assoc]
    rw [String.append_assoc (s₃ := "' was omitted."), show "Required field '" ++ "\"" = "Required field '\"" by decide +kernel,
      show "\"" ++ "' was omitted." = "\"' was omitted." by decide +kernel]
  | unknownEnumOption n =>
    simp only [ParseError.text, ParseError.head, ParseError.tail, quoted, txt_append, ← String.append_assoc]
    rw [String.append_assoc (s₃ := " option."), show "Unknown " ++ "\"" = "Unknown \"" by decide +kernel,
      show "\"" ++ " option." = "\" option." by decide +kernel]
  | utf8Error u =>
    obtain ⟨v, l⟩ := u
    cases l <;> simp [ParseError.text, ParseError.head, ParseError.tail, Utf8Error.text]

def errorHeads : List String :=
  ["Loaded item size is invalid", "More data required during frame parsing: 'Some(",
    "Unexpected format code: '", "Invalid value converting to char: ", "Unexpected descriptor: '",
    "Unexpected frame type: '", "Required field '\"", "Unknown \"", "invalid utf-8 sequence of ",
    "incomplete utf-8 byte sequence from index "]

theorem head_mem (e : ParseError) : e.head ∈ errorHeads := by
  cases e with
  | utf8Error u => obtain ⟨v, l⟩ := u; cases l <;> simp [ParseError.head, errorHeads]
  | _ => simp [ParseError.head, errorHeads]

theorem heads_differ : ∀ a ∈ errorHeads, ∀ b ∈ errorHeads, a = b ∨
    ((txt a).take 9 ≠ (txt b).take 9 ∧ 9 ≤ (txt a).length ∧ 9 ≤ (txt b).length) ∨
    ((txt a).take 13 ≠ (txt b).take 13 ∧ 13 ≤ (txt a).length ∧ 13 ≤ (txt b).length) := by
  decide +kernel

theorem head_cancel {a b : String} {x y : Bytes} (ha : a ∈ errorHeads) (hb : b ∈ errorHeads)
    (h : txt a ++ x = txt b ++ y) : a = b ∧ x = y := by
  have key : ∀ n, (txt a).take n ≠ (txt b).take n → n ≤ (txt a).length → n ≤ (txt b).length → False := by
    intro n h1 h2 h3
    have := congrArg (List.take n) h
    rw [List.take_append_of_le_length h2, List.take_append_of_le_length h3] at this
    exact h1 this
  rcases heads_differ a ha b hb with h1 | ⟨h1, h2, h3⟩ | ⟨h1, h2, h3⟩
  · subst h1; exact ⟨rfl, List.append_cancel_left h⟩
  · exact (key 9 h1 h2 h3).elim
  · exact (key 13 h1 h2 h3).elim

theorem Descriptor.debug_inj {a b : Descriptor} (h : a.debug = b.debug) : a = b := by
  have hs : ∀ (v : UInt64) (s : Symbol), (Descriptor.ulong v).debug ≠ (Descriptor.symbol s).debug := by
    intro v s h
    have := congrArg (List.take 6) h
    rw [Descriptor.debug, Descriptor.debug, List.append_assoc, List.append_assoc,
      List.take_append_of_le_length (by decide +kernel), List.take_append_of_le_length (by decide +kernel)] at this
    revert this; decide +kernel
  cases a with
  | ulong v => cases b with
    | ulong w =>
      have := List.append_cancel_left (List.append_cancel_right h)
      rw [UInt64.toNat_inj.1 (num_inj this)]
    | symbol s => exact (hs v s h).elim
  | symbol s => cases b with
    | ulong w => exact (hs w s h.symm).elim
    | symbol t =>
      have h1 := List.append_cancel_left (List.append_cancel_right h)
      have h2 := List.append_cancel_left (List.append_cancel_right h1)
      have h3 := List.append_cancel_left (List.append_cancel_right h2)
      obtain ⟨s⟩ := s; obtain ⟨t⟩ := t
      rw [show s = t from RStr.ext h3]

/-- Digits end where something else begins. -/
theorem digits_cancel {a b x y : Bytes} (ha : ∀ c ∈ a, 0x30 ≤ c.toNat ∧ c.toNat ≤ 0x39)
    (hb : ∀ c ∈ b, 0x30 ≤ c.toNat ∧ c.toNat ≤ 0x39)
    (h : a ++ 0x20 :: x = b ++ 0x20 :: y) : a = b ∧ x = y := by
  induction a generalizing b with
  | nil => cases b with
    | nil => simpa using h
    | cons c t =>
      simp only [List.nil_append, List.cons_append, List.cons.injEq] at h
      have := hb c (by simp)
      rw [← h.1] at this
      exact absurd this (by decide)
  | cons c t ih => cases b with
    | nil =>
      simp only [List.nil_append, List.cons_append, List.cons.injEq] at h
      have := ha c (by simp)
      rw [h.1] at this
      exact absurd this (by decide)
    | cons d s =>
      simp only [List.cons_append, List.cons.injEq] at h
      obtain ⟨e1, e2⟩ := ih (fun c hc => ha c (by simp [hc])) (fun c hc => hb c (by simp [hc])) h.2
      rw [h.1, e1]; exact ⟨rfl, e2⟩

/-! ### The property -/

/-- **C78**: the text of a parse error tells which error it is, with all it says. -/
theorem C78_identifies (e e' : ParseError) (h : e.text = e'.text) : e = e' := by
  rw [text_eq, text_eq] at h
  obtain ⟨h1, h2⟩ := head_cancel (head_mem e) (head_mem e') h
  have no : ∀ (u : Utf8Error) (f : ParseError), (∀ v, f ≠ .utf8Error v) →
      f.head ≠ (ParseError.utf8Error u).head := by
    rintro ⟨v, l⟩ f hf
    cases l <;> cases f <;>
      first | exact absurd rfl (hf _) | (simp only [ParseError.head]; decide +kernel)
  cases e with
  | utf8Error u =>
    by_cases he : ∃ v, e' = .utf8Error v
    · obtain ⟨u', rfl⟩ := he
      obtain ⟨v, l⟩ := u
      obtain ⟨v', l'⟩ := u'
      cases l with
      | none => cases l' with
        | none => rw [show v = v' from num_inj h2]
        | some n => exact absurd h1 (by simp only [ParseError.head]; decide +kernel)
      | some n => cases l' with
        | none => exact absurd h1 (by simp only [ParseError.head]; decide +kernel)
        | some m =>
          have h3 : num n ++ 0x20 :: (txt "bytes from index " ++ num v) =
            num m ++ 0x20 :: (txt "bytes from index " ++ num v') := h2
          obtain ⟨e1, e2⟩ := digits_cancel (num_digits n) (num_digits m) h3
          rw [num_inj e1, num_inj (List.append_cancel_left e2)]
    · exact (no u e' (fun v hv => he ⟨v, hv⟩) h1.symm).elim
  | invalidSize =>
    cases e' with
    | invalidSize => rfl
    | utf8Error u => exact (no u .invalidSize (by simp) h1).elim
    | _ => exact absurd h1 (by simp only [ParseError.head]; decide +kernel)
  | incomplete n =>
    cases e' with
    | incomplete m => rw [num_inj (List.append_cancel_right h2)]
    | utf8Error u => exact (no u (.incomplete n) (by simp) h1).elim
    | _ => exact absurd h1 (by simp only [ParseError.head]; decide +kernel)
  | invalidFormatCode n =>
    cases e' with
    | invalidFormatCode m =>
      rw [UInt8.toNat_inj.1 (num_inj (List.append_cancel_right h2))]
    | utf8Error u => exact (no u (.invalidFormatCode n) (by simp) h1).elim
    | _ => exact absurd h1 (by simp only [ParseError.head]; decide +kernel)
  | invalidChar n =>
    cases e' with
    | invalidChar m => rw [UInt32.toNat_inj.1 (num_inj h2)]
    | utf8Error u => exact (no u (.invalidChar n) (by simp) h1).elim
    | _ => exact absurd h1 (by simp only [ParseError.head]; decide +kernel)
  | invalidDescriptor n =>
    cases e' with
    | invalidDescriptor m =>
      rw [Descriptor.debug_inj (List.append_cancel_right h2)]
    | utf8Error u => exact (no u (.invalidDescriptor n) (by simp) h1).elim
    | _ => exact absurd h1 (by simp only [ParseError.head]; decide +kernel)
  | unexpectedFrameType n =>
    cases e' with
    | unexpectedFrameType m =>
      rw [UInt8.toNat_inj.1 (num_inj (List.append_cancel_right h2))]
    | utf8Error u => exact (no u (.unexpectedFrameType n) (by simp) h1).elim
    | _ => exact absurd h1 (by simp only [ParseError.head]; decide +kernel)
  | requiredFieldOmitted n =>
    cases e' with
    | requiredFieldOmitted m =>
      rw [txt_inj (List.append_cancel_right h2)]
    | utf8Error u => exact (no u (.requiredFieldOmitted n) (by simp) h1).elim
    | _ => exact absurd h1 (by simp only [ParseError.head]; decide +kernel)
  | unknownEnumOption n =>
    cases e' with
    | unknownEnumOption m =>
      rw [txt_inj (List.append_cancel_right h2)]
    | utf8Error u => exact (no u (.unknownEnumOption n) (by simp) h1).elim
    | _ => exact absurd h1 (by simp only [ParseError.head]; decide +kernel)

/-- **C78** for the errors of the codec. -/
theorem C78_codec_identifies {E : Type} (io : E → Bytes) (a b : CodecError)
    (h : (a.toRust : AmqpCodecError E).text io = (b.toRust : AmqpCodecError E).text io) :
    a = b := by
  have no : ∀ e : ParseError, e.text ≠ txt "bytes left unparsed at the frame trail" := by
    intro e h
    rw [text_eq] at h
    have h1 := congrArg (List.take 8) h
    have h2 : ∀ a ∈ errorHeads, 8 ≤ (txt a).length ∧
        (txt a).take 8 ≠ (txt "bytes left unparsed at the frame trail").take 8 := by decide +kernel
    have h3 := h2 _ (head_mem e)
    rw [List.take_append_of_le_length h3.1] at h1
    exact h3.2 h1
  cases a with
  | parse e => cases b with
    | parse f => rw [C78_identifies e f h]
    | unparsedBytesLeft => exact (no e h).elim
  | unparsedBytesLeft => cases b with
    | parse f => exact (no f h.symm).elim
    | unparsedBytesLeft => rfl

theorem text_ne_io (e : ParseError) (x : Bytes) : e.text ≠ txt "Io error: " ++ x := by
  intro h
  rw [text_eq] at h
  have h1 := congrArg (List.take 8) h
  have h2 : ∀ a ∈ errorHeads, 8 ≤ (txt a).length ∧
      (txt a).take 8 ≠ (txt "Io error: ").take 8 := by decide +kernel
  have h3 := h2 _ (head_mem e)
  rw [List.take_append_of_le_length h3.1, List.take_append_of_le_length (by decide +kernel)] at h1
  exact h3.2 h1

theorem text_ne_trail (e : ParseError) :
    e.text ≠ txt "bytes left unparsed at the frame trail" := by
  intro h
  rw [text_eq] at h
  have h1 := congrArg (List.take 8) h
  have h2 : ∀ a ∈ errorHeads, 8 ≤ (txt a).length ∧
      (txt a).take 8 ≠ (txt "bytes left unparsed at the frame trail").take 8 := by decide +kernel
  have h3 := h2 _ (head_mem e)
  rw [List.take_append_of_le_length h3.1] at h1
  exact h3.2 h1

/-- **C78** for the errors of the codec, those of the connection included: if the texts of
the latter tell them apart, then so do those of all. -/
theorem C78_codec_io_identifies {E : Type} (io : E → Bytes) (hio : ∀ a b, io a = io b → a = b)
    (a b : AmqpCodecError E) (h : a.text io = b.text io) : a = b := by
  have e : ∀ o : Option E, ∃ x, (AmqpCodecError.Io o).text io = txt "Io error: " ++ x ∧
      (AmqpCodecError.Io o).text io = txt "Io error: " ++ x ∧
      x = match o with | none => txt "None" | some e => txt "Some(" ++ io e ++ txt ")" := by
    have e1 : txt "Io error: None" = txt "Io error: " ++ txt "None" := by decide +kernel
    have e2 : txt "Io error: Some(" = txt "Io error: " ++ txt "Some(" := by decide +kernel
    intro o
    cases o with
    | none => exact ⟨_, e1, e1, rfl⟩
    | some v =>
      have : txt "Io error: Some(" ++ io v ++ txt ")" =
          txt "Io error: " ++ (txt "Some(" ++ io v ++ txt ")") := by
        rw [e2]; simp only [List.append_assoc]
      exact ⟨_, this, this, rfl⟩
  have ne : ∀ x, txt "bytes left unparsed at the frame trail" ≠ txt "Io error: " ++ x := by
    intro x h
    have := congrArg (List.take 2) h
    rw [List.take_append_of_le_length (by decide +kernel)] at this
    revert this; decide +kernel
  have sn : ∀ x, txt "None" ≠ txt "Some(" ++ x ++ txt ")" := by
    intro x h
    have := congrArg (List.take 2) h
    rw [List.append_assoc, List.take_append_of_le_length (by decide +kernel)] at this
    revert this; decide +kernel
  cases a with
  | ParseError p => cases b with
    | ParseError q => rw [C78_identifies p q h]
    | UnparsedBytesLeft => exact (text_ne_trail p h).elim
    | Io o => obtain ⟨x, -, h2, -⟩ := e o; rw [h2] at h; exact (text_ne_io p x h).elim
  | UnparsedBytesLeft => cases b with
    | ParseError q => exact (text_ne_trail q h.symm).elim
    | UnparsedBytesLeft => rfl
    | Io o => obtain ⟨x, -, h2, -⟩ := e o; rw [h2] at h; exact (ne x h).elim
  | Io o =>
    obtain ⟨x, h1, -, hx⟩ := e o
    rw [h1] at h
    cases b with
    | ParseError q => exact (text_ne_io q x h.symm).elim
    | UnparsedBytesLeft => exact (ne x h.symm).elim
    | Io o' =>
      obtain ⟨y, -, h2, hy⟩ := e o'
      rw [h2] at h
      have h := List.append_cancel_left h
      rw [hx, hy] at h
      cases o with
      | none => cases o' with
        | none => rfl
        | some w => exact (sn _ h).elim
      | some v => cases o' with
        | none => exact (sn _ h.symm).elim
        | some w => rw [hio v w (List.append_cancel_left (List.append_cancel_right h))]

/-- **C78** for the errors of the protocol header. -/
theorem C78_protocol_identifies {E : Type} (io : E → Bytes) (hio : ∀ a b, io a = io b → a = b)
    (a b : FullProtocolIdError E) (h : a.text io = b.text io) : a = b := by
  have ne : ∀ (x : Bytes) (c : FullProtocolIdError E), (∀ v, c ≠ .Io v) →
      c.text io ≠ txt "io error: " ++ x := by
    intro x c hc h
    have := congrArg (List.take 2) h
    rw [List.take_append_of_le_length (by decide +kernel)] at this
    cases c with
    | Io v => exact hc v rfl
    | Unexpected p q => revert this; cases p <;> cases q <;> simp only [FullProtocolIdError.text] <;> decide +kernel
    | _ => revert this; simp only [FullProtocolIdError.text]; decide +kernel
  cases a with
  | Io v => cases b with
    | Io w => rw [hio v w (List.append_cancel_left h)]
    | _ => exact (ne _ _ (by intro v h; cases h) h.symm).elim
  | Unexpected p q => cases b with
    | Io w => exact (ne _ _ (by intro v h; cases h) h).elim
    | Unexpected p' q' =>
      revert h
      simp only [FullProtocolIdError.text]
      cases p <;> cases q <;> cases p' <;> cases q' <;>
        first | (intro; rfl) | (intro h; exact absurd h (by decide +kernel))
    | _ =>
      revert h
      simp only [FullProtocolIdError.text]
      cases p <;> cases q <;> (intro h; exact absurd h (by decide +kernel))
  | _ => cases b with
    | Io w => exact (ne _ _ (by intro v h; cases h) h).elim
    | Unexpected p' q' =>
      revert h
      simp only [FullProtocolIdError.text]
      cases p' <;> cases q' <;> (intro h; exact absurd h (by decide +kernel))
    | _ => first | rfl | exact absurd h (by simp only [FullProtocolIdError.text]; decide +kernel)

example : (FullProtocolIdError.Unexpected .Amqp .AmqpSasl : FullProtocolIdError Bytes).text id =
    txt "Expected Amqp protocol id, seen AmqpSasl instead." := by decide +kernel

/-- No control characters of ASCII, in particular no line breaks. -/
def OneLine (text : Bytes) : Prop := ∀ x ∈ text, 0x20 ≤ x.toNat ∧ x.toNat ≠ 0x7f

/-- **C78**, in full: texts of errors are single lines. -/
def C78_statement : Prop :=
  ∀ (env : Env) (input : Bytes) (e : ParseError),
    AmqpFrame.decode env input = .err e → OneLine e.text

theorem OneLine.append {a b : Bytes} (ha : OneLine a) (hb : OneLine b) : OneLine (a ++ b) := by
  intro x hx
  rcases List.mem_append.1 hx with h | h
  · exact ha x h
  · exact hb x h

theorem OneLine.num (n : Nat) : OneLine (num n) := fun x hx => by
  have := num_digits n x hx; omega

theorem OneLine.append_iff {a b : Bytes} : OneLine (a ++ b) ↔ OneLine a ∧ OneLine b :=
  ⟨fun h => ⟨fun x hx => h x (by simp [hx]), fun x hx => h x (by simp [hx])⟩, fun h => h.1.append h.2⟩

theorem heads_line : ∀ a ∈ errorHeads, OneLine (txt a) := by
  unfold OneLine; decide +kernel

/-- **C78**: the text of an error is a single line exactly if the texts it quotes are:
the name of a field or type, which are constants, or a descriptor that was received. -/
theorem C78_one_line_iff_partial (e : ParseError) : OneLine e.text ↔
    match e with
    | .invalidDescriptor (.symbol s) => OneLine s.str.bytes
    | .requiredFieldOmitted n => OneLine (txt n)
    | .unknownEnumOption n => OneLine (txt n)
    | _ => True := by
  have hl : ∀ s ∈ ["B:\"", "\"", "Symbol(", ")", "Ulong(", "'", ")'", "\"' was omitted.", "\" option.",
      " bytes from index "], OneLine (txt s) := by unfold OneLine; decide +kernel
  simp only [List.forall_mem_cons] at hl
  obtain ⟨l1, l2, l3, l4, l5, l6, l7, l8, l9, l10, _⟩ := hl
  rw [text_eq, OneLine.append_iff, and_iff_right (heads_line _ (head_mem e))]
  cases e with
  | invalidSize => exact ⟨fun _ => trivial, fun _ x hx => by cases hx⟩
  | incomplete n => exact ⟨fun _ => trivial, fun _ => (OneLine.num n).append l7⟩
  | invalidFormatCode c => exact ⟨fun _ => trivial, fun _ => (OneLine.num _).append l6⟩
  | invalidChar c => exact ⟨fun _ => trivial, fun _ => OneLine.num _⟩
  | invalidDescriptor d => cases d with
    | ulong v => exact ⟨fun _ => trivial, fun _ => ((l5.append (OneLine.num _)).append l4).append l6⟩
    | symbol s =>
      refine ⟨fun h => ?_, fun h => ?_⟩
      · have h1 := (OneLine.append_iff.1 h).1
        have h2 := (OneLine.append_iff.1 (OneLine.append_iff.1 h1).1).2
        have h3 := (OneLine.append_iff.1 (OneLine.append_iff.1 h2).1).2
        exact (OneLine.append_iff.1 (OneLine.append_iff.1 h3).1).2
      · exact ((l3.append ((l3.append ((l1.append h).append l2)).append l4)).append l4).append l6
  | unexpectedFrameType t => exact ⟨fun _ => trivial, fun _ => (OneLine.num _).append l6⟩
  | requiredFieldOmitted n => exact ⟨fun h => (OneLine.append_iff.1 h).1, fun h => OneLine.append h l8⟩
  | unknownEnumOption n => exact ⟨fun h => (OneLine.append_iff.1 h).1, fun h => OneLine.append h l9⟩
  | utf8Error u =>
    refine ⟨fun _ => trivial, fun _ => ?_⟩
    obtain ⟨v, l⟩ := u
    cases l with
    | none => exact OneLine.num _
    | some n => exact (OneLine.num _).append (l10.append (OneLine.num _))

/-- A frame with an unknown descriptor of the sender's choice. -/
theorem unknown_descriptor (env : Env) (s : RStr) (hs : s.bytes.length < 2 ^ 32)
    (h : ∀ n ∈ ["amqp:open:list", "amqp:begin:list", "amqp:attach:list", "amqp:flow:list",
      "amqp:transfer:list", "amqp:disposition:list", "amqp:detach:list", "amqp:end:list",
      "amqp:close:list"], s ≠ .lit n) (rest : Bytes) :
    AmqpFrame.decode env ([2, 0, 0, 0] ++ (enc (Descriptor.symbol ⟨s⟩) ++ rest)) =
      .err (.invalidDescriptor (.symbol ⟨s⟩)) := by
  rw [Descriptor.enc_eq]
  have hd : Means env (Descriptor.symbol ⟨s⟩).body (Descriptor.symbol ⟨s⟩) :=
    reads_descriptor env (.symbol ⟨s⟩) hs
  have h1 := C24_frame_others.reject env _ rest _ hd (fun e he hi => by
    rcases hi with hi | hi
    · cases hi
    · injection hi with hi; injection hi with hi
      refine h e.2 ?_ hi
      simp only [List.mem_cons, List.not_mem_nil, or_false] at he
      rcases he with rfl | rfl | rfl | rfl | rfl | rfl | rfl | rfl | rfl <;> simp)
  show (decodeFrameHeader 0 >>= _) _ = _
  have h2 : decodeFrameHeader 0 ([2, 0, 0, 0] ++ (FC.described :: (Descriptor.symbol ⟨s⟩).body ++ rest)) =
      .ok (0x00 :: ((Descriptor.symbol ⟨s⟩).body ++ rest), 0) := by
    show decodeFrameHeader 0 (2 :: 0 :: 0 :: 0 :: 0x00 :: ((Descriptor.symbol ⟨s⟩).body ++ rest)) = _
    rw [decodeFrameHeader_eq]
    simp
  rw [bind_ok h2]
  show (Frame.decode env >>= _) _ = _
  rw [bind_err h1]

/-- **C78** fails: every text a peer sends as the descriptor of a frame, unless it is
one of the nine known ones, appears in the text of the error as it was sent, line
breaks included. -/
theorem C78_violated_quoted (env : Env) (s : RStr) (hs : s.bytes.length < 2 ^ 32)
    (h : ∀ n ∈ ["amqp:open:list", "amqp:begin:list", "amqp:attach:list", "amqp:flow:list",
      "amqp:transfer:list", "amqp:disposition:list", "amqp:detach:list", "amqp:end:list",
      "amqp:close:list"], s ≠ .lit n) (rest : Bytes) :
    ∃ e, AmqpFrame.decode env ([2, 0, 0, 0] ++ (enc (Descriptor.symbol ⟨s⟩) ++ rest)) = .err e ∧
      e.text = txt "Unexpected descriptor: 'Symbol(Symbol(B:\"" ++ s.bytes ++ txt "\"))'" := by
  refine ⟨_, unknown_descriptor env s hs h rest, ?_⟩
  simp only [ParseError.text, Descriptor.debug, Symbol.debug, RStr.debug, List.append_assoc, txt_append]
  simp only [← List.append_assoc, txt_append]
  rfl

/-- **C78** fails as stated. -/
theorem C78_violated : ¬ C78_statement := by
  intro h
  have hn : ∀ n ∈ ["amqp:open:list", "amqp:begin:list", "amqp:attach:list", "amqp:flow:list",
      "amqp:transfer:list", "amqp:disposition:list", "amqp:detach:list", "amqp:end:list",
      "amqp:close:list"], RStr.lit "\n" ≠ .lit n := by decide +kernel
  have h1 := h debugEnv _ _ (unknown_descriptor debugEnv (.lit "\n") (by decide) hn [])
  have h2 := (C78_one_line_iff_partial _).1 h1
  exact absurd (h2 10 (by decide +kernel)) (by decide)

/-! ### Examples -/

example : (ParseError.invalidFormatCode 0x40).text = txt "Unexpected format code: '64'" := by
  decide +kernel
example : (ParseError.requiredFieldOmitted "container_id").text =
    txt "Required field '\"container_id\"' was omitted." := by decide +kernel
example : (ParseError.invalidDescriptor (.ulong 0x40)).text =
    txt "Unexpected descriptor: 'Ulong(64)'" := by decide +kernel
example : (ParseError.incomplete 4).text =
    txt "More data required during frame parsing: 'Some(4)'" := by decide +kernel
example : (ParseError.utf8Error ⟨3, some 1⟩).text =
    txt "invalid utf-8 sequence of 1 bytes from index 3" := by decide +kernel
/-- A forged line in a log. -/
example (env : Env) : ∃ e, AmqpFrame.decode env ([2, 0, 0, 0] ++
      (enc (Descriptor.symbol ⟨.lit "\nINFO all is well"⟩) ++ [])) = .err e ∧
    e.text = txt "Unexpected descriptor: 'Symbol(Symbol(B:\"" ++ txt "\nINFO all is well" ++ txt "\"))'" :=
  C78_violated_quoted env (.lit "\nINFO all is well") (by decide) (by decide +kernel) []
example : OneLine ((ParseError.unknownEnumOption "Role").text) :=
  (C78_one_line_iff_partial _).2 (show OneLine _ by unfold OneLine; decide +kernel)

end Amqp
