import Verif.Debug
import Verif.Props.Display
/-!
# Texts of errors of the protocol: lemmas
-/
set_option autoImplicit false
namespace Amqp

theorem RStr.utf8_chars (s : RStr) : utf8 s.chars = s.bytes := by
  obtain ⟨cs, hcs⟩ := (validUtf8_iff s.bytes).1 s.valid
  have h : (⟨s.bytes.toArray⟩ : ByteArray) = cs.utf8Encode := by
    rw [hcs]; exact ByteArray.ext (by simp [List.utf8Encode, utf8])
  unfold RStr.chars
  rw [h, List.utf8Decode?_utf8Encode]
  simp [hcs]

theorem RStr.chars_inj {a b : RStr} (h : a.chars = b.chars) : a = b :=
  RStr.ext (by rw [← a.utf8_chars, ← b.utf8_chars, h])

theorem RStr.chars_lit (s : String) : (RStr.lit s).chars = s.toList :=
  utf8_inj ((RStr.lit s).utf8_chars)

/-- The first byte of a character tells how many there are. -/
theorem utf8EncodeChar_cancel {c d : Char} {r s : Bytes}
    (h : String.utf8EncodeChar c ++ r = String.utf8EncodeChar d ++ s) : c = d ∧ r = s := by
  have hl : (String.utf8EncodeChar c).length = (String.utf8EncodeChar d).length := by
    have hv := char_toNat_valid c
    have hw := char_toNat_valid d
    rw [utf8EncodeChar_eq, utf8EncodeChar_eq] at h ⊢
    generalize c.toNat = n at *
    generalize d.toNat = m at *
    have key : ∀ {x y : Nat} {t u : Bytes}, UInt8.ofNat x :: t = UInt8.ofNat y :: u → x < 256 → y < 256 → x = y := by
      intro x y t u h hx hy
      injection h with h _
      have := congrArg UInt8.toNat h
      rw [UInt8.toNat_ofNat', UInt8.toNat_ofNat'] at this
      omega
    by_cases a1 : n ≤ 0x7f <;> by_cases a2 : n ≤ 0x7ff <;> by_cases a3 : n ≤ 0xffff <;>
    by_cases b1 : m ≤ 0x7f <;> by_cases b2 : m ≤ 0x7ff <;> by_cases b3 : m ≤ 0xffff <;>
      simp only [a1, a2, a3, b1, b2, b3, if_true, if_false, List.length_cons, List.length_nil,
        List.cons_append] at h ⊢ <;>
      first
        | omega
        | (have := key h (by omega) (by omega); omega)
  obtain ⟨h1, h2⟩ := List.append_inj h hl
  refine ⟨?_, h2⟩
  have := utf8_inj (a := [c]) (b := [d]) (by simpa [utf8] using h1)
  injection this

/-- The first byte of a character that is not a quote or backslash is neither. -/
theorem utf8EncodeChar_no {c : Char} {k : UInt8} (hk : k.toNat ≤ 0x7f) (hc : c.toNat ≠ k.toNat) :
    k ∉ String.utf8EncodeChar c := by
  have hv := char_toNat_valid c
  rw [utf8EncodeChar_eq]
  generalize c.toNat = n at *
  intro h
  have key : ∀ x : Nat, k = UInt8.ofNat x → x < 256 → k.toNat = x := by
    intro x h hx
    rw [h, UInt8.toNat_ofNat']; omega
  split at h
  · simp only [List.mem_singleton] at h
    have := key _ h (by omega); omega
  split at h
  · simp only [List.mem_cons, List.not_mem_nil, or_false] at h
    rcases h with h | h <;> (have := key _ h (by omega); omega)
  split at h
  · simp only [List.mem_cons, List.not_mem_nil, or_false] at h
    rcases h with h | h | h <;> (have := key _ h (by omega); omega)
  · simp only [List.mem_cons, List.not_mem_nil, or_false] at h
    rcases h with h | h | h | h <;> (have := key _ h (by omega); omega)

theorem hexDigit_inj : ∀ n < 16, ∀ m < 16, hexDigit n = hexDigit m → n = m := by decide
theorem hexDigit_plain : ∀ n < 16, hexDigit n ≠ 0x7d ∧ hexDigit n ≠ 0x22 ∧
    0x20 ≤ (hexDigit n).toNat ∧ (hexDigit n).toNat ≠ 0x7f := by decide

theorem hex_ne_nil (n : Nat) : hex n ≠ [] := by
  rw [hex]; split <;> simp

theorem hex_inj (n : Nat) : ∀ m, hex n = hex m → n = m := by
  induction n using Nat.strongRecOn with
  | _ n ih =>
    intro m h
    rw [hex.eq_def n, hex.eq_def m] at h
    have hn : n % 16 < 16 := Nat.mod_lt _ (by decide)
    have hm : m % 16 < 16 := Nat.mod_lt _ (by decide)
    split at h
    · split at h
      · injection h with h
        exact hexDigit_inj n (by assumption) m (by assumption) h
      · have h1 := congrArg List.length h
        have h2 := List.length_pos_iff.2 (hex_ne_nil (m / 16))
        simp only [List.length_append, List.length_cons, List.length_nil] at h1
        omega
    · split at h
      · have h1 := congrArg List.length h
        have h2 := List.length_pos_iff.2 (hex_ne_nil (n / 16))
        simp only [List.length_append, List.length_cons, List.length_nil] at h1
        omega
      · obtain ⟨h1, h2⟩ := List.append_inj' h rfl
        injection h2 with h2
        have h3 := ih (n / 16) (by omega) _ h1
        have h4 := hexDigit_inj _ hn _ hm h2
        omega

theorem hex_plain (n : Nat) : ∀ x ∈ hex n, x ≠ 0x7d ∧ x ≠ 0x22 ∧ 0x20 ≤ x.toNat ∧ x.toNat ≠ 0x7f := by
  induction n using Nat.strongRecOn with
  | _ n ih =>
    intro x hx
    rw [hex] at hx
    split at hx
    · rw [List.mem_singleton] at hx; subst hx
      exact hexDigit_plain n (by assumption)
    · rcases List.mem_append.1 hx with h | h
      · exact ih (n / 16) (by omega) x h
      · rw [List.mem_singleton] at h; subst h
        exact hexDigit_plain _ (Nat.mod_lt _ (by decide))

/-- What comes before a byte that does not occur in it is determined. -/
theorem cancel_at {k : UInt8} {a b x y : Bytes} (ha : k ∉ a) (hb : k ∉ b)
    (h : a ++ k :: x = b ++ k :: y) : a = b ∧ x = y := by
  induction a generalizing b with
  | nil => cases b with
    | nil => simpa using h
    | cons c t =>
      simp only [List.nil_append, List.cons_append, List.cons.injEq] at h
      exact (hb (by simp [h.1])).elim
  | cons c t ih => cases b with
    | nil =>
      simp only [List.nil_append, List.cons_append, List.cons.injEq] at h
      exact (ha (by simp [h.1])).elim
    | cons d s =>
      simp only [List.cons_append, List.cons.injEq] at h
      obtain ⟨e1, e2⟩ := ih (fun hc => ha (by simp [hc])) (fun hc => hb (by simp [hc])) h.2
      rw [h.1, e1]; exact ⟨rfl, e2⟩

/-- Characters written with a backslash and one more. -/
def shortEscapes : List (Char × UInt8) :=
  [('"', 0x22), ('\\', 0x5c), ('\t', 0x74), ('\r', 0x72), ('\n', 0x6e), ('\x00', 0x30)]

theorem escapeChar_cases (T : Texts) (c : Char) :
    (escapeChar T c = String.utf8EncodeChar c ∧ c ≠ '"' ∧ c ≠ '\\' ∧ T.printable c = true) ∨
    (∃ k, (c, k) ∈ shortEscapes ∧ escapeChar T c = [0x5c, k]) ∨
    escapeChar T c = 0x5c :: 0x75 :: 0x7b :: (hex c.toNat ++ [0x7d]) := by
  unfold escapeChar
  split
  · exact .inr (.inl ⟨0x22, by subst_vars; decide, by decide +kernel⟩)
  split
  · exact .inr (.inl ⟨0x5c, by subst_vars; decide, by decide +kernel⟩)
  split
  · exact .inr (.inl ⟨0x74, by subst_vars; decide, by decide +kernel⟩)
  split
  · exact .inr (.inl ⟨0x72, by subst_vars; decide, by decide +kernel⟩)
  split
  · exact .inr (.inl ⟨0x6e, by subst_vars; decide, by decide +kernel⟩)
  split
  · rename_i h
    obtain ⟨rfl, -⟩ := h
    exact .inr (.inl ⟨0x30, by decide, by decide +kernel⟩)
  split
  · exact .inl ⟨rfl, by assumption, by assumption, by assumption⟩
  · refine .inr (.inr ?_)
    rw [show txt "\\u{" = [0x5c, 0x75, 0x7b] by decide +kernel, show txt "}" = [0x7d] by decide +kernel]
    rfl

theorem shortEscapes_inj : ∀ p ∈ shortEscapes, ∀ q ∈ shortEscapes, p.2 = q.2 → p.1 = q.1 := by decide
theorem shortEscapes_u : ∀ p ∈ shortEscapes, p.2 ≠ 0x75 := by decide

theorem escapeChar_cancel (T : Texts) {c d : Char} {r s : Bytes}
    (h : escapeChar T c ++ r = escapeChar T d ++ s) : c = d ∧ r = s := by
  have key : c = d → c = d ∧ r = s := by
    rintro rfl
    exact ⟨rfl, List.append_cancel_left h⟩
  have no : ∀ (c : Char) (x y : Bytes), c ≠ '\\' → String.utf8EncodeChar c ++ x ≠ 0x5c :: y := by
    intro c x y hc h
    have h1 := utf8EncodeChar_no (c := c) (k := 0x5c) (by decide)
      (fun he => hc (Char.toNat_inj.1 he))
    cases hu : String.utf8EncodeChar c with
    | nil => exact utf8EncodeChar_ne_nil c hu
    | cons a t =>
      rw [hu] at h h1
      injection h with h
      exact h1 (by simp [h])
  rcases escapeChar_cases T c with ⟨e1, -, n1, -⟩ | ⟨k, m1, e1⟩ | e1 <;>
    rcases escapeChar_cases T d with ⟨e2, -, n2, -⟩ | ⟨l, m2, e2⟩ | e2 <;> rw [e1, e2] at h
  · exact utf8EncodeChar_cancel h
  · exact (no c _ _ n1 h).elim
  · exact (no c _ _ n1 h).elim
  · exact (no d _ _ n2 h.symm).elim
  · injection h with _ h; injection h with h _
    exact key (shortEscapes_inj _ m1 _ m2 h)
  · injection h with _ h; injection h with h _
    exact (shortEscapes_u _ m1 h).elim
  · exact (no d _ _ n2 h.symm).elim
  · injection h with _ h; injection h with h _
    exact (shortEscapes_u _ m2 h.symm).elim
  · injection h with _ h; injection h with _ h; injection h with _ h
    have h : hex c.toNat ++ [0x7d] ++ r = hex d.toNat ++ [0x7d] ++ s := h
    rw [List.append_assoc, List.append_assoc] at h
    have h1 := (cancel_at (fun hm => (hex_plain _ _ hm).1 rfl) (fun hm => (hex_plain _ _ hm).1 rfl) h).1
    exact key (Char.toNat_inj.1 (hex_inj _ _ h1))

/-- A character within a quoted text is not taken for the closing quote. -/
theorem escapeChar_no_quote (T : Texts) (c : Char) (r s : Bytes) : escapeChar T c ++ r ≠ 0x22 :: s := by
  intro h
  rcases escapeChar_cases T c with ⟨e1, n1, -, -⟩ | ⟨k, m1, e1⟩ | e1 <;> rw [e1] at h
  · have h1 := utf8EncodeChar_no (c := c) (k := 0x22) (by decide) (fun he => n1 (Char.toNat_inj.1 he))
    cases hu : String.utf8EncodeChar c with
    | nil => exact utf8EncodeChar_ne_nil c hu
    | cons a t =>
      rw [hu] at h h1
      injection h with h
      exact h1 (by simp [h])
  · injection h with h; exact absurd h (by decide)
  · injection h with h; exact absurd h (by decide)

theorem escapes_cancel (T : Texts) : ∀ (a b : List Char) {x y : Bytes},
    a.flatMap (escapeChar T) ++ 0x22 :: x = b.flatMap (escapeChar T) ++ 0x22 :: y → a = b ∧ x = y
  | [], [], x, y, h => by simpa using h
  | [], d :: b, x, y, h => by
    rw [List.flatMap_nil, List.nil_append, List.flatMap_cons, List.append_assoc] at h
    exact (escapeChar_no_quote T d _ _ h.symm).elim
  | c :: a, [], x, y, h => by
    rw [List.flatMap_nil, List.nil_append, List.flatMap_cons, List.append_assoc] at h
    exact (escapeChar_no_quote T c _ _ h).elim
  | c :: a, d :: b, x, y, h => by
    rw [List.flatMap_cons, List.flatMap_cons, List.append_assoc, List.append_assoc] at h
    obtain ⟨rfl, h1⟩ := escapeChar_cancel T h
    obtain ⟨rfl, h2⟩ := escapes_cancel T a b h1
    exact ⟨rfl, h2⟩

theorem quote_txt : txt "\"" = [0x22] := by decide +kernel

/-- A quoted text ends where it ends. -/
theorem RStr.escaped_cancel (T : Texts) {a b : RStr} {x y : Bytes}
    (h : a.escaped T ++ x = b.escaped T ++ y) : a = b ∧ x = y := by
  unfold RStr.escaped at h
  simp only [quote_txt, List.append_assoc, List.cons_append, List.nil_append, List.cons.injEq,
    true_and] at h
  obtain ⟨h1, h2⟩ := escapes_cancel T _ _ h
  exact ⟨RStr.chars_inj h1, h2⟩

/-- Quotes within a quoted text follow a backslash. -/
theorem escapes_quote (T : Texts) : ∀ (a : List Char) (x y : Bytes),
    a.flatMap (escapeChar T) = x ++ 0x22 :: y → ∃ x', x = x' ++ [0x5c]
  | [], x, y, h => by simp at h
  | c :: a, x, y, h => by
    rw [List.flatMap_cons] at h
    rcases List.append_eq_append_iff.1 h with ⟨z, h1, h2⟩ | ⟨z, h1, h2⟩
    · obtain ⟨x', rfl⟩ := escapes_quote T a z y h2
      exact ⟨escapeChar T c ++ x', by rw [h1, List.append_assoc]⟩
    · cases z with
      | nil =>
        rw [List.nil_append] at h2
        cases a with
        | nil => simp at h2
        | cons d a =>
          rw [List.flatMap_cons] at h2
          exact (escapeChar_no_quote T d _ _ h2.symm).elim
      | cons q z =>
        injection h2 with h2 _
        subst h2
        rcases escapeChar_cases T c with ⟨e1, n1, -, -⟩ | ⟨k, m1, e1⟩ | e1 <;> rw [e1] at h1
        · exact (utf8EncodeChar_no (c := c) (k := 0x22) (by decide)
            (fun he => n1 (Char.toNat_inj.1 he)) (by rw [h1]; simp)).elim
        · cases x with
          | nil => injection h1 with h1; exact absurd h1 (by decide)
          | cons p x =>
            injection h1 with h1 h3
            subst h1
            cases x with
            | nil => exact ⟨[], rfl⟩
            | cons p' x =>
              injection h3 with _ h3
              exact (List.append_ne_nil_of_right_ne_nil _ (by simp) h3.symm).elim
        · have : (0x22 : UInt8) ∈ (0x5c : UInt8) :: 0x75 :: 0x7b :: (hex c.toNat ++ [0x7d]) := by
            rw [h1]; simp
          simp only [List.mem_cons, List.mem_append, List.not_mem_nil, or_false] at this
          rcases this with h | h | h | h | h
          · exact absurd h (by decide)
          · exact absurd h (by decide)
          · exact absurd h (by decide)
          · exact ((hex_plain _ _ h).2.1 rfl).elim
          · exact absurd h (by decide)

/-! ### Conditions and options -/

/-- The text of a condition other than `Custom`. -/
def ErrorCondition.name : ErrorCondition → String
  | .AmqpError v => "AmqpError(" ++ v.debug ++ ")"
  | .ConnectionError v => "ConnectionError(" ++ v.debug ++ ")"
  | .SessionError v => "SessionError(" ++ v.debug ++ ")"
  | .LinkError v => "LinkError(" ++ v.debug ++ ")"
  | .Custom _ => "Custom("

def knownConditions : List ErrorCondition :=
  [.AmqpError .InternalError, .AmqpError .NotFound, .AmqpError .UnauthorizedAccess,
   .AmqpError .DecodeError, .AmqpError .ResourceLimitExceeded, .AmqpError .NotAllowed,
   .AmqpError .InvalidField, .AmqpError .NotImplemented, .AmqpError .ResourceLocked,
   .AmqpError .PreconditionFailed, .AmqpError .ResourceDeleted, .AmqpError .IllegalState,
   .AmqpError .FrameSizeTooSmall, .ConnectionError .ConnectionForced,
   .ConnectionError .FramingError, .ConnectionError .Redirect, .SessionError .WindowViolation,
   .SessionError .ErrantLink, .SessionError .HandleInUse, .SessionError .UnattachedHandle,
   .LinkError .DetachForced, .LinkError .TransferLimitExceeded, .LinkError .MessageSizeExceeded,
   .LinkError .Redirect, .LinkError .Stolen]

theorem known_or_custom (c : ErrorCondition) : c ∈ knownConditions ∨ ∃ s, c = .Custom s := by
  cases c with
  | AmqpError v => left; cases v <;> decide
  | ConnectionError v => left; cases v <;> decide
  | SessionError v => left; cases v <;> decide
  | LinkError v => left; cases v <;> decide
  | Custom s => exact .inr ⟨s, rfl⟩

theorem known_debug : ∀ c ∈ knownConditions, c.debug = txt c.name ∧
    ¬ (txt "Custom(").isPrefixOf (txt c.name) ∧ ¬ (txt c.name).isPrefixOf (txt "Custom(") := by
  decide +kernel

theorem known_prefix : ∀ c ∈ knownConditions, ∀ d ∈ knownConditions,
    (txt c.name).isPrefixOf (txt d.name) = true → c = d := by
  decide +kernel

theorem isPrefixOf_append {a b x y : Bytes} (h : a ++ x = b ++ y) :
    a.isPrefixOf b = true ∨ b.isPrefixOf a = true := by
  rw [List.isPrefixOf_iff_prefix, List.isPrefixOf_iff_prefix]
  exact List.prefix_or_prefix_of_prefix (l₃ := a ++ x) ⟨x, rfl⟩ ⟨y, h.symm⟩

theorem known_cancel {c d : ErrorCondition} {x y : Bytes} (hc : c ∈ knownConditions)
    (hd : d ∈ knownConditions) (h : c.debug ++ x = d.debug ++ y) : c = d ∧ x = y := by
  have e : c = d := by
    rw [(known_debug c hc).1, (known_debug d hd).1] at h
    rcases isPrefixOf_append h with h | h
    · exact known_prefix c hc d hd h
    · exact (known_prefix d hd c hc h).symm
  subst e
  exact ⟨rfl, List.append_cancel_left h⟩

theorem known_ne_custom {c : ErrorCondition} {s : Symbol} {x y : Bytes} (hc : c ∈ knownConditions) :
    c.debug ++ x ≠ (ErrorCondition.Custom s).debug ++ y := by
  intro h
  obtain ⟨h1, h2, h3⟩ := known_debug c hc
  rw [h1, ErrorCondition.debug, List.append_assoc, List.append_assoc] at h
  rcases isPrefixOf_append h with h | h
  · exact h3 h
  · exact h2 h

theorem custom_debug (s : Symbol) : (ErrorCondition.Custom s).debug =
    txt "Custom(Symbol(B:\"" ++ (s.str.bytes ++ 0x22 :: [0x29, 0x29]) := by
  simp only [ErrorCondition.debug, Symbol.debug, RStr.debug, List.append_assoc, txt_append]
  simp only [← List.append_assoc, txt_append]
  rw [List.append_assoc, show ("\"" ++ ")" ++ ")" : String) = "\"))" by decide +kernel,
    show txt "\"))" = [0x22, 0x29, 0x29] by decide +kernel,
    show ("Custom(" ++ ("Symbol(" ++ "B:\"") : String) = "Custom(Symbol(B:\"" by decide +kernel,
    List.append_assoc]

theorem option_cancel {α : Type} (f : α → Bytes)
    (hf : ∀ a b x y, f a ++ x = f b ++ y → a = b ∧ x = y) {o p : Option α} {x y : Bytes}
    (h : debugOption f o ++ x = debugOption f p ++ y) : o = p ∧ x = y := by
  have e1 : txt "None" = 0x4e :: txt "one" := by decide +kernel
  have e2 : txt "Some(" = 0x53 :: txt "ome(" := by decide +kernel
  cases o with
  | none => cases p with
    | none => exact ⟨rfl, List.append_cancel_left h⟩
    | some b =>
      rw [debugOption, debugOption, e1, e2] at h
      injection h with h; exact absurd h (by decide)
  | some a => cases p with
    | none =>
      rw [debugOption, debugOption, e1, e2] at h
      injection h with h; exact absurd h (by decide)
    | some b =>
      simp only [debugOption, List.append_assoc] at h
      obtain ⟨rfl, h2⟩ := hf _ _ _ _ (List.append_cancel_left h)
      exact ⟨rfl, List.append_cancel_left h2⟩

end Amqp
