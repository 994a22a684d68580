import Verif.Proofs.DebugLines
import Verif.Proofs.DebugTells
import Verif.Props.Errors
import Verif.Props.Performatives
/-!
# C89: texts of errors of the protocol

Also C78 for the errors of frames.
-/
set_option autoImplicit false
namespace Amqp
open Dec

/-! ### The property -/

/-- **C89**: the text of an error tells its condition and its description, unless the
symbol of its condition contains double quotes. -/
theorem C89_condition_partial (T : Texts) (e f : Error) (he : e.condition.Tame)
    (hf : f.condition.Tame) (h : e.text T = f.text T) :
    e.condition = f.condition ∧ e.description = f.description := by
  unfold Error.text at h
  simp only [List.append_assoc] at h
  have h := List.append_cancel_left h
  have key : e.condition = f.condition →
      e.condition = f.condition ∧ e.description = f.description := by
    intro hc
    rw [hc] at h
    have h := List.append_cancel_left (List.append_cancel_left h)
    exact ⟨hc, (option_cancel _ (fun _ _ _ _ => RStr.escaped_cancel T) h).1⟩
  rcases known_or_custom e.condition with h1 | ⟨s, h1⟩ <;>
    rcases known_or_custom f.condition with h2 | ⟨t, h2⟩
  · exact key (known_cancel h1 h2 h).1
  · rw [h2] at h; exact (known_ne_custom h1 h).elim
  · rw [h1] at h; exact (known_ne_custom h2 h.symm).elim
  · rw [h1, h2, custom_debug, custom_debug] at h
    simp only [List.append_assoc] at h
    have h := List.append_cancel_left h
    obtain ⟨h3, -⟩ := cancel_at (he s h1) (hf t h2) h
    obtain ⟨s⟩ := s; obtain ⟨t⟩ := t
    exact key (by rw [h1, h2, show s = t from RStr.ext h3])

/-- **C89**: the text of an error without further information tells the whole error,
whatever its condition. -/
theorem C89_identifies_partial (T : Texts) (e f : Error) (he : e.info = none) (hf : f.info = none)
    (h : e.text T = f.text T) : e = f := by
  obtain ⟨c, d, i⟩ := e
  obtain ⟨c', d', i'⟩ := f
  dsimp only at he hf
  subst he; subst hf
  unfold Error.text at h
  dsimp only at h
  have h := List.append_cancel_right (List.append_cancel_right (List.append_cancel_right h))
  simp only [List.append_assoc] at h
  have h := List.append_cancel_left h
  have key : c = c' → (⟨c, d, none⟩ : Error) = ⟨c', d', none⟩ := by
    intro hc
    rw [hc] at h
    have h := List.append_cancel_left (List.append_cancel_left h)
    have h : debugOption (RStr.escaped T) d ++ [] = debugOption (RStr.escaped T) d' ++ [] := by
      rw [h]
    rw [hc, (option_cancel _ (fun _ _ _ _ => RStr.escaped_cancel T) h).1]
  rcases known_or_custom c with h1 | ⟨s, rfl⟩ <;> rcases known_or_custom c' with h2 | ⟨t, rfl⟩
  · exact key (known_cancel h1 h2 h).1
  · exact (known_ne_custom h1 h).elim
  · exact (known_ne_custom h2 h.symm).elim
  · rw [custom_debug, custom_debug] at h
    simp only [List.append_assoc] at h
    have h := List.append_cancel_left h
    -- what follows the symbol
    have aux : ∀ (d d' : Option ByteStr) (z : Bytes), z ≠ [] →
        0x22 :: [0x29, 0x29] ++ (txt ", description: " ++ debugOption (RStr.escaped T) d) ≠
        z ++ (0x22 :: [0x29, 0x29] ++ (txt ", description: " ++ debugOption (RStr.escaped T) d')) := by
      intro d d' z hz h
      have hz' := List.length_pos_iff.2 hz
      have hl := congrArg List.length h
      simp only [List.length_append] at hl
      have n4 : (txt "None").length = 4 := by decide +kernel
      -- the second description is the end of the first
      have hs : ∃ w, w ≠ [] ∧ debugOption (RStr.escaped T) d = w ++ debugOption (RStr.escaped T) d' := by
        have h1 : debugOption (RStr.escaped T) d <:+ 0x22 :: [0x29, 0x29] ++
            (txt ", description: " ++ debugOption (RStr.escaped T) d) :=
          ⟨0x22 :: [0x29, 0x29] ++ txt ", description: ", by simp only [List.append_assoc]⟩
        have h2 : debugOption (RStr.escaped T) d' <:+ 0x22 :: [0x29, 0x29] ++
            (txt ", description: " ++ debugOption (RStr.escaped T) d) :=
          ⟨z ++ (0x22 :: [0x29, 0x29] ++ txt ", description: "), by rw [h]; simp only [List.append_assoc]⟩
        obtain ⟨w, hw⟩ := List.suffix_of_suffix_length_le h2 h1 (by omega)
        refine ⟨w, ?_, hw.symm⟩
        rintro rfl
        have := congrArg List.length hw
        simp only [List.nil_append] at this
        omega
      obtain ⟨w, hw, hs⟩ := hs
      have hwl := List.length_pos_iff.2 hw
      cases d with
      | none =>
        have := congrArg List.length hs
        cases d' with
        | none => simp only [debugOption, List.length_append] at this; omega
        | some q =>
          have n5 : (txt "Some(").length = 5 := by decide +kernel
          simp only [debugOption, List.length_append, n4, n5] at this; omega
      | some p => cases d' with
        | none =>
          have h3 := congrArg List.getLast? hs
          rw [debugOption, debugOption, List.getLast?_append (l' := txt ")"),
            List.getLast?_append (l' := txt "None"),
            show (txt ")").getLast? = some 0x29 by decide +kernel,
            show (txt "None").getLast? = some 0x65 by decide +kernel] at h3
          simp only [Option.some_or] at h3
          exact absurd h3 (by decide)
        | some q =>
          simp only [debugOption, RStr.escaped] at hs
          have e : ∀ x : Bytes, txt "Some(" ++ (txt "\"" ++ x ++ txt "\"") ++ txt ")" =
              txt "Some(\"" ++ x ++ txt "\")" := by
            intro x
            rw [show txt "Some(\"" = txt "Some(" ++ txt "\"" by decide +kernel,
              show txt "\")" = txt "\"" ++ txt ")" by decide +kernel]
            simp only [List.append_assoc]
          rw [e, e, ← List.append_assoc, ← List.append_assoc] at hs
          have hs := List.append_cancel_right hs
          have no : ∀ x y : Bytes, (RStr.chars p).flatMap (escapeChar T) ≠ x ++ (txt "Some(\"" ++ y) := by
            intro x y h
            rw [show txt "Some(\"" = txt "Some(" ++ [0x22] by decide +kernel,
              List.append_assoc, ← List.append_assoc] at h
            obtain ⟨x', hx'⟩ := escapes_quote T _ (x ++ txt "Some(") y h
            have := congrArg List.getLast? hx'
            rw [List.getLast?_append, List.getLast?_append,
              show (txt "Some(").getLast? = some 0x28 by decide +kernel] at this
            simp only [Option.some_or, List.getLast?_singleton] at this
            exact absurd this (by decide)
          rw [List.append_assoc] at hs
          rcases List.append_eq_append_iff.1 hs with ⟨a, h4, h5⟩ | ⟨a, h4, h5⟩
          · exact no _ _ h5
          · rw [show txt "Some(\"" = [0x53, 0x6f, 0x6d, 0x65, 0x28, 0x22] by decide +kernel] at h4 h5 no
            have ha : a = List.drop w.length [0x53, 0x6f, 0x6d, 0x65, 0x28, 0x22] := by rw [h4]; simp
            have hc : w.length = 1 ∨ w.length = 2 ∨ w.length = 3 ∨ w.length = 4 ∨ w.length = 5 ∨
              6 ≤ w.length := by omega
            rcases hc with hc | hc | hc | hc | hc | hc
            · rw [hc] at ha; subst ha; simp at h5
            · rw [hc] at ha; subst ha; simp at h5
            · rw [hc] at ha; subst ha; simp at h5
            · rw [hc] at ha; subst ha; simp at h5
            · rw [hc] at ha; subst ha; simp at h5
            · rw [List.drop_eq_nil_of_le (by simpa using hc)] at ha
              subst ha
              exact no [] _ h5.symm
    rcases List.append_eq_append_iff.1 h with ⟨z, h1, h2⟩ | ⟨z, h1, h2⟩
    · by_cases hz : z = []
      · subst hz
        obtain ⟨s⟩ := s; obtain ⟨t⟩ := t
        exact key (by rw [show s = t from (RStr.ext (h1.trans (List.append_nil _))).symm])
      · exact (aux d d' z hz h2).elim
    · by_cases hz : z = []
      · subst hz
        obtain ⟨s⟩ := s; obtain ⟨t⟩ := t
        exact key (by rw [show s = t from RStr.ext (h1.trans (List.append_nil _))])
      · exact (aux d' d z hz h2).elim

/-- **C89**: the text of an error tells the whole error, if no symbol or string in it
contains double quotes and no number in it is NaN. -/
theorem C89_whole_partial {T : Texts} (hT : T.Tells) (e f : Error)
    (he : ∀ t ∈ e.texts, 0x22 ∉ t) (hf : ∀ t ∈ f.texts, 0x22 ∉ t) (hn : e.Numbers)
    (h : e.text T = f.text T) : e = f := by
  obtain ⟨he1, he2⟩ := quiet_append.1 he
  obtain ⟨hf1, hf2⟩ := quiet_append.1 hf
  have tame : ∀ c : ErrorCondition, Quiet c.texts → c.Tame := by
    intro c hc s hs
    subst hs
    exact hc _ (List.mem_singleton.2 rfl)
  obtain ⟨h1, h2⟩ := C89_condition_partial T e f (tame _ he1) (tame _ hf1) h
  obtain ⟨c, d, i⟩ := e
  obtain ⟨c', d', j⟩ := f
  dsimp only at h1 h2
  subst h1; subst h2
  unfold Error.text at h
  simp only [List.append_assoc] at h
  have h := List.append_cancel_left (List.append_cancel_left (List.append_cancel_left
    (List.append_cancel_left (List.append_cancel_left h))))
  have e1 : txt "None" = 0x4e :: txt "one" := by decide +kernel
  have e2 : txt "Some(" = 0x53 :: txt "ome(" := by decide +kernel
  have e3 : txt "}" = [0x7d] := by decide +kernel
  cases i with
  | none => cases j with
    | none => rfl
    | some j =>
      simp only [debugOption, e1, e2, List.cons_append] at h
      injection h with h _; exact absurd h (by decide)
  | some i => cases j with
    | none =>
      simp only [debugOption, e1, e2, List.cons_append] at h
      injection h with h _; exact absurd h (by decide)
    | some j =>
      simp only [debugOption, List.append_assoc, e3, List.cons_append, List.nil_append] at h
      obtain ⟨h1, -⟩ := fields_cancel hT i.entries j.entries true _ _ he2 hf2 (hn i rfl)
        (List.append_cancel_left (List.append_cancel_left h))
      obtain ⟨i⟩ := i; obtain ⟨j⟩ := j
      rw [show i = j from h1]

/-- **C89**: the text of an error is a single line exactly if the symbols and strings in
it, its description aside, are. -/
theorem C89_one_line_iff_partial {T : Texts} (hT : T.Plain) (e : Error) :
    OneLine (e.text T) ↔ ∀ t ∈ e.texts, OneLine t := by
  have h1 : OneLine e.condition.debug ↔ ∀ t ∈ e.condition.texts, OneLine t := by
    rcases known_or_custom e.condition with h | ⟨s, h⟩
    · have hk := known_line _ h
      have hn : e.condition.texts = [] := by
        cases hc : e.condition with
        | Custom s => rw [hc] at h; revert h; simp [knownConditions]
        | _ => rfl
      rw [hn]
      exact ⟨fun _ t ht => (List.not_mem_nil ht).elim, fun _ => hk⟩
    · rw [h]
      simp only [ErrorCondition.debug, ErrorCondition.texts, List.mem_singleton, forall_eq]
      exact (OneLine.wrap (.lit _ (by decide +kernel)) (.lit _ (by decide +kernel))).trans s.debug_line
  have h2 : OneLine (debugOption (RStr.escaped T) e.description) := by
    cases e.description with
    | none => exact .lit _ (by decide +kernel)
    | some s =>
      exact (OneLine.wrap (.lit _ (by decide +kernel)) (.lit _ (by decide +kernel))).2
        (oneLine_escaped hT s)
  have h3 : OneLine (debugOption
        (fun m : Fields => txt "{" ++ debugFields T true m.entries ++ txt "}") e.info) ↔
      ∀ t ∈ e.info.elim [] Fields.texts, OneLine t := by
    cases e.info with
    | none =>
      exact ⟨fun _ t ht => (List.not_mem_nil ht).elim, fun _ => OneLine.lit _ (by decide +kernel)⟩
    | some m =>
      exact (OneLine.wrap (.lit _ (by decide +kernel)) (.lit _ (by decide +kernel))).trans
        ((OneLine.wrap (.lit _ (by decide +kernel)) (.lit _ (by decide +kernel))).trans
          (debugFields_line hT true m.entries))
  unfold Error.text Error.texts
  simp only [OneLine.append_iff]
  rw [forall_append, ← h1, ← h3]
  exact ⟨fun h => ⟨h.1.1.1.1.1.2, h.1.2⟩, fun h => ⟨⟨⟨⟨⟨⟨.lit _ (by decide +kernel), h.1⟩,
    .lit _ (by decide +kernel)⟩, h2⟩, .lit _ (by decide +kernel)⟩, h.2⟩, .lit _ (by decide +kernel)⟩⟩

/-- **C89**, in full: errors with the same text are the same, the same errors have the
same text, and texts are single lines. -/
def C89_statement : Prop :=
  (∀ (T : Texts) (e f : Error), RoundTrips debugEnv e → RoundTrips debugEnv f →
    e.text T = f.text T → e = f) ∧
  (∀ a b : StrRepr, a.eq b = true → a.debug = b.debug) ∧
  (∀ (T : Texts) (e : Error), T.Plain → RoundTrips debugEnv e → OneLine (e.text T))

/-- What an error with a symbol and a key of its sender's choice shows. -/
theorem text_custom (T : Texts) (a k : String) :
    (⟨.Custom ⟨.lit a⟩, none, some ⟨[(⟨.lit k⟩, .null)]⟩⟩ : Error).text T =
      txt ("Error { condition: Custom(Symbol(B:\"" ++ a ++
        "\")), description: None, info: Some({Symbol(B:\"" ++ k ++ "\"): Null}) }") := by
  have hl : ∀ s : String, (RStr.lit s).bytes = txt s := fun _ => rfl
  simp only [Error.text, ErrorCondition.debug, Symbol.debug, RStr.debug, debugOption, debugFields,
    Variant.debug, hl, ← txt_append, List.append_assoc, if_true, List.nil_append]
  rw [show txt "Error { condition: Custom(Symbol(B:\"" =
      txt "Error { condition: " ++ (txt "Custom(" ++ (txt "Symbol(" ++ txt "B:\"")) by decide +kernel,
    show txt "\")), description: None, info: Some({Symbol(B:\"" =
      txt "\"" ++ (txt ")" ++ (txt ")" ++ (txt ", description: " ++ (txt "None" ++ (txt ", info: " ++
        (txt "Some(" ++ (txt "{" ++ (txt "Symbol(" ++ txt "B:\"")))))))) by decide +kernel,
    show txt "\"): Null}) }" = txt "\"" ++ (txt ")" ++ (txt ": " ++ (txt "Null" ++ (txt "}" ++
        (txt ")" ++ txt " }"))))) by decide +kernel]
  simp only [List.append_assoc]

/-- **C89** fails: the symbol of a condition and the keys of the further information are
not escaped, so that what belongs to which is not to be seen. -/
theorem C89_violated_forged (T : Texts) (a x y : String) :
    (⟨.Custom ⟨.lit a⟩, none, some ⟨[(⟨.lit (x ++
        "\")), description: None, info: Some({Symbol(B:\"" ++ y)⟩, .null)]⟩⟩ : Error).text T =
    (⟨.Custom ⟨.lit (a ++ "\")), description: None, info: Some({Symbol(B:\"" ++ x)⟩, none,
      some ⟨[(⟨.lit y⟩, .null)]⟩⟩ : Error).text T := by
  rw [text_custom, text_custom]
  simp only [String.append_assoc]

/-- **C89** fails: equal texts are shown with how they are held. -/
theorem C89_violated_representation (s : RStr) :
    (StrRepr.ByteStr s).eq (.Static s) = true ∧ (StrRepr.ByteStr s).debug ≠ (StrRepr.Static s).debug := by
  refine ⟨by simp [StrRepr.eq], fun h => ?_⟩
  rw [StrRepr.debug, StrRepr.debug, show txt "B:\"" = 0x42 :: txt ":\"" by decide +kernel,
    show txt "S:\"" = 0x53 :: txt ":\"" by decide +kernel] at h
  injection h with h
  exact absurd h (by decide)

/-- **C89** fails: whatever symbol, line breaks included, a peer sends as the condition of an
error appears in its text as it was sent. -/
theorem C89_violated_quoted (T : Texts) (s : Symbol) (d : Option ByteStr) (i : Option Fields) :
    ∃ before after, (⟨.Custom s, d, i⟩ : Error).text T = before ++ s.str.bytes ++ after ∧
      before = txt "Error { condition: Custom(Symbol(B:\"" := by
  refine ⟨_, ?_, ?_, rfl⟩
  rotate_left
  · unfold Error.text
    dsimp only
    rw [custom_debug, show txt "Error { condition: Custom(Symbol(B:\"" =
      txt "Error { condition: " ++ txt "Custom(Symbol(B:\"" by decide +kernel]
    simp only [List.append_assoc]
    rfl

def forged1 : Error :=
  ⟨.Custom ⟨.lit "a"⟩, none, some ⟨[(⟨.lit ("x" ++
    "\")), description: None, info: Some({Symbol(B:\"" ++ "y")⟩, .null)]⟩⟩
def forged2 : Error :=
  ⟨.Custom ⟨.lit ("a" ++ "\")), description: None, info: Some({Symbol(B:\"" ++ "x")⟩, none,
    some ⟨[(⟨.lit "y"⟩, .null)]⟩⟩
def twoLines : Error := ⟨.Custom ⟨.lit "a\nb"⟩, none, none⟩

/-- Texts in which only what matters here is told. -/
def someTexts : Texts where
  printable c := 0x20 ≤ c.toNat && c.toNat < 0x7f
  nul := true
  f32 x := num x.bits.toNat
  f64 x := num x.bits.toNat
  char c := num c.toNat
  time t := signedText t.secs
  uuid _ := []
  bytes b := num b.data.length

theorem someTexts_plain : someTexts.Plain where
  printable c h := by
    have h : (0x20 ≤ c.toNat && decide (c.toNat < 0x7f)) = true := h
    simp only [Bool.and_eq_true, decide_eq_true_eq] at h
    omega
  f32 _ := OneLine.num _
  f64 _ := OneLine.num _
  char _ := OneLine.num _
  time _ := oneLine_signed _
  uuid _ := oneLine_nil
  bytes _ := OneLine.num _

theorem info_sent (k : RStr) (hk : k.bytes.length < 2 ^ 16) :
    RoundTrips debugEnv (some ⟨[(⟨k⟩, .null)]⟩ : Option Fields) := by
  refine roundTrips_some (LawfulCodec.rt debugEnv (⟨[(⟨k⟩, .null)]⟩ : Fields) ⟨?_, ?_, ?_⟩)
  · intro e he
    rw [List.mem_singleton] at he
    subst he
    exact ⟨LawfulCodec.rt debugEnv (⟨k⟩ : Symbol) (show _ < _ by show k.bytes.length < _; omega), rfl,
      fun _ => rfl⟩
  · exact .cons (fun e he => (List.not_mem_nil he).elim) .nil
  · have h1 : size (⟨k⟩ : Symbol) ≤ k.bytes.length + 5 := by
      show varSize k.bytes.length ≤ _
      unfold varSize
      split <;> omega
    have h2 : size Variant.null = 1 := rfl
    simp only [mapContentSize, h2]
    omega

section
set_option maxRecDepth 8000
theorem forged1_sent : RoundTrips debugEnv forged1 :=
  C21_error _ _ (by decide +kernel)
    (LawfulCodec.rt debugEnv (ErrorCondition.Custom ⟨.lit "a"⟩)
      ⟨show _ < _ by decide, fun s h => by injection h with h; subst h; decide +kernel⟩)
    (info_sent _ (by decide +kernel))
theorem forged2_sent : RoundTrips debugEnv forged2 :=
  C21_error _ _ (by decide +kernel)
    (LawfulCodec.rt debugEnv (ErrorCondition.Custom
        ⟨.lit ("a" ++ "\")), description: None, info: Some({Symbol(B:\"" ++ "x")⟩)
      ⟨show _ < _ by decide, fun s h => by injection h with h; subst h; decide +kernel⟩)
    (info_sent _ (by decide +kernel))
theorem twoLines_sent : RoundTrips debugEnv twoLines :=
  C21_error _ _ (by decide +kernel)
    (LawfulCodec.rt debugEnv (ErrorCondition.Custom ⟨.lit "a\nb"⟩)
      ⟨show _ < _ by decide, fun s h => by injection h with h; subst h; decide +kernel⟩)
    (fun _ => rfl)
end

/-- **C89** fails as stated, in each of its parts. -/
theorem C89_violated :
    (¬ ∀ (T : Texts) (e f : Error), RoundTrips debugEnv e → RoundTrips debugEnv f →
      e.text T = f.text T → e = f) ∧
    (¬ ∀ a b : StrRepr, a.eq b = true → a.debug = b.debug) ∧
    (¬ ∀ (T : Texts) (e : Error), T.Plain → RoundTrips debugEnv e → OneLine (e.text T)) ∧
    ¬ C89_statement := by
  have h1 : ¬ ∀ (T : Texts) (e f : Error), RoundTrips debugEnv e → RoundTrips debugEnv f →
      e.text T = f.text T → e = f := fun h => by
    have := h someTexts _ _ forged1_sent forged2_sent (C89_violated_forged someTexts "a" "x" "y")
    have := congrArg Error.condition this
    revert this
    decide +kernel
  have h2 : ¬ ∀ a b : StrRepr, a.eq b = true → a.debug = b.debug := fun h =>
    (C89_violated_representation (.lit "a")).2 (h _ _ (C89_violated_representation (.lit "a")).1)
  refine ⟨h1, h2, fun h => ?_, fun h => h1 h.1⟩
  have := (C89_one_line_iff_partial someTexts_plain twoLines).1
    (h someTexts twoLines someTexts_plain twoLines_sent)
  exact absurd (this (RStr.lit "a\nb").bytes (by simp [Error.texts, ErrorCondition.texts, twoLines]) 10
    (by decide +kernel)) (by decide)

/-! ### C78 for frames and messages -/

theorem oneLine_of_tables {fields : List (String × Nat)} {options : List (String × Options)}
    (hf : ∀ p ∈ fields, plainText p.1 = true) (ho : ∀ p ∈ options, plainText p.1 = true)
    {j : Bytes} {e : ParseError} (h : Explains fields options j e) :
    OneLine e.text ↔ ∀ s, e = .invalidDescriptor (.symbol s) → OneLine s.str.bytes := by
  refine (C78_one_line_iff_partial e).trans ?_
  cases e with
  | invalidDescriptor d => cases d with
    | symbol s =>
      refine ⟨fun h t ht => ?_, fun h => h s rfl⟩
      injection ht with ht; injection ht with ht; subst ht; exact h
    | ulong v => exact ⟨fun _ s hs => (by injection hs with hs; cases hs), fun _ => trivial⟩
  | requiredFieldOmitted n =>
    obtain ⟨k, m, hm, -⟩ := h
    exact ⟨fun _ s hs => (by cases hs), fun _ => OneLine.lit n (hf _ hm)⟩
  | unknownEnumOption n =>
    obtain ⟨o, hm, -⟩ := h
    exact ⟨fun _ s hs => (by cases hs), fun _ => OneLine.lit n (ho _ hm)⟩
  | _ => exact ⟨fun _ s hs => (by cases hs), fun _ => trivial⟩

theorem oneLine_of_tables_frame {fields : List (String × Nat)} {options : List (String × Options)}
    (hf : ∀ p ∈ fields, plainText p.1 = true) (ho : ∀ p ∈ options, plainText p.1 = true)
    {j : Bytes} {type : UInt8} {e : ParseError} (h : ExplainsFrame type fields options j e) :
    OneLine e.text ↔ ∀ s, e = .invalidDescriptor (.symbol s) → OneLine s.str.bytes := by
  cases e with
  | invalidSize =>
    exact (C78_one_line_iff_partial _).trans ⟨fun _ s hs => (by cases hs), fun _ => trivial⟩
  | unexpectedFrameType t =>
    exact (C78_one_line_iff_partial _).trans ⟨fun _ s hs => (by cases hs), fun _ => trivial⟩
  | incomplete n => exact oneLine_of_tables (j := j) (e := .incomplete n) hf ho h
  | invalidFormatCode n => exact oneLine_of_tables (e := .invalidFormatCode n) hf ho h
  | invalidChar n => exact oneLine_of_tables (e := .invalidChar n) hf ho h
  | invalidDescriptor n => exact oneLine_of_tables (e := .invalidDescriptor n) hf ho h
  | requiredFieldOmitted n => exact oneLine_of_tables (e := .requiredFieldOmitted n) hf ho h
  | unknownEnumOption n => exact oneLine_of_tables (e := .unknownEnumOption n) hf ho h
  | utf8Error n => exact oneLine_of_tables (e := .utf8Error n) hf ho h

/-- **C78**: the text of an error of a frame, SASL frame or message is a single line,
unless it is about an unknown descriptor that is not. -/
theorem C78_received_partial (env : Env) (order : StringVariantMap → List (Str × Variant)) (i : Bytes)
    (e : ParseError)
    (h : AmqpFrame.decode env i = .err e ∨ SaslFrame.decode env i = .err e ∨
      InMessage.decode env i = .err e ∨ OutMessage.decode env order i = .err e) :
    OneLine e.text ↔ ∀ s, e = .invalidDescriptor (.symbol s) → OneLine s.str.bytes := by
  rcases h with h | h | h | h
  · exact oneLine_of_tables_frame (by decide +kernel) (by decide +kernel) ((C69_frames env i e).2.1 h)
  · exact oneLine_of_tables_frame (by decide +kernel) (by decide +kernel) ((C69_frames env i e).2.2 h)
  · exact oneLine_of_tables (by decide) (by decide) ((C69_messages env order i e).1 h)
  · exact oneLine_of_tables (by decide) (by decide) ((C69_messages env order i e).2 h)

/-! ### Examples -/

example (T : Texts) : (⟨.AmqpError .NotFound, none, none⟩ : Error).text T =
    txt "Error { condition: AmqpError(NotFound), description: None, info: None }" := by
  simp only [Error.text, debugOption]
  decide +kernel
example : (⟨.Custom ⟨.lit "a:b"⟩, some (.lit "no \"such\" thing\n"), none⟩ : Error).text someTexts =
    txt "Error { condition: Custom(Symbol(B:\"a:b\")), description: Some(\"no \\\"such\\\" thing\\n\"), info: None }" := by
  simp only [Error.text, debugOption, RStr.escaped, RStr.chars_lit]
  decide +kernel
/-- The text of an error with a quote in its condition, and one with it in its description. -/
example (T : Texts) : (⟨.Custom ⟨.lit "a\")), description: None"⟩, none, none⟩ : Error).text T ≠
    (⟨.Custom ⟨.lit "a"⟩, some (.lit "None"), none⟩ : Error).text T := fun h => by
  have := congrArg Error.description (C89_identifies_partial T _ _ rfl rfl h)
  cases this
/-- Texts that tell what they are about. -/
def fullTexts : Texts where
  printable c := 0x20 ≤ c.toNat && c.toNat < 0x7f
  nul := true
  f32 x := num x.bits.toNat
  f64 x := num x.bits.toNat
  char c := num c.toNat
  time t := signedText t.secs ++ 0x29 :: num t.nanos
  uuid u := u.bytes
  bytes b := num b.data.length ++ 0x29 :: b.data
theorem fullTexts_tells : fullTexts.Tells where
  f32 a b x y h := by
    obtain ⟨h1, h2⟩ := num_closes _ _ _ _ h
    obtain ⟨a⟩ := a; obtain ⟨b⟩ := b
    exact ⟨.inl (by rw [show a = b from UInt32.toNat_inj.1 h1]), h2⟩
  f64 a b x y h := by
    obtain ⟨h1, h2⟩ := num_closes _ _ _ _ h
    obtain ⟨a⟩ := a; obtain ⟨b⟩ := b
    exact ⟨.inl (by rw [show a = b from UInt64.toNat_inj.1 h1]), h2⟩
  char a b x y h := by
    obtain ⟨h1, h2⟩ := num_closes _ _ _ _ h
    exact ⟨Char.toNat_inj.1 h1, h2⟩
  time a b x y h := by
    simp only [fullTexts, List.append_assoc, List.cons_append] at h
    obtain ⟨h1, h2⟩ := signed_closes _ _ _ _ h
    obtain ⟨h3, h4⟩ := num_closes _ _ _ _ h2
    obtain ⟨s, n, _⟩ := a; obtain ⟨s', n', _⟩ := b
    dsimp only at h1 h3
    subst h1; subst h3
    exact ⟨rfl, h4⟩
  uuid a b x y h := by
    obtain ⟨h1, h2⟩ := List.append_inj h (a.len.trans b.len.symm)
    obtain ⟨a, _⟩ := a; obtain ⟨b, _⟩ := b
    dsimp only [fullTexts] at h1
    subst h1
    injection h2 with _ h2
    exact ⟨rfl, h2⟩
  bytes a b x y h := by
    simp only [fullTexts, List.append_assoc, List.cons_append] at h
    obtain ⟨h1, h2⟩ := num_closes _ _ _ _ h
    obtain ⟨h3, h4⟩ := List.append_inj h2 h1
    obtain ⟨a⟩ := a; obtain ⟨b⟩ := b
    dsimp only at h3
    subst h3
    injection h4 with _ h4
    exact ⟨rfl, h4⟩
/-- Two errors that differ only deep in what they hold. -/
example : (⟨.Custom ⟨.lit "a:b"⟩, none, some ⟨[(⟨.lit "k"⟩, .list [.int (-1), .string (.lit "x, y")])]⟩⟩ :
      Error).text fullTexts ≠
    (⟨.Custom ⟨.lit "a:b"⟩, none, some ⟨[(⟨.lit "k"⟩, .list [.int 1, .string (.lit "x, y")])]⟩⟩ :
      Error).text fullTexts := fun h => by
  have := congrArg Error.info (C89_whole_partial fullTexts_tells _ _
    (by decide +kernel) (by decide +kernel)
    (by intro m hm p hp
        injection hm with hm
        subst hm
        rw [List.mem_singleton] at hp
        subst hp
        simp [Variant.Numbers, itemNumbers]) h)
  revert this
  simp
example : OneLine ((⟨.AmqpError .NotFound, some (.lit "a\nb"), none⟩ : Error).text someTexts) :=
  (C89_one_line_iff_partial someTexts_plain _).2 (by
    intro t ht; simp [Error.texts, ErrorCondition.texts] at ht)
example : OneLine (ParseError.requiredFieldOmitted "container_id").text :=
  (C78_received_partial debugEnv (fun m => m.entries) [2, 0, 0, 0, 0, 0x53, 0x10, 0x45] _
    (.inl rfl)).2 (fun s h => by cases h)

example (T : Texts) (f : Error) (hf : f.condition.Tame)
    (h : (⟨.AmqpError .NotFound, some (.lit "x"), none⟩ : Error).text T = f.text T) :
    f.description = some (.lit "x") :=
  (C89_condition_partial T _ f (fun _ h => by cases h) hf h).2.symm

end Amqp
