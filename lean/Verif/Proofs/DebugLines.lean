import Verif.Proofs.DebugText
import Verif.Spec.ErrorText
/-!
# Texts of errors of the protocol as lines: lemmas
-/
set_option autoImplicit false
namespace Amqp

/-! ### Lines -/

theorem OneLine.lit (s : String) (h : (txt s).all (fun x => 0x20 ≤ x.toNat && x.toNat != 0x7f) = true) :
    OneLine (txt s) := by
  intro x hx
  have := List.all_eq_true.1 h x hx
  simpa using this

theorem OneLine.wrap {a b x : Bytes} (ha : OneLine a) (hb : OneLine b) :
    OneLine (a ++ x ++ b) ↔ OneLine x := by
  rw [OneLine.append_iff, OneLine.append_iff]
  exact ⟨fun h => h.1.2, fun h => ⟨⟨ha, h⟩, hb⟩⟩

/-- No control characters. -/
def plainText (s : String) : Bool := (txt s).all fun x => 0x20 ≤ x.toNat && x.toNat != 0x7f

theorem OneLine.wrapT {a b : String} {x : Bytes} (ha : plainText a = true) (hb : plainText b = true) :
    OneLine (txt a ++ x ++ txt b) ↔ OneLine x :=
  OneLine.wrap (.lit _ ha) (.lit _ hb)

/-- std and the other crates write no control characters. -/
structure Texts.Plain (T : Texts) : Prop where
  printable : ∀ c, T.printable c = true → 0x20 ≤ c.toNat ∧ c.toNat ≠ 0x7f
  f32 : ∀ x, OneLine (T.f32 x)
  f64 : ∀ x, OneLine (T.f64 x)
  char : ∀ x, OneLine (T.char x)
  time : ∀ x, OneLine (T.time x)
  uuid : ∀ x, OneLine (T.uuid x)
  bytes : ∀ x, OneLine (T.bytes x)

theorem oneLine_char (c : Char) (h1 : 0x20 ≤ c.toNat) (h2 : c.toNat ≠ 0x7f) :
    OneLine (String.utf8EncodeChar c) := by
  have hv := char_toNat_valid c
  intro x hx
  rw [utf8EncodeChar_eq] at hx
  generalize c.toNat = n at *
  have key : ∀ y : Nat, x = UInt8.ofNat y → y < 256 → x.toNat = y := by
    intro y h hy
    rw [h, UInt8.toNat_ofNat']; omega
  split at hx
  · simp only [List.mem_singleton] at hx
    have := key _ hx (by omega); omega
  split at hx
  · simp only [List.mem_cons, List.not_mem_nil, or_false] at hx
    rcases hx with h | h <;> (have := key _ h (by omega); omega)
  split at hx
  · simp only [List.mem_cons, List.not_mem_nil, or_false] at hx
    rcases hx with h | h | h <;> (have := key _ h (by omega); omega)
  · simp only [List.mem_cons, List.not_mem_nil, or_false] at hx
    rcases hx with h | h | h | h <;> (have := key _ h (by omega); omega)

theorem oneLine_escaped {T : Texts} (hT : T.Plain) (s : RStr) : OneLine (s.escaped T) := by
  unfold RStr.escaped
  refine (OneLine.wrap (.lit _ (by decide +kernel)) (.lit _ (by decide +kernel))).2 ?_
  intro x hx
  obtain ⟨c, -, hx⟩ := List.mem_flatMap.1 hx
  rcases escapeChar_cases T c with ⟨e1, -, -, n1⟩ | ⟨k, m1, e1⟩ | e1 <;> rw [e1] at hx
  · exact oneLine_char c (hT.printable c n1).1 (hT.printable c n1).2 x hx
  · have : ∀ p ∈ shortEscapes, 0x20 ≤ p.2.toNat ∧ p.2.toNat ≠ 0x7f := by decide
    simp only [List.mem_cons, List.not_mem_nil, or_false] at hx
    rcases hx with rfl | rfl
    · decide
    · exact this _ m1
  · simp only [List.mem_cons, List.mem_append, List.not_mem_nil, or_false] at hx
    rcases hx with rfl | rfl | rfl | h | rfl
    · decide
    · decide
    · decide
    · exact (hex_plain _ _ h).2.2
    · decide

theorem oneLine_signed (n : Int) : OneLine (signedText n) := by
  cases n with
  | ofNat k => exact OneLine.num k
  | negSucc k => exact (OneLine.lit _ (by decide +kernel)).append (OneLine.num _)

theorem RStr.debug_line (s : RStr) : OneLine s.debug ↔ OneLine s.bytes :=
  OneLine.wrap (.lit _ (by decide +kernel)) (.lit _ (by decide +kernel))

theorem Symbol.debug_line (s : Symbol) : OneLine s.debug ↔ OneLine s.str.bytes :=
  (OneLine.wrap (.lit _ (by decide +kernel)) (.lit _ (by decide +kernel))).trans s.str.debug_line

theorem Descriptor.debug_line (d : Descriptor) : OneLine d.debug ↔ ∀ t ∈ d.texts, OneLine t := by
  cases d with
  | ulong v =>
    simp only [Descriptor.debug, Descriptor.texts, List.not_mem_nil, false_implies, implies_true, iff_true]
    exact (OneLine.wrap (.lit _ (by decide +kernel)) (.lit _ (by decide +kernel))).2 (OneLine.num _)
  | symbol s =>
    simp only [Descriptor.debug, Descriptor.texts, List.mem_singleton, forall_eq]
    exact (OneLine.wrap (.lit _ (by decide +kernel)) (.lit _ (by decide +kernel))).trans s.debug_line

theorem oneLine_nil : OneLine [] := by intro x h; cases h

theorem oneLine_comma (first : Bool) : OneLine (if first then [] else txt ", ") := by
  cases first
  · exact .lit _ (by decide +kernel)
  · exact oneLine_nil

theorem forall_append {p : Bytes → Prop} {a b : List Bytes} :
    (∀ t ∈ a ++ b, p t) ↔ (∀ t ∈ a, p t) ∧ ∀ t ∈ b, p t := by
  simp only [List.mem_append]
  exact ⟨fun h => ⟨fun t ht => h t (.inl ht), fun t ht => h t (.inr ht)⟩,
    fun h t ht => ht.elim (h.1 t) (h.2 t)⟩

mutual
theorem Variant.debug_line {T : Texts} (hT : T.Plain) : ∀ v : Variant,
    OneLine (v.debug T) ↔ ∀ t ∈ v.texts, OneLine t
  | .null => by simpa [Variant.debug, Variant.texts] using OneLine.lit "Null" (by decide +kernel)
  | .boolean b => by
    rw [Variant.debug, OneLine.wrapT]
    · simp only [Variant.texts, List.not_mem_nil, false_implies, implies_true, iff_true]
      cases b <;> exact .lit _ (by decide +kernel)
    · decide +kernel
    · decide +kernel
  | .ubyte n => by
    rw [Variant.debug, OneLine.wrapT]
    · simpa only [Variant.texts, List.not_mem_nil, false_implies, implies_true, iff_true] using OneLine.num _
    · decide +kernel
    · decide +kernel
  | .ushort n => by
    rw [Variant.debug, OneLine.wrapT]
    · simpa only [Variant.texts, List.not_mem_nil, false_implies, implies_true, iff_true] using OneLine.num _
    · decide +kernel
    · decide +kernel
  | .uint n => by
    rw [Variant.debug, OneLine.wrapT]
    · simpa only [Variant.texts, List.not_mem_nil, false_implies, implies_true, iff_true] using OneLine.num _
    · decide +kernel
    · decide +kernel
  | .ulong n => by
    rw [Variant.debug, OneLine.wrapT]
    · simpa only [Variant.texts, List.not_mem_nil, false_implies, implies_true, iff_true] using OneLine.num _
    · decide +kernel
    · decide +kernel
  | .byte n => by
    rw [Variant.debug, OneLine.wrapT]
    · simpa only [Variant.texts, List.not_mem_nil, false_implies, implies_true, iff_true] using oneLine_signed _
    · decide +kernel
    · decide +kernel
  | .short n => by
    rw [Variant.debug, OneLine.wrapT]
    · simpa only [Variant.texts, List.not_mem_nil, false_implies, implies_true, iff_true] using oneLine_signed _
    · decide +kernel
    · decide +kernel
  | .int n => by
    rw [Variant.debug, OneLine.wrapT]
    · simpa only [Variant.texts, List.not_mem_nil, false_implies, implies_true, iff_true] using oneLine_signed _
    · decide +kernel
    · decide +kernel
  | .long n => by
    rw [Variant.debug, OneLine.wrapT]
    · simpa only [Variant.texts, List.not_mem_nil, false_implies, implies_true, iff_true] using oneLine_signed _
    · decide +kernel
    · decide +kernel
  | .float n => by
    rw [Variant.debug, OneLine.wrapT]
    · simpa only [Variant.texts, List.not_mem_nil, false_implies, implies_true, iff_true] using hT.f32 _
    · decide +kernel
    · decide +kernel
  | .double n => by
    rw [Variant.debug, OneLine.wrapT]
    · simpa only [Variant.texts, List.not_mem_nil, false_implies, implies_true, iff_true] using hT.f64 _
    · decide +kernel
    · decide +kernel
  | .char n => by
    rw [Variant.debug, OneLine.wrapT]
    · simpa only [Variant.texts, List.not_mem_nil, false_implies, implies_true, iff_true] using hT.char _
    · decide +kernel
    · decide +kernel
  | .timestamp n => by
    rw [Variant.debug, OneLine.wrapT]
    · simpa only [Variant.texts, List.not_mem_nil, false_implies, implies_true, iff_true] using hT.time _
    · decide +kernel
    · decide +kernel
  | .uuid n => by
    rw [Variant.debug, OneLine.wrapT]
    · simpa only [Variant.texts, List.not_mem_nil, false_implies, implies_true, iff_true] using hT.uuid _
    · decide +kernel
    · decide +kernel
  | .binary n => by
    rw [Variant.debug, OneLine.wrapT]
    · simpa only [Variant.texts, List.not_mem_nil, false_implies, implies_true, iff_true] using hT.bytes _
    · decide +kernel
    · decide +kernel
  | .string s => by
    rw [Variant.debug, OneLine.wrapT]
    · rw [RStr.debug_line]
      simp only [Variant.texts, List.mem_singleton, forall_eq]
    · decide +kernel
    · decide +kernel
  | .symbol s => by
    rw [Variant.debug, OneLine.wrapT]
    · rw [Symbol.debug_line]
      simp only [Variant.texts, List.mem_singleton, forall_eq]
    · decide +kernel
    · decide +kernel
  | .staticSymbol s => by
    rw [Variant.debug, OneLine.wrapT]
    · simpa only [Variant.texts, List.not_mem_nil, false_implies, implies_true, iff_true] using
      oneLine_escaped hT s
    · decide +kernel
    · decide +kernel
  | .list l => by
    rw [Variant.debug, OneLine.wrapT]
    · rw [debugItems_line hT true l, Variant.texts]
    · decide +kernel
    · decide +kernel
  | .map m => by
    rw [Variant.debug, OneLine.wrapT]
    · rw [debugPairs_line hT true m, Variant.texts]
    · decide +kernel
    · decide +kernel
  | .described d v => by
    rw [Variant.debug, OneLine.append_iff, OneLine.append_iff, OneLine.append_iff, OneLine.append_iff,
      d.debug_line, Variant.debug_line hT v, Variant.texts, forall_append]
    exact ⟨fun h => ⟨h.1.1.1.2, h.1.2⟩, fun h => ⟨⟨⟨⟨.lit _ (by decide +kernel), h.1⟩,
      .lit _ (by decide +kernel)⟩, h.2⟩, .lit _ (by decide +kernel)⟩⟩
theorem debugItems_line {T : Texts} (hT : T.Plain) (first : Bool) : ∀ l : List Variant,
    OneLine (debugItems T first l) ↔ ∀ t ∈ itemTexts l, OneLine t
  | [] => by simpa [debugItems, itemTexts] using oneLine_nil
  | v :: t => by
    rw [debugItems, OneLine.append_iff, OneLine.append_iff, and_iff_right (oneLine_comma first),
      Variant.debug_line hT v, debugItems_line hT false t, itemTexts, forall_append]
theorem debugPairs_line {T : Texts} (hT : T.Plain) (first : Bool) : ∀ l : List (Variant × Variant),
    OneLine (debugPairs T first l) ↔ ∀ t ∈ pairTexts l, OneLine t
  | [] => by simpa [debugPairs, pairTexts] using oneLine_nil
  | (k, v) :: t => by
    rw [debugPairs, OneLine.append_iff, OneLine.append_iff, OneLine.append_iff, OneLine.append_iff,
      and_iff_right (oneLine_comma first), and_iff_left (OneLine.lit ": " (by decide +kernel)),
      Variant.debug_line hT k, Variant.debug_line hT v, debugPairs_line hT false t, pairTexts,
      forall_append, forall_append]
end

theorem debugFields_line {T : Texts} (hT : T.Plain) (first : Bool) : ∀ l : List (Symbol × Variant),
    OneLine (debugFields T first l) ↔
      ∀ t ∈ l.flatMap fun p => p.1.str.bytes :: p.2.texts, OneLine t
  | [] => by simpa [debugFields] using oneLine_nil
  | (k, v) :: t => by
    rw [debugFields, OneLine.append_iff, OneLine.append_iff, OneLine.append_iff, OneLine.append_iff,
      and_iff_right (oneLine_comma first), and_iff_left (OneLine.lit ": " (by decide +kernel)),
      k.debug_line, Variant.debug_line hT v, debugFields_line hT false t, List.flatMap_cons,
      forall_append]
    simp only [List.forall_mem_cons]

theorem known_line : ∀ c ∈ knownConditions, OneLine c.debug := by
  unfold OneLine; decide +kernel

end Amqp
