import Verif.Proofs.DebugText
import Verif.Spec.ErrorText
/-!
# Texts without quotes inside tell values apart

For C89.
-/
set_option autoImplicit false
namespace Amqp

/-- What follows a closing parenthesis is not needed to tell two texts apart. -/
def Closes {α : Type} (f : α → Bytes) : Prop :=
  ∀ a b x y, f a ++ 0x29 :: x = f b ++ 0x29 :: y → a = b ∧ x = y

/-- What other crates and std write identifies what it is about; NaN aside. -/
structure Texts.Tells (T : Texts) : Prop where
  f32 : ∀ a b x y, T.f32 a ++ 0x29 :: x = T.f32 b ++ 0x29 :: y →
    (a = b ∨ a.isNaN = true ∧ b.isNaN = true) ∧ x = y
  f64 : ∀ a b x y, T.f64 a ++ 0x29 :: x = T.f64 b ++ 0x29 :: y →
    (a = b ∨ a.isNaN = true ∧ b.isNaN = true) ∧ x = y
  char : Closes T.char
  time : Closes T.time
  uuid : Closes T.uuid
  bytes : Closes T.bytes

/-- No double quotes. -/
def Quiet (l : List Bytes) : Prop := ∀ t ∈ l, 0x22 ∉ t

theorem quiet_append {a b : List Bytes} : Quiet (a ++ b) ↔ Quiet a ∧ Quiet b :=
  ⟨fun h => ⟨fun t ht => h t (List.mem_append_left _ ht), fun t ht => h t (List.mem_append_right _ ht)⟩,
    fun h t ht => (List.mem_append.1 ht).elim (h.1 t) (h.2 t)⟩

def letter (x : UInt8) : Bool := (0x41 ≤ x && x ≤ 0x5a) || (0x61 ≤ x && x ≤ 0x7a)

/-- The text does not go on with a letter. -/
def Stops (x : Bytes) : Prop := ∀ c t, x = c :: t → letter c = false

theorem Stops.cons {c : UInt8} {t : Bytes} (h : letter c = false) : Stops (c :: t) := by
  intro d u e; cases e; exact h

theorem letters_cancel : ∀ {a b x y : Bytes}, (∀ c ∈ a, letter c = true) → (∀ c ∈ b, letter c = true) →
    Stops x → Stops y → a ++ x = b ++ y → a = b
  | [], [], _, _, _, _, _, _, _ => rfl
  | [], d :: b, x, y, _, hb, hx, _, h => by
    rw [List.nil_append, List.cons_append] at h
    have := hx d _ h
    rw [hb d (List.mem_cons_self ..)] at this; cases this
  | c :: a, [], x, y, ha, _, _, hy, h => by
    rw [List.nil_append, List.cons_append] at h
    have := hy c _ h.symm
    rw [ha c (List.mem_cons_self ..)] at this; cases this
  | c :: a, d :: b, x, y, ha, hb, hx, hy, h => by
    rw [List.cons_append, List.cons_append] at h
    injection h with h1 h2
    rw [h1, letters_cancel (fun c hc => ha c (List.mem_cons_of_mem _ hc))
      (fun c hc => hb c (List.mem_cons_of_mem _ hc)) hx hy h2]

/-- The name of the variant. -/
def Variant.ctor : Variant → String
  | .null => "Null" | .boolean _ => "Boolean" | .ubyte _ => "Ubyte" | .ushort _ => "Ushort"
  | .uint _ => "Uint" | .ulong _ => "Ulong" | .byte _ => "Byte" | .short _ => "Short"
  | .int _ => "Int" | .long _ => "Long" | .float _ => "Float" | .double _ => "Double"
  | .char _ => "Char" | .timestamp _ => "Timestamp" | .uuid _ => "Uuid" | .binary _ => "Binary"
  | .string _ => "String" | .symbol _ => "Symbol" | .staticSymbol _ => "StaticSymbol"
  | .list _ => "List" | .map _ => "Map" | .described _ _ => "Described"

theorem ctor_letters (v : Variant) : ∀ c ∈ txt v.ctor, letter c = true := by
  cases v <;> (simp only [Variant.ctor]; decide +kernel)

theorem ctor_debug (T : Texts) (v : Variant) :
    (v.debug T = txt v.ctor ∧ v = .null) ∨ ∃ r, v.debug T = txt v.ctor ++ 0x28 :: r := by
  have key : ∀ (s t : String) (u r : Bytes), txt t = txt s ++ 0x28 :: u →
      ∃ r', txt t ++ r = txt s ++ 0x28 :: r' := by
    intro s t u r h
    exact ⟨u ++ r, by rw [h, List.append_assoc]; rfl⟩
  cases v with
  | null => left; exact ⟨by rw [Variant.debug, Variant.ctor], rfl⟩
  | float x =>
    right; simp only [Variant.debug, Variant.ctor, List.append_assoc]
    exact key _ _ (txt "OrderedFloat(") _ (by decide +kernel)
  | double x =>
    right; simp only [Variant.debug, Variant.ctor, List.append_assoc]
    exact key _ _ (txt "OrderedFloat(") _ (by decide +kernel)
  | staticSymbol s =>
    right; simp only [Variant.debug, Variant.ctor, List.append_assoc]
    exact key _ _ (txt "StaticSymbol(") _ (by decide +kernel)
  | list l =>
    right; simp only [Variant.debug, Variant.ctor, List.append_assoc]
    exact key _ _ (txt "List([") _ (by decide +kernel)
  | map l =>
    right; simp only [Variant.debug, Variant.ctor, List.append_assoc]
    exact key _ _ (txt "VariantMap { map: {") _ (by decide +kernel)
  | described d v =>
    right; simp only [Variant.debug, Variant.ctor, List.append_assoc]
    exact key _ _ (txt "(") _ (by decide +kernel)
  | _ =>
    right; simp only [Variant.debug, Variant.ctor, List.append_assoc]
    exact key _ _ [] _ (by decide +kernel)

theorem ctor_cancel {T : Texts} {v w : Variant} {x y : Bytes} (hx : Stops x) (hy : Stops y)
    (h : v.debug T ++ x = w.debug T ++ y) : v.ctor = w.ctor := by
  have hp : letter 0x28 = false := by decide
  refine txt_inj ?_
  rcases ctor_debug T v with ⟨e1, -⟩ | ⟨r, e1⟩ <;> rcases ctor_debug T w with ⟨e2, -⟩ | ⟨s, e2⟩ <;>
    (rw [e1, e2] at h; try simp only [List.append_assoc, List.cons_append] at h) <;>
    refine letters_cancel (ctor_letters v) (ctor_letters w) ?_ ?_ h <;>
    first | assumption | exact Stops.cons hp

theorem ctor_starts (T : Texts) (v : Variant) (k : UInt8) (x y : Bytes) (hk : letter k = false) :
    v.debug T ++ x ≠ k :: y := by
  intro h
  have hl := ctor_letters v
  have ne : txt v.ctor ≠ [] := by cases v <;> (simp only [Variant.ctor]; decide +kernel)
  rcases ctor_debug T v with ⟨e1, -⟩ | ⟨r, e1⟩ <;>
  · rw [e1] at h
    cases hc : txt v.ctor with
    | nil => exact ne hc
    | cons c t =>
      rw [hc] at h
      simp only [List.cons_append] at h
      injection h with h1 h2
      have := hl c (by rw [hc]; exact List.mem_cons_self ..)
      rw [h1, hk] at this; cases this

theorem close_txt : txt ")" = [0x29] := by decide +kernel

theorem num_closes : Closes num := by
  intro a b x y h
  have hn : ∀ n, 0x29 ∉ num n := fun n hm => by
    have := num_digits n _ hm
    revert this; decide
  obtain ⟨h1, h2⟩ := cancel_at (hn a) (hn b) h
  exact ⟨num_inj h1, h2⟩

theorem signed_closes : Closes signedText := by
  intro a b x y h
  have hd : ∀ n x y, num n ++ x ≠ 0x2d :: y := fun n x y h => by
    have hd := num_digits n
    have hne : num n ≠ [] := fun he => by
      have := txt_inj (show txt n.repr = txt "" from he)
      exact Nat.repr_ne_empty this
    cases hn : num n with
    | nil => exact hne hn
    | cons c t =>
      rw [hn] at h
      injection h with h1 h2
      have := hd c (by rw [hn]; exact List.mem_cons_self ..)
      rw [h1] at this; revert this; decide
  have hm : txt "-" = [0x2d] := by decide +kernel
  cases a with
  | ofNat a => cases b with
    | ofNat b =>
      obtain ⟨h1, h2⟩ := num_closes _ _ _ _ h
      exact ⟨by rw [h1], h2⟩
    | negSucc b =>
      simp only [signedText, hm, List.cons_append, List.nil_append] at h
      exact (hd _ _ _ h).elim
  | negSucc a => cases b with
    | ofNat b =>
      simp only [signedText, hm, List.cons_append, List.nil_append] at h
      exact (hd _ _ _ h.symm).elim
    | negSucc b =>
      simp only [signedText, hm, List.cons_append, List.nil_append] at h
      injection h with _ h
      obtain ⟨h1, h2⟩ := num_closes _ _ _ _ h
      exact ⟨by rw [Nat.succ.inj h1], h2⟩

theorem bool_closes : Closes (fun b : Bool => if b then txt "true" else txt "false") := by
  have e1 : txt "true" = 0x74 :: txt "rue" := by decide +kernel
  have e2 : txt "false" = 0x66 :: txt "alse" := by decide +kernel
  intro a b x y h
  cases a <;> cases b <;> simp only [if_true, if_false, Bool.false_eq_true] at h
  · exact ⟨rfl, by injection List.append_cancel_left h⟩
  · rw [e1, e2] at h; injection h with h _; exact absurd h (by decide)
  · rw [e1, e2] at h; injection h with h _; exact absurd h (by decide)
  · exact ⟨rfl, by injection List.append_cancel_left h⟩

theorem Closes.in {α : Type} {f : α → Bytes} (hf : Closes f) {p x y : Bytes} {a b : α}
    (h : (p ++ f a ++ txt ")") ++ x = (p ++ f b ++ txt ")") ++ y) : a = b ∧ x = y := by
  simp only [List.append_assoc, close_txt, List.cons_append, List.nil_append] at h
  exact hf _ _ _ _ (List.append_cancel_left h)

theorem RStr.debug_cancel {a b : RStr} {x y : Bytes} (ha : 0x22 ∉ a.bytes) (hb : 0x22 ∉ b.bytes)
    (h : a.debug ++ x = b.debug ++ y) : a = b ∧ x = y := by
  unfold RStr.debug at h
  simp only [List.append_assoc, quote_txt, List.cons_append, List.nil_append] at h
  obtain ⟨h1, h2⟩ := cancel_at ha hb (List.append_cancel_left h)
  exact ⟨RStr.ext h1, h2⟩

theorem Symbol.debug_cancel {a b : Symbol} {x y : Bytes} (ha : 0x22 ∉ a.str.bytes)
    (hb : 0x22 ∉ b.str.bytes) (h : a.debug ++ x = b.debug ++ y) : a = b ∧ x = y := by
  unfold Symbol.debug at h
  simp only [List.append_assoc] at h
  obtain ⟨h1, h2⟩ := RStr.debug_cancel ha hb (List.append_cancel_left h)
  obtain ⟨a⟩ := a; obtain ⟨b⟩ := b
  exact ⟨by rw [show a = b from h1], List.append_cancel_left h2⟩

theorem Descriptor.debug_cancel {a b : Descriptor} {x y : Bytes} (ha : Quiet a.texts)
    (hb : Quiet b.texts) (h : a.debug ++ x = b.debug ++ y) : a = b ∧ x = y := by
  have e1 : txt "Ulong(" = 0x55 :: txt "long(" := by decide +kernel
  have e2 : txt "Symbol(" = 0x53 :: txt "ymbol(" := by decide +kernel
  cases a with
  | ulong a => cases b with
    | ulong b =>
      obtain ⟨h1, h2⟩ := num_closes.in h
      exact ⟨by rw [UInt64.toNat_inj.1 h1], h2⟩
    | symbol b =>
      simp only [Descriptor.debug, e1, e2, List.cons_append] at h
      injection h with h _; exact absurd h (by decide)
  | symbol a => cases b with
    | ulong b =>
      simp only [Descriptor.debug, e1, e2, List.cons_append] at h
      injection h with h _; exact absurd h (by decide)
    | symbol b =>
      simp only [Descriptor.debug, List.append_assoc] at h
      obtain ⟨h1, h2⟩ := Symbol.debug_cancel (ha _ (List.mem_singleton.2 rfl))
        (hb _ (List.mem_singleton.2 rfl)) (List.append_cancel_left h)
      exact ⟨by rw [h1], List.append_cancel_left h2⟩

theorem items_stop (T : Texts) (l : List Variant) (x : Bytes) :
    Stops (debugItems T false l ++ 0x5d :: x) := by
  have e : txt ", " = 0x2c :: [0x20] := by decide +kernel
  cases l with
  | nil => exact .cons (by decide)
  | cons v t =>
    simp only [debugItems, Bool.false_eq_true, if_false, e, List.cons_append]
    exact .cons (by decide)
theorem pairs_stop (T : Texts) (l : List (Variant × Variant)) (x : Bytes) :
    Stops (debugPairs T false l ++ 0x7d :: x) := by
  have e : txt ", " = 0x2c :: [0x20] := by decide +kernel
  cases l with
  | nil => exact .cons (by decide)
  | cons v t =>
    simp only [debugPairs, Bool.false_eq_true, if_false, e, List.cons_append]
    exact .cons (by decide)
theorem fields_stop (T : Texts) (l : List (Symbol × Variant)) (x : Bytes) :
    Stops (debugFields T false l ++ 0x7d :: x) := by
  have e : txt ", " = 0x2c :: [0x20] := by decide +kernel
  cases l with
  | nil => exact .cons (by decide)
  | cons v t =>
    simp only [debugFields, Bool.false_eq_true, if_false, e, List.cons_append]
    exact .cons (by decide)

/-- Only the same constructor has the same name. -/
local macro "same " h:ident w:ident : tactic =>
  `(tactic| (cases $w:ident <;> first
      | (exfalso; revert $h:ident; simp only [Variant.ctor]; decide +kernel)
      | skip))

mutual
theorem Variant.debug_cancel {T : Texts} (hT : T.Tells) : ∀ (v w : Variant) (x y : Bytes),
    Quiet v.texts → Quiet w.texts → v.Numbers → Stops x → Stops y →
    v.debug T ++ x = w.debug T ++ y → v = w ∧ x = y
  | .null, w, x, y, hv, hw, hn, hx, hy, h => by
    have hc := ctor_cancel hx hy h
    same hc w
    exact ⟨rfl, List.append_cancel_left h⟩
  | .boolean a, w, x, y, hv, hw, hn, hx, hy, h => by
    have hc := ctor_cancel hx hy h
    same hc w
    obtain ⟨h1, h2⟩ := bool_closes.in h
    exact ⟨by rw [h1], h2⟩
  | .ubyte a, w, x, y, hv, hw, hn, hx, hy, h => by
    have hc := ctor_cancel hx hy h
    same hc w
    obtain ⟨h1, h2⟩ := num_closes.in h
    exact ⟨by rw [UInt8.toNat_inj.1 h1], h2⟩
  | .ushort a, w, x, y, hv, hw, hn, hx, hy, h => by
    have hc := ctor_cancel hx hy h
    same hc w
    obtain ⟨h1, h2⟩ := num_closes.in h
    exact ⟨by rw [UInt16.toNat_inj.1 h1], h2⟩
  | .uint a, w, x, y, hv, hw, hn, hx, hy, h => by
    have hc := ctor_cancel hx hy h
    same hc w
    obtain ⟨h1, h2⟩ := num_closes.in h
    exact ⟨by rw [UInt32.toNat_inj.1 h1], h2⟩
  | .ulong a, w, x, y, hv, hw, hn, hx, hy, h => by
    have hc := ctor_cancel hx hy h
    same hc w
    obtain ⟨h1, h2⟩ := num_closes.in h
    exact ⟨by rw [UInt64.toNat_inj.1 h1], h2⟩
  | .byte a, w, x, y, hv, hw, hn, hx, hy, h => by
    have hc := ctor_cancel hx hy h
    same hc w
    obtain ⟨h1, h2⟩ := signed_closes.in h
    exact ⟨by rw [Int8.toInt_inj.1 h1], h2⟩
  | .short a, w, x, y, hv, hw, hn, hx, hy, h => by
    have hc := ctor_cancel hx hy h
    same hc w
    obtain ⟨h1, h2⟩ := signed_closes.in h
    exact ⟨by rw [Int16.toInt_inj.1 h1], h2⟩
  | .int a, w, x, y, hv, hw, hn, hx, hy, h => by
    have hc := ctor_cancel hx hy h
    same hc w
    obtain ⟨h1, h2⟩ := signed_closes.in h
    exact ⟨by rw [Int32.toInt_inj.1 h1], h2⟩
  | .long a, w, x, y, hv, hw, hn, hx, hy, h => by
    have hc := ctor_cancel hx hy h
    same hc w
    obtain ⟨h1, h2⟩ := signed_closes.in h
    exact ⟨by rw [Int64.toInt_inj.1 h1], h2⟩
  | .float a, w, x, y, hv, hw, hn, hx, hy, h => by
    have hc := ctor_cancel hx hy h
    same hc w
    rename_i b
    have e : txt "))" = 0x29 :: [0x29] := by decide +kernel
    simp only [Variant.debug, e, List.append_assoc, List.cons_append, List.nil_append] at h
    obtain ⟨h1, h2⟩ := hT.f32 _ _ _ _ (List.append_cancel_left h)
    injection h2 with _ h2
    rcases h1 with rfl | ⟨h1, -⟩
    · exact ⟨rfl, h2⟩
    · simp only [Variant.Numbers] at hn
      rw [hn] at h1; cases h1
  | .double a, w, x, y, hv, hw, hn, hx, hy, h => by
    have hc := ctor_cancel hx hy h
    same hc w
    rename_i b
    have e : txt "))" = 0x29 :: [0x29] := by decide +kernel
    simp only [Variant.debug, e, List.append_assoc, List.cons_append, List.nil_append] at h
    obtain ⟨h1, h2⟩ := hT.f64 _ _ _ _ (List.append_cancel_left h)
    injection h2 with _ h2
    rcases h1 with rfl | ⟨h1, -⟩
    · exact ⟨rfl, h2⟩
    · simp only [Variant.Numbers] at hn
      rw [hn] at h1; cases h1
  | .char a, w, x, y, hv, hw, hn, hx, hy, h => by
    have hc := ctor_cancel hx hy h
    same hc w
    obtain ⟨h1, h2⟩ := hT.char.in h
    exact ⟨by rw [h1], h2⟩
  | .timestamp a, w, x, y, hv, hw, hn, hx, hy, h => by
    have hc := ctor_cancel hx hy h
    same hc w
    obtain ⟨h1, h2⟩ := hT.time.in h
    exact ⟨by rw [h1], h2⟩
  | .uuid a, w, x, y, hv, hw, hn, hx, hy, h => by
    have hc := ctor_cancel hx hy h
    same hc w
    obtain ⟨h1, h2⟩ := hT.uuid.in h
    exact ⟨by rw [h1], h2⟩
  | .binary a, w, x, y, hv, hw, hn, hx, hy, h => by
    have hc := ctor_cancel hx hy h
    same hc w
    obtain ⟨h1, h2⟩ := hT.bytes.in h
    exact ⟨by rw [h1], h2⟩
  | .string a, w, x, y, hv, hw, hn, hx, hy, h => by
    have hc := ctor_cancel hx hy h
    same hc w
    simp only [Variant.debug, List.append_assoc] at h
    simp only [Variant.texts] at hv hw
    obtain ⟨h1, h2⟩ := RStr.debug_cancel (hv _ (List.mem_singleton.2 rfl))
      (hw _ (List.mem_singleton.2 rfl)) (List.append_cancel_left h)
    exact ⟨by rw [h1], List.append_cancel_left h2⟩
  | .symbol a, w, x, y, hv, hw, hn, hx, hy, h => by
    have hc := ctor_cancel hx hy h
    same hc w
    simp only [Variant.debug, List.append_assoc] at h
    simp only [Variant.texts] at hv hw
    obtain ⟨h1, h2⟩ := Symbol.debug_cancel (hv _ (List.mem_singleton.2 rfl))
      (hw _ (List.mem_singleton.2 rfl)) (List.append_cancel_left h)
    exact ⟨by rw [h1], List.append_cancel_left h2⟩
  | .staticSymbol a, w, x, y, hv, hw, hn, hx, hy, h => by
    have hc := ctor_cancel hx hy h
    same hc w
    simp only [Variant.debug, List.append_assoc] at h
    obtain ⟨h1, h2⟩ := RStr.escaped_cancel T (List.append_cancel_left h)
    exact ⟨by rw [h1], List.append_cancel_left h2⟩
  | .list a, w, x, y, hv, hw, hn, hx, hy, h => by
    have hc := ctor_cancel hx hy h
    same hc w
    have e : txt "]))" = 0x5d :: txt "))" := by decide +kernel
    simp only [Variant.debug, e, List.append_assoc, List.cons_append] at h
    simp only [Variant.texts] at hv hw
    simp only [Variant.Numbers] at hn
    obtain ⟨h1, h2⟩ := items_cancel hT a _ true _ _ hv hw hn (List.append_cancel_left h)
    exact ⟨by rw [h1], List.append_cancel_left h2⟩
  | .map a, w, x, y, hv, hw, hn, hx, hy, h => by
    have hc := ctor_cancel hx hy h
    same hc w
    have e : txt "} })" = 0x7d :: txt " })" := by decide +kernel
    simp only [Variant.debug, e, List.append_assoc, List.cons_append] at h
    simp only [Variant.texts] at hv hw
    simp only [Variant.Numbers] at hn
    obtain ⟨h1, h2⟩ := pairs_cancel hT a _ true _ _ hv hw hn (List.append_cancel_left h)
    exact ⟨by rw [h1], List.append_cancel_left h2⟩
  | .described d a, w, x, y, hv, hw, hn, hx, hy, h => by
    have hc := ctor_cancel hx hy h
    same hc w
    have e : txt "))" = 0x29 :: [0x29] := by decide +kernel
    simp only [Variant.debug, e, List.append_assoc, List.cons_append, List.nil_append] at h
    simp only [Variant.texts, quiet_append] at hv hw
    simp only [Variant.Numbers] at hn
    obtain ⟨h1, h2⟩ := Descriptor.debug_cancel hv.1 hw.1 (List.append_cancel_left h)
    obtain ⟨h3, h4⟩ := Variant.debug_cancel hT a _ _ _ hv.2 hw.2 hn (.cons (by decide))
      (.cons (by decide)) (List.append_cancel_left h2)
    injection h4 with _ h4
    injection h4 with _ h4
    exact ⟨by rw [h1, h3], h4⟩
theorem items_cancel {T : Texts} (hT : T.Tells) : ∀ (l m : List Variant) (first : Bool) (x y : Bytes),
    Quiet (itemTexts l) → Quiet (itemTexts m) → itemNumbers l →
    debugItems T first l ++ 0x5d :: x = debugItems T first m ++ 0x5d :: y → l = m ∧ x = y
  | [], [], _, x, y, _, _, _, h => by
    simp only [debugItems, List.nil_append] at h
    injection h with _ h
    exact ⟨rfl, h⟩
  | [], w :: m, first, x, y, _, _, _, h => by
    exfalso
    have e : txt ", " = 0x2c :: [0x20] := by decide +kernel
    cases first
    · simp only [debugItems, List.nil_append, Bool.false_eq_true, if_false, e, List.cons_append] at h
      injection h with h _; exact absurd h (by decide)
    · simp only [debugItems, List.nil_append, if_true, List.append_assoc] at h
      exact ctor_starts T w 0x5d _ _ (by decide) h.symm
  | v :: l, [], first, x, y, _, _, _, h => by
    exfalso
    have e : txt ", " = 0x2c :: [0x20] := by decide +kernel
    cases first
    · simp only [debugItems, List.nil_append, Bool.false_eq_true, if_false, e, List.cons_append] at h
      injection h with h _; exact absurd h (by decide)
    · simp only [debugItems, List.nil_append, if_true, List.append_assoc] at h
      exact ctor_starts T v 0x5d _ _ (by decide) h
  | v :: l, w :: m, first, x, y, hl, hm, hn, h => by
    simp only [debugItems, List.append_assoc] at h
    simp only [itemTexts, quiet_append] at hl hm
    simp only [itemNumbers] at hn
    obtain ⟨h1, h2⟩ := Variant.debug_cancel hT v w _ _ hl.1 hm.1 hn.1 (items_stop _ _ _) (items_stop _ _ _)
      (List.append_cancel_left h)
    obtain ⟨h3, h4⟩ := items_cancel hT l m false _ _ hl.2 hm.2 hn.2 h2
    exact ⟨by rw [h1, h3], h4⟩
theorem pairs_cancel {T : Texts} (hT : T.Tells) : ∀ (l m : List (Variant × Variant)) (first : Bool)
    (x y : Bytes), Quiet (pairTexts l) → Quiet (pairTexts m) → pairNumbers l →
    debugPairs T first l ++ 0x7d :: x = debugPairs T first m ++ 0x7d :: y → l = m ∧ x = y
  | [], [], _, x, y, _, _, _, h => by
    simp only [debugPairs, List.nil_append] at h
    injection h with _ h
    exact ⟨rfl, h⟩
  | [], (k, w) :: m, first, x, y, _, _, _, h => by
    exfalso
    have e : txt ", " = 0x2c :: [0x20] := by decide +kernel
    cases first
    · simp only [debugPairs, List.nil_append, Bool.false_eq_true, if_false, e, List.cons_append] at h
      injection h with h _; exact absurd h (by decide)
    · simp only [debugPairs, List.nil_append, if_true, List.append_assoc] at h
      exact ctor_starts T k 0x7d _ _ (by decide) h.symm
  | (k, v) :: l, [], first, x, y, _, _, _, h => by
    exfalso
    have e : txt ", " = 0x2c :: [0x20] := by decide +kernel
    cases first
    · simp only [debugPairs, List.nil_append, Bool.false_eq_true, if_false, e, List.cons_append] at h
      injection h with h _; exact absurd h (by decide)
    · simp only [debugPairs, List.nil_append, if_true, List.append_assoc] at h
      exact ctor_starts T k 0x7d _ _ (by decide) h
  | (k, v) :: l, (k', w) :: m, first, x, y, hl, hm, hn, h => by
    have e : txt ": " = 0x3a :: [0x20] := by decide +kernel
    simp only [debugPairs, List.append_assoc, e, List.cons_append, List.nil_append] at h
    simp only [pairTexts, quiet_append] at hl hm
    simp only [pairNumbers] at hn
    obtain ⟨h1, h2⟩ := Variant.debug_cancel hT k k' _ _ hl.1.1 hm.1.1 hn.1 (.cons (by decide))
      (.cons (by decide)) (List.append_cancel_left h)
    injection h2 with _ h2
    injection h2 with _ h2
    obtain ⟨h3, h4⟩ := Variant.debug_cancel hT v w _ _ hl.1.2 hm.1.2 hn.2.1 (pairs_stop _ _ _)
      (pairs_stop _ _ _) h2
    obtain ⟨h5, h6⟩ := pairs_cancel hT l m false _ _ hl.2 hm.2 hn.2.2 h4
    exact ⟨by rw [h1, h3, h5], h6⟩
end

theorem fields_cancel {T : Texts} (hT : T.Tells) : ∀ (l m : List (Symbol × Variant)) (first : Bool)
    (x y : Bytes), Quiet (l.flatMap fun p => p.1.str.bytes :: p.2.texts) →
    Quiet (m.flatMap fun p => p.1.str.bytes :: p.2.texts) → (∀ p ∈ l, p.2.Numbers) →
    debugFields T first l ++ 0x7d :: x = debugFields T first m ++ 0x7d :: y → l = m ∧ x = y := by
  have e : txt ", " = 0x2c :: [0x20] := by decide +kernel
  have e1 : txt "Symbol(" = 0x53 :: txt "ymbol(" := by decide +kernel
  have e2 : txt ": " = 0x3a :: [0x20] := by decide +kernel
  have ne : ∀ (k : Symbol) (v : Variant) (l : List (Symbol × Variant)) (first : Bool) (x y : Bytes),
      debugFields T first ((k, v) :: l) ++ x ≠ 0x7d :: y := by
    intro k v l first x y h
    cases first
    · simp only [debugFields, Bool.false_eq_true, if_false, e, List.cons_append] at h
      injection h with h _; exact absurd h (by decide)
    · simp only [debugFields, List.nil_append, if_true, Symbol.debug, e1, List.cons_append] at h
      injection h with h _; exact absurd h (by decide)
  intro l
  induction l with
  | nil =>
    intro m first x y _ _ _ h
    cases m with
    | nil =>
      simp only [debugFields, List.nil_append] at h
      injection h with _ h
      exact ⟨rfl, h⟩
    | cons p m => exact (ne _ _ _ _ _ _ h.symm).elim
  | cons p l ih =>
    intro m first x y hl hm hn h
    cases m with
    | nil => exact (ne _ _ _ _ _ _ h).elim
    | cons q m =>
      obtain ⟨k, v⟩ := p
      obtain ⟨k', w⟩ := q
      simp only [debugFields, List.append_assoc, e2, List.cons_append, List.nil_append] at h
      rw [List.flatMap_cons, quiet_append] at hl hm
      obtain ⟨h1, h2⟩ := Symbol.debug_cancel (hl.1 _ (List.mem_cons_self ..))
        (hm.1 _ (List.mem_cons_self ..)) (List.append_cancel_left h)
      injection h2 with _ h2
      injection h2 with _ h2
      obtain ⟨h3, h4⟩ := Variant.debug_cancel hT v w _ _
        (fun t ht => hl.1 t (List.mem_cons_of_mem _ ht)) (fun t ht => hm.1 t (List.mem_cons_of_mem _ ht))
        (hn _ (List.mem_cons_self ..)) (fields_stop _ _ _) (fields_stop _ _ _) h2
      obtain ⟨h5, h6⟩ := ih m false _ _ hl.2 hm.2 (fun p hp => hn p (List.mem_cons_of_mem _ hp)) h4
      exact ⟨by rw [show k = k' from h1, h3, h5], h6⟩

end Amqp
