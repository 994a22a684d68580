import Verif.Proofs.VariantExact
/-!
# Laws of `Variant ==`
-/
set_option autoImplicit false
namespace Amqp

/-! ### Normal forms of map-free variants -/

/-- One representative of each `OrderedFloat` class. -/
def F32.norm (x : F32) : F32 :=
  if x.isNaN then ⟨0x7fc00000⟩ else if x.bits.toNat % 0x80000000 = 0 then ⟨0⟩ else x
def F64.norm (x : F64) : F64 :=
  if x.isNaN then ⟨0x7ff8000000000000⟩
  else if x.bits.toNat % 0x8000000000000000 = 0 then ⟨0⟩ else x

theorem F32.isNaN_norm (x : F32) : x.norm.isNaN = x.isNaN := by
  unfold norm
  by_cases h : x.isNaN = true
  · rw [if_pos h, h]; decide
  · rw [if_neg h]
    split
    · simp only [Bool.not_eq_true] at h; rw [h]; decide
    · rfl

theorem F32.feq_iff (x y : F32) : x.feq y = true ↔ x.norm = y.norm := by
  have hnx := x.isNaN_norm
  have hny := y.isNaN_norm
  unfold feq
  by_cases hx : x.isNaN = true <;> by_cases hy : y.isNaN = true
  · simp [hx, hy, norm]
  · rw [if_pos hx]
    refine ⟨fun h => absurd h hy, fun h => ?_⟩
    rw [h, hny, hx] at hnx; exact hnx
  · rw [if_neg hx, if_pos hy]
    refine ⟨fun h => (by cases h), fun h => ?_⟩
    rw [h, hny] at hnx; exact absurd (hnx ▸ hy) hx
  · rw [if_neg hx, if_neg hy]
    obtain ⟨x⟩ := x; obtain ⟨y⟩ := y
    simp only [norm, if_neg hx, if_neg hy, Bool.or_eq_true, beq_iff_eq, Bool.and_eq_true]
    by_cases hzx : x.toNat % 0x80000000 = 0 <;> by_cases hzy : y.toNat % 0x80000000 = 0
    · simp [hzx, hzy]
    · simp only [hzx, hzy, if_true, if_false, and_false, or_false, F32.mk.injEq]
      constructor
      · rintro rfl; exact absurd hzx hzy
      · rintro rfl; exact absurd rfl hzy
    · simp only [hzx, hzy, if_true, if_false, false_and, or_false, F32.mk.injEq]
      constructor
      · rintro rfl; exact absurd hzy hzx
      · rintro rfl; exact absurd rfl hzx
    · simp only [hzx, hzy, if_false, false_and, or_false, F32.mk.injEq]

theorem F64.isNaN_norm (x : F64) : x.norm.isNaN = x.isNaN := by
  unfold norm
  by_cases h : x.isNaN = true
  · rw [if_pos h, h]; decide
  · rw [if_neg h]
    split
    · simp only [Bool.not_eq_true] at h; rw [h]; decide
    · rfl

theorem F64.feq_iff (x y : F64) : x.feq y = true ↔ x.norm = y.norm := by
  have hnx := x.isNaN_norm
  have hny := y.isNaN_norm
  unfold feq
  by_cases hx : x.isNaN = true <;> by_cases hy : y.isNaN = true
  · simp [hx, hy, norm]
  · rw [if_pos hx]
    refine ⟨fun h => absurd h hy, fun h => ?_⟩
    rw [h, hny, hx] at hnx; exact hnx
  · rw [if_neg hx, if_pos hy]
    refine ⟨fun h => (by cases h), fun h => ?_⟩
    rw [h, hny] at hnx; exact absurd (hnx ▸ hy) hx
  · rw [if_neg hx, if_neg hy]
    obtain ⟨x⟩ := x; obtain ⟨y⟩ := y
    simp only [norm, if_neg hx, if_neg hy, Bool.or_eq_true, beq_iff_eq, Bool.and_eq_true]
    by_cases hzx : x.toNat % 0x8000000000000000 = 0 <;> by_cases hzy : y.toNat % 0x8000000000000000 = 0
    · simp [hzx, hzy]
    · simp only [hzx, hzy, if_true, if_false, and_false, or_false, F64.mk.injEq]
      constructor
      · rintro rfl; exact absurd hzx hzy
      · rintro rfl; exact absurd rfl hzy
    · simp only [hzx, hzy, if_true, if_false, false_and, or_false, F64.mk.injEq]
      constructor
      · rintro rfl; exact absurd hzy hzx
      · rintro rfl; exact absurd rfl hzx
    · simp only [hzx, hzy, if_false, false_and, or_false, F64.mk.injEq]

mutual
/-- Replace every float by its representative (maps are left alone). -/
def Variant.norm : Variant → Variant
  | .float x => .float x.norm
  | .double x => .double x.norm
  | .list l => .list (normList l)
  | .described d v => .described d v.norm
  | .null => .null
  | .boolean a => .boolean a
  | .ubyte a => .ubyte a
  | .ushort a => .ushort a
  | .uint a => .uint a
  | .ulong a => .ulong a
  | .byte a => .byte a
  | .short a => .short a
  | .int a => .int a
  | .long a => .long a
  | .char a => .char a
  | .timestamp a => .timestamp a
  | .uuid a => .uuid a
  | .binary a => .binary a
  | .string a => .string a
  | .symbol a => .symbol a
  | .staticSymbol a => .staticSymbol a
  | .map a => .map a
def normList : List Variant → List Variant
  | [] => []
  | v :: t => v.norm :: normList t
end

mutual
theorem veq_iff_norm : ∀ (a : Variant), a.hashOk = true → ∀ b, a.veq b = true ↔ a.norm = b.norm
  | .map m, h, _ => by simp [Variant.hashOk] at h
  | .list l, h, b => by
    cases b with
    | list l' =>
      simp only [Variant.veq, Variant.norm, Variant.list.injEq]
      exact veqList_iff_norm l (by simpa [Variant.hashOk] using h) l'
    | _ => simp [Variant.veq, Variant.norm]
  | .described d v, h, b => by
    cases b with
    | described d' v' =>
      simp only [Variant.veq, Variant.norm, Variant.described.injEq, Bool.and_eq_true, beq_iff_eq]
      rw [veq_iff_norm v (by simpa [Variant.hashOk] using h) v']
    | _ => simp [Variant.veq, Variant.norm]
  | .float x, _, b => by cases b <;> simp [Variant.veq, Variant.norm, F32.feq_iff]
  | .double x, _, b => by cases b <;> simp [Variant.veq, Variant.norm, F64.feq_iff]
  | .null, _, b => by cases b <;> simp [Variant.veq, Variant.norm]
  | .boolean _, _, b => by cases b <;> simp [Variant.veq, Variant.norm]
  | .ubyte _, _, b => by cases b <;> simp [Variant.veq, Variant.norm]
  | .ushort _, _, b => by cases b <;> simp [Variant.veq, Variant.norm]
  | .uint _, _, b => by cases b <;> simp [Variant.veq, Variant.norm]
  | .ulong _, _, b => by cases b <;> simp [Variant.veq, Variant.norm]
  | .byte _, _, b => by cases b <;> simp [Variant.veq, Variant.norm]
  | .short _, _, b => by cases b <;> simp [Variant.veq, Variant.norm]
  | .int _, _, b => by cases b <;> simp [Variant.veq, Variant.norm]
  | .long _, _, b => by cases b <;> simp [Variant.veq, Variant.norm]
  | .char _, _, b => by cases b <;> simp [Variant.veq, Variant.norm]
  | .timestamp _, _, b => by cases b <;> simp [Variant.veq, Variant.norm]
  | .uuid _, _, b => by cases b <;> simp [Variant.veq, Variant.norm]
  | .binary _, _, b => by cases b <;> simp [Variant.veq, Variant.norm]
  | .string _, _, b => by cases b <;> simp [Variant.veq, Variant.norm]
  | .symbol _, _, b => by cases b <;> simp [Variant.veq, Variant.norm]
  | .staticSymbol _, _, b => by cases b <;> simp [Variant.veq, Variant.norm]
theorem veqList_iff_norm : ∀ (l : List Variant), hashOkList l = true → ∀ l',
    veqList l l' = true ↔ normList l = normList l'
  | [], _, l' => by cases l' <;> simp [veqList, normList]
  | a :: t, h, l' => by
    have h' : a.hashOk = true ∧ hashOkList t = true := by simpa [hashOkList] using h
    cases l' with
    | nil => simp [veqList, normList]
    | cons b t' =>
      simp only [veqList, normList, Bool.and_eq_true, List.cons.injEq]
      rw [veq_iff_norm a h'.1 b, veqList_iff_norm t h'.2 t']
end

/-- Equality of hashable variants, for use with keys. -/
theorem key_refl {a : Variant} (h : a.hashOk = true) : a.veq a = true := (veq_iff_norm a h a).2 rfl
theorem key_symm {a b : Variant} (ha : a.hashOk = true) (hb : b.hashOk = true)
    (h : a.veq b = true) : b.veq a = true :=
  (veq_iff_norm b hb a).2 ((veq_iff_norm a ha b).1 h).symm
theorem key_trans {a b c : Variant} (ha : a.hashOk = true) (hb : b.hashOk = true)
    (h1 : a.veq b = true) (h2 : b.veq c = true) : a.veq c = true :=
  (veq_iff_norm a ha c).2 (((veq_iff_norm a ha b).1 h1).trans ((veq_iff_norm b hb c).1 h2))

/-! ### Maps -/

/-- Two lists of the same length, related entry by entry. -/
inductive All2 {α β : Type} (R : α → β → Prop) : List α → List β → Prop
  | nil : All2 R [] []
  | cons {a b l m} (h : R a b) (t : All2 R l m) : All2 R (a :: l) (b :: m)

namespace All2
variable {α β γ : Type}

theorem length {R : α → β → Prop} {l : List α} {m : List β} (h : All2 R l m) :
    l.length = m.length := by
  induction h with
  | nil => rfl
  | cons _ _ ih => simp [ih]

theorem flip {R : α → β → Prop} {S : β → α → Prop} {l : List α} {m : List β} (h : All2 R l m)
    (hs : ∀ x ∈ l, ∀ y ∈ m, R x y → S y x) : All2 S m l := by
  induction h with
  | nil => exact nil
  | cons h t ih =>
    exact cons (hs _ (by simp) _ (by simp) h)
      (ih fun x hx y hy => hs x (by simp [hx]) y (by simp [hy]))

theorem comp {R : α → β → Prop} {S : β → γ → Prop} {T : α → γ → Prop} {l : List α} {m : List β}
    {n : List γ} (h1 : All2 R l m) (h2 : All2 S m n)
    (ht : ∀ x ∈ l, ∀ y ∈ m, ∀ z ∈ n, R x y → S y z → T x z) : All2 T l n := by
  induction h1 generalizing n with
  | nil => cases h2; exact nil
  | cons h t ih =>
    cases h2 with
    | cons h' t' =>
      exact cons (ht _ (by simp) _ (by simp) _ (by simp) h h')
        (ih t' fun x hx y hy z hz => ht x (by simp [hx]) y (by simp [hy]) z (by simp [hz]))

theorem refl {R : α → α → Prop} {l : List α} (h : ∀ x ∈ l, R x x) : All2 R l l := by
  induction l with
  | nil => exact nil
  | cons a t ih => exact cons (h a (by simp)) (ih fun x hx => h x (by simp [hx]))

theorem left {R : α → β → Prop} {l : List α} {m : List β} (h : All2 R l m) {x : α} (hx : x ∈ l) :
    ∃ y ∈ m, R x y := by
  induction h with
  | nil => cases hx
  | cons h t ih =>
    rcases List.mem_cons.1 hx with rfl | hx
    · exact ⟨_, by simp, h⟩
    · obtain ⟨y, hy, hr⟩ := ih hx; exact ⟨y, by simp [hy], hr⟩

theorem perm {R : α → β → Prop} {l l2 : List α} (hp : l.Perm l2) :
    ∀ {m : List β}, All2 R l m → ∃ m2, m.Perm m2 ∧ All2 R l2 m2 := by
  induction hp with
  | nil => intro m h; exact ⟨m, .refl _, h⟩
  | cons x _ ih =>
    intro m h
    cases h with
    | cons h t =>
      obtain ⟨m2, p, h2⟩ := ih t
      exact ⟨_ :: m2, p.cons _, cons h h2⟩
  | swap x y l =>
    intro m h
    cases h with
    | cons h t =>
      cases t with
      | cons h' t => exact ⟨_, .swap _ _ _, cons h' (cons h t)⟩
  | trans _ _ ih1 ih2 =>
    intro m h
    obtain ⟨m2, p, h2⟩ := ih1 h
    obtain ⟨m3, p', h3⟩ := ih2 h2
    exact ⟨m3, p.trans p', h3⟩

end All2

theorem findEntry_some {K V : Type} {p : K → Bool} {l : List (K × V)} {w : V}
    (h : findEntry p l = some w) : ∃ l1 k l2, l = l1 ++ (k, w) :: l2 ∧ p k = true ∧
      ∀ e ∈ l1, p e.1 = false := by
  induction l with
  | nil => cases h
  | cons e t ih =>
    obtain ⟨k, v⟩ := e
    unfold findEntry at h
    cases hk : p k with
    | true =>
      rw [if_pos hk] at h; injection h with h; subst h
      exact ⟨[], k, t, rfl, hk, by simp⟩
    | false =>
      rw [if_neg (by simp [hk])] at h
      obtain ⟨l1, k', l2, rfl, h1, h2⟩ := ih h
      refine ⟨(k, v) :: l1, k', l2, rfl, h1, fun e he => ?_⟩
      rcases List.mem_cons.1 he with rfl | he
      · exact hk
      · exact h2 e he

theorem findEntry_skip {K V : Type} {p : K → Bool} (l1 l2 : List (K × V)) (e : K × V)
    (h : p e.1 = false) : findEntry p (l1 ++ e :: l2) = findEntry p (l1 ++ l2) := by
  induction l1 with
  | nil => obtain ⟨k, v⟩ := e; simp only at h; simp [findEntry, h]
  | cons x t ih => obtain ⟨k, v⟩ := x; simp [findEntry, ih]

theorem findEntry_mem {K V : Type} {p : K → Bool} {l : List (K × V)} {e : K × V} (he : e ∈ l)
    (h : p e.1 = true) : ∃ f ∈ l, p f.1 = true ∧ findEntry p l = some f.2 := by
  induction l with
  | nil => cases he
  | cons x t ih =>
    obtain ⟨k, v⟩ := x
    cases hk : p k with
    | true => exact ⟨(k, v), by simp, hk, by simp [findEntry, hk]⟩
    | false =>
      rcases List.mem_cons.1 he with rfl | he
      · rw [h] at hk; cases hk
      · obtain ⟨f, hf, h1, h2⟩ := ih he
        exact ⟨f, by simp [hf], h1, by simp [findEntry, hk, h2]⟩

theorem subMap_iff (a b : List (Variant × Variant)) : subMap a b = true ↔
    ∀ e ∈ a, ∃ w, findEntry e.1.veq b = some w ∧ e.2.veq w = true := by
  induction a with
  | nil => simp [subMap]
  | cons e t ih =>
    obtain ⟨k, v⟩ := e
    simp only [subMap, Bool.and_eq_true, ih, List.mem_cons, forall_eq_or_imp]
    constructor
    · rintro ⟨h1, h2⟩
      refine ⟨?_, h2⟩
      cases hf : findEntry k.veq b with
      | none => rw [hf] at h1; cases h1
      | some w => rw [hf] at h1; exact ⟨w, rfl, h1⟩
    · rintro ⟨⟨w, h1, h1'⟩, h2⟩
      refine ⟨?_, h2⟩
      rw [h1]; exact h1'

/-- What every `HashMap<Variant, _>` satisfies. -/
def KeysOk (m : List (Variant × Variant)) : Prop :=
  (∀ e ∈ m, e.1.hashOk = true) ∧ NodupKeys m

theorem KeysOk.tail {e : Variant × Variant} {m : List (Variant × Variant)} (h : KeysOk (e :: m)) :
    KeysOk m := ⟨fun x hx => h.1 x (by simp [hx]), (List.pairwise_cons.1 h.2).2⟩

theorem KeysOk.perm {m n : List (Variant × Variant)} (p : m.Perm n) (h : KeysOk m) : KeysOk n := by
  refine ⟨fun e he => h.1 e (p.mem_iff.2 he), ?_⟩
  have key : ∀ {l : List (Variant × Variant)}, (∀ e ∈ l, e.1.hashOk = true) →
      (NodupKeys l ↔ l.Pairwise fun a b => a.1.norm ≠ b.1.norm) := by
    intro l hl
    unfold NodupKeys
    constructor
    · intro h
      refine List.Pairwise.imp_of_mem (fun {a b} ha hb hab => ?_) h
      intro e
      have := (veq_iff_norm b.1 (hl b hb) a.1).2 e.symm
      have hab' : b.1.veq a.1 = false := hab
      rw [this] at hab'; cases hab'
    · intro h
      refine List.Pairwise.imp_of_mem (fun {a b} ha hb hab => ?_) h
      show b.1.veq a.1 = false
      cases hv : b.1.veq a.1 with
      | false => rfl
      | true => exact absurd ((veq_iff_norm b.1 (hl b hb) a.1).1 hv).symm hab
  rw [key (fun e he => h.1 e (p.mem_iff.2 he))]
  exact (p.pairwise_iff (fun h => Ne.symm h)).1 ((key h.1).1 h.2)

theorem KeysOk.unique {m : List (Variant × Variant)} (h : KeysOk m) {f g : Variant × Variant}
    (hf : f ∈ m) (hg : g ∈ m) (hv : f.1.veq g.1 = true) : f = g := by
  obtain ⟨hh, hn⟩ := h
  induction m with
  | nil => cases hf
  | cons x t ih =>
    have hp := List.pairwise_cons.1 hn
    rcases List.mem_cons.1 hf with rfl | hf' <;> rcases List.mem_cons.1 hg with rfl | hg'
    · rfl
    · have := key_symm (hh f hf) (hh g hg) hv
      rw [show g.1.veq f.1 = false from hp.1 g hg'] at this; cases this
    · rw [show f.1.veq g.1 = false from hp.1 f hf'] at hv; cases hv
    · exact ih hf' hg' (fun e he => hh e (by simp [he])) hp.2

/-- Entries that correspond to each other. -/
def EntryEq (e f : Variant × Variant) : Prop := e.1.veq f.1 = true ∧ e.2.veq f.2 = true

theorem match_of_subMap {a b : List (Variant × Variant)} (ha : KeysOk a) (hb : KeysOk b)
    (hl : a.length = b.length) (h : subMap a b = true) : ∃ b', b'.Perm b ∧ All2 EntryEq a b' := by
  induction a generalizing b with
  | nil =>
    have : b = [] := List.length_eq_zero_iff.1 hl.symm
    subst this
    exact ⟨[], .refl _, .nil⟩
  | cons e t ih =>
    obtain ⟨k, v⟩ := e
    rw [subMap_iff] at h
    obtain ⟨w, hw, hvw⟩ := h (k, v) (by simp)
    obtain ⟨b1, k', b2, rfl, hk, _⟩ := findEntry_some hw
    have hk' : k'.hashOk = true := hb.1 (k', w) (by simp)
    have hkk : k.hashOk = true := ha.1 (k, v) (by simp)
    have hb0 : KeysOk (b1 ++ b2) := (hb.perm List.perm_middle).tail
    have hs : subMap t (b1 ++ b2) = true := by
      rw [subMap_iff]
      intro e he
      obtain ⟨w2, h1, h2⟩ := h e (by simp [he])
      refine ⟨w2, ?_, h2⟩
      rw [findEntry_skip] at h1
      · exact h1
      · show e.1.veq k' = false
        cases hv : e.1.veq k' with
        | false => rfl
        | true =>
          have he' : e.1.hashOk = true := ha.1 e (by simp [he])
          have h3 := key_trans he' hk' hv (key_symm hkk hk' hk)
          have h4 : e.1.veq k = false := (List.pairwise_cons.1 ha.2).1 e he
          rw [h3] at h4; cases h4
    obtain ⟨b', p, h2⟩ := ih ha.tail hb0 (by simp at hl ⊢; omega) hs
    exact ⟨(k', w) :: b', (p.cons _).trans List.perm_middle.symm, .cons ⟨hk, hvw⟩ h2⟩

theorem subMap_of_match {a b b' : List (Variant × Variant)} (ha : KeysOk a) (hb : KeysOk b)
    (p : b'.Perm b) (h : All2 EntryEq a b') : subMap a b = true := by
  rw [subMap_iff]
  intro e he
  obtain ⟨f, hf, hkey, hval⟩ := h.left he
  have hfb := p.mem_iff.1 hf
  obtain ⟨g, hg, h1, h2⟩ := findEntry_mem hfb (p := e.1.veq) hkey
  have hek := ha.1 e he
  have hfk := hb.1 f hfb
  have : f = g := hb.unique hfb hg (key_trans hfk hek (key_symm hek hfk hkey) h1)
  subst this
  exact ⟨f.2, h2, hval⟩

theorem veq_map_iff {a b : List (Variant × Variant)} (ha : KeysOk a) (hb : KeysOk b) :
    (Variant.map a).veq (.map b) = true ↔ ∃ b', b'.Perm b ∧ All2 EntryEq a b' := by
  simp only [Variant.veq, Bool.and_eq_true, beq_iff_eq]
  constructor
  · rintro ⟨h1, h2⟩; exact match_of_subMap ha hb h1 h2
  · rintro ⟨b', p, h⟩
    exact ⟨by rw [h.length, p.length_eq], subMap_of_match ha hb p h⟩

/-! ### The equivalence -/

theorem validMap_iff (m : List (Variant × Variant)) :
    validMap m ↔ ∀ e ∈ m, e.1.Valid ∧ e.2.Valid := by
  induction m with
  | nil => simp [validMap]
  | cons e t ih => obtain ⟨k, v⟩ := e; simp [validMap, ih]
theorem validList_iff (l : List Variant) : validList l ↔ ∀ v ∈ l, v.Valid := by
  induction l with
  | nil => simp [validList]
  | cons e t ih => simp [validList, ih]

theorem veqList_iff (l m : List Variant) :
    veqList l m = true ↔ All2 (fun a b => a.veq b = true) l m := by
  induction l generalizing m with
  | nil =>
    cases m with
    | nil => simp [veqList]; exact .nil
    | cons b m => simp [veqList]; intro h; cases h
  | cons a l ih =>
    cases m with
    | nil => simp [veqList]; intro h; cases h
    | cons b m =>
      simp only [veqList, Bool.and_eq_true, ih]
      constructor
      · rintro ⟨h1, h2⟩; exact .cons h1 h2
      · intro h; cases h with | cons h1 h2 => exact ⟨h1, h2⟩

theorem veq_leaf {v : Variant} (hm : ∀ m, v ≠ .map m) (hl : ∀ l, v ≠ .list l)
    (hd : ∀ d w, v ≠ .described d w) : v.hashOk = true := by
  cases v <;> simp_all [Variant.hashOk]

theorem veq_refl (v : Variant) (h : v.Valid) : v.veq v = true := by
  induction v using Variant.ind with
  | leaf v hl hm hd => exact key_refl (veq_leaf hm hl hd)
  | list l ih =>
    simp only [Variant.Valid, validList_iff] at h
    simp only [Variant.veq, veqList_iff]
    exact All2.refl fun x hx => ih x hx (h x hx)
  | map m ih =>
    simp only [Variant.Valid, validMap_iff] at h
    have hk : KeysOk m := h.2
    rw [veq_map_iff hk hk]
    exact ⟨m, .refl _, All2.refl fun e he => ⟨key_refl (hk.1 e he), (ih e he).2 (h.1 e he).2⟩⟩
  | described d v ih =>
    simp only [Variant.Valid] at h
    simp [Variant.veq, ih h]

theorem veq_symm (a : Variant) : ∀ b : Variant, a.Valid → b.Valid → a.veq b = true →
    b.veq a = true := by
  induction a using Variant.ind with
  | leaf v hl hm hd =>
    intro b _ _ h
    have h1 := veq_leaf hm hl hd
    have h2 : b.hashOk = true := by
      cases b with
      | list l => cases v <;> simp_all [Variant.veq]
      | map l => cases v <;> simp_all [Variant.veq]
      | described d w => cases v <;> simp_all [Variant.veq]
      | _ => rfl
    exact key_symm h1 h2 h
  | list l ih =>
    intro b ha hb h
    cases b with
    | list l' =>
      simp only [Variant.Valid, validList_iff] at ha hb
      simp only [Variant.veq, veqList_iff] at h ⊢
      exact h.flip fun x hx y hy hr => ih x hx y (ha x hx) (hb y hy) hr
    | _ => simp [Variant.veq] at h
  | map m ih =>
    intro b ha hb h
    cases b with
    | map m' =>
      simp only [Variant.Valid, validMap_iff] at ha hb
      rw [veq_map_iff ha.2 hb.2] at h
      rw [veq_map_iff hb.2 ha.2]
      obtain ⟨b', p, h⟩ := h
      have h2 : All2 EntryEq b' m := h.flip fun x hx y hy hr =>
        ⟨(ih x hx).1 y.1 (ha.1 x hx).1 (hb.1 y (p.mem_iff.1 hy)).1 hr.1,
         (ih x hx).2 y.2 (ha.1 x hx).2 (hb.1 y (p.mem_iff.1 hy)).2 hr.2⟩
      obtain ⟨a', p', h3⟩ := h2.perm p
      exact ⟨a', p'.symm, h3⟩
    | _ => simp [Variant.veq] at h
  | described d v ih =>
    intro b ha hb h
    cases b with
    | described d' v' =>
      simp only [Variant.Valid] at ha hb
      simp only [Variant.veq, Bool.and_eq_true, beq_iff_eq] at h ⊢
      exact ⟨h.1.symm, ih v' ha hb h.2⟩
    | _ => simp [Variant.veq] at h

theorem veq_trans (a : Variant) : ∀ b c : Variant, a.Valid → b.Valid → c.Valid →
    a.veq b = true → b.veq c = true → a.veq c = true := by
  induction a using Variant.ind with
  | leaf v hl hm hd =>
    intro b c _ _ _ h h'
    have h1 := veq_leaf hm hl hd
    have h2 : b.hashOk = true := by
      cases b with
      | list l => cases v <;> simp_all [Variant.veq]
      | map l => cases v <;> simp_all [Variant.veq]
      | described d w => cases v <;> simp_all [Variant.veq]
      | _ => rfl
    exact key_trans h1 h2 h h'
  | list l ih =>
    intro b c ha hb hc h h'
    cases b with
    | list l' =>
      cases c with
      | list l'' =>
        simp only [Variant.Valid, validList_iff] at ha hb hc
        simp only [Variant.veq, veqList_iff] at h h' ⊢
        exact h.comp h' fun x hx y hy z hz => ih x hx y z (ha x hx) (hb y hy) (hc z hz)
      | _ => simp [Variant.veq] at h'
    | _ => simp [Variant.veq] at h
  | map m ih =>
    intro b c ha hb hc h h'
    cases b with
    | map m' =>
      cases c with
      | map m'' =>
        simp only [Variant.Valid, validMap_iff] at ha hb hc
        rw [veq_map_iff ha.2 hb.2] at h
        rw [veq_map_iff hb.2 hc.2] at h'
        rw [veq_map_iff ha.2 hc.2]
        obtain ⟨b', p, h⟩ := h
        obtain ⟨c', p', h'⟩ := h'
        obtain ⟨c2, p2, h2⟩ := h'.perm p.symm
        refine ⟨c2, p2.symm.trans p', h.comp h2 fun x hx y hy z hz r1 r2 => ?_⟩
        have hy' := hb.1 y (p.mem_iff.1 hy)
        have hz' := hc.1 z (p'.mem_iff.1 (p2.mem_iff.2 hz))
        exact ⟨(ih x hx).1 y.1 z.1 (ha.1 x hx).1 hy'.1 hz'.1 r1.1 r2.1,
          (ih x hx).2 y.2 z.2 (ha.1 x hx).2 hy'.2 hz'.2 r1.2 r2.2⟩
      | _ => simp [Variant.veq] at h'
    | _ => simp [Variant.veq] at h
  | described d v ih =>
    intro b c ha hb hc h h'
    cases b with
    | described d' v' =>
      cases c with
      | described d'' v'' =>
        simp only [Variant.Valid] at ha hb hc
        simp only [Variant.veq, Bool.and_eq_true, beq_iff_eq] at h h' ⊢
        exact ⟨h.1.trans h'.1, ih v' v'' ha hb hc h.2 h'.2⟩
      | _ => simp [Variant.veq] at h'
    | _ => simp [Variant.veq] at h

end Amqp
