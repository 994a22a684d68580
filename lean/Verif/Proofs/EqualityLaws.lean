import Verif.Spec.Equality
import Verif.Proofs.MapLaws
/-!
# Laws of `==`
-/
set_option autoImplicit false
namespace Amqp

class LawfulREq (α : Type) [REq α] [Holdable α] : Prop where
  refl : ∀ a : α, held a → req a a = true
  symm : ∀ a b : α, held a → held b → req a b = true → req b a = true
  trans : ∀ a b c : α, held a → held b → held c → req a b = true → req b c = true → req a c = true

class SizeREq (α : Type) [REq α] [Holdable α] [Encode α] : Prop where
  size_eq : ∀ a b : α, held a → held b → req a b = true → size a = size b

theorem lawfulDec (α : Type) [DecidableEq α] :
    @LawfulREq α (.ofDec α) (.any α) :=
  @LawfulREq.mk α (.ofDec α) (.any α) (fun a _ => by simp [req])
    (fun a b _ _ h => by simp [req] at h ⊢; exact h.symm)
    (fun a b c _ _ _ h h' => by simp [req] at h h' ⊢; exact h.trans h')

theorem sizeDec (α : Type) [DecidableEq α] [Encode α] :
    @SizeREq α (.ofDec α) (.any α) _ :=
  @SizeREq.mk α (.ofDec α) (.any α) _ (fun a b _ _ h => by
    have : a = b := by simpa [req] using h
    rw [this])

instance : LawfulREq Bool := lawfulDec _
instance : LawfulREq UInt8 := lawfulDec _
instance : LawfulREq UInt16 := lawfulDec _
instance : LawfulREq UInt32 := lawfulDec _
instance : LawfulREq UInt64 := lawfulDec _
instance : LawfulREq RStr := lawfulDec _
instance : LawfulREq Symbol := lawfulDec _
instance : LawfulREq Binary := lawfulDec _
instance : LawfulREq DateTime := lawfulDec _
instance : LawfulREq MessageId := lawfulDec _
instance : LawfulREq ErrorCondition := lawfulDec _
instance : LawfulREq DistributionMode := lawfulDec _
instance : SizeREq Bool := sizeDec _
instance : SizeREq UInt8 := sizeDec _
instance : SizeREq UInt16 := sizeDec _
instance : SizeREq UInt32 := sizeDec _
instance : SizeREq UInt64 := sizeDec _
instance : SizeREq RStr := sizeDec _
instance : SizeREq Symbol := sizeDec _
instance : SizeREq Binary := sizeDec _
instance : SizeREq DateTime := sizeDec _
instance : SizeREq MessageId := sizeDec _
instance : SizeREq ErrorCondition := sizeDec _
instance : SizeREq DistributionMode := sizeDec _

instance : LawfulREq Variant := ⟨veq_refl, veq_symm, veq_trans⟩

instance {α : Type} [REq α] [Holdable α] [LawfulREq α] : LawfulREq (Option α) where
  refl a h := by
    cases a with
    | none => rfl
    | some a => exact LawfulREq.refl a (h a rfl)
  symm a b ha hb h := by
    cases a <;> cases b <;> first | rfl | exact LawfulREq.symm (α := α) _ _ (ha _ rfl) (hb _ rfl) h | exact h
  trans a b c ha hb hc h h' := by
    cases a <;> cases b <;> first | exact Bool.noConfusion h |
      (cases c <;> first | rfl | exact LawfulREq.trans (α := α) _ _ _ (ha _ rfl) (hb _ rfl) (hc _ rfl) h h' |
        exact Bool.noConfusion h')

instance {α : Type} [REq α] [Holdable α] [Encode α] [SizeREq α] : SizeREq (Option α) where
  size_eq a b ha hb h := by
    cases a <;> cases b <;> first | rfl | exact SizeREq.size_eq (α := α) _ _ (ha _ rfl) (hb _ rfl) h |
      exact Bool.noConfusion h

theorem listReq_iff {α : Type} (eq : α → α → Bool) (l m : List α) :
    listReq eq l m = true ↔ All2 (fun a b => eq a b = true) l m := by
  induction l generalizing m with
  | nil =>
    cases m with
    | nil => simp [listReq]; exact .nil
    | cons b m => simp [listReq]; intro h; cases h
  | cons a l ih =>
    cases m with
    | nil => simp [listReq]; intro h; cases h
    | cons b m =>
      simp only [listReq, Bool.and_eq_true, ih]
      constructor
      · rintro ⟨h1, h2⟩; exact .cons h1 h2
      · intro h; cases h with | cons h1 h2 => exact ⟨h1, h2⟩

theorem listReq_laws {α : Type} (eq : α → α → Bool) (ok : α → Prop)
    (h1 : ∀ a, ok a → eq a a = true)
    (h2 : ∀ a b, ok a → ok b → eq a b = true → eq b a = true)
    (h3 : ∀ a b c, ok a → ok b → ok c → eq a b = true → eq b c = true → eq a c = true) :
    (∀ l : List α, (∀ a ∈ l, ok a) → listReq eq l l = true) ∧
    (∀ l m : List α, (∀ a ∈ l, ok a) → (∀ a ∈ m, ok a) → listReq eq l m = true →
      listReq eq m l = true) ∧
    (∀ l m n : List α, (∀ a ∈ l, ok a) → (∀ a ∈ m, ok a) → (∀ a ∈ n, ok a) →
      listReq eq l m = true → listReq eq m n = true → listReq eq l n = true) := by
  refine ⟨fun l h => ?_, fun l m hl hm h => ?_, fun l m n hl hm hn h h' => ?_⟩
  · rw [listReq_iff]; exact All2.refl fun a ha => h1 a (h a ha)
  · rw [listReq_iff] at h ⊢
    exact h.flip fun x hx y hy hr => h2 x y (hl x hx) (hm y hy) hr
  · rw [listReq_iff] at h h' ⊢
    exact h.comp h' fun x hx y hy z hz => h3 x y z (hl x hx) (hm y hy) (hn z hz)

instance {α : Type} [REq α] [Holdable α] [LawfulREq α] : LawfulREq (List α) :=
  have h := listReq_laws (α := α) req held LawfulREq.refl LawfulREq.symm LawfulREq.trans
  ⟨h.1, h.2.1, h.2.2⟩
instance {α : Type} [REq α] [Holdable α] [LawfulREq α] : LawfulREq (Multiple α) :=
  ⟨fun a => LawfulREq.refl a.items, fun a b => LawfulREq.symm a.items b.items,
    fun a b c => LawfulREq.trans a.items b.items c.items⟩
instance : LawfulREq VList :=
  ⟨fun a => LawfulREq.refl a.items, fun a b => LawfulREq.symm a.items b.items,
    fun a b c => LawfulREq.trans a.items b.items c.items⟩
instance : LawfulREq VecVariantMap :=
  have h := listReq_laws (α := Str × Variant) (fun x y => decide (x.1 = y.1) && req x.2 y.2)
    (fun e => held e.2)
    (fun a h => by simp only [decide_true, Bool.true_and]; exact LawfulREq.refl _ h)
    (fun a b ha hb h => by
      simp only [Bool.and_eq_true, decide_eq_true_eq] at h ⊢
      exact ⟨h.1.symm, LawfulREq.symm _ _ ha hb h.2⟩)
    (fun a b c ha hb hc h h' => by
      simp only [Bool.and_eq_true, decide_eq_true_eq] at h h' ⊢
      exact ⟨h.1.trans h'.1, LawfulREq.trans _ _ _ ha hb hc h.2 h'.2⟩)
  ⟨fun a => h.1 a.entries, fun a b => h.2.1 a.entries b.entries,
    fun a b c => h.2.2 a.entries b.entries c.entries⟩

/-! ### Maps -/

section
variable {K V : Type} [HKey K] [LawfulKey K]

/-- What the entries of every `HashMap` satisfy. -/
def EntriesOk (m : List (K × V)) : Prop := (∀ e ∈ m, HKey.hashOk e.1 = true) ∧ NodupKeys m

omit [LawfulKey K] in
theorem EntriesOk.tail {e : K × V} {m : List (K × V)} (h : EntriesOk (e :: m)) : EntriesOk m :=
  ⟨fun x hx => h.1 x (by simp [hx]), (List.pairwise_cons.1 h.2).2⟩

theorem EntriesOk.perm {m n : List (K × V)} (p : m.Perm n) (h : EntriesOk m) : EntriesOk n :=
  ⟨fun e he => h.1 e (p.mem_iff.2 he), nodupKeys_perm p h.1 h.2⟩

theorem EntriesOk.unique {m : List (K × V)} (h : EntriesOk m) {f g : K × V}
    (hf : f ∈ m) (hg : g ∈ m) (hv : HKey.keq f.1 g.1 = true) : f = g := by
  obtain ⟨hh, hn⟩ := h
  induction m with
  | nil => cases hf
  | cons x t ih =>
    have hp := List.pairwise_cons.1 hn
    rcases List.mem_cons.1 hf with rfl | hf' <;> rcases List.mem_cons.1 hg with rfl | hg'
    · rfl
    · have := LawfulKey.symm (hh f hf) (hh g hg) hv
      rw [hp.1 g hg'] at this; cases this
    · rw [hp.1 f hf'] at hv; cases hv
    · exact ih hf' hg' (fun e he => hh e (by simp [he])) hp.2

variable [REq V]

/-- Entries that correspond to each other. -/
def EntryReq (e f : K × V) : Prop := HKey.keq e.1 f.1 = true ∧ req e.2 f.2 = true

omit [LawfulKey K] in
theorem mapReq_all (a b : List (K × V)) : mapReq a b = true ↔ a.length = b.length ∧
    ∀ e ∈ a, ∃ w, findEntry (HKey.keq e.1) b = some w ∧ req e.2 w = true := by
  unfold mapReq
  rw [Bool.and_eq_true, beq_iff_eq, List.all_eq_true]
  refine and_congr_right fun _ => ?_
  constructor
  · intro h e he
    have := h e he
    cases hf : findEntry (HKey.keq e.1) b with
    | none => rw [hf] at this; cases this
    | some w => rw [hf] at this; exact ⟨w, rfl, this⟩
  · intro h e he
    obtain ⟨w, h1, h2⟩ := h e he
    rw [h1]; exact h2

theorem match_of_all {a b : List (K × V)} (ha : EntriesOk a) (hb : EntriesOk b)
    (hl : a.length = b.length)
    (h : ∀ e ∈ a, ∃ w, findEntry (HKey.keq e.1) b = some w ∧ req e.2 w = true) :
    ∃ b', b'.Perm b ∧ All2 EntryReq a b' := by
  induction a generalizing b with
  | nil =>
    have : b = [] := List.length_eq_zero_iff.1 hl.symm
    subst this
    exact ⟨[], .refl _, .nil⟩
  | cons e t ih =>
    obtain ⟨k, v⟩ := e
    obtain ⟨w, hw, hvw⟩ := h (k, v) (by simp)
    obtain ⟨b1, k', b2, rfl, hk, _⟩ := findEntry_some hw
    have hk' : HKey.hashOk k' = true := hb.1 (k', w) (by simp)
    have hkk : HKey.hashOk k = true := ha.1 (k, v) (by simp)
    have hb0 : EntriesOk (b1 ++ b2) := (hb.perm List.perm_middle).tail
    have hs : ∀ e ∈ t, ∃ w, findEntry (HKey.keq e.1) (b1 ++ b2) = some w ∧ req e.2 w = true := by
      intro e he
      obtain ⟨w2, h1, h2⟩ := h e (by simp [he])
      refine ⟨w2, ?_, h2⟩
      rw [findEntry_skip] at h1
      · exact h1
      · show HKey.keq e.1 k' = false
        cases hv : HKey.keq e.1 k' with
        | false => rfl
        | true =>
          have he' : HKey.hashOk e.1 = true := ha.1 e (by simp [he])
          have h3 := LawfulKey.trans he' hk' hkk hv (LawfulKey.symm hkk hk' hk)
          have h4 : HKey.keq e.1 k = false := (List.pairwise_cons.1 ha.2).1 e he
          rw [h3] at h4; cases h4
    obtain ⟨b', p, h2⟩ := ih ha.tail hb0 (by simp at hl ⊢; omega) hs
    exact ⟨(k', w) :: b', (p.cons _).trans List.perm_middle.symm, .cons ⟨hk, hvw⟩ h2⟩

/-- Two maps are equal exactly if a reordering of the second matches the first
entry by entry. -/
theorem mapReq_iff {a b : List (K × V)} (ha : EntriesOk a) (hb : EntriesOk b) :
    mapReq a b = true ↔ ∃ b', b'.Perm b ∧ All2 EntryReq a b' := by
  rw [mapReq_all]
  constructor
  · rintro ⟨h1, h2⟩; exact match_of_all ha hb h1 h2
  · rintro ⟨b', p, h⟩
    refine ⟨by rw [h.length, p.length_eq], fun e he => ?_⟩
    obtain ⟨f, hf, hkey, hval⟩ := h.left he
    have hfb := p.mem_iff.1 hf
    obtain ⟨g, hg, h1, h2⟩ := findEntry_mem hfb (p := HKey.keq e.1) hkey
    have hek := ha.1 e he
    have hfk := hb.1 f hfb
    have : f = g := hb.unique hfb hg
      (LawfulKey.trans hfk hek (hb.1 g hg) (LawfulKey.symm hek hfk hkey) h1)
    subst this
    exact ⟨f.2, h2, hval⟩

variable [Holdable V]

omit [LawfulKey K] [REq V] in
theorem held_entries {m : HMap K V} (h : held m) : EntriesOk m.entries :=
  ⟨fun e he => (h.1 e he).1, h.2⟩

instance [LawfulREq V] : LawfulREq (HMap K V) where
  refl a h := (mapReq_iff (held_entries h) (held_entries h)).2 ⟨_, .refl _, All2.refl fun e he =>
    ⟨LawfulKey.refl (h.1 e he).1, LawfulREq.refl _ (h.1 e he).2⟩⟩
  symm a b ha hb h := by
    obtain ⟨b', p, h⟩ := (mapReq_iff (held_entries ha) (held_entries hb)).1 h
    refine (mapReq_iff (held_entries hb) (held_entries ha)).2 ?_
    have h2 : All2 EntryReq b' a.entries := h.flip fun x hx y hy hr =>
      have hy' := hb.1 y (p.mem_iff.1 hy)
      ⟨LawfulKey.symm (ha.1 x hx).1 hy'.1 hr.1, LawfulREq.symm _ _ (ha.1 x hx).2 hy'.2 hr.2⟩
    obtain ⟨a', p', h3⟩ := h2.perm p
    exact ⟨a', p'.symm, h3⟩
  trans a b c ha hb hc h h' := by
    obtain ⟨b', p, h⟩ := (mapReq_iff (held_entries ha) (held_entries hb)).1 h
    obtain ⟨c', p', h'⟩ := (mapReq_iff (held_entries hb) (held_entries hc)).1 h'
    refine (mapReq_iff (held_entries ha) (held_entries hc)).2 ?_
    obtain ⟨c2, p2, h2⟩ := h'.perm p.symm
    refine ⟨c2, p2.symm.trans p', h.comp h2 fun x hx y hy z hz r1 r2 => ?_⟩
    have hx' := ha.1 x hx
    have hy' := hb.1 y (p.mem_iff.1 hy)
    have hz' := hc.1 z (p'.mem_iff.1 (p2.mem_iff.2 hz))
    exact ⟨LawfulKey.trans hx'.1 hy'.1 hz'.1 r1.1 r2.1, LawfulREq.trans _ _ _ hx'.2 hy'.2 hz'.2 r1.2 r2.2⟩

end

/-! ### Sizes -/

theorem mapContentSize_all2 {K V : Type} (ks : K → Nat) (vs : V → Nat) {R : K × V → K × V → Prop}
    {l m : List (K × V)} (h : All2 R l m)
    (hs : ∀ x ∈ l, ∀ y ∈ m, R x y → ks x.1 = ks y.1 ∧ vs x.2 = vs y.2) :
    mapContentSize ks vs l = mapContentSize ks vs m := by
  induction h with
  | nil => rfl
  | @cons a b l m h _ ih =>
    obtain ⟨k, v⟩ := a
    obtain ⟨k', v'⟩ := b
    have := hs _ (by simp) _ (by simp) h
    simp only [mapContentSize]
    rw [show ks k = ks k' from this.1, show vs v = vs v' from this.2,
      ih fun x hx y hy => hs x (by simp [hx]) y (by simp [hy])]

theorem vsizeMap_content (m : List (Variant × Variant)) :
    vsizeMap m = mapContentSize Variant.vsize Variant.vsize m := by
  induction m with
  | nil => simp [vsizeMap, mapContentSize]
  | cons e t ih => obtain ⟨k, v⟩ := e; simp [vsizeMap, mapContentSize, ih]

theorem vsizeList_all2 {R : Variant → Variant → Prop} {l m : List Variant} (h : All2 R l m)
    (hs : ∀ x ∈ l, ∀ y ∈ m, R x y → x.vsize = y.vsize) : vsizeList l = vsizeList m := by
  induction h with
  | nil => rfl
  | @cons a b l m h _ ih =>
    simp only [vsizeList]
    rw [hs _ (by simp) _ (by simp) h, ih fun x hx y hy => hs x (by simp [hx]) y (by simp [hy])]

theorem veq_vsize (a : Variant) : ∀ b : Variant, a.Valid → b.Valid → a.veq b = true →
    a.vsize = b.vsize := by
  induction a using Variant.ind with
  | leaf v hl hm hd =>
    intro b _ _ h
    cases v <;> cases b <;> first | exact Bool.noConfusion h | skip
    all_goals first
      | rfl
      | (simp only [Variant.veq, beq_iff_eq] at h; rw [h])
      | exact absurd rfl (hl _)
      | exact absurd rfl (hm _)
      | exact absurd rfl (hd _ _)
  | list l ih =>
    intro b ha hb h
    cases b with
    | list l' =>
      simp only [Variant.Valid, validList_iff] at ha hb
      simp only [Variant.veq, veqList_iff] at h
      simp only [Variant.vsize]
      rw [vsizeList_all2 h fun x hx y hy hr => ih x hx y (ha x hx) (hb y hy) hr]
    | _ => simp [Variant.veq] at h
  | map m ih =>
    intro b ha hb h
    cases b with
    | map m' =>
      simp only [Variant.Valid, validMap_iff] at ha hb
      rw [veq_map_iff ha.2 hb.2] at h
      obtain ⟨b', p, h⟩ := h
      simp only [Variant.vsize, vsizeMap_content]
      rw [← mapContentSize_perm _ _ p, mapContentSize_all2 _ _ h fun x hx y hy hr =>
        ⟨(ih x hx).1 y.1 (ha.1 x hx).1 (hb.1 y (p.mem_iff.1 hy)).1 hr.1,
         (ih x hx).2 y.2 (ha.1 x hx).2 (hb.1 y (p.mem_iff.1 hy)).2 hr.2⟩]
    | _ => simp [Variant.veq] at h
  | described d v ih =>
    intro b ha hb h
    cases b with
    | described d' v' =>
      simp only [Variant.Valid] at ha hb
      simp only [Variant.veq, Bool.and_eq_true, beq_iff_eq] at h
      simp only [Variant.vsize]
      rw [h.1, ih v' ha hb h.2]
    | _ => simp [Variant.veq] at h

instance : SizeREq Variant := ⟨veq_vsize⟩

theorem valid_of_hashOk (v : Variant) (h : v.hashOk = true) : v.Valid := by
  induction v using Variant.ind with
  | leaf v hl hm hd =>
    cases v <;> first
      | exact True.intro
      | exact absurd rfl (hl _)
      | exact absurd rfl (hm _)
      | exact absurd rfl (hd _ _)
  | list l ih =>
    simp only [Variant.Valid, validList_iff]
    simp only [Variant.hashOk] at h
    intro v hv
    refine ih v hv ?_
    clear ih
    induction l with
    | nil => cases hv
    | cons a t iht =>
      simp only [hashOkList, Bool.and_eq_true] at h
      rcases List.mem_cons.1 hv with rfl | hv
      · exact h.1
      · exact iht h.2 hv
  | map m ih => simp [Variant.hashOk] at h
  | described d v ih => simp only [Variant.Valid]; exact ih (by simpa [Variant.hashOk] using h)

/-- Equal keys have equal sizes. -/
class SizeKey (K : Type) [HKey K] [Encode K] : Prop where
  size_eq : ∀ a b : K, HKey.hashOk a = true → HKey.hashOk b = true → HKey.keq a b = true →
    size a = size b

instance : SizeKey Variant :=
  ⟨fun a b ha hb h => veq_vsize a b (valid_of_hashOk a ha) (valid_of_hashOk b hb) h⟩
instance : SizeKey Symbol := ⟨fun a b _ _ h => by
  have : a = b := by simpa [HKey.keq] using h
  rw [this]⟩
instance : SizeKey RStr := ⟨fun a b _ _ h => by
  have : a = b := by simpa [HKey.keq] using h
  rw [this]⟩

instance {K V : Type} [HKey K] [LawfulKey K] [REq V] [Holdable V] [Encode K] [Encode V] [SizeKey K]
    [SizeREq V] : SizeREq (HMap K V) where
  size_eq a b ha hb h := by
    obtain ⟨b', p, h⟩ := (mapReq_iff (held_entries ha) (held_entries hb)).1 h
    show compoundSize (mapContentSize size size a.entries) = compoundSize (mapContentSize size size b.entries)
    rw [← mapContentSize_perm _ _ p, mapContentSize_all2 _ _ h fun x hx y hy hr =>
      have hy' := hb.1 y (p.mem_iff.1 hy)
      ⟨SizeKey.size_eq _ _ (ha.1 x hx).1 hy'.1 hr.1, SizeREq.size_eq _ _ (ha.1 x hx).2 hy'.2 hr.2⟩]

instance : SizeREq (Multiple Symbol) where
  size_eq a b _ _ h := by
    have h : listReq req a.items b.items = true := h
    rw [listReq_iff] at h
    have key : ∀ {l m : List Symbol}, All2 (fun a b => req a b = true) l m → l = m := by
      intro l m h
      induction h with
      | nil => rfl
      | @cons a b _ _ h _ ih =>
        have : a = b := by simpa [req] using h
        rw [ih, this]
    have := key h
    cases a; cases b
    subst this
    rfl

instance : SizeREq VList where
  size_eq a b ha hb h := by
    have h : listReq req a.items b.items = true := h
    rw [listReq_iff] at h
    show compoundSize (vsizeList a.items) = compoundSize (vsizeList b.items)
    rw [vsizeList_all2 h fun x hx y hy hr => veq_vsize x y (ha x hx) (hb y hy) hr]

instance : SizeREq VecVariantMap where
  size_eq a b ha hb h := by
    have h : listReq _ a.entries b.entries = true := h
    rw [listReq_iff] at h
    show compoundSize (mapContentSize size size a.entries) = compoundSize (mapContentSize size size b.entries)
    rw [mapContentSize_all2 _ _ h fun x hx y hy hr => by
      simp only [Bool.and_eq_true, decide_eq_true_eq] at hr
      exact ⟨by rw [hr.1], SizeREq.size_eq _ _ (ha x hx) (hb y hy) hr.2⟩]

end Amqp
