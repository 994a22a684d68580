import Verif.Spec.Steady
import Verif.Proofs.EqualityLaws
/-!
# Steady values that are equal are the same
-/
set_option autoImplicit false
namespace Amqp

/-- `==` on steady values is identity. -/
class SteadyREq (α : Type) [REq α] [Holdable α] [Steadiness α] : Prop where
  same : ∀ a b : α, held a → held b → steady a → req a b = true → a = b

theorem steadyDec (α : Type) [DecidableEq α] :
    @SteadyREq α (.ofDec α) (.any α) (.any α) :=
  @SteadyREq.mk α (.ofDec α) (.any α) (.any α) (fun a b _ _ _ h => by simpa [req] using h)

instance : SteadyREq Bool := steadyDec _
instance : SteadyREq UInt8 := steadyDec _
instance : SteadyREq UInt16 := steadyDec _
instance : SteadyREq UInt32 := steadyDec _
instance : SteadyREq UInt64 := steadyDec _
instance : SteadyREq RStr := steadyDec _
instance : SteadyREq Symbol := steadyDec _
instance : SteadyREq Binary := steadyDec _
instance : SteadyREq DateTime := steadyDec _
instance : SteadyREq MessageId := steadyDec _
instance : SteadyREq ErrorCondition := steadyDec _
instance : SteadyREq DistributionMode := steadyDec _

theorem F32.feq_steady {x y : F32} (hx : x.Steady) (h : x.feq y = true) : x = y := by
  have h1 : x.isNaN = false := by simp [F32.isNaN]; exact hx.2
  have h2 : x.bits.toNat % 2147483648 ≠ 0 := hx.1
  unfold F32.feq at h
  rw [h1] at h
  cases hy : y.isNaN <;> rw [hy] at h
  · simp [h2] at h
    cases x; cases y; exact congrArg _ h
  · simp at h

theorem F64.feq_steady {x y : F64} (hx : x.Steady) (h : x.feq y = true) : x = y := by
  have h1 : x.isNaN = false := by simp [F64.isNaN]; exact hx.2
  have h2 : x.bits.toNat % 9223372036854775808 ≠ 0 := hx.1
  unfold F64.feq at h
  rw [h1] at h
  cases hy : y.isNaN <;> rw [hy] at h
  · simp [h2] at h
    cases x; cases y; exact congrArg _ h
  · simp at h

theorem steadyList_iff (l : List Variant) : steadyList l ↔ ∀ v ∈ l, v.Steady := by
  induction l with
  | nil => simp [steadyList]
  | cons e t ih => simp [steadyList, ih]
theorem steadyMap_iff (m : List (Variant × Variant)) :
    steadyMap m ↔ ∀ e ∈ m, e.1.Steady ∧ e.2.Steady := by
  induction m with
  | nil => simp [steadyMap]
  | cons e t ih => obtain ⟨k, v⟩ := e; simp [steadyMap, ih]

theorem All2.same {α : Type} {R : α → α → Prop} {l m : List α} (h : All2 R l m)
    (hs : ∀ x ∈ l, ∀ y ∈ m, R x y → x = y) : l = m := by
  induction h with
  | nil => rfl
  | @cons a b l m h _ ih =>
    rw [hs a (by simp) b (by simp) h, ih fun x hx y hy => hs x (by simp [hx]) y (by simp [hy])]

theorem perm_short {α : Type} {l m : List α} (p : l.Perm m) (h : m.length ≤ 1) : l = m := by
  match m, h with
  | [], _ => exact p.eq_nil
  | [x], _ => exact List.perm_singleton.1 p

theorem veq_steady (a : Variant) : ∀ b : Variant, a.Valid → b.Valid → a.Steady → a.veq b = true →
    a = b := by
  induction a using Variant.ind with
  | leaf v hl hm hd =>
    intro b _ _ hs h
    cases v <;> cases b <;> first | exact Bool.noConfusion h | skip
    all_goals first
      | rfl
      | (simp only [Variant.veq, beq_iff_eq] at h; rw [h])
      | exact congrArg _ (F32.feq_steady hs h)
      | exact congrArg _ (F64.feq_steady hs h)
      | exact absurd rfl (hl _)
      | exact absurd rfl (hm _)
      | exact absurd rfl (hd _ _)
  | list l ih =>
    intro b ha hb hs h
    cases b with
    | list l' =>
      simp only [Variant.Valid, validList_iff] at ha hb
      simp only [Variant.Steady, steadyList_iff] at hs
      simp only [Variant.veq, veqList_iff] at h
      rw [h.same fun x hx y hy hr => ih x hx y (ha x hx) (hb y hy) (hs x hx) hr]
    | _ => simp [Variant.veq] at h
  | map m ih =>
    intro b ha hb hs h
    cases b with
    | map m' =>
      simp only [Variant.Valid, validMap_iff] at ha hb
      simp only [Variant.Steady, steadyMap_iff] at hs
      rw [veq_map_iff ha.2 hb.2] at h
      obtain ⟨b', p, h⟩ := h
      have e := perm_short p (by rw [← p.length_eq, ← h.length]; exact hs.1)
      subst e
      rw [h.same fun x hx y hy hr => Prod.ext
        ((ih x hx).1 y.1 (ha.1 x hx).1 (hb.1 y hy).1 (hs.2 x hx).1 hr.1)
        ((ih x hx).2 y.2 (ha.1 x hx).2 (hb.1 y hy).2 (hs.2 x hx).2 hr.2)]
    | _ => simp [Variant.veq] at h
  | described d v ih =>
    intro b ha hb hs h
    cases b with
    | described d' v' =>
      simp only [Variant.Valid] at ha hb
      simp only [Variant.veq, Bool.and_eq_true, beq_iff_eq] at h
      rw [h.1, ih v' ha hb hs h.2]
    | _ => simp [Variant.veq] at h

instance : SteadyREq Variant := ⟨veq_steady⟩

instance {α : Type} [REq α] [Holdable α] [Steadiness α] [SteadyREq α] : SteadyREq (Option α) where
  same a b ha hb hs h := by
    cases a <;> cases b <;> first | rfl |
      exact congrArg some (SteadyREq.same (α := α) _ _ (ha _ rfl) (hb _ rfl) (hs _ rfl) h) |
      exact Bool.noConfusion h

instance {α : Type} [REq α] [Holdable α] [Steadiness α] [SteadyREq α] : SteadyREq (List α) where
  same a b ha hb hs h :=
    ((listReq_iff _ _ _).1 h).same fun x hx y hy hr =>
      SteadyREq.same x y (ha x hx) (hb y hy) (hs x hx) hr

instance {α : Type} [REq α] [Holdable α] [Steadiness α] [SteadyREq α] : SteadyREq (Multiple α) where
  same a b ha hb hs h := by
    have := SteadyREq.same a.items b.items ha hb hs h
    cases a; cases b; exact congrArg _ this
instance : SteadyREq VList where
  same a b ha hb hs h := by
    have := SteadyREq.same a.items b.items ha hb hs h
    cases a; cases b; exact congrArg _ this
instance : SteadyREq VecVariantMap where
  same a b ha hb hs h := by
    have := ((listReq_iff _ _ _).1 h).same fun x hx y hy hr => by
      simp only [Bool.and_eq_true, decide_eq_true_eq] at hr
      exact Prod.ext hr.1 (SteadyREq.same x.2 y.2 (ha x hx) (hb y hy) (hs x hx) hr.2)
    cases a; cases b; exact congrArg _ this

/-- Equal steady keys are the same. -/
class SteadyKey (K : Type) [HKey K] [Steadiness K] : Prop where
  same : ∀ a b : K, HKey.hashOk a = true → HKey.hashOk b = true → steady a → HKey.keq a b = true →
    a = b

instance : SteadyKey Variant :=
  ⟨fun a b ha hb hs h => veq_steady a b (valid_of_hashOk a ha) (valid_of_hashOk b hb) hs h⟩
instance : SteadyKey Symbol := ⟨fun a b _ _ _ h => by simpa [HKey.keq] using h⟩
instance : SteadyKey RStr := ⟨fun a b _ _ _ h => by simpa [HKey.keq] using h⟩

instance {K V : Type} [HKey K] [LawfulKey K] [REq V] [Holdable V] [Steadiness K] [Steadiness V]
    [SteadyKey K] [SteadyREq V] : SteadyREq (HMap K V) where
  same a b ha hb hs h := by
    obtain ⟨b', p, h⟩ := (mapReq_iff (held_entries ha) (held_entries hb)).1 h
    have e := perm_short p (by rw [← p.length_eq, ← h.length]; exact hs.1)
    subst e
    have := h.same fun x hx y hy hr => Prod.ext
      (SteadyKey.same _ _ (ha.1 x hx).1 (hb.1 y hy).1 (hs.2 x hx).1 hr.1)
      (SteadyREq.same _ _ (ha.1 x hx).2 (hb.1 y hy).2 (hs.2 x hx).2 hr.2)
    cases a; cases b; exact congrArg _ this

end Amqp
