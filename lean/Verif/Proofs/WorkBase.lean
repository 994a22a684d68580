import Verif.Protocol.WorkBase
import Verif.Spec.WorkBase
import Verif.Props.Work
/-!
# Bounds on the calls made for fields
-/
set_option autoImplicit false
namespace Amqp

/-- `m` calls to measure `s` bytes and `w` to write them, `k` levels deep. -/
structure Within (k m w s : Nat) : Prop where
  measure : m ≤ 3 * s
  write : w ≤ 3 * ((k + 1) * s)

/-- The same with a call to spare. -/
structure Under (k m w s : Nat) : Prop where
  measure : m + 1 ≤ 3 * s
  write : w + 1 ≤ 3 * ((k + 1) * s)

theorem Under.within {k m w s : Nat} (h : Under k m w s) : Within k m w s :=
  ⟨by have := h.measure; omega, by have := h.write; omega⟩

theorem Within.mono {j k m w s : Nat} (h : Within j m w s) (hk : j ≤ k) : Within k m w s :=
  ⟨h.measure, Nat.le_trans h.write
    (Nat.mul_le_mul_left _ (Nat.mul_le_mul_right _ (Nat.add_le_add_right hk 1)))⟩
theorem Under.mono {j k m w s : Nat} (h : Under j m w s) (hk : j ≤ k) : Under k m w s :=
  ⟨h.measure, Nat.le_trans h.write
    (Nat.mul_le_mul_left _ (Nat.mul_le_mul_right _ (Nat.add_le_add_right hk 1)))⟩

theorem Within.add {k m w s m' w' s' : Nat} (h : Within k m w s) (g : Within k m' w' s') :
    Within k (m + m') (w + w') (s + s') :=
  ⟨by have := h.measure; have := g.measure; omega,
   by have := h.write; have := g.write; rw [Nat.mul_add (k + 1)]; omega⟩

theorem Within.zero (k : Nat) : Within k 0 0 0 := ⟨Nat.zero_le _, Nat.zero_le _⟩

/-- Around some fields: everything is measured once more. -/
theorem Within.around {k m w s S c : Nat} (h : Within k m w s) (hc : c ≤ 3) (hS : s + 3 ≤ S) :
    Under (k + 1) (1 + m) (c + m + w) S := by
  have h1 := h.measure
  have h2 := h.write
  refine ⟨by omega, ?_⟩
  have h3 : (k + 1 + 1) * (s + 3) ≤ (k + 1 + 1) * S := Nat.mul_le_mul_left _ hS
  have h4 : (k + 1 + 1) * (s + 3) = (k + 1) * s + s + (k + 1 + 1) * 3 := by
    rw [Nat.mul_add, Nat.add_mul (k + 1) 1 s]; omega
  omega

theorem listSize_ge (n : Nat) : n + 3 ≤ listSize n := by unfold listSize; split <;> omega
theorem compoundSize_ge (n : Nat) : n + 3 ≤ compoundSize n := by unfold compoundSize; split <;> omega

theorem Within.pair {f n m w s f' n' m' w' s' : Nat} (h : Within (f + n) m w s)
    (g : Within (f' + n') m' w' s') : Within (max f f' + max n n') (m + m') (w + w') (s + s') :=
  (h.mono (by omega)).add (g.mono (by omega))

theorem Within.list {f n m w s : Nat} (h : Within (f + n) m w s) :
    Under (1 + f + n) (1 + m) (3 + m + w) (listSize s) := by
  have := h.around (c := 3) (by omega) (listSize_ge s)
  rwa [show f + n + 1 = 1 + f + n from by omega] at this

theorem Under.conv {j k m w s m' w' : Nat} (h : Under j m w s) (hk : j = k) (hm : m = m')
    (hw : w = w') : Under k m' w' s := by subst hk hm hw; exact h

theorem Under.section {k m w s : Nat} (h : Under k m w s) : Under k (1 + m) (3 + w) (3 + s) := by
  have h1 := h.measure
  have h2 := h.write
  refine ⟨by omega, ?_⟩
  rw [Nat.mul_add, Nat.add_mul k 1 3]
  omega

/-- Few enough calls for a type with at least `n` bytes. -/
theorem Under.small {k m w s : Nat} (hs : 1 ≤ s) (hm : m ≤ 2) (hw : w + 1 ≤ 3 * s) : Under k m w s := by
  refine ⟨by omega, ?_⟩
  have : 1 * s ≤ (k + 1) * s := Nat.mul_le_mul_right _ (by omega)
  omega

/-- The counting functions compute the same, and make few calls. -/
class Diligent (α : Type) [Encode α] [EncodeC α] [Nesting α] : Prop where
  same_size : ∀ v : α, (measureC v).val = size v
  same_enc : ∀ v : α, (writeC v).val = enc v
  bound : ∀ v : α, Within (fixed α + nest v) (measureC v).calls (writeC v).calls (size v)

class Keen (α : Type) [Encode α] [EncodeC α] [Nesting α] : Prop where
  same_size : ∀ v : α, (measureC v).val = size v
  same_enc : ∀ v : α, (writeC v).val = enc v
  bound : ∀ v : α, Under (fixed α + nest v) (measureC v).calls (writeC v).calls (size v)

instance {α : Type} [Encode α] [EncodeC α] [Nesting α] [Keen α] : Diligent α :=
  ⟨Keen.same_size, Keen.same_enc, fun v => (Keen.bound v).within⟩

theorem keenOver (α : Type) [Encode α] [Nesting α] (m w : Nat) (hm : m ≤ 2)
    (hs : ∀ v : α, 1 ≤ size v ∧ w + 1 ≤ 3 * size v) :
    @Keen α _ (.over α m w) _ :=
  @Keen.mk α _ (.over α m w) _ (fun _ => rfl) (fun _ => rfl)
    (fun v => Under.small (hs v).1 hm (hs v).2)

theorem varSize_two (n : Nat) : 2 ≤ varSize n := by unfold varSize; split <;> omega

instance : Keen Bool := keenOver _ 1 1 (by omega) (fun v => by cases v <;> decide)
instance : Keen UInt8 := keenOver _ 1 1 (by omega) (fun v => by simp [size, asize])
instance : Keen UInt16 := keenOver _ 1 1 (by omega) (fun v => by simp [size, asize])
instance : Keen UInt32 := keenOver _ 1 1 (by omega) (fun v => by simp only [size]; repeat' split
                                                                 all_goals omega)
instance : Keen UInt64 := keenOver _ 1 1 (by omega) (fun v => by simp only [size]; repeat' split
                                                                 all_goals omega)
instance : Keen DateTime := keenOver _ 1 1 (by omega) (fun v => by simp [size, asize])
instance : Keen Binary := keenOver _ 1 1 (by omega) (fun v => by
  have : 2 ≤ size v := varSize_two _
  omega)
instance : Keen RStr := keenOver _ 2 2 (by omega) (fun v => by
  have : 2 ≤ size v := varSize_two _
  omega)
instance : Keen Symbol := keenOver _ 1 1 (by omega) (fun v => by
  have : 2 ≤ size v := varSize_two _
  omega)
instance : Keen MessageId := keenOver _ 2 2 (by omega) (fun v => by
  have : 1 ≤ size v := by
    cases v with
    | Ulong v => have : 1 ≤ size v := by { simp only [size]; repeat' split
                                           all_goals omega }
                 exact this
    | Uuid v => have : 1 ≤ size v := by simp [size, asize]
                exact this
    | Binary v => have : 2 ≤ size v := varSize_two _
                  exact Nat.le_trans (by decide) this
    | String v => have : 2 ≤ size v := varSize_two _
                  exact Nat.le_trans (by decide) this
  omega)

theorem static_ge (s : RStr) : 2 ≤ sizeStaticSymbol s := by unfold sizeStaticSymbol; exact varSize_two _

instance : Keen ErrorCondition := keenOver _ 2 3 (by omega) (fun v => by
  have : 2 ≤ size v := by
    cases v with
    | AmqpError v => cases v <;> decide
    | ConnectionError v => cases v <;> decide
    | SessionError v => cases v <;> decide
    | LinkError v => cases v <;> decide
    | Custom v => exact varSize_two _
  omega)
instance : Keen DistributionMode := keenOver _ 2 2 (by omega) (fun v => by
  have : 2 ≤ size v := by
    cases v with
    | Custom v => exact varSize_two _
    | _ => decide
  omega)

instance : Keen Variant where
  same_size := sizeC_val
  same_enc := encC_val
  bound v := by
    have h1 := sizeC_calls v
    have h2 := encC_calls v
    have h3 := Nat.mul_le_mul_left (v.levels + 1) h1
    have h4 : 1 ≤ size v := by
      have := Variant.venc_ne v
      have : v.vsize = v.venc.length := Variant.vsize_eq v
      have : 0 < v.venc.length := List.length_pos_iff.2 (Variant.venc_ne v)
      show 1 ≤ v.vsize
      omega
    have h5 : 1 * size v ≤ (v.levels + 1) * size v := Nat.mul_le_mul_right _ (by omega)
    have e : fixed Variant + nest v = v.levels := Nat.zero_add _
    rw [e]
    refine ⟨?_, ?_⟩
    · show v.sizeC.calls + 1 ≤ _; omega
    · show v.encC.calls + 1 ≤ _; omega

instance {α : Type} [Encode α] [EncodeC α] [Nesting α] [Keen α] : Diligent (Option α) where
  same_size
    | some v => Keen.same_size v
    | none => rfl
  same_enc
    | some v => Keen.same_enc v
    | none => rfl
  bound
    | some v => by
      have h := Keen.bound v
      refine ⟨?_, ?_⟩
      · show 1 + (measureC v).calls ≤ 3 * size v
        have := h.measure; omega
      · show 1 + (writeC v).calls ≤ 3 * ((fixed α + nest v + 1) * size v)
        have := h.write; omega
    | none => by
      have : 1 * 1 ≤ (fixed α + 0 + 1) * 1 := Nat.mul_le_mul_right _ (by omega)
      exact ⟨by show 1 ≤ 3 * 1; omega, by show 1 ≤ 3 * ((fixed α + 0 + 1) * 1); omega⟩

instance : Keen (Multiple Symbol) where
  same_size m := by
    obtain ⟨items⟩ := m
    match items with
    | [] => rfl
    | [x] => rfl
    | _ :: _ :: _ => rfl
  same_enc m := by
    obtain ⟨items⟩ := m
    match items with
    | [] => rfl
    | [x] => rfl
    | _ :: _ :: _ => rfl
  bound m := by
    obtain ⟨items⟩ := m
    have hv : items.length + 4 ≤ size (Vec.mk items) := by
      have := arrayContentSize_ge items
      simp only [size]; split <;> omega
    have e : fixed (Multiple Symbol) + nest (Multiple.mk items) = 0 := rfl
    rw [e]
    match items, hv with
    | [], hv => exact ⟨by decide, by decide⟩
    | [x], _ =>
      have : 2 ≤ size x := varSize_two _
      refine ⟨?_, ?_⟩
      · show 1 + 1 + 1 ≤ 3 * size x; omega
      · show 1 + 1 + 1 ≤ 3 * ((0 + 1) * size x); omega
    | x :: y :: t, hv =>
      refine ⟨?_, ?_⟩
      · show 2 + (x :: y :: t).length + 1 ≤ 3 * size (Vec.mk (x :: y :: t)); omega
      · show 2 + 2 * (x :: y :: t).length + 1 ≤ 3 * ((0 + 1) * size (Vec.mk (x :: y :: t))); omega

section
variable {K V : Type} [Encode K] [Encode V] [EncodeC K] [EncodeC V] [Nesting K] [Nesting V]
  [Diligent K] [Diligent V]

theorem entriesMeasureC_val : ∀ l : List (K × V), (entriesMeasureC l).val = mapContentSize size size l
  | [] => rfl
  | (k, v) :: t => by
    simp only [entriesMeasureC, mapContentSize, Diligent.same_size, entriesMeasureC_val t]
theorem entriesWriteC_val : ∀ l : List (K × V), (entriesWriteC l).val = mapContent enc enc l
  | [] => rfl
  | (k, v) :: t => by
    simp only [entriesWriteC, mapContent, Diligent.same_enc, entriesWriteC_val t]
theorem entries_within : ∀ l : List (K × V),
    Within (max (fixed K) (fixed V) + nestEntries l) (entriesMeasureC l).calls (entriesWriteC l).calls
      (mapContentSize size size l)
  | [] => Within.zero _
  | (k, v) :: t => by
    have h1 := (Diligent.bound k).mono (k := max (fixed K) (fixed V) + nestEntries ((k, v) :: t))
      (by simp only [nestEntries]; omega)
    have h2 := (Diligent.bound v).mono (k := max (fixed K) (fixed V) + nestEntries ((k, v) :: t))
      (by simp only [nestEntries]; omega)
    have h3 := (entries_within t).mono (k := max (fixed K) (fixed V) + nestEntries ((k, v) :: t))
      (by simp only [nestEntries]; omega)
    exact (h1.add h2).add h3

instance : Keen (HMap K V) where
  same_size m := congrArg compoundSize (entriesMeasureC_val m.entries)
  same_enc m := by
    show compoundHdr _ _ (entriesMeasureC m.entries).val _ ++ (entriesWriteC m.entries).val = _
    rw [entriesMeasureC_val, entriesWriteC_val]; rfl
  bound m := by
    have h := (entries_within m.entries).around (c := 1) (by omega) (compoundSize_ge _)
    exact h.conv (by show _ = 1 + max (fixed K) (fixed V) + nestEntries m.entries; omega) rfl rfl
end

instance : Keen VecVariantMap where
  same_size m := congrArg compoundSize (entriesMeasureC_val m.entries)
  same_enc m := by
    show compoundHdr _ _ (entriesMeasureC m.entries).val _ ++ (entriesWriteC m.entries).val = _
    rw [entriesMeasureC_val, entriesWriteC_val]; rfl
  bound m := by
    have h := (entries_within m.entries).around (c := 1) (by omega) (compoundSize_ge _)
    exact h.conv (by show max 0 0 + nestEntries m.entries + 1 = 1 + nestEntries m.entries; omega) rfl rfl

instance : Keen VList where
  same_size l := congrArg compoundSize (sizeListC_val l.items)
  same_enc l := by
    show compoundHdr _ _ (sizeListC l.items).val _ ++ (encListC l.items).val = _
    rw [sizeListC_val, encListC_val]; rfl
  bound l := by
    have h1 := sizeListC_calls l.items
    have h2 := encListC_calls l.items
    have h3 := Nat.mul_le_mul_left (levelsList l.items + 1) h1
    have h : Within (levelsList l.items) (sizeListC l.items).calls (encListC l.items).calls
        (vsizeList l.items) := ⟨by omega, by omega⟩
    have := h.around (c := 1) (by omega) (compoundSize_ge _)
    exact this.conv (by show _ = 1 + levelsList l.items; omega) rfl rfl

end Amqp
