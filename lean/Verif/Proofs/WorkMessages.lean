import Verif.Spec.WorkMessages
import Verif.Proofs.WorkLists
/-!
# Bounds on the calls made for messages
-/
set_option autoImplicit false
namespace Amqp

mutual
/-- The calls that measure for the first time and are still to come. -/
def TransferBody.due : TransferBody → Nat
  | .Data _ => 0
  | .MessageIn m ms =>
    (if m.cache ≠ 0 then 0 else 1 + m.headMeasure + m.bodyMeasure + 2 * ms.length) + dueAll ms
  | .MessageOut m ms =>
    (if m.cache ≠ 0 then 0 else 1 + m.headMeasure + m.bodyMeasure + 2 * ms.length) + dueAll ms
def dueAll : List TransferBody → Nat
  | [] => 0
  | b :: t => b.due + dueAll t
end

mutual
/-- The other calls. -/
def TransferBody.toll : TransferBody → Nat
  | .Data _ => 1
  | .MessageIn m ms => m.headWrite + m.bodyMeasure + m.bodyWrite + 6 * ms.length + 5 + tollAll ms
  | .MessageOut m ms => m.headWrite + m.bodyMeasure + m.bodyWrite + 6 * ms.length + 5 + tollAll ms
def tollAll : List TransferBody → Nat
  | [] => 0
  | b :: t => b.toll + tollAll t
end

mutual
theorem touch_toll : ∀ b : TransferBody, b.touch.toll = b.toll
  | .Data _ => by simp [TransferBody.touch]
  | .MessageIn m ms => by
    simp only [TransferBody.touch]
    split
    · rfl
    · simp only [TransferBody.toll, touchAll_toll ms, touchAll_length]; rfl
  | .MessageOut m ms => by
    simp only [TransferBody.touch]
    split
    · rfl
    · simp only [TransferBody.toll, touchAll_toll ms, touchAll_length]; rfl
theorem touchAll_toll : ∀ ms : List TransferBody, tollAll (touchAll ms) = tollAll ms
  | [] => by simp [touchAll]
  | b :: t => by simp only [touchAll, tollAll, touch_toll b, touchAll_toll t]
end

theorem touch_sizeCalls (b : TransferBody) : b.touch.sizeCalls ≤ 2 := by
  cases b with
  | Data => simp [TransferBody.touch, TransferBody.sizeCalls]
  | MessageIn m ms =>
    simp only [TransferBody.touch]
    split
    · rename_i h
      simp only [TransferBody.sizeCalls, if_pos h, Nat.le_refl]
    · simp only [TransferBody.sizeCalls]
      rw [if_pos (Message.freshSize_pos _ _)]
      exact Nat.le_refl _
  | MessageOut m ms =>
    simp only [TransferBody.touch]
    split
    · rename_i h
      simp only [TransferBody.sizeCalls, if_pos h, Nat.le_refl]
    · simp only [TransferBody.sizeCalls]
      rw [if_pos (Message.freshSize_pos _ _)]
      exact Nat.le_refl _

mutual
theorem sizeCalls_due : ∀ b : TransferBody, b.sizeCalls + b.touch.due ≤ 2 + b.due
  | .Data _ => by simp [TransferBody.sizeCalls, TransferBody.touch, TransferBody.due]
  | .MessageIn m ms => by
    have := nestedSizeCalls_due ms
    simp only [TransferBody.sizeCalls, TransferBody.touch]
    split
    · simp
    · rename_i h
      simp only [TransferBody.due]
      rw [if_pos (Message.freshSize_pos _ _), if_neg h]
      omega
  | .MessageOut m ms => by
    have := nestedSizeCalls_due ms
    simp only [TransferBody.sizeCalls, TransferBody.touch]
    split
    · simp
    · rename_i h
      simp only [TransferBody.due]
      rw [if_pos (Message.freshSize_pos _ _), if_neg h]
      omega
theorem nestedSizeCalls_due : ∀ ms : List TransferBody,
    nestedSizeCalls ms + dueAll (touchAll ms) ≤ 2 * ms.length + dueAll ms
  | [] => by simp [nestedSizeCalls, touchAll]
  | b :: t => by
    have := sizeCalls_due b
    have := nestedSizeCalls_due t
    simp only [nestedSizeCalls, touchAll, dueAll, List.length_cons]
    omega
end

theorem nestedEncCalls_le (n : Nat)
    (ih : ∀ b : TransferBody, b.parts ≤ n → b.encCalls ≤ b.toll + b.due) :
    ∀ ms : List TransferBody, partsAll ms ≤ n →
      nestedEncCalls (touchAll ms) ≤ 4 * ms.length + tollAll ms + dueAll (touchAll ms)
  | [], _ => by simp [touchAll, nestedEncCalls]
  | b :: t, h => by
    simp only [partsAll] at h
    rw [touchAll, nestedEncCalls]
    have h1 := touch_sizeCalls b
    have h2 := ih b.touch (by rw [touch_parts]; omega)
    have h3 := nestedEncCalls_le n ih t (by omega)
    rw [touch_toll] at h2
    simp only [(touch_cached b).1, dueAll, tollAll, List.length_cons]
    omega

theorem encCalls_le : ∀ (n : Nat) (b : TransferBody), b.parts ≤ n → b.encCalls ≤ b.toll + b.due
  | 0, b, h => absurd b.parts_pos (by omega)
  | n + 1, b, h => by
    cases b with
    | Data => simp [TransferBody.encCalls, TransferBody.toll]
    | MessageIn m ms =>
      simp only [TransferBody.parts] at h
      have h1 := nestedEncCalls_le n (encCalls_le n) ms (by omega)
      have h2 := nestedSizeCalls_due ms
      rw [TransferBody.encCalls]
      simp only [TransferBody.toll, TransferBody.due]
      split <;> omega
    | MessageOut m ms =>
      simp only [TransferBody.parts] at h
      have h1 := nestedEncCalls_le n (encCalls_le n) ms (by omega)
      have h2 := nestedSizeCalls_due ms
      rw [TransferBody.encCalls]
      simp only [TransferBody.toll, TransferBody.due]
      split <;> omega

/-! ## In bytes -/

section
variable {α : Type} [Encode α] [EncodeC α] [Nesting α] [LawfulEnc α] [Keen α] {K : Nat}

theorem part_cost (v : α) (h : fixed α + nest v ≤ K) :
    2 * (measureC v).calls + (2 + (writeC v).calls) ≤ 3 * ((K + 3) * (enc v).length) := by
  have hb := (Keen.bound v).mono h
  rw [LawfulEnc.size_eq] at hb
  have h1 := hb.measure
  have h2 := hb.write
  have : (K + 3) * (enc v).length = (K + 1) * (enc v).length + 2 * (enc v).length := by
    rw [← Nat.add_mul]
  omega

omit [EncodeC α] [Nesting α] [LawfulEnc α] [Keen α] in
theorem sectionEnc_ge (c : UInt64) (v : α) : (enc v).length ≤ (sectionEnc c v).length := by
  simp only [sectionEnc, List.length_append]; omega

theorem opt_cost (e : Nat) (he : e ≤ 2) (f : α → Bytes) (hf : ∀ v, (enc v).length ≤ (f v).length)
    (o : Option α) (h : fixed α + nest o ≤ K) :
    2 * optMeasure o + optWrite e o ≤ 3 * ((K + 3) * (o.elim [] f).length) := by
  cases o with
  | none => exact Nat.zero_le _
  | some v =>
    have h1 := part_cost v h
    have h2 : (K + 3) * (enc v).length ≤ (K + 3) * (f v).length := Nat.mul_le_mul_left _ (hf v)
    show 2 * (measureC v).calls + (e + (writeC v).calls) ≤ 3 * ((K + 3) * (f v).length)
    omega

theorem all_cost (f : α → Bytes) (hf : ∀ v, (enc v).length ≤ (f v).length) :
    ∀ l : List α, fixed α + nestAll l ≤ K →
      2 * allMeasure l + allWrite 2 l ≤ 3 * ((K + 3) * (l.flatMap f).length)
  | [], _ => Nat.zero_le _
  | v :: t, h => by
    simp only [nestAll] at h
    have h1 := part_cost (K := K) v (by omega)
    have h2 := all_cost f hf t (by omega)
    have h3 : (K + 3) * (enc v).length ≤ (K + 3) * (f v).length := Nat.mul_le_mul_left _ (hf v)
    simp only [allMeasure, allWrite, List.flatMap_cons, List.length_append, Nat.mul_add]
    omega
end

section
variable {AP : Type} [Encode AP] [EncodeC AP] [Nesting AP] [LawfulEnc AP] [Keen AP] {K : Nat}

theorem head_cost (m : MsgHead AP) (ha : fixed AP ≤ 1) (h : 1 + m.levels ≤ K) :
    2 * m.headMeasure + m.headWrite ≤ 3 * ((K + 3) * (m.encPre.length + m.encPost.length)) := by
  unfold MsgHead.levels at h
  have f1 : fixed Header = 1 := rfl
  have f2 : fixed Annotations = 1 := rfl
  have f3 : fixed Properties = 1 := rfl
  have h1 := opt_cost (K := K) 0 (by omega) enc (fun _ => Nat.le_refl _) m.header (by omega)
  have h2 := opt_cost (K := K) 2 (by omega) _ (sectionEnc_ge 113) m.delivery_annotations (by omega)
  have h3 := opt_cost (K := K) 2 (by omega) _ (sectionEnc_ge 114) m.message_annotations (by omega)
  have h4 := opt_cost (K := K) 0 (by omega) enc (fun _ => Nat.le_refl _) m.properties (by omega)
  have h5 := opt_cost (K := K) 2 (by omega) _ (sectionEnc_ge 116) m.application_properties (by omega)
  have h6 := opt_cost (K := K) 2 (by omega) _ (sectionEnc_ge 120) m.footer (by omega)
  simp only [MsgHead.headMeasure, MsgHead.headWrite, MsgHead.encPre, MsgHead.encPost,
    List.length_append, Nat.mul_add (K + 3)]
  omega
end

theorem body_cost {AP : Type} [Nesting AP] {K : Nat} (m : MsgHead AP) (ms : List TransferBody)
    (nested : Bytes) (h : 1 + m.levels ≤ K) :
    (2 * m.bodyMeasure + m.bodyWrite + (if ms = [] then 0 else 3 * ((K + 3) * nested.length))) ≤
      3 * ((K + 3) * (bodyEncOrEmpty (bodySizeWith m.data m.sequence m.value (nestedSize ms))
        (bodyEncWith m.data m.sequence m.value nested)).length) := by
  unfold MsgHead.levels at h
  by_cases h0 : bodySizeWith m.data m.sequence m.value (nestedSize ms) = 0
  · unfold bodySizeWith at h0
    have := sectionsSize_ge m.data
    have := sectionsSize_ge m.sequence
    have := nestedSize_ge ms
    have hm : ms = [] := List.length_eq_zero_iff.1 (by omega)
    have hd : m.data = [] := List.length_eq_zero_iff.1 (by omega)
    have hq : m.sequence = [] := List.length_eq_zero_iff.1 (by omega)
    have hv : m.value = none := by
      cases hv : m.value with
      | none => rfl
      | some v => rw [hv] at h0; simp [sectionPrefixLength] at h0
    rw [if_pos hm]
    simp only [MsgHead.bodyMeasure, MsgHead.bodyWrite, hd, hq, hv, allMeasure, allWrite, optMeasure, optWrite]
    omega
  · rw [bodyEncOrEmpty, if_neg h0]
    have f1 : fixed Binary = 0 := rfl
    have f2 : fixed VList = 1 := rfl
    have f3 : fixed Variant = 0 := rfl
    have h1 := all_cost (K := K) _ (sectionEnc_ge 117) m.data (by omega)
    have h2 := all_cost (K := K) _ (sectionEnc_ge 118) m.sequence (by omega)
    have h3 := opt_cost (K := K) 2 (by omega) _ (sectionEnc_ge 119) m.value (by omega)
    simp only [bodyEncWith, MsgHead.bodyMeasure, MsgHead.bodyWrite, List.length_append, Nat.mul_add (K + 3)]
    split <;> omega

mutual
theorem cost_le (K : Nat) : ∀ b : TransferBody, 1 + b.levels ≤ K →
    b.toll + b.due ≤ 3 * ((K + 3) * b.tenc.length) + 6
  | .Data _, _ => by simp only [TransferBody.toll, TransferBody.due]; omega
  | .MessageIn m ms, h => by
    simp only [TransferBody.levels] at h
    have h1 := head_cost (K := K) m (by decide) (by omega)
    have h2 := body_cost (K := K) m ms (nestedEnc ms) (by omega)
    have h3 := costAll_le K ms (by omega)
    have h4 : ms = [] → nestedEnc ms = [] := fun e => by rw [e, nestedEnc]
    simp only [TransferBody.toll, TransferBody.due, TransferBody.tenc, List.length_append,
      Nat.mul_add (K + 3)] at *
    by_cases e : ms = []
    · rw [if_pos e] at h2
      rw [h4 e] at h3
      simp only [List.length_nil, Nat.mul_zero] at h3
      split <;> omega
    · rw [if_neg e] at h2
      split <;> omega
  | .MessageOut m ms, h => by
    simp only [TransferBody.levels] at h
    have h1 := head_cost (K := K) m (by decide) (by omega)
    have h2 := body_cost (K := K) m ms (nestedEnc ms) (by omega)
    have h3 := costAll_le K ms (by omega)
    have h4 : ms = [] → nestedEnc ms = [] := fun e => by rw [e, nestedEnc]
    simp only [TransferBody.toll, TransferBody.due, TransferBody.tenc, List.length_append,
      Nat.mul_add (K + 3)] at *
    by_cases e : ms = []
    · rw [if_pos e] at h2
      rw [h4 e] at h3
      simp only [List.length_nil, Nat.mul_zero] at h3
      split <;> omega
    · rw [if_neg e] at h2
      split <;> omega
theorem costAll_le (K : Nat) : ∀ ms : List TransferBody, 1 + levelsAll ms ≤ K →
    tollAll ms + dueAll ms + 8 * ms.length ≤ 3 * ((K + 3) * (nestedEnc ms).length)
  | [], _ => by simp [tollAll, dueAll]
  | b :: t, h => by
    simp only [levelsAll] at h
    have h1 := cost_le K b (by omega)
    have h2 := costAll_le K t (by omega)
    have h3 : 3 ≤ (enc (Descriptor.ulong 117)).length := by decide
    have h4 : 3 * 3 ≤ (K + 3) * (enc (Descriptor.ulong 117)).length := Nat.mul_le_mul (by omega) h3
    simp only [tollAll, dueAll, nestedEnc, List.length_append, List.length_cons, Nat.mul_add (K + 3)]
    omega
end

/-- The calls made to measure a transfer body, measure it again, and write it. -/
theorem body_send (b : TransferBody) :
    b.sizeCalls + b.touch.sizeCalls + b.touch.encCalls ≤
      3 * ((b.levels + 4) * b.tenc.length) + 10 := by
  have h1 := sizeCalls_due b
  have h2 := touch_sizeCalls b
  have h3 := encCalls_le _ b.touch (Nat.le_refl _)
  have h4 := cost_le (b.levels + 1) b (by omega)
  rw [touch_toll] at h3
  rw [show b.levels + 1 + 3 = b.levels + 4 from rfl] at h4
  omega

/-- The calls made to write it. -/
theorem body_write (b : TransferBody) : b.sizeCalls ≤ 3 * ((b.levels + 4) * b.tenc.length) + 8 ∧
    b.encCalls ≤ 3 * ((b.levels + 4) * b.tenc.length) + 6 := by
  have h1 := sizeCalls_due b
  have h3 := encCalls_le _ b (Nat.le_refl _)
  have h4 := cost_le (b.levels + 1) b (by omega)
  rw [show b.levels + 1 + 3 = b.levels + 4 from rfl] at h4
  omega

end Amqp
