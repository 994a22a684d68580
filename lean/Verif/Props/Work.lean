import Verif.Spec.Work
import Verif.Props.Values
import Verif.Proofs.CacheLaws
/-!
# C64: the work of encoding
-/
set_option autoImplicit false
namespace Amqp

/-! ## The counting encoders compute the same -/

mutual
theorem sizeC_val : ∀ v : Variant, v.sizeC.val = size v
  | .list l => by
    show (Variant.sizeC _).val = Variant.vsize _
    simp only [Variant.sizeC, Variant.vsize, sizeListC_val l]
  | .map m => by
    show (Variant.sizeC _).val = Variant.vsize _
    simp only [Variant.sizeC, Variant.vsize, sizeMapC_val m]
  | .described d v => by
    show (Variant.sizeC _).val = Variant.vsize _
    simp only [Variant.sizeC, Variant.vsize, sizeC_val v]; rfl
  | .null | .boolean _ | .ubyte _ | .ushort _ | .uint _ | .ulong _ | .byte _ | .short _ | .int _
  | .long _ | .float _ | .double _ | .char _ | .timestamp _ | .uuid _ | .binary _ | .string _
  | .symbol _ | .staticSymbol _ => by simp only [Variant.sizeC]; rfl
theorem sizeListC_val : ∀ l : List Variant, (sizeListC l).val = vsizeList l
  | [] => by simp [sizeListC, vsizeList]
  | v :: t => by simp only [sizeListC, vsizeList, sizeC_val v, sizeListC_val t]; rfl
theorem sizeMapC_val : ∀ l : List (Variant × Variant), (sizeMapC l).val = vsizeMap l
  | [] => by simp [sizeMapC, vsizeMap]
  | (k, v) :: t => by
    simp only [sizeMapC, vsizeMap, sizeC_val k, sizeC_val v, sizeMapC_val t]; rfl
end

mutual
theorem encC_val : ∀ v : Variant, v.encC.val = enc v
  | .list l => by
    show (Variant.encC _).val = Variant.venc _
    simp only [Variant.encC, Variant.venc, sizeListC_val l, encListC_val l]
  | .map m => by
    show (Variant.encC _).val = Variant.venc _
    simp only [Variant.encC, Variant.venc, sizeMapC_val m, encMapC_val m]
  | .described d v => by
    show (Variant.encC _).val = Variant.venc _
    simp only [Variant.encC, Variant.venc, encC_val v]; rfl
  | .null | .boolean _ | .ubyte _ | .ushort _ | .uint _ | .ulong _ | .byte _ | .short _ | .int _
  | .long _ | .float _ | .double _ | .char _ | .timestamp _ | .uuid _ | .binary _ | .string _
  | .symbol _ | .staticSymbol _ => by simp only [Variant.encC]; rfl
theorem encListC_val : ∀ l : List Variant, (encListC l).val = vencList l
  | [] => by simp [encListC, vencList]
  | v :: t => by simp only [encListC, vencList, encC_val v, encListC_val t]; rfl
theorem encMapC_val : ∀ l : List (Variant × Variant), (encMapC l).val = vencMap l
  | [] => by simp [encMapC, vencMap]
  | (k, v) :: t => by
    simp only [encMapC, vencMap, encC_val k, encC_val v, encMapC_val t]; rfl
end

/-- **C64**: counting changes neither size nor encoding of a value. -/
theorem C64_same_values (v : Variant) : v.sizeC.val = size v ∧ v.encC.val = enc v :=
  ⟨sizeC_val v, encC_val v⟩

mutual
theorem tsizeC_val : ∀ b : TransferBody, b.sizeC.val = b.tsize
  | .Data _ => by simp [TransferBody.sizeC, TransferBody.tsize]
  | .MessageIn m ms => by
    simp only [TransferBody.sizeC, TransferBody.tsize, nestedSizeC_val ms]; split <;> rfl
  | .MessageOut m ms => by
    simp only [TransferBody.sizeC, TransferBody.tsize, nestedSizeC_val ms]; split <;> rfl
theorem nestedSizeC_val : ∀ ms : List TransferBody, (nestedSizeC ms).val = nestedSize ms
  | [] => by simp [nestedSizeC, nestedSize]
  | b :: t => by simp only [nestedSizeC, nestedSize, tsizeC_val b, nestedSizeC_val t]
end

theorem touch_cached (b : TransferBody) : b.touch.touch = b.touch ∧ b.touch.sizeC.calls = 1 := by
  cases b with
  | Data => simp [TransferBody.touch, TransferBody.sizeC]
  | MessageIn m ms =>
    simp only [TransferBody.touch]
    split
    · rename_i h
      simp only [TransferBody.touch, TransferBody.sizeC, if_pos h, and_self]
    · simp only [TransferBody.touch, TransferBody.sizeC]
      rw [if_pos (Message.freshSize_pos _ _), if_pos (Message.freshSize_pos _ _)]
      exact ⟨rfl, rfl⟩
  | MessageOut m ms =>
    simp only [TransferBody.touch]
    split
    · rename_i h
      simp only [TransferBody.touch, TransferBody.sizeC, if_pos h, and_self]
    · simp only [TransferBody.touch, TransferBody.sizeC]
      rw [if_pos (Message.freshSize_pos _ _), if_pos (Message.freshSize_pos _ _)]
      exact ⟨rfl, rfl⟩

mutual
theorem touch_tenc : ∀ b : TransferBody, b.touch.tenc = b.tenc
  | .Data _ => by simp [TransferBody.touch]
  | .MessageIn m ms => by
    simp only [TransferBody.touch]
    split
    · rfl
    · simp only [TransferBody.tenc, touchAll_nestedSize, touchAll_nestedEnc ms]; rfl
  | .MessageOut m ms => by
    simp only [TransferBody.touch]
    split
    · rfl
    · simp only [TransferBody.tenc, touchAll_nestedSize, touchAll_nestedEnc ms]; rfl
theorem touchAll_nestedEnc : ∀ ms : List TransferBody, nestedEnc (touchAll ms) = nestedEnc ms
  | [] => by simp [touchAll]
  | b :: t => by
    simp only [touchAll, nestedEnc, touch_tsize b, touch_tenc b, touchAll_nestedEnc t]
end

theorem nestedEncC_val (n : Nat) (ih : ∀ b : TransferBody, b.parts ≤ n → b.encC.val = b.tenc) :
    ∀ ms : List TransferBody, partsAll ms ≤ n → (nestedEncC (touchAll ms)).val = nestedEnc ms
  | [], _ => by simp [touchAll, nestedEncC, nestedEnc]
  | b :: t, h => by
    simp only [partsAll] at h
    rw [touchAll, nestedEncC, nestedEnc]
    simp only
    rw [tsizeC_val, touch_tsize, (touch_cached b).1, ih _ (by rw [touch_parts]; omega), touch_tenc,
      nestedEncC_val n ih t (by omega)]

theorem tencC_val : ∀ (n : Nat) (b : TransferBody), b.parts ≤ n → b.encC.val = b.tenc
  | 0, b, h => absurd b.parts_pos (by omega)
  | n + 1, b, h => by
    cases b with
    | Data => rw [TransferBody.encC, TransferBody.tenc]
    | MessageIn m ms =>
      simp only [TransferBody.parts] at h
      rw [TransferBody.encC, TransferBody.tenc, nestedSizeC_val,
        nestedEncC_val n (tencC_val n) ms (by omega)]
    | MessageOut m ms =>
      simp only [TransferBody.parts] at h
      rw [TransferBody.encC, TransferBody.tenc, nestedSizeC_val,
        nestedEncC_val n (tencC_val n) ms (by omega)]

/-- **C64**: nor of a transfer body. -/
theorem C64_same_messages (b : TransferBody) : b.sizeC.val = size b ∧ b.encC.val = enc b :=
  ⟨tsizeC_val b, tencC_val _ b (Nat.le_refl _)⟩

/-! ## Values -/

mutual
theorem sizeC_calls : ∀ v : Variant, v.sizeC.calls ≤ size v
  | .list l => by
    show (Variant.sizeC _).calls ≤ Variant.vsize _
    simp only [Variant.sizeC, Variant.vsize, compoundSize]
    have := sizeListC_calls l
    split <;> omega
  | .map m => by
    show (Variant.sizeC _).calls ≤ Variant.vsize _
    simp only [Variant.sizeC, Variant.vsize, compoundSize]
    have := sizeMapC_calls m
    split <;> omega
  | .described d v => by
    show (Variant.sizeC _).calls ≤ Variant.vsize _
    simp only [Variant.sizeC, Variant.vsize]
    have : v.sizeC.calls ≤ v.vsize := sizeC_calls v
    have : 0 < size d := by cases d <;> simp only [size] <;> omega
    omega
  | .null | .boolean _ | .ubyte _ | .ushort _ | .byte _ | .short _
  | .float _ | .double _ | .char _ | .timestamp _ | .uuid _ => by
    simp only [Variant.sizeC]; simp [size, Variant.vsize, asize]
  | .uint _ | .ulong _ | .int _ | .long _ => by
    simp only [Variant.sizeC]; simp only [size, Variant.vsize]; repeat' split
    all_goals omega
  | .binary _ | .string _ | .symbol _ | .staticSymbol _ => by
    simp only [Variant.sizeC]; simp only [size, Variant.vsize, varSize, sizeStaticSymbol]; split <;> omega
theorem sizeListC_calls : ∀ l : List Variant, (sizeListC l).calls ≤ vsizeList l
  | [] => by simp [sizeListC, vsizeList]
  | v :: t => by
    simp only [sizeListC, vsizeList]
    have : v.sizeC.calls ≤ v.vsize := sizeC_calls v
    have := sizeListC_calls t
    omega
theorem sizeMapC_calls : ∀ l : List (Variant × Variant), (sizeMapC l).calls ≤ vsizeMap l
  | [] => by simp [sizeMapC, vsizeMap]
  | (k, v) :: t => by
    simp only [sizeMapC, vsizeMap]
    have : v.sizeC.calls ≤ v.vsize := sizeC_calls v
    have : k.sizeC.calls ≤ k.vsize := sizeC_calls k
    have := sizeMapC_calls t
    omega
end

theorem mul_le_of {a n L M : Nat} (h : a ≤ (L + 1) * n) (hl : L ≤ M) : a ≤ (M + 1) * n :=
  Nat.le_trans h (Nat.mul_le_mul_right _ (by omega))

mutual
theorem encC_calls : ∀ v : Variant, v.encC.calls ≤ (v.levels + 1) * v.sizeC.calls
  | .list l => by
    simp only [Variant.encC, Variant.sizeC, Variant.levels]
    have := encListC_calls l
    rw [Nat.add_mul, Nat.mul_add]
    omega
  | .map m => by
    simp only [Variant.encC, Variant.sizeC, Variant.levels]
    have := encMapC_calls m
    rw [Nat.add_mul, Nat.mul_add]
    omega
  | .described d v => by
    simp only [Variant.encC, Variant.sizeC, Variant.levels]
    have := encC_calls v
    rw [Nat.mul_add]
    omega
  | .null | .boolean _ | .ubyte _ | .ushort _ | .uint _ | .ulong _ | .byte _ | .short _ | .int _
  | .long _ | .float _ | .double _ | .char _ | .timestamp _ | .uuid _ | .binary _ | .string _
  | .symbol _ | .staticSymbol _ => by simp [Variant.encC, Variant.sizeC, Variant.levels]
theorem encListC_calls : ∀ l : List Variant,
    (encListC l).calls ≤ (levelsList l + 1) * (sizeListC l).calls
  | [] => by simp [encListC]
  | v :: t => by
    simp only [encListC, sizeListC, levelsList]
    have := mul_le_of (encC_calls v) (Nat.le_max_left _ (levelsList t))
    have := mul_le_of (encListC_calls t) (Nat.le_max_right v.levels _)
    rw [Nat.mul_add]
    omega
theorem encMapC_calls : ∀ l : List (Variant × Variant),
    (encMapC l).calls ≤ (levelsMap l + 1) * (sizeMapC l).calls
  | [] => by simp [encMapC]
  | (k, v) :: t => by
    simp only [encMapC, sizeMapC, levelsMap]
    have := mul_le_of (M := max (max k.levels v.levels) (levelsMap t)) (encC_calls k) (by omega)
    have := mul_le_of (M := max (max k.levels v.levels) (levelsMap t)) (encC_calls v) (by omega)
    have := mul_le_of (encMapC_calls t) (Nat.le_max_right (max k.levels v.levels) _)
    rw [Nat.mul_add, Nat.mul_add]
    omega
end

/-- **C64**: measuring a value takes at most one call per byte announced. -/
theorem C64_size (v : Variant) : v.sizeC.calls ≤ size v := sizeC_calls v

/-- **C64** for values: encoding takes at most one call per byte and level of
nesting.  Missing for the full statement: a bound that does not depend on the
nesting; see `C64_violated_nested`. -/
theorem C64_values_partial (v : Variant) : v.encC.calls ≤ (v.levels + 1) * (enc v).length := by
  have h := encC_calls v
  have : (enc v).length = size v := (LawfulEnc.size_eq v).symm
  rw [this]
  exact Nat.le_trans h (Nat.mul_le_mul_left _ (sizeC_calls v))

mutual
theorem sizeC_values : ∀ v : Variant, v.sizeC.calls = v.values
  | .list l => by simp only [Variant.sizeC, Variant.values, sizeListC_values l]
  | .map m => by simp only [Variant.sizeC, Variant.values, sizeMapC_values m]
  | .described d v => by simp only [Variant.sizeC, Variant.values, sizeC_values v]
  | .null | .boolean _ | .ubyte _ | .ushort _ | .uint _ | .ulong _ | .byte _ | .short _ | .int _
  | .long _ | .float _ | .double _ | .char _ | .timestamp _ | .uuid _ | .binary _ | .string _
  | .symbol _ | .staticSymbol _ => by simp only [Variant.sizeC, Variant.values]
theorem sizeListC_values : ∀ l : List Variant, (sizeListC l).calls = valuesList l
  | [] => by simp only [sizeListC, valuesList]
  | v :: t => by simp only [sizeListC, valuesList, sizeC_values v, sizeListC_values t]
theorem sizeMapC_values : ∀ l : List (Variant × Variant), (sizeMapC l).calls = valuesMap l
  | [] => by simp only [sizeMapC, valuesMap]
  | (k, v) :: t => by
    simp only [sizeMapC, valuesMap, sizeC_values k, sizeC_values v, sizeMapC_values t]
end

mutual
theorem visits_encC : ∀ (v : Variant) (d : Nat), v.visits d = v.encC.calls + d * v.values
  | .list l, d => by
    have := visitsList_encC l (d + 1)
    simp only [Variant.visits, Variant.encC, Variant.values, sizeListC_values]
    rw [this, Nat.add_mul, Nat.mul_add]; omega
  | .map m, d => by
    have := visitsMap_encC m (d + 1)
    simp only [Variant.visits, Variant.encC, Variant.values, sizeMapC_values]
    rw [this, Nat.add_mul, Nat.mul_add]; omega
  | .described _ v, d => by
    have := visits_encC v d
    simp only [Variant.visits, Variant.encC, Variant.values]
    rw [this, Nat.mul_add]; omega
  | .null, d | .boolean _, d | .ubyte _, d | .ushort _, d | .uint _, d | .ulong _, d
  | .byte _, d | .short _, d | .int _, d | .long _, d | .float _, d | .double _, d | .char _, d
  | .timestamp _, d | .uuid _, d | .binary _, d | .string _, d | .symbol _, d
  | .staticSymbol _, d => by
    simp only [Variant.visits, Variant.encC, Variant.values]; omega
theorem visitsList_encC : ∀ (l : List Variant) (d : Nat),
    visitsList d l = (encListC l).calls + d * valuesList l
  | [], d => by simp only [visitsList, encListC, valuesList]; omega
  | v :: t, d => by
    simp only [visitsList, encListC, valuesList, visits_encC v d, visitsList_encC t d]
    rw [Nat.mul_add]; omega
theorem visitsMap_encC : ∀ (l : List (Variant × Variant)) (d : Nat),
    visitsMap d l = (encMapC l).calls + d * valuesMap l
  | [], d => by simp only [visitsMap, encMapC, valuesMap]; omega
  | (k, v) :: t, d => by
    simp only [visitsMap, encMapC, valuesMap, visits_encC k d, visits_encC v d, visitsMap_encC t d]
    rw [Nat.mul_add, Nat.mul_add]; omega
end

/-- **C64** for values, exactly: measuring looks at every value once, encoding once more for
each list or map around it. -/
theorem C64_values_exact (v : Variant) :
    v.sizeC.calls = v.values ∧ v.encC.calls = v.visits 0 :=
  ⟨sizeC_values v, by rw [visits_encC]; omega⟩

theorem nestedMaps_sizeC (n : Nat) : (nestedMaps n).sizeC.calls = 2 * n + 1 := by
  induction n with
  | zero => rfl
  | succ n ih => simp only [nestedMaps, Variant.sizeC, sizeMapC, ih]; omega
theorem nestedMaps_encC (n : Nat) : (nestedMaps n).encC.calls = n * n + 3 * n + 1 := by
  induction n with
  | zero => rfl
  | succ n ih =>
    simp only [nestedMaps, Variant.encC, sizeMapC, encMapC, ih, nestedMaps_sizeC, Variant.sizeC]
    rw [Nat.add_mul, Nat.mul_add]
    omega
theorem nestedMaps_size (n : Nat) : (nestedMaps n).vsize ≤ 10 * n + 1 := by
  induction n with
  | zero => decide
  | succ n ih =>
    have h : vsizeMap [(.null, nestedMaps n)] = 1 + (nestedMaps n).vsize + 0 := by
      simp only [vsizeMap, Variant.vsize]
    have h2 : ∀ k, compoundSize k ≤ k + 9 := fun k => by unfold compoundSize; split <;> omega
    have := h2 (vsizeMap [(.null, nestedMaps n)])
    simp only [nestedMaps, Variant.vsize]
    omega

/-- **C64** fails for values: maps in maps take a number of calls quadratic in
the number of bytes. -/
theorem C64_violated_nested : ¬ LinearWork Variant.encC ∧ ∀ n,
    (nestedMaps n).encC.calls = n * n + 3 * n + 1 ∧ (enc (nestedMaps n)).length ≤ 10 * n + 1 := by
  have hl : ∀ n, (enc (nestedMaps n)).length ≤ 10 * n + 1 := fun n => by
    have : (enc (nestedMaps n)).length = size (nestedMaps n) := (LawfulEnc.size_eq _).symm
    rw [this]; exact nestedMaps_size n
  refine ⟨?_, fun n => ⟨nestedMaps_encC n, hl n⟩⟩
  rintro ⟨c, h⟩
  have h := h (nestedMaps (10 * c))
  rw [nestedMaps_encC, encC_val] at h
  have h2 := Nat.mul_le_mul_left c (Nat.add_le_add_right (hl (10 * c)) 1)
  have e1 : 10 * c * (10 * c) = 100 * (c * c) := by
    rw [Nat.mul_mul_mul_comm]
  have e2 : c * (10 * (10 * c) + 1 + 1) = 100 * (c * c) + 2 * c := by
    rw [Nat.mul_add, Nat.mul_add, ← Nat.mul_assoc 10, Nat.mul_left_comm]; omega
  omega

/-! ## Messages -/

mutual
/-- What remains to be measured. -/
def TransferBody.unmeasured : TransferBody → Nat
  | .Data _ => 0
  | .MessageIn m ms =>
    (if m.cache ≠ 0 then 0 else m.headCalls + m.bodyCalls + ms.length) + unmeasuredAll ms
  | .MessageOut m ms =>
    (if m.cache ≠ 0 then 0 else m.headCalls + m.bodyCalls + ms.length) + unmeasuredAll ms
def unmeasuredAll : List TransferBody → Nat
  | [] => 0
  | b :: t => b.unmeasured + unmeasuredAll t
end

mutual
theorem tsizeC_calls : ∀ b : TransferBody, b.sizeC.calls + b.touch.unmeasured ≤ 1 + b.unmeasured
  | .Data _ => by simp [TransferBody.sizeC, TransferBody.touch, TransferBody.unmeasured]
  | .MessageIn m ms => by
    have := nestedSizeC_calls ms
    simp only [TransferBody.sizeC, TransferBody.touch]
    split
    · simp
    · rename_i h
      simp only [TransferBody.unmeasured]
      rw [if_pos (Message.freshSize_pos _ _), if_neg h]
      omega
  | .MessageOut m ms => by
    have := nestedSizeC_calls ms
    simp only [TransferBody.sizeC, TransferBody.touch]
    split
    · simp
    · rename_i h
      simp only [TransferBody.unmeasured]
      rw [if_pos (Message.freshSize_pos _ _), if_neg h]
      omega
theorem nestedSizeC_calls : ∀ ms : List TransferBody,
    (nestedSizeC ms).calls + unmeasuredAll (touchAll ms) ≤ ms.length + unmeasuredAll ms
  | [] => by simp [nestedSizeC, touchAll]
  | b :: t => by
    have := tsizeC_calls b
    have := nestedSizeC_calls t
    simp only [nestedSizeC, touchAll, unmeasuredAll, List.length_cons]
    omega
end

mutual
/-- The calls other than those that measure anew. -/
def TransferBody.writes : TransferBody → Nat
  | .Data _ => 1
  | .MessageIn m ms => m.headCalls + 2 * m.bodyCalls + 2 * ms.length + 1 + writesAll ms
  | .MessageOut m ms => m.headCalls + 2 * m.bodyCalls + 2 * ms.length + 1 + writesAll ms
def writesAll : List TransferBody → Nat
  | [] => 0
  | b :: t => b.writes + writesAll t
end

theorem touchAll_length : ∀ ms : List TransferBody, (touchAll ms).length = ms.length
  | [] => by simp [touchAll]
  | b :: t => by simp [touchAll, touchAll_length t]

mutual
theorem touch_writes : ∀ b : TransferBody, b.touch.writes = b.writes
  | .Data _ => by simp [TransferBody.touch]
  | .MessageIn m ms => by
    simp only [TransferBody.touch]
    split
    · rfl
    · simp only [TransferBody.writes, touchAll_writes ms, touchAll_length]; rfl
  | .MessageOut m ms => by
    simp only [TransferBody.touch]
    split
    · rfl
    · simp only [TransferBody.writes, touchAll_writes ms, touchAll_length]; rfl
theorem touchAll_writes : ∀ ms : List TransferBody, writesAll (touchAll ms) = writesAll ms
  | [] => by simp [touchAll]
  | b :: t => by simp only [touchAll, writesAll, touch_writes b, touchAll_writes t]
end

theorem nestedEncC_calls (n : Nat)
    (ih : ∀ b : TransferBody, b.parts ≤ n → b.encC.calls ≤ b.writes + b.unmeasured) :
    ∀ ms : List TransferBody, partsAll ms ≤ n →
      (nestedEncC (touchAll ms)).calls ≤ ms.length + writesAll ms + unmeasuredAll (touchAll ms)
  | [], _ => by simp [touchAll, nestedEncC]
  | b :: t, h => by
    simp only [partsAll] at h
    rw [touchAll, nestedEncC]
    have h1 := (touch_cached b).2
    have h2 := ih b.touch (by rw [touch_parts]; omega)
    have h3 := nestedEncC_calls n ih t (by omega)
    rw [touch_writes] at h2
    simp only [(touch_cached b).1, h1, unmeasuredAll, writesAll, List.length_cons]
    omega

theorem tencC_calls : ∀ (n : Nat) (b : TransferBody), b.parts ≤ n →
    b.encC.calls ≤ b.writes + b.unmeasured
  | 0, b, h => absurd b.parts_pos (by omega)
  | n + 1, b, h => by
    cases b with
    | Data => simp [TransferBody.encC, TransferBody.writes]
    | MessageIn m ms =>
      simp only [TransferBody.parts] at h
      have h1 := nestedEncC_calls n (tencC_calls n) ms (by omega)
      have h2 := nestedSizeC_calls ms
      rw [TransferBody.encC]
      simp only [TransferBody.writes, TransferBody.unmeasured]
      split <;> omega
    | MessageOut m ms =>
      simp only [TransferBody.parts] at h
      have h1 := nestedEncC_calls n (tencC_calls n) ms (by omega)
      have h2 := nestedSizeC_calls ms
      rw [TransferBody.encC]
      simp only [TransferBody.writes, TransferBody.unmeasured]
      split <;> omega

mutual
theorem writes_parts : ∀ b : TransferBody, b.writes + 2 ≤ 3 * b.parts
  | .Data _ => by simp [TransferBody.writes, TransferBody.parts]
  | .MessageIn m ms => by
    have := writesAll_parts ms
    simp only [TransferBody.writes, TransferBody.parts]; omega
  | .MessageOut m ms => by
    have := writesAll_parts ms
    simp only [TransferBody.writes, TransferBody.parts]; omega
theorem writesAll_parts : ∀ ms : List TransferBody, writesAll ms + 2 * ms.length ≤ 3 * partsAll ms
  | [] => by simp [writesAll]
  | b :: t => by
    have := writes_parts b
    have := writesAll_parts t
    simp only [writesAll, partsAll, List.length_cons]; omega
end

mutual
theorem unmeasured_parts : ∀ b : TransferBody, b.unmeasured + 1 ≤ b.parts
  | .Data _ => by simp [TransferBody.unmeasured, TransferBody.parts]
  | .MessageIn m ms => by
    have := unmeasuredAll_parts ms
    simp only [TransferBody.unmeasured, TransferBody.parts]; split <;> omega
  | .MessageOut m ms => by
    have := unmeasuredAll_parts ms
    simp only [TransferBody.unmeasured, TransferBody.parts]; split <;> omega
theorem unmeasuredAll_parts : ∀ ms : List TransferBody,
    unmeasuredAll ms + ms.length ≤ partsAll ms
  | [] => by simp [unmeasuredAll]
  | b :: t => by
    have := unmeasured_parts b
    have := unmeasuredAll_parts t
    simp only [unmeasuredAll, partsAll, List.length_cons]; omega
end

/-- **C64**: encoding a message takes at most four calls per section and message in
it, however deeply messages are nested and whichever sizes are remembered; and so
do `encoded_size` and `encode` together. -/
theorem C64_messages (b : TransferBody) : b.encC.calls ≤ 4 * b.parts ∧
    b.sizeC.calls + b.touch.encC.calls ≤ 4 * b.parts := by
  have h1 := tencC_calls _ b (Nat.le_refl _)
  have h2 := tencC_calls _ b.touch (Nat.le_refl _)
  have h3 := tsizeC_calls b
  have h4 := writes_parts b
  have h5 := unmeasured_parts b
  rw [touch_writes] at h2
  omega

theorem enc_descriptor_ne (d : Descriptor) : 0 < (enc d).length := by cases d <;> simp [enc]
theorem sectionEnc_nonempty {α : Type} [Encode α] (code : UInt64) (v : α) :
    1 ≤ (sectionEnc code v).length := by
  have := enc_descriptor_ne (.ulong code)
  simp only [sectionEnc, List.length_append]; omega
theorem flatMap_length_ge {α : Type} (f : α → Bytes) (h : ∀ a, 1 ≤ (f a).length) :
    ∀ l : List α, l.length ≤ (l.flatMap f).length
  | [] => by simp
  | a :: t => by
    have := h a
    have := flatMap_length_ge f h t
    simp only [List.flatMap_cons, List.length_append, List.length_cons]; omega
theorem elim_length {α : Type} (f : α → Bytes) (h : ∀ a, 1 ≤ (f a).length) (o : Option α) :
    optCall o ≤ (o.elim [] f).length := by
  cases o with
  | none => simp [optCall]
  | some a => simpa [optCall] using h a
theorem header_length (h : Header) : 1 ≤ (enc h).length := by
  have := enc_descriptor_ne (.ulong 112)
  simp only [enc, listHdr, List.length_append] at *; omega
theorem properties_length (h : Properties) : 1 ≤ (enc h).length := by
  have := enc_descriptor_ne (.ulong 115)
  simp only [enc, listHdr, List.length_append] at *; omega

theorem head_length {AP : Type} [Encode AP] (m : MsgHead AP) :
    m.headCalls ≤ m.encPre.length + m.encPost.length := by
  have h1 := elim_length _ header_length m.header
  have h2 := elim_length _ (sectionEnc_nonempty 113) m.delivery_annotations
  have h3 := elim_length _ (sectionEnc_nonempty 114) m.message_annotations
  have h4 := elim_length _ properties_length m.properties
  have h5 := elim_length _ (sectionEnc_nonempty 116) m.application_properties
  have h6 := elim_length _ (sectionEnc_nonempty 120) m.footer
  simp only [MsgHead.headCalls, MsgHead.encPre, MsgHead.encPost, List.length_append]
  omega

theorem sectionsSize_ge {α : Type} [Encode α] : ∀ l : List α, l.length ≤ sectionsSize l
  | [] => by simp [sectionsSize]
  | a :: t => by
    have := sectionsSize_ge t
    simp only [sectionsSize, sectionPrefixLength, List.length_cons]; omega
theorem nestedSize_ge : ∀ l : List TransferBody, l.length ≤ nestedSize l
  | [] => by simp [nestedSize]
  | a :: t => by
    have := nestedSize_ge t
    simp only [nestedSize, sectionPrefixLength, List.length_cons]; omega

theorem body_length {AP : Type} (m : MsgHead AP) (ms : List TransferBody) (nested : Bytes)
    (h : partsAll ms ≤ nested.length) :
    m.bodyCalls + partsAll ms ≤ (bodyEncOrEmpty (bodySizeWith m.data m.sequence m.value (nestedSize ms))
      (bodyEncWith m.data m.sequence m.value nested)).length := by
  unfold bodyEncOrEmpty
  split
  · rename_i h0
    unfold bodySizeWith at h0
    have := sectionsSize_ge m.data
    have := sectionsSize_ge m.sequence
    have := nestedSize_ge ms
    have hm : ms = [] := List.length_eq_zero_iff.1 (by omega)
    subst hm
    have hv : m.value = none := by
      cases hv : m.value with
      | none => rfl
      | some v => rw [hv] at h0; simp [sectionPrefixLength] at h0
    simp only [MsgHead.bodyCalls, partsAll, hv, optCall, Option.isSome_none, Bool.false_eq_true, if_false]
    omega
  · have h1 := flatMap_length_ge _ (sectionEnc_nonempty 117) m.data
    have h2 := flatMap_length_ge _ (sectionEnc_nonempty 118) m.sequence
    have h3 := elim_length _ (sectionEnc_nonempty 119) m.value
    simp only [bodyEncWith, MsgHead.bodyCalls, List.length_append]
    omega

mutual
theorem parts_length : ∀ b : TransferBody, b.parts ≤ b.tenc.length + 1
  | .Data _ => by simp [TransferBody.parts]
  | .MessageIn m ms => by
    have h1 := head_length m
    have h2 := body_length m ms _ (partsAll_length ms)
    simp only [TransferBody.parts, TransferBody.tenc, List.length_append]; omega
  | .MessageOut m ms => by
    have h1 := head_length m
    have h2 := body_length m ms _ (partsAll_length ms)
    simp only [TransferBody.parts, TransferBody.tenc, List.length_append]; omega
theorem partsAll_length : ∀ ms : List TransferBody, partsAll ms ≤ (nestedEnc ms).length
  | [] => by simp [partsAll]
  | b :: t => by
    have h1 := parts_length b
    have h2 := partsAll_length t
    have h3 := enc_descriptor_ne (.ulong 117)
    simp only [partsAll, nestedEnc, List.length_append]; omega
end

/-- **C64**: so encoding messages takes a number of calls proportional to the bytes
written. -/
theorem C64_messages_linear : LinearWork TransferBody.encC := by
  refine ⟨4, fun b => ?_⟩
  have h1 := (C64_messages b).1
  have h2 := parts_length b
  have : b.encC.val = b.tenc := tencC_val _ b (Nat.le_refl _)
  rw [this]
  omega

mutual
theorem tsizeC_parts : ∀ b : TransferBody, b.Unmeasured → b.sizeC.calls = b.parts
  | .Data _, _ => by simp only [TransferBody.sizeC, TransferBody.parts]
  | .MessageIn m ms, h => by
    simp only [TransferBody.Unmeasured] at h
    have := nestedSizeC_parts ms h.2
    simp only [TransferBody.sizeC, TransferBody.parts]
    rw [if_neg (by omega)]
    simp only
    omega
  | .MessageOut m ms, h => by
    simp only [TransferBody.Unmeasured] at h
    have := nestedSizeC_parts ms h.2
    simp only [TransferBody.sizeC, TransferBody.parts]
    rw [if_neg (by omega)]
    simp only
    omega
theorem nestedSizeC_parts : ∀ ms : List TransferBody, UnmeasuredAll ms →
    (nestedSizeC ms).calls = partsAll ms
  | [], _ => by simp only [nestedSizeC, partsAll]
  | b :: t, h => by
    simp only [UnmeasuredAll] at h
    simp only [nestedSizeC, partsAll, tsizeC_parts b h.1, nestedSizeC_parts t h.2]
end

/-- **C64** for messages, exactly: measuring a new message looks at each of its sections and
the messages in it once; measuring it again looks at nothing further. -/
theorem C64_messages_exact (b : TransferBody) :
    (b.Unmeasured → b.sizeC.calls = b.parts) ∧ b.touch.sizeC.calls = 1 :=
  ⟨tsizeC_parts b, (touch_cached b).2⟩

/-! ## Examples -/

/-- Forty-one bytes, a hundred and thirty-one calls. -/
example : (nestedMaps 10).encC.calls = 131 ∧ (enc (nestedMaps 10)).length = 41 := by decide +kernel

/-- A message in a message in a message. -/
example : let b : TransferBody :=
      .MessageOut {} [.MessageOut {} [.MessageOut { data := [⟨[1, 2]⟩] } []], .Data ⟨[3]⟩]
    b.Unmeasured ∧ b.parts = 5 ∧ b.encC.calls ≤ 20 ∧ (enc b).length = 23 := by
  refine ⟨by simp [TransferBody.Unmeasured, UnmeasuredAll], by decide +kernel, ?_, by decide +kernel⟩
  exact Nat.le_trans (C64_messages _).1 (by decide +kernel)

end Amqp
