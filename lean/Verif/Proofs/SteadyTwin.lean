import Verif.Proofs.Steady
import Verif.Proofs.OversizeLaws
/-!
# Values that are not steady have an equal that is written differently
-/
set_option autoImplicit false
namespace Amqp

theorem Variant.Survives.valid (v : Variant) (h : v.Survives) : v.Valid := by
  induction v using Variant.ind with
  | leaf v hl hm hd =>
    cases v <;> first
      | exact True.intro
      | exact absurd rfl (hl _)
      | exact absurd rfl (hm _)
      | exact absurd rfl (hd _ _)
  | list l ih => simp [Variant.Survives] at h
  | map m ih =>
    simp only [Variant.Survives, survivesMap_iff] at h
    simp only [Variant.Valid, validMap_iff]
    exact ⟨fun e he => ⟨(ih e he).1 (h.1 e he).1, (ih e he).2 (h.1 e he).2⟩, h.2⟩
  | described d v ih =>
    simp only [Variant.Survives] at h
    simp only [Variant.Valid]
    exact ih h.2

/-- Another value that is equal, of the same shape. -/
structure Twin (a b : Variant) : Prop where
  survives : b.Survives
  equal : a.veq b = true
  other : a ≠ b
  hash : b.hashOk = a.hashOk
  depth : b.depth = a.depth
  within : ∀ env, a.Within env → b.Within env

theorem F32.twin (x : F32) (h : ¬ x.Steady) : ∃ y : F32, x.feq y = true ∧ x ≠ y := by
  by_cases hn : x.isNaN = true
  · by_cases hx : x = ⟨0x7fc00000⟩
    · exact ⟨⟨0x7fc00001⟩, by rw [hx]; decide⟩
    · exact ⟨⟨0x7fc00000⟩, by unfold feq; rw [hn, if_pos rfl]; decide, hx⟩
  · have h0 : x.bits.toNat % 2 ^ 31 = 0 := by
      simp only [F32.isNaN, decide_eq_true_eq] at hn
      unfold F32.Steady at h
      omega
    have hn : x.isNaN = false := by simpa using hn
    have h2 : (x.bits.toNat % 0x80000000 == 0) = true := by simpa using h0
    by_cases hx : x = ⟨0⟩
    · exact ⟨⟨0x80000000⟩, by rw [hx]; decide⟩
    · refine ⟨⟨0⟩, ?_, hx⟩
      unfold feq
      rw [hn, h2]
      have : (⟨0⟩ : F32).isNaN = false := by decide
      rw [this]
      simp

theorem F64.twin (x : F64) (h : ¬ x.Steady) : ∃ y : F64, x.feq y = true ∧ x ≠ y := by
  by_cases hn : x.isNaN = true
  · by_cases hx : x = ⟨0x7ff8000000000000⟩
    · exact ⟨⟨0x7ff8000000000001⟩, by rw [hx]; decide⟩
    · exact ⟨⟨0x7ff8000000000000⟩, by unfold feq; rw [hn, if_pos rfl]; decide, hx⟩
  · have h0 : x.bits.toNat % 2 ^ 63 = 0 := by
      simp only [F64.isNaN, decide_eq_true_eq] at hn
      unfold F64.Steady at h
      omega
    have hn : x.isNaN = false := by simpa using hn
    have h2 : (x.bits.toNat % 0x8000000000000000 == 0) = true := by simpa using h0
    by_cases hx : x = ⟨0⟩
    · exact ⟨⟨0x8000000000000000⟩, by rw [hx]; decide⟩
    · refine ⟨⟨0⟩, ?_, hx⟩
      unfold feq
      rw [hn, h2]
      have : (⟨0⟩ : F64).isNaN = false := by decide
      rw [this]
      simp

theorem vsizeMap_swap (x y : Variant × Variant) (t : List (Variant × Variant)) :
    vsizeMap (y :: x :: t) = vsizeMap (x :: y :: t) := by
  simp only [vsizeMap]; omega

theorem depthMap_swap (x y : Variant × Variant) (t : List (Variant × Variant)) :
    depthMap (y :: x :: t) = depthMap (x :: y :: t) := by
  simp only [depthMap]; omega

/-- Maps of one entry, one part of which has a twin. -/
theorem twin_single {k v k' v' : Variant} (hs : (Variant.map [(k, v)]).Survives)
    (hk : Twin k k' ∧ v' = v ∨ k' = k ∧ Twin v v') : Twin (.map [(k, v)]) (.map [(k', v')]) := by
  have hv := Variant.Survives.valid _ hs
  simp only [Variant.Survives, survivesMap, and_true, List.mem_singleton, forall_eq] at hs
  obtain ⟨⟨sk, sv⟩, hh, -⟩ := hs
  have rk := key_refl hh
  have rv := veq_refl v (Variant.Survives.valid v sv)
  have facts : k'.Survives ∧ v'.Survives ∧ k.veq k' = true ∧ v.veq v' = true ∧
      k'.hashOk = k.hashOk ∧ k'.depth = k.depth ∧ v'.depth = v.depth ∧ (k ≠ k' ∨ v ≠ v') ∧
      ∀ env, (k.Within env ∧ v.Within env) → (k'.Within env ∧ v'.Within env) := by
    rcases hk with ⟨t, rfl⟩ | ⟨rfl, t⟩
    · exact ⟨t.survives, sv, t.equal, rv, t.hash, t.depth, rfl, .inl t.other,
        fun env h => ⟨t.within env h.1, h.2⟩⟩
    · exact ⟨sk, t.survives, rk, t.equal, rfl, rfl, t.depth, .inr t.other,
        fun env h => ⟨h.1, t.within env h.2⟩⟩
  obtain ⟨sk', sv', ek, ev, hh', dk, dv, ne, wi⟩ := facts
  have surv : (Variant.map [(k', v')]).Survives := by
    simp only [Variant.Survives, survivesMap, and_true, List.mem_singleton, forall_eq]
    exact ⟨⟨sk', sv'⟩, hh'.trans hh, List.pairwise_singleton _ _⟩
  have eq : (Variant.map [(k, v)]).veq (.map [(k', v')]) = true := by
    simp [Variant.veq, subMap, findEntry, ek, ev]
  refine ⟨surv, eq, ?_, rfl, by simp only [Variant.depth, depthMap, dk, dv], ?_⟩
  · intro e
    injection e with e
    injection e with e
    injection e with e1 e2
    rcases ne with n | n
    · exact n e1
    · exact n e2
  · intro env hw
    simp only [Variant.Within, withinMap, and_true, vsizeMap_length] at hw ⊢
    refine ⟨?_, wi env hw.2⟩
    have z := veq_vsize _ _ (Variant.Survives.valid k sk) (Variant.Survives.valid k' sk') ek
    have z' := veq_vsize _ _ (Variant.Survives.valid v sv) (Variant.Survives.valid v' sv') ev
    simp only [vsizeMap] at hw ⊢
    rw [← z, ← z']
    exact hw.1

/-- Two entries of a map, exchanged. -/
theorem twin_swap {x y : Variant × Variant} {t : List (Variant × Variant)}
    (hs : (Variant.map (x :: y :: t)).Survives) : Twin (.map (x :: y :: t)) (.map (y :: x :: t)) := by
  simp only [Variant.Survives, survivesMap_iff] at hs
  obtain ⟨h1, h2, h3⟩ := hs
  have p : (x :: y :: t).Perm (y :: x :: t) := .swap _ _ _
  have ok : KeysOk (x :: y :: t) := ⟨h2, h3⟩
  have ok' : KeysOk (y :: x :: t) := ⟨fun e he => h2 e (p.mem_iff.2 he), nodupKeys_perm p h2 h3⟩
  have surv : (Variant.map (y :: x :: t)).Survives := by
    simp only [Variant.Survives, survivesMap_iff]
    exact ⟨fun e he => h1 e (p.mem_iff.2 he), ok'⟩
  refine ⟨surv, (veq_map_iff ok ok').2 ⟨_, p, All2.refl fun e he =>
    ⟨key_refl (h2 e he), veq_refl _ (Variant.Survives.valid _ (h1 e he).2)⟩⟩, ?_, rfl, ?_, ?_⟩
  · intro e
    injection e with e
    injection e with e _
    have := (List.pairwise_cons.1 h3).1 y (by simp)
    rw [e] at this
    have r := key_refl (h2 y (by simp))
    rw [show HKey.keq y.1 y.1 = y.1.veq y.1 from rfl, r] at this
    cases this
  · simp only [Variant.depth]; rw [depthMap_swap]
  · intro env hw
    simp only [Variant.Within, withinMap_iff, vsizeMap_length] at hw ⊢
    rw [vsizeMap_swap]
    exact ⟨hw.1, fun e he => hw.2 e (p.mem_iff.2 he)⟩

theorem twin_exists (a : Variant) (hs : a.Survives) (hn : ¬ a.Steady) : ∃ b, Twin a b := by
  induction a using Variant.ind with
  | leaf v hl hm hd =>
    cases v with
    | float x =>
      obtain ⟨y, h1, h2⟩ := x.twin hn
      exact ⟨.float y, trivial, h1, fun e => h2 (by injection e), rfl, rfl, fun _ _ => trivial⟩
    | double x =>
      obtain ⟨y, h1, h2⟩ := x.twin hn
      exact ⟨.double y, trivial, h1, fun e => h2 (by injection e), rfl, rfl, fun _ _ => trivial⟩
    | list l => exact absurd rfl (hl _)
    | map l => exact absurd rfl (hm _)
    | described d l => exact absurd rfl (hd _ _)
    | _ => exact absurd trivial hn
  | list l ih => simp [Variant.Survives] at hs
  | map m ih =>
    match m, ih, hs, hn with
    | [], _, _, hn => exact absurd ⟨Nat.zero_le _, trivial⟩ hn
    | [(k, v)], ih, hs, hn =>
      have h := hs
      simp only [Variant.Survives, survivesMap, and_true] at h
      obtain ⟨i1, i2⟩ := ih (k, v) (by simp)
      by_cases hk : k.Steady
      · have hv : ¬ v.Steady := fun hv => hn (by simp [Variant.Steady, steadyMap, hk, hv])
        obtain ⟨v', t⟩ := i2 h.1.2 hv
        exact ⟨_, twin_single hs (.inr ⟨rfl, t⟩)⟩
      · obtain ⟨k', t⟩ := i1 h.1.1 hk
        exact ⟨_, twin_single hs (.inl ⟨t, rfl⟩)⟩
    | x :: y :: t, _, hs, _ => exact ⟨_, twin_swap hs⟩
  | described d v ih =>
    simp only [Variant.Survives] at hs
    obtain ⟨w, t⟩ := ih hs.2 hn
    refine ⟨.described d w, ?_, ?_, fun e => t.other (by injection e), ?_, ?_, ?_⟩
    · simp only [Variant.Survives]; exact ⟨hs.1, t.survives⟩
    · simp [Variant.veq, t.equal]
    · simp only [Variant.hashOk]; exact t.hash
    · simp only [Variant.depth, t.depth]
    · intro env hw
      simp only [Variant.Within] at hw ⊢
      exact ⟨hw.1, t.within env hw.2⟩

end Amqp
