import Verif.Codec.Stack
import Verif.Props.Safety
import Verif.Proofs.VariantDecode
import Verif.Proofs.VariantExact
/-!
# C80: encoding needs no more stack than decoding
-/
set_option autoImplicit false
namespace Amqp

theorem sumM_cases {ε α : Type} {f : α → Res ε Nat} {g : α → Nat} {P : α → Prop} (total : List α → Nat)
    (h0 : total [] = 0) (h1 : ∀ a t, total (a :: t) = g a + total t) (p : Panic)
    (hf : ∀ a, (P a → f a = .ok (g a)) ∧ (¬ P a → f a = .panic p)) : ∀ l : List α,
    ((∀ a ∈ l, P a) → sumM f l = .ok (total l)) ∧ ((∃ a ∈ l, ¬ P a) → sumM f l = .panic p)
  | [] => ⟨fun _ => by rw [sumM, h0], fun ⟨_, h, _⟩ => by cases h⟩
  | a :: t => by
    obtain ⟨i1, i2⟩ := sumM_cases total h0 h1 p hf t
    by_cases ha : P a
    · rw [sumM, (hf a).1 ha, Res.bind_ok]
      refine ⟨fun h => ?_, fun ⟨b, hb, hn⟩ => ?_⟩
      · rw [i1 (fun b hb => h b (by simp [hb])), Res.bind_ok, h1]
      · rcases List.mem_cons.mp hb with rfl | hb
        · exact absurd ha hn
        · rw [i2 ⟨b, hb, hn⟩, Res.bind_panic]
    · rw [sumM, (hf a).2 ha, Res.bind_panic]
      exact ⟨fun h => absurd (h a (by simp)) ha, fun _ => rfl⟩

theorem catM_cases {ε α : Type} {f : α → Res ε Bytes} {g : α → Bytes} {P : α → Prop}
    (total : List α → Bytes) (h0 : total [] = []) (h1 : ∀ a t, total (a :: t) = g a ++ total t)
    (hf : ∀ a, P a → f a = .ok (g a)) : ∀ l : List α,
    (∀ a ∈ l, P a) → catM f l = .ok (total l)
  | [], _ => by rw [catM, h0]
  | a :: t, h => by
    rw [catM, hf a (h a (by simp)), Res.bind_ok,
      catM_cases total h0 h1 hf t (fun b hb => h b (by simp [hb])), Res.bind_ok, h1]

theorem depthList_le_iff {l : List Variant} {d : Nat} : depthList l ≤ d ↔ ∀ v ∈ l, v.depth ≤ d :=
  ⟨depthList_le, depthList_le_of⟩

theorem depthMap_le_iff {m : List (Variant × Variant)} {d : Nat} :
    depthMap m ≤ d ↔ ∀ e ∈ m, e.1.depth ≤ d ∧ e.2.depth ≤ d :=
  ⟨depthMap_le, depthMap_le_of⟩

theorem not_all {α : Type} {l : List α} {P : α → Prop} (h : ¬ ∀ a ∈ l, P a) : ∃ a ∈ l, ¬ P a := by
  refine Classical.byContradiction fun hn => h fun a ha => Classical.byContradiction fun hp => ?_
  exact hn ⟨a, ha, hp⟩

/-- **C80**: `encoded_size` of a value nests as many calls as the value has levels: with that
many it gives the size, with fewer it overflows the stack. -/
theorem C80_size {ε : Type} : ∀ (d : Nat) (v : Variant),
    (v.depth ≤ d → (v.sizeIn d : Res ε Nat) = .ok (size v)) ∧
    (d < v.depth → (v.sizeIn d : Res ε Nat) = .panic .stackOverflow)
  | 0, v => ⟨fun h => absurd v.depth_pos (by omega), fun _ => by rw [Variant.sizeIn]⟩
  | d + 1, v => by
    have ih := C80_size (ε := ε) d
    have hf : ∀ v : Variant, (v.depth ≤ d → (v.sizeIn d : Res ε Nat) = .ok v.vsize) ∧
        (¬ v.depth ≤ d → (v.sizeIn d : Res ε Nat) = .panic .stackOverflow) :=
      fun v => ⟨(ih v).1, fun h => (ih v).2 (by omega)⟩
    cases v with
    | list l =>
      obtain ⟨h1, h2⟩ := sumM_cases vsizeList (by simp [vsizeList]) (by simp [vsizeList]) _ hf l
      simp only [Variant.depth, Variant.sizeIn]
      refine ⟨fun h => ?_, fun h => ?_⟩
      · rw [h1 (depthList_le_iff.mp (by omega)), Res.bind_ok]
        show _ = Res.ok (Variant.vsize _)
        simp only [Variant.vsize]
      · rw [h2 (not_all (fun x => by have := depthList_le_iff.mpr x; omega)), Res.bind_panic]
    | map m =>
      obtain ⟨h1, h2⟩ := sumM_cases (ε := ε)
        (f := fun e : Variant × Variant => Variant.sizeIn d e.1 >>= fun a => Variant.sizeIn d e.2 >>= fun b =>
          .ok (a + b)) (g := fun e => e.1.vsize + e.2.vsize)
        (P := fun e => e.1.depth ≤ d ∧ e.2.depth ≤ d) vsizeMap (by simp [vsizeMap])
        (by simp [vsizeMap]) .stackOverflow (by
          intro e
          refine ⟨fun h => ?_, fun h => ?_⟩
          · rw [(hf _).1 h.1, Res.bind_ok, (hf _).1 h.2, Res.bind_ok]
          · by_cases h1 : e.1.depth ≤ d
            · rw [(hf _).1 h1, Res.bind_ok, (hf _).2 (fun h2 => h ⟨h1, h2⟩), Res.bind_panic]
            · rw [(hf _).2 h1, Res.bind_panic]) m
      simp only [Variant.depth, Variant.sizeIn]
      refine ⟨fun h => ?_, fun h => ?_⟩
      · rw [h1 (depthMap_le_iff.mp (by omega)), Res.bind_ok]
        show _ = Res.ok (Variant.vsize _)
        simp only [Variant.vsize]
      · rw [h2 (not_all (fun x => by have := depthMap_le_iff.mpr x; omega)), Res.bind_panic]
    | described x v =>
      simp only [Variant.depth, Variant.sizeIn]
      refine ⟨fun h => ?_, fun h => ?_⟩
      · rw [(hf v).1 (by omega), Res.bind_ok]
        show _ = Res.ok (Variant.vsize _)
        simp only [Variant.vsize]
      · rw [(hf v).2 (by omega), Res.bind_panic]
    | _ =>
      simp only [Variant.depth, Variant.sizeIn]
      exact ⟨fun _ => rfl, fun h => absurd h (by omega)⟩

/-- **C80**: so does `encode`. -/
theorem C80_encode {ε : Type} : ∀ (d : Nat) (v : Variant),
    (v.depth ≤ d → (v.encIn d : Res ε Bytes) = .ok (enc v)) ∧
    (d < v.depth → (v.encIn d : Res ε Bytes) = .panic .stackOverflow)
  | 0, v => ⟨fun h => absurd v.depth_pos (by omega), fun _ => by rw [Variant.encIn]⟩
  | d + 1, v => by
    have ih := C80_encode (ε := ε) d
    have hs : ∀ v : Variant, (v.depth ≤ d → (v.sizeIn d : Res ε Nat) = .ok v.vsize) ∧
        (¬ v.depth ≤ d → (v.sizeIn d : Res ε Nat) = .panic .stackOverflow) :=
      fun v => ⟨(C80_size d v).1, fun h => (C80_size d v).2 (by omega)⟩
    have hf : ∀ v : Variant, v.depth ≤ d → (v.encIn d : Res ε Bytes) = .ok v.venc := fun v => (ih v).1
    cases v with
    | list l =>
      obtain ⟨h1, h2⟩ := sumM_cases vsizeList (by simp [vsizeList]) (by simp [vsizeList]) _ hs l
      have h3 := catM_cases vencList (by simp [vencList]) (by simp [vencList]) hf l
      simp only [Variant.depth, Variant.encIn]
      refine ⟨fun h => ?_, fun h => ?_⟩
      · have hd := depthList_le_iff.mp (show depthList l ≤ d by omega)
        rw [h1 hd, Res.bind_ok, h3 hd, Res.bind_ok]
        show _ = Res.ok (Variant.venc _)
        simp only [Variant.venc]
      · rw [h2 (not_all (fun x => by have := depthList_le_iff.mpr x; omega)), Res.bind_panic]
    | map m =>
      obtain ⟨h1, h2⟩ := sumM_cases (ε := ε)
        (f := fun e : Variant × Variant => Variant.sizeIn d e.1 >>= fun a => Variant.sizeIn d e.2 >>= fun b =>
          .ok (a + b)) (g := fun e => e.1.vsize + e.2.vsize)
        (P := fun e => e.1.depth ≤ d ∧ e.2.depth ≤ d) vsizeMap (by simp [vsizeMap])
        (by simp [vsizeMap]) .stackOverflow (by
          intro e
          refine ⟨fun h => ?_, fun h => ?_⟩
          · rw [(hs _).1 h.1, Res.bind_ok, (hs _).1 h.2, Res.bind_ok]
          · by_cases h1 : e.1.depth ≤ d
            · rw [(hs _).1 h1, Res.bind_ok, (hs _).2 (fun h2 => h ⟨h1, h2⟩), Res.bind_panic]
            · rw [(hs _).2 h1, Res.bind_panic]) m
      have h3 := catM_cases (ε := ε)
        (f := fun e : Variant × Variant => Variant.encIn d e.1 >>= fun a => Variant.encIn d e.2 >>= fun b =>
          .ok (a ++ b)) (g := fun e => e.1.venc ++ e.2.venc)
        (P := fun e => e.1.depth ≤ d ∧ e.2.depth ≤ d) vencMap (by simp [vencMap])
        (by simp [vencMap]) (by
          intro e h
          rw [hf _ h.1, Res.bind_ok, hf _ h.2, Res.bind_ok]) m
      simp only [Variant.depth, Variant.encIn]
      refine ⟨fun h => ?_, fun h => ?_⟩
      · have hd := depthMap_le_iff.mp (show depthMap m ≤ d by omega)
        rw [h1 hd, Res.bind_ok, h3 hd, Res.bind_ok]
        show _ = Res.ok (Variant.venc _)
        simp only [Variant.venc]
      · rw [h2 (not_all (fun x => by have := depthMap_le_iff.mpr x; omega)), Res.bind_panic]
    | described x v =>
      simp only [Variant.depth, Variant.encIn]
      refine ⟨fun h => ?_, fun h => ?_⟩
      · rw [hf v (by omega), Res.bind_ok]
        show _ = Res.ok (Variant.venc _)
        simp only [Variant.venc]
      · rw [(ih v).2 (by omega), Res.bind_panic]
    | _ =>
      simp only [Variant.depth, Variant.encIn]
      exact ⟨fun _ => rfl, fun h => absurd h (by omega)⟩

/-- **C80**: what was decoded on a stack can be encoded, and its size computed, on a stack that
holds as many nested calls. -/
theorem C80_decoded {ε : Type} (env : Env) (i r : Bytes) (v : Variant)
    (h : decode Variant env i = .ok (r, v)) :
    (v.sizeIn env.stackDepth : Res ε Nat) = .ok (size v) ∧
    (v.encIn env.stackDepth : Res ε Bytes) = .ok (enc v) := by
  have : v.depth ≤ env.stackDepth := (yield_decVar env env.stackDepth _ _ _ h).1.depth
  exact ⟨(C80_size _ v).1 this, (C80_encode _ v).1 this⟩

/-- **C80**: that many calls are needed: there is no stack that no value of one's own
overflows. -/
theorem C80_needed {ε : Type} (d : Nat) :
    ((tower d).encIn d : Res ε Bytes) = .panic .stackOverflow ∧
    ((tower d).encIn (d + 1) : Res ε Bytes) = .ok (enc (tower d)) := by
  have : (tower d).depth = d + 1 := by
    induction d with
    | zero => rfl
    | succ n ih => show (tower n).depth + 1 = _; rw [ih]
  exact ⟨(C80_encode d _).2 (by omega), (C80_encode (d + 1) _).1 (by omega)⟩

example : decode Variant ⟨true, 3⟩ (enc (tower 2)) = .ok ([], tower 2) := rfl

example : ((tower 2).sizeIn 3 : Res Unit Nat) = .ok (size (tower 2)) ∧
    ((tower 2).encIn 3 : Res Unit Bytes) = .ok (enc (tower 2)) :=
  C80_decoded ⟨true, 3⟩ (enc (tower 2)) [] (tower 2) rfl

end Amqp
