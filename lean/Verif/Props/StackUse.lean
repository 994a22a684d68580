import Verif.Codec.StackUse
import Verif.Props.Stack
import Verif.Props.Hashing
import Verif.Proofs.VariantEq
/-!
# C80: comparing, hashing, cloning and dropping need no more stack than decoding
-/
set_option autoImplicit false
namespace Amqp
open StrRepr (HashWrite)
variable {ε α β : Type}

/-! ### Lists -/

theorem mapM'_cases {f : α → Res ε β} {g : α → β} {P : α → Prop} (p : Panic)
    (hf : ∀ a, (P a → f a = .ok (g a)) ∧ (¬ P a → f a = .panic p)) : ∀ l : List α,
    ((∀ a ∈ l, P a) → mapM' f l = .ok (l.map g)) ∧ ((∃ a ∈ l, ¬ P a) → mapM' f l = .panic p)
  | [] => ⟨fun _ => rfl, fun ⟨_, h, _⟩ => by cases h⟩
  | a :: t => by
    obtain ⟨i1, i2⟩ := mapM'_cases p hf t
    by_cases ha : P a
    · rw [mapM', (hf a).1 ha, Res.bind_ok]
      refine ⟨fun h => ?_, fun ⟨b, hb, hn⟩ => ?_⟩
      · rw [i1 (fun b hb => h b (by simp [hb])), Res.bind_ok, List.map_cons]
      · rcases List.mem_cons.mp hb with rfl | hb
        · exact absurd ha hn
        · rw [i2 ⟨b, hb, hn⟩, Res.bind_panic]
    · rw [mapM', (hf a).2 ha, Res.bind_panic]
      exact ⟨fun h => absurd (h a (by simp)) ha, fun _ => rfl⟩

/-- A call that says yes, or overflows, for each of a list. -/
theorem allM_cases {f : α → Res ε Bool} {P Q : α → Prop} (p : Panic)
    (hf : ∀ a, Q a → (P a → f a = .ok true) ∧ (¬ P a → f a = .panic p)) : ∀ l : List α, (∀ a ∈ l, Q a) →
    ((∃ a ∈ l, ¬ P a) → allM f l = .panic p)
  | [], _ => fun ⟨_, h, _⟩ => by cases h
  | a :: t, hq => by
    have ih := allM_cases p hf t (fun b hb => hq b (by simp [hb]))
    by_cases ha : P a
    · rintro ⟨b, hb, hn⟩
      rcases List.mem_cons.mp hb with rfl | hb
      · exact absurd ha hn
      · rw [allM, (hf a (hq a (by simp))).1 ha, Res.bind_ok, if_pos rfl, ih ⟨b, hb, hn⟩]
    · intro _
      rw [allM, (hf a (hq a (by simp))).2 ha, Res.bind_panic]

theorem pairsM_cases {f : α → α → Res ε Bool} {P Q : α → Prop} (p : Panic)
    (hf : ∀ a, Q a → (P a → f a a = .ok true) ∧ (¬ P a → f a a = .panic p)) :
    ∀ l : List α, (∀ a ∈ l, Q a) → ((∃ a ∈ l, ¬ P a) → pairsM f l l = .panic p)
  | [], _ => fun ⟨_, h, _⟩ => by cases h
  | a :: t, hq => by
    have ih := pairsM_cases p hf t (fun b hb => hq b (by simp [hb]))
    by_cases ha : P a
    · rintro ⟨b, hb, hn⟩
      rcases List.mem_cons.mp hb with rfl | hb
      · exact absurd ha hn
      · rw [pairsM, (hf a (hq a (by simp))).1 ha, Res.bind_ok, if_pos rfl, ih ⟨b, hb, hn⟩]
    · intro _
      rw [pairsM, (hf a (hq a (by simp))).2 ha, Res.bind_panic]

theorem pairsM_eq {f : Variant → Variant → Res ε Bool} {d : Nat}
    (hf : ∀ a b : Variant, a.Valid → a.depth ≤ d → f a b = .ok (a.veq b)) : ∀ a b : List Variant,
    a.length = b.length → (∀ v ∈ a, v.Valid) → (∀ v ∈ a, v.depth ≤ d) →
    pairsM f a b = .ok (veqList a b)
  | [], [], _, _, _ => rfl
  | a :: s, b :: t, hl, hv, hd => by
    have ih := pairsM_eq hf s t (by simpa using hl) (fun v h => hv v (by simp [h])) (fun v h => hd v (by simp [h]))
    rw [pairsM, hf a b (hv a (by simp)) (hd a (by simp)), Res.bind_ok, veqList, ih]
    cases a.veq b <;> rfl

theorem findM_eq {f : α → Res ε Bool} {g : α → Bool} (hf : ∀ a, f a = .ok (g a)) :
    ∀ l : List (α × β), findM f l = .ok (findEntry g l)
  | [] => rfl
  | e :: t => by
    obtain ⟨k, v⟩ := e
    rw [findM, hf, Res.bind_ok, findEntry, findM_eq hf t]
    cases g k <;> rfl

theorem veqList_length {a : List Variant} : ∀ {b : List Variant}, a.length ≠ b.length → veqList a b = false := by
  induction a with
  | nil => intro b h; cases b with
    | nil => exact absurd rfl h
    | cons => simp [veqList]
  | cons a t ih => intro b h; cases b with
    | nil => simp [veqList]
    | cons b s =>
      simp only [veqList, ih (b := s) (by simpa using h), Bool.and_false]

/-! ### The property -/

/-- **C80**: hashing a value that can be hashed nests as many calls as the value has levels. -/
theorem C80_hash : ∀ (d : Nat) (v : Variant) (w : List HashWrite), v.hash = some w →
    (v.depth ≤ d → (v.hashIn d : Res ε (List HashWrite)) = .ok w) ∧
    (d < v.depth → (v.hashIn d : Res ε (List HashWrite)) = .panic .stackOverflow)
  | 0, v, w, _ => ⟨fun h => absurd v.depth_pos (by omega), fun _ => by rw [Variant.hashIn]⟩
  | d + 1, v, w, hw => by
    have ih := C80_hash d
    have all : ∀ (l : List Variant) (w : List HashWrite), hashList l = some w →
        (depthList l ≤ d → eachM (Variant.hashIn (ε := ε) d) l = .ok w) ∧
        (d < depthList l → eachM (Variant.hashIn (ε := ε) d) l = .panic .stackOverflow) := by
      intro l
      induction l with
      | nil => intro w h; cases h; exact ⟨fun _ => rfl, fun h => absurd h (by simp [depthList])⟩
      | cons v t iht =>
        intro w h
        rw [hashList] at h
        cases hv : v.hash with
        | none => rw [hv] at h; cases h
        | some a =>
          rw [hv] at h
          simp only at h
          cases ht : hashList t with
          | none => rw [ht] at h; cases h
          | some b =>
            rw [ht] at h; cases h
            obtain ⟨h1, h2⟩ := ih v a hv
            obtain ⟨h3, h4⟩ := iht b ht
            simp only [depthList, eachM]
            constructor
            · intro h
              rw [h1 (by omega), Res.bind_ok, h3 (by omega), Res.bind_ok]
            · intro h
              by_cases hd : v.depth ≤ d
              · rw [h1 hd, Res.bind_ok, h4 (by omega), Res.bind_panic]
              · rw [h2 (by omega), Res.bind_panic]
    cases v with
    | list l =>
      simp only [Variant.hash] at hw
      cases hl : hashList l with
      | none => rw [hl] at hw; cases hw
      | some a =>
        rw [hl] at hw; cases hw
        obtain ⟨h1, h2⟩ := all l a hl
        simp only [Variant.depth, Variant.hashIn]
        exact ⟨fun h => by rw [h1 (by omega), Res.bind_ok], fun h => by rw [h2 (by omega), Res.bind_panic]⟩
    | map m => cases hw
    | described x v =>
      simp only [Variant.hash] at hw
      cases hv : v.hash with
      | none => rw [hv] at hw; cases hw
      | some a =>
        rw [hv] at hw; cases hw
        obtain ⟨h1, h2⟩ := ih v a hv
        simp only [Variant.depth, Variant.hashIn]
        exact ⟨fun h => by rw [h1 (by omega), Res.bind_ok], fun h => by rw [h2 (by omega), Res.bind_panic]⟩
    | _ =>
      simp only [Variant.depth, Variant.hashIn]
      rw [hw]
      exact ⟨fun _ => rfl, fun h => absurd h (by omega)⟩

/-- **C80**: a value that cannot be hashed is hashed on no stack, and if the stack holds it
that is because of the map in it. -/
theorem C80_hash_refused : ∀ (d : Nat) (v : Variant), v.hash = none →
    (v.depth ≤ d → (v.hashIn d : Res ε (List HashWrite)) = .panic .unimplemented) ∧
    ((v.hashIn d : Res ε (List HashWrite)) = .panic .unimplemented ∨
      (v.hashIn d : Res ε (List HashWrite)) = .panic .stackOverflow)
  | 0, v, _ => ⟨fun h => absurd v.depth_pos (by omega), .inr (by rw [Variant.hashIn])⟩
  | d + 1, v, hw => by
    have ih := C80_hash_refused d
    have all : ∀ l : List Variant, hashList l = none →
        (depthList l ≤ d → eachM (Variant.hashIn (ε := ε) d) l = .panic .unimplemented) ∧
        (eachM (Variant.hashIn (ε := ε) d) l = .panic .unimplemented ∨
          eachM (Variant.hashIn (ε := ε) d) l = .panic .stackOverflow) := by
      intro l
      induction l with
      | nil => intro h; cases h
      | cons v t iht =>
        intro h
        rw [hashList] at h
        simp only [depthList, eachM]
        cases hv : v.hash with
        | none =>
          obtain ⟨h1, h2⟩ := ih v hv
          refine ⟨fun hd => by rw [h1 (by omega), Res.bind_panic], ?_⟩
          rcases h2 with h2 | h2 <;> rw [h2, Res.bind_panic] <;> simp
        | some a =>
          rw [hv] at h
          simp only at h
          cases ht : hashList t with
          | some b => rw [ht] at h; cases h
          | none =>
            obtain ⟨h1, h2⟩ := C80_hash (ε := ε) d v a hv
            obtain ⟨h3, h4⟩ := iht ht
            refine ⟨fun hd => by rw [h1 (by omega), Res.bind_ok, h3 (by omega), Res.bind_panic], ?_⟩
            by_cases hd : v.depth ≤ d
            · rw [h1 hd, Res.bind_ok]
              rcases h4 with h4 | h4 <;> rw [h4, Res.bind_panic] <;> simp
            · rw [h2 (by omega), Res.bind_panic]; simp
    cases v with
    | list l =>
      simp only [Variant.hash] at hw
      cases hl : hashList l with
      | some a => rw [hl] at hw; cases hw
      | none =>
        obtain ⟨h1, h2⟩ := all l hl
        simp only [Variant.depth, Variant.hashIn]
        refine ⟨fun h => by rw [h1 (by omega), Res.bind_panic], ?_⟩
        rcases h2 with h2 | h2 <;> rw [h2, Res.bind_panic] <;> simp
    | map m => simp only [Variant.hashIn]; exact ⟨fun _ => trivial, .inl trivial⟩
    | described x v =>
      simp only [Variant.hash] at hw
      cases hv : v.hash with
      | some a => rw [hv] at hw; cases hw
      | none =>
        obtain ⟨h1, h2⟩ := ih v hv
        simp only [Variant.depth, Variant.hashIn]
        refine ⟨fun h => by rw [h1 (by omega), Res.bind_panic], ?_⟩
        rcases h2 with h2 | h2 <;> rw [h2, Res.bind_panic] <;> simp
    | _ => cases hw

/-- A list that holds a map. -/
example : (Variant.list [.null, .map []]).hash = none ∧
    ((Variant.list [.null, .map []]).hashIn 2 : Res Unit (List HashWrite)) = .panic .unimplemented :=
  ⟨rfl, (C80_hash_refused 2 _ rfl).1 (by decide)⟩

/-- **C80**: comparing a value with any other nests at most as many calls as the value has
levels. -/
theorem C80_equal : ∀ (d : Nat) (a b : Variant), a.Valid → a.depth ≤ d →
    (a.eqIn d b : Res ε Bool) = .ok (a.veq b)
  | 0, a, _, _, h => absurd a.depth_pos (by omega)
  | d + 1, a, b, hv, hd => by
    have ih := C80_equal d
    cases a with
    | list l =>
      cases b with
      | list l' =>
        simp only [Variant.Valid, validList_iff] at hv
        simp only [Variant.depth] at hd
        simp only [Variant.eqIn, Variant.veq]
        split
        · rename_i hl
          exact pairsM_eq ih l l' hl hv (depthList_le_iff.1 (by omega))
        · rename_i hl
          rw [veqList_length hl]
      | _ => rfl
    | map m =>
      cases b with
      | map m' =>
        simp only [Variant.Valid, validMap_iff] at hv
        simp only [Variant.depth] at hd
        simp only [Variant.eqIn, Variant.veq]
        have hd' := depthMap_le_iff.1 (show depthMap m ≤ d by omega)
        split
        · rename_i hl
          rw [show (m.length == m'.length) = true from by simp [hl], Bool.true_and]
          clear hl hd
          obtain ⟨hv1, hv2, -⟩ := hv
          induction m with
          | nil => rfl
          | cons e t iht =>
            obtain ⟨k, v⟩ := e
            obtain ⟨dk, dv⟩ := hd' (k, v) (by simp)
            obtain ⟨vk, vv⟩ := hv1 (k, v) (by simp)
            obtain ⟨w, hw⟩ := Option.isSome_iff_exists.1 ((hash_isSome k).trans (hv2 (k, v) (by simp)))
            have := iht (fun e h => hd' e (by simp [h])) (fun e h => hv1 e (by simp [h]))
              (fun e h => hv2 e (by simp [h]))
            rw [allM, subMap, this]
            simp only [(C80_hash d k w hw).1 dk, Res.bind_ok, findM_eq (fun b => ih k b vk dk)]
            cases findEntry k.veq m' with
            | none => rfl
            | some u =>
              simp only [ih v u vv dv, Res.bind_ok]
              cases v.veq u <;> rfl
        · rename_i hl
          rw [show (m.length == m'.length) = false from by simp [hl], Bool.false_and]
      | _ => rfl
    | described x v =>
      cases b with
      | described y w =>
        simp only [Variant.depth] at hd
        simp only [Variant.eqIn, Variant.veq]
        by_cases hx : x = y
        · rw [if_pos hx, ih v w hv (by omega), show (x == y) = true by simp [hx], Bool.true_and]
        · rw [if_neg hx, show (x == y) = false by simp [hx], Bool.false_and]
      | _ => rfl
    | _ => rfl

/-- **C80**: comparing a value with its copy nests as many. -/
theorem C80_equal_needed : ∀ (d : Nat) (a : Variant), a.Valid → d < a.depth →
    (a.eqIn d a : Res ε Bool) = .panic .stackOverflow
  | 0, _, _, _ => by rw [Variant.eqIn]
  | d + 1, a, hv, hd => by
    have ih := C80_equal_needed d
    have hf : ∀ a : Variant, a.Valid → (a.depth ≤ d → (a.eqIn d a : Res ε Bool) = .ok true) ∧
        (¬ a.depth ≤ d → (a.eqIn d a : Res ε Bool) = .panic .stackOverflow) := fun a h =>
      ⟨fun hd => by rw [C80_equal d a a h hd, veq_refl a h], fun hd => ih a h (by omega)⟩
    cases a with
    | list l =>
      simp only [Variant.Valid, validList_iff] at hv
      simp only [Variant.depth] at hd
      simp only [Variant.eqIn, if_true]
      exact pairsM_cases .stackOverflow hf l hv
        (not_all (fun x => by have := depthList_le_iff.mpr x; omega))
    | map m =>
      have hv0 := hv
      simp only [Variant.Valid, validMap_iff] at hv
      simp only [Variant.depth] at hd
      simp only [Variant.eqIn, if_true]
      refine allM_cases (Q := fun e => e ∈ m) (P := fun e => e.1.depth ≤ d ∧ e.2.depth ≤ d)
        .stackOverflow ?_ m (fun _ h => h) (not_all (fun x => by have := depthMap_le_iff.mpr x; omega))
      rintro ⟨k, v⟩ he
      obtain ⟨vk, vv⟩ := hv.1 (k, v) he
      obtain ⟨w, hw⟩ := Option.isSome_iff_exists.1 ((hash_isSome k).trans (hv.2.1 (k, v) he))
      have own : findEntry k.veq m = some v := by
        obtain ⟨g, hg, h1, h2⟩ := findEntry_mem he (p := k.veq) (veq_refl k vk)
        have hk : KeysOk m := hv.2
        have : (k, v) = g := hk.unique he hg h1
        rw [h2, ← this]
      by_cases dk : k.depth ≤ d
      · simp only [(C80_hash d k w hw).1 dk, Res.bind_ok, findM_eq (fun b => C80_equal d k b vk dk), own]
        exact ⟨fun h => (hf v vv).1 h.2, fun h => (hf v vv).2 fun hd => h ⟨dk, hd⟩⟩
      · refine ⟨fun h => absurd h.1 dk, fun _ => ?_⟩
        simp only [(C80_hash d k w hw).2 (by omega), Res.bind_panic]
    | described x v =>
      simp only [Variant.depth] at hd
      simp only [Variant.eqIn, if_true]
      exact ih v hv (by omega)
    | _ =>
      simp only [Variant.depth] at hd
      omega

/-- **C80**: cloning nests as many. -/
theorem C80_clone : ∀ (d : Nat) (v : Variant),
    (v.depth ≤ d → (v.cloneIn d : Res ε Variant) = .ok v) ∧
    (d < v.depth → (v.cloneIn d : Res ε Variant) = .panic .stackOverflow)
  | 0, v => ⟨fun h => absurd v.depth_pos (by omega), fun _ => by rw [Variant.cloneIn]⟩
  | d + 1, v => by
    have ih := C80_clone d
    have hf : ∀ v : Variant, (v.depth ≤ d → (v.cloneIn d : Res ε Variant) = .ok (id v)) ∧
        (¬ v.depth ≤ d → (v.cloneIn d : Res ε Variant) = .panic .stackOverflow) :=
      fun v => ⟨(ih v).1, fun h => (ih v).2 (by omega)⟩
    cases v with
    | list l =>
      obtain ⟨h1, h2⟩ := mapM'_cases .stackOverflow hf l
      simp only [Variant.depth, Variant.cloneIn]
      refine ⟨fun h => ?_, fun h => ?_⟩
      · rw [h1 (depthList_le_iff.mp (by omega)), Res.bind_ok, List.map_id]
      · rw [h2 (not_all (fun x => by have := depthList_le_iff.mpr x; omega)), Res.bind_panic]
    | map m =>
      obtain ⟨h1, h2⟩ := mapM'_cases (ε := ε)
        (f := fun e : Variant × Variant => Variant.cloneIn d e.1 >>= fun k => Variant.cloneIn d e.2 >>= fun v =>
          .ok (k, v)) (g := id) (P := fun e => e.1.depth ≤ d ∧ e.2.depth ≤ d) .stackOverflow (by
          intro e
          refine ⟨fun h => ?_, fun h => ?_⟩
          · rw [(hf _).1 h.1, Res.bind_ok, (hf _).1 h.2, Res.bind_ok]; rfl
          · by_cases h1 : e.1.depth ≤ d
            · rw [(hf _).1 h1, Res.bind_ok, (hf _).2 (fun h2 => h ⟨h1, h2⟩), Res.bind_panic]
            · rw [(hf _).2 h1, Res.bind_panic]) m
      simp only [Variant.depth, Variant.cloneIn]
      refine ⟨fun h => ?_, fun h => ?_⟩
      · rw [h1 (depthMap_le_iff.mp (by omega)), Res.bind_ok, List.map_id]
      · rw [h2 (not_all (fun x => by have := depthMap_le_iff.mpr x; omega)), Res.bind_panic]
    | described x v =>
      simp only [Variant.depth, Variant.cloneIn]
      refine ⟨fun h => ?_, fun h => ?_⟩
      · rw [(hf v).1 (by omega), Res.bind_ok]; rfl
      · rw [(hf v).2 (by omega), Res.bind_panic]
    | _ =>
      simp only [Variant.depth, Variant.cloneIn]
      exact ⟨fun _ => by first | rfl | trivial, fun h => absurd h (by omega)⟩

/-- **C80**: and so does dropping. -/
theorem C80_drop : ∀ (d : Nat) (v : Variant),
    (v.depth ≤ d → (v.dropIn d : Res ε Unit) = .ok ()) ∧
    (d < v.depth → (v.dropIn d : Res ε Unit) = .panic .stackOverflow)
  | 0, v => ⟨fun h => absurd v.depth_pos (by omega), fun _ => by rw [Variant.dropIn]⟩
  | d + 1, v => by
    have ih := C80_drop d
    have hf : ∀ v : Variant, (v.depth ≤ d → (v.dropIn d : Res ε Unit) = .ok ((fun _ => ()) v)) ∧
        (¬ v.depth ≤ d → (v.dropIn d : Res ε Unit) = .panic .stackOverflow) :=
      fun v => ⟨(ih v).1, fun h => (ih v).2 (by omega)⟩
    cases v with
    | list l =>
      obtain ⟨h1, h2⟩ := mapM'_cases .stackOverflow hf l
      simp only [Variant.depth, Variant.dropIn]
      refine ⟨fun h => ?_, fun h => ?_⟩
      · rw [h1 (depthList_le_iff.mp (by omega)), Res.bind_ok]
      · rw [h2 (not_all (fun x => by have := depthList_le_iff.mpr x; omega)), Res.bind_panic]
    | map m =>
      obtain ⟨h1, h2⟩ := mapM'_cases (ε := ε)
        (f := fun e : Variant × Variant => Variant.dropIn d e.1 >>= fun _ => Variant.dropIn d e.2)
        (g := fun _ => ()) (P := fun e => e.1.depth ≤ d ∧ e.2.depth ≤ d) .stackOverflow (by
          intro e
          refine ⟨fun h => ?_, fun h => ?_⟩
          · rw [(hf _).1 h.1, Res.bind_ok, (hf _).1 h.2]
          · by_cases h1 : e.1.depth ≤ d
            · rw [(hf _).1 h1, Res.bind_ok, (hf _).2 (fun h2 => h ⟨h1, h2⟩)]
            · rw [(hf _).2 h1, Res.bind_panic]) m
      simp only [Variant.depth, Variant.dropIn]
      refine ⟨fun h => ?_, fun h => ?_⟩
      · rw [h1 (depthMap_le_iff.mp (by omega)), Res.bind_ok]
      · rw [h2 (not_all (fun x => by have := depthMap_le_iff.mpr x; omega)), Res.bind_panic]
    | described x v =>
      simp only [Variant.depth, Variant.dropIn]
      exact ⟨fun h => (hf v).1 (by omega), fun h => (hf v).2 (by omega)⟩
    | _ =>
      simp only [Variant.depth, Variant.dropIn]
      exact ⟨fun _ => by first | rfl | trivial, fun h => absurd h (by omega)⟩

/-- **C80**: what was decoded on a stack can be compared with anything, cloned and dropped
on a stack that holds as many nested calls, and hashed if it can be hashed at all. -/
theorem C80_decoded_uses (env : Env) (i r : Bytes) (v : Variant)
    (h : decode Variant env i = .ok (r, v)) :
    (∀ w, (v.eqIn env.stackDepth w : Res ε Bool) = .ok (v.veq w)) ∧
    (v.cloneIn env.stackDepth : Res ε Variant) = .ok v ∧
    (v.dropIn env.stackDepth : Res ε Unit) = .ok () ∧
    ∀ w, v.hash = some w → (v.hashIn env.stackDepth : Res ε (List HashWrite)) = .ok w := by
  obtain ⟨hy, -⟩ := yield_decVar env env.stackDepth _ _ _ h
  exact ⟨fun w => C80_equal _ v w hy.valid hy.depth, (C80_clone _ v).1 hy.depth,
    (C80_drop _ v).1 hy.depth, fun w hw => (C80_hash _ v w hw).1 hy.depth⟩

example : ((tower 2).eqIn 3 (tower 2) : Res Unit Bool) = .ok true ∧
    ((tower 2).eqIn 2 (tower 2) : Res Unit Bool) = .panic .stackOverflow ∧
    ((tower 2).dropIn 2 : Res Unit Unit) = .panic .stackOverflow := ⟨rfl, rfl, rfl⟩

example : ((tower 2).cloneIn 3 : Res Unit Variant) = .ok (tower 2) ∧
    ((tower 2).dropIn 3 : Res Unit Unit) = .ok () :=
  have h := C80_decoded_uses ⟨true, 3⟩ (enc (tower 2)) [] (tower 2) rfl
  ⟨h.2.1, h.2.2.1⟩

end Amqp
