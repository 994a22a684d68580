import Verif.Proofs.WireExact
import Verif.Proofs.LenientValues
/-!
# Which legal encodings of values are read
-/
set_option autoImplicit false
namespace Amqp
open Standard

theorem firstKeys_length {K V : Type} [HKey K] (l : List (K × V)) :
    (Lenient.firstKeys l).length ≤ l.length := by
  induction l with
  | nil => exact Nat.le_refl _
  | cons e t ih =>
    have := List.length_filter_le (fun k => !HKey.keq k e.1) (Lenient.firstKeys t)
    simp only [Lenient.firstKeys, List.length_cons]
    omega

theorem firstKeys_full {K V : Type} [HKey K] (l : List (K × V))
    (h : (Lenient.firstKeys l).length = l.length) :
    Lenient.firstKeys l = l.map Prod.fst ∧ NodupKeys l := by
  induction l with
  | nil => exact ⟨rfl, .nil⟩
  | cons e t ih =>
    have h1 := List.length_filter_le (fun k => !HKey.keq k e.1) (Lenient.firstKeys t)
    have h2 := firstKeys_length t
    simp only [Lenient.firstKeys, List.length_cons] at h ⊢
    obtain ⟨h3, h4⟩ := ih (by omega)
    have h5 : (Lenient.firstKeys t).filter (fun k => !HKey.keq k e.1) = Lenient.firstKeys t :=
      List.filter_eq_self.2 (List.length_filter_eq_length_iff.1 (by omega))
    rw [h5, h3]
    refine ⟨rfl, List.pairwise_cons.2 ⟨fun a ha => ?_, h4⟩⟩
    have := (List.filter_eq_self.1 h5) a.1 (by rw [h3]; exact List.mem_map_of_mem ha)
    simpa using this

theorem merged_full {K V : Type} [HKey K] [LawfulKey K] {l : List (K × V)}
    (hh : ∀ e ∈ l, HKey.hashOk e.1 = true) (h : (Lenient.merged l).length = l.length) :
    Lenient.merged l = l := by
  have h1 : (Lenient.merged l).length ≤ (Lenient.firstKeys l).length := List.length_filterMap_le ..
  have h2 := firstKeys_length l
  obtain ⟨-, hn⟩ := firstKeys_full l (by omega)
  rw [← insertAll_merged l hh, insertAll_fresh l [] hn]
  rfl

theorem skips_lenient_symbol {s : Symbol} {b : Bytes} (h : Lenient.symbol s b) : Skips b := by
  cases h with
  | mk h1 h2 => exact skips_sized h1 h2 (by decide) (by decide) (fun _ => rfl) (fun _ => rfl)

theorem skips_lenient_descriptor {d : Descriptor} {b : Bytes} (h : Lenient.descriptor d b) : Skips b := by
  cases h with
  | ulong h _ => exact skips_prim h
  | symbol h => exact skips_lenient_symbol h

theorem skips_scalar {v : Variant} {b : Bytes} (h : Lenient.Scalar v b) : Skips b := by
  cases h with
  | prim h => exact skips_prim h
  | boolean h =>
    cases h with
    | short => split <;> exact skips_of (by decide) fun r => rfl
    | byte x => exact skips_of (by decide) fun r => rfl
  | symbol h => exact skips_lenient_symbol h
  | timestamp h =>
    cases h with
    | before h => exact skips_snum h (by decide) fun t => rfl
    | after h => exact skips_snum h (by decide) fun t => rfl

theorem scalar_not_compound {v : Variant} {b : Bytes} (h : Lenient.Scalar v b) :
    (∀ l, v ≠ .list l) ∧ (∀ m, v ≠ .map m) ∧ (∀ d x, v ≠ .described d x) ∧ v.depth = 1 := by
  cases h with
  | prim h => cases h <;> exact ⟨nofun, nofun, nofun, by simp only [Variant.depth]⟩
  | _ => exact ⟨nofun, nofun, nofun, by simp only [Variant.depth]⟩

theorem depthList_bound {n : Nat} : ∀ {l : List Variant}, (∀ v ∈ l, v.depth ≤ n) → depthList l ≤ n
  | [], _ => by simp only [depthList]; omega
  | v :: t, h => by
    have h1 := h v List.mem_cons_self
    have h2 := depthList_bound fun w hw => h w (List.mem_cons_of_mem v hw)
    simp only [depthList]
    omega

theorem depthMap_bound {n : Nat} : ∀ {l : List (Variant × Variant)},
    (∀ e ∈ l, e.1.depth ≤ n ∧ e.2.depth ≤ n) → depthMap l ≤ n
  | [], _ => by simp only [depthMap]; omega
  | e :: t, h => by
    have h1 := h e List.mem_cons_self
    have h2 := depthMap_bound fun w hw => h w (List.mem_cons_of_mem e hw)
    obtain ⟨k, v⟩ := e
    have h1 : k.depth ≤ n ∧ v.depth ≤ n := h1
    simp only [depthMap]
    omega

/-- A legal encoding that begins as one that is read as the same value is that one, and
among the accepted ones. -/
def ReadOnly (env : Env) (v : Variant) (u : Bytes) : Prop :=
  ∀ n u' r r', Lenient.nested env n v u' → u ++ r = u' ++ r' →
    u = u' ∧ Wire .accepted v u ∧ v.depth ≤ n

theorem readOnly_items {env : Env} {n : Nat} : ∀ {items items' : List (Variant × Bytes)} {r r' : Bytes},
    (∀ p ∈ items, ReadOnly env p.1 p.2) → (∀ p ∈ items', Lenient.nested env n p.1 p.2) →
    items.map Prod.fst = items'.map Prod.fst →
    items.flatMap Prod.snd ++ r = items'.flatMap Prod.snd ++ r' →
    items.flatMap Prod.snd = items'.flatMap Prod.snd ∧
      ∀ p ∈ items, Wire .accepted p.1 p.2 ∧ p.1.depth ≤ n
  | [], [], _, _, _, _, _, _ => ⟨rfl, nofun⟩
  | p :: t, q :: t', r, r', h1, h2, h3, h4 => by
    simp only [List.map_cons, List.cons.injEq] at h3
    simp only [List.flatMap_cons, List.append_assoc] at h4 ⊢
    obtain ⟨e1, w1, d1⟩ := h1 p List.mem_cons_self n _ _ _ (by rw [h3.1]; exact h2 q List.mem_cons_self) h4
    rw [e1] at h4
    obtain ⟨e2, h5⟩ := readOnly_items (fun x hx => h1 x (List.mem_cons_of_mem _ hx))
      (fun x hx => h2 x (List.mem_cons_of_mem _ hx)) h3.2 (List.append_cancel_left h4)
    refine ⟨by rw [e1, e2], fun x hx => ?_⟩
    rcases List.mem_cons.1 hx with rfl | hx
    · exact ⟨w1, d1⟩
    · exact h5 x hx

theorem readOnly_entries {env : Env} {n : Nat} :
    ∀ {items items' : List ((Variant × Bytes) × (Variant × Bytes))} {r r' : Bytes},
    (∀ p ∈ items, ReadOnly env p.1.1 p.1.2 ∧ ReadOnly env p.2.1 p.2.2) →
    (∀ p ∈ items', Lenient.nested env n p.1.1 p.1.2 ∧ Lenient.nested env n p.2.1 p.2.2) →
    items.map (fun p => (p.1.1, p.2.1)) = items'.map (fun p => (p.1.1, p.2.1)) →
    items.flatMap (fun p => p.1.2 ++ p.2.2) ++ r = items'.flatMap (fun p => p.1.2 ++ p.2.2) ++ r' →
    items.flatMap (fun p => p.1.2 ++ p.2.2) = items'.flatMap (fun p => p.1.2 ++ p.2.2) ∧
      ∀ p ∈ items, (Wire .accepted p.1.1 p.1.2 ∧ p.1.1.depth ≤ n) ∧
        (Wire .accepted p.2.1 p.2.2 ∧ p.2.1.depth ≤ n)
  | [], [], _, _, _, _, _, _ => ⟨rfl, nofun⟩
  | p :: t, q :: t', r, r', h1, h2, h3, h4 => by
    simp only [List.map_cons, List.cons.injEq, Prod.mk.injEq] at h3
    simp only [List.flatMap_cons, List.append_assoc] at h4 ⊢
    have g1 := h1 p List.mem_cons_self
    have g2 := h2 q List.mem_cons_self
    obtain ⟨e1, w1, d1⟩ := g1.1 n _ _ _ (by rw [h3.1.1]; exact g2.1) h4
    rw [e1] at h4
    have h4 := List.append_cancel_left h4
    obtain ⟨e2, w2, d2⟩ := g1.2 n _ _ _ (by rw [h3.1.2]; exact g2.2) h4
    rw [e2] at h4
    obtain ⟨e3, h5⟩ := readOnly_entries (fun x hx => h1 x (List.mem_cons_of_mem _ hx))
      (fun x hx => h2 x (List.mem_cons_of_mem _ hx)) h3.2 (List.append_cancel_left h4)
    refine ⟨by rw [e1, e2, e3], fun x hx => ?_⟩
    rcases List.mem_cons.1 hx with rfl | hx
    · exact ⟨⟨w1, d1⟩, ⟨w2, d2⟩⟩
    · exact h5 x hx

/-- Headers that begin alike. -/
theorem header_align {env : Env} {c8 c32 c : UInt8} {w k cnt size count : Nat} {s n hdr x y : Bytes}
    (hne : c8 ≠ c32) (hc : Sized c8 c32 c w) (hs : Num w s (w + k)) (hn : Num w n cnt)
    (hh : Lenient.Header env c8 c32 hdr size count) (e : c :: (s ++ n ++ x) = hdr ++ y) :
    c :: (s ++ n) = hdr ∧ x = y ∧ size = k ∧ count = cnt := by
  cases hh with
  | @mk c' w' k' _ _ s' n' g1 g2 g3 g4 =>
    simp only [List.cons_append, List.append_assoc] at e
    injection e with e0 e
    subst e0
    have hw : w = w' := by
      cases hc <;> cases g1 <;> first | rfl | exact absurd rfl hne
    subst hw
    obtain ⟨e1, e'⟩ := List.append_inj e (hs.width.trans g2.width.symm)
    obtain ⟨e2, e''⟩ := List.append_inj e' (hn.width.trans g4.width.symm)
    subst e1 e2
    have hk := hs.unique g2
    refine ⟨rfl, e'', ?_, g4.unique hn⟩
    cases g3 with
    | exact size => omega
    | wrapped _ h => omega

theorem readOnly_wire (env : Env) {v : Variant} {u : Bytes} (h : Wire .amqp v u) : ReadOnly env v u := by
  induction h with
  | @prim v u h =>
    intro n u' r r' hl e
    cases n with
    | zero => exact hl.elim
    | succ n =>
      cases hl with
      | scalar hs =>
        exact ⟨(skips_unique (skips_prim h) (skips_scalar hs) e).1, .prim h, by
          rw [(scalar_not_compound hs).2.2.2]; omega⟩
      | list _ => cases h
      | map _ => cases h
      | described _ _ => cases h
  | @timestamp t m b h1 h2 h3 =>
    intro n u' r r' hl e
    cases n with
    | zero => exact hl.elim
    | succ n =>
      cases hl with
      | scalar hs =>
        have e1 := (skips_unique (skips_snum h1 (by decide) fun t => rfl) (skips_scalar hs) e).1
        subst e1
        refine ⟨rfl, .timestamp h1 h2 ?_, by rw [(scalar_not_compound hs).2.2.2]; omega⟩
        cases hs with
        | prim h => cases h
        | timestamp h =>
          cases h with
          | before g1 g2 g3 g4 g5 =>
            refine ⟨by omega, .inr ⟨?_, g4, g5⟩⟩
            omega
          | after g1 g2 g3 g4 =>
            refine ⟨by omega, .inl ⟨?_, g4⟩⟩
            omega
  | list0 =>
    intro n u' r r' hl e
    cases n with
    | zero => exact hl.elim
    | succ n =>
      cases hl with
      | scalar hs => exact absurd rfl ((scalar_not_compound hs).1 _)
      | list hl =>
        generalize hv : ([] : List Variant) = l at hl
        cases hl with
        | empty => exact ⟨rfl, .list0, by simp only [Variant.depth, depthList]; omega⟩
        | mk items hh _ =>
          cases hh with
          | mk g1 _ _ _ =>
            simp only [List.cons_append] at e
            injection e with e _
            subst e
            cases g1
  | list items g1 g2 g3 g4 ih =>
    intro n u' r r' hl e
    cases n with
    | zero => exact hl.elim
    | succ n =>
      cases hl with
      | scalar hs => exact absurd rfl ((scalar_not_compound hs).1 _)
      | list hl =>
        generalize hv : items.map Prod.fst = l at hl
        cases hl with
        | empty =>
          simp only [List.cons_append] at e
          injection e with e _
          subst e
          cases g1
        | mk items' hh hi =>
          simp only [List.cons_append, List.append_assoc] at e
          obtain ⟨e1, e2, -, -⟩ := header_align (by decide) g1 g2 g3 hh
            (by simpa only [List.append_assoc] using e)
          obtain ⟨e3, h3⟩ := readOnly_items ih hi hv e2
          refine ⟨?_, hv ▸ .list items g1 g2 g3 fun p hp => (h3 p hp).1, ?_⟩
          · rw [← e1, e3]; rfl
          · rw [← hv]
            simp only [Variant.depth]
            have := depthList_bound (n := n) (l := items.map Prod.fst) (by
              intro x hx
              obtain ⟨p, hp, rfl⟩ := List.mem_map.1 hx
              exact (h3 p hp).2)
            omega
  | map items g1 g2 g3 g4 g5 g6 g7 ih1 ih2 =>
    intro n u' r r' hl e
    cases n with
    | zero => exact hl.elim
    | succ n =>
      cases hl with
      | scalar hs => exact absurd rfl ((scalar_not_compound hs).2.1 _)
      | map hl =>
        generalize hv : items.map (fun p => (p.1.1, p.2.1)) = l at hl
        cases hl with
        | mk items' ignored hh hcnt hi =>
          simp only [List.cons_append, List.append_assoc] at e
          obtain ⟨e1, e2, e3, e4⟩ := header_align (by decide) g1 g2 g3 hh
            (by simpa only [List.append_assoc] using e)
          have hlen : items'.length = items.length := by omega
          have hm := merged_full (l := items'.map fun p => (p.1.1, p.2.1))
            (by
              intro x hx
              obtain ⟨p, hp, rfl⟩ := List.mem_map.1 hx
              exact (hi p hp).2.2)
            (by rw [← hv, List.length_map, List.length_map, hlen])
          rw [hm] at hv
          obtain ⟨e5, h3⟩ := readOnly_entries (fun p hp => ⟨ih1 p hp, ih2 p hp⟩)
            (fun p hp => ⟨(hi p hp).1, (hi p hp).2.1⟩) hv e2
          have hig : ignored = [] := by
            rw [List.length_append, ← e5] at e3
            exact List.eq_nil_of_length_eq_zero (by omega)
          subst hig
          have hk : ∀ p ∈ items, p.1.1.hashOk = true := fun p hp => by
            have : (p.1.1, p.2.1) ∈ items'.map (fun p => (p.1.1, p.2.1)) := by
              rw [← hv]; exact List.mem_map_of_mem (f := fun p => (p.1.1, p.2.1)) hp
            obtain ⟨q, hq, he⟩ := List.mem_map.1 this
            injection he with he _
            rw [← he]
            exact (hi q hq).2.2
          rw [hm, ← hv]
          refine ⟨?_, .map items g1 g2 g3 (fun p hp => (h3 p hp).1.1) (fun p hp => (h3 p hp).2.1) hk g7, ?_⟩
          · rw [← e1, e5, List.append_nil]; rfl
          · simp only [Variant.depth]
            have := depthMap_bound (n := n) (l := items.map fun p => (p.1.1, p.2.1)) (by
              intro x hx
              obtain ⟨p, hp, rfl⟩ := List.mem_map.1 hx
              exact ⟨(h3 p hp).1.2, (h3 p hp).2.2⟩)
            omega
  | @described d v db b hd _ ih =>
    intro n u' r r' hl e
    cases n with
    | zero => exact hl.elim
    | succ n =>
      cases hl with
      | scalar hs => exact absurd rfl ((scalar_not_compound hs).2.2.1 _ _)
      | @described _ _ db' b' hd' hv =>
        simp only [List.cons_append, List.append_assoc, List.cons.injEq, true_and] at e
        have hk : Skips db := by cases d <;> exact skips_prim hd
        obtain ⟨e1, e2⟩ := skips_unique hk (skips_lenient_descriptor hd') e
        subst e1
        obtain ⟨e3, w, dp⟩ := ih n _ _ _ hv e2
        refine ⟨by rw [e3], .described ⟨hd, ?_⟩ w, by simp only [Variant.depth]; omega⟩
        cases hd' with
        | ulong _ h => exact h
        | symbol h =>
          cases h with
          | mk h _ => cases h <;> simp

end Amqp
