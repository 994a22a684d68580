import Verif.Proofs.ReadExact
import Verif.Proofs.StandardExact
/-!
# Which legal encodings of the standard's types are read

A legal encoding (`A`) and one that is read as the same value (`L`), one of which begins
like the other, are the same, and among those that can be read (`C`).
-/
set_option autoImplicit false
namespace Amqp
open Dec Standard

def Aligns {α : Type} (A L C : Rep α) : Prop :=
  ∀ x u u' r r', A x u → L x u' → u ++ r = u' ++ r' → u = u' ∧ C x u

/-- The same for a type whose layout is given for every scope. -/
abbrev AlignsIn {α : Type} (env : Env) (R : Scope → Rep α) : Prop :=
  Aligns (R .all) (R (.lenient env)) (R (.accepted env))

theorem aln_skips {α : Type} {A L : Rep α} (hA : ∀ x u, A x u → Skips u) (hL : ∀ x u, L x u → Skips u) :
    Aligns A L A := fun x u u' _ _ h h' e => ⟨(skips_unique (hA x u h) (hL x u' h') e).1, h⟩

section
variable {env : Env}

theorem aln_ubyte : Aligns ubyte ubyte ubyte := aln_skips (fun _ _ h => skips_prim h) fun _ _ h => skips_prim h
theorem aln_ushort : Aligns ushort ushort ushort := aln_skips (fun _ _ h => skips_prim h) fun _ _ h => skips_prim h
theorem aln_uint : Aligns uint uint uint := aln_skips (fun _ _ h => skips_prim h) fun _ _ h => skips_prim h
theorem aln_ulong : Aligns ulong ulong ulong := aln_skips (fun _ _ h => skips_prim h) fun _ _ h => skips_prim h
theorem aln_binary : Aligns binary binary binary := aln_skips (fun _ _ h => skips_prim h) fun _ _ h => skips_prim h
theorem aln_string : Aligns string string string := aln_skips (fun _ _ h => skips_prim h) fun _ _ h => skips_prim h
theorem skips_messageId (x : MessageId) (u : Bytes) (h : messageId x u) : Skips u := by
  cases x <;> exact skips_prim h
theorem aln_messageId : Aligns messageId messageId messageId := aln_skips skips_messageId skips_messageId
theorem aln_boolean : AlignsIn env Scope.boolean :=
  aln_skips (fun _ _ h => skips_prim h) fun _ _ h => skips_scalar (.boolean h)
theorem aln_symbol : AlignsIn env Scope.symbol :=
  aln_skips (fun _ _ h => skips_prim h) fun _ _ h => skips_lenient_symbol h
theorem aln_role : AlignsIn env role := fun x => by cases x <;> exact aln_boolean (env := env) _
theorem aln_senderSettleMode : Aligns senderSettleMode senderSettleMode senderSettleMode :=
  fun x => by cases x <;> exact aln_ubyte _
theorem aln_receiverSettleMode : Aligns receiverSettleMode receiverSettleMode receiverSettleMode :=
  fun x => by cases x <;> exact aln_ubyte _
theorem aln_saslCode : Aligns saslCode saslCode saslCode := fun x => by cases x <;> exact aln_ubyte _
theorem aln_terminusDurability : Aligns terminusDurability terminusDurability terminusDurability :=
  fun x => by cases x <;> exact aln_uint _
theorem aln_terminusExpiryPolicy : AlignsIn env terminusExpiryPolicy :=
  fun x => by cases x <;> exact aln_symbol (env := env) _
theorem aln_errorCondition : AlignsIn env errorCondition := fun x u u' r r' h h' e => by
  cases x with
  | Custom s => exact ⟨(aln_symbol (env := env) _ _ _ _ _ h.2 h'.2 e).1, h⟩
  | _ => exact aln_symbol (env := env) _ _ _ _ _ h h' e
theorem aln_distributionMode : AlignsIn env distributionMode := fun x u u' r r' h h' e => by
  cases x with
  | Custom s => exact ⟨(aln_symbol (env := env) _ _ _ _ _ h.2.2 h'.2.2 e).1, h⟩
  | _ => exact aln_symbol (env := env) _ _ _ _ _ h h' e

theorem aln_any : AlignsIn env Scope.any := fun _ _ u' r r' h h' e =>
  let ⟨h1, h2, h3⟩ := readOnly_wire env h.1 env.stackDepth u' r r' h' e
  ⟨h1, h2, h3⟩

theorem aln_timestamp : AlignsIn env Scope.timestamp := fun _ _ u' r r' h h' e =>
  let ⟨h1, h2, _⟩ := readOnly_wire env h 1 u' r r' (.scalar (.timestamp h')) e
  ⟨h1, h2⟩

theorem depthList_has {v : Variant} : ∀ {l : List Variant}, v ∈ l → v.depth ≤ depthList l
  | w :: t, h => by
    simp only [depthList]
    rcases List.mem_cons.1 h with rfl | h
    · omega
    · have := depthList_has h
      omega

theorem aln_list : AlignsIn env Scope.list := fun x u u' r r' h h' e => by
  obtain ⟨h1, h2, h3⟩ := readOnly_wire env h.1 (env.stackDepth + 1) u' r r' (.list h') e
  refine ⟨h1, h2, fun v hv => ?_⟩
  simp only [Variant.depth] at h3
  have := depthList_has hv
  show v.depth ≤ env.stackDepth
  omega

/-! ## Maps -/

theorem aln_entries {K V : Type} {AK LK CK : Rep K} {AV LV CV : Rep V} (hk : Aligns AK LK CK)
    (hv : Aligns AV LV CV) :
    ∀ {items items' : List ((K × Bytes) × (V × Bytes))} {r r' : Bytes},
    (∀ p ∈ items, AK p.1.1 p.1.2 ∧ AV p.2.1 p.2.2) →
    (∀ p ∈ items', LK p.1.1 p.1.2 ∧ LV p.2.1 p.2.2) →
    items.map (fun p => (p.1.1, p.2.1)) = items'.map (fun p => (p.1.1, p.2.1)) →
    items.flatMap (fun p => p.1.2 ++ p.2.2) ++ r = items'.flatMap (fun p => p.1.2 ++ p.2.2) ++ r' →
    items.flatMap (fun p => p.1.2 ++ p.2.2) = items'.flatMap (fun p => p.1.2 ++ p.2.2) ∧
      ∀ p ∈ items, CK p.1.1 p.1.2 ∧ CV p.2.1 p.2.2
  | [], [], _, _, _, _, _, _ => ⟨rfl, nofun⟩
  | p :: t, q :: t', r, r', h1, h2, h3, h4 => by
    simp only [List.map_cons, List.cons.injEq, Prod.mk.injEq] at h3
    simp only [List.flatMap_cons, List.append_assoc] at h4 ⊢
    have g1 := h1 p List.mem_cons_self
    have g2 := h2 q List.mem_cons_self
    obtain ⟨e1, w1⟩ := hk _ _ _ _ _ g1.1 (by rw [h3.1.1]; exact g2.1) h4
    rw [e1] at h4
    have h4 := List.append_cancel_left h4
    obtain ⟨e2, w2⟩ := hv _ _ _ _ _ g1.2 (by rw [h3.1.2]; exact g2.2) h4
    rw [e2] at h4
    obtain ⟨e3, h5⟩ := aln_entries hk hv (fun x hx => h1 x (List.mem_cons_of_mem _ hx))
      (fun x hx => h2 x (List.mem_cons_of_mem _ hx)) h3.2 (List.append_cancel_left h4)
    refine ⟨by rw [e1, e2, e3], fun x hx => ?_⟩
    rcases List.mem_cons.1 hx with rfl | hx
    · exact ⟨w1, w2⟩
    · exact h5 x hx

theorem aln_wireMap {K V : Type} [HKey K] [LawfulKey K] {AK LK CK : Rep K} {AV LV CV : Rep V}
    (hk : Aligns AK LK CK) (hv : Aligns AV LV CV) {l : List (K × V)} {u u' r r' : Bytes}
    (h : WireMap AK AV l u) (h' : Lenient.map env LK LV l u') (e : u ++ r = u' ++ r') :
    u = u' ∧ WireMap CK CV l u ∧ ∀ p ∈ l, HKey.hashOk p.1 = true := by
  cases h with
  | mk items g1 g2 g3 g4 g5 =>
    generalize hl : items.map (fun p => (p.1.1, p.2.1)) = l at h'
    cases h' with
    | mk items' ignored hh hcnt hi =>
      simp only [List.cons_append, List.append_assoc] at e
      obtain ⟨e1, e2, e3, e4⟩ := header_align (by decide) g1 g2 g3 hh
        (by simpa only [List.append_assoc] using e)
      have hlen : items'.length = items.length := by omega
      have hm := merged_full (l := items'.map fun p => (p.1.1, p.2.1))
        (by
          intro x hx
          obtain ⟨p, hp, rfl⟩ := List.mem_map.1 hx
          exact (hi p hp).2.2)
        (by rw [← hl, List.length_map, List.length_map, hlen])
      rw [hm] at hl
      obtain ⟨e5, h3⟩ := aln_entries hk hv g4 (fun p hp => ⟨(hi p hp).1, (hi p hp).2.1⟩) hl e2
      have hig : ignored = [] := by
        rw [List.length_append, ← e5] at e3
        exact List.eq_nil_of_length_eq_zero (by omega)
      subst hig
      rw [hm]
      refine ⟨?_, hl ▸ .mk items g1 g2 g3 h3 g5, fun p hp => ?_⟩
      · rw [← e1, e5, List.append_nil]; rfl
      · obtain ⟨q, hq, rfl⟩ := List.mem_map.1 hp
        exact (hi q hq).2.2

theorem aln_fields : AlignsIn env Scope.fields := fun _ _ _ _ _ h h' e =>
  let ⟨h1, h2, _⟩ := aln_wireMap (aln_symbol (env := env)) (aln_any (env := env)) h h' e
  ⟨h1, h2⟩
theorem aln_annotations : AlignsIn env Scope.annotations := fun _ _ _ _ _ h h' e =>
  let ⟨h1, h2, _⟩ := aln_wireMap (aln_symbol (env := env)) (aln_any (env := env)) h h' e
  ⟨h1, h2⟩
theorem aln_stringMap : AlignsIn env Scope.stringMap := fun _ _ _ _ _ h h' e =>
  let ⟨h1, h2, _⟩ := aln_wireMap aln_string (aln_any (env := env)) h h' e
  ⟨h1, h2⟩
theorem aln_map : AlignsIn env Scope.map := fun _ _ _ _ _ h h' e =>
  let ⟨h1, h2, h3⟩ := aln_wireMap (aln_any (env := env)) (aln_any (env := env)) h.1 h' e
  ⟨h1, h2, h3⟩
theorem aln_filterSet : AlignsIn env Scope.filterSet := fun _ _ _ _ _ h h' e =>
  let ⟨h1, h2, _⟩ := aln_wireMap (AV := fun v u => v = none ∧ u = null) (CV := fun v u => v = none ∧ u = null)
    (aln_symbol (env := env)) (fun x u u' r r' h h' _ => by
      obtain ⟨rfl, rfl⟩ := h
      cases h'
      exact ⟨rfl, rfl, rfl⟩) h h' e
  ⟨h1, h2⟩

/-! ## Symbols -/

theorem lenient_symbol_unique {s : Symbol} {k : UInt8} {b b' : Bytes} (h : Prim (.symbol s) (k :: b))
    (h' : Lenient.symbol s (k :: b')) {r r' : Bytes} (e : b ++ r = b' ++ r') : b = b' := by
  have := (skips_unique (skips_prim h) (skips_lenient_symbol h') (r := r) (r' := r')
    (by simp only [List.cons_append, e])).1
  injection this

theorem aln_array_items {k : UInt8} : ∀ {items items' : List (Symbol × Bytes)} {r r' : Bytes},
    (∀ p ∈ items, symbol p.1 (k :: p.2)) → (∀ p ∈ items', Lenient.symbol p.1 (k :: p.2)) →
    items.map Prod.fst = items'.map Prod.fst →
    items.flatMap Prod.snd ++ r = items'.flatMap Prod.snd ++ r' →
    items.flatMap Prod.snd = items'.flatMap Prod.snd
  | [], [], _, _, _, _, _, _ => rfl
  | p :: t, q :: t', r, r', h1, h2, h3, h4 => by
    simp only [List.map_cons, List.cons.injEq] at h3
    simp only [List.flatMap_cons, List.append_assoc] at h4 ⊢
    have g2 := h2 q List.mem_cons_self
    rw [← h3.1] at g2
    have e1 := lenient_symbol_unique (h1 p List.mem_cons_self) g2 h4
    rw [e1] at h4
    rw [e1, aln_array_items (fun x hx => h1 x (List.mem_cons_of_mem _ hx))
      (fun x hx => h2 x (List.mem_cons_of_mem _ hx)) h3.2 (List.append_cancel_left h4)]

theorem head_symbol {s : Symbol} {u : Bytes} (h : Prim (.symbol s) u) :
    ∃ c w t, Sized 0xa3 0xb3 c w ∧ u = c :: t := by
  cases h with
  | symbol h _ => exact ⟨_, _, _, h, rfl⟩
theorem head_lenient_symbol {s : Symbol} {u : Bytes} (h : Lenient.symbol s u) :
    ∃ c w t, Sized 0xa3 0xb3 c w ∧ u = c :: t := by
  cases h with
  | mk h _ => exact ⟨_, _, _, h, rfl⟩

theorem aln_symbols : AlignsIn env Scope.symbols := fun x u u' r r' h h' e => by
  have h0 : Standard.Multiple symbol x u := h
  refine ⟨?_, h⟩
  have h' : Lenient.multiple env Lenient.symbol x u' := h'
  cases h0 with
  | @one s _ h =>
    generalize hx : (⟨[s]⟩ : Amqp.Multiple Symbol) = x at h'
    cases h' with
    | one h' =>
      injection hx with hx; injection hx with hx; subst hx
      exact (aln_symbol (env := env) _ _ _ _ _ h h' e).1
    | array h' =>
      cases h' with
      | mk k items hh hi =>
        cases hh with
        | mk g1 _ _ _ =>
          obtain ⟨c, w, t, hc, rfl⟩ := head_symbol h
          simp only [List.cons_append] at e
          injection e with e _
          subst e
          cases hc <;> cases g1
  | @array l _ h =>
    cases h with
    | @mk items c k w s n g1 g2 g3 g4 =>
      generalize hx : (⟨items.map Prod.fst⟩ : Amqp.Multiple Symbol) = x at h'
      cases h' with
      | one h' =>
        obtain ⟨c', w', t, hc, rfl⟩ := head_lenient_symbol h'
        simp only [List.cons_append] at e
        injection e with e _
        subst e
        cases hc <;> cases g1
      | array h' =>
        injection hx with hx
        cases h' with
        | @mk k' items' hdr size hh hi =>
          simp only [List.cons_append, List.append_assoc] at e
          obtain ⟨e1, e2, -, -⟩ := header_align (by decide) g1
            (k := 1 + (items.flatMap Prod.snd).length) (by rw [← Nat.add_assoc]; exact g2) g3 hh
            (by simpa only [List.append_assoc] using e)
          injection e2 with e2 e3
          subst e2
          rw [← e1, aln_array_items g4 hi hx e3]
          simp only [List.cons_append, List.append_assoc]

/-! ## Fields -/

structure AlignSlot (a l c : Slot) : Prop where
  absent : a.absent → c.absent
  null : l.absent → ∀ u t r, a.legal u → u ++ r ≠ 0x40 :: t
  given : a.absent → ∀ u t r, l.legal u → u ++ r ≠ 0x40 :: t
  legal : ∀ u u' r r', a.legal u → l.legal u' → u ++ r = u' ++ r' → u = u' ∧ c.legal u

inductive AlignSlots : List Slot → List Slot → List Slot → Prop
  | nil : AlignSlots [] [] []
  | cons {a l c : Slot} {as ls cs : List Slot} : AlignSlot a l c → AlignSlots as ls cs →
      AlignSlots (a :: as) (l :: ls) (c :: cs)

section
variable {α : Type} {A L C : Rep α}

theorem aln_req {x : α} (h : Aligns A L C) : AlignSlot (mandatory A x) (mandatory L x) (mandatory C x) :=
  ⟨id, False.elim, False.elim, h x⟩

theorem aln_opt {x : Option α} (h : Aligns A L C) : AlignSlot (optional A x) (optional L x) (optional C x) where
  absent := id
  null hn u t r := fun ⟨a, ha, _⟩ => by cases ha.symm.trans hn
  given hn u t r := fun ⟨a, ha, _⟩ => by cases ha.symm.trans hn
  legal u u' r r' := fun ⟨a, ha, h1⟩ ⟨b, hb, h2⟩ e => by
    cases ha.symm.trans hb
    obtain ⟨e1, h3⟩ := h a u u' r r' h1 h2 e
    exact ⟨e1, a, ha, h3⟩

/-- Starts with a byte other than that of null. -/
def Marked (L : Rep α) : Prop := ∀ x u, L x u → ∃ c t, u = c :: t ∧ c ≠ 0x40

theorem aln_dflt {d x : α} (h : Aligns A L C) (hA : Marked A) (hL : Marked L) :
    AlignSlot (Standard.default A d x) (Standard.default L d x) (Standard.default C d x) where
  absent := id
  null _ u t r hu e := by
    obtain ⟨c, t', rfl, hc⟩ := hA x u hu
    injection e with e _
    exact hc e
  given _ u t r hu e := by
    obtain ⟨c, t', rfl, hc⟩ := hL x u hu
    injection e with e _
    exact hc e
  legal := h x

end

theorem aln_fill {as ls cs : List Slot} (h : AlignSlots as ls cs) {items : List Bytes}
    (ha : Fill as items) (hl : Lenient.Fill ls items.length items.flatten) : Fill cs items := by
  induction h generalizing items with
  | nil => cases ha; exact .done nofun
  | @cons a l c as ls cs h1 h2 ih =>
    cases ha with
    | done hd =>
      have all : ∀ {as ls cs : List Slot}, AlignSlots as ls cs → (∀ s ∈ as, s.absent) → ∀ s ∈ cs, s.absent := by
        intro as ls cs h
        induction h with
        | nil => exact fun _ => nofun
        | cons g1 _ ih =>
          intro hd s hs
          rcases List.mem_cons.1 hs with rfl | hs
          · exact g1.absent (hd _ List.mem_cons_self)
          · exact ih (fun x hx => hd x (List.mem_cons_of_mem _ hx)) s hs
      exact .done (all (.cons h1 h2) hd)
    | @null _ _ items hn hf =>
      refine .null (h1.absent hn) (ih hf ?_)
      generalize hb : (Standard.null :: items).flatten = b at hl
      have hb : 0x40 :: items.flatten = b := hb
      cases hl with
      | null _ hl => injection hb with _ hb; exact hb ▸ hl
      | given hu hl => exact absurd hb.symm (h1.given hn _ _ _ hu)
    | @given _ _ u items hu hf =>
      generalize hb : (u :: items).flatten = b at hl
      have hb : u ++ items.flatten = b := hb
      cases hl with
      | null hn hl => exact absurd hb (h1.null hn _ _ _ hu)
      | given hu' hl =>
        obtain ⟨e, hc⟩ := h1.legal _ _ _ _ hu hu' hb
        subst e
        exact .given hc (ih hf (List.append_cancel_left hb ▸ hl))

theorem aln_described {code : UInt64} {name : String} {α : Type} {A L C : Rep α} (h : Aligns A L C) :
    Aligns (fun x => described code name (A x)) (fun x => described code name (L x))
      (fun x => described code name (C x)) := fun x u u' r r' h1 h2 e => by
  obtain ⟨db, b, hd, hb, rfl⟩ := h1
  obtain ⟨db', b', hd', hb', rfl⟩ := h2
  simp only [List.cons_append, List.append_assoc, List.cons.injEq, true_and] at e
  obtain ⟨e1, e2⟩ := skips_unique (skips_desc hd) (skips_desc hd') e
  obtain ⟨e3, hc⟩ := h x _ _ _ _ hb hb' e2
  exact ⟨by rw [e1, e3], db, b, hd, hc, rfl⟩

theorem aln_composite {code : UInt64} {name : String} {α : Type} {as ls cs : α → List Slot}
    (h : ∀ x, AlignSlots (as x) (ls x) (cs x)) :
    Aligns (fun x => composite .all code name (as x)) (fun x => composite (.lenient env) code name (ls x))
      (fun x => composite (.accepted env) code name (cs x)) := by
  refine aln_described (A := fun x => FieldList (as x)) (L := fun x => Lenient.fieldList env (ls x))
    (C := fun x => FieldList (cs x)) fun x u u' r r' h1 h2 e => ?_
  cases h1 with
  | empty hf =>
    cases h2 with
    | empty hl => exact ⟨rfl, .empty (aln_fill (h x) hf hl)⟩
    | list hh _ =>
      cases hh with
      | mk g1 _ _ _ =>
        simp only [List.cons_append] at e
        injection e with e _
        subst e
        cases g1
  | list items g1 g2 g3 hf =>
    cases h2 with
    | empty _ =>
      simp only [List.cons_append] at e
      injection e with e _
      subst e
      cases g1
    | list hh hl =>
      simp only [List.cons_append, List.append_assoc] at e
      obtain ⟨e1, e2, e3, e4⟩ := header_align (by decide) g1 g2 g3 hh
        (by simpa only [List.append_assoc] using e)
      obtain ⟨e5, _⟩ := List.append_inj e2 e3.symm
      subst e5 e4
      exact ⟨by rw [← e1]; rfl, .list items g1 g2 g3 (aln_fill (h x) hf hl)⟩

end
end Amqp
