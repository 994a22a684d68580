import Verif.Spec.Plain
import Verif.Proofs.MessageExact
/-!
# What is legal and without lists can be written
-/
set_option autoImplicit false
set_option linter.unusedSimpArgs false
namespace Amqp
open Dec Standard

/-- The forms of values are among the standard's. -/
def StandardPart (P : Part) : Prop := ∀ d b, P.dialect.desc d b → LegalDesc d b

variable {P : Part}

theorem standard_all : StandardPart .all := fun _ _ h => h
theorem standard_accepted (env : Env) : StandardPart (.accepted env) := fun _ _ h => h.1

/-! ### Values -/

theorem listFree_of_writable (v : Variant) (h : v.Writable) : v.ListFree := by
  induction v using Variant.ind with
  | leaf v hl hm hd => cases v <;> first
    | (simp only [Variant.ListFree]; done)
    | exact absurd rfl (hl _)
    | exact absurd rfl (hm _)
    | exact absurd rfl (hd _ _)
  | list l _ => simp only [Variant.Writable] at h
  | map m ih =>
    simp only [Variant.Writable] at h
    simp only [Variant.ListFree]
    obtain ⟨h, -⟩ := h
    induction m with
    | nil => simp only [listFreeMap]
    | cons e t iht =>
      obtain ⟨k, v⟩ := e
      simp only [writableMap] at h
      simp only [listFreeMap]
      exact ⟨⟨(ih (k, v) List.mem_cons_self).1 h.1.1, (ih (k, v) List.mem_cons_self).2 h.1.2⟩,
        iht (fun e he => ih e (List.mem_cons_of_mem _ he)) h.2⟩
  | described d v ih =>
    simp only [Variant.Writable] at h
    simp only [Variant.ListFree]
    exact ih h.2

theorem prim_writable {v : Variant} {b : Bytes} (h : Prim v b) : v.Writable := by
  cases h <;> first
    | (simp only [Variant.Writable]; done)
    | (simp only [Variant.Writable]; assumption)

theorem legalDesc_writable {d : Descriptor} {b : Bytes} (h : LegalDesc d b) : d.Writable := by
  cases d with
  | ulong n => trivial
  | symbol s =>
    have := prim_writable h
    simp only [Variant.Writable] at this
    exact this

theorem writable_of_listFree (hD : StandardPart P) {v : Variant} {b : Bytes} (h : Wire P.dialect v b)
    (hl : v.ListFree) : v.Writable := by
  induction h with
  | prim h => exact prim_writable h
  | @timestamp t m b h1 h2 h3 =>
    simp only [Variant.Writable]
    omega
  | list0 => simp only [Variant.ListFree] at hl
  | list => simp only [Variant.ListFree] at hl
  | map items g1 g2 g3 g4 g5 g6 g7 ih1 ih2 =>
    simp only [Variant.ListFree] at hl
    simp only [Variant.Writable]
    refine ⟨?_, ?_⟩
    · clear g2 g3 g7
      induction items with
      | nil => simp only [List.map_nil, writableMap]
      | cons p q ih =>
        simp only [List.map_cons, listFreeMap] at hl
        simp only [List.map_cons, writableMap]
        exact ⟨⟨ih1 p List.mem_cons_self hl.1.1, ih2 p List.mem_cons_self hl.1.2⟩,
          ih (fun p hp => g4 p (List.mem_cons_of_mem _ hp)) (fun p hp => g5 p (List.mem_cons_of_mem _ hp))
            (fun p hp => g6 p (List.mem_cons_of_mem _ hp)) (fun p hp => ih1 p (List.mem_cons_of_mem _ hp))
            (fun p hp => ih2 p (List.mem_cons_of_mem _ hp)) hl.2⟩
    · have hc := wire_canon (Wire.map items g1 g2 g3 g4 g5 g6 g7)
      simp only [Variant.canon] at hc
      injection hc with hc
      rw [hc]
      exact g7
  | described hd _ ih =>
    simp only [Variant.ListFree] at hl
    simp only [Variant.Writable]
    exact ⟨legalDesc_writable (hD _ _ hd), ih hl⟩

theorem gives_any (hD : StandardPart P) : ∀ v u, any P v u → (canValue v ↔ v.ListFree) := fun v _ hu =>
  ⟨fun h => listFree_of_writable v h.1, fun h => ⟨writable_of_listFree hD hu.1 h, wire_canon hu.1⟩⟩

/-! ### Slots -/

def GivesSlot (s : Slot) (Q : Prop) : Prop := (∀ u, s.legal u → Q) ∧ (s.absent → Q)

inductive GivesAll : List Slot → Prop → Prop
  | nil : GivesAll [] True
  | cons {s : Slot} {ss : List Slot} {Q R : Prop} : GivesSlot s Q → GivesAll ss R →
      GivesAll (s :: ss) (Q ∧ R)

theorem gives_absent {ss : List Slot} {Q : Prop} (h : GivesAll ss Q) (ha : ∀ s ∈ ss, s.absent) : Q := by
  induction h with
  | nil => trivial
  | cons h _ ih => exact ⟨h.2 (ha _ List.mem_cons_self), ih fun s hs => ha s (List.mem_cons_of_mem _ hs)⟩

theorem gives_fill {ss : List Slot} {Q : Prop} (h : GivesAll ss Q) {items : List Bytes}
    (hf : Fill ss items) : Q := by
  induction h generalizing items with
  | nil => trivial
  | cons h ht ih =>
    cases hf with
    | done ha => exact gives_absent (.cons h ht) ha
    | null ha hf => exact ⟨h.2 ha, ih hf⟩
    | given hg hf => exact ⟨h.1 _ hg, ih hf⟩

theorem gives_composite {c : UInt64} {nm : String} {slots : List Slot} {Q : Prop} {u : Bytes}
    (hu : composite (.of P) c nm slots u) (h : GivesAll slots Q) : Q := by
  obtain ⟨_, x, _, hx, _⟩ := hu
  cases hx with
  | empty hf => exact gives_fill h hf
  | list _ _ _ _ hf => exact gives_fill h hf

theorem trivial_slot {s : Slot} : GivesSlot s True := ⟨fun _ _ => trivial, fun _ => trivial⟩

section
variable {α : Type} {L : Rep α} {can plain : α → Prop}

theorem gives_req {a : α} (h : ∀ a u, L a u → (can a ↔ plain a)) :
    GivesSlot (mandatory L a) (can a ↔ plain a) := ⟨h a, fun h => h.elim⟩
theorem gives_opt {o : Option α} (h : ∀ a u, L a u → (can a ↔ plain a)) :
    GivesSlot (optional L o) (IfGiven can o ↔ IfGiven plain o) :=
  ⟨fun u ⟨a, e, hu⟩ => by
    subst e
    exact ⟨fun g b hb => (by cases hb; exact (h a u hu).1 (g a rfl)),
      fun g b hb => (by cases hb; exact (h a u hu).2 (g a rfl))⟩,
    fun (e : o = none) => by subst e; exact ⟨fun _ => nofun, fun _ => nofun⟩⟩
theorem fact_req {a : α} (h : ∀ a u, L a u → can a) : GivesSlot (mandatory L a) (can a) :=
  ⟨h a, fun h => h.elim⟩
theorem fact_opt {o : Option α} (h : ∀ a u, L a u → can a) : GivesSlot (optional L o) (IfGiven can o) :=
  ⟨fun u ⟨a, e, hu⟩ => fun b hb => (by subst e; cases hb; exact h a u hu),
    fun (e : o = none) => by subst e; exact nofun⟩

end

/-! ### Simple types -/

theorem fact_symbol (_ : StandardPart P) : ∀ a u, symbol a u → canSymbol a := fun a _ h => by
  have := prim_writable h
  simp only [Variant.Writable] at this
  exact this
theorem fact_timestamp (hD : StandardPart P) : ∀ a u, timestamp P a u → canTimestamp a := fun a _ h => by
  have := writable_of_listFree hD h (by simp only [Variant.ListFree])
  simp only [Variant.Writable] at this
  exact this
theorem fact_errorCondition (hD : StandardPart P) : ∀ a u, errorCondition (.of P) a u → canCondition a :=
  fun a u h => by
    cases a with
    | Custom s => exact ⟨fact_symbol hD s u h.2, h.1⟩
    | _ => trivial
theorem fact_distributionMode (hD : StandardPart P) : ∀ a u, distributionMode (.of P) a u → canMode a :=
  fun a u h => by
    cases a with
    | Custom s => exact ⟨fact_symbol hD s u h.2.2, h.1, h.2.1⟩
    | _ => trivial

theorem wireMap_parts {K V : Type} [HKey K] {LK : K → Bytes → Prop} {LV : V → Bytes → Prop}
    {l : List (K × V)} {u : Bytes} (h : WireMap LK LV l u) :
    NodupKeys l ∧ ∀ e ∈ l, ∃ x y, LK e.1 x ∧ LV e.2 y := by
  cases h with
  | mk items _ _ _ h1 h2 =>
    refine ⟨h2, fun e he => ?_⟩
    obtain ⟨p, hp, rfl⟩ := List.mem_map.1 he
    exact ⟨_, _, h1 p hp⟩

theorem fact_filter (hD : StandardPart P) : ∀ a u, filterSet a u → canFilter a := fun a u h => by
  have := wireMap_parts h
  exact ⟨this.1, fun e he => by
    obtain ⟨x, y, h1, h2, _⟩ := this.2 e he
    exact ⟨fact_symbol hD _ _ h1, h2⟩⟩
theorem gives_fields (hD : StandardPart P) : ∀ a u, fields P a u → (canFields a ↔ plainFields a) :=
  fun a u h => by
    have := wireMap_parts h
    refine ⟨fun g e he => listFree_of_writable _ (g.2 e he).2.1, fun g => ⟨this.1, fun e he => ?_⟩⟩
    obtain ⟨x, y, h1, h2⟩ := this.2 e he
    exact ⟨fact_symbol hD _ _ h1, (gives_any hD _ _ h2).2 (g e he)⟩
theorem gives_stringMap (hD : StandardPart P) :
    ∀ a u, stringMap P a u → (canStringMap a ↔ plainStringMap a) :=
  fun a u h => by
    have := wireMap_parts h
    refine ⟨fun g e he => listFree_of_writable _ (g.2 e he).1, fun g => ⟨this.1, fun e he => ?_⟩⟩
    obtain ⟨x, y, h1, h2⟩ := this.2 e he
    exact (gives_any hD _ _ h2).2 (g e he)
theorem gives_map (hD : StandardPart P) : ∀ a u, map P a u → (canMap a ↔ plainAnyMap a) :=
  fun a u h => by
    have := wireMap_parts h.1
    refine ⟨fun g e he => ⟨listFree_of_writable _ (g.2 e he).1.1, listFree_of_writable _ (g.2 e he).2.1⟩,
      fun g => ⟨this.1, fun e he => ?_⟩⟩
    obtain ⟨x, y, h1, h2⟩ := this.2 e he
    exact ⟨(gives_any hD _ _ h1).2 (g e he).1, (gives_any hD _ _ h2).2 (g e he).2⟩
theorem gives_symbols (hD : StandardPart P) : ∀ a u, symbols a u → (canSymbols a ↔ plainSymbols a) :=
  fun a u h => by
    refine ⟨fun g => g.2, fun g => ⟨fun s hs => ?_, g⟩⟩
    cases h with
    | one h => rw [List.mem_singleton.1 hs]; exact fact_symbol hD _ _ h
    | @array l _ h =>
      have hs : s ∈ l := hs
      cases h with
      | mk items _ _ _ h =>
        obtain ⟨p, hp, rfl⟩ := List.mem_map.1 hs
        exact fact_symbol hD _ _ (h p hp)

/-! ### Composite types and unions -/

theorem gives_error (hD : StandardPart P) :
    ∀ a u, error (.of P) a u → (canError a ↔ plainError a) := fun a u hu => by
  obtain ⟨q0, -, q2, -⟩ := gives_composite hu (id <|
    .cons (fact_req (fact_errorCondition hD)) <|
    .cons trivial_slot <|
    .cons (gives_opt (gives_fields hD)) <| .nil)
  simp only [canError, plainError, q0, q2, true_and, and_true, and_self]
theorem gives_rejected (hD : StandardPart P) :
    ∀ a u, rejected (.of P) a u → (canRejected a ↔ plainRejected a) := fun a u hu => by
  obtain ⟨q0, -⟩ := gives_composite hu (id <|
    .cons (gives_opt (gives_error hD)) <| .nil)
  simp only [canRejected, plainRejected, q0, true_and, and_true, and_self]
theorem gives_modified (hD : StandardPart P) :
    ∀ a u, modified (.of P) a u → (canModified a ↔ plainModified a) := fun a u hu => by
  obtain ⟨-, -, q2, -⟩ := gives_composite hu (id <|
    .cons trivial_slot <|
    .cons trivial_slot <|
    .cons (gives_opt (gives_fields hD)) <| .nil)
  simp only [canModified, plainModified, q2, true_and, and_true, and_self]
theorem gives_deliveryState (hD : StandardPart P) :
    ∀ a u, Standard.deliveryState (.of P) a u → (canState a ↔ plainState a) := fun a u hu => by
  cases a with
  | Rejected v => exact gives_rejected hD v u hu
  | Modified v => exact gives_modified hD v u hu
  | _ => exact Iff.rfl
theorem gives_outcome (hD : StandardPart P) :
    ∀ a u, Standard.outcome (.of P) a u → (canOutcome a ↔ plainOutcome a) := fun a u hu => by
  cases a with
  | Rejected v => exact gives_rejected hD v u hu
  | Modified v => exact gives_modified hD v u hu
  | _ => exact Iff.rfl
theorem gives_source (hD : StandardPart P) :
    ∀ a u, source (.of P) a u → (canSource a ↔ plainSource a) := fun a u hu => by
  obtain ⟨-, -, -, -, -, q5, q6, q7, q8, q9, q10, -⟩ := gives_composite hu (id <|
    .cons trivial_slot <|
    .cons trivial_slot <|
    .cons trivial_slot <|
    .cons trivial_slot <|
    .cons trivial_slot <|
    .cons (gives_opt (gives_fields hD)) <|
    .cons (fact_opt (fact_distributionMode hD)) <|
    .cons (fact_opt (fact_filter hD)) <|
    .cons (gives_opt (gives_outcome hD)) <|
    .cons (gives_opt (gives_symbols hD)) <|
    .cons (gives_opt (gives_symbols hD)) <| .nil)
  simp only [canSource, plainSource, q5, q6, q7, q8, q9, q10, true_and, and_true, and_self]
theorem gives_target (hD : StandardPart P) :
    ∀ a u, target (.of P) a u → (canTarget a ↔ plainTarget a) := fun a u hu => by
  obtain ⟨-, -, -, -, -, q5, q6, -⟩ := gives_composite hu (id <|
    .cons trivial_slot <|
    .cons trivial_slot <|
    .cons trivial_slot <|
    .cons trivial_slot <|
    .cons trivial_slot <|
    .cons (gives_opt (gives_fields hD)) <|
    .cons (gives_opt (gives_symbols hD)) <| .nil)
  simp only [canTarget, plainTarget, q5, q6, true_and, and_true, and_self]
theorem gives_opening (hD : StandardPart P) :
    ∀ a u, opening (.of P) a u → (canOpen a ↔ plainOpen a) := fun a u hu => by
  obtain ⟨-, -, -, -, -, q5, q6, q7, q8, q9, -⟩ := gives_composite hu (id <|
    .cons trivial_slot <|
    .cons trivial_slot <|
    .cons trivial_slot <|
    .cons trivial_slot <|
    .cons trivial_slot <|
    .cons (gives_opt (gives_symbols hD)) <|
    .cons (gives_opt (gives_symbols hD)) <|
    .cons (gives_opt (gives_symbols hD)) <|
    .cons (gives_opt (gives_symbols hD)) <|
    .cons (gives_opt (gives_fields hD)) <| .nil)
  simp only [canOpen, plainOpen, q5, q6, q7, q8, q9, true_and, and_true, and_self]
theorem gives_beginning (hD : StandardPart P) :
    ∀ a u, beginning (.of P) a u → (canBegin a ↔ plainBegin a) := fun a u hu => by
  obtain ⟨-, -, -, -, -, q5, q6, q7, -⟩ := gives_composite hu (id <|
    .cons trivial_slot <|
    .cons trivial_slot <|
    .cons trivial_slot <|
    .cons trivial_slot <|
    .cons trivial_slot <|
    .cons (gives_opt (gives_symbols hD)) <|
    .cons (gives_opt (gives_symbols hD)) <|
    .cons (gives_opt (gives_fields hD)) <| .nil)
  simp only [canBegin, plainBegin, q5, q6, q7, true_and, and_true, and_self]
theorem gives_attach (hD : StandardPart P) :
    ∀ a u, attach (.of P) a u → (canAttach a ↔ plainAttach a) := fun a u hu => by
  obtain ⟨-, -, -, -, -, q5, q6, q7, -, -, -, q11, q12, q13, -⟩ := gives_composite hu (id <|
    .cons trivial_slot <|
    .cons trivial_slot <|
    .cons trivial_slot <|
    .cons trivial_slot <|
    .cons trivial_slot <|
    .cons (gives_opt (gives_source hD)) <|
    .cons (gives_opt (gives_target hD)) <|
    .cons (gives_opt (gives_map hD)) <|
    .cons trivial_slot <|
    .cons trivial_slot <|
    .cons trivial_slot <|
    .cons (gives_opt (gives_symbols hD)) <|
    .cons (gives_opt (gives_symbols hD)) <|
    .cons (gives_opt (gives_fields hD)) <| .nil)
  simp only [canAttach, plainAttach, q5, q6, q7, q11, q12, q13, true_and, and_true, and_self]
theorem gives_flow (hD : StandardPart P) :
    ∀ a u, flow (.of P) a u → (canFlow a ↔ plainFlow a) := fun a u hu => by
  obtain ⟨-, -, -, -, -, -, -, -, -, -, q10, -⟩ := gives_composite hu (id <|
    .cons trivial_slot <|
    .cons trivial_slot <|
    .cons trivial_slot <|
    .cons trivial_slot <|
    .cons trivial_slot <|
    .cons trivial_slot <|
    .cons trivial_slot <|
    .cons trivial_slot <|
    .cons trivial_slot <|
    .cons trivial_slot <|
    .cons (gives_opt (gives_fields hD)) <| .nil)
  simp only [canFlow, plainFlow, q10, true_and, and_true, and_self]
theorem gives_transfer (hD : StandardPart P) :
    ∀ a u, transfer (.of P) a u → (canTransfer a ↔ plainTransfer a) := fun a u hu => by
  obtain ⟨-, -, -, -, -, -, -, q7, -, -, -, -⟩ := gives_composite hu (id <|
    .cons trivial_slot <|
    .cons trivial_slot <|
    .cons trivial_slot <|
    .cons trivial_slot <|
    .cons trivial_slot <|
    .cons trivial_slot <|
    .cons trivial_slot <|
    .cons (gives_opt (gives_deliveryState hD)) <|
    .cons trivial_slot <|
    .cons trivial_slot <|
    .cons trivial_slot <| .nil)
  simp only [canTransfer, plainTransfer, q7, true_and, and_true, and_self]
theorem gives_disposition (hD : StandardPart P) :
    ∀ a u, disposition (.of P) a u → (canDisposition a ↔ plainDisposition a) := fun a u hu => by
  obtain ⟨-, -, -, -, q4, -, -⟩ := gives_composite hu (id <|
    .cons trivial_slot <|
    .cons trivial_slot <|
    .cons trivial_slot <|
    .cons trivial_slot <|
    .cons (gives_opt (gives_deliveryState hD)) <|
    .cons trivial_slot <| .nil)
  simp only [canDisposition, plainDisposition, q4, true_and, and_true, and_self]
theorem gives_detach (hD : StandardPart P) :
    ∀ a u, detach (.of P) a u → (canDetach a ↔ plainDetach a) := fun a u hu => by
  obtain ⟨-, -, q2, -⟩ := gives_composite hu (id <|
    .cons trivial_slot <|
    .cons trivial_slot <|
    .cons (gives_opt (gives_error hD)) <| .nil)
  simp only [canDetach, plainDetach, q2, true_and, and_true, and_self]
theorem gives_ending (hD : StandardPart P) :
    ∀ a u, ending (.of P) a u → (canEnd a ↔ plainEnd a) := fun a u hu => by
  obtain ⟨q0, -⟩ := gives_composite hu (id <|
    .cons (gives_opt (gives_error hD)) <| .nil)
  simp only [canEnd, plainEnd, q0, true_and, and_true, and_self]
theorem gives_close (hD : StandardPart P) :
    ∀ a u, close (.of P) a u → (canClose a ↔ plainClose a) := fun a u hu => by
  obtain ⟨q0, -⟩ := gives_composite hu (id <|
    .cons (gives_opt (gives_error hD)) <| .nil)
  simp only [canClose, plainClose, q0, true_and, and_true, and_self]
theorem gives_saslMechanisms (hD : StandardPart P) :
    ∀ a u, saslMechanisms (.of P) a u → (canSymbols a.sasl_server_mechanisms ↔ plainSymbols a.sasl_server_mechanisms) := fun a u hu => by
  obtain ⟨q0, -⟩ := gives_composite hu (id <|
    .cons (gives_req (gives_symbols hD)) <| .nil)
  simp only [q0, true_and, and_true, and_self]
theorem gives_saslInit (hD : StandardPart P) :
    ∀ a u, saslInit (.of P) a u → canSymbol a.mechanism := fun a u hu => by
  obtain ⟨q0, -, -, -⟩ := gives_composite hu (id <|
    .cons (fact_req (fact_symbol hD)) <|
    .cons trivial_slot <|
    .cons trivial_slot <| .nil)
  simp only [q0, true_and, and_true, and_self]
theorem gives_properties (hD : StandardPart P) :
    ∀ a u, properties (.of P) a u → canProperties a := fun a u hu => by
  obtain ⟨-, -, -, -, -, -, q6, q7, q8, q9, -, -, -, -⟩ := gives_composite hu (id <|
    .cons trivial_slot <|
    .cons trivial_slot <|
    .cons trivial_slot <|
    .cons trivial_slot <|
    .cons trivial_slot <|
    .cons trivial_slot <|
    .cons (fact_opt (fact_symbol hD)) <|
    .cons (fact_opt (fact_symbol hD)) <|
    .cons (fact_opt (fact_timestamp hD)) <|
    .cons (fact_opt (fact_timestamp hD)) <|
    .cons trivial_slot <|
    .cons trivial_slot <|
    .cons trivial_slot <| .nil)
  simp only [canProperties, q6, q7, q8, q9, true_and, and_true, and_self]

theorem gives_frameBody (hD : StandardPart P) (f : Frame) (b : Bytes) (h : frameBody (.of P) f b) :
    canFrame f ↔ plainFrame f := by
  cases f with
  | Empty => exact Iff.rfl
  | Open v => exact gives_opening hD v b h
  | Begin v => exact gives_beginning hD v b h
  | Attach v => exact gives_attach hD v b h
  | Flow v => exact gives_flow hD v b h
  | Transfer v =>
    obtain ⟨p, payload, h1, h2, h3⟩ := h
    have h4 := gives_transfer hD _ _ h1
    refine ⟨fun g => h4.1 g.1, fun g => ⟨h4.2 g, fun q hq => ?_⟩⟩
    rw [hq] at h3
    split at h3
    · cases h3
    · injection h3 with h3
      exact ⟨_, h3, by assumption⟩
  | Disposition v => exact gives_disposition hD v b h
  | Detach v => exact gives_detach hD v b h
  | End v => exact gives_ending hD v b h
  | Close v => exact gives_close hD v b h

theorem gives_saslBody (hD : StandardPart P) (f : SaslFrameBody) (b : Bytes) (h : saslBody (.of P) f b) :
    canSasl f ↔ plainSasl f := by
  cases f with
  | SaslMechanisms v => exact gives_saslMechanisms hD v b h
  | SaslInit v => exact ⟨fun _ => trivial, fun _ => gives_saslInit hD v b h⟩
  | _ => exact Iff.rfl

theorem framed_body {type : UInt8} {two b : Bytes} {body : Bytes → Prop} (h : Framed type two body b) :
    ∃ u, body u := by
  cases h with
  | mk _ _ _ h => exact ⟨_, h⟩

theorem gives_maybe {α : Type} {L : Rep α} {can plain : α → Prop} {o : Option α} {u : Bytes}
    (h : ∀ a u, L a u → (can a ↔ plain a)) (hu : Maybe L o u) : IfGiven can o ↔ IfGiven plain o := by
  cases hu with
  | none => exact ⟨fun _ => nofun, fun _ => nofun⟩
  | some hl =>
    exact ⟨fun g b hb => (by cases hb; exact (h _ _ hl).1 (g _ rfl)),
      fun g b hb => (by cases hb; exact (h _ _ hl).2 (g _ rfl))⟩

theorem gives_described {α : Type} {c : UInt64} {nm : String} {L : Rep α} {can plain : α → Prop}
    (h : ∀ a u, L a u → (can a ↔ plain a)) :
    ∀ a u, described c nm (L a) u → (can a ↔ plain a) := fun a _ ⟨_, x, _, hx, _⟩ => h a x hx

theorem gives_message (hD : StandardPart P) (m : Standard.Message) (b : Bytes) (h : message (.of P) m b) :
    canMessage m ↔ plainMessage m := by
  obtain ⟨b1, b2, b3, b4, b5, b6, b7, -, g2, g3, g4, g5, g6, g7, -⟩ := h
  have q2 := gives_maybe (gives_described (gives_fields hD)) g2
  have q3 := gives_maybe (gives_described (gives_fields hD)) g3
  have q4 : IfGiven canProperties m.properties := fun a ha => by
    rw [ha] at g4
    cases g4 with
    | some hl => exact gives_properties hD _ _ hl
  have q5 := gives_maybe (gives_described (gives_stringMap hD)) g5
  have q6 : canBody m.body ↔ plainBody m.body := by
    cases hb : m.body with
    | data l => rw [hb] at g6; exact ⟨fun _ => trivial, fun _ => several_ne g6⟩
    | sequence l => exact Iff.rfl
    | value v => rw [hb] at g6; exact gives_described (gives_any hD) _ _ g6
  have q7 := gives_maybe (gives_described (gives_fields hD)) g7
  simp only [canMessage, plainMessage, q2, q3, q4, q5, q6, q7, true_and]

end Amqp
