import Verif.Proofs.Crashes
import Verif.Proofs.PanicLists
/-!
# What makes a decoder panic: lists of fields and choices

Support for C84.
-/
set_option autoImplicit false
namespace Amqp
open Dec
open Standard (Rep Desc)
variable {env : Env}

theorem panics_vecMap : PanicsOn VecVariantMap env (Crash.stringMap env) := by
  have pair : Faults (decodePairs (decode Str env) (decode Variant env)) fun p i =>
      ∃ k u r, i = u ++ r ∧ Standard.string k u ∧ Crash.any env p r := by
    refine (Faults.bind (panics_never (α := Str)) (accepts_string (env := env)) fun k =>
      Faults.bind panics_variant (accepts_variant (env := env)) fun v => Faults.pure (k, v)).congr
        fun p i => ⟨?_, ?_⟩
    · rintro (h | ⟨k, u, r, rfl, hu, h | ⟨_, _, _, _, _, h⟩⟩)
      · exact h.elim
      · exact ⟨k, u, r, rfl, hu, h⟩
      · exact h.elim
    · rintro ⟨k, u, r, rfl, hu, h⟩
      exact .inr ⟨k, u, r, rfl, hu, .inl h⟩
  have tpair : Takes (decodePairs (decode Str env) (decode Variant env)) fun e b =>
      ∃ u v, b = u ++ v ∧ Standard.string e.1 u ∧ Lenient.any env e.2 v := by
    have h := Takes.bind (accepts_string (env := env)) fun k =>
      Takes.bind (accepts_variant (env := env)) fun v => Takes.pure (k, v)
    refine Takes.congr h fun e b => ⟨?_, ?_⟩
    · rintro ⟨k, u, v, rfl, hk, x, u', v', rfl, hx, rfl, rfl⟩
      exact ⟨u, u', by simp, hk, hx⟩
    · rintro ⟨u, v, rfl, hu, hv⟩
      exact ⟨e.1, u, v, rfl, hu, e.2, v, [], by simp, hv, rfl, rfl⟩
  have e : decode VecVariantMap env = ((formatCode >>= decodeMapHeader env) >>= fun hd =>
      VecVariantMap.mk <$> withSlice hd.size (decodeN (decodePairs (decode Str env) (decode Variant env))
        (hd.count / 2))) := by
    rw [bind_assoc]; rfl
  have loop : ∀ n p i, Crash.items (fun (e : Str × Variant) b => ∃ u v, b = u ++ v ∧
      Standard.string e.1 u ∧ Lenient.any env e.2 v) (fun p i =>
      ∃ (k : Str) (u r : Bytes), i = u ++ r ∧ Standard.string k u ∧ Crash.any env p r) n p i ↔
      Crash.entries (K := Str) Standard.string Crash.never (Lenient.any env) (Crash.any env)
        (fun _ => True) n p i := by
    intro n p i
    constructor
    · intro h
      cases h with
      | @mk good p tail hg hi ht =>
        obtain ⟨k, u, r, rfl, hu, ht⟩ := ht
        obtain ⟨parts, p1, p2, p3⟩ : ∃ parts : List ((Str × Bytes) × (Variant × Bytes)),
            (∀ q ∈ parts, Standard.string q.1.1 q.1.2 ∧ Lenient.any env q.2.1 q.2.2 ∧ True) ∧
            parts.length = good.length ∧
            (parts.flatMap fun q => q.1.2 ++ q.2.2) = good.flatMap Prod.snd := by
          clear hg
          induction good with
          | nil => exact ⟨[], by simp, rfl, rfl⟩
          | cons g t ih =>
            obtain ⟨u, v, e, hu, hv⟩ := hi g (by simp)
            obtain ⟨parts, h1, h2, h3⟩ := ih fun q hq => hi q (by simp [hq])
            refine ⟨((g.1.1, u), (g.1.2, v)) :: parts, ?_, by simp [h2], by simp [h3, e]⟩
            intro q hq
            rcases List.mem_cons.1 hq with rfl | hq
            · exact ⟨hu, hv, trivial⟩
            · exact h1 q hq
        rw [← p3]
        exact .value parts (by omega) p1 hu ht
    · intro h
      cases h with
      | key _ _ _ h => exact h.elim
      | hash _ _ _ _ _ _ h => exact absurd trivial h
      | @value good k p u tail hg hi hk ht =>
        have := Crash.items.mk (n := n) (L := fun (e : Str × Variant) b => ∃ u v, b = u ++ v ∧
          Standard.string e.1 u ∧ Lenient.any env e.2 v) (C := fun p i => ∃ (k : Str) (u r : Bytes),
          i = u ++ r ∧ Standard.string k u ∧ Crash.any env p r)
          (good.map fun g => ((g.1.1, g.2.1), g.1.2 ++ g.2.2)) (p := p) (tail := u ++ tail)
          (by simpa using hg) (by
            intro g hg
            obtain ⟨q, hq, rfl⟩ := List.mem_map.1 hg
            exact ⟨_, _, rfl, (hi q hq).1, (hi q hq).2.1⟩) ⟨k, u, tail, rfl, hk, ht⟩
        simpa [List.flatMap_map] using this
  show Faults (decode VecVariantMap env) _
  rw [e]
  refine (faults_mapHeader.bind (takes_mapHeader env) fun hd =>
    ((pair.decodeN tpair (hd.count / 2)).withSlice hd.size).map VecVariantMap.mk).congr
    fun p i => ⟨?_, ?_⟩
  · rintro (h1 | ⟨hd, b, r, rfl, hh, ⟨hl, rfl⟩ | ⟨body, rest, rfl, hl, h1⟩⟩)
    · exact .header h1
    · exact .short hh hl
    · exact .entry rest (hl ▸ hh) ((loop _ _ _).1 h1)
  · intro h1
    cases h1 with
    | header h1 => exact .inl h1
    | short hh hl => exact .inr ⟨⟨_, _⟩, _, _, rfl, hh, .inl ⟨hl, rfl⟩⟩
    | entry rest hh h1 =>
      exact .inr ⟨⟨_, _⟩, _, _, rfl, hh, .inr ⟨_, rest, rfl, rfl, (loop _ _ _).2 h1⟩⟩

/-! ## Lists of fields -/

/-- The field panics on what the port says, and is read from what it says. -/
structure ExactPort (env : Env) (f : Field) (s : Crash.Port) : Prop where
  reads : ∀ b, (∃ a, Reads (f.dec env) b a) ↔ s.legal b ∨ (s.absent ∧ b = [0x40])
  crash : Faults (f.dec env) s.crash

inductive ExactPorts (env : Env) : List Field → List Crash.Port → Prop
  | nil : ExactPorts env [] []
  | cons {f : Field} {fs : List Field} {s : Crash.Port} {ss : List Crash.Port} :
      ExactPort env f s → ExactPorts env fs ss → ExactPorts env (f :: fs) (s :: ss)

/-- Nothing that begins with null. -/
def NullSafe (C : Fault) : Prop := ∀ p t, ¬ C p (0x40 :: t)

theorem nullable_iff {C : Fault} (h : NullSafe C) (p : Panic) (i : Bytes) :
    Crash.nullable C p i ↔ C p i := by
  constructor
  · rintro ⟨h, _⟩; exact h
  · intro hc
    refine .some hc fun e => ?_
    cases i with
    | nil => cases e
    | cons c t =>
      simp only [List.head?_cons, Option.some.injEq] at e
      subst e
      exact h p t hc

section
variable {α : Type} [Encode α] [DecodeF α] [LawfulEnc α] [LawfulDec α] [NonNull α]

theorem port_req {L : Rep α} {C : Fault} {n : String} (h : Accepts α env L) (hc : PanicsOn α env C) :
    ExactPort env (.req α n) (Crash.must L C) where
  reads b := by
    show (∃ a, Reads (decode α env) b a) ↔ (∃ a, L a b) ∨ (False ∧ _)
    simp only [Takes.reads h, false_and, or_false]
  crash := hc

theorem port_opt [RefusesNull α] {L : Rep α} {C : Fault} (h : Accepts α env L)
    (hc : PanicsOn α env C) (hn : NullSafe C) : ExactPort env (.opt α) (Crash.may L C) where
  reads b := by
    show (∃ o, Reads (decode (Option α) env) b o) ↔ (∃ a, L a b) ∨ (True ∧ _)
    simp only [reads_option h, true_and]
    constructor
    · rintro ⟨o, ⟨a, rfl, ha⟩ | ⟨rfl, rfl⟩⟩
      · exact .inl ⟨a, ha⟩
      · exact .inr rfl
    · rintro (⟨a, ha⟩ | rfl)
      · exact ⟨some a, .inl ⟨a, rfl, ha⟩⟩
      · exact ⟨none, .inr ⟨rfl, rfl⟩⟩
  crash := Faults.congr (panics_option hc) (nullable_iff hn)

theorem port_dflt [RefusesNull α] {L : Rep α} {C : Fault} {d : α} (h : Accepts α env L)
    (hc : PanicsOn α env C) (hn : NullSafe C) : ExactPort env (.dflt α d) (Crash.may L C) where
  reads b := by
    show (∃ a, Reads ((fun o : Option α => o.getD d) <$> decode (Option α) env) b a) ↔
      (∃ a, L a b) ∨ (True ∧ _)
    have h1 := fun a => (Takes.map (fun o : Option α => o.getD d) (accepts_option h)).reads
      (a := a) (b := b)
    simp only [h1, true_and]
    constructor
    · rintro ⟨_, o, rfl, ho⟩
      cases ho with
      | none => exact .inr rfl
      | some h _ => exact .inl ⟨_, h⟩
    · rintro (⟨a, ha⟩ | rfl)
      · exact ⟨_, some a, rfl, (Takes.reads (accepts_option h)).1 ((reads_option h b).2 (.inl ⟨a, rfl, ha⟩))⟩
      · exact ⟨_, none, rfl, .none⟩
  crash := (Faults.congr (panics_option hc) (nullable_iff hn)).map _
end

theorem getFields_cons_panic {f : Field} {fs : List Field} {st : Nat × Bytes} {p : Panic} :
    getFields env (f :: fs) st = .panic p ↔ f.get env st = .panic p ∨
      ∃ st' a, f.get env st = .ok (st', a) ∧ getFields env fs st' = .panic p := by
  simp only [getFields, FieldDec.run_bind]
  cases f.get env st with
  | err e => simp
  | panic q => simp
  | ok q =>
    obtain ⟨st', a⟩ := q
    constructor
    · intro h
      refine .inr ⟨st', a, rfl, ?_⟩
      revert h
      dsimp only
      cases getFields env fs st' with
      | ok r => intro h; cases h
      | err e => intro h; cases h
      | panic q => intro h; injection h with h; subst h; rfl
    · rintro (h | ⟨_, _, h, h'⟩)
      · cases h
      · cases h
        dsimp only
        rw [h']

theorem faults_fields {fs : List Field} {ss : List Crash.Port} (h : ExactPorts env fs ss) :
    ∀ {n : Nat} {w : Bytes} {p : Panic},
    getFields env fs (n, w) = .panic p ↔ Crash.Fill ss n p w := by
  have zero : ∀ (ss : List Crash.Port) (w : Bytes) (p : Panic), ¬ Crash.Fill ss 0 p w :=
    fun ss w p h => by cases h
  induction h with
  | nil =>
    intro n w p
    exact ⟨nofun, nofun⟩
  | @cons f fs s ss hf hr ih =>
    intro n w p
    rw [getFields_cons_panic]
    cases n with
    | zero =>
      refine ⟨fun h => ?_, fun h => absurd h (zero _ _ _)⟩
      rw [f.get_zero] at h
      cases hm : f.missing with
      | err e => rw [hm] at h; rcases h with h | ⟨_, _, h, -⟩ <;> cases h
      | panic p => exact absurd hm (f.missing_ne p)
      | ok b =>
        rw [hm] at h
        rcases h with h | ⟨_, _, h, h'⟩
        · cases h
        · cases h
          exact absurd (ih.1 h') (zero _ _ _)
    | succ n =>
      rw [f.get_succ]
      simp only [present]
      constructor
      · intro h
        cases hd : f.dec env w with
        | err e => rw [hd] at h; rcases h with h | ⟨_, _, h, -⟩ <;> cases h
        | panic q =>
          rw [hd] at h
          rcases h with h | ⟨_, _, h, -⟩
          · injection h with h; subst h
            exact .here ((hf.crash _ _).1 hd)
          · cases h
        | ok q =>
          obtain ⟨r, b⟩ := q
          rw [hd] at h
          obtain ⟨u, rfl, hu⟩ := f.loc env _ _ _ hd
          rcases h with h | ⟨_, _, h, h'⟩
          · cases h
          cases h
          have hi := ih.1 h'
          rcases (hf.reads u).1 ⟨b, hu⟩ with hl | ⟨ha, rfl⟩
          · exact .given hl hi
          · exact .null ha hi
      · intro h
        cases h with
        | here h => exact .inl (by rw [(hf.crash _ _).2 h])
        | @null _ _ _ _ b ha hb =>
          obtain ⟨a, h⟩ := (hf.reads [0x40]).2 (.inr ⟨ha, rfl⟩)
          have := h b
          exact .inr ⟨(n, b), a, by rw [show (0x40 :: b : Bytes) = [0x40] ++ b from rfl, this], ih.2 hb⟩
        | @given _ _ _ _ u b hl hb =>
          obtain ⟨a, h⟩ := (hf.reads u).2 (.inl hl)
          exact .inr ⟨(n, b), a, by rw [h b], ih.2 hb⟩

theorem faults_listInner {fs : List Field} {ss : List Crash.Port} {β : Type} (g : Tuple fs → β)
    (h : ExactPorts env fs ss) :
    Faults (listInner env (g <$> getFields env fs)) (Crash.fieldList env ss) := by
  have e : listInner env (g <$> getFields env fs) = (formatCode >>= decodeListHeader env) >>= fun h =>
      takeN h.size >>= fun body => (match (g <$> getFields env fs) (h.count, body) with
      | .ok (_, a) => pure a
      | .err e => Dec.fail e
      | .panic p => Dec.abort p : Dec β) := by
    rw [bind_assoc]; rfl
  have body : ∀ n w, Faults (match (g <$> getFields env fs) (n, w) with
      | .ok (_, a) => pure a
      | .err e => Dec.fail e
      | .panic p => Dec.abort p : Dec β) fun p _ => Crash.Fill ss n p w := by
    intro n w i p
    refine Iff.trans ?_ (faults_fields h)
    rw [FieldDec.run_map]
    cases getFields env fs (n, w) with
    | ok q => exact ⟨nofun, nofun⟩
    | err q => exact ⟨nofun, nofun⟩
    | panic q =>
      constructor
      · intro h; injection h with h; subst h; rfl
      · intro h; injection h with h; subst h; rfl
  rw [e]
  refine (faults_listHeader.bind (takes_listHeader env) fun h =>
    (Faults.of_safe (Safe.takeN h.size)).bind (takes_takeN h.size) fun w => body h.count w).congr
    fun p i => ⟨?_, ?_⟩
  · rintro (h1 | ⟨hd, b, r, rfl, ⟨rfl, rfl⟩ | hh, h1 | ⟨_, w, r', rfl, ⟨rfl, hl⟩, h1⟩⟩)
    · exact .header h1
    · exact h1.elim
    · cases h1
    · exact h1.elim
    · exact .field r' (hl ▸ hh) h1
  · intro h1
    cases h1 with
    | header h1 => exact .inl h1
    | field rest hh h1 =>
      exact .inr ⟨⟨_, _⟩, _, _, rfl, .inr hh, .inr ⟨_, _, rest, rfl, ⟨rfl, rfl⟩, h1⟩⟩

/-! ## Composite types -/

theorem faults_described {c : UInt64} {n : String} (hc : c ≠ 0) (hn : asciiName n = true)
    {β : Type} {d : Dec β} {C : Fault} (h : Faults d C) (dec : Dec β)
    (e0 : ∀ p, dec [] ≠ .panic p) (e1 : ∀ f t, dec (f :: t) = describedAs env f c n d t) :
    Faults dec (Crash.described c n C) := by
  intro i p
  cases i with
  | nil =>
    refine ⟨fun h => absurd h (e0 _), nofun⟩
  | cons f t =>
    rw [e1, describedAs_eq]
    constructor
    · intro hi
      rcases ite_panic hi with ⟨_, g⟩ | ⟨hf, hi⟩
      · cases g
      obtain rfl : f = FC.described := Decidable.not_not.1 hf
      rcases bind_eq_panic.1 hi with g | ⟨r, x, h1, h2⟩
      · exact absurd ((panics_never (env := env) _ p).1 g) id
      · rcases ite_panic h2 with ⟨hs, h3⟩ | ⟨hs, h3⟩
        · cases h3
        · have hs : x.selects c n = true := by simpa using hs
          obtain ⟨db, rfl, hdb⟩ :=
            (takes_descriptor (env := env) hc hn).1 ⟨x, h1, Descriptor.selects_iff.1 hs⟩
          exact .mk hdb ((h _ _).1 h3)
    · intro h1
      cases h1 with
      | @mk db i p hdb hC =>
        obtain ⟨x, h1, hs⟩ := (takes_descriptor (env := env) hc hn).2 ⟨db, rfl, hdb⟩
        rw [show (0x00 : UInt8) = FC.described from rfl, validateCode_self, bind_ok h1,
          Descriptor.selects_iff.2 hs]
        exact (h _ _).2 hC

theorem faults_inner {α : Type} [Encode α] [DecodeF α] [ListType α] {ports : List Crash.Port}
    (hf : ExactPorts env (ListType.fields α) ports) :
    Faults (ListType.inner (α := α) env) (Crash.fieldList env ports) := by
  rw [ListType.inner_eq]
  exact faults_listInner _ hf

theorem panics_composite {α : Type} [Encode α] [DecodeF α] [ListType α] {c : UInt64} {nm : String}
    {ports : List Crash.Port} (hf : ExactPorts env (ListType.fields α) ports)
    (hc : ListType.code α = c) (hn : ListType.name α = nm) (ha : asciiName nm = true) :
    PanicsOn α env (Crash.composite env c nm ports) := by
  subst hc hn
  have h0 : ListType.code α ≠ 0 := by
    intro h; have := ListType.code_pos (α := α); rw [h] at this; cases this
  refine faults_described (env := env) h0 ha (faults_inner hf) _ (fun p h => by cases h) fun f t => ?_
  show decF env f t = _
  rw [ListType.decF_eq]

theorem described_nullSafe {c : UInt64} {n : String} {C : Fault} : NullSafe (Crash.described c n C) :=
  fun p t h => by cases h

theorem composite_nullSafe {c : UInt64} {n : String} {ports : List Crash.Port} :
    NullSafe (Crash.composite env c n ports) := described_nullSafe

theorem never_nullSafe : NullSafe Crash.never := fun _ _ h => h

theorem timestamp_nullSafe : NullSafe Crash.timestamp := fun p t h => by cases h

theorem array_nullSafe {α : Type} {L : Rep α} {C : Fault} : NullSafe (Crash.array env L C) :=
  fun p t h => by rcases array_head h with e | e <;> cases e

theorem map_head {K V : Type} {LK : Rep K} {LV : Rep V} {CK CV : Fault} {P : K → Prop} {p : Panic}
    {i : Bytes} (h : Crash.map env LK CK LV CV P p i) :
    i.head? = some 0xc1 ∨ i.head? = some 0xd1 := by
  cases h with
  | header h => cases h with | mk _ _ hc => cases hc <;> simp
  | short h => cases h with | mk hc => cases hc <;> simp
  | entry _ h => cases h with | mk hc => cases hc <;> simp

theorem map_nullSafe {K V : Type} {LK : Rep K} {LV : Rep V} {CK CV : Fault} {P : K → Prop} :
    NullSafe (Crash.map env LK CK LV CV P) :=
  fun p t h => by rcases map_head h with e | e <;> cases e

/-! ## Unions -/

theorem union_panics {U : Type} {dec : Env → Dec U} {table : List (UInt64 × String)}
    (hn : NoOther dec table) {disp : Env → Descriptor → Dec U}
    (h0 : ∀ t, dec env (0x00 :: t) = (decode Descriptor env >>= disp env) t)
    {c : UInt8} {t : Bytes} {q : Panic} (h : dec env (c :: t) = .panic q) :
    c = 0x00 ∧ ∃ e ∈ table, ∃ (u p : Bytes) (d : Descriptor), t = u ++ p ∧ Means env u d ∧ d.Is e.1 e.2 := by
  by_cases hc : c = 0x00
  · refine ⟨hc, ?_⟩
    subst hc
    have h' := h
    rw [h0] at h'
    rcases bind_eq_panic.1 h' with g | ⟨p, d, h1, -⟩
    · exact absurd ((panics_never (env := env) _ _).1 g) id
    obtain ⟨u, rfl, hu⟩ := loc_decode env _ _ _ h1
    refine Classical.byContradiction fun hx => ?_
    rw [hn.reject env u p d hu fun e he hi => hx ⟨e, he, u, p, d, rfl, hu, hi⟩] at h
    cases h
  · rw [hn.other env c t hc] at h; cases h

theorem alternative_panics {U α : Type} [DecodeF α] {dec : Env → Dec U} {mk : α → U} {c : UInt64}
    {n : String} (ha : Alternative dec (decode α) mk c n) {C : Fault} (hC : PanicsOn α env C)
    {u p : Bytes} {d : Descriptor} {q : Panic} (hd : Means env u d) (hi : d.Is c n) :
    dec env (0x00 :: (u ++ p)) = .panic q ↔ C q (0x00 :: (u ++ p)) := by
  rw [ha env u p d hd hi, ← hC]
  cases decode α env (0x00 :: (u ++ p)) <;> simp

theorem alternativeOf_panics {U α : Type} [DecodeF α] {dec : Env → Dec U} {mk : α → U} {c : UInt64}
    {n : String} (ha : AlternativeOf dec (decode α) mk c n) {C : Fault} (hC : PanicsOn α env C)
    {u p : Bytes} {d : Descriptor} {q : Panic} (hd : Means env u d) (hi : d.Is c n) :
    dec env (0x00 :: (u ++ p)) = .panic q ↔ C q p := by
  rw [ha env u p d hd hi, ← hC]
  cases decode α env p <;> simp

/-- What is described like this is an alternative. -/
theorem described_panics {c : UInt64} {n : String} (hc : c ≠ 0) (hn : asciiName n = true) {C : Fault}
    {q : Panic} {i : Bytes} (h : Crash.described c n C q i) : ∃ (u p : Bytes) (d : Descriptor),
    i = 0x00 :: (u ++ p) ∧ Means env u d ∧ d.Is c n ∧ C q p := by
  cases h with
  | @mk db i p hdb hC =>
    obtain ⟨d, hd, hi⟩ := (desc_iff hc hn db).1 hdb
    exact ⟨db, i, d, rfl, accepts_descriptor.means hd, hi, hC⟩

theorem member_panics {U α : Type} [DecodeF α] {dec : Env → Dec U} {mk : α → U} {c : UInt64}
    {n : String} (ha : Alternative dec (decode α) mk c n) (hc : c ≠ 0) (hn : asciiName n = true)
    {ports : List Crash.Port} (hC : PanicsOn α env (Crash.composite env c n ports)) {q : Panic}
    {i : Bytes} (h : Crash.composite env c n ports q i) : dec env i = .panic q := by
  obtain ⟨u, p, d, rfl, hd, hi, -⟩ := described_panics (env := env) hc hn h
  exact (alternative_panics ha hC hd hi).2 h

theorem memberOf_panics {U α : Type} [DecodeF α] {dec : Env → Dec U} {mk : α → U} {c : UInt64}
    {n : String} (ha : AlternativeOf dec (decode α) mk c n) (hc : c ≠ 0) (hn : asciiName n = true)
    {C : Fault} (hC : PanicsOn α env C) {q : Panic} {i : Bytes} (h : Crash.described c n C q i) :
    dec env i = .panic q := by
  obtain ⟨u, p, d, rfl, hd, hi, h⟩ := described_panics (env := env) hc hn h
  exact (alternativeOf_panics ha hC hd hi).2 h

theorem alternative_described {U α : Type} [DecodeF α] {dec : Env → Dec U} {mk : α → U} {c : UInt64}
    {n : String} (ha : AlternativeOf dec (decode α) mk c n) (hc : c ≠ 0) (hn : asciiName n = true)
    {C : Fault} (hC : PanicsOn α env C) {u p : Bytes} {d : Descriptor} {q : Panic}
    (h : dec env (0x00 :: (u ++ p)) = .panic q) (hd : Means env u d) (hi : d.Is c n) :
    Crash.described c n C q (0x00 :: (u ++ p)) :=
  .mk ((desc_iff hc hn u).2 ⟨d, (Takes.reads accepts_descriptor).1 hd, hi⟩)
    ((alternativeOf_panics ha hC hd hi).1 h)

/-! ## The types -/

theorem panics_error : PanicsOn Error env (Crash.error env) :=
  panics_composite (id <|
    .cons (port_req accepts_errorCondition panics_never) <|
    .cons (port_opt accepts_string panics_never never_nullSafe) <|
    .cons (port_opt accepts_fields panics_fields map_nullSafe) <|
    .nil) rfl rfl (by decide)

theorem panics_received : PanicsOn Received env (Crash.received env) :=
  panics_composite (id <|
    .cons (port_req accepts_uint panics_never) <|
    .cons (port_req accepts_ulong panics_never) <|
    .nil) rfl rfl (by decide)

theorem panics_accepted : PanicsOn Accepted env (Crash.accepted env) :=
  panics_composite (id <|
    .nil) rfl rfl (by decide)

theorem panics_rejected : PanicsOn Rejected env (Crash.rejected env) :=
  panics_composite (id <|
    .cons (port_opt accepts_error panics_error composite_nullSafe) <|
    .nil) rfl rfl (by decide)

theorem panics_released : PanicsOn Released env (Crash.released env) :=
  panics_composite (id <|
    .nil) rfl rfl (by decide)

theorem panics_modified : PanicsOn Modified env (Crash.modified env) :=
  panics_composite (id <|
    .cons (port_opt accepts_boolean panics_never never_nullSafe) <|
    .cons (port_opt accepts_boolean panics_never never_nullSafe) <|
    .cons (port_opt accepts_fields panics_fields map_nullSafe) <|
    .nil) rfl rfl (by decide)

theorem panics_deliveryState : PanicsOn DeliveryState env (Crash.deliveryState env) := by
  intro i q
  constructor
  · intro h
    cases i with
    | nil => cases h
    | cons c t =>
      obtain ⟨rfl, e, he, u, p, d, rfl, hd, hi⟩ := union_panics (dec := decode DeliveryState) C24_delivery_state_others
        (disp := DeliveryState.dispatch) (fun _ => rfl) h
      simp only [List.mem_cons, List.not_mem_nil, or_false] at he
      rcases he with rfl | rfl | rfl | rfl | rfl
      · exact .inl ((alternative_panics C24_delivery_state_members.1 panics_received hd hi).1 h)
      · exact .inr (.inl ((alternative_panics C24_delivery_state_members.2.1 panics_accepted hd hi).1 h))
      · exact .inr (.inr (.inl ((alternative_panics C24_delivery_state_members.2.2.1 panics_rejected hd hi).1 h)))
      · exact .inr (.inr (.inr (.inl ((alternative_panics C24_delivery_state_members.2.2.2.1 panics_released hd hi).1 h))))
      · exact .inr (.inr (.inr (.inr ((alternative_panics C24_delivery_state_members.2.2.2.2 panics_modified hd hi).1 h))))
  · rintro (h | h | h | h | h)
    · exact member_panics C24_delivery_state_members.1 (by decide) (by decide) panics_received h
    · exact member_panics C24_delivery_state_members.2.1 (by decide) (by decide) panics_accepted h
    · exact member_panics C24_delivery_state_members.2.2.1 (by decide) (by decide) panics_rejected h
    · exact member_panics C24_delivery_state_members.2.2.2.1 (by decide) (by decide) panics_released h
    · exact member_panics C24_delivery_state_members.2.2.2.2 (by decide) (by decide) panics_modified h

theorem deliveryState_nullSafe : NullSafe (Crash.deliveryState env) := by
  intro p t h
  rcases h with h | h | h | h | h <;> exact composite_nullSafe p t h

theorem panics_outcome : PanicsOn Outcome env (Crash.outcome env) := by
  intro i q
  constructor
  · intro h
    cases i with
    | nil => cases h
    | cons c t =>
      obtain ⟨rfl, e, he, u, p, d, rfl, hd, hi⟩ := union_panics (dec := decode Outcome) C24_outcome_others
        (disp := Outcome.dispatch) (fun _ => rfl) h
      simp only [List.mem_cons, List.not_mem_nil, or_false] at he
      rcases he with rfl | rfl | rfl | rfl
      · exact .inl ((alternative_panics C24_outcome_members.1 panics_accepted hd hi).1 h)
      · exact .inr (.inl ((alternative_panics C24_outcome_members.2.1 panics_rejected hd hi).1 h))
      · exact .inr (.inr (.inl ((alternative_panics C24_outcome_members.2.2.1 panics_released hd hi).1 h)))
      · exact .inr (.inr (.inr ((alternative_panics C24_outcome_members.2.2.2 panics_modified hd hi).1 h)))
  · rintro (h | h | h | h)
    · exact member_panics C24_outcome_members.1 (by decide) (by decide) panics_accepted h
    · exact member_panics C24_outcome_members.2.1 (by decide) (by decide) panics_rejected h
    · exact member_panics C24_outcome_members.2.2.1 (by decide) (by decide) panics_released h
    · exact member_panics C24_outcome_members.2.2.2 (by decide) (by decide) panics_modified h

theorem outcome_nullSafe : NullSafe (Crash.outcome env) := by
  intro p t h
  rcases h with h | h | h | h <;> exact composite_nullSafe p t h

theorem panics_source : PanicsOn Source env (Crash.source env) :=
  panics_composite (id <|
    .cons (port_opt accepts_string panics_never never_nullSafe) <|
    .cons (port_dflt accepts_terminusDurability panics_never never_nullSafe) <|
    .cons (port_dflt accepts_terminusExpiryPolicy panics_never never_nullSafe) <|
    .cons (port_dflt accepts_uint panics_never never_nullSafe) <|
    .cons (port_dflt accepts_boolean panics_never never_nullSafe) <|
    .cons (port_opt accepts_fields panics_fields map_nullSafe) <|
    .cons (port_opt accepts_distributionMode panics_never never_nullSafe) <|
    .cons (port_opt accepts_filter panics_filter map_nullSafe) <|
    .cons (port_opt accepts_outcome panics_outcome outcome_nullSafe) <|
    .cons (port_opt accepts_symbols panics_symbols array_nullSafe) <|
    .cons (port_opt accepts_symbols panics_symbols array_nullSafe) <|
    .nil) rfl rfl (by decide)

theorem panics_target : PanicsOn Target env (Crash.target env) :=
  panics_composite (id <|
    .cons (port_opt accepts_string panics_never never_nullSafe) <|
    .cons (port_dflt accepts_terminusDurability panics_never never_nullSafe) <|
    .cons (port_dflt accepts_terminusExpiryPolicy panics_never never_nullSafe) <|
    .cons (port_dflt accepts_uint panics_never never_nullSafe) <|
    .cons (port_dflt accepts_boolean panics_never never_nullSafe) <|
    .cons (port_opt accepts_fields panics_fields map_nullSafe) <|
    .cons (port_opt accepts_symbols panics_symbols array_nullSafe) <|
    .nil) rfl rfl (by decide)

theorem panics_opening : PanicsOn Open env (Crash.opening env) :=
  panics_composite (id <|
    .cons (port_req accepts_string panics_never) <|
    .cons (port_opt accepts_string panics_never never_nullSafe) <|
    .cons (port_dflt accepts_uint panics_never never_nullSafe) <|
    .cons (port_dflt accepts_ushort panics_never never_nullSafe) <|
    .cons (port_opt accepts_uint panics_never never_nullSafe) <|
    .cons (port_opt accepts_symbols panics_symbols array_nullSafe) <|
    .cons (port_opt accepts_symbols panics_symbols array_nullSafe) <|
    .cons (port_opt accepts_symbols panics_symbols array_nullSafe) <|
    .cons (port_opt accepts_symbols panics_symbols array_nullSafe) <|
    .cons (port_opt accepts_fields panics_fields map_nullSafe) <|
    .nil) rfl rfl (by decide)

theorem panics_beginning : PanicsOn Begin env (Crash.beginning env) :=
  panics_composite (id <|
    .cons (port_opt accepts_ushort panics_never never_nullSafe) <|
    .cons (port_req accepts_uint panics_never) <|
    .cons (port_req accepts_uint panics_never) <|
    .cons (port_req accepts_uint panics_never) <|
    .cons (port_dflt accepts_uint panics_never never_nullSafe) <|
    .cons (port_opt accepts_symbols panics_symbols array_nullSafe) <|
    .cons (port_opt accepts_symbols panics_symbols array_nullSafe) <|
    .cons (port_opt accepts_fields panics_fields map_nullSafe) <|
    .nil) rfl rfl (by decide)

theorem panics_attach : PanicsOn Attach env (Crash.attach env) :=
  panics_composite (id <|
    .cons (port_req accepts_string panics_never) <|
    .cons (port_req accepts_uint panics_never) <|
    .cons (port_req accepts_role panics_never) <|
    .cons (port_dflt accepts_senderSettleMode panics_never never_nullSafe) <|
    .cons (port_dflt accepts_receiverSettleMode panics_never never_nullSafe) <|
    .cons (port_opt accepts_source panics_source composite_nullSafe) <|
    .cons (port_opt accepts_target panics_target composite_nullSafe) <|
    .cons (port_opt accepts_map panics_map map_nullSafe) <|
    .cons (port_dflt accepts_boolean panics_never never_nullSafe) <|
    .cons (port_opt accepts_uint panics_never never_nullSafe) <|
    .cons (port_opt accepts_ulong panics_never never_nullSafe) <|
    .cons (port_opt accepts_symbols panics_symbols array_nullSafe) <|
    .cons (port_opt accepts_symbols panics_symbols array_nullSafe) <|
    .cons (port_opt accepts_fields panics_fields map_nullSafe) <|
    .nil) rfl rfl (by decide)

theorem panics_flow : PanicsOn Flow env (Crash.flow env) :=
  panics_composite (id <|
    .cons (port_opt accepts_uint panics_never never_nullSafe) <|
    .cons (port_req accepts_uint panics_never) <|
    .cons (port_req accepts_uint panics_never) <|
    .cons (port_req accepts_uint panics_never) <|
    .cons (port_opt accepts_uint panics_never never_nullSafe) <|
    .cons (port_opt accepts_uint panics_never never_nullSafe) <|
    .cons (port_opt accepts_uint panics_never never_nullSafe) <|
    .cons (port_opt accepts_uint panics_never never_nullSafe) <|
    .cons (port_dflt accepts_boolean panics_never never_nullSafe) <|
    .cons (port_dflt accepts_boolean panics_never never_nullSafe) <|
    .cons (port_opt accepts_fields panics_fields map_nullSafe) <|
    .nil) rfl rfl (by decide)

theorem ports_transfer : ExactPorts env (ListType.fields TransferPerf) [
  Crash.must Standard.uint Crash.never, Crash.may Standard.uint Crash.never, Crash.may Standard.binary Crash.never, Crash.may Standard.uint Crash.never, Crash.may (Standard.Scope.lenient env).boolean Crash.never,
  Crash.may (Standard.Scope.lenient env).boolean Crash.never, Crash.may Standard.receiverSettleMode Crash.never,
  Crash.may (Standard.deliveryState (Standard.Scope.lenient env)) (Crash.deliveryState env), Crash.may (Standard.Scope.lenient env).boolean Crash.never, Crash.may (Standard.Scope.lenient env).boolean Crash.never,
  Crash.may (Standard.Scope.lenient env).boolean Crash.never] :=
  id <|
    .cons (port_req accepts_uint panics_never) <|
    .cons (port_opt accepts_uint panics_never never_nullSafe) <|
    .cons (port_opt accepts_binary panics_never never_nullSafe) <|
    .cons (port_opt accepts_uint panics_never never_nullSafe) <|
    .cons (port_opt accepts_boolean panics_never never_nullSafe) <|
    .cons (port_dflt accepts_boolean panics_never never_nullSafe) <|
    .cons (port_opt accepts_receiverSettleMode panics_never never_nullSafe) <|
    .cons (port_opt accepts_deliveryState panics_deliveryState deliveryState_nullSafe) <|
    .cons (port_dflt accepts_boolean panics_never never_nullSafe) <|
    .cons (port_dflt accepts_boolean panics_never never_nullSafe) <|
    .cons (port_dflt accepts_boolean panics_never never_nullSafe) <|
    .nil

theorem panics_transfer : PanicsOn TransferPerf env (Crash.transfer env) :=
  panics_composite ports_transfer rfl rfl (by decide)

theorem panics_disposition : PanicsOn Disposition env (Crash.disposition env) :=
  panics_composite (id <|
    .cons (port_req accepts_role panics_never) <|
    .cons (port_req accepts_uint panics_never) <|
    .cons (port_opt accepts_uint panics_never never_nullSafe) <|
    .cons (port_dflt accepts_boolean panics_never never_nullSafe) <|
    .cons (port_opt accepts_deliveryState panics_deliveryState deliveryState_nullSafe) <|
    .cons (port_dflt accepts_boolean panics_never never_nullSafe) <|
    .nil) rfl rfl (by decide)

theorem panics_detach : PanicsOn Detach env (Crash.detach env) :=
  panics_composite (id <|
    .cons (port_req accepts_uint panics_never) <|
    .cons (port_dflt accepts_boolean panics_never never_nullSafe) <|
    .cons (port_opt accepts_error panics_error composite_nullSafe) <|
    .nil) rfl rfl (by decide)

theorem panics_ending : PanicsOn End env (Crash.ending env) :=
  panics_composite (id <|
    .cons (port_opt accepts_error panics_error composite_nullSafe) <|
    .nil) rfl rfl (by decide)

theorem panics_close : PanicsOn Close env (Crash.close env) :=
  panics_composite (id <|
    .cons (port_opt accepts_error panics_error composite_nullSafe) <|
    .nil) rfl rfl (by decide)

theorem panics_saslMechanisms : PanicsOn SaslMechanisms env (Crash.saslMechanisms env) :=
  panics_composite (id <|
    .cons (port_req accepts_symbols panics_symbols) <|
    .nil) rfl rfl (by decide)

theorem panics_saslInit : PanicsOn SaslInit env (Crash.saslInit env) :=
  panics_composite (id <|
    .cons (port_req accepts_symbol panics_never) <|
    .cons (port_opt accepts_binary panics_never never_nullSafe) <|
    .cons (port_opt accepts_string panics_never never_nullSafe) <|
    .nil) rfl rfl (by decide)

theorem panics_saslChallenge : PanicsOn SaslChallenge env (Crash.saslChallenge env) :=
  panics_composite (id <|
    .cons (port_req accepts_binary panics_never) <|
    .nil) rfl rfl (by decide)

theorem panics_saslResponse : PanicsOn SaslResponse env (Crash.saslResponse env) :=
  panics_composite (id <|
    .cons (port_req accepts_binary panics_never) <|
    .nil) rfl rfl (by decide)

theorem panics_saslOutcome : PanicsOn SaslOutcome env (Crash.saslOutcome env) :=
  panics_composite (id <|
    .cons (port_req accepts_saslCode panics_never) <|
    .cons (port_opt accepts_binary panics_never never_nullSafe) <|
    .nil) rfl rfl (by decide)

theorem panics_header : PanicsOn Header env (Crash.headerSection env) :=
  panics_composite (id <|
    .cons (port_dflt accepts_boolean panics_never never_nullSafe) <|
    .cons (port_dflt accepts_ubyte panics_never never_nullSafe) <|
    .cons (port_opt accepts_uint panics_never never_nullSafe) <|
    .cons (port_dflt accepts_boolean panics_never never_nullSafe) <|
    .cons (port_dflt accepts_uint panics_never never_nullSafe) <|
    .nil) rfl rfl (by decide)

theorem panics_properties : PanicsOn Properties env (Crash.propertiesSection env) :=
  panics_composite (id <|
    .cons (port_opt accepts_messageId panics_never never_nullSafe) <|
    .cons (port_opt accepts_binary panics_never never_nullSafe) <|
    .cons (port_opt accepts_string panics_never never_nullSafe) <|
    .cons (port_opt accepts_string panics_never never_nullSafe) <|
    .cons (port_opt accepts_string panics_never never_nullSafe) <|
    .cons (port_opt accepts_messageId panics_never never_nullSafe) <|
    .cons (port_opt accepts_symbol panics_never never_nullSafe) <|
    .cons (port_opt accepts_symbol panics_never never_nullSafe) <|
    .cons (port_opt accepts_timestamp panics_timestamp timestamp_nullSafe) <|
    .cons (port_opt accepts_timestamp panics_timestamp timestamp_nullSafe) <|
    .cons (port_opt accepts_string panics_never never_nullSafe) <|
    .cons (port_opt accepts_uint panics_never never_nullSafe) <|
    .cons (port_opt accepts_string panics_never never_nullSafe) <|
    .nil) rfl rfl (by decide)

theorem panics_saslBody : PanicsOn SaslFrameBody env (Crash.saslBody env) := by
  intro i q
  constructor
  · intro h
    cases i with
    | nil => cases h
    | cons c t =>
      obtain ⟨rfl, e, he, u, p, d, rfl, hd, hi⟩ := union_panics (dec := decode SaslFrameBody) C24_sasl_frame_body_others
        (disp := SaslFrameBody.dispatch) (fun _ => rfl) h
      simp only [List.mem_cons, List.not_mem_nil, or_false] at he
      rcases he with rfl | rfl | rfl | rfl | rfl
      · exact .inl ((alternative_panics C24_sasl_frame_body_members.1 panics_saslMechanisms hd hi).1 h)
      · exact .inr (.inl ((alternative_panics C24_sasl_frame_body_members.2.1 panics_saslInit hd hi).1 h))
      · exact .inr (.inr (.inl ((alternative_panics C24_sasl_frame_body_members.2.2.1 panics_saslChallenge hd hi).1 h)))
      · exact .inr (.inr (.inr (.inl ((alternative_panics C24_sasl_frame_body_members.2.2.2.1 panics_saslResponse hd hi).1 h))))
      · exact .inr (.inr (.inr (.inr ((alternative_panics C24_sasl_frame_body_members.2.2.2.2 panics_saslOutcome hd hi).1 h))))
  · rintro (h | h | h | h | h)
    · exact member_panics C24_sasl_frame_body_members.1 (by decide) (by decide) panics_saslMechanisms h
    · exact member_panics C24_sasl_frame_body_members.2.1 (by decide) (by decide) panics_saslInit h
    · exact member_panics C24_sasl_frame_body_members.2.2.1 (by decide) (by decide) panics_saslChallenge h
    · exact member_panics C24_sasl_frame_body_members.2.2.2.1 (by decide) (by decide) panics_saslResponse h
    · exact member_panics C24_sasl_frame_body_members.2.2.2.2 (by decide) (by decide) panics_saslOutcome h

theorem panics_messageSection : PanicsOn Section env (Crash.messageSection env) := by
  intro i q
  constructor
  · intro h
    cases i with
    | nil => cases h
    | cons c t =>
      obtain ⟨rfl, e, he, u, p, d, rfl, hd, hi⟩ := union_panics (dec := decode Section) C24_section_others
        (disp := Section.dispatch) (fun _ => rfl) h
      simp only [List.mem_cons, List.not_mem_nil, or_false] at he
      rcases he with rfl | rfl | rfl | rfl | rfl | rfl | rfl | rfl | rfl
      · exact .inl ((alternative_panics C24_section_members.1 panics_header hd hi).1 h)
      · exact .inr (.inl (alternative_described C24_section_members.2.1 (by decide) (by decide) panics_fields h hd hi))
      · exact .inr (.inr (.inl (alternative_described C24_section_members.2.2.1 (by decide) (by decide) panics_fields h hd hi)))
      · exact .inr (.inr (.inr (.inr (.inl (alternative_described C24_section_members.2.2.2.1 (by decide) (by decide) panics_stringMap h hd hi)))))
      · exact ((alternativeOf_panics C24_section_members.2.2.2.2.1 (panics_never (α := Binary)) hd hi).1 h).elim
      · exact .inr (.inr (.inr (.inr (.inr (.inl (alternative_described C24_section_members.2.2.2.2.2.1 (by decide) (by decide) panics_vlist h hd hi))))))
      · exact .inr (.inr (.inr (.inr (.inr (.inr (.inl (alternative_described C24_section_members.2.2.2.2.2.2.1 (by decide) (by decide) panics_variant h hd hi)))))))
      · exact .inr (.inr (.inr (.inr (.inr (.inr (.inr (alternative_described C24_section_members.2.2.2.2.2.2.2.1 (by decide) (by decide) panics_fields h hd hi)))))))
      · exact .inr (.inr (.inr (.inl ((alternative_panics C24_section_members.2.2.2.2.2.2.2.2 panics_properties hd hi).1 h))))
  · rintro (h | h | h | h | h | h | h | h)
    · exact member_panics C24_section_members.1 (by decide) (by decide) panics_header h
    · exact memberOf_panics C24_section_members.2.1 (by decide) (by decide) panics_fields h
    · exact memberOf_panics C24_section_members.2.2.1 (by decide) (by decide) panics_fields h
    · exact member_panics C24_section_members.2.2.2.2.2.2.2.2 (by decide) (by decide) panics_properties h
    · exact memberOf_panics C24_section_members.2.2.2.1 (by decide) (by decide) panics_stringMap h
    · exact memberOf_panics C24_section_members.2.2.2.2.2.1 (by decide) (by decide) panics_vlist h
    · exact memberOf_panics C24_section_members.2.2.2.2.2.2.1 (by decide) (by decide) panics_variant h
    · exact memberOf_panics C24_section_members.2.2.2.2.2.2.2.1 (by decide) (by decide) panics_fields h

end Amqp
