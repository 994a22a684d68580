import Verif.Proofs.Refusals
import Verif.Proofs.CrashLists
/-!
# Which inputs are refused: lists of fields and choices

Support for C93.
-/
set_option autoImplicit false
namespace Amqp
open Dec
open Standard (Rep)
variable {env : Env}

theorem refuses_vecMap : RefusesOn VecVariantMap env (Refuse.stringMap env) := by
  have pair : Refuses (decodePairs (decode Str env) (decode Variant env)) fun e i =>
      Refuse.string e i ∨ ∃ k u r, i = u ++ r ∧ Standard.string k u ∧ Refuse.any env e r := by
    refine (Refuses.bind (α := Str) refuses_string (accepts_string (env := env)) fun k =>
      Refuses.bind_never refuses_variant fun v => Refuses.pure (k, v)).congr
        fun p i => ⟨?_, ?_⟩
    · rintro (h | ⟨k, u, r, rfl, hu, h⟩)
      · exact .inl h
      · exact .inr ⟨k, u, r, rfl, hu, h⟩
    · rintro (h | ⟨k, u, r, rfl, hu, h⟩)
      · exact .inl h
      · exact .inr ⟨k, u, r, rfl, hu, h⟩
  have tpair : Takes (decodePairs (decode Str env) (decode Variant env)) fun e b =>
      ∃ u v, b = u ++ v ∧ Standard.string e.1 u ∧ Lenient.any env e.2 v := by
    have h := Takes.bind (accepts_string (env := env)) fun k =>
      Takes.bind (accepts_variant (env := env)) fun v => Takes.pure (k, v)
    refine Takes.congr h fun e b => ⟨?_, ?_⟩
    · rintro ⟨k, u, v, rfl, hk, x, u', v', rfl, hx, rfl, rfl⟩
      exact ⟨u, u', by simp, hk, hx⟩
    · rintro ⟨u, v, rfl, hu, hv⟩
      exact ⟨e.1, u, v, rfl, hu, e.2, v, [], by simp, hv, rfl, rfl⟩
  have e : decode VecVariantMap env = ((formatCode >>= decodeMapHeader env) >>= fun hd =>
      VecVariantMap.mk <$> withSlice hd.size (decodeN (decodePairs (decode Str env) (decode Variant env))
        (hd.count / 2))) := by
    rw [bind_assoc]; rfl
  have loop : ∀ n p i, Refuse.items (fun (e : Str × Variant) b => ∃ u v, b = u ++ v ∧
      Standard.string e.1 u ∧ Lenient.any env e.2 v) (fun p i => Refuse.string p i ∨
      ∃ (k : Str) (u r : Bytes), i = u ++ r ∧ Standard.string k u ∧ Refuse.any env p r) n p i ↔
      Refuse.entries (K := Str) Standard.string Refuse.string (Lenient.any env) (Refuse.any env)
        (fun _ => True) n p i := by
    intro n p i
    constructor
    · intro h
      cases h with
      | @mk good p tail hg hi ht =>
        obtain ⟨parts, p1, p2, p3⟩ : ∃ parts : List ((Str × Bytes) × (Variant × Bytes)),
            (∀ q ∈ parts, Standard.string q.1.1 q.1.2 ∧ Lenient.any env q.2.1 q.2.2 ∧ True) ∧
            parts.length = good.length ∧
            (parts.flatMap fun q => q.1.2 ++ q.2.2) = good.flatMap Prod.snd := by
          clear hg
          induction good with
          | nil => exact ⟨[], by simp, rfl, rfl⟩
          | cons g t ih =>
            obtain ⟨u, v, e, hu, hv⟩ := hi g (by simp)
            obtain ⟨parts, h1, h2, h3⟩ := ih fun q hq => hi q (by simp [hq])
            refine ⟨((g.1.1, u), (g.1.2, v)) :: parts, ?_, by simp [h2], by simp [h3, e]⟩
            intro q hq
            rcases List.mem_cons.1 hq with rfl | hq
            · exact ⟨hu, hv, trivial⟩
            · exact h1 q hq
        rw [← p3]
        rcases ht with ht | ⟨k, u, r, rfl, hu, ht⟩
        · exact .key parts (by omega) p1 ht
        · exact .value parts (by omega) p1 hu ht
    · have key : ∀ (good : List ((Str × Bytes) × (Variant × Bytes))) (e : ParseError) (tail : Bytes),
          good.length < n →
          (∀ g ∈ good, Standard.string g.1.1 g.1.2 ∧ Lenient.any env g.2.1 g.2.2 ∧ True) →
          (Refuse.string e tail ∨ ∃ (k : Str) (u r : Bytes), tail = u ++ r ∧ Standard.string k u ∧
            Refuse.any env e r) →
          Refuse.items (fun (e : Str × Variant) b => ∃ u v, b = u ++ v ∧ Standard.string e.1 u ∧
            Lenient.any env e.2 v) (fun p i => Refuse.string p i ∨ ∃ (k : Str) (u r : Bytes),
            i = u ++ r ∧ Standard.string k u ∧ Refuse.any env p r) n e
            ((good.flatMap fun g => g.1.2 ++ g.2.2) ++ tail) := by
        intro good e tail hg hi ht
        have := Refuse.items.mk (n := n) (L := fun (e : Str × Variant) b => ∃ u v, b = u ++ v ∧
          Standard.string e.1 u ∧ Lenient.any env e.2 v) (R := fun p i => Refuse.string p i ∨
          ∃ (k : Str) (u r : Bytes), i = u ++ r ∧ Standard.string k u ∧ Refuse.any env p r)
          (good.map fun g => ((g.1.1, g.2.1), g.1.2 ++ g.2.2)) (e := e) (tail := tail)
          (by simpa using hg) (by
            intro g hg
            obtain ⟨q, hq, rfl⟩ := List.mem_map.1 hg
            exact ⟨_, _, rfl, (hi q hq).1, (hi q hq).2.1⟩) ht
        simpa [List.flatMap_map] using this
      intro h
      cases h with
      | @key good p tail hg hi ht => exact key good _ _ hg hi (.inl ht)
      | @value good k p u tail hg hi hk ht => exact key good _ _ hg hi (.inr ⟨k, u, tail, rfl, hk, ht⟩)
  show Refuses (decode VecVariantMap env) _
  rw [e]
  refine (refuses_mapHeader.bind (takes_mapHeader env) fun hd =>
    ((pair.decodeN tpair (hd.count / 2)).withSlice hd.size).map VecVariantMap.mk).congr
    fun p i => ⟨?_, ?_⟩
  · rintro (h1 | ⟨hd, b, r, rfl, hh, body, rest, rfl, hl, h1⟩)
    · exact .header h1
    · exact .entry rest (hl ▸ hh) ((loop _ _ _).1 h1)
  · intro h1
    cases h1 with
    | header h1 => exact .inl h1
    | entry rest hh h1 =>
      exact .inr ⟨⟨_, _⟩, _, _, rfl, hh, _, rest, rfl, rfl, (loop _ _ _).2 h1⟩

/-! ## Lists of fields -/

/-- The field refuses what the port says, and is read from what it says. -/
structure RefusesPort (env : Env) (f : Field) (s : Refuse.Port) : Prop where
  reads : ∀ b, (∃ a, Reads (f.dec env) b a) ↔ s.legal b ∨ (s.name = none ∧ b = [0x40])
  refuse : Refuses (f.dec env) s.refuse
  missing : ∀ e, f.missing = .err e ↔ ∃ n, s.name = some n ∧ e = .requiredFieldOmitted n
  absent : (∃ a, f.missing = .ok a) ↔ s.name = none

inductive RefusesPorts (env : Env) : List Field → List Refuse.Port → Prop
  | nil : RefusesPorts env [] []
  | cons {f : Field} {fs : List Field} {s : Refuse.Port} {ss : List Refuse.Port} :
      RefusesPort env f s → RefusesPorts env fs ss → RefusesPorts env (f :: fs) (s :: ss)

section
variable {α : Type} [Encode α] [DecodeF α] [LawfulEnc α] [LawfulDec α] [NonNull α]

theorem must_req {L : Rep α} {R : Refusal} {n : String} (h : Accepts α env L) (hr : RefusesOn α env R) :
    RefusesPort env (.req α n) (Refuse.must n L R) where
  reads b := by
    show (∃ a, Reads (decode α env) b a) ↔ (∃ a, L a b) ∨ ((some n : Option String) = none ∧ _)
    simp only [Takes.reads h, reduceCtorEq, false_and, or_false]
  refuse := hr
  missing e := by
    constructor
    · intro g; injection g with g; exact ⟨n, rfl, g.symm⟩
    · rintro ⟨_, g, rfl⟩; injection g with g; subst g; rfl
  absent := ⟨nofun, nofun⟩

theorem may_opt [RefusesNull α] {L : Rep α} {R : Refusal} (h : Accepts α env L)
    (hr : RefusesOn α env R) : RefusesPort env (.opt α) (Refuse.may L R) where
  reads b := by
    show (∃ o, Reads (decode (Option α) env) b o) ↔ (∃ a, L a b) ∨ ((none : Option String) = none ∧ _)
    simp only [reads_option h, true_and]
    constructor
    · rintro ⟨o, ⟨a, rfl, ha⟩ | ⟨rfl, rfl⟩⟩
      · exact .inl ⟨a, ha⟩
      · exact .inr rfl
    · rintro (⟨a, ha⟩ | rfl)
      · exact ⟨some a, .inl ⟨a, rfl, ha⟩⟩
      · exact ⟨none, .inr ⟨rfl, rfl⟩⟩
  refuse := refuses_option hr
  missing e := ⟨nofun, fun ⟨_, h, _⟩ => by cases h⟩
  absent := ⟨fun _ => rfl, fun _ => ⟨_, rfl⟩⟩

theorem may_dflt [RefusesNull α] {L : Rep α} {R : Refusal} {d : α} (h : Accepts α env L)
    (hr : RefusesOn α env R) : RefusesPort env (.dflt α d) (Refuse.may L R) where
  reads b := by
    show (∃ a, Reads ((fun o : Option α => o.getD d) <$> decode (Option α) env) b a) ↔
      (∃ a, L a b) ∨ ((none : Option String) = none ∧ _)
    have h1 := fun a => (Takes.map (fun o : Option α => o.getD d) (accepts_option h)).reads
      (a := a) (b := b)
    simp only [h1, true_and]
    constructor
    · rintro ⟨_, o, rfl, ho⟩
      cases ho with
      | none => exact .inr rfl
      | some h _ => exact .inl ⟨_, h⟩
    · rintro (⟨a, ha⟩ | rfl)
      · exact ⟨_, some a, rfl, (Takes.reads (accepts_option h)).1 ((reads_option h b).2 (.inl ⟨a, rfl, ha⟩))⟩
      · exact ⟨_, none, rfl, .none⟩
  refuse := Refuses.map _ (refuses_option hr)
  missing e := ⟨nofun, fun ⟨_, h, _⟩ => by cases h⟩
  absent := ⟨fun _ => rfl, fun _ => ⟨_, rfl⟩⟩
end

theorem getFields_cons_err {f : Field} {fs : List Field} {st : Nat × Bytes} {e : ParseError} :
    getFields env (f :: fs) st = .err e ↔ f.get env st = .err e ∨
      ∃ st' a, f.get env st = .ok (st', a) ∧ getFields env fs st' = .err e := by
  simp only [getFields, FieldDec.run_bind]
  cases f.get env st with
  | err e => simp
  | panic q => simp
  | ok q =>
    obtain ⟨st', a⟩ := q
    constructor
    · intro h
      refine .inr ⟨st', a, rfl, ?_⟩
      revert h
      dsimp only
      cases getFields env fs st' with
      | ok r => intro h; cases h
      | err e => intro h; injection h with h; subst h; rfl
      | panic q => intro h; cases h
    · rintro (h | ⟨_, _, h, h'⟩)
      · cases h
      · cases h
        dsimp only
        rw [h']

theorem refuses_fill {fs : List Field} {ss : List Refuse.Port} (h : RefusesPorts env fs ss) :
    ∀ {n : Nat} {w : Bytes} {e : ParseError},
    getFields env fs (n, w) = .err e ↔ Refuse.Fill ss n e w := by
  induction h with
  | nil =>
    intro n w p
    exact ⟨nofun, nofun⟩
  | @cons f fs s ss hf hr ih =>
    intro n w p
    rw [getFields_cons_err]
    cases n with
    | zero =>
      rw [f.get_zero]
      constructor
      · intro h
        cases hm : f.missing with
        | err e =>
          rw [hm] at h
          rcases h with h | ⟨_, _, h, -⟩
          · injection h with h; subst h
            obtain ⟨n, hn, rfl⟩ := (hf.missing _).1 hm
            exact .missing hn
          · cases h
        | panic p => exact absurd hm (f.missing_ne p)
        | ok b =>
          rw [hm] at h
          rcases h with h | ⟨_, _, h, h'⟩
          · cases h
          · cases h
            exact .leftOut (hf.absent.1 ⟨_, hm⟩) (ih.1 h')
      · intro h
        cases h with
        | missing hn => rw [(hf.missing _).2 ⟨_, hn, rfl⟩]; exact .inl rfl
        | leftOut hn h =>
          obtain ⟨a, ha⟩ := hf.absent.2 hn
          rw [ha]
          exact .inr ⟨_, _, rfl, ih.2 h⟩
    | succ n =>
      rw [f.get_succ]
      simp only [present]
      constructor
      · intro h
        cases hd : f.dec env w with
        | panic e => rw [hd] at h; rcases h with h | ⟨_, _, h, -⟩ <;> cases h
        | err q =>
          rw [hd] at h
          rcases h with h | ⟨_, _, h, -⟩
          · injection h with h; subst h
            exact .here ((hf.refuse _ _).1 hd)
          · cases h
        | ok q =>
          obtain ⟨r, b⟩ := q
          rw [hd] at h
          obtain ⟨u, rfl, hu⟩ := f.loc env _ _ _ hd
          rcases h with h | ⟨_, _, h, h'⟩
          · cases h
          cases h
          have hi := ih.1 h'
          rcases (hf.reads u).1 ⟨b, hu⟩ with hl | ⟨ha, rfl⟩
          · exact .given hl hi
          · exact .null ha hi
      · intro h
        cases h with
        | here h => exact .inl (by rw [(hf.refuse _ _).2 h])
        | @null _ _ _ _ b ha hb =>
          obtain ⟨a, h⟩ := (hf.reads [0x40]).2 (.inr ⟨ha, rfl⟩)
          have := h b
          exact .inr ⟨(n, b), a, by rw [show (0x40 :: b : Bytes) = [0x40] ++ b from rfl, this], ih.2 hb⟩
        | @given _ _ _ _ u b hl hb =>
          obtain ⟨a, h⟩ := (hf.reads u).2 (.inl hl)
          exact .inr ⟨(n, b), a, by rw [h b], ih.2 hb⟩

theorem refuses_listInner {fs : List Field} {ss : List Refuse.Port} {β : Type} (g : Tuple fs → β)
    (h : RefusesPorts env fs ss) :
    Refuses (listInner env (g <$> getFields env fs)) (Refuse.fieldList env ss) := by
  have e : listInner env (g <$> getFields env fs) = (formatCode >>= decodeListHeader env) >>= fun h =>
      takeN h.size >>= fun body => (match (g <$> getFields env fs) (h.count, body) with
      | .ok (_, a) => pure a
      | .err e => Dec.fail e
      | .panic p => Dec.abort p : Dec β) := by
    rw [bind_assoc]; rfl
  have body : ∀ n w, Refuses (match (g <$> getFields env fs) (n, w) with
      | .ok (_, a) => pure a
      | .err e => Dec.fail e
      | .panic p => Dec.abort p : Dec β) fun p _ => Refuse.Fill ss n p w := by
    intro n w i p
    refine Iff.trans ?_ (refuses_fill h)
    rw [FieldDec.run_map]
    cases getFields env fs (n, w) with
    | ok q => exact ⟨nofun, nofun⟩
    | panic q => exact ⟨nofun, nofun⟩
    | err q =>
      constructor
      · intro h; injection h with h; subst h; rfl
      · intro h; injection h with h; subst h; rfl
  rw [e]
  refine (refuses_listHeader.bind (takes_listHeader env) fun h =>
    (refuses_takeN h.size).bind (takes_takeN h.size) fun w => body h.count w).congr
    fun p i => ⟨?_, ?_⟩
  · rintro (h1 | ⟨hd, b, r, rfl, ⟨rfl, rfl⟩ | hh, h1 | ⟨_, w, r', rfl, ⟨rfl, hl⟩, h1⟩⟩)
    · exact .header h1
    · cases h1 with
      | mk h1 => cases h1
    · obtain rfl := List.eq_nil_of_length_eq_zero hl
      exact .empty r' h1
    · cases h1 with
      | mk h1 => exact .short hh h1
    · exact .field r' (hl ▸ hh) h1
  · intro h1
    cases h1 with
    | header h1 => exact .inl h1
    | empty rest h1 =>
      exact .inr ⟨⟨0, 0⟩, [0x45], rest, rfl, .inl ⟨rfl, rfl⟩, .inr ⟨[], [], rest, rfl, ⟨rfl, rfl⟩, h1⟩⟩
    | short hh h1 => exact .inr ⟨⟨_, _⟩, _, _, rfl, .inr hh, .inl (.mk h1)⟩
    | field rest hh h1 =>
      exact .inr ⟨⟨_, _⟩, _, _, rfl, .inr hh, .inr ⟨_, _, rest, rfl, ⟨rfl, rfl⟩, h1⟩⟩

/-! ## Choices -/

/-- What follows a descriptor of the kind is refused as the kind says. -/
def RefusesKind {U : Type} (dec : Env → Dec U) (env : Env) (k : Refuse.Kind) : Prop :=
  ∀ (u p : Bytes) (d : Descriptor) (e : ParseError), Means env u d → d.Is k.1.1 k.1.2 →
    (dec env (0x00 :: (u ++ p)) = .err e ↔ k.2 e p)

theorem refuses_choice {U : Type} {dec : Env → Dec U} {kinds : List Refuse.Kind}
    (hc : ∀ c t, c ≠ 0x00 → dec env (c :: t) = .err (.invalidFormatCode c))
    (hd : ∀ t e, decode Descriptor env t = .err e → dec env (0x00 :: t) = .err e)
    (ho : ∀ u p d, Means env u d → (∀ k ∈ kinds, ¬ d.Is k.1.1 k.1.2) →
      dec env (0x00 :: (u ++ p)) = .err (.invalidDescriptor d))
    (hk : ∀ k ∈ kinds, RefusesKind dec env k) (i : Bytes) (e : ParseError) (hi : i ≠ []) :
    dec env i = .err e ↔ Refuse.choice kinds e i := by
  constructor
  · intro h
    cases i with
    | nil => exact absurd rfl hi
    | cons c t =>
      by_cases hc0 : c = 0x00
      · subst hc0
        cases h1 : decode Descriptor env t with
        | err e' =>
          rw [hd _ _ h1] at h
          injection h with h; subst h
          exact .descriptor ((refuses_descriptor _ _).1 h1)
        | panic p => exact absurd ((panics_never (env := env) _ _).1 h1) id
        | ok q =>
          obtain ⟨p, d⟩ := q
          obtain ⟨u, rfl, hu⟩ := loc_decode env _ _ _ h1
          have hl : Lenient.descriptor d u := (Takes.reads accepts_descriptor).1 hu
          by_cases hm : ∃ k ∈ kinds, d.Is k.1.1 k.1.2
          · obtain ⟨k, hm, hs⟩ := hm
            exact .kind hl hm hs ((hk k hm u p d e hu hs).1 h)
          · have hm : ∀ k ∈ kinds, ¬ d.Is k.1.1 k.1.2 := fun k hk hs => hm ⟨k, hk, hs⟩
            rw [ho u p d hu hm] at h
            injection h with h; subst h
            exact .other p hl hm
      · rw [hc c t hc0] at h
        injection h with h; subst h
        exact .code hc0
  · intro h
    cases h with
    | empty => exact absurd rfl hi
    | code h => exact hc _ _ h
    | descriptor h => exact hd _ _ ((refuses_descriptor _ _).2 h)
    | other t hl hm => exact ho _ t _ (accepts_descriptor.means hl) hm
    | kind hl hm hs h => exact (hk _ hm _ _ _ e (accepts_descriptor.means hl) hs).2 h

theorem refuses_choice' {U : Type} [DecodeF U] {kinds : List Refuse.Kind}
    (hc : ∀ c t, c ≠ 0x00 → decode U env (c :: t) = .err (.invalidFormatCode c))
    (hd : ∀ t e, decode Descriptor env t = .err e → decode U env (0x00 :: t) = .err e)
    (ho : ∀ u p d, Means env u d → (∀ k ∈ kinds, ¬ d.Is k.1.1 k.1.2) →
      decode U env (0x00 :: (u ++ p)) = .err (.invalidDescriptor d))
    (hk : ∀ k ∈ kinds, RefusesKind (decode U) env k) : RefusesOn U env (Refuse.choice kinds) := by
  intro i e
  cases i with
  | nil =>
    constructor
    · intro h; injection h with h; subst h; exact .empty
    · rintro ⟨_⟩; rfl
  | cons c t => exact refuses_choice hc hd ho hk _ e nofun

/-! ## Composite types -/

theorem kind_described {β : Type} {dec : Env → Dec β} {c : UInt64} {n : String} {d : Dec β} {R : Refusal}
    (e1 : ∀ f t, dec env (f :: t) = describedAs env f c n d t) (h : Refuses d R) :
    RefusesKind dec env ((c, n), R) := by
  intro u p x e hu hs
  rw [e1, describedAs_eq, show (0x00 : UInt8) = FC.described from rfl, validateCode_self,
    bind_ok (hu p), Descriptor.selects_iff.2 hs]
  exact h _ _

theorem refuses_described {β : Type} [DecodeF β] {c : UInt64} {n : String} {d : Dec β} {R : Refusal}
    (e1 : ∀ f t, decode β env (f :: t) = describedAs env f c n d t) (h : Refuses d R) :
    RefusesOn β env (Refuse.one ((c, n), R)) := by
  refine refuses_choice' (fun f t hf => ?_) (fun t e he => ?_) (fun u p x hu hs => ?_) fun k hk => ?_
  · rw [e1, describedAs_eq, validateCode, if_pos (show f ≠ FC.described from hf)]; rfl
  · rw [e1, describedAs_eq, show (0x00 : UInt8) = FC.described from rfl, validateCode_self, bind_err he]
  · have hs : x.selects c n ≠ true := fun g => hs ((c, n), R) (by simp) (Descriptor.selects_iff.1 g)
    rw [e1, describedAs_eq, show (0x00 : UInt8) = FC.described from rfl, validateCode_self,
      bind_ok (hu p), Bool.eq_false_iff.2 hs]
    rfl
  · rw [List.mem_singleton] at hk
    subst hk
    exact kind_described e1 h

theorem refuses_inner {α : Type} [Encode α] [DecodeF α] [ListType α] {ports : List Refuse.Port}
    (hf : RefusesPorts env (ListType.fields α) ports) :
    Refuses (ListType.inner (α := α) env) (Refuse.fieldList env ports) := by
  rw [ListType.inner_eq]
  exact refuses_listInner _ hf

section
variable {α : Type} [Encode α] [DecodeF α] [ListType α] {c : UInt64} {nm : String}
    {ports : List Refuse.Port}

theorem composite_decode (hc : ListType.code α = c) (hn : ListType.name α = nm) (f : UInt8) (t : Bytes) :
    decode α env (f :: t) = describedAs env f c nm (ListType.inner (α := α) env) t := by
  subst hc hn
  show decF env f t = _
  rw [ListType.decF_eq]

theorem kind_composite (hf : RefusesPorts env (ListType.fields α) ports)
    (hc : ListType.code α = c) (hn : ListType.name α = nm) :
    RefusesKind (decode α) env (Refuse.composite env c nm ports) :=
  kind_described (composite_decode hc hn) (refuses_inner hf)

theorem refuses_composite (hf : RefusesPorts env (ListType.fields α) ports)
    (hc : ListType.code α = c) (hn : ListType.name α = nm) :
    RefusesOn α env (Refuse.one (Refuse.composite env c nm ports)) :=
  refuses_described (composite_decode hc hn) (refuses_inner hf)
end

/-! ## Unions -/

theorem kind_alternative {U α : Type} [DecodeF α] {dec : Env → Dec U} {mk : α → U} {c : UInt64}
    {n : String} {R : Refusal} (ha : Alternative dec (decode α) mk c n)
    (hr : RefusesKind (decode α) env ((c, n), R)) : RefusesKind dec env ((c, n), R) := by
  intro u p d e hu hi
  rw [ha env u p d hu hi, ← hr u p d e hu hi]
  cases decode α env (0x00 :: (u ++ p)) <;> simp

theorem kind_alternativeOf {U α : Type} [DecodeF α] {dec : Env → Dec U} {mk : α → U} {c : UInt64}
    {n : String} {R : Refusal} (ha : AlternativeOf dec (decode α) mk c n) (hr : RefusesOn α env R) :
    RefusesKind dec env ((c, n), R) := by
  intro u p d e hu hi
  rw [ha env u p d hu hi]
  refine Iff.trans ?_ (hr p e)
  cases decode α env p <;> simp

theorem refuses_union {U : Type} [DecodeF U] {table : List (UInt64 × String)}
    (hn : NoOther (decode U) table) {disp : Env → Descriptor → Dec U}
    (h0 : ∀ t, decode U env (0x00 :: t) = (decode Descriptor env >>= disp env) t)
    {kinds : List Refuse.Kind} (ht : ∀ x ∈ table, x ∈ kinds.map Prod.fst)
    (hk : ∀ k ∈ kinds, RefusesKind (decode U) env k) : RefusesOn U env (Refuse.choice kinds) := by
  refine refuses_choice' (fun c t hc => hn.other env c t hc) (fun t e he => ?_) (fun u p d hu hs => ?_) hk
  · rw [h0, bind_err he]
  · refine hn.reject env u p d hu fun x hx => ?_
    obtain ⟨k, hk, rfl⟩ := List.mem_map.1 (ht x hx)
    exact hs k hk

/-! ## The types -/

theorem kind_error : RefusesKind (decode Error) env (Refuse.error env) :=
  kind_composite (id <|
    .cons (must_req accepts_errorCondition refuses_errorCondition) <|
    .cons (may_opt accepts_string refuses_string) <|
    .cons (may_opt accepts_fields refuses_fields) <|
    .nil) rfl rfl
theorem refuses_error : RefusesOn Error env (Refuse.one (Refuse.error env)) :=
  refuses_composite (id <|
    .cons (must_req accepts_errorCondition refuses_errorCondition) <|
    .cons (may_opt accepts_string refuses_string) <|
    .cons (may_opt accepts_fields refuses_fields) <|
    .nil) rfl rfl

theorem kind_received : RefusesKind (decode Received) env (Refuse.received env) :=
  kind_composite (id <|
    .cons (must_req accepts_uint refuses_u32) <|
    .cons (must_req accepts_ulong refuses_u64) <|
    .nil) rfl rfl
theorem refuses_received : RefusesOn Received env (Refuse.one (Refuse.received env)) :=
  refuses_composite (id <|
    .cons (must_req accepts_uint refuses_u32) <|
    .cons (must_req accepts_ulong refuses_u64) <|
    .nil) rfl rfl

theorem kind_accepted : RefusesKind (decode Accepted) env (Refuse.accepted env) :=
  kind_composite (id <|
    .nil) rfl rfl
theorem refuses_accepted : RefusesOn Accepted env (Refuse.one (Refuse.accepted env)) :=
  refuses_composite (id <|
    .nil) rfl rfl

theorem kind_rejected : RefusesKind (decode Rejected) env (Refuse.rejected env) :=
  kind_composite (id <|
    .cons (may_opt accepts_error refuses_error) <|
    .nil) rfl rfl
theorem refuses_rejected : RefusesOn Rejected env (Refuse.one (Refuse.rejected env)) :=
  refuses_composite (id <|
    .cons (may_opt accepts_error refuses_error) <|
    .nil) rfl rfl

theorem kind_released : RefusesKind (decode Released) env (Refuse.released env) :=
  kind_composite (id <|
    .nil) rfl rfl
theorem refuses_released : RefusesOn Released env (Refuse.one (Refuse.released env)) :=
  refuses_composite (id <|
    .nil) rfl rfl

theorem kind_modified : RefusesKind (decode Modified) env (Refuse.modified env) :=
  kind_composite (id <|
    .cons (may_opt accepts_boolean refuses_bool) <|
    .cons (may_opt accepts_boolean refuses_bool) <|
    .cons (may_opt accepts_fields refuses_fields) <|
    .nil) rfl rfl
theorem refuses_modified : RefusesOn Modified env (Refuse.one (Refuse.modified env)) :=
  refuses_composite (id <|
    .cons (may_opt accepts_boolean refuses_bool) <|
    .cons (may_opt accepts_boolean refuses_bool) <|
    .cons (may_opt accepts_fields refuses_fields) <|
    .nil) rfl rfl

theorem refuses_deliveryState : RefusesOn DeliveryState env (Refuse.deliveryState env) := by
  obtain ⟨m0, m1, m2, m3, m4⟩ := C24_delivery_state_members
  refine refuses_union C24_delivery_state_others (disp := DeliveryState.dispatch) (fun _ => rfl)
    (by simp [Refuse.received, Refuse.accepted, Refuse.rejected, Refuse.released, Refuse.modified, Refuse.composite]) fun k hk => ?_
  simp only [List.mem_cons, List.not_mem_nil, or_false] at hk
  rcases hk with rfl | rfl | rfl | rfl | rfl
  · exact kind_alternative m0 kind_received
  · exact kind_alternative m1 kind_accepted
  · exact kind_alternative m2 kind_rejected
  · exact kind_alternative m3 kind_released
  · exact kind_alternative m4 kind_modified

theorem refuses_outcome : RefusesOn Outcome env (Refuse.outcome env) := by
  obtain ⟨m0, m1, m2, m3⟩ := C24_outcome_members
  refine refuses_union C24_outcome_others (disp := Outcome.dispatch) (fun _ => rfl)
    (by simp [Refuse.accepted, Refuse.rejected, Refuse.released, Refuse.modified, Refuse.composite]) fun k hk => ?_
  simp only [List.mem_cons, List.not_mem_nil, or_false] at hk
  rcases hk with rfl | rfl | rfl | rfl
  · exact kind_alternative m0 kind_accepted
  · exact kind_alternative m1 kind_rejected
  · exact kind_alternative m2 kind_released
  · exact kind_alternative m3 kind_modified

theorem kind_source : RefusesKind (decode Source) env (Refuse.source env) :=
  kind_composite (id <|
    .cons (may_opt accepts_string refuses_string) <|
    .cons (may_dflt accepts_terminusDurability refuses_terminusDurability) <|
    .cons (may_dflt accepts_terminusExpiryPolicy refuses_terminusExpiryPolicy) <|
    .cons (may_dflt accepts_uint refuses_u32) <|
    .cons (may_dflt accepts_boolean refuses_bool) <|
    .cons (may_opt accepts_fields refuses_fields) <|
    .cons (may_opt accepts_distributionMode refuses_distributionMode) <|
    .cons (may_opt accepts_filter refuses_filter) <|
    .cons (may_opt accepts_outcome refuses_outcome) <|
    .cons (may_opt accepts_symbols refuses_symbols) <|
    .cons (may_opt accepts_symbols refuses_symbols) <|
    .nil) rfl rfl
theorem refuses_source : RefusesOn Source env (Refuse.one (Refuse.source env)) :=
  refuses_composite (id <|
    .cons (may_opt accepts_string refuses_string) <|
    .cons (may_dflt accepts_terminusDurability refuses_terminusDurability) <|
    .cons (may_dflt accepts_terminusExpiryPolicy refuses_terminusExpiryPolicy) <|
    .cons (may_dflt accepts_uint refuses_u32) <|
    .cons (may_dflt accepts_boolean refuses_bool) <|
    .cons (may_opt accepts_fields refuses_fields) <|
    .cons (may_opt accepts_distributionMode refuses_distributionMode) <|
    .cons (may_opt accepts_filter refuses_filter) <|
    .cons (may_opt accepts_outcome refuses_outcome) <|
    .cons (may_opt accepts_symbols refuses_symbols) <|
    .cons (may_opt accepts_symbols refuses_symbols) <|
    .nil) rfl rfl

theorem kind_target : RefusesKind (decode Target) env (Refuse.target env) :=
  kind_composite (id <|
    .cons (may_opt accepts_string refuses_string) <|
    .cons (may_dflt accepts_terminusDurability refuses_terminusDurability) <|
    .cons (may_dflt accepts_terminusExpiryPolicy refuses_terminusExpiryPolicy) <|
    .cons (may_dflt accepts_uint refuses_u32) <|
    .cons (may_dflt accepts_boolean refuses_bool) <|
    .cons (may_opt accepts_fields refuses_fields) <|
    .cons (may_opt accepts_symbols refuses_symbols) <|
    .nil) rfl rfl
theorem refuses_target : RefusesOn Target env (Refuse.one (Refuse.target env)) :=
  refuses_composite (id <|
    .cons (may_opt accepts_string refuses_string) <|
    .cons (may_dflt accepts_terminusDurability refuses_terminusDurability) <|
    .cons (may_dflt accepts_terminusExpiryPolicy refuses_terminusExpiryPolicy) <|
    .cons (may_dflt accepts_uint refuses_u32) <|
    .cons (may_dflt accepts_boolean refuses_bool) <|
    .cons (may_opt accepts_fields refuses_fields) <|
    .cons (may_opt accepts_symbols refuses_symbols) <|
    .nil) rfl rfl

theorem kind_opening : RefusesKind (decode Open) env (Refuse.opening env) :=
  kind_composite (id <|
    .cons (must_req accepts_string refuses_string) <|
    .cons (may_opt accepts_string refuses_string) <|
    .cons (may_dflt accepts_uint refuses_u32) <|
    .cons (may_dflt accepts_ushort refuses_u16) <|
    .cons (may_opt accepts_uint refuses_u32) <|
    .cons (may_opt accepts_symbols refuses_symbols) <|
    .cons (may_opt accepts_symbols refuses_symbols) <|
    .cons (may_opt accepts_symbols refuses_symbols) <|
    .cons (may_opt accepts_symbols refuses_symbols) <|
    .cons (may_opt accepts_fields refuses_fields) <|
    .nil) rfl rfl
theorem refuses_opening : RefusesOn Open env (Refuse.one (Refuse.opening env)) :=
  refuses_composite (id <|
    .cons (must_req accepts_string refuses_string) <|
    .cons (may_opt accepts_string refuses_string) <|
    .cons (may_dflt accepts_uint refuses_u32) <|
    .cons (may_dflt accepts_ushort refuses_u16) <|
    .cons (may_opt accepts_uint refuses_u32) <|
    .cons (may_opt accepts_symbols refuses_symbols) <|
    .cons (may_opt accepts_symbols refuses_symbols) <|
    .cons (may_opt accepts_symbols refuses_symbols) <|
    .cons (may_opt accepts_symbols refuses_symbols) <|
    .cons (may_opt accepts_fields refuses_fields) <|
    .nil) rfl rfl

theorem kind_beginning : RefusesKind (decode Begin) env (Refuse.beginning env) :=
  kind_composite (id <|
    .cons (may_opt accepts_ushort refuses_u16) <|
    .cons (must_req accepts_uint refuses_u32) <|
    .cons (must_req accepts_uint refuses_u32) <|
    .cons (must_req accepts_uint refuses_u32) <|
    .cons (may_dflt accepts_uint refuses_u32) <|
    .cons (may_opt accepts_symbols refuses_symbols) <|
    .cons (may_opt accepts_symbols refuses_symbols) <|
    .cons (may_opt accepts_fields refuses_fields) <|
    .nil) rfl rfl
theorem refuses_beginning : RefusesOn Begin env (Refuse.one (Refuse.beginning env)) :=
  refuses_composite (id <|
    .cons (may_opt accepts_ushort refuses_u16) <|
    .cons (must_req accepts_uint refuses_u32) <|
    .cons (must_req accepts_uint refuses_u32) <|
    .cons (must_req accepts_uint refuses_u32) <|
    .cons (may_dflt accepts_uint refuses_u32) <|
    .cons (may_opt accepts_symbols refuses_symbols) <|
    .cons (may_opt accepts_symbols refuses_symbols) <|
    .cons (may_opt accepts_fields refuses_fields) <|
    .nil) rfl rfl

theorem kind_attach : RefusesKind (decode Attach) env (Refuse.attach env) :=
  kind_composite (id <|
    .cons (must_req accepts_string refuses_string) <|
    .cons (must_req accepts_uint refuses_u32) <|
    .cons (must_req accepts_role refuses_role) <|
    .cons (may_dflt accepts_senderSettleMode refuses_senderSettleMode) <|
    .cons (may_dflt accepts_receiverSettleMode refuses_receiverSettleMode) <|
    .cons (may_opt accepts_source refuses_source) <|
    .cons (may_opt accepts_target refuses_target) <|
    .cons (may_opt accepts_map refuses_map) <|
    .cons (may_dflt accepts_boolean refuses_bool) <|
    .cons (may_opt accepts_uint refuses_u32) <|
    .cons (may_opt accepts_ulong refuses_u64) <|
    .cons (may_opt accepts_symbols refuses_symbols) <|
    .cons (may_opt accepts_symbols refuses_symbols) <|
    .cons (may_opt accepts_fields refuses_fields) <|
    .nil) rfl rfl
theorem refuses_attach : RefusesOn Attach env (Refuse.one (Refuse.attach env)) :=
  refuses_composite (id <|
    .cons (must_req accepts_string refuses_string) <|
    .cons (must_req accepts_uint refuses_u32) <|
    .cons (must_req accepts_role refuses_role) <|
    .cons (may_dflt accepts_senderSettleMode refuses_senderSettleMode) <|
    .cons (may_dflt accepts_receiverSettleMode refuses_receiverSettleMode) <|
    .cons (may_opt accepts_source refuses_source) <|
    .cons (may_opt accepts_target refuses_target) <|
    .cons (may_opt accepts_map refuses_map) <|
    .cons (may_dflt accepts_boolean refuses_bool) <|
    .cons (may_opt accepts_uint refuses_u32) <|
    .cons (may_opt accepts_ulong refuses_u64) <|
    .cons (may_opt accepts_symbols refuses_symbols) <|
    .cons (may_opt accepts_symbols refuses_symbols) <|
    .cons (may_opt accepts_fields refuses_fields) <|
    .nil) rfl rfl

theorem kind_flow : RefusesKind (decode Flow) env (Refuse.flow env) :=
  kind_composite (id <|
    .cons (may_opt accepts_uint refuses_u32) <|
    .cons (must_req accepts_uint refuses_u32) <|
    .cons (must_req accepts_uint refuses_u32) <|
    .cons (must_req accepts_uint refuses_u32) <|
    .cons (may_opt accepts_uint refuses_u32) <|
    .cons (may_opt accepts_uint refuses_u32) <|
    .cons (may_opt accepts_uint refuses_u32) <|
    .cons (may_opt accepts_uint refuses_u32) <|
    .cons (may_dflt accepts_boolean refuses_bool) <|
    .cons (may_dflt accepts_boolean refuses_bool) <|
    .cons (may_opt accepts_fields refuses_fields) <|
    .nil) rfl rfl
theorem refuses_flow : RefusesOn Flow env (Refuse.one (Refuse.flow env)) :=
  refuses_composite (id <|
    .cons (may_opt accepts_uint refuses_u32) <|
    .cons (must_req accepts_uint refuses_u32) <|
    .cons (must_req accepts_uint refuses_u32) <|
    .cons (must_req accepts_uint refuses_u32) <|
    .cons (may_opt accepts_uint refuses_u32) <|
    .cons (may_opt accepts_uint refuses_u32) <|
    .cons (may_opt accepts_uint refuses_u32) <|
    .cons (may_opt accepts_uint refuses_u32) <|
    .cons (may_dflt accepts_boolean refuses_bool) <|
    .cons (may_dflt accepts_boolean refuses_bool) <|
    .cons (may_opt accepts_fields refuses_fields) <|
    .nil) rfl rfl

theorem kind_transfer : RefusesKind (decode TransferPerf) env (Refuse.transfer env) :=
  kind_composite (id <|
    .cons (must_req accepts_uint refuses_u32) <|
    .cons (may_opt accepts_uint refuses_u32) <|
    .cons (may_opt accepts_binary refuses_binary) <|
    .cons (may_opt accepts_uint refuses_u32) <|
    .cons (may_opt accepts_boolean refuses_bool) <|
    .cons (may_dflt accepts_boolean refuses_bool) <|
    .cons (may_opt accepts_receiverSettleMode refuses_receiverSettleMode) <|
    .cons (may_opt accepts_deliveryState refuses_deliveryState) <|
    .cons (may_dflt accepts_boolean refuses_bool) <|
    .cons (may_dflt accepts_boolean refuses_bool) <|
    .cons (may_dflt accepts_boolean refuses_bool) <|
    .nil) rfl rfl
theorem refuses_transfer : RefusesOn TransferPerf env (Refuse.one (Refuse.transfer env)) :=
  refuses_composite (id <|
    .cons (must_req accepts_uint refuses_u32) <|
    .cons (may_opt accepts_uint refuses_u32) <|
    .cons (may_opt accepts_binary refuses_binary) <|
    .cons (may_opt accepts_uint refuses_u32) <|
    .cons (may_opt accepts_boolean refuses_bool) <|
    .cons (may_dflt accepts_boolean refuses_bool) <|
    .cons (may_opt accepts_receiverSettleMode refuses_receiverSettleMode) <|
    .cons (may_opt accepts_deliveryState refuses_deliveryState) <|
    .cons (may_dflt accepts_boolean refuses_bool) <|
    .cons (may_dflt accepts_boolean refuses_bool) <|
    .cons (may_dflt accepts_boolean refuses_bool) <|
    .nil) rfl rfl

theorem kind_disposition : RefusesKind (decode Disposition) env (Refuse.disposition env) :=
  kind_composite (id <|
    .cons (must_req accepts_role refuses_role) <|
    .cons (must_req accepts_uint refuses_u32) <|
    .cons (may_opt accepts_uint refuses_u32) <|
    .cons (may_dflt accepts_boolean refuses_bool) <|
    .cons (may_opt accepts_deliveryState refuses_deliveryState) <|
    .cons (may_dflt accepts_boolean refuses_bool) <|
    .nil) rfl rfl
theorem refuses_disposition : RefusesOn Disposition env (Refuse.one (Refuse.disposition env)) :=
  refuses_composite (id <|
    .cons (must_req accepts_role refuses_role) <|
    .cons (must_req accepts_uint refuses_u32) <|
    .cons (may_opt accepts_uint refuses_u32) <|
    .cons (may_dflt accepts_boolean refuses_bool) <|
    .cons (may_opt accepts_deliveryState refuses_deliveryState) <|
    .cons (may_dflt accepts_boolean refuses_bool) <|
    .nil) rfl rfl

theorem kind_detach : RefusesKind (decode Detach) env (Refuse.detach env) :=
  kind_composite (id <|
    .cons (must_req accepts_uint refuses_u32) <|
    .cons (may_dflt accepts_boolean refuses_bool) <|
    .cons (may_opt accepts_error refuses_error) <|
    .nil) rfl rfl
theorem refuses_detach : RefusesOn Detach env (Refuse.one (Refuse.detach env)) :=
  refuses_composite (id <|
    .cons (must_req accepts_uint refuses_u32) <|
    .cons (may_dflt accepts_boolean refuses_bool) <|
    .cons (may_opt accepts_error refuses_error) <|
    .nil) rfl rfl

theorem kind_ending : RefusesKind (decode End) env (Refuse.ending env) :=
  kind_composite (id <|
    .cons (may_opt accepts_error refuses_error) <|
    .nil) rfl rfl
theorem refuses_ending : RefusesOn End env (Refuse.one (Refuse.ending env)) :=
  refuses_composite (id <|
    .cons (may_opt accepts_error refuses_error) <|
    .nil) rfl rfl

theorem kind_close : RefusesKind (decode Close) env (Refuse.close env) :=
  kind_composite (id <|
    .cons (may_opt accepts_error refuses_error) <|
    .nil) rfl rfl
theorem refuses_close : RefusesOn Close env (Refuse.one (Refuse.close env)) :=
  refuses_composite (id <|
    .cons (may_opt accepts_error refuses_error) <|
    .nil) rfl rfl

theorem kind_saslMechanisms : RefusesKind (decode SaslMechanisms) env (Refuse.saslMechanisms env) :=
  kind_composite (id <|
    .cons (must_req accepts_symbols refuses_symbols) <|
    .nil) rfl rfl
theorem refuses_saslMechanisms : RefusesOn SaslMechanisms env (Refuse.one (Refuse.saslMechanisms env)) :=
  refuses_composite (id <|
    .cons (must_req accepts_symbols refuses_symbols) <|
    .nil) rfl rfl

theorem kind_saslInit : RefusesKind (decode SaslInit) env (Refuse.saslInit env) :=
  kind_composite (id <|
    .cons (must_req accepts_symbol refuses_symbol) <|
    .cons (may_opt accepts_binary refuses_binary) <|
    .cons (may_opt accepts_string refuses_string) <|
    .nil) rfl rfl
theorem refuses_saslInit : RefusesOn SaslInit env (Refuse.one (Refuse.saslInit env)) :=
  refuses_composite (id <|
    .cons (must_req accepts_symbol refuses_symbol) <|
    .cons (may_opt accepts_binary refuses_binary) <|
    .cons (may_opt accepts_string refuses_string) <|
    .nil) rfl rfl

theorem kind_saslChallenge : RefusesKind (decode SaslChallenge) env (Refuse.saslChallenge env) :=
  kind_composite (id <|
    .cons (must_req accepts_binary refuses_binary) <|
    .nil) rfl rfl
theorem refuses_saslChallenge : RefusesOn SaslChallenge env (Refuse.one (Refuse.saslChallenge env)) :=
  refuses_composite (id <|
    .cons (must_req accepts_binary refuses_binary) <|
    .nil) rfl rfl

theorem kind_saslResponse : RefusesKind (decode SaslResponse) env (Refuse.saslResponse env) :=
  kind_composite (id <|
    .cons (must_req accepts_binary refuses_binary) <|
    .nil) rfl rfl
theorem refuses_saslResponse : RefusesOn SaslResponse env (Refuse.one (Refuse.saslResponse env)) :=
  refuses_composite (id <|
    .cons (must_req accepts_binary refuses_binary) <|
    .nil) rfl rfl

theorem kind_saslOutcome : RefusesKind (decode SaslOutcome) env (Refuse.saslOutcome env) :=
  kind_composite (id <|
    .cons (must_req accepts_saslCode refuses_saslCode) <|
    .cons (may_opt accepts_binary refuses_binary) <|
    .nil) rfl rfl
theorem refuses_saslOutcome : RefusesOn SaslOutcome env (Refuse.one (Refuse.saslOutcome env)) :=
  refuses_composite (id <|
    .cons (must_req accepts_saslCode refuses_saslCode) <|
    .cons (may_opt accepts_binary refuses_binary) <|
    .nil) rfl rfl

theorem kind_header : RefusesKind (decode Header) env (Refuse.headerSection env) :=
  kind_composite (id <|
    .cons (may_dflt accepts_boolean refuses_bool) <|
    .cons (may_dflt accepts_ubyte refuses_u8) <|
    .cons (may_opt accepts_uint refuses_u32) <|
    .cons (may_dflt accepts_boolean refuses_bool) <|
    .cons (may_dflt accepts_uint refuses_u32) <|
    .nil) rfl rfl
theorem refuses_header : RefusesOn Header env (Refuse.one (Refuse.headerSection env)) :=
  refuses_composite (id <|
    .cons (may_dflt accepts_boolean refuses_bool) <|
    .cons (may_dflt accepts_ubyte refuses_u8) <|
    .cons (may_opt accepts_uint refuses_u32) <|
    .cons (may_dflt accepts_boolean refuses_bool) <|
    .cons (may_dflt accepts_uint refuses_u32) <|
    .nil) rfl rfl

theorem kind_properties : RefusesKind (decode Properties) env (Refuse.propertiesSection env) :=
  kind_composite (id <|
    .cons (may_opt accepts_messageId refuses_messageId) <|
    .cons (may_opt accepts_binary refuses_binary) <|
    .cons (may_opt accepts_string refuses_string) <|
    .cons (may_opt accepts_string refuses_string) <|
    .cons (may_opt accepts_string refuses_string) <|
    .cons (may_opt accepts_messageId refuses_messageId) <|
    .cons (may_opt accepts_symbol refuses_symbol) <|
    .cons (may_opt accepts_symbol refuses_symbol) <|
    .cons (may_opt accepts_timestamp refuses_timestamp) <|
    .cons (may_opt accepts_timestamp refuses_timestamp) <|
    .cons (may_opt accepts_string refuses_string) <|
    .cons (may_opt accepts_uint refuses_u32) <|
    .cons (may_opt accepts_string refuses_string) <|
    .nil) rfl rfl
theorem refuses_properties : RefusesOn Properties env (Refuse.one (Refuse.propertiesSection env)) :=
  refuses_composite (id <|
    .cons (may_opt accepts_messageId refuses_messageId) <|
    .cons (may_opt accepts_binary refuses_binary) <|
    .cons (may_opt accepts_string refuses_string) <|
    .cons (may_opt accepts_string refuses_string) <|
    .cons (may_opt accepts_string refuses_string) <|
    .cons (may_opt accepts_messageId refuses_messageId) <|
    .cons (may_opt accepts_symbol refuses_symbol) <|
    .cons (may_opt accepts_symbol refuses_symbol) <|
    .cons (may_opt accepts_timestamp refuses_timestamp) <|
    .cons (may_opt accepts_timestamp refuses_timestamp) <|
    .cons (may_opt accepts_string refuses_string) <|
    .cons (may_opt accepts_uint refuses_u32) <|
    .cons (may_opt accepts_string refuses_string) <|
    .nil) rfl rfl

theorem refuses_saslBody : RefusesOn SaslFrameBody env (Refuse.saslBody env) := by
  obtain ⟨m0, m1, m2, m3, m4⟩ := C24_sasl_frame_body_members
  refine refuses_union C24_sasl_frame_body_others (disp := SaslFrameBody.dispatch) (fun _ => rfl)
    (by simp [Refuse.saslMechanisms, Refuse.saslInit, Refuse.saslChallenge, Refuse.saslResponse, Refuse.saslOutcome, Refuse.composite]) fun k hk => ?_
  simp only [List.mem_cons, List.not_mem_nil, or_false] at hk
  rcases hk with rfl | rfl | rfl | rfl | rfl
  · exact kind_alternative m0 kind_saslMechanisms
  · exact kind_alternative m1 kind_saslInit
  · exact kind_alternative m2 kind_saslChallenge
  · exact kind_alternative m3 kind_saslResponse
  · exact kind_alternative m4 kind_saslOutcome

theorem refuses_messageSection : RefusesOn Section env (Refuse.messageSection env) := by
  obtain ⟨m0, m1, m2, m4, m5, m6, m7, m8, m3⟩ := C24_section_members
  refine refuses_union C24_section_others (disp := Section.dispatch) (fun _ => rfl)
    (by simp [Refuse.headerSection, Refuse.propertiesSection, Refuse.composite]) fun k hk => ?_
  simp only [List.mem_cons, List.not_mem_nil, or_false] at hk
  rcases hk with rfl | rfl | rfl | rfl | rfl | rfl | rfl | rfl | rfl
  · exact kind_alternative m0 kind_header
  · exact kind_alternativeOf m1 refuses_fields
  · exact kind_alternativeOf m2 refuses_fields
  · exact kind_alternative m3 kind_properties
  · exact kind_alternativeOf m4 refuses_stringMap
  · exact kind_alternativeOf m5 refuses_binary
  · exact kind_alternativeOf m6 refuses_vlist
  · exact kind_alternativeOf m7 refuses_variant
  · exact kind_alternativeOf m8 refuses_fields

end Amqp
