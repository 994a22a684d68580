import Verif.Proofs.LenientValues
import Verif.Proofs.StandardRead
/-!
# What is read: choices and lists of fields

Support for C72.
-/
set_option autoImplicit false
namespace Amqp
open Dec
open Standard hiding Fill
variable {env : Env}

/-! ## Simple types -/

theorem accepts_boolean : Accepts Bool env (Scope.lenient env).boolean := accepts_bool
theorem accepts_ubyte : Accepts UInt8 env ubyte := accepts_decides decides_u8
theorem accepts_ushort : Accepts UInt16 env ushort := accepts_decides decides_u16
theorem accepts_uint : Accepts UInt32 env uint := accepts_decides decides_u32
theorem accepts_ulong : Accepts UInt64 env ulong := accepts_decides decides_u64
theorem accepts_uuid : Accepts Uuid env uuid := accepts_decides decides_uuid
theorem accepts_binary : Accepts Binary env binary := accepts_decides decides_binary
theorem accepts_string : Accepts RStr env string := accepts_decides decides_string
theorem accepts_any : Accepts Variant env (Scope.lenient env).any := accepts_variant
theorem accepts_map : Accepts Map env (Scope.lenient env).map := accepts_hmap accepts_variant accepts_variant
theorem accepts_list : Accepts VList env (Scope.lenient env).list := accepts_vlist
theorem accepts_fields : Accepts Fields env (Scope.lenient env).fields :=
  accepts_hmap accepts_symbol accepts_variant
theorem accepts_annotations : Accepts Annotations env (Scope.lenient env).annotations :=
  accepts_hmap accepts_symbol accepts_variant
theorem accepts_stringMap : Accepts StringVariantMap env (Scope.lenient env).stringMap :=
  accepts_hmap accepts_string accepts_variant
theorem accepts_filter : Accepts FilterSet env (Scope.lenient env).filterSet :=
  accepts_hmap accepts_symbol (accepts_option accepts_string)

theorem accepts_vecMap : Accepts VecVariantMap env fun m =>
    Lenient.vecMap env string (Lenient.any env) m.entries := by
  have h1 : Takes (decodePairs (decode Str env) (decode Variant env)) fun e b =>
      ∃ u v, b = u ++ v ∧ string e.1 u ∧ Lenient.any env e.2 v := by
    have h := Takes.bind (accepts_string (env := env)) fun k =>
      Takes.bind (accepts_variant (env := env)) fun v => Takes.pure (k, v)
    refine Takes.congr h fun e b => ⟨?_, ?_⟩
    · rintro ⟨k, u, v, rfl, hk, x, u', v', rfl, hx, rfl, rfl⟩
      exact ⟨u, u', by simp, hk, hx⟩
    · rintro ⟨u, v, rfl, hu, hv⟩
      exact ⟨e.1, u, v, rfl, hu, e.2, v, [], by simp, hv, rfl, rfl⟩
  have h2 := (takes_mapHeader env).bind fun hd =>
    ((h1.decodeN (hd.count / 2)).withSlice hd.size).map VecVariantMap.mk
  have e : decode VecVariantMap env = ((formatCode >>= decodeMapHeader env) >>= fun hd =>
      VecVariantMap.mk <$> withSlice hd.size (decodeN (decodePairs (decode Str env) (decode Variant env))
        (hd.count / 2))) := by
    rw [bind_assoc]; rfl
  rw [accepts_iff, e]
  refine h2.congr fun m b => ⟨?_, ?_⟩
  · rintro ⟨⟨size, count⟩, hdr, v, rfl, hh, l, rfl, hl, u, ignored, rfl, items, hn, hi, rfl, rfl⟩
    simp only at hh hl hn
    -- split each item into key and value
    have key : ∀ items : List ((Str × Variant) × Bytes),
        (∀ p ∈ items, ∃ u v, p.2 = u ++ v ∧ string p.1.1 u ∧ Lenient.any env p.1.2 v) →
        ∃ parts : List ((Str × Bytes) × (Variant × Bytes)),
          (∀ q ∈ parts, string q.1.1 q.1.2 ∧ Lenient.any env q.2.1 q.2.2) ∧
          (parts.map fun q => (q.1.1, q.2.1)) = items.map Prod.fst ∧
          (parts.flatMap fun q => q.1.2 ++ q.2.2) = items.flatMap Prod.snd := by
      intro items
      induction items with
      | nil => exact fun _ => ⟨[], by simp, rfl, rfl⟩
      | cons p t ih =>
        intro hp
        obtain ⟨u, v, e, hu, hv⟩ := hp p (by simp)
        obtain ⟨parts, h1, h2, h3⟩ := ih fun q hq => hp q (by simp [hq])
        refine ⟨((p.1.1, u), (p.1.2, v)) :: parts, ?_, by simp [h2], by simp [h3, e]⟩
        intro q hq
        rcases List.mem_cons.1 hq with rfl | hq
        · exact ⟨hu, hv⟩
        · exact h1 q hq
    obtain ⟨parts, p1, p2, p3⟩ := key items hi
    have hlen : parts.length = items.length := by
      have := congrArg List.length p2; simpa using this
    have := Lenient.vecMap.mk (env := env) (LK := string) (LV := Lenient.any env) parts ignored
      (hdr := hdr) (count := count) (by rw [p3, hl]; exact hh) (by omega) p1
    rw [p2, p3] at this
    exact this
  · obtain ⟨l⟩ := m
    intro hm
    cases hm with
    | @mk items ignored hdr count hh hc hi =>
      refine ⟨⟨_, count⟩, hdr, _, rfl, hh, _, rfl, rfl, _, ignored, rfl,
        items.map fun p => ((p.1.1, p.2.1), p.1.2 ++ p.2.2), by simp [hc], ?_, by simp, by
          simp [List.flatMap_map]⟩
      intro p hp
      obtain ⟨q, hq, rfl⟩ := List.mem_map.1 hp
      exact ⟨_, _, rfl, (hi q hq).1, (hi q hq).2⟩

/-! ## Choices -/

theorem accepts_enum {E β : Type} [Encode E] [DecodeF E] [Encode β] [DecodeF β] [EnumType E β]
    {L : Rep β} {M : Rep E} (h : Accepts β env L) (hm : ∀ e b, L (EnumType.base e) b ↔ M e b) :
    Accepts E env M := by
  intro i r e
  simp only [← hm]
  rw [← h i r (EnumType.base e)]
  cases i with
  | nil => constructor <;> intro h <;> cases h
  | cons c t =>
    show decF env c t = _ ↔ decF env c t = _
    rw [EnumType.decF_eq]
    unfold decodeEnum
    rw [bind_eq_ok]
    constructor
    · rintro ⟨r', x, h1, h2⟩
      cases hx : EnumType.tryFrom (E := E) x with
      | err e => rw [hx] at h2; cases h2
      | panic p => rw [hx] at h2; cases h2
      | ok a =>
        rw [hx] at h2
        obtain ⟨rfl, rfl⟩ := pure_cases h2
        rw [h1, EnumType.base_of _ _ hx]
    · intro h1
      refine ⟨r, _, h1, ?_⟩
      rw [EnumType.tryFrom_base]
      rfl

theorem accepts_role : Accepts Role env (role (.lenient env)) :=
  accepts_enum accepts_boolean fun e _ => by cases e <;> exact Iff.rfl
theorem accepts_senderSettleMode : Accepts SenderSettleMode env senderSettleMode :=
  accepts_enum accepts_ubyte fun e _ => by cases e <;> exact Iff.rfl
theorem accepts_receiverSettleMode : Accepts ReceiverSettleMode env receiverSettleMode :=
  accepts_enum accepts_ubyte fun e _ => by cases e <;> exact Iff.rfl
theorem accepts_terminusDurability : Accepts TerminusDurability env terminusDurability :=
  accepts_enum accepts_uint fun e _ => by cases e <;> exact Iff.rfl
theorem accepts_terminusExpiryPolicy :
    Accepts TerminusExpiryPolicy env (terminusExpiryPolicy (.lenient env)) :=
  accepts_enum accepts_symbol fun e _ => by cases e <;> exact Iff.rfl
theorem accepts_saslCode : Accepts SaslCode env saslCode :=
  accepts_enum accepts_ubyte fun e _ => by cases e <;> exact Iff.rfl

theorem accepts_amqpError : Accepts AmqpError env fun e => word (.lenient env) (amqpError e) :=
  accepts_enum accepts_symbol fun e _ => by cases e <;> exact Iff.rfl
theorem accepts_connectionError :
    Accepts ConnectionError env fun e => word (.lenient env) (connectionError e) :=
  accepts_enum accepts_symbol fun e _ => by cases e <;> exact Iff.rfl
theorem accepts_sessionError : Accepts SessionError env fun e => word (.lenient env) (sessionError e) :=
  accepts_enum accepts_symbol fun e _ => by cases e <;> exact Iff.rfl
theorem accepts_linkError : Accepts LinkError env fun e => word (.lenient env) (linkError e) :=
  accepts_enum accepts_symbol fun e _ => by cases e <;> exact Iff.rfl

theorem not_standard_of_custom {s : Symbol} (h : ErrorCondition.ofSymbol s = .Custom s) :
    ¬ StandardCondition s := by
  rintro (⟨e, rfl⟩ | ⟨e, rfl⟩ | ⟨e, rfl⟩ | ⟨e, rfl⟩)
  · rw [← amqpError_base, show ErrorCondition.ofSymbol (EnumType.base e) = _ from
      ErrorCondition.ofSymbol_amqp e] at h; cases h
  · rw [← connectionError_base, show ErrorCondition.ofSymbol (EnumType.base e) = _ from
      ErrorCondition.ofSymbol_connection e] at h; cases h
  · rw [← sessionError_base, show ErrorCondition.ofSymbol (EnumType.base e) = _ from
      ErrorCondition.ofSymbol_session e] at h; cases h
  · rw [← linkError_base, show ErrorCondition.ofSymbol (EnumType.base e) = _ from
      ErrorCondition.ofSymbol_link e] at h; cases h

theorem accepts_errorCondition : Accepts ErrorCondition env (errorCondition (.lenient env)) := by
  rw [accepts_iff, decode_errorCondition]
  refine (Takes.map ErrorCondition.ofSymbol accepts_symbol).congr fun y b => ⟨?_, ?_⟩
  · rintro ⟨s, rfl, hs⟩
    have h1 := ErrorCondition.symbol_ofSymbol s
    cases hc : ErrorCondition.ofSymbol s with
    | Custom t =>
      rw [hc] at h1
      have h1 : t = s := h1
      subst h1
      exact ⟨not_standard_of_custom hc, hs⟩
    | AmqpError e =>
      rw [hc] at h1
      have := h1.symm.trans (amqpError_base e)
      subst this; exact hs
    | ConnectionError e =>
      rw [hc] at h1
      have := h1.symm.trans (connectionError_base e)
      subst this; exact hs
    | SessionError e =>
      rw [hc] at h1
      have := h1.symm.trans (sessionError_base e)
      subst this; exact hs
    | LinkError e =>
      rw [hc] at h1
      have := h1.symm.trans (linkError_base e)
      subst this; exact hs
  · intro h
    cases y with
    | AmqpError e =>
      refine ⟨_, ?_, h⟩
      rw [← amqpError_base]; exact (ErrorCondition.ofSymbol_amqp e).symm
    | ConnectionError e =>
      refine ⟨_, ?_, h⟩
      rw [← connectionError_base]; exact (ErrorCondition.ofSymbol_connection e).symm
    | SessionError e =>
      refine ⟨_, ?_, h⟩
      rw [← sessionError_base]; exact (ErrorCondition.ofSymbol_session e).symm
    | LinkError e =>
      refine ⟨_, ?_, h⟩
      rw [← linkError_base]; exact (ErrorCondition.ofSymbol_link e).symm
    | Custom s => exact ⟨s, (ofSymbol_custom_std h.1).symm, h.2⟩

theorem accepts_distributionMode : Accepts DistributionMode env (distributionMode (.lenient env)) := by
  have e : decode DistributionMode env = DistributionMode.ofSymbol <$> decode Symbol env := by
    funext i
    cases i with
    | nil => rfl
    | cons f t =>
      show (decF env f >>= fun r => pure (DistributionMode.ofSymbol r) : Dec DistributionMode) t = _
      rw [bind_pure_comp]; rw [run_map, run_map]; rfl
  rw [accepts_iff, e]
  refine (Takes.map DistributionMode.ofSymbol accepts_symbol).congr fun y b => ⟨?_, ?_⟩
  · rintro ⟨⟨s⟩, rfl, hs⟩
    unfold DistributionMode.ofSymbol
    by_cases h1 : s = .lit "move"
    · subst h1; exact hs
    · by_cases h2 : s = .lit "copy"
      · subst h2; exact hs
      · simp only [if_neg h1, if_neg h2]
        exact ⟨fun e => h1 (by cases e; rfl), fun e => h2 (by cases e; rfl), hs⟩
  · intro h
    cases y with
    | Move => exact ⟨_, rfl, h⟩
    | Copy => exact ⟨_, rfl, h⟩
    | Custom s =>
      refine ⟨s, ?_, h.2.2⟩
      have e1 : s.str ≠ .lit "move" := fun e => h.1 (by cases s; cases e; rfl)
      have e2 : s.str ≠ .lit "copy" := fun e => h.2.1 (by cases s; cases e; rfl)
      rw [DistributionMode.ofSymbol, if_neg e1, if_neg e2]

theorem accepts_messageId : Accepts MessageId env messageId := by
  intro i r a
  constructor
  · intro hi
    obtain ⟨c, t, rfl, h1⟩ := decode_ok hi
    rcases ite_cases h1 with ⟨-, h2⟩ | ⟨-, h1⟩
    · obtain ⟨x, h3, rfl⟩ := map_eq_ok.1 h2
      exact (accepts_ulong (env := env) (c :: t) r x).1 h3
    rcases ite_cases h1 with ⟨-, h2⟩ | ⟨-, h1⟩
    · obtain ⟨x, h3, rfl⟩ := map_eq_ok.1 h2
      exact (accepts_uuid (env := env) (c :: t) r x).1 h3
    rcases ite_cases h1 with ⟨-, h2⟩ | ⟨-, h1⟩
    · obtain ⟨x, h3, rfl⟩ := map_eq_ok.1 h2
      exact (accepts_binary (env := env) (c :: t) r x).1 h3
    rcases ite_cases h1 with ⟨-, h2⟩ | ⟨-, h1⟩
    · obtain ⟨x, h3, rfl⟩ := map_eq_ok.1 h2
      exact (accepts_string (env := env) (c :: t) r x).1 h3
    cases h1
  · rintro ⟨b, rfl, hb⟩
    exact read_messageId a b hb r

/-! ## Lists of fields -/

/-- The field is read from exactly the encodings of the slot. -/
structure ExactSlot (env : Env) (f : Field) (s : Slot) (a : f.T) : Prop where
  reads : ∀ b, Reads (f.dec env) b a ↔ s.legal b ∨ (s.absent ∧ b = [0x40])
  absent : s.absent ↔ f.missing = .ok a

inductive ExactAll (env : Env) : (fs : List Field) → List Slot → Tuple fs → Prop
  | nil : ExactAll env [] [] ()
  | cons {f : Field} {fs : List Field} {s : Slot} {ss : List Slot} {a : f.T} {t : Tuple fs} :
      ExactSlot env f s a → ExactAll env fs ss t → ExactAll env (f :: fs) (s :: ss) (a, t)

section
variable {α : Type} [Encode α] [DecodeF α] [LawfulEnc α] [LawfulDec α] [NonNull α]

theorem exact_req {L : Rep α} {a : α} {n : String} (h : Accepts α env L) :
    ExactSlot env (.req α n) (mandatory L a) a where
  reads b := by
    show Reads (decode α env) b a ↔ L a b ∨ (False ∧ _)
    rw [Takes.reads h]; simp
  absent := ⟨nofun, nofun⟩

omit [Encode α] [LawfulEnc α] [LawfulDec α] [NonNull α] in
theorem reads_option [RefusesNull α] {L : Rep α} {o : Option α} (h : Accepts α env L) (b : Bytes) :
    Reads (decode (Option α) env) b o ↔ (∃ a, o = some a ∧ L a b) ∨ (o = none ∧ b = [0x40]) := by
  rw [Takes.reads (accepts_option h)]
  constructor
  · intro h
    cases h with
    | none => exact .inr ⟨rfl, rfl⟩
    | some h _ => exact .inl ⟨_, rfl, h⟩
  · rintro (⟨a, rfl, hl⟩ | ⟨rfl, rfl⟩)
    · refine .some hl fun e => ?_
      cases b with
      | nil => cases e
      | cons c t =>
        simp only [List.head?_cons, Option.some.injEq] at e
        subst e
        exact RefusesNull.null env _ _ _ ((h _ [] a).2 ⟨_, rfl, hl⟩)
    · exact .none

theorem exact_opt [RefusesNull α] {L : Rep α} {o : Option α} (h : Accepts α env L) :
    ExactSlot env (.opt α) (optional L o) o where
  reads b := reads_option h b
  absent := by
    show o = none ↔ Res.ok none = .ok o
    constructor
    · rintro rfl; rfl
    · intro e; injection e with e; exact e.symm

theorem exact_dflt [RefusesNull α] {L : Rep α} {d a : α} (h : Accepts α env L) :
    ExactSlot env (.dflt α d) (Standard.default L d a) a where
  reads b := by
    have h1 := (Takes.map (fun o : Option α => o.getD d) (accepts_option h)).reads (a := a) (b := b)
    refine h1.trans ⟨?_, ?_⟩
    · rintro ⟨o, rfl, ho⟩
      cases ho with
      | none => exact .inr ⟨rfl, rfl⟩
      | some h _ => exact .inl h
    · rintro (hl | ⟨e, rfl⟩)
      · exact ⟨some a, rfl, (Takes.reads (accepts_option h)).1 ((reads_option h b).2 (.inl ⟨a, rfl, hl⟩))⟩
      · exact ⟨none, e, .none⟩
  absent := by
    show a = d ↔ Res.ok d = .ok a
    constructor
    · rintro rfl; rfl
    · intro e; injection e with e; exact e.symm
end

theorem exact_missing {fs : List Field} {ss : List Slot} {t : Tuple fs}
    (h : ExactAll env fs ss t) : (∀ s ∈ ss, s.absent) ↔ AllMissing fs t := by
  induction h with
  | nil => simp [AllMissing]
  | cons hf _ ih =>
    simp only [List.mem_cons, forall_eq_or_imp, AllMissing, ih, hf.absent]

theorem exact_fieldsWire {fs : List Field} {ss : List Slot} {t : Tuple fs}
    (h : ExactAll env fs ss t) : ∀ {n : Nat} {w : Bytes},
    FieldsWire env fs n w t ↔ Lenient.Fill ss n w := by
  induction h with
  | nil => exact fun {n w} => ⟨fun _ => .extra n w, fun _ => .extra n w⟩
  | @cons f fs s ss a t hf hr ih =>
    intro n w
    constructor
    · intro h
      cases h with
      | absent w h => exact .done w ((exact_missing (.cons hf hr)).2 h)
      | given hu h =>
        rcases (hf.reads _).1 hu with hl | ⟨ha, rfl⟩
        · exact .given hl (ih.1 h)
        · exact .null ha (ih.1 h)
    · intro h
      cases h with
      | done w h => exact .absent w ((exact_missing (.cons hf hr)).1 h)
      | null ha h => exact .given ((hf.reads [0x40]).2 (.inr ⟨ha, rfl⟩)) (ih.2 h)
      | given hl h => exact .given ((hf.reads _).2 (.inl hl)) (ih.2 h)

theorem takes_listBody {fs : List Field} {β : Type} (g : Tuple fs → β) (n : Nat) (w : Bytes) :
    Takes (match (g <$> getFields env fs) (n, w) with
      | .ok (_, a) => pure a
      | .err e => Dec.fail e
      | .panic p => Dec.abort p : Dec β) fun y b => b = [] ∧ ∃ t, y = g t ∧ FieldsWire env fs n w t := by
  intro i r y
  rw [FieldDec.run_map]
  constructor
  · intro h
    cases hg : getFields env fs (n, w) with
    | err e => rw [hg] at h; cases h
    | panic p => rw [hg] at h; cases h
    | ok p =>
      obtain ⟨s, t⟩ := p
      rw [hg] at h
      obtain ⟨rfl, rfl⟩ := pure_cases h
      exact ⟨[], rfl, rfl, t, rfl, .of_get hg⟩
  · rintro ⟨b, rfl, rfl, t, rfl, ht⟩
    obtain ⟨s, hs⟩ := ht.get
    rw [hs]
    rfl

theorem takes_listInner {fs : List Field} {β : Type} (g : Tuple fs → β) :
    Takes (listInner env (g <$> getFields env fs)) fun y b => ∃ t, y = g t ∧
      ((b = [0x45] ∧ FieldsWire env fs 0 [] t) ∨ ∃ hdr body count, b = hdr ++ body ∧
        Lenient.Header env 0xc0 0xd0 hdr body.length count ∧ FieldsWire env fs count body t) := by
  have e : listInner env (g <$> getFields env fs) = (formatCode >>= decodeListHeader env) >>= fun h =>
      takeN h.size >>= fun body => (match (g <$> getFields env fs) (h.count, body) with
      | .ok (_, a) => pure a
      | .err e => Dec.fail e
      | .panic p => Dec.abort p : Dec β) := by
    rw [bind_assoc]; rfl
  rw [e]
  refine ((takes_listHeader env).bind fun h => (takes_takeN h.size).bind fun w =>
    takes_listBody g h.count w).congr fun y b => ⟨?_, ?_⟩
  · rintro ⟨⟨size, count⟩, u, v, rfl, hh, w, u', v', rfl, ⟨rfl, hl⟩, rfl, t, rfl, ht⟩
    refine ⟨t, rfl, ?_⟩
    rcases hh with ⟨e, rfl⟩ | hh
    · injection e with e1 e2
      subst e1 e2
      obtain rfl := List.length_eq_zero_iff.1 hl
      exact .inl ⟨rfl, ht⟩
    · simp only at hl hh ht
      subst hl
      exact .inr ⟨u, u', count, by simp, hh, ht⟩
  · rintro ⟨t, rfl, ⟨rfl, ht⟩ | ⟨hdr, body, count, rfl, hh, ht⟩⟩
    · exact ⟨⟨0, 0⟩, [0x45], [], rfl, .inl ⟨rfl, rfl⟩, [], [], [], rfl, ⟨rfl, rfl⟩, rfl, t, rfl, ht⟩
    · exact ⟨⟨body.length, count⟩, hdr, body, rfl, .inr hh, body, body, [], by simp, ⟨rfl, rfl⟩, rfl,
        t, rfl, ht⟩

/-! ## Descriptors of types -/

/-- Names of types are ASCII. -/
def asciiName (n : String) : Bool := (RStr.lit n).bytes.all fun x => decide (x < 0x80)

theorem desc_iff {c : UInt64} {n : String} (hc : c ≠ 0) (hn : asciiName n = true) (b : Bytes) :
    Desc c n b ↔ ∃ d, Lenient.descriptor d b ∧ d.Is c n := by
  constructor
  · intro h
    cases h with
    | code h =>
      refine ⟨_, .ulong h ?_, .inl rfl⟩
      rintro rfl; cases h; exact hc rfl
    | name h =>
      cases h with
      | symbol hs hl _ => exact ⟨_, .symbol (.mk hs hl), .inr rfl⟩
  · rintro ⟨d, hd, rfl | rfl⟩
    · cases hd with
      | ulong h _ => exact .code h
    · cases hd with
      | symbol h =>
        cases h with
        | mk hs hl =>
          refine .name (.symbol hs hl fun x hx => ?_)
          have := List.all_eq_true.1 hn x hx
          exact of_decide_eq_true this

theorem takes_descriptor {c : UInt64} {n : String} (hc : c ≠ 0) (hn : asciiName n = true) {b p : Bytes} :
    (∃ d, decode Descriptor env b = .ok (p, d) ∧ d.Is c n) ↔ ∃ db, b = db ++ p ∧ Desc c n db := by
  constructor
  · rintro ⟨d, hd, hi⟩
    obtain ⟨db, rfl, h⟩ := (accepts_descriptor _ _ _).1 hd
    exact ⟨db, rfl, (desc_iff hc hn db).2 ⟨d, h, hi⟩⟩
  · rintro ⟨db, rfl, h⟩
    obtain ⟨d, h, hi⟩ := (desc_iff hc hn db).1 h
    exact ⟨d, (accepts_descriptor _ _ _).2 ⟨db, rfl, h⟩, hi⟩

/-! ## Composite types -/

theorem decodes_described {c : UInt64} {n : String} (hc : c ≠ 0) (hn : asciiName n = true)
    {β : Type} {d : Dec β} {L : Rep β} (h : Takes d L) (dec : Dec β)
    (e0 : ∀ r a, dec [] ≠ .ok (r, a))
    (e1 : ∀ f t, dec (f :: t) = describedAs env f c n d t) :
    Takes dec fun y => described c n (L y) := by
  intro i r y
  cases i with
  | nil =>
    refine ⟨fun h => absurd h (e0 _ _), ?_⟩
    rintro ⟨b, e, db, u, _, _, rfl⟩
    cases e
  | cons f t =>
    rw [e1, describedAs_eq]
    constructor
    · intro hi
      obtain ⟨hf, hi⟩ := validateCode_ok hi
      obtain ⟨p, x, h1, h2⟩ := bind_eq_ok.1 hi
      rcases ite_cases h2 with ⟨hs, h3⟩ | ⟨hs, h3⟩
      · cases h3
      · have hs : x.selects c n = true := by simpa using hs
        obtain ⟨db, rfl, hdb⟩ := (takes_descriptor (env := env) hc hn).1 ⟨x, h1, Descriptor.selects_iff.1 hs⟩
        obtain ⟨u, rfl, hu⟩ := (h _ _ _).1 h3
        exact ⟨0x00 :: (db ++ u), by rw [hf]; simp [FC.described], db, u, hdb, hu, rfl⟩
    · rintro ⟨_, e, db, u, hdb, hu, rfl⟩
      simp only [List.cons_append, List.append_assoc, List.cons.injEq] at e
      obtain ⟨rfl, rfl⟩ := e
      obtain ⟨x, h1, hs⟩ := (takes_descriptor (env := env) hc hn).2 ⟨db, rfl, hdb⟩
      rw [show (0x00 : UInt8) = FC.described from rfl, validateCode_self, bind_ok h1,
        Descriptor.selects_iff.2 hs]
      exact (h _ _ _).2 ⟨u, rfl, hu⟩

theorem accepts_composite {α : Type} [Encode α] [DecodeF α] [ListType α] {c : UInt64} {nm : String}
    {slots : α → List Slot} (hf : ∀ v, ExactAll env (ListType.fields α) (slots v) (ListType.toT v))
    (hc : ListType.code α = c) (hn : ListType.name α = nm) (ha : asciiName nm = true) :
    Accepts α env fun v => composite (.lenient env) c nm (slots v) := by
  subst hc hn
  have h0 : ListType.code α ≠ 0 := by
    intro h; have := ListType.code_pos (α := α); rw [h] at this; cases this
  have hi : Takes (ListType.inner (α := α) env) fun v => Lenient.fieldList env (slots v) := by
    rw [ListType.inner_eq]
    refine (takes_listInner _).congr fun v b => ⟨?_, ?_⟩
    · rintro ⟨t, rfl, h⟩
      have hx := hf (ListType.ofT t)
      rw [ListType.toT_ofT] at hx
      rcases h with ⟨rfl, h⟩ | ⟨hdr, body, count, rfl, hh, h⟩
      · exact .empty ((exact_fieldsWire hx).1 h)
      · exact .list hh ((exact_fieldsWire hx).1 h)
    · intro h
      refine ⟨ListType.toT v, (ListType.ofT_toT v).symm, ?_⟩
      cases h with
      | empty h => exact .inl ⟨rfl, (exact_fieldsWire (hf v)).2 h⟩
      | list hh h => exact .inr ⟨_, _, _, rfl, hh, (exact_fieldsWire (hf v)).2 h⟩
  refine decodes_described (env := env) h0 ha hi _ (fun r a h => by cases h) fun f t => ?_
  show decF env f t = _
  rw [ListType.decF_eq]

/-! ## Unions -/

/-- What a union accepts is described by one of its descriptors. -/
theorem union_table {U : Type} {dec : Env → Dec U} {table : List (UInt64 × String)}
    (hn : NoOther dec table) {disp : Env → Descriptor → Dec U}
    (h0 : ∀ t, dec env (0x00 :: t) = (decode Descriptor env >>= disp env) t)
    {c : UInt8} {t r : Bytes} {y : U} (h : dec env (c :: t) = .ok (r, y)) :
    c = 0x00 ∧ ∃ e ∈ table, ∃ (u p : Bytes) (d : Descriptor), t = u ++ p ∧ Means env u d ∧ d.Is e.1 e.2 := by
  by_cases hc : c = 0x00
  · refine ⟨hc, ?_⟩
    subst hc
    have h' := h
    rw [h0] at h'
    obtain ⟨p, d, h1, -⟩ := bind_eq_ok.1 h'
    obtain ⟨u, rfl, hu⟩ := loc_decode env _ _ _ h1
    refine Classical.byContradiction fun hx => ?_
    rw [hn.reject env u p d hu fun e he hi => hx ⟨e, he, u, p, d, rfl, hu, hi⟩] at h
    cases h
  · rw [hn.other env c t hc] at h; cases h

theorem alternative_cases {U α : Type} [DecodeF α] {dec : Env → Dec U} {mk : α → U} {c : UInt64}
    {n : String} (ha : Alternative dec (decode α) mk c n) {L : Rep α} (hL : Accepts α env L)
    {u p r : Bytes} {d : Descriptor} {y : U} (h : dec env (0x00 :: (u ++ p)) = .ok (r, y))
    (hd : Means env u d) (hi : d.Is c n) : ∃ v, y = mk v ∧ ∃ b, 0x00 :: (u ++ p) = b ++ r ∧ L v b := by
  rw [ha env u p d hd hi] at h
  cases hm : decode α env (0x00 :: (u ++ p)) with
  | err e => rw [hm] at h; cases h
  | panic e => rw [hm] at h; cases h
  | ok q =>
    obtain ⟨r', v⟩ := q
    rw [hm] at h
    cases h
    exact ⟨v, rfl, (hL _ _ _).1 hm⟩

theorem alternativeOf_cases {U α : Type} [DecodeF α] {dec : Env → Dec U} {mk : α → U} {c : UInt64}
    {n : String} (ha : AlternativeOf dec (decode α) mk c n) {L : Rep α} (hL : Accepts α env L)
    (hc : c ≠ 0) (hn : asciiName n = true)
    {u p r : Bytes} {d : Descriptor} {y : U} (h : dec env (0x00 :: (u ++ p)) = .ok (r, y))
    (hd : Means env u d) (hi : d.Is c n) :
    ∃ v, y = mk v ∧ ∃ b, 0x00 :: (u ++ p) = b ++ r ∧ described c n (L v) b := by
  rw [ha env u p d hd hi] at h
  cases hm : decode α env p with
  | err e => rw [hm] at h; cases h
  | panic e => rw [hm] at h; cases h
  | ok q =>
    obtain ⟨r', v⟩ := q
    rw [hm] at h
    cases h
    obtain ⟨b, rfl, hb⟩ := (hL _ _ _).1 hm
    have h2 : Lenient.descriptor d u := (Takes.reads accepts_descriptor).1 hd
    exact ⟨v, rfl, 0x00 :: (u ++ b), by simp, u, b, (desc_iff hc hn u).2 ⟨d, h2, hi⟩, hb, rfl⟩

theorem Accepts.means {α : Type} [DecodeF α] {L : Rep α} (h : Accepts α env L) {a : α} {b : Bytes}
    (hb : L a b) : Means env b a := (Takes.reads h).2 hb

/-! ## The types -/

theorem accepts_error : Accepts Error env (Standard.error (.lenient env)) :=
  accepts_composite (fun _ => id <|
    .cons (exact_req accepts_errorCondition) <|
    .cons (exact_opt accepts_string) <|
    .cons (exact_opt accepts_fields) <| .nil) rfl rfl (by decide)

theorem accepts_received : Accepts Received env (Standard.received (.lenient env)) :=
  accepts_composite (fun _ => id <|
    .cons (exact_req accepts_uint) <|
    .cons (exact_req accepts_ulong) <| .nil) rfl rfl (by decide)

theorem accepts_accepted : Accepts Accepted env (Standard.accepted (.lenient env)) :=
  accepts_composite (fun _ => id <| .nil) rfl rfl (by decide)

theorem accepts_rejected : Accepts Rejected env (Standard.rejected (.lenient env)) :=
  accepts_composite (fun _ => id <|
    .cons (exact_opt accepts_error) <| .nil) rfl rfl (by decide)

theorem accepts_released : Accepts Released env (Standard.released (.lenient env)) :=
  accepts_composite (fun _ => id <| .nil) rfl rfl (by decide)

theorem accepts_modified : Accepts Modified env (Standard.modified (.lenient env)) :=
  accepts_composite (fun _ => id <|
    .cons (exact_opt accepts_boolean) <|
    .cons (exact_opt accepts_boolean) <|
    .cons (exact_opt accepts_fields) <| .nil) rfl rfl (by decide)

theorem accepts_deliveryState : Accepts DeliveryState env (Standard.deliveryState (.lenient env)) := by
  intro i r y
  constructor
  · intro h
    cases i with
    | nil => cases h
    | cons c t =>
      obtain ⟨rfl, e, he, u, p, d, rfl, hd, hi⟩ := union_table (dec := decode DeliveryState) C24_delivery_state_others (disp := DeliveryState.dispatch) (fun _ => rfl) h
      simp only [List.mem_cons, List.not_mem_nil, or_false] at he
      rcases he with rfl | rfl | rfl | rfl | rfl
      · obtain ⟨v, rfl, h1⟩ := alternative_cases C24_delivery_state_members.1 accepts_received h hd hi; exact h1
      · obtain ⟨v, rfl, h1⟩ := alternative_cases C24_delivery_state_members.2.1 accepts_accepted h hd hi; exact h1
      · obtain ⟨v, rfl, h1⟩ := alternative_cases C24_delivery_state_members.2.2.1 accepts_rejected h hd hi; exact h1
      · obtain ⟨v, rfl, h1⟩ := alternative_cases C24_delivery_state_members.2.2.2.1 accepts_released h hd hi; exact h1
      · obtain ⟨v, rfl, h1⟩ := alternative_cases C24_delivery_state_members.2.2.2.2 accepts_modified h hd hi; exact h1
  · rintro ⟨b, rfl, h⟩
    cases y with
    | Received v => exact means_member C24_delivery_state_members.1 (by decide) h (accepts_received.means h) r
    | Accepted v => exact means_member C24_delivery_state_members.2.1 (by decide) h (accepts_accepted.means h) r
    | Rejected v => exact means_member C24_delivery_state_members.2.2.1 (by decide) h (accepts_rejected.means h) r
    | Released v => exact means_member C24_delivery_state_members.2.2.2.1 (by decide) h (accepts_released.means h) r
    | Modified v => exact means_member C24_delivery_state_members.2.2.2.2 (by decide) h (accepts_modified.means h) r

theorem accepts_outcome : Accepts Outcome env (Standard.outcome (.lenient env)) := by
  intro i r y
  constructor
  · intro h
    cases i with
    | nil => cases h
    | cons c t =>
      obtain ⟨rfl, e, he, u, p, d, rfl, hd, hi⟩ := union_table (dec := decode Outcome) C24_outcome_others (disp := Outcome.dispatch) (fun _ => rfl) h
      simp only [List.mem_cons, List.not_mem_nil, or_false] at he
      rcases he with rfl | rfl | rfl | rfl
      · obtain ⟨v, rfl, h1⟩ := alternative_cases C24_outcome_members.1 accepts_accepted h hd hi; exact h1
      · obtain ⟨v, rfl, h1⟩ := alternative_cases C24_outcome_members.2.1 accepts_rejected h hd hi; exact h1
      · obtain ⟨v, rfl, h1⟩ := alternative_cases C24_outcome_members.2.2.1 accepts_released h hd hi; exact h1
      · obtain ⟨v, rfl, h1⟩ := alternative_cases C24_outcome_members.2.2.2 accepts_modified h hd hi; exact h1
  · rintro ⟨b, rfl, h⟩
    cases y with
    | Accepted v => exact means_member C24_outcome_members.1 (by decide) h (accepts_accepted.means h) r
    | Rejected v => exact means_member C24_outcome_members.2.1 (by decide) h (accepts_rejected.means h) r
    | Released v => exact means_member C24_outcome_members.2.2.1 (by decide) h (accepts_released.means h) r
    | Modified v => exact means_member C24_outcome_members.2.2.2 (by decide) h (accepts_modified.means h) r

theorem accepts_source : Accepts Source env (Standard.source (.lenient env)) :=
  accepts_composite (fun _ => id <|
    .cons (exact_opt accepts_string) <|
    .cons (exact_dflt accepts_terminusDurability) <|
    .cons (exact_dflt accepts_terminusExpiryPolicy) <|
    .cons (exact_dflt accepts_uint) <|
    .cons (exact_dflt accepts_boolean) <|
    .cons (exact_opt accepts_fields) <|
    .cons (exact_opt accepts_distributionMode) <|
    .cons (exact_opt accepts_filter) <|
    .cons (exact_opt accepts_outcome) <|
    .cons (exact_opt accepts_symbols) <|
    .cons (exact_opt accepts_symbols) <| .nil) rfl rfl (by decide)

theorem accepts_target : Accepts Target env (Standard.target (.lenient env)) :=
  accepts_composite (fun _ => id <|
    .cons (exact_opt accepts_string) <|
    .cons (exact_dflt accepts_terminusDurability) <|
    .cons (exact_dflt accepts_terminusExpiryPolicy) <|
    .cons (exact_dflt accepts_uint) <|
    .cons (exact_dflt accepts_boolean) <|
    .cons (exact_opt accepts_fields) <|
    .cons (exact_opt accepts_symbols) <| .nil) rfl rfl (by decide)

theorem accepts_opening : Accepts Open env (Standard.opening (.lenient env)) :=
  accepts_composite (fun _ => id <|
    .cons (exact_req accepts_string) <|
    .cons (exact_opt accepts_string) <|
    .cons (exact_dflt accepts_uint) <|
    .cons (exact_dflt accepts_ushort) <|
    .cons (exact_opt accepts_uint) <|
    .cons (exact_opt accepts_symbols) <|
    .cons (exact_opt accepts_symbols) <|
    .cons (exact_opt accepts_symbols) <|
    .cons (exact_opt accepts_symbols) <|
    .cons (exact_opt accepts_fields) <| .nil) rfl rfl (by decide)

theorem accepts_beginning : Accepts Begin env (Standard.beginning (.lenient env)) :=
  accepts_composite (fun _ => id <|
    .cons (exact_opt accepts_ushort) <|
    .cons (exact_req accepts_uint) <|
    .cons (exact_req accepts_uint) <|
    .cons (exact_req accepts_uint) <|
    .cons (exact_dflt accepts_uint) <|
    .cons (exact_opt accepts_symbols) <|
    .cons (exact_opt accepts_symbols) <|
    .cons (exact_opt accepts_fields) <| .nil) rfl rfl (by decide)

theorem accepts_attach : Accepts Attach env (Standard.attach (.lenient env)) :=
  accepts_composite (fun _ => id <|
    .cons (exact_req accepts_string) <|
    .cons (exact_req accepts_uint) <|
    .cons (exact_req accepts_role) <|
    .cons (exact_dflt accepts_senderSettleMode) <|
    .cons (exact_dflt accepts_receiverSettleMode) <|
    .cons (exact_opt accepts_source) <|
    .cons (exact_opt accepts_target) <|
    .cons (exact_opt accepts_map) <|
    .cons (exact_dflt accepts_boolean) <|
    .cons (exact_opt accepts_uint) <|
    .cons (exact_opt accepts_ulong) <|
    .cons (exact_opt accepts_symbols) <|
    .cons (exact_opt accepts_symbols) <|
    .cons (exact_opt accepts_fields) <| .nil) rfl rfl (by decide)

theorem accepts_flow : Accepts Flow env (Standard.flow (.lenient env)) :=
  accepts_composite (fun _ => id <|
    .cons (exact_opt accepts_uint) <|
    .cons (exact_req accepts_uint) <|
    .cons (exact_req accepts_uint) <|
    .cons (exact_req accepts_uint) <|
    .cons (exact_opt accepts_uint) <|
    .cons (exact_opt accepts_uint) <|
    .cons (exact_opt accepts_uint) <|
    .cons (exact_opt accepts_uint) <|
    .cons (exact_dflt accepts_boolean) <|
    .cons (exact_dflt accepts_boolean) <|
    .cons (exact_opt accepts_fields) <| .nil) rfl rfl (by decide)

theorem accepts_transfer : Accepts TransferPerf env (Standard.transfer (.lenient env)) :=
  accepts_composite (fun _ => id <|
    .cons (exact_req accepts_uint) <|
    .cons (exact_opt accepts_uint) <|
    .cons (exact_opt accepts_binary) <|
    .cons (exact_opt accepts_uint) <|
    .cons (exact_opt accepts_boolean) <|
    .cons (exact_dflt accepts_boolean) <|
    .cons (exact_opt accepts_receiverSettleMode) <|
    .cons (exact_opt accepts_deliveryState) <|
    .cons (exact_dflt accepts_boolean) <|
    .cons (exact_dflt accepts_boolean) <|
    .cons (exact_dflt accepts_boolean) <| .nil) rfl rfl (by decide)

theorem accepts_disposition : Accepts Disposition env (Standard.disposition (.lenient env)) :=
  accepts_composite (fun _ => id <|
    .cons (exact_req accepts_role) <|
    .cons (exact_req accepts_uint) <|
    .cons (exact_opt accepts_uint) <|
    .cons (exact_dflt accepts_boolean) <|
    .cons (exact_opt accepts_deliveryState) <|
    .cons (exact_dflt accepts_boolean) <| .nil) rfl rfl (by decide)

theorem accepts_detach : Accepts Detach env (Standard.detach (.lenient env)) :=
  accepts_composite (fun _ => id <|
    .cons (exact_req accepts_uint) <|
    .cons (exact_dflt accepts_boolean) <|
    .cons (exact_opt accepts_error) <| .nil) rfl rfl (by decide)

theorem accepts_ending : Accepts End env (Standard.ending (.lenient env)) :=
  accepts_composite (fun _ => id <|
    .cons (exact_opt accepts_error) <| .nil) rfl rfl (by decide)

theorem accepts_close : Accepts Close env (Standard.close (.lenient env)) :=
  accepts_composite (fun _ => id <|
    .cons (exact_opt accepts_error) <| .nil) rfl rfl (by decide)

theorem accepts_saslMechanisms : Accepts SaslMechanisms env (Standard.saslMechanisms (.lenient env)) :=
  accepts_composite (fun _ => id <|
    .cons (exact_req accepts_symbols) <| .nil) rfl rfl (by decide)

theorem accepts_saslInit : Accepts SaslInit env (Standard.saslInit (.lenient env)) :=
  accepts_composite (fun _ => id <|
    .cons (exact_req accepts_symbol) <|
    .cons (exact_opt accepts_binary) <|
    .cons (exact_opt accepts_string) <| .nil) rfl rfl (by decide)

theorem accepts_saslChallenge : Accepts SaslChallenge env (Standard.saslChallenge (.lenient env)) :=
  accepts_composite (fun _ => id <|
    .cons (exact_req accepts_binary) <| .nil) rfl rfl (by decide)

theorem accepts_saslResponse : Accepts SaslResponse env (Standard.saslResponse (.lenient env)) :=
  accepts_composite (fun _ => id <|
    .cons (exact_req accepts_binary) <| .nil) rfl rfl (by decide)

theorem accepts_saslOutcome : Accepts SaslOutcome env (Standard.saslOutcome (.lenient env)) :=
  accepts_composite (fun _ => id <|
    .cons (exact_req accepts_saslCode) <|
    .cons (exact_opt accepts_binary) <| .nil) rfl rfl (by decide)

theorem accepts_header : Accepts Header env (Standard.header (.lenient env)) :=
  accepts_composite (fun _ => id <|
    .cons (exact_dflt accepts_boolean) <|
    .cons (exact_dflt accepts_ubyte) <|
    .cons (exact_opt accepts_uint) <|
    .cons (exact_dflt accepts_boolean) <|
    .cons (exact_dflt accepts_uint) <| .nil) rfl rfl (by decide)

theorem accepts_properties : Accepts Properties env (Standard.properties (.lenient env)) :=
  accepts_composite (fun _ => id <|
    .cons (exact_opt accepts_messageId) <|
    .cons (exact_opt accepts_binary) <|
    .cons (exact_opt accepts_string) <|
    .cons (exact_opt accepts_string) <|
    .cons (exact_opt accepts_string) <|
    .cons (exact_opt accepts_messageId) <|
    .cons (exact_opt accepts_symbol) <|
    .cons (exact_opt accepts_symbol) <|
    .cons (exact_opt accepts_timestamp) <|
    .cons (exact_opt accepts_timestamp) <|
    .cons (exact_opt accepts_string) <|
    .cons (exact_opt accepts_uint) <|
    .cons (exact_opt accepts_string) <| .nil) rfl rfl (by decide)

theorem accepts_saslBody : Accepts SaslFrameBody env (Standard.saslBody (.lenient env)) := by
  intro i r y
  constructor
  · intro h
    cases i with
    | nil => cases h
    | cons c t =>
      obtain ⟨rfl, e, he, u, p, d, rfl, hd, hi⟩ := union_table (dec := decode SaslFrameBody) C24_sasl_frame_body_others (disp := SaslFrameBody.dispatch) (fun _ => rfl) h
      simp only [List.mem_cons, List.not_mem_nil, or_false] at he
      rcases he with rfl | rfl | rfl | rfl | rfl
      · obtain ⟨v, rfl, h1⟩ := alternative_cases C24_sasl_frame_body_members.1 accepts_saslMechanisms h hd hi; exact h1
      · obtain ⟨v, rfl, h1⟩ := alternative_cases C24_sasl_frame_body_members.2.1 accepts_saslInit h hd hi; exact h1
      · obtain ⟨v, rfl, h1⟩ := alternative_cases C24_sasl_frame_body_members.2.2.1 accepts_saslChallenge h hd hi; exact h1
      · obtain ⟨v, rfl, h1⟩ := alternative_cases C24_sasl_frame_body_members.2.2.2.1 accepts_saslResponse h hd hi; exact h1
      · obtain ⟨v, rfl, h1⟩ := alternative_cases C24_sasl_frame_body_members.2.2.2.2 accepts_saslOutcome h hd hi; exact h1
  · rintro ⟨b, rfl, h⟩
    cases y with
    | SaslMechanisms v => exact means_member C24_sasl_frame_body_members.1 (by decide) h (accepts_saslMechanisms.means h) r
    | SaslInit v => exact means_member C24_sasl_frame_body_members.2.1 (by decide) h (accepts_saslInit.means h) r
    | SaslChallenge v => exact means_member C24_sasl_frame_body_members.2.2.1 (by decide) h (accepts_saslChallenge.means h) r
    | SaslResponse v => exact means_member C24_sasl_frame_body_members.2.2.2.1 (by decide) h (accepts_saslResponse.means h) r
    | SaslOutcome v => exact means_member C24_sasl_frame_body_members.2.2.2.2 (by decide) h (accepts_saslOutcome.means h) r

theorem accepts_messageSection : Accepts Section env (Lenient.messageSection (.lenient env)) := by
  intro i r y
  constructor
  · intro h
    cases i with
    | nil => cases h
    | cons c t =>
      obtain ⟨rfl, e, he, u, p, d, rfl, hd, hi⟩ := union_table (dec := decode Section) C24_section_others (disp := Section.dispatch) (fun _ => rfl) h
      simp only [List.mem_cons, List.not_mem_nil, or_false] at he
      rcases he with rfl | rfl | rfl | rfl | rfl | rfl | rfl | rfl | rfl
      · obtain ⟨v, rfl, h1⟩ := alternative_cases C24_section_members.1 accepts_header h hd hi; exact h1
      · obtain ⟨v, rfl, h1⟩ := alternativeOf_cases C24_section_members.2.1 accepts_annotations (by decide) (by decide) h hd hi; exact h1
      · obtain ⟨v, rfl, h1⟩ := alternativeOf_cases C24_section_members.2.2.1 accepts_annotations (by decide) (by decide) h hd hi; exact h1
      · obtain ⟨v, rfl, h1⟩ := alternativeOf_cases C24_section_members.2.2.2.1 accepts_stringMap (by decide) (by decide) h hd hi; exact h1
      · obtain ⟨v, rfl, h1⟩ := alternativeOf_cases C24_section_members.2.2.2.2.1 accepts_binary (by decide) (by decide) h hd hi; exact h1
      · obtain ⟨v, rfl, h1⟩ := alternativeOf_cases C24_section_members.2.2.2.2.2.1 accepts_list (by decide) (by decide) h hd hi; exact h1
      · obtain ⟨v, rfl, h1⟩ := alternativeOf_cases C24_section_members.2.2.2.2.2.2.1 accepts_any (by decide) (by decide) h hd hi; exact h1
      · obtain ⟨v, rfl, h1⟩ := alternativeOf_cases C24_section_members.2.2.2.2.2.2.2.1 accepts_annotations (by decide) (by decide) h hd hi; exact h1
      · obtain ⟨v, rfl, h1⟩ := alternative_cases C24_section_members.2.2.2.2.2.2.2.2 accepts_properties h hd hi; exact h1
  · rintro ⟨b, rfl, h⟩
    cases y with
    | Header v => exact means_member C24_section_members.1 (by decide) h (accepts_header.means h) r
    | DeliveryAnnotations v => exact means_memberOf C24_section_members.2.1 (by decide) h (fun u hu => accepts_annotations.means hu) r
    | MessageAnnotations v => exact means_memberOf C24_section_members.2.2.1 (by decide) h (fun u hu => accepts_annotations.means hu) r
    | ApplicationProperties v => exact means_memberOf C24_section_members.2.2.2.1 (by decide) h (fun u hu => accepts_stringMap.means hu) r
    | Data v => exact means_memberOf C24_section_members.2.2.2.2.1 (by decide) h (fun u hu => accepts_binary.means hu) r
    | AmqpSequence v => exact means_memberOf C24_section_members.2.2.2.2.2.1 (by decide) h (fun u hu => accepts_list.means hu) r
    | AmqpValue v => exact means_memberOf C24_section_members.2.2.2.2.2.2.1 (by decide) h (fun u hu => accepts_any.means hu) r
    | Footer v => exact means_memberOf C24_section_members.2.2.2.2.2.2.2.1 (by decide) h (fun u hu => accepts_annotations.means hu) r
    | Properties v => exact means_member C24_section_members.2.2.2.2.2.2.2.2 (by decide) h (accepts_properties.means h) r

end Amqp
