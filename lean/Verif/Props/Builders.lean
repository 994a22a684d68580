import Verif.Spec.Builders
import Verif.Props.Messages
/-!
# Builders and accessors of messages

C51: after any history of calls, the accessors return what was last set.
-/
set_option autoImplicit false
namespace Amqp

variable {AP : Type} [Encode AP]

/-- A field that a call changes only if it passes a new value for it. -/
theorem runOps_field {α : Type} (setApp : Message AP → Str → Variant → Message AP)
    (get : Message AP → α) (new : Op → Option α)
    (h : ∀ m op, get (op.apply setApp m) = (new op).getD (get m)) (ops : List Op) :
    ∀ m, get (runOps setApp m ops) = lastOr (passed new ops) (get m) := by
  induction ops with
  | nil => intro m; rfl
  | cons op t ih =>
    intro m
    show get (runOps setApp (op.apply setApp m) t) = _
    rw [ih, h]
    unfold passed lastOr
    cases hn : new op with
    | none => rw [List.filterMap_cons_none hn]; rfl
    | some x =>
      rw [List.filterMap_cons_some hn, List.getLast?_cons]
      rfl

/-- Setting an application property changes nothing but the application properties
and the size cache. -/
def OnlyApp (setApp : Message AP → Str → Variant → Message AP) : Prop :=
  ∀ m k v, { setApp m k v with
    application_properties := m.application_properties, cache := m.cache } = m

theorem C51_only_app_in : OnlyApp Message.setAppPropertyIn := fun _ _ _ => rfl
theorem C51_only_app_out : OnlyApp Message.setAppPropertyOut := fun _ _ _ => rfl

theorem OnlyApp.get {α : Type} {setApp : Message AP → Str → Variant → Message AP}
    (h : OnlyApp setApp) (get : Message AP → α)
    (hg : ∀ m a c, get { m with application_properties := a, cache := c } = get m)
    (m : Message AP) (k : Str) (v : Variant) : get (setApp m k v) = get m := by
  have := congrArg get (h m k v)
  exact (hg (setApp m k v) m.application_properties m.cache).symm.trans this

theorem touch_get {α : Type} (get : Message AP → α)
    (hg : ∀ m ms c, get { m with messages := ms, cache := c } = get m) (m : Message AP) :
    get m.touch = get m := by
  unfold Message.touch
  split
  · rfl
  · exact hg m _ _

/-- **C51.** The message format and the header are those last set. -/
theorem C51_header (setApp : Message AP → Str → Variant → Message AP) (ha : OnlyApp setApp)
    (m : Message AP) (ops : List Op) :
    (runOps setApp m ops).message_format = lastOr (passed Op.format? ops) m.message_format ∧
    (runOps setApp m ops).header =
      lastOr ((passed Op.header? ops).map some) m.header := by
  constructor
  · refine runOps_field setApp (fun m => m.message_format) Op.format? (fun m op => ?_) ops m
    cases op with
    | setAppProperty k v => exact ha.get (fun m => m.message_format) (fun _ _ _ => rfl) m k v
    | size => exact touch_get (fun m => m.message_format) (fun _ _ _ => rfl) m
    | _ => rfl
  · have e : (passed Op.header? ops).map some = passed (fun o => o.header?.map some) ops := by
      unfold passed; rw [List.map_filterMap]
    rw [e]
    refine runOps_field setApp (fun m => m.header) (fun o => o.header?.map some) (fun m op => ?_) ops m
    cases op with
    | setAppProperty k v => exact ha.get (fun m => m.header) (fun _ _ _ => rfl) m k v
    | size => exact touch_get (fun m => m.header) (fun _ _ _ => rfl) m
    | _ => rfl

/-- **C51.** Annotations and footer are never changed. -/
theorem C51_annotations (setApp : Message AP → Str → Variant → Message AP) (ha : OnlyApp setApp)
    (m : Message AP) (ops : List Op) :
    (runOps setApp m ops).delivery_annotations = m.delivery_annotations ∧
    (runOps setApp m ops).message_annotations = m.message_annotations ∧
    (runOps setApp m ops).footer = m.footer := by
  have key : ∀ {α : Type} (get : Message AP → α),
      (∀ (m : Message AP) (op : Op), get (op.apply setApp m) = get m) → get (runOps setApp m ops) = get m := by
    intro α get h
    have := runOps_field setApp get (fun _ => none) (fun m op => h m op) ops m
    have e : passed (fun _ => (none : Option α)) ops = [] := by
      unfold passed; induction ops <;> simp_all
    rw [e] at this
    exact this
  refine ⟨key (fun m => m.delivery_annotations) fun m op => ?_,
    key (fun m => m.message_annotations) fun m op => ?_, key (fun m => m.footer) fun m op => ?_⟩
  · cases op with
    | setAppProperty k v => exact ha.get (fun m => m.delivery_annotations) (fun _ _ _ => rfl) m k v
    | size => exact touch_get (fun m => m.delivery_annotations) (fun _ _ _ => rfl) m
    | _ => rfl
  · cases op with
    | setAppProperty k v => exact ha.get (fun m => m.message_annotations) (fun _ _ _ => rfl) m k v
    | size => exact touch_get (fun m => m.message_annotations) (fun _ _ _ => rfl) m
    | _ => rfl
  · cases op with
    | setAppProperty k v => exact ha.get (fun m => m.footer) (fun _ _ _ => rfl) m k v
    | size => exact touch_get (fun m => m.footer) (fun _ _ _ => rfl) m
    | _ => rfl

theorem propertiesAfter_cons (p : Option Properties) (f : Properties → Properties)
    (fs : List (Properties → Properties)) :
    propertiesAfter (some (f (p.getD Message.defaultProperties))) fs = propertiesAfter p (f :: fs) := by
  cases fs <;> rfl

/-- **C51.** The properties are the result of the closures passed to
`set_properties`, run in order. -/
theorem C51_properties (setApp : Message AP → Str → Variant → Message AP) (ha : OnlyApp setApp)
    (ops : List Op) : ∀ m : Message AP,
    (runOps setApp m ops).properties = propertiesAfter m.properties (passed Op.props? ops) := by
  induction ops with
  | nil => intro m; rfl
  | cons op t ih =>
    intro m
    show (runOps setApp (op.apply setApp m) t).properties = _
    rw [ih]
    cases op with
    | setProperties f => exact propertiesAfter_cons m.properties f _
    | setAppProperty k v =>
      have := ha.get (fun m => m.properties) (fun _ _ _ => rfl) m k v
      show propertiesAfter (setApp m k v).properties _ = _
      rw [this]; rfl
    | size =>
      have := touch_get (fun m : Message AP => m.properties) (fun _ _ _ => rfl) m
      show propertiesAfter m.touch.properties _ = _
      rw [this]; rfl
    | _ => rfl

/-- **C51.** The body, if no closure edits it: data and sequences stay, the value is
the one last set, and nested messages change at most in their size caches. -/
theorem C51_value (setApp : Message AP → Str → Variant → Message AP) (ha : OnlyApp setApp)
    (m : Message AP) (ops : List Op) (hb : ∀ op ∈ ops, op.isSetBody = false) :
    (runOps setApp m ops).body.data = m.body.data ∧
    (runOps setApp m ops).body.sequence = m.body.sequence ∧
    (runOps setApp m ops).body.value = lastOr ((passed Op.value? ops).map some) m.body.value ∧
    clearAll (runOps setApp m ops).body.messages = clearAll m.body.messages := by
  induction ops generalizing m with
  | nil => exact ⟨rfl, rfl, rfl, rfl⟩
  | cons op t ih =>
    obtain ⟨h1, h2, h3, h4⟩ := ih (op.apply setApp m) fun o ho => hb o (List.mem_cons_of_mem _ ho)
    have hop := hb op (by simp)
    show (runOps setApp (op.apply setApp m) t).body.data = _ ∧
      (runOps setApp (op.apply setApp m) t).body.sequence = _ ∧
      (runOps setApp (op.apply setApp m) t).body.value = _ ∧
      clearAll (runOps setApp (op.apply setApp m) t).body.messages = _
    rw [h1, h2, h3, h4]
    have stay : ∀ m' : Message AP, m'.data = m.data → m'.sequence = m.sequence →
        m'.value = m.value → clearAll m'.messages = clearAll m.messages → op.value? = none →
        m'.body.data = m.body.data ∧ m'.body.sequence = m.body.sequence ∧
        lastOr ((passed Op.value? t).map some) m'.body.value =
          lastOr ((passed Op.value? (op :: t)).map some) m.body.value ∧
        clearAll m'.body.messages = clearAll m.body.messages := by
      intro m' g1 g2 g3 g4 g5
      refine ⟨g1, g2, ?_, g4⟩
      unfold passed
      rw [List.filterMap_cons_none g5]
      show lastOr _ m'.value = lastOr _ m.value
      rw [g3]
    cases op with
    | setBody f => cases hop
    | setValue v =>
      refine ⟨rfl, rfl, ?_, rfl⟩
      show lastOr _ (some v) = lastOr (List.map some (v :: passed Op.value? t)) _
      unfold lastOr
      rw [List.map_cons, List.getLast?_cons]
      rfl
    | setAppProperty k v =>
      exact stay (setApp m k v) (ha.get (fun m => m.data) (fun _ _ _ => rfl) m k v)
        (ha.get (fun m => m.sequence) (fun _ _ _ => rfl) m k v)
        (ha.get (fun m => m.value) (fun _ _ _ => rfl) m k v)
        (ha.get (fun m => clearAll m.messages) (fun _ _ _ => rfl) m k v) rfl
    | size =>
      refine stay m.touch (touch_get (fun m => m.data) (fun _ _ _ => rfl) m)
        (touch_get (fun m => m.sequence) (fun _ _ _ => rfl) m)
        (touch_get (fun m => m.value) (fun _ _ _ => rfl) m) ?_ rfl
      unfold Message.touch
      split
      · rfl
      · exact touchAll_clear m.messages
    | encode => exact stay m.afterEncode rfl rfl rfl (settleAll_clear m.messages) rfl
    | sizeNested i p =>
      exact stay _ rfl rfl rfl (clearAll_modify _ (clear_modifyAt _ touch_clear p) i m.messages) rfl
    | encodeNested i p =>
      exact stay _ rfl rfl rfl (clearAll_modify _ (clear_modifyAt _ afterEncode_clear p) i m.messages) rfl
    | _ => exact stay _ rfl rfl rfl rfl rfl

/-- **C51.** A closure that edits the body edits nothing else. -/
theorem C51_set_body (m : Message AP) (f : MessageBody → MessageBody) :
    (m.setBody f).body = f m.body ∧
    (m.setBody f).message_format = m.message_format ∧ (m.setBody f).header = m.header ∧
    (m.setBody f).delivery_annotations = m.delivery_annotations ∧
    (m.setBody f).message_annotations = m.message_annotations ∧
    (m.setBody f).properties = m.properties ∧
    (m.setBody f).application_properties = m.application_properties ∧
    (m.setBody f).footer = m.footer := ⟨rfl, rfl, rfl, rfl, rfl, rfl, rfl, rfl⟩

/-- **C51.** `body().data()` after `set_data` is the data set. -/
theorem C51_set_data (m : Message AP) (d : Binary) :
    (m.setBody fun b => b.setData d).body.first = some d ∧
    (m.setBody fun b => b.setData d).body.data = [d] := ⟨rfl, rfl⟩

/-- **C51.** `update` and `if_some` run the closure on the same content. -/
theorem C51_update {T : Type} (m : Message AP) (f : Message AP → Message AP) (t : T)
    (g : Message AP → T → Message AP) :
    m.update f = f { m with cache := 0 } ∧ m.ifSome (some t) g = g { m with cache := 0 } t ∧
    m.ifSome (none : Option T) g = m := ⟨rfl, rfl, rfl⟩

/-! ### Application properties -/

theorem findEntry_insertEntry {V : Type} (k j : Str) (v : V) (l : List (Str × V)) :
    findEntry (HKey.keq j) (insertEntry HKey.keq k v l) =
      if j = k then some v else findEntry (HKey.keq j) l := by
  have hk : ∀ a b : Str, (HKey.keq a b = true) = (a = b) := fun a b => propext beq_iff_eq
  induction l with
  | nil => simp only [insertEntry, findEntry, hk]
  | cons e t ih =>
    obtain ⟨a, w⟩ := e
    unfold insertEntry
    simp only [hk]
    by_cases ha : k = a
    · subst ha
      simp only [if_true, findEntry, hk]
      by_cases h : j = k <;> simp [h]
    · simp only [ha, if_false, findEntry, hk, ih]
      by_cases h : j = a
      · subst h
        have : ¬ j = k := fun h' => ha h'.symm
        simp [this]
      · simp [h]

theorem appProperty_set (m : InMessage) (k j : Str) (v : Variant) :
    (m.setAppPropertyIn k v).appProperty j = if j = k then some v else m.appProperty j := by
  show findEntry (HKey.keq j) (insertEntry HKey.keq k v _) = _
  rw [findEntry_insertEntry]
  unfold Message.appProperty
  cases m.application_properties <;> rfl

/-- **C51.** `app_property(k)` of an `InMessage` is the value last set for `k`. -/
theorem C51_app_property (k : Str) (ops : List Op) : ∀ m : InMessage,
    (runOps Message.setAppPropertyIn m ops).appProperty k =
      (lastValueOf k (passed Op.app? ops)).or (m.appProperty k) := by
  induction ops with
  | nil => intro m; rfl
  | cons op t ih =>
    intro m
    show (runOps Message.setAppPropertyIn (op.apply _ m) t).appProperty k = _
    rw [ih]
    have stay : ∀ m' : InMessage, m'.application_properties = m.application_properties →
        op.app? = none →
        (lastValueOf k (passed Op.app? t)).or (m'.appProperty k) =
          (lastValueOf k (passed Op.app? (op :: t))).or (m.appProperty k) := by
      intro m' g1 g2
      unfold passed Message.appProperty
      rw [List.filterMap_cons_none g2, g1]
    cases op with
    | setAppProperty j v =>
      show (lastValueOf k (passed Op.app? t)).or ((m.setAppPropertyIn j v).appProperty k) =
        (lastValueOf k ((j, v) :: passed Op.app? t)).or (m.appProperty k)
      rw [appProperty_set]
      unfold lastValueOf
      rw [List.reverse_cons, List.find?_append]
      cases (passed Op.app? t).reverse.find? (fun e => HKey.keq k e.1) with
      | some e => rfl
      | none =>
        by_cases h : k = j
        · subst h
          have : HKey.keq k k = true := (beq_iff_eq (a := k)).2 rfl
          simp [this]
        · have : HKey.keq k j = false := by
            cases h' : HKey.keq k j with
            | false => rfl
            | true => exact absurd ((beq_iff_eq (a := k)).1 h') h
          simp [this, h]
    | size => exact stay _ (touch_get (fun m => m.application_properties) (fun _ _ _ => rfl) m) rfl
    | _ => exact stay _ rfl rfl

/-- **C51.** `app_properties()` of an `OutMessage` are all properties set, in order. -/
theorem C51_app_properties (ops : List Op) : ∀ m : OutMessage,
    (((runOps Message.setAppPropertyOut m ops).application_properties).elim [] VecVariantMap.entries)
      = m.application_properties.elim [] VecVariantMap.entries ++ passed Op.app? ops := by
  induction ops with
  | nil => intro m; simp [runOps, passed]
  | cons op t ih =>
    intro m
    show ((runOps Message.setAppPropertyOut (op.apply _ m) t).application_properties).elim _ _ = _
    rw [ih]
    have stay : ∀ m' : OutMessage, m'.application_properties = m.application_properties →
        op.app? = none →
        m'.application_properties.elim [] VecVariantMap.entries ++ passed Op.app? t =
          m.application_properties.elim [] VecVariantMap.entries ++ passed Op.app? (op :: t) := by
      intro m' g1 g2
      unfold passed
      rw [List.filterMap_cons_none g2, g1]
    cases op with
    | setAppProperty j v =>
      show (_ ++ [(j, v)]) ++ _ = _ ++ ((j, v) :: _)
      rw [List.append_assoc]; rfl
    | size => exact stay _ (touch_get (fun m => m.application_properties) (fun _ _ _ => rfl) m) rfl
    | _ => exact stay _ rfl rfl

theorem valueOf_eq_findEntry {V : Type} (k : Str) (l : List (Str × V)) :
    valueOf k l = findEntry (HKey.keq k) l := by
  induction l with
  | nil => rfl
  | cons e t ih =>
    obtain ⟨a, w⟩ := e
    unfold valueOf at ih ⊢
    simp only [List.find?_cons, findEntry]
    cases HKey.keq k a with
    | true => rfl
    | false => simpa using ih

/-- Decoding a message whose sections are read as something else. -/
theorem decode_sections_as {BP : Type} [AppProps AP] {env : Env} (conv : StringVariantMap → BP)
    (f : Section → Section) (m : Message AP)
    (h : ∀ s ∈ m.sections, ∀ rest, decode Section env (enc s ++ rest) = .ok (rest, f s))
    (hn : ∀ b ∈ m.messages, b.Exact) :
    Message.decodeWith env conv (enc m) = .ok (enc (m.sections.getLast m.sections_ne),
      (m.sections.map f).foldl (Message.addSection conv) Message.empty) := by
  have hw := Message.resume_wires (env := env) conv
    (m.sections.dropLast.map fun s => (enc s, f s))
    (enc (m.sections.getLast m.sections_ne), f (m.sections.getLast m.sections_ne)) Message.empty (by
      intro p hp
      have : ∃ s ∈ m.sections, p = (enc s, f s) := by
        simp only [List.mem_append, List.mem_map, List.mem_singleton] at hp
        rcases hp with ⟨s, hs, rfl⟩ | rfl
        · exact ⟨s, List.dropLast_subset _ hs, rfl⟩
        · exact ⟨_, List.getLast_mem _, rfl⟩
      obtain ⟨s, hs, rfl⟩ := this
      exact ⟨enc_ne_nil_of_head s, h s hs⟩)
  have e : (m.sections.dropLast.map fun s => (enc s, f s)) ++
      [(enc (m.sections.getLast m.sections_ne), f (m.sections.getLast m.sections_ne))] =
      m.sections.map fun s => (enc s, f s) := by
    conv => rhs; rw [← List.dropLast_concat_getLast m.sections_ne]
    simp
  rw [e] at hw
  rw [Message.menc_eq m hn, Message.decodeWith_eq]
  simpa [List.flatMap_map, List.map_map, Function.comp_def] using hw

/-- The section with other application properties. -/
def Section.withApp (out : StringVariantMap) : Section → Section
  | .ApplicationProperties _ => .ApplicationProperties out
  | s => s

theorem sections_withApp (m : OutMessage) (x y : VecVariantMap)
    (h : m.application_properties = some x) :
    m.sections.map (Section.withApp ⟨y.entries⟩) =
      ({ m with application_properties := some y } : OutMessage).sections := by
  have hb : ({ m with application_properties := some y } : OutMessage).bodySections =
      m.bodySections := rfl
  have hm : m.bodySections.map (Section.withApp ⟨y.entries⟩) = m.bodySections := by
    unfold Message.bodySections
    split
    · rfl
    · simp [List.map_append, List.map_map, Function.comp_def, Section.withApp]
  unfold Message.sections MsgHead.preSections
  rw [hb]
  simp only [List.map_append, List.map_map, hm, h]
  simp [Function.comp_def, Section.withApp, AppProps.toMap]

/-- **C51.** What a receiver sees: if the parts of an `OutMessage` survive, the
receiver's `app_property(k)` is the last value the sender set for `k`. -/
theorem C51_delivered (env : Env) (m : OutMessage) (h : m.PartsRoundTrip env)
    (hv : ∀ x, m.application_properties = some x → (enc x).length < 2 ^ 32 ∧
      ∀ e ∈ x.entries, e.2.Survives ∧ e.2.depth ≤ env.stackDepth) :
    ∃ rest n, InMessage.decode env (enc m) = .ok (rest, n) ∧
      (∀ k, n.appProperty k =
        lastValueOf k (m.application_properties.elim [] VecVariantMap.entries)) ∧
      n.header = m.header ∧ n.properties = m.properties ∧ n.footer = m.footer ∧
      n.delivery_annotations = m.delivery_annotations ∧
      n.message_annotations = m.message_annotations ∧
      n.sequence = m.sequence ∧ n.value = m.value ∧
      n.data = if m.data = [] ∧ m.sequence = [] ∧ m.value.isNone ∧ m.messages = [] then [⟨[]⟩]
        else m.data ++ m.messages.map fun b => ⟨enc b⟩ := by
  cases hx : m.application_properties with
  | none =>
    obtain ⟨rest, hd⟩ := C37_out_in env m h (by simp [hx])
    refine ⟨rest, _, hd, fun k => ?_, rfl, rfl, rfl, rfl, rfl, rfl, rfl, rfl⟩
    simp [Message.appProperty, hx, lastValueOf]
  | some x =>
    obtain ⟨hl, hs⟩ := hv x hx
    obtain ⟨out, h1, h2⟩ := C46_read_as_hash_map env x [] hs hl
    have hr : ∀ rest, decode (HMap Str Variant) env (enc x ++ rest) = .ok (rest, out) := by
      intro rest
      obtain ⟨w, e, hw⟩ := local_decode (fun f => LawfulDec.loc (α := HMap Str Variant) env f) _ _ _ h1
      rw [List.append_nil, List.append_nil] at e
      rw [e]; exact hw rest
    have hm : ∀ b ∈ m.messages, b.Exact := fun b hb => (h.messages b hb).1
    have key : ∀ s ∈ m.sections, ∀ rest,
        decode Section env (enc s ++ rest) = .ok (rest, s.withApp ⟨out.entries⟩) := by
      intro s hsec rest
      have hp := Message.PartsRoundTrip.sections (env := env)
        (m := ({ m with application_properties := none } : OutMessage))
        ⟨h.header, h.delivery_annotations, h.message_annotations, h.properties, h.footer, h.data,
          h.sequence, h.value, h.messages⟩ (by simp)
      have hmem : s = .ApplicationProperties ⟨x.entries⟩ ∨
          (s ∈ ({ m with application_properties := none } : OutMessage).sections ∧
            s.withApp ⟨out.entries⟩ = s) := by
        have hb : ({ m with application_properties := none } : OutMessage).bodySections =
          m.bodySections := rfl
        cases s with
        | ApplicationProperties y =>
          left
          unfold Message.sections MsgHead.preSections Message.bodySections at hsec
          rw [hx] at hsec
          split at hsec <;> simpa [AppProps.toMap] using hsec
        | _ =>
          right
          refine ⟨?_, rfl⟩
          unfold Message.sections MsgHead.preSections at hsec ⊢
          rw [hb]
          rw [hx] at hsec
          simpa using hsec
      rcases hmem with rfl | ⟨h3, h4⟩
      · show decode Section env (0x00 :: ([0x53, 116] ++ (enc x ++ rest))) = _
        rw [C24_section_members.2.2.2.1 env [0x53, 116] (enc x ++ rest) (.ulong 116)
          (fun _ => rfl) (.inl rfl),
          show decode ApplicationProperties env (enc x ++ rest) = _ from hr rest]
        rfl
      · rw [h4]; exact hp s h3 rest
    have hd := decode_sections_as (id : StringVariantMap → StringVariantMap)
      (Section.withApp ⟨out.entries⟩) m key hm
    rw [sections_withApp m x ⟨out.entries⟩ hx, Message.foldl_sections] at hd
    refine ⟨_, _, hd, fun k => ?_, rfl, rfl, rfl, rfl, rfl, rfl, rfl, ?_⟩
    · show findEntry (HKey.keq k) out.entries = _
      rw [← valueOf_eq_findEntry]; exact h2 k
    · exact received_data m

/-- A history: a property set twice, the header replaced, sizes asked for. -/
def sampleOps : List Op := [.setAppProperty (.lit "a") (.uint 1), .size, .setHeader Header.sample,
  .setAppProperty (.lit "b") .null, .setProperties fun p => { p with subject := some (.lit "s") },
  .setAppProperty (.lit "a") (.uint 2), .setValue (.uint 7), .encode]
example : (runOps Message.setAppPropertyIn Message.empty sampleOps).appProperty (.lit "a") =
    some (.uint 2) := by
  rw [C51_app_property]; rfl
example : ((runOps Message.setAppPropertyOut Message.empty sampleOps).application_properties.elim []
      VecVariantMap.entries) =
    [(.lit "a", .uint 1), (.lit "b", .null), (.lit "a", .uint 2)] := by
  rw [C51_app_properties]; rfl
example : (runOps Message.setAppPropertyOut Message.empty sampleOps).header = some Header.sample := by
  rw [(C51_header _ C51_only_app_out _ _).2]; rfl
example : (runOps Message.setAppPropertyOut Message.empty sampleOps).body.value = some (.uint 7) := by
  rw [(C51_value _ C51_only_app_out _ _ (by simp [sampleOps, Op.isSetBody])).2.2.1]; rfl
/-- A message with a repeated key. -/
def repeatedKey : OutMessage :=
  { application_properties :=
      (some ⟨[(.lit "a", .uint 1), (.lit "b", .null), (.lit "a", .uint 2)]⟩ : Option VecVariantMap) }
example : ∃ rest n, InMessage.decode debugEnv (enc repeatedKey) = .ok (rest, n) ∧
    n.appProperty (.lit "a") = some (.uint 2) := by
  obtain ⟨rest, n, h1, h2, _⟩ := C51_delivered debugEnv repeatedKey
    (by constructor <;> simp [repeatedKey]) (by
      intro x hx
      injection hx with hx
      subst hx
      exact ⟨by decide +kernel, by simp [Variant.Survives, Variant.depth, debugEnv]⟩)
  exact ⟨rest, n, h1, by rw [h2]; rfl⟩

end Amqp
