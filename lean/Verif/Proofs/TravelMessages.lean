import Verif.Spec.TravelMessages
import Verif.Proofs.SettledLists
/-!
# What becomes of messages on their way

Support for C86.
-/
set_option autoImplicit false
namespace Amqp
open Dec

/-- What becomes of a section. -/
def SectionAnswer (env : Env) (w : Bytes) (s : Fate Section) : Prop :=
  w ≠ [] ∧ ∀ rest, s.Answer rest (decode Section env (w ++ rest))

/-- The message grows section by section. -/
def stepAll (m : InMessage) : List (Fate Section) → Fate InMessage
  | [] => pure m
  | s :: t => s >>= fun sec => stepAll (m.addSection id sec) t

theorem stepAll_append : ∀ (a b : List (Fate Section)) (m : InMessage),
    stepAll m (a ++ b) = stepAll m a >>= fun m => stepAll m b
  | [], _, _ => rfl
  | s :: t, b, m => by
    simp only [List.cons_append, stepAll, Fate.bind_assoc, stepAll_append t]

theorem resume_fates {env : Env} : ∀ (ps : List (Bytes × Fate Section)) (m : InMessage), ps ≠ [] →
    (∀ p ∈ ps, SectionAnswer env p.1 p.2) →
    (stepAll m (ps.map Prod.snd)).Opens (Message.resume env id m (ps.flatMap Prod.fst))
  | [], _, h, _ => absurd rfl h
  | (w, s) :: t, m, _, h => by
    obtain ⟨hw, h1⟩ := h (w, s) (by simp)
    have h1 := h1 (t.flatMap Prod.fst)
    rw [List.flatMap_cons, List.map_cons, Message.resume_eq]
    show (s >>= fun sec => stepAll (m.addSection id sec) (t.map Prod.snd)).Opens _
    cases s with
    | refused =>
      obtain ⟨e, h1⟩ := h1
      simp only [h1]
      exact ⟨e, rfl⟩
    | crashes p =>
      have h1 : decode Section env (w ++ t.flatMap Prod.fst) = .panic p := h1
      simp only [h1]
      exact rfl
    | arrives sec =>
      have h1 : decode Section env (w ++ t.flatMap Prod.fst) = .ok (t.flatMap Prod.fst, sec) := h1
      simp only [h1]
      cases t with
      | nil =>
        show (Fate.arrives _).Opens _
        exact ⟨_, rfl⟩
      | cons q t =>
        have hq : ((q :: t).flatMap Prod.fst).isEmpty = false := by
          have := (h q (by simp)).1
          simp [this]
        rw [hq]
        exact resume_fates (q :: t) _ (by simp) fun p hp => h p (List.mem_cons_of_mem _ hp)

/-! ### The sections of a message -/

theorem sectionAnswer {env : Env} (s : Section) (h : held s) (hl : (enc s).length < 2 ^ 32) :
    SectionAnswer env (enc s) (fate env s) :=
  ⟨enc_ne_nil_of_head s, FateLaw.law env s h hl⟩

theorem named_fate (env : Env) (l : List (Str × Variant))
    (hl : (enc (HMap.mk l)).length < 2 ^ 32) (rest : Bytes) :
    ((sentValues env.stackDepth l).andThen fun l => .arrives (HMap.mk (Lenient.merged l))).Answer
      rest (decode StringVariantMap env (enc (HMap.mk l) ++ rest)) := by
  have hs := small_of_length (sizeExact_of (α := Str)) (fun v : Variant => v.vsize_eq) hl
  have := sent_hmap_any sizeExact_of env ⟨l⟩ (fun e he => ⟨SmallRT.rt env _ (by
    have := mem_content he
    rw [LawfulEnc.size_eq e.1] at this
    omega), rfl⟩) hs rest
  cases hm : sentValues env.stackDepth l with
  | arrives l' =>
    simp only [hm] at this
    have e : insertAll [] l' = Lenient.merged l' := insertAll_merged l' fun _ _ => rfl
    show _ = Res.ok (rest, HMap.mk (Lenient.merged l'))
    have this : _ = Res.ok (rest, HMap.mk (insertAll [] l')) := this
    rw [this, e]
  | refused => simp only [hm] at this; exact this
  | crashes p => simp only [hm] at this; exact this

theorem named_answer {env : Env} (l : List (Str × Variant))
    (hl : (enc (Section.ApplicationProperties ⟨l⟩)).length < 2 ^ 32) :
    SectionAnswer env (enc (Section.ApplicationProperties ⟨l⟩))
      (sentValues env.stackDepth l >>= fun l =>
        pure (.ApplicationProperties ⟨Lenient.merged l⟩)) := by
  refine ⟨enc_ne_nil_of_head _, fun rest => ?_⟩
  have e0 : enc (Section.ApplicationProperties ⟨l⟩) =
      enc (Descriptor.ulong 116) ++ enc (HMap.mk l) := rfl
  have key := named_fate env l (by rw [e0, List.length_append] at hl; omega) rest
  have e : (enc (Descriptor.ulong 116) ++ enc (HMap.mk l)) ++ rest =
      FC.described :: ([FC.smallUlong, (116 : UInt64).toUInt8] ++ (enc (HMap.mk l) ++ rest)) := by
    rw [enc_ulong_small (by decide) (by decide)]; simp
  rw [e0, e, decode_cons]
  have hU : decF (α := Section) env FC.described = validateCode FC.described FC.described
      (decode Descriptor env >>= Section.dispatch env) := rfl
  rw [hU, validateCode_self, bind_ok (reads_small_descriptor env (by decide) _)]
  have hd : Section.dispatch env (.ulong 116) =
    Section.ApplicationProperties <$> decode StringVariantMap env := rfl
  rw [hd]
  have := key.fmap (f := Section.ApplicationProperties)
  cases hm : sentValues env.stackDepth l <;> rw [hm] at this <;> exact this

/-- What becomes of an optional section. -/
def optional {α : Type} [HasFate α] (env : Env) (mk : α → Section) (o : Option α) :
    List (Bytes × Fate Section) :=
  o.toList.map fun v => (enc (mk v), mk <$> fate env v)

section
variable {AP : Type} [Encode AP] [AppProps AP]

def Message.fates (env : Env) (m : Message AP) : List (Bytes × Fate Section) :=
  optional env .Header m.header ++ (optional env .DeliveryAnnotations m.delivery_annotations ++
  (optional env .MessageAnnotations m.message_annotations ++ (optional env .Properties m.properties ++
  ((m.application_properties.toList.map fun a =>
    (enc (Section.ApplicationProperties (AppProps.toMap a)),
      sentValues env.stackDepth (AppProps.toMap a).entries >>= fun l =>
        pure (.ApplicationProperties ⟨Lenient.merged l⟩))) ++
  ((if m.bodySize = 0 then [(enc (Section.Data ⟨[]⟩), .arrives (.Data ⟨[]⟩))]
    else m.data.map (fun d => (enc (Section.Data d), Fate.arrives (Section.Data d))) ++
      (m.sequence.map (fun l => (enc (Section.AmqpSequence l), Fate.refused)) ++
      (optional env .AmqpValue m.value ++
      m.messages.map (fun b => (enc (Section.Data ⟨b.tenc⟩), Fate.arrives (Section.Data ⟨b.tenc⟩)))))) ++
  optional env .Footer m.footer)))))

theorem optional_fst {α : Type} [HasFate α] (env : Env) (mk : α → Section) (o : Option α) :
    (optional env mk o).map Prod.fst = (o.toList.map mk).map enc := by
  cases o <;> rfl

theorem Message.fates_fst (env : Env) (m : Message AP) :
    (m.fates env).map Prod.fst = m.sections.map enc := by
  unfold Message.fates Message.sections MsgHead.preSections Message.bodySections
  simp only [List.map_append, optional_fst, List.append_assoc, List.map_map]
  congr 5
  split <;> simp [Function.comp_def, optional_fst]

theorem optional_answer {α : Type} [HasFate α] {env : Env} {mk : α → Section} {o : Option α}
    (h : ∀ v, o = some v → SectionAnswer env (enc (mk v)) (mk <$> fate env v)) :
    ∀ p ∈ optional env mk o, SectionAnswer env p.1 p.2 := by
  intro p hp
  cases o with
  | none => cases hp
  | some v =>
    simp only [optional, Option.toList_some, List.map_cons, List.map_nil, List.mem_singleton] at hp
    subst hp
    exact h v rfl

theorem section_small {m : Message AP} (h : ∀ b ∈ m.messages, b.Exact)
    (hl : (enc m).length < 2 ^ 32) {s : Section} (hs : s ∈ m.sections) :
    (enc s).length < 2 ^ 32 := by
  rw [Message.menc_eq m h] at hl
  obtain ⟨a, b, e⟩ := List.append_of_mem hs
  rw [e] at hl
  simp only [List.flatMap_append, List.flatMap_cons, List.length_append] at hl
  omega

theorem Message.fates_answer (env : Env) (m : Message AP) (hm : held m.header)
    (h2 : held m.delivery_annotations) (h3 : held m.message_annotations) (h4 : held m.properties)
    (h5 : held m.footer) (h6 : held m.value)
    (h7 : ∀ l ∈ m.sequence, held l) (h : ∀ b ∈ m.messages, b.Exact)
    (hl : (enc m).length < 2 ^ 32) :
    ∀ p ∈ m.fates env, SectionAnswer env p.1 p.2 := by
  have hs : ∀ s ∈ m.sections, (enc s).length < 2 ^ 32 := fun s hs => section_small h hl hs
  unfold Message.sections MsgHead.preSections at hs
  have hd : ∀ d, Section.Data d ∈ m.bodySections → SectionAnswer env (enc (Section.Data d))
      (.arrives (.Data d)) := fun d hd =>
    sectionAnswer (.Data d) trivial (hs _ (by simp [hd]))
  intro p hp
  unfold Message.fates at hp
  simp only [List.mem_append] at hp
  rcases hp with hp | hp | hp | hp | hp | hp | hp
  · exact optional_answer (fun v hv => sectionAnswer (.Header v) (hm v hv) (hs _ (by simp [hv]))) p hp
  · exact optional_answer (fun v hv => sectionAnswer (.DeliveryAnnotations v) (h2 v hv)
      (hs _ (by simp [hv]))) p hp
  · exact optional_answer (fun v hv => sectionAnswer (.MessageAnnotations v) (h3 v hv)
      (hs _ (by simp [hv]))) p hp
  · exact optional_answer (fun v hv => sectionAnswer (.Properties v) (h4 v hv)
      (hs _ (by simp [hv]))) p hp
  · cases hv : m.application_properties with
    | none => rw [hv] at hp; cases hp
    | some a =>
      rw [hv] at hp
      simp only [Option.toList_some, List.map_cons, List.map_nil, List.mem_singleton] at hp
      subst hp
      exact named_answer (AppProps.toMap a).entries (hs (.ApplicationProperties (AppProps.toMap a))
        (by simp [hv]))
  · unfold Message.bodySections at hd hs
    split at hp
    · rename_i hb
      rw [List.mem_singleton] at hp
      subst hp
      exact hd _ (by simp [hb])
    · rename_i hb
      simp only [List.mem_append, List.mem_map] at hp
      rcases hp with ⟨d, hdm, rfl⟩ | ⟨l, hlm, rfl⟩ | hp | ⟨b, hbm, rfl⟩
      · exact hd d (by simp [hb, hdm])
      · exact sectionAnswer (env := env) (.AmqpSequence l) (h7 l hlm) (hs _ (by simp [hb, hlm]))
      · exact optional_answer (fun v hv => sectionAnswer (.AmqpValue v) (h6 v hv)
          (hs _ (by simp [hb, hv]))) p hp
      · exact hd _ (by simp only [if_neg hb, List.mem_append, List.mem_map]; exact .inr ⟨b, hbm, rfl⟩)
  · exact optional_answer (fun v hv => sectionAnswer (.Footer v) (h5 v hv)
      (hs _ (by simp [hv]))) p hp

/-! ### Putting them together -/

theorem stepAll_optional {α : Type} [HasFate α] (env : Env) (mk : α → Section) (o : Option α)
    (set : InMessage → Option α → InMessage) (m : InMessage)
    (h : ∀ v, m.addSection id (mk v) = set m (some v)) (h0 : set m none = m) :
    stepAll m ((optional env mk o).map Prod.snd) = fate env o >>= fun o => pure (set m o) := by
  cases o with
  | none =>
    show pure m = (pure (set m none) : Fate InMessage)
    rw [h0]
  | some v =>
    show ((mk <$> fate env v) >>= fun sec => pure (m.addSection id sec)) =
      ((fate env v >>= fun v => pure (some v)) >>= fun o => pure (set m o))
    cases fate env v with
    | arrives a => exact congrArg Fate.arrives (h a)
    | refused => rfl
    | crashes p => rfl

theorem stepAll_data : ∀ (l : List Binary) (m : InMessage),
    stepAll m (l.map fun d => .arrives (.Data d)) = pure { m with data := m.data ++ l }
  | [], m => by simp [stepAll]
  | d :: t, m => by
    show stepAll (m.addSection id (.Data d)) _ = _
    rw [stepAll_data t]
    simp [Message.addSection]

theorem stepAll_named (env : Env) (o : Option AP) (m : InMessage)
    (h0 : m.application_properties = none) :
    stepAll m ((o.toList.map fun a => (enc (Section.ApplicationProperties (AppProps.toMap a)),
      sentValues env.stackDepth (AppProps.toMap a).entries >>= fun l =>
        pure (Section.ApplicationProperties ⟨Lenient.merged l⟩))).map Prod.snd) =
      namedFate (fun a => (AppProps.toMap a).entries) env o >>= fun o => pure { m with application_properties := o } := by
  cases o with
  | none =>
    obtain ⟨⟨⟩, _⟩ := m
    cases h0
    rfl
  | some a =>
    show ((sentValues env.stackDepth (AppProps.toMap a).entries >>= fun l =>
        pure (Section.ApplicationProperties ⟨Lenient.merged l⟩)) >>= fun sec =>
          pure (m.addSection id sec)) = _
    simp only [namedFate]
    rw [Fate.bind_assoc, Fate.bind_assoc]
    rfl

theorem stepAll_refused (l : List VList) (m : InMessage) :
    stepAll m ((l.map fun x => (enc (Section.AmqpSequence x), (Fate.refused : Fate Section))).map
      Prod.snd) = sequenceFate l >>= fun _ => pure m := by
  cases l with
  | nil => rfl
  | cons a t => unfold sequenceFate; rw [if_neg (by simp)]; rfl

omit [Encode AP] [AppProps AP] in
theorem bodySize_zero_iff (m : Message AP) : m.bodySize = 0 ↔
    m.data = [] ∧ m.sequence = [] ∧ m.value = none ∧ m.messages = [] := by
  refine ⟨Message.bodySize_zero, fun ⟨h1, h2, h3, h4⟩ => ?_⟩
  simp [Message.bodySize, h1, h2, h3, h4, bodySizeWith, sectionsSize, nestedSize]

theorem Message.fates_eq (env : Env) (m : Message AP) :
    stepAll Message.empty ((m.fates env).map Prod.snd) =
      m.travels (fun a => (AppProps.toMap a).entries) env := by
  have hb : ∀ {α : Type} {s : Fate α} {f g : α → Fate InMessage}, (∀ a, f a = g a) →
      s >>= f = s >>= g := fun h => congrArg _ (funext h)
  unfold Message.fates Message.travels
  simp only [List.map_append, stepAll_append]
  rw [stepAll_optional env .Header m.header (fun m o => { m with header := o }) Message.empty
    (fun _ => rfl) rfl, Fate.bind_assoc]
  refine hb fun header => ?_
  rw [Fate.pure_bind, stepAll_optional env .DeliveryAnnotations m.delivery_annotations
    (fun m o => { m with delivery_annotations := o }) _ (fun _ => rfl) rfl, Fate.bind_assoc]
  refine hb fun delivery => ?_
  rw [Fate.pure_bind, stepAll_optional env .MessageAnnotations m.message_annotations
    (fun m o => { m with message_annotations := o }) _ (fun _ => rfl) rfl, Fate.bind_assoc]
  refine hb fun annotations => ?_
  rw [Fate.pure_bind, stepAll_optional env .Properties m.properties
    (fun m o => { m with properties := o }) _ (fun _ => rfl) rfl, Fate.bind_assoc]
  refine hb fun properties => ?_
  rw [Fate.pure_bind, stepAll_named env m.application_properties _ rfl, Fate.bind_assoc]
  refine hb fun application => ?_
  rw [Fate.pure_bind]
  by_cases h0 : m.bodySize = 0
  · obtain ⟨h1, h2, h3, h4⟩ := (bodySize_zero_iff m).1 h0
    rw [if_pos h0, h2, h3, h1, h4]
    show stepAll _ ((optional env .Footer m.footer).map Prod.snd) =
      fate env m.footer >>= fun footer => _
    rw [stepAll_optional env .Footer m.footer (fun m o => { m with footer := o }) _
      (fun _ => rfl) rfl]
    exact hb fun footer => rfl
  · rw [if_neg h0]
    simp only [List.map_append, stepAll_append, List.map_map]
    rw [show (Prod.snd ∘ fun d : Binary => (enc (Section.Data d), Fate.arrives (Section.Data d))) =
      fun d => Fate.arrives (Section.Data d) from rfl, stepAll_data, Fate.pure_bind]
    rw [← List.map_map, stepAll_refused]
    simp only [Fate.bind_assoc, Fate.pure_bind]
    by_cases hs : m.sequence = []
    · refine hb fun _ => ?_
      have hc : ¬(m.data = [] ∧ m.value.isNone = true ∧ m.messages = []) := fun h =>
        h0 ((bodySize_zero_iff m).2 ⟨h.1, hs, by simpa using h.2.1, h.2.2⟩)
      rw [stepAll_optional env .AmqpValue m.value (fun m o => { m with value := o }) _
        (fun _ => rfl) rfl, Fate.bind_assoc, if_neg hc]
      refine hb fun value => ?_
      have e : m.messages.map (Prod.snd ∘ fun b : TransferBody =>
          (enc (Section.Data ⟨b.tenc⟩), Fate.arrives (Section.Data ⟨b.tenc⟩))) =
          (m.messages.map fun b => (⟨enc b⟩ : Binary)).map
            (fun d => Fate.arrives (Section.Data d)) := by
        rw [List.map_map]; rfl
      rw [Fate.pure_bind, e, stepAll_data, Fate.pure_bind,
        stepAll_optional env .Footer m.footer (fun m o => { m with footer := o }) _
        (fun _ => rfl) rfl]
      refine hb fun footer => ?_
      simp only [Message.empty, List.nil_append]
    · unfold sequenceFate
      rw [if_neg hs]
      rfl

theorem message_fate (env : Env) (m : Message AP) (h1 : held m.header)
    (h2 : held m.delivery_annotations) (h3 : held m.message_annotations) (h4 : held m.properties)
    (h5 : held m.footer) (h6 : held m.value)
    (h7 : ∀ l ∈ m.sequence, held l) (h : ∀ b ∈ m.messages, b.Exact)
    (hl : (enc m).length < 2 ^ 32) :
    (m.travels (fun a => (AppProps.toMap a).entries) env).Opens (InMessage.decode env (enc m)) := by
  rw [← Message.fates_eq]
  have e : enc m = (m.fates env).flatMap Prod.fst := by
    rw [Message.menc_eq m h, List.flatMap_def, List.flatMap_def, Message.fates_fst]
  rw [e]
  refine resume_fates _ _ (fun h0 => m.sections_ne ?_)
    (Message.fates_answer env m h1 h2 h3 h4 h5 h6 h7 h hl)
  have := Message.fates_fst env m
  rw [h0] at this
  simpa using this.symm

end

end Amqp
