import Verif.Spec.ForwardFrames
import Verif.Proofs.ForwardLists
import Verif.Props.Delivery
/-!
# C62: passing on what was received

An intermediary decodes what it receives, looks at it, and encodes it again.
-/
set_option autoImplicit false
namespace Amqp
open Dec Forwardable

/-! ## Values -/

/-- **C62**: variants, maps and symbols. -/
theorem C62_values_partial : Forwards Variant ∧ Forwards Map ∧ Forwards Fields ∧
    Forwards StringVariantMap ∧ Forwards FilterSet ∧ Forwards Symbols :=
  ⟨forwards_variant, forwards_map forwards_variant forwards_variant, forwards_fields,
    forwards_map forwards_small forwards_variant,
    forwards_map forwards_small (forwards_option forwards_small), forwards_symbols⟩

theorem Variant.Survives.plain (v : Variant) : v.Survives → v.Plain := by
  induction v using Variant.ind with
  | list l _ => simp [Variant.Survives]
  | map m ih =>
    simp only [Variant.Survives, Variant.Plain, survivesMap_iff, plainMap_iff]
    exact fun h e he => ⟨(ih e he).1 (h.1 e he).1, (ih e he).2 (h.1 e he).2⟩
  | described d v ih =>
    simp only [Variant.Survives, Variant.Plain]
    exact fun h => ⟨h.1, ih h.2⟩
  | _ => simp [Variant.Plain]

/-- **C62**: nothing else can be passed on: a received variant shorter than 4 GiB
is decoded again exactly if it holds no list and no descriptor 0. -/
theorem C62_exactly_partial (env : Env) (input rest : Bytes) (v : Variant)
    (h : decode Variant env input = .ok (rest, v)) (hs : (enc v).length < 2 ^ 32) :
    RoundTrips env v ↔ v.Plain :=
  ⟨fun hr => Variant.Survives.plain v ((C14_round_trip_iff env v hs).1 hr).1,
    fun hp => forwards_variant env input rest v h hp hs⟩

/-! ## Performatives and sections -/

/-- **C62**: performatives and what they consist of. -/
theorem C62_performatives_partial :
    Forwards Open ∧ Forwards Begin ∧ Forwards Attach ∧ Forwards Flow ∧ Forwards TransferPerf ∧
    Forwards Disposition ∧ Forwards Detach ∧ Forwards End ∧ Forwards Close ∧ Forwards Error ∧
    Forwards Source ∧ Forwards Target ∧ Forwards DeliveryState ∧ Forwards Outcome :=
  ⟨Open.forwards, Begin.forwards, Attach.forwards, Flow.forwards, TransferPerf.forwards,
    Disposition.forwards, Detach.forwards, End.forwards, Close.forwards, Error.forwards,
    Source.forwards, Target.forwards, DeliveryState.forwards, Outcome.forwards⟩

/-- **C62**: SASL performatives. -/
theorem C62_sasl_partial :
    Forwards SaslMechanisms ∧ Forwards SaslInit ∧ Forwards SaslChallenge ∧ Forwards SaslResponse ∧
    Forwards SaslOutcome ∧ Forwards SaslFrameBody :=
  ⟨SaslMechanisms.forwards, SaslInit.forwards, SaslChallenge.forwards, SaslResponse.forwards,
    SaslOutcome.forwards, SaslFrameBody.forwards⟩

/-- **C62**: message sections. -/
theorem C62_sections_partial : Forwards Header ∧ Forwards Properties ∧ Forwards Section :=
  ⟨Header.forwards, Properties.forwards, Section.forwards⟩

/-! ## Frames -/

/-- What a frame decoder yields was decoded as the performative, and a payload is
there if there are bytes. -/
def Frame.Origin (env : Env) : Frame → Prop
  | .Open x => ∃ i r, ListType.inner env i = .ok (r, x)
  | .Begin x => ∃ i r, ListType.inner env i = .ok (r, x)
  | .Attach x => ∃ i r, ListType.inner env i = .ok (r, x)
  | .Flow x => ∃ i r, ListType.inner env i = .ok (r, x)
  | .Transfer x => (∃ i r, ListType.inner env i = .ok (r, x.toTransferPerf)) ∧
      ∀ b, x.body = some b → ∃ d : Binary, b = .Data d ∧ d.data ≠ []
  | .Disposition x => ∃ i r, ListType.inner env i = .ok (r, x)
  | .Detach x => ∃ i r, ListType.inner env i = .ok (r, x)
  | .End x => ∃ i r, ListType.inner env i = .ok (r, x)
  | .Close x => ∃ i r, ListType.inner env i = .ok (r, x)
  | .Empty => True

theorem transfer_origin {env : Env} {i r : Bytes} {t : Transfer}
    (h : Transfer.decInner env i = .ok (r, t)) : (Frame.Transfer t).Origin env := by
  obtain ⟨r1, p, h1, h2⟩ := bind_eq_ok.1 h
  unfold Transfer.withBody at h2
  split at h2
  · cases h2
    exact ⟨⟨i, _, h1⟩, fun b hb => by cases hb⟩
  · rename_i hne
    cases h2
    refine ⟨⟨i, _, h1⟩, fun b hb => ?_⟩
    cases hb
    exact ⟨_, rfl, fun e => hne (by simp only at e; rw [e]; rfl)⟩

theorem Frame.dispatch_origin (env : Env) (d : Descriptor) :
    Post (Frame.dispatch env d) fun _ _ v => v.Origin env := by
  unfold Frame.dispatch
  repeat' apply Post.ite
  all_goals first
    | exact Post.fail _
    | (intro i r v h; obtain ⟨x, h1, rfl⟩ := map_eq_ok.1 h; exact ⟨i, r, h1⟩)
    | (intro i r v h; obtain ⟨x, h1, rfl⟩ := map_eq_ok.1 h; exact transfer_origin h1)

theorem Frame.decode_origin {env : Env} {i r : Bytes} {f : Frame}
    (h : Frame.decode env i = .ok (r, f)) : f.Origin env := by
  unfold Frame.decode at h
  split at h
  · cases h; trivial
  · obtain ⟨_, fmt, _, h⟩ := bind_eq_ok.1 h
    obtain ⟨_, h⟩ := validateCode_ok h
    obtain ⟨_, d, _, h⟩ := bind_eq_ok.1 h
    exact Frame.dispatch_origin env d _ _ _ h

theorem Frame.Origin.plain {env : Env} {f : Frame} (h : f.Origin env) : f.PlainPayload := by
  rintro t b rfl hb
  exact h.2 b hb

theorem Frame.Origin.content {env : Env} {f : Frame} (h : f.Origin env) (hc : fwd env f)
    (hs : (enc f).length < 2 ^ 32) : f.ContentRoundTrips env := by
  cases f with
  | Open x => obtain ⟨i, r, h⟩ := h; exact Open.forwardsInner env i r x h hc hs
  | Begin x => obtain ⟨i, r, h⟩ := h; exact Begin.forwardsInner env i r x h hc hs
  | Attach x => obtain ⟨i, r, h⟩ := h; exact Attach.forwardsInner env i r x h hc hs
  | Flow x => obtain ⟨i, r, h⟩ := h; exact Flow.forwardsInner env i r x h hc hs
  | Transfer x =>
    obtain ⟨⟨i, r, h⟩, -⟩ := h
    refine TransferPerf.forwardsInner env i r _ h hc (Nat.lt_of_le_of_lt ?_ hs)
    show _ ≤ (enc x.toTransferPerf ++ x.body.elim [] enc).length
    rw [List.length_append]; exact Nat.le_add_right _ _
  | Disposition x => obtain ⟨i, r, h⟩ := h; exact Disposition.forwardsInner env i r x h hc hs
  | Detach x => obtain ⟨i, r, h⟩ := h; exact Detach.forwardsInner env i r x h hc hs
  | End x => obtain ⟨i, r, h⟩ := h; exact End.forwardsInner env i r x h hc hs
  | Close x => obtain ⟨i, r, h⟩ := h; exact Close.forwardsInner env i r x h hc hs
  | Empty => trivial

theorem AmqpFrame.passable {env : Env} {i r : Bytes} {f : AmqpFrame}
    (h : AmqpFrame.decode env i = .ok (r, f)) (hc : fwd env f) (hs : (enc f).length < 2 ^ 32) :
    f.performative.ContentRoundTrips env ∧ f.performative.PlainPayload := by
  obtain ⟨_, ch, _, h⟩ := bind_eq_ok.1 h
  obtain ⟨_, p, h1, h⟩ := bind_eq_ok.1 h
  cases h
  have ho := Frame.decode_origin h1
  refine ⟨ho.content hc (Nat.lt_of_le_of_lt ?_ hs), ho.plain⟩
  exact section_content_le _ _

theorem SaslFrame.passable {env : Env} {i r : Bytes} {f : SaslFrame}
    (h : SaslFrame.decode env i = .ok (r, f)) (hc : fwd env f) (hs : (enc f).length < 2 ^ 32) :
    RoundTrips env f.body := by
  obtain ⟨_, ch, _, h⟩ := bind_eq_ok.1 h
  obtain ⟨_, p, h1, h⟩ := bind_eq_ok.1 h
  cases h
  exact SaslFrameBody.forwards env _ _ p h1 hc (Nat.lt_of_le_of_lt (section_content_le _ _) hs)

/-- **C62** (full statement): whatever frame comes out of the decoder, its encoding,
if shorter than 4 GiB, is one frame and is decoded to the same frame. -/
def C62_statement : Prop := ∀ (env : Env) (input rest : Bytes) (f : AmqpFrame),
  AmqpFrame.decode env input = .ok (rest, f) → (enc f).length < 2 ^ 32 →
    AmqpFrame.decode env ((enc f).drop 4) = .ok ([], f) ∧ IsFrame (enc f)

/-- **C62**, partial: the frame must be one that can be passed on. -/
theorem C62_frame_partial (env : Env) (input rest : Bytes) (f : AmqpFrame)
    (h : AmqpFrame.decode env input = .ok (rest, f)) (hc : fwd env f)
    (hs : (enc f).length < 2 ^ 32) :
    AmqpFrame.decode env ((enc f).drop 4) = .ok ([], f) ∧ IsFrame (enc f) := by
  obtain ⟨h1, h2⟩ := AmqpFrame.passable h hc hs
  exact ⟨(C26_amqp env f h1 h2).1, (C26_amqp env f h1 h2).2 hs⟩

/-- **C62**, partial: the same for SASL frames. -/
theorem C62_sasl_frame_partial (env : Env) (input rest : Bytes) (f : SaslFrame)
    (h : SaslFrame.decode env input = .ok (rest, f)) (hc : fwd env f)
    (hs : (enc f).length < 2 ^ 32) :
    SaslFrame.decode env ((enc f).drop 4) = .ok ([], f) ∧ IsFrame (enc f) := by
  have h1 := SaslFrame.passable h hc hs
  exact ⟨(C26_sasl env f h1).1, (C26_sasl env f h1).2 hs⟩

/-! ## Streams -/

/-- Every item received is what the decoder makes of some bytes. -/
theorem drain_decoded {T : Type} {env : Env} {dec : Dec T} (st : DecodeState) (src : Bytes) :
    ∀ a ∈ (drain env dec st src).1, ∃ w, dec w = .ok ([], a) := by
  induction hm : drainMeasure st src using Nat.strongRecOn generalizing st src with
  | ind n ih =>
    rcases Answer.cases_some (codecDecode env dec st src).answer with ⟨x, hx⟩ | hx
    · have e : codecDecode env dec st src = ⟨(codecDecode env dec st src).state,
        (codecDecode env dec st src).src, .some x⟩ := by rw [← hx]
      rw [drain_some e]
      intro a ha
      rcases List.mem_cons.1 ha with rfl | ha
      · cases st with
        | frame k => obtain ⟨-, -, -, h⟩ := frameStep_some e; exact ⟨_, h⟩
        | frameHeader =>
          generalize (codecDecode env dec .frameHeader src).state = s1 at e
          generalize (codecDecode env dec .frameHeader src).src = s2 at e
          simp only [codecDecode, headerLen] at e
          split at e
          · simp at e
          · split at e
            · simp at e
            · split at e
              · simp at e
              · obtain ⟨-, -, -, h⟩ := frameStep_some e; exact ⟨_, h⟩
      · exact ih _ (hm ▸ codecDecode_some_lt e) _ _ rfl a ha
    · rw [drain_stop hx]; simp

/-- **C62**, partial: a connection.  An intermediary that receives any bytes in any
pieces and sends on every frame it gets, all of which can be passed on, makes the
next receiver get the same frames in the same order, however the bytes it sent
are cut into pieces. -/
theorem C62_connection_partial (env : Env) (slack : Growth) (chunksIn chunksOut : List Bytes) (dst : Buf)
    (hf : ∀ f ∈ (receive env (AmqpFrame.decode env) .frameHeader [] chunksIn).1,
      fwd env f ∧ (enc f).length < 2 ^ 32) :
    ∃ out, encodeAll slack (receive env (AmqpFrame.decode env) .frameHeader [] chunksIn).1 dst =
        .ok out ∧
      (out.data = dst.data ++ chunksOut.flatten →
        receive env (AmqpFrame.decode env) .frameHeader [] chunksOut =
          ((receive env (AmqpFrame.decode env) .frameHeader [] chunksIn).1,
            ⟨.frameHeader, [], .none⟩)) := by
  refine C29_amqp env slack _ chunksOut dst fun f hm => ?_
  obtain ⟨hc, hs⟩ := hf f hm
  rw [receive_eq] at hm
  obtain ⟨w, hw⟩ := drain_decoded _ _ f hm
  obtain ⟨h1, h2⟩ := AmqpFrame.passable hw hc hs
  exact ⟨h1, h2, hs⟩

/-! ## Messages -/

theorem ofSections_mem (secs : List Section) (s : Section)
    (h : s ∈ (Message.ofSections id secs : InMessage).sections) : s = .Data ⟨[]⟩ ∨ s ∈ secs := by
  simp only [Message.sections, MsgHead.preSections, List.mem_append, List.mem_map,
    Option.mem_toList] at h
  have key : ∀ {α : Type} (f : Section → Option α) (g : α → Section)
      (hg : ∀ s a, f s = some a → s = g a) (x : α), (secs.filterMap f).getLast? = some x →
      g x ∈ secs := by
    intro α f g hg x hx
    obtain ⟨s, h1, h2⟩ := List.mem_filterMap.1 (List.mem_of_getLast? hx)
    exact hg s x h2 ▸ h1
  have key2 : ∀ {α : Type} (f : Section → Option α) (g : α → Section)
      (hg : ∀ s a, f s = some a → s = g a) (x : α), x ∈ secs.filterMap f → g x ∈ secs := by
    intro α f g hg x hx
    obtain ⟨s, h1, h2⟩ := List.mem_filterMap.1 hx
    exact hg s x h2 ▸ h1
  rcases h with (((((⟨x, hx, rfl⟩ | ⟨x, hx, rfl⟩) | ⟨x, hx, rfl⟩) | ⟨x, hx, rfl⟩) |
    ⟨x, hx, rfl⟩) | h) | ⟨x, hx, rfl⟩
  · exact .inr (key _ _ (fun s a => by cases s <;> simp) x hx)
  · exact .inr (key _ _ (fun s a => by cases s <;> simp) x hx)
  · exact .inr (key _ _ (fun s a => by cases s <;> simp) x hx)
  · exact .inr (key _ _ (fun s a => by cases s <;> simp) x hx)
  · simp only [Message.ofSections, Option.map_id, id] at hx
    exact .inr (key _ _ (fun s a => by cases s <;> simp) x hx)
  · unfold Message.bodySections at h
    split at h
    · exact .inl (List.mem_singleton.1 h)
    · simp only [List.mem_append, List.mem_map, Option.mem_toList] at h
      rcases h with ((⟨x, hx, rfl⟩ | ⟨x, hx, rfl⟩) | ⟨x, hx, rfl⟩) | ⟨x, hx, rfl⟩
      · exact .inr (key2 _ _ (fun s a => by cases s <;> simp) x hx)
      · exact .inr (key2 _ _ (fun s a => by cases s <;> simp) x hx)
      · exact .inr (key _ _ (fun s a => by cases s <;> simp) x hx)
      · cases hx
  · exact .inr (key _ _ (fun s a => by cases s <;> simp) x hx)

theorem sections_fwd {env : Env} {m : InMessage} (h : fwd env m) (hm : m.messages = []) :
    ∀ s ∈ m.sections, fwd env s := by
  obtain ⟨h1, h2, h3, h4, h5, h6⟩ := h
  intro s hs
  simp only [Message.sections, MsgHead.preSections, List.mem_append, List.mem_map,
    Option.mem_toList] at hs
  rcases hs with (((((⟨x, hx, rfl⟩ | ⟨x, hx, rfl⟩) | ⟨x, hx, rfl⟩) | ⟨x, hx, rfl⟩) |
    ⟨x, hx, rfl⟩) | hs) | ⟨x, hx, rfl⟩
  · trivial
  · exact h1 x hx
  · exact h2 x hx
  · exact ⟨fun _ _ => trivial, fun _ _ => trivial⟩
  · exact h3 x hx
  · unfold Message.bodySections at hs
    split at hs
    · rw [List.mem_singleton.1 hs]; trivial
    · simp only [List.mem_append, List.mem_map, Option.mem_toList] at hs
      rcases hs with ((⟨x, hx, rfl⟩ | ⟨x, hx, rfl⟩) | ⟨x, hx, rfl⟩) | ⟨x, hx, rfl⟩
      · trivial
      · exact h4 x hx
      · exact h5 x hx
      · rw [hm] at hx; cases hx
  · exact h6 x hx

/-- **C62**, partial: messages.  A received message that can be passed on comes back
unchanged, except that one without a body gets an empty data section. -/
theorem C62_message_partial (env : Env) (input rest : Bytes) (m : InMessage)
    (h : InMessage.decode env input = .ok (rest, m)) (hc : fwd env m)
    (hs : (enc m).length < 2 ^ 32) :
    ∃ rest', InMessage.decode env (enc m) = .ok (rest',
      if m.data = [] ∧ m.value = none then { m with data := [⟨[]⟩] } else m) := by
  obtain ⟨secs, -, hm, -, rfl⟩ := C39_only env id input rest m h
  have hmsg : (Message.ofSections id (secs.map Prod.snd) : InMessage).messages = [] := rfl
  have hfmt : (Message.ofSections id (secs.map Prod.snd) : InMessage).message_format = none := rfl
  have hcache : (Message.ofSections id (secs.map Prod.snd) : InMessage).cache = 0 := rfl
  generalize hM : (Message.ofSections id (secs.map Prod.snd) : InMessage) = M at *
  have hlen : ∀ s ∈ M.sections, (enc s).length ≤ (enc M).length := by
    intro s hs
    rw [Message.menc_eq M (by rw [hmsg]; simp)]
    obtain ⟨a, b, e⟩ := List.append_of_mem hs
    rw [e]; simp only [List.flatMap_append, List.flatMap_cons, List.length_append]; omega
  have hsec : ∀ s ∈ M.sections, RoundTrips env s := by
    intro s hs'
    rcases ofSections_mem (secs.map Prod.snd) s (hM ▸ hs') with rfl | h1
    · exact C21_section env _ (SmallRT.rt env (⟨[]⟩ : Binary) (by decide))
    · obtain ⟨p, hp, rfl⟩ := List.mem_map.1 h1
      refine Section.forwards env (p.1 ++ []) [] p.2 (hm p hp []) (sections_fwd hc hmsg _ hs') ?_
      exact Nat.lt_of_le_of_lt (hlen _ hs') hs
  have hd := decode_sections id M hsec (by rw [hmsg]; simp)
  have hseq : M.sequence = [] := List.eq_nil_iff_forall_not_mem.2 fun l hl => hc.2.2.2.1 l hl
  have key : M.received id =
      if M.data = [] ∧ M.value = none then { M with data := [⟨[]⟩] } else M := by
    unfold Message.received
    rw [received_data]
    clear hd hsec hlen hs hc h hM
    obtain ⟨⟨_, _, _, _, _, ap, _, _, _, _, _⟩, _⟩ := M
    simp only at hmsg hseq hfmt hcache
    subst hmsg hseq hfmt hcache
    simp only [List.map_nil, List.append_nil, true_and, and_true, Option.isNone_iff_eq_none]
    split <;> cases ap <;> rfl
  rw [key] at hd
  exact ⟨_, hd⟩

/-! ## What cannot be passed on -/

/-- An `open` as received, without its length: its properties hold a list. -/
def openWithList : Bytes :=
  [2, 0, 0, 0, 0x00, 0x53, 0x10, 0xc0, 21, 10, 0xa1, 1, 97, 0x40, 0x40, 0x40, 0x40, 0x40, 0x40, 0x40,
   0x40, 0xc1, 7, 2, 0xa3, 1, 107, 0xc0, 1, 0]

/-- **C62 violated**: an `open` whose properties hold a list is accepted; encoded
again it is refused. -/
theorem C62_violated_list : ∃ f, AmqpFrame.decode debugEnv openWithList = .ok ([], f) ∧
    (enc f).length < 2 ^ 32 ∧
    AmqpFrame.decode debugEnv ((enc f).drop 4) = .err (.invalidFormatCode 0xe0) := by
  refine ⟨_, rfl, ?_, ?_⟩
  · decide +kernel
  · rfl

/-- So C62 as stated is false. -/
theorem C62_violated : ¬ C62_statement := by
  intro h
  obtain ⟨f, h1, h2, h3⟩ := C62_violated_list
  have := (h debugEnv _ _ f h1 h2).1
  rw [h3] at this
  cases this

/-- **C62 violated**: a value with descriptor 0 is accepted in the eight-byte form;
encoded again it is refused. -/
theorem C62_violated_descriptor :
    decode Variant debugEnv [0x00, 0x80, 0, 0, 0, 0, 0, 0, 0, 0, 0x40] =
      .ok ([], .described (.ulong 0) .null) ∧
    decode Variant debugEnv (enc (Variant.described (.ulong 0) .null)) =
      .err (.invalidFormatCode 0x44) := ⟨rfl, rfl⟩

/-- A `sasl-mechanisms` as received, with the two symbols of C18 in the short form. -/
def mechanisms254 : Bytes :=
  [0x00, 0x53, 0x40, 0xc0, 253, 1, 0xe0, 250, 2, 0xa3, 246] ++ List.replicate 246 97 ++ [0]

deriving instance DecidableEq for SaslMechanisms

/-- **C62 violated**: a server's mechanisms, received in the short form, panic the
next receiver if it checks for overflow. -/
theorem C62_violated_array :
    decode SaslMechanisms debugEnv mechanisms254 = .ok ([], ⟨symbols254⟩) ∧
    decode SaslMechanisms debugEnv (enc (⟨symbols254⟩ : SaslMechanisms)) = .panic .overflow := by
  constructor <;> decide +kernel

/-- **C62 violated**: a message without a body comes back with one. -/
theorem C62_violated_body : ∃ m m' : InMessage, ∃ rest rest',
    InMessage.decode debugEnv [0x00, 0x53, 0x70, 0xc0, 1, 0] = .ok (rest, m) ∧ m.data = [] ∧
    InMessage.decode debugEnv (enc m) = .ok (rest', m') ∧ m'.data = [⟨[]⟩] :=
  ⟨_, _, _, _, rfl, rfl, rfl, rfl⟩

/-! ## What can -/

set_option maxRecDepth 8000 in
/-- A `detach` in the wide form, with an extended header and a field left out. -/
example : AmqpFrame.decode debugEnv ((enc (⟨5, .Detach ⟨1, true, none⟩⟩ : AmqpFrame)).drop 4) =
    .ok ([], ⟨5, .Detach ⟨1, true, none⟩⟩) :=
  (C62_frame_partial debugEnv
    ([3, 0, 0, 5, 9, 9, 9, 9, 0x00, 0x53, 0x16, 0xd0, 0, 0, 0, 11, 0, 0, 0, 2, 0x70, 0, 0, 0, 1, 0x56, 1]) []
    ⟨5, .Detach ⟨1, true, none⟩⟩ (by rfl) (fun _ h => by cases h) (by decide +kernel)).1

set_option maxRecDepth 8000 in
/-- A message with annotations in the wide form. -/
example : ∃ rest, InMessage.decode debugEnv
      (enc ({ message_annotations := some ⟨[(⟨.lit "k"⟩, .uint 7)]⟩, data := [⟨[1]⟩] } : InMessage)) =
    .ok (rest, { message_annotations := some ⟨[(⟨.lit "k"⟩, .uint 7)]⟩, data := [⟨[1]⟩] }) := by
  refine C62_message_partial debugEnv
    [0x00, 0x53, 0x72, 0xd1, 0, 0, 0, 12, 0, 0, 0, 2, 0xa3, 1, 107, 0x70, 0, 0, 0, 7,
      0x00, 0x53, 0x75, 0xb0, 0, 0, 0, 1, 1] _
    { message_annotations := some ⟨[(⟨.lit "k"⟩, .uint 7)]⟩, data := [⟨[1]⟩] } (by rfl)
    ⟨(fun _ h => by cases h), (fun a h => ?_), (fun _ h => by cases h),
      (fun _ h => by cases h), (fun _ h => by cases h), (fun _ h => by cases h)⟩ (by decide +kernel)
  cases h
  intro e he
  cases List.mem_singleton.1 he
  exact ⟨trivial, by simp [fwd, Variant.Plain]⟩

example : RoundTrips debugEnv (Variant.map [(.symbol ⟨.lit "a"⟩, .null)]) ↔
    (Variant.map [(.symbol ⟨.lit "a"⟩, .null)]).Plain :=
  C62_exactly_partial debugEnv [0xc1, 5, 2, 0xa3, 1, 97, 0x40] [] _ rfl (by decide +kernel)
example : SaslFrame.decode debugEnv ((enc (⟨.SaslOutcome ⟨.Ok, none⟩⟩ : SaslFrame)).drop 4) =
    .ok ([], ⟨.SaslOutcome ⟨.Ok, none⟩⟩) :=
  (C62_sasl_frame_partial debugEnv [2, 1, 0, 0, 0x00, 0x53, 0x44, 0xc0, 3, 1, 0x50, 0] []
    ⟨.SaslOutcome ⟨.Ok, none⟩⟩ rfl trivial (by decide +kernel)).1

end Amqp
