import Verif.Spec.Delivery
import Verif.Props.Messages
/-!
# C57: messages arrive
-/
set_option autoImplicit false
namespace Amqp
open Dec

/-- What is assumed of the frames sent: their performatives round-trip, bodies
are as long as they say, and no frame is longer than its length field can say. -/
def Sendable (env : Env) (f : AmqpFrame) : Prop :=
  f.performative.ContentRoundTrips env ∧
  (∀ t b, f.performative = .Transfer t → t.body = some b → size b = (enc b).length) ∧
  (enc f).length < 2 ^ 32

theorem stream_received (env : Env) (slack : Growth) (frames : List AmqpFrame) (chunks : List Bytes)
    (dst : Buf) (hf : ∀ f ∈ frames, Sendable env f) :
    ∃ out, encodeAll slack frames dst = .ok out ∧
      (out.data = dst.data ++ chunks.flatten →
        receive env (AmqpFrame.decode env) .frameHeader [] chunks =
          (frames.map AmqpFrame.received, ⟨.frameHeader, [], .none⟩)) := by
  have hsz : ∀ f ∈ frames, size f.performative = (enc f.performative).length := fun f hm =>
    Frame.size_eq f.performative (hf f hm).2.1
  obtain ⟨out, h1, h2⟩ := encodeAll_ok slack frames dst (fun f hm => by
    rw [amqpFrame_enc, List.length_append, frameHeader_length]
    show _ ≤ headerLen + size f.performative
    rw [hsz f hm]
    exact Nat.le_refl _)
  refine ⟨out, h1, fun h => ?_⟩
  rw [h2] at h
  have hc := List.append_cancel_left h
  rw [receive_eq, List.nil_append, ← hc]
  have := drain_frames (env := env) (dec := AmqpFrame.decode env)
    (frames.map fun f => (enc f, f.received)) [] (by
    intro p hp
    simp only [List.mem_map] at hp
    obtain ⟨f, hm, rfl⟩ := hp
    refine ⟨?_, amqpFrame_decode (hf f hm).1⟩
    have hl := (hf f hm).2.2
    show IsFrame (enc f)
    rw [amqpFrame_enc] at hl ⊢
    refine isFrame_header (by rw [hsz f hm]) ?_
    rw [List.length_append, frameHeader_length] at hl
    rw [hsz f hm]
    omega)
  simp only [List.flatMap_map, List.append_nil, List.map_map, Function.comp_def] at this
  rw [this, drain_stop (by intro a h; cases h)]
  rw [List.append_nil]
  rfl

theorem payload_received (t : Transfer) : t.received.payload = t.payload := by
  rw [transfer_received_body]
  unfold Transfer.payload
  split
  · rename_i h; rw [h]; rfl
  · show TransferBody.tenc _ = _
    simp only [TransferBody.tenc]

theorem perf_received (t : Transfer) : t.received.toTransferPerf = t.toTransferPerf := by
  rw [transfer_received_body]

theorem deliveries_received (ch : UInt16) (h : Handle) : ∀ (fs : List AmqpFrame) (acc : Bytes),
    deliveries ch h acc (fs.map AmqpFrame.received) = deliveries ch h acc fs
  | [], _ => rfl
  | ⟨c, p⟩ :: fs, acc => by
    have ih := deliveries_received ch h fs
    simp only [List.map_cons]
    cases p with
    | Transfer t =>
      show deliveries ch h acc (⟨c, .Transfer t.received⟩ :: fs.map AmqpFrame.received) = _
      simp only [deliveries, payload_received, perf_received, ih]
    | _ => exact ih acc

/-- Frames of other links and other performatives do not matter. -/
theorem deliveries_filter (ch : UInt16) (h : Handle) : ∀ (fs : List AmqpFrame) (acc : Bytes),
    deliveries ch h acc (fs.filter (AmqpFrame.onLink ch h)) = deliveries ch h acc fs
  | [], _ => rfl
  | ⟨c, p⟩ :: fs, acc => by
    have ih := deliveries_filter ch h fs
    cases p with
    | Transfer t =>
      by_cases hc : c = ch ∧ t.handle = h
      · rw [List.filter_cons_of_pos (by simp [AmqpFrame.onLink, hc])]
        simp only [deliveries, ih]
      · rw [List.filter_cons_of_neg (by simpa [AmqpFrame.onLink] using hc), ih]
        simp only [deliveries, if_neg hc]
    | _ => exact ih acc

theorem deliveries_carried {ch : UInt16} {h : Handle} {bytes : Bytes} {fs : List AmqpFrame}
    (hc : CarriedBy ch h bytes fs) (more : List AmqpFrame) :
    deliveries ch h [] (fs ++ more) = bytes :: deliveries ch h [] more := by
  obtain ⟨ts, last, rfl, h1, h2, h3, rfl⟩ := hc
  have key : ∀ (ts : List Transfer) (acc : Bytes), (∀ t ∈ ts, t.handle = h ∧ t.more = true) →
      deliveries ch h acc (ts.map (fun t => (⟨ch, .Transfer t⟩ : AmqpFrame)) ++
        [⟨ch, .Transfer last⟩] ++ more) =
      (acc ++ (ts ++ [last]).flatMap Transfer.payload) :: deliveries ch h [] more := by
    intro ts
    induction ts with
    | nil => intro acc _; simp [deliveries, h2, h3]
    | cons t ts ih =>
      intro acc ht
      obtain ⟨k1, k2⟩ := ht t (by simp)
      have := ih (acc ++ t.payload) fun x hx => ht x (by simp [hx])
      simp only [List.append_assoc, List.cons_append, List.nil_append] at this
      simp [deliveries, k1, k2, this]
  simpa using key ts [] h1

theorem deliveries_batch {ch : UInt16} {h : Handle} :
    ∀ (batch : List (Bytes × List AmqpFrame)), (∀ x ∈ batch, CarriedBy ch h x.1 x.2) →
    deliveries ch h [] (batch.flatMap Prod.snd) = batch.map Prod.fst
  | [], _ => rfl
  | x :: t, hb => by
    rw [List.flatMap_cons, deliveries_carried (hb x (by simp)),
      deliveries_batch t fun y hy => hb y (by simp [hy])]
    rfl

/-- **C57**: what a receiver collects from the frames it decodes is what the
sender put into the frames, for every link, whatever the chunks. -/
theorem C57_payloads (env : Env) (slack : Growth) (sent : List AmqpFrame) (chunks : List Bytes)
    (dst : Buf) (hf : ∀ f ∈ sent, Sendable env f) :
    ∃ out, encodeAll slack sent dst = .ok out ∧
      (out.data = dst.data ++ chunks.flatten →
        ∃ got, receive env (AmqpFrame.decode env) .frameHeader [] chunks =
            (got, ⟨.frameHeader, [], .none⟩) ∧
          ∀ ch h, deliveries ch h [] got = deliveries ch h [] sent) := by
  obtain ⟨out, h1, h2⟩ := stream_received env slack sent chunks dst hf
  exact ⟨out, h1, fun h => ⟨_, h2 h, fun ch hd => deliveries_received ch hd sent []⟩⟩

/-- **C57**: messages sent on a link, each in one transfer or several, mixed with
any other frames, arrive in order and intact, whatever the chunks. -/
theorem C57_messages (env : Env) (slack : Growth) (sent : List AmqpFrame) (chunks : List Bytes)
    (dst : Buf) (hf : ∀ f ∈ sent, Sendable env f)
    (ch : UInt16) (h : Handle) (batch : List (OutMessage × List AmqpFrame))
    (hb : ∀ x ∈ batch, CarriedBy ch h (enc x.1) x.2)
    (hlink : sent.filter (AmqpFrame.onLink ch h) = batch.flatMap Prod.snd)
    (hm : ∀ x ∈ batch, x.1.PartsRoundTrip env ∧ ∀ a, x.1.application_properties = some a →
      RoundTrips env (⟨a.entries⟩ : StringVariantMap)) :
    ∃ out, encodeAll slack sent dst = .ok out ∧
      (out.data = dst.data ++ chunks.flatten →
        ∃ got, receive env (AmqpFrame.decode env) .frameHeader [] chunks =
            (got, ⟨.frameHeader, [], .none⟩) ∧
          (deliveries ch h [] got).length = batch.length ∧
          ∀ (i : Nat) (x : OutMessage × List AmqpFrame), batch[i]? = some x →
            ∃ bytes rest, (deliveries ch h [] got)[i]? = some bytes ∧
              InMessage.decode env bytes = .ok (rest, OutMessage.asReceived x.1)) := by
  obtain ⟨out, h1, h2⟩ := C57_payloads env slack sent chunks dst hf
  refine ⟨out, h1, fun hc => ?_⟩
  obtain ⟨got, h3, h4⟩ := h2 hc
  have hd : deliveries ch h [] got = batch.map fun x => enc x.1 := by
    rw [h4, ← deliveries_filter, hlink]
    have := deliveries_batch (ch := ch) (h := h) (batch.map fun x => (enc x.1, x.2)) (by
      intro x hx
      obtain ⟨y, hy, rfl⟩ := List.mem_map.1 hx
      exact hb y hy)
    simpa [List.flatMap_map, List.map_map, Function.comp_def] using this
  refine ⟨got, h3, by rw [hd, List.length_map], fun i x hi => ?_⟩
  have hx : x ∈ batch := List.mem_of_getElem? hi
  obtain ⟨rest, hr⟩ := C37_out_in env x.1 (hm x hx).1 (hm x hx).2
  exact ⟨enc x.1, rest, by rw [hd, List.getElem?_map, hi]; rfl, hr⟩

/-- **C57**: a transfer whose body is the message itself is such a delivery. -/
theorem C57_whole_message (ch : UInt16) (p : TransferPerf) (hp : p.more = false) (m : OutMessage) :
    CarriedBy ch p.handle (enc m) [⟨ch, .Transfer { p with body := some m.toOut }⟩] := by
  refine ⟨[], { p with body := some m.toOut }, rfl, by simp, rfl, hp, ?_⟩
  simp [Transfer.payload, Message.toOut_enc]

/-- **C57**: and it may be sent so if it has no header section. -/
theorem C57_sendable_partial (env : Env) (ch : UInt16) (p : TransferPerf) (m : OutMessage)
    (hp : RoundTrips env p) (hc : m.Coherent) (hh : m.headers = 0)
    (hl : (enc (⟨ch, .Transfer { p with body := some m.toOut }⟩ : AmqpFrame)).length < 2 ^ 32) :
    Sendable env ⟨ch, .Transfer { p with body := some m.toOut }⟩ := by
  refine ⟨hp, ?_, hl⟩
  intro t b ht hb
  cases ht
  cases hb
  rw [Message.toOut_size, Message.toOut_enc]
  exact C35_no_headers_partial LawfulEnc.size_eq m hc hh

/-- What C57 should say: the same for messages with header sections. -/
def C57_statement : Prop := ∀ (env : Env) (ch : UInt16) (p : TransferPerf) (m : OutMessage) (next : Bytes),
  RoundTrips env p → m.Coherent →
  (enc (⟨ch, .Transfer { p with body := some m.toOut }⟩ : AmqpFrame)).length < 2 ^ 31 →
  codecDecode env (AmqpFrame.decode env) .frameHeader
      (enc (⟨ch, .Transfer { p with body := some m.toOut }⟩ : AmqpFrame) ++ next) =
    ⟨.frameHeader, next, .some ⟨ch, .Transfer { p with body := some (.Data ⟨enc m⟩) }⟩⟩

/-- **C57**, exactly: the frame of a message with `k` header sections, in it or in
the messages inside it, takes the first `3 * k` bytes of what follows into the
payload. -/
theorem C57_violated_header (env : Env) (ch : UInt16) (p : TransferPerf) (m : OutMessage)
    (taken next : Bytes) (hp : RoundTrips env p) (hc : m.Coherent)
    (ht : taken.length = 3 * m.headers)
    (hl : (enc (⟨ch, .Transfer { p with body := some m.toOut }⟩ : AmqpFrame)).length +
      3 * m.headers < 2 ^ 32) :
    codecDecode env (AmqpFrame.decode env) .frameHeader
        (enc (⟨ch, .Transfer { p with body := some m.toOut }⟩ : AmqpFrame) ++ (taken ++ next)) =
      ⟨.frameHeader, next, .some ⟨ch, .Transfer { p with body := some (.Data ⟨enc m ++ taken⟩) }⟩⟩ := by
  have hs : size (Frame.Transfer { p with body := some m.toOut }) = (enc p).length +
      (enc m).length + 3 * m.headers := by
    show size p + (some m.toOut).elim 0 size = _
    rw [LawfulEnc.size_eq p, Option.elim_some, Message.toOut_size,
      C35_excess LawfulEnc.size_eq m hc]
    omega
  have he : enc (Frame.Transfer { p with body := some m.toOut }) = enc p ++ enc m := by
    show enc p ++ (some m.toOut).elim [] enc = _
    rw [Option.elim_some, Message.toOut_enc]
  rw [amqpFrame_enc] at hl ⊢
  simp only [hs, he] at hl ⊢
  rw [List.length_append, frameHeader_length, List.length_append] at hl
  generalize hn : 8 + ((enc p).length + (enc m).length + 3 * m.headers) = n at hl ⊢
  have hsrc : ∀ rest : Bytes, beDec ((frameHeader n 0 ch ++ rest).take 4) = n := by
    intro rest
    rw [frameHeader, List.append_assoc, List.append_assoc, take_beEnc, beDec_beEnc,
      Nat.mod_eq_of_lt (by omega)]
  rw [List.append_assoc]
  rw [codecDecode_header (by simp [frameHeader_length]) (by rw [hsrc]; omega), hsrc]
  have hd : (frameHeader n 0 ch ++ ((enc p ++ enc m) ++ (taken ++ next))).drop 4 =
      (frameHeader n 0 ch ++ (enc p ++ (enc m ++ taken))).drop 4 ++ next := by
    rw [← List.drop_append_of_le_length (by simp [frameHeader_length]; omega)]
    simp only [List.append_assoc]
  have hlen : ((frameHeader n 0 ch ++ (enc p ++ (enc m ++ taken))).drop 4).length = n - 4 := by
    simp only [List.length_drop, List.length_append, frameHeader_length]
    omega
  have hdec : AmqpFrame.decode env ((frameHeader n 0 ch ++ (enc p ++ (enc m ++ taken))).drop 4) =
      .ok ([], ⟨ch, .Transfer { p with body := some (.Data ⟨enc m ++ taken⟩) }⟩) := by
    show (decodeFrameHeader 0 >>= _) _ = _
    rw [bind_ok (decodeFrameHeader_enc _ _ _ _), bind_ok (decode_frame_transfer hp _),
      if_neg (by intro h; exact enc_message_ne m (List.append_eq_nil_iff.1 h).1)]
    rfl
  rw [hd]
  unfold frameStep
  rw [if_neg (by rw [List.length_append]; omega), ← hlen, List.take_left, List.drop_left]
  simp only [hdec]
  rfl

/-- An outgoing message with a header. -/
def headerOut : OutMessage := Message.empty.setHeader Header.sample

/-- **C57** is false of messages with headers, and such messages exist: the frame
that follows loses its first three bytes. -/
theorem C57_violated : ¬ C57_statement := by
  intro hst
  have hc : headerOut.Coherent := ⟨.inl rfl, trivial⟩
  have h1 := hst debugEnv 0 TransferPerf.sample headerOut [0, 0, 0] transferSample_roundTrips hc
    (by decide)
  have h2 := C57_violated_header debugEnv 0 TransferPerf.sample headerOut [0, 0, 0] []
    transferSample_roundTrips hc (by decide) (by decide)
  rw [List.append_nil] at h2
  rw [h1] at h2
  simp only [Call.mk.injEq] at h2
  cases h2.2.1

/-! ### An example -/

/-- A message with a body. -/
def bodyMessage : OutMessage := Message.empty.setProperties fun p => { p with group_sequence := some 5 }

/-- It is sent in two transfers with a heartbeat between them and a transfer of
another link. -/
def splitFrames : List AmqpFrame :=
  [⟨1, .Transfer { TransferPerf.sample with more := true, body := some (.Data ⟨(enc bodyMessage).take 7⟩) }⟩,
   ⟨0, .Empty⟩,
   ⟨2, .Transfer { TransferPerf.sample with body := some (.Data ⟨[1, 2]⟩) }⟩,
   ⟨1, .Transfer { TransferPerf.sample with more := false, body := some (.Data ⟨(enc bodyMessage).drop 7⟩) }⟩]

theorem splitFrames_sendable : ∀ f ∈ splitFrames, Sendable debugEnv f := by
  intro f hf
  have hs : ∀ (p : TransferPerf) (d : Binary) (t : Transfer) (b : TransferBody),
      Frame.Transfer { p with body := some (.Data d) } = .Transfer t → t.body = some b →
      size b = (enc b).length := by
    intro p d t b ht hb
    cases ht; cases hb
    show TransferBody.tsize _ = (TransferBody.tenc _).length
    simp only [TransferBody.tsize, TransferBody.tenc]
  simp only [splitFrames, List.mem_cons, List.not_mem_nil, or_false] at hf
  rcases hf with rfl | rfl | rfl | rfl
  · exact ⟨C21_transfer _ _ (by decide) (fun _ => rfl), hs _ _, by decide⟩
  · exact ⟨trivial, (fun _ _ h => by cases h), by decide⟩
  · exact ⟨transferSample_roundTrips, hs _ _, by decide⟩
  · exact ⟨C21_transfer _ _ (by decide) (fun _ => rfl), hs _ _, by decide⟩

/-- The two frames that carry the message. -/
def splitCarrier : List AmqpFrame :=
  [⟨1, .Transfer { TransferPerf.sample with more := true, body := some (.Data ⟨(enc bodyMessage).take 7⟩) }⟩,
   ⟨1, .Transfer { TransferPerf.sample with more := false, body := some (.Data ⟨(enc bodyMessage).drop 7⟩) }⟩]

theorem splitCarrier_carries :
    CarriedBy 1 TransferPerf.sample.handle (enc bodyMessage) splitCarrier := by
  refine ⟨[{ TransferPerf.sample with more := true, body := some (.Data ⟨(enc bodyMessage).take 7⟩) }],
    { TransferPerf.sample with more := false, body := some (.Data ⟨(enc bodyMessage).drop 7⟩) },
    rfl, ?_, rfl, rfl, ?_⟩
  · intro t ht
    cases List.mem_singleton.1 ht
    exact ⟨rfl, rfl⟩
  · simp only [List.flatMap_cons, List.flatMap_nil, Transfer.payload, Option.elim_some,
      List.append_nil]
    exact List.take_append_drop 7 (enc bodyMessage)

theorem bodyMessage_parts : bodyMessage.PartsRoundTrip debugEnv := by
  refine ⟨nofun, nofun, nofun, fun x hx => ?_, nofun, nofun, nofun, nofun, nofun⟩
  cases hx
  exact C21_properties debugEnv _ (by decide) (fun _ => rfl) (fun _ => rfl)

/-- However the bytes arrive, the message does. -/
example (chunks : List Bytes) (out : Buf)
    (h : encodeAll (fun _ _ => 0) splitFrames ⟨[], 0, by decide⟩ = .ok out) (hc : chunks.flatten = out.data) :
    ∃ got bytes rest, receive debugEnv (AmqpFrame.decode debugEnv) .frameHeader [] chunks =
        (got, ⟨.frameHeader, [], .none⟩) ∧
      (deliveries 1 TransferPerf.sample.handle [] got)[0]? = some bytes ∧
      InMessage.decode debugEnv bytes = .ok (rest, OutMessage.asReceived bodyMessage) := by
  obtain ⟨out', h1, h2⟩ := C57_messages debugEnv (fun _ _ => 0) splitFrames chunks
    ⟨[], 0, by decide⟩ splitFrames_sendable 1 TransferPerf.sample.handle
    [(bodyMessage, splitCarrier)]
    (fun x hx => by cases List.mem_singleton.1 hx; exact splitCarrier_carries)
    (by rfl)
    (fun x hx => by cases List.mem_singleton.1 hx; exact ⟨bodyMessage_parts, nofun⟩)
  rw [h1] at h
  cases h
  obtain ⟨got, h3, -, h5⟩ := h2 hc.symm
  obtain ⟨bytes, rest, h6, h7⟩ := h5 0 _ rfl
  exact ⟨got, bytes, rest, h3, h6, h7⟩

example (chunks : List Bytes) : ∃ out, encodeAll (fun _ _ => 0) splitFrames ⟨[], 0, by decide⟩ = .ok out ∧
    (out.data = chunks.flatten →
      ∃ got, receive debugEnv (AmqpFrame.decode debugEnv) .frameHeader [] chunks =
          (got, ⟨.frameHeader, [], .none⟩) ∧
        ∀ ch h, deliveries ch h [] got = deliveries ch h [] splitFrames) :=
  C57_payloads debugEnv (fun _ _ => 0) splitFrames chunks ⟨[], 0, by decide⟩ splitFrames_sendable
example : CarriedBy 1 TransferPerf.sample.handle (enc bodyMessage)
    [⟨1, .Transfer { TransferPerf.sample with more := false, body := some bodyMessage.toOut }⟩] :=
  C57_whole_message 1 { TransferPerf.sample with more := false } rfl bodyMessage
example : Sendable debugEnv ⟨1, .Transfer { TransferPerf.sample with body := some bodyMessage.toOut }⟩ :=
  C57_sendable_partial debugEnv 1 TransferPerf.sample bodyMessage transferSample_roundTrips
    ⟨.inl rfl, trivial⟩ (by decide) (by decide +kernel)

end Amqp
