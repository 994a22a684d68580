import Verif.Proofs.StandardFrames
import Verif.Props.Streams
import Verif.Props.Performatives
/-!
# C71: conformance to the layouts of the standard

Both directions, for every type of the protocol: every legal encoding is read as the
value it encodes, and what is written for a value is a legal encoding of it.  The
layouts are those of `Verif.Spec.Standard`.

The full statement is `Standard.Conforms env (L .all)` for each type with layout `L`.
It holds of the types without values of any type, symbols, filters or times.  The
others are partial: reading needs `Scope.accepted` (`Dialect.accepted`, C50, and nesting
within the stack), writing the conditions `Standard.can…` (no lists within values,
ASCII symbols, whole milliseconds, distinct keys, no texts as filters, no custom names
that are the standard's, no arrays of 254 bytes).  The theorems `C71_violated_…` at the
end show that it is false without.
-/
set_option autoImplicit false
namespace Amqp
open Dec Standard

/-! ## Types for which it holds in full -/

/-- **C71** for `Received`. -/
theorem C71_received (env : Env) : Conforms env (Standard.received .all) :=
  ⟨read_received, write_received⟩
/-- **C71** for `Accepted`. -/
theorem C71_accepted (env : Env) : Conforms env (Standard.accepted .all) :=
  ⟨read_accepted, write_accepted⟩
/-- **C71** for `Released`. -/
theorem C71_released (env : Env) : Conforms env (Standard.released .all) :=
  ⟨read_released, write_released⟩
/-- **C71** for `SaslChallenge`. -/
theorem C71_sasl_challenge (env : Env) : Conforms env (Standard.saslChallenge .all) :=
  ⟨read_saslChallenge, write_saslChallenge⟩
/-- **C71** for `SaslResponse`. -/
theorem C71_sasl_response (env : Env) : Conforms env (Standard.saslResponse .all) :=
  ⟨read_saslResponse, write_saslResponse⟩
/-- **C71** for `SaslOutcome`. -/
theorem C71_sasl_outcome (env : Env) : Conforms env (Standard.saslOutcome .all) :=
  ⟨read_saslOutcome, write_saslOutcome⟩
/-- **C71** for `Header`. -/
theorem C71_header (env : Env) : Conforms env (Standard.header .all) :=
  ⟨read_header, write_header⟩
/-- **C71** for `MessageId`. -/
theorem C71_message_id (env : Env) : Conforms env Standard.messageId :=
  ⟨read_messageId, write_messageId⟩
/-- **C71** for `Role`. -/
theorem C71_role (env : Env) : Conforms env (Standard.role .all) :=
  ⟨read_role, fun a _ => write_role a⟩
/-- **C71** for `SenderSettleMode`. -/
theorem C71_sender_settle_mode (env : Env) : Conforms env Standard.senderSettleMode :=
  ⟨read_senderSettleMode, fun a _ => write_senderSettleMode a⟩
/-- **C71** for `ReceiverSettleMode`. -/
theorem C71_receiver_settle_mode (env : Env) : Conforms env Standard.receiverSettleMode :=
  ⟨read_receiverSettleMode, fun a _ => write_receiverSettleMode a⟩
/-- **C71** for `TerminusDurability`. -/
theorem C71_terminus_durability (env : Env) : Conforms env Standard.terminusDurability :=
  ⟨read_terminusDurability, fun a _ => write_terminusDurability a⟩
/-- **C71** for `TerminusExpiryPolicy`. -/
theorem C71_terminus_expiry_policy (env : Env) : Conforms env (Standard.terminusExpiryPolicy .all) :=
  ⟨read_terminusExpiryPolicy, fun a _ => write_terminusExpiryPolicy a⟩
/-- **C71** for `SaslCode`. -/
theorem C71_sasl_code (env : Env) : Conforms env Standard.saslCode :=
  ⟨read_saslCode, fun a _ => write_saslCode a⟩

/-! ## The others -/

/-- **C71** for `Error`, restricted. -/
theorem C71_error_partial (env : Env) : ConformsOn env Standard.error canError :=
  ⟨read_error, write_error⟩
/-- **C71** for `Rejected`, restricted. -/
theorem C71_rejected_partial (env : Env) : ConformsOn env Standard.rejected canRejected :=
  ⟨read_rejected, write_rejected⟩
/-- **C71** for `Modified`, restricted. -/
theorem C71_modified_partial (env : Env) : ConformsOn env Standard.modified canModified :=
  ⟨read_modified, write_modified⟩
/-- **C71** for `DeliveryState`, restricted. -/
theorem C71_delivery_state_partial (env : Env) : ConformsOn env Standard.deliveryState canState :=
  ⟨read_deliveryState, write_deliveryState⟩
/-- **C71** for `Outcome`, restricted. -/
theorem C71_outcome_partial (env : Env) : ConformsOn env Standard.outcome canOutcome :=
  ⟨read_outcome, write_outcome⟩
/-- **C71** for `Source`, restricted. -/
theorem C71_source_partial (env : Env) : ConformsOn env Standard.source canSource :=
  ⟨read_source, write_source⟩
/-- **C71** for `Target`, restricted. -/
theorem C71_target_partial (env : Env) : ConformsOn env Standard.target canTarget :=
  ⟨read_target, write_target⟩
/-- **C71** for `Open`, restricted. -/
theorem C71_open_partial (env : Env) : ConformsOn env Standard.opening canOpen :=
  ⟨read_opening, write_opening⟩
/-- **C71** for `Begin`, restricted. -/
theorem C71_begin_partial (env : Env) : ConformsOn env Standard.beginning canBegin :=
  ⟨read_beginning, write_beginning⟩
/-- **C71** for `Attach`, restricted. -/
theorem C71_attach_partial (env : Env) : ConformsOn env Standard.attach canAttach :=
  ⟨read_attach, write_attach⟩
/-- **C71** for `Flow`, restricted. -/
theorem C71_flow_partial (env : Env) : ConformsOn env Standard.flow canFlow :=
  ⟨read_flow, write_flow⟩
/-- **C71** for `TransferPerf`, restricted. -/
theorem C71_transfer_partial (env : Env) : ConformsOn env Standard.transfer canTransfer :=
  ⟨read_transfer, write_transfer⟩
/-- **C71** for `Disposition`, restricted. -/
theorem C71_disposition_partial (env : Env) : ConformsOn env Standard.disposition canDisposition :=
  ⟨read_disposition, write_disposition⟩
/-- **C71** for `Detach`, restricted. -/
theorem C71_detach_partial (env : Env) : ConformsOn env Standard.detach canDetach :=
  ⟨read_detach, write_detach⟩
/-- **C71** for `End`, restricted. -/
theorem C71_end_partial (env : Env) : ConformsOn env Standard.ending canEnd :=
  ⟨read_ending, write_ending⟩
/-- **C71** for `Close`, restricted. -/
theorem C71_close_partial (env : Env) : ConformsOn env Standard.close canClose :=
  ⟨read_close, write_close⟩
/-- **C71** for `Properties`, restricted. -/
theorem C71_properties_partial (env : Env) : ConformsOn env Standard.properties canProperties :=
  ⟨read_properties, write_properties⟩
/-- **C71** for `SaslMechanisms`, restricted in what is written only. -/
theorem C71_sasl_mechanisms_partial (env : Env) : ConformsOn env Standard.saslMechanisms (fun v => canSymbols v.sasl_server_mechanisms) :=
  ⟨read_saslMechanisms, write_saslMechanisms⟩
/-- **C71** for `SaslInit`, restricted in what is written only. -/
theorem C71_sasl_init_partial (env : Env) : ConformsOn env Standard.saslInit (fun v => canSymbol v.mechanism) :=
  ⟨read_saslInit, write_saslInit⟩
/-- **C71** for `SaslFrameBody`, restricted in what is written only. -/
theorem C71_sasl_frame_body_partial (env : Env) : ConformsOn env Standard.saslBody canSasl :=
  ⟨read_saslBody, write_saslBody⟩
/-- **C71** for `ErrorCondition`, restricted in what is written only. -/
theorem C71_error_condition_partial (env : Env) : ConformsOn env Standard.errorCondition canCondition :=
  ⟨read_errorCondition, write_errorCondition⟩
/-- **C71** for `DistributionMode`, restricted in what is written only. -/
theorem C71_distribution_mode_partial (env : Env) : ConformsOn env Standard.distributionMode canMode :=
  ⟨read_distributionMode, write_distributionMode⟩
/-- **C71** for `FilterSet`, restricted in what is written only. -/
theorem C71_filter_set_partial (env : Env) : ConformsOn env (fun _ => Standard.filterSet) canFilter :=
  ⟨read_filter, write_filter⟩

/-! ## Frames -/

theorem read_stream {T : Type} {env : Env} {dec : Dec T} {ws : List (Bytes × T)} {chunks : List Bytes}
    (h : ∀ p ∈ ws, IsFrame p.1 ∧ dec (p.1.drop 4) = .ok ([], p.2))
    (hc : chunks.flatten = ws.flatMap Prod.fst) :
    receive env dec .frameHeader [] chunks = (ws.map Prod.snd, ⟨.frameHeader, [], .none⟩) := by
  rw [receive_eq, hc]
  have := drain_frames (env := env) (dec := dec) ws [] h
  rw [List.append_nil] at this
  rw [List.nil_append, this, drain_stop (by intro a h; cases h), List.append_nil]
  rfl

/-- **C71**, AMQP frames: every legal frame is taken off the stream and read as the frame
it encodes, whatever follows; with any extended header. -/
theorem C71_read_amqp_frame_partial (env : Env) (f : AmqpFrame) (b rest : Bytes)
    (h : amqpFrame (.accepted env) f b) :
    codecDecode env (AmqpFrame.decode env) .frameHeader (b ++ rest) = ⟨.frameHeader, rest, .some f⟩ := by
  obtain ⟨h1, h2⟩ := read_amqpFrame f b h
  rw [frame_wire h1, h2]
  rfl

/-- **C71**, SASL frames: likewise, in full. -/
theorem C71_read_sasl_frame (env : Env) (f : SaslFrame) (b rest : Bytes) (h : saslFrame .all f b) :
    codecDecode env (SaslFrame.decode env) .frameHeader (b ++ rest) = ⟨.frameHeader, rest, .some f⟩ := by
  obtain ⟨h1, h2⟩ := read_saslFrame (env := env) f b h
  rw [frame_wire h1, h2]
  rfl

/-- **C71**, streams: any sequence of legal frames, however it is cut into pieces, is read
as the sequence of frames it encodes, and nothing is left. -/
theorem C71_read_stream_partial (env : Env) (ws : List (Bytes × AmqpFrame)) (chunks : List Bytes)
    (h : ∀ p ∈ ws, amqpFrame (.accepted env) p.2 p.1) (hc : chunks.flatten = ws.flatMap Prod.fst) :
    receive env (AmqpFrame.decode env) .frameHeader [] chunks =
      (ws.map Prod.snd, ⟨.frameHeader, [], .none⟩) :=
  read_stream (fun p hp => read_amqpFrame _ _ (h p hp)) hc

/-- **C71**, streams of SASL frames, in full. -/
theorem C71_read_sasl_stream (env : Env) (ws : List (Bytes × SaslFrame)) (chunks : List Bytes)
    (h : ∀ p ∈ ws, saslFrame .all p.2 p.1) (hc : chunks.flatten = ws.flatMap Prod.fst) :
    receive env (SaslFrame.decode env) .frameHeader [] chunks =
      (ws.map Prod.snd, ⟨.frameHeader, [], .none⟩) :=
  read_stream (fun p hp => read_saslFrame _ _ (h p hp)) hc

/-- **C71**, AMQP frames: what is written for a frame is a legal frame. -/
theorem C71_written_amqp_frame_partial (f : AmqpFrame) (h : canFrame f.performative)
    (hs : (enc f).length < 2 ^ 32) : amqpFrame .all f (enc f) := by
  refine write_amqpFrame ?_ (write_frameBody _ h) hs
  obtain ⟨ch, p⟩ := f
  cases p with
  | Transfer v =>
    refine Frame.size_eq _ (plain_exact fun t b ht hb => ?_)
    cases ht
    exact h.2 b hb
  | _ => exact Frame.size_eq _ (plain_exact fun t b ht hb => by cases ht)

/-- **C71**: and so is what is written for a transfer that carries a message, the payload
being the encoding of the message, unless its reported size is wrong (C35). -/
theorem C71_written_transfer_partial (ch : UInt16) (v : Transfer) (p : TransferBody)
    (h : canTransfer v.toTransferPerf) (hb : v.body = some p) (hx : size p = (enc p).length)
    (hne : enc p ≠ []) (hs : (enc (⟨ch, .Transfer v⟩ : AmqpFrame)).length < 2 ^ 32) :
    amqpFrame .all ⟨ch, .Transfer { v with body := some (.Data ⟨enc p⟩) }⟩
      (enc (⟨ch, .Transfer v⟩ : AmqpFrame)) := by
  refine write_amqpFrame (f := ⟨ch, .Transfer v⟩) ?_ (write_transfer_payload v h hb hne) hs
  refine Frame.size_eq _ fun t b ht hb' => ?_
  cases ht
  rw [hb] at hb'
  cases hb'
  exact hx

/-- **C71**, SASL frames: what is written for a frame is a legal frame. -/
theorem C71_written_sasl_frame_partial (f : SaslFrame) (h : canSasl f.body)
    (hs : (enc f).length < 2 ^ 32) : saslFrame .all f (enc f) := write_saslFrame f h hs

/-! ## Messages -/

/-- **C71**, messages: every legal message is read with each section in its place. -/
theorem C71_read_message_partial (env : Env) (m : Standard.Message) (b : Bytes)
    (h : message (.accepted env) m b) :
    ∃ rest, InMessage.decode env b = .ok (rest, m.asReceived id) := read_message id m b h

/-- **C71**, messages to be sent: likewise, in whatever order application properties are
kept. -/
theorem C71_read_out_message_partial (env : Env) (order : StringVariantMap → List (Str × Variant))
    (m : Standard.Message) (b : Bytes) (h : message (.accepted env) m b) :
    ∃ rest, OutMessage.decode env order b = .ok (rest, m.asReceived fun p => ⟨order p⟩) :=
  read_message _ m b h

/-- **C71**, messages: what is written for a message with a body of one kind, other than
sequences, is a legal message.  (`hx`: see C35.) -/
theorem C71_written_message_partial (m : InMessage) (s : Standard.Message)
    (hm : Contains HMap.entries m s) (hc : canMessage s)
    (hx : ∀ b ∈ m.messages, size b = (enc b).length) (hs : (enc m).length < 2 ^ 32) :
    message .all s (enc m) := write_message m s hm hc hx hs

/-- **C71**, messages to be sent. -/
theorem C71_written_out_message_partial (m : OutMessage) (s : Standard.Message)
    (hm : Contains VecVariantMap.entries m s) (hc : canMessage s)
    (hx : ∀ b ∈ m.messages, size b = (enc b).length) (hs : (enc m).length < 2 ^ 32) :
    message .all s (enc m) := write_message m s hm hc hx hs

/-! ## Examples -/

/-- A `begin` as the crate never writes it: descriptor by name, a long list, four
different forms of fields, the fields at the end left out. -/
def foreignBegin : Begin :=
  { remote_channel := none, next_outgoing_id := 0, incoming_window := 5,
    outgoing_window := 256, handle_max := 4294967295, offered_capabilities := none,
    desired_capabilities := none, properties := none }
def foreignBytes : Bytes :=
  [0x00, 0xa3, 15] ++ (RStr.lit "amqp:begin:list").bytes ++
  [0xd0, 0, 0, 0, 13, 0, 0, 0, 4, 0x40, 0x43, 0x52, 5, 0x70, 0, 0, 1, 0]

theorem foreign_legal (P : Part) : beginning (.of P) foreignBegin foreignBytes :=
  ⟨[0xa3, 15] ++ (RStr.lit "amqp:begin:list").bytes,
    0xd0 :: ([0, 0, 0, 13] ++ [0, 0, 0, 4] ++ [[0x40], [0x43], [0x52, 5], [0x70, 0, 0, 1, 0]].flatten),
    .name (.symbol (l := [15]) .narrow ⟨rfl, by decide⟩ (by decide)),
    FieldList.list _ .wide ⟨rfl, by decide⟩ ⟨rfl, by decide⟩
      (.null rfl <| .given Prim.uint0 <| .given (Prim.smalluint (b := [5]) ⟨rfl, by decide⟩) <|
        .given (Prim.uint (b := [0, 0, 1, 0]) ⟨rfl, by decide⟩) <| .done (by
          intro s hs
          simp only [List.mem_cons, List.not_mem_nil, or_false] at hs
          rcases hs with rfl | rfl | rfl | rfl <;> rfl)), by decide⟩

example (env : Env) : Means env foreignBytes foreignBegin :=
  (C71_begin_partial env).1 _ _ (foreign_legal _)

/-- The same in a frame on channel 258 with four bytes of extended header. -/
theorem foreign_frame (P : Part) : amqpFrame (.of P) ⟨258, .Begin foreignBegin⟩
    ([0, 0, 0, 48] ++ [3, 0] ++ [1, 2] ++ [9, 9, 9, 9] ++ foreignBytes) :=
  ⟨[1, 2], ⟨rfl, by decide⟩, .mk rfl (by decide) ⟨rfl, by decide⟩ (foreign_legal P)⟩

example (env : Env) (rest : Bytes) : codecDecode env (AmqpFrame.decode env) .frameHeader
    ([0, 0, 0, 48] ++ [3, 0] ++ [1, 2] ++ [9, 9, 9, 9] ++ foreignBytes ++ rest) =
    ⟨.frameHeader, rest, .some ⟨258, .Begin foreignBegin⟩⟩ :=
  C71_read_amqp_frame_partial env _ _ rest (foreign_frame _)
example (env : Env) (a b : Bytes)
    (h : a ++ b = [0, 0, 0, 48] ++ [3, 0] ++ [1, 2] ++ [9, 9, 9, 9] ++ foreignBytes) :
    receive env (AmqpFrame.decode env) .frameHeader [] [a, b] =
      ([⟨258, .Begin foreignBegin⟩], ⟨.frameHeader, [], .none⟩) :=
  C71_read_stream_partial env [(_, ⟨258, .Begin foreignBegin⟩)] _
    (by intro p hp; obtain rfl := List.mem_singleton.1 hp; exact foreign_frame _)
    (by simpa using h)

/-- A SASL mechanisms frame with an array of two symbols; the two bytes after the type
are ignored. -/
theorem mechanisms_legal : saslFrame .all ⟨.SaslMechanisms ⟨⟨[⟨.lit "A"⟩, ⟨.lit "BC"⟩]⟩⟩⟩
    ([0, 0, 0, 23] ++ [2, 1] ++ [7, 7] ++ [] ++
      [0x00, 0x53, 0x40, 0xc0, 10, 1, 0xe0, 7, 2, 0xa3, 1, 0x41, 2, 0x42, 0x43]) :=
  ⟨[7, 7], .mk rfl (by decide) ⟨rfl, by decide⟩ (⟨[0x53, 0x40], _, .code (.smallulong (num_one 0x40)),
    FieldList.list [[0xe0, 7, 2, 0xa3, 1, 0x41, 2, 0x42, 0x43]] (s := [10]) (n := [1]) .narrow ⟨rfl, by decide⟩
      ⟨rfl, by decide⟩ (.given (Multiple.array (WireArray.mk (c := 0xe0) (k := 0xa3) (w := 1) (s := [7]) (n := [2])
        [((⟨.lit "A"⟩ : Symbol), [1, 0x41]), (⟨.lit "BC"⟩, [2, 0x42, 0x43])] .narrow ⟨rfl, by decide⟩
        ⟨rfl, by decide⟩ (by
          intro p hp
          simp only [List.mem_cons, List.not_mem_nil, or_false] at hp
          rcases hp with rfl | rfl
          · exact Prim.symbol (s := ⟨.lit "A"⟩) (l := [1]) .narrow ⟨rfl, by decide⟩ (by decide)
          · exact Prim.symbol (s := ⟨.lit "BC"⟩) (l := [2]) .narrow ⟨rfl, by decide⟩ (by decide)))) <|
        .done nofun), rfl⟩)⟩
example (env : Env) (rest : Bytes) := C71_read_sasl_frame env _ _ rest mechanisms_legal

example (P : Part) : message (.of P)
    { header := some { Header.sample with ttl := none, durable := false, priority := 4, first_acquirer := false, delivery_count := 0 },
      body := .data [⟨[1, 2]⟩, ⟨[]⟩] }
    ([0x00, 0x53, 0x70, 0x45] ++ [] ++ [] ++ [] ++ [] ++
      ([0x00, 0x53, 0x75, 0xa0, 2, 1, 2] ++ [0x00, 0x80, 0, 0, 0, 0, 0, 0, 0, 0x75, 0xb0, 0, 0, 0, 0]) ++ []) := by
  refine ⟨_, _, _, _, _, _, _, .some ⟨[0x53, 0x70], _, .code (.smallulong (num_one 0x70)),
    FieldList.empty (.done ?_), rfl⟩, .none, .none, .none, .none,
    .more ⟨[0x53, 0x75], [0xa0, 2, 1, 2], .code (.smallulong (num_one 0x75)),
      .binary (l := [2]) .narrow (num_one 2), rfl⟩
      (.last ⟨[0x80, 0, 0, 0, 0, 0, 0, 0, 0x75], [0xb0, 0, 0, 0, 0], .code (.ulong ⟨rfl, by decide⟩),
        .binary (x := ⟨[]⟩) (l := [0, 0, 0, 0]) .wide ⟨rfl, by decide⟩, rfl⟩), .none, rfl⟩
  intro s hs
  simp only [List.mem_cons, List.not_mem_nil, or_false] at hs
  rcases hs with rfl | rfl | rfl | rfl | rfl <;> rfl

theorem sample_canOpen : canOpen Open.sample :=
  ⟨(fun _ h => by cases h), (fun _ h => by cases h), (fun _ h => by cases h), (fun _ h => by cases h),
    (fun _ h => by cases h)⟩
example : amqpFrame .all ⟨7, .Open Open.sample⟩ (enc (⟨7, .Open Open.sample⟩ : AmqpFrame)) :=
  C71_written_amqp_frame_partial _ sample_canOpen (by decide)
example : saslFrame .all ⟨.SaslInit SaslInit.sample⟩ (enc (⟨.SaslInit SaslInit.sample⟩ : SaslFrame)) :=
  C71_written_sasl_frame_partial _ (by show RStr.Ascii _; unfold RStr.Ascii; decide) (by decide)
example : message .all { header := some Header.sample, body := .data [⟨[]⟩] }
    (enc (Message.empty.setHeader Header.sample : InMessage)) :=
  C71_written_message_partial _ _ ⟨rfl, rfl, rfl, rfl, rfl, ⟨rfl, rfl, rfl⟩, rfl⟩
    ⟨(fun _ h => by cases h), (fun _ h => by cases h), (fun _ h => by cases h), (fun _ h => by cases h),
      List.cons_ne_nil _ _, (fun _ h => by cases h)⟩ (by intro b hb; cases hb) (by decide)

/-! ## What is violated -/

/-- **C71 violated**: a source with a filter as the standard has it, a described value
under a name, is legal but rejected. -/
theorem C71_violated_filter :
    sourceWith .all (fun (m : List (Symbol × Variant)) b =>
        WireMap symbol (fun v u => ∃ d x, v = .described d x ∧ any .all v u) m b)
      (some [(⟨.lit "f"⟩, .described (.symbol ⟨.lit "x:y"⟩) (.string (.lit "a")))])
      { address := none, durable := .None, expiry_policy := .SessionEnd, timeout := 0,
        dynamic := false, dynamic_node_properties := none, distribution_mode := none, filter := none,
        default_outcome := none, outcomes := none, capabilities := none }
      [0x00, 0x53, 0x28, 0xc0, 23, 8, 0x40, 0x40, 0x40, 0x40, 0x40, 0x40, 0x40,
        0xc1, 13, 2, 0xa3, 1, 0x66, 0x00, 0xa3, 3, 0x78, 0x3a, 0x79, 0xa1, 1, 0x61] ∧
    decode Source debugEnv
      [0x00, 0x53, 0x28, 0xc0, 23, 8, 0x40, 0x40, 0x40, 0x40, 0x40, 0x40, 0x40,
        0xc1, 13, 2, 0xa3, 1, 0x66, 0x00, 0xa3, 3, 0x78, 0x3a, 0x79, 0xa1, 1, 0x61] =
      .err (.invalidFormatCode 0x00) := by
  refine ⟨⟨[0x53, 0x28], _, .code (.smallulong (num_one 0x28)),
    FieldList.list [[0x40], [0x40], [0x40], [0x40], [0x40], [0x40], [0x40],
      [0xc1, 13, 2, 0xa3, 1, 0x66, 0x00, 0xa3, 3, 0x78, 0x3a, 0x79, 0xa1, 1, 0x61]]
      (s := [23]) (n := [8]) .narrow ⟨rfl, by decide⟩ ⟨rfl, by decide⟩ ?_, rfl⟩, by rfl⟩
  refine .null rfl <| .null rfl <| .null rfl <| .null rfl <| .null rfl <| .null rfl <| .null rfl <|
    .given ⟨_, rfl, ?_⟩ <| .done ?_
  · exact WireMap.mk (c := 0xc1) (w := 1) (s := [13]) (n := [2])
      [(((⟨.lit "f"⟩ : Symbol), [0xa3, 1, 0x66]),
        (Variant.described (.symbol ⟨.lit "x:y"⟩) (.string (.lit "a")),
          [0x00, 0xa3, 3, 0x78, 0x3a, 0x79, 0xa1, 1, 0x61]))]
      .narrow ⟨rfl, by decide⟩ ⟨rfl, by decide⟩ (by
        intro p hp
        obtain rfl := List.mem_singleton.1 hp
        refine ⟨Prim.symbol (s := ⟨.lit "f"⟩) (l := [1]) .narrow ⟨rfl, by decide⟩ (by decide), _, _, rfl, ?_, trivial⟩
        exact .described (db := [0xa3, 3, 0x78, 0x3a, 0x79]) (b := [0xa1, 1, 0x61])
          (Prim.symbol (s := ⟨.lit "x:y"⟩) (l := [3]) .narrow ⟨rfl, by decide⟩ (by decide))
          (.prim (.string (s := .lit "a") (l := [1]) .narrow ⟨rfl, by decide⟩)))
      (by simp [NodupKeys])
  · intro s hs
    simp only [List.mem_cons, List.not_mem_nil, or_false] at hs
    rcases hs with rfl | rfl | rfl <;> rfl

/-- **C71 violated**: the target of a link to a transaction coordinator (part 4 of the
standard) is rejected. -/
theorem C71_violated_coordinator :
    composite .all 0x30 "amqp:coordinator:list" [optional symbols none] [0x00, 0x53, 0x30, 0x45] ∧
    decode Target debugEnv [0x00, 0x53, 0x30, 0x45] = .err (.invalidDescriptor (.ulong 0x30)) :=
  ⟨⟨[0x53, 0x30], _, .code (.smallulong (num_one 0x30)), FieldList.empty (.done (by
    intro s hs; obtain rfl := List.mem_singleton.1 hs; rfl)), rfl⟩, by rfl⟩

/-- The descriptor decides what a described value can be. -/
theorem described_small {c : UInt64} {n : String} {body : Bytes → Prop} {w rest t : Bytes} {x : UInt8}
    (h : described c n body w) (e : w ++ rest = 0x00 :: 0x53 :: x :: t) :
    c.toNat = x.toNat ∧ ∃ u, body u ∧ u ++ rest = t := by
  obtain ⟨db, u, hd, hu, rfl⟩ := h
  simp only [List.cons_append, List.cons.injEq, true_and, List.append_assoc] at e
  cases hd with
  | code h =>
    generalize hv : Variant.ulong c = v at h
    cases h with
    | smallulong hn =>
      cases hv
      obtain ⟨y, rfl, hy⟩ := hn.one
      simp only [List.cons_append, List.nil_append, List.cons.injEq, true_and] at e
      exact ⟨by rw [← hy, e.1], u, hu, e.2⟩
    | _ => first | (cases hv; done) | (cases hv; simp at e)
  | name h =>
    generalize hv : Variant.symbol _ = v at h
    cases h with
    | symbol hs _ _ => cases hs <;> simp at e
    | _ => cases hv

theorem maybe_small {α : Type} {c : UInt64} {n : String} {body : α → Bytes → Prop} {o : Option α}
    {w rest t : Bytes} {x : UInt8} (h : Maybe (fun a => described c n (body a)) o w)
    (hc : c.toNat ≠ x.toNat) (e : w ++ rest = 0x00 :: 0x53 :: x :: t) :
    rest = 0x00 :: 0x53 :: x :: t := by
  cases h with
  | none => exact e
  | some h => exact absurd (described_small h e).1 hc

/-- In front of the body there is nothing that begins as a section of the body does. -/
theorem message_body {S : Scope} {s : Standard.Message} {t : Bytes} {x : UInt8}
    (hx : 0x75 ≤ x.toNat) (h : message S s (0x00 :: 0x53 :: x :: t)) :
    ∃ bd f, Standard.body S s.body bd ∧ Maybe (footer S) s.footer f ∧ bd ++ f = 0x00 :: 0x53 :: x :: t := by
  obtain ⟨b1, b2, b3, b4, b5, b6, b7, h1, h2, h3, h4, h5, h6, h7, e⟩ := h
  simp only [List.append_assoc] at e
  have e1 := maybe_small h1 (x := x) (by show 0x70 ≠ _; omega) e.symm
  have e2 := maybe_small h2 (x := x) (by show 0x71 ≠ _; omega) e1
  have e3 := maybe_small h3 (x := x) (by show 0x72 ≠ _; omega) e2
  have e4 := maybe_small h4 (x := x) (by show 0x73 ≠ _; omega) e3
  have e5 := maybe_small h5 (x := x) (by show 0x74 ≠ _; omega) e4
  exact ⟨b6, b7, h6, h7, e5⟩

theorem several_head {α : Type} {L : Rep α} {l : List α} {b : Bytes} (h : Several L l b) :
    ∃ a w t, L a w ∧ b = w ++ t ∧ (t = [] ∨ ∃ l', Several L l' t) := by
  cases h with
  | last h => exact ⟨_, _, [], h, by simp, .inl rfl⟩
  | more h h' => exact ⟨_, _, _, h, rfl, .inr ⟨_, h'⟩⟩

/-- **C71 violated**: what is written for a message with sequences is not a legal message,
whatever the sequences. -/
theorem C71_violated_sequence (l : List VList) (hl : l ≠ []) (s : Standard.Message) :
    ¬ message .all s (enc ({ sequence := l } : InMessage)) := by
  intro h
  obtain ⟨a, l', rfl⟩ := List.exists_cons_of_ne_nil hl
  have e : ∃ c w, enc ({ sequence := a :: l' } : InMessage) = 0x00 :: 0x53 :: 0x76 :: c :: w ∧
      (c = 0xe0 ∨ c = 0xf0) := by
    have hz : ({ sequence := a :: l' } : InMessage).bodySize ≠ 0 := fun h => by
      have := (Message.bodySize_zero h).2.1
      cases this
    have e1 : enc ({ sequence := a :: l' } : InMessage) =
        bodyEncOrEmpty ({ sequence := a :: l' } : InMessage).bodySize
          (bodyEncWith [] (a :: l') none (nestedEnc [])) := by
      show [] ++ _ ++ [] = _
      rw [List.append_nil]; rfl
    rw [e1, bodyEncOrEmpty, if_neg hz, bodyEncWith, List.flatMap_cons]
    simp only [List.flatMap_nil, List.nil_append, sectionEnc, List.append_assoc]
    have e2 : enc (Descriptor.ulong 118) = [0x00, 0x53, 0x76] := by decide
    rw [e2]
    have e3 : ∃ c w, enc a = c :: w ∧ (c = 0xe0 ∨ c = 0xf0) := by
      show ∃ c w, compoundHdr FC.array8 FC.array32 _ _ ++ _ = _ ∧ _
      unfold compoundHdr
      split
      · exact ⟨_, _, rfl, .inr rfl⟩
      · exact ⟨_, _, rfl, .inl rfl⟩
    obtain ⟨c, w, e3, hc⟩ := e3
    rw [e3]
    exact ⟨c, _, rfl, hc⟩
  obtain ⟨c, w, e, hc⟩ := e
  rw [e] at h
  obtain ⟨bd, f, hb, -, e⟩ := message_body (by decide) h
  have no : ∀ v u rest, Wire .amqp v u → u ++ rest = c :: w → False := by
    intro v u rest hw hu
    cases hw with
    | prim hp =>
      cases hp with
      | binary hs _ | string hs _ | symbol hs _ _ =>
        cases hs <;> (cases hu; rcases hc with hc | hc <;> exact absurd hc (by decide))
      | _ => cases hu; rcases hc with hc | hc <;> exact absurd hc (by decide)
    | timestamp => cases hu; rcases hc with hc | hc <;> exact absurd hc (by decide)
    | list0 => cases hu; rcases hc with hc | hc <;> exact absurd hc (by decide)
    | list _ hs => cases hs <;> (cases hu; rcases hc with hc | hc <;> exact absurd hc (by decide))
    | map _ hs => cases hs <;> (cases hu; rcases hc with hc | hc <;> exact absurd hc (by decide))
    | described => cases hu; rcases hc with hc | hc <;> exact absurd hc (by decide)
  cases hs : s.body with
  | data l =>
    rw [hs] at hb
    obtain ⟨a, w, t, ha, rfl, -⟩ := several_head hb
    rw [List.append_assoc] at e
    exact absurd (described_small ha e).1 (by decide)
  | sequence l =>
    rw [hs] at hb
    obtain ⟨a, w, t, ha, rfl, -⟩ := several_head hb
    rw [List.append_assoc] at e
    obtain ⟨-, u, hu, e'⟩ := described_small ha e
    exact no _ _ _ hu.1 e'
  | value v =>
    rw [hs] at hb
    exact absurd (described_small hb e).1 (by decide)

/-- **C71 violated**: what is written for a message with data and a value is not a legal
message: the standard allows one kind of body. -/
theorem C71_violated_two_bodies (d : Binary) (v : Variant) (s : Standard.Message)
    (hd : (enc d).length < 2 ^ 32) :
    ¬ message .all s (enc ({ data := [d], value := some v } : InMessage)) := by
  intro h
  have e : enc ({ data := [d], value := some v } : InMessage) =
      0x00 :: 0x53 :: 0x75 :: (enc d ++ 0x00 :: 0x53 :: 0x77 :: enc v) := by
    have hz : ({ data := [d], value := some v } : InMessage).bodySize ≠ 0 := fun h => by
      have := (Message.bodySize_zero h).1
      cases this
    have e1 : enc ({ data := [d], value := some v } : InMessage) =
        bodyEncOrEmpty ({ data := [d], value := some v } : InMessage).bodySize
          (bodyEncWith [d] [] (some v) (nestedEnc [])) := by
      show [] ++ _ ++ [] = _
      rw [List.append_nil]; rfl
    have e2 : enc (Descriptor.ulong 117) = [0x00, 0x53, 0x75] := by decide
    have e3 : enc (Descriptor.ulong 119) = [0x00, 0x53, 0x77] := by decide
    rw [e1, bodyEncOrEmpty, if_neg hz, bodyEncWith, nestedEnc]
    simp [sectionEnc, e2, e3]
  rw [e] at h
  obtain ⟨bd, f, hb, hf, e⟩ := message_body (by decide) h
  cases hs : s.body with
  | data l =>
    rw [hs] at hb
    obtain ⟨a, w, t, ha, rfl, ht⟩ := several_head hb
    rw [List.append_assoc] at e
    obtain ⟨-, u, hu, e'⟩ := described_small ha e
    have h1 := read_binary (env := debugEnv) a u hu (t ++ f)
    have h2 := read_binary (env := debugEnv) d _ (write_binary d hd) (0x00 :: 0x53 :: 0x77 :: enc v)
    rw [e', h2] at h1
    have h3 : t ++ f = 0x00 :: 0x53 :: 0x77 :: enc v := by
      injection h1 with h1; injection h1 with h1 _; exact h1.symm
    rcases ht with rfl | ⟨l', ht⟩
    · generalize s.footer = o at hf
      cases hf with
      | none => cases h3
      | some hf => exact absurd (described_small (rest := []) hf (by simpa using h3)).1 (by decide)
    · obtain ⟨a', w', t', ha', rfl, -⟩ := several_head ht
      rw [List.append_assoc] at h3
      exact absurd (described_small ha' h3).1 (by decide)
  | sequence l =>
    rw [hs] at hb
    obtain ⟨a, w, t, ha, rfl, -⟩ := several_head hb
    rw [List.append_assoc] at e
    exact absurd (described_small ha e).1 (by decide)
  | value v =>
    rw [hs] at hb
    exact absurd (described_small hb e).1 (by decide)

/-- **C71 violated**: what is written for a filter set with a text is not a legal filter
set, of whatever filters: a filter is null or a described value. -/
theorem C71_violated_filter_written {φ : Type} (L : Rep φ)
    (hL : ∀ v u, L v u → u = null ∨ ∃ t, u = 0x00 :: t) (fs : List (Symbol × φ)) :
    ¬ WireMap symbol L fs (enc (⟨[(⟨.lit "f"⟩, some (.lit "x"))]⟩ : FilterSet)) := by
  intro h
  have e : enc (⟨[(⟨.lit "f"⟩, some (.lit "x"))]⟩ : FilterSet) =
    [0xc1, 7, 2, 0xa3, 1, 0x66, 0xa1, 1, 0x78] := by decide
  rw [e] at h
  generalize hb : ([0xc1, 7, 2, 0xa3, 1, 0x66, 0xa1, 1, 0x78] : Bytes) = b at h
  cases h with
  | mk items hs h1 h2 h3 h4 =>
    cases hs with
    | wide => cases hb
    | narrow =>
      obtain ⟨x, rfl, -⟩ := h1.one
      obtain ⟨y, rfl, hy⟩ := h2.one
      simp only [List.cons_append, List.nil_append, List.cons.injEq, true_and] at hb
      obtain ⟨-, rfl, hb⟩ := hb
      have hn : items.length = 1 := by
        have : (2 : UInt8).toNat = 2 := rfl
        omega
      match items, hn with
      | [((k, kb), (v, vb))], _ =>
        obtain ⟨hk, hv⟩ := h3 _ (List.mem_singleton.2 rfl)
        simp only [List.flatMap_cons, List.flatMap_nil, List.append_nil] at hb
        have h5 := read_symbol (env := debugEnv) k kb hk vb
        rw [← hb] at h5
        have h6 : decode Symbol debugEnv [0xa3, 1, 0x66, 0xa1, 1, 0x78] =
          .ok ([0xa1, 1, 0x78], ⟨.lit "f"⟩) := by rfl
        rw [h6] at h5
        have h7 : [0xa1, 1, 0x78] = vb := by injection h5 with h5; injection h5
        subst h7
        rcases hL v _ hv with h | ⟨t, h⟩
        · cases h
        · cases h

end Amqp
