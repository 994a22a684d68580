import Verif.Protocol.CountedBase
import Verif.Protocol.Frame
/-! Generated by `tools/gen_protocol.py`: counting decoders of the protocol types of
`src/protocol/definitions.rs`. -/
set_option autoImplicit false
namespace Amqp

/-- `src/protocol/definitions.rs:452-457`. -/
instance : DecodeC Role := ⟨decodeEnumC Role.tryFrom⟩
/-- `src/protocol/definitions.rs:500-505`. -/
instance : DecodeC SenderSettleMode := ⟨decodeEnumC SenderSettleMode.tryFrom⟩
/-- `src/protocol/definitions.rs:554-559`. -/
instance : DecodeC ReceiverSettleMode := ⟨decodeEnumC ReceiverSettleMode.tryFrom⟩
/-- `src/protocol/definitions.rs:622-627`. -/
instance : DecodeC AmqpError := ⟨decodeEnumC AmqpError.tryFrom⟩
/-- `src/protocol/definitions.rs:682-687`. -/
instance : DecodeC ConnectionError := ⟨decodeEnumC ConnectionError.tryFrom⟩
/-- `src/protocol/definitions.rs:724-729`. -/
instance : DecodeC SessionError := ⟨decodeEnumC SessionError.tryFrom⟩
/-- `src/protocol/definitions.rs:772-777`. -/
instance : DecodeC LinkError := ⟨decodeEnumC LinkError.tryFrom⟩
/-- `src/protocol/definitions.rs:822-827`. -/
instance : DecodeC SaslCode := ⟨decodeEnumC SaslCode.tryFrom⟩
/-- `src/protocol/definitions.rs:894-899`. -/
instance : DecodeC TerminusDurability := ⟨decodeEnumC TerminusDurability.tryFrom⟩
/-- `src/protocol/definitions.rs:952-957`. -/
instance : DecodeC TerminusExpiryPolicy := ⟨decodeEnumC TerminusExpiryPolicy.tryFrom⟩

/-- The fields part of `decode_error_inner`, `src/protocol/definitions.rs:1086-1128`. -/
def Error.decFieldsC (p : Price) (env : Env) : FieldCost Error := do
  let condition ← fReqC ErrorCondition p env "condition"
  let description ← fOptC ByteStr p env
  let info ← fOptC Fields p env
  pure { condition, description, info }

/-- `decode_error_inner`, `src/protocol/definitions.rs:1086-1128`. -/
def Error.decInnerC (p : Price) (env : Env) : Cost Error :=
  listInnerC env (Error.decFieldsC p env)

/-- `src/protocol/definitions.rs:1162-1176`. -/
instance : DecodeC Error where
  decFC p env fmt := describedAsC p env fmt 29 "amqp:error:list" (Error.decInnerC p env)

/-- The fields part of `decode_received_inner`, `src/protocol/definitions.rs:4258-4290`. -/
def Received.decFieldsC (p : Price) (env : Env) : FieldCost Received := do
  let section_number ← fReqC UInt32 p env "section_number"
  let section_offset ← fReqC UInt64 p env "section_offset"
  pure { section_number, section_offset }

/-- `decode_received_inner`, `src/protocol/definitions.rs:4258-4290`. -/
def Received.decInnerC (p : Price) (env : Env) : Cost Received :=
  listInnerC env (Received.decFieldsC p env)

/-- `src/protocol/definitions.rs:4317-4331`. -/
instance : DecodeC Received where
  decFC p env fmt := describedAsC p env fmt 35 "amqp:received:list" (Received.decInnerC p env)

/-- The fields part of `decode_accepted_inner`, `src/protocol/definitions.rs:4347-4354`. -/
def Accepted.decFieldsC (p : Price) (env : Env) : FieldCost Accepted := do
  pure {}

/-- `decode_accepted_inner`, `src/protocol/definitions.rs:4347-4354`. -/
def Accepted.decInnerC (p : Price) (env : Env) : Cost Accepted :=
  listInnerC env (Accepted.decFieldsC p env)

/-- `src/protocol/definitions.rs:4379-4393`. -/
instance : DecodeC Accepted where
  decFC p env fmt := describedAsC p env fmt 36 "amqp:accepted:list" (Accepted.decInnerC p env)

/-- The fields part of `decode_rejected_inner`, `src/protocol/definitions.rs:4414-4431`. -/
def Rejected.decFieldsC (p : Price) (env : Env) : FieldCost Rejected := do
  let error ← fOptC Error p env
  pure { error }

/-- `decode_rejected_inner`, `src/protocol/definitions.rs:4414-4431`. -/
def Rejected.decInnerC (p : Price) (env : Env) : Cost Rejected :=
  listInnerC env (Rejected.decFieldsC p env)

/-- `src/protocol/definitions.rs:4457-4471`. -/
instance : DecodeC Rejected where
  decFC p env fmt := describedAsC p env fmt 37 "amqp:rejected:list" (Rejected.decInnerC p env)

/-- The fields part of `decode_released_inner`, `src/protocol/definitions.rs:4487-4494`. -/
def Released.decFieldsC (p : Price) (env : Env) : FieldCost Released := do
  pure {}

/-- `decode_released_inner`, `src/protocol/definitions.rs:4487-4494`. -/
def Released.decInnerC (p : Price) (env : Env) : Cost Released :=
  listInnerC env (Released.decFieldsC p env)

/-- `src/protocol/definitions.rs:4519-4533`. -/
instance : DecodeC Released where
  decFC p env fmt := describedAsC p env fmt 38 "amqp:released:list" (Released.decInnerC p env)

/-- The fields part of `decode_modified_inner`, `src/protocol/definitions.rs:4562-4604`. -/
def Modified.decFieldsC (p : Price) (env : Env) : FieldCost Modified := do
  let delivery_failed ← fOptC Bool p env
  let undeliverable_here ← fOptC Bool p env
  let message_annotations ← fOptC Fields p env
  pure { delivery_failed, undeliverable_here, message_annotations }

/-- `decode_modified_inner`, `src/protocol/definitions.rs:4562-4604`. -/
def Modified.decInnerC (p : Price) (env : Env) : Cost Modified :=
  listInnerC env (Modified.decFieldsC p env)

/-- `src/protocol/definitions.rs:4638-4652`. -/
instance : DecodeC Modified where
  decFC p env fmt := describedAsC p env fmt 39 "amqp:modified:list" (Modified.decInnerC p env)

/-- The descriptor dispatch of `DeliveryState`, `src/protocol/definitions.rs:138-176`. -/
def DeliveryState.dispatchC (p : Price) (env : Env) (d : Descriptor) : Cost DeliveryState :=
  if d = .ulong 35 then Received.decInnerC p env >>= fun v => pure (DeliveryState.Received v) else
  if d = .ulong 36 then Accepted.decInnerC p env >>= fun v => pure (DeliveryState.Accepted v) else
  if d = .ulong 37 then Rejected.decInnerC p env >>= fun v => pure (DeliveryState.Rejected v) else
  if d = .ulong 38 then Released.decInnerC p env >>= fun v => pure (DeliveryState.Released v) else
  if d = .ulong 39 then Modified.decInnerC p env >>= fun v => pure (DeliveryState.Modified v) else
  if d = .sym "amqp:received:list" then Received.decInnerC p env >>= fun v => pure (DeliveryState.Received v) else
  if d = .sym "amqp:accepted:list" then Accepted.decInnerC p env >>= fun v => pure (DeliveryState.Accepted v) else
  if d = .sym "amqp:rejected:list" then Rejected.decInnerC p env >>= fun v => pure (DeliveryState.Rejected v) else
  if d = .sym "amqp:released:list" then Released.decInnerC p env >>= fun v => pure (DeliveryState.Released v) else
  if d = .sym "amqp:modified:list" then Modified.decInnerC p env >>= fun v => pure (DeliveryState.Modified v) else
  Cost.of (Dec.fail (.invalidDescriptor d))

/-- `src/protocol/definitions.rs:138-176`. -/
instance : DecodeC DeliveryState where
  decFC p env fmt := unionC p env fmt (DeliveryState.dispatchC p env)

/-- The descriptor dispatch of `Outcome`, `src/protocol/definitions.rs:271-303`. -/
def Outcome.dispatchC (p : Price) (env : Env) (d : Descriptor) : Cost Outcome :=
  if d = .ulong 36 then Accepted.decInnerC p env >>= fun v => pure (Outcome.Accepted v) else
  if d = .ulong 37 then Rejected.decInnerC p env >>= fun v => pure (Outcome.Rejected v) else
  if d = .ulong 38 then Released.decInnerC p env >>= fun v => pure (Outcome.Released v) else
  if d = .ulong 39 then Modified.decInnerC p env >>= fun v => pure (Outcome.Modified v) else
  if d = .sym "amqp:accepted:list" then Accepted.decInnerC p env >>= fun v => pure (Outcome.Accepted v) else
  if d = .sym "amqp:rejected:list" then Rejected.decInnerC p env >>= fun v => pure (Outcome.Rejected v) else
  if d = .sym "amqp:released:list" then Released.decInnerC p env >>= fun v => pure (Outcome.Released v) else
  if d = .sym "amqp:modified:list" then Modified.decInnerC p env >>= fun v => pure (Outcome.Modified v) else
  Cost.of (Dec.fail (.invalidDescriptor d))

/-- `src/protocol/definitions.rs:271-303`. -/
instance : DecodeC Outcome where
  decFC p env fmt := unionC p env fmt (Outcome.dispatchC p env)

/-- The fields part of `decode_source_inner`, `src/protocol/definitions.rs:3410-3532`. -/
def Source.decFieldsC (p : Price) (env : Env) : FieldCost Source := do
  let address ← fOptC Address p env
  let durable ← fDefC TerminusDurability p env TerminusDurability.None
  let expiry_policy ← fDefC TerminusExpiryPolicy p env TerminusExpiryPolicy.SessionEnd
  let timeout ← fDefC Seconds p env 0
  let dynamic ← fDefC Bool p env false
  let dynamic_node_properties ← fOptC NodeProperties p env
  let distribution_mode ← fOptC DistributionMode p env
  let filter ← fOptC FilterSet p env
  let default_outcome ← fOptC Outcome p env
  let outcomes ← fOptC Symbols p env
  let capabilities ← fOptC Symbols p env
  pure { address, durable, expiry_policy, timeout, dynamic, dynamic_node_properties, distribution_mode, filter, default_outcome, outcomes, capabilities }

/-- `decode_source_inner`, `src/protocol/definitions.rs:3410-3532`. -/
def Source.decInnerC (p : Price) (env : Env) : Cost Source :=
  listInnerC env (Source.decFieldsC p env)

/-- `src/protocol/definitions.rs:3590-3604`. -/
instance : DecodeC Source where
  decFC p env fmt := describedAsC p env fmt 40 "amqp:source:list" (Source.decInnerC p env)

/-- The fields part of `decode_target_inner`, `src/protocol/definitions.rs:3649-3731`. -/
def Target.decFieldsC (p : Price) (env : Env) : FieldCost Target := do
  let address ← fOptC Address p env
  let durable ← fDefC TerminusDurability p env TerminusDurability.None
  let expiry_policy ← fDefC TerminusExpiryPolicy p env TerminusExpiryPolicy.SessionEnd
  let timeout ← fDefC Seconds p env 0
  let dynamic ← fDefC Bool p env false
  let dynamic_node_properties ← fOptC NodeProperties p env
  let capabilities ← fOptC Symbols p env
  pure { address, durable, expiry_policy, timeout, dynamic, dynamic_node_properties, capabilities }

/-- `decode_target_inner`, `src/protocol/definitions.rs:3649-3731`. -/
def Target.decInnerC (p : Price) (env : Env) : Cost Target :=
  listInnerC env (Target.decFieldsC p env)

/-- `src/protocol/definitions.rs:3777-3791`. -/
instance : DecodeC Target where
  decFC p env fmt := describedAsC p env fmt 41 "amqp:target:list" (Target.decInnerC p env)

/-- The fields part of `decode_open_inner`, `src/protocol/definitions.rs:1233-1345`. -/
def Open.decFieldsC (p : Price) (env : Env) : FieldCost Open := do
  let container_id ← fReqC ByteStr p env "container_id"
  let hostname ← fOptC ByteStr p env
  let max_frame_size ← fDefC UInt32 p env 4294967295
  let channel_max ← fDefC UInt16 p env 65535
  let idle_time_out ← fOptC Milliseconds p env
  let outgoing_locales ← fOptC IetfLanguageTags p env
  let incoming_locales ← fOptC IetfLanguageTags p env
  let offered_capabilities ← fOptC Symbols p env
  let desired_capabilities ← fOptC Symbols p env
  let properties ← fOptC Fields p env
  pure { container_id, hostname, max_frame_size, channel_max, idle_time_out, outgoing_locales, incoming_locales, offered_capabilities, desired_capabilities, properties }

/-- `decode_open_inner`, `src/protocol/definitions.rs:1233-1345`. -/
def Open.decInnerC (p : Price) (env : Env) : Cost Open :=
  listInnerC env (Open.decFieldsC p env)

/-- `src/protocol/definitions.rs:1400-1414`. -/
instance : DecodeC Open where
  decFC p env fmt := describedAsC p env fmt 16 "amqp:open:list" (Open.decInnerC p env)

/-- The fields part of `decode_begin_inner`, `src/protocol/definitions.rs:1463-1555`. -/
def Begin.decFieldsC (p : Price) (env : Env) : FieldCost Begin := do
  let remote_channel ← fOptC UInt16 p env
  let next_outgoing_id ← fReqC TransferNumber p env "next_outgoing_id"
  let incoming_window ← fReqC UInt32 p env "incoming_window"
  let outgoing_window ← fReqC UInt32 p env "outgoing_window"
  let handle_max ← fDefC Handle p env 4294967295
  let offered_capabilities ← fOptC Symbols p env
  let desired_capabilities ← fOptC Symbols p env
  let properties ← fOptC Fields p env
  pure { remote_channel, next_outgoing_id, incoming_window, outgoing_window, handle_max, offered_capabilities, desired_capabilities, properties }

/-- `decode_begin_inner`, `src/protocol/definitions.rs:1463-1555`. -/
def Begin.decInnerC (p : Price) (env : Env) : Cost Begin :=
  listInnerC env (Begin.decFieldsC p env)

/-- `src/protocol/definitions.rs:1604-1618`. -/
instance : DecodeC Begin where
  decFC p env fmt := describedAsC p env fmt 17 "amqp:begin:list" (Begin.decInnerC p env)

/-- The fields part of `decode_attach_inner`, `src/protocol/definitions.rs:1691-1843`. -/
def Attach.decFieldsC (p : Price) (env : Env) : FieldCost Attach := do
  let name ← fReqC ByteStr p env "name"
  let handle ← fReqC Handle p env "handle"
  let role ← fReqC Role p env "role"
  let snd_settle_mode ← fDefC SenderSettleMode p env SenderSettleMode.Mixed
  let rcv_settle_mode ← fDefC ReceiverSettleMode p env ReceiverSettleMode.First
  let source ← fOptC Source p env
  let target ← fOptC Target p env
  let unsettled ← fOptC Map p env
  let incomplete_unsettled ← fDefC Bool p env false
  let initial_delivery_count ← fOptC SequenceNo p env
  let max_message_size ← fOptC UInt64 p env
  let offered_capabilities ← fOptC Symbols p env
  let desired_capabilities ← fOptC Symbols p env
  let properties ← fOptC Fields p env
  pure { name, handle, role, snd_settle_mode, rcv_settle_mode, source, target, unsettled, incomplete_unsettled, initial_delivery_count, max_message_size, offered_capabilities, desired_capabilities, properties }

/-- `decode_attach_inner`, `src/protocol/definitions.rs:1691-1843`. -/
def Attach.decInnerC (p : Price) (env : Env) : Cost Attach :=
  listInnerC env (Attach.decFieldsC p env)

/-- `src/protocol/definitions.rs:1910-1924`. -/
instance : DecodeC Attach where
  decFC p env fmt := describedAsC p env fmt 18 "amqp:attach:list" (Attach.decInnerC p env)

/-- The fields part of `decode_flow_inner`, `src/protocol/definitions.rs:1985-2107`. -/
def Flow.decFieldsC (p : Price) (env : Env) : FieldCost Flow := do
  let next_incoming_id ← fOptC TransferNumber p env
  let incoming_window ← fReqC UInt32 p env "incoming_window"
  let next_outgoing_id ← fReqC TransferNumber p env "next_outgoing_id"
  let outgoing_window ← fReqC UInt32 p env "outgoing_window"
  let handle ← fOptC Handle p env
  let delivery_count ← fOptC SequenceNo p env
  let link_credit ← fOptC UInt32 p env
  let available ← fOptC UInt32 p env
  let drain ← fDefC Bool p env false
  let echo ← fDefC Bool p env false
  let properties ← fOptC Fields p env
  pure { next_incoming_id, incoming_window, next_outgoing_id, outgoing_window, handle, delivery_count, link_credit, available, drain, echo, properties }

/-- `decode_flow_inner`, `src/protocol/definitions.rs:1985-2107`. -/
def Flow.decInnerC (p : Price) (env : Env) : Cost Flow :=
  listInnerC env (Flow.decFieldsC p env)

/-- `src/protocol/definitions.rs:2165-2179`. -/
instance : DecodeC Flow where
  decFC p env fmt := describedAsC p env fmt 19 "amqp:flow:list" (Flow.decInnerC p env)

/-- The fields part of `decode_disposition_inner`, `src/protocol/definitions.rs:2491-2563`. -/
def Disposition.decFieldsC (p : Price) (env : Env) : FieldCost Disposition := do
  let role ← fReqC Role p env "role"
  let first ← fReqC DeliveryNumber p env "first"
  let last ← fOptC DeliveryNumber p env
  let settled ← fDefC Bool p env false
  let state ← fOptC DeliveryState p env
  let batchable ← fDefC Bool p env false
  pure { role, first, last, settled, state, batchable }

/-- `decode_disposition_inner`, `src/protocol/definitions.rs:2491-2563`. -/
def Disposition.decInnerC (p : Price) (env : Env) : Cost Disposition :=
  listInnerC env (Disposition.decFieldsC p env)

/-- `src/protocol/definitions.rs:2606-2620`. -/
instance : DecodeC Disposition where
  decFC p env fmt := describedAsC p env fmt 21 "amqp:disposition:list" (Disposition.decInnerC p env)

/-- The fields part of `decode_detach_inner`, `src/protocol/definitions.rs:2649-2691`. -/
def Detach.decFieldsC (p : Price) (env : Env) : FieldCost Detach := do
  let handle ← fReqC Handle p env "handle"
  let closed ← fDefC Bool p env false
  let error ← fOptC Error p env
  pure { handle, closed, error }

/-- `decode_detach_inner`, `src/protocol/definitions.rs:2649-2691`. -/
def Detach.decInnerC (p : Price) (env : Env) : Cost Detach :=
  listInnerC env (Detach.decFieldsC p env)

/-- `src/protocol/definitions.rs:2721-2735`. -/
instance : DecodeC Detach where
  decFC p env fmt := describedAsC p env fmt 22 "amqp:detach:list" (Detach.decInnerC p env)

/-- The fields part of `decode_end_inner`, `src/protocol/definitions.rs:2756-2773`. -/
def End.decFieldsC (p : Price) (env : Env) : FieldCost End := do
  let error ← fOptC Error p env
  pure { error }

/-- `decode_end_inner`, `src/protocol/definitions.rs:2756-2773`. -/
def End.decInnerC (p : Price) (env : Env) : Cost End :=
  listInnerC env (End.decFieldsC p env)

/-- `src/protocol/definitions.rs:2799-2813`. -/
instance : DecodeC End where
  decFC p env fmt := describedAsC p env fmt 23 "amqp:end:list" (End.decInnerC p env)

/-- The fields part of `decode_close_inner`, `src/protocol/definitions.rs:2834-2851`. -/
def Close.decFieldsC (p : Price) (env : Env) : FieldCost Close := do
  let error ← fOptC Error p env
  pure { error }

/-- `decode_close_inner`, `src/protocol/definitions.rs:2834-2851`. -/
def Close.decInnerC (p : Price) (env : Env) : Cost Close :=
  listInnerC env (Close.decFieldsC p env)

/-- `src/protocol/definitions.rs:2877-2891`. -/
instance : DecodeC Close where
  decFC p env fmt := describedAsC p env fmt 24 "amqp:close:list" (Close.decInnerC p env)

/-- The fields part of `decode_transfer_inner`, `src/protocol/definitions.rs:2244-2374`. -/
def TransferPerf.decFieldsC (p : Price) (env : Env) : FieldCost TransferPerf := do
  let handle ← fReqC Handle p env "handle"
  let delivery_id ← fOptC DeliveryNumber p env
  let delivery_tag ← fOptC DeliveryTag p env
  let message_format ← fOptC MessageFormat p env
  let settled ← fOptC Bool p env
  let more ← fDefC Bool p env false
  let rcv_settle_mode ← fOptC ReceiverSettleMode p env
  let state ← fOptC DeliveryState p env
  let resume ← fDefC Bool p env false
  let aborted ← fDefC Bool p env false
  let batchable ← fDefC Bool p env false
  pure { handle, delivery_id, delivery_tag, message_format, settled, more, rcv_settle_mode, state, resume, aborted, batchable }

/-- `decode_transfer_inner`, `src/protocol/definitions.rs:2244-2374`. -/
def TransferPerf.decInnerC (p : Price) (env : Env) : Cost TransferPerf :=
  listInnerC env (TransferPerf.decFieldsC p env)

/-- `src/protocol/definitions.rs:2436-2450`. -/
instance : DecodeC TransferPerf where
  decFC p env fmt := describedAsC p env fmt 20 "amqp:transfer:list" (TransferPerf.decInnerC p env)

/-- The fields part of `decode_sasl_mechanisms_inner`, `src/protocol/definitions.rs:2912-2936`. -/
def SaslMechanisms.decFieldsC (p : Price) (env : Env) : FieldCost SaslMechanisms := do
  let sasl_server_mechanisms ← fReqC Symbols p env "sasl_server_mechanisms"
  pure { sasl_server_mechanisms }

/-- `decode_sasl_mechanisms_inner`, `src/protocol/definitions.rs:2912-2936`. -/
def SaslMechanisms.decInnerC (p : Price) (env : Env) : Cost SaslMechanisms :=
  listInnerC env (SaslMechanisms.decFieldsC p env)

/-- `src/protocol/definitions.rs:2962-2976`. -/
instance : DecodeC SaslMechanisms where
  decFC p env fmt := describedAsC p env fmt 64 "amqp:sasl-mechanisms:list" (SaslMechanisms.decInnerC p env)

/-- The fields part of `decode_sasl_init_inner`, `src/protocol/definitions.rs:3005-3047`. -/
def SaslInit.decFieldsC (p : Price) (env : Env) : FieldCost SaslInit := do
  let mechanism ← fReqC Symbol p env "mechanism"
  let initial_response ← fOptC Binary p env
  let hostname ← fOptC ByteStr p env
  pure { mechanism, initial_response, hostname }

/-- `decode_sasl_init_inner`, `src/protocol/definitions.rs:3005-3047`. -/
def SaslInit.decInnerC (p : Price) (env : Env) : Cost SaslInit :=
  listInnerC env (SaslInit.decFieldsC p env)

/-- `src/protocol/definitions.rs:3081-3095`. -/
instance : DecodeC SaslInit where
  decFC p env fmt := describedAsC p env fmt 65 "amqp:sasl-init:list" (SaslInit.decInnerC p env)

/-- The fields part of `decode_sasl_challenge_inner`, `src/protocol/definitions.rs:3116-3133`. -/
def SaslChallenge.decFieldsC (p : Price) (env : Env) : FieldCost SaslChallenge := do
  let challenge ← fReqC Binary p env "challenge"
  pure { challenge }

/-- `decode_sasl_challenge_inner`, `src/protocol/definitions.rs:3116-3133`. -/
def SaslChallenge.decInnerC (p : Price) (env : Env) : Cost SaslChallenge :=
  listInnerC env (SaslChallenge.decFieldsC p env)

/-- `src/protocol/definitions.rs:3159-3173`. -/
instance : DecodeC SaslChallenge where
  decFC p env fmt := describedAsC p env fmt 66 "amqp:sasl-challenge:list" (SaslChallenge.decInnerC p env)

/-- The fields part of `decode_sasl_response_inner`, `src/protocol/definitions.rs:3194-3211`. -/
def SaslResponse.decFieldsC (p : Price) (env : Env) : FieldCost SaslResponse := do
  let response ← fReqC Binary p env "response"
  pure { response }

/-- `decode_sasl_response_inner`, `src/protocol/definitions.rs:3194-3211`. -/
def SaslResponse.decInnerC (p : Price) (env : Env) : Cost SaslResponse :=
  listInnerC env (SaslResponse.decFieldsC p env)

/-- `src/protocol/definitions.rs:3237-3251`. -/
instance : DecodeC SaslResponse where
  decFC p env fmt := describedAsC p env fmt 67 "amqp:sasl-response:list" (SaslResponse.decInnerC p env)

/-- The fields part of `decode_sasl_outcome_inner`, `src/protocol/definitions.rs:3276-3308`. -/
def SaslOutcome.decFieldsC (p : Price) (env : Env) : FieldCost SaslOutcome := do
  let code ← fReqC SaslCode p env "code"
  let additional_data ← fOptC Binary p env
  pure { code, additional_data }

/-- `decode_sasl_outcome_inner`, `src/protocol/definitions.rs:3276-3308`. -/
def SaslOutcome.decInnerC (p : Price) (env : Env) : Cost SaslOutcome :=
  listInnerC env (SaslOutcome.decFieldsC p env)

/-- `src/protocol/definitions.rs:3335-3349`. -/
instance : DecodeC SaslOutcome where
  decFC p env fmt := describedAsC p env fmt 68 "amqp:sasl-outcome:list" (SaslOutcome.decInnerC p env)

/-- The descriptor dispatch of `SaslFrameBody`, `src/protocol/definitions.rs:205-243`. -/
def SaslFrameBody.dispatchC (p : Price) (env : Env) (d : Descriptor) : Cost SaslFrameBody :=
  if d = .ulong 64 then SaslMechanisms.decInnerC p env >>= fun v => pure (SaslFrameBody.SaslMechanisms v) else
  if d = .ulong 65 then SaslInit.decInnerC p env >>= fun v => pure (SaslFrameBody.SaslInit v) else
  if d = .ulong 66 then SaslChallenge.decInnerC p env >>= fun v => pure (SaslFrameBody.SaslChallenge v) else
  if d = .ulong 67 then SaslResponse.decInnerC p env >>= fun v => pure (SaslFrameBody.SaslResponse v) else
  if d = .ulong 68 then SaslOutcome.decInnerC p env >>= fun v => pure (SaslFrameBody.SaslOutcome v) else
  if d = .sym "amqp:sasl-mechanisms:list" then SaslMechanisms.decInnerC p env >>= fun v => pure (SaslFrameBody.SaslMechanisms v) else
  if d = .sym "amqp:sasl-init:list" then SaslInit.decInnerC p env >>= fun v => pure (SaslFrameBody.SaslInit v) else
  if d = .sym "amqp:sasl-challenge:list" then SaslChallenge.decInnerC p env >>= fun v => pure (SaslFrameBody.SaslChallenge v) else
  if d = .sym "amqp:sasl-response:list" then SaslResponse.decInnerC p env >>= fun v => pure (SaslFrameBody.SaslResponse v) else
  if d = .sym "amqp:sasl-outcome:list" then SaslOutcome.decInnerC p env >>= fun v => pure (SaslFrameBody.SaslOutcome v) else
  Cost.of (Dec.fail (.invalidDescriptor d))

/-- `src/protocol/definitions.rs:205-243`. -/
instance : DecodeC SaslFrameBody where
  decFC p env fmt := unionC p env fmt (SaslFrameBody.dispatchC p env)

/-- The fields part of `decode_header_inner`, `src/protocol/definitions.rs:3828-3890`. -/
def Header.decFieldsC (p : Price) (env : Env) : FieldCost Header := do
  let durable ← fDefC Bool p env false
  let priority ← fDefC UInt8 p env 4
  let ttl ← fOptC Milliseconds p env
  let first_acquirer ← fDefC Bool p env false
  let delivery_count ← fDefC UInt32 p env 0
  pure { durable, priority, ttl, first_acquirer, delivery_count }

/-- `decode_header_inner`, `src/protocol/definitions.rs:3828-3890`. -/
def Header.decInnerC (p : Price) (env : Env) : Cost Header :=
  listInnerC env (Header.decFieldsC p env)

/-- `src/protocol/definitions.rs:3930-3944`. -/
instance : DecodeC Header where
  decFC p env fmt := describedAsC p env fmt 112 "amqp:header:list" (Header.decInnerC p env)

/-- The fields part of `decode_properties_inner`, `src/protocol/definitions.rs:4013-4155`. -/
def Properties.decFieldsC (p : Price) (env : Env) : FieldCost Properties := do
  let message_id ← fOptC MessageId p env
  let user_id ← fOptC Binary p env
  let to ← fOptC Address p env
  let subject ← fOptC ByteStr p env
  let reply_to ← fOptC Address p env
  let correlation_id ← fOptC MessageId p env
  let content_type ← fOptC Symbol p env
  let content_encoding ← fOptC Symbol p env
  let absolute_expiry_time ← fOptC Timestamp p env
  let creation_time ← fOptC Timestamp p env
  let group_id ← fOptC ByteStr p env
  let group_sequence ← fOptC SequenceNo p env
  let reply_to_group_id ← fOptC ByteStr p env
  pure { message_id, user_id, to, subject, reply_to, correlation_id, content_type, content_encoding, absolute_expiry_time, creation_time, group_id, group_sequence, reply_to_group_id }

/-- `decode_properties_inner`, `src/protocol/definitions.rs:4013-4155`. -/
def Properties.decInnerC (p : Price) (env : Env) : Cost Properties :=
  listInnerC env (Properties.decFieldsC p env)

/-- `src/protocol/definitions.rs:4219-4233`. -/
instance : DecodeC Properties where
  decFC p env fmt := describedAsC p env fmt 115 "amqp:properties:list" (Properties.decInnerC p env)

/-- `decode_delivery_annotations_inner`, `src/protocol/definitions.rs:976-989`. -/
def DeliveryAnnotations.decInnerC (p : Price) (env : Env) : Cost DeliveryAnnotations := decodeC DeliveryAnnotations p env
/-- `decode_message_annotations_inner`, `src/protocol/definitions.rs:990-1003`. -/
def MessageAnnotations.decInnerC (p : Price) (env : Env) : Cost MessageAnnotations := decodeC MessageAnnotations p env
/-- `decode_application_properties_inner`, `src/protocol/definitions.rs:1004-1017`. -/
def ApplicationProperties.decInnerC (p : Price) (env : Env) : Cost ApplicationProperties := decodeC ApplicationProperties p env
/-- `decode_data_inner`, `src/protocol/definitions.rs:1018-1029`. -/
def Data.decInnerC (p : Price) (env : Env) : Cost Data := decodeC Data p env
/-- `decode_amqp_sequence_inner`, `src/protocol/definitions.rs:1030-1041`. -/
def AmqpSequence.decInnerC (p : Price) (env : Env) : Cost AmqpSequence := decodeC AmqpSequence p env
/-- `decode_amqp_value_inner`, `src/protocol/definitions.rs:1042-1053`. -/
def AmqpValue.decInnerC (p : Price) (env : Env) : Cost AmqpValue := decodeC AmqpValue p env
/-- `decode_footer_inner`, `src/protocol/definitions.rs:1054-1065`. -/
def Footer.decInnerC (p : Price) (env : Env) : Cost Footer := decodeC Footer p env

/-- The descriptor dispatch of `Section`, `src/protocol/definitions.rs:334-394`. -/
def Section.dispatchC (p : Price) (env : Env) (d : Descriptor) : Cost Section :=
  if d = .ulong 112 then Header.decInnerC p env >>= fun v => pure (Section.Header v) else
  if d = .ulong 113 then DeliveryAnnotations.decInnerC p env >>= fun v => pure (Section.DeliveryAnnotations v) else
  if d = .ulong 114 then MessageAnnotations.decInnerC p env >>= fun v => pure (Section.MessageAnnotations v) else
  if d = .ulong 116 then ApplicationProperties.decInnerC p env >>= fun v => pure (Section.ApplicationProperties v) else
  if d = .ulong 117 then Data.decInnerC p env >>= fun v => pure (Section.Data v) else
  if d = .ulong 118 then AmqpSequence.decInnerC p env >>= fun v => pure (Section.AmqpSequence v) else
  if d = .ulong 119 then AmqpValue.decInnerC p env >>= fun v => pure (Section.AmqpValue v) else
  if d = .ulong 120 then Footer.decInnerC p env >>= fun v => pure (Section.Footer v) else
  if d = .ulong 115 then Properties.decInnerC p env >>= fun v => pure (Section.Properties v) else
  if d = .sym "amqp:header:list" then Header.decInnerC p env >>= fun v => pure (Section.Header v) else
  if d = .sym "amqp:delivery-annotations:map" then DeliveryAnnotations.decInnerC p env >>= fun v => pure (Section.DeliveryAnnotations v) else
  if d = .sym "amqp:message-annotations:map" then MessageAnnotations.decInnerC p env >>= fun v => pure (Section.MessageAnnotations v) else
  if d = .sym "amqp:application-properties:map" then ApplicationProperties.decInnerC p env >>= fun v => pure (Section.ApplicationProperties v) else
  if d = .sym "amqp:data:binary" then Data.decInnerC p env >>= fun v => pure (Section.Data v) else
  if d = .sym "amqp:amqp-sequence:list" then AmqpSequence.decInnerC p env >>= fun v => pure (Section.AmqpSequence v) else
  if d = .sym "amqp:amqp-value:*" then AmqpValue.decInnerC p env >>= fun v => pure (Section.AmqpValue v) else
  if d = .sym "amqp:footer:map" then Footer.decInnerC p env >>= fun v => pure (Section.Footer v) else
  if d = .sym "amqp:properties:list" then Properties.decInnerC p env >>= fun v => pure (Section.Properties v) else
  Cost.of (Dec.fail (.invalidDescriptor d))

/-- `src/protocol/definitions.rs:334-394`. -/
instance : DecodeC Section where
  decFC p env fmt := unionC p env fmt (Section.dispatchC p env)

/-- The end of `decode_transfer_inner`, see `Transfer.withBody`: what follows the list is copied. -/
def Transfer.withBodyC (p : Price) (t : TransferPerf) : Cost Transfer := fun remainder =>
  (Transfer.withBody t remainder, remainder.length * p.byte)

/-- `decode_transfer_inner`, `src/protocol/definitions.rs:2244-2374`. -/
def Transfer.decInnerC (p : Price) (env : Env) : Cost Transfer := do
  let t ← TransferPerf.decInnerC p env
  Transfer.withBodyC p t

/-- `src/protocol/definitions.rs:2436-2450`. -/
instance : DecodeC Transfer where
  decFC p env fmt := describedAsC p env fmt 20 "amqp:transfer:list" (Transfer.decInnerC p env)

/-- The descriptor dispatch of `Frame`, `src/protocol/definitions.rs:38-99`. -/
def Frame.dispatchC (p : Price) (env : Env) (d : Descriptor) : Cost Frame :=
  if d = .ulong 16 then Open.decInnerC p env >>= fun v => pure (Frame.Open v) else
  if d = .ulong 17 then Begin.decInnerC p env >>= fun v => pure (Frame.Begin v) else
  if d = .ulong 18 then Attach.decInnerC p env >>= fun v => pure (Frame.Attach v) else
  if d = .ulong 19 then Flow.decInnerC p env >>= fun v => pure (Frame.Flow v) else
  if d = .ulong 20 then Transfer.decInnerC p env >>= fun v => pure (Frame.Transfer v) else
  if d = .ulong 21 then Disposition.decInnerC p env >>= fun v => pure (Frame.Disposition v) else
  if d = .ulong 22 then Detach.decInnerC p env >>= fun v => pure (Frame.Detach v) else
  if d = .ulong 23 then End.decInnerC p env >>= fun v => pure (Frame.End v) else
  if d = .ulong 24 then Close.decInnerC p env >>= fun v => pure (Frame.Close v) else
  if d = .sym "amqp:open:list" then Open.decInnerC p env >>= fun v => pure (Frame.Open v) else
  if d = .sym "amqp:begin:list" then Begin.decInnerC p env >>= fun v => pure (Frame.Begin v) else
  if d = .sym "amqp:attach:list" then Attach.decInnerC p env >>= fun v => pure (Frame.Attach v) else
  if d = .sym "amqp:flow:list" then Flow.decInnerC p env >>= fun v => pure (Frame.Flow v) else
  if d = .sym "amqp:transfer:list" then Transfer.decInnerC p env >>= fun v => pure (Frame.Transfer v) else
  if d = .sym "amqp:disposition:list" then Disposition.decInnerC p env >>= fun v => pure (Frame.Disposition v) else
  if d = .sym "amqp:detach:list" then Detach.decInnerC p env >>= fun v => pure (Frame.Detach v) else
  if d = .sym "amqp:end:list" then End.decInnerC p env >>= fun v => pure (Frame.End v) else
  if d = .sym "amqp:close:list" then Close.decInnerC p env >>= fun v => pure (Frame.Close v) else
  Cost.of (Dec.fail (.invalidDescriptor d))

/-- `Frame::decode`, `src/protocol/definitions.rs:38-99`. -/
def Frame.decodeC (p : Price) (env : Env) : Cost Frame := fun input =>
  if input.isEmpty then (.ok (input, .Empty), 0)
  else (do
    let fmt ← Cost.of formatCode
    validateCodeC fmt FC.described (Amqp.decodeC Descriptor p env >>= Frame.dispatchC p env) :
      Cost Frame) input

end Amqp
