import Verif.Protocol.Conditions
/-! Generated by `tools/gen_protocol.py`: list types and described unions of
`src/protocol/definitions.rs`, except `Transfer` and `Frame` (see `Verif.Protocol.Transfer`). -/
namespace Amqp

/-- `Error`, `src/protocol/definitions.rs:1067-1071`. -/
structure Error where
  condition : ErrorCondition
  description : Option ByteStr
  info : Option Fields

/-- The fields part of `decode_error_inner`, `src/protocol/definitions.rs:1086-1128`. -/
def Error.decFields (env : Env) : FieldDec Error := do
  let condition ← fReq ErrorCondition env "condition"
  let description ← fOpt ByteStr env
  let info ← fOpt Fields env
  pure { condition, description, info }

/-- `decode_error_inner`, `src/protocol/definitions.rs:1086-1128`. -/
def Error.decInner (env : Env) : Dec Error := listInner env (Error.decFields env)

/-- `src/protocol/definitions.rs:1162-1176`. -/
instance : DecodeF Error where
  decF env fmt := describedAs env fmt 29 "amqp:error:list" (Error.decInner env)

/-- `encoded_size_error_inner`, `src/protocol/definitions.rs:1129-1141`;
`encode_error_inner`, `src/protocol/definitions.rs:1142-1161`. -/
instance : Encode Error where
  size v := listSize (size v.condition + size v.description + size v.info)
  enc v := listHdr 29 (size v.condition + size v.description + size v.info) 3 ++
    (enc v.condition ++ enc v.description ++ enc v.info)

/-- `Received`, `src/protocol/definitions.rs:4243-4246`. -/
structure Received where
  section_number : UInt32
  section_offset : UInt64

/-- The fields part of `decode_received_inner`, `src/protocol/definitions.rs:4258-4290`. -/
def Received.decFields (env : Env) : FieldDec Received := do
  let section_number ← fReq UInt32 env "section_number"
  let section_offset ← fReq UInt64 env "section_offset"
  pure { section_number, section_offset }

/-- `decode_received_inner`, `src/protocol/definitions.rs:4258-4290`. -/
def Received.decInner (env : Env) : Dec Received := listInner env (Received.decFields env)

/-- `src/protocol/definitions.rs:4317-4331`. -/
instance : DecodeF Received where
  decF env fmt := describedAs env fmt 35 "amqp:received:list" (Received.decInner env)

/-- `encoded_size_received_inner`, `src/protocol/definitions.rs:4291-4300`;
`encode_received_inner`, `src/protocol/definitions.rs:4301-4316`. -/
instance : Encode Received where
  size v := listSize (size v.section_number + size v.section_offset)
  enc v := listHdr 35 (size v.section_number + size v.section_offset) 2 ++
    (enc v.section_number ++ enc v.section_offset)

/-- `Accepted`, `src/protocol/definitions.rs:4341-4341`. -/
structure Accepted where

/-- The fields part of `decode_accepted_inner`, `src/protocol/definitions.rs:4347-4354`. -/
def Accepted.decFields (env : Env) : FieldDec Accepted := do
  pure {}

/-- `decode_accepted_inner`, `src/protocol/definitions.rs:4347-4354`. -/
def Accepted.decInner (env : Env) : Dec Accepted := listInner env (Accepted.decFields env)

/-- `src/protocol/definitions.rs:4379-4393`. -/
instance : DecodeF Accepted where
  decF env fmt := describedAs env fmt 36 "amqp:accepted:list" (Accepted.decInner env)

/-- `encoded_size_accepted_inner`, `src/protocol/definitions.rs:4355-4364`;
`encode_accepted_inner`, `src/protocol/definitions.rs:4365-4378`. -/
instance : Encode Accepted where
  size _ := listSize (0)
  enc _ := listHdr 36 (0) 0 ++
    ([])

/-- `Rejected`, `src/protocol/definitions.rs:4403-4405`. -/
structure Rejected where
  error : Option Error

/-- The fields part of `decode_rejected_inner`, `src/protocol/definitions.rs:4414-4431`. -/
def Rejected.decFields (env : Env) : FieldDec Rejected := do
  let error ← fOpt Error env
  pure { error }

/-- `decode_rejected_inner`, `src/protocol/definitions.rs:4414-4431`. -/
def Rejected.decInner (env : Env) : Dec Rejected := listInner env (Rejected.decFields env)

/-- `src/protocol/definitions.rs:4457-4471`. -/
instance : DecodeF Rejected where
  decF env fmt := describedAs env fmt 37 "amqp:rejected:list" (Rejected.decInner env)

/-- `encoded_size_rejected_inner`, `src/protocol/definitions.rs:4432-4441`;
`encode_rejected_inner`, `src/protocol/definitions.rs:4442-4456`. -/
instance : Encode Rejected where
  size v := listSize (size v.error)
  enc v := listHdr 37 (size v.error) 1 ++
    (enc v.error)

/-- `Released`, `src/protocol/definitions.rs:4481-4481`. -/
structure Released where

/-- The fields part of `decode_released_inner`, `src/protocol/definitions.rs:4487-4494`. -/
def Released.decFields (env : Env) : FieldDec Released := do
  pure {}

/-- `decode_released_inner`, `src/protocol/definitions.rs:4487-4494`. -/
def Released.decInner (env : Env) : Dec Released := listInner env (Released.decFields env)

/-- `src/protocol/definitions.rs:4519-4533`. -/
instance : DecodeF Released where
  decF env fmt := describedAs env fmt 38 "amqp:released:list" (Released.decInner env)

/-- `encoded_size_released_inner`, `src/protocol/definitions.rs:4495-4504`;
`encode_released_inner`, `src/protocol/definitions.rs:4505-4518`. -/
instance : Encode Released where
  size _ := listSize (0)
  enc _ := listHdr 38 (0) 0 ++
    ([])

/-- `Modified`, `src/protocol/definitions.rs:4543-4547`. -/
structure Modified where
  delivery_failed : Option Bool
  undeliverable_here : Option Bool
  message_annotations : Option Fields

/-- The fields part of `decode_modified_inner`, `src/protocol/definitions.rs:4562-4604`. -/
def Modified.decFields (env : Env) : FieldDec Modified := do
  let delivery_failed ← fOpt Bool env
  let undeliverable_here ← fOpt Bool env
  let message_annotations ← fOpt Fields env
  pure { delivery_failed, undeliverable_here, message_annotations }

/-- `decode_modified_inner`, `src/protocol/definitions.rs:4562-4604`. -/
def Modified.decInner (env : Env) : Dec Modified := listInner env (Modified.decFields env)

/-- `src/protocol/definitions.rs:4638-4652`. -/
instance : DecodeF Modified where
  decF env fmt := describedAs env fmt 39 "amqp:modified:list" (Modified.decInner env)

/-- `encoded_size_modified_inner`, `src/protocol/definitions.rs:4605-4617`;
`encode_modified_inner`, `src/protocol/definitions.rs:4618-4637`. -/
instance : Encode Modified where
  size v := listSize (size v.delivery_failed + size v.undeliverable_here + size v.message_annotations)
  enc v := listHdr 39 (size v.delivery_failed + size v.undeliverable_here + size v.message_annotations) 3 ++
    (enc v.delivery_failed ++ enc v.undeliverable_here ++ enc v.message_annotations)

/-- `DeliveryState`, `src/protocol/definitions.rs:131-137`. -/
inductive DeliveryState where
  | Received (v : Received)
  | Accepted (v : Accepted)
  | Rejected (v : Rejected)
  | Released (v : Released)
  | Modified (v : Modified)

/-- The descriptor dispatch of `DeliveryState`, `src/protocol/definitions.rs:138-176`. -/
def DeliveryState.dispatch (env : Env) (d : Descriptor) : Dec DeliveryState :=
  if d = .ulong 35 then DeliveryState.Received <$> Received.decInner env else
  if d = .ulong 36 then DeliveryState.Accepted <$> Accepted.decInner env else
  if d = .ulong 37 then DeliveryState.Rejected <$> Rejected.decInner env else
  if d = .ulong 38 then DeliveryState.Released <$> Released.decInner env else
  if d = .ulong 39 then DeliveryState.Modified <$> Modified.decInner env else
  if d = .sym "amqp:received:list" then DeliveryState.Received <$> Received.decInner env else
  if d = .sym "amqp:accepted:list" then DeliveryState.Accepted <$> Accepted.decInner env else
  if d = .sym "amqp:rejected:list" then DeliveryState.Rejected <$> Rejected.decInner env else
  if d = .sym "amqp:released:list" then DeliveryState.Released <$> Released.decInner env else
  if d = .sym "amqp:modified:list" then DeliveryState.Modified <$> Modified.decInner env else
  Dec.fail (.invalidDescriptor d)

/-- `src/protocol/definitions.rs:138-176`. -/
instance : DecodeF DeliveryState where
  decF env fmt := validateCode fmt FC.described (decode Descriptor env >>= DeliveryState.dispatch env)

/-- `src/protocol/definitions.rs:177-196`. -/
instance : Encode DeliveryState where
  size
    | .Received v => size v
    | .Accepted v => size v
    | .Rejected v => size v
    | .Released v => size v
    | .Modified v => size v
  enc
    | .Received v => enc v
    | .Accepted v => enc v
    | .Rejected v => enc v
    | .Released v => enc v
    | .Modified v => enc v

/-- `Outcome`, `src/protocol/definitions.rs:265-270`. -/
inductive Outcome where
  | Accepted (v : Accepted)
  | Rejected (v : Rejected)
  | Released (v : Released)
  | Modified (v : Modified)

/-- The descriptor dispatch of `Outcome`, `src/protocol/definitions.rs:271-303`. -/
def Outcome.dispatch (env : Env) (d : Descriptor) : Dec Outcome :=
  if d = .ulong 36 then Outcome.Accepted <$> Accepted.decInner env else
  if d = .ulong 37 then Outcome.Rejected <$> Rejected.decInner env else
  if d = .ulong 38 then Outcome.Released <$> Released.decInner env else
  if d = .ulong 39 then Outcome.Modified <$> Modified.decInner env else
  if d = .sym "amqp:accepted:list" then Outcome.Accepted <$> Accepted.decInner env else
  if d = .sym "amqp:rejected:list" then Outcome.Rejected <$> Rejected.decInner env else
  if d = .sym "amqp:released:list" then Outcome.Released <$> Released.decInner env else
  if d = .sym "amqp:modified:list" then Outcome.Modified <$> Modified.decInner env else
  Dec.fail (.invalidDescriptor d)

/-- `src/protocol/definitions.rs:271-303`. -/
instance : DecodeF Outcome where
  decF env fmt := validateCode fmt FC.described (decode Descriptor env >>= Outcome.dispatch env)

/-- `src/protocol/definitions.rs:304-321`. -/
instance : Encode Outcome where
  size
    | .Accepted v => size v
    | .Rejected v => size v
    | .Released v => size v
    | .Modified v => size v
  enc
    | .Accepted v => enc v
    | .Rejected v => enc v
    | .Released v => enc v
    | .Modified v => enc v

/-- `Source`, `src/protocol/definitions.rs:3359-3371`. -/
structure Source where
  address : Option Address
  durable : TerminusDurability
  expiry_policy : TerminusExpiryPolicy
  timeout : Seconds
  dynamic : Bool
  dynamic_node_properties : Option NodeProperties
  distribution_mode : Option DistributionMode
  filter : Option FilterSet
  default_outcome : Option Outcome
  outcomes : Option Symbols
  capabilities : Option Symbols

/-- The fields part of `decode_source_inner`, `src/protocol/definitions.rs:3410-3532`. -/
def Source.decFields (env : Env) : FieldDec Source := do
  let address ← fOpt Address env
  let durable ← fDef TerminusDurability env TerminusDurability.None
  let expiry_policy ← fDef TerminusExpiryPolicy env TerminusExpiryPolicy.SessionEnd
  let timeout ← fDef Seconds env 0
  let dynamic ← fDef Bool env false
  let dynamic_node_properties ← fOpt NodeProperties env
  let distribution_mode ← fOpt DistributionMode env
  let filter ← fOpt FilterSet env
  let default_outcome ← fOpt Outcome env
  let outcomes ← fOpt Symbols env
  let capabilities ← fOpt Symbols env
  pure { address, durable, expiry_policy, timeout, dynamic, dynamic_node_properties, distribution_mode, filter, default_outcome, outcomes, capabilities }

/-- `decode_source_inner`, `src/protocol/definitions.rs:3410-3532`. -/
def Source.decInner (env : Env) : Dec Source := listInner env (Source.decFields env)

/-- `src/protocol/definitions.rs:3590-3604`. -/
instance : DecodeF Source where
  decF env fmt := describedAs env fmt 40 "amqp:source:list" (Source.decInner env)

/-- `encoded_size_source_inner`, `src/protocol/definitions.rs:3533-3553`;
`encode_source_inner`, `src/protocol/definitions.rs:3554-3589`. -/
instance : Encode Source where
  size v := listSize (size v.address + size v.durable + size v.expiry_policy + size v.timeout + size v.dynamic + size v.dynamic_node_properties + size v.distribution_mode + size v.filter + size v.default_outcome + size v.outcomes + size v.capabilities)
  enc v := listHdr 40 (size v.address + size v.durable + size v.expiry_policy + size v.timeout + size v.dynamic + size v.dynamic_node_properties + size v.distribution_mode + size v.filter + size v.default_outcome + size v.outcomes + size v.capabilities) 11 ++
    (enc v.address ++ enc v.durable ++ enc v.expiry_policy ++ enc v.timeout ++ enc v.dynamic ++ enc v.dynamic_node_properties ++ enc v.distribution_mode ++ enc v.filter ++ enc v.default_outcome ++ enc v.outcomes ++ enc v.capabilities)

/-- `Target`, `src/protocol/definitions.rs:3614-3622`. -/
structure Target where
  address : Option Address
  durable : TerminusDurability
  expiry_policy : TerminusExpiryPolicy
  timeout : Seconds
  dynamic : Bool
  dynamic_node_properties : Option NodeProperties
  capabilities : Option Symbols

/-- The fields part of `decode_target_inner`, `src/protocol/definitions.rs:3649-3731`. -/
def Target.decFields (env : Env) : FieldDec Target := do
  let address ← fOpt Address env
  let durable ← fDef TerminusDurability env TerminusDurability.None
  let expiry_policy ← fDef TerminusExpiryPolicy env TerminusExpiryPolicy.SessionEnd
  let timeout ← fDef Seconds env 0
  let dynamic ← fDef Bool env false
  let dynamic_node_properties ← fOpt NodeProperties env
  let capabilities ← fOpt Symbols env
  pure { address, durable, expiry_policy, timeout, dynamic, dynamic_node_properties, capabilities }

/-- `decode_target_inner`, `src/protocol/definitions.rs:3649-3731`. -/
def Target.decInner (env : Env) : Dec Target := listInner env (Target.decFields env)

/-- `src/protocol/definitions.rs:3777-3791`. -/
instance : DecodeF Target where
  decF env fmt := describedAs env fmt 41 "amqp:target:list" (Target.decInner env)

/-- `encoded_size_target_inner`, `src/protocol/definitions.rs:3732-3748`;
`encode_target_inner`, `src/protocol/definitions.rs:3749-3776`. -/
instance : Encode Target where
  size v := listSize (size v.address + size v.durable + size v.expiry_policy + size v.timeout + size v.dynamic + size v.dynamic_node_properties + size v.capabilities)
  enc v := listHdr 41 (size v.address + size v.durable + size v.expiry_policy + size v.timeout + size v.dynamic + size v.dynamic_node_properties + size v.capabilities) 7 ++
    (enc v.address ++ enc v.durable ++ enc v.expiry_policy ++ enc v.timeout ++ enc v.dynamic ++ enc v.dynamic_node_properties ++ enc v.capabilities)

/-- `Open`, `src/protocol/definitions.rs:1186-1197`. -/
structure Open where
  container_id : ByteStr
  hostname : Option ByteStr
  max_frame_size : UInt32
  channel_max : UInt16
  idle_time_out : Option Milliseconds
  outgoing_locales : Option IetfLanguageTags
  incoming_locales : Option IetfLanguageTags
  offered_capabilities : Option Symbols
  desired_capabilities : Option Symbols
  properties : Option Fields

/-- The fields part of `decode_open_inner`, `src/protocol/definitions.rs:1233-1345`. -/
def Open.decFields (env : Env) : FieldDec Open := do
  let container_id ← fReq ByteStr env "container_id"
  let hostname ← fOpt ByteStr env
  let max_frame_size ← fDef UInt32 env 4294967295
  let channel_max ← fDef UInt16 env 65535
  let idle_time_out ← fOpt Milliseconds env
  let outgoing_locales ← fOpt IetfLanguageTags env
  let incoming_locales ← fOpt IetfLanguageTags env
  let offered_capabilities ← fOpt Symbols env
  let desired_capabilities ← fOpt Symbols env
  let properties ← fOpt Fields env
  pure { container_id, hostname, max_frame_size, channel_max, idle_time_out, outgoing_locales, incoming_locales, offered_capabilities, desired_capabilities, properties }

/-- `decode_open_inner`, `src/protocol/definitions.rs:1233-1345`. -/
def Open.decInner (env : Env) : Dec Open := listInner env (Open.decFields env)

/-- `src/protocol/definitions.rs:1400-1414`. -/
instance : DecodeF Open where
  decF env fmt := describedAs env fmt 16 "amqp:open:list" (Open.decInner env)

/-- `encoded_size_open_inner`, `src/protocol/definitions.rs:1346-1365`;
`encode_open_inner`, `src/protocol/definitions.rs:1366-1399`. -/
instance : Encode Open where
  size v := listSize (size v.container_id + size v.hostname + size v.max_frame_size + size v.channel_max + size v.idle_time_out + size v.outgoing_locales + size v.incoming_locales + size v.offered_capabilities + size v.desired_capabilities + size v.properties)
  enc v := listHdr 16 (size v.container_id + size v.hostname + size v.max_frame_size + size v.channel_max + size v.idle_time_out + size v.outgoing_locales + size v.incoming_locales + size v.offered_capabilities + size v.desired_capabilities + size v.properties) 10 ++
    (enc v.container_id ++ enc v.hostname ++ enc v.max_frame_size ++ enc v.channel_max ++ enc v.idle_time_out ++ enc v.outgoing_locales ++ enc v.incoming_locales ++ enc v.offered_capabilities ++ enc v.desired_capabilities ++ enc v.properties)

/-- `Begin`, `src/protocol/definitions.rs:1424-1433`. -/
structure Begin where
  remote_channel : Option UInt16
  next_outgoing_id : TransferNumber
  incoming_window : UInt32
  outgoing_window : UInt32
  handle_max : Handle
  offered_capabilities : Option Symbols
  desired_capabilities : Option Symbols
  properties : Option Fields

/-- The fields part of `decode_begin_inner`, `src/protocol/definitions.rs:1463-1555`. -/
def Begin.decFields (env : Env) : FieldDec Begin := do
  let remote_channel ← fOpt UInt16 env
  let next_outgoing_id ← fReq TransferNumber env "next_outgoing_id"
  let incoming_window ← fReq UInt32 env "incoming_window"
  let outgoing_window ← fReq UInt32 env "outgoing_window"
  let handle_max ← fDef Handle env 4294967295
  let offered_capabilities ← fOpt Symbols env
  let desired_capabilities ← fOpt Symbols env
  let properties ← fOpt Fields env
  pure { remote_channel, next_outgoing_id, incoming_window, outgoing_window, handle_max, offered_capabilities, desired_capabilities, properties }

/-- `decode_begin_inner`, `src/protocol/definitions.rs:1463-1555`. -/
def Begin.decInner (env : Env) : Dec Begin := listInner env (Begin.decFields env)

/-- `src/protocol/definitions.rs:1604-1618`. -/
instance : DecodeF Begin where
  decF env fmt := describedAs env fmt 17 "amqp:begin:list" (Begin.decInner env)

/-- `encoded_size_begin_inner`, `src/protocol/definitions.rs:1556-1573`;
`encode_begin_inner`, `src/protocol/definitions.rs:1574-1603`. -/
instance : Encode Begin where
  size v := listSize (size v.remote_channel + size v.next_outgoing_id + size v.incoming_window + size v.outgoing_window + size v.handle_max + size v.offered_capabilities + size v.desired_capabilities + size v.properties)
  enc v := listHdr 17 (size v.remote_channel + size v.next_outgoing_id + size v.incoming_window + size v.outgoing_window + size v.handle_max + size v.offered_capabilities + size v.desired_capabilities + size v.properties) 8 ++
    (enc v.remote_channel ++ enc v.next_outgoing_id ++ enc v.incoming_window ++ enc v.outgoing_window ++ enc v.handle_max ++ enc v.offered_capabilities ++ enc v.desired_capabilities ++ enc v.properties)

/-- `Attach`, `src/protocol/definitions.rs:1628-1643`. -/
structure Attach where
  name : ByteStr
  handle : Handle
  role : Role
  snd_settle_mode : SenderSettleMode
  rcv_settle_mode : ReceiverSettleMode
  source : Option Source
  target : Option Target
  unsettled : Option Map
  incomplete_unsettled : Bool
  initial_delivery_count : Option SequenceNo
  max_message_size : Option UInt64
  offered_capabilities : Option Symbols
  desired_capabilities : Option Symbols
  properties : Option Fields

/-- The fields part of `decode_attach_inner`, `src/protocol/definitions.rs:1691-1843`. -/
def Attach.decFields (env : Env) : FieldDec Attach := do
  let name ← fReq ByteStr env "name"
  let handle ← fReq Handle env "handle"
  let role ← fReq Role env "role"
  let snd_settle_mode ← fDef SenderSettleMode env SenderSettleMode.Mixed
  let rcv_settle_mode ← fDef ReceiverSettleMode env ReceiverSettleMode.First
  let source ← fOpt Source env
  let target ← fOpt Target env
  let unsettled ← fOpt Map env
  let incomplete_unsettled ← fDef Bool env false
  let initial_delivery_count ← fOpt SequenceNo env
  let max_message_size ← fOpt UInt64 env
  let offered_capabilities ← fOpt Symbols env
  let desired_capabilities ← fOpt Symbols env
  let properties ← fOpt Fields env
  pure { name, handle, role, snd_settle_mode, rcv_settle_mode, source, target, unsettled, incomplete_unsettled, initial_delivery_count, max_message_size, offered_capabilities, desired_capabilities, properties }

/-- `decode_attach_inner`, `src/protocol/definitions.rs:1691-1843`. -/
def Attach.decInner (env : Env) : Dec Attach := listInner env (Attach.decFields env)

/-- `src/protocol/definitions.rs:1910-1924`. -/
instance : DecodeF Attach where
  decF env fmt := describedAs env fmt 18 "amqp:attach:list" (Attach.decInner env)

/-- `encoded_size_attach_inner`, `src/protocol/definitions.rs:1844-1867`;
`encode_attach_inner`, `src/protocol/definitions.rs:1868-1909`. -/
instance : Encode Attach where
  size v := listSize (size v.name + size v.handle + size v.role + size v.snd_settle_mode + size v.rcv_settle_mode + size v.source + size v.target + size v.unsettled + size v.incomplete_unsettled + size v.initial_delivery_count + size v.max_message_size + size v.offered_capabilities + size v.desired_capabilities + size v.properties)
  enc v := listHdr 18 (size v.name + size v.handle + size v.role + size v.snd_settle_mode + size v.rcv_settle_mode + size v.source + size v.target + size v.unsettled + size v.incomplete_unsettled + size v.initial_delivery_count + size v.max_message_size + size v.offered_capabilities + size v.desired_capabilities + size v.properties) 14 ++
    (enc v.name ++ enc v.handle ++ enc v.role ++ enc v.snd_settle_mode ++ enc v.rcv_settle_mode ++ enc v.source ++ enc v.target ++ enc v.unsettled ++ enc v.incomplete_unsettled ++ enc v.initial_delivery_count ++ enc v.max_message_size ++ enc v.offered_capabilities ++ enc v.desired_capabilities ++ enc v.properties)

/-- `Flow`, `src/protocol/definitions.rs:1934-1946`. -/
structure Flow where
  next_incoming_id : Option TransferNumber
  incoming_window : UInt32
  next_outgoing_id : TransferNumber
  outgoing_window : UInt32
  handle : Option Handle
  delivery_count : Option SequenceNo
  link_credit : Option UInt32
  available : Option UInt32
  drain : Bool
  echo : Bool
  properties : Option Fields

/-- The fields part of `decode_flow_inner`, `src/protocol/definitions.rs:1985-2107`. -/
def Flow.decFields (env : Env) : FieldDec Flow := do
  let next_incoming_id ← fOpt TransferNumber env
  let incoming_window ← fReq UInt32 env "incoming_window"
  let next_outgoing_id ← fReq TransferNumber env "next_outgoing_id"
  let outgoing_window ← fReq UInt32 env "outgoing_window"
  let handle ← fOpt Handle env
  let delivery_count ← fOpt SequenceNo env
  let link_credit ← fOpt UInt32 env
  let available ← fOpt UInt32 env
  let drain ← fDef Bool env false
  let echo ← fDef Bool env false
  let properties ← fOpt Fields env
  pure { next_incoming_id, incoming_window, next_outgoing_id, outgoing_window, handle, delivery_count, link_credit, available, drain, echo, properties }

/-- `decode_flow_inner`, `src/protocol/definitions.rs:1985-2107`. -/
def Flow.decInner (env : Env) : Dec Flow := listInner env (Flow.decFields env)

/-- `src/protocol/definitions.rs:2165-2179`. -/
instance : DecodeF Flow where
  decF env fmt := describedAs env fmt 19 "amqp:flow:list" (Flow.decInner env)

/-- `encoded_size_flow_inner`, `src/protocol/definitions.rs:2108-2128`;
`encode_flow_inner`, `src/protocol/definitions.rs:2129-2164`. -/
instance : Encode Flow where
  size v := listSize (size v.next_incoming_id + size v.incoming_window + size v.next_outgoing_id + size v.outgoing_window + size v.handle + size v.delivery_count + size v.link_credit + size v.available + size v.drain + size v.echo + size v.properties)
  enc v := listHdr 19 (size v.next_incoming_id + size v.incoming_window + size v.next_outgoing_id + size v.outgoing_window + size v.handle + size v.delivery_count + size v.link_credit + size v.available + size v.drain + size v.echo + size v.properties) 11 ++
    (enc v.next_incoming_id ++ enc v.incoming_window ++ enc v.next_outgoing_id ++ enc v.outgoing_window ++ enc v.handle ++ enc v.delivery_count ++ enc v.link_credit ++ enc v.available ++ enc v.drain ++ enc v.echo ++ enc v.properties)

/-- `Disposition`, `src/protocol/definitions.rs:2460-2467`. -/
structure Disposition where
  role : Role
  first : DeliveryNumber
  last : Option DeliveryNumber
  settled : Bool
  state : Option DeliveryState
  batchable : Bool

/-- The fields part of `decode_disposition_inner`, `src/protocol/definitions.rs:2491-2563`. -/
def Disposition.decFields (env : Env) : FieldDec Disposition := do
  let role ← fReq Role env "role"
  let first ← fReq DeliveryNumber env "first"
  let last ← fOpt DeliveryNumber env
  let settled ← fDef Bool env false
  let state ← fOpt DeliveryState env
  let batchable ← fDef Bool env false
  pure { role, first, last, settled, state, batchable }

/-- `decode_disposition_inner`, `src/protocol/definitions.rs:2491-2563`. -/
def Disposition.decInner (env : Env) : Dec Disposition := listInner env (Disposition.decFields env)

/-- `src/protocol/definitions.rs:2606-2620`. -/
instance : DecodeF Disposition where
  decF env fmt := describedAs env fmt 21 "amqp:disposition:list" (Disposition.decInner env)

/-- `encoded_size_disposition_inner`, `src/protocol/definitions.rs:2564-2579`;
`encode_disposition_inner`, `src/protocol/definitions.rs:2580-2605`. -/
instance : Encode Disposition where
  size v := listSize (size v.role + size v.first + size v.last + size v.settled + size v.state + size v.batchable)
  enc v := listHdr 21 (size v.role + size v.first + size v.last + size v.settled + size v.state + size v.batchable) 6 ++
    (enc v.role ++ enc v.first ++ enc v.last ++ enc v.settled ++ enc v.state ++ enc v.batchable)

/-- `Detach`, `src/protocol/definitions.rs:2630-2634`. -/
structure Detach where
  handle : Handle
  closed : Bool
  error : Option Error

/-- The fields part of `decode_detach_inner`, `src/protocol/definitions.rs:2649-2691`. -/
def Detach.decFields (env : Env) : FieldDec Detach := do
  let handle ← fReq Handle env "handle"
  let closed ← fDef Bool env false
  let error ← fOpt Error env
  pure { handle, closed, error }

/-- `decode_detach_inner`, `src/protocol/definitions.rs:2649-2691`. -/
def Detach.decInner (env : Env) : Dec Detach := listInner env (Detach.decFields env)

/-- `src/protocol/definitions.rs:2721-2735`. -/
instance : DecodeF Detach where
  decF env fmt := describedAs env fmt 22 "amqp:detach:list" (Detach.decInner env)

/-- `encoded_size_detach_inner`, `src/protocol/definitions.rs:2692-2702`;
`encode_detach_inner`, `src/protocol/definitions.rs:2703-2720`. -/
instance : Encode Detach where
  size v := listSize (size v.handle + size v.closed + size v.error)
  enc v := listHdr 22 (size v.handle + size v.closed + size v.error) 3 ++
    (enc v.handle ++ enc v.closed ++ enc v.error)

/-- `End`, `src/protocol/definitions.rs:2745-2747`. -/
structure End where
  error : Option Error

/-- The fields part of `decode_end_inner`, `src/protocol/definitions.rs:2756-2773`. -/
def End.decFields (env : Env) : FieldDec End := do
  let error ← fOpt Error env
  pure { error }

/-- `decode_end_inner`, `src/protocol/definitions.rs:2756-2773`. -/
def End.decInner (env : Env) : Dec End := listInner env (End.decFields env)

/-- `src/protocol/definitions.rs:2799-2813`. -/
instance : DecodeF End where
  decF env fmt := describedAs env fmt 23 "amqp:end:list" (End.decInner env)

/-- `encoded_size_end_inner`, `src/protocol/definitions.rs:2774-2783`;
`encode_end_inner`, `src/protocol/definitions.rs:2784-2798`. -/
instance : Encode End where
  size v := listSize (size v.error)
  enc v := listHdr 23 (size v.error) 1 ++
    (enc v.error)

/-- `Close`, `src/protocol/definitions.rs:2823-2825`. -/
structure Close where
  error : Option Error

/-- The fields part of `decode_close_inner`, `src/protocol/definitions.rs:2834-2851`. -/
def Close.decFields (env : Env) : FieldDec Close := do
  let error ← fOpt Error env
  pure { error }

/-- `decode_close_inner`, `src/protocol/definitions.rs:2834-2851`. -/
def Close.decInner (env : Env) : Dec Close := listInner env (Close.decFields env)

/-- `src/protocol/definitions.rs:2877-2891`. -/
instance : DecodeF Close where
  decF env fmt := describedAs env fmt 24 "amqp:close:list" (Close.decInner env)

/-- `encoded_size_close_inner`, `src/protocol/definitions.rs:2852-2861`;
`encode_close_inner`, `src/protocol/definitions.rs:2862-2876`. -/
instance : Encode Close where
  size v := listSize (size v.error)
  enc v := listHdr 24 (size v.error) 1 ++
    (enc v.error)

/-- The list fields of `Transfer` (all but `body`), `src/protocol/definitions.rs:2189-2202`. -/
structure TransferPerf where
  handle : Handle
  delivery_id : Option DeliveryNumber
  delivery_tag : Option DeliveryTag
  message_format : Option MessageFormat
  settled : Option Bool
  more : Bool
  rcv_settle_mode : Option ReceiverSettleMode
  state : Option DeliveryState
  resume : Bool
  aborted : Bool
  batchable : Bool

/-- The fields part of `decode_transfer_perf_inner`, `src/protocol/definitions.rs:2244-2374`. -/
def TransferPerf.decFields (env : Env) : FieldDec TransferPerf := do
  let handle ← fReq Handle env "handle"
  let delivery_id ← fOpt DeliveryNumber env
  let delivery_tag ← fOpt DeliveryTag env
  let message_format ← fOpt MessageFormat env
  let settled ← fOpt Bool env
  let more ← fDef Bool env false
  let rcv_settle_mode ← fOpt ReceiverSettleMode env
  let state ← fOpt DeliveryState env
  let resume ← fDef Bool env false
  let aborted ← fDef Bool env false
  let batchable ← fDef Bool env false
  pure { handle, delivery_id, delivery_tag, message_format, settled, more, rcv_settle_mode, state, resume, aborted, batchable }

/-- `decode_transfer_perf_inner`, `src/protocol/definitions.rs:2244-2374`. -/
def TransferPerf.decInner (env : Env) : Dec TransferPerf := listInner env (TransferPerf.decFields env)

/-- `src/protocol/definitions.rs:2436-2450`. -/
instance : DecodeF TransferPerf where
  decF env fmt := describedAs env fmt 20 "amqp:transfer:list" (TransferPerf.decInner env)

/-- `encoded_size_transfer_perf_inner`, `src/protocol/definitions.rs:2375-2396`;
`encode_transfer_perf_inner`, `src/protocol/definitions.rs:2397-2435`. -/
instance : Encode TransferPerf where
  size v := listSize (size v.handle + size v.delivery_id + size v.delivery_tag + size v.message_format + size v.settled + size v.more + size v.rcv_settle_mode + size v.state + size v.resume + size v.aborted + size v.batchable)
  enc v := listHdr 20 (size v.handle + size v.delivery_id + size v.delivery_tag + size v.message_format + size v.settled + size v.more + size v.rcv_settle_mode + size v.state + size v.resume + size v.aborted + size v.batchable) 11 ++
    (enc v.handle ++ enc v.delivery_id ++ enc v.delivery_tag ++ enc v.message_format ++ enc v.settled ++ enc v.more ++ enc v.rcv_settle_mode ++ enc v.state ++ enc v.resume ++ enc v.aborted ++ enc v.batchable)

/-- `SaslMechanisms`, `src/protocol/definitions.rs:2901-2903`. -/
structure SaslMechanisms where
  sasl_server_mechanisms : Symbols

/-- The fields part of `decode_sasl_mechanisms_inner`, `src/protocol/definitions.rs:2912-2936`. -/
def SaslMechanisms.decFields (env : Env) : FieldDec SaslMechanisms := do
  let sasl_server_mechanisms ← fReq Symbols env "sasl_server_mechanisms"
  pure { sasl_server_mechanisms }

/-- `decode_sasl_mechanisms_inner`, `src/protocol/definitions.rs:2912-2936`. -/
def SaslMechanisms.decInner (env : Env) : Dec SaslMechanisms := listInner env (SaslMechanisms.decFields env)

/-- `src/protocol/definitions.rs:2962-2976`. -/
instance : DecodeF SaslMechanisms where
  decF env fmt := describedAs env fmt 64 "amqp:sasl-mechanisms:list" (SaslMechanisms.decInner env)

/-- `encoded_size_sasl_mechanisms_inner`, `src/protocol/definitions.rs:2937-2946`;
`encode_sasl_mechanisms_inner`, `src/protocol/definitions.rs:2947-2961`. -/
instance : Encode SaslMechanisms where
  size v := listSize (size v.sasl_server_mechanisms)
  enc v := listHdr 64 (size v.sasl_server_mechanisms) 1 ++
    (enc v.sasl_server_mechanisms)

/-- `SaslInit`, `src/protocol/definitions.rs:2986-2990`. -/
structure SaslInit where
  mechanism : Symbol
  initial_response : Option Binary
  hostname : Option ByteStr

/-- The fields part of `decode_sasl_init_inner`, `src/protocol/definitions.rs:3005-3047`. -/
def SaslInit.decFields (env : Env) : FieldDec SaslInit := do
  let mechanism ← fReq Symbol env "mechanism"
  let initial_response ← fOpt Binary env
  let hostname ← fOpt ByteStr env
  pure { mechanism, initial_response, hostname }

/-- `decode_sasl_init_inner`, `src/protocol/definitions.rs:3005-3047`. -/
def SaslInit.decInner (env : Env) : Dec SaslInit := listInner env (SaslInit.decFields env)

/-- `src/protocol/definitions.rs:3081-3095`. -/
instance : DecodeF SaslInit where
  decF env fmt := describedAs env fmt 65 "amqp:sasl-init:list" (SaslInit.decInner env)

/-- `encoded_size_sasl_init_inner`, `src/protocol/definitions.rs:3048-3060`;
`encode_sasl_init_inner`, `src/protocol/definitions.rs:3061-3080`. -/
instance : Encode SaslInit where
  size v := listSize (size v.mechanism + size v.initial_response + size v.hostname)
  enc v := listHdr 65 (size v.mechanism + size v.initial_response + size v.hostname) 3 ++
    (enc v.mechanism ++ enc v.initial_response ++ enc v.hostname)

/-- `SaslChallenge`, `src/protocol/definitions.rs:3105-3107`. -/
structure SaslChallenge where
  challenge : Binary

/-- The fields part of `decode_sasl_challenge_inner`, `src/protocol/definitions.rs:3116-3133`. -/
def SaslChallenge.decFields (env : Env) : FieldDec SaslChallenge := do
  let challenge ← fReq Binary env "challenge"
  pure { challenge }

/-- `decode_sasl_challenge_inner`, `src/protocol/definitions.rs:3116-3133`. -/
def SaslChallenge.decInner (env : Env) : Dec SaslChallenge := listInner env (SaslChallenge.decFields env)

/-- `src/protocol/definitions.rs:3159-3173`. -/
instance : DecodeF SaslChallenge where
  decF env fmt := describedAs env fmt 66 "amqp:sasl-challenge:list" (SaslChallenge.decInner env)

/-- `encoded_size_sasl_challenge_inner`, `src/protocol/definitions.rs:3134-3143`;
`encode_sasl_challenge_inner`, `src/protocol/definitions.rs:3144-3158`. -/
instance : Encode SaslChallenge where
  size v := listSize (size v.challenge)
  enc v := listHdr 66 (size v.challenge) 1 ++
    (enc v.challenge)

/-- `SaslResponse`, `src/protocol/definitions.rs:3183-3185`. -/
structure SaslResponse where
  response : Binary

/-- The fields part of `decode_sasl_response_inner`, `src/protocol/definitions.rs:3194-3211`. -/
def SaslResponse.decFields (env : Env) : FieldDec SaslResponse := do
  let response ← fReq Binary env "response"
  pure { response }

/-- `decode_sasl_response_inner`, `src/protocol/definitions.rs:3194-3211`. -/
def SaslResponse.decInner (env : Env) : Dec SaslResponse := listInner env (SaslResponse.decFields env)

/-- `src/protocol/definitions.rs:3237-3251`. -/
instance : DecodeF SaslResponse where
  decF env fmt := describedAs env fmt 67 "amqp:sasl-response:list" (SaslResponse.decInner env)

/-- `encoded_size_sasl_response_inner`, `src/protocol/definitions.rs:3212-3221`;
`encode_sasl_response_inner`, `src/protocol/definitions.rs:3222-3236`. -/
instance : Encode SaslResponse where
  size v := listSize (size v.response)
  enc v := listHdr 67 (size v.response) 1 ++
    (enc v.response)

/-- `SaslOutcome`, `src/protocol/definitions.rs:3261-3264`. -/
structure SaslOutcome where
  code : SaslCode
  additional_data : Option Binary

/-- The fields part of `decode_sasl_outcome_inner`, `src/protocol/definitions.rs:3276-3308`. -/
def SaslOutcome.decFields (env : Env) : FieldDec SaslOutcome := do
  let code ← fReq SaslCode env "code"
  let additional_data ← fOpt Binary env
  pure { code, additional_data }

/-- `decode_sasl_outcome_inner`, `src/protocol/definitions.rs:3276-3308`. -/
def SaslOutcome.decInner (env : Env) : Dec SaslOutcome := listInner env (SaslOutcome.decFields env)

/-- `src/protocol/definitions.rs:3335-3349`. -/
instance : DecodeF SaslOutcome where
  decF env fmt := describedAs env fmt 68 "amqp:sasl-outcome:list" (SaslOutcome.decInner env)

/-- `encoded_size_sasl_outcome_inner`, `src/protocol/definitions.rs:3309-3318`;
`encode_sasl_outcome_inner`, `src/protocol/definitions.rs:3319-3334`. -/
instance : Encode SaslOutcome where
  size v := listSize (size v.code + size v.additional_data)
  enc v := listHdr 68 (size v.code + size v.additional_data) 2 ++
    (enc v.code ++ enc v.additional_data)

/-- `SaslFrameBody`, `src/protocol/definitions.rs:198-204`. -/
inductive SaslFrameBody where
  | SaslMechanisms (v : SaslMechanisms)
  | SaslInit (v : SaslInit)
  | SaslChallenge (v : SaslChallenge)
  | SaslResponse (v : SaslResponse)
  | SaslOutcome (v : SaslOutcome)

/-- The descriptor dispatch of `SaslFrameBody`, `src/protocol/definitions.rs:205-243`. -/
def SaslFrameBody.dispatch (env : Env) (d : Descriptor) : Dec SaslFrameBody :=
  if d = .ulong 64 then SaslFrameBody.SaslMechanisms <$> SaslMechanisms.decInner env else
  if d = .ulong 65 then SaslFrameBody.SaslInit <$> SaslInit.decInner env else
  if d = .ulong 66 then SaslFrameBody.SaslChallenge <$> SaslChallenge.decInner env else
  if d = .ulong 67 then SaslFrameBody.SaslResponse <$> SaslResponse.decInner env else
  if d = .ulong 68 then SaslFrameBody.SaslOutcome <$> SaslOutcome.decInner env else
  if d = .sym "amqp:sasl-mechanisms:list" then SaslFrameBody.SaslMechanisms <$> SaslMechanisms.decInner env else
  if d = .sym "amqp:sasl-init:list" then SaslFrameBody.SaslInit <$> SaslInit.decInner env else
  if d = .sym "amqp:sasl-challenge:list" then SaslFrameBody.SaslChallenge <$> SaslChallenge.decInner env else
  if d = .sym "amqp:sasl-response:list" then SaslFrameBody.SaslResponse <$> SaslResponse.decInner env else
  if d = .sym "amqp:sasl-outcome:list" then SaslFrameBody.SaslOutcome <$> SaslOutcome.decInner env else
  Dec.fail (.invalidDescriptor d)

/-- `src/protocol/definitions.rs:205-243`. -/
instance : DecodeF SaslFrameBody where
  decF env fmt := validateCode fmt FC.described (decode Descriptor env >>= SaslFrameBody.dispatch env)

/-- `src/protocol/definitions.rs:244-263`. -/
instance : Encode SaslFrameBody where
  size
    | .SaslMechanisms v => size v
    | .SaslInit v => size v
    | .SaslChallenge v => size v
    | .SaslResponse v => size v
    | .SaslOutcome v => size v
  enc
    | .SaslMechanisms v => enc v
    | .SaslInit v => enc v
    | .SaslChallenge v => enc v
    | .SaslResponse v => enc v
    | .SaslOutcome v => enc v

/-- `Header`, `src/protocol/definitions.rs:3801-3807`. -/
structure Header where
  durable : Bool
  priority : UInt8
  ttl : Option Milliseconds
  first_acquirer : Bool
  delivery_count : UInt32

/-- The fields part of `decode_header_inner`, `src/protocol/definitions.rs:3828-3890`. -/
def Header.decFields (env : Env) : FieldDec Header := do
  let durable ← fDef Bool env false
  let priority ← fDef UInt8 env 4
  let ttl ← fOpt Milliseconds env
  let first_acquirer ← fDef Bool env false
  let delivery_count ← fDef UInt32 env 0
  pure { durable, priority, ttl, first_acquirer, delivery_count }

/-- `decode_header_inner`, `src/protocol/definitions.rs:3828-3890`. -/
def Header.decInner (env : Env) : Dec Header := listInner env (Header.decFields env)

/-- `src/protocol/definitions.rs:3930-3944`. -/
instance : DecodeF Header where
  decF env fmt := describedAs env fmt 112 "amqp:header:list" (Header.decInner env)

/-- `encoded_size_header_inner`, `src/protocol/definitions.rs:3891-3905`;
`encode_header_inner`, `src/protocol/definitions.rs:3906-3929`. -/
instance : Encode Header where
  size v := listSize (size v.durable + size v.priority + size v.ttl + size v.first_acquirer + size v.delivery_count)
  enc v := listHdr 112 (size v.durable + size v.priority + size v.ttl + size v.first_acquirer + size v.delivery_count) 5 ++
    (enc v.durable ++ enc v.priority ++ enc v.ttl ++ enc v.first_acquirer ++ enc v.delivery_count)

/-- `Properties`, `src/protocol/definitions.rs:3954-3968`. -/
structure Properties where
  message_id : Option MessageId
  user_id : Option Binary
  to : Option Address
  subject : Option ByteStr
  reply_to : Option Address
  correlation_id : Option MessageId
  content_type : Option Symbol
  content_encoding : Option Symbol
  absolute_expiry_time : Option Timestamp
  creation_time : Option Timestamp
  group_id : Option ByteStr
  group_sequence : Option SequenceNo
  reply_to_group_id : Option ByteStr

/-- The fields part of `decode_properties_inner`, `src/protocol/definitions.rs:4013-4155`. -/
def Properties.decFields (env : Env) : FieldDec Properties := do
  let message_id ← fOpt MessageId env
  let user_id ← fOpt Binary env
  let to ← fOpt Address env
  let subject ← fOpt ByteStr env
  let reply_to ← fOpt Address env
  let correlation_id ← fOpt MessageId env
  let content_type ← fOpt Symbol env
  let content_encoding ← fOpt Symbol env
  let absolute_expiry_time ← fOpt Timestamp env
  let creation_time ← fOpt Timestamp env
  let group_id ← fOpt ByteStr env
  let group_sequence ← fOpt SequenceNo env
  let reply_to_group_id ← fOpt ByteStr env
  pure { message_id, user_id, to, subject, reply_to, correlation_id, content_type, content_encoding, absolute_expiry_time, creation_time, group_id, group_sequence, reply_to_group_id }

/-- `decode_properties_inner`, `src/protocol/definitions.rs:4013-4155`. -/
def Properties.decInner (env : Env) : Dec Properties := listInner env (Properties.decFields env)

/-- `src/protocol/definitions.rs:4219-4233`. -/
instance : DecodeF Properties where
  decF env fmt := describedAs env fmt 115 "amqp:properties:list" (Properties.decInner env)

/-- `encoded_size_properties_inner`, `src/protocol/definitions.rs:4156-4178`;
`encode_properties_inner`, `src/protocol/definitions.rs:4179-4218`. -/
instance : Encode Properties where
  size v := listSize (size v.message_id + size v.user_id + size v.to + size v.subject + size v.reply_to + size v.correlation_id + size v.content_type + size v.content_encoding + size v.absolute_expiry_time + size v.creation_time + size v.group_id + size v.group_sequence + size v.reply_to_group_id)
  enc v := listHdr 115 (size v.message_id + size v.user_id + size v.to + size v.subject + size v.reply_to + size v.correlation_id + size v.content_type + size v.content_encoding + size v.absolute_expiry_time + size v.creation_time + size v.group_id + size v.group_sequence + size v.reply_to_group_id) 13 ++
    (enc v.message_id ++ enc v.user_id ++ enc v.to ++ enc v.subject ++ enc v.reply_to ++ enc v.correlation_id ++ enc v.content_type ++ enc v.content_encoding ++ enc v.absolute_expiry_time ++ enc v.creation_time ++ enc v.group_id ++ enc v.group_sequence ++ enc v.reply_to_group_id)

/-- `DeliveryAnnotations`, `src/protocol/definitions.rs:976-989`. -/
abbrev DeliveryAnnotations := Annotations
/-- `decode_delivery_annotations_inner`, `src/protocol/definitions.rs:976-989`. -/
def DeliveryAnnotations.decInner (env : Env) : Dec DeliveryAnnotations := decode DeliveryAnnotations env
/-- `encoded_size_delivery_annotations_inner`, `src/protocol/definitions.rs:976-989`. -/
def DeliveryAnnotations.innerSize (v : DeliveryAnnotations) : Nat := 3 + size v
/-- `encode_delivery_annotations_inner`, `src/protocol/definitions.rs:976-989`. -/
def DeliveryAnnotations.innerEnc (v : DeliveryAnnotations) : Bytes := enc (Descriptor.ulong 113) ++ enc v

/-- `MessageAnnotations`, `src/protocol/definitions.rs:990-1003`. -/
abbrev MessageAnnotations := Annotations
/-- `decode_message_annotations_inner`, `src/protocol/definitions.rs:990-1003`. -/
def MessageAnnotations.decInner (env : Env) : Dec MessageAnnotations := decode MessageAnnotations env
/-- `encoded_size_message_annotations_inner`, `src/protocol/definitions.rs:990-1003`. -/
def MessageAnnotations.innerSize (v : MessageAnnotations) : Nat := 3 + size v
/-- `encode_message_annotations_inner`, `src/protocol/definitions.rs:990-1003`. -/
def MessageAnnotations.innerEnc (v : MessageAnnotations) : Bytes := enc (Descriptor.ulong 114) ++ enc v

/-- `ApplicationProperties`, `src/protocol/definitions.rs:1004-1017`. -/
abbrev ApplicationProperties := StringVariantMap
/-- `decode_application_properties_inner`, `src/protocol/definitions.rs:1004-1017`. -/
def ApplicationProperties.decInner (env : Env) : Dec ApplicationProperties := decode ApplicationProperties env
/-- `encoded_size_application_properties_inner`, `src/protocol/definitions.rs:1004-1017`. -/
def ApplicationProperties.innerSize (v : ApplicationProperties) : Nat := 3 + size v
/-- `encode_application_properties_inner`, `src/protocol/definitions.rs:1004-1017`. -/
def ApplicationProperties.innerEnc (v : ApplicationProperties) : Bytes := enc (Descriptor.ulong 116) ++ enc v

/-- `Data`, `src/protocol/definitions.rs:1018-1029`. -/
abbrev Data := Binary
/-- `decode_data_inner`, `src/protocol/definitions.rs:1018-1029`. -/
def Data.decInner (env : Env) : Dec Data := decode Data env
/-- `encoded_size_data_inner`, `src/protocol/definitions.rs:1018-1029`. -/
def Data.innerSize (v : Data) : Nat := 3 + size v
/-- `encode_data_inner`, `src/protocol/definitions.rs:1018-1029`. -/
def Data.innerEnc (v : Data) : Bytes := enc (Descriptor.ulong 117) ++ enc v

/-- `AmqpSequence`, `src/protocol/definitions.rs:1030-1041`. -/
abbrev AmqpSequence := VList
/-- `decode_amqp_sequence_inner`, `src/protocol/definitions.rs:1030-1041`. -/
def AmqpSequence.decInner (env : Env) : Dec AmqpSequence := decode AmqpSequence env
/-- `encoded_size_amqp_sequence_inner`, `src/protocol/definitions.rs:1030-1041`. -/
def AmqpSequence.innerSize (v : AmqpSequence) : Nat := 3 + size v
/-- `encode_amqp_sequence_inner`, `src/protocol/definitions.rs:1030-1041`. -/
def AmqpSequence.innerEnc (v : AmqpSequence) : Bytes := enc (Descriptor.ulong 118) ++ enc v

/-- `AmqpValue`, `src/protocol/definitions.rs:1042-1053`. -/
abbrev AmqpValue := Variant
/-- `decode_amqp_value_inner`, `src/protocol/definitions.rs:1042-1053`. -/
def AmqpValue.decInner (env : Env) : Dec AmqpValue := decode AmqpValue env
/-- `encoded_size_amqp_value_inner`, `src/protocol/definitions.rs:1042-1053`. -/
def AmqpValue.innerSize (v : AmqpValue) : Nat := 3 + size v
/-- `encode_amqp_value_inner`, `src/protocol/definitions.rs:1042-1053`. -/
def AmqpValue.innerEnc (v : AmqpValue) : Bytes := enc (Descriptor.ulong 119) ++ enc v

/-- `Footer`, `src/protocol/definitions.rs:1054-1065`. -/
abbrev Footer := Annotations
/-- `decode_footer_inner`, `src/protocol/definitions.rs:1054-1065`. -/
def Footer.decInner (env : Env) : Dec Footer := decode Footer env
/-- `encoded_size_footer_inner`, `src/protocol/definitions.rs:1054-1065`. -/
def Footer.innerSize (v : Footer) : Nat := 3 + size v
/-- `encode_footer_inner`, `src/protocol/definitions.rs:1054-1065`. -/
def Footer.innerEnc (v : Footer) : Bytes := enc (Descriptor.ulong 120) ++ enc v

/-- `Section`, `src/protocol/definitions.rs:323-333`. -/
inductive Section where
  | Header (v : Header)
  | DeliveryAnnotations (v : DeliveryAnnotations)
  | MessageAnnotations (v : MessageAnnotations)
  | ApplicationProperties (v : ApplicationProperties)
  | Data (v : Data)
  | AmqpSequence (v : AmqpSequence)
  | AmqpValue (v : AmqpValue)
  | Footer (v : Footer)
  | Properties (v : Properties)

/-- The descriptor dispatch of `Section`, `src/protocol/definitions.rs:334-394`. -/
def Section.dispatch (env : Env) (d : Descriptor) : Dec Section :=
  if d = .ulong 112 then Section.Header <$> Header.decInner env else
  if d = .ulong 113 then Section.DeliveryAnnotations <$> DeliveryAnnotations.decInner env else
  if d = .ulong 114 then Section.MessageAnnotations <$> MessageAnnotations.decInner env else
  if d = .ulong 116 then Section.ApplicationProperties <$> ApplicationProperties.decInner env else
  if d = .ulong 117 then Section.Data <$> Data.decInner env else
  if d = .ulong 118 then Section.AmqpSequence <$> AmqpSequence.decInner env else
  if d = .ulong 119 then Section.AmqpValue <$> AmqpValue.decInner env else
  if d = .ulong 120 then Section.Footer <$> Footer.decInner env else
  if d = .ulong 115 then Section.Properties <$> Properties.decInner env else
  if d = .sym "amqp:header:list" then Section.Header <$> Header.decInner env else
  if d = .sym "amqp:delivery-annotations:map" then Section.DeliveryAnnotations <$> DeliveryAnnotations.decInner env else
  if d = .sym "amqp:message-annotations:map" then Section.MessageAnnotations <$> MessageAnnotations.decInner env else
  if d = .sym "amqp:application-properties:map" then Section.ApplicationProperties <$> ApplicationProperties.decInner env else
  if d = .sym "amqp:data:binary" then Section.Data <$> Data.decInner env else
  if d = .sym "amqp:amqp-sequence:list" then Section.AmqpSequence <$> AmqpSequence.decInner env else
  if d = .sym "amqp:amqp-value:*" then Section.AmqpValue <$> AmqpValue.decInner env else
  if d = .sym "amqp:footer:map" then Section.Footer <$> Footer.decInner env else
  if d = .sym "amqp:properties:list" then Section.Properties <$> Properties.decInner env else
  Dec.fail (.invalidDescriptor d)

/-- `src/protocol/definitions.rs:334-394`. -/
instance : DecodeF Section where
  decF env fmt := validateCode fmt FC.described (decode Descriptor env >>= Section.dispatch env)

/-- `src/protocol/definitions.rs:395-422`. -/
instance : Encode Section where
  size
    | .Header v => size v
    | .DeliveryAnnotations v => DeliveryAnnotations.innerSize v
    | .MessageAnnotations v => MessageAnnotations.innerSize v
    | .ApplicationProperties v => ApplicationProperties.innerSize v
    | .Data v => Data.innerSize v
    | .AmqpSequence v => AmqpSequence.innerSize v
    | .AmqpValue v => AmqpValue.innerSize v
    | .Footer v => Footer.innerSize v
    | .Properties v => size v
  enc
    | .Header v => enc v
    | .DeliveryAnnotations v => DeliveryAnnotations.innerEnc v
    | .MessageAnnotations v => MessageAnnotations.innerEnc v
    | .ApplicationProperties v => ApplicationProperties.innerEnc v
    | .Data v => Data.innerEnc v
    | .AmqpSequence v => AmqpSequence.innerEnc v
    | .AmqpValue v => AmqpValue.innerEnc v
    | .Footer v => Footer.innerEnc v
    | .Properties v => enc v

end Amqp
