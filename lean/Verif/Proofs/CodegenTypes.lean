import Verif.Codegen.Shipped
import Verif.Proofs.CodegenShipped
/-! Generated by `tools/gen_shipped.py`: the types of the model are those generated from the
shipped specification. -/
set_option autoImplicit false
namespace Amqp.Codegen
open Dec

/-- The functions generated for `Error`. -/
def templateError : TList := ⟨29, "amqp:error:list",
   [.mandatory "condition" (Ty.rust .errorCondition),
    .optional (Ty.rust .byteStr),
    .optional (Ty.rust .fields)]⟩

/-- The fields of `Error` in order. -/
def structError (v : Error) : Struct templateError.fields :=
  (v.condition, v.description, v.info, ())

theorem compiledError_template : compiledError.template = some templateError := rfl

theorem generatesError : Generates templateError structError :=
  generates (α := Error) (fun s => ListType.ofT (α := Error) s) (fun _ => rfl) (fun _ => rfl)
    rfl rfl (fun _ => map_map_id structError (fun s => ListType.ofT (α := Error) s) (fun _ => rfl) _)
    (fun _ => rfl) rfl (fun _ => rfl)

theorem generatesError_inner (env : Env) :
    templateError.decInner env = structError <$> Error.decInner env :=
  generates_inner (α := Error)
    (fun _ => map_map_id structError (fun s => ListType.ofT (α := Error) s) (fun _ => rfl) _) env

/-- The functions generated for `Open`. -/
def templateOpen : TList := ⟨16, "amqp:open:list",
   [.mandatory "container_id" (Ty.rust .byteStr),
    .optional (Ty.rust .byteStr),
    .default (Ty.rust .u32) (4294967295 : UInt32),
    .default (Ty.rust .u16) (65535 : UInt16),
    .optional (Ty.rust .u32),
    .optional (Ty.rust .ietfLanguageTags),
    .optional (Ty.rust .ietfLanguageTags),
    .optional (Ty.rust .symbols),
    .optional (Ty.rust .symbols),
    .optional (Ty.rust .fields)]⟩

/-- The fields of `Open` in order. -/
def structOpen (v : Open) : Struct templateOpen.fields :=
  (v.container_id, v.hostname, v.max_frame_size, v.channel_max, v.idle_time_out,
    v.outgoing_locales, v.incoming_locales, v.offered_capabilities, v.desired_capabilities,
    v.properties, ())

theorem compiledOpen_template : compiledOpen.template = some templateOpen := rfl

theorem generatesOpen : Generates templateOpen structOpen :=
  generates (α := Open) (fun s => ListType.ofT (α := Open) s) (fun _ => rfl) (fun _ => rfl)
    rfl rfl (fun _ => map_map_id structOpen (fun s => ListType.ofT (α := Open) s) (fun _ => rfl) _)
    (fun _ => rfl) rfl (fun _ => rfl)

theorem generatesOpen_inner (env : Env) :
    templateOpen.decInner env = structOpen <$> Open.decInner env :=
  generates_inner (α := Open)
    (fun _ => map_map_id structOpen (fun s => ListType.ofT (α := Open) s) (fun _ => rfl) _) env

/-- The functions generated for `Begin`. -/
def templateBegin : TList := ⟨17, "amqp:begin:list",
   [.optional (Ty.rust .u16),
    .mandatory "next_outgoing_id" (Ty.rust .u32),
    .mandatory "incoming_window" (Ty.rust .u32),
    .mandatory "outgoing_window" (Ty.rust .u32),
    .default (Ty.rust .u32) (4294967295 : UInt32),
    .optional (Ty.rust .symbols),
    .optional (Ty.rust .symbols),
    .optional (Ty.rust .fields)]⟩

/-- The fields of `Begin` in order. -/
def structBegin (v : Begin) : Struct templateBegin.fields :=
  (v.remote_channel, v.next_outgoing_id, v.incoming_window, v.outgoing_window, v.handle_max,
    v.offered_capabilities, v.desired_capabilities, v.properties, ())

theorem compiledBegin_template : compiledBegin.template = some templateBegin := rfl

theorem generatesBegin : Generates templateBegin structBegin :=
  generates (α := Begin) (fun s => ListType.ofT (α := Begin) s) (fun _ => rfl) (fun _ => rfl)
    rfl rfl (fun _ => map_map_id structBegin (fun s => ListType.ofT (α := Begin) s) (fun _ => rfl) _)
    (fun _ => rfl) rfl (fun _ => rfl)

theorem generatesBegin_inner (env : Env) :
    templateBegin.decInner env = structBegin <$> Begin.decInner env :=
  generates_inner (α := Begin)
    (fun _ => map_map_id structBegin (fun s => ListType.ofT (α := Begin) s) (fun _ => rfl) _) env

/-- The functions generated for `Attach`. -/
def templateAttach : TList := ⟨18, "amqp:attach:list",
   [.mandatory "name" (Ty.rust .byteStr),
    .mandatory "handle" (Ty.rust .u32),
    .mandatory "role" (Ty.rust .role),
    .default (Ty.rust .senderSettleMode) (.Mixed : SenderSettleMode),
    .default (Ty.rust .receiverSettleMode) (.First : ReceiverSettleMode),
    .optional (Ty.rust .source),
    .optional (Ty.rust .target),
    .optional (Ty.rust .map),
    .default (Ty.rust .bool) (false : Bool),
    .optional (Ty.rust .u32),
    .optional (Ty.rust .u64),
    .optional (Ty.rust .symbols),
    .optional (Ty.rust .symbols),
    .optional (Ty.rust .fields)]⟩

/-- The fields of `Attach` in order. -/
def structAttach (v : Attach) : Struct templateAttach.fields :=
  (v.name, v.handle, v.role, v.snd_settle_mode, v.rcv_settle_mode, v.source, v.target,
    v.unsettled, v.incomplete_unsettled, v.initial_delivery_count, v.max_message_size,
    v.offered_capabilities, v.desired_capabilities, v.properties, ())

theorem compiledAttach_template : compiledAttach.template = some templateAttach := rfl

theorem generatesAttach : Generates templateAttach structAttach :=
  generates (α := Attach) (fun s => ListType.ofT (α := Attach) s) (fun _ => rfl) (fun _ => rfl)
    rfl rfl (fun _ => map_map_id structAttach (fun s => ListType.ofT (α := Attach) s) (fun _ => rfl) _)
    (fun _ => rfl) rfl (fun _ => rfl)

theorem generatesAttach_inner (env : Env) :
    templateAttach.decInner env = structAttach <$> Attach.decInner env :=
  generates_inner (α := Attach)
    (fun _ => map_map_id structAttach (fun s => ListType.ofT (α := Attach) s) (fun _ => rfl) _) env

/-- The functions generated for `Flow`. -/
def templateFlow : TList := ⟨19, "amqp:flow:list",
   [.optional (Ty.rust .u32),
    .mandatory "incoming_window" (Ty.rust .u32),
    .mandatory "next_outgoing_id" (Ty.rust .u32),
    .mandatory "outgoing_window" (Ty.rust .u32),
    .optional (Ty.rust .u32),
    .optional (Ty.rust .u32),
    .optional (Ty.rust .u32),
    .optional (Ty.rust .u32),
    .default (Ty.rust .bool) (false : Bool),
    .default (Ty.rust .bool) (false : Bool),
    .optional (Ty.rust .fields)]⟩

/-- The fields of `Flow` in order. -/
def structFlow (v : Flow) : Struct templateFlow.fields :=
  (v.next_incoming_id, v.incoming_window, v.next_outgoing_id, v.outgoing_window, v.handle,
    v.delivery_count, v.link_credit, v.available, v.drain, v.echo, v.properties, ())

theorem compiledFlow_template : compiledFlow.template = some templateFlow := rfl

theorem generatesFlow : Generates templateFlow structFlow :=
  generates (α := Flow) (fun s => ListType.ofT (α := Flow) s) (fun _ => rfl) (fun _ => rfl)
    rfl rfl (fun _ => map_map_id structFlow (fun s => ListType.ofT (α := Flow) s) (fun _ => rfl) _)
    (fun _ => rfl) rfl (fun _ => rfl)

theorem generatesFlow_inner (env : Env) :
    templateFlow.decInner env = structFlow <$> Flow.decInner env :=
  generates_inner (α := Flow)
    (fun _ => map_map_id structFlow (fun s => ListType.ofT (α := Flow) s) (fun _ => rfl) _) env

/-- The functions generated for `Transfer`. -/
def templateTransfer : TList := ⟨20, "amqp:transfer:list",
   [.mandatory "handle" (Ty.rust .u32),
    .optional (Ty.rust .u32),
    .optional (Ty.rust .bytes),
    .optional (Ty.rust .u32),
    .optional (Ty.rust .bool),
    .default (Ty.rust .bool) (false : Bool),
    .optional (Ty.rust .receiverSettleMode),
    .optional (Ty.rust .deliveryState),
    .default (Ty.rust .bool) (false : Bool),
    .default (Ty.rust .bool) (false : Bool),
    .default (Ty.rust .bool) (false : Bool)]⟩

/-- The fields of `Transfer` in order. -/
def structTransfer (v : TransferPerf) : Struct templateTransfer.fields :=
  (v.handle, v.delivery_id, v.delivery_tag, v.message_format, v.settled, v.more,
    v.rcv_settle_mode, v.state, v.resume, v.aborted, v.batchable, ())

theorem compiledTransfer_template : compiledTransfer.template = some templateTransfer := rfl

theorem generatesTransfer : Generates templateTransfer structTransfer :=
  generates (α := TransferPerf) (fun s => ListType.ofT (α := TransferPerf) s) (fun _ => rfl) (fun _ => rfl)
    rfl rfl (fun _ => map_map_id structTransfer (fun s => ListType.ofT (α := TransferPerf) s) (fun _ => rfl) _)
    (fun _ => rfl) rfl (fun _ => rfl)

theorem generatesTransfer_inner (env : Env) :
    templateTransfer.decInner env = structTransfer <$> TransferPerf.decInner env :=
  generates_inner (α := TransferPerf)
    (fun _ => map_map_id structTransfer (fun s => ListType.ofT (α := TransferPerf) s) (fun _ => rfl) _) env

/-- The functions generated for `Disposition`. -/
def templateDisposition : TList := ⟨21, "amqp:disposition:list",
   [.mandatory "role" (Ty.rust .role),
    .mandatory "first" (Ty.rust .u32),
    .optional (Ty.rust .u32),
    .default (Ty.rust .bool) (false : Bool),
    .optional (Ty.rust .deliveryState),
    .default (Ty.rust .bool) (false : Bool)]⟩

/-- The fields of `Disposition` in order. -/
def structDisposition (v : Disposition) : Struct templateDisposition.fields :=
  (v.role, v.first, v.last, v.settled, v.state, v.batchable, ())

theorem compiledDisposition_template : compiledDisposition.template = some templateDisposition := rfl

theorem generatesDisposition : Generates templateDisposition structDisposition :=
  generates (α := Disposition) (fun s => ListType.ofT (α := Disposition) s) (fun _ => rfl) (fun _ => rfl)
    rfl rfl (fun _ => map_map_id structDisposition (fun s => ListType.ofT (α := Disposition) s) (fun _ => rfl) _)
    (fun _ => rfl) rfl (fun _ => rfl)

theorem generatesDisposition_inner (env : Env) :
    templateDisposition.decInner env = structDisposition <$> Disposition.decInner env :=
  generates_inner (α := Disposition)
    (fun _ => map_map_id structDisposition (fun s => ListType.ofT (α := Disposition) s) (fun _ => rfl) _) env

/-- The functions generated for `Detach`. -/
def templateDetach : TList := ⟨22, "amqp:detach:list",
   [.mandatory "handle" (Ty.rust .u32),
    .default (Ty.rust .bool) (false : Bool),
    .optional (Ty.rust .error)]⟩

/-- The fields of `Detach` in order. -/
def structDetach (v : Detach) : Struct templateDetach.fields :=
  (v.handle, v.closed, v.error, ())

theorem compiledDetach_template : compiledDetach.template = some templateDetach := rfl

theorem generatesDetach : Generates templateDetach structDetach :=
  generates (α := Detach) (fun s => ListType.ofT (α := Detach) s) (fun _ => rfl) (fun _ => rfl)
    rfl rfl (fun _ => map_map_id structDetach (fun s => ListType.ofT (α := Detach) s) (fun _ => rfl) _)
    (fun _ => rfl) rfl (fun _ => rfl)

theorem generatesDetach_inner (env : Env) :
    templateDetach.decInner env = structDetach <$> Detach.decInner env :=
  generates_inner (α := Detach)
    (fun _ => map_map_id structDetach (fun s => ListType.ofT (α := Detach) s) (fun _ => rfl) _) env

/-- The functions generated for `End`. -/
def templateEnd : TList := ⟨23, "amqp:end:list",
   [.optional (Ty.rust .error)]⟩

/-- The fields of `End` in order. -/
def structEnd (v : End) : Struct templateEnd.fields :=
  (v.error, ())

theorem compiledEnd_template : compiledEnd.template = some templateEnd := rfl

theorem generatesEnd : Generates templateEnd structEnd :=
  generates (α := End) (fun s => ListType.ofT (α := End) s) (fun _ => rfl) (fun _ => rfl)
    rfl rfl (fun _ => map_map_id structEnd (fun s => ListType.ofT (α := End) s) (fun _ => rfl) _)
    (fun _ => rfl) rfl (fun _ => rfl)

theorem generatesEnd_inner (env : Env) :
    templateEnd.decInner env = structEnd <$> End.decInner env :=
  generates_inner (α := End)
    (fun _ => map_map_id structEnd (fun s => ListType.ofT (α := End) s) (fun _ => rfl) _) env

/-- The functions generated for `Close`. -/
def templateClose : TList := ⟨24, "amqp:close:list",
   [.optional (Ty.rust .error)]⟩

/-- The fields of `Close` in order. -/
def structClose (v : Close) : Struct templateClose.fields :=
  (v.error, ())

theorem compiledClose_template : compiledClose.template = some templateClose := rfl

theorem generatesClose : Generates templateClose structClose :=
  generates (α := Close) (fun s => ListType.ofT (α := Close) s) (fun _ => rfl) (fun _ => rfl)
    rfl rfl (fun _ => map_map_id structClose (fun s => ListType.ofT (α := Close) s) (fun _ => rfl) _)
    (fun _ => rfl) rfl (fun _ => rfl)

theorem generatesClose_inner (env : Env) :
    templateClose.decInner env = structClose <$> Close.decInner env :=
  generates_inner (α := Close)
    (fun _ => map_map_id structClose (fun s => ListType.ofT (α := Close) s) (fun _ => rfl) _) env

/-- The functions generated for `SaslMechanisms`. -/
def templateSaslMechanisms : TList := ⟨64, "amqp:sasl-mechanisms:list",
   [.mandatory "sasl_server_mechanisms" (Ty.rust .symbols)]⟩

/-- The fields of `SaslMechanisms` in order. -/
def structSaslMechanisms (v : SaslMechanisms) : Struct templateSaslMechanisms.fields :=
  (v.sasl_server_mechanisms, ())

theorem compiledSaslMechanisms_template : compiledSaslMechanisms.template = some templateSaslMechanisms := rfl

theorem generatesSaslMechanisms : Generates templateSaslMechanisms structSaslMechanisms :=
  generates (α := SaslMechanisms) (fun s => ListType.ofT (α := SaslMechanisms) s) (fun _ => rfl) (fun _ => rfl)
    rfl rfl (fun _ => map_map_id structSaslMechanisms (fun s => ListType.ofT (α := SaslMechanisms) s) (fun _ => rfl) _)
    (fun _ => rfl) rfl (fun _ => rfl)

theorem generatesSaslMechanisms_inner (env : Env) :
    templateSaslMechanisms.decInner env = structSaslMechanisms <$> SaslMechanisms.decInner env :=
  generates_inner (α := SaslMechanisms)
    (fun _ => map_map_id structSaslMechanisms (fun s => ListType.ofT (α := SaslMechanisms) s) (fun _ => rfl) _) env

/-- The functions generated for `SaslInit`. -/
def templateSaslInit : TList := ⟨65, "amqp:sasl-init:list",
   [.mandatory "mechanism" (Ty.rust .symbol),
    .optional (Ty.rust .bytes),
    .optional (Ty.rust .byteStr)]⟩

/-- The fields of `SaslInit` in order. -/
def structSaslInit (v : SaslInit) : Struct templateSaslInit.fields :=
  (v.mechanism, v.initial_response, v.hostname, ())

theorem compiledSaslInit_template : compiledSaslInit.template = some templateSaslInit := rfl

theorem generatesSaslInit : Generates templateSaslInit structSaslInit :=
  generates (α := SaslInit) (fun s => ListType.ofT (α := SaslInit) s) (fun _ => rfl) (fun _ => rfl)
    rfl rfl (fun _ => map_map_id structSaslInit (fun s => ListType.ofT (α := SaslInit) s) (fun _ => rfl) _)
    (fun _ => rfl) rfl (fun _ => rfl)

theorem generatesSaslInit_inner (env : Env) :
    templateSaslInit.decInner env = structSaslInit <$> SaslInit.decInner env :=
  generates_inner (α := SaslInit)
    (fun _ => map_map_id structSaslInit (fun s => ListType.ofT (α := SaslInit) s) (fun _ => rfl) _) env

/-- The functions generated for `SaslChallenge`. -/
def templateSaslChallenge : TList := ⟨66, "amqp:sasl-challenge:list",
   [.mandatory "challenge" (Ty.rust .bytes)]⟩

/-- The fields of `SaslChallenge` in order. -/
def structSaslChallenge (v : SaslChallenge) : Struct templateSaslChallenge.fields :=
  (v.challenge, ())

theorem compiledSaslChallenge_template : compiledSaslChallenge.template = some templateSaslChallenge := rfl

theorem generatesSaslChallenge : Generates templateSaslChallenge structSaslChallenge :=
  generates (α := SaslChallenge) (fun s => ListType.ofT (α := SaslChallenge) s) (fun _ => rfl) (fun _ => rfl)
    rfl rfl (fun _ => map_map_id structSaslChallenge (fun s => ListType.ofT (α := SaslChallenge) s) (fun _ => rfl) _)
    (fun _ => rfl) rfl (fun _ => rfl)

theorem generatesSaslChallenge_inner (env : Env) :
    templateSaslChallenge.decInner env = structSaslChallenge <$> SaslChallenge.decInner env :=
  generates_inner (α := SaslChallenge)
    (fun _ => map_map_id structSaslChallenge (fun s => ListType.ofT (α := SaslChallenge) s) (fun _ => rfl) _) env

/-- The functions generated for `SaslResponse`. -/
def templateSaslResponse : TList := ⟨67, "amqp:sasl-response:list",
   [.mandatory "response" (Ty.rust .bytes)]⟩

/-- The fields of `SaslResponse` in order. -/
def structSaslResponse (v : SaslResponse) : Struct templateSaslResponse.fields :=
  (v.response, ())

theorem compiledSaslResponse_template : compiledSaslResponse.template = some templateSaslResponse := rfl

theorem generatesSaslResponse : Generates templateSaslResponse structSaslResponse :=
  generates (α := SaslResponse) (fun s => ListType.ofT (α := SaslResponse) s) (fun _ => rfl) (fun _ => rfl)
    rfl rfl (fun _ => map_map_id structSaslResponse (fun s => ListType.ofT (α := SaslResponse) s) (fun _ => rfl) _)
    (fun _ => rfl) rfl (fun _ => rfl)

theorem generatesSaslResponse_inner (env : Env) :
    templateSaslResponse.decInner env = structSaslResponse <$> SaslResponse.decInner env :=
  generates_inner (α := SaslResponse)
    (fun _ => map_map_id structSaslResponse (fun s => ListType.ofT (α := SaslResponse) s) (fun _ => rfl) _) env

/-- The functions generated for `SaslOutcome`. -/
def templateSaslOutcome : TList := ⟨68, "amqp:sasl-outcome:list",
   [.mandatory "code" (Ty.rust .saslCode),
    .optional (Ty.rust .bytes)]⟩

/-- The fields of `SaslOutcome` in order. -/
def structSaslOutcome (v : SaslOutcome) : Struct templateSaslOutcome.fields :=
  (v.code, v.additional_data, ())

theorem compiledSaslOutcome_template : compiledSaslOutcome.template = some templateSaslOutcome := rfl

theorem generatesSaslOutcome : Generates templateSaslOutcome structSaslOutcome :=
  generates (α := SaslOutcome) (fun s => ListType.ofT (α := SaslOutcome) s) (fun _ => rfl) (fun _ => rfl)
    rfl rfl (fun _ => map_map_id structSaslOutcome (fun s => ListType.ofT (α := SaslOutcome) s) (fun _ => rfl) _)
    (fun _ => rfl) rfl (fun _ => rfl)

theorem generatesSaslOutcome_inner (env : Env) :
    templateSaslOutcome.decInner env = structSaslOutcome <$> SaslOutcome.decInner env :=
  generates_inner (α := SaslOutcome)
    (fun _ => map_map_id structSaslOutcome (fun s => ListType.ofT (α := SaslOutcome) s) (fun _ => rfl) _) env

/-- The functions generated for `Source`. -/
def templateSource : TList := ⟨40, "amqp:source:list",
   [.optional (Ty.rust .byteStr),
    .default (Ty.rust .terminusDurability) (.None : TerminusDurability),
    .default (Ty.rust .terminusExpiryPolicy) (.SessionEnd : TerminusExpiryPolicy),
    .default (Ty.rust .u32) (0 : UInt32),
    .default (Ty.rust .bool) (false : Bool),
    .optional (Ty.rust .fields),
    .optional (Ty.rust .distributionMode),
    .optional (Ty.rust .filterSet),
    .optional (Ty.rust .outcome),
    .optional (Ty.rust .symbols),
    .optional (Ty.rust .symbols)]⟩

/-- The fields of `Source` in order. -/
def structSource (v : Source) : Struct templateSource.fields :=
  (v.address, v.durable, v.expiry_policy, v.timeout, v.dynamic, v.dynamic_node_properties,
    v.distribution_mode, v.filter, v.default_outcome, v.outcomes, v.capabilities, ())

theorem compiledSource_template : compiledSource.template = some templateSource := rfl

theorem generatesSource : Generates templateSource structSource :=
  generates (α := Source) (fun s => ListType.ofT (α := Source) s) (fun _ => rfl) (fun _ => rfl)
    rfl rfl (fun _ => map_map_id structSource (fun s => ListType.ofT (α := Source) s) (fun _ => rfl) _)
    (fun _ => rfl) rfl (fun _ => rfl)

theorem generatesSource_inner (env : Env) :
    templateSource.decInner env = structSource <$> Source.decInner env :=
  generates_inner (α := Source)
    (fun _ => map_map_id structSource (fun s => ListType.ofT (α := Source) s) (fun _ => rfl) _) env

/-- The functions generated for `Target`. -/
def templateTarget : TList := ⟨41, "amqp:target:list",
   [.optional (Ty.rust .byteStr),
    .default (Ty.rust .terminusDurability) (.None : TerminusDurability),
    .default (Ty.rust .terminusExpiryPolicy) (.SessionEnd : TerminusExpiryPolicy),
    .default (Ty.rust .u32) (0 : UInt32),
    .default (Ty.rust .bool) (false : Bool),
    .optional (Ty.rust .fields),
    .optional (Ty.rust .symbols)]⟩

/-- The fields of `Target` in order. -/
def structTarget (v : Target) : Struct templateTarget.fields :=
  (v.address, v.durable, v.expiry_policy, v.timeout, v.dynamic, v.dynamic_node_properties,
    v.capabilities, ())

theorem compiledTarget_template : compiledTarget.template = some templateTarget := rfl

theorem generatesTarget : Generates templateTarget structTarget :=
  generates (α := Target) (fun s => ListType.ofT (α := Target) s) (fun _ => rfl) (fun _ => rfl)
    rfl rfl (fun _ => map_map_id structTarget (fun s => ListType.ofT (α := Target) s) (fun _ => rfl) _)
    (fun _ => rfl) rfl (fun _ => rfl)

theorem generatesTarget_inner (env : Env) :
    templateTarget.decInner env = structTarget <$> Target.decInner env :=
  generates_inner (α := Target)
    (fun _ => map_map_id structTarget (fun s => ListType.ofT (α := Target) s) (fun _ => rfl) _) env

/-- The functions generated for `Header`. -/
def templateHeader : TList := ⟨112, "amqp:header:list",
   [.default (Ty.rust .bool) (false : Bool),
    .default (Ty.rust .u8) (4 : UInt8),
    .optional (Ty.rust .u32),
    .default (Ty.rust .bool) (false : Bool),
    .default (Ty.rust .u32) (0 : UInt32)]⟩

/-- The fields of `Header` in order. -/
def structHeader (v : Header) : Struct templateHeader.fields :=
  (v.durable, v.priority, v.ttl, v.first_acquirer, v.delivery_count, ())

theorem compiledHeader_template : compiledHeader.template = some templateHeader := rfl

theorem generatesHeader : Generates templateHeader structHeader :=
  generates (α := Header) (fun s => ListType.ofT (α := Header) s) (fun _ => rfl) (fun _ => rfl)
    rfl rfl (fun _ => map_map_id structHeader (fun s => ListType.ofT (α := Header) s) (fun _ => rfl) _)
    (fun _ => rfl) rfl (fun _ => rfl)

theorem generatesHeader_inner (env : Env) :
    templateHeader.decInner env = structHeader <$> Header.decInner env :=
  generates_inner (α := Header)
    (fun _ => map_map_id structHeader (fun s => ListType.ofT (α := Header) s) (fun _ => rfl) _) env

/-- The functions generated for `Properties`. -/
def templateProperties : TList := ⟨115, "amqp:properties:list",
   [.optional (Ty.rust .messageId),
    .optional (Ty.rust .bytes),
    .optional (Ty.rust .byteStr),
    .optional (Ty.rust .byteStr),
    .optional (Ty.rust .byteStr),
    .optional (Ty.rust .messageId),
    .optional (Ty.rust .symbol),
    .optional (Ty.rust .symbol),
    .optional (Ty.rust .timestamp),
    .optional (Ty.rust .timestamp),
    .optional (Ty.rust .byteStr),
    .optional (Ty.rust .u32),
    .optional (Ty.rust .byteStr)]⟩

/-- The fields of `Properties` in order. -/
def structProperties (v : Properties) : Struct templateProperties.fields :=
  (v.message_id, v.user_id, v.to, v.subject, v.reply_to, v.correlation_id, v.content_type,
    v.content_encoding, v.absolute_expiry_time, v.creation_time, v.group_id, v.group_sequence,
    v.reply_to_group_id, ())

theorem compiledProperties_template : compiledProperties.template = some templateProperties := rfl

theorem generatesProperties : Generates templateProperties structProperties :=
  generates (α := Properties) (fun s => ListType.ofT (α := Properties) s) (fun _ => rfl) (fun _ => rfl)
    rfl rfl (fun _ => map_map_id structProperties (fun s => ListType.ofT (α := Properties) s) (fun _ => rfl) _)
    (fun _ => rfl) rfl (fun _ => rfl)

theorem generatesProperties_inner (env : Env) :
    templateProperties.decInner env = structProperties <$> Properties.decInner env :=
  generates_inner (α := Properties)
    (fun _ => map_map_id structProperties (fun s => ListType.ofT (α := Properties) s) (fun _ => rfl) _) env

/-- The functions generated for `Received`. -/
def templateReceived : TList := ⟨35, "amqp:received:list",
   [.mandatory "section_number" (Ty.rust .u32),
    .mandatory "section_offset" (Ty.rust .u64)]⟩

/-- The fields of `Received` in order. -/
def structReceived (v : Received) : Struct templateReceived.fields :=
  (v.section_number, v.section_offset, ())

theorem compiledReceived_template : compiledReceived.template = some templateReceived := rfl

theorem generatesReceived : Generates templateReceived structReceived :=
  generates (α := Received) (fun s => ListType.ofT (α := Received) s) (fun _ => rfl) (fun _ => rfl)
    rfl rfl (fun _ => map_map_id structReceived (fun s => ListType.ofT (α := Received) s) (fun _ => rfl) _)
    (fun _ => rfl) rfl (fun _ => rfl)

theorem generatesReceived_inner (env : Env) :
    templateReceived.decInner env = structReceived <$> Received.decInner env :=
  generates_inner (α := Received)
    (fun _ => map_map_id structReceived (fun s => ListType.ofT (α := Received) s) (fun _ => rfl) _) env

/-- The functions generated for `Accepted`. -/
def templateAccepted : TList := ⟨36, "amqp:accepted:list",
   []⟩

/-- The fields of `Accepted` in order. -/
def structAccepted (_ : Accepted) : Struct templateAccepted.fields :=
  ()

theorem compiledAccepted_template : compiledAccepted.template = some templateAccepted := rfl

theorem generatesAccepted : Generates templateAccepted structAccepted :=
  generates (α := Accepted) (fun s => ListType.ofT (α := Accepted) s) (fun _ => rfl) (fun _ => rfl)
    rfl rfl (fun _ => map_map_id structAccepted (fun s => ListType.ofT (α := Accepted) s) (fun _ => rfl) _)
    (fun _ => rfl) rfl (fun _ => rfl)

theorem generatesAccepted_inner (env : Env) :
    templateAccepted.decInner env = structAccepted <$> Accepted.decInner env :=
  generates_inner (α := Accepted)
    (fun _ => map_map_id structAccepted (fun s => ListType.ofT (α := Accepted) s) (fun _ => rfl) _) env

/-- The functions generated for `Rejected`. -/
def templateRejected : TList := ⟨37, "amqp:rejected:list",
   [.optional (Ty.rust .error)]⟩

/-- The fields of `Rejected` in order. -/
def structRejected (v : Rejected) : Struct templateRejected.fields :=
  (v.error, ())

theorem compiledRejected_template : compiledRejected.template = some templateRejected := rfl

theorem generatesRejected : Generates templateRejected structRejected :=
  generates (α := Rejected) (fun s => ListType.ofT (α := Rejected) s) (fun _ => rfl) (fun _ => rfl)
    rfl rfl (fun _ => map_map_id structRejected (fun s => ListType.ofT (α := Rejected) s) (fun _ => rfl) _)
    (fun _ => rfl) rfl (fun _ => rfl)

theorem generatesRejected_inner (env : Env) :
    templateRejected.decInner env = structRejected <$> Rejected.decInner env :=
  generates_inner (α := Rejected)
    (fun _ => map_map_id structRejected (fun s => ListType.ofT (α := Rejected) s) (fun _ => rfl) _) env

/-- The functions generated for `Released`. -/
def templateReleased : TList := ⟨38, "amqp:released:list",
   []⟩

/-- The fields of `Released` in order. -/
def structReleased (_ : Released) : Struct templateReleased.fields :=
  ()

theorem compiledReleased_template : compiledReleased.template = some templateReleased := rfl

theorem generatesReleased : Generates templateReleased structReleased :=
  generates (α := Released) (fun s => ListType.ofT (α := Released) s) (fun _ => rfl) (fun _ => rfl)
    rfl rfl (fun _ => map_map_id structReleased (fun s => ListType.ofT (α := Released) s) (fun _ => rfl) _)
    (fun _ => rfl) rfl (fun _ => rfl)

theorem generatesReleased_inner (env : Env) :
    templateReleased.decInner env = structReleased <$> Released.decInner env :=
  generates_inner (α := Released)
    (fun _ => map_map_id structReleased (fun s => ListType.ofT (α := Released) s) (fun _ => rfl) _) env

/-- The functions generated for `Modified`. -/
def templateModified : TList := ⟨39, "amqp:modified:list",
   [.optional (Ty.rust .bool),
    .optional (Ty.rust .bool),
    .optional (Ty.rust .fields)]⟩

/-- The fields of `Modified` in order. -/
def structModified (v : Modified) : Struct templateModified.fields :=
  (v.delivery_failed, v.undeliverable_here, v.message_annotations, ())

theorem compiledModified_template : compiledModified.template = some templateModified := rfl

theorem generatesModified : Generates templateModified structModified :=
  generates (α := Modified) (fun s => ListType.ofT (α := Modified) s) (fun _ => rfl) (fun _ => rfl)
    rfl rfl (fun _ => map_map_id structModified (fun s => ListType.ofT (α := Modified) s) (fun _ => rfl) _)
    (fun _ => rfl) rfl (fun _ => rfl)

theorem generatesModified_inner (env : Env) :
    templateModified.decInner env = structModified <$> Modified.decInner env :=
  generates_inner (α := Modified)
    (fun _ => map_map_id structModified (fun s => ListType.ofT (α := Modified) s) (fun _ => rfl) _) env

/-- The functions generated for `Role`. -/
def templateRole : TEnum Bool := ⟨"Role", [false, true], [5, 4]⟩

/-- The items of `Role` in order. -/
def itemRole : Role → Fin templateRole.values.length
  | .Sender => ⟨0, by decide⟩
  | .Receiver => ⟨1, by decide⟩

theorem compiledRole_template : compiledRole.template = some templateRole := rfl

theorem itemRole_nodup : templateRole.values.Nodup := by decide +kernel

theorem generatesRole : GeneratesEnum templateRole templateRole.size templateRole.enc itemRole where
  bijective := ⟨fun i => [(.Sender : Role), (.Receiver : Role)].get i, fun v => by cases v <;> rfl, by decide⟩
  decode := enum_agrees (fun i => [(.Sender : Role), (.Receiver : Role)].get i) (by decide) itemRole_nodup
    (fun v => by cases v <;> rfl) (by
      intro b h
      change (∀ e, Role.tryFrom b ≠ .ok e) at h
      show Role.tryFrom b = _
      unfold Role.tryFrom at h ⊢
      repeat (refine ite_ok_or h ?_; clear h; intro h)
      rfl)
  size v := by cases v <;> rfl
  enc v := by cases v <;> rfl

/-- The functions generated for `SenderSettleMode`. -/
def templateSenderSettleMode : TEnum UInt8 := ⟨"SenderSettleMode", [0, 1, 2], [1, 1, 1]⟩

/-- The items of `SenderSettleMode` in order. -/
def itemSenderSettleMode : SenderSettleMode → Fin templateSenderSettleMode.values.length
  | .Unsettled => ⟨0, by decide⟩
  | .Settled => ⟨1, by decide⟩
  | .Mixed => ⟨2, by decide⟩

theorem compiledSenderSettleMode_template : compiledSenderSettleMode.template = some templateSenderSettleMode := rfl

theorem itemSenderSettleMode_nodup : templateSenderSettleMode.values.Nodup := by decide +kernel

theorem generatesSenderSettleMode : GeneratesEnum templateSenderSettleMode templateSenderSettleMode.size templateSenderSettleMode.enc itemSenderSettleMode where
  bijective := ⟨fun i => [(.Unsettled : SenderSettleMode), (.Settled : SenderSettleMode), (.Mixed : SenderSettleMode)].get i, fun v => by cases v <;> rfl, by decide⟩
  decode := enum_agrees (fun i => [(.Unsettled : SenderSettleMode), (.Settled : SenderSettleMode), (.Mixed : SenderSettleMode)].get i) (by decide) itemSenderSettleMode_nodup
    (fun v => by cases v <;> rfl) (by
      intro b h
      change (∀ e, SenderSettleMode.tryFrom b ≠ .ok e) at h
      show SenderSettleMode.tryFrom b = _
      unfold SenderSettleMode.tryFrom at h ⊢
      repeat (refine ite_ok_or h ?_; clear h; intro h)
      rfl)
  size v := by cases v <;> rfl
  enc v := by cases v <;> rfl

/-- The functions generated for `ReceiverSettleMode`. -/
def templateReceiverSettleMode : TEnum UInt8 := ⟨"ReceiverSettleMode", [0, 1], [1, 1]⟩

/-- The items of `ReceiverSettleMode` in order. -/
def itemReceiverSettleMode : ReceiverSettleMode → Fin templateReceiverSettleMode.values.length
  | .First => ⟨0, by decide⟩
  | .Second => ⟨1, by decide⟩

theorem compiledReceiverSettleMode_template : compiledReceiverSettleMode.template = some templateReceiverSettleMode := rfl

theorem itemReceiverSettleMode_nodup : templateReceiverSettleMode.values.Nodup := by decide +kernel

theorem generatesReceiverSettleMode : GeneratesEnum templateReceiverSettleMode templateReceiverSettleMode.size templateReceiverSettleMode.enc itemReceiverSettleMode where
  bijective := ⟨fun i => [(.First : ReceiverSettleMode), (.Second : ReceiverSettleMode)].get i, fun v => by cases v <;> rfl, by decide⟩
  decode := enum_agrees (fun i => [(.First : ReceiverSettleMode), (.Second : ReceiverSettleMode)].get i) (by decide) itemReceiverSettleMode_nodup
    (fun v => by cases v <;> rfl) (by
      intro b h
      change (∀ e, ReceiverSettleMode.tryFrom b ≠ .ok e) at h
      show ReceiverSettleMode.tryFrom b = _
      unfold ReceiverSettleMode.tryFrom at h ⊢
      repeat (refine ite_ok_or h ?_; clear h; intro h)
      rfl)
  size v := by cases v <;> rfl
  enc v := by cases v <;> rfl

/-- The functions generated for `AmqpError`. -/
def templateAmqpError : TEnum Symbol := compiledAmqpError.symbols

/-- The items of `AmqpError` in order. -/
def itemAmqpError : AmqpError → Fin templateAmqpError.values.length
  | .InternalError => ⟨0, by decide⟩
  | .NotFound => ⟨1, by decide⟩
  | .UnauthorizedAccess => ⟨2, by decide⟩
  | .DecodeError => ⟨3, by decide⟩
  | .ResourceLimitExceeded => ⟨4, by decide⟩
  | .NotAllowed => ⟨5, by decide⟩
  | .InvalidField => ⟨6, by decide⟩
  | .NotImplemented => ⟨7, by decide⟩
  | .ResourceLocked => ⟨8, by decide⟩
  | .PreconditionFailed => ⟨9, by decide⟩
  | .ResourceDeleted => ⟨10, by decide⟩
  | .IllegalState => ⟨11, by decide⟩
  | .FrameSizeTooSmall => ⟨12, by decide⟩

theorem itemAmqpError_nodup : templateAmqpError.values.Nodup := by decide +kernel

theorem generatesAmqpError : GeneratesEnum templateAmqpError templateAmqpError.symbolSize templateAmqpError.symbolEnc itemAmqpError where
  bijective := ⟨fun i => [(.InternalError : AmqpError), (.NotFound : AmqpError), (.UnauthorizedAccess : AmqpError), (.DecodeError : AmqpError), (.ResourceLimitExceeded : AmqpError), (.NotAllowed : AmqpError), (.InvalidField : AmqpError), (.NotImplemented : AmqpError), (.ResourceLocked : AmqpError), (.PreconditionFailed : AmqpError), (.ResourceDeleted : AmqpError), (.IllegalState : AmqpError), (.FrameSizeTooSmall : AmqpError)].get i, fun v => by cases v <;> rfl, by decide⟩
  decode := enum_agrees (fun i => [(.InternalError : AmqpError), (.NotFound : AmqpError), (.UnauthorizedAccess : AmqpError), (.DecodeError : AmqpError), (.ResourceLimitExceeded : AmqpError), (.NotAllowed : AmqpError), (.InvalidField : AmqpError), (.NotImplemented : AmqpError), (.ResourceLocked : AmqpError), (.PreconditionFailed : AmqpError), (.ResourceDeleted : AmqpError), (.IllegalState : AmqpError), (.FrameSizeTooSmall : AmqpError)].get i) (by decide) itemAmqpError_nodup
    (fun v => by cases v <;> rfl) (by
      intro b h
      change (∀ e, AmqpError.tryFrom b ≠ .ok e) at h
      show AmqpError.tryFrom b = _
      unfold AmqpError.tryFrom at h ⊢
      repeat (refine ite_ok_or h ?_; clear h; intro h)
      rfl)
  size v := by cases v <;> rfl
  enc v := by cases v <;> rfl

/-- The functions generated for `ConnectionError`. -/
def templateConnectionError : TEnum Symbol := compiledConnectionError.symbols

/-- The items of `ConnectionError` in order. -/
def itemConnectionError : ConnectionError → Fin templateConnectionError.values.length
  | .ConnectionForced => ⟨0, by decide⟩
  | .FramingError => ⟨1, by decide⟩
  | .Redirect => ⟨2, by decide⟩

theorem itemConnectionError_nodup : templateConnectionError.values.Nodup := by decide +kernel

theorem generatesConnectionError : GeneratesEnum templateConnectionError templateConnectionError.symbolSize templateConnectionError.symbolEnc itemConnectionError where
  bijective := ⟨fun i => [(.ConnectionForced : ConnectionError), (.FramingError : ConnectionError), (.Redirect : ConnectionError)].get i, fun v => by cases v <;> rfl, by decide⟩
  decode := enum_agrees (fun i => [(.ConnectionForced : ConnectionError), (.FramingError : ConnectionError), (.Redirect : ConnectionError)].get i) (by decide) itemConnectionError_nodup
    (fun v => by cases v <;> rfl) (by
      intro b h
      change (∀ e, ConnectionError.tryFrom b ≠ .ok e) at h
      show ConnectionError.tryFrom b = _
      unfold ConnectionError.tryFrom at h ⊢
      repeat (refine ite_ok_or h ?_; clear h; intro h)
      rfl)
  size v := by cases v <;> rfl
  enc v := by cases v <;> rfl

/-- The functions generated for `SessionError`. -/
def templateSessionError : TEnum Symbol := compiledSessionError.symbols

/-- The items of `SessionError` in order. -/
def itemSessionError : SessionError → Fin templateSessionError.values.length
  | .WindowViolation => ⟨0, by decide⟩
  | .ErrantLink => ⟨1, by decide⟩
  | .HandleInUse => ⟨2, by decide⟩
  | .UnattachedHandle => ⟨3, by decide⟩

theorem itemSessionError_nodup : templateSessionError.values.Nodup := by decide +kernel

theorem generatesSessionError : GeneratesEnum templateSessionError templateSessionError.symbolSize templateSessionError.symbolEnc itemSessionError where
  bijective := ⟨fun i => [(.WindowViolation : SessionError), (.ErrantLink : SessionError), (.HandleInUse : SessionError), (.UnattachedHandle : SessionError)].get i, fun v => by cases v <;> rfl, by decide⟩
  decode := enum_agrees (fun i => [(.WindowViolation : SessionError), (.ErrantLink : SessionError), (.HandleInUse : SessionError), (.UnattachedHandle : SessionError)].get i) (by decide) itemSessionError_nodup
    (fun v => by cases v <;> rfl) (by
      intro b h
      change (∀ e, SessionError.tryFrom b ≠ .ok e) at h
      show SessionError.tryFrom b = _
      unfold SessionError.tryFrom at h ⊢
      repeat (refine ite_ok_or h ?_; clear h; intro h)
      rfl)
  size v := by cases v <;> rfl
  enc v := by cases v <;> rfl

/-- The functions generated for `LinkError`. -/
def templateLinkError : TEnum Symbol := compiledLinkError.symbols

/-- The items of `LinkError` in order. -/
def itemLinkError : LinkError → Fin templateLinkError.values.length
  | .DetachForced => ⟨0, by decide⟩
  | .TransferLimitExceeded => ⟨1, by decide⟩
  | .MessageSizeExceeded => ⟨2, by decide⟩
  | .Redirect => ⟨3, by decide⟩
  | .Stolen => ⟨4, by decide⟩

theorem itemLinkError_nodup : templateLinkError.values.Nodup := by decide +kernel

theorem generatesLinkError : GeneratesEnum templateLinkError templateLinkError.symbolSize templateLinkError.symbolEnc itemLinkError where
  bijective := ⟨fun i => [(.DetachForced : LinkError), (.TransferLimitExceeded : LinkError), (.MessageSizeExceeded : LinkError), (.Redirect : LinkError), (.Stolen : LinkError)].get i, fun v => by cases v <;> rfl, by decide⟩
  decode := enum_agrees (fun i => [(.DetachForced : LinkError), (.TransferLimitExceeded : LinkError), (.MessageSizeExceeded : LinkError), (.Redirect : LinkError), (.Stolen : LinkError)].get i) (by decide) itemLinkError_nodup
    (fun v => by cases v <;> rfl) (by
      intro b h
      change (∀ e, LinkError.tryFrom b ≠ .ok e) at h
      show LinkError.tryFrom b = _
      unfold LinkError.tryFrom at h ⊢
      repeat (refine ite_ok_or h ?_; clear h; intro h)
      rfl)
  size v := by cases v <;> rfl
  enc v := by cases v <;> rfl

/-- The functions generated for `SaslCode`. -/
def templateSaslCode : TEnum UInt8 := ⟨"SaslCode", [0, 1, 2, 3, 4], [1, 1, 1, 1, 1]⟩

/-- The items of `SaslCode` in order. -/
def itemSaslCode : SaslCode → Fin templateSaslCode.values.length
  | .Ok => ⟨0, by decide⟩
  | .Auth => ⟨1, by decide⟩
  | .Sys => ⟨2, by decide⟩
  | .SysPerm => ⟨3, by decide⟩
  | .SysTemp => ⟨4, by decide⟩

theorem compiledSaslCode_template : compiledSaslCode.template = some templateSaslCode := rfl

theorem itemSaslCode_nodup : templateSaslCode.values.Nodup := by decide +kernel

theorem generatesSaslCode : GeneratesEnum templateSaslCode templateSaslCode.size templateSaslCode.enc itemSaslCode where
  bijective := ⟨fun i => [(.Ok : SaslCode), (.Auth : SaslCode), (.Sys : SaslCode), (.SysPerm : SaslCode), (.SysTemp : SaslCode)].get i, fun v => by cases v <;> rfl, by decide⟩
  decode := enum_agrees (fun i => [(.Ok : SaslCode), (.Auth : SaslCode), (.Sys : SaslCode), (.SysPerm : SaslCode), (.SysTemp : SaslCode)].get i) (by decide) itemSaslCode_nodup
    (fun v => by cases v <;> rfl) (by
      intro b h
      change (∀ e, SaslCode.tryFrom b ≠ .ok e) at h
      show SaslCode.tryFrom b = _
      unfold SaslCode.tryFrom at h ⊢
      repeat (refine ite_ok_or h ?_; clear h; intro h)
      rfl)
  size v := by cases v <;> rfl
  enc v := by cases v <;> rfl

/-- The functions generated for `TerminusDurability`. -/
def templateTerminusDurability : TEnum UInt32 := ⟨"TerminusDurability", [0, 1, 2], [1, 1, 1]⟩

/-- The items of `TerminusDurability` in order. -/
def itemTerminusDurability : TerminusDurability → Fin templateTerminusDurability.values.length
  | .None => ⟨0, by decide⟩
  | .Configuration => ⟨1, by decide⟩
  | .UnsettledState => ⟨2, by decide⟩

theorem compiledTerminusDurability_template : compiledTerminusDurability.template = some templateTerminusDurability := rfl

theorem itemTerminusDurability_nodup : templateTerminusDurability.values.Nodup := by decide +kernel

theorem generatesTerminusDurability : GeneratesEnum templateTerminusDurability templateTerminusDurability.size templateTerminusDurability.enc itemTerminusDurability where
  bijective := ⟨fun i => [(.None : TerminusDurability), (.Configuration : TerminusDurability), (.UnsettledState : TerminusDurability)].get i, fun v => by cases v <;> rfl, by decide⟩
  decode := enum_agrees (fun i => [(.None : TerminusDurability), (.Configuration : TerminusDurability), (.UnsettledState : TerminusDurability)].get i) (by decide) itemTerminusDurability_nodup
    (fun v => by cases v <;> rfl) (by
      intro b h
      change (∀ e, TerminusDurability.tryFrom b ≠ .ok e) at h
      show TerminusDurability.tryFrom b = _
      unfold TerminusDurability.tryFrom at h ⊢
      repeat (refine ite_ok_or h ?_; clear h; intro h)
      rfl)
  size v := by cases v <;> rfl
  enc v := by cases v <;> rfl

/-- The functions generated for `TerminusExpiryPolicy`. -/
def templateTerminusExpiryPolicy : TEnum Symbol := compiledTerminusExpiryPolicy.symbols

/-- The items of `TerminusExpiryPolicy` in order. -/
def itemTerminusExpiryPolicy : TerminusExpiryPolicy → Fin templateTerminusExpiryPolicy.values.length
  | .LinkDetach => ⟨0, by decide⟩
  | .SessionEnd => ⟨1, by decide⟩
  | .ConnectionClose => ⟨2, by decide⟩
  | .Never => ⟨3, by decide⟩

theorem itemTerminusExpiryPolicy_nodup : templateTerminusExpiryPolicy.values.Nodup := by decide +kernel

theorem generatesTerminusExpiryPolicy : GeneratesEnum templateTerminusExpiryPolicy templateTerminusExpiryPolicy.symbolSize templateTerminusExpiryPolicy.symbolEnc itemTerminusExpiryPolicy where
  bijective := ⟨fun i => [(.LinkDetach : TerminusExpiryPolicy), (.SessionEnd : TerminusExpiryPolicy), (.ConnectionClose : TerminusExpiryPolicy), (.Never : TerminusExpiryPolicy)].get i, fun v => by cases v <;> rfl, by decide⟩
  decode := enum_agrees (fun i => [(.LinkDetach : TerminusExpiryPolicy), (.SessionEnd : TerminusExpiryPolicy), (.ConnectionClose : TerminusExpiryPolicy), (.Never : TerminusExpiryPolicy)].get i) (by decide) itemTerminusExpiryPolicy_nodup
    (fun v => by cases v <;> rfl) (by
      intro b h
      change (∀ e, TerminusExpiryPolicy.tryFrom b ≠ .ok e) at h
      show TerminusExpiryPolicy.tryFrom b = _
      unfold TerminusExpiryPolicy.tryFrom at h ⊢
      repeat (refine ite_ok_or h ?_; clear h; intro h)
      rfl)
  size v := by cases v <;> rfl
  enc v := by cases v <;> rfl

/-- The options of `SaslFrameBody`. -/
def optionsSaslFrameBody : List TOption := [templateSaslMechanisms.option, templateSaslInit.option, templateSaslChallenge.option,
    templateSaslResponse.option, templateSaslOutcome.option]

/-- The cases of `SaslFrameBody` in order. -/
def caseSaslFrameBody : SaslFrameBody → Union optionsSaslFrameBody
  | .SaslMechanisms v => .inl (structSaslMechanisms v)
  | .SaslInit v => .inr (.inl (structSaslInit v))
  | .SaslChallenge v => .inr (.inr (.inl (structSaslChallenge v)))
  | .SaslResponse v => .inr (.inr (.inr (.inl (structSaslResponse v))))
  | .SaslOutcome v => .inr (.inr (.inr (.inr (.inl (structSaslOutcome v)))))

/-- The other way round. -/
def uncaseSaslFrameBody : Union optionsSaslFrameBody → SaslFrameBody
  | .inl s => .SaslMechanisms (ListType.ofT (α := SaslMechanisms) s)
  | .inr (.inl s) => .SaslInit (ListType.ofT (α := SaslInit) s)
  | .inr (.inr (.inl s)) => .SaslChallenge (ListType.ofT (α := SaslChallenge) s)
  | .inr (.inr (.inr (.inl s))) => .SaslResponse (ListType.ofT (α := SaslResponse) s)
  | .inr (.inr (.inr (.inr (.inl s)))) => .SaslOutcome (ListType.ofT (α := SaslOutcome) s)

theorem dispatchSaslFrameBody (env : Env) (d : Descriptor) :
    dispatch optionsSaslFrameBody env d = caseSaslFrameBody <$> SaslFrameBody.dispatch env d := by
  by_cases h0 : d = .ulong 64
  · subst h0
    exact (dispatch_code (os := optionsSaslFrameBody) (byCode_here rfl)).trans
      (option_agrees (to := caseSaslFrameBody) (mk := SaslFrameBody.SaslMechanisms) (generatesSaslMechanisms_inner env) fun _ => rfl)
  by_cases h1 : d = .ulong 65
  · subst h1
    exact (dispatch_code (os := optionsSaslFrameBody) (byCode_there (by decide) (byCode_here rfl))).trans
      (option_agrees (to := caseSaslFrameBody) (mk := SaslFrameBody.SaslInit) (generatesSaslInit_inner env) fun _ => rfl)
  by_cases h2 : d = .ulong 66
  · subst h2
    exact (dispatch_code (os := optionsSaslFrameBody) (byCode_there (by decide) (byCode_there (by decide) (byCode_here rfl)))).trans
      (option_agrees (to := caseSaslFrameBody) (mk := SaslFrameBody.SaslChallenge) (generatesSaslChallenge_inner env) fun _ => rfl)
  by_cases h3 : d = .ulong 67
  · subst h3
    exact (dispatch_code (os := optionsSaslFrameBody) (byCode_there (by decide) (byCode_there (by decide) (byCode_there (by decide) (byCode_here rfl))))).trans
      (option_agrees (to := caseSaslFrameBody) (mk := SaslFrameBody.SaslResponse) (generatesSaslResponse_inner env) fun _ => rfl)
  by_cases h4 : d = .ulong 68
  · subst h4
    exact (dispatch_code (os := optionsSaslFrameBody) (byCode_there (by decide) (byCode_there (by decide) (byCode_there (by decide) (byCode_there (by decide) (byCode_here rfl)))))).trans
      (option_agrees (to := caseSaslFrameBody) (mk := SaslFrameBody.SaslOutcome) (generatesSaslOutcome_inner env) fun _ => rfl)
  by_cases h5 : d = .sym "amqp:sasl-mechanisms:list"
  · subst h5
    exact (dispatch_name (os := optionsSaslFrameBody) (byName_here rfl)).trans
      (option_agrees (to := caseSaslFrameBody) (mk := SaslFrameBody.SaslMechanisms) (generatesSaslMechanisms_inner env) fun _ => rfl)
  by_cases h6 : d = .sym "amqp:sasl-init:list"
  · subst h6
    exact (dispatch_name (os := optionsSaslFrameBody) (byName_there (by decide) (byName_here rfl))).trans
      (option_agrees (to := caseSaslFrameBody) (mk := SaslFrameBody.SaslInit) (generatesSaslInit_inner env) fun _ => rfl)
  by_cases h7 : d = .sym "amqp:sasl-challenge:list"
  · subst h7
    exact (dispatch_name (os := optionsSaslFrameBody) (byName_there (by decide) (byName_there (by decide) (byName_here rfl)))).trans
      (option_agrees (to := caseSaslFrameBody) (mk := SaslFrameBody.SaslChallenge) (generatesSaslChallenge_inner env) fun _ => rfl)
  by_cases h8 : d = .sym "amqp:sasl-response:list"
  · subst h8
    exact (dispatch_name (os := optionsSaslFrameBody) (byName_there (by decide) (byName_there (by decide) (byName_there (by decide) (byName_here rfl))))).trans
      (option_agrees (to := caseSaslFrameBody) (mk := SaslFrameBody.SaslResponse) (generatesSaslResponse_inner env) fun _ => rfl)
  by_cases h9 : d = .sym "amqp:sasl-outcome:list"
  · subst h9
    exact (dispatch_name (os := optionsSaslFrameBody) (byName_there (by decide) (byName_there (by decide) (byName_there (by decide) (byName_there (by decide) (byName_here rfl)))))).trans
      (option_agrees (to := caseSaslFrameBody) (mk := SaslFrameBody.SaslOutcome) (generatesSaslOutcome_inner env) fun _ => rfl)
  have e1 : byCode env d optionsSaslFrameBody = none := (byCode_cons_ne h0 (byCode_cons_ne h1 (byCode_cons_ne h2 (byCode_cons_ne h3 (byCode_cons_ne h4 rfl)))))
  have e2 : byName env d optionsSaslFrameBody = none := (byName_cons_ne h5 (byName_cons_ne h6 (byName_cons_ne h7 (byName_cons_ne h8 (byName_cons_ne h9 rfl)))))
  unfold dispatch SaslFrameBody.dispatch
  rw [e1, e2, if_neg h0, if_neg h1, if_neg h2, if_neg h3, if_neg h4, if_neg h5, if_neg h6, if_neg h7, if_neg h8, if_neg h9]
  rfl

theorem shippedSaslFrameBody_options : shipped.union "SaslFrameBody" = some optionsSaslFrameBody := rfl

theorem generatesSaslFrameBody : GeneratesUnion optionsSaslFrameBody caseSaslFrameBody where
  bijective := ⟨uncaseSaslFrameBody, fun v => by cases v <;> rfl, fun s => by
    rcases s with s | s | s | s | s | s <;> first | rfl | exact s.elim⟩
  decode env fmt := union_agrees dispatchSaslFrameBody env fmt
  size v := by
    cases v with
    | SaslMechanisms v => exact generatesSaslMechanisms.size v
    | SaslInit v => exact generatesSaslInit.size v
    | SaslChallenge v => exact generatesSaslChallenge.size v
    | SaslResponse v => exact generatesSaslResponse.size v
    | SaslOutcome v => exact generatesSaslOutcome.size v
  enc v := by
    cases v with
    | SaslMechanisms v => exact generatesSaslMechanisms.enc v
    | SaslInit v => exact generatesSaslInit.enc v
    | SaslChallenge v => exact generatesSaslChallenge.enc v
    | SaslResponse v => exact generatesSaslResponse.enc v
    | SaslOutcome v => exact generatesSaslOutcome.enc v

/-- The functions generated for `DeliveryAnnotations`. -/
def optionDeliveryAnnotations : TOption := .restricted (Ty.rust .annotations) (.ofNat 113) "amqp:delivery-annotations:map"

/-- The functions generated for `MessageAnnotations`. -/
def optionMessageAnnotations : TOption := .restricted (Ty.rust .annotations) (.ofNat 114) "amqp:message-annotations:map"

/-- The functions generated for `ApplicationProperties`. -/
def optionApplicationProperties : TOption := .restricted (Ty.rust .stringVariantMap) (.ofNat 116) "amqp:application-properties:map"

/-- The functions generated for `Data`. -/
def optionData : TOption := .restricted (Ty.rust .bytes) (.ofNat 117) "amqp:data:binary"

/-- The functions generated for `AmqpSequence`. -/
def optionAmqpSequence : TOption := .restricted (Ty.rust .list) (.ofNat 118) "amqp:amqp-sequence:list"

/-- The functions generated for `AmqpValue`. -/
def optionAmqpValue : TOption := .restricted (Ty.rust .variant) (.ofNat 119) "amqp:amqp-value:*"

/-- The functions generated for `Footer`. -/
def optionFooter : TOption := .restricted (Ty.rust .annotations) (.ofNat 120) "amqp:footer:map"

/-- The options of `Section`. -/
def optionsSection : List TOption := [templateHeader.option, optionDeliveryAnnotations, optionMessageAnnotations,
    optionApplicationProperties, optionData, optionAmqpSequence, optionAmqpValue, optionFooter,
    templateProperties.option]

/-- The cases of `Section` in order. -/
def caseSection : Section → Union optionsSection
  | .Header v => .inl (structHeader v)
  | .DeliveryAnnotations v => .inr (.inl v)
  | .MessageAnnotations v => .inr (.inr (.inl v))
  | .ApplicationProperties v => .inr (.inr (.inr (.inl v)))
  | .Data v => .inr (.inr (.inr (.inr (.inl v))))
  | .AmqpSequence v => .inr (.inr (.inr (.inr (.inr (.inl v)))))
  | .AmqpValue v => .inr (.inr (.inr (.inr (.inr (.inr (.inl v))))))
  | .Footer v => .inr (.inr (.inr (.inr (.inr (.inr (.inr (.inl v)))))))
  | .Properties v => .inr (.inr (.inr (.inr (.inr (.inr (.inr (.inr (.inl (structProperties v)))))))))

/-- The other way round. -/
def uncaseSection : Union optionsSection → Section
  | .inl s => .Header (ListType.ofT (α := Header) s)
  | .inr (.inl s) => .DeliveryAnnotations s
  | .inr (.inr (.inl s)) => .MessageAnnotations s
  | .inr (.inr (.inr (.inl s))) => .ApplicationProperties s
  | .inr (.inr (.inr (.inr (.inl s)))) => .Data s
  | .inr (.inr (.inr (.inr (.inr (.inl s))))) => .AmqpSequence s
  | .inr (.inr (.inr (.inr (.inr (.inr (.inl s)))))) => .AmqpValue s
  | .inr (.inr (.inr (.inr (.inr (.inr (.inr (.inl s))))))) => .Footer s
  | .inr (.inr (.inr (.inr (.inr (.inr (.inr (.inr (.inl s)))))))) => .Properties (ListType.ofT (α := Properties) s)

theorem dispatchSection (env : Env) (d : Descriptor) :
    dispatch optionsSection env d = caseSection <$> Section.dispatch env d := by
  by_cases h0 : d = .ulong 112
  · subst h0
    exact (dispatch_code (os := optionsSection) (byCode_here rfl)).trans
      (option_agrees (to := caseSection) (mk := Section.Header) (generatesHeader_inner env) fun _ => rfl)
  by_cases h1 : d = .ulong 113
  · subst h1
    exact (dispatch_code (os := optionsSection) (byCode_there (by decide) (byCode_here rfl))).trans
      (option_agrees (to := caseSection) (mk := Section.DeliveryAnnotations) (id_map _).symm fun _ => rfl)
  by_cases h2 : d = .ulong 114
  · subst h2
    exact (dispatch_code (os := optionsSection) (byCode_there (by decide) (byCode_there (by decide) (byCode_here rfl)))).trans
      (option_agrees (to := caseSection) (mk := Section.MessageAnnotations) (id_map _).symm fun _ => rfl)
  by_cases h3 : d = .ulong 116
  · subst h3
    exact (dispatch_code (os := optionsSection) (byCode_there (by decide) (byCode_there (by decide) (byCode_there (by decide) (byCode_here rfl))))).trans
      (option_agrees (to := caseSection) (mk := Section.ApplicationProperties) (id_map _).symm fun _ => rfl)
  by_cases h4 : d = .ulong 117
  · subst h4
    exact (dispatch_code (os := optionsSection) (byCode_there (by decide) (byCode_there (by decide) (byCode_there (by decide) (byCode_there (by decide) (byCode_here rfl)))))).trans
      (option_agrees (to := caseSection) (mk := Section.Data) (id_map _).symm fun _ => rfl)
  by_cases h5 : d = .ulong 118
  · subst h5
    exact (dispatch_code (os := optionsSection) (byCode_there (by decide) (byCode_there (by decide) (byCode_there (by decide) (byCode_there (by decide) (byCode_there (by decide) (byCode_here rfl))))))).trans
      (option_agrees (to := caseSection) (mk := Section.AmqpSequence) (id_map _).symm fun _ => rfl)
  by_cases h6 : d = .ulong 119
  · subst h6
    exact (dispatch_code (os := optionsSection) (byCode_there (by decide) (byCode_there (by decide) (byCode_there (by decide) (byCode_there (by decide) (byCode_there (by decide) (byCode_there (by decide) (byCode_here rfl)))))))).trans
      (option_agrees (to := caseSection) (mk := Section.AmqpValue) (id_map _).symm fun _ => rfl)
  by_cases h7 : d = .ulong 120
  · subst h7
    exact (dispatch_code (os := optionsSection) (byCode_there (by decide) (byCode_there (by decide) (byCode_there (by decide) (byCode_there (by decide) (byCode_there (by decide) (byCode_there (by decide) (byCode_there (by decide) (byCode_here rfl))))))))).trans
      (option_agrees (to := caseSection) (mk := Section.Footer) (id_map _).symm fun _ => rfl)
  by_cases h8 : d = .ulong 115
  · subst h8
    exact (dispatch_code (os := optionsSection) (byCode_there (by decide) (byCode_there (by decide) (byCode_there (by decide) (byCode_there (by decide) (byCode_there (by decide) (byCode_there (by decide) (byCode_there (by decide) (byCode_there (by decide) (byCode_here rfl)))))))))).trans
      (option_agrees (to := caseSection) (mk := Section.Properties) (generatesProperties_inner env) fun _ => rfl)
  by_cases h9 : d = .sym "amqp:header:list"
  · subst h9
    exact (dispatch_name (os := optionsSection) (byName_here rfl)).trans
      (option_agrees (to := caseSection) (mk := Section.Header) (generatesHeader_inner env) fun _ => rfl)
  by_cases h10 : d = .sym "amqp:delivery-annotations:map"
  · subst h10
    exact (dispatch_name (os := optionsSection) (byName_there (by decide) (byName_here rfl))).trans
      (option_agrees (to := caseSection) (mk := Section.DeliveryAnnotations) (id_map _).symm fun _ => rfl)
  by_cases h11 : d = .sym "amqp:message-annotations:map"
  · subst h11
    exact (dispatch_name (os := optionsSection) (byName_there (by decide) (byName_there (by decide) (byName_here rfl)))).trans
      (option_agrees (to := caseSection) (mk := Section.MessageAnnotations) (id_map _).symm fun _ => rfl)
  by_cases h12 : d = .sym "amqp:application-properties:map"
  · subst h12
    exact (dispatch_name (os := optionsSection) (byName_there (by decide) (byName_there (by decide) (byName_there (by decide) (byName_here rfl))))).trans
      (option_agrees (to := caseSection) (mk := Section.ApplicationProperties) (id_map _).symm fun _ => rfl)
  by_cases h13 : d = .sym "amqp:data:binary"
  · subst h13
    exact (dispatch_name (os := optionsSection) (byName_there (by decide) (byName_there (by decide) (byName_there (by decide) (byName_there (by decide) (byName_here rfl)))))).trans
      (option_agrees (to := caseSection) (mk := Section.Data) (id_map _).symm fun _ => rfl)
  by_cases h14 : d = .sym "amqp:amqp-sequence:list"
  · subst h14
    exact (dispatch_name (os := optionsSection) (byName_there (by decide) (byName_there (by decide) (byName_there (by decide) (byName_there (by decide) (byName_there (by decide) (byName_here rfl))))))).trans
      (option_agrees (to := caseSection) (mk := Section.AmqpSequence) (id_map _).symm fun _ => rfl)
  by_cases h15 : d = .sym "amqp:amqp-value:*"
  · subst h15
    exact (dispatch_name (os := optionsSection) (byName_there (by decide) (byName_there (by decide) (byName_there (by decide) (byName_there (by decide) (byName_there (by decide) (byName_there (by decide) (byName_here rfl)))))))).trans
      (option_agrees (to := caseSection) (mk := Section.AmqpValue) (id_map _).symm fun _ => rfl)
  by_cases h16 : d = .sym "amqp:footer:map"
  · subst h16
    exact (dispatch_name (os := optionsSection) (byName_there (by decide) (byName_there (by decide) (byName_there (by decide) (byName_there (by decide) (byName_there (by decide) (byName_there (by decide) (byName_there (by decide) (byName_here rfl))))))))).trans
      (option_agrees (to := caseSection) (mk := Section.Footer) (id_map _).symm fun _ => rfl)
  by_cases h17 : d = .sym "amqp:properties:list"
  · subst h17
    exact (dispatch_name (os := optionsSection) (byName_there (by decide) (byName_there (by decide) (byName_there (by decide) (byName_there (by decide) (byName_there (by decide) (byName_there (by decide) (byName_there (by decide) (byName_there (by decide) (byName_here rfl)))))))))).trans
      (option_agrees (to := caseSection) (mk := Section.Properties) (generatesProperties_inner env) fun _ => rfl)
  have e1 : byCode env d optionsSection = none := (byCode_cons_ne h0 (byCode_cons_ne h1 (byCode_cons_ne h2 (byCode_cons_ne h3 (byCode_cons_ne h4 (byCode_cons_ne h5 (byCode_cons_ne h6 (byCode_cons_ne h7 (byCode_cons_ne h8 rfl)))))))))
  have e2 : byName env d optionsSection = none := (byName_cons_ne h9 (byName_cons_ne h10 (byName_cons_ne h11 (byName_cons_ne h12 (byName_cons_ne h13 (byName_cons_ne h14 (byName_cons_ne h15 (byName_cons_ne h16 (byName_cons_ne h17 rfl)))))))))
  unfold dispatch Section.dispatch
  rw [e1, e2, if_neg h0, if_neg h1, if_neg h2, if_neg h3, if_neg h4, if_neg h5, if_neg h6, if_neg h7, if_neg h8, if_neg h9, if_neg h10, if_neg h11, if_neg h12, if_neg h13, if_neg h14, if_neg h15, if_neg h16, if_neg h17]
  rfl

theorem shippedSection_options : shipped.union "Section" = some optionsSection := rfl

theorem generatesSection : GeneratesUnion optionsSection caseSection where
  bijective := ⟨uncaseSection, fun v => by cases v <;> rfl, fun s => by
    rcases s with s | s | s | s | s | s | s | s | s | s <;> first | rfl | exact s.elim⟩
  decode env fmt := union_agrees dispatchSection env fmt
  size v := by
    cases v with
    | Header v => exact generatesHeader.size v
    | DeliveryAnnotations v => exact rfl
    | MessageAnnotations v => exact rfl
    | ApplicationProperties v => exact rfl
    | Data v => exact rfl
    | AmqpSequence v => exact rfl
    | AmqpValue v => exact rfl
    | Footer v => exact rfl
    | Properties v => exact generatesProperties.size v
  enc v := by
    cases v with
    | Header v => exact generatesHeader.enc v
    | DeliveryAnnotations v => exact rfl
    | MessageAnnotations v => exact rfl
    | ApplicationProperties v => exact rfl
    | Data v => exact rfl
    | AmqpSequence v => exact rfl
    | AmqpValue v => exact rfl
    | Footer v => exact rfl
    | Properties v => exact generatesProperties.enc v

/-- The options of `DeliveryState`. -/
def optionsDeliveryState : List TOption := [templateReceived.option, templateAccepted.option, templateRejected.option,
    templateReleased.option, templateModified.option]

/-- The cases of `DeliveryState` in order. -/
def caseDeliveryState : DeliveryState → Union optionsDeliveryState
  | .Received v => .inl (structReceived v)
  | .Accepted v => .inr (.inl (structAccepted v))
  | .Rejected v => .inr (.inr (.inl (structRejected v)))
  | .Released v => .inr (.inr (.inr (.inl (structReleased v))))
  | .Modified v => .inr (.inr (.inr (.inr (.inl (structModified v)))))

/-- The other way round. -/
def uncaseDeliveryState : Union optionsDeliveryState → DeliveryState
  | .inl s => .Received (ListType.ofT (α := Received) s)
  | .inr (.inl s) => .Accepted (ListType.ofT (α := Accepted) s)
  | .inr (.inr (.inl s)) => .Rejected (ListType.ofT (α := Rejected) s)
  | .inr (.inr (.inr (.inl s))) => .Released (ListType.ofT (α := Released) s)
  | .inr (.inr (.inr (.inr (.inl s)))) => .Modified (ListType.ofT (α := Modified) s)

theorem dispatchDeliveryState (env : Env) (d : Descriptor) :
    dispatch optionsDeliveryState env d = caseDeliveryState <$> DeliveryState.dispatch env d := by
  by_cases h0 : d = .ulong 35
  · subst h0
    exact (dispatch_code (os := optionsDeliveryState) (byCode_here rfl)).trans
      (option_agrees (to := caseDeliveryState) (mk := DeliveryState.Received) (generatesReceived_inner env) fun _ => rfl)
  by_cases h1 : d = .ulong 36
  · subst h1
    exact (dispatch_code (os := optionsDeliveryState) (byCode_there (by decide) (byCode_here rfl))).trans
      (option_agrees (to := caseDeliveryState) (mk := DeliveryState.Accepted) (generatesAccepted_inner env) fun _ => rfl)
  by_cases h2 : d = .ulong 37
  · subst h2
    exact (dispatch_code (os := optionsDeliveryState) (byCode_there (by decide) (byCode_there (by decide) (byCode_here rfl)))).trans
      (option_agrees (to := caseDeliveryState) (mk := DeliveryState.Rejected) (generatesRejected_inner env) fun _ => rfl)
  by_cases h3 : d = .ulong 38
  · subst h3
    exact (dispatch_code (os := optionsDeliveryState) (byCode_there (by decide) (byCode_there (by decide) (byCode_there (by decide) (byCode_here rfl))))).trans
      (option_agrees (to := caseDeliveryState) (mk := DeliveryState.Released) (generatesReleased_inner env) fun _ => rfl)
  by_cases h4 : d = .ulong 39
  · subst h4
    exact (dispatch_code (os := optionsDeliveryState) (byCode_there (by decide) (byCode_there (by decide) (byCode_there (by decide) (byCode_there (by decide) (byCode_here rfl)))))).trans
      (option_agrees (to := caseDeliveryState) (mk := DeliveryState.Modified) (generatesModified_inner env) fun _ => rfl)
  by_cases h5 : d = .sym "amqp:received:list"
  · subst h5
    exact (dispatch_name (os := optionsDeliveryState) (byName_here rfl)).trans
      (option_agrees (to := caseDeliveryState) (mk := DeliveryState.Received) (generatesReceived_inner env) fun _ => rfl)
  by_cases h6 : d = .sym "amqp:accepted:list"
  · subst h6
    exact (dispatch_name (os := optionsDeliveryState) (byName_there (by decide) (byName_here rfl))).trans
      (option_agrees (to := caseDeliveryState) (mk := DeliveryState.Accepted) (generatesAccepted_inner env) fun _ => rfl)
  by_cases h7 : d = .sym "amqp:rejected:list"
  · subst h7
    exact (dispatch_name (os := optionsDeliveryState) (byName_there (by decide) (byName_there (by decide) (byName_here rfl)))).trans
      (option_agrees (to := caseDeliveryState) (mk := DeliveryState.Rejected) (generatesRejected_inner env) fun _ => rfl)
  by_cases h8 : d = .sym "amqp:released:list"
  · subst h8
    exact (dispatch_name (os := optionsDeliveryState) (byName_there (by decide) (byName_there (by decide) (byName_there (by decide) (byName_here rfl))))).trans
      (option_agrees (to := caseDeliveryState) (mk := DeliveryState.Released) (generatesReleased_inner env) fun _ => rfl)
  by_cases h9 : d = .sym "amqp:modified:list"
  · subst h9
    exact (dispatch_name (os := optionsDeliveryState) (byName_there (by decide) (byName_there (by decide) (byName_there (by decide) (byName_there (by decide) (byName_here rfl)))))).trans
      (option_agrees (to := caseDeliveryState) (mk := DeliveryState.Modified) (generatesModified_inner env) fun _ => rfl)
  have e1 : byCode env d optionsDeliveryState = none := (byCode_cons_ne h0 (byCode_cons_ne h1 (byCode_cons_ne h2 (byCode_cons_ne h3 (byCode_cons_ne h4 rfl)))))
  have e2 : byName env d optionsDeliveryState = none := (byName_cons_ne h5 (byName_cons_ne h6 (byName_cons_ne h7 (byName_cons_ne h8 (byName_cons_ne h9 rfl)))))
  unfold dispatch DeliveryState.dispatch
  rw [e1, e2, if_neg h0, if_neg h1, if_neg h2, if_neg h3, if_neg h4, if_neg h5, if_neg h6, if_neg h7, if_neg h8, if_neg h9]
  rfl

theorem shippedDeliveryState_options : shipped.union "DeliveryState" = some optionsDeliveryState := rfl

theorem generatesDeliveryState : GeneratesUnion optionsDeliveryState caseDeliveryState where
  bijective := ⟨uncaseDeliveryState, fun v => by cases v <;> rfl, fun s => by
    rcases s with s | s | s | s | s | s <;> first | rfl | exact s.elim⟩
  decode env fmt := union_agrees dispatchDeliveryState env fmt
  size v := by
    cases v with
    | Received v => exact generatesReceived.size v
    | Accepted v => exact generatesAccepted.size v
    | Rejected v => exact generatesRejected.size v
    | Released v => exact generatesReleased.size v
    | Modified v => exact generatesModified.size v
  enc v := by
    cases v with
    | Received v => exact generatesReceived.enc v
    | Accepted v => exact generatesAccepted.enc v
    | Rejected v => exact generatesRejected.enc v
    | Released v => exact generatesReleased.enc v
    | Modified v => exact generatesModified.enc v

/-- The options of `Outcome`. -/
def optionsOutcome : List TOption := [templateAccepted.option, templateRejected.option, templateReleased.option,
    templateModified.option]

/-- The cases of `Outcome` in order. -/
def caseOutcome : Outcome → Union optionsOutcome
  | .Accepted v => .inl (structAccepted v)
  | .Rejected v => .inr (.inl (structRejected v))
  | .Released v => .inr (.inr (.inl (structReleased v)))
  | .Modified v => .inr (.inr (.inr (.inl (structModified v))))

/-- The other way round. -/
def uncaseOutcome : Union optionsOutcome → Outcome
  | .inl s => .Accepted (ListType.ofT (α := Accepted) s)
  | .inr (.inl s) => .Rejected (ListType.ofT (α := Rejected) s)
  | .inr (.inr (.inl s)) => .Released (ListType.ofT (α := Released) s)
  | .inr (.inr (.inr (.inl s))) => .Modified (ListType.ofT (α := Modified) s)

theorem dispatchOutcome (env : Env) (d : Descriptor) :
    dispatch optionsOutcome env d = caseOutcome <$> Outcome.dispatch env d := by
  by_cases h0 : d = .ulong 36
  · subst h0
    exact (dispatch_code (os := optionsOutcome) (byCode_here rfl)).trans
      (option_agrees (to := caseOutcome) (mk := Outcome.Accepted) (generatesAccepted_inner env) fun _ => rfl)
  by_cases h1 : d = .ulong 37
  · subst h1
    exact (dispatch_code (os := optionsOutcome) (byCode_there (by decide) (byCode_here rfl))).trans
      (option_agrees (to := caseOutcome) (mk := Outcome.Rejected) (generatesRejected_inner env) fun _ => rfl)
  by_cases h2 : d = .ulong 38
  · subst h2
    exact (dispatch_code (os := optionsOutcome) (byCode_there (by decide) (byCode_there (by decide) (byCode_here rfl)))).trans
      (option_agrees (to := caseOutcome) (mk := Outcome.Released) (generatesReleased_inner env) fun _ => rfl)
  by_cases h3 : d = .ulong 39
  · subst h3
    exact (dispatch_code (os := optionsOutcome) (byCode_there (by decide) (byCode_there (by decide) (byCode_there (by decide) (byCode_here rfl))))).trans
      (option_agrees (to := caseOutcome) (mk := Outcome.Modified) (generatesModified_inner env) fun _ => rfl)
  by_cases h4 : d = .sym "amqp:accepted:list"
  · subst h4
    exact (dispatch_name (os := optionsOutcome) (byName_here rfl)).trans
      (option_agrees (to := caseOutcome) (mk := Outcome.Accepted) (generatesAccepted_inner env) fun _ => rfl)
  by_cases h5 : d = .sym "amqp:rejected:list"
  · subst h5
    exact (dispatch_name (os := optionsOutcome) (byName_there (by decide) (byName_here rfl))).trans
      (option_agrees (to := caseOutcome) (mk := Outcome.Rejected) (generatesRejected_inner env) fun _ => rfl)
  by_cases h6 : d = .sym "amqp:released:list"
  · subst h6
    exact (dispatch_name (os := optionsOutcome) (byName_there (by decide) (byName_there (by decide) (byName_here rfl)))).trans
      (option_agrees (to := caseOutcome) (mk := Outcome.Released) (generatesReleased_inner env) fun _ => rfl)
  by_cases h7 : d = .sym "amqp:modified:list"
  · subst h7
    exact (dispatch_name (os := optionsOutcome) (byName_there (by decide) (byName_there (by decide) (byName_there (by decide) (byName_here rfl))))).trans
      (option_agrees (to := caseOutcome) (mk := Outcome.Modified) (generatesModified_inner env) fun _ => rfl)
  have e1 : byCode env d optionsOutcome = none := (byCode_cons_ne h0 (byCode_cons_ne h1 (byCode_cons_ne h2 (byCode_cons_ne h3 rfl))))
  have e2 : byName env d optionsOutcome = none := (byName_cons_ne h4 (byName_cons_ne h5 (byName_cons_ne h6 (byName_cons_ne h7 rfl))))
  unfold dispatch Outcome.dispatch
  rw [e1, e2, if_neg h0, if_neg h1, if_neg h2, if_neg h3, if_neg h4, if_neg h5, if_neg h6, if_neg h7]
  rfl

theorem shippedOutcome_options : shipped.union "Outcome" = some optionsOutcome := rfl

theorem generatesOutcome : GeneratesUnion optionsOutcome caseOutcome where
  bijective := ⟨uncaseOutcome, fun v => by cases v <;> rfl, fun s => by
    rcases s with s | s | s | s | s <;> first | rfl | exact s.elim⟩
  decode env fmt := union_agrees dispatchOutcome env fmt
  size v := by
    cases v with
    | Accepted v => exact generatesAccepted.size v
    | Rejected v => exact generatesRejected.size v
    | Released v => exact generatesReleased.size v
    | Modified v => exact generatesModified.size v
  enc v := by
    cases v with
    | Accepted v => exact generatesAccepted.enc v
    | Rejected v => exact generatesRejected.enc v
    | Released v => exact generatesReleased.enc v
    | Modified v => exact generatesModified.enc v

/-- A transfer as its fields and its body. -/
def bodyTransfer (t : Transfer) : WithBody templateTransfer :=
  (structTransfer t.toTransferPerf, t.body)

/-- The other way round. -/
def unbodyTransfer (s : WithBody templateTransfer) : Transfer :=
  { ListType.ofT (α := TransferPerf) s.1 with body := s.2 }

theorem generatesTransferBody_inner (env : Env) :
    templateTransfer.decBodyInner env = bodyTransfer <$> Transfer.decInner env := by
  funext i
  have h := congrFun (generatesTransfer_inner env) i
  rw [run_map] at h
  unfold TList.decBodyInner Transfer.decInner
  rw [run_bind, run_map, run_bind, h]
  cases TransferPerf.decInner env i with
  | err e => rfl
  | panic p => rfl
  | ok q =>
    obtain ⟨r, p⟩ := q
    cases r <;> rfl

theorem generatesTransferBody : GeneratesBody templateTransfer bodyTransfer where
  bijective := ⟨unbodyTransfer, fun _ => rfl, fun _ => rfl⟩
  decode env fmt := by
    show describedAs env fmt _ _ _ = bodyTransfer <$> describedAs env fmt 20 _ _
    rw [map_describedAs, ← generatesTransferBody_inner]
    rfl
  size v := congrArg (· + _) (generatesTransfer.size v.toTransferPerf)
  enc v := congrArg (· ++ _) (generatesTransfer.enc v.toTransferPerf)

/-- The frame bodies. -/
def optionsFrame : List TOption := [templateOpen.option, templateBegin.option, templateAttach.option, templateFlow.option,
    templateTransfer.bodyOption, templateDisposition.option, templateDetach.option,
    templateEnd.option, templateClose.option]

theorem shippedFrame_options : shipped.frame.mapM shipped.option = some optionsFrame := rfl

/-- The cases of `Frame` in order. -/
def caseFrame : Frame → Option (Union optionsFrame)
  | .Open v => some (.inl (structOpen v))
  | .Begin v => some (.inr (.inl (structBegin v)))
  | .Attach v => some (.inr (.inr (.inl (structAttach v))))
  | .Flow v => some (.inr (.inr (.inr (.inl (structFlow v)))))
  | .Transfer v => some (.inr (.inr (.inr (.inr (.inl (bodyTransfer v))))))
  | .Disposition v => some (.inr (.inr (.inr (.inr (.inr (.inl (structDisposition v)))))))
  | .Detach v => some (.inr (.inr (.inr (.inr (.inr (.inr (.inl (structDetach v))))))))
  | .End v => some (.inr (.inr (.inr (.inr (.inr (.inr (.inr (.inl (structEnd v)))))))))
  | .Close v => some (.inr (.inr (.inr (.inr (.inr (.inr (.inr (.inr (.inl (structClose v))))))))))
  | .Empty => none

/-- The other way round. -/
def uncaseFrame : Union optionsFrame → Frame
  | .inl s => .Open (ListType.ofT (α := Open) s)
  | .inr (.inl s) => .Begin (ListType.ofT (α := Begin) s)
  | .inr (.inr (.inl s)) => .Attach (ListType.ofT (α := Attach) s)
  | .inr (.inr (.inr (.inl s))) => .Flow (ListType.ofT (α := Flow) s)
  | .inr (.inr (.inr (.inr (.inl s)))) => .Transfer (unbodyTransfer s)
  | .inr (.inr (.inr (.inr (.inr (.inl s))))) => .Disposition (ListType.ofT (α := Disposition) s)
  | .inr (.inr (.inr (.inr (.inr (.inr (.inl s)))))) => .Detach (ListType.ofT (α := Detach) s)
  | .inr (.inr (.inr (.inr (.inr (.inr (.inr (.inl s))))))) => .End (ListType.ofT (α := End) s)
  | .inr (.inr (.inr (.inr (.inr (.inr (.inr (.inr (.inl s)))))))) => .Close (ListType.ofT (α := Close) s)

theorem dispatchFrame (env : Env) (d : Descriptor) :
    Frame.dispatch env d = uncaseFrame <$> dispatch optionsFrame env d := by
  by_cases h0 : d = .ulong 16
  · subst h0
    exact ((congrArg (uncaseFrame <$> ·) (dispatch_code (os := optionsFrame) (byCode_here rfl))).trans
      (option_agrees' (back := uncaseFrame) (mk := Frame.Open) (generatesOpen_inner env) fun _ => rfl)).symm
  by_cases h1 : d = .ulong 17
  · subst h1
    exact ((congrArg (uncaseFrame <$> ·) (dispatch_code (os := optionsFrame) (byCode_there (by decide) (byCode_here rfl)))).trans
      (option_agrees' (back := uncaseFrame) (mk := Frame.Begin) (generatesBegin_inner env) fun _ => rfl)).symm
  by_cases h2 : d = .ulong 18
  · subst h2
    exact ((congrArg (uncaseFrame <$> ·) (dispatch_code (os := optionsFrame) (byCode_there (by decide) (byCode_there (by decide) (byCode_here rfl))))).trans
      (option_agrees' (back := uncaseFrame) (mk := Frame.Attach) (generatesAttach_inner env) fun _ => rfl)).symm
  by_cases h3 : d = .ulong 19
  · subst h3
    exact ((congrArg (uncaseFrame <$> ·) (dispatch_code (os := optionsFrame) (byCode_there (by decide) (byCode_there (by decide) (byCode_there (by decide) (byCode_here rfl)))))).trans
      (option_agrees' (back := uncaseFrame) (mk := Frame.Flow) (generatesFlow_inner env) fun _ => rfl)).symm
  by_cases h4 : d = .ulong 20
  · subst h4
    exact ((congrArg (uncaseFrame <$> ·) (dispatch_code (os := optionsFrame) (byCode_there (by decide) (byCode_there (by decide) (byCode_there (by decide) (byCode_there (by decide) (byCode_here rfl))))))).trans
      (option_agrees' (back := uncaseFrame) (mk := Frame.Transfer) (generatesTransferBody_inner env) fun _ => rfl)).symm
  by_cases h5 : d = .ulong 21
  · subst h5
    exact ((congrArg (uncaseFrame <$> ·) (dispatch_code (os := optionsFrame) (byCode_there (by decide) (byCode_there (by decide) (byCode_there (by decide) (byCode_there (by decide) (byCode_there (by decide) (byCode_here rfl)))))))).trans
      (option_agrees' (back := uncaseFrame) (mk := Frame.Disposition) (generatesDisposition_inner env) fun _ => rfl)).symm
  by_cases h6 : d = .ulong 22
  · subst h6
    exact ((congrArg (uncaseFrame <$> ·) (dispatch_code (os := optionsFrame) (byCode_there (by decide) (byCode_there (by decide) (byCode_there (by decide) (byCode_there (by decide) (byCode_there (by decide) (byCode_there (by decide) (byCode_here rfl))))))))).trans
      (option_agrees' (back := uncaseFrame) (mk := Frame.Detach) (generatesDetach_inner env) fun _ => rfl)).symm
  by_cases h7 : d = .ulong 23
  · subst h7
    exact ((congrArg (uncaseFrame <$> ·) (dispatch_code (os := optionsFrame) (byCode_there (by decide) (byCode_there (by decide) (byCode_there (by decide) (byCode_there (by decide) (byCode_there (by decide) (byCode_there (by decide) (byCode_there (by decide) (byCode_here rfl)))))))))).trans
      (option_agrees' (back := uncaseFrame) (mk := Frame.End) (generatesEnd_inner env) fun _ => rfl)).symm
  by_cases h8 : d = .ulong 24
  · subst h8
    exact ((congrArg (uncaseFrame <$> ·) (dispatch_code (os := optionsFrame) (byCode_there (by decide) (byCode_there (by decide) (byCode_there (by decide) (byCode_there (by decide) (byCode_there (by decide) (byCode_there (by decide) (byCode_there (by decide) (byCode_there (by decide) (byCode_here rfl))))))))))).trans
      (option_agrees' (back := uncaseFrame) (mk := Frame.Close) (generatesClose_inner env) fun _ => rfl)).symm
  by_cases h9 : d = .sym "amqp:open:list"
  · subst h9
    exact ((congrArg (uncaseFrame <$> ·) (dispatch_name (os := optionsFrame) (byName_here rfl))).trans
      (option_agrees' (back := uncaseFrame) (mk := Frame.Open) (generatesOpen_inner env) fun _ => rfl)).symm
  by_cases h10 : d = .sym "amqp:begin:list"
  · subst h10
    exact ((congrArg (uncaseFrame <$> ·) (dispatch_name (os := optionsFrame) (byName_there (by decide) (byName_here rfl)))).trans
      (option_agrees' (back := uncaseFrame) (mk := Frame.Begin) (generatesBegin_inner env) fun _ => rfl)).symm
  by_cases h11 : d = .sym "amqp:attach:list"
  · subst h11
    exact ((congrArg (uncaseFrame <$> ·) (dispatch_name (os := optionsFrame) (byName_there (by decide) (byName_there (by decide) (byName_here rfl))))).trans
      (option_agrees' (back := uncaseFrame) (mk := Frame.Attach) (generatesAttach_inner env) fun _ => rfl)).symm
  by_cases h12 : d = .sym "amqp:flow:list"
  · subst h12
    exact ((congrArg (uncaseFrame <$> ·) (dispatch_name (os := optionsFrame) (byName_there (by decide) (byName_there (by decide) (byName_there (by decide) (byName_here rfl)))))).trans
      (option_agrees' (back := uncaseFrame) (mk := Frame.Flow) (generatesFlow_inner env) fun _ => rfl)).symm
  by_cases h13 : d = .sym "amqp:transfer:list"
  · subst h13
    exact ((congrArg (uncaseFrame <$> ·) (dispatch_name (os := optionsFrame) (byName_there (by decide) (byName_there (by decide) (byName_there (by decide) (byName_there (by decide) (byName_here rfl))))))).trans
      (option_agrees' (back := uncaseFrame) (mk := Frame.Transfer) (generatesTransferBody_inner env) fun _ => rfl)).symm
  by_cases h14 : d = .sym "amqp:disposition:list"
  · subst h14
    exact ((congrArg (uncaseFrame <$> ·) (dispatch_name (os := optionsFrame) (byName_there (by decide) (byName_there (by decide) (byName_there (by decide) (byName_there (by decide) (byName_there (by decide) (byName_here rfl)))))))).trans
      (option_agrees' (back := uncaseFrame) (mk := Frame.Disposition) (generatesDisposition_inner env) fun _ => rfl)).symm
  by_cases h15 : d = .sym "amqp:detach:list"
  · subst h15
    exact ((congrArg (uncaseFrame <$> ·) (dispatch_name (os := optionsFrame) (byName_there (by decide) (byName_there (by decide) (byName_there (by decide) (byName_there (by decide) (byName_there (by decide) (byName_there (by decide) (byName_here rfl))))))))).trans
      (option_agrees' (back := uncaseFrame) (mk := Frame.Detach) (generatesDetach_inner env) fun _ => rfl)).symm
  by_cases h16 : d = .sym "amqp:end:list"
  · subst h16
    exact ((congrArg (uncaseFrame <$> ·) (dispatch_name (os := optionsFrame) (byName_there (by decide) (byName_there (by decide) (byName_there (by decide) (byName_there (by decide) (byName_there (by decide) (byName_there (by decide) (byName_there (by decide) (byName_here rfl)))))))))).trans
      (option_agrees' (back := uncaseFrame) (mk := Frame.End) (generatesEnd_inner env) fun _ => rfl)).symm
  by_cases h17 : d = .sym "amqp:close:list"
  · subst h17
    exact ((congrArg (uncaseFrame <$> ·) (dispatch_name (os := optionsFrame) (byName_there (by decide) (byName_there (by decide) (byName_there (by decide) (byName_there (by decide) (byName_there (by decide) (byName_there (by decide) (byName_there (by decide) (byName_there (by decide) (byName_here rfl))))))))))).trans
      (option_agrees' (back := uncaseFrame) (mk := Frame.Close) (generatesClose_inner env) fun _ => rfl)).symm
  have e1 : byCode env d optionsFrame = none := (byCode_cons_ne h0 (byCode_cons_ne h1 (byCode_cons_ne h2 (byCode_cons_ne h3 (byCode_cons_ne h4 (byCode_cons_ne h5 (byCode_cons_ne h6 (byCode_cons_ne h7 (byCode_cons_ne h8 rfl)))))))))
  have e2 : byName env d optionsFrame = none := (byName_cons_ne h9 (byName_cons_ne h10 (byName_cons_ne h11 (byName_cons_ne h12 (byName_cons_ne h13 (byName_cons_ne h14 (byName_cons_ne h15 (byName_cons_ne h16 (byName_cons_ne h17 rfl)))))))))
  unfold dispatch Frame.dispatch
  rw [e1, e2, if_neg h0, if_neg h1, if_neg h2, if_neg h3, if_neg h4, if_neg h5, if_neg h6, if_neg h7, if_neg h8, if_neg h9, if_neg h10, if_neg h11, if_neg h12, if_neg h13, if_neg h14, if_neg h15, if_neg h16, if_neg h17]
  rfl

theorem generatesFrame : GeneratesFrame optionsFrame caseFrame uncaseFrame where
  empty := rfl
  left v h := by cases v <;> first | rfl | exact absurd rfl h
  right s := by rcases s with s | s | s | s | s | s | s | s | s | s <;> first | rfl | exact s.elim
  decode := dispatchFrame
  size s := by
    rcases s with s | s | s | s | s | s | s | s | s | s
    · exact generatesOpen.size (ListType.ofT (α := Open) s)
    · exact generatesBegin.size (ListType.ofT (α := Begin) s)
    · exact generatesAttach.size (ListType.ofT (α := Attach) s)
    · exact generatesFlow.size (ListType.ofT (α := Flow) s)
    · exact generatesTransferBody.size (unbodyTransfer s)
    · exact generatesDisposition.size (ListType.ofT (α := Disposition) s)
    · exact generatesDetach.size (ListType.ofT (α := Detach) s)
    · exact generatesEnd.size (ListType.ofT (α := End) s)
    · exact generatesClose.size (ListType.ofT (α := Close) s)
    · exact s.elim
  enc s := by
    rcases s with s | s | s | s | s | s | s | s | s | s
    · exact generatesOpen.enc (ListType.ofT (α := Open) s)
    · exact generatesBegin.enc (ListType.ofT (α := Begin) s)
    · exact generatesAttach.enc (ListType.ofT (α := Attach) s)
    · exact generatesFlow.enc (ListType.ofT (α := Flow) s)
    · exact generatesTransferBody.enc (unbodyTransfer s)
    · exact generatesDisposition.enc (ListType.ofT (α := Disposition) s)
    · exact generatesDetach.enc (ListType.ofT (α := Detach) s)
    · exact generatesEnd.enc (ListType.ofT (α := End) s)
    · exact generatesClose.enc (ListType.ofT (α := Close) s)
    · exact s.elim

end Amqp.Codegen
