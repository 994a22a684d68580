import Verif.Spec.Wire
import Verif.Spec.Codec
import Verif.Framing
/-!
# The layouts of AMQP 1.0

What the standard says about the bytes of performatives, delivery states, SASL frames
and message sections, transcribed from its text (OASIS AMQP 1.0, parts 2, 3 and 5; the
sections are named at each definition).  The values are those of the crate's types;
the codes, names, orders, types, defaults and choices are the standard's.  Nothing here
refers to encoders or decoders.

The parameter `S` says how the parts of values may be written.  `Scope.all` is what the
standard says; `Scope.accepted` is the part of it that can be read and `Scope.lenient`, in
`Verif.Spec.Lenient`, everything that is read.
-/
set_option autoImplicit false
namespace Amqp.Standard
open Amqp

/-- Which forms of values of any type, and which such values, are considered. -/
structure Part where
  dialect : Dialect
  value : Variant → Prop

/-- All that AMQP 1.0 allows. -/
def Part.all : Part := ⟨.amqp, fun _ => True⟩

/-- What the crate can be given: see `Dialect.accepted`, and values nested no deeper than
the stack allows. -/
def Part.accepted (env : Env) : Part := ⟨.accepted, fun v => v.depth ≤ env.stackDepth⟩

/-- Which byte strings are legal encodings of which values. -/
abbrev Rep (α : Type) := α → Bytes → Prop

/-! ## Types, 1.6 -/

def boolean : Rep Bool := fun v => Prim (.boolean v)
def ubyte : Rep UInt8 := fun v => Prim (.ubyte v)
def ushort : Rep UInt16 := fun v => Prim (.ushort v)
def uint : Rep UInt32 := fun v => Prim (.uint v)
def ulong : Rep UInt64 := fun v => Prim (.ulong v)
def uuid : Rep Uuid := fun v => Prim (.uuid v)
def binary : Rep Binary := fun v => Prim (.binary v)
def string : Rep RStr := fun v => Prim (.string v)
def symbol : Rep Symbol := fun v => Prim (.symbol v)
def null : Bytes := [0x40]

section
variable (S : Part)

def timestamp : Rep DateTime := fun v => Wire S.dialect (.timestamp v)
/-- A value of any type. -/
def any : Rep Variant := fun v b => Wire S.dialect v b ∧ S.value v
/-- 1.6.23: maps. -/
def map : Rep Map := fun m b => WireMap (any S) (any S) m.entries b ∧ ∀ e ∈ m.entries, S.dialect.key e.1
/-- 1.6.22: lists. -/
def list : Rep VList := fun l b => Wire S.dialect (.list l.items) b ∧ ∀ v ∈ l.items, S.value v
/-- 2.8.14 fields, 3.5.9 node-properties: maps with symbols as keys. -/
def fields : Rep Fields := fun m b => WireMap symbol (any S) m.entries b
/-- 3.2.10 annotations: maps with symbols (or, reserved and not expressible in the
crate's type, ulongs) as keys. -/
def annotations : Rep Annotations := fun m b => WireMap symbol (any S) m.entries b
/-- 3.2.5 application-properties: maps with strings as keys. -/
def stringMap : Rep StringVariantMap := fun m b => WireMap string (any S) m.entries b
end

/-- 3.5.8 filter-set: maps from symbols to described types or null.  The crate's type
has texts in place of described types; only the null is an encoding of any of its
values. -/
def filterSet : Rep FilterSet := fun m b =>
  WireMap symbol (fun v u => v = none ∧ u = null) m.entries b

/-- 1.4, fields declared `multiple`: an array, or the value itself if it is one. -/
inductive Multiple {α : Type} (L : Rep α) : Rep (Amqp.Multiple α)
  | one {x : α} {b : Bytes} : L x b → Multiple L ⟨[x]⟩ b
  | array {l : List α} {b : Bytes} : WireArray L l b → Multiple L ⟨l⟩ b

def symbols : Rep Symbols := Multiple symbol

/-! ## Composite types, 1.4 -/

/-- A field: its legal encodings, and whether it may also be null or left out. -/
structure Slot where
  legal : Bytes → Prop
  absent : Prop

def mandatory {α : Type} (L : Rep α) (x : α) : Slot := ⟨L x, False⟩
def optional {α : Type} (L : Rep α) (x : Option α) : Slot := ⟨fun b => ∃ a, x = some a ∧ L a b, x = none⟩
def default {α : Type} (L : Rep α) (d x : α) : Slot := ⟨L x, x = d⟩

/-- The fields of a list, in order; fields at the end may be left out. -/
inductive Fill : List Slot → List Bytes → Prop
  | done {slots : List Slot} : (∀ s ∈ slots, s.absent) → Fill slots []
  | null {s : Slot} {slots : List Slot} {items : List Bytes} : s.absent → Fill slots items →
      Fill (s :: slots) (null :: items)
  | given {s : Slot} {slots : List Slot} {b : Bytes} {items : List Bytes} : s.legal b →
      Fill slots items → Fill (s :: slots) (b :: items)

/-- The descriptor of a type: its number or its name. -/
inductive Desc (code : UInt64) (name : String) : Bytes → Prop
  | code {b : Bytes} : Prim (.ulong code) b → Desc code name b
  | name {b : Bytes} : Prim (.symbol ⟨.lit name⟩) b → Desc code name b

/-- The legal encodings of the list of the given fields. -/
inductive FieldList (slots : List Slot) : Bytes → Prop
  | empty : Fill slots [] → FieldList slots [0x45]
  | list (items : List Bytes) {c : UInt8} {w : Nat} {s n : Bytes} : Sized 0xc0 0xd0 c w →
      Num w s (w + items.flatten.length) → Num w n items.length → Fill slots items →
      FieldList slots (c :: (s ++ n ++ items.flatten))

/-- A described value: descriptor and value. -/
def described (code : UInt64) (name : String) (body : Bytes → Prop) : Bytes → Prop := fun b =>
  ∃ db u, Desc code name db ∧ body u ∧ b = 0x00 :: (db ++ u)

/-! ## The parts -/

/-- How the parts of values may be written. -/
structure Scope where
  boolean : Rep Bool
  symbol : Rep Symbol
  symbols : Rep Symbols
  timestamp : Rep DateTime
  any : Rep Variant
  map : Rep Map
  list : Rep VList
  fields : Rep Fields
  annotations : Rep Annotations
  stringMap : Rep StringVariantMap
  filterSet : Rep FilterSet
  fieldList : List Slot → Bytes → Prop

/-- As the standard says. -/
def Scope.of (P : Part) : Scope where
  boolean := Standard.boolean
  symbol := Standard.symbol
  symbols := Standard.symbols
  timestamp := Standard.timestamp P
  any := Standard.any P
  map := Standard.map P
  list := Standard.list P
  fields := Standard.fields P
  annotations := Standard.annotations P
  stringMap := Standard.stringMap P
  filterSet := Standard.filterSet
  fieldList := FieldList

/-- All that AMQP 1.0 allows. -/
def Scope.all : Scope := .of .all
/-- What of it the crate can be given. -/
def Scope.accepted (env : Env) : Scope := .of (.accepted env)

section
variable (S : Scope)

/-- A composite value: a described list. -/
def composite (code : UInt64) (name : String) (slots : List Slot) : Bytes → Prop :=
  described code name (S.fieldList slots)


/-! ## Choices -/

/-- A symbol given by its text. -/
def word (s : String) : Bytes → Prop := S.symbol ⟨.lit s⟩

/-- 2.8.1 -/
def role : Rep Role
  | .Sender => S.boolean false
  | .Receiver => S.boolean true
/-- 2.8.2 -/
def senderSettleMode : Rep SenderSettleMode
  | .Unsettled => ubyte 0
  | .Settled => ubyte 1
  | .Mixed => ubyte 2
/-- 2.8.3 -/
def receiverSettleMode : Rep ReceiverSettleMode
  | .First => ubyte 0
  | .Second => ubyte 1
/-- 3.5.5 -/
def terminusDurability : Rep TerminusDurability
  | .None => uint 0
  | .Configuration => uint 1
  | .UnsettledState => uint 2
/-- 3.5.6 -/
def terminusExpiryPolicy : Rep TerminusExpiryPolicy
  | .LinkDetach => word S "link-detach"
  | .SessionEnd => word S "session-end"
  | .ConnectionClose => word S "connection-close"
  | .Never => word S "never"
/-- 5.3.3.6 -/
def saslCode : Rep SaslCode
  | .Ok => ubyte 0
  | .Auth => ubyte 1
  | .Sys => ubyte 2
  | .SysPerm => ubyte 3
  | .SysTemp => ubyte 4
/-- 2.8.15 -/
def amqpError : AmqpError → String
  | .InternalError => "amqp:internal-error"
  | .NotFound => "amqp:not-found"
  | .UnauthorizedAccess => "amqp:unauthorized-access"
  | .DecodeError => "amqp:decode-error"
  | .ResourceLimitExceeded => "amqp:resource-limit-exceeded"
  | .NotAllowed => "amqp:not-allowed"
  | .InvalidField => "amqp:invalid-field"
  | .NotImplemented => "amqp:not-implemented"
  | .ResourceLocked => "amqp:resource-locked"
  | .PreconditionFailed => "amqp:precondition-failed"
  | .ResourceDeleted => "amqp:resource-deleted"
  | .IllegalState => "amqp:illegal-state"
  | .FrameSizeTooSmall => "amqp:frame-size-too-small"
/-- 2.8.16 -/
def connectionError : ConnectionError → String
  | .ConnectionForced => "amqp:connection:forced"
  | .FramingError => "amqp:connection:framing-error"
  | .Redirect => "amqp:connection:redirect"
/-- 2.8.17 -/
def sessionError : SessionError → String
  | .WindowViolation => "amqp:session:window-violation"
  | .ErrantLink => "amqp:session:errant-link"
  | .HandleInUse => "amqp:session:handle-in-use"
  | .UnattachedHandle => "amqp:session:unattached-handle"
/-- 2.8.18 -/
def linkError : LinkError → String
  | .DetachForced => "amqp:link:detach-forced"
  | .TransferLimitExceeded => "amqp:link:transfer-limit-exceeded"
  | .MessageSizeExceeded => "amqp:link:message-size-exceeded"
  | .Redirect => "amqp:link:redirect"
  | .Stolen => "amqp:link:stolen"
/-- The error conditions the standard defines. -/
def StandardCondition (s : Symbol) : Prop :=
  (∃ e, s = ⟨.lit (amqpError e)⟩) ∨ (∃ e, s = ⟨.lit (connectionError e)⟩) ∨
  (∃ e, s = ⟨.lit (sessionError e)⟩) ∨ (∃ e, s = ⟨.lit (linkError e)⟩)
/-- 2.8.14: error conditions; others than the standard's may be used. -/
def errorCondition : Rep ErrorCondition
  | .AmqpError e => word S (amqpError e)
  | .ConnectionError e => word S (connectionError e)
  | .SessionError e => word S (sessionError e)
  | .LinkError e => word S (linkError e)
  | .Custom s => fun b => ¬ StandardCondition s ∧ S.symbol s b
/-- 3.5.7 std-dist-mode; others may be used. -/
def distributionMode : Rep DistributionMode
  | .Move => word S "move"
  | .Copy => word S "copy"
  | .Custom s => fun b => s ≠ ⟨.lit "move"⟩ ∧ s ≠ ⟨.lit "copy"⟩ ∧ S.symbol s b
/-- 3.2.11 to 3.2.14: message ids. -/
def messageId : Rep MessageId
  | .Ulong v => ulong v
  | .Uuid v => uuid v
  | .Binary v => binary v
  | .String v => string v

/-- 2.8.14 -/
def error : Rep Error := fun v => composite S 0x1d "amqp:error:list" [
  mandatory (errorCondition S) v.condition,
  optional string v.description,
  optional S.fields v.info]

/-! ## Delivery states, 3.4 -/

/-- 3.4.1 -/
def received : Rep Received := fun v => composite S 0x23 "amqp:received:list" [
  mandatory uint v.section_number,
  mandatory ulong v.section_offset]
/-- 3.4.2 -/
def accepted : Rep Accepted := fun _ => composite S 0x24 "amqp:accepted:list" []
/-- 3.4.3 -/
def rejected : Rep Rejected := fun v => composite S 0x25 "amqp:rejected:list" [
  optional (error S) v.error]
/-- 3.4.4 -/
def released : Rep Released := fun _ => composite S 0x26 "amqp:released:list" []
/-- 3.4.5 -/
def modified : Rep Modified := fun v => composite S 0x27 "amqp:modified:list" [
  optional S.boolean v.delivery_failed,
  optional S.boolean v.undeliverable_here,
  optional S.fields v.message_annotations]

/-- The delivery states of 3.4 (those of transactions, part 4, are not among the
crate's). -/
def deliveryState : Rep DeliveryState
  | .Received v => received S v
  | .Accepted v => accepted S v
  | .Rejected v => rejected S v
  | .Released v => released S v
  | .Modified v => modified S v
/-- The outcomes of 3.4. -/
def outcome : Rep Outcome
  | .Accepted v => accepted S v
  | .Rejected v => rejected S v
  | .Released v => released S v
  | .Modified v => modified S v

/-! ## Sources and targets, 3.5 -/

/-- 3.5.3, with the filter, of any representation, apart. -/
def sourceWith {φ : Type} (filter : Rep φ) (f : Option φ) : Rep Source := fun v =>
  composite S 0x28 "amqp:source:list" [
    optional string v.address,
    default terminusDurability .None v.durable,
    default (terminusExpiryPolicy S) .SessionEnd v.expiry_policy,
    default uint 0 v.timeout,
    default S.boolean false v.dynamic,
    optional S.fields v.dynamic_node_properties,
    optional (distributionMode S) v.distribution_mode,
    optional filter f,
    optional (outcome S) v.default_outcome,
    optional S.symbols v.outcomes,
    optional S.symbols v.capabilities]
/-- 3.5.3 -/
def source : Rep Source := fun v => sourceWith S S.filterSet v.filter v
/-- 3.5.4 -/
def target : Rep Target := fun v => composite S 0x29 "amqp:target:list" [
  optional string v.address,
  default terminusDurability .None v.durable,
  default (terminusExpiryPolicy S) .SessionEnd v.expiry_policy,
  default uint 0 v.timeout,
  default S.boolean false v.dynamic,
  optional S.fields v.dynamic_node_properties,
  optional S.symbols v.capabilities]

/-! ## Performatives, 2.7 -/

/-- 2.7.1; `open` is a keyword. -/
def opening : Rep Open := fun v => composite S 0x10 "amqp:open:list" [
  mandatory string v.container_id,
  optional string v.hostname,
  default uint 4294967295 v.max_frame_size,
  default ushort 65535 v.channel_max,
  optional uint v.idle_time_out,
  optional S.symbols v.outgoing_locales,
  optional S.symbols v.incoming_locales,
  optional S.symbols v.offered_capabilities,
  optional S.symbols v.desired_capabilities,
  optional S.fields v.properties]
/-- 2.7.2; `begin` is a keyword. -/
def beginning : Rep Begin := fun v => composite S 0x11 "amqp:begin:list" [
  optional ushort v.remote_channel,
  mandatory uint v.next_outgoing_id,
  mandatory uint v.incoming_window,
  mandatory uint v.outgoing_window,
  default uint 4294967295 v.handle_max,
  optional S.symbols v.offered_capabilities,
  optional S.symbols v.desired_capabilities,
  optional S.fields v.properties]
/-- 2.7.3 -/
def attach : Rep Attach := fun v => composite S 0x12 "amqp:attach:list" [
  mandatory string v.name,
  mandatory uint v.handle,
  mandatory (role S) v.role,
  default senderSettleMode .Mixed v.snd_settle_mode,
  default receiverSettleMode .First v.rcv_settle_mode,
  optional (source S) v.source,
  optional (target S) v.target,
  optional S.map v.unsettled,
  default S.boolean false v.incomplete_unsettled,
  optional uint v.initial_delivery_count,
  optional ulong v.max_message_size,
  optional S.symbols v.offered_capabilities,
  optional S.symbols v.desired_capabilities,
  optional S.fields v.properties]
/-- 2.7.4 -/
def flow : Rep Flow := fun v => composite S 0x13 "amqp:flow:list" [
  optional uint v.next_incoming_id,
  mandatory uint v.incoming_window,
  mandatory uint v.next_outgoing_id,
  mandatory uint v.outgoing_window,
  optional uint v.handle,
  optional uint v.delivery_count,
  optional uint v.link_credit,
  optional uint v.available,
  default S.boolean false v.drain,
  default S.boolean false v.echo,
  optional S.fields v.properties]
/-- 2.7.5, without the payload. -/
def transfer : Rep TransferPerf := fun v => composite S 0x14 "amqp:transfer:list" [
  mandatory uint v.handle,
  optional uint v.delivery_id,
  optional binary v.delivery_tag,
  optional uint v.message_format,
  optional S.boolean v.settled,
  default S.boolean false v.more,
  optional receiverSettleMode v.rcv_settle_mode,
  optional (deliveryState S) v.state,
  default S.boolean false v.resume,
  default S.boolean false v.aborted,
  default S.boolean false v.batchable]
/-- 2.7.6 -/
def disposition : Rep Disposition := fun v => composite S 0x15 "amqp:disposition:list" [
  mandatory (role S) v.role,
  mandatory uint v.first,
  optional uint v.last,
  default S.boolean false v.settled,
  optional (deliveryState S) v.state,
  default S.boolean false v.batchable]
/-- 2.7.7 -/
def detach : Rep Detach := fun v => composite S 0x16 "amqp:detach:list" [
  mandatory uint v.handle,
  default S.boolean false v.closed,
  optional (error S) v.error]
/-- 2.7.8; `end` is a keyword. -/
def ending : Rep End := fun v => composite S 0x17 "amqp:end:list" [
  optional (error S) v.error]
/-- 2.7.9 -/
def close : Rep Close := fun v => composite S 0x18 "amqp:close:list" [
  optional (error S) v.error]

/-- The body of an AMQP frame, 2.3.2: nothing, or a performative, which is followed by
the payload if it is a transfer. -/
def frameBody : Rep Frame
  | .Empty => fun b => b = []
  | .Open v => opening S v
  | .Begin v => beginning S v
  | .Attach v => attach S v
  | .Flow v => flow S v
  | .Transfer v => fun b => ∃ p payload, transfer S v.toTransferPerf p ∧ b = p ++ payload ∧
      v.body = if payload = [] then none else some (.Data ⟨payload⟩)
  | .Disposition v => disposition S v
  | .Detach v => detach S v
  | .End v => ending S v
  | .Close v => close S v

/-! ## SASL, 5.3.3 -/

/-- 5.3.3.1 -/
def saslMechanisms : Rep SaslMechanisms := fun v => composite S 0x40 "amqp:sasl-mechanisms:list" [
  mandatory S.symbols v.sasl_server_mechanisms]
/-- 5.3.3.2 -/
def saslInit : Rep SaslInit := fun v => composite S 0x41 "amqp:sasl-init:list" [
  mandatory S.symbol v.mechanism,
  optional binary v.initial_response,
  optional string v.hostname]
/-- 5.3.3.3 -/
def saslChallenge : Rep SaslChallenge := fun v => composite S 0x42 "amqp:sasl-challenge:list" [
  mandatory binary v.challenge]
/-- 5.3.3.4 -/
def saslResponse : Rep SaslResponse := fun v => composite S 0x43 "amqp:sasl-response:list" [
  mandatory binary v.response]
/-- 5.3.3.5 -/
def saslOutcome : Rep SaslOutcome := fun v => composite S 0x44 "amqp:sasl-outcome:list" [
  mandatory saslCode v.code,
  optional binary v.additional_data]

/-- The bodies of SASL frames. -/
def saslBody : Rep SaslFrameBody
  | .SaslMechanisms v => saslMechanisms S v
  | .SaslInit v => saslInit S v
  | .SaslChallenge v => saslChallenge S v
  | .SaslResponse v => saslResponse S v
  | .SaslOutcome v => saslOutcome S v

/-! ## Frames, 2.3.1 -/

/-- A frame of the given type: size, data offset in words of four bytes, type, two bytes
depending on the type, an extended header to be ignored, the body. -/
inductive Framed (type : UInt8) (two : Bytes) (body : Bytes → Prop) : Bytes → Prop
  | mk {s ext b : Bytes} {doff : UInt8} : two.length = 2 → doff.toNat * 4 = 8 + ext.length →
      Num 4 s (8 + ext.length + b.length) → body b →
      Framed type two body (s ++ [doff, type] ++ two ++ ext ++ b)

/-- 2.3.2: AMQP frames. -/
def amqpFrame : Rep AmqpFrame := fun f b =>
  ∃ two, Num 2 two f.channel_id.toNat ∧ Framed 0 two (frameBody S f.performative) b
/-- 5.3.1: SASL frames; the two bytes are ignored. -/
def saslFrame : Rep SaslFrame := fun f b => ∃ two, Framed 1 two (saslBody S f.body) b

/-! ## Message sections, 3.2 -/

/-- 3.2.1 -/
def header : Rep Header := fun v => composite S 0x70 "amqp:header:list" [
  default S.boolean false v.durable,
  default ubyte 4 v.priority,
  optional uint v.ttl,
  default S.boolean false v.first_acquirer,
  default uint 0 v.delivery_count]
/-- 3.2.2 -/
def deliveryAnnotations : Rep Annotations := fun v =>
  described 0x71 "amqp:delivery-annotations:map" (S.annotations v)
/-- 3.2.3 -/
def messageAnnotations : Rep Annotations := fun v =>
  described 0x72 "amqp:message-annotations:map" (S.annotations v)
/-- 3.2.4 -/
def properties : Rep Properties := fun v => composite S 0x73 "amqp:properties:list" [
  optional messageId v.message_id,
  optional binary v.user_id,
  optional string v.to,
  optional string v.subject,
  optional string v.reply_to,
  optional messageId v.correlation_id,
  optional S.symbol v.content_type,
  optional S.symbol v.content_encoding,
  optional S.timestamp v.absolute_expiry_time,
  optional S.timestamp v.creation_time,
  optional string v.group_id,
  optional uint v.group_sequence,
  optional string v.reply_to_group_id]
/-- 3.2.5 -/
def applicationProperties : Rep StringVariantMap := fun v =>
  described 0x74 "amqp:application-properties:map" (S.stringMap v)
/-- 3.2.6 -/
def data : Rep Binary := fun v => described 0x75 "amqp:data:binary" (binary v)
/-- 3.2.7 -/
def amqpSequence : Rep VList := fun v =>
  described 0x76 "amqp:amqp-sequence:list" (S.list v)
/-- 3.2.8 -/
def amqpValue : Rep Variant := fun v => described 0x77 "amqp:amqp-value:*" (S.any v)
/-- 3.2.9 -/
def footer : Rep Annotations := fun v => described 0x78 "amqp:footer:map" (S.annotations v)

/-- The sections of a message, in the order of 3.2.  The body consists of data sections,
of sequence sections, or of one value. -/
inductive Body where
  | data (l : List Binary)
  | sequence (l : List VList)
  | value (v : Variant)

structure Message where
  header : Option Header := none
  delivery_annotations : Option Annotations := none
  message_annotations : Option Annotations := none
  properties : Option Properties := none
  application_properties : Option StringVariantMap := none
  body : Body
  footer : Option Annotations := none

/-- A section that may be missing. -/
inductive Maybe {α : Type} (L : Rep α) : Option α → Bytes → Prop
  | none : Maybe L none []
  | some {a : α} {b : Bytes} : L a b → Maybe L (some a) b

/-- One or more sections. -/
inductive Several {α : Type} (L : Rep α) : List α → Bytes → Prop
  | last {a : α} {b : Bytes} : L a b → Several L [a] b
  | more {a : α} {l : List α} {b t : Bytes} : L a b → Several L l t → Several L (a :: l) (b ++ t)

def body : Rep Body
  | .data l => Several data l
  | .sequence l => Several (amqpSequence S) l
  | .value v => amqpValue S v

/-- 3.2: messages. -/
def message : Rep Standard.Message := fun m b => ∃ h da ma p ap bd f,
  Maybe (header S) m.header h ∧ Maybe (deliveryAnnotations S) m.delivery_annotations da ∧
  Maybe (messageAnnotations S) m.message_annotations ma ∧ Maybe (properties S) m.properties p ∧
  Maybe (applicationProperties S) m.application_properties ap ∧ body S m.body bd ∧
  Maybe (footer S) m.footer f ∧ b = h ++ da ++ ma ++ p ++ ap ++ bd ++ f

end

/-! ## Messages of the crate -/

def Body.datas : Body → List Binary
  | .data l => l
  | _ => []
def Body.sequences : Body → List VList
  | .sequence l => l
  | _ => []
def Body.single : Body → Option Variant
  | .value v => some v
  | _ => none

/-- A message as it is presented to the reader: each section in its place, no message
format (it is not part of the message) and nothing computed yet. -/
def Message.asReceived {AP : Type} (conv : StringVariantMap → AP) (m : Standard.Message) :
    Amqp.Message AP where
  header := m.header
  delivery_annotations := m.delivery_annotations
  message_annotations := m.message_annotations
  properties := m.properties
  application_properties := m.application_properties.map conv
  footer := m.footer
  data := m.body.datas
  sequence := m.body.sequences
  value := m.body.single

/-- The message `m` of the crate stands for the message `s` of the standard.  A message
within a message is a data section holding its encoding; a message without any body is
one with an empty data section. -/
structure Contains {AP : Type} (entries : AP → List (Str × Variant)) (m : Amqp.Message AP)
    (s : Standard.Message) : Prop where
  header : s.header = m.header
  delivery_annotations : s.delivery_annotations = m.delivery_annotations
  message_annotations : s.message_annotations = m.message_annotations
  properties : s.properties = m.properties
  application_properties : s.application_properties =
    m.application_properties.map fun a => ⟨entries a⟩
  body : match s.body with
    | .data l => m.sequence = [] ∧ m.value = none ∧
        l = if m.data = [] ∧ m.messages = [] then [⟨[]⟩]
          else m.data ++ m.messages.map fun b => ⟨enc b⟩
    | .sequence l => m.data = [] ∧ m.messages = [] ∧ m.value = none ∧ m.sequence = l ∧ l ≠ []
    | .value v => m.data = [] ∧ m.sequence = [] ∧ m.messages = [] ∧ m.value = some v
  footer : s.footer = m.footer

/-! ## What can be written

Which values have a legal encoding that does not need what the crate cannot write: lists
within values, symbols beyond ASCII, times within a millisecond, maps with equal keys,
filters, custom names that are the standard's, arrays of symbols taking 254 bytes. -/

section Writable

/-- For values that may be missing. -/
def IfGiven {α : Type} (P : α → Prop) (o : Option α) : Prop := ∀ a, o = some a → P a

def canSymbol (s : Symbol) : Prop := s.str.Ascii
/-- `v.canon = v`: no static symbols; what is written for these are symbols, C50. -/
def canValue (v : Variant) : Prop := v.Writable ∧ v.canon = v
def canFields (m : Fields) : Prop :=
  NodupKeys m.entries ∧ ∀ e ∈ m.entries, canSymbol e.1 ∧ canValue e.2
def canMap (m : Map) : Prop := NodupKeys m.entries ∧ ∀ e ∈ m.entries, canValue e.1 ∧ canValue e.2
def canStringMap (m : StringVariantMap) : Prop :=
  NodupKeys m.entries ∧ ∀ e ∈ m.entries, canValue e.2
def canFilter (m : FilterSet) : Prop :=
  NodupKeys m.entries ∧ ∀ e ∈ m.entries, canSymbol e.1 ∧ e.2 = none
def canSymbols (m : Symbols) : Prop :=
  (∀ s ∈ m.items, canSymbol s) ∧
  (m.items.length = 1 ∨ (m.items.map fun s => 4 + s.str.bytes.length).sum ≠ 254)
def canTimestamp (t : DateTime) : Prop := t.nanos % 1000000 = 0
def canCondition : ErrorCondition → Prop
  | .Custom s => canSymbol s ∧ ¬ StandardCondition s
  | _ => True
def canMode : DistributionMode → Prop
  | .Custom s => canSymbol s ∧ s ≠ ⟨.lit "move"⟩ ∧ s ≠ ⟨.lit "copy"⟩
  | _ => True
def canError (v : Error) : Prop := canCondition v.condition ∧ IfGiven canFields v.info
def canRejected (v : Rejected) : Prop := IfGiven canError v.error
def canModified (v : Modified) : Prop := IfGiven canFields v.message_annotations
def canState : DeliveryState → Prop
  | .Rejected v => canRejected v
  | .Modified v => canModified v
  | _ => True
def canOutcome : Outcome → Prop
  | .Rejected v => canRejected v
  | .Modified v => canModified v
  | _ => True
def canSource (v : Source) : Prop :=
  IfGiven canFields v.dynamic_node_properties ∧ IfGiven canMode v.distribution_mode ∧
  IfGiven canFilter v.filter ∧ IfGiven canOutcome v.default_outcome ∧
  IfGiven canSymbols v.outcomes ∧ IfGiven canSymbols v.capabilities
def canTarget (v : Target) : Prop :=
  IfGiven canFields v.dynamic_node_properties ∧ IfGiven canSymbols v.capabilities
def canOpen (v : Open) : Prop :=
  IfGiven canSymbols v.outgoing_locales ∧ IfGiven canSymbols v.incoming_locales ∧
  IfGiven canSymbols v.offered_capabilities ∧ IfGiven canSymbols v.desired_capabilities ∧
  IfGiven canFields v.properties
def canBegin (v : Begin) : Prop :=
  IfGiven canSymbols v.offered_capabilities ∧ IfGiven canSymbols v.desired_capabilities ∧
  IfGiven canFields v.properties
def canAttach (v : Attach) : Prop :=
  IfGiven canSource v.source ∧ IfGiven canTarget v.target ∧ IfGiven canMap v.unsettled ∧
  IfGiven canSymbols v.offered_capabilities ∧ IfGiven canSymbols v.desired_capabilities ∧
  IfGiven canFields v.properties
def canFlow (v : Flow) : Prop := IfGiven canFields v.properties
def canTransfer (v : TransferPerf) : Prop := IfGiven canState v.state
def canDisposition (v : Disposition) : Prop := IfGiven canState v.state
def canDetach (v : Detach) : Prop := IfGiven canError v.error
def canEnd (v : End) : Prop := IfGiven canError v.error
def canClose (v : Close) : Prop := IfGiven canError v.error
/-- The payload of a transfer, if it is given as bytes, is not empty: otherwise the frame
is one without payload. -/
def canFrame : Frame → Prop
  | .Open v => canOpen v
  | .Begin v => canBegin v
  | .Attach v => canAttach v
  | .Flow v => canFlow v
  | .Transfer v => canTransfer v.toTransferPerf ∧
      ∀ p, v.body = some p → ∃ d : Binary, p = .Data d ∧ d.data ≠ []
  | .Disposition v => canDisposition v
  | .Detach v => canDetach v
  | .End v => canEnd v
  | .Close v => canClose v
  | .Empty => True
def canSasl : SaslFrameBody → Prop
  | .SaslMechanisms v => canSymbols v.sasl_server_mechanisms
  | .SaslInit v => canSymbol v.mechanism
  | _ => True
def canProperties (v : Properties) : Prop :=
  IfGiven canSymbol v.content_type ∧ IfGiven canSymbol v.content_encoding ∧
  IfGiven canTimestamp v.absolute_expiry_time ∧ IfGiven canTimestamp v.creation_time
def canBody : Body → Prop
  | .data l => l ≠ []
  | .sequence _ => False
  | .value v => canValue v
def canMessage (m : Standard.Message) : Prop :=
  IfGiven canFields m.delivery_annotations ∧ IfGiven canFields m.message_annotations ∧
  IfGiven canProperties m.properties ∧ IfGiven canStringMap m.application_properties ∧
  canBody m.body ∧ IfGiven canFields m.footer

end Writable

/-! ## Conformance -/

section
variable {α : Type} [Encode α] [DecodeF α]

/-- All of the claim: every legal encoding is read as the value it encodes, wherever it
ends, and what is written for a value is a legal encoding of it. -/
def Conforms (env : Env) (L : Rep α) : Prop :=
  (∀ a b, L a b → Means env b a) ∧ ∀ a, (enc a).length < 2 ^ 32 → L a (enc a)

/-- The claim restricted: for what the crate can be given, and for values that can be
written. -/
def ConformsOn (env : Env) (L : Scope → Rep α) (can : α → Prop) : Prop :=
  (∀ a b, L (.accepted env) a b → Means env b a) ∧
  ∀ a, can a → (enc a).length < 2 ^ 32 → L .all a (enc a)

end
end Amqp.Standard
