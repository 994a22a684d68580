import Verif.Equality
/-! Generated by `tools/gen_equality.py`: `==` of the types of
`src/protocol/definitions.rs`. -/
set_option autoImplicit false
namespace Amqp

/-- `src/protocol/definitions.rs:438`. -/
instance : REq Role := .ofDec _
/-- `src/protocol/definitions.rs:484`. -/
instance : REq SenderSettleMode := .ofDec _
/-- `src/protocol/definitions.rs:540`. -/
instance : REq ReceiverSettleMode := .ofDec _
/-- `src/protocol/definitions.rs:802`. -/
instance : REq SaslCode := .ofDec _
/-- `src/protocol/definitions.rs:878`. -/
instance : REq TerminusDurability := .ofDec _
/-- `src/protocol/definitions.rs:934`. -/
instance : REq TerminusExpiryPolicy := .ofDec _

/-- `Error`, `src/protocol/definitions.rs:1066`. -/
instance : REq Error := ⟨fun a b =>
  req a.condition b.condition &&
  req a.description b.description &&
  req a.info b.info⟩

/-- `Open`, `src/protocol/definitions.rs:1185`. -/
instance : REq Open := ⟨fun a b =>
  req a.container_id b.container_id &&
  req a.hostname b.hostname &&
  req a.max_frame_size b.max_frame_size &&
  req a.channel_max b.channel_max &&
  req a.idle_time_out b.idle_time_out &&
  req a.outgoing_locales b.outgoing_locales &&
  req a.incoming_locales b.incoming_locales &&
  req a.offered_capabilities b.offered_capabilities &&
  req a.desired_capabilities b.desired_capabilities &&
  req a.properties b.properties⟩

/-- `Begin`, `src/protocol/definitions.rs:1423`. -/
instance : REq Begin := ⟨fun a b =>
  req a.remote_channel b.remote_channel &&
  req a.next_outgoing_id b.next_outgoing_id &&
  req a.incoming_window b.incoming_window &&
  req a.outgoing_window b.outgoing_window &&
  req a.handle_max b.handle_max &&
  req a.offered_capabilities b.offered_capabilities &&
  req a.desired_capabilities b.desired_capabilities &&
  req a.properties b.properties⟩

/-- `Accepted`, `src/protocol/definitions.rs:4340`. -/
instance : REq Accepted := ⟨fun _ _ => true⟩

/-- `Rejected`, `src/protocol/definitions.rs:4402`. -/
instance : REq Rejected := ⟨fun a b =>
  req a.error b.error⟩

/-- `Released`, `src/protocol/definitions.rs:4480`. -/
instance : REq Released := ⟨fun _ _ => true⟩

/-- `Modified`, `src/protocol/definitions.rs:4542`. -/
instance : REq Modified := ⟨fun a b =>
  req a.delivery_failed b.delivery_failed &&
  req a.undeliverable_here b.undeliverable_here &&
  req a.message_annotations b.message_annotations⟩

/-- `Outcome`, `src/protocol/definitions.rs:264`. -/
instance : REq Outcome where
  req
    | .Accepted a, .Accepted b => req a b
    | .Rejected a, .Rejected b => req a b
    | .Released a, .Released b => req a b
    | .Modified a, .Modified b => req a b
    | _, _ => false

/-- `Source`, `src/protocol/definitions.rs:3358`. -/
instance : REq Source := ⟨fun a b =>
  req a.address b.address &&
  req a.durable b.durable &&
  req a.expiry_policy b.expiry_policy &&
  req a.timeout b.timeout &&
  req a.dynamic b.dynamic &&
  req a.dynamic_node_properties b.dynamic_node_properties &&
  req a.distribution_mode b.distribution_mode &&
  req a.filter b.filter &&
  req a.default_outcome b.default_outcome &&
  req a.outcomes b.outcomes &&
  req a.capabilities b.capabilities⟩

/-- `Target`, `src/protocol/definitions.rs:3613`. -/
instance : REq Target := ⟨fun a b =>
  req a.address b.address &&
  req a.durable b.durable &&
  req a.expiry_policy b.expiry_policy &&
  req a.timeout b.timeout &&
  req a.dynamic b.dynamic &&
  req a.dynamic_node_properties b.dynamic_node_properties &&
  req a.capabilities b.capabilities⟩

/-- `Attach`, `src/protocol/definitions.rs:1627`. -/
instance : REq Attach := ⟨fun a b =>
  req a.name b.name &&
  req a.handle b.handle &&
  req a.role b.role &&
  req a.snd_settle_mode b.snd_settle_mode &&
  req a.rcv_settle_mode b.rcv_settle_mode &&
  req a.source b.source &&
  req a.target b.target &&
  req a.unsettled b.unsettled &&
  req a.incomplete_unsettled b.incomplete_unsettled &&
  req a.initial_delivery_count b.initial_delivery_count &&
  req a.max_message_size b.max_message_size &&
  req a.offered_capabilities b.offered_capabilities &&
  req a.desired_capabilities b.desired_capabilities &&
  req a.properties b.properties⟩

/-- `Flow`, `src/protocol/definitions.rs:1933`. -/
instance : REq Flow := ⟨fun a b =>
  req a.next_incoming_id b.next_incoming_id &&
  req a.incoming_window b.incoming_window &&
  req a.next_outgoing_id b.next_outgoing_id &&
  req a.outgoing_window b.outgoing_window &&
  req a.handle b.handle &&
  req a.delivery_count b.delivery_count &&
  req a.link_credit b.link_credit &&
  req a.available b.available &&
  req a.drain b.drain &&
  req a.echo b.echo &&
  req a.properties b.properties⟩

/-- `Received`, `src/protocol/definitions.rs:4242`. -/
instance : REq Received := ⟨fun a b =>
  req a.section_number b.section_number &&
  req a.section_offset b.section_offset⟩

/-- `DeliveryState`, `src/protocol/definitions.rs:130`. -/
instance : REq DeliveryState where
  req
    | .Received a, .Received b => req a b
    | .Accepted a, .Accepted b => req a b
    | .Rejected a, .Rejected b => req a b
    | .Released a, .Released b => req a b
    | .Modified a, .Modified b => req a b
    | _, _ => false

/-- `Transfer`, `src/protocol/definitions.rs:2188`; `body` is compared in `Verif.Protocol.FrameEquality`. -/
instance : REq TransferPerf := ⟨fun a b =>
  req a.handle b.handle &&
  req a.delivery_id b.delivery_id &&
  req a.delivery_tag b.delivery_tag &&
  req a.message_format b.message_format &&
  req a.settled b.settled &&
  req a.more b.more &&
  req a.rcv_settle_mode b.rcv_settle_mode &&
  req a.state b.state &&
  req a.resume b.resume &&
  req a.aborted b.aborted &&
  req a.batchable b.batchable⟩

/-- `Disposition`, `src/protocol/definitions.rs:2459`. -/
instance : REq Disposition := ⟨fun a b =>
  req a.role b.role &&
  req a.first b.first &&
  req a.last b.last &&
  req a.settled b.settled &&
  req a.state b.state &&
  req a.batchable b.batchable⟩

/-- `Detach`, `src/protocol/definitions.rs:2629`. -/
instance : REq Detach := ⟨fun a b =>
  req a.handle b.handle &&
  req a.closed b.closed &&
  req a.error b.error⟩

/-- `End`, `src/protocol/definitions.rs:2744`. -/
instance : REq End := ⟨fun a b =>
  req a.error b.error⟩

/-- `Close`, `src/protocol/definitions.rs:2822`. -/
instance : REq Close := ⟨fun a b =>
  req a.error b.error⟩

/-- `SaslMechanisms`, `src/protocol/definitions.rs:2900`. -/
instance : REq SaslMechanisms := ⟨fun a b =>
  req a.sasl_server_mechanisms b.sasl_server_mechanisms⟩

/-- `SaslInit`, `src/protocol/definitions.rs:2985`. -/
instance : REq SaslInit := ⟨fun a b =>
  req a.mechanism b.mechanism &&
  req a.initial_response b.initial_response &&
  req a.hostname b.hostname⟩

/-- `SaslChallenge`, `src/protocol/definitions.rs:3104`. -/
instance : REq SaslChallenge := ⟨fun a b =>
  req a.challenge b.challenge⟩

/-- `SaslResponse`, `src/protocol/definitions.rs:3182`. -/
instance : REq SaslResponse := ⟨fun a b =>
  req a.response b.response⟩

/-- `SaslOutcome`, `src/protocol/definitions.rs:3260`. -/
instance : REq SaslOutcome := ⟨fun a b =>
  req a.code b.code &&
  req a.additional_data b.additional_data⟩

/-- `Header`, `src/protocol/definitions.rs:3800`. -/
instance : REq Header := ⟨fun a b =>
  req a.durable b.durable &&
  req a.priority b.priority &&
  req a.ttl b.ttl &&
  req a.first_acquirer b.first_acquirer &&
  req a.delivery_count b.delivery_count⟩

/-- `Properties`, `src/protocol/definitions.rs:3953`. -/
instance : REq Properties := ⟨fun a b =>
  req a.message_id b.message_id &&
  req a.user_id b.user_id &&
  req a.to b.to &&
  req a.subject b.subject &&
  req a.reply_to b.reply_to &&
  req a.correlation_id b.correlation_id &&
  req a.content_type b.content_type &&
  req a.content_encoding b.content_encoding &&
  req a.absolute_expiry_time b.absolute_expiry_time &&
  req a.creation_time b.creation_time &&
  req a.group_id b.group_id &&
  req a.group_sequence b.group_sequence &&
  req a.reply_to_group_id b.reply_to_group_id⟩

/-- `SaslFrameBody`, `src/protocol/definitions.rs:197`. -/
instance : REq SaslFrameBody where
  req
    | .SaslMechanisms a, .SaslMechanisms b => req a b
    | .SaslInit a, .SaslInit b => req a b
    | .SaslChallenge a, .SaslChallenge b => req a b
    | .SaslResponse a, .SaslResponse b => req a b
    | .SaslOutcome a, .SaslOutcome b => req a b
    | _, _ => false

/-- `Section`, `src/protocol/definitions.rs:322`. -/
instance : REq Section where
  req
    | .Header a, .Header b => req a b
    | .DeliveryAnnotations a, .DeliveryAnnotations b => req a b
    | .MessageAnnotations a, .MessageAnnotations b => req a b
    | .ApplicationProperties a, .ApplicationProperties b => req a b
    | .Data a, .Data b => req a b
    | .AmqpSequence a, .AmqpSequence b => req a b
    | .AmqpValue a, .AmqpValue b => req a b
    | .Footer a, .Footer b => req a b
    | .Properties a, .Properties b => req a b
    | _, _ => false

end Amqp
