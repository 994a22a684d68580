import Verif.Protocol.Lists
import Verif.Spec.Steady
/-!
# Steady performatives and sections

Generated by `tools/gen_equality.py` from `codegen/specification.json`: those all
of whose fields are steady.
-/
set_option autoImplicit false
namespace Amqp

instance : Steadiness Role := .any _
instance : Steadiness SenderSettleMode := .any _
instance : Steadiness ReceiverSettleMode := .any _
instance : Steadiness SaslCode := .any _
instance : Steadiness TerminusDurability := .any _
instance : Steadiness TerminusExpiryPolicy := .any _

/-- `error` -/
instance : Steadiness Error := ⟨fun v =>
  steady v.condition ∧
  steady v.description ∧
  steady v.info⟩

/-- `open` -/
instance : Steadiness Open := ⟨fun v =>
  steady v.container_id ∧
  steady v.hostname ∧
  steady v.max_frame_size ∧
  steady v.channel_max ∧
  steady v.idle_time_out ∧
  steady v.outgoing_locales ∧
  steady v.incoming_locales ∧
  steady v.offered_capabilities ∧
  steady v.desired_capabilities ∧
  steady v.properties⟩

/-- `begin` -/
instance : Steadiness Begin := ⟨fun v =>
  steady v.remote_channel ∧
  steady v.next_outgoing_id ∧
  steady v.incoming_window ∧
  steady v.outgoing_window ∧
  steady v.handle_max ∧
  steady v.offered_capabilities ∧
  steady v.desired_capabilities ∧
  steady v.properties⟩

/-- `accepted` -/
instance : Steadiness Accepted := .any _

/-- `rejected` -/
instance : Steadiness Rejected := ⟨fun v =>
  steady v.error⟩

/-- `released` -/
instance : Steadiness Released := .any _

/-- `modified` -/
instance : Steadiness Modified := ⟨fun v =>
  steady v.delivery_failed ∧
  steady v.undeliverable_here ∧
  steady v.message_annotations⟩

/-- one of `accepted`, `rejected`, `released`, `modified` -/
instance : Steadiness Outcome := ⟨fun v => match v with
  | .Accepted x => steady x
  | .Rejected x => steady x
  | .Released x => steady x
  | .Modified x => steady x⟩

/-- `source` -/
instance : Steadiness Source := ⟨fun v =>
  steady v.address ∧
  steady v.durable ∧
  steady v.expiry_policy ∧
  steady v.timeout ∧
  steady v.dynamic ∧
  steady v.dynamic_node_properties ∧
  steady v.distribution_mode ∧
  steady v.filter ∧
  steady v.default_outcome ∧
  steady v.outcomes ∧
  steady v.capabilities⟩

/-- `target` -/
instance : Steadiness Target := ⟨fun v =>
  steady v.address ∧
  steady v.durable ∧
  steady v.expiry_policy ∧
  steady v.timeout ∧
  steady v.dynamic ∧
  steady v.dynamic_node_properties ∧
  steady v.capabilities⟩

/-- `attach` -/
instance : Steadiness Attach := ⟨fun v =>
  steady v.name ∧
  steady v.handle ∧
  steady v.role ∧
  steady v.snd_settle_mode ∧
  steady v.rcv_settle_mode ∧
  steady v.source ∧
  steady v.target ∧
  steady v.unsettled ∧
  steady v.incomplete_unsettled ∧
  steady v.initial_delivery_count ∧
  steady v.max_message_size ∧
  steady v.offered_capabilities ∧
  steady v.desired_capabilities ∧
  steady v.properties⟩

/-- `flow` -/
instance : Steadiness Flow := ⟨fun v =>
  steady v.next_incoming_id ∧
  steady v.incoming_window ∧
  steady v.next_outgoing_id ∧
  steady v.outgoing_window ∧
  steady v.handle ∧
  steady v.delivery_count ∧
  steady v.link_credit ∧
  steady v.available ∧
  steady v.drain ∧
  steady v.echo ∧
  steady v.properties⟩

/-- `received` -/
instance : Steadiness Received := ⟨fun v =>
  steady v.section_number ∧
  steady v.section_offset⟩

/-- one of `received`, `accepted`, `rejected`, `released`, `modified` -/
instance : Steadiness DeliveryState := ⟨fun v => match v with
  | .Received x => steady x
  | .Accepted x => steady x
  | .Rejected x => steady x
  | .Released x => steady x
  | .Modified x => steady x⟩

/-- `transfer` -/
instance : Steadiness TransferPerf := ⟨fun v =>
  steady v.handle ∧
  steady v.delivery_id ∧
  steady v.delivery_tag ∧
  steady v.message_format ∧
  steady v.settled ∧
  steady v.more ∧
  steady v.rcv_settle_mode ∧
  steady v.state ∧
  steady v.resume ∧
  steady v.aborted ∧
  steady v.batchable⟩

/-- `disposition` -/
instance : Steadiness Disposition := ⟨fun v =>
  steady v.role ∧
  steady v.first ∧
  steady v.last ∧
  steady v.settled ∧
  steady v.state ∧
  steady v.batchable⟩

/-- `detach` -/
instance : Steadiness Detach := ⟨fun v =>
  steady v.handle ∧
  steady v.closed ∧
  steady v.error⟩

/-- `end` -/
instance : Steadiness End := ⟨fun v =>
  steady v.error⟩

/-- `close` -/
instance : Steadiness Close := ⟨fun v =>
  steady v.error⟩

/-- `sasl-mechanisms` -/
instance : Steadiness SaslMechanisms := ⟨fun v =>
  steady v.sasl_server_mechanisms⟩

/-- `sasl-init` -/
instance : Steadiness SaslInit := ⟨fun v =>
  steady v.mechanism ∧
  steady v.initial_response ∧
  steady v.hostname⟩

/-- `sasl-challenge` -/
instance : Steadiness SaslChallenge := ⟨fun v =>
  steady v.challenge⟩

/-- `sasl-response` -/
instance : Steadiness SaslResponse := ⟨fun v =>
  steady v.response⟩

/-- `sasl-outcome` -/
instance : Steadiness SaslOutcome := ⟨fun v =>
  steady v.code ∧
  steady v.additional_data⟩

/-- `header` -/
instance : Steadiness Header := ⟨fun v =>
  steady v.durable ∧
  steady v.priority ∧
  steady v.ttl ∧
  steady v.first_acquirer ∧
  steady v.delivery_count⟩

/-- `properties` -/
instance : Steadiness Properties := ⟨fun v =>
  steady v.message_id ∧
  steady v.user_id ∧
  steady v.to ∧
  steady v.subject ∧
  steady v.reply_to ∧
  steady v.correlation_id ∧
  steady v.content_type ∧
  steady v.content_encoding ∧
  steady v.absolute_expiry_time ∧
  steady v.creation_time ∧
  steady v.group_id ∧
  steady v.group_sequence ∧
  steady v.reply_to_group_id⟩

/-- one of `sasl-mechanisms`, `sasl-init`, `sasl-challenge`, `sasl-response`, `sasl-outcome` -/
instance : Steadiness SaslFrameBody := ⟨fun v => match v with
  | .SaslMechanisms x => steady x
  | .SaslInit x => steady x
  | .SaslChallenge x => steady x
  | .SaslResponse x => steady x
  | .SaslOutcome x => steady x⟩

/-- one of `header`, `delivery-annotations`, `message-annotations`, `application-properties`, `data`, `amqp-sequence`, `amqp-value`, `footer`, `properties` -/
instance : Steadiness Section := ⟨fun v => match v with
  | .Header x => steady x
  | .DeliveryAnnotations x => steady x
  | .MessageAnnotations x => steady x
  | .ApplicationProperties x => steady x
  | .Data x => steady x
  | .AmqpSequence x => steady x
  | .AmqpValue x => steady x
  | .Footer x => steady x
  | .Properties x => steady x⟩

end Amqp
