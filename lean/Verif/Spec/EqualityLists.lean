import Verif.Spec.Equality
/-!
# Performatives and sections a program can hold

Generated by `tools/gen_equality.py` from `codegen/specification.json`: those all
of whose fields it can hold.
-/
set_option autoImplicit false
namespace Amqp

instance : Holdable Role := .any _
instance : Holdable SenderSettleMode := .any _
instance : Holdable ReceiverSettleMode := .any _
instance : Holdable SaslCode := .any _
instance : Holdable TerminusDurability := .any _
instance : Holdable TerminusExpiryPolicy := .any _

/-- `error` -/
instance : Holdable Error := ⟨fun v =>
  held v.condition ∧
  held v.description ∧
  held v.info⟩

/-- `open` -/
instance : Holdable Open := ⟨fun v =>
  held v.container_id ∧
  held v.hostname ∧
  held v.max_frame_size ∧
  held v.channel_max ∧
  held v.idle_time_out ∧
  held v.outgoing_locales ∧
  held v.incoming_locales ∧
  held v.offered_capabilities ∧
  held v.desired_capabilities ∧
  held v.properties⟩

/-- `begin` -/
instance : Holdable Begin := ⟨fun v =>
  held v.remote_channel ∧
  held v.next_outgoing_id ∧
  held v.incoming_window ∧
  held v.outgoing_window ∧
  held v.handle_max ∧
  held v.offered_capabilities ∧
  held v.desired_capabilities ∧
  held v.properties⟩

/-- `accepted` -/
instance : Holdable Accepted := .any _

/-- `rejected` -/
instance : Holdable Rejected := ⟨fun v =>
  held v.error⟩

/-- `released` -/
instance : Holdable Released := .any _

/-- `modified` -/
instance : Holdable Modified := ⟨fun v =>
  held v.delivery_failed ∧
  held v.undeliverable_here ∧
  held v.message_annotations⟩

/-- one of `accepted`, `rejected`, `released`, `modified` -/
instance : Holdable Outcome := ⟨fun v => match v with
  | .Accepted x => held x
  | .Rejected x => held x
  | .Released x => held x
  | .Modified x => held x⟩

/-- `source` -/
instance : Holdable Source := ⟨fun v =>
  held v.address ∧
  held v.durable ∧
  held v.expiry_policy ∧
  held v.timeout ∧
  held v.dynamic ∧
  held v.dynamic_node_properties ∧
  held v.distribution_mode ∧
  held v.filter ∧
  held v.default_outcome ∧
  held v.outcomes ∧
  held v.capabilities⟩

/-- `target` -/
instance : Holdable Target := ⟨fun v =>
  held v.address ∧
  held v.durable ∧
  held v.expiry_policy ∧
  held v.timeout ∧
  held v.dynamic ∧
  held v.dynamic_node_properties ∧
  held v.capabilities⟩

/-- `attach` -/
instance : Holdable Attach := ⟨fun v =>
  held v.name ∧
  held v.handle ∧
  held v.role ∧
  held v.snd_settle_mode ∧
  held v.rcv_settle_mode ∧
  held v.source ∧
  held v.target ∧
  held v.unsettled ∧
  held v.incomplete_unsettled ∧
  held v.initial_delivery_count ∧
  held v.max_message_size ∧
  held v.offered_capabilities ∧
  held v.desired_capabilities ∧
  held v.properties⟩

/-- `flow` -/
instance : Holdable Flow := ⟨fun v =>
  held v.next_incoming_id ∧
  held v.incoming_window ∧
  held v.next_outgoing_id ∧
  held v.outgoing_window ∧
  held v.handle ∧
  held v.delivery_count ∧
  held v.link_credit ∧
  held v.available ∧
  held v.drain ∧
  held v.echo ∧
  held v.properties⟩

/-- `received` -/
instance : Holdable Received := ⟨fun v =>
  held v.section_number ∧
  held v.section_offset⟩

/-- one of `received`, `accepted`, `rejected`, `released`, `modified` -/
instance : Holdable DeliveryState := ⟨fun v => match v with
  | .Received x => held x
  | .Accepted x => held x
  | .Rejected x => held x
  | .Released x => held x
  | .Modified x => held x⟩

/-- `transfer` -/
instance : Holdable TransferPerf := ⟨fun v =>
  held v.handle ∧
  held v.delivery_id ∧
  held v.delivery_tag ∧
  held v.message_format ∧
  held v.settled ∧
  held v.more ∧
  held v.rcv_settle_mode ∧
  held v.state ∧
  held v.resume ∧
  held v.aborted ∧
  held v.batchable⟩

/-- `disposition` -/
instance : Holdable Disposition := ⟨fun v =>
  held v.role ∧
  held v.first ∧
  held v.last ∧
  held v.settled ∧
  held v.state ∧
  held v.batchable⟩

/-- `detach` -/
instance : Holdable Detach := ⟨fun v =>
  held v.handle ∧
  held v.closed ∧
  held v.error⟩

/-- `end` -/
instance : Holdable End := ⟨fun v =>
  held v.error⟩

/-- `close` -/
instance : Holdable Close := ⟨fun v =>
  held v.error⟩

/-- `sasl-mechanisms` -/
instance : Holdable SaslMechanisms := ⟨fun v =>
  held v.sasl_server_mechanisms⟩

/-- `sasl-init` -/
instance : Holdable SaslInit := ⟨fun v =>
  held v.mechanism ∧
  held v.initial_response ∧
  held v.hostname⟩

/-- `sasl-challenge` -/
instance : Holdable SaslChallenge := ⟨fun v =>
  held v.challenge⟩

/-- `sasl-response` -/
instance : Holdable SaslResponse := ⟨fun v =>
  held v.response⟩

/-- `sasl-outcome` -/
instance : Holdable SaslOutcome := ⟨fun v =>
  held v.code ∧
  held v.additional_data⟩

/-- `header` -/
instance : Holdable Header := ⟨fun v =>
  held v.durable ∧
  held v.priority ∧
  held v.ttl ∧
  held v.first_acquirer ∧
  held v.delivery_count⟩

/-- `properties` -/
instance : Holdable Properties := ⟨fun v =>
  held v.message_id ∧
  held v.user_id ∧
  held v.to ∧
  held v.subject ∧
  held v.reply_to ∧
  held v.correlation_id ∧
  held v.content_type ∧
  held v.content_encoding ∧
  held v.absolute_expiry_time ∧
  held v.creation_time ∧
  held v.group_id ∧
  held v.group_sequence ∧
  held v.reply_to_group_id⟩

/-- one of `sasl-mechanisms`, `sasl-init`, `sasl-challenge`, `sasl-response`, `sasl-outcome` -/
instance : Holdable SaslFrameBody := ⟨fun v => match v with
  | .SaslMechanisms x => held x
  | .SaslInit x => held x
  | .SaslChallenge x => held x
  | .SaslResponse x => held x
  | .SaslOutcome x => held x⟩

/-- one of `header`, `delivery-annotations`, `message-annotations`, `application-properties`, `data`, `amqp-sequence`, `amqp-value`, `footer`, `properties` -/
instance : Holdable Section := ⟨fun v => match v with
  | .Header x => held x
  | .DeliveryAnnotations x => held x
  | .MessageAnnotations x => held x
  | .ApplicationProperties x => held x
  | .Data x => held x
  | .AmqpSequence x => held x
  | .AmqpValue x => held x
  | .Footer x => held x
  | .Properties x => held x⟩

end Amqp
