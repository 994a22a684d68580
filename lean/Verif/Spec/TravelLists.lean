import Verif.Spec.Travel
/-!
# What becomes of performatives and sections on their way

Generated by `tools/gen_travel.py`: the fields are looked at in their order.
-/
set_option autoImplicit false
namespace Amqp

instance : HasFate Error := ⟨fun env v => do
  let condition ← fate env v.condition
  let description ← fate env v.description
  let info ← fate env v.info
  pure { condition, description, info }⟩

instance : HasFate Received := ⟨fun env v => do
  let section_number ← fate env v.section_number
  let section_offset ← fate env v.section_offset
  pure { section_number, section_offset }⟩

instance : HasFate Accepted := .same _

instance : HasFate Rejected := ⟨fun env v => do
  let error ← fate env v.error
  pure { error }⟩

instance : HasFate Released := .same _

instance : HasFate Modified := ⟨fun env v => do
  let delivery_failed ← fate env v.delivery_failed
  let undeliverable_here ← fate env v.undeliverable_here
  let message_annotations ← fate env v.message_annotations
  pure { delivery_failed, undeliverable_here, message_annotations }⟩

instance : HasFate DeliveryState := ⟨fun env u => match u with
  | .Received v => do pure (.Received (← fate env v))
  | .Accepted v => do pure (.Accepted (← fate env v))
  | .Rejected v => do pure (.Rejected (← fate env v))
  | .Released v => do pure (.Released (← fate env v))
  | .Modified v => do pure (.Modified (← fate env v))⟩

instance : HasFate Outcome := ⟨fun env u => match u with
  | .Accepted v => do pure (.Accepted (← fate env v))
  | .Rejected v => do pure (.Rejected (← fate env v))
  | .Released v => do pure (.Released (← fate env v))
  | .Modified v => do pure (.Modified (← fate env v))⟩

instance : HasFate Source := ⟨fun env v => do
  let address ← fate env v.address
  let durable ← fate env v.durable
  let expiry_policy ← fate env v.expiry_policy
  let timeout ← fate env v.timeout
  let dynamic ← fate env v.dynamic
  let dynamic_node_properties ← fate env v.dynamic_node_properties
  let distribution_mode ← fate env v.distribution_mode
  let filter ← fate env v.filter
  let default_outcome ← fate env v.default_outcome
  let outcomes ← fate env v.outcomes
  let capabilities ← fate env v.capabilities
  pure { address, durable, expiry_policy, timeout, dynamic, dynamic_node_properties, distribution_mode, filter, default_outcome, outcomes, capabilities }⟩

instance : HasFate Target := ⟨fun env v => do
  let address ← fate env v.address
  let durable ← fate env v.durable
  let expiry_policy ← fate env v.expiry_policy
  let timeout ← fate env v.timeout
  let dynamic ← fate env v.dynamic
  let dynamic_node_properties ← fate env v.dynamic_node_properties
  let capabilities ← fate env v.capabilities
  pure { address, durable, expiry_policy, timeout, dynamic, dynamic_node_properties, capabilities }⟩

instance : HasFate Open := ⟨fun env v => do
  let container_id ← fate env v.container_id
  let hostname ← fate env v.hostname
  let max_frame_size ← fate env v.max_frame_size
  let channel_max ← fate env v.channel_max
  let idle_time_out ← fate env v.idle_time_out
  let outgoing_locales ← fate env v.outgoing_locales
  let incoming_locales ← fate env v.incoming_locales
  let offered_capabilities ← fate env v.offered_capabilities
  let desired_capabilities ← fate env v.desired_capabilities
  let properties ← fate env v.properties
  pure { container_id, hostname, max_frame_size, channel_max, idle_time_out, outgoing_locales, incoming_locales, offered_capabilities, desired_capabilities, properties }⟩

instance : HasFate Begin := ⟨fun env v => do
  let remote_channel ← fate env v.remote_channel
  let next_outgoing_id ← fate env v.next_outgoing_id
  let incoming_window ← fate env v.incoming_window
  let outgoing_window ← fate env v.outgoing_window
  let handle_max ← fate env v.handle_max
  let offered_capabilities ← fate env v.offered_capabilities
  let desired_capabilities ← fate env v.desired_capabilities
  let properties ← fate env v.properties
  pure { remote_channel, next_outgoing_id, incoming_window, outgoing_window, handle_max, offered_capabilities, desired_capabilities, properties }⟩

instance : HasFate Attach := ⟨fun env v => do
  let name ← fate env v.name
  let handle ← fate env v.handle
  let role ← fate env v.role
  let snd_settle_mode ← fate env v.snd_settle_mode
  let rcv_settle_mode ← fate env v.rcv_settle_mode
  let source ← fate env v.source
  let target ← fate env v.target
  let unsettled ← fate env v.unsettled
  let incomplete_unsettled ← fate env v.incomplete_unsettled
  let initial_delivery_count ← fate env v.initial_delivery_count
  let max_message_size ← fate env v.max_message_size
  let offered_capabilities ← fate env v.offered_capabilities
  let desired_capabilities ← fate env v.desired_capabilities
  let properties ← fate env v.properties
  pure { name, handle, role, snd_settle_mode, rcv_settle_mode, source, target, unsettled, incomplete_unsettled, initial_delivery_count, max_message_size, offered_capabilities, desired_capabilities, properties }⟩

instance : HasFate Flow := ⟨fun env v => do
  let next_incoming_id ← fate env v.next_incoming_id
  let incoming_window ← fate env v.incoming_window
  let next_outgoing_id ← fate env v.next_outgoing_id
  let outgoing_window ← fate env v.outgoing_window
  let handle ← fate env v.handle
  let delivery_count ← fate env v.delivery_count
  let link_credit ← fate env v.link_credit
  let available ← fate env v.available
  let drain ← fate env v.drain
  let echo ← fate env v.echo
  let properties ← fate env v.properties
  pure { next_incoming_id, incoming_window, next_outgoing_id, outgoing_window, handle, delivery_count, link_credit, available, drain, echo, properties }⟩

instance : HasFate Disposition := ⟨fun env v => do
  let role ← fate env v.role
  let first ← fate env v.first
  let last ← fate env v.last
  let settled ← fate env v.settled
  let state ← fate env v.state
  let batchable ← fate env v.batchable
  pure { role, first, last, settled, state, batchable }⟩

instance : HasFate Detach := ⟨fun env v => do
  let handle ← fate env v.handle
  let closed ← fate env v.closed
  let error ← fate env v.error
  pure { handle, closed, error }⟩

instance : HasFate End := ⟨fun env v => do
  let error ← fate env v.error
  pure { error }⟩

instance : HasFate Close := ⟨fun env v => do
  let error ← fate env v.error
  pure { error }⟩

instance : HasFate TransferPerf := ⟨fun env v => do
  let handle ← fate env v.handle
  let delivery_id ← fate env v.delivery_id
  let delivery_tag ← fate env v.delivery_tag
  let message_format ← fate env v.message_format
  let settled ← fate env v.settled
  let more ← fate env v.more
  let rcv_settle_mode ← fate env v.rcv_settle_mode
  let state ← fate env v.state
  let resume ← fate env v.resume
  let aborted ← fate env v.aborted
  let batchable ← fate env v.batchable
  pure { handle, delivery_id, delivery_tag, message_format, settled, more, rcv_settle_mode, state, resume, aborted, batchable }⟩

instance : HasFate SaslMechanisms := ⟨fun env v => do
  let sasl_server_mechanisms ← fate env v.sasl_server_mechanisms
  pure { sasl_server_mechanisms }⟩

instance : HasFate SaslInit := ⟨fun env v => do
  let mechanism ← fate env v.mechanism
  let initial_response ← fate env v.initial_response
  let hostname ← fate env v.hostname
  pure { mechanism, initial_response, hostname }⟩

instance : HasFate SaslChallenge := ⟨fun env v => do
  let challenge ← fate env v.challenge
  pure { challenge }⟩

instance : HasFate SaslResponse := ⟨fun env v => do
  let response ← fate env v.response
  pure { response }⟩

instance : HasFate SaslOutcome := ⟨fun env v => do
  let code ← fate env v.code
  let additional_data ← fate env v.additional_data
  pure { code, additional_data }⟩

instance : HasFate SaslFrameBody := ⟨fun env u => match u with
  | .SaslMechanisms v => do pure (.SaslMechanisms (← fate env v))
  | .SaslInit v => do pure (.SaslInit (← fate env v))
  | .SaslChallenge v => do pure (.SaslChallenge (← fate env v))
  | .SaslResponse v => do pure (.SaslResponse (← fate env v))
  | .SaslOutcome v => do pure (.SaslOutcome (← fate env v))⟩

instance : HasFate Header := ⟨fun env v => do
  let durable ← fate env v.durable
  let priority ← fate env v.priority
  let ttl ← fate env v.ttl
  let first_acquirer ← fate env v.first_acquirer
  let delivery_count ← fate env v.delivery_count
  pure { durable, priority, ttl, first_acquirer, delivery_count }⟩

instance : HasFate Properties := ⟨fun env v => do
  let message_id ← fate env v.message_id
  let user_id ← fate env v.user_id
  let to ← fate env v.to
  let subject ← fate env v.subject
  let reply_to ← fate env v.reply_to
  let correlation_id ← fate env v.correlation_id
  let content_type ← fate env v.content_type
  let content_encoding ← fate env v.content_encoding
  let absolute_expiry_time ← fate env v.absolute_expiry_time
  let creation_time ← fate env v.creation_time
  let group_id ← fate env v.group_id
  let group_sequence ← fate env v.group_sequence
  let reply_to_group_id ← fate env v.reply_to_group_id
  pure { message_id, user_id, to, subject, reply_to, correlation_id, content_type, content_encoding, absolute_expiry_time, creation_time, group_id, group_sequence, reply_to_group_id }⟩

instance : HasFate Section := ⟨fun env u => match u with
  | .Header v => do pure (.Header (← fate env v))
  | .DeliveryAnnotations v => do pure (.DeliveryAnnotations (← fate env v))
  | .MessageAnnotations v => do pure (.MessageAnnotations (← fate env v))
  | .ApplicationProperties v => do pure (.ApplicationProperties (← fate env v))
  | .Data v => do pure (.Data (← fate env v))
  | .AmqpSequence v => do pure (.AmqpSequence (← fate env v))
  | .AmqpValue v => do pure (.AmqpValue (← fate env v))
  | .Footer v => do pure (.Footer (← fate env v))
  | .Properties v => do pure (.Properties (← fate env v))⟩

end Amqp
