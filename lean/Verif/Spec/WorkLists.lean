import Verif.Protocol.Lists
import Verif.Spec.WorkBase
/-!
# How deep performatives and sections nest

Generated by `tools/gen_work.py` from `codegen/specification.json`.
-/
set_option autoImplicit false
namespace Amqp

instance : Nesting Role := .flat _
instance : Nesting SenderSettleMode := .flat _
instance : Nesting ReceiverSettleMode := .flat _
instance : Nesting SaslCode := .flat _
instance : Nesting TerminusDurability := .flat _
instance : Nesting TerminusExpiryPolicy := .flat _

/-- `error` -/
instance : Nesting Error where
  fixed := 1 + max (max (fixed (ErrorCondition)) (fixed (Option ByteStr))) (fixed (Option Fields))
  nest v := max (max (nest v.condition) (nest v.description)) (nest v.info)

/-- `open` -/
instance : Nesting Open where
  fixed := 1 + max (max (max (max (max (max (max (max (max (fixed (ByteStr)) (fixed (Option ByteStr))) (fixed (UInt32))) (fixed (UInt16))) (fixed (Option Milliseconds))) (fixed (Option IetfLanguageTags))) (fixed (Option IetfLanguageTags))) (fixed (Option Symbols))) (fixed (Option Symbols))) (fixed (Option Fields))
  nest v := max (max (max (max (max (max (max (max (max (nest v.container_id) (nest v.hostname)) (nest v.max_frame_size)) (nest v.channel_max)) (nest v.idle_time_out)) (nest v.outgoing_locales)) (nest v.incoming_locales)) (nest v.offered_capabilities)) (nest v.desired_capabilities)) (nest v.properties)

/-- `begin` -/
instance : Nesting Begin where
  fixed := 1 + max (max (max (max (max (max (max (fixed (Option UInt16)) (fixed (TransferNumber))) (fixed (UInt32))) (fixed (UInt32))) (fixed (Handle))) (fixed (Option Symbols))) (fixed (Option Symbols))) (fixed (Option Fields))
  nest v := max (max (max (max (max (max (max (nest v.remote_channel) (nest v.next_outgoing_id)) (nest v.incoming_window)) (nest v.outgoing_window)) (nest v.handle_max)) (nest v.offered_capabilities)) (nest v.desired_capabilities)) (nest v.properties)

/-- `accepted` -/
instance : Nesting Accepted where
  fixed := 1
  nest _ := 0

/-- `rejected` -/
instance : Nesting Rejected where
  fixed := 1 + fixed (Option Error)
  nest v := nest v.error

/-- `released` -/
instance : Nesting Released where
  fixed := 1
  nest _ := 0

/-- `modified` -/
instance : Nesting Modified where
  fixed := 1 + max (max (fixed (Option Bool)) (fixed (Option Bool))) (fixed (Option Fields))
  nest v := max (max (nest v.delivery_failed) (nest v.undeliverable_here)) (nest v.message_annotations)

/-- one of `accepted`, `rejected`, `released`, `modified` -/
instance : Nesting Outcome where
  fixed := max (max (max (fixed Accepted) (fixed Rejected)) (fixed Released)) (fixed Modified)
  nest
    | .Accepted v => nest v
    | .Rejected v => nest v
    | .Released v => nest v
    | .Modified v => nest v

/-- `source` -/
instance : Nesting Source where
  fixed := 1 + max (max (max (max (max (max (max (max (max (max (fixed (Option Address)) (fixed (TerminusDurability))) (fixed (TerminusExpiryPolicy))) (fixed (Seconds))) (fixed (Bool))) (fixed (Option NodeProperties))) (fixed (Option DistributionMode))) (fixed (Option FilterSet))) (fixed (Option Outcome))) (fixed (Option Symbols))) (fixed (Option Symbols))
  nest v := max (max (max (max (max (max (max (max (max (max (nest v.address) (nest v.durable)) (nest v.expiry_policy)) (nest v.timeout)) (nest v.dynamic)) (nest v.dynamic_node_properties)) (nest v.distribution_mode)) (nest v.filter)) (nest v.default_outcome)) (nest v.outcomes)) (nest v.capabilities)

/-- `target` -/
instance : Nesting Target where
  fixed := 1 + max (max (max (max (max (max (fixed (Option Address)) (fixed (TerminusDurability))) (fixed (TerminusExpiryPolicy))) (fixed (Seconds))) (fixed (Bool))) (fixed (Option NodeProperties))) (fixed (Option Symbols))
  nest v := max (max (max (max (max (max (nest v.address) (nest v.durable)) (nest v.expiry_policy)) (nest v.timeout)) (nest v.dynamic)) (nest v.dynamic_node_properties)) (nest v.capabilities)

/-- `attach` -/
instance : Nesting Attach where
  fixed := 1 + max (max (max (max (max (max (max (max (max (max (max (max (max (fixed (ByteStr)) (fixed (Handle))) (fixed (Role))) (fixed (SenderSettleMode))) (fixed (ReceiverSettleMode))) (fixed (Option Source))) (fixed (Option Target))) (fixed (Option Map))) (fixed (Bool))) (fixed (Option SequenceNo))) (fixed (Option UInt64))) (fixed (Option Symbols))) (fixed (Option Symbols))) (fixed (Option Fields))
  nest v := max (max (max (max (max (max (max (max (max (max (max (max (max (nest v.name) (nest v.handle)) (nest v.role)) (nest v.snd_settle_mode)) (nest v.rcv_settle_mode)) (nest v.source)) (nest v.target)) (nest v.unsettled)) (nest v.incomplete_unsettled)) (nest v.initial_delivery_count)) (nest v.max_message_size)) (nest v.offered_capabilities)) (nest v.desired_capabilities)) (nest v.properties)

/-- `flow` -/
instance : Nesting Flow where
  fixed := 1 + max (max (max (max (max (max (max (max (max (max (fixed (Option TransferNumber)) (fixed (UInt32))) (fixed (TransferNumber))) (fixed (UInt32))) (fixed (Option Handle))) (fixed (Option SequenceNo))) (fixed (Option UInt32))) (fixed (Option UInt32))) (fixed (Bool))) (fixed (Bool))) (fixed (Option Fields))
  nest v := max (max (max (max (max (max (max (max (max (max (nest v.next_incoming_id) (nest v.incoming_window)) (nest v.next_outgoing_id)) (nest v.outgoing_window)) (nest v.handle)) (nest v.delivery_count)) (nest v.link_credit)) (nest v.available)) (nest v.drain)) (nest v.echo)) (nest v.properties)

/-- `received` -/
instance : Nesting Received where
  fixed := 1 + max (fixed (UInt32)) (fixed (UInt64))
  nest v := max (nest v.section_number) (nest v.section_offset)

/-- one of `received`, `accepted`, `rejected`, `released`, `modified` -/
instance : Nesting DeliveryState where
  fixed := max (max (max (max (fixed Received) (fixed Accepted)) (fixed Rejected)) (fixed Released)) (fixed Modified)
  nest
    | .Received v => nest v
    | .Accepted v => nest v
    | .Rejected v => nest v
    | .Released v => nest v
    | .Modified v => nest v

/-- `transfer` -/
instance : Nesting TransferPerf where
  fixed := 1 + max (max (max (max (max (max (max (max (max (max (fixed (Handle)) (fixed (Option DeliveryNumber))) (fixed (Option DeliveryTag))) (fixed (Option MessageFormat))) (fixed (Option Bool))) (fixed (Bool))) (fixed (Option ReceiverSettleMode))) (fixed (Option DeliveryState))) (fixed (Bool))) (fixed (Bool))) (fixed (Bool))
  nest v := max (max (max (max (max (max (max (max (max (max (nest v.handle) (nest v.delivery_id)) (nest v.delivery_tag)) (nest v.message_format)) (nest v.settled)) (nest v.more)) (nest v.rcv_settle_mode)) (nest v.state)) (nest v.resume)) (nest v.aborted)) (nest v.batchable)

/-- `disposition` -/
instance : Nesting Disposition where
  fixed := 1 + max (max (max (max (max (fixed (Role)) (fixed (DeliveryNumber))) (fixed (Option DeliveryNumber))) (fixed (Bool))) (fixed (Option DeliveryState))) (fixed (Bool))
  nest v := max (max (max (max (max (nest v.role) (nest v.first)) (nest v.last)) (nest v.settled)) (nest v.state)) (nest v.batchable)

/-- `detach` -/
instance : Nesting Detach where
  fixed := 1 + max (max (fixed (Handle)) (fixed (Bool))) (fixed (Option Error))
  nest v := max (max (nest v.handle) (nest v.closed)) (nest v.error)

/-- `end` -/
instance : Nesting End where
  fixed := 1 + fixed (Option Error)
  nest v := nest v.error

/-- `close` -/
instance : Nesting Close where
  fixed := 1 + fixed (Option Error)
  nest v := nest v.error

/-- `sasl-mechanisms` -/
instance : Nesting SaslMechanisms where
  fixed := 1 + fixed (Symbols)
  nest v := nest v.sasl_server_mechanisms

/-- `sasl-init` -/
instance : Nesting SaslInit where
  fixed := 1 + max (max (fixed (Symbol)) (fixed (Option Binary))) (fixed (Option ByteStr))
  nest v := max (max (nest v.mechanism) (nest v.initial_response)) (nest v.hostname)

/-- `sasl-challenge` -/
instance : Nesting SaslChallenge where
  fixed := 1 + fixed (Binary)
  nest v := nest v.challenge

/-- `sasl-response` -/
instance : Nesting SaslResponse where
  fixed := 1 + fixed (Binary)
  nest v := nest v.response

/-- `sasl-outcome` -/
instance : Nesting SaslOutcome where
  fixed := 1 + max (fixed (SaslCode)) (fixed (Option Binary))
  nest v := max (nest v.code) (nest v.additional_data)

/-- `header` -/
instance : Nesting Header where
  fixed := 1 + max (max (max (max (fixed (Bool)) (fixed (UInt8))) (fixed (Option Milliseconds))) (fixed (Bool))) (fixed (UInt32))
  nest v := max (max (max (max (nest v.durable) (nest v.priority)) (nest v.ttl)) (nest v.first_acquirer)) (nest v.delivery_count)

/-- `properties` -/
instance : Nesting Properties where
  fixed := 1 + max (max (max (max (max (max (max (max (max (max (max (max (fixed (Option MessageId)) (fixed (Option Binary))) (fixed (Option Address))) (fixed (Option ByteStr))) (fixed (Option Address))) (fixed (Option MessageId))) (fixed (Option Symbol))) (fixed (Option Symbol))) (fixed (Option Timestamp))) (fixed (Option Timestamp))) (fixed (Option ByteStr))) (fixed (Option SequenceNo))) (fixed (Option ByteStr))
  nest v := max (max (max (max (max (max (max (max (max (max (max (max (nest v.message_id) (nest v.user_id)) (nest v.to)) (nest v.subject)) (nest v.reply_to)) (nest v.correlation_id)) (nest v.content_type)) (nest v.content_encoding)) (nest v.absolute_expiry_time)) (nest v.creation_time)) (nest v.group_id)) (nest v.group_sequence)) (nest v.reply_to_group_id)

/-- one of `sasl-mechanisms`, `sasl-init`, `sasl-challenge`, `sasl-response`, `sasl-outcome` -/
instance : Nesting SaslFrameBody where
  fixed := max (max (max (max (fixed SaslMechanisms) (fixed SaslInit)) (fixed SaslChallenge)) (fixed SaslResponse)) (fixed SaslOutcome)
  nest
    | .SaslMechanisms v => nest v
    | .SaslInit v => nest v
    | .SaslChallenge v => nest v
    | .SaslResponse v => nest v
    | .SaslOutcome v => nest v

/-- one of `header`, `delivery-annotations`, `message-annotations`, `application-properties`, `data`, `amqp-sequence`, `amqp-value`, `footer`, `properties` -/
instance : Nesting Section where
  fixed := max (max (max (max (max (max (max (max (fixed Header) (fixed DeliveryAnnotations)) (fixed MessageAnnotations)) (fixed ApplicationProperties)) (fixed Data)) (fixed AmqpSequence)) (fixed AmqpValue)) (fixed Footer)) (fixed Properties)
  nest
    | .Header v => nest v
    | .DeliveryAnnotations v => nest v
    | .MessageAnnotations v => nest v
    | .ApplicationProperties v => nest v
    | .Data v => nest v
    | .AmqpSequence v => nest v
    | .AmqpValue v => nest v
    | .Footer v => nest v
    | .Properties v => nest v

end Amqp
