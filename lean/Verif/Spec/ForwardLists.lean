import Verif.Spec.Forward
/-!
# Passing on performatives and sections

Generated by `tools/gen_forward.py` from `codegen/specification.json`: a value can
be passed on if its fields can.  Fields of types whose values can always be passed
on are left out.
-/
set_option autoImplicit false
namespace Amqp
open Forwardable

/-- `error` -/
instance : Forwardable Error := ⟨fun env v =>
  fwd env v.condition ∧
  fwd env v.info⟩

/-- `open` -/
instance : Forwardable Open := ⟨fun env v =>
  fwd env v.outgoing_locales ∧
  fwd env v.incoming_locales ∧
  fwd env v.offered_capabilities ∧
  fwd env v.desired_capabilities ∧
  fwd env v.properties⟩

/-- `begin` -/
instance : Forwardable Begin := ⟨fun env v =>
  fwd env v.offered_capabilities ∧
  fwd env v.desired_capabilities ∧
  fwd env v.properties⟩

/-- `accepted` -/
instance : Forwardable Accepted := alwaysForwardable _

/-- `rejected` -/
instance : Forwardable Rejected := ⟨fun env v =>
  fwd env v.error⟩

/-- `released` -/
instance : Forwardable Released := alwaysForwardable _

/-- `modified` -/
instance : Forwardable Modified := ⟨fun env v =>
  fwd env v.message_annotations⟩

/-- one of `accepted`, `rejected`, `released`, `modified` -/
instance : Forwardable Outcome := ⟨fun env v => match v with
  | .Accepted x => fwd env x
  | .Rejected x => fwd env x
  | .Released x => fwd env x
  | .Modified x => fwd env x⟩

/-- `source` -/
instance : Forwardable Source := ⟨fun env v =>
  fwd env v.dynamic_node_properties ∧
  fwd env v.distribution_mode ∧
  fwd env v.filter ∧
  fwd env v.default_outcome ∧
  fwd env v.outcomes ∧
  fwd env v.capabilities⟩

/-- `target` -/
instance : Forwardable Target := ⟨fun env v =>
  fwd env v.dynamic_node_properties ∧
  fwd env v.capabilities⟩

/-- `attach` -/
instance : Forwardable Attach := ⟨fun env v =>
  fwd env v.source ∧
  fwd env v.target ∧
  fwd env v.unsettled ∧
  fwd env v.offered_capabilities ∧
  fwd env v.desired_capabilities ∧
  fwd env v.properties⟩

/-- `flow` -/
instance : Forwardable Flow := ⟨fun env v =>
  fwd env v.properties⟩

/-- `received` -/
instance : Forwardable Received := alwaysForwardable _

/-- one of `received`, `accepted`, `rejected`, `released`, `modified` -/
instance : Forwardable DeliveryState := ⟨fun env v => match v with
  | .Received x => fwd env x
  | .Accepted x => fwd env x
  | .Rejected x => fwd env x
  | .Released x => fwd env x
  | .Modified x => fwd env x⟩

/-- `transfer` -/
instance : Forwardable TransferPerf := ⟨fun env v =>
  fwd env v.state⟩

/-- `disposition` -/
instance : Forwardable Disposition := ⟨fun env v =>
  fwd env v.state⟩

/-- `detach` -/
instance : Forwardable Detach := ⟨fun env v =>
  fwd env v.error⟩

/-- `end` -/
instance : Forwardable End := ⟨fun env v =>
  fwd env v.error⟩

/-- `close` -/
instance : Forwardable Close := ⟨fun env v =>
  fwd env v.error⟩

/-- `sasl-mechanisms` -/
instance : Forwardable SaslMechanisms := ⟨fun env v =>
  fwd env v.sasl_server_mechanisms⟩

/-- `sasl-init` -/
instance : Forwardable SaslInit := alwaysForwardable _

/-- `sasl-challenge` -/
instance : Forwardable SaslChallenge := alwaysForwardable _

/-- `sasl-response` -/
instance : Forwardable SaslResponse := alwaysForwardable _

/-- `sasl-outcome` -/
instance : Forwardable SaslOutcome := alwaysForwardable _

/-- `header` -/
instance : Forwardable Header := alwaysForwardable _

/-- `properties` -/
instance : Forwardable Properties := ⟨fun env v =>
  fwd env v.absolute_expiry_time ∧
  fwd env v.creation_time⟩

/-- one of `sasl-mechanisms`, `sasl-init`, `sasl-challenge`, `sasl-response`, `sasl-outcome` -/
instance : Forwardable SaslFrameBody := ⟨fun env v => match v with
  | .SaslMechanisms x => fwd env x
  | .SaslInit x => fwd env x
  | .SaslChallenge x => fwd env x
  | .SaslResponse x => fwd env x
  | .SaslOutcome x => fwd env x⟩

/-- one of `header`, `delivery-annotations`, `message-annotations`, `application-properties`, `data`, `amqp-sequence`, `amqp-value`, `footer`, `properties` -/
instance : Forwardable Section := ⟨fun env v => match v with
  | .Header x => fwd env x
  | .DeliveryAnnotations x => fwd env x
  | .MessageAnnotations x => fwd env x
  | .ApplicationProperties x => fwd env x
  | .Data x => fwd env x
  | .AmqpSequence x => fwd env x
  | .AmqpValue x => fwd env x
  | .Footer x => fwd env x
  | .Properties x => fwd env x⟩

end Amqp
