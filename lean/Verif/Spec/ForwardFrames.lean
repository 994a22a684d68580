import Verif.Spec.ForwardLists
import Verif.Framing
/-!
# Passing on frames and messages
-/
set_option autoImplicit false
namespace Amqp
open Forwardable

/-- A frame can be passed on if its performative can; the payload of a transfer
always can. -/
instance : Forwardable Frame := ⟨fun env f => match f with
  | .Open v => fwd env v
  | .Begin v => fwd env v
  | .Attach v => fwd env v
  | .Flow v => fwd env v
  | .Transfer v => fwd env v.toTransferPerf
  | .Disposition v => fwd env v
  | .Detach v => fwd env v
  | .End v => fwd env v
  | .Close v => fwd env v
  | .Empty => True⟩

instance : Forwardable AmqpFrame := ⟨fun env f => fwd env f.performative⟩
instance : Forwardable SaslFrame := ⟨fun env f => fwd env f.body⟩

/-- A message can be passed on if its parts can; data always can. -/
instance : Forwardable InMessage := ⟨fun env m =>
  fwd env m.delivery_annotations ∧ fwd env m.message_annotations ∧
  fwd env m.application_properties ∧ (∀ l ∈ m.sequence, fwd env l) ∧ fwd env m.value ∧
  fwd env m.footer⟩

end Amqp
