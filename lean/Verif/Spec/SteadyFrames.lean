import Verif.Spec.SteadyLists
import Verif.Spec.EqualityFrames
import Verif.Spec.Looks
/-!
# Steady messages and frames
-/
set_option autoImplicit false
namespace Amqp

instance {AP : Type} [Steadiness AP] : Steadiness (MsgHead AP) := ⟨fun m =>
  steady m.header ∧ steady m.delivery_annotations ∧ steady m.message_annotations ∧
  steady m.properties ∧ steady m.application_properties ∧ steady m.footer ∧ steady m.sequence ∧
  steady m.value⟩

mutual
/-- Transfer bodies all of whose messages are steady. -/
def TransferBody.Steady : TransferBody → Prop
  | .Data _ => True
  | .MessageIn m ms => steady m ∧ bodiesSteady ms
  | .MessageOut m ms => steady m ∧ bodiesSteady ms
def bodiesSteady : List TransferBody → Prop
  | [] => True
  | b :: t => b.Steady ∧ bodiesSteady t
end

instance : Steadiness TransferBody := ⟨TransferBody.Steady⟩
instance {AP : Type} [Steadiness AP] : Steadiness (Message AP) :=
  ⟨fun m => steady m.toMsgHead ∧ bodiesSteady m.messages⟩
instance : Steadiness Transfer := ⟨fun t => steady t.toTransferPerf ∧ steady t.body⟩
instance : Steadiness Frame := ⟨fun f => match f with
  | .Open v => steady v
  | .Begin v => steady v
  | .Attach v => steady v
  | .Flow v => steady v
  | .Transfer v => steady v
  | .Disposition v => steady v
  | .Detach v => steady v
  | .End v => steady v
  | .Close v => steady v
  | .Empty => True⟩
instance : Steadiness AmqpFrame := ⟨fun f => steady f.performative⟩
instance : Steadiness SaslFrame := ⟨fun f => steady f.body⟩

/-- Equal values of the type that satisfy `ok` are written alike. -/
def EqualWrittenAlike (α : Type) [REq α] [Holdable α] [Encode α] [EncodeW α] (ok : α → Prop) : Prop :=
  ∀ a b : α, held a → held b → ok a → ok b → req a b = true → WrittenAlike a b

end Amqp
