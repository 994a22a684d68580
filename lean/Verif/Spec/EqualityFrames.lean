import Verif.Spec.EqualityLists
import Verif.Spec.Messages
import Verif.Protocol.FrameEquality
/-!
# Messages and frames a program can hold; the content of a message
-/
set_option autoImplicit false
namespace Amqp

instance {AP : Type} [Holdable AP] : Holdable (MsgHead AP) := ⟨fun m =>
  held m.header ∧ held m.delivery_annotations ∧ held m.message_annotations ∧ held m.properties ∧
  held m.application_properties ∧ held m.footer ∧ held m.sequence ∧ held m.value⟩

mutual
/-- Transfer bodies a program can hold. -/
def TransferBody.Held : TransferBody → Prop
  | .Data _ => True
  | .MessageIn m ms => held m ∧ bodiesHeld ms
  | .MessageOut m ms => held m ∧ bodiesHeld ms
def bodiesHeld : List TransferBody → Prop
  | [] => True
  | b :: t => b.Held ∧ bodiesHeld t
end

instance : Holdable TransferBody := ⟨TransferBody.Held⟩
instance {AP : Type} [Holdable AP] : Holdable (Message AP) :=
  ⟨fun m => held m.toMsgHead ∧ bodiesHeld m.messages⟩
instance : Holdable Transfer := ⟨fun t => held t.toTransferPerf ∧ held t.body⟩
instance : Holdable Frame := ⟨fun f => match f with
  | .Open v => held v
  | .Begin v => held v
  | .Attach v => held v
  | .Flow v => held v
  | .Transfer v => held v
  | .Disposition v => held v
  | .Detach v => held v
  | .End v => held v
  | .Close v => held v
  | .Empty => True⟩
instance : Holdable AmqpFrame := ⟨fun f => held f.performative⟩
instance : Holdable SaslFrame := ⟨fun f => held f.body⟩

/-- Two messages have the same content: everything the accessors of a message
show is equal, and likewise for the messages it contains. -/
def Message.SameContent {AP : Type} [REq AP] (a b : Message AP) : Prop :=
  req a.message_format b.message_format = true ∧
  req a.header b.header = true ∧
  req a.delivery_annotations b.delivery_annotations = true ∧
  req a.message_annotations b.message_annotations = true ∧
  req a.properties b.properties = true ∧
  req a.application_properties b.application_properties = true ∧
  req a.footer b.footer = true ∧
  req a.data b.data = true ∧
  req a.sequence b.sequence = true ∧
  req a.value b.value = true ∧
  req (clearAll a.messages) (clearAll b.messages) = true

/-- The body carries a message in structured form. -/
def TransferBody.IsMessage : TransferBody → Prop
  | .Data _ => False
  | _ => True

end Amqp
