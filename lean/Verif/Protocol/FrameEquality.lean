import Verif.Protocol.Equality
/-!
# Equality of messages and frames: `derive(PartialEq)`
-/
set_option autoImplicit false
namespace Amqp

/-- Every field of `InMessage`/`OutMessage` but `body.messages`:
`src/message/inmessage.rs:17-28`, `src/message/outmessage.rs:13-23`,
`src/message/body.rs:9-15`.  The derived `PartialEq` includes the private field
`size: Cell<usize>`, and `Cell` compares its contents. -/
def MsgHead.heq {AP : Type} [REq AP] (a b : MsgHead AP) : Bool :=
  req a.message_format b.message_format &&
  req a.header b.header &&
  req a.delivery_annotations b.delivery_annotations &&
  req a.message_annotations b.message_annotations &&
  req a.properties b.properties &&
  req a.application_properties b.application_properties &&
  req a.footer b.footer &&
  req a.data b.data &&
  req a.sequence b.sequence &&
  req a.value b.value &&
  a.cache == b.cache

mutual
/-- `TransferBody`, `src/protocol/mod.rs:213`. -/
def TransferBody.teq : TransferBody → TransferBody → Bool
  | .Data a, .Data b => req a b
  | .MessageIn a as, .MessageIn b bs => a.heq b && teqList as bs
  | .MessageOut a as, .MessageOut b bs => a.heq b && teqList as bs
  | _, _ => false
/-- `Vec<TransferBody> ==`. -/
def teqList : List TransferBody → List TransferBody → Bool
  | [], [] => true
  | a :: as, b :: bs => a.teq b && teqList as bs
  | _, _ => false
end

instance : REq TransferBody := ⟨TransferBody.teq⟩

/-- `InMessage`, `src/message/inmessage.rs:17`; `OutMessage`,
`src/message/outmessage.rs:13`. -/
instance {AP : Type} [REq AP] : REq (Message AP) :=
  ⟨fun a b => a.toMsgHead.heq b.toMsgHead && teqList a.messages b.messages⟩

/-- `Transfer`, `src/protocol/definitions.rs:2188-2202`. -/
instance : REq Transfer :=
  ⟨fun a b => req a.toTransferPerf b.toTransferPerf && req a.body b.body⟩

/-- `Frame`, `src/protocol/definitions.rs:9-21`. -/
instance : REq Frame where
  req
    | .Open a, .Open b => req a b
    | .Begin a, .Begin b => req a b
    | .Attach a, .Attach b => req a b
    | .Flow a, .Flow b => req a b
    | .Transfer a, .Transfer b => req a b
    | .Disposition a, .Disposition b => req a b
    | .Detach a, .Detach b => req a b
    | .End a, .End b => req a b
    | .Close a, .Close b => req a b
    | .Empty, .Empty => true
    | _, _ => false

/-- `AmqpFrame`, `src/framing.rs:11-15`. -/
instance : REq AmqpFrame :=
  ⟨fun a b => req a.channel_id b.channel_id && req a.performative b.performative⟩

/-- `SaslFrame`, `src/framing.rs:41-44`. -/
instance : REq SaslFrame := ⟨fun a b => req a.body b.body⟩

end Amqp
