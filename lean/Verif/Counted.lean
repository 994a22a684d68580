import Verif.Protocol.Counted
import Verif.Io
/-!
# Counting decoders of messages, frames and the codec
-/
set_option autoImplicit false
namespace Amqp

namespace Message
variable {AP : Type}

/-- The `loop` of `InMessage::decode`, `src/message/inmessage.rs:160-199`, and
`OutMessage::decode`, `src/message/outmessage.rs:155-194`. -/
def loopC (p : Price) (env : Env) (conv : StringVariantMap → AP) : Nat → Message AP → Cost (Message AP)
  | 0, _ => Cost.of (Dec.abort .stackOverflow)
  | fuel + 1, m => fun input =>
    match decodeC Section p env input with
    | (.ok (buf, sec), n) =>
      if buf.isEmpty then (.ok (input, m.addSection conv sec), n)
      else ((loopC p env conv fuel (m.addSection conv sec) buf).1,
        n + (loopC p env conv fuel (m.addSection conv sec) buf).2)
    | (.err e, n) => (.err e, n)
    | (.panic q, n) => (.panic q, n)

/-- `decode` of a message. -/
def decodeWithC (p : Price) (env : Env) (conv : StringVariantMap → AP) : Cost (Message AP) :=
  fun input => loopC p env conv (input.length + 1) empty input

end Message

/-- `InMessage::decode`, `src/message/inmessage.rs:156-201`. -/
def InMessage.decodeC (p : Price) (env : Env) : Cost InMessage := Message.decodeWithC p env id

/-- `OutMessage::decode`, `src/message/outmessage.rs:151-196`. -/
def OutMessage.decodeC (p : Price) (env : Env) (order : StringVariantMap → List (Str × Variant)) :
    Cost OutMessage := Message.decodeWithC p env fun m => ⟨order m⟩

/-- `AmqpFrame::decode`, `src/codec/decode.rs:463-469`. -/
def AmqpFrame.decodeC (p : Price) (env : Env) : Cost AmqpFrame := do
  let channelId ← Cost.of (decodeFrameHeader frameTypeAmqp)
  let performative ← Frame.decodeC p env
  pure ⟨channelId, performative⟩

/-- `SaslFrame::decode`, `src/codec/decode.rs:471-477`. -/
def SaslFrame.decodeC (p : Price) (env : Env) : Cost SaslFrame := do
  let _ ← Cost.of (decodeFrameHeader frameTypeSasl)
  let frame ← Amqp.decodeC SaslFrameBody p env
  pure ⟨frame⟩

section
variable {T : Type}

/-- The `DecodeState::Frame(size)` branch of `AmqpCodec::decode`, `src/io.rs:64-78`. -/
def frameStepC (dec : Cost T) (size : Nat) (src : Bytes) : Call CodecError T × Nat :=
  if src.length < size then (⟨.frame size, src, .none⟩, 0)
  else
    let frameBuf := src.take size
    let src := src.drop size
    match dec frameBuf with
    | (.ok (remainder, frame), n) =>
      if !remainder.isEmpty then (⟨.frame size, src, .err .unparsedBytesLeft⟩, n)
      else (⟨.frameHeader, src, .some frame⟩, n)
    | (.err e, n) => (⟨.frame size, src, .err (.parse e)⟩, n)
    | (.panic p, n) => (⟨.frame size, src, .panic p⟩, n)

/-- `AmqpCodec::decode`, `src/io.rs:43-81`, see `codecDecode`. -/
def codecDecodeC (env : Env) (dec : Cost T) (state : DecodeState) (src : Bytes) :
    Call CodecError T × Nat :=
  match state with
  | .frameHeader =>
    let len := src.length
    if len < headerLen then (⟨.frameHeader, src, .none⟩, 0)
    else
      let size := beDec (src.take 4)
      if size < 4 ∧ env.overflowChecks then (⟨.frameHeader, src, .panic .overflow⟩, 0)
      else
        let n := if size < 4 then 2 ^ 64 + size - 4 else size - 4
        let src := src.drop 4
        if len < size then (⟨.frame n, src, .none⟩, 0) else frameStepC dec n src
  | .frame size => frameStepC dec size src

end

end Amqp
