import Verif.Protocol.Frame
/-!
# Frames: `src/framing.rs`, `src/codec/decode.rs:463-499`, `src/codec/encode.rs:718-748`
-/
namespace Amqp

/-- `HEADER_LEN`, `src/framing.rs:4`. -/
def headerLen : Nat := 8
/-- `FRAME_TYPE_AMQP`, `src/framing.rs:7`. -/
def frameTypeAmqp : UInt8 := 0
/-- `FRAME_TYPE_SASL`, `src/framing.rs:8`. -/
def frameTypeSasl : UInt8 := 1

/-- `AmqpFrame`, `src/framing.rs:11-15`. -/
structure AmqpFrame where
  channel_id : UInt16
  performative : Frame

/-- `SaslFrame`, `src/framing.rs:40-43`. -/
structure SaslFrame where
  body : SaslFrameBody

/-- `decode_frame_header`, `src/codec/decode.rs:479-499`.  The first
`decode_check_len!` only looks; the frame header is dropped at the end. -/
def decodeFrameHeader (expected : UInt8) : Dec UInt16 := fun input =>
  if input.length < 4 then .err (.incomplete 4)
  else
    let doff := (input.getD 0 0).toNat
    let frameType := input.getD 1 0
    if frameType ≠ expected then .err (.unexpectedFrameType frameType)
    else
      let channelId := UInt16.ofNat (beDec ((input.drop 2).take 2))
      let doff := doff * 4
      if doff < headerLen then .err .invalidSize
      else
        let extHeaderLen := doff - headerLen
        if input.length < extHeaderLen + 4 then .err (.incomplete (extHeaderLen + 4))
        else .ok (input.drop (extHeaderLen + 4), channelId)

/-- `AmqpFrame::decode`, `src/codec/decode.rs:463-469`. -/
def AmqpFrame.decode (env : Env) : Dec AmqpFrame := do
  let channelId ← decodeFrameHeader frameTypeAmqp
  let performative ← Frame.decode env
  pure ⟨channelId, performative⟩

/-- `SaslFrame::decode`, `src/codec/decode.rs:471-477`. -/
def SaslFrame.decode (env : Env) : Dec SaslFrame := do
  let _ ← decodeFrameHeader frameTypeSasl
  let frame ← Amqp.decode SaslFrameBody env
  pure ⟨frame⟩

/-- The fixed frame header written by both encoders, `src/codec/encode.rs:725-729`
and `src/codec/encode.rs:740-744`: `HEADER_LEN / WORD_LEN = 2`; the size is cast
to `u32` (so reduced modulo 2^32). -/
def frameHeader (size : Nat) (type : UInt8) (channel : UInt16) : Bytes :=
  beEnc 4 size ++ [2, type] ++ beEnc 2 channel.toNat

/-- `src/codec/encode.rs:720-733`. -/
instance : Encode AmqpFrame where
  size f := headerLen + size f.performative
  enc f := frameHeader (headerLen + size f.performative) frameTypeAmqp f.channel_id ++
    enc f.performative

/-- `src/codec/encode.rs:735-748`. -/
instance : Encode SaslFrame where
  size f := headerLen + size f.body
  enc f := frameHeader (headerLen + size f.body) frameTypeSasl 0 ++ enc f.body

end Amqp
