import Verif.Protocol.Writes
/-!
# `src/io.rs`: the tokio codecs
-/
namespace Amqp

/-- `AmqpCodecError`, `src/errors.rs:28-35` (`Io` is never produced by the
modelled functions). -/
inductive CodecError where
  | parse (e : ParseError)
  | unparsedBytesLeft
deriving DecidableEq

/-- What one call of `AmqpCodec::decode` returns: `Ok(None)`, `Ok(Some(_))`,
`Err(_)`, or a panic. -/
inductive Answer (ε T : Type) where
  | none
  | some (item : T)
  | err (e : ε)
  | panic (p : Panic)

/-- `DecodeState`, `src/io.rs:19-23`. -/
inductive DecodeState where
  | frameHeader
  | frame (size : Nat)
deriving DecidableEq

/-- The codec's state, the caller's buffer and the answer after one call. -/
structure Call (ε T : Type) where
  state : DecodeState
  src : Bytes
  answer : Answer ε T

section
variable {T : Type}

/-- The `DecodeState::Frame(size)` branch of `AmqpCodec::decode`, `src/io.rs:64-78`. -/
def frameStep (dec : Dec T) (size : Nat) (src : Bytes) : Call CodecError T :=
  if src.length < size then ⟨.frame size, src, .none⟩
  else
    let frameBuf := src.take size
    let src := src.drop size
    match dec frameBuf with
    | .ok (remainder, frame) =>
      if !remainder.isEmpty then ⟨.frame size, src, .err .unparsedBytesLeft⟩
      else ⟨.frameHeader, src, .some frame⟩
    | .err e => ⟨.frame size, src, .err (.parse e)⟩
    | .panic p => ⟨.frame size, src, .panic p⟩

/-- `AmqpCodec::decode`, `src/io.rs:43-81`, for a codec whose item decoder is
`dec`.  The loop runs its header branch at most once, so it is unrolled.
`size - 4` is a `usize` (64 bit) subtraction.  `reserve` has no observable effect
on the bytes held by the buffer and is left out. -/
def codecDecode (env : Env) (dec : Dec T) (state : DecodeState) (src : Bytes) : Call CodecError T :=
  match state with
  | .frameHeader =>
    let len := src.length
    if len < headerLen then ⟨.frameHeader, src, .none⟩
    else
      let size := beDec (src.take 4)
      if size < 4 ∧ env.overflowChecks then ⟨.frameHeader, src, .panic .overflow⟩
      else
        let n := if size < 4 then 2 ^ 64 + size - 4 else size - 4
        let src := src.drop 4
        if len < size then ⟨.frame n, src, .none⟩ else frameStep dec n src
  | .frame size => frameStep dec size src

end

/-! ## Encoding -/

/-- `SIZE_LOW_WM`, `src/io.rs:11`. -/
def sizeLowWm : Nat := 4096
/-- `SIZE_HIGH_WM`, `src/io.rs:12`. -/
def sizeHighWm : Nat := 32768

/-- `AmqpCodec::encode`, `src/io.rs:83-98`. -/
def codecEncode {T : Type} [Encode T] [EncodeW T] (slack : Growth) (item : T) (dst : Buf) :
    Res CodecError Buf :=
  let need := max sizeLowWm (size item)
  let dst := if dst.remainingMut < need then
    dst.reserve (slack dst (max need sizeHighWm)) (max need sizeHighWm) else dst
  encodeInto slack item dst

/-! ## Protocol headers -/

/-- `ProtocolId`, `src/protocol/mod.rs:32-37`. -/
inductive ProtocolId where
  | Amqp | AmqpTls | AmqpSasl
deriving DecidableEq

/-- `item as u8`, discriminants of `src/protocol/mod.rs:32-37`. -/
def ProtocolId.toU8 : ProtocolId → UInt8
  | .Amqp => 0
  | .AmqpTls => 2
  | .AmqpSasl => 3

/-- The `ProtocolIdError`s the codec produces, `src/errors.rs:55-67`. -/
inductive ProtocolIdError where
  | InvalidHeader | Incompatible | Unknown
deriving DecidableEq

/-- `PROTOCOL_HEADER_PREFIX`, `src/io.rs:101`. -/
def protocolHeaderPrefix : Bytes := [0x41, 0x4d, 0x51, 0x50]
/-- `PROTOCOL_VERSION`, `src/io.rs:102`. -/
def protocolVersion : Bytes := [1, 0, 0]

/-- `ProtocolIdCodec::decode`, `src/io.rs:111-131`: the buffer afterwards and
the answer. -/
def protocolIdDecode (src : Bytes) : Bytes × Answer ProtocolIdError ProtocolId :=
  if src.length < 8 then (src, .none)
  else
    let hdr := src.take 8
    let src := src.drop 8
    (src,
      if hdr.take 4 ≠ protocolHeaderPrefix then .err .InvalidHeader
      else if hdr.drop 5 ≠ protocolVersion then .err .Incompatible
      else
        let id := hdr.getD 4 0
        if id = 0 then .some .Amqp
        else if id = 2 then .some .AmqpTls
        else if id = 3 then .some .AmqpSasl
        else .err .Unknown)

/-- `ProtocolIdCodec::encode`, `src/io.rs:138-144`. -/
def protocolIdEncode (slack : Growth) (item : ProtocolId) (dst : Buf) : Res ProtocolIdError Buf :=
  (dst.reserve (slack dst 8) 8).putSlice (protocolHeaderPrefix ++ [item.toU8] ++ protocolVersion)

end Amqp
