import Verif.Io
/-!
# `src/io.rs`: the receiving buffer of `AmqpCodec::decode`

`Io.lean` models what `decode` does with the bytes of the buffer.  Here its
capacity is modelled as well.  `C59_same` proves that the two agree.
-/
set_option autoImplicit false
namespace Amqp

/-- `BytesMut::split_to` (bytes 0.4): the first `n` bytes are handed over with the
memory they occupy.  Simplification: a buffer of at most 31 bytes is stored inline
by `bytes` and keeps its capacity; this is not modelled. -/
def Buf.splitTo (b : Buf) (n : Nat) : Buf :=
  ⟨b.data.drop n, b.capacity - n, by rw [List.length_drop]; have := b.fits; omega⟩

/-- What one call of `AmqpCodec::decode` leaves, with the capacity of the buffer. -/
structure BufCall (T : Type) where
  state : DecodeState
  src : Buf
  answer : Answer CodecError T

section
variable {T : Type}

/-- The `DecodeState::Frame(size)` branch of `AmqpCodec::decode`, `src/io.rs:64-78`. -/
def frameStepBuf (dec : Dec T) (size : Nat) (src : Buf) : BufCall T :=
  if src.data.length < size then ⟨.frame size, src, .none⟩
  else
    let frameBuf := src.data.take size
    let src := src.splitTo size
    match dec frameBuf with
    | .ok (remainder, frame) =>
      if !remainder.isEmpty then ⟨.frame size, src, .err .unparsedBytesLeft⟩
      else ⟨.frameHeader, src, .some frame⟩
    | .err e => ⟨.frame size, src, .err (.parse e)⟩
    | .panic p => ⟨.frame size, src, .panic p⟩

/-- `AmqpCodec::decode`, `src/io.rs:43-81`, with the buffer growth of lines 57-61.
`slack` is what the allocation policy adds (`Buf.reserve`). -/
def codecDecodeBuf (env : Env) (slack : Nat) (dec : Dec T) (state : DecodeState) (src : Buf) :
    BufCall T :=
  match state with
  | .frameHeader =>
    let len := src.data.length
    if len < headerLen then ⟨.frameHeader, src, .none⟩
    else
      let size := beDec (src.data.take 4)
      if size < 4 ∧ env.overflowChecks then ⟨.frameHeader, src, .panic .overflow⟩
      else
        let n := if size < 4 then 2 ^ 64 + size - 4 else size - 4
        let src := src.splitTo 4
        if len < size then
          let src :=
            if src.remainingMut < max sizeLowWm (size + headerLen) then src.reserve slack sizeHighWm
            else src
          ⟨.frame n, src, .none⟩
        else frameStepBuf dec n src
  | .frame size => frameStepBuf dec size src

end
end Amqp
