import Verif.IoBuf
/-!
# Sending frames

`AmqpCodec` implements `Encoder` of `tokio_io::codec` (`src/io.rs:83-98`); a `FramedWrite` of
that crate (`tokio-io = "0.1"`, `Cargo.toml:15`) calls it.  It is modelled here.  The sources
of `tokio-io` are not in the repository.
-/
set_option autoImplicit false
namespace Amqp

/-- What the underlying writer answers: it takes some of the bytes it is offered (all of them
if it would take more), is flushed, is not ready, or fails. -/
inductive Take where
  | bytes (n : Nat)
  | wouldBlock
  | fails

/-- `FramedWrite` (tokio-io 0.1): its buffer, and the bytes the writer has taken. -/
structure Sink where
  buffer : Buf
  written : Bytes

/-- `FramedWrite::new`: a buffer of 8 KiB. -/
def Sink.new : Sink := ⟨⟨[], 8192, by decide⟩, []⟩

/-- What `poll_complete` returns. -/
inductive Flushed where
  | ready
  | notReady
  | failed
deriving DecidableEq

/-- `FramedWrite::poll_complete` (tokio-io 0.1): write until the buffer is empty, then flush.
A writer that takes no bytes is an error (`WriteZero`).  Answers of the writer are taken from
the list; when it is empty the writer is not ready. -/
def Sink.flush : List Take → Sink → Sink × List Take × Flushed
  | [], s => (s, [], .notReady)
  | .wouldBlock :: t, s => (s, t, .notReady)
  | .fails :: t, s => (s, t, .failed)
  | .bytes n :: t, s =>
    if s.buffer.data.isEmpty then (s, t, .ready)
    else if n = 0 then (s, t, .failed)
    else Sink.flush t ⟨s.buffer.splitTo (min n s.buffer.data.length),
      s.written ++ s.buffer.data.take n⟩

/-- What `start_send` returns: the item was accepted, or refused (`NotReady(item)`), or the
writer failed. -/
inductive Sent where
  | accepted
  | refused
  | failed
deriving DecidableEq

/-- `FramedWrite::start_send` (tokio-io 0.1): with 8 KiB or more in the buffer it is flushed
first; if it still holds as much, the item is refused. -/
def Sink.send {T : Type} [Encode T] [EncodeW T] (grow : Growth) (item : T) (ws : List Take) (s : Sink) :
    Res CodecError (Sink × List Take × Sent) :=
  let encode (s : Sink) (ws : List Take) : Res CodecError (Sink × List Take × Sent) :=
    match codecEncode grow item s.buffer with
    | .ok b => .ok (⟨b, s.written⟩, ws, .accepted)
    | .err e => .err e
    | .panic p => .panic p
  if 8192 ≤ s.buffer.data.length then
    match s.flush ws with
    | (s, ws, .failed) => .ok (s, ws, .failed)
    | (s, ws, _) => if 8192 ≤ s.buffer.data.length then .ok (s, ws, .refused) else encode s ws
  else encode s ws

end Amqp
