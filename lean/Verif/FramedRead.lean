import Verif.Io
/-!
# Reading a stream to its end

The codecs implement `Decoder` of `tokio_io::codec` (`src/io.rs:4`, `tokio-io = "0.1"` in
`Cargo.toml:15`).  Its method `decode_eof` has a default body, which both codecs inherit
(`src/io.rs:39-81`, `src/io.rs:107-131` do not define it); it is modelled here, together with
the `FramedRead` of that crate that calls it.  The sources of `tokio-io` are not in the
repository.  Errors of the underlying reader are left out; so are capacities of the buffer
(`IoBuf`).
-/
set_option autoImplicit false
namespace Amqp

/-- How the reading of a stream ends: `Ok(Ready(None))`, the error that `decode_eof` makes
("bytes remaining on stream", converted by `src/errors.rs:47-51`), an error of the codec, or
a panic. -/
inductive Ending (ε : Type) where
  | done
  | bytesRemaining
  | failed (e : ε)
  | panicked (p : Panic)
deriving DecidableEq

/-- What one step of a reader yields: an item, an end, or neither. -/
inductive Polled (ε T : Type) where
  | item (a : T)
  | ended (e : Ending ε)
  | nothing

section
variable {ε T S : Type}

/-- `Decoder::decode_eof` (tokio-io 0.1, default), given what `decode` did: its state, the
buffer it left and its answer. -/
def decodeEof (src : Bytes) : Answer ε T → Polled ε T
  | .some a => .item a
  | .none => if src.isEmpty then .ended .done else .ended .bytesRemaining
  | .err e => .ended (.failed e)
  | .panic p => .ended (.panicked p)

/-- What the underlying reader does when it is asked for bytes: deliver some (none: the end
of the stream), or say that there are none yet. -/
inductive Read where
  | bytes (b : Bytes)
  | wouldBlock

/-- `FramedRead` (tokio-io 0.1) with a codec in state `state`. -/
structure Reader (S : Type) where
  state : S
  buffer : Bytes
  eof : Bool
  readable : Bool

/-- `FramedRead::new`. -/
def Reader.new (state : S) : Reader S := ⟨state, [], false, false⟩

/-- The part of the loop of `FramedRead::poll` before the read: call the codec if there is
something it has not seen (`nothing` is to go on and read). -/
def Reader.now (decode : S → Bytes → S × Bytes × Answer ε T) (r : Reader S) :
    Reader S × Polled ε T :=
  let q := decode r.state r.buffer
  if r.readable then
    if r.eof then (⟨q.1, q.2.1, true, true⟩, decodeEof q.2.1 q.2.2)
    else match q.2.2 with
      | .some a => (⟨q.1, q.2.1, false, true⟩, .item a)
      | .none => (⟨q.1, q.2.1, false, false⟩, .nothing)
      | .err e => (⟨q.1, q.2.1, false, true⟩, .ended (.failed e))
      | .panic p => (⟨q.1, q.2.1, false, true⟩, .ended (.panicked p))
  else (r, .nothing)

/-- One call of `FramedRead::poll`: the reader, the reads not yet made, and what the call
returns (`nothing` is `Ok(NotReady)`).  `decode` is that of the codec. -/
def Reader.poll (decode : S → Bytes → S × Bytes × Answer ε T) :
    List Read → Reader S → Reader S × List Read × Polled ε T
  | reads, r =>
    match r.now decode, reads with
    | (r', .nothing), [] => (r', [], .nothing)
    | (r', .nothing), .wouldBlock :: t => (r', t, .nothing)
    | (r', .nothing), .bytes b :: t =>
      Reader.poll decode t ⟨r'.state, r'.buffer ++ b, r'.eof || b.isEmpty, true⟩
    | (r', y), reads => (r', reads, y)

/-- Polling at most `n` times, until the reading ends: the items, and the end if it came. -/
def Reader.run (decode : S → Bytes → S × Bytes × Answer ε T) :
    Nat → List Read → Reader S → List T × Option (Ending ε)
  | 0, _, _ => ([], none)
  | n + 1, reads, r =>
    match r.poll decode reads with
    | (r', reads', .item a) =>
      let q := Reader.run decode n reads' r'
      (a :: q.1, q.2)
    | (_, _, .ended e) => ([], some e)
    | (r', reads', .nothing) => Reader.run decode n reads' r'
end

/-- `AmqpCodec::decode`, `src/io.rs:43-81`, as a `FramedRead` sees it. -/
def frameCodec {T : Type} (env : Env) (dec : Dec T) (st : DecodeState) (src : Bytes) :
    DecodeState × Bytes × Answer CodecError T :=
  let r := codecDecode env dec st src
  (r.state, r.src, r.answer)

/-- `ProtocolIdCodec::decode`, `src/io.rs:111-131`, as a `FramedRead` sees it. -/
def headerCodec (_ : Unit) (src : Bytes) : Unit × Bytes × Answer ProtocolIdError ProtocolId :=
  ((), protocolIdDecode src)

end Amqp
