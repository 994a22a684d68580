import Verif.Spec.Codec
import Verif.Spec.Stream
/-!
# Frames and protocol headers on the wire

What AMQP 1.0 part 2 (2.2, 2.3) says about protocol headers and frames, and
what users of the codecs may do with them.
-/
set_option autoImplicit false
namespace Amqp

/-- A frame after its four length bytes: data offset, type, two bytes that
depend on the type (the channel), the extended header, the body.  The data
offset counts four-byte words from the start of the frame. -/
structure FrameLayout (input : Bytes) (type : UInt8) (channel : UInt16) (body : Bytes) : Prop where
  parts : ∃ doff c0 c1 ext, input = doff :: type :: c0 :: c1 :: (ext ++ body) ∧
    8 + ext.length = 4 * doff.toNat ∧ channel.toNat = 256 * c0.toNat + c1.toNat

/-- The content of the performative of a frame round-trips; of a transfer, that
of the performative proper, whatever its payload. -/
def Frame.ContentRoundTrips (env : Env) : Frame → Prop
  | .Open v => RoundTrips env v
  | .Begin v => RoundTrips env v
  | .Attach v => RoundTrips env v
  | .Flow v => RoundTrips env v
  | .Transfer v => RoundTrips env v.toTransferPerf
  | .Disposition v => RoundTrips env v
  | .Detach v => RoundTrips env v
  | .End v => RoundTrips env v
  | .Close v => RoundTrips env v
  | .Empty => True

/-- The payload of a transfer, if the frame is one, is absent or is given as
bytes, of which there is at least one. -/
def Frame.PlainPayload (f : Frame) : Prop :=
  ∀ t b, f = .Transfer t → t.body = some b → ∃ d : Binary, b = .Data d ∧ d.data ≠ []

/-- The eight bytes of a protocol header: `"AMQP"`, protocol id, version 1.0.0. -/
def ProtocolId.header (p : ProtocolId) : Bytes :=
  [0x41, 0x4d, 0x51, 0x50, match p with | .Amqp => 0 | .AmqpTls => 2 | .AmqpSasl => 3, 1, 0, 0]

/-! ## Schedules -/

/-- What can happen to a codec and its buffer: bytes arrive, or `decode` is called. -/
inductive Event where
  | arrive (bytes : Bytes)
  | poll

/-- The bytes that arrive. -/
def Event.bytes : Event → Bytes
  | .arrive b => b
  | .poll => []

/-- A codec in use: the items it has returned so far, its state, its buffer, and
what the last call answered. -/
structure Session (T : Type) where
  items : List T
  call : Call CodecError T

/-- Has `decode` failed? -/
def Session.failed {T : Type} (s : Session T) : Prop :=
  match s.call.answer with
  | .err _ => True
  | .panic _ => True
  | _ => False

/-- What a user has after a call. -/
def Session.record {T : Type} (items : List T) (c : Call CodecError T) : Session T :=
  match c.answer with
  | .some a => ⟨items ++ [a], c⟩
  | _ => ⟨items, c⟩

/-- One event.  A codec that has failed is not called again. -/
def Session.step {T : Type} (env : Env) (dec : Dec T) (s : Session T) : Event → Session T
  | .arrive b => ⟨s.items, ⟨s.call.state, s.call.src ++ b, s.call.answer⟩⟩
  | .poll =>
    match s.call.answer with
    | .err _ => s
    | .panic _ => s
    | _ => .record s.items (codecDecode env dec s.call.state s.call.src)

/-- A codec that has not been used. -/
def Session.start {T : Type} : Session T := ⟨[], ⟨.frameHeader, [], .none⟩⟩

/-- Any sequence of events. -/
def Session.run {T : Type} (env : Env) (dec : Dec T) (s : Session T) (es : List Event) : Session T :=
  es.foldl (Session.step env dec) s

end Amqp
