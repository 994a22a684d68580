import Verif.IoBuf
import Verif.Spec.Frames
/-!
# A receiving buffer over time

Specification vocabulary for C59: what a transport may do with the buffer
between two calls of `AmqpCodec::decode`.  Nothing here models code of the
repository.
-/
set_option autoImplicit false
namespace Amqp

/-- A codec, its buffer, and whether it is still in use. -/
structure Receiver where
  state : DecodeState
  src : Buf
  live : Bool

/-- Bytes arrive: the transport first makes room for them if there is none.
`tokio_io` reads into the free part of the buffer, after `reserve(1)`. -/
def Receiver.arrive (slack : Nat) (r : Receiver) (b : Bytes) : Receiver :=
  ⟨r.state, ⟨r.src.data ++ b, (r.src.reserve slack b.length).capacity, by
    unfold Buf.reserve
    have := r.src.fits
    split
    · rename_i h; simp only [Buf.remainingMut] at h; rw [List.length_append]; omega
    · simp only [List.length_append]; omega⟩, r.live⟩

/-- One event.  A codec that has failed is not called again. -/
def Receiver.step {T : Type} (env : Env) (slack : Nat) (dec : Dec T) (r : Receiver) :
    Event → Receiver
  | .arrive b => r.arrive slack b
  | .poll =>
    if r.live then
      let c := codecDecodeBuf env slack dec r.state r.src
      ⟨c.state, c.src, match c.answer with | .err _ => false | .panic _ => false | _ => true⟩
    else r

/-- Any sequence of events. -/
def Receiver.run {T : Type} (env : Env) (slack : Nat) (dec : Dec T) (r : Receiver)
    (es : List Event) : Receiver :=
  es.foldl (Receiver.step env slack dec) r

end Amqp
