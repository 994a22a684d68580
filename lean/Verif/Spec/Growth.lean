import Verif.Codec.Encode
import Verif.Codec.Decode
/-!
# How much longer received values get when they are sent on

What is decoded may have been written in another way than the encoder writes
it: lists without a size, symbols of an array with a length of one byte, fields
that were left out.  The specification of C88 relates the two lengths.
-/
set_option autoImplicit false
namespace Amqp

/-- Whatever decodes to a value of type `α` from `n` bytes is written in at most
`k * n + c` bytes. -/
def GrowsTo (k c : Nat) (α : Type) [Encode α] [DecodeF α] : Prop :=
  ∀ (env : Env) (input rest : Bytes) (v : α), decode α env input = .ok (rest, v) →
    (enc v).length + k * rest.length ≤ k * input.length + c

end Amqp
