import Verif.Spec.TravelFrames
import Verif.Spec.ForwardFrames
/-!
# Values that arrive unaltered or not at all
-/
set_option autoImplicit false
namespace Amqp
open Forwardable (fwd)

/-- A value that was received where the stack had room for `d` levels, and is sent on: wherever
it arrives it arrives as it is, and it arrives wherever there is as much room, exactly if it can
be passed on. -/
def Passing {α : Type} [HasFate α] [Forwardable α] (d : Nat) (v : α) : Prop :=
  (∀ env w, fate env v = .arrives w → w = v ∧ fwd env v) ∧
  (∀ env, d ≤ env.stackDepth → fwd env v → fate env v = .arrives v)

/-- What is said of the values of a type that a decoder has yielded, wherever, when they are
encoded again and decoded, wherever: if that succeeds, it gives the same value and all of its
bytes have been used, and then the value can be passed on; and if the stack of the second
decoder has as much room as that of the first, it succeeds if the value can be passed on. -/
def PassesOn (α : Type) [Encode α] [DecodeF α] [Forwardable α] : Prop :=
  ∀ (env env' : Env) (i r : Bytes) (v : α), decode α env i = .ok (r, v) →
    (enc v).length < 2 ^ 32 → ∀ rest,
    (∀ r' w, decode α env' (enc v ++ rest) = .ok (r', w) → w = v ∧ r' = rest ∧ fwd env' v) ∧
    (env.stackDepth ≤ env'.stackDepth → fwd env' v →
      decode α env' (enc v ++ rest) = .ok (rest, v))

/-- A message with an empty data section if it has no body. -/
def InMessage.withBody (m : InMessage) : InMessage :=
  if m.data = [] ∧ m.value = none then { m with data := [⟨[]⟩] } else m

end Amqp
