import Verif.Spec.Codec
import Verif.Spec.Variant
import Verif.Protocol.Conditions
import Verif.Protocol.Frame
/-!
# Passing on what was received

What an intermediary that decodes and encodes again can pass on.  The predicate
leaves out exactly the contents that the encoder writes in a form the decoder
does not accept: lists and descriptors 0 inside variants and, in builds with
overflow checks, arrays whose items take 254 bytes.
-/
set_option autoImplicit false
namespace Amqp

/-- Which values can be passed on. -/
class Forwardable (α : Type) where
  fwd : Env → α → Prop

/-- A value of this type can always be passed on. -/
@[reducible] def alwaysForwardable (α : Type) : Forwardable α := ⟨fun _ _ => True⟩

instance : Forwardable Bool := alwaysForwardable _
instance : Forwardable UInt8 := alwaysForwardable _
instance : Forwardable UInt16 := alwaysForwardable _
instance : Forwardable UInt32 := alwaysForwardable _
instance : Forwardable UInt64 := alwaysForwardable _
instance : Forwardable DateTime := alwaysForwardable _
instance : Forwardable Binary := alwaysForwardable _
instance : Forwardable Symbol := alwaysForwardable _
instance : Forwardable RStr := alwaysForwardable _
instance : Forwardable MessageId := alwaysForwardable _
instance : Forwardable ErrorCondition := alwaysForwardable _
instance : Forwardable DistributionMode := alwaysForwardable _

/-- No list and no descriptor 0 inside. -/
instance : Forwardable Variant := ⟨fun _ v => v.Plain⟩

/-- Never. -/
instance : Forwardable VList := ⟨fun _ _ => False⟩

instance {α : Type} [Forwardable α] : Forwardable (Option α) :=
  ⟨fun env o => ∀ a, o = some a → Forwardable.fwd env a⟩

instance {K V : Type} [Forwardable K] [Forwardable V] : Forwardable (HMap K V) :=
  ⟨fun env m => ∀ e ∈ m.entries, Forwardable.fwd env e.1 ∧ Forwardable.fwd env e.2⟩

/-- The bytes that symbols take as items of an array: four bytes of length and
the text. -/
def itemBytes (l : List Symbol) : Nat := (l.map fun s => 4 + s.str.bytes.length).sum

/-- A single symbol, or an array whose items do not take 254 bytes, unless the
build wraps on overflow. -/
instance : Forwardable (Multiple Symbol) :=
  ⟨fun env m => env.overflowChecks = true → m.items.length ≠ 1 → itemBytes m.items ≠ 254⟩

/-- Whatever the decoder of the type yields, if it can be passed on and takes less
than 4 GiB, is decoded again from its own encoding. -/
def Forwards (α : Type) [Encode α] [DecodeF α] [Forwardable α] : Prop :=
  ∀ (env : Env) (input rest : Bytes) (v : α), decode α env input = .ok (rest, v) →
    Forwardable.fwd env v → (enc v).length < 2 ^ 32 → RoundTrips env v

end Amqp
