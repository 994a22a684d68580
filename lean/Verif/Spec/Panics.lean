import Verif.Spec.Types
/-!
# What can make a decoder panic

The features of an input that a panic can be blamed on.
-/
set_option autoImplicit false
namespace Amqp

/-- The wire form of an instant in milliseconds that `chrono` cannot represent. -/
def OutOfRange (m : Int64) : Prop :=
  m.toInt ≤ -8334632851200000 ∨ 8210298412800000 ≤ m.toInt

/-- A map code. -/
def isMapCode (c : UInt8) : Bool := c == 0xc1 || c == 0xd1

/-- The features of the input `i` that the panic `p` of a decoder can be blamed
on; `checks` tells whether overflow is checked, `depth` is the stack budget.

* overflow: a list, map or array with a size too small to include its count;
* slice index: a map or an array;
* unimplemented: at least two maps (one of them in a key of the other);
* timestamp: an instant that `chrono` cannot represent;
* stack overflow: more than three bytes for each level of the budget. -/
def PanicCause (checks : Bool) (depth : Nat) (i : Bytes) : Panic → Prop
  | .overflow => checks = true ∧
      ((∃ c, (c = 0xc0 ∨ c = 0xc1 ∨ c = 0xe0) ∧ [c, 0] <:+: i) ∨
       (∃ c n, (c = 0xd0 ∨ c = 0xd1 ∨ c = 0xf0) ∧ n < 4 ∧ c :: beEnc 4 n <:+: i))
  | .sliceIndex => ∃ c, (c = 0xc1 ∨ c = 0xd1 ∨ c = 0xe0 ∨ c = 0xf0) ∧ c ∈ i
  | .unimplemented => 2 ≤ i.countP isMapCode
  | .timestampRange => ∃ m, OutOfRange m ∧ timestampWire m <:+: i
  | .stackOverflow => 3 * depth < i.length
  | .bufferFull => False

/-- An input without any such feature. -/
def Harmless (env : Env) (i : Bytes) : Prop :=
  ∀ p, ¬ PanicCause env.overflowChecks env.stackDepth i p

end Amqp
