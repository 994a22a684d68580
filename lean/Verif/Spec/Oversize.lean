import Verif.Spec.Variant
import Verif.Codec.Decode
/-!
# Values too large for their length fields

Lengths and counts are written into 32-bit fields, without a check that they fit.
-/
set_option autoImplicit false
namespace Amqp

/-- Content of `n` bytes whose length field, which counts four bytes more, is read
back as `n`: either it fits, or the addition and the subtraction of 4 both wrap
around, which needs a build without overflow checks. -/
def CompoundRoom (env : Env) (n : Nat) : Prop :=
  n + 4 < 2 ^ 32 ∨ (env.overflowChecks = false ∧ n < 2 ^ 32)

def Descriptor.Within : Descriptor → Prop
  | .ulong _ => True
  | .symbol s => s.str.bytes.length < 2 ^ 32

mutual
/-- All texts, binaries and maps inside fit their length fields. -/
def Variant.Within (env : Env) : Variant → Prop
  | .binary b => b.data.length < 2 ^ 32
  | .string s => s.bytes.length < 2 ^ 32
  | .symbol s => s.str.bytes.length < 2 ^ 32
  | .staticSymbol s => s.bytes.length < 2 ^ 32
  | .map m => CompoundRoom env (m.flatMap fun e => enc e.1 ++ enc e.2).length ∧ withinMap env m
  | .list l => withinList env l
  | .described d v => d.Within ∧ v.Within env
  | _ => True
def withinList (env : Env) : List Variant → Prop
  | [] => True
  | v :: t => v.Within env ∧ withinList env t
def withinMap (env : Env) : List (Variant × Variant) → Prop
  | [] => True
  | (k, v) :: t => (k.Within env ∧ v.Within env) ∧ withinMap env t
end

end Amqp
