import Verif.Codec.Decode
/-!
# Input that ends too early

What a caller who reads from a growing buffer expects of a decoder: as long as
only part of a value has arrived the answer is `Incomplete`.
-/
set_option autoImplicit false
namespace Amqp

/-- Whenever the decoder of `α` accepts an input, it answers `Incomplete` to
every beginning of that input which ends inside the value, and it asks for no
more bytes than the input has. -/
def AsksForMore (α : Type) [DecodeF α] : Prop :=
  ∀ (env : Env) (input rest : Bytes) (v : α), decode α env input = .ok (rest, v) →
    ∀ got missing, input = got ++ missing → rest.length < missing.length →
      ∃ n, decode α env got = .err (.incomplete n) ∧ n ≤ input.length

/-- The same, except that the decoder may also panic on an index out of range. -/
def AsksForMoreOrPanics (α : Type) [DecodeF α] : Prop :=
  ∀ (env : Env) (input rest : Bytes) (v : α), decode α env input = .ok (rest, v) →
    ∀ got missing, input = got ++ missing → rest.length < missing.length →
      (∃ n, decode α env got = .err (.incomplete n) ∧ n ≤ input.length) ∨
      decode α env got = .panic .sliceIndex

mutual
/-- Does the value contain a map, at any depth? -/
def Variant.holdsMap : Variant → Bool
  | .map _ => true
  | .list l => holdsMapList l
  | .described _ v => v.holdsMap
  | _ => false
def holdsMapList : List Variant → Bool
  | [] => false
  | v :: t => v.holdsMap || holdsMapList t
end

example : (Variant.list [.null, .described (.ulong 7) (.map [])]).holdsMap = true := by decide
example : (Variant.list [.null, .list []]).holdsMap = false := by decide

end Amqp
