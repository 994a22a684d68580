import Verif.Codec.Reserve
/-!
# The size of values in memory

The number of nodes of a value plus the bytes of its texts and binaries, and what
it means for decoded values and for reservations to be covered by the input.
-/
set_option autoImplicit false
namespace Amqp

def Descriptor.weight : Descriptor → Nat
  | .ulong _ => 1
  | .symbol s => 1 + s.str.bytes.length

mutual
def Variant.weight : Variant → Nat
  | .binary x => 1 + x.data.length
  | .string s => 1 + s.bytes.length
  | .symbol s => 1 + s.str.bytes.length
  | .staticSymbol s => 1 + s.bytes.length
  | .list l => 1 + weightList l
  | .map m => 1 + weightMap m
  | .described d v => 1 + d.weight + v.weight
  | _ => 1
def weightList : List Variant → Nat
  | [] => 0
  | v :: t => v.weight + weightList t
def weightMap : List (Variant × Variant) → Nat
  | [] => 0
  | (k, v) :: t => k.weight + v.weight + weightMap t
end

/-- A decoded value weighs at most as much as the input it was read from is long. -/
def Fits {α : Type} [DecodeF α] (w : α → Nat) : Prop :=
  ∀ (env : Env) (i r : Bytes) (a : α), decode α env i = .ok (r, a) → w a + r.length ≤ i.length

/-- The same for the headerless items of arrays. -/
def ItemFits {α : Type} [DecodeF α] (w : α → Nat) : Prop :=
  ∀ (env : Env) (c : UInt8) (i r : Bytes) (a : α), decF env c i = .ok (r, a) →
    w a + r.length ≤ i.length

/-- The summed weight of a collection. -/
def total {α : Type} (w : α → Nat) (l : List α) : Nat := (l.map w).sum

/-- Whatever the outcome, room is requested for at most `m` elements per byte of input. -/
def ReservesAtMost {α : Type} (m : Nat) (c : Cost α) : Prop :=
  ∀ i, (c i).2 ≤ m * i.length

/-- If decoding succeeds, room was requested for fewer elements than bytes were read. -/
def ReservesUsed {α : Type} (c : Cost α) : Prop :=
  ∀ i r a, (c i).1 = .ok (r, a) → (c i).2 + r.length < i.length

end Amqp
