import Verif.Counted
import Verif.Spec.Frames
/-!
# Work and memory of decoding, as limits
-/
set_option autoImplicit false
namespace Amqp

/-- The outcome of a counting decoder. -/
def resultOf {α : Type} (c : Cost α) : Dec α := fun i => (c i).1
/-- What it spent. -/
def spent {α : Type} (c : Cost α) (i : Bytes) : Nat := (c i).2

/-- At most `m` calls of `decode_with_format` per byte of input, whatever the outcome. -/
def CallsPerByte {α : Type} (m : Nat) (c : Price → Cost α) : Prop :=
  ∀ i, spent (c ⟨1, 0, 0⟩) i ≤ m * i.length

/-- Room for at most `m` elements per byte of input, whatever the outcome. -/
def RoomPerByte {α : Type} (m : Nat) (c : Price → Cost α) : Prop :=
  ∀ i, spent (c ⟨0, 1, 0⟩) i ≤ m * i.length

/-- If decoding succeeds, room was requested for at most as many elements as the
input has bytes. -/
def RoomCovered {α : Type} (c : Price → Cost α) : Prop :=
  ∀ i r a, resultOf (c ⟨0, 1, 0⟩) i = .ok (r, a) → spent (c ⟨0, 1, 0⟩) i ≤ i.length

/-- Bytes of texts, binaries and payloads are gone through, to check or to copy them, at
most `m` times as often as the input has bytes, whatever the outcome. -/
def LooksPerByte {α : Type} (m : Nat) (c : Price → Cost α) : Prop :=
  ∀ i, spent (c ⟨0, 0, 1⟩) i ≤ m * i.length

/-- A counting decoder of `d` within these limits. -/
structure Thrifty {α : Type} (d : Dec α) (c : Price → Cost α) : Prop where
  same : ∀ p, resultOf (c p) = d
  calls : CallsPerByte 3 c
  covered : RoomCovered c
  limit : RoomPerByte (2 ^ 32 - 1) c
  looks : LooksPerByte 2 c

/-- Thriftiness of a type. -/
def ThriftyType (α : Type) [DecodeF α] [DecodeC α] : Prop :=
  ∀ env : Env, Thrifty (decode α env) fun p => decodeC α p env

/-- A descriptor is read by a call of its own; if it is a text, its bytes are checked and
copied. -/
def Descriptor.bill (p : Price) : Descriptor → Nat
  | .ulong _ => p.call
  | .symbol s => p.call + 2 * s.str.bytes.length * p.byte

mutual
/-- What a variant costs at least: a call for every node, room for every element
of a list and every entry of a map, and going through the bytes of every binary once and
of every text twice. -/
def Variant.bill (p : Price) : Variant → Nat
  | .list l => p.call + l.length * p.room + billList p l
  | .map m => p.call + m.length * p.room + billMap p m
  | .described d v => p.call + d.bill p + v.bill p
  | .binary b => p.call + b.data.length * p.byte
  | .string s => p.call + 2 * s.bytes.length * p.byte
  | .symbol s => p.call + 2 * s.str.bytes.length * p.byte
  | _ => p.call
def billList (p : Price) : List Variant → Nat
  | [] => 0
  | v :: t => v.bill p + billList p t
def billMap (p : Price) : List (Variant × Variant) → Nat
  | [] => 0
  | (k, v) :: t => k.bill p + v.bill p + billMap p t
end

/-- What the codec spends in the course of events, from a state with a buffer.  It is
called even after it has failed. -/
def sessionSpent {T : Type} (env : Env) (dec : Cost T) :
    List Event → DecodeState → Bytes → Nat
  | [], _, _ => 0
  | .arrive b :: t, state, src => sessionSpent env dec t state (src ++ b)
  | .poll :: t, state, src =>
    (codecDecodeC env dec state src).2 +
      sessionSpent env dec t (codecDecodeC env dec state src).1.state
        (codecDecodeC env dec state src).1.src

/-- The bytes that arrive. -/
def arrived : List Event → Nat
  | [] => 0
  | .arrive b :: t => b.length + arrived t
  | .poll :: t => arrived t

end Amqp
