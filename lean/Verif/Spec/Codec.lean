import Verif.Codec.Decode
/-!
# What it means for a codec to be right

The vocabulary of the property statements about values and their encodings.
`enc`, `size`, `decode` are the model's `Encode::encode`,
`Encode::encoded_size` and `Decode::decode`.
-/
set_option autoImplicit false
namespace Amqp

/-- The bytes `u`, followed by anything, are decoded to exactly `a`, leaving
exactly what followed. -/
def Means {α : Type} [DecodeF α] (env : Env) (u : Bytes) (a : α) : Prop :=
  ∀ rest, decode α env (u ++ rest) = .ok (rest, a)

/-- The decoder of `α` accepts exactly the encodings `L`. -/
def Decides (α : Type) [DecodeF α] (L : α → Bytes → Prop) : Prop :=
  ∀ (env : Env) (b : Bytes) (a : α), Means env b a ↔ L a b

/-- The bytes written for `a`, followed by anything, are decoded to exactly `a`,
leaving exactly what followed. -/
def RoundTrips {α : Type} [Encode α] [DecodeF α] (env : Env) (a : α) : Prop :=
  ∀ rest, decode α env (enc a ++ rest) = .ok (rest, a)

/-- The same for the headerless form used for array items: the bytes of
`array_encode`, read with the array's element format code. -/
def ItemRoundTrips {α : Type} [ArrayEncode α] [DecodeF α] (env : Env) (a : α) : Prop :=
  ∀ rest, decF env (ArrayEncode.code α) (aenc a ++ rest) = .ok (rest, a)

/-- `encoded_size` is the number of bytes `encode` writes, for every value. -/
def SizeExact (α : Type) [Encode α] : Prop := ∀ v : α, size v = (enc v).length

/-- `array_encoded_size` is the number of bytes `array_encode` writes, and items
are never empty. -/
def ItemSizeExact (α : Type) [ArrayEncode α] : Prop :=
  ∀ v : α, asize v = (aenc v).length ∧ 0 < (aenc v).length

/-- Whenever decoding succeeds it consumed a non-empty prefix of the input, and
with any other continuation of that prefix it yields the same value and leaves
exactly that continuation. -/
def ReadsPrefix (α : Type) [DecodeF α] : Prop :=
  ∀ (env : Env) (input rest : Bytes) (v : α), decode α env input = .ok (rest, v) →
    ∃ used, used ≠ [] ∧ input = used ++ rest ∧
      ∀ more, decode α env (used ++ more) = .ok (more, v)

/-- Decoding returns `Ok` or `Err` on every input. -/
def NeverPanics (α : Type) [DecodeF α] : Prop :=
  ∀ (env : Env) (input : Bytes) (p : Panic), decode α env input ≠ .panic p

end Amqp
