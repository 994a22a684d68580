import Verif.Hash
/-!
# The hash function of the maps

The crate uses `hashbrown::HashMap` with its default hash function (`use
hashbrown::HashMap;` in `src/types/variant.rs:1`, `src/codec/encode.rs:6`,
`src/codec/decode.rs:6`, `src/protocol/mod.rs:6`, `src/message/inmessage.rs:4`;
`hashbrown = "0.1.8"` in `Cargo.toml:12`).  The sources of that crate are not in
the repository; in this version the default is its `FxHasher`, which starts from
zero and has no key.  This file models it for 64-bit little-endian targets.  Only
`C77_violated_fx`, `C77_violated_keys`, `C77_numbers_partial` and `C77_number_keys_partial`
depend on it.
-/
set_option autoImplicit false
namespace Amqp
open StrRepr (HashWrite)

/-- `FxHasher::add_to_hash` (hashbrown 0.1.8): rotate by five, exclusive or, multiply. -/
def fxAdd (h w : UInt64) : UInt64 := (((h <<< 5) ||| (h >>> 59)) ^^^ w) * 0x517cc1b727220a95

/-- Reading an integer in little-endian order. -/
def fxRead (b : Bytes) : UInt64 := UInt64.ofNat (beDec b.reverse)

/-- The end of `FxHasher::write` (hashbrown 0.1.8): up to seven bytes, four, two and
one at a time. -/
def fxTail (h : UInt64) (b : Bytes) : UInt64 :=
  let (h, b) := if 4 ≤ b.length then (fxAdd h (fxRead (b.take 4)), b.drop 4) else (h, b)
  let (h, b) := if 2 ≤ b.length then (fxAdd h (fxRead (b.take 2)), b.drop 2) else (h, b)
  if 1 ≤ b.length then fxAdd h (fxRead (b.take 1)) else h

/-- `FxHasher::write` (hashbrown 0.1.8): eight bytes at a time. -/
def fxBytes : UInt64 → Bytes → UInt64
  | h, a :: b :: c :: d :: e :: f :: g :: i :: t => fxBytes (fxAdd h (fxRead [a, b, c, d, e, f, g, i])) t
  | h, b => fxTail h b

/-- One call to a method of the hasher; integers are added as a word, a discriminant
is hashed as an integer. -/
def fxWrite (h : UInt64) : HashWrite → UInt64
  | .bytes b => fxBytes h b
  | .u8 v => fxAdd h v.toUInt64
  | .len n => fxAdd h (UInt64.ofNat n)
  | .int w v => fxAdd h (UInt64.ofInt (v % 256 ^ w))
  | .tag n => fxAdd h (UInt64.ofNat n)

/-- The hash of a key (`BuildHasherDefault<FxHasher>`): from zero.  A key whose
hashing panics has none; any value will do. -/
def fxHash : Option (List HashWrite) → UInt64
  | some l => l.foldl fxWrite 0
  | none => 0

end Amqp
