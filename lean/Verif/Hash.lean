import Verif.StrRepr
/-!
# Hashing of map keys

What the `Hash` implementations of the key types write to a hasher.  Text is
modelled by content, which is what its hash depends on (C42).
-/
set_option autoImplicit false
namespace Amqp
open StrRepr (HashWrite strHash)

/-- `Hash for OrderedFloat<f32>` (ordered-float 1.0): all NaNs hash alike, both zeros
hash alike, other numbers by a function of the number; here their bit pattern. -/
def F32.hashBits (x : F32) : Nat :=
  if x.isNaN then 0x7ff8000000000000
  else if x.bits.toNat % 0x80000000 = 0 then 0 else x.bits.toNat
/-- `Hash for OrderedFloat<f64>` (ordered-float 1.0). -/
def F64.hashBits (x : F64) : Nat :=
  if x.isNaN then 0x7ff8000000000000
  else if x.bits.toNat % 0x8000000000000000 = 0 then 0 else x.bits.toNat

/-- `derive(Hash) for Symbol`, `src/types/symbol.rs:8`: as the `Str` it holds. -/
def Symbol.hash (s : Symbol) : List HashWrite := strHash s.str

/-- `derive(Hash) for Descriptor`, `src/types/mod.rs:13`. -/
def Descriptor.hash : Descriptor → List HashWrite
  | .ulong v => [.tag 0, .int 8 v.toNat]
  | .symbol s => .tag 1 :: s.hash

mutual
/-- `derive(Hash) for Variant`, `src/types/variant.rs:12`: the discriminant, then the
fields; `none` is a panic: `Hash for VariantMap` is `unimplemented!()`,
`src/types/variant.rs:138-142`.  A list (`derive(Hash) for List`,
`src/types/mod.rs:56`) writes its length, then its items.  A `DateTime` writes a
function of seconds and nanoseconds, here both; a `Uuid` and `Bytes` write as
slices. -/
def Variant.hash : Variant → Option (List HashWrite)
  | .null => some [.tag 0]
  | .boolean b => some [.tag 1, .u8 (if b then 1 else 0)]
  | .ubyte n => some [.tag 2, .u8 n]
  | .ushort n => some [.tag 3, .int 2 n.toNat]
  | .uint n => some [.tag 4, .int 4 n.toNat]
  | .ulong n => some [.tag 5, .int 8 n.toNat]
  | .byte n => some [.tag 6, .int 1 n.toInt]
  | .short n => some [.tag 7, .int 2 n.toInt]
  | .int n => some [.tag 8, .int 4 n.toInt]
  | .long n => some [.tag 9, .int 8 n.toInt]
  | .float x => some [.tag 10, .int 8 x.hashBits]
  | .double x => some [.tag 11, .int 8 x.hashBits]
  | .char c => some [.tag 12, .int 4 c.toNat]
  | .timestamp t => some [.tag 13, .int 8 t.secs, .int 4 t.nanos]
  | .uuid u => some [.tag 14, .len 16, .bytes u.bytes]
  | .binary b => some [.tag 15, .len b.data.length, .bytes b.data]
  | .string s => some (.tag 16 :: strHash s)
  | .symbol s => some (.tag 17 :: s.hash)
  | .staticSymbol s => some (.tag 18 :: strHash s)
  | .list l => (hashList l).map fun w => .tag 19 :: .len l.length :: w
  | .map _ => none
  | .described d v => v.hash.map fun w => .tag 21 :: (d.hash ++ w)
/-- The items of a list, one after the other. -/
def hashList : List Variant → Option (List HashWrite)
  | [] => some []
  | v :: t =>
    match v.hash with
    | none => none
    | some w => (hashList t).map (w ++ ·)
end

/-- What a key writes to the hasher of a map; `none` if hashing panics. -/
class HashKey (K : Type) extends HKey K where
  hash : K → Option (List HashWrite)

instance : HashKey Variant := ⟨Variant.hash⟩
instance : HashKey Symbol := ⟨fun s => some s.hash⟩
instance : HashKey RStr := ⟨fun s => some (strHash s)⟩

end Amqp
