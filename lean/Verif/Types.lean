import Verif.Utf8Error
/-!
# AMQP value types

`src/types/mod.rs`, `src/types/symbol.rs`, `src/types/variant.rs` and the
third-party value types used by them.
-/
namespace Amqp

/-! ## Format codes, `src/codec/mod.rs:64-103` -/
namespace FC
def described : UInt8 := 0x00
def null : UInt8 := 0x40
def boolean : UInt8 := 0x56
def booleanTrue : UInt8 := 0x41
def booleanFalse : UInt8 := 0x42
def uint0 : UInt8 := 0x43
def ulong0 : UInt8 := 0x44
def ubyte : UInt8 := 0x50
def ushort : UInt8 := 0x60
def uint : UInt8 := 0x70
def ulong : UInt8 := 0x80
def byte : UInt8 := 0x51
def short : UInt8 := 0x61
def int : UInt8 := 0x71
def long : UInt8 := 0x81
def smallUint : UInt8 := 0x52
def smallUlong : UInt8 := 0x53
def smallInt : UInt8 := 0x54
def smallLong : UInt8 := 0x55
def float : UInt8 := 0x72
def double : UInt8 := 0x82
def char : UInt8 := 0x73
def timestamp : UInt8 := 0x83
def uuid : UInt8 := 0x98
def binary8 : UInt8 := 0xa0
def binary32 : UInt8 := 0xb0
def string8 : UInt8 := 0xa1
def string32 : UInt8 := 0xb1
def symbol8 : UInt8 := 0xa3
def symbol32 : UInt8 := 0xb3
def list0 : UInt8 := 0x45
def list8 : UInt8 := 0xc0
def list32 : UInt8 := 0xd0
def map8 : UInt8 := 0xc1
def map32 : UInt8 := 0xd1
def array8 : UInt8 := 0xe0
def array32 : UInt8 := 0xf0
end FC

/-- `f32` as its IEEE 754 bit pattern (`put_f32_be`/`read_f32` transmute). -/
structure F32 where
  bits : UInt32
deriving DecidableEq

/-- `f64` as its IEEE 754 bit pattern. -/
structure F64 where
  bits : UInt64
deriving DecidableEq

/-- `f32::is_nan`. -/
def F32.isNaN (x : F32) : Bool := 0x7f800000 < x.bits.toNat % 0x80000000
/-- `f64::is_nan`. -/
def F64.isNaN (x : F64) : Bool := 0x7ff0000000000000 < x.bits.toNat % 0x8000000000000000

/-- `OrderedFloat<f32> ==` (ordered-float 1.0): NaN equals NaN, `0.0 == -0.0`,
otherwise distinct bit patterns are distinct numbers. -/
def F32.feq (x y : F32) : Bool :=
  if x.isNaN then y.isNaN
  else if y.isNaN then false
  else x.bits == y.bits || (x.bits.toNat % 0x80000000 == 0 && y.bits.toNat % 0x80000000 == 0)
/-- `OrderedFloat<f64> ==`. -/
def F64.feq (x y : F64) : Bool :=
  if x.isNaN then y.isNaN
  else if y.isNaN then false
  else x.bits == y.bits ||
    (x.bits.toNat % 0x8000000000000000 == 0 && y.bits.toNat % 0x8000000000000000 == 0)

/-- `uuid::Uuid`: sixteen bytes. -/
structure Uuid where
  bytes : Bytes
  len : bytes.length = 16
deriving DecidableEq

/-- `bytes::Bytes`. -/
structure Binary where
  data : Bytes
deriving DecidableEq

/-- `Symbol`, `src/types/symbol.rs:8-9`. -/
structure Symbol where
  str : RStr
deriving DecidableEq

/-- `Str`/`ByteStr`, `src/types/mod.rs:9,73-77` (content only). -/
abbrev Str := RStr
abbrev ByteStr := RStr

/-- Least second of chrono 0.4's range: -262144-01-01T00:00:00Z. -/
def minSecs : Int := -8334632851200
/-- Greatest second of chrono 0.4's range: +262143-12-31T23:59:59Z. -/
def maxSecs : Int := 8210298412799

/-- Is `(secs, nanos)` accepted by chrono's `Utc.timestamp(secs, nanos)`?
Nanoseconds up to `2e9` are allowed (leap seconds). -/
def dtOk (secs : Int) (nanos : Nat) : Bool :=
  minSecs ≤ secs && secs ≤ maxSecs && nanos < 2000000000

/-- `chrono::DateTime<Utc>`: whole seconds since the epoch plus a nanosecond
field below `2e9` (values from `1e9` represent leap seconds).  Equality is
field-wise, as in chrono. -/
structure DateTime where
  secs : Int
  nanos : Nat
  ok : dtOk secs nanos = true
deriving DecidableEq

/-- `Descriptor`, `src/types/mod.rs:13-17`. -/
inductive Descriptor where
  | ulong (v : UInt64)
  | symbol (s : Symbol)
deriving DecidableEq

/-- `AmqpParseError`, `src/errors.rs:6-26`.  `Incomplete` always carries
`Some(n)`.  `UuidParseError` cannot
arise (`src/codec/decode.rs:181` passes exactly 16 bytes). -/
inductive ParseError where
  | invalidSize
  | incomplete (n : Nat)
  | invalidFormatCode (c : UInt8)
  | invalidChar (c : UInt32)
  | invalidDescriptor (d : Descriptor)
  | unexpectedFrameType (t : UInt8)
  | requiredFieldOmitted (name : String)
  | unknownEnumOption (name : String)
  | utf8Error (e : Utf8Error)
deriving DecidableEq

/-- `Variant`, `src/types/variant.rs:12-85`.  `Map` holds a
`HashMap<Variant, Variant>` as its entries in iteration order. -/
inductive Variant where
  | null
  | boolean (b : Bool)
  | ubyte (n : UInt8)
  | ushort (n : UInt16)
  | uint (n : UInt32)
  | ulong (n : UInt64)
  | byte (n : Int8)
  | short (n : Int16)
  | int (n : Int32)
  | long (n : Int64)
  | float (x : F32)
  | double (x : F64)
  | char (c : Char)
  | timestamp (t : DateTime)
  | uuid (u : Uuid)
  | binary (b : Binary)
  | string (s : Str)
  | symbol (s : Symbol)
  | staticSymbol (s : RStr)
  | list (l : List Variant)
  | map (m : List (Variant × Variant))
  | described (d : Descriptor) (v : Variant)

/-- `Vec<T>`. -/
structure Vec (α : Type) where
  items : List α
deriving DecidableEq

/-- `Multiple<T>`, `src/types/mod.rs:19-20`. -/
structure Multiple (α : Type) where
  items : List α
deriving DecidableEq

/-- `List`, `src/types/mod.rs:56-57`. -/
structure VList where
  items : List Variant

/-- `HashMap<K, V>` (hashbrown): its entries in iteration order. -/
structure HMap (K V : Type) where
  entries : List (K × V)
deriving DecidableEq

/-- `VecVariantMap`, `src/types/variant.rs:144-145`. -/
structure VecVariantMap where
  entries : List (Str × Variant)

/-- First entry whose key satisfies `p`. -/
def findEntry {K V : Type} (p : K → Bool) : List (K × V) → Option V
  | [] => none
  | (k, v) :: t => if p k then some v else findEntry p t

mutual
/-- `Variant ==`: `derive(PartialEq)`, `src/types/variant.rs:12`, with
`OrderedFloat` equality for floats and `HashMap ==` (same length, every entry of
the left map found in the right one) for maps. -/
def Variant.veq : Variant → Variant → Bool
  | .null, .null => true
  | .boolean a, .boolean b => a == b
  | .ubyte a, .ubyte b => a == b
  | .ushort a, .ushort b => a == b
  | .uint a, .uint b => a == b
  | .ulong a, .ulong b => a == b
  | .byte a, .byte b => a == b
  | .short a, .short b => a == b
  | .int a, .int b => a == b
  | .long a, .long b => a == b
  | .float a, .float b => a.feq b
  | .double a, .double b => a.feq b
  | .char a, .char b => a == b
  | .timestamp a, .timestamp b => a == b
  | .uuid a, .uuid b => a == b
  | .binary a, .binary b => a == b
  | .string a, .string b => a == b
  | .symbol a, .symbol b => a == b
  | .staticSymbol a, .staticSymbol b => a == b
  | .list a, .list b => veqList a b
  | .map a, .map b => a.length == b.length && subMap a b
  | .described d a, .described e b => d == e && a.veq b
  | _, _ => false
/-- `Vec<Variant> ==`. -/
def veqList : List Variant → List Variant → Bool
  | [], [] => true
  | a :: as, b :: bs => a.veq b && veqList as bs
  | _, _ => false
/-- `self.iter().all(|(k, v)| other.get(k).map_or(false, |w| v == w))`. -/
def subMap : List (Variant × Variant) → List (Variant × Variant) → Bool
  | [], _ => true
  | (k, v) :: t, b =>
    (match findEntry k.veq b with
      | some w => v.veq w
      | none => false) && subMap t b
end

mutual
/-- Can the value be hashed?  `Hash` for `VariantMap` is `unimplemented!()`
(`src/types/variant.rs:138-142`); hashing a list or described value hashes its
parts (`derive(Hash)`). -/
def Variant.hashOk : Variant → Bool
  | .list l => hashOkList l
  | .map _ => false
  | .described _ v => v.hashOk
  | _ => true
def hashOkList : List Variant → Bool
  | [] => true
  | v :: t => v.hashOk && hashOkList t
end

/-- What `HashMap<K, _>` needs of its keys: `Eq`, and `Hash` (which may panic).
Equal keys have equal hashes, so lookup finds an equal key (C54). -/
class HKey (K : Type) where
  keq : K → K → Bool
  hashOk : K → Bool

instance : HKey Variant := ⟨Variant.veq, Variant.hashOk⟩
instance : HKey Symbol := ⟨fun a b => a == b, fun _ => true⟩
instance : HKey RStr := ⟨fun a b => a == b, fun _ => true⟩

/-- `HashMap::insert`: replaces the value of an equal key (keeping the old
key), otherwise adds an entry. -/
def insertEntry {K V : Type} (eq : K → K → Bool) (k : K) (v : V) :
    List (K × V) → List (K × V)
  | [] => [(k, v)]
  | (k', v') :: t => if eq k k' then (k', v) :: t else (k', v') :: insertEntry eq k v t

end Amqp
