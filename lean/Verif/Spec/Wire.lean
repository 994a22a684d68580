import Verif.Spec.Variant
/-!
# The encodings AMQP 1.0 allows

The type system of AMQP 1.0 (part 1, section 1.6), written down independently of
the code: which byte strings are legal encodings of which values.  Format codes
are given as bytes and numbers are read positionally; nothing here refers to the
model of the encoders and decoders.
-/
set_option autoImplicit false
namespace Amqp

/-- The unsigned number written in `b` in network byte order. -/
def unsigned : Bytes → Nat
  | [] => 0
  | x :: t => x.toNat * 256 ^ t.length + unsigned t

/-- The two's complement number written in `b` in network byte order. -/
def signed (b : Bytes) : Int :=
  if 2 * unsigned b < 256 ^ b.length then (unsigned b : Int)
  else (unsigned b : Int) - (256 ^ b.length : Nat)

/-- `b` is the number `n` in `w` bytes. -/
structure Num (w : Nat) (b : Bytes) (n : Nat) : Prop where
  width : b.length = w
  value : unsigned b = n

/-- `b` is the signed number `n` in `w` bytes. -/
structure SNum (w : Nat) (b : Bytes) (n : Int) : Prop where
  width : b.length = w
  value : signed b = n

/-- Variable-width and compound types come in two forms, selected by the format
code: sizes and counts take one byte or four. -/
inductive Sized (code8 code32 : UInt8) : UInt8 → Nat → Prop
  | narrow : Sized code8 code32 code8 1
  | wide : Sized code8 code32 code32 4

/-- Legal encodings of the types that are neither compound nor timestamps.
Symbols are restricted to ASCII by the standard. -/
inductive Prim : Variant → Bytes → Prop
  | null : Prim .null [0x40]
  | true : Prim (.boolean true) [0x41]
  | false : Prim (.boolean false) [0x42]
  | boolTrue : Prim (.boolean true) [0x56, 0x01]
  | boolFalse : Prim (.boolean false) [0x56, 0x00]
  | ubyte {n : UInt8} {b : Bytes} : Num 1 b n.toNat → Prim (.ubyte n) (0x50 :: b)
  | ushort {n : UInt16} {b : Bytes} : Num 2 b n.toNat → Prim (.ushort n) (0x60 :: b)
  | uint {n : UInt32} {b : Bytes} : Num 4 b n.toNat → Prim (.uint n) (0x70 :: b)
  | smalluint {n : UInt32} {b : Bytes} : Num 1 b n.toNat → Prim (.uint n) (0x52 :: b)
  | uint0 : Prim (.uint 0) [0x43]
  | ulong {n : UInt64} {b : Bytes} : Num 8 b n.toNat → Prim (.ulong n) (0x80 :: b)
  | smallulong {n : UInt64} {b : Bytes} : Num 1 b n.toNat → Prim (.ulong n) (0x53 :: b)
  | ulong0 : Prim (.ulong 0) [0x44]
  | byte {n : Int8} {b : Bytes} : SNum 1 b n.toInt → Prim (.byte n) (0x51 :: b)
  | short {n : Int16} {b : Bytes} : SNum 2 b n.toInt → Prim (.short n) (0x61 :: b)
  | int {n : Int32} {b : Bytes} : SNum 4 b n.toInt → Prim (.int n) (0x71 :: b)
  | smallint {n : Int32} {b : Bytes} : SNum 1 b n.toInt → Prim (.int n) (0x54 :: b)
  | long {n : Int64} {b : Bytes} : SNum 8 b n.toInt → Prim (.long n) (0x81 :: b)
  | smalllong {n : Int64} {b : Bytes} : SNum 1 b n.toInt → Prim (.long n) (0x55 :: b)
  | float {x : F32} {b : Bytes} : Num 4 b x.bits.toNat → Prim (.float x) (0x72 :: b)
  | double {x : F64} {b : Bytes} : Num 8 b x.bits.toNat → Prim (.double x) (0x82 :: b)
  | char {c : Char} {b : Bytes} : Num 4 b c.toNat → Prim (.char c) (0x73 :: b)
  | uuid {u : Uuid} : Prim (.uuid u) (0x98 :: u.bytes)
  | binary {x : Binary} {c : UInt8} {w : Nat} {l : Bytes} : Sized 0xa0 0xb0 c w →
      Num w l x.data.length → Prim (.binary x) (c :: (l ++ x.data))
  | string {s : Str} {c : UInt8} {w : Nat} {l : Bytes} : Sized 0xa1 0xb1 c w →
      Num w l s.bytes.length → Prim (.string s) (c :: (l ++ s.bytes))
  | symbol {s : Symbol} {c : UInt8} {w : Nat} {l : Bytes} : Sized 0xa3 0xb3 c w →
      Num w l s.str.bytes.length → (∀ x ∈ s.str.bytes, x < 0x80) →
      Prim (.symbol s) (c :: (l ++ s.str.bytes))

/-- Legal encodings of a descriptor (of the two kinds the crate supports). -/
def LegalDesc : Descriptor → Bytes → Prop
  | .ulong n, b => Prim (.ulong n) b
  | .symbol s, b => Prim (.symbol s) b

/-- Restrictions on legal encodings: which encodings of descriptors, which
timestamps and which map keys may occur. -/
structure Dialect where
  desc : Descriptor → Bytes → Prop
  time : DateTime → Prop
  key : Variant → Prop

/-- All that AMQP 1.0 allows. -/
def Dialect.amqp : Dialect := ⟨LegalDesc, fun _ => True, fun _ => True⟩

/-- What the crate accepts: no descriptor in the one-byte form of 0, timestamps
as in C12, and map keys that contain no map. -/
def Dialect.accepted : Dialect :=
  ⟨fun d b => LegalDesc d b ∧ b ≠ [0x44], DateTime.Survives, fun k => k.hashOk = true⟩

/-- Legal encodings of values.  The size of a compound value counts the bytes
after the size field; the count of a map counts keys and values.  Equal keys must
not be repeated. -/
inductive Wire (D : Dialect) : Variant → Bytes → Prop
  | prim {v : Variant} {b : Bytes} : Prim v b → Wire D v b
  | timestamp {t : DateTime} {m : Int} {b : Bytes} : SNum 8 b m →
      t.secs * 1000000000 + t.nanos = m * 1000000 → D.time t → Wire D (.timestamp t) (0x83 :: b)
  | list0 : Wire D (.list []) [0x45]
  | list (items : List (Variant × Bytes)) {c : UInt8} {w : Nat} {s n : Bytes} :
      Sized 0xc0 0xd0 c w →
      Num w s (w + (items.flatMap Prod.snd).length) → Num w n items.length →
      (∀ p ∈ items, Wire D p.1 p.2) →
      Wire D (.list (items.map Prod.fst)) (c :: (s ++ n ++ items.flatMap Prod.snd))
  | map (items : List ((Variant × Bytes) × (Variant × Bytes))) {c : UInt8} {w : Nat} {s n : Bytes} :
      Sized 0xc1 0xd1 c w →
      Num w s (w + (items.flatMap fun p => p.1.2 ++ p.2.2).length) →
      Num w n (2 * items.length) →
      (∀ p ∈ items, Wire D p.1.1 p.1.2) → (∀ p ∈ items, Wire D p.2.1 p.2.2) →
      (∀ p ∈ items, D.key p.1.1) → NodupKeys (items.map fun p => (p.1.1, p.2.1)) →
      Wire D (.map (items.map fun p => (p.1.1, p.2.1)))
        (c :: (s ++ n ++ items.flatMap fun p => p.1.2 ++ p.2.2))
  | described {d : Descriptor} {v : Variant} {db b : Bytes} : D.desc d db → Wire D v b →
      Wire D (.described d v) (0x00 :: (db ++ b))

/-- Legal encodings of arrays of items with the legal encodings `L`: after size
and count one constructor (format code) for all items, then the items without
it. -/
inductive WireArray {α : Type} (L : α → Bytes → Prop) : List α → Bytes → Prop
  | mk (items : List (α × Bytes)) {c k : UInt8} {w : Nat} {s n : Bytes} :
      Sized 0xe0 0xf0 c w →
      Num w s (w + 1 + (items.flatMap Prod.snd).length) → Num w n items.length →
      (∀ p ∈ items, L p.1 (k :: p.2)) →
      WireArray L (items.map Prod.fst) (c :: (s ++ n ++ k :: items.flatMap Prod.snd))

/-- Legal encodings of maps whose keys and values have the legal encodings `LK`
and `LV`. -/
inductive WireMap {K V : Type} [HKey K] (LK : K → Bytes → Prop) (LV : V → Bytes → Prop) :
    List (K × V) → Bytes → Prop
  | mk (items : List ((K × Bytes) × (V × Bytes))) {c : UInt8} {w : Nat} {s n : Bytes} :
      Sized 0xc1 0xd1 c w →
      Num w s (w + (items.flatMap fun p => p.1.2 ++ p.2.2).length) →
      Num w n (2 * items.length) →
      (∀ p ∈ items, LK p.1.1 p.1.2 ∧ LV p.2.1 p.2.2) →
      NodupKeys (items.map fun p => (p.1.1, p.2.1)) →
      WireMap LK LV (items.map fun p => (p.1.1, p.2.1))
        (c :: (s ++ n ++ items.flatMap fun p => p.1.2 ++ p.2.2))

mutual
/-- The AMQP value a variant stands for: static symbols are symbols. -/
def Variant.canon : Variant → Variant
  | .staticSymbol s => .symbol ⟨s⟩
  | .list l => .list (canonList l)
  | .map m => .map (canonMap m)
  | .described d v => .described d v.canon
  | v => v
def canonList : List Variant → List Variant
  | [] => []
  | v :: t => v.canon :: canonList t
def canonMap : List (Variant × Variant) → List (Variant × Variant)
  | [] => []
  | (k, v) :: t => (k.canon, v.canon) :: canonMap t
end

/-- ASCII text. -/
def RStr.Ascii (s : RStr) : Prop := ∀ x ∈ s.bytes, x < 0x80

/-- Descriptors that can be written legally. -/
def Descriptor.Writable : Descriptor → Prop
  | .ulong _ => True
  | .symbol s => s.str.Ascii

mutual
/-- Variants that have a legal encoding the crate can produce: no lists, symbols
in ASCII, timestamps in whole milliseconds, maps with distinct keys. -/
def Variant.Writable : Variant → Prop
  | .list _ => False
  | .timestamp t => t.nanos % 1000000 = 0
  | .symbol s => s.str.Ascii
  | .staticSymbol s => s.Ascii
  | .map m => writableMap m ∧ NodupKeys (canonMap m)
  | .described d v => d.Writable ∧ v.Writable
  | _ => True
def writableMap : List (Variant × Variant) → Prop
  | [] => True
  | (k, v) :: t => (k.Writable ∧ v.Writable) ∧ writableMap t
end

end Amqp
