import Verif.Types
/-!
# Encoders, `src/codec/encode.rs`

An encoder is a function to the bytes it appends (`enc`) together with the
separately computed `encoded_size` (`size`), as in the Rust traits.  `usize`
arithmetic in `encoded_size` is taken not to overflow (the sizes of values that
fit in memory).
-/
namespace Amqp

/-- `trait Encode`, `src/codec/mod.rs:20-24`. -/
class Encode (α : Type) where
  size : α → Nat
  enc : α → Bytes

/-- `trait ArrayEncode`, `src/codec/mod.rs:26-32`. -/
class ArrayEncode (α : Type) where
  code : UInt8
  asize : α → Nat
  aenc : α → Bytes

export Encode (size enc)
export ArrayEncode (asize aenc)

/-- `encode_null`, `src/codec/encode.rs:15-17`. -/
def encNull : Bytes := [FC.null]

/-- `impl<T: FixedEncode + ArrayEncode> Encode for T`, `src/codec/encode.rs:21-29`. -/
@[reducible] def fixedEncode (α : Type) [ArrayEncode α] : Encode α where
  size v := asize v + 1
  enc v := ArrayEncode.code α :: aenc v

/-- `src/codec/encode.rs:31-42`. -/
instance : Encode Bool where
  size _ := 1
  enc b := [if b then FC.booleanTrue else FC.booleanFalse]
/-- `src/codec/encode.rs:43-51`. -/
instance : ArrayEncode Bool where
  code := FC.boolean
  asize _ := 1
  aenc b := [if b then 1 else 0]

/-- `src/codec/encode.rs:53-62`. -/
instance : ArrayEncode UInt8 where
  code := FC.ubyte
  asize _ := 1
  aenc n := [n]
instance : Encode UInt8 := fixedEncode UInt8

/-- `src/codec/encode.rs:64-73`. -/
instance : ArrayEncode UInt16 where
  code := FC.ushort
  asize _ := 2
  aenc n := beEnc 2 n.toNat
instance : Encode UInt16 := fixedEncode UInt16

/-- `src/codec/encode.rs:75-96`. -/
instance : Encode UInt32 where
  size n := if n = 0 then 1 else if n.toNat > 255 then 5 else 2
  enc n :=
    if n = 0 then [FC.uint0]
    else if n.toNat > 255 then FC.uint :: beEnc 4 n.toNat
    else [FC.smallUint, n.toUInt8]
/-- `src/codec/encode.rs:97-105`. -/
instance : ArrayEncode UInt32 where
  code := FC.uint
  asize _ := 4
  aenc n := beEnc 4 n.toNat

/-- `src/codec/encode.rs:107-129`. -/
instance : Encode UInt64 where
  size n := if n = 0 then 1 else if n.toNat > 255 then 9 else 2
  enc n :=
    if n = 0 then [FC.ulong0]
    else if n.toNat > 255 then FC.ulong :: beEnc 8 n.toNat
    else [FC.smallUlong, n.toUInt8]
/-- `src/codec/encode.rs:131-139`. -/
instance : ArrayEncode UInt64 where
  code := FC.ulong
  asize _ := 8
  aenc n := beEnc 8 n.toNat

/-- `src/codec/encode.rs:141-151`.  `put_i8` writes the two's complement byte. -/
instance : ArrayEncode Int8 where
  code := FC.byte
  asize _ := 1
  aenc n := [n.toUInt8]
instance : Encode Int8 := fixedEncode Int8

/-- `src/codec/encode.rs:153-163`. -/
instance : ArrayEncode Int16 where
  code := FC.short
  asize _ := 2
  aenc n := beEnc 2 n.toUInt16.toNat
instance : Encode Int16 := fixedEncode Int16

/-- `src/codec/encode.rs:165-183`. -/
instance : Encode Int32 where
  size n := if n.toInt > 127 ∨ n.toInt < -128 then 5 else 2
  enc n :=
    if n.toInt > 127 ∨ n.toInt < -128 then FC.int :: beEnc 4 n.toUInt32.toNat
    else [FC.smallInt, n.toInt8.toUInt8]
/-- `src/codec/encode.rs:185-195`. -/
instance : ArrayEncode Int32 where
  code := FC.int
  asize _ := 4
  aenc n := beEnc 4 n.toUInt32.toNat

/-- `src/codec/encode.rs:197-215`. -/
instance : Encode Int64 where
  size n := if n.toInt > 127 ∨ n.toInt < -128 then 9 else 2
  enc n :=
    if n.toInt > 127 ∨ n.toInt < -128 then FC.long :: beEnc 8 n.toUInt64.toNat
    else [FC.smallLong, n.toInt8.toUInt8]
/-- `src/codec/encode.rs:217-225`. -/
instance : ArrayEncode Int64 where
  code := FC.long
  asize _ := 8
  aenc n := beEnc 8 n.toUInt64.toNat

/-- `src/codec/encode.rs:227-239`. -/
instance : ArrayEncode F32 where
  code := FC.float
  asize _ := 4
  aenc x := beEnc 4 x.bits.toNat
instance : Encode F32 := fixedEncode F32

/-- `src/codec/encode.rs:241-251`. -/
instance : ArrayEncode F64 where
  code := FC.double
  asize _ := 8
  aenc x := beEnc 8 x.bits.toNat
instance : Encode F64 := fixedEncode F64

/-- `src/codec/encode.rs:253-263`. -/
instance : ArrayEncode Char where
  code := FC.char
  asize _ := 4
  aenc c := beEnc 4 c.toNat
instance : Encode Char := fixedEncode Char

/-- The millisecond count written for a `DateTime`:
`self.timestamp() * 1000 + self.timestamp_subsec_millis()`,
`src/codec/encode.rs:273`.  Within chrono's range this fits an `i64`. -/
def DateTime.millis (t : DateTime) : Int := t.secs * 1000 + ((t.nanos / 1000000 : Nat) : Int)

/-- `src/codec/encode.rs:265-276`. -/
instance : ArrayEncode DateTime where
  code := FC.timestamp
  asize _ := 8
  aenc t := beEnc 8 (Int64.ofInt t.millis).toUInt64.toNat
instance : Encode DateTime := fixedEncode DateTime

/-- `src/codec/encode.rs:278-288`. -/
instance : ArrayEncode Uuid where
  code := FC.uuid
  asize _ := 16
  aenc u := u.bytes
instance : Encode Uuid := fixedEncode Uuid

/-- The size computation shared by `Bytes`, `ByteStr`, `str`, `Str`, `Symbol`
and `StaticSymbol` (`src/codec/encode.rs:291-295,322-326,352-356,383-387,
403-407,434-438`). -/
def varSize (length : Nat) : Nat := (if length > 255 then 5 else 2) + length

/-- The encoding shared by the same types (`src/codec/encode.rs:297-308,
328-338,358-368,389-399,409-419,440-450`): 8-bit or 32-bit length, then the
bytes. -/
def varEnc (code8 code32 : UInt8) (b : Bytes) : Bytes :=
  (if b.length > 255 then code32 :: beEnc 4 b.length else [code8, UInt8.ofNat b.length]) ++ b

/-- `src/codec/encode.rs:290-309`. -/
instance : Encode Binary where
  size b := varSize b.data.length
  enc b := varEnc FC.binary8 FC.binary32 b.data
/-- `src/codec/encode.rs:311-320`. -/
instance : ArrayEncode Binary where
  code := FC.binary32
  asize b := 4 + b.data.length
  aenc b := beEnc 4 b.data.length ++ b.data

/-- `ByteStr`, `str`, `Str`: `src/codec/encode.rs:321-339,351-369,382-400`. -/
instance : Encode RStr where
  size s := varSize s.len
  enc s := varEnc FC.string8 FC.string32 s.bytes
/-- `src/codec/encode.rs:340-349,371-380`. -/
instance : ArrayEncode RStr where
  code := FC.string32
  asize s := 4 + s.len
  aenc s := beEnc 4 s.len ++ s.bytes

/-- `src/codec/encode.rs:402-420`. -/
instance : Encode Symbol where
  size s := varSize s.str.len
  enc s := varEnc FC.symbol8 FC.symbol32 s.str.bytes
/-- `src/codec/encode.rs:422-431`. -/
instance : ArrayEncode Symbol where
  code := FC.symbol32
  asize s := 4 + s.str.len
  aenc s := beEnc 4 s.str.len ++ s.str.bytes

/-- `StaticSymbol::encode`, `src/codec/encode.rs:433-451`. -/
def encStaticSymbol (s : RStr) : Bytes := varEnc FC.symbol8 FC.symbol32 s.bytes
/-- `StaticSymbol::encoded_size`, `src/codec/encode.rs:434-438`. -/
def sizeStaticSymbol (s : RStr) : Nat := varSize s.len

/-- `Descriptor`, `src/codec/encode.rs:701-718`. -/
instance : Encode Descriptor where
  size
    | .ulong v => 1 + size v
    | .symbol s => 1 + size s
  enc
    | .ulong v => FC.described :: enc v
    | .symbol s => FC.described :: enc s

/-- `Option<T>`, `src/codec/encode.rs:688-699`. -/
instance {α : Type} [Encode α] : Encode (Option α) where
  size
    | some v => size v
    | none => 1
  enc
    | some v => enc v
    | none => encNull

/-! ## Compound values -/

/-- Size of a compound value with `content` bytes: `src/codec/encode.rs:460-465,
511-513,597-605`. -/
def compoundSize (content : Nat) : Nat := (if content + 1 > 255 then 9 else 3) + content

/-- Header of a compound value: `src/codec/encode.rs:469-478,523-531,609-618`
and `encode_*_inner` in `src/protocol/definitions.rs`. -/
def compoundHdr (code8 code32 : UInt8) (content count : Nat) : Bytes :=
  if content + 1 > 255 then code32 :: (beEnc 4 (content + 4) ++ beEnc 4 count)
  else [code8, UInt8.ofNat (content + 1), UInt8.ofNat count]

/-- `map.iter().fold(0, |r, (k, v)| r + k.encoded_size() + v.encoded_size())`,
`src/codec/encode.rs:453-458,506-509`. -/
def mapContentSize {K V : Type} (ksize : K → Nat) (vsize : V → Nat) : List (K × V) → Nat
  | [] => 0
  | (k, v) :: t => ksize k + vsize v + mapContentSize ksize vsize t

/-- `for (k, v) in self { k.encode(buf); v.encode(buf); }`,
`src/codec/encode.rs:480-483,533-536`. -/
def mapContent {K V : Type} (kenc : K → Bytes) (venc : V → Bytes) : List (K × V) → Bytes
  | [] => []
  | (k, v) :: t => kenc k ++ venc v ++ mapContent kenc venc t

/-- `HashMap<K, V>`, `src/codec/encode.rs:459-485`. -/
instance {K V : Type} [Encode K] [Encode V] : Encode (HMap K V) where
  size m := compoundSize (mapContentSize size size m.entries)
  enc m := compoundHdr FC.map8 FC.map32 (mapContentSize size size m.entries)
    (m.entries.length * 2) ++ mapContent enc enc m.entries

/-- `HashMap<K, V>` as array item, `src/codec/encode.rs:486-502`. -/
instance {K V : Type} [Encode K] [Encode V] : ArrayEncode (HMap K V) where
  code := FC.map32
  asize m := 8 + mapContentSize size size m.entries
  aenc m := beEnc 4 (mapContentSize size size m.entries + 4) ++ beEnc 4 (m.entries.length * 2) ++
    mapContent enc enc m.entries

/-- `array_encoded_size`, `src/codec/encode.rs:540-542`. -/
def arrayContentSize {α : Type} [ArrayEncode α] : List α → Nat
  | [] => 0
  | a :: t => asize a + arrayContentSize t

/-- `for i in self { i.array_encode(buf); }`, `src/codec/encode.rs:568-570`. -/
def arrayContent {α : Type} [ArrayEncode α] : List α → Bytes
  | [] => []
  | a :: t => aenc a ++ arrayContent t

/-- `Vec<T>`, `src/codec/encode.rs:544-572`.  Note `size + 2` as the 8-bit size
under the guard `size + 1 <= 255`. -/
instance {α : Type} [ArrayEncode α] : Encode (Vec α) where
  size v := (if arrayContentSize v.items + 1 > 255 then 10 else 4) + arrayContentSize v.items
  enc v :=
    (if arrayContentSize v.items + 1 > 255 then
      FC.array32 :: (beEnc 4 (arrayContentSize v.items + 5) ++ beEnc 4 v.items.length)
    else [FC.array8, UInt8.ofNat (arrayContentSize v.items + 2), UInt8.ofNat v.items.length]) ++
    (ArrayEncode.code α :: arrayContent v.items)

/-- `Multiple<T>`, `src/codec/encode.rs:574-594`. -/
instance {α : Type} [Encode α] [ArrayEncode α] : Encode (Multiple α) where
  size m := match m.items with
    | [x] => size x
    | xs => size (Vec.mk xs)
  enc m := match m.items with
    | [x] => enc x
    | xs => enc (Vec.mk xs)

mutual
/-- `Variant::encoded_size`, `src/codec/encode.rs:629-654`. -/
def Variant.vsize : Variant → Nat
  | .null => 1
  | .boolean b => size b
  | .ubyte n => size n
  | .ushort n => size n
  | .uint n => size n
  | .ulong n => size n
  | .byte n => size n
  | .short n => size n
  | .int n => size n
  | .long n => size n
  | .float x => size x
  | .double x => size x
  | .char c => size c
  | .timestamp t => size t
  | .uuid u => size u
  | .binary b => size b
  | .string s => size s
  | .symbol s => size s
  | .staticSymbol s => sizeStaticSymbol s
  | .list l => compoundSize (vsizeList l)
  | .map m => compoundSize (vsizeMap m)
  | .described d v => size d + v.vsize
/-- `list_encoded_size`, `src/codec/encode.rs:596-598`. -/
def vsizeList : List Variant → Nat
  | [] => 0
  | v :: t => v.vsize + vsizeList t
/-- `map_encoded_size`, `src/codec/encode.rs:453-458`. -/
def vsizeMap : List (Variant × Variant) → Nat
  | [] => 0
  | (k, v) :: t => k.vsize + v.vsize + vsizeMap t
end

mutual
/-- `Variant::encode`, `src/codec/encode.rs:657-686`.  `List` is written with
the *array* format codes (`src/codec/encode.rs:611-619`). -/
def Variant.venc : Variant → Bytes
  | .null => encNull
  | .boolean b => enc b
  | .ubyte n => enc n
  | .ushort n => enc n
  | .uint n => enc n
  | .ulong n => enc n
  | .byte n => enc n
  | .short n => enc n
  | .int n => enc n
  | .long n => enc n
  | .float x => enc x
  | .double x => enc x
  | .char c => enc c
  | .timestamp t => enc t
  | .uuid u => enc u
  | .binary b => enc b
  | .string s => enc s
  | .symbol s => enc s
  | .staticSymbol s => encStaticSymbol s
  | .list l => compoundHdr FC.array8 FC.array32 (vsizeList l) l.length ++ vencList l
  | .map m => compoundHdr FC.map8 FC.map32 (vsizeMap m) (m.length * 2) ++ vencMap m
  | .described d v => enc d ++ v.venc
def vencList : List Variant → Bytes
  | [] => []
  | v :: t => v.venc ++ vencList t
def vencMap : List (Variant × Variant) → Bytes
  | [] => []
  | (k, v) :: t => k.venc ++ v.venc ++ vencMap t
end

instance : Encode Variant := ⟨Variant.vsize, Variant.venc⟩

/-- `List`, `src/codec/encode.rs:596-626`: array format codes, see above. -/
instance : Encode VList where
  size l := compoundSize (vsizeList l.items)
  enc l := compoundHdr FC.array8 FC.array32 (vsizeList l.items) l.items.length ++ vencList l.items

/-- `VecVariantMap`, `src/codec/encode.rs:504-538`. -/
instance : Encode VecVariantMap where
  size m := compoundSize (mapContentSize size size m.entries)
  enc m := compoundHdr FC.map8 FC.map32 (mapContentSize size size m.entries)
    (m.entries.length * 2) ++ mapContent enc enc m.entries

example : enc (300 : UInt32) = [0x70, 0, 0, 1, 44] := by decide
example : enc (-2 : Int32) = [0x54, 0xfe] := by decide
example : enc (Variant.described (.ulong 29) (.map [(.symbol ⟨.lit "a"⟩, .null)])) =
    [0x00, 0x53, 29, 0xc1, 5, 2, 0xa3, 1, 97, 0x40] := by decide

end Amqp
