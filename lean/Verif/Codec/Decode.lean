import Verif.Codec.Encode
/-!
# Decoders, `src/codec/decode.rs`

A decoder maps the input slice to the remaining slice and a value, an error, or
a panic.  Rust decoders thread the remaining input linearly
(`let (input, x) = ..(input)?;`), which is the monad below.
-/
namespace Amqp

/-- `fn(&[u8]) -> Result<(&[u8], α), AmqpParseError>`, possibly panicking. -/
def Dec (α : Type) : Type := Bytes → Res ParseError (Bytes × α)

namespace Dec
variable {α β : Type}

/-- `Ok((input, a))`. -/
protected def pure (a : α) : Dec α := fun i => .ok (i, a)
/-- `let (input, a) = d(input)?; f(a)(input)`. -/
protected def bind (d : Dec α) (f : α → Dec β) : Dec β := fun i =>
  match d i with
  | .ok (r, a) => f a r
  | .err e => .err e
  | .panic p => .panic p
/-- `return Err(e)`. -/
def fail (e : ParseError) : Dec α := fun _ => .err e
/-- The call panics. -/
def abort (p : Panic) : Dec α := fun _ => .panic p

instance : Monad Dec where
  pure := Dec.pure
  bind := Dec.bind

@[simp] theorem run_pure (a : α) (i : Bytes) : (pure a : Dec α) i = .ok (i, a) := rfl
theorem run_bind (d : Dec α) (f : α → Dec β) (i : Bytes) :
    (d >>= f) i = match d i with
      | .ok (r, a) => f a r
      | .err e => .err e
      | .panic p => .panic p := rfl
@[simp] theorem run_fail (e : ParseError) (i : Bytes) : (fail e : Dec α) i = .err e := rfl
@[simp] theorem run_abort (p : Panic) (i : Bytes) : (abort p : Dec α) i = .panic p := rfl

instance : LawfulMonad Dec := LawfulMonad.mk' _
  (id_map := fun x => by
    funext i; show (match x i with | .ok (r, a) => _ | .err e => _ | .panic p => _) = _
    cases x i <;> rfl)
  (pure_bind := fun _ _ => rfl)
  (bind_assoc := fun x f g => by
    funext i
    simp only [run_bind]
    cases x i <;> rfl)

theorem run_map (d : Dec α) (f : α → β) (i : Bytes) :
    (f <$> d) i = match d i with
      | .ok (r, a) => .ok (r, f a)
      | .err e => .err e
      | .panic p => .panic p := by
  rw [map_eq_pure_bind, run_bind]; rfl

theorem bind_ok {d : Dec α} {f : α → Dec β} {i r : Bytes} {a : α} (h : d i = .ok (r, a)) :
    (d >>= f) i = f a r := by rw [run_bind, h]
theorem map_ok {d : Dec α} {f : α → β} {i r : Bytes} {a : α} (h : d i = .ok (r, a)) :
    (f <$> d) i = .ok (r, f a) := by rw [run_map, h]
theorem bind_err {d : Dec α} {f : α → Dec β} {i : Bytes} {e : ParseError} (h : d i = .err e) :
    (d >>= f) i = .err e := by rw [run_bind, h]
theorem bind_panic {d : Dec α} {f : α → Dec β} {i : Bytes} {p : Panic} (h : d i = .panic p) :
    (d >>= f) i = .panic p := by rw [run_bind, h]

end Dec

/-! ## Primitive readers -/

/-- `decode_check_len!` followed by splitting off `n` bytes
(`src/codec/mod.rs:6-12`; `be_read!`, `src/codec/decode.rs:18-24`). -/
def takeN (n : Nat) : Dec Bytes := fun i =>
  if i.length < n then .err (.incomplete n) else .ok (i.drop n, i.take n)

/-- `read_u8`, `src/codec/decode.rs:26-29`; also `decode_format_code`,
`src/codec/mod.rs:59-62`. -/
def readU8 : Dec UInt8
  | [] => .err (.incomplete 1)
  | b :: r => .ok (r, b)

/-- `decode_format_code`, `src/codec/mod.rs:59-62`. -/
def formatCode : Dec UInt8 := readU8

/-- `read_i8`, `src/codec/decode.rs:31-34`. -/
def readI8 : Dec Int8 := UInt8.toInt8 <$> readU8

/-- `be_read!(input, read_uN, k)`, `src/codec/decode.rs:18-24`. -/
def readBE (k : Nat) : Dec Nat := beDec <$> takeN k

/-- `read_bytes_u8`, `src/codec/decode.rs:36-42`. -/
def readBytesU8 : Dec Bytes := do
  let len ← readU8
  takeN len.toNat

/-- `read_bytes_u32`, `src/codec/decode.rs:44-51`. -/
def readBytesU32 : Dec Bytes := do
  let len ← readBE 4
  takeN len

/-- `str::from_utf8(bytes)?`, `src/codec/decode.rs:201` etc. -/
def fromUtf8 (b : Bytes) : Dec RStr :=
  if h : validUtf8 b = true then pure ⟨b, h⟩ else Dec.fail (.utf8Error (utf8Error b))

/-- `trait DecodeFormatted`, `src/codec/mod.rs:41-46`.  The environment is the
build mode and stack budget. -/
class DecodeF (α : Type) where
  decF : Env → UInt8 → Dec α

export DecodeF (decF)

/-- `impl<T: DecodeFormatted> Decode for T`, `src/codec/mod.rs:52-57`. -/
def decode (α : Type) [DecodeF α] (env : Env) : Dec α := do
  let fmt ← formatCode
  decF env fmt

/-- `validate_code!`, `src/codec/decode.rs:53-60`. -/
def validateCode {α : Type} (fmt code : UInt8) (d : Dec α) : Dec α :=
  if fmt ≠ code then Dec.fail (.invalidFormatCode fmt) else d

/-- `src/codec/decode.rs:62-71`. -/
instance : DecodeF Bool where
  decF _ fmt :=
    if fmt = FC.boolean then (fun o => o != 0) <$> readU8
    else if fmt = FC.booleanTrue then pure true
    else if fmt = FC.booleanFalse then pure false
    else Dec.fail (.invalidFormatCode fmt)

/-- `src/codec/decode.rs:73-78`. -/
instance : DecodeF UInt8 where
  decF _ fmt := validateCode fmt FC.ubyte readU8

/-- `src/codec/decode.rs:80-85`. -/
instance : DecodeF UInt16 where
  decF _ fmt := validateCode fmt FC.ushort (UInt16.ofNat <$> readBE 2)

/-- `src/codec/decode.rs:87-96`. -/
instance : DecodeF UInt32 where
  decF _ fmt :=
    if fmt = FC.uint then UInt32.ofNat <$> readBE 4
    else if fmt = FC.smallUint then UInt8.toUInt32 <$> readU8
    else if fmt = FC.uint0 then pure 0
    else Dec.fail (.invalidFormatCode fmt)

/-- `src/codec/decode.rs:98-107`. -/
instance : DecodeF UInt64 where
  decF _ fmt :=
    if fmt = FC.ulong then UInt64.ofNat <$> readBE 8
    else if fmt = FC.smallUlong then UInt8.toUInt64 <$> readU8
    else if fmt = FC.ulong0 then pure 0
    else Dec.fail (.invalidFormatCode fmt)

/-- `src/codec/decode.rs:109-114`. -/
instance : DecodeF Int8 where
  decF _ fmt := validateCode fmt FC.byte readI8

/-- `src/codec/decode.rs:116-121`. -/
instance : DecodeF Int16 where
  decF _ fmt := validateCode fmt FC.short ((fun n => (UInt16.ofNat n).toInt16) <$> readBE 2)

/-- `src/codec/decode.rs:123-131`. -/
instance : DecodeF Int32 where
  decF _ fmt :=
    if fmt = FC.int then (fun n => (UInt32.ofNat n).toInt32) <$> readBE 4
    else if fmt = FC.smallInt then Int8.toInt32 <$> readI8
    else Dec.fail (.invalidFormatCode fmt)

/-- `src/codec/decode.rs:133-141`. -/
instance : DecodeF Int64 where
  decF _ fmt :=
    if fmt = FC.long then (fun n => (UInt64.ofNat n).toInt64) <$> readBE 8
    else if fmt = FC.smallLong then Int8.toInt64 <$> readI8
    else Dec.fail (.invalidFormatCode fmt)

/-- `src/codec/decode.rs:143-148`. -/
instance : DecodeF F32 where
  decF _ fmt := validateCode fmt FC.float ((fun n => ⟨UInt32.ofNat n⟩) <$> readBE 4)

/-- `src/codec/decode.rs:150-155`. -/
instance : DecodeF F64 where
  decF _ fmt := validateCode fmt FC.double ((fun n => ⟨UInt64.ofNat n⟩) <$> readBE 8)

/-- `char::from_u32`, applied to a `u32` given as a number below `2^32`. -/
def charFromU32 (n : Nat) : Option Char :=
  if h : n < 0xD800 ∨ (0xDFFF < n ∧ n < 0x110000) then some (Char.ofNatAux n h) else none

/-- `src/codec/decode.rs:157-168`. -/
instance : DecodeF Char where
  decF _ fmt := validateCode fmt FC.char do
    let o ← readBE 4
    match charFromU32 o with
    | some c => pure c
    | none => Dec.fail (.invalidChar (UInt32.ofNat o))

/-- `Utc.timestamp(secs, nanos)` (chrono 0.4): panics outside chrono's range. -/
def utcTimestamp (secs : Int) (nanos : Nat) : Dec DateTime :=
  if h : dtOk secs nanos = true then pure ⟨secs, nanos, h⟩ else Dec.abort .timestampRange

/-- `datetime_from_millis`, `src/codec/decode.rs:552-564`.  `/` on `i64`
truncates towards zero; no intermediate result leaves the `i64` range; the
`as u32` cast is applied to a value below `2e9`. -/
def datetimeFromMillis (millis : Int) : Dec DateTime :=
  let seconds := Int.tdiv millis 1000
  if seconds < 0 then
    utcTimestamp (seconds - 1) ((1000 + (millis - seconds * 1000)) * 1000000).natAbs
  else
    utcTimestamp seconds ((millis - seconds * 1000) * 1000000).natAbs

/-- `src/codec/decode.rs:170-175`. -/
instance : DecodeF DateTime where
  decF _ fmt := validateCode fmt FC.timestamp do
    let n ← readBE 8
    datetimeFromMillis (UInt64.ofNat n).toInt64.toInt

/-- `Uuid::from_slice` on sixteen bytes (never fails). -/
def uuidOf (b : Bytes) : Dec Uuid :=
  if h : b.length = 16 then pure ⟨b, h⟩ else Dec.abort .sliceIndex

/-- `src/codec/decode.rs:177-184`. -/
instance : DecodeF Uuid where
  decF _ fmt := validateCode fmt FC.uuid (takeN 16 >>= uuidOf)

/-- `src/codec/decode.rs:186-194`. -/
instance : DecodeF Binary where
  decF _ fmt :=
    if fmt = FC.binary8 then Binary.mk <$> readBytesU8
    else if fmt = FC.binary32 then Binary.mk <$> readBytesU32
    else Dec.fail (.invalidFormatCode fmt)

/-- `ByteStr`, `Str`: `src/codec/decode.rs:196-226`. -/
instance : DecodeF RStr where
  decF _ fmt :=
    if fmt = FC.string8 then readBytesU8 >>= fromUtf8
    else if fmt = FC.string32 then readBytesU32 >>= fromUtf8
    else Dec.fail (.invalidFormatCode fmt)

/-- `src/codec/decode.rs:228-242`. -/
instance : DecodeF Symbol where
  decF _ fmt :=
    if fmt = FC.symbol8 then Symbol.mk <$> (readBytesU8 >>= fromUtf8)
    else if fmt = FC.symbol32 then Symbol.mk <$> (readBytesU32 >>= fromUtf8)
    else Dec.fail (.invalidFormatCode fmt)

/-- `ArrayDecode for Symbol`, `src/codec/decode.rs:244-249` (not used by any
decoder: `Vec<T>` goes through `decode_with_format`). -/
def arrayDecodeSymbol : Dec Symbol := Symbol.mk <$> (readBytesU32 >>= fromUtf8)

/-- `Option<T>`, `src/codec/decode.rs:434-441`. -/
instance {α : Type} [DecodeF α] : DecodeF (Option α) where
  decF env fmt := if fmt = FC.null then pure none else some <$> decF env fmt

/-- `Descriptor`, `src/codec/decode.rs:443-461`. -/
instance : DecodeF Descriptor where
  decF env fmt :=
    if fmt = FC.smallUlong then Descriptor.ulong <$> decF env fmt
    else if fmt = FC.ulong then Descriptor.ulong <$> decF env fmt
    else if fmt = FC.symbol8 then Descriptor.symbol <$> decF env fmt
    else if fmt = FC.symbol32 then Descriptor.symbol <$> decF env fmt
    else Dec.fail (.invalidFormatCode fmt)

/-! ## Compound headers -/

/-- `CompoundHeader`, `src/protocol/mod.rs:20-30`. -/
structure CompoundHeader where
  size : Nat
  count : Nat
deriving DecidableEq

/-- Unsigned subtraction `a - b` on a `bits`-wide integer: panics on underflow
with overflow checks, wraps otherwise. -/
def subChecked (env : Env) (bits : Nat) (a b : Nat) : Dec Nat :=
  if b ≤ a then pure (a - b)
  else if env.overflowChecks then Dec.abort .overflow
  else pure (a + 2 ^ bits - b)

/-- `decode_compound8`, `src/codec/decode.rs:532-543`. -/
def decodeCompound8 (env : Env) : Dec CompoundHeader := do
  let hdr ← takeN 2
  let size ← subChecked env 8 (hdr.getD 0 0).toNat 1
  pure ⟨size, (hdr.getD 1 0).toNat⟩

/-- `decode_compound32`, `src/codec/decode.rs:545-550`. -/
def decodeCompound32 (env : Env) : Dec CompoundHeader := do
  let hdr ← takeN 8
  let size ← subChecked env 32 (beDec (hdr.take 4)) 4
  pure ⟨size, beDec (hdr.drop 4)⟩

/-- `decode_array_header`, `src/codec/decode.rs:501-507`. -/
def decodeArrayHeader (env : Env) (fmt : UInt8) : Dec CompoundHeader :=
  if fmt = FC.array8 then decodeCompound8 env
  else if fmt = FC.array32 then decodeCompound32 env
  else Dec.fail (.invalidFormatCode fmt)

/-- `decode_list_header`, `src/codec/decode.rs:509-519`. -/
def decodeListHeader (env : Env) (fmt : UInt8) : Dec CompoundHeader :=
  if fmt = FC.list0 then pure ⟨0, 0⟩
  else if fmt = FC.list8 then decodeCompound8 env
  else if fmt = FC.list32 then decodeCompound32 env
  else Dec.fail (.invalidFormatCode fmt)

/-- `decode_map_header`, `src/codec/decode.rs:521-530`. -/
def decodeMapHeader (env : Env) (fmt : UInt8) : Dec CompoundHeader :=
  if fmt = FC.map8 then decodeCompound8 env
  else if fmt = FC.map32 then decodeCompound32 env
  else Dec.fail (.invalidFormatCode fmt)

/-- `for _ in 0..count { let (i, x) = d(input)?; result.push(x); input = i; }`,
`src/codec/decode.rs:277-282,322-327`. -/
def decodeN {α : Type} (d : Dec α) : Nat → Dec (List α)
  | 0 => pure []
  | n + 1 => do
    let x ← d
    let xs ← decodeN d n
    pure (x :: xs)

/-- `&input[..n]` handed to `d`, then `&input[n..]` as remainder; slicing out
of range panics (`src/codec/decode.rs:256,268`).  What `d` leaves unread is
dropped. -/
def withSlice {α : Type} (n : Nat) (d : Dec α) : Dec α := fun i =>
  if i.length < n then .panic .sliceIndex
  else match d (i.take n) with
    | .ok (_, a) => .ok (i.drop n, a)
    | .err e => .err e
    | .panic p => .panic p

/-- The entry loop of `HashMap::decode_with_format`, `src/codec/decode.rs:260-265`.
`map.insert` hashes the key, which may panic. -/
def mapLoop {K V : Type} [HKey K] (kd : Dec K) (vd : Dec V) :
    Nat → List (K × V) → Dec (List (K × V))
  | 0, acc => pure acc
  | n + 1, acc => do
    let k ← kd
    let v ← vd
    if HKey.hashOk k then mapLoop kd vd n (insertEntry HKey.keq k v acc)
    else Dec.abort .unimplemented

/-- `HashMap<K, V>::decode_with_format`, `src/codec/decode.rs:251-269`. -/
def decodeMapWith {K V : Type} [HKey K] (kd : Dec K) (vd : Dec V) (env : Env) (fmt : UInt8) :
    Dec (List (K × V)) := do
  let header ← decodeMapHeader env fmt
  withSlice header.size (mapLoop kd vd (header.count / 2) [])

instance {K V : Type} [HKey K] [DecodeF K] [DecodeF V] : DecodeF (HMap K V) where
  decF env fmt := HMap.mk <$> decodeMapWith (decode K env) (decode V env) env fmt

/-- `input[0]` and `&input[1..]`: panics on empty input
(`src/codec/decode.rs:274-275`). -/
def indexU8 : Dec UInt8
  | [] => .panic .sliceIndex
  | b :: r => .ok (r, b)

/-- `Vec<T>`, `src/codec/decode.rs:271-284`. -/
instance {α : Type} [DecodeF α] : DecodeF (Vec α) where
  decF env fmt := do
    let header ← decodeArrayHeader env fmt
    let itemFmt ← indexU8
    let items ← decodeN (decF env itemFmt) header.count
    pure ⟨items⟩

/-- `Multiple<T>`, `src/codec/decode.rs:303-316`. -/
instance {α : Type} [DecodeF α] : DecodeF (Multiple α) where
  decF env fmt :=
    if fmt = FC.array8 ∨ fmt = FC.array32 then
      (fun v : Vec α => ⟨v.items⟩) <$> decF env fmt
    else (fun x => ⟨[x]⟩) <$> decF env fmt

/-- `List::decode_with_format`, `src/codec/decode.rs:318-329`, with the item
decoder as parameter. -/
def decodeListWith (vd : Dec Variant) (env : Env) (fmt : UInt8) : Dec (List Variant) := do
  let header ← decodeListHeader env fmt
  decodeN vd header.count

/-- `Variant::decode_with_format`, `src/codec/decode.rs:331-432`.  The first
argument is the number of nested calls that still fit on the stack. -/
def decVariant (env : Env) : Nat → UInt8 → Dec Variant
  | 0, _ => Dec.abort .stackOverflow
  | depth + 1, fmt =>
    let vd : Dec Variant := do
      let f ← formatCode
      decVariant env depth f
    if fmt = FC.null then pure .null
    else if fmt = FC.boolean then Variant.boolean <$> decF env fmt
    else if fmt = FC.booleanFalse then pure (.boolean false)
    else if fmt = FC.booleanTrue then pure (.boolean true)
    else if fmt = FC.uint0 then pure (.uint 0)
    else if fmt = FC.ulong0 then pure (.ulong 0)
    else if fmt = FC.ubyte then Variant.ubyte <$> decF env fmt
    else if fmt = FC.ushort then Variant.ushort <$> decF env fmt
    else if fmt = FC.uint then Variant.uint <$> decF env fmt
    else if fmt = FC.ulong then Variant.ulong <$> decF env fmt
    else if fmt = FC.byte then Variant.byte <$> decF env fmt
    else if fmt = FC.short then Variant.short <$> decF env fmt
    else if fmt = FC.int then Variant.int <$> decF env fmt
    else if fmt = FC.long then Variant.long <$> decF env fmt
    else if fmt = FC.smallUint then Variant.uint <$> decF env fmt
    else if fmt = FC.smallUlong then Variant.ulong <$> decF env fmt
    else if fmt = FC.smallInt then Variant.int <$> decF env fmt
    else if fmt = FC.smallLong then Variant.long <$> decF env fmt
    else if fmt = FC.float then Variant.float <$> decF env fmt
    else if fmt = FC.double then Variant.double <$> decF env fmt
    else if fmt = FC.char then Variant.char <$> decF env fmt
    else if fmt = FC.timestamp then Variant.timestamp <$> decF env fmt
    else if fmt = FC.uuid then Variant.uuid <$> decF env fmt
    else if fmt = FC.binary8 then Variant.binary <$> decF env fmt
    else if fmt = FC.binary32 then Variant.binary <$> decF env fmt
    else if fmt = FC.string8 then Variant.string <$> decF env fmt
    else if fmt = FC.string32 then Variant.string <$> decF env fmt
    else if fmt = FC.symbol8 then Variant.symbol <$> decF env fmt
    else if fmt = FC.symbol32 then Variant.symbol <$> decF env fmt
    else if fmt = FC.list0 then pure (.list [])
    else if fmt = FC.list8 then Variant.list <$> decodeListWith vd env fmt
    else if fmt = FC.list32 then Variant.list <$> decodeListWith vd env fmt
    else if fmt = FC.map8 then Variant.map <$> decodeMapWith vd vd env fmt
    else if fmt = FC.map32 then Variant.map <$> decodeMapWith vd vd env fmt
    else if fmt = FC.described then do
      let d ← decode Descriptor env
      let v ← vd
      pure (.described d v)
    else Dec.fail (.invalidFormatCode fmt)

instance : DecodeF Variant where
  decF env fmt := decVariant env env.stackDepth fmt

/-- `List`, `src/codec/decode.rs:318-329`. -/
instance : DecodeF VList where
  decF env fmt := VList.mk <$> decodeListWith (decode Variant env) env fmt

/-- The entry loop of `VecVariantMap`, `src/codec/decode.rs:292-297`. -/
def decodePairs {K V : Type} (kd : Dec K) (vd : Dec V) : Dec (K × V) := do
  let k ← kd
  let v ← vd
  pure (k, v)

/-- `VecVariantMap`, `src/codec/decode.rs:286-301`. -/
instance : DecodeF VecVariantMap where
  decF env fmt := do
    let header ← decodeMapHeader env fmt
    VecVariantMap.mk <$>
      withSlice header.size (decodeN (decodePairs (decode Str env) (decode Variant env))
        (header.count / 2))

/-- Build modes used in examples. -/
def debugEnv : Env := ⟨true, 100⟩
def releaseEnv : Env := ⟨false, 100⟩

example : decode UInt32 debugEnv [0x70, 0, 0, 1, 44, 7] = .ok ([7], 300) := by decide
example : decode Int32 debugEnv [0x54, 0xfe] = .ok ([], -2) := by decide
example : decode Variant debugEnv [0x00, 0x53, 29, 0xc1, 5, 2, 0xa3, 1, 97, 0x40, 9] =
    .ok ([9], .described (.ulong 29) (.map [(.symbol ⟨.lit "a"⟩, .null)])) := by rfl
example : decode Variant debugEnv [0xc1, 0, 0] = .panic .overflow := by rfl

end Amqp
