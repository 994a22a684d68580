import Verif.Codec.Reserve
/-!
# Counting decoders

`Verif.Codec.Reserve` counts the room requested by the decoders of dynamic values.
Here every decoder counts three things at once, at prices given by the caller: calls
of `decode_with_format`, elements for which `with_capacity` requests room, and bytes of
texts, binaries and payloads that are gone through, to check that they are UTF-8 or to
copy them.  That they decode the same is part of every theorem of C68 (`Thrifty.same`).

A text that is not UTF-8 is taken to be checked to its end.  Not counted: reading a
header or a number, which takes a bounded time, comparing a symbol with the symbols of
an enumeration, whose lengths are known, and inserting an entry into a `HashMap` (whose
cost depends on the hasher, see C77).
-/
set_option autoImplicit false
namespace Amqp

/-- What a call of `decode_with_format`, the room for one element, and going through one
byte of a text or binary cost. -/
structure Price where
  call : Nat
  room : Nat
  byte : Nat

/-- Counts calls only. -/
def Price.calls : Price := ⟨1, 0, 0⟩
/-- Counts requested room only. -/
def Price.rooms : Price := ⟨0, 1, 0⟩
/-- Counts bytes checked and copied only. -/
def Price.bytes : Price := ⟨0, 0, 1⟩

namespace Cost
/-- A call of `decode_with_format`. -/
def call (p : Price) : Cost Unit := reserve p.call
/-- `with_capacity(n)`. -/
def room (p : Price) (n : Nat) : Cost Unit := reserve (n * p.room)
/-- Going through `n` bytes. -/
def bytes (p : Price) (n : Nat) : Cost Unit := reserve (n * p.byte)
end Cost

/-- `DecodeFormatted`, `src/codec/mod.rs:41-46`. -/
class DecodeC (α : Type) [DecodeF α] where
  decFC : Price → Env → UInt8 → Cost α
export DecodeC (decFC)

/-- `Decode` for every `DecodeFormatted`, `src/codec/mod.rs:52-57`. -/
def decodeC (α : Type) [DecodeF α] [DecodeC α] (p : Price) (env : Env) : Cost α := do
  let fmt ← Cost.of formatCode
  decFC p env fmt

/-- A `decode_with_format` that calls no other. -/
def leafC {α : Type} (p : Price) (d : Dec α) : Cost α := do
  Cost.call p
  Cost.of d

/-- `validate_code!`, `src/codec/decode.rs:53-60`. -/
def validateCodeC {α : Type} (fmt code : UInt8) (c : Cost α) : Cost α :=
  if fmt ≠ code then Cost.of (Dec.fail (.invalidFormatCode fmt)) else c

/-! The types whose `decode_with_format` reads bytes itself. -/

/-- `src/codec/decode.rs:62-71`. -/
instance : DecodeC Bool := ⟨fun p env fmt => leafC p (decF env fmt)⟩
/-- `src/codec/decode.rs:73-78`. -/
instance : DecodeC UInt8 := ⟨fun p env fmt => leafC p (decF env fmt)⟩
/-- `src/codec/decode.rs:80-85`. -/
instance : DecodeC UInt16 := ⟨fun p env fmt => leafC p (decF env fmt)⟩
/-- `src/codec/decode.rs:87-96`. -/
instance : DecodeC UInt32 := ⟨fun p env fmt => leafC p (decF env fmt)⟩
/-- `src/codec/decode.rs:98-107`. -/
instance : DecodeC UInt64 := ⟨fun p env fmt => leafC p (decF env fmt)⟩
/-- `src/codec/decode.rs:109-114`. -/
instance : DecodeC Int8 := ⟨fun p env fmt => leafC p (decF env fmt)⟩
/-- `src/codec/decode.rs:116-121`. -/
instance : DecodeC Int16 := ⟨fun p env fmt => leafC p (decF env fmt)⟩
/-- `src/codec/decode.rs:123-131`. -/
instance : DecodeC Int32 := ⟨fun p env fmt => leafC p (decF env fmt)⟩
/-- `src/codec/decode.rs:133-141`. -/
instance : DecodeC Int64 := ⟨fun p env fmt => leafC p (decF env fmt)⟩
/-- `src/codec/decode.rs:143-148`. -/
instance : DecodeC F32 := ⟨fun p env fmt => leafC p (decF env fmt)⟩
/-- `src/codec/decode.rs:150-155`. -/
instance : DecodeC F64 := ⟨fun p env fmt => leafC p (decF env fmt)⟩
/-- `src/codec/decode.rs:157-168`. -/
instance : DecodeC Char := ⟨fun p env fmt => leafC p (decF env fmt)⟩
/-- `src/codec/decode.rs:170-175`. -/
instance : DecodeC DateTime := ⟨fun p env fmt => leafC p (decF env fmt)⟩
/-- `src/codec/decode.rs:177-184`. -/
instance : DecodeC Uuid := ⟨fun p env fmt => leafC p (decF env fmt)⟩

/-- `Bytes::from`, which copies. -/
def copyC (p : Price) (d : Dec Bytes) : Cost Bytes := do
  let b ← Cost.of d
  Cost.bytes p b.length
  pure b
/-- `str::from_utf8`, which checks, and then `from_str`, which copies. -/
def textC (p : Price) (d : Dec Bytes) : Cost RStr := do
  let b ← Cost.of d
  Cost.bytes p b.length
  let s ← Cost.of (fromUtf8 b)
  Cost.bytes p b.length
  pure s

/-- `src/codec/decode.rs:186-194`. -/
instance : DecodeC Binary where
  decFC p _ fmt := do
    Cost.call p
    if fmt = FC.binary8 then do
      let b ← copyC p readBytesU8
      pure ⟨b⟩
    else if fmt = FC.binary32 then do
      let b ← copyC p readBytesU32
      pure ⟨b⟩
    else Cost.of (Dec.fail (.invalidFormatCode fmt))
/-- `src/codec/decode.rs:196-226`. -/
instance : DecodeC RStr where
  decFC p _ fmt := do
    Cost.call p
    if fmt = FC.string8 then textC p readBytesU8
    else if fmt = FC.string32 then textC p readBytesU32
    else Cost.of (Dec.fail (.invalidFormatCode fmt))
/-- `src/codec/decode.rs:228-242`. -/
instance : DecodeC Symbol where
  decFC p _ fmt := do
    Cost.call p
    if fmt = FC.symbol8 then do
      let s ← textC p readBytesU8
      pure ⟨s⟩
    else if fmt = FC.symbol32 then do
      let s ← textC p readBytesU32
      pure ⟨s⟩
    else Cost.of (Dec.fail (.invalidFormatCode fmt))

/-! The others. -/

/-- `Option<T>`, `src/codec/decode.rs:434-441`. -/
instance {α : Type} [DecodeF α] [DecodeC α] : DecodeC (Option α) where
  decFC p env fmt := do
    Cost.call p
    if fmt = FC.null then pure none
    else do
      let v ← decFC p env fmt
      pure (some v)

/-- `Descriptor`, `src/codec/decode.rs:443-461`. -/
instance : DecodeC Descriptor where
  decFC p env fmt := do
    Cost.call p
    if fmt = FC.smallUlong ∨ fmt = FC.ulong then do
      let v ← decFC p env fmt
      pure (.ulong v)
    else if fmt = FC.symbol8 ∨ fmt = FC.symbol32 then do
      let v ← decFC p env fmt
      pure (.symbol v)
    else Cost.of (Dec.fail (.invalidFormatCode fmt))

/-- `HashMap<K, V>`, `src/codec/decode.rs:251-269`. -/
def decodeMapP {K V : Type} [HKey K] (p : Price) (kc : Cost K) (vc : Cost V) (env : Env)
    (fmt : UInt8) : Cost (List (K × V)) := do
  Cost.call p
  let header ← Cost.of (decodeMapHeader env fmt)
  withSliceC header.size do
    Cost.room p (header.count / 2)
    mapLoopC kc vc (header.count / 2) []

instance {K V : Type} [HKey K] [DecodeF K] [DecodeF V] [DecodeC K] [DecodeC V] :
    DecodeC (HMap K V) where
  decFC p env fmt := do
    let m ← decodeMapP p (decodeC K p env) (decodeC V p env) env fmt
    pure ⟨m⟩

/-- `Vec<T>`, `src/codec/decode.rs:271-284`. -/
instance {α : Type} [DecodeF α] [DecodeC α] : DecodeC (Vec α) where
  decFC p env fmt := do
    Cost.call p
    let header ← Cost.of (decodeArrayHeader env fmt)
    let itemFmt ← Cost.of indexU8
    Cost.room p header.count
    let items ← decodeNC (decFC p env itemFmt) header.count
    pure ⟨items⟩

/-- `Multiple<T>`, `src/codec/decode.rs:303-316`. -/
instance {α : Type} [DecodeF α] [DecodeC α] : DecodeC (Multiple α) where
  decFC p env fmt := do
    Cost.call p
    if fmt = FC.array8 ∨ fmt = FC.array32 then do
      let v ← (decFC p env fmt : Cost (Vec α))
      pure ⟨v.items⟩
    else do
      let x ← decFC p env fmt
      pure ⟨[x]⟩

/-- `List`, `src/codec/decode.rs:318-329`. -/
def decodeListP (p : Price) (vc : Cost Variant) (env : Env) (fmt : UInt8) : Cost (List Variant) := do
  Cost.call p
  let header ← Cost.of (decodeListHeader env fmt)
  Cost.room p header.count
  decodeNC vc header.count

/-- The codes for which `Variant::decode_with_format` hands over to the decoder of a
scalar, `src/codec/decode.rs:331-432`. -/
def delegated (fmt : UInt8) : Bool :=
  [FC.boolean, FC.ubyte, FC.ushort, FC.uint, FC.ulong, FC.byte, FC.short, FC.int, FC.long,
    FC.smallUint, FC.smallUlong, FC.smallInt, FC.smallLong, FC.float, FC.double, FC.char,
    FC.timestamp, FC.uuid].contains fmt

/-- `Variant`, `src/codec/decode.rs:331-432`.  The first number is the number of
nested calls that still fit on the stack. -/
def decVariantP (p : Price) (env : Env) : Nat → UInt8 → Cost Variant
  | 0, _ => leafC p (Dec.abort .stackOverflow)
  | depth + 1, fmt => do
    Cost.call p
    let vc : Cost Variant := do
      let f ← Cost.of formatCode
      decVariantP p env depth f
    if fmt = FC.list8 ∨ fmt = FC.list32 then do
      let l ← decodeListP p vc env fmt
      pure (.list l)
    else if fmt = FC.map8 ∨ fmt = FC.map32 then do
      let m ← decodeMapP p vc vc env fmt
      pure (.map m)
    else if fmt = FC.described then do
      let d ← decodeC Descriptor p env
      let v ← vc
      pure (.described d v)
    else if fmt = FC.binary8 ∨ fmt = FC.binary32 then do
      let b ← decFC p env fmt
      pure (.binary b)
    else if fmt = FC.string8 ∨ fmt = FC.string32 then do
      let s ← decFC p env fmt
      pure (.string s)
    else if fmt = FC.symbol8 ∨ fmt = FC.symbol32 then do
      let s ← decFC p env fmt
      pure (.symbol s)
    else if delegated fmt then leafC p (decVariant env (depth + 1) fmt)
    else Cost.of (decVariant env (depth + 1) fmt)

instance : DecodeC Variant where
  decFC p env fmt := decVariantP p env env.stackDepth fmt

/-- `List`, `src/codec/decode.rs:318-329`. -/
instance : DecodeC VList where
  decFC p env fmt := do
    let l ← decodeListP p (decodeC Variant p env) env fmt
    pure ⟨l⟩

/-- `VecVariantMap`, `src/codec/decode.rs:286-301`. -/
instance : DecodeC VecVariantMap where
  decFC p env fmt := do
    Cost.call p
    let header ← Cost.of (decodeMapHeader env fmt)
    let m ← withSliceC header.size do
      Cost.room p (header.count / 2)
      decodeNC (do
        let k ← decodeC Str p env
        let v ← decodeC Variant p env
        pure (k, v)) (header.count / 2)
    pure ⟨m⟩

end Amqp
