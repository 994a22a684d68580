import Verif.Work
import Verif.Protocol.Frame
import Verif.Framing
/-!
# How often `encode` and `encoded_size` are called for frames

The encoders of performatives and frames with a counter of the calls of `encode`
and `encoded_size` (and of `array_encode` and `array_encoded_size`) they make.  The
list types of `src/protocol/definitions.rs` are in `Verif.Protocol.Work`, which is
generated.  Messages are in
`Verif.Protocol.WorkMessages`, frames in `Verif.Protocol.WorkFrames`.
-/
set_option autoImplicit false
namespace Amqp

/-- `trait Encode`, `src/codec/mod.rs:20-24`, with a counter of calls. -/
class EncodeC (α : Type) where
  measureC : α → Counted Nat
  writeC : α → Counted Bytes

export EncodeC (measureC writeC)

/-- Types whose functions call no others. -/
@[reducible] def EncodeC.leaf (α : Type) [Encode α] : EncodeC α :=
  ⟨fun v => ⟨size v, 1⟩, fun v => ⟨enc v, 1⟩⟩

/-- Types whose functions call, respectively, `m` and `w - 1` others. -/
@[reducible] def EncodeC.over (α : Type) [Encode α] (m w : Nat) : EncodeC α :=
  ⟨fun v => ⟨size v, m⟩, fun v => ⟨enc v, w⟩⟩

/-- `src/codec/encode.rs:31-50`. -/
instance : EncodeC Bool := .leaf _
/-- `src/codec/encode.rs:9-28` (`encode_fixed_width`). -/
instance : EncodeC UInt8 := .leaf _
instance : EncodeC UInt16 := .leaf _
/-- `src/codec/encode.rs:75-95`. -/
instance : EncodeC UInt32 := .leaf _
/-- `src/codec/encode.rs:107-127`. -/
instance : EncodeC UInt64 := .leaf _
instance : EncodeC DateTime := .leaf _
/-- `src/codec/encode.rs:290-305`. -/
instance : EncodeC Binary := .leaf _
/-- `src/codec/encode.rs:321-336,351-400`: `Str` hands over to `str`. -/
instance : EncodeC RStr := .over _ 2 2
/-- `src/codec/encode.rs:402-431`. -/
instance : EncodeC Symbol := .leaf _
/-- `src/codec/encode.rs:628-686`. -/
instance : EncodeC Variant := ⟨Variant.sizeC, Variant.encC⟩

/-- `src/protocol/mod.rs:79-97`; the string is a `ByteStr`. -/
instance : EncodeC MessageId := .over _ 2 2
/-- `src/protocol/mod.rs:128-148`, and the conditions it hands over to, which write a
`StaticSymbol`; `src/protocol/definitions.rs:628-810`. -/
instance : EncodeC ErrorCondition := .over _ 2 3
/-- `src/protocol/mod.rs:169-185`. -/
instance : EncodeC DistributionMode := .over _ 2 2

/-- `Option<T>`, `src/codec/encode.rs:688-699`. -/
instance {α : Type} [EncodeC α] : EncodeC (Option α) where
  measureC
    | some v => ⟨(measureC v).val, 1 + (measureC v).calls⟩
    | none => ⟨1, 1⟩
  writeC
    | some v => ⟨(writeC v).val, 1 + (writeC v).calls⟩
    | none => ⟨encNull, 1⟩

/-- `Multiple<T>`, `src/codec/encode.rs:574-594`, which hands over to the only item or to
`Vec<T>`, `src/codec/encode.rs:544-572`, which measures every item and writes every item. -/
instance {α : Type} [Encode α] [ArrayEncode α] [EncodeC α] : EncodeC (Multiple α) where
  measureC m := match m.items with
    | [x] => ⟨(measureC x).val, 1 + (measureC x).calls⟩
    | xs => ⟨size (Vec.mk xs), 2 + xs.length⟩
  writeC m := match m.items with
    | [x] => ⟨(writeC x).val, 1 + (writeC x).calls⟩
    | xs => ⟨enc (Vec.mk xs), 2 + 2 * xs.length⟩

/-- `map_encoded_size`, `src/codec/encode.rs:453-458`. -/
def entriesMeasureC {K V : Type} [EncodeC K] [EncodeC V] : List (K × V) → Counted Nat
  | [] => ⟨0, 0⟩
  | (k, v) :: t =>
    ⟨(measureC k).val + (measureC v).val + (entriesMeasureC t).val,
      (measureC k).calls + (measureC v).calls + (entriesMeasureC t).calls⟩
/-- The loop of `HashMap::encode`, `src/codec/encode.rs:480-483`. -/
def entriesWriteC {K V : Type} [EncodeC K] [EncodeC V] : List (K × V) → Counted Bytes
  | [] => ⟨[], 0⟩
  | (k, v) :: t =>
    ⟨(writeC k).val ++ (writeC v).val ++ (entriesWriteC t).val,
      (writeC k).calls + (writeC v).calls + (entriesWriteC t).calls⟩

/-- Maps: `src/codec/encode.rs:459-485`, and `VecVariantMap`,
`src/codec/encode.rs:504-538`, which are measured again when they are written. -/
def mapMeasureC {K V : Type} [EncodeC K] [EncodeC V] (m : List (K × V)) : Counted Nat :=
  ⟨compoundSize (entriesMeasureC m).val, 1 + (entriesMeasureC m).calls⟩
def mapWriteC {K V : Type} [EncodeC K] [EncodeC V] (m : List (K × V)) : Counted Bytes :=
  ⟨compoundHdr FC.map8 FC.map32 (entriesMeasureC m).val (m.length * 2) ++ (entriesWriteC m).val,
    1 + (entriesMeasureC m).calls + (entriesWriteC m).calls⟩

instance {K V : Type} [EncodeC K] [EncodeC V] : EncodeC (HMap K V) :=
  ⟨fun m => mapMeasureC m.entries, fun m => mapWriteC m.entries⟩
instance : EncodeC VecVariantMap :=
  ⟨fun m => mapMeasureC m.entries, fun m => mapWriteC m.entries⟩

/-- `List`, `src/codec/encode.rs:596-626`. -/
instance : EncodeC VList where
  measureC l := ⟨compoundSize (sizeListC l.items).val, 1 + (sizeListC l.items).calls⟩
  writeC l := ⟨compoundHdr FC.array8 FC.array32 (sizeListC l.items).val l.items.length ++
    (encListC l.items).val, 1 + (sizeListC l.items).calls + (encListC l.items).calls⟩

end Amqp
