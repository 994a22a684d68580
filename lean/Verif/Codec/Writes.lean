import Verif.Codec.Encode
import Verif.Buf
/-!
# The calls encoders make on the buffer, `src/codec/encode.rs`

`enc` of the model is what an encoder appends.  Here it is cut into the calls that
append it.  A run of `put_*` calls is one `put` of what they put, which changes neither
whether there is a panic nor what is in the buffer if there is none
(`Buf.putSlice_append`).
-/
set_option autoImplicit false
namespace Amqp

/-- The bytes appended by some calls. -/
def outputOf (l : List Write) : Bytes := l.flatMap Write.out

@[simp] theorem outputOf_nil : outputOf [] = [] := rfl
@[simp] theorem outputOf_put (b : Bytes) (t : List Write) : outputOf (.put b :: t) = b ++ outputOf t := rfl
@[simp] theorem outputOf_extend (b : Bytes) (t : List Write) :
    outputOf (.extend b :: t) = b ++ outputOf t := rfl
@[simp] theorem outputOf_append (a b : List Write) : outputOf (a ++ b) = outputOf a ++ outputOf b := by
  simp [outputOf]

/-- The calls `Encode::encode` makes, and that they append what `enc` says. -/
class EncodeW (α : Type) [Encode α] where
  writes : α → List Write
  output : ∀ v, outputOf (writes v) = enc v
export EncodeW (writes)
attribute [simp] EncodeW.output

/-- `Encode::encode(&self, buf: &mut BytesMut)`, `src/codec/mod.rs:23`, as a function of the
buffer. -/
def encodeInto {ε α : Type} [Encode α] [EncodeW α] (grow : Growth) (v : α) (b : Buf) : Res ε Buf :=
  b.run grow (writes v)

/-- The calls `ArrayEncode::array_encode` makes. -/
class ArrayEncodeW (α : Type) [ArrayEncode α] where
  awrites : α → List Write
  output : ∀ v, outputOf (awrites v) = aenc v
export ArrayEncodeW (awrites)
attribute [simp] ArrayEncodeW.output

/-- Types whose encoder only uses `put_*`. -/
@[reducible] def putsOnly (α : Type) [Encode α] : EncodeW α := ⟨fun v => [.put (enc v)], fun v => by simp⟩
/-- The same for array items. -/
@[reducible] def aputsOnly (α : Type) [ArrayEncode α] : ArrayEncodeW α :=
  ⟨fun v => [.put (aenc v)], fun v => by simp⟩

/-- `src/codec/encode.rs:13-276`. -/
instance : EncodeW Bool := putsOnly _
instance : EncodeW UInt8 := putsOnly _
instance : EncodeW UInt16 := putsOnly _
instance : EncodeW UInt32 := putsOnly _
instance : EncodeW UInt64 := putsOnly _
instance : EncodeW Int8 := putsOnly _
instance : EncodeW Int16 := putsOnly _
instance : EncodeW Int32 := putsOnly _
instance : EncodeW Int64 := putsOnly _
instance : EncodeW F32 := putsOnly _
instance : EncodeW F64 := putsOnly _
instance : EncodeW Char := putsOnly _
instance : EncodeW DateTime := putsOnly _
instance : ArrayEncodeW Bool := aputsOnly _
instance : ArrayEncodeW UInt8 := aputsOnly _
instance : ArrayEncodeW UInt16 := aputsOnly _
instance : ArrayEncodeW UInt32 := aputsOnly _
instance : ArrayEncodeW UInt64 := aputsOnly _
instance : ArrayEncodeW Int8 := aputsOnly _
instance : ArrayEncodeW Int16 := aputsOnly _
instance : ArrayEncodeW Int32 := aputsOnly _
instance : ArrayEncodeW Int64 := aputsOnly _
instance : ArrayEncodeW F32 := aputsOnly _
instance : ArrayEncodeW F64 := aputsOnly _
instance : ArrayEncodeW Char := aputsOnly _
instance : ArrayEncodeW DateTime := aputsOnly _

/-- `src/codec/encode.rs:278-288`: `extend_from_slice`. -/
instance : ArrayEncodeW Uuid := ⟨fun u => [.extend u.bytes], fun u => by simp [aenc]⟩
/-- The format code (`src/codec/encode.rs:25-28`), then as above. -/
instance : EncodeW Uuid :=
  ⟨fun u => .put [FC.uuid] :: awrites u, fun u => by simp [enc, fixedEncode, ArrayEncode.code]⟩

/-- `src/codec/encode.rs:290-451,701-718`. -/
instance : EncodeW Binary := putsOnly _
instance : EncodeW RStr := putsOnly _
instance : EncodeW Symbol := putsOnly _
instance : EncodeW Descriptor := putsOnly _
instance : ArrayEncodeW Binary := aputsOnly _
instance : ArrayEncodeW RStr := aputsOnly _
instance : ArrayEncodeW Symbol := aputsOnly _

/-- `Option<T>`, `src/codec/encode.rs:688-699`. -/
instance {α : Type} [Encode α] [EncodeW α] : EncodeW (Option α) where
  writes
    | some v => writes v
    | none => [.put encNull]
  output
    | some v => by simp [enc]
    | none => by simp [enc]

/-- `for (k, v) in self { k.encode(buf); v.encode(buf); }`, `src/codec/encode.rs:480-483,533-536`. -/
def mapWrites {K V : Type} (kw : K → List Write) (vw : V → List Write) : List (K × V) → List Write
  | [] => []
  | (k, v) :: t => kw k ++ vw v ++ mapWrites kw vw t

theorem mapWrites_output {K V : Type} {kw : K → List Write} {vw : V → List Write} {ke : K → Bytes}
    {ve : V → Bytes} (l : List (K × V)) (hk : ∀ e ∈ l, outputOf (kw e.1) = ke e.1)
    (hv : ∀ e ∈ l, outputOf (vw e.2) = ve e.2) : outputOf (mapWrites kw vw l) = mapContent ke ve l := by
  induction l with
  | nil => rfl
  | cons e t ih =>
    obtain ⟨k, v⟩ := e
    simp only [mapWrites, mapContent, outputOf_append]
    rw [ih (fun e he => hk e (by simp [he])) (fun e he => hv e (by simp [he])),
      hk (k, v) (by simp), hv (k, v) (by simp)]

/-- `HashMap<K, V>`, `src/codec/encode.rs:459-485`. -/
instance {K V : Type} [Encode K] [Encode V] [EncodeW K] [EncodeW V] : EncodeW (HMap K V) where
  writes m := .put (compoundHdr FC.map8 FC.map32 (mapContentSize size size m.entries)
    (m.entries.length * 2)) :: mapWrites writes writes m.entries
  output m := by
    rw [outputOf_put, mapWrites_output (ke := enc) (ve := enc) _ (by simp) (by simp)]; rfl

/-- `HashMap<K, V>` as array item, `src/codec/encode.rs:486-502`. -/
instance {K V : Type} [Encode K] [Encode V] [EncodeW K] [EncodeW V] : ArrayEncodeW (HMap K V) where
  awrites m := .put (beEnc 4 (mapContentSize size size m.entries + 4) ++
    beEnc 4 (m.entries.length * 2)) :: mapWrites writes writes m.entries
  output m := by
    rw [outputOf_put, mapWrites_output (ke := enc) (ve := enc) _ (by simp) (by simp)]; rfl

/-- `for i in self { i.array_encode(buf); }`, `src/codec/encode.rs:568-570`. -/
def arrayWrites {α : Type} [ArrayEncode α] [ArrayEncodeW α] : List α → List Write
  | [] => []
  | a :: t => awrites a ++ arrayWrites t

theorem arrayWrites_output {α : Type} [ArrayEncode α] [ArrayEncodeW α] (l : List α) :
    outputOf (arrayWrites l) = arrayContent l := by
  induction l with
  | nil => rfl
  | cons a t ih => simp [arrayWrites, arrayContent, ih]

/-- `Vec<T>`, `src/codec/encode.rs:544-572`. -/
instance {α : Type} [ArrayEncode α] [ArrayEncodeW α] : EncodeW (Vec α) where
  writes v := .put ((if arrayContentSize v.items + 1 > 255 then
      FC.array32 :: (beEnc 4 (arrayContentSize v.items + 5) ++ beEnc 4 v.items.length)
    else [FC.array8, UInt8.ofNat (arrayContentSize v.items + 2), UInt8.ofNat v.items.length]) ++
    [ArrayEncode.code α]) :: arrayWrites v.items
  output v := by
    rw [outputOf_put, arrayWrites_output, List.append_assoc]; rfl

/-- `Multiple<T>`, `src/codec/encode.rs:574-594`. -/
instance {α : Type} [Encode α] [ArrayEncode α] [EncodeW α] [ArrayEncodeW α] : EncodeW (Multiple α) where
  writes m := match m.items with
    | [x] => writes x
    | xs => writes (Vec.mk xs)
  output m := by
    obtain ⟨l⟩ := m
    match l with
    | [] => exact EncodeW.output (Vec.mk [])
    | [x] => exact EncodeW.output x
    | a :: b :: t => exact EncodeW.output (Vec.mk (a :: b :: t))

mutual
/-- `Variant::encode`, `src/codec/encode.rs:657-686`. -/
def Variant.vwrites : Variant → List Write
  | .null => [.put encNull]
  | .boolean b => writes b
  | .ubyte n => writes n
  | .ushort n => writes n
  | .uint n => writes n
  | .ulong n => writes n
  | .byte n => writes n
  | .short n => writes n
  | .int n => writes n
  | .long n => writes n
  | .float x => writes x
  | .double x => writes x
  | .char c => writes c
  | .timestamp t => writes t
  | .uuid u => writes u
  | .binary b => writes b
  | .string s => writes s
  | .symbol s => writes s
  | .staticSymbol s => [.put (encStaticSymbol s)]
  | .list l => .put (compoundHdr FC.array8 FC.array32 (vsizeList l) l.length) :: vwritesList l
  | .map m => .put (compoundHdr FC.map8 FC.map32 (vsizeMap m) (m.length * 2)) :: vwritesMap m
  | .described d v => writes d ++ v.vwrites
/-- The items of a list, `src/codec/encode.rs:621-625`. -/
def vwritesList : List Variant → List Write
  | [] => []
  | v :: t => v.vwrites ++ vwritesList t
/-- The entries of a map, `src/codec/encode.rs:480-483`. -/
def vwritesMap : List (Variant × Variant) → List Write
  | [] => []
  | (k, v) :: t => k.vwrites ++ v.vwrites ++ vwritesMap t
end

mutual
theorem Variant.vwrites_output : ∀ v : Variant, outputOf v.vwrites = v.venc
  | .null => by simp [Variant.vwrites, Variant.venc]
  | .boolean _ => by simp [Variant.vwrites, Variant.venc]
  | .ubyte _ => by simp [Variant.vwrites, Variant.venc]
  | .ushort _ => by simp [Variant.vwrites, Variant.venc]
  | .uint _ => by simp [Variant.vwrites, Variant.venc]
  | .ulong _ => by simp [Variant.vwrites, Variant.venc]
  | .byte _ => by simp [Variant.vwrites, Variant.venc]
  | .short _ => by simp [Variant.vwrites, Variant.venc]
  | .int _ => by simp [Variant.vwrites, Variant.venc]
  | .long _ => by simp [Variant.vwrites, Variant.venc]
  | .float _ => by simp [Variant.vwrites, Variant.venc]
  | .double _ => by simp [Variant.vwrites, Variant.venc]
  | .char _ => by simp [Variant.vwrites, Variant.venc]
  | .timestamp _ => by simp [Variant.vwrites, Variant.venc]
  | .uuid _ => by simp only [Variant.vwrites, Variant.venc, EncodeW.output]
  | .binary _ => by simp [Variant.vwrites, Variant.venc]
  | .string _ => by simp [Variant.vwrites, Variant.venc]
  | .symbol _ => by simp [Variant.vwrites, Variant.venc]
  | .staticSymbol _ => by simp [Variant.vwrites, Variant.venc]
  | .list l => by
    simp only [Variant.vwrites, Variant.venc, outputOf_put]
    rw [vwritesList_output l]
  | .map m => by
    simp only [Variant.vwrites, Variant.venc, outputOf_put]
    rw [vwritesMap_output m]
  | .described d v => by
    simp only [Variant.vwrites, Variant.venc, outputOf_append, EncodeW.output]
    rw [v.vwrites_output]
theorem vwritesList_output : ∀ l : List Variant, outputOf (vwritesList l) = vencList l
  | [] => by simp [vwritesList, vencList]
  | v :: t => by
    simp only [vwritesList, vencList, outputOf_append]
    rw [v.vwrites_output, vwritesList_output t]
theorem vwritesMap_output : ∀ m : List (Variant × Variant), outputOf (vwritesMap m) = vencMap m
  | [] => by simp [vwritesMap, vencMap]
  | (k, v) :: t => by
    simp only [vwritesMap, vencMap, outputOf_append]
    rw [k.vwrites_output, v.vwrites_output, vwritesMap_output t]
end

instance : EncodeW Variant := ⟨Variant.vwrites, Variant.vwrites_output⟩

/-- `List`, `src/codec/encode.rs:596-626`. -/
instance : EncodeW VList where
  writes l := .put (compoundHdr FC.array8 FC.array32 (vsizeList l.items) l.items.length) ::
    vwritesList l.items
  output l := by rw [outputOf_put, vwritesList_output]; rfl

/-- `VecVariantMap`, `src/codec/encode.rs:504-538`. -/
instance : EncodeW VecVariantMap where
  writes m := .put (compoundHdr FC.map8 FC.map32 (mapContentSize size size m.entries)
    (m.entries.length * 2)) :: mapWrites writes writes m.entries
  output m := by
    rw [outputOf_put, mapWrites_output (ke := enc) (ve := enc) _ (by simp) (by simp)]; rfl

end Amqp
