import Verif.Codec.Decode
/-!
# Room reserved by the decoders

The decoders of collections call `with_capacity(count)` with the count found in
the input before they read an item.  Here the same decoders count the elements for
which room is requested.  That they decode the same is `C53_same_result`.

Allocations that copy bytes already read (`Bytes::from`, `from_slice`) are not
counted.
-/
set_option autoImplicit false
namespace Amqp

/-- A decoder with the number of elements it requests room for. -/
def Cost (α : Type) : Type := Bytes → Res ParseError (Bytes × α) × Nat

namespace Cost
variable {α β : Type}

protected def pure (a : α) : Cost α := fun i => (.ok (i, a), 0)
/-- The `?` operator: what was requested before a failure counts. -/
protected def bind (c : Cost α) (f : α → Cost β) : Cost β := fun i =>
  match c i with
  | (.ok (r, a), n) => ((f a r).1, n + (f a r).2)
  | (.err e, n) => (.err e, n)
  | (.panic p, n) => (.panic p, n)
instance : Monad Cost where
  pure := Cost.pure
  bind := Cost.bind

/-- A decoder that requests nothing. -/
def of (d : Dec α) : Cost α := fun i => (d i, 0)
/-- `with_capacity(n)`. -/
def reserve (n : Nat) : Cost Unit := fun i => (.ok (i, ()), n)

end Cost

/-- The item loops, `src/codec/decode.rs:277-282,292-297,322-327`. -/
def decodeNC {α : Type} (c : Cost α) : Nat → Cost (List α)
  | 0 => pure []
  | n + 1 => do
    let x ← c
    let xs ← decodeNC c n
    pure (x :: xs)

/-- `&input[..n]` handed to `c`, `src/codec/decode.rs:256,268,289,300`. -/
def withSliceC {α : Type} (n : Nat) (c : Cost α) : Cost α := fun i =>
  if i.length < n then (.panic .sliceIndex, 0)
  else match c (i.take n) with
    | (.ok (_, a), m) => (.ok (i.drop n, a), m)
    | (.err e, m) => (.err e, m)
    | (.panic p, m) => (.panic p, m)

/-- The entry loop of `HashMap`, `src/codec/decode.rs:260-265`.  (Inserting needs
no further room: it has been reserved.) -/
def mapLoopC {K V : Type} [HKey K] (kc : Cost K) (vc : Cost V) :
    Nat → List (K × V) → Cost (List (K × V))
  | 0, acc => pure acc
  | n + 1, acc => do
    let k ← kc
    let v ← vc
    if HKey.hashOk k then mapLoopC kc vc n (insertEntry HKey.keq k v acc)
    else Cost.of (Dec.abort .unimplemented)

/-- `HashMap<K, V>`, `src/codec/decode.rs:251-269`. -/
def decodeMapWithC {K V : Type} [HKey K] (kc : Cost K) (vc : Cost V) (env : Env) (fmt : UInt8) :
    Cost (List (K × V)) := do
  let header ← Cost.of (decodeMapHeader env fmt)
  withSliceC header.size do
    Cost.reserve (header.count / 2)
    mapLoopC kc vc (header.count / 2) []

/-- `Vec<T>`, `src/codec/decode.rs:271-284`. -/
def decodeVecWithC {α : Type} (c : UInt8 → Cost α) (env : Env) (fmt : UInt8) : Cost (List α) := do
  let header ← Cost.of (decodeArrayHeader env fmt)
  let itemFmt ← Cost.of indexU8
  Cost.reserve header.count
  decodeNC (c itemFmt) header.count

/-- `List`, `src/codec/decode.rs:318-329`. -/
def decodeListWithC (vc : Cost Variant) (env : Env) (fmt : UInt8) : Cost (List Variant) := do
  let header ← Cost.of (decodeListHeader env fmt)
  Cost.reserve header.count
  decodeNC vc header.count

/-- `Variant`, `src/codec/decode.rs:331-432`.  The branches other than lists, maps
and described values request nothing. -/
def decVariantC (env : Env) : Nat → UInt8 → Cost Variant
  | 0, _ => Cost.of (Dec.abort .stackOverflow)
  | depth + 1, fmt =>
    let vc : Cost Variant := do
      let f ← Cost.of formatCode
      decVariantC env depth f
    if fmt = FC.list8 ∨ fmt = FC.list32 then do
      let l ← decodeListWithC vc env fmt
      pure (.list l)
    else if fmt = FC.map8 ∨ fmt = FC.map32 then do
      let m ← decodeMapWithC vc vc env fmt
      pure (.map m)
    else if fmt = FC.described then do
      let d ← Cost.of (decode Descriptor env)
      let v ← vc
      pure (.described d v)
    else Cost.of (decVariant env (depth + 1) fmt)

/-- `Variant::decode`, `src/codec/mod.rs:48-53`, with a stack budget. -/
def decVarC (env : Env) (depth : Nat) : Cost Variant := do
  let f ← Cost.of formatCode
  decVariantC env depth f

/-- `Variant::decode`. -/
def variantC (env : Env) : Cost Variant := decVarC env env.stackDepth

/-- `List::decode`. -/
def listC (env : Env) : Cost VList := do
  let f ← Cost.of formatCode
  let l ← decodeListWithC (variantC env) env f
  pure ⟨l⟩

/-- `HashMap<K, Variant>::decode` for keys that request nothing. -/
def mapC {K : Type} [HKey K] [DecodeF K] (env : Env) : Cost (HMap K Variant) := do
  let f ← Cost.of formatCode
  let m ← decodeMapWithC (Cost.of (decode K env)) (variantC env) env f
  pure ⟨m⟩

/-- `VecVariantMap::decode`, `src/codec/decode.rs:286-301`. -/
def vecMapC (env : Env) : Cost VecVariantMap := do
  let f ← Cost.of formatCode
  let header ← Cost.of (decodeMapHeader env f)
  let m ← withSliceC header.size do
    Cost.reserve (header.count / 2)
    decodeNC (do
      let k ← Cost.of (decode Str env)
      let v ← variantC env
      pure (k, v)) (header.count / 2)
  pure ⟨m⟩

/-- `Vec<T>::decode` for items that request nothing. -/
def vecC {α : Type} [DecodeF α] (env : Env) : Cost (Vec α) := do
  let f ← Cost.of formatCode
  let l ← decodeVecWithC (fun c => Cost.of (decF env c)) env f
  pure ⟨l⟩

end Amqp
