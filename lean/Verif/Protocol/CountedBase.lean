import Verif.Codec.Counted
import Verif.Protocol.Conditions
/-!
# Counting decoders of the protocol types: building blocks

The counterparts of `Verif.Protocol.Base` and `Verif.Protocol.Conditions`.
-/
set_option autoImplicit false
namespace Amqp

/-- `FieldDec` with a count. -/
def FieldCost (α : Type) : Type := Nat × Bytes → Res ParseError ((Nat × Bytes) × α) × Nat

namespace FieldCost
variable {α β : Type}

protected def pure (a : α) : FieldCost α := fun s => (.ok (s, a), 0)
/-- The `?` operator: what was spent before a failure counts. -/
protected def bind (c : FieldCost α) (f : α → FieldCost β) : FieldCost β := fun s =>
  match c s with
  | (.ok (t, a), n) => ((f a t).1, n + (f a t).2)
  | (.err e, n) => (.err e, n)
  | (.panic p, n) => (.panic p, n)
instance : Monad FieldCost where
  pure := FieldCost.pure
  bind := FieldCost.bind
end FieldCost

/-- Decode one present field. -/
def presentC {α : Type} (c : Cost α) (n : Nat) (i : Bytes) :
    Res ParseError ((Nat × Bytes) × α) × Nat :=
  match c i with
  | (.ok (r, a), m) => (.ok ((n, r), a), m)
  | (.err e, m) => (.err e, m)
  | (.panic p, m) => (.panic p, m)

/-- A mandatory field, e.g. `src/protocol/definitions.rs:1094-1101`. -/
def fReqC (α : Type) [DecodeF α] [DecodeC α] (p : Price) (env : Env) (name : String) : FieldCost α
  | (0, _) => (.err (.requiredFieldOmitted name), 0)
  | (n + 1, i) => presentC (decodeC α p env) n i

/-- An optional field, e.g. `src/protocol/definitions.rs:1103-1110`. -/
def fOptC (α : Type) [DecodeF α] [DecodeC α] (p : Price) (env : Env) : FieldCost (Option α)
  | (0, i) => (.ok ((0, i), none), 0)
  | (n + 1, i) => presentC (decodeC (Option α) p env) n i

/-- A field with a default, e.g. `src/protocol/definitions.rs:2301-2309`. -/
def fDefC (α : Type) [DecodeF α] [DecodeC α] (p : Price) (env : Env) (d : α) : FieldCost α
  | (0, i) => (.ok ((0, i), d), 0)
  | (n + 1, i) => presentC (do
      let o ← decodeC (Option α) p env
      pure (o.getD d)) n i

/-- The fields part, run on the list body. -/
def onBody {α : Type} (fields : FieldCost α) (count : Nat) (body : Bytes) : Cost α := fun r =>
  match fields (count, body) with
  | (.ok (_, a), m) => (.ok (r, a), m)
  | (.err e, m) => (.err e, m)
  | (.panic p, m) => (.panic p, m)

/-- `decode_*_inner`, e.g. `src/protocol/definitions.rs:1086-1128`. -/
def listInnerC {α : Type} (env : Env) (fields : FieldCost α) : Cost α := do
  let fmt ← Cost.of formatCode
  let header ← Cost.of (decodeListHeader env fmt)
  let body ← Cost.of (takeN header.size)
  onBody fields header.count body

/-- `DecodeFormatted` of every list type, e.g. `src/protocol/definitions.rs:1162-1176`. -/
def describedAsC {α : Type} (p : Price) (env : Env) (fmt : UInt8) (code : UInt64) (name : String)
    (c : Cost α) : Cost α := do
  Cost.call p
  validateCodeC fmt FC.described do
    let descriptor ← decodeC Descriptor p env
    let isMatch := match descriptor with
      | .ulong val => val == code
      | .symbol sym => sym.str.bytes == (RStr.lit name).bytes
    if !isMatch then Cost.of (Dec.fail (.invalidDescriptor descriptor)) else c

/-- `DecodeFormatted` of unions of described types, e.g.
`src/protocol/definitions.rs:178-218`. -/
def unionC {α : Type} (p : Price) (env : Env) (fmt : UInt8) (dispatch : Descriptor → Cost α) :
    Cost α := do
  Cost.call p
  validateCodeC fmt FC.described do
    let descriptor ← decodeC Descriptor p env
    dispatch descriptor

/-- `DecodeFormatted` of restricted enumerations, e.g. `src/protocol/definitions.rs:453-458`. -/
def decodeEnumC {β α : Type} [DecodeF β] [DecodeC β] (tryFrom : β → Res ParseError α) (p : Price)
    (env : Env) (fmt : UInt8) : Cost α := do
  Cost.call p
  let base ← decFC p env fmt
  match tryFrom base with
  | .ok a => pure a
  | .err e => Cost.of (Dec.fail e)
  | .panic p => Cost.of (Dec.abort p)

/-- `MessageId`, `src/protocol/mod.rs:59-78`. -/
instance : DecodeC MessageId where
  decFC p env fmt := do
    Cost.call p
    if fmt = FC.smallUlong ∨ fmt = FC.ulong ∨ fmt = FC.ulong0 then do
      let v ← decFC p env fmt
      pure (.Ulong v)
    else if fmt = FC.uuid then do
      let v ← decFC p env fmt
      pure (.Uuid v)
    else if fmt = FC.binary8 ∨ fmt = FC.binary32 then do
      let v ← decFC p env fmt
      pure (.Binary v)
    else if fmt = FC.string8 ∨ fmt = FC.string32 then do
      let v ← decFC p env fmt
      pure (.String v)
    else Cost.of (Dec.fail (.invalidFormatCode fmt))

/-- `ErrorCondition`, `src/protocol/mod.rs:108-126`. -/
instance : DecodeC ErrorCondition where
  decFC p env fmt := do
    Cost.call p
    let result ← decFC p env fmt
    pure (ErrorCondition.ofSymbol result)

/-- `DistributionMode`, `src/protocol/mod.rs:157-167`. -/
instance : DecodeC DistributionMode where
  decFC p env fmt := do
    Cost.call p
    let result ← decFC p env fmt
    pure (DistributionMode.ofSymbol result)

end Amqp
