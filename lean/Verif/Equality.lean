import Verif.Protocol.Frame
import Verif.Framing
/-!
# Equality: `derive(PartialEq)`

`==` of the values, performatives, frames and messages of the public API.  A
derived `PartialEq` compares field by field, or the variant tags and then the
fields.  The list types of `src/protocol/definitions.rs` are in
`Verif.Protocol.Equality`, which is generated.
-/
set_option autoImplicit false
namespace Amqp

/-- `trait PartialEq`. -/
class REq (α : Type) where
  req : α → α → Bool

export REq (req)

/-- Types on which `==` is identity of the modelled values: integers, texts
(compared as bytes, `src/types/mod.rs:140-175`), byte strings, `DateTime`, and
enums built from these. -/
@[reducible] def REq.ofDec (α : Type) [DecidableEq α] : REq α := ⟨fun a b => decide (a = b)⟩

instance : REq Bool := .ofDec _
instance : REq UInt8 := .ofDec _
instance : REq UInt16 := .ofDec _
instance : REq UInt32 := .ofDec _
instance : REq UInt64 := .ofDec _
instance : REq RStr := .ofDec _
/-- `src/types/symbol.rs:8`. -/
instance : REq Symbol := .ofDec _
instance : REq Binary := .ofDec _
instance : REq DateTime := .ofDec _
/-- `src/protocol/mod.rs:51`. -/
instance : REq MessageId := .ofDec _
/-- `src/protocol/mod.rs:99`. -/
instance : REq ErrorCondition := .ofDec _
/-- `src/protocol/mod.rs:150`. -/
instance : REq DistributionMode := .ofDec _

/-- `src/types/variant.rs:12`. -/
instance : REq Variant := ⟨Variant.veq⟩

/-- `Option<T> ==`. -/
instance {α : Type} [REq α] : REq (Option α) where
  req
    | some a, some b => req a b
    | none, none => true
    | _, _ => false

/-- `Vec<T> ==`: same length, items equal in order. -/
def listReq {α : Type} (eq : α → α → Bool) : List α → List α → Bool
  | [], [] => true
  | a :: as, b :: bs => eq a b && listReq eq as bs
  | _, _ => false

instance {α : Type} [REq α] : REq (List α) := ⟨listReq req⟩
/-- `Multiple<T>`, `src/types/mod.rs:19`. -/
instance {α : Type} [REq α] : REq (Multiple α) := ⟨fun a b => req a.items b.items⟩
/-- `List`, `src/types/mod.rs:56`. -/
instance : REq VList := ⟨fun a b => req a.items b.items⟩
/-- `VecVariantMap`, `src/types/variant.rs:144`: pairs in order. -/
instance : REq VecVariantMap :=
  ⟨fun a b => listReq (fun x y => decide (x.1 = y.1) && req x.2 y.2) a.entries b.entries⟩

/-- `HashMap ==` (hashbrown): same length, and
`self.iter().all(|(k, v)| other.get(k).map_or(false, |w| v == w))`. -/
def mapReq {K V : Type} [HKey K] [REq V] (a b : List (K × V)) : Bool :=
  a.length == b.length && a.all fun e =>
    match findEntry (HKey.keq e.1) b with
    | some w => req e.2 w
    | none => false

instance {K V : Type} [HKey K] [REq V] : REq (HMap K V) := ⟨fun a b => mapReq a.entries b.entries⟩

end Amqp
