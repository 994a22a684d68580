import Verif.Spec.Work
import Verif.Protocol.Base
/-!
# How deep values nest

Each list, map and performative around a field measures it once more when it is
written.  How many there can be is known from the type (`fixed`), but for the lists and maps
in values of any type (`nest`).
-/
set_option autoImplicit false
namespace Amqp

class Nesting (α : Type) where
  fixed : Nat
  nest : α → Nat

export Nesting (nest)
/-- How many lists and maps are in a value for its type alone. -/
abbrev fixed (α : Type) [Nesting α] : Nat := Nesting.fixed α

/-- Nothing is inside. -/
@[reducible] def Nesting.flat (α : Type) : Nesting α := ⟨0, fun _ => 0⟩

instance : Nesting Bool := .flat _
instance : Nesting UInt8 := .flat _
instance : Nesting UInt16 := .flat _
instance : Nesting UInt32 := .flat _
instance : Nesting UInt64 := .flat _
instance : Nesting DateTime := .flat _
instance : Nesting Binary := .flat _
instance : Nesting RStr := .flat _
instance : Nesting Symbol := .flat _
instance : Nesting (Multiple Symbol) := .flat _
instance : Nesting MessageId := .flat _
instance : Nesting ErrorCondition := .flat _
instance : Nesting DistributionMode := .flat _
instance : Nesting Variant := ⟨0, Variant.levels⟩
instance : Nesting VList := ⟨1, fun l => levelsList l.items⟩

instance {α : Type} [Nesting α] : Nesting (Option α) := ⟨fixed α, fun o => o.elim 0 nest⟩

/-- The deepest of the keys and values. -/
def nestEntries {K V : Type} [Nesting K] [Nesting V] : List (K × V) → Nat
  | [] => 0
  | (k, v) :: t => max (max (nest k) (nest v)) (nestEntries t)

instance {K V : Type} [Nesting K] [Nesting V] : Nesting (HMap K V) :=
  ⟨1 + max (fixed K) (fixed V), fun m => nestEntries m.entries⟩
instance : Nesting VecVariantMap := ⟨1, fun m => nestEntries m.entries⟩

end Amqp
