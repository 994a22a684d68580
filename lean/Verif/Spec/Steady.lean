import Verif.Spec.Equality
/-!
# Values whose bytes are settled by `==`

Vocabulary for C92; nothing here models code of the repository.  Equal floats may
have different bits (zeros of either sign, and NaNs), and equal maps may list their
entries in different orders; a steady value has no such part.
-/
set_option autoImplicit false
namespace Amqp

/-- Neither a zero nor NaN. -/
def F32.Steady (x : F32) : Prop :=
  x.bits.toNat % 2 ^ 31 ≠ 0 ∧ x.bits.toNat % 2 ^ 31 ≤ 0x7f800000
/-- Neither a zero nor NaN. -/
def F64.Steady (x : F64) : Prop :=
  x.bits.toNat % 2 ^ 63 ≠ 0 ∧ x.bits.toNat % 2 ^ 63 ≤ 0x7ff0000000000000

mutual
/-- No zero or NaN in floating point, and no map of several entries, anywhere inside. -/
def Variant.Steady : Variant → Prop
  | .float x => x.Steady
  | .double x => x.Steady
  | .list l => steadyList l
  | .map m => m.length ≤ 1 ∧ steadyMap m
  | .described _ v => v.Steady
  | _ => True
def steadyList : List Variant → Prop
  | [] => True
  | v :: t => v.Steady ∧ steadyList t
def steadyMap : List (Variant × Variant) → Prop
  | [] => True
  | (k, v) :: t => (k.Steady ∧ v.Steady) ∧ steadyMap t
end

/-- Values of the type whose bytes are settled by `==`. -/
class Steadiness (α : Type) where
  steady : α → Prop

export Steadiness (steady)

/-- Every value is steady. -/
@[reducible] def Steadiness.any (α : Type) : Steadiness α := ⟨fun _ => True⟩

instance : Steadiness Bool := .any _
instance : Steadiness UInt8 := .any _
instance : Steadiness UInt16 := .any _
instance : Steadiness UInt32 := .any _
instance : Steadiness UInt64 := .any _
instance : Steadiness RStr := .any _
instance : Steadiness Symbol := .any _
instance : Steadiness Binary := .any _
instance : Steadiness DateTime := .any _
instance : Steadiness MessageId := .any _
instance : Steadiness ErrorCondition := .any _
instance : Steadiness DistributionMode := .any _
instance : Steadiness Variant := ⟨Variant.Steady⟩
instance {α : Type} [Steadiness α] : Steadiness (Option α) := ⟨fun o => ∀ a, o = some a → steady a⟩
instance {α : Type} [Steadiness α] : Steadiness (List α) := ⟨fun l => ∀ a ∈ l, steady a⟩
instance {α : Type} [Steadiness α] : Steadiness (Multiple α) := ⟨fun m => steady m.items⟩
instance : Steadiness VList := ⟨fun l => steady l.items⟩
instance : Steadiness VecVariantMap := ⟨fun m => ∀ e ∈ m.entries, steady e.2⟩
instance {K V : Type} [Steadiness K] [Steadiness V] : Steadiness (HMap K V) :=
  ⟨fun m => m.entries.length ≤ 1 ∧ ∀ e ∈ m.entries, steady e.1 ∧ steady e.2⟩

end Amqp
