import Verif.Equality
import Verif.Spec.Variant
/-!
# What `==` should be

Vocabulary for C63; nothing here models code of the repository.  Values a program
can hold: the hash maps inside have distinct, hashable keys.
-/
set_option autoImplicit false
namespace Amqp

/-- Values of the type that can exist in a program. -/
class Holdable (α : Type) where
  held : α → Prop

export Holdable (held)

/-- Every value of the model type can exist. -/
@[reducible] def Holdable.any (α : Type) : Holdable α := ⟨fun _ => True⟩

instance : Holdable Bool := .any _
instance : Holdable UInt8 := .any _
instance : Holdable UInt16 := .any _
instance : Holdable UInt32 := .any _
instance : Holdable UInt64 := .any _
instance : Holdable RStr := .any _
instance : Holdable Symbol := .any _
instance : Holdable Binary := .any _
instance : Holdable DateTime := .any _
instance : Holdable MessageId := .any _
instance : Holdable ErrorCondition := .any _
instance : Holdable DistributionMode := .any _
instance : Holdable Variant := ⟨Variant.Valid⟩
instance {α : Type} [Holdable α] : Holdable (Option α) := ⟨fun o => ∀ a, o = some a → held a⟩
instance {α : Type} [Holdable α] : Holdable (List α) := ⟨fun l => ∀ a ∈ l, held a⟩
instance {α : Type} [Holdable α] : Holdable (Multiple α) := ⟨fun m => held m.items⟩
instance : Holdable VList := ⟨fun l => held l.items⟩
instance : Holdable VecVariantMap := ⟨fun m => ∀ e ∈ m.entries, held e.2⟩
instance {K V : Type} [HKey K] [Holdable V] : Holdable (HMap K V) :=
  ⟨fun m => (∀ e ∈ m.entries, HKey.hashOk e.1 = true ∧ held e.2) ∧ NodupKeys m.entries⟩

/-- `==` is an equivalence on the values a program can hold. -/
def EqualityLawful (α : Type) [REq α] [Holdable α] : Prop :=
  (∀ a : α, held a → req a a = true) ∧
  (∀ a b : α, held a → held b → req a b = true → req b a = true) ∧
  (∀ a b c : α, held a → held b → held c → req a b = true → req b c = true → req a c = true)

/-- Equal values announce the same encoded size. -/
def EqualSizes (α : Type) [REq α] [Holdable α] [Encode α] : Prop :=
  ∀ a b : α, held a → held b → req a b = true → size a = size b

end Amqp
