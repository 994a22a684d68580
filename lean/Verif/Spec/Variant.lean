import Verif.Types
/-!
# Which variants can survive a round trip

Specification vocabulary for C14; nothing here models code of the repository.
-/
namespace Amqp

/-- No key equals an earlier one: what the entry sequence of a `HashMap` satisfies. -/
def NodupKeys {K V : Type} [HKey K] (l : List (K × V)) : Prop :=
  l.Pairwise fun a b => HKey.keq b.1 a.1 = false

mutual
/-- Levels of nesting of a variant; an unstructured value has one. -/
def Variant.depth : Variant → Nat
  | .list l => depthList l + 1
  | .map m => depthMap m + 1
  | .described _ v => v.depth + 1
  | _ => 1
def depthList : List Variant → Nat
  | [] => 0
  | v :: t => max v.depth (depthList t)
def depthMap : List (Variant × Variant) → Nat
  | [] => 0
  | (k, v) :: t => max (max k.depth v.depth) (depthMap t)
end

/-- Timestamps that survive (C12): whole milliseconds; from the epoch on in
ordinary form; before the epoch at least a second before it, and whole seconds
only in leap-second form. -/
def DateTime.Survives (t : DateTime) : Prop :=
  t.nanos % 1000000 = 0 ∧
    ((0 ≤ t.secs ∧ t.nanos < 1000000000) ∨ (t.secs ≤ -2 ∧ 0 < t.nanos ∧ t.nanos ≤ 1000000000))

mutual
/-- Variants that survive: no list, static symbol or descriptor 0 anywhere,
timestamps as above, and maps whose keys are distinct (which holds of every
`HashMap`) and hashable (contain no map). -/
def Variant.Survives : Variant → Prop
  | .timestamp t => t.Survives
  | .staticSymbol _ => False
  | .list _ => False
  | .map m => survivesMap m ∧ (∀ e ∈ m, e.1.hashOk = true) ∧ NodupKeys m
  | .described d v => d ≠ .ulong 0 ∧ v.Survives
  | _ => True
def survivesMap : List (Variant × Variant) → Prop
  | [] => True
  | (k, v) :: t => (k.Survives ∧ v.Survives) ∧ survivesMap t
end

mutual
/-- Values that can exist in a program: the maps inside have distinct, hashable
keys, as every `HashMap` does. -/
def Variant.Valid : Variant → Prop
  | .list l => validList l
  | .map m => validMap m ∧ (∀ e ∈ m, e.1.hashOk = true) ∧ NodupKeys m
  | .described _ v => v.Valid
  | _ => True
def validList : List Variant → Prop
  | [] => True
  | v :: t => v.Valid ∧ validList t
def validMap : List (Variant × Variant) → Prop
  | [] => True
  | (k, v) :: t => (k.Valid ∧ v.Valid) ∧ validMap t
end

mutual
/-- Values whose constructs the encoder writes in a form the decoder accepts: no
list and no descriptor 0 anywhere inside. -/
def Variant.Plain : Variant → Prop
  | .list _ => False
  | .map m => plainMap m
  | .described d v => d ≠ .ulong 0 ∧ v.Plain
  | _ => True
def plainMap : List (Variant × Variant) → Prop
  | [] => True
  | (k, v) :: t => (k.Plain ∧ v.Plain) ∧ plainMap t
end

end Amqp
