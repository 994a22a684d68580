import Verif.Work
/-!
# Vocabulary for the work done by encoders
-/
set_option autoImplicit false
namespace Amqp

mutual
/-- How many lists and maps enclose the innermost value, at most. -/
def Variant.levels : Variant → Nat
  | .list l => levelsList l + 1
  | .map m => levelsMap m + 1
  | .described _ v => v.levels
  | _ => 0
def levelsList : List Variant → Nat
  | [] => 0
  | v :: t => max v.levels (levelsList t)
def levelsMap : List (Variant × Variant) → Nat
  | [] => 0
  | (k, v) :: t => max (max k.levels v.levels) (levelsMap t)
end

mutual
/-- How often the values in a value are looked at when it is encoded: each once to write it,
and once for each list or map around it, whose size is wanted; `d` are around the value. -/
def Variant.visits (d : Nat) : Variant → Nat
  | .list l => visitsList (d + 1) l + (d + 1)
  | .map m => visitsMap (d + 1) m + (d + 1)
  | .described _ v => v.visits d + (d + 1)
  | _ => d + 1
def visitsList (d : Nat) : List Variant → Nat
  | [] => 0
  | v :: t => v.visits d + visitsList d t
def visitsMap (d : Nat) : List (Variant × Variant) → Nat
  | [] => 0
  | (k, v) :: t => k.visits d + v.visits d + visitsMap d t
end

mutual
/-- The number of values in a value, itself included. -/
def Variant.values : Variant → Nat
  | .list l => valuesList l + 1
  | .map m => valuesMap m + 1
  | .described _ v => v.values + 1
  | _ => 1
def valuesList : List Variant → Nat
  | [] => 0
  | v :: t => v.values + valuesList t
def valuesMap : List (Variant × Variant) → Nat
  | [] => 0
  | (k, v) :: t => k.values + v.values + valuesMap t
end

mutual
/-- No message in it remembers a size. -/
def TransferBody.Unmeasured : TransferBody → Prop
  | .Data _ => True
  | .MessageIn m ms => m.cache = 0 ∧ UnmeasuredAll ms
  | .MessageOut m ms => m.cache = 0 ∧ UnmeasuredAll ms
def UnmeasuredAll : List TransferBody → Prop
  | [] => True
  | b :: t => b.Unmeasured ∧ UnmeasuredAll t
end

/-- Encoding takes a number of calls proportional to the bytes written. -/
def LinearWork {α : Type} (encode : α → Counted Bytes) : Prop :=
  ∃ c, ∀ a, (encode a).calls ≤ c * ((encode a).val.length + 1)

/-- A map in a map in a map …, `n` deep. -/
def nestedMaps : Nat → Variant
  | 0 => .null
  | n + 1 => .map [(.null, nestedMaps n)]

end Amqp
