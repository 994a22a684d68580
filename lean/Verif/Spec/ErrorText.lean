import Verif.Protocol.Lists
/-!
# The symbols and strings in an error of the protocol

For C89.
-/
set_option autoImplicit false
namespace Amqp

/-- The text of a descriptor, if it has one. -/
def Descriptor.texts : Descriptor → List Bytes
  | .ulong _ => []
  | .symbol s => [s.str.bytes]

mutual
/-- The strings and symbols in a value. -/
def Variant.texts : Variant → List Bytes
  | .string s => [s.bytes]
  | .symbol s => [s.str.bytes]
  | .list l => itemTexts l
  | .map m => pairTexts m
  | .described d v => d.texts ++ v.texts
  | _ => []
def itemTexts : List Variant → List Bytes
  | [] => []
  | v :: t => v.texts ++ itemTexts t
def pairTexts : List (Variant × Variant) → List Bytes
  | [] => []
  | (k, v) :: t => k.texts ++ v.texts ++ pairTexts t
end

mutual
/-- No number in a value is NaN. -/
def Variant.Numbers : Variant → Prop
  | .float x => x.isNaN = false
  | .double x => x.isNaN = false
  | .list l => itemNumbers l
  | .map m => pairNumbers m
  | .described _ v => v.Numbers
  | _ => True
def itemNumbers : List Variant → Prop
  | [] => True
  | v :: t => v.Numbers ∧ itemNumbers t
def pairNumbers : List (Variant × Variant) → Prop
  | [] => True
  | (k, v) :: t => k.Numbers ∧ v.Numbers ∧ pairNumbers t
end

/-- The symbol of a condition that is none of the standard ones. -/
def ErrorCondition.texts : ErrorCondition → List Bytes
  | .Custom s => [s.str.bytes]
  | _ => []

/-- The symbols and strings in a map of the standard's type fields. -/
def Fields.texts (m : Fields) : List Bytes :=
  m.entries.flatMap fun p => p.1.str.bytes :: p.2.texts

/-- The symbols and strings in an error, except its description. -/
def Error.texts (e : Error) : List Bytes :=
  e.condition.texts ++ e.info.elim [] Fields.texts

/-- No number in an error is NaN. -/
def Error.Numbers (e : Error) : Prop := ∀ m, e.info = some m → ∀ p ∈ m.entries, p.2.Numbers

/-- No double quotes in the text of the condition. -/
def ErrorCondition.Tame (c : ErrorCondition) : Prop := ∀ s, c = .Custom s → 0x22 ∉ s.str.bytes

end Amqp
