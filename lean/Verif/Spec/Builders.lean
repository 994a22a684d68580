import Verif.Spec.Messages
import Verif.Spec.Maps
/-!
# What a history of builder calls amounts to

What the accessors should return after a history of calls, told from the arguments
of the calls alone.
-/
set_option autoImplicit false
namespace Amqp

/-- What the calls of a history passed, in order, as far as `f` selects them. -/
def passed {α : Type} (f : Op → Option α) (ops : List Op) : List α := ops.filterMap f

def Op.format? : Op → Option (Option MessageFormat)
  | .setFormat f => some f
  | _ => none
def Op.header? : Op → Option Header
  | .setHeader h => some h
  | _ => none
def Op.props? : Op → Option (Properties → Properties)
  | .setProperties f => some f
  | _ => none
def Op.app? : Op → Option (Str × Variant)
  | .setAppProperty k v => some (k, v)
  | _ => none
def Op.value? : Op → Option Variant
  | .setValue v => some v
  | _ => none
def Op.isSetBody : Op → Bool
  | .setBody _ => true
  | _ => false

/-- The last of what was passed, or what was there before. -/
def lastOr {α : Type} (l : List α) (before : α) : α := (l.getLast?).getD before

/-- Properties after running closures on them one after the other, on empty
properties if there were none. -/
def propertiesAfter (before : Option Properties) : List (Properties → Properties) → Option Properties
  | [] => before
  | fs => some (fs.foldl (fun p f => f p) (before.getD
      ⟨none, none, none, none, none, none, none, none, none, none, none, none, none⟩))

end Amqp
