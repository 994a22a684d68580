import Verif.Spec.Generated
/-!
# Versions of a specification

The vocabulary of the statements about specifications that grow: fields appended to a list
type, items to an enumeration, options to a union.
-/
set_option autoImplicit false
namespace Amqp.Codegen

/-- The fields that the older version has, too. -/
def Struct.known : {fs gs : List TField} → Struct (fs ++ gs) → Struct fs
  | [], _, _ => ()
  | _ :: t, gs, v => (v.1, Struct.known (fs := t) (gs := gs) v.2)

/-- The fields of the older version and the added ones. -/
def Struct.plus : {fs gs : List TField} → Struct fs → Struct gs → Struct (fs ++ gs)
  | [], _, _, w => w
  | _ :: _, _, v, w => (v.1, Struct.plus v.2 w)

/-- What the specification demands of a field that is left out. -/
def TField.leftOut : (f : TField) → Except String f.Value
  | .optional _ => .ok none
  | .default _ d => .ok d
  | .mandatory name _ => .error name

/-- The same for a row of fields: their values, or the name of the first one that must not be
left out. -/
def leftOut : (fs : List TField) → Except String (Struct fs)
  | [] => .ok ()
  | f :: t => match f.leftOut, leftOut t with
    | .error n, _ => .error n
    | _, .error n => .error n
    | .ok a, .ok r => .ok (a, r)

/-- A list type with fields appended; the symbolic descriptor may change. -/
def TList.extend (L : TList) (name : String) (gs : List TField) : TList :=
  { code := L.code, name, fields := L.fields ++ gs }

/-- An enumeration with items appended. -/
def CEnum.extend (e : CEnum) (added : List (String × String × Nat)) : CEnum :=
  { e with items := e.items ++ added }

/-- The same option of a union with more options. -/
def Union.widen : {os ps : List TOption} → Union os → Union (os ++ ps)
  | _ :: _, _, .inl v => .inl v
  | _ :: _, _, .inr u => .inr (Union.widen u)

/-- An added option of a union. -/
def Union.added : {os ps : List TOption} → Union ps → Union (os ++ ps)
  | [], _, u => u
  | _ :: t, _, u => .inr (Union.added (os := t) u)

end Amqp.Codegen
