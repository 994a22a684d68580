import Verif.Codegen.Compile
/-!
# What a specification says

Independent of how the generator goes through it: the document that lists given types, which
of them are lists, which are described types with an underlying type, which types provide a
given union, and how a code is written.
-/
set_option autoImplicit false
namespace Amqp.Codegen.Spec

/-! ## The document -/

/-- An entry that is left out if there is no value. -/
def optional (name : String) : Option String → List (String × Json)
  | none => []
  | some s => [(name, .str s)]

/-- A truth value is written as a string. -/
def bool (b : Bool) : Json := .str (if b then "true" else "false")

def item (i : RawItem) : Json := .obj [("name", .str i.name), ("value", .str i.value)]

def field (f : RawField) : Json :=
  .obj ([("name", .str f.name), ("type", .str f.ty), ("mandatory", bool f.mandatory),
    ("multiple", bool f.multiple)] ++ optional "default" f.default ++ optional "requires" f.requires)

def descriptor (d : RawDescriptor) : Json := .obj [("name", .str d.name), ("code", .str d.code)]

/-- A type as it stands in the specification. -/
def type : RawType → Json
  | .choice e => .obj ([("name", .str e.name), ("source", .str e.source),
      ("choice", .arr (e.choice.map item))] ++ optional "provides" e.provides)
  | .described d => .obj ([("name", .str d.name), ("class", .str d.class_),
      ("source", .str d.source), ("descriptor", descriptor d.descriptor),
      ("field", .arr (d.field.map field))] ++ optional "provides" d.provides)
  | .alias a => .obj ([("name", .str a.name), ("source", .str a.source)] ++
      optional "provides" a.provides)

/-- The specification that lists the types. -/
def document (ts : List RawType) : Json := .arr (ts.map type)

/-! ## Which type is what -/

/-- A composite type: a described list that is not a restriction. -/
def list? : RawType → Option RawDescribed
  | .described d => if d.source = "list" ∧ d.class_ ≠ "restricted" then some d else none
  | _ => none

/-- A described type with an underlying type. -/
def restricted? : RawType → Option RawDescribed
  | .described d => if d.class_ = "restricted" then some d else none
  | _ => none

/-- An enumeration. -/
def enum? : RawType → Option RawEnum
  | .choice e => some e
  | _ => none

/-- A mere alias; maps are not generated. -/
def alias? : RawType → Option RawAlias
  | .alias a => if a.source = "map" then none else some a
  | _ => none

/-- The unions a type provides, and itself as an option of them.  A type without descriptor
has the code 0. -/
def provided : RawType → List String × GOption
  | .alias a => (if a.source = "map" then [] else parseProvides a.provides,
      ⟨camel a.name, ⟨"", 0, 0⟩⟩)
  | .choice e => (parseProvides e.provides, ⟨camel e.name, ⟨"", 0, 0⟩⟩)
  | .described d =>
    (if d.source = "list" ∧ d.class_ ≠ "restricted" ∨ d.class_ = "restricted" then
        parseProvides d.provides else [],
      ⟨camel d.name, match GDescriptor.from d.descriptor with
        | .ok c => c
        | _ => ⟨"", 0, 0⟩⟩)

/-- What the type contributes to the union `u`: itself, as often as it says so. -/
def options (u : String) (t : RawType) : List GOption :=
  (provided t).1.filterMap fun p => if p = u then some (provided t).2 else none

/-- The type does not stop the generator: if it is described, its code can be read. -/
def Acceptable : RawType → Prop
  | .described d => (d.source = "list" ∧ d.class_ ≠ "restricted" ∨ d.class_ = "restricted") →
      ∃ g, GDescriptor.from d.descriptor = .ok g
  | _ => True

/-- The Rust names of the enumerations. -/
def enumNames (ts : List RawType) : List String := (ts.filterMap enum?).map fun e => camel e.name

/-- The Rust name of a type of the specification. -/
def named (s : String) : String :=
  if s = "*" then "Variant" else if s = "binary" then "Bytes" else if s = "string" then "ByteStr"
  else if s = "ubyte" then "u8" else if s = "ushort" then "u16" else if s = "uint" then "u32"
  else if s = "ulong" then "u64" else if s = "boolean" then "bool" else camel s

/-- The Rust type of a field: that of its requirement if there is one, else its own; `s` is
appended for several values. -/
def typeOf (f : RawField) : String :=
  (match f.requires with
    | some r => camel r
    | none => named f.ty) ++ (if f.multiple then "s" else "")

/-- The type a Rust name stands for: if the specification has an alias of this name, what its
source stands for, else a type that is not an alias. -/
inductive StandsFor (ts : List RawType) : String → Ty → Prop
  | alias {n : String} {a : RawAlias} {ty : Ty} :
      (ts.filterMap alias?).find? (fun a => camel a.name == n) = some a →
      StandsFor ts (named a.source) ty → StandsFor ts n ty
  | type {n : String} {ty : Ty} : (∀ a ∈ ts.filterMap alias?, camel a.name ≠ n) →
      (n, ty) ∈ namesInScope → StandsFor ts n ty

/-- The default of a field as it is written in Rust: the path of an item if the field is of
an enumeration, else as it stands. -/
def defaultOf (ts : List RawType) (f : RawField) : Option String :=
  f.default.map fun d => if typeOf f ∈ enumNames ts then typeOf f ++ "::" ++ camel d else d

/-- A field with a default has this default when absent, whether or not it is mandatory; of
the others those that are not mandatory are optional. -/
def kind (ts : List RawType) (f : RawField) : Kind :=
  match defaultOf ts f with
  | some d => if d = "" then (if f.mandatory then .mandatory else .optional) else .default d
  | none => if f.mandatory then .mandatory else .optional

/-- What is said of a list in the specification. -/
def saysList (ts : List RawType) (r : RawDescribed) :
    String × String × Gen Nat × Bool × List (String × Kind) :=
  (camel r.name, r.descriptor.name, GDescriptor.code <$> GDescriptor.from r.descriptor,
    r.name == "transfer", r.field.map fun f => (snake f.name, kind ts f))

/-- What is said of a described type with an underlying type. -/
def saysRestricted (r : RawDescribed) : String × String × Gen Nat :=
  (camel r.name, r.descriptor.name, GDescriptor.code <$> GDescriptor.from r.descriptor)

/-- What is said of an enumeration: whether it is one of symbols, its items, their values and
the lengths of these. -/
def saysEnum (e : RawEnum) : String × Bool × List (String × String × Nat) :=
  (camel e.name, named e.source == "Symbol", e.choice.map fun i => (camel i.name, i.value, i.value.utf8ByteSize))

/-! ## Codes -/

/-- `0x` and a hexadecimal number, perhaps after zeros. -/
def hex (zeros n : Nat) : List Char := ['0', 'x'] ++ (List.replicate zeros '0' ++ Nat.toDigits 16 n)

/-- `ch` stands for the digit `d`. -/
def DigitOf (d : Nat) (ch : Char) : Prop :=
  "0123456789abcdef".toList[d]? = some ch ∨ "0123456789ABCDEF".toList[d]? = some ch

/-- `s` stands for the hexadecimal number `n`. -/
inductive Hex : Nat → List Char → Prop
  | one {d : Nat} {ch : Char} : DigitOf d ch → Hex d [ch]
  | more {n d : Nat} {s : List Char} {ch : Char} : Hex n s → DigitOf d ch →
      Hex (16 * n + d) (s ++ [ch])

/-- `s` is a part of a code: `0x`, perhaps a plus sign, and a number of 32 bits. -/
def Part (n : Nat) (s : List Char) : Prop :=
  n < 2 ^ 32 ∧ ∃ digits, Hex n digits ∧ (s = '0' :: 'x' :: digits ∨ s = '0' :: 'x' :: '+' :: digits)

/-- Strings with a character between them. -/
def joined (sep : Char) : List (List Char) → List Char
  | [] => []
  | w :: ws => w ++ ws.flatMap (sep :: ·)

/-- `s` is the code with the given domain; what follows the second part is of no account. -/
def Code (domain code : Nat) (s : List Char) : Prop :=
  ∃ a b rest, Part domain a ∧ Part code b ∧ (∀ r ∈ rest, ∃ n, Part n r) ∧
    s = joined ':' (a :: b :: rest)

/-! ## Provisions -/

/-- `s` is the text `n` between spaces; `n` neither begins nor ends with one. -/
def Padded (s n : List Char) : Prop :=
  ∃ l r, s = l ++ n ++ r ∧ (∀ c ∈ l, c.isWhitespace = true) ∧ (∀ c ∈ r, c.isWhitespace = true) ∧
    (∀ c, n.head? = some c → c.isWhitespace = false) ∧
    (∀ c, n.getLast? = some c → c.isWhitespace = false)

end Amqp.Codegen.Spec
