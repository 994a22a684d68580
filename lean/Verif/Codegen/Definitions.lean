import Verif.Codegen.Names
/-!
# What the code generator makes of a specification, `codegen/mod.rs`

From the parsed JSON document to the `Definitions` handed to the template.  Reading JSON
text and writing the template out as text are left out; what the template's text means is
in `Verif.Codegen.Template`.
-/
set_option autoImplicit false
namespace Amqp.Codegen

/-- A JSON document.  Numbers are left out: the specification has none. -/
inductive Json where
  | null
  | bool (b : Bool)
  | str (s : String)
  | arr (l : List Json)
  | obj (l : List (String × Json))

/-- How a step of the generator ends: with a result, with a deserialisation error (after
which an untagged enum tries its next variant), or with a panic, which ends the build. -/
inductive Gen (α : Type) where
  | ok (a : α)
  | mismatch
  | abort
deriving DecidableEq

namespace Gen
instance : Monad Gen where
  pure := .ok
  bind x f := match x with
    | .ok a => f a
    | .mismatch => .mismatch
    | .abort => .abort

@[simp] theorem pure_eq {α : Type} (a : α) : (pure a : Gen α) = .ok a := rfl
@[simp] theorem ok_bind {α β : Type} (a : α) (f : α → Gen β) : (Gen.ok a >>= f) = f a := rfl
@[simp] theorem mismatch_bind {α β : Type} (f : α → Gen β) : (Gen.mismatch >>= f) = .mismatch := rfl
@[simp] theorem abort_bind {α β : Type} (f : α → Gen β) : (Gen.abort >>= f) = .abort := rfl

/-- `Result::or_else` of untagged enums: a panic is not caught. -/
def orElse {α : Type} (x y : Gen α) : Gen α :=
  match x with
  | .mismatch => y
  | x => x

end Gen

/-! ## Deserialising

`#[derive(Deserialize)]` reads a struct from an object: each field by its key, further keys
are ignored, a missing key is an error unless the field is an `Option` or has
`#[serde(default)]`.  (Objects are taken to have no key twice, and structs not to be given
as arrays.) -/

/-- The entry of an object. -/
def Json.key? (name : String) : Json → Gen (Option Json)
  | .obj l => .ok ((l.find? fun e => e.1 == name).map Prod.snd)
  | _ => .mismatch

/-- A `String`. -/
def Json.asStr : Json → Gen String
  | .str s => .ok s
  | _ => .mismatch

/-- A field of type `String`. -/
def Json.strField (name : String) (j : Json) : Gen String := do
  match ← j.key? name with
  | some v => v.asStr
  | none => .mismatch

/-- A field of type `Option<String>`. -/
def Json.optField (name : String) (j : Json) : Gen (Option String) := do
  match ← j.key? name with
  | some .null => pure none
  | some v => some <$> v.asStr
  | none => pure none

/-- A field read by `string_as_bool`, `codegen/mod.rs:422-430`, with `#[serde(default)]`:
a string other than the two makes `expect` panic. -/
def Json.boolField (name : String) (j : Json) : Gen Bool := do
  match ← j.key? name with
  | some v =>
    let s ← v.asStr
    if s = "true" then pure true else if s = "false" then pure false else .abort
  | none => pure false

/-- `Vec<T>`. -/
def Json.asVec {α : Type} (item : Json → Gen α) : Json → Gen (List α)
  | .arr l => l.mapM item
  | _ => .mismatch

/-- `EnumItem`, `codegen/mod.rs:130-136`; `value_len` is set later. -/
structure RawItem where
  name : String
  value : String
deriving DecidableEq

def RawItem.read (j : Json) : Gen RawItem := do
  let name ← j.strField "name"
  let value ← j.strField "value"
  pure { name, value }

/-- `_Enum`, `codegen/mod.rs:82-88`. -/
structure RawEnum where
  name : String
  source : String
  provides : Option String
  choice : List RawItem
deriving DecidableEq

def RawEnum.read (j : Json) : Gen RawEnum := do
  let name ← j.strField "name"
  let source ← j.strField "source"
  let provides ← j.optField "provides"
  match ← j.key? "choice" with
  | some v =>
    let choice ← v.asVec RawItem.read
    pure { name, source, provides, choice }
  | none => .mismatch

/-- `_Descriptor`, `codegen/mod.rs:76-80`. -/
structure RawDescriptor where
  name : String
  code : String
deriving DecidableEq

def RawDescriptor.read (j : Json) : Gen RawDescriptor := do
  let name ← j.strField "name"
  let code ← j.strField "code"
  pure { name, code }

/-- `_Field`, `codegen/mod.rs:101-114`. -/
structure RawField where
  name : String
  ty : String
  mandatory : Bool
  default : Option String
  multiple : Bool
  requires : Option String
deriving DecidableEq

/-- The fields are looked for in the order of the struct; `serde` reads them in the order of the
document, which matters only for an object with both a missing entry (tried as another type)
and an invalid truth value (which panics, `codegen/mod.rs:422-431`). -/
def RawField.read (j : Json) : Gen RawField := do
  let name ← j.strField "name"
  let ty ← j.strField "type"
  let mandatory ← j.boolField "mandatory"
  let default ← j.optField "default"
  let multiple ← j.boolField "multiple"
  let requires ← j.optField "requires"
  pure { name, ty, mandatory, default, multiple, requires }

/-- `_Described`, `codegen/mod.rs:90-99`. -/
structure RawDescribed where
  name : String
  class_ : String
  source : String
  provides : Option String
  descriptor : RawDescriptor
  field : List RawField
deriving DecidableEq

def RawDescribed.read (j : Json) : Gen RawDescribed := do
  let name ← j.strField "name"
  let class_ ← j.strField "class"
  let source ← j.strField "source"
  let provides ← j.optField "provides"
  match ← j.key? "descriptor" with
  | some d =>
    let descriptor ← RawDescriptor.read d
    match ← j.key? "field" with
    | some v =>
      let field ← v.asVec RawField.read
      pure { name, class_, source, provides, descriptor, field }
    | none => pure { name, class_, source, provides, descriptor, field := [] }
  | none => .mismatch

/-- `_Alias`, `codegen/mod.rs:116-121`. -/
structure RawAlias where
  name : String
  source : String
  provides : Option String
deriving DecidableEq

def RawAlias.read (j : Json) : Gen RawAlias := do
  let name ← j.strField "name"
  let source ← j.strField "source"
  let provides ← j.optField "provides"
  pure { name, source, provides }

/-- `_Type`, `codegen/mod.rs:68-74`. -/
inductive RawType where
  | choice (e : RawEnum)
  | described (d : RawDescribed)
  | alias (a : RawAlias)
deriving DecidableEq

/-- `#[serde(untagged)]`: the first variant that can be read. -/
def RawType.read (j : Json) : Gen RawType :=
  (RawType.choice <$> RawEnum.read j).orElse
    ((RawType.described <$> RawDescribed.read j).orElse (RawType.alias <$> RawAlias.read j))

/-- `from_str::<Vec<_Type>>(spec).expect(..)`, `codegen/mod.rs:48`. -/
def readTypes (j : Json) : Gen (List RawType) :=
  match j.asVec RawType.read with
  | .mismatch => .abort
  | x => x

/-! ## Names of types -/

/-- `camel_case` on strings. -/
def camel (s : String) : String := .ofList (camelCase s.toList)
/-- `snake_case` on strings. -/
def snake (s : String) : String := .ofList (snakeCase s.toList)

/-- `PRIMITIVE_TYPES`, `codegen/mod.rs:8-19`. -/
def primitiveTypes : List (String × String) := [("*", "Variant"), ("binary", "Bytes"),
  ("string", "ByteStr"), ("ubyte", "u8"), ("ushort", "u16"), ("uint", "u32"), ("ulong", "u64"),
  ("boolean", "bool")]

/-- `STRING_TYPES`, `codegen/mod.rs:20`. -/
def stringTypes : List String := ["string", "symbol"]

/-- The initial `REF_TYPES`, `codegen/mod.rs:21-43`. -/
def refTypes : List String := ["Bytes", "ByteStr", "Symbol", "Fields", "Map", "MessageId",
  "Address", "NodeProperties", "Outcome", "DeliveryState", "FilterSet", "DeliveryTag", "Symbols",
  "IetfLanguageTags", "ErrorCondition", "DistributionMode"]

/-- `get_type_name`, `codegen/mod.rs:396-404`. -/
def typeName (ty : String) (req : Option String) : String :=
  match req with
  | some t => camel t
  | none => match primitiveTypes.lookup ty with
    | some p => p
    | none => camel ty

/-- `str::split` on a character. -/
def splitOn (sep : Char) : List Char → List (List Char)
  | [] => [[]]
  | ch :: t =>
    if ch = sep then [] :: splitOn sep t
    else match splitOn sep t with
      | [] => [[ch]]
      | w :: ws => (ch :: w) :: ws

/-- `str::trim`; whitespace is that of ASCII here. -/
def trim (s : List Char) : List Char :=
  ((s.dropWhile Char.isWhitespace).reverse.dropWhile Char.isWhitespace).reverse

/-- `parse_provides`, `codegen/mod.rs:406-420`.  (`split_terminator` differs from `split` in
an empty last item, and empty items are dropped.) -/
def parseProvides : Option String → List String
  | none => []
  | some v => ((splitOn ',' v.toList).map trim).filterMap fun s =>
      if s = [] then none else some (.ofList (camelCase s))

/-! ## Definitions -/

/-- `Descriptor`, `codegen/mod.rs:179-184`. -/
structure GDescriptor where
  name : String
  domain : Nat
  code : Nat
deriving DecidableEq

/-- The value of a hexadecimal digit. -/
def hexDigit (ch : Char) : Option Nat :=
  if '0' ≤ ch ∧ ch ≤ '9' then some (ch.toNat - '0'.toNat)
  else if 'a' ≤ ch ∧ ch ≤ 'f' then some (ch.toNat - 'a'.toNat + 10)
  else if 'A' ≤ ch ∧ ch ≤ 'F' then some (ch.toNat - 'A'.toNat + 10)
  else none

/-- The digits of a hexadecimal number, after the number read so far. -/
def hexDigits : Nat → List Char → Option Nat
  | n, [] => some n
  | n, ch :: t => (hexDigit ch).bind fun d => hexDigits (16 * n + d) t

/-- `u32::from_str_radix(s, 16)`: an optional `+`, at least one digit, no overflow. -/
def parseHex32 (s : List Char) : Option Nat :=
  let digits := match s with
    | '+' :: t => t
    | s => s
  if digits = [] then none
  else (hexDigits 0 digits).bind fun n => if n < 2 ^ 32 then some n else none

/-- One part of a code: `assert!` and `expect`, `codegen/mod.rs:350-353`. -/
def codePart : List Char → Gen Nat
  | '0' :: 'x' :: t => match parseHex32 t with
    | some n => .ok n
    | none => .abort
  | _ => .abort

/-- `Descriptor::from`, `codegen/mod.rs:345-361`. -/
def GDescriptor.from (d : RawDescriptor) : Gen GDescriptor := do
  match ← (splitOn ':' d.code.toList).mapM codePart with
  | domain :: code :: _ => pure { name := d.name, domain, code }
  | _ => .abort

/-- `Field`, `codegen/mod.rs:186-195`. -/
structure GField where
  name : String
  ty : String
  is_str : Bool
  is_ref : Bool
  optional : Bool
  default : String
  multiple : Bool
deriving DecidableEq

/-- The types seen while parsing: `REF_TYPES` and `ENUM_TYPES` after the loop of
`codegen/mod.rs:49-63`. -/
structure Known where
  refs : List String
  enums : List String

/-- The loop of `codegen/mod.rs:49-63`. -/
def known (types : List RawType) : Known where
  refs := refTypes ++ types.filterMap fun
    | .described l => if l.source = "list" then some (camel l.name) else none
    | _ => none
  enums := types.filterMap fun
    | .choice e => some (camel e.name)
    | _ => none

/-- `Field::format_default`, `codegen/mod.rs:382-393`. -/
def formatDefault (k : Known) (default : Option String) (ty : String) : String :=
  match default with
  | none => ""
  | some d => if k.enums.contains ty then ty ++ "::" ++ camel d else d

/-- `Field::from`, `codegen/mod.rs:363-380`. -/
def GField.from (k : Known) (f : RawField) : GField :=
  let ty := typeName f.ty f.requires ++ (if f.multiple then "s" else "")
  let default := formatDefault k f.default ty
  { name := snake f.name
    ty
    is_ref := k.refs.contains ty
    is_str := stringTypes.contains ty && !f.multiple
    optional := !f.mandatory && default.length == 0
    multiple := f.multiple
    default }

/-- `Alias`, `codegen/mod.rs:123-128`. -/
structure GAlias where
  name : String
  source : String
  provides : List String
deriving DecidableEq

/-- `Alias::from`, `codegen/mod.rs:289-297`. -/
def GAlias.from (a : RawAlias) : GAlias :=
  { name := camel a.name, source := typeName a.source none, provides := parseProvides a.provides }

/-- `EnumItem`, `codegen/mod.rs:130-136`. -/
structure GItem where
  name : String
  value : String
  value_len : Nat
deriving DecidableEq

/-- `Enum`, `codegen/mod.rs:160-167`. -/
structure GEnum where
  name : String
  ty : String
  provides : List String
  items : List GItem
  is_symbol : Bool
deriving DecidableEq

/-- `Enum::from`, `codegen/mod.rs:299-319`. -/
def GEnum.from (e : RawEnum) : GEnum :=
  let ty := typeName e.source none
  { name := camel e.name
    ty
    provides := parseProvides e.provides
    is_symbol := ty == "Symbol"
    items := e.choice.map fun c =>
      { name := camel c.name, value_len := c.value.utf8ByteSize, value := c.value } }

/-- `Described`, `codegen/mod.rs:169-177`. -/
structure GDescribed where
  name : String
  ty : String
  provides : List String
  descriptor : GDescriptor
  fields : List GField
  transfer : Bool
deriving DecidableEq

/-- `Described::list`, `codegen/mod.rs:322-332`. -/
def GDescribed.list (k : Known) (d : RawDescribed) : Gen GDescribed := do
  let descriptor ← GDescriptor.from d.descriptor
  pure { name := camel d.name, ty := "", provides := parseProvides d.provides, descriptor
         fields := d.field.map (GField.from k), transfer := d.name == "transfer" }

/-- `Described::alias`, `codegen/mod.rs:333-342`. -/
def GDescribed.alias (k : Known) (d : RawDescribed) : Gen GDescribed := do
  let descriptor ← GDescriptor.from d.descriptor
  pure { name := camel d.name, ty := typeName d.source none, provides := parseProvides d.provides
         descriptor, fields := d.field.map (GField.from k), transfer := false }

/-- `ProvidesItem`, `codegen/mod.rs:154-158`. -/
structure GOption where
  ty : String
  descriptor : GDescriptor
deriving DecidableEq

/-- `ProvidesEnum`, `codegen/mod.rs:147-152`. -/
structure GUnion where
  name : String
  described : Bool
  options : List GOption
deriving DecidableEq

/-- `Definitions`, `codegen/mod.rs:138-145`.  `provides` comes out of a `HashMap`, so its
order is arbitrary; here it is that of the first occurrence. -/
structure Definitions where
  aliases : List GAlias := []
  enums : List GEnum := []
  lists : List GDescribed := []
  described_restricted : List GDescribed := []
  provides : List GUnion := []
deriving DecidableEq

/-- `map.entry(p).or_insert_with(|| vec![]).push(item)`, `codegen/mod.rs:274-286`. -/
def register (p : String) (item : GOption) :
    List (String × List GOption) → List (String × List GOption)
  | [] => [(p, [item])]
  | (q, l) :: t => if q = p then (q, l ++ [item]) :: t else (q, l) :: register p item t

/-- `register_provides`, `codegen/mod.rs:268-287`. -/
def registerProvides (name : String) (descriptor : Option GDescriptor) (provides : List String)
    (map : List (String × List GOption)) : List (String × List GOption) :=
  provides.foldl (fun map p =>
    register p ⟨name, descriptor.getD { name := "", domain := 0, code := 0 }⟩ map) map

/-- The state of the loop of `Definitions::from`: what has been collected, and
`provide_map`. -/
structure Collected where
  defs : Definitions := {}
  provideMap : List (String × List GOption) := []
deriving DecidableEq

/-- The body of the loop, `codegen/mod.rs:204-243`. -/
def step (k : Known) (c : Collected) : RawType → Gen Collected
  | .alias a =>
    if a.source ≠ "map" then
      let al := GAlias.from a
      pure { defs := { c.defs with aliases := c.defs.aliases ++ [al] }
             provideMap := registerProvides al.name none al.provides c.provideMap }
    else pure c
  | .choice e =>
    let en := GEnum.from e
    pure { defs := { c.defs with enums := c.defs.enums ++ [en] }
           provideMap := registerProvides en.name none en.provides c.provideMap }
  | .described d =>
    if d.source = "list" ∧ d.class_ ≠ "restricted" then do
      let ls ← GDescribed.list k d
      pure { defs := { c.defs with lists := c.defs.lists ++ [ls] }
             provideMap := registerProvides ls.name (some ls.descriptor) ls.provides c.provideMap }
    else if d.class_ = "restricted" then do
      let ls ← GDescribed.alias k d
      pure { defs := { c.defs with described_restricted := c.defs.described_restricted ++ [ls] }
             provideMap := registerProvides ls.name (some ls.descriptor) ls.provides c.provideMap }
    else pure c

/-- What becomes of an entry of `provide_map`, `codegen/mod.rs:246-263`. -/
def unionOf (e : String × List GOption) : Option GUnion :=
  if e.2.length = 1 then none
  else some { described := if e.1 = "Frame" then false else e.2.any fun v => v.descriptor.code != 0
              name := e.1, options := e.2 }

/-- `Definitions::from`, `codegen/mod.rs:198-266`. -/
def Definitions.from (types : List RawType) : Gen Definitions := do
  let c ← types.foldlM (step (known types)) {}
  pure { c.defs with provides := c.provideMap.filterMap unionOf }

/-- `parse`, `codegen/mod.rs:47-66`, from the JSON document on. -/
def parse (spec : Json) : Gen Definitions := do
  let types ← readTypes spec
  Definitions.from types

end Amqp.Codegen
