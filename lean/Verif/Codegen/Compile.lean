import Verif.Codegen.Template
import Verif.Protocol.Conditions
/-!
# The names in generated code and the types they stand for

The template refers to types by name.  Names are resolved as the Rust compiler does: type
aliases of the generated file, `codegen/definitions.rs:182-184`, are followed; the other
names are those of generated types, of the prelude, and those in scope through
`use super::*`, `codegen/definitions.rs:8`.
-/
set_option autoImplicit false
namespace Amqp.Codegen

/-- The Rust types met in the generated code. -/
inductive Ty where
  | variant | bytes | byteStr | u8 | u16 | u32 | u64 | bool | uuid | symbol | list | map | fields
  | annotations | stringVariantMap | filterSet | timestamp | symbols | ietfLanguageTags
  | messageId | errorCondition | distributionMode
  | role | senderSettleMode | receiverSettleMode | saslCode | terminusDurability
  | terminusExpiryPolicy | error | source | target | outcome | deliveryState
deriving DecidableEq, Repr

/-- Decimal digits, after the number read so far. -/
def decDigits : Nat → List Char → Option Nat
  | n, [] => some n
  | n, ch :: t =>
    if '0' ≤ ch ∧ ch ≤ '9' then decDigits (10 * n + (ch.toNat - '0'.toNat)) t else none

/-- An integer literal below `bound`; a literal that does not fit does not compile. -/
def decimal (bound : Nat) (s : String) : Option Nat :=
  if s.toList = [] then none
  else (decDigits 0 s.toList).bind fun n => if n < bound then some n else none

/-- The path of a variant of an enumeration. -/
def path {α : Type} (name : String) (variants : List (String × α)) (s : String) : Option α :=
  (variants.find? fun v => s == name ++ "::" ++ v.1).map Prod.snd

/-- The types, with the literals and paths that can be written for their values.
`src/protocol/mod.rs:39-46`, `:51-57`, `:99-105`, `:150-155`, and the generated types. -/
def Ty.rust : Ty → RustType
  | .variant => .of Variant
  | .bytes => .of Binary
  | .byteStr => .of ByteStr
  | .u8 => .of UInt8 fun s => (decimal 256 s).map .ofNat
  | .u16 => .of UInt16 fun s => (decimal 65536 s).map .ofNat
  | .u32 => .of UInt32 fun s => (decimal 4294967296 s).map .ofNat
  | .u64 => .of UInt64 fun s => (decimal 18446744073709551616 s).map .ofNat
  | .bool => .of Bool fun s => if s = "true" then some true else if s = "false" then some false else none
  | .uuid => .of Uuid
  | .symbol => .of Symbol
  | .list => .of VList
  | .map => .of Map
  | .fields => .of Fields
  | .annotations => .of Annotations
  | .stringVariantMap => .of StringVariantMap
  | .filterSet => .of FilterSet
  | .timestamp => .of Timestamp
  | .symbols => .of Symbols
  | .ietfLanguageTags => .of IetfLanguageTags
  | .messageId => .of MessageId
  | .errorCondition => .of ErrorCondition
  | .distributionMode => .of DistributionMode
  | .role => .of Role (path "Role" [("Sender", .Sender), ("Receiver", .Receiver)])
  | .senderSettleMode => .of SenderSettleMode
      (path "SenderSettleMode" [("Unsettled", .Unsettled), ("Settled", .Settled), ("Mixed", .Mixed)])
  | .receiverSettleMode => .of ReceiverSettleMode
      (path "ReceiverSettleMode" [("First", .First), ("Second", .Second)])
  | .saslCode => .of SaslCode (path "SaslCode" [("Ok", .Ok), ("Auth", .Auth), ("Sys", .Sys),
      ("SysPerm", .SysPerm), ("SysTemp", .SysTemp)])
  | .terminusDurability => .of TerminusDurability (path "TerminusDurability"
      [("None", .None), ("Configuration", .Configuration), ("UnsettledState", .UnsettledState)])
  | .terminusExpiryPolicy => .of TerminusExpiryPolicy (path "TerminusExpiryPolicy"
      [("LinkDetach", .LinkDetach), ("SessionEnd", .SessionEnd),
       ("ConnectionClose", .ConnectionClose), ("Never", .Never)])
  | .error => .of Error
  | .source => .of Source
  | .target => .of Target
  | .outcome => .of Outcome
  | .deliveryState => .of DeliveryState

/-- The names that are not aliases of the generated file: `src/types/mod.rs`,
`src/protocol/mod.rs:39-46`, `:51-57`, `:99-105`, `:150-155`, and the generated types. -/
def namesInScope : List (String × Ty) := [("Variant", .variant), ("Bytes", .bytes),
  ("ByteStr", .byteStr), ("u8", .u8), ("u16", .u16), ("u32", .u32), ("u64", .u64),
  ("bool", .bool), ("Uuid", .uuid), ("Symbol", .symbol), ("List", .list), ("Map", .map),
  ("Fields", .fields), ("Annotations", .annotations), ("StringVariantMap", .stringVariantMap),
  ("FilterSet", .filterSet), ("Timestamp", .timestamp), ("Symbols", .symbols),
  ("IetfLanguageTags", .ietfLanguageTags), ("MessageId", .messageId),
  ("ErrorCondition", .errorCondition), ("DistributionMode", .distributionMode),
  ("Role", .role), ("SenderSettleMode", .senderSettleMode),
  ("ReceiverSettleMode", .receiverSettleMode), ("SaslCode", .saslCode),
  ("TerminusDurability", .terminusDurability), ("TerminusExpiryPolicy", .terminusExpiryPolicy),
  ("Error", .error), ("Source", .source), ("Target", .target), ("Outcome", .outcome),
  ("DeliveryState", .deliveryState)]

/-- The type a name stands for; at most `fuel` aliases are followed (a cycle of aliases does
not compile). -/
def resolveGo (aliases : List GAlias) : Nat → String → Option Ty
  | 0, _ => none
  | fuel + 1, name => match aliases.find? fun a => a.name == name with
    | some a => resolveGo aliases fuel a.source
    | none => namesInScope.lookup name

/-- The type a name of the generated file stands for. -/
def Definitions.resolve (d : Definitions) (name : String) : Option Ty :=
  resolveGo d.aliases (d.aliases.length + 1) name

/-! ## Lists -/

/-- How a field is decoded, `codegen/definitions.rs:346-377`. -/
inductive Kind where
  | optional
  | mandatory
  | default (literal : String)
deriving DecidableEq, Repr

/-- A field of a generated struct. -/
structure CField where
  name : String
  ty : Ty
  kind : Kind
deriving DecidableEq, Repr

/-- `{{#if field.optional}}` and `{{#if field.default}}` (an empty string is false),
`codegen/definitions.rs:346-377`. -/
def Definitions.field (d : Definitions) (f : GField) : Option CField :=
  (d.resolve f.ty).map fun ty =>
    { name := f.name, ty
      kind := if f.optional then .optional
              else if f.default.length ≠ 0 then .default f.default else .mandatory }

/-- A generated struct with its functions. -/
structure CList where
  rust : String
  code : Nat
  name : String
  transfer : Bool
  fields : List CField
deriving DecidableEq, Repr

/-- `codegen/definitions.rs:282-459`. -/
def Definitions.list (d : Definitions) (l : GDescribed) : Option CList :=
  (l.fields.mapM d.field).map fun fields =>
    { rust := l.name, code := l.descriptor.code, name := l.descriptor.name, transfer := l.transfer
      fields }

/-- The field as the template treats it. -/
def CField.template (f : CField) : Option TField :=
  match f.kind with
  | .optional => some (.optional f.ty.rust)
  | .mandatory => some (.mandatory f.name f.ty.rust)
  | .default l => (f.ty.rust.literal l).map (.default f.ty.rust)

/-- The functions generated for a list. -/
def CList.template (l : CList) : Option TList :=
  (l.fields.mapM CField.template).map fun fields =>
    { code := .ofNat l.code, name := l.name, fields }

/-! ## Described types with an underlying type -/

/-- `codegen/definitions.rs:267-280`. -/
structure CRestricted where
  rust : String
  code : Nat
  name : String
  ty : Ty
deriving DecidableEq, Repr

/-- `codegen/definitions.rs:267-280`. -/
def Definitions.restricted (d : Definitions) (r : GDescribed) : Option CRestricted :=
  (d.resolve r.ty).map fun ty =>
    { rust := r.name, code := r.descriptor.code, name := r.descriptor.name, ty }

/-! ## Enumerations -/

/-- `codegen/definitions.rs:186-265`. -/
structure CEnum where
  rust : String
  ty : Ty
  is_symbol : Bool
  items : List (String × String × Nat)
deriving DecidableEq, Repr

/-- `codegen/definitions.rs:186-265`. -/
def Definitions.enum (d : Definitions) (e : GEnum) : Option CEnum :=
  (d.resolve e.ty).map fun ty =>
    { rust := e.name, ty, is_symbol := e.is_symbol
      items := e.items.map fun i => (i.name, i.value, i.value_len) }

/-- The functions generated for an enumeration that is not one of symbols: the patterns and
initialisers are literals of its type. -/
def CEnum.template (c : CEnum) : Option (TEnum c.ty.rust.carrier) :=
  (c.items.mapM fun i => c.ty.rust.literal i.2.1).map fun values =>
    { name := c.rust, values, lens := c.items.map (·.2.2) }

/-- The functions generated for an enumeration of symbols: the patterns are string literals,
matched against `as_str()`. -/
def CEnum.symbols (c : CEnum) : TEnum Symbol where
  name := c.rust
  values := c.items.map fun i => ⟨.lit i.2.1⟩
  lens := c.items.map (·.2.2)

/-! ## The whole file -/

/-- What is generated: lists, described types with an underlying type, enumerations, and
unions with the names of their options.  `frame` are the types that provide frame bodies;
nothing is generated from it, as `Frame` is written out in the template,
`codegen/definitions.rs:12-135`. -/
structure Compiled where
  lists : List CList
  restricted : List CRestricted
  enums : List CEnum
  unions : List (String × List (String × Nat × String))
  frame : List (String × Nat × String)
deriving DecidableEq, Repr

/-- An option of a union as the template refers to it. -/
def GOption.entry (o : GOption) : String × Nat × String :=
  (o.ty, o.descriptor.code, o.descriptor.name)

/-- Unions are generated for `provide.described`, `codegen/definitions.rs:137-180`. -/
def Definitions.unions (d : Definitions) : List (String × List (String × Nat × String)) :=
  (d.provides.filter (·.described)).map fun u =>
    (u.name, u.options.map GOption.entry)

/-- The types with `provides="frame"`. -/
def Definitions.frame (d : Definitions) : List (String × Nat × String) :=
  ((d.provides.filter (·.name == "Frame")).flatMap (·.options)).map GOption.entry

/-- The generated file; `none` if a name in it does not resolve. -/
def Definitions.compile (d : Definitions) : Option Compiled := do
  let lists ← d.lists.mapM d.list
  let restricted ← d.described_restricted.mapM d.restricted
  let enums ← d.enums.mapM d.enum
  pure { lists, restricted, enums, unions := d.unions, frame := d.frame }

/-- The functions `decode_*_inner`, `encoded_size_*_inner` and `encode_*_inner`: those
generated for a list or for a described type with an underlying type; nothing else has
them. -/
def Compiled.functions (c : Compiled) (name : String) : Option TOption :=
  match c.lists.find? fun l => l.rust == name with
  | some l => l.template.map fun (L : TList) => if l.transfer then L.bodyOption else L.option
  | none => match c.restricted.find? fun r => r.rust == name with
    | some r => some (.restricted r.ty.rust (.ofNat r.code) r.name)
    | none => none

/-- The option of a union; the descriptor is that of the option,
`codegen/definitions.rs:151-156`. -/
def Compiled.option (c : Compiled) (o : String × Nat × String) : Option TOption :=
  (c.functions o.1).map fun (t : TOption) => { t with code := .ofNat o.2.1, name := o.2.2 }

/-- The options of a generated union. -/
def Compiled.union (c : Compiled) (name : String) : Option (List TOption) :=
  (c.unions.lookup name).bind fun os => os.mapM c.option

/-- From the specification to the generated file. -/
def generate (spec : Json) : Gen (Option Compiled) := do
  let d ← parse spec
  pure d.compile

end Amqp.Codegen
