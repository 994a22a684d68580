import Verif.Codegen.Definitions
import Verif.Protocol.Transfer
/-!
# What the generated code does, `codegen/definitions.rs`

The template is text with holes; for each kind of definition the generated functions are
given here for arbitrary contents of the holes.  Types are referred to by name in the
text; what is used of a type is the record `RustType`.
-/
set_option autoImplicit false
namespace Amqp.Codegen

/-- A type with `DecodeFormatted` and `Encode`, and the values written in Rust by literals
or paths. -/
structure RustType where
  carrier : Type
  decF : Env → UInt8 → Dec carrier
  size : carrier → Nat
  enc : carrier → Bytes
  literal : String → Option carrier

instance (T : RustType) : DecodeF T.carrier := ⟨T.decF⟩
instance (T : RustType) : Encode T.carrier := ⟨T.size, T.enc⟩

/-- A type of the model. -/
def RustType.of (α : Type) [DecodeF α] [Encode α] (literal : String → Option α := fun _ => none) :
    RustType where
  carrier := α
  decF := DecodeF.decF
  size := Encode.size
  enc := Encode.enc
  literal

/-! ## Lists -/

/-- A field, by the case distinctions of `codegen/definitions.rs:346-377`. -/
inductive TField where
  | optional (ty : RustType)
  | mandatory (name : String) (ty : RustType)
  | default (ty : RustType) (d : ty.carrier)

namespace TField

/-- The type of the field in the struct, `codegen/definitions.rs:285-291`. -/
def Value : TField → Type
  | .optional ty => Option ty.carrier
  | .mandatory _ ty => ty.carrier
  | .default ty _ => ty.carrier

/-- Decoding the field, `codegen/definitions.rs:346-377`. -/
def dec (env : Env) : (f : TField) → FieldDec f.Value
  | .optional ty => fOpt ty.carrier env
  | .mandatory name ty => fReq ty.carrier env name
  | .default ty d => fDef ty.carrier env d

/-- `list.field.encoded_size()`. -/
def size : (f : TField) → f.Value → Nat
  | .optional ty => Encode.size (α := Option ty.carrier)
  | .mandatory _ ty => ty.size
  | .default ty _ => ty.size

/-- `list.field.encode(buf)`. -/
def enc : (f : TField) → f.Value → Bytes
  | .optional ty => Encode.enc (α := Option ty.carrier)
  | .mandatory _ ty => ty.enc
  | .default ty _ => ty.enc

end TField

/-- The generated struct, `codegen/definitions.rs:284-295`. -/
def Struct : List TField → Type
  | [] => Unit
  | f :: t => f.Value × Struct t

/-- The fields part of the generated `decode_*_inner`, `codegen/definitions.rs:345-378`. -/
def decFields (env : Env) : (fs : List TField) → FieldDec (Struct fs)
  | [] => pure ()
  | f :: t => do
    let a ← f.dec env
    let r ← decFields env t
    pure (a, r)

/-- `content_size`, `codegen/definitions.rs:405` and `:417`. -/
def contentSize : (fs : List TField) → Struct fs → Nat
  | [], _ => 0
  | f :: t, v => f.size v.1 + contentSize t v.2

/-- What is written for the fields, `codegen/definitions.rs:428-430`. -/
def contentEnc : (fs : List TField) → Struct fs → Bytes
  | [], _ => []
  | f :: t, v => f.enc v.1 ++ contentEnc t v.2

/-- A list type: `list.descriptor` and `list.fields`. -/
structure TList where
  code : UInt64
  name : String
  fields : List TField

namespace TList
variable (L : TList)

/-- `decode_*_inner` without the body of transfers, `codegen/definitions.rs:336-401`. -/
def decInner (env : Env) : Dec (Struct L.fields) := listInner env (decFields env L.fields)

/-- `decode_with_format`, `codegen/definitions.rs:438-452`. -/
def decF (env : Env) (fmt : UInt8) : Dec (Struct L.fields) :=
  describedAs env fmt L.code L.name (L.decInner env)

/-- `encoded_size_*_inner`, `codegen/definitions.rs:403-413`. -/
def size (v : Struct L.fields) : Nat := listSize (contentSize L.fields v)

/-- `encode_*_inner`, `codegen/definitions.rs:414-436`. -/
def enc (v : Struct L.fields) : Bytes :=
  listHdr L.code (contentSize L.fields v) L.fields.length ++ contentEnc L.fields v

/-- The type as used by others. -/
def type : RustType where
  carrier := Struct L.fields
  decF := L.decF
  size := L.size
  enc := L.enc
  literal := fun _ => none

end TList

/-! ## Transfers -/

/-- A list type with `list.transfer` has a `body`. -/
abbrev WithBody (L : TList) : Type := Struct L.fields × Option TransferBody

namespace TList
variable (L : TList)

/-- The end of `decode_*_inner` with `list.transfer`, `codegen/definitions.rs:383-391`. -/
def withBody (v : Struct L.fields) : Dec (WithBody L) := fun remainder =>
  if remainder.isEmpty then .ok (remainder, (v, none))
  else .ok ([], (v, some (.Data ⟨remainder⟩)))

/-- `decode_*_inner` with `list.transfer`, `codegen/definitions.rs:336-401`. -/
def decBodyInner (env : Env) : Dec (WithBody L) := L.decInner env >>= L.withBody

/-- `decode_with_format`, `codegen/definitions.rs:438-452`. -/
def decBodyF (env : Env) (fmt : UInt8) : Dec (WithBody L) :=
  describedAs env fmt L.code L.name (L.decBodyInner env)

/-- `encoded_size_*_inner`, `codegen/definitions.rs:410-412`. -/
def bodySize (v : WithBody L) : Nat := L.size v.1 + v.2.elim 0 Encode.size

/-- `encode_*_inner`, `codegen/definitions.rs:431-435`. -/
def bodyEnc (v : WithBody L) : Bytes := L.enc v.1 ++ v.2.elim [] Encode.enc

end TList

/-! ## Enumerations

Values are the positions of the items. -/

/-- An enumeration over literals of the type `β`: its name, `item.value`s and
`item.value_len`s.  (Items with the same `item.name` do not compile.) -/
structure TEnum (β : Type) where
  name : String
  values : List β
  lens : List Nat

/-- `try_from`, `codegen/definitions.rs:193-202` and `:226-235`. -/
def TEnum.tryFrom {β : Type} [DecidableEq β] (e : TEnum β) (v : β) :
    Res ParseError (Fin e.values.length) :=
  match e.values.finIdxOf? v with
  | some i => .ok i
  | none => .err (.unknownEnumOption e.name)

/-- `decode_with_format`, `codegen/definitions.rs:203-208` and `:236-241`. -/
def TEnum.decF {β : Type} [DecidableEq β] [DecodeF β] (e : TEnum β) :
    Env → UInt8 → Dec (Fin e.values.length) := decodeEnum e.tryFrom

/-- `encoded_size`, `codegen/definitions.rs:243-252`. -/
def TEnum.size {β : Type} [Encode β] (e : TEnum β) (i : Fin e.values.length) : Nat :=
  Encode.size (e.values[i])

/-- `encode`, `codegen/definitions.rs:253-262`. -/
def TEnum.enc {β : Type} [Encode β] (e : TEnum β) (i : Fin e.values.length) : Bytes :=
  Encode.enc (e.values[i])

/-- `encoded_size` of enumerations of symbols, `codegen/definitions.rs:210-216`. -/
def TEnum.symbolSize (e : TEnum Symbol) (i : Fin e.values.length) : Nat :=
  e.lens.getD i 0 + 2

/-- `encode` of enumerations of symbols, `codegen/definitions.rs:217-223`. -/
def TEnum.symbolEnc (e : TEnum Symbol) (i : Fin e.values.length) : Bytes :=
  encStaticSymbol (e.values[i]).str

/-! ## Described types with an underlying type -/

/-- The functions a union uses of an option: `decode_*_inner`, `encoded_size_*_inner` and
`encode_*_inner`; and its descriptor. -/
structure TOption where
  carrier : Type
  decInner : Env → Dec carrier
  innerSize : carrier → Nat
  innerEnc : carrier → Bytes
  code : UInt64
  name : String

/-- `codegen/definitions.rs:267-280`. -/
def TOption.restricted (ty : RustType) (code : UInt64) (name : String) : TOption where
  carrier := ty.carrier
  decInner := Amqp.decode ty.carrier
  innerSize v := 3 + ty.size v
  innerEnc v := Encode.enc (Descriptor.ulong code) ++ ty.enc v
  code
  name

/-- A list type as an option. -/
def TList.option (L : TList) : TOption where
  carrier := Struct L.fields
  decInner := L.decInner
  innerSize := L.size
  innerEnc := L.enc
  code := L.code
  name := L.name

/-- A transfer as an option. -/
def TList.bodyOption (L : TList) : TOption where
  carrier := WithBody L
  decInner := L.decBodyInner
  innerSize := L.bodySize
  innerEnc := L.bodyEnc
  code := L.code
  name := L.name

/-! ## Unions -/

/-- The generated enum, `codegen/definitions.rs:140-144`. -/
def Union : List TOption → Type
  | [] => Empty
  | o :: t => o.carrier ⊕ Union t

/-- The first arms, `codegen/definitions.rs:151-153`. -/
def byCode (env : Env) (d : Descriptor) : (os : List TOption) → Option (Dec (Union os))
  | [] => none
  | o :: t =>
    if d = .ulong o.code then some (Sum.inl <$> o.decInner env)
    else (byCode env d t).map (Sum.inr <$> ·)

/-- The next arms, `codegen/definitions.rs:154-156`. -/
def byName (env : Env) (d : Descriptor) : (os : List TOption) → Option (Dec (Union os))
  | [] => none
  | o :: t =>
    if d = .sym o.name then some (Sum.inl <$> o.decInner env)
    else (byName env d t).map (Sum.inr <$> ·)

/-- The match on the descriptor, `codegen/definitions.rs:150-158`. -/
def dispatch (os : List TOption) (env : Env) (d : Descriptor) : Dec (Union os) :=
  match byCode env d os with
  | some x => x
  | none => match byName env d os with
    | some x => x
    | none => Dec.fail (.invalidDescriptor d)

/-- `decode_with_format`, `codegen/definitions.rs:146-160`. -/
def unionDecF (os : List TOption) (env : Env) (fmt : UInt8) : Dec (Union os) :=
  validateCode fmt FC.described (Amqp.decode Descriptor env >>= dispatch os env)

/-- `encoded_size`, `codegen/definitions.rs:163-169`. -/
def unionSize : (os : List TOption) → Union os → Nat
  | o :: _, .inl v => o.innerSize v
  | _ :: t, .inr v => unionSize t v

/-- `encode`, `codegen/definitions.rs:170-176`. -/
def unionEnc : (os : List TOption) → Union os → Bytes
  | o :: _, .inl v => o.innerEnc v
  | _ :: t, .inr v => unionEnc t v

end Amqp.Codegen
