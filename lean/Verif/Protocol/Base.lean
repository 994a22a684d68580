import Verif.Codec.Decode
/-!
# Building blocks of `src/protocol`

The list types of `src/protocol/definitions.rs` are produced by one template
(`codegen/definitions.rs`); the pieces of that template are modelled
here and put together per type in the generated modules.
-/
namespace Amqp

/-! ## Aliases, `src/protocol/mod.rs:39-46`, `src/protocol/definitions.rs:423-437` -/

abbrev Map := HMap Variant Variant
abbrev Fields := HMap Symbol Variant
abbrev Annotations := HMap Symbol Variant
abbrev StringVariantMap := HMap Str Variant
abbrev FilterSet := HMap Symbol (Option ByteStr)
abbrev Timestamp := DateTime
abbrev Symbols := Multiple Symbol
abbrev IetfLanguageTags := Multiple Symbol
abbrev Handle := UInt32
abbrev Seconds := UInt32
abbrev Milliseconds := UInt32
abbrev DeliveryTag := Binary
abbrev SequenceNo := UInt32
abbrev DeliveryNumber := SequenceNo
abbrev TransferNumber := SequenceNo
abbrev MessageFormat := UInt32
abbrev IetfLanguageTag := Symbol
abbrev NodeProperties := Fields
abbrev Address := ByteStr

/-! ## List fields -/

/-- The state of the field-by-field part of `decode_*_inner`: the fields still
to come (`count`) and the unread part of the list body (`input`). -/
def FieldDec (α : Type) : Type := Nat × Bytes → Res ParseError ((Nat × Bytes) × α)

namespace FieldDec
variable {α β : Type}

instance : Monad FieldDec where
  pure a := fun s => .ok (s, a)
  bind d f := fun s => match d s with
    | .ok (t, a) => f a t
    | .err e => .err e
    | .panic p => .panic p

@[simp] theorem run_pure (a : α) (s : Nat × Bytes) : (pure a : FieldDec α) s = .ok (s, a) := rfl
theorem run_bind (d : FieldDec α) (f : α → FieldDec β) (s : Nat × Bytes) :
    (d >>= f) s = match d s with
      | .ok (t, a) => f a t
      | .err e => .err e
      | .panic p => .panic p := rfl

instance : LawfulMonad FieldDec := LawfulMonad.mk' _
  (id_map := fun x => by
    funext i; show (match x i with | .ok (r, a) => _ | .err e => _ | .panic p => _) = _
    cases x i <;> rfl)
  (pure_bind := fun _ _ => rfl)
  (bind_assoc := fun x f g => by
    funext i
    simp only [run_bind]
    cases x i <;> rfl)

end FieldDec

/-- Decode one present field: `count -= 1` and advance the input. -/
def present {α : Type} (d : Dec α) (n : Nat) (i : Bytes) : Res ParseError ((Nat × Bytes) × α) :=
  match d i with
  | .ok (r, a) => .ok ((n, r), a)
  | .err e => .err e
  | .panic p => .panic p

/-- A mandatory field, e.g. `src/protocol/definitions.rs:1094-1101`. -/
def fReq (α : Type) [DecodeF α] (env : Env) (name : String) : FieldDec α
  | (0, _) => .err (.requiredFieldOmitted name)
  | (n + 1, i) => present (decode α env) n i

/-- An optional field, e.g. `src/protocol/definitions.rs:1103-1110`. -/
def fOpt (α : Type) [DecodeF α] (env : Env) : FieldDec (Option α)
  | (0, i) => .ok ((0, i), none)
  | (n + 1, i) => present (decode (Option α) env) n i

/-- A field with a default, e.g. `src/protocol/definitions.rs:2301-2309`. -/
def fDef (α : Type) [DecodeF α] (env : Env) (d : α) : FieldDec α
  | (0, i) => .ok ((0, i), d)
  | (n + 1, i) => present ((fun o => o.getD d) <$> decode (Option α) env) n i

/-- The frame of every `decode_*_inner`, e.g. `src/protocol/definitions.rs:1086-1128`:
list header, length check, split, fields; what the fields leave unread of the
list body is dropped. -/
def listInner {α : Type} (env : Env) (fields : FieldDec α) : Dec α := do
  let fmt ← formatCode
  let header ← decodeListHeader env fmt
  let body ← takeN header.size
  match fields (header.count, body) with
  | .ok (_, a) => pure a
  | .err e => Dec.fail e
  | .panic p => Dec.abort p

/-- `encoded_size_*_inner`, e.g. `src/protocol/definitions.rs:1129-1141`. -/
def listSize (content : Nat) : Nat := (if content + 1 > 255 then 12 else 6) + content

/-- The header part of `encode_*_inner`, e.g. `src/protocol/definitions.rs:1142-1160`. -/
def listHdr (code : UInt64) (content count : Nat) : Bytes :=
  enc (Descriptor.ulong code) ++ compoundHdr FC.list8 FC.list32 content count

/-- A symbolic descriptor. -/
def Descriptor.sym (s : String) : Descriptor := .symbol ⟨.lit s⟩

/-- `DecodeFormatted` of every list type, e.g. `src/protocol/definitions.rs:1162-1176`. -/
def describedAs {α : Type} (env : Env) (fmt : UInt8) (code : UInt64) (name : String) (d : Dec α) :
    Dec α :=
  validateCode fmt FC.described do
    let descriptor ← decode Descriptor env
    let isMatch := match descriptor with
      | .ulong val => val == code
      | .symbol sym => sym.str.bytes == (RStr.lit name).bytes
    if !isMatch then Dec.fail (.invalidDescriptor descriptor) else d

/-- `DecodeFormatted` of restricted enumerations, e.g.
`src/protocol/definitions.rs:453-458`. -/
def decodeEnum {β α : Type} [DecodeF β] (tryFrom : β → Res ParseError α) (env : Env) (fmt : UInt8) :
    Dec α := do
  let base ← decF env fmt
  match tryFrom base with
  | .ok a => pure a
  | .err e => Dec.fail e
  | .panic p => Dec.abort p

/-! ## MessageId, `src/protocol/mod.rs:51-97` -/

/-- `MessageId`, `src/protocol/mod.rs:51-57`. -/
inductive MessageId where
  | Ulong (v : UInt64)
  | Uuid (v : Uuid)
  | Binary (v : Binary)
  | String (v : ByteStr)
deriving DecidableEq

/-- `src/protocol/mod.rs:59-78`. -/
instance : DecodeF MessageId where
  decF env fmt :=
    if fmt = FC.smallUlong ∨ fmt = FC.ulong ∨ fmt = FC.ulong0 then MessageId.Ulong <$> decF env fmt
    else if fmt = FC.uuid then MessageId.Uuid <$> decF env fmt
    else if fmt = FC.binary8 ∨ fmt = FC.binary32 then MessageId.Binary <$> decF env fmt
    else if fmt = FC.string8 ∨ fmt = FC.string32 then MessageId.String <$> decF env fmt
    else Dec.fail (.invalidFormatCode fmt)

/-- `src/protocol/mod.rs:80-97`. -/
instance : Encode MessageId where
  size
    | .Ulong v => size v
    | .Uuid v => size v
    | .Binary v => size v
    | .String v => size v
  enc
    | .Ulong v => enc v
    | .Uuid v => enc v
    | .Binary v => enc v
    | .String v => enc v

/-- `SaslInit::prepare_response`, `src/protocol/mod.rs:187-191`. -/
def prepareResponse (authz authn password : RStr) : Binary :=
  ⟨authz.bytes ++ [0] ++ authn.bytes ++ [0] ++ password.bytes⟩

end Amqp
