import Verif.Codegen.Compile
import Verif.Protocol.Frame
/-!
# What is claimed of generated types

The vocabulary of the statements about the code generator: what it means that a value
round-trips, that its size is right, and that a type of the model is a generated one.
-/
set_option autoImplicit false
namespace Amqp.Codegen
open Dec Encode

/-- The encoding of the value reads back as the value, whatever follows. -/
def RustType.RoundTrips (T : RustType) (env : Env) (v : T.carrier) : Prop :=
  ∀ more, decode T.carrier env (T.enc v ++ more) = .ok (more, v)

/-- The encoding of the value is not that of null. -/
def RustType.NotNull (T : RustType) (v : T.carrier) : Prop :=
  (T.enc v).head? ≠ some FC.null

/-- The announced size is the length of the encoding. -/
def RustType.Sized (T : RustType) (v : T.carrier) : Prop := T.size v = (T.enc v).length

namespace TField

/-- The value of a field is one its type can carry: it round-trips, and is not written like
null where null stands for absence. -/
def Good (env : Env) : (f : TField) → f.Value → Prop
  | .optional ty, v => ∀ x, v = some x → ty.RoundTrips env x ∧ ty.NotNull x
  | .mandatory _ ty, v => ty.RoundTrips env v
  | .default ty _, v => ty.RoundTrips env v ∧ ty.NotNull v

/-- The size of the value of a field is right. -/
def Sized : (f : TField) → f.Value → Prop
  | .optional ty, v => ∀ x, v = some x → ty.Sized x
  | .mandatory _ ty, v => ty.Sized v
  | .default ty _, v => ty.Sized v

end TField

/-- Every field has a value its type can carry. -/
def StructGood (env : Env) : (fs : List TField) → Struct fs → Prop
  | [], _ => True
  | f :: t, v => f.Good env v.1 ∧ StructGood env t v.2

/-- Every field has the size its type announces. -/
def StructSized : (fs : List TField) → Struct fs → Prop
  | [], _ => True
  | f :: t, v => f.Sized v.1 ∧ StructSized t v.2

/-- The value is one its fields can carry, sizes are right, and the content fits the length
field. -/
def TList.Good (L : TList) (env : Env) (v : Struct L.fields) : Prop :=
  StructGood env L.fields v ∧ StructSized L.fields v ∧
    (contentEnc L.fields v).length + 4 < 2 ^ 32

/-- The option in which a value of a union lies, with the value. -/
def Union.at : {os : List TOption} → Union os → (o : TOption) × o.carrier
  | o :: _, .inl v => ⟨o, v⟩
  | _ :: _, .inr u => Union.at u

/-- An option is written as its descriptor followed by what its decoder reads. -/
def TOption.Good (o : TOption) (env : Env) (v : o.carrier) : Prop :=
  ∃ w, o.innerEnc v = Encode.enc (Descriptor.ulong o.code) ++ w ∧
    ∀ more, o.decInner env (w ++ more) = .ok (more, v)

/-- The type `α` of the model is the generated type `L`: `to` is a one-to-one correspondence
of values under which decoding, sizes and encoding agree. -/
structure Generates (L : TList) {α : Type} [DecodeF α] [Encode α] (to : α → Struct L.fields) :
    Prop where
  bijective : ∃ back : Struct L.fields → α, (∀ v, back (to v) = v) ∧ ∀ s, to (back s) = s
  decode : ∀ env fmt, L.decF env fmt = to <$> DecodeF.decF env fmt
  size : ∀ v, Encode.size v = L.size (to v)
  enc : ∀ v, Encode.enc v = L.enc (to v)

/-- The enumeration `E` of the model is the generated enumeration `e`. -/
structure GeneratesEnum {E β : Type} [DecidableEq β] [DecodeF β] [DecodeF E] [Encode E]
    (e : TEnum β) (size : Fin e.values.length → Nat) (enc : Fin e.values.length → Bytes)
    (to : E → Fin e.values.length) : Prop where
  bijective : ∃ back : Fin e.values.length → E, (∀ v, back (to v) = v) ∧ ∀ s, to (back s) = s
  decode : ∀ env fmt, e.decF env fmt = to <$> DecodeF.decF env fmt
  size : ∀ v, Encode.size v = size (to v)
  enc : ∀ v, Encode.enc v = enc (to v)

/-- The union `U` of the model is the generated union. -/
structure GeneratesUnion {U : Type} [DecodeF U] [Encode U] (os : List TOption)
    (to : U → Union os) : Prop where
  bijective : ∃ back : Union os → U, (∀ v, back (to v) = v) ∧ ∀ s, to (back s) = s
  decode : ∀ env fmt, unionDecF os env fmt = to <$> DecodeF.decF env fmt
  size : ∀ v, Encode.size v = unionSize os (to v)
  enc : ∀ v, Encode.enc v = unionEnc os (to v)

/-- The type `α` of the model is the generated type `L` with a body. -/
structure GeneratesBody (L : TList) {α : Type} [DecodeF α] [Encode α] (to : α → WithBody L) :
    Prop where
  bijective : ∃ back : WithBody L → α, (∀ v, back (to v) = v) ∧ ∀ s, to (back s) = s
  decode : ∀ env fmt, L.decBodyF env fmt = to <$> DecodeF.decF env fmt
  size : ∀ v, Encode.size v = L.bodySize (to v)
  enc : ∀ v, Encode.enc v = L.bodyEnc (to v)

/-- The frame type of the model is the generated one: its values are those of the union, and
the empty frame. -/
structure GeneratesFrame (os : List TOption) (to : Frame → Option (Union os))
    (back : Union os → Frame) : Prop where
  empty : to .Empty = none
  left : ∀ v, v ≠ .Empty → (to v).map back = some v
  right : ∀ s, to (back s) = some s
  decode : ∀ env d, Frame.dispatch env d = back <$> dispatch os env d
  size : ∀ s, Encode.size (back s) = unionSize os s
  enc : ∀ s, Encode.enc (back s) = unionEnc os s

/-! ## What is found in a generated file -/

/-- The file has the list type `name`, with the functions `L`. -/
def Compiled.HasList (c : Compiled) (name : String) (L : TList) : Prop :=
  ∃ l ∈ c.lists, l.rust = name ∧ l.template = some L

/-- The file has the list type `name` with a body, with the functions `L`. -/
def Compiled.HasBody (c : Compiled) (name : String) (L : TList) : Prop :=
  ∃ l ∈ c.lists, l.rust = name ∧ l.transfer = true ∧ l.template = some L

/-- The file has the enumeration `name` over literals of the type `T`. -/
def Compiled.HasEnum (c : Compiled) (name : String) (T : Ty) (e : TEnum T.rust.carrier) : Prop :=
  ∃ x : CEnum, x ∈ c.enums ∧ x.rust = name ∧ x.is_symbol = false ∧ x.ty = T ∧
    ∃ h : x.ty = T, (h ▸ x.template : Option (TEnum T.rust.carrier)) = some e

/-- The file has the enumeration `name` of symbols. -/
def Compiled.HasSymbols (c : Compiled) (name : String) (e : TEnum Symbol) : Prop :=
  ∃ x ∈ c.enums, x.rust = name ∧ x.is_symbol = true ∧ x.symbols = e

end Amqp.Codegen
