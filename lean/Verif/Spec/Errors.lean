import Verif.Codec.Decode
import Verif.Spec.TextErrors
/-!
# What the errors of decoders say

Each error makes a claim about the input; `Explains` spells it out.
-/
set_option autoImplicit false
namespace Amqp

/-- The text or binary `s` occurs in `j` after its length, in one or in four bytes. -/
def Prefixed (s j : Bytes) : Prop :=
  (s.length < 2 ^ 8 ∧ UInt8.ofNat s.length :: s <:+: j) ∨
  (s.length < 2 ^ 32 ∧ beEnc 4 s.length ++ s <:+: j)

/-- The encodings of a descriptor in AMQP 1.0, part 1, 1.6.10 and 1.6.21. -/
def DescriptorForm : Descriptor → Bytes → Prop
  | .ulong n, w => (n.toNat < 2 ^ 8 ∧ w = [0x53, UInt8.ofNat n.toNat]) ∨ w = 0x80 :: beEnc 8 n.toNat
  | .symbol s, w =>
    (s.str.bytes.length < 2 ^ 8 ∧ w = 0xa3 :: UInt8.ofNat s.str.bytes.length :: s.str.bytes) ∨
    (s.str.bytes.length < 2 ^ 32 ∧ w = 0xb3 :: (beEnc 4 s.str.bytes.length ++ s.str.bytes))

/-- The choices of an enumeration, by the type it restricts. -/
inductive Options where
  | boolean
  | ubyte (l : List UInt8)
  | uint (l : List UInt32)
  | symbol (l : List String)

/-- A value that is none of the choices occurs in `j`. -/
def Options.Unknown (j : Bytes) : Options → Prop
  | .boolean => False
  | .ubyte l => ∃ b ∈ j, b ∉ l
  | .uint l => ∃ x : UInt32, x ∉ l ∧ ((∃ b ∈ j, b.toUInt32 = x) ∨ beEnc 4 x.toNat <:+: j)
  | .symbol l => ∃ s, (∀ o ∈ l, s ≠ utf8 o.toList) ∧ Prefixed s j

/-- The beginning of a list of `n` fields occurs in `j`. -/
def HasListOf (n : Nat) (j : Bytes) : Prop :=
  (n = 0 ∧ 0x45 ∈ j) ∨
  (n < 2 ^ 8 ∧ ∃ size, [0xc0, size, UInt8.ofNat n] <:+: j) ∨
  (n < 2 ^ 32 ∧ ∃ size : Bytes, size.length = 4 ∧ 0xd0 :: (size ++ beEnc 4 n) <:+: j)

/-- What decoding a type can complain of besides the form of the input: mandatory
fields with their positions (of it and of the types in it) and enumerations in it. -/
class Faulty (α : Type) where
  fields : List (String × Nat)
  options : List (String × Options)

instance : Faulty Bool := ⟨[], []⟩
instance : Faulty UInt8 := ⟨[], []⟩
instance : Faulty UInt16 := ⟨[], []⟩
instance : Faulty UInt32 := ⟨[], []⟩
instance : Faulty UInt64 := ⟨[], []⟩
instance : Faulty Int8 := ⟨[], []⟩
instance : Faulty Int16 := ⟨[], []⟩
instance : Faulty Int32 := ⟨[], []⟩
instance : Faulty Int64 := ⟨[], []⟩
instance : Faulty F32 := ⟨[], []⟩
instance : Faulty F64 := ⟨[], []⟩
instance : Faulty Char := ⟨[], []⟩
instance : Faulty DateTime := ⟨[], []⟩
instance : Faulty Uuid := ⟨[], []⟩
instance : Faulty Binary := ⟨[], []⟩
instance : Faulty RStr := ⟨[], []⟩
instance : Faulty Symbol := ⟨[], []⟩
instance : Faulty Descriptor := ⟨[], []⟩
instance : Faulty Variant := ⟨[], []⟩
instance : Faulty VList := ⟨[], []⟩
instance : Faulty VecVariantMap := ⟨[], []⟩
instance {α : Type} [Faulty α] : Faulty (Option α) := ⟨Faulty.fields α, Faulty.options α⟩
instance {α : Type} [Faulty α] : Faulty (Vec α) := ⟨Faulty.fields α, Faulty.options α⟩
instance {α : Type} [Faulty α] : Faulty (Multiple α) := ⟨Faulty.fields α, Faulty.options α⟩
instance {K V : Type} [Faulty K] [Faulty V] : Faulty (HMap K V) :=
  ⟨Faulty.fields K ++ Faulty.fields V, Faulty.options K ++ Faulty.options V⟩

/-- What an error says of the input `j`. -/
def Explains (fields : List (String × Nat)) (options : List (String × Options)) (j : Bytes) :
    ParseError → Prop
  | .invalidSize => False
  | .incomplete n => 0 < n ∧ n < 2 ^ 32
  | .invalidFormatCode c => c ∈ j
  | .invalidChar c => ¬ Nat.isValidChar c.toNat ∧ beEnc 4 c.toNat <:+: j
  | .invalidDescriptor d => 0x00 ∈ j ∧ ∃ w, DescriptorForm d w ∧ w <:+: j
  | .unexpectedFrameType _ => False
  | .requiredFieldOmitted name => ∃ k n, (name, k) ∈ fields ∧ n ≤ k ∧ HasListOf n j
  | .unknownEnumOption name => ∃ o, (name, o) ∈ options ∧ o.Unknown j
  | .utf8Error u => ∃ b, StopsBeing b u ∧ Prefixed b j

/-- What an error says of a frame of a given type without its size. -/
def ExplainsFrame (type : UInt8) (fields : List (String × Nat)) (options : List (String × Options))
    (j : Bytes) : ParseError → Prop
  | .invalidSize => ∃ doff t, j = doff :: t ∧ doff.toNat < 2
  | .unexpectedFrameType t => t ≠ type ∧ ∃ doff r, j = doff :: t :: r
  | e => Explains fields options j e

/-- Every error of the decoder of `α` says something true of its input. -/
def ErrorsTrue (α : Type) [DecodeF α] [Faulty α] : Prop :=
  ∀ (env : Env) (input : Bytes) (e : ParseError), decode α env input = .err e →
    Explains (Faulty.fields α) (Faulty.options α) input e

/-- More input may be asked for. -/
def ParseError.isIncomplete : ParseError → Bool
  | .incomplete _ => true
  | _ => false

/-- An answer other than `Incomplete` does not depend on what follows. -/
def Final {α : Type} (d : Dec α) : Prop :=
  ∀ input e, d input = .err e → e.isIncomplete = false → ∀ more, d (input ++ more) = .err e

/-- When more input is asked for, some input gets another answer. -/
def Hopeful {α : Type} (d : Dec α) : Prop :=
  ∀ input n, d input = .err (.incomplete n) → ∃ more, ∀ m, d (input ++ more) ≠ .err (.incomplete m)

end Amqp
