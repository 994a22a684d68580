import Verif.Accessors
import Verif.Spec.Lists
/-!
# Vocabulary for accessors and conversions
-/
set_option autoImplicit false
namespace Amqp

/-- Input selected by this descriptor, in whatever form it is written, is accepted
as a frame exactly if it is accepted by `mem`; the frame is then what `conv` makes
of the performative, and has this name. -/
def Named {α : Type} (mem : Env → Dec α) (conv : α → Frame) (name : String)
    (code : UInt64) (symbol : String) : Prop :=
  (∀ v, (conv v).name = name) ∧
  ∀ (env : Env) (u payload : Bytes) (d : Descriptor), Means env u d → d.Is code symbol →
    ∀ rest f, Frame.decode env (0x00 :: (u ++ payload)) = .ok (rest, f) ↔
      ∃ v, mem env (0x00 :: (u ++ payload)) = .ok (rest, v) ∧ f = conv v

/-- Whatever is read as `x` by the decoder of `α` is read as `into x` by the decoder
of `β`, and the other way round; and `into x` is written as `x` is. -/
structure SameView (α β : Type) [Encode α] [DecodeF α] [Encode β] [DecodeF β] [Into α β] : Prop where
  read : ∀ (env : Env) (input rest : Bytes) (x : α), 0 < env.stackDepth →
    (decode α env input = .ok (rest, x) ↔ decode β env input = .ok (rest, into x))
  write : ∀ x : α, enc (into x : β) = enc x
  size : ∀ x : α, size (into x : β) = size x

/-- One more stack frame. -/
def Env.deeper (env : Env) : Env := { env with stackDepth := env.stackDepth + 1 }

/-- The same for values that hold values: as a `Variant`, they are one level deeper. -/
structure SameCompoundView (α : Type) [Encode α] [DecodeF α] [Into α Variant] : Prop where
  read : ∀ (env : Env) (input rest : Bytes) (x : α),
    decode α env input = .ok (rest, x) ↔ decode Variant env.deeper input = .ok (rest, into x)
  write : ∀ x : α, enc (into x : Variant) = enc x
  size : ∀ x : α, size (into x : Variant) = size x

/-- A map with keys of type `K` as a map of values. -/
def HMap.toVariant {K : Type} [Into K Variant] (m : HMap K Variant) : Variant :=
  .map (m.entries.map fun e => (into e.1, e.2))

/-- A map whose keys all are what `into` makes of a `K` is read by the typed decoder
exactly if it is read by that of `Variant`, and is written in the same way. -/
structure SameMapView (K : Type) [Encode K] [DecodeF K] [HKey K] [Into K Variant] : Prop where
  read : ∀ (env : Env) (input rest : Bytes) (m : HMap K Variant),
    decode (HMap K Variant) env input = .ok (rest, m) ↔
      decode Variant env.deeper input = .ok (rest, m.toVariant)
  write : ∀ m : HMap K Variant, enc m.toVariant = enc m
  size : ∀ m : HMap K Variant, size m.toVariant = size m

end Amqp
