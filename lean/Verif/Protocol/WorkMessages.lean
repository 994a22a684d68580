import Verif.Protocol.Work
/-!
# All calls made to encode a message

`TransferBody.sizeC` and `TransferBody.encC` count the calls down to the sections of a message;
here the calls that the sections make are counted as well.
-/
set_option autoImplicit false
namespace Amqp

section
variable {α : Type} [EncodeC α]

/-- `if let Some(ref x) = .. { size += x.encoded_size() }`. -/
def optMeasure : Option α → Nat
  | some v => (measureC v).calls
  | none => 0
/-- `if let Some(ref x) = .. { x.encode(dst) }`, with `extra` calls for the descriptor. -/
def optWrite (extra : Nat) : Option α → Nat
  | some v => extra + (writeC v).calls
  | none => 0
/-- The folds of `src/message/body.rs:38-45`. -/
def allMeasure : List α → Nat
  | [] => 0
  | v :: t => (measureC v).calls + allMeasure t
/-- The loops of `src/message/body.rs:60-67`. -/
def allWrite (extra : Nat) : List α → Nat
  | [] => 0
  | v :: t => extra + (writeC v).calls + allWrite extra t
end

namespace MsgHead
variable {AP : Type} [EncodeC AP]

/-- `src/message/inmessage.rs:218-234`. -/
def headMeasure (m : MsgHead AP) : Nat :=
  optMeasure m.header + optMeasure m.delivery_annotations + optMeasure m.message_annotations +
    optMeasure m.properties + optMeasure m.application_properties + optMeasure m.footer
/-- `src/message/inmessage.rs:240-258,270-274`; writing a descriptor takes two calls,
`src/codec/encode.rs:433-451`. -/
def headWrite (m : MsgHead AP) : Nat :=
  optWrite 0 m.header + optWrite 2 m.delivery_annotations + optWrite 2 m.message_annotations +
    optWrite 0 m.properties + optWrite 2 m.application_properties + optWrite 2 m.footer
omit [EncodeC AP] in
/-- `src/message/body.rs:38-45,52-56`. -/
def bodyMeasure (m : MsgHead AP) : Nat :=
  allMeasure m.data + allMeasure m.sequence + optMeasure m.value
omit [EncodeC AP] in
/-- `src/message/body.rs:60-71`. -/
def bodyWrite (m : MsgHead AP) : Nat :=
  allWrite 2 m.data + allWrite 2 m.sequence + optWrite 2 m.value
end MsgHead

mutual
/-- The calls of `TransferBody::encoded_size`, `src/protocol/mod.rs:235-241`, which hands over to
the message, `src/message/inmessage.rs:203-237`, which measures its body and its sections unless
it remembers its size. -/
def TransferBody.sizeCalls : TransferBody → Nat
  | .Data _ => 1
  | .MessageIn m ms =>
    if m.cache ≠ 0 then 2 else 3 + m.headMeasure + m.bodyMeasure + nestedSizeCalls ms
  | .MessageOut m ms =>
    if m.cache ≠ 0 then 2 else 3 + m.headMeasure + m.bodyMeasure + nestedSizeCalls ms
/-- The fold over `messages`, `src/message/body.rs:46-50`. -/
def nestedSizeCalls : List TransferBody → Nat
  | [] => 0
  | b :: t => b.sizeCalls + nestedSizeCalls t
end

mutual
/-- The calls of `TransferBody::encode`, `src/protocol/mod.rs:243-249`, which hands over to the
message, `src/message/inmessage.rs:239-275`, which measures its body before it writes it. -/
def TransferBody.encCalls : TransferBody → Nat
  | .Data _ => 1
  | .MessageIn m ms =>
    2 + m.headWrite + (1 + m.bodyMeasure + nestedSizeCalls ms) +
      (if bodySizeWith m.data m.sequence m.value (nestedSize ms) = 0 then 2
       else 1 + m.bodyWrite + nestedEncCalls (touchAll ms))
  | .MessageOut m ms =>
    2 + m.headWrite + (1 + m.bodyMeasure + nestedSizeCalls ms) +
      (if bodySizeWith m.data m.sequence m.value (nestedSize ms) = 0 then 2
       else 1 + m.bodyWrite + nestedEncCalls (touchAll ms))
termination_by b => 2 * b.parts
decreasing_by all_goals simp only [touchAll_parts, TransferBody.parts]; omega
/-- The loop over `messages`, `src/message/body.rs:72-86`. -/
def nestedEncCalls : List TransferBody → Nat
  | [] => 0
  | b :: t => 2 + b.sizeCalls + b.touch.encCalls + nestedEncCalls t
termination_by l => 2 * partsAll l + 1
decreasing_by
  all_goals
    have := b.parts_pos
    simp only [touch_parts, partsAll]
    omega
end

/-- `TransferBody`, `src/protocol/mod.rs:234-251`. -/
instance : EncodeC TransferBody :=
  ⟨fun b => ⟨b.tsize, b.sizeCalls⟩, fun b => ⟨b.tenc, b.encCalls⟩⟩

end Amqp
