import Verif.Spec.WorkLists
import Verif.Protocol.WorkMessages
/-! How deep the sections of messages nest. -/
set_option autoImplicit false
namespace Amqp

/-- The deepest of some values. -/
def nestAll {α : Type} [Nesting α] : List α → Nat
  | [] => 0
  | v :: t => max (nest v) (nestAll t)

/-- The deepest list or map in the annotations, properties and body of a message, not counting
the messages in it. -/
def MsgHead.levels {AP : Type} [Nesting AP] (m : MsgHead AP) : Nat :=
  max (nest m.header) (max (nest m.delivery_annotations) (max (nest m.message_annotations)
    (max (nest m.properties) (max (nest m.application_properties) (max (nest m.footer)
      (max (nestAll m.data) (max (nestAll m.sequence) (nest m.value))))))))

mutual
/-- The deepest list or map in a section of a message or of the messages in it. -/
def TransferBody.levels : TransferBody → Nat
  | .Data _ => 0
  | .MessageIn m ms => max m.levels (levelsAll ms)
  | .MessageOut m ms => max m.levels (levelsAll ms)
def levelsAll : List TransferBody → Nat
  | [] => 0
  | b :: t => max b.levels (levelsAll t)
end

end Amqp
