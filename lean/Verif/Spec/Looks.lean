import Verif.Spec.Messages
import Verif.Protocol.Writes
/-!
# Calls that only look at a message

`encoded_size` and `encode` take the message by shared reference, but remember sizes in it
(`Cell<usize>`).  Here: which calls of a history only look, and looks at what a transfer carries.
-/
set_option autoImplicit false
namespace Amqp

/-- The call takes the message by shared reference. -/
def Op.Looks : Op → Prop
  | .size => True
  | .encode => True
  | .sizeNested _ _ => True
  | .encodeNested _ _ => True
  | _ => False

/-- A look at a transfer body: at itself (empty path), or at what is nested at `path`. -/
inductive Look where
  | size (path : List Nat)
  | encode (path : List Nat)

/-- What a look leaves behind. -/
def Look.apply (b : TransferBody) : Look → TransferBody
  | .size p => b.modifyAt .touch p
  | .encode p => b.modifyAt .afterEncode p

/-- What a sequence of looks leaves behind. -/
def TransferBody.afterLooks (b : TransferBody) (looks : List Look) : TransferBody :=
  looks.foldl Look.apply b

/-- What looks at what it carries leave of a frame. -/
def Frame.afterLooks (looks : List Look) : Frame → Frame
  | .Transfer t => .Transfer { t with body := t.body.map (·.afterLooks looks) }
  | f => f

/-- Two values are written alike: as many bytes are announced, and the same calls are
made on the buffer. -/
def WrittenAlike {α : Type} [Encode α] [EncodeW α] (a b : α) : Prop :=
  size a = size b ∧ enc a = enc b ∧ writes a = writes b

end Amqp
