import Verif.Spec.TravelLists
import Verif.Spec.EqualityFrames
import Verif.Spec.Stream
/-!
# What becomes of frames on their way
-/
set_option autoImplicit false
namespace Amqp

/-- The payload of a transfer arrives as the bytes that were written; nothing is told apart
from no payload. -/
def arrivingBody (b : Option TransferBody) : Option TransferBody :=
  match b with
  | none => none
  | some b => if enc b = [] then none else some (.Data ⟨enc b⟩)

instance : HasFate Transfer := ⟨fun env t => do
  let p ← fate env t.toTransferPerf
  pure { p with body := arrivingBody t.body }⟩

instance : HasFate Frame := ⟨fun env f => match f with
  | .Open v => do pure (.Open (← fate env v))
  | .Begin v => do pure (.Begin (← fate env v))
  | .Attach v => do pure (.Attach (← fate env v))
  | .Flow v => do pure (.Flow (← fate env v))
  | .Transfer v => do pure (.Transfer (← fate env v))
  | .Disposition v => do pure (.Disposition (← fate env v))
  | .Detach v => do pure (.Detach (← fate env v))
  | .End v => do pure (.End (← fate env v))
  | .Close v => do pure (.Close (← fate env v))
  | .Empty => pure .Empty⟩

instance : HasFate AmqpFrame := ⟨fun env f => do
  pure { channel_id := f.channel_id, performative := ← fate env f.performative }⟩

instance : HasFate SaslFrame := ⟨fun env f => do pure { body := ← fate env f.body }⟩

/-- Decoding what was encoded gives what `fate` says, for every value a program can hold with
an encoding below 4 GiB, whatever follows. -/
def FateHolds (α : Type) [Encode α] [DecodeF α] [HasFate α] [Holdable α] : Prop :=
  ∀ (env : Env) (v : α), held v → (enc v).length < 2 ^ 32 → ∀ rest,
    (fate env v).Answer rest (decode α env (enc v ++ rest))

/-- What becomes of several values sent one after the other: those before the first that does
not arrive arrive, and if there is one that does not, no more. -/
def arrivals {α : Type} : List (Fate α) → List α × Fate Unit
  | [] => ([], .arrives ())
  | .arrives a :: t => (a :: (arrivals t).1, (arrivals t).2)
  | .refused :: _ => ([], .refused)
  | .crashes p :: _ => ([], .crashes p)

/-- What one call of a codec gives when its buffer begins with a frame: it takes the frame, and
yields what arrives, or an error of the decoder, or panics. -/
def Fate.Yields {T : Type} (s : Fate T) (rest : Bytes) (c : Call CodecError T) : Prop :=
  match s with
  | .arrives g => c = ⟨.frameHeader, rest, .some g⟩
  | .refused => ∃ st e, c = ⟨st, rest, .err (.parse e)⟩
  | .crashes p => ∃ st, c = ⟨st, rest, .panic p⟩

/-- How a codec ends: it waits for more and has nothing left, or reports an error of the
decoder, or panics. -/
def Fate.Ends {T : Type} (s : Fate Unit) (c : Call CodecError T) : Prop :=
  match s with
  | .arrives _ => c.answer = .none ∧ c.src = []
  | .refused => ∃ e, c.answer = .err (.parse e)
  | .crashes p => c.answer = .panic p

/-- The payload of a transfer reports its size correctly. -/
def Frame.PayloadExact (f : Frame) : Prop :=
  ∀ t b, f = .Transfer t → t.body = some b → size b = (enc b).length

end Amqp
