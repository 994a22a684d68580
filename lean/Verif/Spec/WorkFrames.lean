import Verif.Spec.WorkMessages
import Verif.Protocol.WorkFrames
/-! How deep the fields of frames nest. -/
set_option autoImplicit false
namespace Amqp

/-- The deepest list or map in a field of any type, or in a section of the message that a
transfer carries. -/
def Frame.levels : Frame → Nat
  | .Open v => nest v
  | .Begin v => nest v
  | .Attach v => nest v
  | .Flow v => nest v
  | .Transfer v => max (nest v.toTransferPerf) (v.body.elim 0 TransferBody.levels)
  | .Disposition v => nest v
  | .Detach v => nest v
  | .End v => nest v
  | .Close v => nest v
  | .Empty => 0

/-- An Open with maps in maps, `n` deep, as a property. -/
def deepOpen (n : Nat) : AmqpFrame :=
  ⟨0, .Open {
    container_id := .lit "c", hostname := none, max_frame_size := 512, channel_max := 1,
    idle_time_out := none, outgoing_locales := none, incoming_locales := none,
    offered_capabilities := none, desired_capabilities := none,
    properties := some ⟨[(⟨.lit "p"⟩, nestedMaps n)]⟩ }⟩

end Amqp
