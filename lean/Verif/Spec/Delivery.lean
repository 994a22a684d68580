import Verif.Spec.Frames
import Verif.Spec.Messages
/-!
# Deliveries

How AMQP 1.0 part 2 (2.6.12, 2.7.5) has a message travel: as the payload of one
transfer or of several, all but the last of which say `more`.  Nothing here
models code of the repository.
-/
set_option autoImplicit false
namespace Amqp

/-- What follows the performative of a transfer in its frame. -/
def Transfer.payload (t : Transfer) : Bytes := t.body.elim [] enc

/-- Does the frame carry a transfer on the channel and for the link handle given? -/
def AmqpFrame.onLink (ch : UInt16) (h : Handle) (f : AmqpFrame) : Bool :=
  match f.performative with
  | .Transfer t => f.channel_id == ch && t.handle == h
  | _ => false

/-- What a receiver does: collect the payloads of the transfers of a link, and
hand them over when a transfer does not say `more`. -/
def deliveries (ch : UInt16) (h : Handle) : Bytes → List AmqpFrame → List Bytes
  | _, [] => []
  | acc, f :: fs =>
    match f.performative with
    | .Transfer t =>
      if f.channel_id = ch ∧ t.handle = h then
        if t.more then deliveries ch h (acc ++ t.payload) fs
        else (acc ++ t.payload) :: deliveries ch h [] fs
      else deliveries ch h acc fs
    | _ => deliveries ch h acc fs

/-- The frames are the transfers of one delivery of the bytes. -/
def CarriedBy (ch : UInt16) (h : Handle) (bytes : Bytes) (fs : List AmqpFrame) : Prop :=
  ∃ (ts : List Transfer) (last : Transfer),
    fs = ts.map (fun t => ⟨ch, .Transfer t⟩) ++ [⟨ch, .Transfer last⟩] ∧
    (∀ t ∈ ts, t.handle = h ∧ t.more = true) ∧ last.handle = h ∧ last.more = false ∧
    (ts ++ [last]).flatMap Transfer.payload = bytes

/-- The message as an application that receives it sees it: an absent body is an
empty data section, messages sent inside it are data sections. -/
def OutMessage.asReceived (m : OutMessage) : InMessage :=
  { header := m.header
    delivery_annotations := m.delivery_annotations
    message_annotations := m.message_annotations
    properties := m.properties
    application_properties := m.application_properties.map fun x => ⟨x.entries⟩
    footer := m.footer
    data := if m.data = [] ∧ m.sequence = [] ∧ m.value.isNone ∧ m.messages = [] then [⟨[]⟩]
      else m.data ++ m.messages.map fun b => ⟨enc b⟩
    sequence := m.sequence
    value := m.value }

end Amqp
