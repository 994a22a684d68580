import Verif.Spec.TravelFrames
/-!
# What becomes of messages on their way
-/
set_option autoImplicit false
namespace Amqp

/-- Application properties arrive as a map: of several with the same name the last counts. -/
def namedFate {AP : Type} (entries : AP → List (Str × Variant)) (env : Env) :
    Option AP → Fate (Option StringVariantMap)
  | none => pure none
  | some a => do pure (some ⟨Lenient.merged (← sentValues env.stackDepth (entries a))⟩)

/-- Sequences are refused. -/
def sequenceFate (l : List VList) : Fate Unit := if l = [] then .arrives () else .refused

/-- What becomes of a message.  The sections are looked at in the order in which they are
written.  The message format is not part of the message, application properties are merged
into a map, a body that holds a sequence is refused, a missing body arrives as an empty data
section, messages inside it arrive as data sections. -/
def Message.travels {AP : Type} (entries : AP → List (Str × Variant)) (env : Env)
    (m : Message AP) : Fate InMessage := do
  let header ← fate env m.header
  let delivery_annotations ← fate env m.delivery_annotations
  let message_annotations ← fate env m.message_annotations
  let properties ← fate env m.properties
  let application_properties ← namedFate entries env m.application_properties
  sequenceFate m.sequence
  let value ← fate env m.value
  let footer ← fate env m.footer
  pure
    { header, delivery_annotations, message_annotations, properties, application_properties
      data := if m.data = [] ∧ m.value.isNone ∧ m.messages = [] then [⟨[]⟩]
        else m.data ++ m.messages.map fun b => ⟨enc b⟩
      value, footer }

/-- Received messages that are sent on. -/
def InMessage.travels (env : Env) (m : InMessage) : Fate InMessage :=
  Message.travels (fun a => a.entries) env m

/-- Messages made to be sent. -/
def OutMessage.travels (env : Env) (m : OutMessage) : Fate InMessage :=
  Message.travels (fun a => a.entries) env m

/-- The messages inside a message report their size correctly. -/
def Message.NestedExact {AP : Type} (m : Message AP) : Prop :=
  ∀ b ∈ m.messages, size b = (enc b).length

/-- What the decoder of messages answers. -/
def Fate.Opens {α : Type} (s : Fate α) (r : Res ParseError (Bytes × α)) : Prop :=
  match s with
  | .arrives a => ∃ rest, r = .ok (rest, a)
  | .refused => ∃ e, r = .err e
  | .crashes p => r = .panic p

end Amqp
