import Verif.Proofs.MessageExact
import Verif.Props.Standard
/-!
# C71: exactly which values are written as the standard says

`Props/Standard.lean` shows that values meeting the conditions `Standard.can…` are
written as the standard says.  Here these conditions are shown to be exact: what is
written for any other value is not an encoding of that value that the standard allows.
So each of them marks a value that an application can build and send, and that no
conforming peer need understand.
-/
set_option autoImplicit false
namespace Amqp
open Dec Standard

/-- What is written for a value is a legal encoding of it if `can` holds of it, and only
then. -/
def WrittenExactly {α : Type} [Encode α] (L : Rep α) (can : α → Prop) : Prop :=
  ∀ a : α, (enc a).length < 2 ^ 32 → (L a (enc a) ↔ can a)

theorem written_exactly {α : Type} [Encode α] {L : Rep α} {can : α → Prop}
    (h : ∀ a, can a → (enc a).length < 2 ^ 32 → L a (enc a)) (h' : Sharp L can) :
    WrittenExactly L can :=
  fun a hs => ⟨sharp_only h' a hs, fun hc => h a hc hs⟩

/-- **C71**, writing: for every type with conditions, the values written as the standard
says are exactly those that meet them. -/
theorem C71_written_exactly_partial :
    WrittenExactly (Standard.error .all) canError ∧
    WrittenExactly (Standard.rejected .all) canRejected ∧
    WrittenExactly (Standard.modified .all) canModified ∧
    WrittenExactly (Standard.deliveryState .all) canState ∧
    WrittenExactly (Standard.outcome .all) canOutcome ∧
    WrittenExactly (Standard.source .all) canSource ∧
    WrittenExactly (Standard.target .all) canTarget ∧
    WrittenExactly (Standard.opening .all) canOpen ∧
    WrittenExactly (Standard.beginning .all) canBegin ∧
    WrittenExactly (Standard.attach .all) canAttach ∧
    WrittenExactly (Standard.flow .all) canFlow ∧
    WrittenExactly (Standard.transfer .all) canTransfer ∧
    WrittenExactly (Standard.disposition .all) canDisposition ∧
    WrittenExactly (Standard.detach .all) canDetach ∧
    WrittenExactly (Standard.ending .all) canEnd ∧
    WrittenExactly (Standard.close .all) canClose ∧
    WrittenExactly (Standard.properties .all) canProperties ∧
    WrittenExactly (Standard.saslMechanisms .all) (fun v => canSymbols v.sasl_server_mechanisms) ∧
    WrittenExactly (Standard.saslInit .all) (fun v => canSymbol v.mechanism) ∧
    WrittenExactly (Standard.saslBody .all) canSasl ∧
    WrittenExactly (Standard.errorCondition .all) canCondition ∧
    WrittenExactly (Standard.distributionMode .all) canMode ∧
    WrittenExactly Standard.filterSet canFilter :=
  ⟨written_exactly write_error sharp_error, written_exactly write_rejected sharp_rejected, written_exactly write_modified
    sharp_modified, written_exactly write_deliveryState sharp_deliveryState, written_exactly write_outcome
    sharp_outcome, written_exactly write_source sharp_source, written_exactly write_target sharp_target, written_exactly
    write_opening sharp_opening, written_exactly write_beginning sharp_beginning, written_exactly write_attach
    sharp_attach, written_exactly write_flow sharp_flow, written_exactly write_transfer sharp_transfer, written_exactly
    write_disposition sharp_disposition, written_exactly write_detach sharp_detach, written_exactly write_ending
    sharp_ending, written_exactly write_close sharp_close, written_exactly write_properties sharp_properties,
    written_exactly write_saslMechanisms sharp_saslMechanisms, written_exactly write_saslInit sharp_saslInit,
    written_exactly write_saslBody sharp_saslBody, written_exactly write_errorCondition sharp_errorCondition,
    written_exactly write_distributionMode sharp_distributionMode, written_exactly write_filter sharp_filter⟩

/-- A custom distribution mode is written as the standard says. -/
example : distributionMode .all (.Custom ⟨.lit "x"⟩) (enc (DistributionMode.Custom ⟨.lit "x"⟩)) :=
  (written_exactly write_distributionMode sharp_distributionMode _ (by decide)).2
    ⟨by show RStr.Ascii _; unfold RStr.Ascii; decide, by decide, by decide⟩
/-- One with a name beyond ASCII is not. -/
example : ¬ distributionMode .all (.Custom ⟨.lit "é"⟩) (enc (DistributionMode.Custom ⟨.lit "é"⟩)) := fun h => by
  have := ((written_exactly write_distributionMode sharp_distributionMode _ (by decide)).1 h).1
  revert this
  show ¬ RStr.Ascii _
  unfold RStr.Ascii; decide
/-- Nor is a rejection with a custom condition that has the name of the standard's. -/
example : ¬ rejected .all ⟨some ⟨.Custom ⟨.lit "amqp:internal-error"⟩, none, none⟩⟩
    (enc (⟨some ⟨.Custom ⟨.lit "amqp:internal-error"⟩, none, none⟩⟩ : Rejected)) := fun h =>
  ((written_exactly write_rejected sharp_rejected _ (by decide)).1 h _ rfl).1.2 (.inl ⟨.InternalError, rfl⟩)

/-- **C71**, writing frames: a frame is written as the standard says exactly if its
performative can be. -/
theorem C71_written_amqp_frame_exactly_partial (f : AmqpFrame) (hs : (enc f).length < 2 ^ 32) :
    amqpFrame .all f (enc f) ↔ canFrame f.performative :=
  ⟨only_amqpFrame f hs, fun h => C71_written_amqp_frame_partial f h hs⟩

/-- **C71**, writing SASL frames. -/
theorem C71_written_sasl_frame_exactly_partial (f : SaslFrame) (hs : (enc f).length < 2 ^ 32) :
    saslFrame .all f (enc f) ↔ canSasl f.body :=
  ⟨only_saslFrame f hs, fun h => C71_written_sasl_frame_partial f h hs⟩

def payloadFrame (p : Bytes) : AmqpFrame :=
  ⟨3, .Transfer { TransferPerf.sample with body := some (.Data ⟨p⟩) }⟩

/-- A transfer with bytes as its payload is written as the standard says. -/
example : amqpFrame .all (payloadFrame [1, 2]) (enc (payloadFrame [1, 2])) :=
  (C71_written_amqp_frame_exactly_partial _ (by decide)).2
    ⟨fun _ h => (by cases h), fun _ h => ⟨⟨[1, 2]⟩, (by cases h; rfl), by decide⟩⟩
/-- One with an empty payload is not: it is written as one without. -/
example : ¬ amqpFrame .all (payloadFrame []) (enc (payloadFrame [])) := fun h => by
  obtain ⟨d, e, hd⟩ := ((C71_written_amqp_frame_exactly_partial _ (by decide)).1 h).2 _ rfl
  cases e
  exact hd rfl
example : saslFrame .all ⟨.SaslInit SaslInit.sample⟩ (enc (⟨.SaslInit SaslInit.sample⟩ : SaslFrame)) :=
  (C71_written_sasl_frame_exactly_partial _ (by decide)).2 (by show RStr.Ascii _; unfold RStr.Ascii; decide)
example : ¬ saslFrame .all ⟨.SaslInit { SaslInit.sample with mechanism := ⟨.lit "é"⟩ }⟩
    (enc (⟨.SaslInit { SaslInit.sample with mechanism := ⟨.lit "é"⟩ }⟩ : SaslFrame)) := fun h => by
  have := (C71_written_sasl_frame_exactly_partial _ (by decide)).1 h
  revert this
  show ¬ RStr.Ascii _
  unfold RStr.Ascii; decide

/-- **C71**, writing messages: a message with a body of one kind is written as the
standard says exactly if its sections can be.  (`hx`: see C35.) -/
theorem C71_written_message_exactly_partial (m : InMessage) (s : Standard.Message)
    (hm : Contains HMap.entries m s) (hx : ∀ b ∈ m.messages, size b = (enc b).length)
    (hs : (enc m).length < 2 ^ 32) : message .all s (enc m) ↔ canMessage s :=
  ⟨only_message m s hm hx hs, fun hc => C71_written_message_partial m s hm hc hx hs⟩

/-- **C71**, writing messages to be sent. -/
theorem C71_written_out_message_exactly_partial (m : OutMessage) (s : Standard.Message)
    (hm : Contains VecVariantMap.entries m s) (hx : ∀ b ∈ m.messages, size b = (enc b).length)
    (hs : (enc m).length < 2 ^ 32) : message .all s (enc m) ↔ canMessage s :=
  ⟨only_message m s hm hx hs, fun hc => C71_written_out_message_partial m s hm hc hx hs⟩

/-- A message with a header is written as the standard says. -/
example : message .all { header := some Header.sample, body := .data [⟨[]⟩] }
    (enc (Message.empty.setHeader Header.sample : InMessage)) :=
  (C71_written_message_exactly_partial (Message.empty.setHeader Header.sample)
    { header := some Header.sample, body := .data [⟨[]⟩] }
    ⟨rfl, rfl, rfl, rfl, rfl, ⟨rfl, rfl, rfl⟩, rfl⟩ (by intro b hb; cases hb) (by decide)).2
    ⟨(fun _ h => by cases h), (fun _ h => by cases h), (fun _ h => by cases h), (fun _ h => by cases h),
      List.cons_ne_nil _ _, (fun _ h => by cases h)⟩
/-- No message of sequences is, not even of an empty one, received or to be sent. -/
example : ¬ message .all { body := .sequence [⟨[]⟩] }
    (enc ({ Message.empty with sequence := [⟨[]⟩] } : InMessage)) := fun h =>
  ((C71_written_message_exactly_partial { Message.empty with sequence := [⟨[]⟩] }
    { body := .sequence [⟨[]⟩] }
    ⟨rfl, rfl, rfl, rfl, rfl, ⟨rfl, rfl, rfl, rfl, List.cons_ne_nil _ _⟩, rfl⟩
    (by intro b hb; cases hb) (by decide)).1 h).2.2.2.2.1
example : ¬ message .all { body := .sequence [⟨[.uint 1]⟩] }
    (enc ({ Message.empty with sequence := [⟨[.uint 1]⟩] } : OutMessage)) := fun h =>
  ((C71_written_out_message_exactly_partial { Message.empty with sequence := [⟨[.uint 1]⟩] }
    { body := .sequence [⟨[.uint 1]⟩] }
    ⟨rfl, rfl, rfl, rfl, rfl, ⟨rfl, rfl, rfl, rfl, List.cons_ne_nil _ _⟩, rfl⟩
    (by intro b hb; cases hb) (by decide)).1 h).2.2.2.2.1

end Amqp
