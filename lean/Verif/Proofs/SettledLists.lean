import Verif.Proofs.Settled
/-!
# What has arrived arrives unaltered when sent on: the types one by one

Generated by `tools/gen_travel.py`.  Support for C86.
-/
set_option autoImplicit false
namespace Amqp

instance : Settled Error := listSettled (fun _ => rfl)
  ⟨FieldFate.req_stable, FieldFate.opt_stable, FieldFate.opt_stable, trivial⟩

instance : Settled Received := listSettled (fun _ => rfl)
  ⟨FieldFate.req_stable, FieldFate.req_stable, trivial⟩

instance : Settled Accepted := .same fun _ _ => rfl

instance : Settled Rejected := listSettled (fun _ => rfl)
  ⟨FieldFate.opt_stable, trivial⟩

instance : Settled Released := .same fun _ _ => rfl

instance : Settled Modified := listSettled (fun _ => rfl)
  ⟨FieldFate.opt_stable, FieldFate.opt_stable, FieldFate.opt_stable, trivial⟩

instance : Settled DeliveryState := ⟨fun env u w h => by
  cases u with
  | Received v => obtain ⟨a, rfl, k⟩ := settled_member DeliveryState.Received h; exact k
  | Accepted v => obtain ⟨a, rfl, k⟩ := settled_member DeliveryState.Accepted h; exact k
  | Rejected v => obtain ⟨a, rfl, k⟩ := settled_member DeliveryState.Rejected h; exact k
  | Released v => obtain ⟨a, rfl, k⟩ := settled_member DeliveryState.Released h; exact k
  | Modified v => obtain ⟨a, rfl, k⟩ := settled_member DeliveryState.Modified h; exact k⟩

instance : Settled Outcome := ⟨fun env u w h => by
  cases u with
  | Accepted v => obtain ⟨a, rfl, k⟩ := settled_member Outcome.Accepted h; exact k
  | Rejected v => obtain ⟨a, rfl, k⟩ := settled_member Outcome.Rejected h; exact k
  | Released v => obtain ⟨a, rfl, k⟩ := settled_member Outcome.Released h; exact k
  | Modified v => obtain ⟨a, rfl, k⟩ := settled_member Outcome.Modified h; exact k⟩

instance : Settled Source := listSettled (fun _ => rfl)
  ⟨FieldFate.opt_stable, FieldFate.dflt_stable, FieldFate.dflt_stable, FieldFate.dflt_stable, FieldFate.dflt_stable, FieldFate.opt_stable, FieldFate.opt_stable, FieldFate.opt_stable, FieldFate.opt_stable, FieldFate.opt_stable, FieldFate.opt_stable, trivial⟩

instance : Settled Target := listSettled (fun _ => rfl)
  ⟨FieldFate.opt_stable, FieldFate.dflt_stable, FieldFate.dflt_stable, FieldFate.dflt_stable, FieldFate.dflt_stable, FieldFate.opt_stable, FieldFate.opt_stable, trivial⟩

instance : Settled Open := listSettled (fun _ => rfl)
  ⟨FieldFate.req_stable, FieldFate.opt_stable, FieldFate.dflt_stable, FieldFate.dflt_stable, FieldFate.opt_stable, FieldFate.opt_stable, FieldFate.opt_stable, FieldFate.opt_stable, FieldFate.opt_stable, FieldFate.opt_stable, trivial⟩

instance : Settled Begin := listSettled (fun _ => rfl)
  ⟨FieldFate.opt_stable, FieldFate.req_stable, FieldFate.req_stable, FieldFate.req_stable, FieldFate.dflt_stable, FieldFate.opt_stable, FieldFate.opt_stable, FieldFate.opt_stable, trivial⟩

instance : Settled Attach := listSettled (fun _ => rfl)
  ⟨FieldFate.req_stable, FieldFate.req_stable, FieldFate.req_stable, FieldFate.dflt_stable, FieldFate.dflt_stable, FieldFate.opt_stable, FieldFate.opt_stable, FieldFate.opt_stable, FieldFate.dflt_stable, FieldFate.opt_stable, FieldFate.opt_stable, FieldFate.opt_stable, FieldFate.opt_stable, FieldFate.opt_stable, trivial⟩

instance : Settled Flow := listSettled (fun _ => rfl)
  ⟨FieldFate.opt_stable, FieldFate.req_stable, FieldFate.req_stable, FieldFate.req_stable, FieldFate.opt_stable, FieldFate.opt_stable, FieldFate.opt_stable, FieldFate.opt_stable, FieldFate.dflt_stable, FieldFate.dflt_stable, FieldFate.opt_stable, trivial⟩

instance : Settled Disposition := listSettled (fun _ => rfl)
  ⟨FieldFate.req_stable, FieldFate.req_stable, FieldFate.opt_stable, FieldFate.dflt_stable, FieldFate.opt_stable, FieldFate.dflt_stable, trivial⟩

instance : Settled Detach := listSettled (fun _ => rfl)
  ⟨FieldFate.req_stable, FieldFate.dflt_stable, FieldFate.opt_stable, trivial⟩

instance : Settled End := listSettled (fun _ => rfl)
  ⟨FieldFate.opt_stable, trivial⟩

instance : Settled Close := listSettled (fun _ => rfl)
  ⟨FieldFate.opt_stable, trivial⟩

instance : Settled TransferPerf := listSettled (fun _ => rfl)
  ⟨FieldFate.req_stable, FieldFate.opt_stable, FieldFate.opt_stable, FieldFate.opt_stable, FieldFate.opt_stable, FieldFate.dflt_stable, FieldFate.opt_stable, FieldFate.opt_stable, FieldFate.dflt_stable, FieldFate.dflt_stable, FieldFate.dflt_stable, trivial⟩

instance : Settled SaslMechanisms := listSettled (fun _ => rfl)
  ⟨FieldFate.req_stable, trivial⟩

instance : Settled SaslInit := listSettled (fun _ => rfl)
  ⟨FieldFate.req_stable, FieldFate.opt_stable, FieldFate.opt_stable, trivial⟩

instance : Settled SaslChallenge := listSettled (fun _ => rfl)
  ⟨FieldFate.req_stable, trivial⟩

instance : Settled SaslResponse := listSettled (fun _ => rfl)
  ⟨FieldFate.req_stable, trivial⟩

instance : Settled SaslOutcome := listSettled (fun _ => rfl)
  ⟨FieldFate.req_stable, FieldFate.opt_stable, trivial⟩

instance : Settled SaslFrameBody := ⟨fun env u w h => by
  cases u with
  | SaslMechanisms v => obtain ⟨a, rfl, k⟩ := settled_member SaslFrameBody.SaslMechanisms h; exact k
  | SaslInit v => obtain ⟨a, rfl, k⟩ := settled_member SaslFrameBody.SaslInit h; exact k
  | SaslChallenge v => obtain ⟨a, rfl, k⟩ := settled_member SaslFrameBody.SaslChallenge h; exact k
  | SaslResponse v => obtain ⟨a, rfl, k⟩ := settled_member SaslFrameBody.SaslResponse h; exact k
  | SaslOutcome v => obtain ⟨a, rfl, k⟩ := settled_member SaslFrameBody.SaslOutcome h; exact k⟩

instance : Settled Header := listSettled (fun _ => rfl)
  ⟨FieldFate.dflt_stable, FieldFate.dflt_stable, FieldFate.opt_stable, FieldFate.dflt_stable, FieldFate.dflt_stable, trivial⟩

instance : Settled Properties := listSettled (fun _ => rfl)
  ⟨FieldFate.opt_stable, FieldFate.opt_stable, FieldFate.opt_stable, FieldFate.opt_stable, FieldFate.opt_stable, FieldFate.opt_stable, FieldFate.opt_stable, FieldFate.opt_stable, FieldFate.opt_stable, FieldFate.opt_stable, FieldFate.opt_stable, FieldFate.opt_stable, FieldFate.opt_stable, trivial⟩

instance : Settled Section := ⟨fun env u w h => by
  cases u with
  | Header v => obtain ⟨a, rfl, k⟩ := settled_member Section.Header h; exact k
  | DeliveryAnnotations v => obtain ⟨a, rfl, k⟩ := settled_member Section.DeliveryAnnotations h; exact k
  | MessageAnnotations v => obtain ⟨a, rfl, k⟩ := settled_member Section.MessageAnnotations h; exact k
  | ApplicationProperties v => obtain ⟨a, rfl, k⟩ := settled_member Section.ApplicationProperties h; exact k
  | Data v => obtain ⟨a, rfl, k⟩ := settled_member Section.Data h; exact k
  | AmqpSequence v => obtain ⟨a, rfl, k⟩ := settled_member Section.AmqpSequence h; exact k
  | AmqpValue v => obtain ⟨a, rfl, k⟩ := settled_member Section.AmqpValue h; exact k
  | Footer v => obtain ⟨a, rfl, k⟩ := settled_member Section.Footer h; exact k
  | Properties v => obtain ⟨a, rfl, k⟩ := settled_member Section.Properties h; exact k⟩

theorem arriving_arriving (b : Option TransferBody) : arrivingBody (arrivingBody b) = arrivingBody b := by
  cases b with
  | none => rfl
  | some b =>
    simp only [arrivingBody]
    by_cases h : enc b = []
    · rw [if_pos h]
    · rw [if_neg h]
      exact if_neg h

instance : Settled Transfer := ⟨fun env t w h => by
  obtain ⟨p, h1, h2⟩ := bind_arrives (s := fate env t.toTransferPerf)
    (f := fun p => pure ({ p with body := arrivingBody t.body } : Transfer)) h
  cases h2
  show (fate env p >>= fun q => pure ({ q with body := arrivingBody (arrivingBody t.body) } : Transfer)) = _
  rw [Settled.settled env _ p h1, arriving_arriving]
  rfl⟩

instance : Settled Frame := ⟨fun env u w h => by
  cases u with
  | Open v => obtain ⟨a, rfl, k⟩ := settled_member Frame.Open h; exact k
  | Begin v => obtain ⟨a, rfl, k⟩ := settled_member Frame.Begin h; exact k
  | Attach v => obtain ⟨a, rfl, k⟩ := settled_member Frame.Attach h; exact k
  | Flow v => obtain ⟨a, rfl, k⟩ := settled_member Frame.Flow h; exact k
  | Transfer v => obtain ⟨a, rfl, k⟩ := settled_member Frame.Transfer h; exact k
  | Disposition v => obtain ⟨a, rfl, k⟩ := settled_member Frame.Disposition h; exact k
  | Detach v => obtain ⟨a, rfl, k⟩ := settled_member Frame.Detach h; exact k
  | End v => obtain ⟨a, rfl, k⟩ := settled_member Frame.End h; exact k
  | Close v => obtain ⟨a, rfl, k⟩ := settled_member Frame.Close h; exact k
  | Empty => cases h; rfl⟩

instance : Settled AmqpFrame := ⟨fun env f w h => by
  obtain ⟨a, rfl, k⟩ := settled_member (fun p => ({ channel_id := f.channel_id, performative := p } : AmqpFrame)) h
  exact k⟩

instance : Settled SaslFrame := ⟨fun env f w h => by
  obtain ⟨a, rfl, k⟩ := settled_member SaslFrame.mk h
  exact k⟩

end Amqp
