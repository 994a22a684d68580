import Verif.Proofs.EqualityReceived
import Verif.Spec.EqualityLists
import Verif.Proofs.ForwardLists
/-!
# Performatives and sections that the decoders yield

Generated by `tools/gen_equality.py`.
-/
set_option autoImplicit false
namespace Amqp
open Dec

instance : ReceivedHeld Role := receivedAny _
instance : ReceivedHeld SenderSettleMode := receivedAny _
instance : ReceivedHeld ReceiverSettleMode := receivedAny _
instance : ReceivedHeld SaslCode := receivedAny _
instance : ReceivedHeld TerminusDurability := receivedAny _
instance : ReceivedHeld TerminusExpiryPolicy := receivedAny _

theorem Error.receivedInner : ReceivedInner Error := by
  intro env i r v h
  obtain ⟨o0, o1, o2, -⟩ := inner_origin h
  exact ⟨received_req o0, received_opt o1, received_opt o2⟩
instance : ReceivedHeld Error := received_list Error.receivedInner

theorem Open.receivedInner : ReceivedInner Open := by
  intro env i r v h
  obtain ⟨o0, o1, -, -, o4, o5, o6, o7, o8, o9, -⟩ := inner_origin h
  exact ⟨received_req o0, received_opt o1, trivial, trivial, received_opt o4, received_opt o5, received_opt o6, received_opt o7, received_opt o8, received_opt o9⟩
instance : ReceivedHeld Open := received_list Open.receivedInner

theorem Begin.receivedInner : ReceivedInner Begin := by
  intro env i r v h
  obtain ⟨o0, o1, o2, o3, -, o5, o6, o7, -⟩ := inner_origin h
  exact ⟨received_opt o0, received_req o1, received_req o2, received_req o3, trivial, received_opt o5, received_opt o6, received_opt o7⟩
instance : ReceivedHeld Begin := received_list Begin.receivedInner

theorem Accepted.receivedInner : ReceivedInner Accepted := by
  exact fun _ _ _ _ _ => trivial
instance : ReceivedHeld Accepted := received_list Accepted.receivedInner

theorem Rejected.receivedInner : ReceivedInner Rejected := by
  intro env i r v h
  obtain ⟨o0, -⟩ := inner_origin h
  show held v.error
  exact received_opt o0
instance : ReceivedHeld Rejected := received_list Rejected.receivedInner

theorem Released.receivedInner : ReceivedInner Released := by
  exact fun _ _ _ _ _ => trivial
instance : ReceivedHeld Released := received_list Released.receivedInner

theorem Modified.receivedInner : ReceivedInner Modified := by
  intro env i r v h
  obtain ⟨o0, o1, o2, -⟩ := inner_origin h
  exact ⟨received_opt o0, received_opt o1, received_opt o2⟩
instance : ReceivedHeld Modified := received_list Modified.receivedInner

theorem Outcome.held_of_origin {env : Env} {v : Outcome} (ho : v.Origin env) : held v := by
  cases v with
  | Accepted x => obtain ⟨i, r, ho⟩ := ho; exact Accepted.receivedInner env i r x ho
  | Rejected x => obtain ⟨i, r, ho⟩ := ho; exact Rejected.receivedInner env i r x ho
  | Released x => obtain ⟨i, r, ho⟩ := ho; exact Released.receivedInner env i r x ho
  | Modified x => obtain ⟨i, r, ho⟩ := ho; exact Modified.receivedInner env i r x ho
instance : ReceivedHeld Outcome := ⟨by
  intro env i r v h
  obtain ⟨c, t, rfl, h1⟩ := decode_ok h
  obtain ⟨_, h1⟩ := validateCode_ok h1
  obtain ⟨_, d, _, h1⟩ := bind_eq_ok.1 h1
  exact Outcome.held_of_origin (Outcome.dispatch_origin env d _ _ _ h1)⟩

theorem Source.receivedInner : ReceivedInner Source := by
  intro env i r v h
  obtain ⟨o0, -, -, -, -, o5, o6, o7, o8, o9, o10, -⟩ := inner_origin h
  exact ⟨received_opt o0, trivial, trivial, trivial, trivial, received_opt o5, received_opt o6, received_opt o7, received_opt o8, received_opt o9, received_opt o10⟩
instance : ReceivedHeld Source := received_list Source.receivedInner

theorem Target.receivedInner : ReceivedInner Target := by
  intro env i r v h
  obtain ⟨o0, -, -, -, -, o5, o6, -⟩ := inner_origin h
  exact ⟨received_opt o0, trivial, trivial, trivial, trivial, received_opt o5, received_opt o6⟩
instance : ReceivedHeld Target := received_list Target.receivedInner

theorem Attach.receivedInner : ReceivedInner Attach := by
  intro env i r v h
  obtain ⟨o0, o1, o2, -, -, o5, o6, o7, -, o9, o10, o11, o12, o13, -⟩ := inner_origin h
  exact ⟨received_req o0, received_req o1, received_req o2, trivial, trivial, received_opt o5, received_opt o6, received_opt o7, trivial, received_opt o9, received_opt o10, received_opt o11, received_opt o12, received_opt o13⟩
instance : ReceivedHeld Attach := received_list Attach.receivedInner

theorem Flow.receivedInner : ReceivedInner Flow := by
  intro env i r v h
  obtain ⟨o0, o1, o2, o3, o4, o5, o6, o7, -, -, o10, -⟩ := inner_origin h
  exact ⟨received_opt o0, received_req o1, received_req o2, received_req o3, received_opt o4, received_opt o5, received_opt o6, received_opt o7, trivial, trivial, received_opt o10⟩
instance : ReceivedHeld Flow := received_list Flow.receivedInner

theorem Received.receivedInner : ReceivedInner Received := by
  intro env i r v h
  obtain ⟨o0, o1, -⟩ := inner_origin h
  exact ⟨received_req o0, received_req o1⟩
instance : ReceivedHeld Received := received_list Received.receivedInner

theorem DeliveryState.held_of_origin {env : Env} {v : DeliveryState} (ho : v.Origin env) : held v := by
  cases v with
  | Received x => obtain ⟨i, r, ho⟩ := ho; exact Received.receivedInner env i r x ho
  | Accepted x => obtain ⟨i, r, ho⟩ := ho; exact Accepted.receivedInner env i r x ho
  | Rejected x => obtain ⟨i, r, ho⟩ := ho; exact Rejected.receivedInner env i r x ho
  | Released x => obtain ⟨i, r, ho⟩ := ho; exact Released.receivedInner env i r x ho
  | Modified x => obtain ⟨i, r, ho⟩ := ho; exact Modified.receivedInner env i r x ho
instance : ReceivedHeld DeliveryState := ⟨by
  intro env i r v h
  obtain ⟨c, t, rfl, h1⟩ := decode_ok h
  obtain ⟨_, h1⟩ := validateCode_ok h1
  obtain ⟨_, d, _, h1⟩ := bind_eq_ok.1 h1
  exact DeliveryState.held_of_origin (DeliveryState.dispatch_origin env d _ _ _ h1)⟩

theorem TransferPerf.receivedInner : ReceivedInner TransferPerf := by
  intro env i r v h
  obtain ⟨o0, o1, o2, o3, o4, -, o6, o7, -, -, -, -⟩ := inner_origin h
  exact ⟨received_req o0, received_opt o1, received_opt o2, received_opt o3, received_opt o4, trivial, received_opt o6, received_opt o7, trivial, trivial, trivial⟩
instance : ReceivedHeld TransferPerf := received_list TransferPerf.receivedInner

theorem Disposition.receivedInner : ReceivedInner Disposition := by
  intro env i r v h
  obtain ⟨o0, o1, o2, -, o4, -, -⟩ := inner_origin h
  exact ⟨received_req o0, received_req o1, received_opt o2, trivial, received_opt o4, trivial⟩
instance : ReceivedHeld Disposition := received_list Disposition.receivedInner

theorem Detach.receivedInner : ReceivedInner Detach := by
  intro env i r v h
  obtain ⟨o0, -, o2, -⟩ := inner_origin h
  exact ⟨received_req o0, trivial, received_opt o2⟩
instance : ReceivedHeld Detach := received_list Detach.receivedInner

theorem End.receivedInner : ReceivedInner End := by
  intro env i r v h
  obtain ⟨o0, -⟩ := inner_origin h
  show held v.error
  exact received_opt o0
instance : ReceivedHeld End := received_list End.receivedInner

theorem Close.receivedInner : ReceivedInner Close := by
  intro env i r v h
  obtain ⟨o0, -⟩ := inner_origin h
  show held v.error
  exact received_opt o0
instance : ReceivedHeld Close := received_list Close.receivedInner

theorem SaslMechanisms.receivedInner : ReceivedInner SaslMechanisms := by
  intro env i r v h
  obtain ⟨o0, -⟩ := inner_origin h
  show held v.sasl_server_mechanisms
  exact received_req o0
instance : ReceivedHeld SaslMechanisms := received_list SaslMechanisms.receivedInner

theorem SaslInit.receivedInner : ReceivedInner SaslInit := by
  intro env i r v h
  obtain ⟨o0, o1, o2, -⟩ := inner_origin h
  exact ⟨received_req o0, received_opt o1, received_opt o2⟩
instance : ReceivedHeld SaslInit := received_list SaslInit.receivedInner

theorem SaslChallenge.receivedInner : ReceivedInner SaslChallenge := by
  intro env i r v h
  obtain ⟨o0, -⟩ := inner_origin h
  show held v.challenge
  exact received_req o0
instance : ReceivedHeld SaslChallenge := received_list SaslChallenge.receivedInner

theorem SaslResponse.receivedInner : ReceivedInner SaslResponse := by
  intro env i r v h
  obtain ⟨o0, -⟩ := inner_origin h
  show held v.response
  exact received_req o0
instance : ReceivedHeld SaslResponse := received_list SaslResponse.receivedInner

theorem SaslOutcome.receivedInner : ReceivedInner SaslOutcome := by
  intro env i r v h
  obtain ⟨o0, o1, -⟩ := inner_origin h
  exact ⟨received_req o0, received_opt o1⟩
instance : ReceivedHeld SaslOutcome := received_list SaslOutcome.receivedInner

theorem Header.receivedInner : ReceivedInner Header := by
  intro env i r v h
  obtain ⟨-, -, o2, -, -, -⟩ := inner_origin h
  exact ⟨trivial, trivial, received_opt o2, trivial, trivial⟩
instance : ReceivedHeld Header := received_list Header.receivedInner

theorem Properties.receivedInner : ReceivedInner Properties := by
  intro env i r v h
  obtain ⟨o0, o1, o2, o3, o4, o5, o6, o7, o8, o9, o10, o11, o12, -⟩ := inner_origin h
  exact ⟨received_opt o0, received_opt o1, received_opt o2, received_opt o3, received_opt o4, received_opt o5, received_opt o6, received_opt o7, received_opt o8, received_opt o9, received_opt o10, received_opt o11, received_opt o12⟩
instance : ReceivedHeld Properties := received_list Properties.receivedInner

theorem SaslFrameBody.held_of_origin {env : Env} {v : SaslFrameBody} (ho : v.Origin env) : held v := by
  cases v with
  | SaslMechanisms x => obtain ⟨i, r, ho⟩ := ho; exact SaslMechanisms.receivedInner env i r x ho
  | SaslInit x => obtain ⟨i, r, ho⟩ := ho; exact SaslInit.receivedInner env i r x ho
  | SaslChallenge x => obtain ⟨i, r, ho⟩ := ho; exact SaslChallenge.receivedInner env i r x ho
  | SaslResponse x => obtain ⟨i, r, ho⟩ := ho; exact SaslResponse.receivedInner env i r x ho
  | SaslOutcome x => obtain ⟨i, r, ho⟩ := ho; exact SaslOutcome.receivedInner env i r x ho
instance : ReceivedHeld SaslFrameBody := ⟨by
  intro env i r v h
  obtain ⟨c, t, rfl, h1⟩ := decode_ok h
  obtain ⟨_, h1⟩ := validateCode_ok h1
  obtain ⟨_, d, _, h1⟩ := bind_eq_ok.1 h1
  exact SaslFrameBody.held_of_origin (SaslFrameBody.dispatch_origin env d _ _ _ h1)⟩

theorem Section.held_of_origin {env : Env} {v : Section} (ho : v.Origin env) : held v := by
  cases v with
  | Header x => obtain ⟨i, r, ho⟩ := ho; exact Header.receivedInner env i r x ho
  | DeliveryAnnotations x => obtain ⟨i, r, ho⟩ := ho; exact ReceivedHeld.held_of env i r x ho
  | MessageAnnotations x => obtain ⟨i, r, ho⟩ := ho; exact ReceivedHeld.held_of env i r x ho
  | ApplicationProperties x => obtain ⟨i, r, ho⟩ := ho; exact ReceivedHeld.held_of env i r x ho
  | Data x => obtain ⟨i, r, ho⟩ := ho; exact ReceivedHeld.held_of env i r x ho
  | AmqpSequence x => obtain ⟨i, r, ho⟩ := ho; exact ReceivedHeld.held_of env i r x ho
  | AmqpValue x => obtain ⟨i, r, ho⟩ := ho; exact ReceivedHeld.held_of env i r x ho
  | Footer x => obtain ⟨i, r, ho⟩ := ho; exact ReceivedHeld.held_of env i r x ho
  | Properties x => obtain ⟨i, r, ho⟩ := ho; exact Properties.receivedInner env i r x ho
instance : ReceivedHeld Section := ⟨by
  intro env i r v h
  obtain ⟨c, t, rfl, h1⟩ := decode_ok h
  obtain ⟨_, h1⟩ := validateCode_ok h1
  obtain ⟨_, d, _, h1⟩ := bind_eq_ok.1 h1
  exact Section.held_of_origin (Section.dispatch_origin env d _ _ _ h1)⟩

end Amqp
