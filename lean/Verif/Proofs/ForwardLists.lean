import Verif.Spec.ForwardLists
import Verif.Proofs.ForwardLaws
import Verif.Props.Performatives
import Verif.Props.Descriptors
/-!
# Performatives and sections that come out of the decoders go back in

Generated by `tools/gen_forward.py`.
-/
set_option autoImplicit false
namespace Amqp
open Dec Forwardable

theorem Error.forwardsInner : ForwardsInner Error := by
  intro env i r v h hc hs
  obtain ⟨o0, -, o2, -⟩ := inner_origin h
  obtain ⟨c0, c2⟩ := hc
  have hs' : (listHdr 29 _ 3 ++ (enc v.condition ++ enc v.description ++ enc v.info)).length <
    2 ^ 32 := hs
  simp only [List.length_append] at hs'
  exact C21_error env v hs (forward_req (forwards_of_decoded decoded_errorCondition) o0 c0 (by omega)) (forward_opt (forwards_fields) o2 c2 (by omega))
theorem Error.forwards : Forwards Error := forwards_list Error.forwardsInner

theorem Open.forwardsInner : ForwardsInner Open := by
  intro env i r v h hc hs
  obtain ⟨-, -, -, -, -, o5, o6, o7, o8, o9, -⟩ := inner_origin h
  obtain ⟨c5, c6, c7, c8, c9⟩ := hc
  have hs' : (listHdr 16 _ 10 ++ (enc v.container_id ++ enc v.hostname ++ enc v.max_frame_size ++ enc v.channel_max ++ enc v.idle_time_out ++ enc v.outgoing_locales ++ enc v.incoming_locales ++ enc v.offered_capabilities ++ enc v.desired_capabilities ++ enc v.properties)).length <
    2 ^ 32 := hs
  simp only [List.length_append] at hs'
  exact C21_open env v hs (forward_opt (forwards_symbols) o5 c5 (by omega)) (forward_opt (forwards_symbols) o6 c6 (by omega)) (forward_opt (forwards_symbols) o7 c7 (by omega)) (forward_opt (forwards_symbols) o8 c8 (by omega)) (forward_opt (forwards_fields) o9 c9 (by omega))
theorem Open.forwards : Forwards Open := forwards_list Open.forwardsInner

theorem Begin.forwardsInner : ForwardsInner Begin := by
  intro env i r v h hc hs
  obtain ⟨-, -, -, -, -, o5, o6, o7, -⟩ := inner_origin h
  obtain ⟨c5, c6, c7⟩ := hc
  have hs' : (listHdr 17 _ 8 ++ (enc v.remote_channel ++ enc v.next_outgoing_id ++ enc v.incoming_window ++ enc v.outgoing_window ++ enc v.handle_max ++ enc v.offered_capabilities ++ enc v.desired_capabilities ++ enc v.properties)).length <
    2 ^ 32 := hs
  simp only [List.length_append] at hs'
  exact C21_begin env v hs (forward_opt (forwards_symbols) o5 c5 (by omega)) (forward_opt (forwards_symbols) o6 c6 (by omega)) (forward_opt (forwards_fields) o7 c7 (by omega))
theorem Begin.forwards : Forwards Begin := forwards_list Begin.forwardsInner

theorem Accepted.forwardsInner : ForwardsInner Accepted := by
  exact fun env _ _ v _ _ hs => C21_accepted env v hs
theorem Accepted.forwards : Forwards Accepted := forwards_list Accepted.forwardsInner

theorem Rejected.forwardsInner : ForwardsInner Rejected := by
  intro env i r v h hc hs
  obtain ⟨o0, -⟩ := inner_origin h
  have c0 : fwd env v.error := hc
  have hs' : (listHdr 37 _ 1 ++ (enc v.error)).length <
    2 ^ 32 := hs
  simp only [List.length_append] at hs'
  exact C21_rejected env v hs (forward_opt (Error.forwards) o0 c0 (by omega))
theorem Rejected.forwards : Forwards Rejected := forwards_list Rejected.forwardsInner

theorem Released.forwardsInner : ForwardsInner Released := by
  exact fun env _ _ v _ _ hs => C21_released env v hs
theorem Released.forwards : Forwards Released := forwards_list Released.forwardsInner

theorem Modified.forwardsInner : ForwardsInner Modified := by
  intro env i r v h hc hs
  obtain ⟨-, -, o2, -⟩ := inner_origin h
  have c2 : fwd env v.message_annotations := hc
  have hs' : (listHdr 39 _ 3 ++ (enc v.delivery_failed ++ enc v.undeliverable_here ++ enc v.message_annotations)).length <
    2 ^ 32 := hs
  simp only [List.length_append] at hs'
  exact C21_modified env v hs (forward_opt (forwards_fields) o2 c2 (by omega))
theorem Modified.forwards : Forwards Modified := forwards_list Modified.forwardsInner

/-- What the alternatives of `Outcome` yield was decoded as the alternative. -/
def Outcome.Origin (env : Env) : Outcome → Prop
  | .Accepted x => ∃ i r, ListType.inner env i = .ok (r, x)
  | .Rejected x => ∃ i r, ListType.inner env i = .ok (r, x)
  | .Released x => ∃ i r, ListType.inner env i = .ok (r, x)
  | .Modified x => ∃ i r, ListType.inner env i = .ok (r, x)
theorem Outcome.dispatch_origin (env : Env) (d : Descriptor) :
    Post (Outcome.dispatch env d) fun _ _ v => v.Origin env := by
  unfold Outcome.dispatch
  repeat' apply Post.ite
  all_goals first
    | exact Post.fail _
    | (intro i r v h; obtain ⟨x, h1, rfl⟩ := map_eq_ok.1 h; exact ⟨i, r, h1⟩)
theorem Outcome.forwards : Forwards Outcome := by
  intro env i r v h hc hs
  have ho : v.Origin env := by
    obtain ⟨c, t, rfl, h1⟩ := decode_ok h
    obtain ⟨_, h1⟩ := validateCode_ok h1
    obtain ⟨_, d, _, h1⟩ := bind_eq_ok.1 h1
    exact Outcome.dispatch_origin env d _ _ _ h1
  refine C21_outcome env v ?_
  cases v with
  | Accepted x => obtain ⟨i, r, ho⟩ := ho; exact Accepted.forwardsInner env i r x ho hc hs
  | Rejected x => obtain ⟨i, r, ho⟩ := ho; exact Rejected.forwardsInner env i r x ho hc hs
  | Released x => obtain ⟨i, r, ho⟩ := ho; exact Released.forwardsInner env i r x ho hc hs
  | Modified x => obtain ⟨i, r, ho⟩ := ho; exact Modified.forwardsInner env i r x ho hc hs

theorem Source.forwardsInner : ForwardsInner Source := by
  intro env i r v h hc hs
  obtain ⟨-, -, -, -, -, o5, o6, o7, o8, o9, o10, -⟩ := inner_origin h
  obtain ⟨c5, c6, c7, c8, c9, c10⟩ := hc
  have hs' : (listHdr 40 _ 11 ++ (enc v.address ++ enc v.durable ++ enc v.expiry_policy ++ enc v.timeout ++ enc v.dynamic ++ enc v.dynamic_node_properties ++ enc v.distribution_mode ++ enc v.filter ++ enc v.default_outcome ++ enc v.outcomes ++ enc v.capabilities)).length <
    2 ^ 32 := hs
  simp only [List.length_append] at hs'
  exact C21_source env v hs (forward_opt (forwards_fields) o5 c5 (by omega)) (forward_opt (forwards_of_decoded decoded_distributionMode) o6 c6 (by omega)) (forward_opt (forwards_map forwards_small (forwards_option forwards_small)) o7 c7 (by omega)) (forward_opt (Outcome.forwards) o8 c8 (by omega)) (forward_opt (forwards_symbols) o9 c9 (by omega)) (forward_opt (forwards_symbols) o10 c10 (by omega))
theorem Source.forwards : Forwards Source := forwards_list Source.forwardsInner

theorem Target.forwardsInner : ForwardsInner Target := by
  intro env i r v h hc hs
  obtain ⟨-, -, -, -, -, o5, o6, -⟩ := inner_origin h
  obtain ⟨c5, c6⟩ := hc
  have hs' : (listHdr 41 _ 7 ++ (enc v.address ++ enc v.durable ++ enc v.expiry_policy ++ enc v.timeout ++ enc v.dynamic ++ enc v.dynamic_node_properties ++ enc v.capabilities)).length <
    2 ^ 32 := hs
  simp only [List.length_append] at hs'
  exact C21_target env v hs (forward_opt (forwards_fields) o5 c5 (by omega)) (forward_opt (forwards_symbols) o6 c6 (by omega))
theorem Target.forwards : Forwards Target := forwards_list Target.forwardsInner

theorem Attach.forwardsInner : ForwardsInner Attach := by
  intro env i r v h hc hs
  obtain ⟨-, -, -, -, -, o5, o6, o7, -, -, -, o11, o12, o13, -⟩ := inner_origin h
  obtain ⟨c5, c6, c7, c11, c12, c13⟩ := hc
  have hs' : (listHdr 18 _ 14 ++ (enc v.name ++ enc v.handle ++ enc v.role ++ enc v.snd_settle_mode ++ enc v.rcv_settle_mode ++ enc v.source ++ enc v.target ++ enc v.unsettled ++ enc v.incomplete_unsettled ++ enc v.initial_delivery_count ++ enc v.max_message_size ++ enc v.offered_capabilities ++ enc v.desired_capabilities ++ enc v.properties)).length <
    2 ^ 32 := hs
  simp only [List.length_append] at hs'
  exact C21_attach env v hs (forward_opt (Source.forwards) o5 c5 (by omega)) (forward_opt (Target.forwards) o6 c6 (by omega)) (forward_opt (forwards_map forwards_variant forwards_variant) o7 c7 (by omega)) (forward_opt (forwards_symbols) o11 c11 (by omega)) (forward_opt (forwards_symbols) o12 c12 (by omega)) (forward_opt (forwards_fields) o13 c13 (by omega))
theorem Attach.forwards : Forwards Attach := forwards_list Attach.forwardsInner

theorem Flow.forwardsInner : ForwardsInner Flow := by
  intro env i r v h hc hs
  obtain ⟨-, -, -, -, -, -, -, -, -, -, o10, -⟩ := inner_origin h
  have c10 : fwd env v.properties := hc
  have hs' : (listHdr 19 _ 11 ++ (enc v.next_incoming_id ++ enc v.incoming_window ++ enc v.next_outgoing_id ++ enc v.outgoing_window ++ enc v.handle ++ enc v.delivery_count ++ enc v.link_credit ++ enc v.available ++ enc v.drain ++ enc v.echo ++ enc v.properties)).length <
    2 ^ 32 := hs
  simp only [List.length_append] at hs'
  exact C21_flow env v hs (forward_opt (forwards_fields) o10 c10 (by omega))
theorem Flow.forwards : Forwards Flow := forwards_list Flow.forwardsInner

theorem Received.forwardsInner : ForwardsInner Received := by
  exact fun env _ _ v _ _ hs => C21_received env v hs
theorem Received.forwards : Forwards Received := forwards_list Received.forwardsInner

/-- What the alternatives of `DeliveryState` yield was decoded as the alternative. -/
def DeliveryState.Origin (env : Env) : DeliveryState → Prop
  | .Received x => ∃ i r, ListType.inner env i = .ok (r, x)
  | .Accepted x => ∃ i r, ListType.inner env i = .ok (r, x)
  | .Rejected x => ∃ i r, ListType.inner env i = .ok (r, x)
  | .Released x => ∃ i r, ListType.inner env i = .ok (r, x)
  | .Modified x => ∃ i r, ListType.inner env i = .ok (r, x)
theorem DeliveryState.dispatch_origin (env : Env) (d : Descriptor) :
    Post (DeliveryState.dispatch env d) fun _ _ v => v.Origin env := by
  unfold DeliveryState.dispatch
  repeat' apply Post.ite
  all_goals first
    | exact Post.fail _
    | (intro i r v h; obtain ⟨x, h1, rfl⟩ := map_eq_ok.1 h; exact ⟨i, r, h1⟩)
theorem DeliveryState.forwards : Forwards DeliveryState := by
  intro env i r v h hc hs
  have ho : v.Origin env := by
    obtain ⟨c, t, rfl, h1⟩ := decode_ok h
    obtain ⟨_, h1⟩ := validateCode_ok h1
    obtain ⟨_, d, _, h1⟩ := bind_eq_ok.1 h1
    exact DeliveryState.dispatch_origin env d _ _ _ h1
  refine C21_delivery_state env v ?_
  cases v with
  | Received x => obtain ⟨i, r, ho⟩ := ho; exact Received.forwardsInner env i r x ho hc hs
  | Accepted x => obtain ⟨i, r, ho⟩ := ho; exact Accepted.forwardsInner env i r x ho hc hs
  | Rejected x => obtain ⟨i, r, ho⟩ := ho; exact Rejected.forwardsInner env i r x ho hc hs
  | Released x => obtain ⟨i, r, ho⟩ := ho; exact Released.forwardsInner env i r x ho hc hs
  | Modified x => obtain ⟨i, r, ho⟩ := ho; exact Modified.forwardsInner env i r x ho hc hs

theorem TransferPerf.forwardsInner : ForwardsInner TransferPerf := by
  intro env i r v h hc hs
  obtain ⟨-, -, -, -, -, -, -, o7, -, -, -, -⟩ := inner_origin h
  have c7 : fwd env v.state := hc
  have hs' : (listHdr 20 _ 11 ++ (enc v.handle ++ enc v.delivery_id ++ enc v.delivery_tag ++ enc v.message_format ++ enc v.settled ++ enc v.more ++ enc v.rcv_settle_mode ++ enc v.state ++ enc v.resume ++ enc v.aborted ++ enc v.batchable)).length <
    2 ^ 32 := hs
  simp only [List.length_append] at hs'
  exact C21_transfer env v hs (forward_opt (DeliveryState.forwards) o7 c7 (by omega))
theorem TransferPerf.forwards : Forwards TransferPerf := forwards_list TransferPerf.forwardsInner

theorem Disposition.forwardsInner : ForwardsInner Disposition := by
  intro env i r v h hc hs
  obtain ⟨-, -, -, -, o4, -, -⟩ := inner_origin h
  have c4 : fwd env v.state := hc
  have hs' : (listHdr 21 _ 6 ++ (enc v.role ++ enc v.first ++ enc v.last ++ enc v.settled ++ enc v.state ++ enc v.batchable)).length <
    2 ^ 32 := hs
  simp only [List.length_append] at hs'
  exact C21_disposition env v hs (forward_opt (DeliveryState.forwards) o4 c4 (by omega))
theorem Disposition.forwards : Forwards Disposition := forwards_list Disposition.forwardsInner

theorem Detach.forwardsInner : ForwardsInner Detach := by
  intro env i r v h hc hs
  obtain ⟨-, -, o2, -⟩ := inner_origin h
  have c2 : fwd env v.error := hc
  have hs' : (listHdr 22 _ 3 ++ (enc v.handle ++ enc v.closed ++ enc v.error)).length <
    2 ^ 32 := hs
  simp only [List.length_append] at hs'
  exact C21_detach env v hs (forward_opt (Error.forwards) o2 c2 (by omega))
theorem Detach.forwards : Forwards Detach := forwards_list Detach.forwardsInner

theorem End.forwardsInner : ForwardsInner End := by
  intro env i r v h hc hs
  obtain ⟨o0, -⟩ := inner_origin h
  have c0 : fwd env v.error := hc
  have hs' : (listHdr 23 _ 1 ++ (enc v.error)).length <
    2 ^ 32 := hs
  simp only [List.length_append] at hs'
  exact C21_end env v hs (forward_opt (Error.forwards) o0 c0 (by omega))
theorem End.forwards : Forwards End := forwards_list End.forwardsInner

theorem Close.forwardsInner : ForwardsInner Close := by
  intro env i r v h hc hs
  obtain ⟨o0, -⟩ := inner_origin h
  have c0 : fwd env v.error := hc
  have hs' : (listHdr 24 _ 1 ++ (enc v.error)).length <
    2 ^ 32 := hs
  simp only [List.length_append] at hs'
  exact C21_close env v hs (forward_opt (Error.forwards) o0 c0 (by omega))
theorem Close.forwards : Forwards Close := forwards_list Close.forwardsInner

theorem SaslMechanisms.forwardsInner : ForwardsInner SaslMechanisms := by
  intro env i r v h hc hs
  obtain ⟨o0, -⟩ := inner_origin h
  have c0 : fwd env v.sasl_server_mechanisms := hc
  have hs' : (listHdr 64 _ 1 ++ (enc v.sasl_server_mechanisms)).length <
    2 ^ 32 := hs
  simp only [List.length_append] at hs'
  exact C21_sasl_mechanisms env v hs (forward_req (forwards_symbols) o0 c0 (by omega))
theorem SaslMechanisms.forwards : Forwards SaslMechanisms := forwards_list SaslMechanisms.forwardsInner

theorem SaslInit.forwardsInner : ForwardsInner SaslInit := by
  exact fun env _ _ v _ _ hs => C21_sasl_init env v hs
theorem SaslInit.forwards : Forwards SaslInit := forwards_list SaslInit.forwardsInner

theorem SaslChallenge.forwardsInner : ForwardsInner SaslChallenge := by
  exact fun env _ _ v _ _ hs => C21_sasl_challenge env v hs
theorem SaslChallenge.forwards : Forwards SaslChallenge := forwards_list SaslChallenge.forwardsInner

theorem SaslResponse.forwardsInner : ForwardsInner SaslResponse := by
  exact fun env _ _ v _ _ hs => C21_sasl_response env v hs
theorem SaslResponse.forwards : Forwards SaslResponse := forwards_list SaslResponse.forwardsInner

theorem SaslOutcome.forwardsInner : ForwardsInner SaslOutcome := by
  exact fun env _ _ v _ _ hs => C21_sasl_outcome env v hs
theorem SaslOutcome.forwards : Forwards SaslOutcome := forwards_list SaslOutcome.forwardsInner

theorem Header.forwardsInner : ForwardsInner Header := by
  exact fun env _ _ v _ _ hs => C21_header env v hs
theorem Header.forwards : Forwards Header := forwards_list Header.forwardsInner

theorem Properties.forwardsInner : ForwardsInner Properties := by
  intro env i r v h hc hs
  obtain ⟨-, -, -, -, -, -, -, -, o8, o9, -, -, -, -⟩ := inner_origin h
  obtain ⟨c8, c9⟩ := hc
  have hs' : (listHdr 115 _ 13 ++ (enc v.message_id ++ enc v.user_id ++ enc v.to ++ enc v.subject ++ enc v.reply_to ++ enc v.correlation_id ++ enc v.content_type ++ enc v.content_encoding ++ enc v.absolute_expiry_time ++ enc v.creation_time ++ enc v.group_id ++ enc v.group_sequence ++ enc v.reply_to_group_id)).length <
    2 ^ 32 := hs
  simp only [List.length_append] at hs'
  exact C21_properties env v hs (forward_opt (forwards_of_decoded decoded_datetime) o8 c8 (by omega)) (forward_opt (forwards_of_decoded decoded_datetime) o9 c9 (by omega))
theorem Properties.forwards : Forwards Properties := forwards_list Properties.forwardsInner

/-- What the alternatives of `SaslFrameBody` yield was decoded as the alternative. -/
def SaslFrameBody.Origin (env : Env) : SaslFrameBody → Prop
  | .SaslMechanisms x => ∃ i r, ListType.inner env i = .ok (r, x)
  | .SaslInit x => ∃ i r, ListType.inner env i = .ok (r, x)
  | .SaslChallenge x => ∃ i r, ListType.inner env i = .ok (r, x)
  | .SaslResponse x => ∃ i r, ListType.inner env i = .ok (r, x)
  | .SaslOutcome x => ∃ i r, ListType.inner env i = .ok (r, x)
theorem SaslFrameBody.dispatch_origin (env : Env) (d : Descriptor) :
    Post (SaslFrameBody.dispatch env d) fun _ _ v => v.Origin env := by
  unfold SaslFrameBody.dispatch
  repeat' apply Post.ite
  all_goals first
    | exact Post.fail _
    | (intro i r v h; obtain ⟨x, h1, rfl⟩ := map_eq_ok.1 h; exact ⟨i, r, h1⟩)
theorem SaslFrameBody.forwards : Forwards SaslFrameBody := by
  intro env i r v h hc hs
  have ho : v.Origin env := by
    obtain ⟨c, t, rfl, h1⟩ := decode_ok h
    obtain ⟨_, h1⟩ := validateCode_ok h1
    obtain ⟨_, d, _, h1⟩ := bind_eq_ok.1 h1
    exact SaslFrameBody.dispatch_origin env d _ _ _ h1
  refine C21_sasl_frame_body env v ?_
  cases v with
  | SaslMechanisms x => obtain ⟨i, r, ho⟩ := ho; exact SaslMechanisms.forwardsInner env i r x ho hc hs
  | SaslInit x => obtain ⟨i, r, ho⟩ := ho; exact SaslInit.forwardsInner env i r x ho hc hs
  | SaslChallenge x => obtain ⟨i, r, ho⟩ := ho; exact SaslChallenge.forwardsInner env i r x ho hc hs
  | SaslResponse x => obtain ⟨i, r, ho⟩ := ho; exact SaslResponse.forwardsInner env i r x ho hc hs
  | SaslOutcome x => obtain ⟨i, r, ho⟩ := ho; exact SaslOutcome.forwardsInner env i r x ho hc hs

/-- What the alternatives of `Section` yield was decoded as the alternative. -/
def Section.Origin (env : Env) : Section → Prop
  | .Header x => ∃ i r, ListType.inner env i = .ok (r, x)
  | .DeliveryAnnotations x => ∃ i r, decode Amqp.DeliveryAnnotations env i = .ok (r, x)
  | .MessageAnnotations x => ∃ i r, decode Amqp.MessageAnnotations env i = .ok (r, x)
  | .ApplicationProperties x => ∃ i r, decode Amqp.ApplicationProperties env i = .ok (r, x)
  | .Data x => ∃ i r, decode Amqp.Data env i = .ok (r, x)
  | .AmqpSequence x => ∃ i r, decode Amqp.AmqpSequence env i = .ok (r, x)
  | .AmqpValue x => ∃ i r, decode Amqp.AmqpValue env i = .ok (r, x)
  | .Footer x => ∃ i r, decode Amqp.Footer env i = .ok (r, x)
  | .Properties x => ∃ i r, ListType.inner env i = .ok (r, x)
theorem Section.dispatch_origin (env : Env) (d : Descriptor) :
    Post (Section.dispatch env d) fun _ _ v => v.Origin env := by
  unfold Section.dispatch
  repeat' apply Post.ite
  all_goals first
    | exact Post.fail _
    | (intro i r v h; obtain ⟨x, h1, rfl⟩ := map_eq_ok.1 h; exact ⟨i, r, h1⟩)
theorem Section.forwards : Forwards Section := by
  intro env i r v h hc hs
  have ho : v.Origin env := by
    obtain ⟨c, t, rfl, h1⟩ := decode_ok h
    obtain ⟨_, h1⟩ := validateCode_ok h1
    obtain ⟨_, d, _, h1⟩ := bind_eq_ok.1 h1
    exact Section.dispatch_origin env d _ _ _ h1
  refine C21_section env v ?_
  cases v with
  | Header x => obtain ⟨i, r, ho⟩ := ho; exact Header.forwardsInner env i r x ho hc hs
  | DeliveryAnnotations x =>
    obtain ⟨i, r, ho⟩ := ho
    refine forwards_fields env i r x ho hc (Nat.lt_of_le_of_lt ?_ hs)
    exact section_content_le _ _
  | MessageAnnotations x =>
    obtain ⟨i, r, ho⟩ := ho
    refine forwards_fields env i r x ho hc (Nat.lt_of_le_of_lt ?_ hs)
    exact section_content_le _ _
  | ApplicationProperties x =>
    obtain ⟨i, r, ho⟩ := ho
    refine forwards_map forwards_small forwards_variant env i r x ho hc (Nat.lt_of_le_of_lt ?_ hs)
    exact section_content_le _ _
  | Data x =>
    obtain ⟨i, r, ho⟩ := ho
    refine forwards_small env i r x ho hc (Nat.lt_of_le_of_lt ?_ hs)
    exact section_content_le _ _
  | AmqpSequence x =>
    obtain ⟨i, r, ho⟩ := ho
    refine forwards_sequence env i r x ho hc (Nat.lt_of_le_of_lt ?_ hs)
    exact section_content_le _ _
  | AmqpValue x =>
    obtain ⟨i, r, ho⟩ := ho
    refine forwards_variant env i r x ho hc (Nat.lt_of_le_of_lt ?_ hs)
    exact section_content_le _ _
  | Footer x =>
    obtain ⟨i, r, ho⟩ := ho
    refine forwards_fields env i r x ho hc (Nat.lt_of_le_of_lt ?_ hs)
    exact section_content_le _ _
  | Properties x => obtain ⟨i, r, ho⟩ := ho; exact Properties.forwardsInner env i r x ho hc hs

end Amqp
