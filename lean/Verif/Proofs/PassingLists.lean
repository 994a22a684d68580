import Verif.Proofs.Passing
import Verif.Proofs.EqualityReceivedLists
import Verif.Props.Forwarding
/-!
# What was received arrives unaltered or not at all when sent on: the types one by one

Generated by `tools/gen_travel.py`.  Support for C87.
-/
set_option autoImplicit false
namespace Amqp
open Dec
open Forwardable (fwd)

instance : Forwardable Role := alwaysForwardable _
instance : Passes Role := .same (fun _ _ => rfl) (fun _ _ => trivial)
instance : Forwardable SenderSettleMode := alwaysForwardable _
instance : Passes SenderSettleMode := .same (fun _ _ => rfl) (fun _ _ => trivial)
instance : Forwardable ReceiverSettleMode := alwaysForwardable _
instance : Passes ReceiverSettleMode := .same (fun _ _ => rfl) (fun _ _ => trivial)
instance : Forwardable SaslCode := alwaysForwardable _
instance : Passes SaslCode := .same (fun _ _ => rfl) (fun _ _ => trivial)
instance : Forwardable TerminusDurability := alwaysForwardable _
instance : Passes TerminusDurability := .same (fun _ _ => rfl) (fun _ _ => trivial)
instance : Forwardable TerminusExpiryPolicy := alwaysForwardable _
instance : Passes TerminusExpiryPolicy := .same (fun _ _ => rfl) (fun _ _ => trivial)

theorem Error.passesInner : PassesInner Error := by
  intro env i r v h
  obtain ⟨o0, o1, o2, -⟩ := inner_origin h
  have p0 : Passing env.stackDepth v.condition := passing_req o0
  have p1 : Passing env.stackDepth v.description := passing_opt o1
  have p2 : Passing env.stackDepth v.info := passing_opt o2
  refine ⟨fun env' w hw => ?_, fun env' hd hf => ?_⟩
  · obtain ⟨a0, e0, hw⟩ := bind_arrives (s := fate env' v.condition) hw
    obtain ⟨rfl, f0⟩ := p0.1 env' _ e0
    obtain ⟨a1, e1, hw⟩ := bind_arrives (s := fate env' v.description) hw
    obtain ⟨rfl, -⟩ := p1.1 env' _ e1
    obtain ⟨a2, e2, hw⟩ := bind_arrives (s := fate env' v.info) hw
    obtain ⟨rfl, f2⟩ := p2.1 env' _ e2
    cases hw
    exact ⟨rfl, f0, f2⟩
  · obtain ⟨f0, f2⟩ := hf
    refine (bind_same (s := fate env' v.condition) (p0.2 env' hd f0) _).trans ?_
    refine (bind_same (s := fate env' v.description) (p1.2 env' hd (fun _ _ => trivial)) _).trans ?_
    refine (bind_same (s := fate env' v.info) (p2.2 env' hd f2) _).trans ?_
    rfl
instance : Passes Error := passes_list Error.passesInner

theorem Received.passesInner : PassesInner Received := by
  intro env i r v h
  obtain ⟨o0, o1, -⟩ := inner_origin h
  have p0 : Passing env.stackDepth v.section_number := passing_req o0
  have p1 : Passing env.stackDepth v.section_offset := passing_req o1
  refine ⟨fun env' w hw => ?_, fun env' hd hf => ?_⟩
  · obtain ⟨a0, e0, hw⟩ := bind_arrives (s := fate env' v.section_number) hw
    obtain ⟨rfl, -⟩ := p0.1 env' _ e0
    obtain ⟨a1, e1, hw⟩ := bind_arrives (s := fate env' v.section_offset) hw
    obtain ⟨rfl, -⟩ := p1.1 env' _ e1
    cases hw
    exact ⟨rfl, trivial⟩
  · refine (bind_same (s := fate env' v.section_number) (p0.2 env' hd trivial) _).trans ?_
    refine (bind_same (s := fate env' v.section_offset) (p1.2 env' hd trivial) _).trans ?_
    rfl
instance : Passes Received := passes_list Received.passesInner

theorem Accepted.passesInner : PassesInner Accepted := by
  exact fun _ _ _ v _ => .same (fun _ => rfl) (fun _ => trivial)
instance : Passes Accepted := passes_list Accepted.passesInner

theorem Rejected.passesInner : PassesInner Rejected := by
  intro env i r v h
  obtain ⟨o0, -⟩ := inner_origin h
  have p0 : Passing env.stackDepth v.error := passing_opt o0
  refine ⟨fun env' w hw => ?_, fun env' hd hf => ?_⟩
  · obtain ⟨a0, e0, hw⟩ := bind_arrives (s := fate env' v.error) hw
    obtain ⟨rfl, f0⟩ := p0.1 env' _ e0
    cases hw
    exact ⟨rfl, f0⟩
  · refine (bind_same (s := fate env' v.error) (p0.2 env' hd hf) _).trans ?_
    rfl
instance : Passes Rejected := passes_list Rejected.passesInner

theorem Released.passesInner : PassesInner Released := by
  exact fun _ _ _ v _ => .same (fun _ => rfl) (fun _ => trivial)
instance : Passes Released := passes_list Released.passesInner

theorem Modified.passesInner : PassesInner Modified := by
  intro env i r v h
  obtain ⟨o0, o1, o2, -⟩ := inner_origin h
  have p0 : Passing env.stackDepth v.delivery_failed := passing_opt o0
  have p1 : Passing env.stackDepth v.undeliverable_here := passing_opt o1
  have p2 : Passing env.stackDepth v.message_annotations := passing_opt o2
  refine ⟨fun env' w hw => ?_, fun env' hd hf => ?_⟩
  · obtain ⟨a0, e0, hw⟩ := bind_arrives (s := fate env' v.delivery_failed) hw
    obtain ⟨rfl, -⟩ := p0.1 env' _ e0
    obtain ⟨a1, e1, hw⟩ := bind_arrives (s := fate env' v.undeliverable_here) hw
    obtain ⟨rfl, -⟩ := p1.1 env' _ e1
    obtain ⟨a2, e2, hw⟩ := bind_arrives (s := fate env' v.message_annotations) hw
    obtain ⟨rfl, f2⟩ := p2.1 env' _ e2
    cases hw
    exact ⟨rfl, f2⟩
  · refine (bind_same (s := fate env' v.delivery_failed) (p0.2 env' hd (fun _ _ => trivial)) _).trans ?_
    refine (bind_same (s := fate env' v.undeliverable_here) (p1.2 env' hd (fun _ _ => trivial)) _).trans ?_
    refine (bind_same (s := fate env' v.message_annotations) (p2.2 env' hd hf) _).trans ?_
    rfl
instance : Passes Modified := passes_list Modified.passesInner

theorem DeliveryState.passing_of_origin {env : Env} {u : DeliveryState} (ho : u.Origin env) :
    Passing env.stackDepth u := by
  cases u with
  | Received v =>
    obtain ⟨i, r, ho⟩ := ho
    exact passing_member DeliveryState.Received (Received.passesInner env i r v ho)
  | Accepted v =>
    obtain ⟨i, r, ho⟩ := ho
    exact passing_member DeliveryState.Accepted (Accepted.passesInner env i r v ho)
  | Rejected v =>
    obtain ⟨i, r, ho⟩ := ho
    exact passing_member DeliveryState.Rejected (Rejected.passesInner env i r v ho)
  | Released v =>
    obtain ⟨i, r, ho⟩ := ho
    exact passing_member DeliveryState.Released (Released.passesInner env i r v ho)
  | Modified v =>
    obtain ⟨i, r, ho⟩ := ho
    exact passing_member DeliveryState.Modified (Modified.passesInner env i r v ho)
instance : Passes DeliveryState := ⟨by
  intro env i r v h
  obtain ⟨c, t, rfl, h1⟩ := decode_ok h
  obtain ⟨_, h1⟩ := validateCode_ok h1
  obtain ⟨_, d, _, h1⟩ := bind_eq_ok.1 h1
  exact DeliveryState.passing_of_origin (DeliveryState.dispatch_origin env d _ _ _ h1)⟩

theorem Outcome.passing_of_origin {env : Env} {u : Outcome} (ho : u.Origin env) :
    Passing env.stackDepth u := by
  cases u with
  | Accepted v =>
    obtain ⟨i, r, ho⟩ := ho
    exact passing_member Outcome.Accepted (Accepted.passesInner env i r v ho)
  | Rejected v =>
    obtain ⟨i, r, ho⟩ := ho
    exact passing_member Outcome.Rejected (Rejected.passesInner env i r v ho)
  | Released v =>
    obtain ⟨i, r, ho⟩ := ho
    exact passing_member Outcome.Released (Released.passesInner env i r v ho)
  | Modified v =>
    obtain ⟨i, r, ho⟩ := ho
    exact passing_member Outcome.Modified (Modified.passesInner env i r v ho)
instance : Passes Outcome := ⟨by
  intro env i r v h
  obtain ⟨c, t, rfl, h1⟩ := decode_ok h
  obtain ⟨_, h1⟩ := validateCode_ok h1
  obtain ⟨_, d, _, h1⟩ := bind_eq_ok.1 h1
  exact Outcome.passing_of_origin (Outcome.dispatch_origin env d _ _ _ h1)⟩

theorem Source.passesInner : PassesInner Source := by
  intro env i r v h
  obtain ⟨o0, -, -, -, -, o5, o6, o7, o8, o9, o10, -⟩ := inner_origin h
  have p0 : Passing env.stackDepth v.address := passing_opt o0
  have p5 : Passing env.stackDepth v.dynamic_node_properties := passing_opt o5
  have p6 : Passing env.stackDepth v.distribution_mode := passing_opt o6
  have p7 : Passing env.stackDepth v.filter := passing_opt o7
  have p8 : Passing env.stackDepth v.default_outcome := passing_opt o8
  have p9 : Passing env.stackDepth v.outcomes := passing_opt o9
  have p10 : Passing env.stackDepth v.capabilities := passing_opt o10
  refine ⟨fun env' w hw => ?_, fun env' hd hf => ?_⟩
  · obtain ⟨a0, e0, hw⟩ := bind_arrives (s := fate env' v.address) hw
    obtain ⟨rfl, -⟩ := p0.1 env' _ e0
    obtain ⟨a1, e1, hw⟩ := bind_arrives (s := fate env' v.durable) hw
    cases e1
    obtain ⟨a2, e2, hw⟩ := bind_arrives (s := fate env' v.expiry_policy) hw
    cases e2
    obtain ⟨a3, e3, hw⟩ := bind_arrives (s := fate env' v.timeout) hw
    cases e3
    obtain ⟨a4, e4, hw⟩ := bind_arrives (s := fate env' v.dynamic) hw
    cases e4
    obtain ⟨a5, e5, hw⟩ := bind_arrives (s := fate env' v.dynamic_node_properties) hw
    obtain ⟨rfl, f5⟩ := p5.1 env' _ e5
    obtain ⟨a6, e6, hw⟩ := bind_arrives (s := fate env' v.distribution_mode) hw
    obtain ⟨rfl, f6⟩ := p6.1 env' _ e6
    obtain ⟨a7, e7, hw⟩ := bind_arrives (s := fate env' v.filter) hw
    obtain ⟨rfl, f7⟩ := p7.1 env' _ e7
    obtain ⟨a8, e8, hw⟩ := bind_arrives (s := fate env' v.default_outcome) hw
    obtain ⟨rfl, f8⟩ := p8.1 env' _ e8
    obtain ⟨a9, e9, hw⟩ := bind_arrives (s := fate env' v.outcomes) hw
    obtain ⟨rfl, f9⟩ := p9.1 env' _ e9
    obtain ⟨a10, e10, hw⟩ := bind_arrives (s := fate env' v.capabilities) hw
    obtain ⟨rfl, f10⟩ := p10.1 env' _ e10
    cases hw
    exact ⟨rfl, f5, f6, f7, f8, f9, f10⟩
  · obtain ⟨f5, f6, f7, f8, f9, f10⟩ := hf
    refine (bind_same (s := fate env' v.address) (p0.2 env' hd (fun _ _ => trivial)) _).trans ?_
    refine (bind_same (s := fate env' v.durable) rfl _).trans ?_
    refine (bind_same (s := fate env' v.expiry_policy) rfl _).trans ?_
    refine (bind_same (s := fate env' v.timeout) rfl _).trans ?_
    refine (bind_same (s := fate env' v.dynamic) rfl _).trans ?_
    refine (bind_same (s := fate env' v.dynamic_node_properties) (p5.2 env' hd f5) _).trans ?_
    refine (bind_same (s := fate env' v.distribution_mode) (p6.2 env' hd f6) _).trans ?_
    refine (bind_same (s := fate env' v.filter) (p7.2 env' hd f7) _).trans ?_
    refine (bind_same (s := fate env' v.default_outcome) (p8.2 env' hd f8) _).trans ?_
    refine (bind_same (s := fate env' v.outcomes) (p9.2 env' hd f9) _).trans ?_
    refine (bind_same (s := fate env' v.capabilities) (p10.2 env' hd f10) _).trans ?_
    rfl
instance : Passes Source := passes_list Source.passesInner

theorem Target.passesInner : PassesInner Target := by
  intro env i r v h
  obtain ⟨o0, -, -, -, -, o5, o6, -⟩ := inner_origin h
  have p0 : Passing env.stackDepth v.address := passing_opt o0
  have p5 : Passing env.stackDepth v.dynamic_node_properties := passing_opt o5
  have p6 : Passing env.stackDepth v.capabilities := passing_opt o6
  refine ⟨fun env' w hw => ?_, fun env' hd hf => ?_⟩
  · obtain ⟨a0, e0, hw⟩ := bind_arrives (s := fate env' v.address) hw
    obtain ⟨rfl, -⟩ := p0.1 env' _ e0
    obtain ⟨a1, e1, hw⟩ := bind_arrives (s := fate env' v.durable) hw
    cases e1
    obtain ⟨a2, e2, hw⟩ := bind_arrives (s := fate env' v.expiry_policy) hw
    cases e2
    obtain ⟨a3, e3, hw⟩ := bind_arrives (s := fate env' v.timeout) hw
    cases e3
    obtain ⟨a4, e4, hw⟩ := bind_arrives (s := fate env' v.dynamic) hw
    cases e4
    obtain ⟨a5, e5, hw⟩ := bind_arrives (s := fate env' v.dynamic_node_properties) hw
    obtain ⟨rfl, f5⟩ := p5.1 env' _ e5
    obtain ⟨a6, e6, hw⟩ := bind_arrives (s := fate env' v.capabilities) hw
    obtain ⟨rfl, f6⟩ := p6.1 env' _ e6
    cases hw
    exact ⟨rfl, f5, f6⟩
  · obtain ⟨f5, f6⟩ := hf
    refine (bind_same (s := fate env' v.address) (p0.2 env' hd (fun _ _ => trivial)) _).trans ?_
    refine (bind_same (s := fate env' v.durable) rfl _).trans ?_
    refine (bind_same (s := fate env' v.expiry_policy) rfl _).trans ?_
    refine (bind_same (s := fate env' v.timeout) rfl _).trans ?_
    refine (bind_same (s := fate env' v.dynamic) rfl _).trans ?_
    refine (bind_same (s := fate env' v.dynamic_node_properties) (p5.2 env' hd f5) _).trans ?_
    refine (bind_same (s := fate env' v.capabilities) (p6.2 env' hd f6) _).trans ?_
    rfl
instance : Passes Target := passes_list Target.passesInner

theorem Open.passesInner : PassesInner Open := by
  intro env i r v h
  obtain ⟨o0, o1, -, -, o4, o5, o6, o7, o8, o9, -⟩ := inner_origin h
  have p0 : Passing env.stackDepth v.container_id := passing_req o0
  have p1 : Passing env.stackDepth v.hostname := passing_opt o1
  have p4 : Passing env.stackDepth v.idle_time_out := passing_opt o4
  have p5 : Passing env.stackDepth v.outgoing_locales := passing_opt o5
  have p6 : Passing env.stackDepth v.incoming_locales := passing_opt o6
  have p7 : Passing env.stackDepth v.offered_capabilities := passing_opt o7
  have p8 : Passing env.stackDepth v.desired_capabilities := passing_opt o8
  have p9 : Passing env.stackDepth v.properties := passing_opt o9
  refine ⟨fun env' w hw => ?_, fun env' hd hf => ?_⟩
  · obtain ⟨a0, e0, hw⟩ := bind_arrives (s := fate env' v.container_id) hw
    obtain ⟨rfl, -⟩ := p0.1 env' _ e0
    obtain ⟨a1, e1, hw⟩ := bind_arrives (s := fate env' v.hostname) hw
    obtain ⟨rfl, -⟩ := p1.1 env' _ e1
    obtain ⟨a2, e2, hw⟩ := bind_arrives (s := fate env' v.max_frame_size) hw
    cases e2
    obtain ⟨a3, e3, hw⟩ := bind_arrives (s := fate env' v.channel_max) hw
    cases e3
    obtain ⟨a4, e4, hw⟩ := bind_arrives (s := fate env' v.idle_time_out) hw
    obtain ⟨rfl, -⟩ := p4.1 env' _ e4
    obtain ⟨a5, e5, hw⟩ := bind_arrives (s := fate env' v.outgoing_locales) hw
    obtain ⟨rfl, f5⟩ := p5.1 env' _ e5
    obtain ⟨a6, e6, hw⟩ := bind_arrives (s := fate env' v.incoming_locales) hw
    obtain ⟨rfl, f6⟩ := p6.1 env' _ e6
    obtain ⟨a7, e7, hw⟩ := bind_arrives (s := fate env' v.offered_capabilities) hw
    obtain ⟨rfl, f7⟩ := p7.1 env' _ e7
    obtain ⟨a8, e8, hw⟩ := bind_arrives (s := fate env' v.desired_capabilities) hw
    obtain ⟨rfl, f8⟩ := p8.1 env' _ e8
    obtain ⟨a9, e9, hw⟩ := bind_arrives (s := fate env' v.properties) hw
    obtain ⟨rfl, f9⟩ := p9.1 env' _ e9
    cases hw
    exact ⟨rfl, f5, f6, f7, f8, f9⟩
  · obtain ⟨f5, f6, f7, f8, f9⟩ := hf
    refine (bind_same (s := fate env' v.container_id) (p0.2 env' hd trivial) _).trans ?_
    refine (bind_same (s := fate env' v.hostname) (p1.2 env' hd (fun _ _ => trivial)) _).trans ?_
    refine (bind_same (s := fate env' v.max_frame_size) rfl _).trans ?_
    refine (bind_same (s := fate env' v.channel_max) rfl _).trans ?_
    refine (bind_same (s := fate env' v.idle_time_out) (p4.2 env' hd (fun _ _ => trivial)) _).trans ?_
    refine (bind_same (s := fate env' v.outgoing_locales) (p5.2 env' hd f5) _).trans ?_
    refine (bind_same (s := fate env' v.incoming_locales) (p6.2 env' hd f6) _).trans ?_
    refine (bind_same (s := fate env' v.offered_capabilities) (p7.2 env' hd f7) _).trans ?_
    refine (bind_same (s := fate env' v.desired_capabilities) (p8.2 env' hd f8) _).trans ?_
    refine (bind_same (s := fate env' v.properties) (p9.2 env' hd f9) _).trans ?_
    rfl
instance : Passes Open := passes_list Open.passesInner

theorem Begin.passesInner : PassesInner Begin := by
  intro env i r v h
  obtain ⟨o0, o1, o2, o3, -, o5, o6, o7, -⟩ := inner_origin h
  have p0 : Passing env.stackDepth v.remote_channel := passing_opt o0
  have p1 : Passing env.stackDepth v.next_outgoing_id := passing_req o1
  have p2 : Passing env.stackDepth v.incoming_window := passing_req o2
  have p3 : Passing env.stackDepth v.outgoing_window := passing_req o3
  have p5 : Passing env.stackDepth v.offered_capabilities := passing_opt o5
  have p6 : Passing env.stackDepth v.desired_capabilities := passing_opt o6
  have p7 : Passing env.stackDepth v.properties := passing_opt o7
  refine ⟨fun env' w hw => ?_, fun env' hd hf => ?_⟩
  · obtain ⟨a0, e0, hw⟩ := bind_arrives (s := fate env' v.remote_channel) hw
    obtain ⟨rfl, -⟩ := p0.1 env' _ e0
    obtain ⟨a1, e1, hw⟩ := bind_arrives (s := fate env' v.next_outgoing_id) hw
    obtain ⟨rfl, -⟩ := p1.1 env' _ e1
    obtain ⟨a2, e2, hw⟩ := bind_arrives (s := fate env' v.incoming_window) hw
    obtain ⟨rfl, -⟩ := p2.1 env' _ e2
    obtain ⟨a3, e3, hw⟩ := bind_arrives (s := fate env' v.outgoing_window) hw
    obtain ⟨rfl, -⟩ := p3.1 env' _ e3
    obtain ⟨a4, e4, hw⟩ := bind_arrives (s := fate env' v.handle_max) hw
    cases e4
    obtain ⟨a5, e5, hw⟩ := bind_arrives (s := fate env' v.offered_capabilities) hw
    obtain ⟨rfl, f5⟩ := p5.1 env' _ e5
    obtain ⟨a6, e6, hw⟩ := bind_arrives (s := fate env' v.desired_capabilities) hw
    obtain ⟨rfl, f6⟩ := p6.1 env' _ e6
    obtain ⟨a7, e7, hw⟩ := bind_arrives (s := fate env' v.properties) hw
    obtain ⟨rfl, f7⟩ := p7.1 env' _ e7
    cases hw
    exact ⟨rfl, f5, f6, f7⟩
  · obtain ⟨f5, f6, f7⟩ := hf
    refine (bind_same (s := fate env' v.remote_channel) (p0.2 env' hd (fun _ _ => trivial)) _).trans ?_
    refine (bind_same (s := fate env' v.next_outgoing_id) (p1.2 env' hd trivial) _).trans ?_
    refine (bind_same (s := fate env' v.incoming_window) (p2.2 env' hd trivial) _).trans ?_
    refine (bind_same (s := fate env' v.outgoing_window) (p3.2 env' hd trivial) _).trans ?_
    refine (bind_same (s := fate env' v.handle_max) rfl _).trans ?_
    refine (bind_same (s := fate env' v.offered_capabilities) (p5.2 env' hd f5) _).trans ?_
    refine (bind_same (s := fate env' v.desired_capabilities) (p6.2 env' hd f6) _).trans ?_
    refine (bind_same (s := fate env' v.properties) (p7.2 env' hd f7) _).trans ?_
    rfl
instance : Passes Begin := passes_list Begin.passesInner

theorem Attach.passesInner : PassesInner Attach := by
  intro env i r v h
  obtain ⟨o0, o1, o2, -, -, o5, o6, o7, -, o9, o10, o11, o12, o13, -⟩ := inner_origin h
  have p0 : Passing env.stackDepth v.name := passing_req o0
  have p1 : Passing env.stackDepth v.handle := passing_req o1
  have p2 : Passing env.stackDepth v.role := passing_req o2
  have p5 : Passing env.stackDepth v.source := passing_opt o5
  have p6 : Passing env.stackDepth v.target := passing_opt o6
  have p7 : Passing env.stackDepth v.unsettled := passing_opt o7
  have p9 : Passing env.stackDepth v.initial_delivery_count := passing_opt o9
  have p10 : Passing env.stackDepth v.max_message_size := passing_opt o10
  have p11 : Passing env.stackDepth v.offered_capabilities := passing_opt o11
  have p12 : Passing env.stackDepth v.desired_capabilities := passing_opt o12
  have p13 : Passing env.stackDepth v.properties := passing_opt o13
  refine ⟨fun env' w hw => ?_, fun env' hd hf => ?_⟩
  · obtain ⟨a0, e0, hw⟩ := bind_arrives (s := fate env' v.name) hw
    obtain ⟨rfl, -⟩ := p0.1 env' _ e0
    obtain ⟨a1, e1, hw⟩ := bind_arrives (s := fate env' v.handle) hw
    obtain ⟨rfl, -⟩ := p1.1 env' _ e1
    obtain ⟨a2, e2, hw⟩ := bind_arrives (s := fate env' v.role) hw
    obtain ⟨rfl, -⟩ := p2.1 env' _ e2
    obtain ⟨a3, e3, hw⟩ := bind_arrives (s := fate env' v.snd_settle_mode) hw
    cases e3
    obtain ⟨a4, e4, hw⟩ := bind_arrives (s := fate env' v.rcv_settle_mode) hw
    cases e4
    obtain ⟨a5, e5, hw⟩ := bind_arrives (s := fate env' v.source) hw
    obtain ⟨rfl, f5⟩ := p5.1 env' _ e5
    obtain ⟨a6, e6, hw⟩ := bind_arrives (s := fate env' v.target) hw
    obtain ⟨rfl, f6⟩ := p6.1 env' _ e6
    obtain ⟨a7, e7, hw⟩ := bind_arrives (s := fate env' v.unsettled) hw
    obtain ⟨rfl, f7⟩ := p7.1 env' _ e7
    obtain ⟨a8, e8, hw⟩ := bind_arrives (s := fate env' v.incomplete_unsettled) hw
    cases e8
    obtain ⟨a9, e9, hw⟩ := bind_arrives (s := fate env' v.initial_delivery_count) hw
    obtain ⟨rfl, -⟩ := p9.1 env' _ e9
    obtain ⟨a10, e10, hw⟩ := bind_arrives (s := fate env' v.max_message_size) hw
    obtain ⟨rfl, -⟩ := p10.1 env' _ e10
    obtain ⟨a11, e11, hw⟩ := bind_arrives (s := fate env' v.offered_capabilities) hw
    obtain ⟨rfl, f11⟩ := p11.1 env' _ e11
    obtain ⟨a12, e12, hw⟩ := bind_arrives (s := fate env' v.desired_capabilities) hw
    obtain ⟨rfl, f12⟩ := p12.1 env' _ e12
    obtain ⟨a13, e13, hw⟩ := bind_arrives (s := fate env' v.properties) hw
    obtain ⟨rfl, f13⟩ := p13.1 env' _ e13
    cases hw
    exact ⟨rfl, f5, f6, f7, f11, f12, f13⟩
  · obtain ⟨f5, f6, f7, f11, f12, f13⟩ := hf
    refine (bind_same (s := fate env' v.name) (p0.2 env' hd trivial) _).trans ?_
    refine (bind_same (s := fate env' v.handle) (p1.2 env' hd trivial) _).trans ?_
    refine (bind_same (s := fate env' v.role) (p2.2 env' hd trivial) _).trans ?_
    refine (bind_same (s := fate env' v.snd_settle_mode) rfl _).trans ?_
    refine (bind_same (s := fate env' v.rcv_settle_mode) rfl _).trans ?_
    refine (bind_same (s := fate env' v.source) (p5.2 env' hd f5) _).trans ?_
    refine (bind_same (s := fate env' v.target) (p6.2 env' hd f6) _).trans ?_
    refine (bind_same (s := fate env' v.unsettled) (p7.2 env' hd f7) _).trans ?_
    refine (bind_same (s := fate env' v.incomplete_unsettled) rfl _).trans ?_
    refine (bind_same (s := fate env' v.initial_delivery_count) (p9.2 env' hd (fun _ _ => trivial)) _).trans ?_
    refine (bind_same (s := fate env' v.max_message_size) (p10.2 env' hd (fun _ _ => trivial)) _).trans ?_
    refine (bind_same (s := fate env' v.offered_capabilities) (p11.2 env' hd f11) _).trans ?_
    refine (bind_same (s := fate env' v.desired_capabilities) (p12.2 env' hd f12) _).trans ?_
    refine (bind_same (s := fate env' v.properties) (p13.2 env' hd f13) _).trans ?_
    rfl
instance : Passes Attach := passes_list Attach.passesInner

theorem Flow.passesInner : PassesInner Flow := by
  intro env i r v h
  obtain ⟨o0, o1, o2, o3, o4, o5, o6, o7, -, -, o10, -⟩ := inner_origin h
  have p0 : Passing env.stackDepth v.next_incoming_id := passing_opt o0
  have p1 : Passing env.stackDepth v.incoming_window := passing_req o1
  have p2 : Passing env.stackDepth v.next_outgoing_id := passing_req o2
  have p3 : Passing env.stackDepth v.outgoing_window := passing_req o3
  have p4 : Passing env.stackDepth v.handle := passing_opt o4
  have p5 : Passing env.stackDepth v.delivery_count := passing_opt o5
  have p6 : Passing env.stackDepth v.link_credit := passing_opt o6
  have p7 : Passing env.stackDepth v.available := passing_opt o7
  have p10 : Passing env.stackDepth v.properties := passing_opt o10
  refine ⟨fun env' w hw => ?_, fun env' hd hf => ?_⟩
  · obtain ⟨a0, e0, hw⟩ := bind_arrives (s := fate env' v.next_incoming_id) hw
    obtain ⟨rfl, -⟩ := p0.1 env' _ e0
    obtain ⟨a1, e1, hw⟩ := bind_arrives (s := fate env' v.incoming_window) hw
    obtain ⟨rfl, -⟩ := p1.1 env' _ e1
    obtain ⟨a2, e2, hw⟩ := bind_arrives (s := fate env' v.next_outgoing_id) hw
    obtain ⟨rfl, -⟩ := p2.1 env' _ e2
    obtain ⟨a3, e3, hw⟩ := bind_arrives (s := fate env' v.outgoing_window) hw
    obtain ⟨rfl, -⟩ := p3.1 env' _ e3
    obtain ⟨a4, e4, hw⟩ := bind_arrives (s := fate env' v.handle) hw
    obtain ⟨rfl, -⟩ := p4.1 env' _ e4
    obtain ⟨a5, e5, hw⟩ := bind_arrives (s := fate env' v.delivery_count) hw
    obtain ⟨rfl, -⟩ := p5.1 env' _ e5
    obtain ⟨a6, e6, hw⟩ := bind_arrives (s := fate env' v.link_credit) hw
    obtain ⟨rfl, -⟩ := p6.1 env' _ e6
    obtain ⟨a7, e7, hw⟩ := bind_arrives (s := fate env' v.available) hw
    obtain ⟨rfl, -⟩ := p7.1 env' _ e7
    obtain ⟨a8, e8, hw⟩ := bind_arrives (s := fate env' v.drain) hw
    cases e8
    obtain ⟨a9, e9, hw⟩ := bind_arrives (s := fate env' v.echo) hw
    cases e9
    obtain ⟨a10, e10, hw⟩ := bind_arrives (s := fate env' v.properties) hw
    obtain ⟨rfl, f10⟩ := p10.1 env' _ e10
    cases hw
    exact ⟨rfl, f10⟩
  · refine (bind_same (s := fate env' v.next_incoming_id) (p0.2 env' hd (fun _ _ => trivial)) _).trans ?_
    refine (bind_same (s := fate env' v.incoming_window) (p1.2 env' hd trivial) _).trans ?_
    refine (bind_same (s := fate env' v.next_outgoing_id) (p2.2 env' hd trivial) _).trans ?_
    refine (bind_same (s := fate env' v.outgoing_window) (p3.2 env' hd trivial) _).trans ?_
    refine (bind_same (s := fate env' v.handle) (p4.2 env' hd (fun _ _ => trivial)) _).trans ?_
    refine (bind_same (s := fate env' v.delivery_count) (p5.2 env' hd (fun _ _ => trivial)) _).trans ?_
    refine (bind_same (s := fate env' v.link_credit) (p6.2 env' hd (fun _ _ => trivial)) _).trans ?_
    refine (bind_same (s := fate env' v.available) (p7.2 env' hd (fun _ _ => trivial)) _).trans ?_
    refine (bind_same (s := fate env' v.drain) rfl _).trans ?_
    refine (bind_same (s := fate env' v.echo) rfl _).trans ?_
    refine (bind_same (s := fate env' v.properties) (p10.2 env' hd hf) _).trans ?_
    rfl
instance : Passes Flow := passes_list Flow.passesInner

theorem Disposition.passesInner : PassesInner Disposition := by
  intro env i r v h
  obtain ⟨o0, o1, o2, -, o4, -, -⟩ := inner_origin h
  have p0 : Passing env.stackDepth v.role := passing_req o0
  have p1 : Passing env.stackDepth v.first := passing_req o1
  have p2 : Passing env.stackDepth v.last := passing_opt o2
  have p4 : Passing env.stackDepth v.state := passing_opt o4
  refine ⟨fun env' w hw => ?_, fun env' hd hf => ?_⟩
  · obtain ⟨a0, e0, hw⟩ := bind_arrives (s := fate env' v.role) hw
    obtain ⟨rfl, -⟩ := p0.1 env' _ e0
    obtain ⟨a1, e1, hw⟩ := bind_arrives (s := fate env' v.first) hw
    obtain ⟨rfl, -⟩ := p1.1 env' _ e1
    obtain ⟨a2, e2, hw⟩ := bind_arrives (s := fate env' v.last) hw
    obtain ⟨rfl, -⟩ := p2.1 env' _ e2
    obtain ⟨a3, e3, hw⟩ := bind_arrives (s := fate env' v.settled) hw
    cases e3
    obtain ⟨a4, e4, hw⟩ := bind_arrives (s := fate env' v.state) hw
    obtain ⟨rfl, f4⟩ := p4.1 env' _ e4
    obtain ⟨a5, e5, hw⟩ := bind_arrives (s := fate env' v.batchable) hw
    cases e5
    cases hw
    exact ⟨rfl, f4⟩
  · refine (bind_same (s := fate env' v.role) (p0.2 env' hd trivial) _).trans ?_
    refine (bind_same (s := fate env' v.first) (p1.2 env' hd trivial) _).trans ?_
    refine (bind_same (s := fate env' v.last) (p2.2 env' hd (fun _ _ => trivial)) _).trans ?_
    refine (bind_same (s := fate env' v.settled) rfl _).trans ?_
    refine (bind_same (s := fate env' v.state) (p4.2 env' hd hf) _).trans ?_
    refine (bind_same (s := fate env' v.batchable) rfl _).trans ?_
    rfl
instance : Passes Disposition := passes_list Disposition.passesInner

theorem Detach.passesInner : PassesInner Detach := by
  intro env i r v h
  obtain ⟨o0, -, o2, -⟩ := inner_origin h
  have p0 : Passing env.stackDepth v.handle := passing_req o0
  have p2 : Passing env.stackDepth v.error := passing_opt o2
  refine ⟨fun env' w hw => ?_, fun env' hd hf => ?_⟩
  · obtain ⟨a0, e0, hw⟩ := bind_arrives (s := fate env' v.handle) hw
    obtain ⟨rfl, -⟩ := p0.1 env' _ e0
    obtain ⟨a1, e1, hw⟩ := bind_arrives (s := fate env' v.closed) hw
    cases e1
    obtain ⟨a2, e2, hw⟩ := bind_arrives (s := fate env' v.error) hw
    obtain ⟨rfl, f2⟩ := p2.1 env' _ e2
    cases hw
    exact ⟨rfl, f2⟩
  · refine (bind_same (s := fate env' v.handle) (p0.2 env' hd trivial) _).trans ?_
    refine (bind_same (s := fate env' v.closed) rfl _).trans ?_
    refine (bind_same (s := fate env' v.error) (p2.2 env' hd hf) _).trans ?_
    rfl
instance : Passes Detach := passes_list Detach.passesInner

theorem End.passesInner : PassesInner End := by
  intro env i r v h
  obtain ⟨o0, -⟩ := inner_origin h
  have p0 : Passing env.stackDepth v.error := passing_opt o0
  refine ⟨fun env' w hw => ?_, fun env' hd hf => ?_⟩
  · obtain ⟨a0, e0, hw⟩ := bind_arrives (s := fate env' v.error) hw
    obtain ⟨rfl, f0⟩ := p0.1 env' _ e0
    cases hw
    exact ⟨rfl, f0⟩
  · refine (bind_same (s := fate env' v.error) (p0.2 env' hd hf) _).trans ?_
    rfl
instance : Passes End := passes_list End.passesInner

theorem Close.passesInner : PassesInner Close := by
  intro env i r v h
  obtain ⟨o0, -⟩ := inner_origin h
  have p0 : Passing env.stackDepth v.error := passing_opt o0
  refine ⟨fun env' w hw => ?_, fun env' hd hf => ?_⟩
  · obtain ⟨a0, e0, hw⟩ := bind_arrives (s := fate env' v.error) hw
    obtain ⟨rfl, f0⟩ := p0.1 env' _ e0
    cases hw
    exact ⟨rfl, f0⟩
  · refine (bind_same (s := fate env' v.error) (p0.2 env' hd hf) _).trans ?_
    rfl
instance : Passes Close := passes_list Close.passesInner

theorem TransferPerf.passesInner : PassesInner TransferPerf := by
  intro env i r v h
  obtain ⟨o0, o1, o2, o3, o4, -, o6, o7, -, -, -, -⟩ := inner_origin h
  have p0 : Passing env.stackDepth v.handle := passing_req o0
  have p1 : Passing env.stackDepth v.delivery_id := passing_opt o1
  have p2 : Passing env.stackDepth v.delivery_tag := passing_opt o2
  have p3 : Passing env.stackDepth v.message_format := passing_opt o3
  have p4 : Passing env.stackDepth v.settled := passing_opt o4
  have p6 : Passing env.stackDepth v.rcv_settle_mode := passing_opt o6
  have p7 : Passing env.stackDepth v.state := passing_opt o7
  refine ⟨fun env' w hw => ?_, fun env' hd hf => ?_⟩
  · obtain ⟨a0, e0, hw⟩ := bind_arrives (s := fate env' v.handle) hw
    obtain ⟨rfl, -⟩ := p0.1 env' _ e0
    obtain ⟨a1, e1, hw⟩ := bind_arrives (s := fate env' v.delivery_id) hw
    obtain ⟨rfl, -⟩ := p1.1 env' _ e1
    obtain ⟨a2, e2, hw⟩ := bind_arrives (s := fate env' v.delivery_tag) hw
    obtain ⟨rfl, -⟩ := p2.1 env' _ e2
    obtain ⟨a3, e3, hw⟩ := bind_arrives (s := fate env' v.message_format) hw
    obtain ⟨rfl, -⟩ := p3.1 env' _ e3
    obtain ⟨a4, e4, hw⟩ := bind_arrives (s := fate env' v.settled) hw
    obtain ⟨rfl, -⟩ := p4.1 env' _ e4
    obtain ⟨a5, e5, hw⟩ := bind_arrives (s := fate env' v.more) hw
    cases e5
    obtain ⟨a6, e6, hw⟩ := bind_arrives (s := fate env' v.rcv_settle_mode) hw
    obtain ⟨rfl, -⟩ := p6.1 env' _ e6
    obtain ⟨a7, e7, hw⟩ := bind_arrives (s := fate env' v.state) hw
    obtain ⟨rfl, f7⟩ := p7.1 env' _ e7
    obtain ⟨a8, e8, hw⟩ := bind_arrives (s := fate env' v.resume) hw
    cases e8
    obtain ⟨a9, e9, hw⟩ := bind_arrives (s := fate env' v.aborted) hw
    cases e9
    obtain ⟨a10, e10, hw⟩ := bind_arrives (s := fate env' v.batchable) hw
    cases e10
    cases hw
    exact ⟨rfl, f7⟩
  · refine (bind_same (s := fate env' v.handle) (p0.2 env' hd trivial) _).trans ?_
    refine (bind_same (s := fate env' v.delivery_id) (p1.2 env' hd (fun _ _ => trivial)) _).trans ?_
    refine (bind_same (s := fate env' v.delivery_tag) (p2.2 env' hd (fun _ _ => trivial)) _).trans ?_
    refine (bind_same (s := fate env' v.message_format) (p3.2 env' hd (fun _ _ => trivial)) _).trans ?_
    refine (bind_same (s := fate env' v.settled) (p4.2 env' hd (fun _ _ => trivial)) _).trans ?_
    refine (bind_same (s := fate env' v.more) rfl _).trans ?_
    refine (bind_same (s := fate env' v.rcv_settle_mode) (p6.2 env' hd (fun _ _ => trivial)) _).trans ?_
    refine (bind_same (s := fate env' v.state) (p7.2 env' hd hf) _).trans ?_
    refine (bind_same (s := fate env' v.resume) rfl _).trans ?_
    refine (bind_same (s := fate env' v.aborted) rfl _).trans ?_
    refine (bind_same (s := fate env' v.batchable) rfl _).trans ?_
    rfl
instance : Passes TransferPerf := passes_list TransferPerf.passesInner

theorem SaslMechanisms.passesInner : PassesInner SaslMechanisms := by
  intro env i r v h
  obtain ⟨o0, -⟩ := inner_origin h
  have p0 : Passing env.stackDepth v.sasl_server_mechanisms := passing_req o0
  refine ⟨fun env' w hw => ?_, fun env' hd hf => ?_⟩
  · obtain ⟨a0, e0, hw⟩ := bind_arrives (s := fate env' v.sasl_server_mechanisms) hw
    obtain ⟨rfl, f0⟩ := p0.1 env' _ e0
    cases hw
    exact ⟨rfl, f0⟩
  · refine (bind_same (s := fate env' v.sasl_server_mechanisms) (p0.2 env' hd hf) _).trans ?_
    rfl
instance : Passes SaslMechanisms := passes_list SaslMechanisms.passesInner

theorem SaslInit.passesInner : PassesInner SaslInit := by
  intro env i r v h
  obtain ⟨o0, o1, o2, -⟩ := inner_origin h
  have p0 : Passing env.stackDepth v.mechanism := passing_req o0
  have p1 : Passing env.stackDepth v.initial_response := passing_opt o1
  have p2 : Passing env.stackDepth v.hostname := passing_opt o2
  refine ⟨fun env' w hw => ?_, fun env' hd hf => ?_⟩
  · obtain ⟨a0, e0, hw⟩ := bind_arrives (s := fate env' v.mechanism) hw
    obtain ⟨rfl, -⟩ := p0.1 env' _ e0
    obtain ⟨a1, e1, hw⟩ := bind_arrives (s := fate env' v.initial_response) hw
    obtain ⟨rfl, -⟩ := p1.1 env' _ e1
    obtain ⟨a2, e2, hw⟩ := bind_arrives (s := fate env' v.hostname) hw
    obtain ⟨rfl, -⟩ := p2.1 env' _ e2
    cases hw
    exact ⟨rfl, trivial⟩
  · refine (bind_same (s := fate env' v.mechanism) (p0.2 env' hd trivial) _).trans ?_
    refine (bind_same (s := fate env' v.initial_response) (p1.2 env' hd (fun _ _ => trivial)) _).trans ?_
    refine (bind_same (s := fate env' v.hostname) (p2.2 env' hd (fun _ _ => trivial)) _).trans ?_
    rfl
instance : Passes SaslInit := passes_list SaslInit.passesInner

theorem SaslChallenge.passesInner : PassesInner SaslChallenge := by
  intro env i r v h
  obtain ⟨o0, -⟩ := inner_origin h
  have p0 : Passing env.stackDepth v.challenge := passing_req o0
  refine ⟨fun env' w hw => ?_, fun env' hd hf => ?_⟩
  · obtain ⟨a0, e0, hw⟩ := bind_arrives (s := fate env' v.challenge) hw
    obtain ⟨rfl, -⟩ := p0.1 env' _ e0
    cases hw
    exact ⟨rfl, trivial⟩
  · refine (bind_same (s := fate env' v.challenge) (p0.2 env' hd trivial) _).trans ?_
    rfl
instance : Passes SaslChallenge := passes_list SaslChallenge.passesInner

theorem SaslResponse.passesInner : PassesInner SaslResponse := by
  intro env i r v h
  obtain ⟨o0, -⟩ := inner_origin h
  have p0 : Passing env.stackDepth v.response := passing_req o0
  refine ⟨fun env' w hw => ?_, fun env' hd hf => ?_⟩
  · obtain ⟨a0, e0, hw⟩ := bind_arrives (s := fate env' v.response) hw
    obtain ⟨rfl, -⟩ := p0.1 env' _ e0
    cases hw
    exact ⟨rfl, trivial⟩
  · refine (bind_same (s := fate env' v.response) (p0.2 env' hd trivial) _).trans ?_
    rfl
instance : Passes SaslResponse := passes_list SaslResponse.passesInner

theorem SaslOutcome.passesInner : PassesInner SaslOutcome := by
  intro env i r v h
  obtain ⟨o0, o1, -⟩ := inner_origin h
  have p0 : Passing env.stackDepth v.code := passing_req o0
  have p1 : Passing env.stackDepth v.additional_data := passing_opt o1
  refine ⟨fun env' w hw => ?_, fun env' hd hf => ?_⟩
  · obtain ⟨a0, e0, hw⟩ := bind_arrives (s := fate env' v.code) hw
    obtain ⟨rfl, -⟩ := p0.1 env' _ e0
    obtain ⟨a1, e1, hw⟩ := bind_arrives (s := fate env' v.additional_data) hw
    obtain ⟨rfl, -⟩ := p1.1 env' _ e1
    cases hw
    exact ⟨rfl, trivial⟩
  · refine (bind_same (s := fate env' v.code) (p0.2 env' hd trivial) _).trans ?_
    refine (bind_same (s := fate env' v.additional_data) (p1.2 env' hd (fun _ _ => trivial)) _).trans ?_
    rfl
instance : Passes SaslOutcome := passes_list SaslOutcome.passesInner

theorem SaslFrameBody.passing_of_origin {env : Env} {u : SaslFrameBody} (ho : u.Origin env) :
    Passing env.stackDepth u := by
  cases u with
  | SaslMechanisms v =>
    obtain ⟨i, r, ho⟩ := ho
    exact passing_member SaslFrameBody.SaslMechanisms (SaslMechanisms.passesInner env i r v ho)
  | SaslInit v =>
    obtain ⟨i, r, ho⟩ := ho
    exact passing_member SaslFrameBody.SaslInit (SaslInit.passesInner env i r v ho)
  | SaslChallenge v =>
    obtain ⟨i, r, ho⟩ := ho
    exact passing_member SaslFrameBody.SaslChallenge (SaslChallenge.passesInner env i r v ho)
  | SaslResponse v =>
    obtain ⟨i, r, ho⟩ := ho
    exact passing_member SaslFrameBody.SaslResponse (SaslResponse.passesInner env i r v ho)
  | SaslOutcome v =>
    obtain ⟨i, r, ho⟩ := ho
    exact passing_member SaslFrameBody.SaslOutcome (SaslOutcome.passesInner env i r v ho)
instance : Passes SaslFrameBody := ⟨by
  intro env i r v h
  obtain ⟨c, t, rfl, h1⟩ := decode_ok h
  obtain ⟨_, h1⟩ := validateCode_ok h1
  obtain ⟨_, d, _, h1⟩ := bind_eq_ok.1 h1
  exact SaslFrameBody.passing_of_origin (SaslFrameBody.dispatch_origin env d _ _ _ h1)⟩

theorem Header.passesInner : PassesInner Header := by
  intro env i r v h
  obtain ⟨-, -, o2, -, -, -⟩ := inner_origin h
  have p2 : Passing env.stackDepth v.ttl := passing_opt o2
  refine ⟨fun env' w hw => ?_, fun env' hd hf => ?_⟩
  · obtain ⟨a0, e0, hw⟩ := bind_arrives (s := fate env' v.durable) hw
    cases e0
    obtain ⟨a1, e1, hw⟩ := bind_arrives (s := fate env' v.priority) hw
    cases e1
    obtain ⟨a2, e2, hw⟩ := bind_arrives (s := fate env' v.ttl) hw
    obtain ⟨rfl, -⟩ := p2.1 env' _ e2
    obtain ⟨a3, e3, hw⟩ := bind_arrives (s := fate env' v.first_acquirer) hw
    cases e3
    obtain ⟨a4, e4, hw⟩ := bind_arrives (s := fate env' v.delivery_count) hw
    cases e4
    cases hw
    exact ⟨rfl, trivial⟩
  · refine (bind_same (s := fate env' v.durable) rfl _).trans ?_
    refine (bind_same (s := fate env' v.priority) rfl _).trans ?_
    refine (bind_same (s := fate env' v.ttl) (p2.2 env' hd (fun _ _ => trivial)) _).trans ?_
    refine (bind_same (s := fate env' v.first_acquirer) rfl _).trans ?_
    refine (bind_same (s := fate env' v.delivery_count) rfl _).trans ?_
    rfl
instance : Passes Header := passes_list Header.passesInner

theorem Properties.passesInner : PassesInner Properties := by
  intro env i r v h
  obtain ⟨o0, o1, o2, o3, o4, o5, o6, o7, o8, o9, o10, o11, o12, -⟩ := inner_origin h
  have p0 : Passing env.stackDepth v.message_id := passing_opt o0
  have p1 : Passing env.stackDepth v.user_id := passing_opt o1
  have p2 : Passing env.stackDepth v.to := passing_opt o2
  have p3 : Passing env.stackDepth v.subject := passing_opt o3
  have p4 : Passing env.stackDepth v.reply_to := passing_opt o4
  have p5 : Passing env.stackDepth v.correlation_id := passing_opt o5
  have p6 : Passing env.stackDepth v.content_type := passing_opt o6
  have p7 : Passing env.stackDepth v.content_encoding := passing_opt o7
  have p8 : Passing env.stackDepth v.absolute_expiry_time := passing_opt o8
  have p9 : Passing env.stackDepth v.creation_time := passing_opt o9
  have p10 : Passing env.stackDepth v.group_id := passing_opt o10
  have p11 : Passing env.stackDepth v.group_sequence := passing_opt o11
  have p12 : Passing env.stackDepth v.reply_to_group_id := passing_opt o12
  refine ⟨fun env' w hw => ?_, fun env' hd hf => ?_⟩
  · obtain ⟨a0, e0, hw⟩ := bind_arrives (s := fate env' v.message_id) hw
    obtain ⟨rfl, -⟩ := p0.1 env' _ e0
    obtain ⟨a1, e1, hw⟩ := bind_arrives (s := fate env' v.user_id) hw
    obtain ⟨rfl, -⟩ := p1.1 env' _ e1
    obtain ⟨a2, e2, hw⟩ := bind_arrives (s := fate env' v.to) hw
    obtain ⟨rfl, -⟩ := p2.1 env' _ e2
    obtain ⟨a3, e3, hw⟩ := bind_arrives (s := fate env' v.subject) hw
    obtain ⟨rfl, -⟩ := p3.1 env' _ e3
    obtain ⟨a4, e4, hw⟩ := bind_arrives (s := fate env' v.reply_to) hw
    obtain ⟨rfl, -⟩ := p4.1 env' _ e4
    obtain ⟨a5, e5, hw⟩ := bind_arrives (s := fate env' v.correlation_id) hw
    obtain ⟨rfl, -⟩ := p5.1 env' _ e5
    obtain ⟨a6, e6, hw⟩ := bind_arrives (s := fate env' v.content_type) hw
    obtain ⟨rfl, -⟩ := p6.1 env' _ e6
    obtain ⟨a7, e7, hw⟩ := bind_arrives (s := fate env' v.content_encoding) hw
    obtain ⟨rfl, -⟩ := p7.1 env' _ e7
    obtain ⟨a8, e8, hw⟩ := bind_arrives (s := fate env' v.absolute_expiry_time) hw
    obtain ⟨rfl, f8⟩ := p8.1 env' _ e8
    obtain ⟨a9, e9, hw⟩ := bind_arrives (s := fate env' v.creation_time) hw
    obtain ⟨rfl, f9⟩ := p9.1 env' _ e9
    obtain ⟨a10, e10, hw⟩ := bind_arrives (s := fate env' v.group_id) hw
    obtain ⟨rfl, -⟩ := p10.1 env' _ e10
    obtain ⟨a11, e11, hw⟩ := bind_arrives (s := fate env' v.group_sequence) hw
    obtain ⟨rfl, -⟩ := p11.1 env' _ e11
    obtain ⟨a12, e12, hw⟩ := bind_arrives (s := fate env' v.reply_to_group_id) hw
    obtain ⟨rfl, -⟩ := p12.1 env' _ e12
    cases hw
    exact ⟨rfl, f8, f9⟩
  · obtain ⟨f8, f9⟩ := hf
    refine (bind_same (s := fate env' v.message_id) (p0.2 env' hd (fun _ _ => trivial)) _).trans ?_
    refine (bind_same (s := fate env' v.user_id) (p1.2 env' hd (fun _ _ => trivial)) _).trans ?_
    refine (bind_same (s := fate env' v.to) (p2.2 env' hd (fun _ _ => trivial)) _).trans ?_
    refine (bind_same (s := fate env' v.subject) (p3.2 env' hd (fun _ _ => trivial)) _).trans ?_
    refine (bind_same (s := fate env' v.reply_to) (p4.2 env' hd (fun _ _ => trivial)) _).trans ?_
    refine (bind_same (s := fate env' v.correlation_id) (p5.2 env' hd (fun _ _ => trivial)) _).trans ?_
    refine (bind_same (s := fate env' v.content_type) (p6.2 env' hd (fun _ _ => trivial)) _).trans ?_
    refine (bind_same (s := fate env' v.content_encoding) (p7.2 env' hd (fun _ _ => trivial)) _).trans ?_
    refine (bind_same (s := fate env' v.absolute_expiry_time) (p8.2 env' hd f8) _).trans ?_
    refine (bind_same (s := fate env' v.creation_time) (p9.2 env' hd f9) _).trans ?_
    refine (bind_same (s := fate env' v.group_id) (p10.2 env' hd (fun _ _ => trivial)) _).trans ?_
    refine (bind_same (s := fate env' v.group_sequence) (p11.2 env' hd (fun _ _ => trivial)) _).trans ?_
    refine (bind_same (s := fate env' v.reply_to_group_id) (p12.2 env' hd (fun _ _ => trivial)) _).trans ?_
    rfl
instance : Passes Properties := passes_list Properties.passesInner

theorem Section.passing_of_origin {env : Env} {u : Section} (ho : u.Origin env) :
    Passing env.stackDepth u := by
  cases u with
  | Header v =>
    obtain ⟨i, r, ho⟩ := ho
    exact passing_member Section.Header (Header.passesInner env i r v ho)
  | DeliveryAnnotations v =>
    obtain ⟨i, r, ho⟩ := ho
    exact passing_member Section.DeliveryAnnotations (Passes.passes env i r v ho)
  | MessageAnnotations v =>
    obtain ⟨i, r, ho⟩ := ho
    exact passing_member Section.MessageAnnotations (Passes.passes env i r v ho)
  | ApplicationProperties v =>
    obtain ⟨i, r, ho⟩ := ho
    exact passing_member Section.ApplicationProperties (Passes.passes env i r v ho)
  | Data v =>
    obtain ⟨i, r, ho⟩ := ho
    exact passing_member Section.Data (Passes.passes env i r v ho)
  | AmqpSequence v =>
    obtain ⟨i, r, ho⟩ := ho
    exact passing_member Section.AmqpSequence (Passes.passes env i r v ho)
  | AmqpValue v =>
    obtain ⟨i, r, ho⟩ := ho
    exact passing_member Section.AmqpValue (Passes.passes env i r v ho)
  | Footer v =>
    obtain ⟨i, r, ho⟩ := ho
    exact passing_member Section.Footer (Passes.passes env i r v ho)
  | Properties v =>
    obtain ⟨i, r, ho⟩ := ho
    exact passing_member Section.Properties (Properties.passesInner env i r v ho)
instance : Passes Section := ⟨by
  intro env i r v h
  obtain ⟨c, t, rfl, h1⟩ := decode_ok h
  obtain ⟨_, h1⟩ := validateCode_ok h1
  obtain ⟨_, d, _, h1⟩ := bind_eq_ok.1 h1
  exact Section.passing_of_origin (Section.dispatch_origin env d _ _ _ h1)⟩

theorem arriving_received {b : Option TransferBody}
    (h : ∀ x, b = some x → ∃ d : Binary, x = .Data d ∧ d.data ≠ []) : arrivingBody b = b := by
  cases b with
  | none => rfl
  | some x =>
    obtain ⟨d, rfl, hd⟩ := h x rfl
    have e : enc (TransferBody.Data d) = d.data := by simp [enc, TransferBody.tenc]
    simp only [arrivingBody, e, if_neg hd]

instance : Forwardable Transfer := ⟨fun env v => fwd env v.toTransferPerf⟩

theorem Frame.passing_of_origin {env : Env} {f : Frame} (ho : f.Origin env) :
    Passing env.stackDepth f := by
  cases f with
  | Open v => obtain ⟨i, r, ho⟩ := ho; exact passing_member Frame.Open (Open.passesInner env i r v ho)
  | Begin v => obtain ⟨i, r, ho⟩ := ho; exact passing_member Frame.Begin (Begin.passesInner env i r v ho)
  | Attach v => obtain ⟨i, r, ho⟩ := ho; exact passing_member Frame.Attach (Attach.passesInner env i r v ho)
  | Flow v => obtain ⟨i, r, ho⟩ := ho; exact passing_member Frame.Flow (Flow.passesInner env i r v ho)
  | Transfer v =>
    obtain ⟨⟨i, r, ho⟩, hb⟩ := ho
    have p := TransferPerf.passesInner env i r _ ho
    have pt : Passing env.stackDepth v := by
      refine ⟨fun env' w hw => ?_, fun env' hd hf => ?_⟩
      · obtain ⟨a, e, hw⟩ := bind_arrives (s := fate env' v.toTransferPerf) hw
        obtain ⟨rfl, f⟩ := p.1 env' _ e
        cases hw
        rw [arriving_received hb]
        exact ⟨rfl, f⟩
      · refine (bind_same (s := fate env' v.toTransferPerf) (p.2 env' hd hf) _).trans ?_
        rw [arriving_received hb]
        rfl
    exact passing_member Frame.Transfer pt
  | Disposition v => obtain ⟨i, r, ho⟩ := ho; exact passing_member Frame.Disposition (Disposition.passesInner env i r v ho)
  | Detach v => obtain ⟨i, r, ho⟩ := ho; exact passing_member Frame.Detach (Detach.passesInner env i r v ho)
  | End v => obtain ⟨i, r, ho⟩ := ho; exact passing_member Frame.End (End.passesInner env i r v ho)
  | Close v => obtain ⟨i, r, ho⟩ := ho; exact passing_member Frame.Close (Close.passesInner env i r v ho)
  | Empty => exact .same (fun _ => rfl) (fun _ => trivial)

theorem AmqpFrame.passing {env : Env} {i r : Bytes} {f : AmqpFrame}
    (h : AmqpFrame.decode env i = .ok (r, f)) : Passing env.stackDepth f := by
  obtain ⟨_, ch, _, h⟩ := bind_eq_ok.1 h
  obtain ⟨_, p, h1, h⟩ := bind_eq_ok.1 h
  cases h
  exact passing_member (fun p => ({ channel_id := ch, performative := p } : AmqpFrame))
    (Frame.passing_of_origin (Frame.decode_origin h1))

theorem SaslFrame.passing {env : Env} {i r : Bytes} {f : SaslFrame}
    (h : SaslFrame.decode env i = .ok (r, f)) : Passing env.stackDepth f := by
  obtain ⟨_, ch, _, h⟩ := bind_eq_ok.1 h
  obtain ⟨_, p, h1, h⟩ := bind_eq_ok.1 h
  cases h
  exact passing_member SaslFrame.mk (Passes.passes (α := SaslFrameBody) env _ _ p h1)

end Amqp
