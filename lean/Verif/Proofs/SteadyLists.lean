import Verif.Spec.SteadyLists
import Verif.Proofs.EqualityLists
import Verif.Proofs.Steady
/-!
# Steady performatives and sections that are equal are the same

Generated by `tools/gen_equality.py`.
-/
set_option autoImplicit false
namespace Amqp

instance : SteadyREq Role := steadyDec _
instance : SteadyREq SenderSettleMode := steadyDec _
instance : SteadyREq ReceiverSettleMode := steadyDec _
instance : SteadyREq SaslCode := steadyDec _
instance : SteadyREq TerminusDurability := steadyDec _
instance : SteadyREq TerminusExpiryPolicy := steadyDec _

instance : SteadyREq Error where
  same a b ha hb hs h := by
    rw [Error.req_iff] at h
    have e0 := SteadyREq.same a.condition b.condition ha.1 hb.1 hs.1 h.1
    have e1 := SteadyREq.same a.description b.description ha.2.1 hb.2.1 hs.2.1 h.2.1
    have e2 := SteadyREq.same a.info b.info ha.2.2 hb.2.2 hs.2.2 h.2.2
    cases a; cases b
    dsimp only at e0 e1 e2
    rw [e0, e1, e2]

instance : SteadyREq Open where
  same a b ha hb hs h := by
    rw [Open.req_iff] at h
    have e0 := SteadyREq.same a.container_id b.container_id ha.1 hb.1 hs.1 h.1
    have e1 := SteadyREq.same a.hostname b.hostname ha.2.1 hb.2.1 hs.2.1 h.2.1
    have e2 := SteadyREq.same a.max_frame_size b.max_frame_size ha.2.2.1 hb.2.2.1 hs.2.2.1 h.2.2.1
    have e3 := SteadyREq.same a.channel_max b.channel_max ha.2.2.2.1 hb.2.2.2.1 hs.2.2.2.1 h.2.2.2.1
    have e4 := SteadyREq.same a.idle_time_out b.idle_time_out ha.2.2.2.2.1 hb.2.2.2.2.1 hs.2.2.2.2.1 h.2.2.2.2.1
    have e5 := SteadyREq.same a.outgoing_locales b.outgoing_locales ha.2.2.2.2.2.1 hb.2.2.2.2.2.1 hs.2.2.2.2.2.1 h.2.2.2.2.2.1
    have e6 := SteadyREq.same a.incoming_locales b.incoming_locales ha.2.2.2.2.2.2.1 hb.2.2.2.2.2.2.1 hs.2.2.2.2.2.2.1 h.2.2.2.2.2.2.1
    have e7 := SteadyREq.same a.offered_capabilities b.offered_capabilities ha.2.2.2.2.2.2.2.1 hb.2.2.2.2.2.2.2.1 hs.2.2.2.2.2.2.2.1 h.2.2.2.2.2.2.2.1
    have e8 := SteadyREq.same a.desired_capabilities b.desired_capabilities ha.2.2.2.2.2.2.2.2.1 hb.2.2.2.2.2.2.2.2.1 hs.2.2.2.2.2.2.2.2.1 h.2.2.2.2.2.2.2.2.1
    have e9 := SteadyREq.same a.properties b.properties ha.2.2.2.2.2.2.2.2.2 hb.2.2.2.2.2.2.2.2.2 hs.2.2.2.2.2.2.2.2.2 h.2.2.2.2.2.2.2.2.2
    cases a; cases b
    dsimp only at e0 e1 e2 e3 e4 e5 e6 e7 e8 e9
    rw [e0, e1, e2, e3, e4, e5, e6, e7, e8, e9]

instance : SteadyREq Begin where
  same a b ha hb hs h := by
    rw [Begin.req_iff] at h
    have e0 := SteadyREq.same a.remote_channel b.remote_channel ha.1 hb.1 hs.1 h.1
    have e1 := SteadyREq.same a.next_outgoing_id b.next_outgoing_id ha.2.1 hb.2.1 hs.2.1 h.2.1
    have e2 := SteadyREq.same a.incoming_window b.incoming_window ha.2.2.1 hb.2.2.1 hs.2.2.1 h.2.2.1
    have e3 := SteadyREq.same a.outgoing_window b.outgoing_window ha.2.2.2.1 hb.2.2.2.1 hs.2.2.2.1 h.2.2.2.1
    have e4 := SteadyREq.same a.handle_max b.handle_max ha.2.2.2.2.1 hb.2.2.2.2.1 hs.2.2.2.2.1 h.2.2.2.2.1
    have e5 := SteadyREq.same a.offered_capabilities b.offered_capabilities ha.2.2.2.2.2.1 hb.2.2.2.2.2.1 hs.2.2.2.2.2.1 h.2.2.2.2.2.1
    have e6 := SteadyREq.same a.desired_capabilities b.desired_capabilities ha.2.2.2.2.2.2.1 hb.2.2.2.2.2.2.1 hs.2.2.2.2.2.2.1 h.2.2.2.2.2.2.1
    have e7 := SteadyREq.same a.properties b.properties ha.2.2.2.2.2.2.2 hb.2.2.2.2.2.2.2 hs.2.2.2.2.2.2.2 h.2.2.2.2.2.2.2
    cases a; cases b
    dsimp only at e0 e1 e2 e3 e4 e5 e6 e7
    rw [e0, e1, e2, e3, e4, e5, e6, e7]

instance : SteadyREq Accepted := ⟨fun a b _ _ _ _ => by cases a; cases b; rfl⟩

instance : SteadyREq Rejected where
  same a b ha hb hs h := by
    rw [Rejected.req_iff] at h
    have e0 := SteadyREq.same a.error b.error ha hb hs h
    cases a; cases b
    dsimp only at e0
    rw [e0]

instance : SteadyREq Released := ⟨fun a b _ _ _ _ => by cases a; cases b; rfl⟩

instance : SteadyREq Modified where
  same a b ha hb hs h := by
    rw [Modified.req_iff] at h
    have e0 := SteadyREq.same a.delivery_failed b.delivery_failed ha.1 hb.1 hs.1 h.1
    have e1 := SteadyREq.same a.undeliverable_here b.undeliverable_here ha.2.1 hb.2.1 hs.2.1 h.2.1
    have e2 := SteadyREq.same a.message_annotations b.message_annotations ha.2.2 hb.2.2 hs.2.2 h.2.2
    cases a; cases b
    dsimp only at e0 e1 e2
    rw [e0, e1, e2]

instance : SteadyREq Outcome where
  same a b ha hb hs h := by
    cases a with
    | Accepted a => cases b with
      | Accepted b => exact congrArg _ (SteadyREq.same a b ha hb hs h)
      | _ => exact Bool.noConfusion h
    | Rejected a => cases b with
      | Rejected b => exact congrArg _ (SteadyREq.same a b ha hb hs h)
      | _ => exact Bool.noConfusion h
    | Released a => cases b with
      | Released b => exact congrArg _ (SteadyREq.same a b ha hb hs h)
      | _ => exact Bool.noConfusion h
    | Modified a => cases b with
      | Modified b => exact congrArg _ (SteadyREq.same a b ha hb hs h)
      | _ => exact Bool.noConfusion h

instance : SteadyREq Source where
  same a b ha hb hs h := by
    rw [Source.req_iff] at h
    have e0 := SteadyREq.same a.address b.address ha.1 hb.1 hs.1 h.1
    have e1 := SteadyREq.same a.durable b.durable ha.2.1 hb.2.1 hs.2.1 h.2.1
    have e2 := SteadyREq.same a.expiry_policy b.expiry_policy ha.2.2.1 hb.2.2.1 hs.2.2.1 h.2.2.1
    have e3 := SteadyREq.same a.timeout b.timeout ha.2.2.2.1 hb.2.2.2.1 hs.2.2.2.1 h.2.2.2.1
    have e4 := SteadyREq.same a.dynamic b.dynamic ha.2.2.2.2.1 hb.2.2.2.2.1 hs.2.2.2.2.1 h.2.2.2.2.1
    have e5 := SteadyREq.same a.dynamic_node_properties b.dynamic_node_properties ha.2.2.2.2.2.1 hb.2.2.2.2.2.1 hs.2.2.2.2.2.1 h.2.2.2.2.2.1
    have e6 := SteadyREq.same a.distribution_mode b.distribution_mode ha.2.2.2.2.2.2.1 hb.2.2.2.2.2.2.1 hs.2.2.2.2.2.2.1 h.2.2.2.2.2.2.1
    have e7 := SteadyREq.same a.filter b.filter ha.2.2.2.2.2.2.2.1 hb.2.2.2.2.2.2.2.1 hs.2.2.2.2.2.2.2.1 h.2.2.2.2.2.2.2.1
    have e8 := SteadyREq.same a.default_outcome b.default_outcome ha.2.2.2.2.2.2.2.2.1 hb.2.2.2.2.2.2.2.2.1 hs.2.2.2.2.2.2.2.2.1 h.2.2.2.2.2.2.2.2.1
    have e9 := SteadyREq.same a.outcomes b.outcomes ha.2.2.2.2.2.2.2.2.2.1 hb.2.2.2.2.2.2.2.2.2.1 hs.2.2.2.2.2.2.2.2.2.1 h.2.2.2.2.2.2.2.2.2.1
    have e10 := SteadyREq.same a.capabilities b.capabilities ha.2.2.2.2.2.2.2.2.2.2 hb.2.2.2.2.2.2.2.2.2.2 hs.2.2.2.2.2.2.2.2.2.2 h.2.2.2.2.2.2.2.2.2.2
    cases a; cases b
    dsimp only at e0 e1 e2 e3 e4 e5 e6 e7 e8 e9 e10
    rw [e0, e1, e2, e3, e4, e5, e6, e7, e8, e9, e10]

instance : SteadyREq Target where
  same a b ha hb hs h := by
    rw [Target.req_iff] at h
    have e0 := SteadyREq.same a.address b.address ha.1 hb.1 hs.1 h.1
    have e1 := SteadyREq.same a.durable b.durable ha.2.1 hb.2.1 hs.2.1 h.2.1
    have e2 := SteadyREq.same a.expiry_policy b.expiry_policy ha.2.2.1 hb.2.2.1 hs.2.2.1 h.2.2.1
    have e3 := SteadyREq.same a.timeout b.timeout ha.2.2.2.1 hb.2.2.2.1 hs.2.2.2.1 h.2.2.2.1
    have e4 := SteadyREq.same a.dynamic b.dynamic ha.2.2.2.2.1 hb.2.2.2.2.1 hs.2.2.2.2.1 h.2.2.2.2.1
    have e5 := SteadyREq.same a.dynamic_node_properties b.dynamic_node_properties ha.2.2.2.2.2.1 hb.2.2.2.2.2.1 hs.2.2.2.2.2.1 h.2.2.2.2.2.1
    have e6 := SteadyREq.same a.capabilities b.capabilities ha.2.2.2.2.2.2 hb.2.2.2.2.2.2 hs.2.2.2.2.2.2 h.2.2.2.2.2.2
    cases a; cases b
    dsimp only at e0 e1 e2 e3 e4 e5 e6
    rw [e0, e1, e2, e3, e4, e5, e6]

instance : SteadyREq Attach where
  same a b ha hb hs h := by
    rw [Attach.req_iff] at h
    have e0 := SteadyREq.same a.name b.name ha.1 hb.1 hs.1 h.1
    have e1 := SteadyREq.same a.handle b.handle ha.2.1 hb.2.1 hs.2.1 h.2.1
    have e2 := SteadyREq.same a.role b.role ha.2.2.1 hb.2.2.1 hs.2.2.1 h.2.2.1
    have e3 := SteadyREq.same a.snd_settle_mode b.snd_settle_mode ha.2.2.2.1 hb.2.2.2.1 hs.2.2.2.1 h.2.2.2.1
    have e4 := SteadyREq.same a.rcv_settle_mode b.rcv_settle_mode ha.2.2.2.2.1 hb.2.2.2.2.1 hs.2.2.2.2.1 h.2.2.2.2.1
    have e5 := SteadyREq.same a.source b.source ha.2.2.2.2.2.1 hb.2.2.2.2.2.1 hs.2.2.2.2.2.1 h.2.2.2.2.2.1
    have e6 := SteadyREq.same a.target b.target ha.2.2.2.2.2.2.1 hb.2.2.2.2.2.2.1 hs.2.2.2.2.2.2.1 h.2.2.2.2.2.2.1
    have e7 := SteadyREq.same a.unsettled b.unsettled ha.2.2.2.2.2.2.2.1 hb.2.2.2.2.2.2.2.1 hs.2.2.2.2.2.2.2.1 h.2.2.2.2.2.2.2.1
    have e8 := SteadyREq.same a.incomplete_unsettled b.incomplete_unsettled ha.2.2.2.2.2.2.2.2.1 hb.2.2.2.2.2.2.2.2.1 hs.2.2.2.2.2.2.2.2.1 h.2.2.2.2.2.2.2.2.1
    have e9 := SteadyREq.same a.initial_delivery_count b.initial_delivery_count ha.2.2.2.2.2.2.2.2.2.1 hb.2.2.2.2.2.2.2.2.2.1 hs.2.2.2.2.2.2.2.2.2.1 h.2.2.2.2.2.2.2.2.2.1
    have e10 := SteadyREq.same a.max_message_size b.max_message_size ha.2.2.2.2.2.2.2.2.2.2.1 hb.2.2.2.2.2.2.2.2.2.2.1 hs.2.2.2.2.2.2.2.2.2.2.1 h.2.2.2.2.2.2.2.2.2.2.1
    have e11 := SteadyREq.same a.offered_capabilities b.offered_capabilities ha.2.2.2.2.2.2.2.2.2.2.2.1 hb.2.2.2.2.2.2.2.2.2.2.2.1 hs.2.2.2.2.2.2.2.2.2.2.2.1 h.2.2.2.2.2.2.2.2.2.2.2.1
    have e12 := SteadyREq.same a.desired_capabilities b.desired_capabilities ha.2.2.2.2.2.2.2.2.2.2.2.2.1 hb.2.2.2.2.2.2.2.2.2.2.2.2.1 hs.2.2.2.2.2.2.2.2.2.2.2.2.1 h.2.2.2.2.2.2.2.2.2.2.2.2.1
    have e13 := SteadyREq.same a.properties b.properties ha.2.2.2.2.2.2.2.2.2.2.2.2.2 hb.2.2.2.2.2.2.2.2.2.2.2.2.2 hs.2.2.2.2.2.2.2.2.2.2.2.2.2 h.2.2.2.2.2.2.2.2.2.2.2.2.2
    cases a; cases b
    dsimp only at e0 e1 e2 e3 e4 e5 e6 e7 e8 e9 e10 e11 e12 e13
    rw [e0, e1, e2, e3, e4, e5, e6, e7, e8, e9, e10, e11, e12, e13]

instance : SteadyREq Flow where
  same a b ha hb hs h := by
    rw [Flow.req_iff] at h
    have e0 := SteadyREq.same a.next_incoming_id b.next_incoming_id ha.1 hb.1 hs.1 h.1
    have e1 := SteadyREq.same a.incoming_window b.incoming_window ha.2.1 hb.2.1 hs.2.1 h.2.1
    have e2 := SteadyREq.same a.next_outgoing_id b.next_outgoing_id ha.2.2.1 hb.2.2.1 hs.2.2.1 h.2.2.1
    have e3 := SteadyREq.same a.outgoing_window b.outgoing_window ha.2.2.2.1 hb.2.2.2.1 hs.2.2.2.1 h.2.2.2.1
    have e4 := SteadyREq.same a.handle b.handle ha.2.2.2.2.1 hb.2.2.2.2.1 hs.2.2.2.2.1 h.2.2.2.2.1
    have e5 := SteadyREq.same a.delivery_count b.delivery_count ha.2.2.2.2.2.1 hb.2.2.2.2.2.1 hs.2.2.2.2.2.1 h.2.2.2.2.2.1
    have e6 := SteadyREq.same a.link_credit b.link_credit ha.2.2.2.2.2.2.1 hb.2.2.2.2.2.2.1 hs.2.2.2.2.2.2.1 h.2.2.2.2.2.2.1
    have e7 := SteadyREq.same a.available b.available ha.2.2.2.2.2.2.2.1 hb.2.2.2.2.2.2.2.1 hs.2.2.2.2.2.2.2.1 h.2.2.2.2.2.2.2.1
    have e8 := SteadyREq.same a.drain b.drain ha.2.2.2.2.2.2.2.2.1 hb.2.2.2.2.2.2.2.2.1 hs.2.2.2.2.2.2.2.2.1 h.2.2.2.2.2.2.2.2.1
    have e9 := SteadyREq.same a.echo b.echo ha.2.2.2.2.2.2.2.2.2.1 hb.2.2.2.2.2.2.2.2.2.1 hs.2.2.2.2.2.2.2.2.2.1 h.2.2.2.2.2.2.2.2.2.1
    have e10 := SteadyREq.same a.properties b.properties ha.2.2.2.2.2.2.2.2.2.2 hb.2.2.2.2.2.2.2.2.2.2 hs.2.2.2.2.2.2.2.2.2.2 h.2.2.2.2.2.2.2.2.2.2
    cases a; cases b
    dsimp only at e0 e1 e2 e3 e4 e5 e6 e7 e8 e9 e10
    rw [e0, e1, e2, e3, e4, e5, e6, e7, e8, e9, e10]

instance : SteadyREq Received where
  same a b ha hb hs h := by
    rw [Received.req_iff] at h
    have e0 := SteadyREq.same a.section_number b.section_number ha.1 hb.1 hs.1 h.1
    have e1 := SteadyREq.same a.section_offset b.section_offset ha.2 hb.2 hs.2 h.2
    cases a; cases b
    dsimp only at e0 e1
    rw [e0, e1]

instance : SteadyREq DeliveryState where
  same a b ha hb hs h := by
    cases a with
    | Received a => cases b with
      | Received b => exact congrArg _ (SteadyREq.same a b ha hb hs h)
      | _ => exact Bool.noConfusion h
    | Accepted a => cases b with
      | Accepted b => exact congrArg _ (SteadyREq.same a b ha hb hs h)
      | _ => exact Bool.noConfusion h
    | Rejected a => cases b with
      | Rejected b => exact congrArg _ (SteadyREq.same a b ha hb hs h)
      | _ => exact Bool.noConfusion h
    | Released a => cases b with
      | Released b => exact congrArg _ (SteadyREq.same a b ha hb hs h)
      | _ => exact Bool.noConfusion h
    | Modified a => cases b with
      | Modified b => exact congrArg _ (SteadyREq.same a b ha hb hs h)
      | _ => exact Bool.noConfusion h

instance : SteadyREq TransferPerf where
  same a b ha hb hs h := by
    rw [TransferPerf.req_iff] at h
    have e0 := SteadyREq.same a.handle b.handle ha.1 hb.1 hs.1 h.1
    have e1 := SteadyREq.same a.delivery_id b.delivery_id ha.2.1 hb.2.1 hs.2.1 h.2.1
    have e2 := SteadyREq.same a.delivery_tag b.delivery_tag ha.2.2.1 hb.2.2.1 hs.2.2.1 h.2.2.1
    have e3 := SteadyREq.same a.message_format b.message_format ha.2.2.2.1 hb.2.2.2.1 hs.2.2.2.1 h.2.2.2.1
    have e4 := SteadyREq.same a.settled b.settled ha.2.2.2.2.1 hb.2.2.2.2.1 hs.2.2.2.2.1 h.2.2.2.2.1
    have e5 := SteadyREq.same a.more b.more ha.2.2.2.2.2.1 hb.2.2.2.2.2.1 hs.2.2.2.2.2.1 h.2.2.2.2.2.1
    have e6 := SteadyREq.same a.rcv_settle_mode b.rcv_settle_mode ha.2.2.2.2.2.2.1 hb.2.2.2.2.2.2.1 hs.2.2.2.2.2.2.1 h.2.2.2.2.2.2.1
    have e7 := SteadyREq.same a.state b.state ha.2.2.2.2.2.2.2.1 hb.2.2.2.2.2.2.2.1 hs.2.2.2.2.2.2.2.1 h.2.2.2.2.2.2.2.1
    have e8 := SteadyREq.same a.resume b.resume ha.2.2.2.2.2.2.2.2.1 hb.2.2.2.2.2.2.2.2.1 hs.2.2.2.2.2.2.2.2.1 h.2.2.2.2.2.2.2.2.1
    have e9 := SteadyREq.same a.aborted b.aborted ha.2.2.2.2.2.2.2.2.2.1 hb.2.2.2.2.2.2.2.2.2.1 hs.2.2.2.2.2.2.2.2.2.1 h.2.2.2.2.2.2.2.2.2.1
    have e10 := SteadyREq.same a.batchable b.batchable ha.2.2.2.2.2.2.2.2.2.2 hb.2.2.2.2.2.2.2.2.2.2 hs.2.2.2.2.2.2.2.2.2.2 h.2.2.2.2.2.2.2.2.2.2
    cases a; cases b
    dsimp only at e0 e1 e2 e3 e4 e5 e6 e7 e8 e9 e10
    rw [e0, e1, e2, e3, e4, e5, e6, e7, e8, e9, e10]

instance : SteadyREq Disposition where
  same a b ha hb hs h := by
    rw [Disposition.req_iff] at h
    have e0 := SteadyREq.same a.role b.role ha.1 hb.1 hs.1 h.1
    have e1 := SteadyREq.same a.first b.first ha.2.1 hb.2.1 hs.2.1 h.2.1
    have e2 := SteadyREq.same a.last b.last ha.2.2.1 hb.2.2.1 hs.2.2.1 h.2.2.1
    have e3 := SteadyREq.same a.settled b.settled ha.2.2.2.1 hb.2.2.2.1 hs.2.2.2.1 h.2.2.2.1
    have e4 := SteadyREq.same a.state b.state ha.2.2.2.2.1 hb.2.2.2.2.1 hs.2.2.2.2.1 h.2.2.2.2.1
    have e5 := SteadyREq.same a.batchable b.batchable ha.2.2.2.2.2 hb.2.2.2.2.2 hs.2.2.2.2.2 h.2.2.2.2.2
    cases a; cases b
    dsimp only at e0 e1 e2 e3 e4 e5
    rw [e0, e1, e2, e3, e4, e5]

instance : SteadyREq Detach where
  same a b ha hb hs h := by
    rw [Detach.req_iff] at h
    have e0 := SteadyREq.same a.handle b.handle ha.1 hb.1 hs.1 h.1
    have e1 := SteadyREq.same a.closed b.closed ha.2.1 hb.2.1 hs.2.1 h.2.1
    have e2 := SteadyREq.same a.error b.error ha.2.2 hb.2.2 hs.2.2 h.2.2
    cases a; cases b
    dsimp only at e0 e1 e2
    rw [e0, e1, e2]

instance : SteadyREq End where
  same a b ha hb hs h := by
    rw [End.req_iff] at h
    have e0 := SteadyREq.same a.error b.error ha hb hs h
    cases a; cases b
    dsimp only at e0
    rw [e0]

instance : SteadyREq Close where
  same a b ha hb hs h := by
    rw [Close.req_iff] at h
    have e0 := SteadyREq.same a.error b.error ha hb hs h
    cases a; cases b
    dsimp only at e0
    rw [e0]

instance : SteadyREq SaslMechanisms where
  same a b ha hb hs h := by
    rw [SaslMechanisms.req_iff] at h
    have e0 := SteadyREq.same a.sasl_server_mechanisms b.sasl_server_mechanisms ha hb hs h
    cases a; cases b
    dsimp only at e0
    rw [e0]

instance : SteadyREq SaslInit where
  same a b ha hb hs h := by
    rw [SaslInit.req_iff] at h
    have e0 := SteadyREq.same a.mechanism b.mechanism ha.1 hb.1 hs.1 h.1
    have e1 := SteadyREq.same a.initial_response b.initial_response ha.2.1 hb.2.1 hs.2.1 h.2.1
    have e2 := SteadyREq.same a.hostname b.hostname ha.2.2 hb.2.2 hs.2.2 h.2.2
    cases a; cases b
    dsimp only at e0 e1 e2
    rw [e0, e1, e2]

instance : SteadyREq SaslChallenge where
  same a b ha hb hs h := by
    rw [SaslChallenge.req_iff] at h
    have e0 := SteadyREq.same a.challenge b.challenge ha hb hs h
    cases a; cases b
    dsimp only at e0
    rw [e0]

instance : SteadyREq SaslResponse where
  same a b ha hb hs h := by
    rw [SaslResponse.req_iff] at h
    have e0 := SteadyREq.same a.response b.response ha hb hs h
    cases a; cases b
    dsimp only at e0
    rw [e0]

instance : SteadyREq SaslOutcome where
  same a b ha hb hs h := by
    rw [SaslOutcome.req_iff] at h
    have e0 := SteadyREq.same a.code b.code ha.1 hb.1 hs.1 h.1
    have e1 := SteadyREq.same a.additional_data b.additional_data ha.2 hb.2 hs.2 h.2
    cases a; cases b
    dsimp only at e0 e1
    rw [e0, e1]

instance : SteadyREq Header where
  same a b ha hb hs h := by
    rw [Header.req_iff] at h
    have e0 := SteadyREq.same a.durable b.durable ha.1 hb.1 hs.1 h.1
    have e1 := SteadyREq.same a.priority b.priority ha.2.1 hb.2.1 hs.2.1 h.2.1
    have e2 := SteadyREq.same a.ttl b.ttl ha.2.2.1 hb.2.2.1 hs.2.2.1 h.2.2.1
    have e3 := SteadyREq.same a.first_acquirer b.first_acquirer ha.2.2.2.1 hb.2.2.2.1 hs.2.2.2.1 h.2.2.2.1
    have e4 := SteadyREq.same a.delivery_count b.delivery_count ha.2.2.2.2 hb.2.2.2.2 hs.2.2.2.2 h.2.2.2.2
    cases a; cases b
    dsimp only at e0 e1 e2 e3 e4
    rw [e0, e1, e2, e3, e4]

instance : SteadyREq Properties where
  same a b ha hb hs h := by
    rw [Properties.req_iff] at h
    have e0 := SteadyREq.same a.message_id b.message_id ha.1 hb.1 hs.1 h.1
    have e1 := SteadyREq.same a.user_id b.user_id ha.2.1 hb.2.1 hs.2.1 h.2.1
    have e2 := SteadyREq.same a.to b.to ha.2.2.1 hb.2.2.1 hs.2.2.1 h.2.2.1
    have e3 := SteadyREq.same a.subject b.subject ha.2.2.2.1 hb.2.2.2.1 hs.2.2.2.1 h.2.2.2.1
    have e4 := SteadyREq.same a.reply_to b.reply_to ha.2.2.2.2.1 hb.2.2.2.2.1 hs.2.2.2.2.1 h.2.2.2.2.1
    have e5 := SteadyREq.same a.correlation_id b.correlation_id ha.2.2.2.2.2.1 hb.2.2.2.2.2.1 hs.2.2.2.2.2.1 h.2.2.2.2.2.1
    have e6 := SteadyREq.same a.content_type b.content_type ha.2.2.2.2.2.2.1 hb.2.2.2.2.2.2.1 hs.2.2.2.2.2.2.1 h.2.2.2.2.2.2.1
    have e7 := SteadyREq.same a.content_encoding b.content_encoding ha.2.2.2.2.2.2.2.1 hb.2.2.2.2.2.2.2.1 hs.2.2.2.2.2.2.2.1 h.2.2.2.2.2.2.2.1
    have e8 := SteadyREq.same a.absolute_expiry_time b.absolute_expiry_time ha.2.2.2.2.2.2.2.2.1 hb.2.2.2.2.2.2.2.2.1 hs.2.2.2.2.2.2.2.2.1 h.2.2.2.2.2.2.2.2.1
    have e9 := SteadyREq.same a.creation_time b.creation_time ha.2.2.2.2.2.2.2.2.2.1 hb.2.2.2.2.2.2.2.2.2.1 hs.2.2.2.2.2.2.2.2.2.1 h.2.2.2.2.2.2.2.2.2.1
    have e10 := SteadyREq.same a.group_id b.group_id ha.2.2.2.2.2.2.2.2.2.2.1 hb.2.2.2.2.2.2.2.2.2.2.1 hs.2.2.2.2.2.2.2.2.2.2.1 h.2.2.2.2.2.2.2.2.2.2.1
    have e11 := SteadyREq.same a.group_sequence b.group_sequence ha.2.2.2.2.2.2.2.2.2.2.2.1 hb.2.2.2.2.2.2.2.2.2.2.2.1 hs.2.2.2.2.2.2.2.2.2.2.2.1 h.2.2.2.2.2.2.2.2.2.2.2.1
    have e12 := SteadyREq.same a.reply_to_group_id b.reply_to_group_id ha.2.2.2.2.2.2.2.2.2.2.2.2 hb.2.2.2.2.2.2.2.2.2.2.2.2 hs.2.2.2.2.2.2.2.2.2.2.2.2 h.2.2.2.2.2.2.2.2.2.2.2.2
    cases a; cases b
    dsimp only at e0 e1 e2 e3 e4 e5 e6 e7 e8 e9 e10 e11 e12
    rw [e0, e1, e2, e3, e4, e5, e6, e7, e8, e9, e10, e11, e12]

instance : SteadyREq SaslFrameBody where
  same a b ha hb hs h := by
    cases a with
    | SaslMechanisms a => cases b with
      | SaslMechanisms b => exact congrArg _ (SteadyREq.same a b ha hb hs h)
      | _ => exact Bool.noConfusion h
    | SaslInit a => cases b with
      | SaslInit b => exact congrArg _ (SteadyREq.same a b ha hb hs h)
      | _ => exact Bool.noConfusion h
    | SaslChallenge a => cases b with
      | SaslChallenge b => exact congrArg _ (SteadyREq.same a b ha hb hs h)
      | _ => exact Bool.noConfusion h
    | SaslResponse a => cases b with
      | SaslResponse b => exact congrArg _ (SteadyREq.same a b ha hb hs h)
      | _ => exact Bool.noConfusion h
    | SaslOutcome a => cases b with
      | SaslOutcome b => exact congrArg _ (SteadyREq.same a b ha hb hs h)
      | _ => exact Bool.noConfusion h

instance : SteadyREq Section where
  same a b ha hb hs h := by
    cases a with
    | Header a => cases b with
      | Header b => exact congrArg _ (SteadyREq.same a b ha hb hs h)
      | _ => exact Bool.noConfusion h
    | DeliveryAnnotations a => cases b with
      | DeliveryAnnotations b => exact congrArg _ (SteadyREq.same a b ha hb hs h)
      | _ => exact Bool.noConfusion h
    | MessageAnnotations a => cases b with
      | MessageAnnotations b => exact congrArg _ (SteadyREq.same a b ha hb hs h)
      | _ => exact Bool.noConfusion h
    | ApplicationProperties a => cases b with
      | ApplicationProperties b => exact congrArg _ (SteadyREq.same a b ha hb hs h)
      | _ => exact Bool.noConfusion h
    | Data a => cases b with
      | Data b => exact congrArg _ (SteadyREq.same a b ha hb hs h)
      | _ => exact Bool.noConfusion h
    | AmqpSequence a => cases b with
      | AmqpSequence b => exact congrArg _ (SteadyREq.same a b ha hb hs h)
      | _ => exact Bool.noConfusion h
    | AmqpValue a => cases b with
      | AmqpValue b => exact congrArg _ (SteadyREq.same a b ha hb hs h)
      | _ => exact Bool.noConfusion h
    | Footer a => cases b with
      | Footer b => exact congrArg _ (SteadyREq.same a b ha hb hs h)
      | _ => exact Bool.noConfusion h
    | Properties a => cases b with
      | Properties b => exact congrArg _ (SteadyREq.same a b ha hb hs h)
      | _ => exact Bool.noConfusion h

end Amqp
