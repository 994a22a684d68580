import Verif.Protocol.Work
import Verif.Spec.WorkLists
import Verif.Proofs.WorkBase
/-!
# Bounds on the calls made for performatives and sections

Generated by `tools/gen_work.py`.
-/
set_option autoImplicit false
namespace Amqp

instance : Keen Role := keenOver _ _ _ (by decide) (fun v => by cases v <;> decide)
instance : Keen SenderSettleMode := keenOver _ _ _ (by decide) (fun v => by cases v <;> decide)
instance : Keen ReceiverSettleMode := keenOver _ _ _ (by decide) (fun v => by cases v <;> decide)
instance : Keen SaslCode := keenOver _ _ _ (by decide) (fun v => by cases v <;> decide)
instance : Keen TerminusDurability := keenOver _ _ _ (by decide) (fun v => by cases v <;> decide)
instance : Keen TerminusExpiryPolicy := keenOver _ _ _ (by decide) (fun v => by cases v <;> decide)

instance : Keen Error where
  same_size v := by
    show listSize ((measureC v.condition).val + (measureC v.description).val + (measureC v.info).val) = listSize (size v.condition + size v.description + size v.info)
    simp only [Diligent.same_size]
  same_enc v := by
    show listHdr 29 ((measureC v.condition).val + (measureC v.description).val + (measureC v.info).val) 3 ++ ((writeC v.condition).val ++ (writeC v.description).val ++ (writeC v.info).val) =
      listHdr 29 (size v.condition + size v.description + size v.info) 3 ++ (enc v.condition ++ enc v.description ++ enc v.info)
    simp only [Diligent.same_size, Diligent.same_enc]
  bound v := (((Diligent.bound v.condition).pair
      (Diligent.bound v.description)).pair
      (Diligent.bound v.info)).list

instance : Keen Open where
  same_size v := by
    show listSize ((measureC v.container_id).val + (measureC v.hostname).val + (measureC v.max_frame_size).val + (measureC v.channel_max).val + (measureC v.idle_time_out).val + (measureC v.outgoing_locales).val + (measureC v.incoming_locales).val + (measureC v.offered_capabilities).val + (measureC v.desired_capabilities).val + (measureC v.properties).val) = listSize (size v.container_id + size v.hostname + size v.max_frame_size + size v.channel_max + size v.idle_time_out + size v.outgoing_locales + size v.incoming_locales + size v.offered_capabilities + size v.desired_capabilities + size v.properties)
    simp only [Diligent.same_size]
  same_enc v := by
    show listHdr 16 ((measureC v.container_id).val + (measureC v.hostname).val + (measureC v.max_frame_size).val + (measureC v.channel_max).val + (measureC v.idle_time_out).val + (measureC v.outgoing_locales).val + (measureC v.incoming_locales).val + (measureC v.offered_capabilities).val + (measureC v.desired_capabilities).val + (measureC v.properties).val) 10 ++ ((writeC v.container_id).val ++ (writeC v.hostname).val ++ (writeC v.max_frame_size).val ++ (writeC v.channel_max).val ++ (writeC v.idle_time_out).val ++ (writeC v.outgoing_locales).val ++ (writeC v.incoming_locales).val ++ (writeC v.offered_capabilities).val ++ (writeC v.desired_capabilities).val ++ (writeC v.properties).val) =
      listHdr 16 (size v.container_id + size v.hostname + size v.max_frame_size + size v.channel_max + size v.idle_time_out + size v.outgoing_locales + size v.incoming_locales + size v.offered_capabilities + size v.desired_capabilities + size v.properties) 10 ++ (enc v.container_id ++ enc v.hostname ++ enc v.max_frame_size ++ enc v.channel_max ++ enc v.idle_time_out ++ enc v.outgoing_locales ++ enc v.incoming_locales ++ enc v.offered_capabilities ++ enc v.desired_capabilities ++ enc v.properties)
    simp only [Diligent.same_size, Diligent.same_enc]
  bound v := ((((((((((Diligent.bound v.container_id).pair
      (Diligent.bound v.hostname)).pair
      (Diligent.bound v.max_frame_size)).pair
      (Diligent.bound v.channel_max)).pair
      (Diligent.bound v.idle_time_out)).pair
      (Diligent.bound v.outgoing_locales)).pair
      (Diligent.bound v.incoming_locales)).pair
      (Diligent.bound v.offered_capabilities)).pair
      (Diligent.bound v.desired_capabilities)).pair
      (Diligent.bound v.properties)).list

instance : Keen Begin where
  same_size v := by
    show listSize ((measureC v.remote_channel).val + (measureC v.next_outgoing_id).val + (measureC v.incoming_window).val + (measureC v.outgoing_window).val + (measureC v.handle_max).val + (measureC v.offered_capabilities).val + (measureC v.desired_capabilities).val + (measureC v.properties).val) = listSize (size v.remote_channel + size v.next_outgoing_id + size v.incoming_window + size v.outgoing_window + size v.handle_max + size v.offered_capabilities + size v.desired_capabilities + size v.properties)
    simp only [Diligent.same_size]
  same_enc v := by
    show listHdr 17 ((measureC v.remote_channel).val + (measureC v.next_outgoing_id).val + (measureC v.incoming_window).val + (measureC v.outgoing_window).val + (measureC v.handle_max).val + (measureC v.offered_capabilities).val + (measureC v.desired_capabilities).val + (measureC v.properties).val) 8 ++ ((writeC v.remote_channel).val ++ (writeC v.next_outgoing_id).val ++ (writeC v.incoming_window).val ++ (writeC v.outgoing_window).val ++ (writeC v.handle_max).val ++ (writeC v.offered_capabilities).val ++ (writeC v.desired_capabilities).val ++ (writeC v.properties).val) =
      listHdr 17 (size v.remote_channel + size v.next_outgoing_id + size v.incoming_window + size v.outgoing_window + size v.handle_max + size v.offered_capabilities + size v.desired_capabilities + size v.properties) 8 ++ (enc v.remote_channel ++ enc v.next_outgoing_id ++ enc v.incoming_window ++ enc v.outgoing_window ++ enc v.handle_max ++ enc v.offered_capabilities ++ enc v.desired_capabilities ++ enc v.properties)
    simp only [Diligent.same_size, Diligent.same_enc]
  bound v := ((((((((Diligent.bound v.remote_channel).pair
      (Diligent.bound v.next_outgoing_id)).pair
      (Diligent.bound v.incoming_window)).pair
      (Diligent.bound v.outgoing_window)).pair
      (Diligent.bound v.handle_max)).pair
      (Diligent.bound v.offered_capabilities)).pair
      (Diligent.bound v.desired_capabilities)).pair
      (Diligent.bound v.properties)).list

instance : Keen Accepted where
  same_size _ := rfl
  same_enc _ := rfl
  bound _ := (show Under 1 1 3 6 from ⟨by decide, by decide⟩)

instance : Keen Rejected where
  same_size v := by
    show listSize ((measureC v.error).val) = listSize (size v.error)
    simp only [Diligent.same_size]
  same_enc v := by
    show listHdr 37 ((measureC v.error).val) 1 ++ ((writeC v.error).val) =
      listHdr 37 (size v.error) 1 ++ (enc v.error)
    simp only [Diligent.same_size, Diligent.same_enc]
  bound v := (Diligent.bound v.error).list

instance : Keen Released where
  same_size _ := rfl
  same_enc _ := rfl
  bound _ := (show Under 1 1 3 6 from ⟨by decide, by decide⟩)

instance : Keen Modified where
  same_size v := by
    show listSize ((measureC v.delivery_failed).val + (measureC v.undeliverable_here).val + (measureC v.message_annotations).val) = listSize (size v.delivery_failed + size v.undeliverable_here + size v.message_annotations)
    simp only [Diligent.same_size]
  same_enc v := by
    show listHdr 39 ((measureC v.delivery_failed).val + (measureC v.undeliverable_here).val + (measureC v.message_annotations).val) 3 ++ ((writeC v.delivery_failed).val ++ (writeC v.undeliverable_here).val ++ (writeC v.message_annotations).val) =
      listHdr 39 (size v.delivery_failed + size v.undeliverable_here + size v.message_annotations) 3 ++ (enc v.delivery_failed ++ enc v.undeliverable_here ++ enc v.message_annotations)
    simp only [Diligent.same_size, Diligent.same_enc]
  bound v := (((Diligent.bound v.delivery_failed).pair
      (Diligent.bound v.undeliverable_here)).pair
      (Diligent.bound v.message_annotations)).list

instance : Keen Outcome where
  same_size v := by
    cases v with
    | Accepted v => exact Keen.same_size v
    | Rejected v => exact Keen.same_size v
    | Released v => exact Keen.same_size v
    | Modified v => exact Keen.same_size v
  same_enc v := by
    cases v with
    | Accepted v => exact Keen.same_enc v
    | Rejected v => exact Keen.same_enc v
    | Released v => exact Keen.same_enc v
    | Modified v => exact Keen.same_enc v
  bound v := by
    have hF : fixed Outcome = max (max (max (fixed Accepted) (fixed Rejected)) (fixed Released)) (fixed Modified) := rfl
    cases v with
    | Accepted v => exact (Keen.bound v).mono (by show _ ≤ fixed Outcome + nest v; omega)
    | Rejected v => exact (Keen.bound v).mono (by show _ ≤ fixed Outcome + nest v; omega)
    | Released v => exact (Keen.bound v).mono (by show _ ≤ fixed Outcome + nest v; omega)
    | Modified v => exact (Keen.bound v).mono (by show _ ≤ fixed Outcome + nest v; omega)

instance : Keen Source where
  same_size v := by
    show listSize ((measureC v.address).val + (measureC v.durable).val + (measureC v.expiry_policy).val + (measureC v.timeout).val + (measureC v.dynamic).val + (measureC v.dynamic_node_properties).val + (measureC v.distribution_mode).val + (measureC v.filter).val + (measureC v.default_outcome).val + (measureC v.outcomes).val + (measureC v.capabilities).val) = listSize (size v.address + size v.durable + size v.expiry_policy + size v.timeout + size v.dynamic + size v.dynamic_node_properties + size v.distribution_mode + size v.filter + size v.default_outcome + size v.outcomes + size v.capabilities)
    simp only [Diligent.same_size]
  same_enc v := by
    show listHdr 40 ((measureC v.address).val + (measureC v.durable).val + (measureC v.expiry_policy).val + (measureC v.timeout).val + (measureC v.dynamic).val + (measureC v.dynamic_node_properties).val + (measureC v.distribution_mode).val + (measureC v.filter).val + (measureC v.default_outcome).val + (measureC v.outcomes).val + (measureC v.capabilities).val) 11 ++ ((writeC v.address).val ++ (writeC v.durable).val ++ (writeC v.expiry_policy).val ++ (writeC v.timeout).val ++ (writeC v.dynamic).val ++ (writeC v.dynamic_node_properties).val ++ (writeC v.distribution_mode).val ++ (writeC v.filter).val ++ (writeC v.default_outcome).val ++ (writeC v.outcomes).val ++ (writeC v.capabilities).val) =
      listHdr 40 (size v.address + size v.durable + size v.expiry_policy + size v.timeout + size v.dynamic + size v.dynamic_node_properties + size v.distribution_mode + size v.filter + size v.default_outcome + size v.outcomes + size v.capabilities) 11 ++ (enc v.address ++ enc v.durable ++ enc v.expiry_policy ++ enc v.timeout ++ enc v.dynamic ++ enc v.dynamic_node_properties ++ enc v.distribution_mode ++ enc v.filter ++ enc v.default_outcome ++ enc v.outcomes ++ enc v.capabilities)
    simp only [Diligent.same_size, Diligent.same_enc]
  bound v := (((((((((((Diligent.bound v.address).pair
      (Diligent.bound v.durable)).pair
      (Diligent.bound v.expiry_policy)).pair
      (Diligent.bound v.timeout)).pair
      (Diligent.bound v.dynamic)).pair
      (Diligent.bound v.dynamic_node_properties)).pair
      (Diligent.bound v.distribution_mode)).pair
      (Diligent.bound v.filter)).pair
      (Diligent.bound v.default_outcome)).pair
      (Diligent.bound v.outcomes)).pair
      (Diligent.bound v.capabilities)).list

instance : Keen Target where
  same_size v := by
    show listSize ((measureC v.address).val + (measureC v.durable).val + (measureC v.expiry_policy).val + (measureC v.timeout).val + (measureC v.dynamic).val + (measureC v.dynamic_node_properties).val + (measureC v.capabilities).val) = listSize (size v.address + size v.durable + size v.expiry_policy + size v.timeout + size v.dynamic + size v.dynamic_node_properties + size v.capabilities)
    simp only [Diligent.same_size]
  same_enc v := by
    show listHdr 41 ((measureC v.address).val + (measureC v.durable).val + (measureC v.expiry_policy).val + (measureC v.timeout).val + (measureC v.dynamic).val + (measureC v.dynamic_node_properties).val + (measureC v.capabilities).val) 7 ++ ((writeC v.address).val ++ (writeC v.durable).val ++ (writeC v.expiry_policy).val ++ (writeC v.timeout).val ++ (writeC v.dynamic).val ++ (writeC v.dynamic_node_properties).val ++ (writeC v.capabilities).val) =
      listHdr 41 (size v.address + size v.durable + size v.expiry_policy + size v.timeout + size v.dynamic + size v.dynamic_node_properties + size v.capabilities) 7 ++ (enc v.address ++ enc v.durable ++ enc v.expiry_policy ++ enc v.timeout ++ enc v.dynamic ++ enc v.dynamic_node_properties ++ enc v.capabilities)
    simp only [Diligent.same_size, Diligent.same_enc]
  bound v := (((((((Diligent.bound v.address).pair
      (Diligent.bound v.durable)).pair
      (Diligent.bound v.expiry_policy)).pair
      (Diligent.bound v.timeout)).pair
      (Diligent.bound v.dynamic)).pair
      (Diligent.bound v.dynamic_node_properties)).pair
      (Diligent.bound v.capabilities)).list

instance : Keen Attach where
  same_size v := by
    show listSize ((measureC v.name).val + (measureC v.handle).val + (measureC v.role).val + (measureC v.snd_settle_mode).val + (measureC v.rcv_settle_mode).val + (measureC v.source).val + (measureC v.target).val + (measureC v.unsettled).val + (measureC v.incomplete_unsettled).val + (measureC v.initial_delivery_count).val + (measureC v.max_message_size).val + (measureC v.offered_capabilities).val + (measureC v.desired_capabilities).val + (measureC v.properties).val) = listSize (size v.name + size v.handle + size v.role + size v.snd_settle_mode + size v.rcv_settle_mode + size v.source + size v.target + size v.unsettled + size v.incomplete_unsettled + size v.initial_delivery_count + size v.max_message_size + size v.offered_capabilities + size v.desired_capabilities + size v.properties)
    simp only [Diligent.same_size]
  same_enc v := by
    show listHdr 18 ((measureC v.name).val + (measureC v.handle).val + (measureC v.role).val + (measureC v.snd_settle_mode).val + (measureC v.rcv_settle_mode).val + (measureC v.source).val + (measureC v.target).val + (measureC v.unsettled).val + (measureC v.incomplete_unsettled).val + (measureC v.initial_delivery_count).val + (measureC v.max_message_size).val + (measureC v.offered_capabilities).val + (measureC v.desired_capabilities).val + (measureC v.properties).val) 14 ++ ((writeC v.name).val ++ (writeC v.handle).val ++ (writeC v.role).val ++ (writeC v.snd_settle_mode).val ++ (writeC v.rcv_settle_mode).val ++ (writeC v.source).val ++ (writeC v.target).val ++ (writeC v.unsettled).val ++ (writeC v.incomplete_unsettled).val ++ (writeC v.initial_delivery_count).val ++ (writeC v.max_message_size).val ++ (writeC v.offered_capabilities).val ++ (writeC v.desired_capabilities).val ++ (writeC v.properties).val) =
      listHdr 18 (size v.name + size v.handle + size v.role + size v.snd_settle_mode + size v.rcv_settle_mode + size v.source + size v.target + size v.unsettled + size v.incomplete_unsettled + size v.initial_delivery_count + size v.max_message_size + size v.offered_capabilities + size v.desired_capabilities + size v.properties) 14 ++ (enc v.name ++ enc v.handle ++ enc v.role ++ enc v.snd_settle_mode ++ enc v.rcv_settle_mode ++ enc v.source ++ enc v.target ++ enc v.unsettled ++ enc v.incomplete_unsettled ++ enc v.initial_delivery_count ++ enc v.max_message_size ++ enc v.offered_capabilities ++ enc v.desired_capabilities ++ enc v.properties)
    simp only [Diligent.same_size, Diligent.same_enc]
  bound v := ((((((((((((((Diligent.bound v.name).pair
      (Diligent.bound v.handle)).pair
      (Diligent.bound v.role)).pair
      (Diligent.bound v.snd_settle_mode)).pair
      (Diligent.bound v.rcv_settle_mode)).pair
      (Diligent.bound v.source)).pair
      (Diligent.bound v.target)).pair
      (Diligent.bound v.unsettled)).pair
      (Diligent.bound v.incomplete_unsettled)).pair
      (Diligent.bound v.initial_delivery_count)).pair
      (Diligent.bound v.max_message_size)).pair
      (Diligent.bound v.offered_capabilities)).pair
      (Diligent.bound v.desired_capabilities)).pair
      (Diligent.bound v.properties)).list

instance : Keen Flow where
  same_size v := by
    show listSize ((measureC v.next_incoming_id).val + (measureC v.incoming_window).val + (measureC v.next_outgoing_id).val + (measureC v.outgoing_window).val + (measureC v.handle).val + (measureC v.delivery_count).val + (measureC v.link_credit).val + (measureC v.available).val + (measureC v.drain).val + (measureC v.echo).val + (measureC v.properties).val) = listSize (size v.next_incoming_id + size v.incoming_window + size v.next_outgoing_id + size v.outgoing_window + size v.handle + size v.delivery_count + size v.link_credit + size v.available + size v.drain + size v.echo + size v.properties)
    simp only [Diligent.same_size]
  same_enc v := by
    show listHdr 19 ((measureC v.next_incoming_id).val + (measureC v.incoming_window).val + (measureC v.next_outgoing_id).val + (measureC v.outgoing_window).val + (measureC v.handle).val + (measureC v.delivery_count).val + (measureC v.link_credit).val + (measureC v.available).val + (measureC v.drain).val + (measureC v.echo).val + (measureC v.properties).val) 11 ++ ((writeC v.next_incoming_id).val ++ (writeC v.incoming_window).val ++ (writeC v.next_outgoing_id).val ++ (writeC v.outgoing_window).val ++ (writeC v.handle).val ++ (writeC v.delivery_count).val ++ (writeC v.link_credit).val ++ (writeC v.available).val ++ (writeC v.drain).val ++ (writeC v.echo).val ++ (writeC v.properties).val) =
      listHdr 19 (size v.next_incoming_id + size v.incoming_window + size v.next_outgoing_id + size v.outgoing_window + size v.handle + size v.delivery_count + size v.link_credit + size v.available + size v.drain + size v.echo + size v.properties) 11 ++ (enc v.next_incoming_id ++ enc v.incoming_window ++ enc v.next_outgoing_id ++ enc v.outgoing_window ++ enc v.handle ++ enc v.delivery_count ++ enc v.link_credit ++ enc v.available ++ enc v.drain ++ enc v.echo ++ enc v.properties)
    simp only [Diligent.same_size, Diligent.same_enc]
  bound v := (((((((((((Diligent.bound v.next_incoming_id).pair
      (Diligent.bound v.incoming_window)).pair
      (Diligent.bound v.next_outgoing_id)).pair
      (Diligent.bound v.outgoing_window)).pair
      (Diligent.bound v.handle)).pair
      (Diligent.bound v.delivery_count)).pair
      (Diligent.bound v.link_credit)).pair
      (Diligent.bound v.available)).pair
      (Diligent.bound v.drain)).pair
      (Diligent.bound v.echo)).pair
      (Diligent.bound v.properties)).list

instance : Keen Received where
  same_size v := by
    show listSize ((measureC v.section_number).val + (measureC v.section_offset).val) = listSize (size v.section_number + size v.section_offset)
    simp only [Diligent.same_size]
  same_enc v := by
    show listHdr 35 ((measureC v.section_number).val + (measureC v.section_offset).val) 2 ++ ((writeC v.section_number).val ++ (writeC v.section_offset).val) =
      listHdr 35 (size v.section_number + size v.section_offset) 2 ++ (enc v.section_number ++ enc v.section_offset)
    simp only [Diligent.same_size, Diligent.same_enc]
  bound v := ((Diligent.bound v.section_number).pair
      (Diligent.bound v.section_offset)).list

instance : Keen DeliveryState where
  same_size v := by
    cases v with
    | Received v => exact Keen.same_size v
    | Accepted v => exact Keen.same_size v
    | Rejected v => exact Keen.same_size v
    | Released v => exact Keen.same_size v
    | Modified v => exact Keen.same_size v
  same_enc v := by
    cases v with
    | Received v => exact Keen.same_enc v
    | Accepted v => exact Keen.same_enc v
    | Rejected v => exact Keen.same_enc v
    | Released v => exact Keen.same_enc v
    | Modified v => exact Keen.same_enc v
  bound v := by
    have hF : fixed DeliveryState = max (max (max (max (fixed Received) (fixed Accepted)) (fixed Rejected)) (fixed Released)) (fixed Modified) := rfl
    cases v with
    | Received v => exact (Keen.bound v).mono (by show _ ≤ fixed DeliveryState + nest v; omega)
    | Accepted v => exact (Keen.bound v).mono (by show _ ≤ fixed DeliveryState + nest v; omega)
    | Rejected v => exact (Keen.bound v).mono (by show _ ≤ fixed DeliveryState + nest v; omega)
    | Released v => exact (Keen.bound v).mono (by show _ ≤ fixed DeliveryState + nest v; omega)
    | Modified v => exact (Keen.bound v).mono (by show _ ≤ fixed DeliveryState + nest v; omega)

instance : Keen TransferPerf where
  same_size v := by
    show listSize ((measureC v.handle).val + (measureC v.delivery_id).val + (measureC v.delivery_tag).val + (measureC v.message_format).val + (measureC v.settled).val + (measureC v.more).val + (measureC v.rcv_settle_mode).val + (measureC v.state).val + (measureC v.resume).val + (measureC v.aborted).val + (measureC v.batchable).val) = listSize (size v.handle + size v.delivery_id + size v.delivery_tag + size v.message_format + size v.settled + size v.more + size v.rcv_settle_mode + size v.state + size v.resume + size v.aborted + size v.batchable)
    simp only [Diligent.same_size]
  same_enc v := by
    show listHdr 20 ((measureC v.handle).val + (measureC v.delivery_id).val + (measureC v.delivery_tag).val + (measureC v.message_format).val + (measureC v.settled).val + (measureC v.more).val + (measureC v.rcv_settle_mode).val + (measureC v.state).val + (measureC v.resume).val + (measureC v.aborted).val + (measureC v.batchable).val) 11 ++ ((writeC v.handle).val ++ (writeC v.delivery_id).val ++ (writeC v.delivery_tag).val ++ (writeC v.message_format).val ++ (writeC v.settled).val ++ (writeC v.more).val ++ (writeC v.rcv_settle_mode).val ++ (writeC v.state).val ++ (writeC v.resume).val ++ (writeC v.aborted).val ++ (writeC v.batchable).val) =
      listHdr 20 (size v.handle + size v.delivery_id + size v.delivery_tag + size v.message_format + size v.settled + size v.more + size v.rcv_settle_mode + size v.state + size v.resume + size v.aborted + size v.batchable) 11 ++ (enc v.handle ++ enc v.delivery_id ++ enc v.delivery_tag ++ enc v.message_format ++ enc v.settled ++ enc v.more ++ enc v.rcv_settle_mode ++ enc v.state ++ enc v.resume ++ enc v.aborted ++ enc v.batchable)
    simp only [Diligent.same_size, Diligent.same_enc]
  bound v := (((((((((((Diligent.bound v.handle).pair
      (Diligent.bound v.delivery_id)).pair
      (Diligent.bound v.delivery_tag)).pair
      (Diligent.bound v.message_format)).pair
      (Diligent.bound v.settled)).pair
      (Diligent.bound v.more)).pair
      (Diligent.bound v.rcv_settle_mode)).pair
      (Diligent.bound v.state)).pair
      (Diligent.bound v.resume)).pair
      (Diligent.bound v.aborted)).pair
      (Diligent.bound v.batchable)).list

instance : Keen Disposition where
  same_size v := by
    show listSize ((measureC v.role).val + (measureC v.first).val + (measureC v.last).val + (measureC v.settled).val + (measureC v.state).val + (measureC v.batchable).val) = listSize (size v.role + size v.first + size v.last + size v.settled + size v.state + size v.batchable)
    simp only [Diligent.same_size]
  same_enc v := by
    show listHdr 21 ((measureC v.role).val + (measureC v.first).val + (measureC v.last).val + (measureC v.settled).val + (measureC v.state).val + (measureC v.batchable).val) 6 ++ ((writeC v.role).val ++ (writeC v.first).val ++ (writeC v.last).val ++ (writeC v.settled).val ++ (writeC v.state).val ++ (writeC v.batchable).val) =
      listHdr 21 (size v.role + size v.first + size v.last + size v.settled + size v.state + size v.batchable) 6 ++ (enc v.role ++ enc v.first ++ enc v.last ++ enc v.settled ++ enc v.state ++ enc v.batchable)
    simp only [Diligent.same_size, Diligent.same_enc]
  bound v := ((((((Diligent.bound v.role).pair
      (Diligent.bound v.first)).pair
      (Diligent.bound v.last)).pair
      (Diligent.bound v.settled)).pair
      (Diligent.bound v.state)).pair
      (Diligent.bound v.batchable)).list

instance : Keen Detach where
  same_size v := by
    show listSize ((measureC v.handle).val + (measureC v.closed).val + (measureC v.error).val) = listSize (size v.handle + size v.closed + size v.error)
    simp only [Diligent.same_size]
  same_enc v := by
    show listHdr 22 ((measureC v.handle).val + (measureC v.closed).val + (measureC v.error).val) 3 ++ ((writeC v.handle).val ++ (writeC v.closed).val ++ (writeC v.error).val) =
      listHdr 22 (size v.handle + size v.closed + size v.error) 3 ++ (enc v.handle ++ enc v.closed ++ enc v.error)
    simp only [Diligent.same_size, Diligent.same_enc]
  bound v := (((Diligent.bound v.handle).pair
      (Diligent.bound v.closed)).pair
      (Diligent.bound v.error)).list

instance : Keen End where
  same_size v := by
    show listSize ((measureC v.error).val) = listSize (size v.error)
    simp only [Diligent.same_size]
  same_enc v := by
    show listHdr 23 ((measureC v.error).val) 1 ++ ((writeC v.error).val) =
      listHdr 23 (size v.error) 1 ++ (enc v.error)
    simp only [Diligent.same_size, Diligent.same_enc]
  bound v := (Diligent.bound v.error).list

instance : Keen Close where
  same_size v := by
    show listSize ((measureC v.error).val) = listSize (size v.error)
    simp only [Diligent.same_size]
  same_enc v := by
    show listHdr 24 ((measureC v.error).val) 1 ++ ((writeC v.error).val) =
      listHdr 24 (size v.error) 1 ++ (enc v.error)
    simp only [Diligent.same_size, Diligent.same_enc]
  bound v := (Diligent.bound v.error).list

instance : Keen SaslMechanisms where
  same_size v := by
    show listSize ((measureC v.sasl_server_mechanisms).val) = listSize (size v.sasl_server_mechanisms)
    simp only [Diligent.same_size]
  same_enc v := by
    show listHdr 64 ((measureC v.sasl_server_mechanisms).val) 1 ++ ((writeC v.sasl_server_mechanisms).val) =
      listHdr 64 (size v.sasl_server_mechanisms) 1 ++ (enc v.sasl_server_mechanisms)
    simp only [Diligent.same_size, Diligent.same_enc]
  bound v := (Diligent.bound v.sasl_server_mechanisms).list

instance : Keen SaslInit where
  same_size v := by
    show listSize ((measureC v.mechanism).val + (measureC v.initial_response).val + (measureC v.hostname).val) = listSize (size v.mechanism + size v.initial_response + size v.hostname)
    simp only [Diligent.same_size]
  same_enc v := by
    show listHdr 65 ((measureC v.mechanism).val + (measureC v.initial_response).val + (measureC v.hostname).val) 3 ++ ((writeC v.mechanism).val ++ (writeC v.initial_response).val ++ (writeC v.hostname).val) =
      listHdr 65 (size v.mechanism + size v.initial_response + size v.hostname) 3 ++ (enc v.mechanism ++ enc v.initial_response ++ enc v.hostname)
    simp only [Diligent.same_size, Diligent.same_enc]
  bound v := (((Diligent.bound v.mechanism).pair
      (Diligent.bound v.initial_response)).pair
      (Diligent.bound v.hostname)).list

instance : Keen SaslChallenge where
  same_size v := by
    show listSize ((measureC v.challenge).val) = listSize (size v.challenge)
    simp only [Diligent.same_size]
  same_enc v := by
    show listHdr 66 ((measureC v.challenge).val) 1 ++ ((writeC v.challenge).val) =
      listHdr 66 (size v.challenge) 1 ++ (enc v.challenge)
    simp only [Diligent.same_size, Diligent.same_enc]
  bound v := (Diligent.bound v.challenge).list

instance : Keen SaslResponse where
  same_size v := by
    show listSize ((measureC v.response).val) = listSize (size v.response)
    simp only [Diligent.same_size]
  same_enc v := by
    show listHdr 67 ((measureC v.response).val) 1 ++ ((writeC v.response).val) =
      listHdr 67 (size v.response) 1 ++ (enc v.response)
    simp only [Diligent.same_size, Diligent.same_enc]
  bound v := (Diligent.bound v.response).list

instance : Keen SaslOutcome where
  same_size v := by
    show listSize ((measureC v.code).val + (measureC v.additional_data).val) = listSize (size v.code + size v.additional_data)
    simp only [Diligent.same_size]
  same_enc v := by
    show listHdr 68 ((measureC v.code).val + (measureC v.additional_data).val) 2 ++ ((writeC v.code).val ++ (writeC v.additional_data).val) =
      listHdr 68 (size v.code + size v.additional_data) 2 ++ (enc v.code ++ enc v.additional_data)
    simp only [Diligent.same_size, Diligent.same_enc]
  bound v := ((Diligent.bound v.code).pair
      (Diligent.bound v.additional_data)).list

instance : Keen Header where
  same_size v := by
    show listSize ((measureC v.durable).val + (measureC v.priority).val + (measureC v.ttl).val + (measureC v.first_acquirer).val + (measureC v.delivery_count).val) = listSize (size v.durable + size v.priority + size v.ttl + size v.first_acquirer + size v.delivery_count)
    simp only [Diligent.same_size]
  same_enc v := by
    show listHdr 112 ((measureC v.durable).val + (measureC v.priority).val + (measureC v.ttl).val + (measureC v.first_acquirer).val + (measureC v.delivery_count).val) 5 ++ ((writeC v.durable).val ++ (writeC v.priority).val ++ (writeC v.ttl).val ++ (writeC v.first_acquirer).val ++ (writeC v.delivery_count).val) =
      listHdr 112 (size v.durable + size v.priority + size v.ttl + size v.first_acquirer + size v.delivery_count) 5 ++ (enc v.durable ++ enc v.priority ++ enc v.ttl ++ enc v.first_acquirer ++ enc v.delivery_count)
    simp only [Diligent.same_size, Diligent.same_enc]
  bound v := (((((Diligent.bound v.durable).pair
      (Diligent.bound v.priority)).pair
      (Diligent.bound v.ttl)).pair
      (Diligent.bound v.first_acquirer)).pair
      (Diligent.bound v.delivery_count)).list

instance : Keen Properties where
  same_size v := by
    show listSize ((measureC v.message_id).val + (measureC v.user_id).val + (measureC v.to).val + (measureC v.subject).val + (measureC v.reply_to).val + (measureC v.correlation_id).val + (measureC v.content_type).val + (measureC v.content_encoding).val + (measureC v.absolute_expiry_time).val + (measureC v.creation_time).val + (measureC v.group_id).val + (measureC v.group_sequence).val + (measureC v.reply_to_group_id).val) = listSize (size v.message_id + size v.user_id + size v.to + size v.subject + size v.reply_to + size v.correlation_id + size v.content_type + size v.content_encoding + size v.absolute_expiry_time + size v.creation_time + size v.group_id + size v.group_sequence + size v.reply_to_group_id)
    simp only [Diligent.same_size]
  same_enc v := by
    show listHdr 115 ((measureC v.message_id).val + (measureC v.user_id).val + (measureC v.to).val + (measureC v.subject).val + (measureC v.reply_to).val + (measureC v.correlation_id).val + (measureC v.content_type).val + (measureC v.content_encoding).val + (measureC v.absolute_expiry_time).val + (measureC v.creation_time).val + (measureC v.group_id).val + (measureC v.group_sequence).val + (measureC v.reply_to_group_id).val) 13 ++ ((writeC v.message_id).val ++ (writeC v.user_id).val ++ (writeC v.to).val ++ (writeC v.subject).val ++ (writeC v.reply_to).val ++ (writeC v.correlation_id).val ++ (writeC v.content_type).val ++ (writeC v.content_encoding).val ++ (writeC v.absolute_expiry_time).val ++ (writeC v.creation_time).val ++ (writeC v.group_id).val ++ (writeC v.group_sequence).val ++ (writeC v.reply_to_group_id).val) =
      listHdr 115 (size v.message_id + size v.user_id + size v.to + size v.subject + size v.reply_to + size v.correlation_id + size v.content_type + size v.content_encoding + size v.absolute_expiry_time + size v.creation_time + size v.group_id + size v.group_sequence + size v.reply_to_group_id) 13 ++ (enc v.message_id ++ enc v.user_id ++ enc v.to ++ enc v.subject ++ enc v.reply_to ++ enc v.correlation_id ++ enc v.content_type ++ enc v.content_encoding ++ enc v.absolute_expiry_time ++ enc v.creation_time ++ enc v.group_id ++ enc v.group_sequence ++ enc v.reply_to_group_id)
    simp only [Diligent.same_size, Diligent.same_enc]
  bound v := (((((((((((((Diligent.bound v.message_id).pair
      (Diligent.bound v.user_id)).pair
      (Diligent.bound v.to)).pair
      (Diligent.bound v.subject)).pair
      (Diligent.bound v.reply_to)).pair
      (Diligent.bound v.correlation_id)).pair
      (Diligent.bound v.content_type)).pair
      (Diligent.bound v.content_encoding)).pair
      (Diligent.bound v.absolute_expiry_time)).pair
      (Diligent.bound v.creation_time)).pair
      (Diligent.bound v.group_id)).pair
      (Diligent.bound v.group_sequence)).pair
      (Diligent.bound v.reply_to_group_id)).list

instance : Keen SaslFrameBody where
  same_size v := by
    cases v with
    | SaslMechanisms v => exact Keen.same_size v
    | SaslInit v => exact Keen.same_size v
    | SaslChallenge v => exact Keen.same_size v
    | SaslResponse v => exact Keen.same_size v
    | SaslOutcome v => exact Keen.same_size v
  same_enc v := by
    cases v with
    | SaslMechanisms v => exact Keen.same_enc v
    | SaslInit v => exact Keen.same_enc v
    | SaslChallenge v => exact Keen.same_enc v
    | SaslResponse v => exact Keen.same_enc v
    | SaslOutcome v => exact Keen.same_enc v
  bound v := by
    have hF : fixed SaslFrameBody = max (max (max (max (fixed SaslMechanisms) (fixed SaslInit)) (fixed SaslChallenge)) (fixed SaslResponse)) (fixed SaslOutcome) := rfl
    cases v with
    | SaslMechanisms v => exact (Keen.bound v).mono (by show _ ≤ fixed SaslFrameBody + nest v; omega)
    | SaslInit v => exact (Keen.bound v).mono (by show _ ≤ fixed SaslFrameBody + nest v; omega)
    | SaslChallenge v => exact (Keen.bound v).mono (by show _ ≤ fixed SaslFrameBody + nest v; omega)
    | SaslResponse v => exact (Keen.bound v).mono (by show _ ≤ fixed SaslFrameBody + nest v; omega)
    | SaslOutcome v => exact (Keen.bound v).mono (by show _ ≤ fixed SaslFrameBody + nest v; omega)

instance : Keen Section where
  same_size v := by
    cases v with
    | Header v => exact Keen.same_size v
    | DeliveryAnnotations v => exact congrArg (3 + ·) (Keen.same_size v)
    | MessageAnnotations v => exact congrArg (3 + ·) (Keen.same_size v)
    | ApplicationProperties v => exact congrArg (3 + ·) (Keen.same_size v)
    | Data v => exact congrArg (3 + ·) (Keen.same_size v)
    | AmqpSequence v => exact congrArg (3 + ·) (Keen.same_size v)
    | AmqpValue v => exact congrArg (3 + ·) (Keen.same_size v)
    | Footer v => exact congrArg (3 + ·) (Keen.same_size v)
    | Properties v => exact Keen.same_size v
  same_enc v := by
    cases v with
    | Header v => exact Keen.same_enc v
    | DeliveryAnnotations v => exact congrArg (_ ++ ·) (Keen.same_enc v)
    | MessageAnnotations v => exact congrArg (_ ++ ·) (Keen.same_enc v)
    | ApplicationProperties v => exact congrArg (_ ++ ·) (Keen.same_enc v)
    | Data v => exact congrArg (_ ++ ·) (Keen.same_enc v)
    | AmqpSequence v => exact congrArg (_ ++ ·) (Keen.same_enc v)
    | AmqpValue v => exact congrArg (_ ++ ·) (Keen.same_enc v)
    | Footer v => exact congrArg (_ ++ ·) (Keen.same_enc v)
    | Properties v => exact Keen.same_enc v
  bound v := by
    have hF : fixed Section = max (max (max (max (max (max (max (max (fixed Header) (fixed DeliveryAnnotations)) (fixed MessageAnnotations)) (fixed ApplicationProperties)) (fixed Data)) (fixed AmqpSequence)) (fixed AmqpValue)) (fixed Footer)) (fixed Properties) := rfl
    cases v with
    | Header v => exact (Keen.bound v).mono (by show _ ≤ fixed Section + nest v; omega)
    | DeliveryAnnotations v => exact (Keen.bound v).section.mono (by show _ ≤ fixed Section + nest v; omega)
    | MessageAnnotations v => exact (Keen.bound v).section.mono (by show _ ≤ fixed Section + nest v; omega)
    | ApplicationProperties v => exact (Keen.bound v).section.mono (by show _ ≤ fixed Section + nest v; omega)
    | Data v => exact (Keen.bound v).section.mono (by show _ ≤ fixed Section + nest v; omega)
    | AmqpSequence v => exact (Keen.bound v).section.mono (by show _ ≤ fixed Section + nest v; omega)
    | AmqpValue v => exact (Keen.bound v).section.mono (by show _ ≤ fixed Section + nest v; omega)
    | Footer v => exact (Keen.bound v).section.mono (by show _ ≤ fixed Section + nest v; omega)
    | Properties v => exact (Keen.bound v).mono (by show _ ≤ fixed Section + nest v; omega)

end Amqp
