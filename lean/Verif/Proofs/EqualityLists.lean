import Verif.Protocol.Equality
import Verif.Spec.EqualityLists
import Verif.Proofs.EqualityLaws
/-!
# Laws of `==` of performatives and sections

Generated by `tools/gen_equality.py`.
-/
set_option autoImplicit false
namespace Amqp

instance : LawfulREq Role := lawfulDec _
instance : SizeREq Role := sizeDec _
instance : LawfulREq SenderSettleMode := lawfulDec _
instance : SizeREq SenderSettleMode := sizeDec _
instance : LawfulREq ReceiverSettleMode := lawfulDec _
instance : SizeREq ReceiverSettleMode := sizeDec _
instance : LawfulREq SaslCode := lawfulDec _
instance : SizeREq SaslCode := sizeDec _
instance : LawfulREq TerminusDurability := lawfulDec _
instance : SizeREq TerminusDurability := sizeDec _
instance : LawfulREq TerminusExpiryPolicy := lawfulDec _
instance : SizeREq TerminusExpiryPolicy := sizeDec _

theorem Error.req_iff (a b : Error) : req a b = true ↔
    req a.condition b.condition = true ∧ req a.description b.description = true ∧ req a.info b.info = true := by
  show (req a.condition b.condition && req a.description b.description && req a.info b.info) = true ↔ _
  simp only [Bool.and_eq_true, and_assoc]
instance : LawfulREq Error where
  refl a h := (Error.req_iff _ _).2 (⟨LawfulREq.refl _ h.1,
    LawfulREq.refl _ h.2.1,
    LawfulREq.refl _ h.2.2⟩)
  symm a b ha hb h := by
    rw [Error.req_iff] at h ⊢
    exact ⟨LawfulREq.symm _ _ ha.1 hb.1 h.1,
    LawfulREq.symm _ _ ha.2.1 hb.2.1 h.2.1,
    LawfulREq.symm _ _ ha.2.2 hb.2.2 h.2.2⟩
  trans a b c ha hb hc h h' := by
    rw [Error.req_iff] at h h' ⊢
    exact ⟨LawfulREq.trans _ _ _ ha.1 hb.1 hc.1 h.1 h'.1,
    LawfulREq.trans _ _ _ ha.2.1 hb.2.1 hc.2.1 h.2.1 h'.2.1,
    LawfulREq.trans _ _ _ ha.2.2 hb.2.2 hc.2.2 h.2.2 h'.2.2⟩
instance : SizeREq Error where
  size_eq a b ha hb h := by
    rw [Error.req_iff] at h
    show listSize (size a.condition + size a.description + size a.info) = listSize (size b.condition + size b.description + size b.info)
    rw [SizeREq.size_eq a.condition b.condition ha.1 hb.1 h.1,
      SizeREq.size_eq a.description b.description ha.2.1 hb.2.1 h.2.1,
      SizeREq.size_eq a.info b.info ha.2.2 hb.2.2 h.2.2]

theorem Open.req_iff (a b : Open) : req a b = true ↔
    req a.container_id b.container_id = true ∧ req a.hostname b.hostname = true ∧ req a.max_frame_size b.max_frame_size = true ∧ req a.channel_max b.channel_max = true ∧ req a.idle_time_out b.idle_time_out = true ∧ req a.outgoing_locales b.outgoing_locales = true ∧ req a.incoming_locales b.incoming_locales = true ∧ req a.offered_capabilities b.offered_capabilities = true ∧ req a.desired_capabilities b.desired_capabilities = true ∧ req a.properties b.properties = true := by
  show (req a.container_id b.container_id && req a.hostname b.hostname && req a.max_frame_size b.max_frame_size && req a.channel_max b.channel_max && req a.idle_time_out b.idle_time_out && req a.outgoing_locales b.outgoing_locales && req a.incoming_locales b.incoming_locales && req a.offered_capabilities b.offered_capabilities && req a.desired_capabilities b.desired_capabilities && req a.properties b.properties) = true ↔ _
  simp only [Bool.and_eq_true, and_assoc]
instance : LawfulREq Open where
  refl a h := (Open.req_iff _ _).2 (⟨LawfulREq.refl _ h.1,
    LawfulREq.refl _ h.2.1,
    LawfulREq.refl _ h.2.2.1,
    LawfulREq.refl _ h.2.2.2.1,
    LawfulREq.refl _ h.2.2.2.2.1,
    LawfulREq.refl _ h.2.2.2.2.2.1,
    LawfulREq.refl _ h.2.2.2.2.2.2.1,
    LawfulREq.refl _ h.2.2.2.2.2.2.2.1,
    LawfulREq.refl _ h.2.2.2.2.2.2.2.2.1,
    LawfulREq.refl _ h.2.2.2.2.2.2.2.2.2⟩)
  symm a b ha hb h := by
    rw [Open.req_iff] at h ⊢
    exact ⟨LawfulREq.symm _ _ ha.1 hb.1 h.1,
    LawfulREq.symm _ _ ha.2.1 hb.2.1 h.2.1,
    LawfulREq.symm _ _ ha.2.2.1 hb.2.2.1 h.2.2.1,
    LawfulREq.symm _ _ ha.2.2.2.1 hb.2.2.2.1 h.2.2.2.1,
    LawfulREq.symm _ _ ha.2.2.2.2.1 hb.2.2.2.2.1 h.2.2.2.2.1,
    LawfulREq.symm _ _ ha.2.2.2.2.2.1 hb.2.2.2.2.2.1 h.2.2.2.2.2.1,
    LawfulREq.symm _ _ ha.2.2.2.2.2.2.1 hb.2.2.2.2.2.2.1 h.2.2.2.2.2.2.1,
    LawfulREq.symm _ _ ha.2.2.2.2.2.2.2.1 hb.2.2.2.2.2.2.2.1 h.2.2.2.2.2.2.2.1,
    LawfulREq.symm _ _ ha.2.2.2.2.2.2.2.2.1 hb.2.2.2.2.2.2.2.2.1 h.2.2.2.2.2.2.2.2.1,
    LawfulREq.symm _ _ ha.2.2.2.2.2.2.2.2.2 hb.2.2.2.2.2.2.2.2.2 h.2.2.2.2.2.2.2.2.2⟩
  trans a b c ha hb hc h h' := by
    rw [Open.req_iff] at h h' ⊢
    exact ⟨LawfulREq.trans _ _ _ ha.1 hb.1 hc.1 h.1 h'.1,
    LawfulREq.trans _ _ _ ha.2.1 hb.2.1 hc.2.1 h.2.1 h'.2.1,
    LawfulREq.trans _ _ _ ha.2.2.1 hb.2.2.1 hc.2.2.1 h.2.2.1 h'.2.2.1,
    LawfulREq.trans _ _ _ ha.2.2.2.1 hb.2.2.2.1 hc.2.2.2.1 h.2.2.2.1 h'.2.2.2.1,
    LawfulREq.trans _ _ _ ha.2.2.2.2.1 hb.2.2.2.2.1 hc.2.2.2.2.1 h.2.2.2.2.1 h'.2.2.2.2.1,
    LawfulREq.trans _ _ _ ha.2.2.2.2.2.1 hb.2.2.2.2.2.1 hc.2.2.2.2.2.1 h.2.2.2.2.2.1 h'.2.2.2.2.2.1,
    LawfulREq.trans _ _ _ ha.2.2.2.2.2.2.1 hb.2.2.2.2.2.2.1 hc.2.2.2.2.2.2.1 h.2.2.2.2.2.2.1 h'.2.2.2.2.2.2.1,
    LawfulREq.trans _ _ _ ha.2.2.2.2.2.2.2.1 hb.2.2.2.2.2.2.2.1 hc.2.2.2.2.2.2.2.1 h.2.2.2.2.2.2.2.1 h'.2.2.2.2.2.2.2.1,
    LawfulREq.trans _ _ _ ha.2.2.2.2.2.2.2.2.1 hb.2.2.2.2.2.2.2.2.1 hc.2.2.2.2.2.2.2.2.1 h.2.2.2.2.2.2.2.2.1 h'.2.2.2.2.2.2.2.2.1,
    LawfulREq.trans _ _ _ ha.2.2.2.2.2.2.2.2.2 hb.2.2.2.2.2.2.2.2.2 hc.2.2.2.2.2.2.2.2.2 h.2.2.2.2.2.2.2.2.2 h'.2.2.2.2.2.2.2.2.2⟩
instance : SizeREq Open where
  size_eq a b ha hb h := by
    rw [Open.req_iff] at h
    show listSize (size a.container_id + size a.hostname + size a.max_frame_size + size a.channel_max + size a.idle_time_out + size a.outgoing_locales + size a.incoming_locales + size a.offered_capabilities + size a.desired_capabilities + size a.properties) = listSize (size b.container_id + size b.hostname + size b.max_frame_size + size b.channel_max + size b.idle_time_out + size b.outgoing_locales + size b.incoming_locales + size b.offered_capabilities + size b.desired_capabilities + size b.properties)
    rw [SizeREq.size_eq a.container_id b.container_id ha.1 hb.1 h.1,
      SizeREq.size_eq a.hostname b.hostname ha.2.1 hb.2.1 h.2.1,
      SizeREq.size_eq a.max_frame_size b.max_frame_size ha.2.2.1 hb.2.2.1 h.2.2.1,
      SizeREq.size_eq a.channel_max b.channel_max ha.2.2.2.1 hb.2.2.2.1 h.2.2.2.1,
      SizeREq.size_eq a.idle_time_out b.idle_time_out ha.2.2.2.2.1 hb.2.2.2.2.1 h.2.2.2.2.1,
      SizeREq.size_eq a.outgoing_locales b.outgoing_locales ha.2.2.2.2.2.1 hb.2.2.2.2.2.1 h.2.2.2.2.2.1,
      SizeREq.size_eq a.incoming_locales b.incoming_locales ha.2.2.2.2.2.2.1 hb.2.2.2.2.2.2.1 h.2.2.2.2.2.2.1,
      SizeREq.size_eq a.offered_capabilities b.offered_capabilities ha.2.2.2.2.2.2.2.1 hb.2.2.2.2.2.2.2.1 h.2.2.2.2.2.2.2.1,
      SizeREq.size_eq a.desired_capabilities b.desired_capabilities ha.2.2.2.2.2.2.2.2.1 hb.2.2.2.2.2.2.2.2.1 h.2.2.2.2.2.2.2.2.1,
      SizeREq.size_eq a.properties b.properties ha.2.2.2.2.2.2.2.2.2 hb.2.2.2.2.2.2.2.2.2 h.2.2.2.2.2.2.2.2.2]

theorem Begin.req_iff (a b : Begin) : req a b = true ↔
    req a.remote_channel b.remote_channel = true ∧ req a.next_outgoing_id b.next_outgoing_id = true ∧ req a.incoming_window b.incoming_window = true ∧ req a.outgoing_window b.outgoing_window = true ∧ req a.handle_max b.handle_max = true ∧ req a.offered_capabilities b.offered_capabilities = true ∧ req a.desired_capabilities b.desired_capabilities = true ∧ req a.properties b.properties = true := by
  show (req a.remote_channel b.remote_channel && req a.next_outgoing_id b.next_outgoing_id && req a.incoming_window b.incoming_window && req a.outgoing_window b.outgoing_window && req a.handle_max b.handle_max && req a.offered_capabilities b.offered_capabilities && req a.desired_capabilities b.desired_capabilities && req a.properties b.properties) = true ↔ _
  simp only [Bool.and_eq_true, and_assoc]
instance : LawfulREq Begin where
  refl a h := (Begin.req_iff _ _).2 (⟨LawfulREq.refl _ h.1,
    LawfulREq.refl _ h.2.1,
    LawfulREq.refl _ h.2.2.1,
    LawfulREq.refl _ h.2.2.2.1,
    LawfulREq.refl _ h.2.2.2.2.1,
    LawfulREq.refl _ h.2.2.2.2.2.1,
    LawfulREq.refl _ h.2.2.2.2.2.2.1,
    LawfulREq.refl _ h.2.2.2.2.2.2.2⟩)
  symm a b ha hb h := by
    rw [Begin.req_iff] at h ⊢
    exact ⟨LawfulREq.symm _ _ ha.1 hb.1 h.1,
    LawfulREq.symm _ _ ha.2.1 hb.2.1 h.2.1,
    LawfulREq.symm _ _ ha.2.2.1 hb.2.2.1 h.2.2.1,
    LawfulREq.symm _ _ ha.2.2.2.1 hb.2.2.2.1 h.2.2.2.1,
    LawfulREq.symm _ _ ha.2.2.2.2.1 hb.2.2.2.2.1 h.2.2.2.2.1,
    LawfulREq.symm _ _ ha.2.2.2.2.2.1 hb.2.2.2.2.2.1 h.2.2.2.2.2.1,
    LawfulREq.symm _ _ ha.2.2.2.2.2.2.1 hb.2.2.2.2.2.2.1 h.2.2.2.2.2.2.1,
    LawfulREq.symm _ _ ha.2.2.2.2.2.2.2 hb.2.2.2.2.2.2.2 h.2.2.2.2.2.2.2⟩
  trans a b c ha hb hc h h' := by
    rw [Begin.req_iff] at h h' ⊢
    exact ⟨LawfulREq.trans _ _ _ ha.1 hb.1 hc.1 h.1 h'.1,
    LawfulREq.trans _ _ _ ha.2.1 hb.2.1 hc.2.1 h.2.1 h'.2.1,
    LawfulREq.trans _ _ _ ha.2.2.1 hb.2.2.1 hc.2.2.1 h.2.2.1 h'.2.2.1,
    LawfulREq.trans _ _ _ ha.2.2.2.1 hb.2.2.2.1 hc.2.2.2.1 h.2.2.2.1 h'.2.2.2.1,
    LawfulREq.trans _ _ _ ha.2.2.2.2.1 hb.2.2.2.2.1 hc.2.2.2.2.1 h.2.2.2.2.1 h'.2.2.2.2.1,
    LawfulREq.trans _ _ _ ha.2.2.2.2.2.1 hb.2.2.2.2.2.1 hc.2.2.2.2.2.1 h.2.2.2.2.2.1 h'.2.2.2.2.2.1,
    LawfulREq.trans _ _ _ ha.2.2.2.2.2.2.1 hb.2.2.2.2.2.2.1 hc.2.2.2.2.2.2.1 h.2.2.2.2.2.2.1 h'.2.2.2.2.2.2.1,
    LawfulREq.trans _ _ _ ha.2.2.2.2.2.2.2 hb.2.2.2.2.2.2.2 hc.2.2.2.2.2.2.2 h.2.2.2.2.2.2.2 h'.2.2.2.2.2.2.2⟩
instance : SizeREq Begin where
  size_eq a b ha hb h := by
    rw [Begin.req_iff] at h
    show listSize (size a.remote_channel + size a.next_outgoing_id + size a.incoming_window + size a.outgoing_window + size a.handle_max + size a.offered_capabilities + size a.desired_capabilities + size a.properties) = listSize (size b.remote_channel + size b.next_outgoing_id + size b.incoming_window + size b.outgoing_window + size b.handle_max + size b.offered_capabilities + size b.desired_capabilities + size b.properties)
    rw [SizeREq.size_eq a.remote_channel b.remote_channel ha.1 hb.1 h.1,
      SizeREq.size_eq a.next_outgoing_id b.next_outgoing_id ha.2.1 hb.2.1 h.2.1,
      SizeREq.size_eq a.incoming_window b.incoming_window ha.2.2.1 hb.2.2.1 h.2.2.1,
      SizeREq.size_eq a.outgoing_window b.outgoing_window ha.2.2.2.1 hb.2.2.2.1 h.2.2.2.1,
      SizeREq.size_eq a.handle_max b.handle_max ha.2.2.2.2.1 hb.2.2.2.2.1 h.2.2.2.2.1,
      SizeREq.size_eq a.offered_capabilities b.offered_capabilities ha.2.2.2.2.2.1 hb.2.2.2.2.2.1 h.2.2.2.2.2.1,
      SizeREq.size_eq a.desired_capabilities b.desired_capabilities ha.2.2.2.2.2.2.1 hb.2.2.2.2.2.2.1 h.2.2.2.2.2.2.1,
      SizeREq.size_eq a.properties b.properties ha.2.2.2.2.2.2.2 hb.2.2.2.2.2.2.2 h.2.2.2.2.2.2.2]

instance : LawfulREq Accepted := ⟨fun _ _ => rfl, fun _ _ _ _ _ => rfl, fun _ _ _ _ _ _ _ _ => rfl⟩
instance : SizeREq Accepted := ⟨fun _ _ _ _ _ => rfl⟩

theorem Rejected.req_iff (a b : Rejected) : req a b = true ↔
    req a.error b.error = true := by
  show (req a.error b.error) = true ↔ _
  simp only [Bool.and_eq_true, and_assoc]
instance : LawfulREq Rejected where
  refl a h := (Rejected.req_iff _ _).2 (LawfulREq.refl _ h)
  symm a b ha hb h := by
    rw [Rejected.req_iff] at h ⊢
    exact LawfulREq.symm _ _ ha hb h
  trans a b c ha hb hc h h' := by
    rw [Rejected.req_iff] at h h' ⊢
    exact LawfulREq.trans _ _ _ ha hb hc h h'
instance : SizeREq Rejected where
  size_eq a b ha hb h := by
    rw [Rejected.req_iff] at h
    show listSize (size a.error) = listSize (size b.error)
    rw [SizeREq.size_eq a.error b.error ha hb h]

instance : LawfulREq Released := ⟨fun _ _ => rfl, fun _ _ _ _ _ => rfl, fun _ _ _ _ _ _ _ _ => rfl⟩
instance : SizeREq Released := ⟨fun _ _ _ _ _ => rfl⟩

theorem Modified.req_iff (a b : Modified) : req a b = true ↔
    req a.delivery_failed b.delivery_failed = true ∧ req a.undeliverable_here b.undeliverable_here = true ∧ req a.message_annotations b.message_annotations = true := by
  show (req a.delivery_failed b.delivery_failed && req a.undeliverable_here b.undeliverable_here && req a.message_annotations b.message_annotations) = true ↔ _
  simp only [Bool.and_eq_true, and_assoc]
instance : LawfulREq Modified where
  refl a h := (Modified.req_iff _ _).2 (⟨LawfulREq.refl _ h.1,
    LawfulREq.refl _ h.2.1,
    LawfulREq.refl _ h.2.2⟩)
  symm a b ha hb h := by
    rw [Modified.req_iff] at h ⊢
    exact ⟨LawfulREq.symm _ _ ha.1 hb.1 h.1,
    LawfulREq.symm _ _ ha.2.1 hb.2.1 h.2.1,
    LawfulREq.symm _ _ ha.2.2 hb.2.2 h.2.2⟩
  trans a b c ha hb hc h h' := by
    rw [Modified.req_iff] at h h' ⊢
    exact ⟨LawfulREq.trans _ _ _ ha.1 hb.1 hc.1 h.1 h'.1,
    LawfulREq.trans _ _ _ ha.2.1 hb.2.1 hc.2.1 h.2.1 h'.2.1,
    LawfulREq.trans _ _ _ ha.2.2 hb.2.2 hc.2.2 h.2.2 h'.2.2⟩
instance : SizeREq Modified where
  size_eq a b ha hb h := by
    rw [Modified.req_iff] at h
    show listSize (size a.delivery_failed + size a.undeliverable_here + size a.message_annotations) = listSize (size b.delivery_failed + size b.undeliverable_here + size b.message_annotations)
    rw [SizeREq.size_eq a.delivery_failed b.delivery_failed ha.1 hb.1 h.1,
      SizeREq.size_eq a.undeliverable_here b.undeliverable_here ha.2.1 hb.2.1 h.2.1,
      SizeREq.size_eq a.message_annotations b.message_annotations ha.2.2 hb.2.2 h.2.2]

instance : LawfulREq Outcome where
  refl a h := by
    cases a with
    | Accepted a => exact LawfulREq.refl a h
    | Rejected a => exact LawfulREq.refl a h
    | Released a => exact LawfulREq.refl a h
    | Modified a => exact LawfulREq.refl a h
  symm a b ha hb h := by
    cases a with
    | Accepted a => cases b with
      | Accepted b => exact LawfulREq.symm a b ha hb h
      | _ => exact Bool.noConfusion h
    | Rejected a => cases b with
      | Rejected b => exact LawfulREq.symm a b ha hb h
      | _ => exact Bool.noConfusion h
    | Released a => cases b with
      | Released b => exact LawfulREq.symm a b ha hb h
      | _ => exact Bool.noConfusion h
    | Modified a => cases b with
      | Modified b => exact LawfulREq.symm a b ha hb h
      | _ => exact Bool.noConfusion h
  trans a b c ha hb hc h h' := by
    cases a with
    | Accepted a => cases b with
      | Accepted b => cases c with
        | Accepted c => exact LawfulREq.trans a b c ha hb hc h h'
        | _ => exact Bool.noConfusion h'
      | _ => exact Bool.noConfusion h
    | Rejected a => cases b with
      | Rejected b => cases c with
        | Rejected c => exact LawfulREq.trans a b c ha hb hc h h'
        | _ => exact Bool.noConfusion h'
      | _ => exact Bool.noConfusion h
    | Released a => cases b with
      | Released b => cases c with
        | Released c => exact LawfulREq.trans a b c ha hb hc h h'
        | _ => exact Bool.noConfusion h'
      | _ => exact Bool.noConfusion h
    | Modified a => cases b with
      | Modified b => cases c with
        | Modified c => exact LawfulREq.trans a b c ha hb hc h h'
        | _ => exact Bool.noConfusion h'
      | _ => exact Bool.noConfusion h
instance : SizeREq Outcome where
  size_eq a b ha hb h := by
    cases a with
    | Accepted a => cases b with
      | Accepted b => exact SizeREq.size_eq a b ha hb h
      | _ => exact Bool.noConfusion h
    | Rejected a => cases b with
      | Rejected b => exact SizeREq.size_eq a b ha hb h
      | _ => exact Bool.noConfusion h
    | Released a => cases b with
      | Released b => exact SizeREq.size_eq a b ha hb h
      | _ => exact Bool.noConfusion h
    | Modified a => cases b with
      | Modified b => exact SizeREq.size_eq a b ha hb h
      | _ => exact Bool.noConfusion h

theorem Source.req_iff (a b : Source) : req a b = true ↔
    req a.address b.address = true ∧ req a.durable b.durable = true ∧ req a.expiry_policy b.expiry_policy = true ∧ req a.timeout b.timeout = true ∧ req a.dynamic b.dynamic = true ∧ req a.dynamic_node_properties b.dynamic_node_properties = true ∧ req a.distribution_mode b.distribution_mode = true ∧ req a.filter b.filter = true ∧ req a.default_outcome b.default_outcome = true ∧ req a.outcomes b.outcomes = true ∧ req a.capabilities b.capabilities = true := by
  show (req a.address b.address && req a.durable b.durable && req a.expiry_policy b.expiry_policy && req a.timeout b.timeout && req a.dynamic b.dynamic && req a.dynamic_node_properties b.dynamic_node_properties && req a.distribution_mode b.distribution_mode && req a.filter b.filter && req a.default_outcome b.default_outcome && req a.outcomes b.outcomes && req a.capabilities b.capabilities) = true ↔ _
  simp only [Bool.and_eq_true, and_assoc]
instance : LawfulREq Source where
  refl a h := (Source.req_iff _ _).2 (⟨LawfulREq.refl _ h.1,
    LawfulREq.refl _ h.2.1,
    LawfulREq.refl _ h.2.2.1,
    LawfulREq.refl _ h.2.2.2.1,
    LawfulREq.refl _ h.2.2.2.2.1,
    LawfulREq.refl _ h.2.2.2.2.2.1,
    LawfulREq.refl _ h.2.2.2.2.2.2.1,
    LawfulREq.refl _ h.2.2.2.2.2.2.2.1,
    LawfulREq.refl _ h.2.2.2.2.2.2.2.2.1,
    LawfulREq.refl _ h.2.2.2.2.2.2.2.2.2.1,
    LawfulREq.refl _ h.2.2.2.2.2.2.2.2.2.2⟩)
  symm a b ha hb h := by
    rw [Source.req_iff] at h ⊢
    exact ⟨LawfulREq.symm _ _ ha.1 hb.1 h.1,
    LawfulREq.symm _ _ ha.2.1 hb.2.1 h.2.1,
    LawfulREq.symm _ _ ha.2.2.1 hb.2.2.1 h.2.2.1,
    LawfulREq.symm _ _ ha.2.2.2.1 hb.2.2.2.1 h.2.2.2.1,
    LawfulREq.symm _ _ ha.2.2.2.2.1 hb.2.2.2.2.1 h.2.2.2.2.1,
    LawfulREq.symm _ _ ha.2.2.2.2.2.1 hb.2.2.2.2.2.1 h.2.2.2.2.2.1,
    LawfulREq.symm _ _ ha.2.2.2.2.2.2.1 hb.2.2.2.2.2.2.1 h.2.2.2.2.2.2.1,
    LawfulREq.symm _ _ ha.2.2.2.2.2.2.2.1 hb.2.2.2.2.2.2.2.1 h.2.2.2.2.2.2.2.1,
    LawfulREq.symm _ _ ha.2.2.2.2.2.2.2.2.1 hb.2.2.2.2.2.2.2.2.1 h.2.2.2.2.2.2.2.2.1,
    LawfulREq.symm _ _ ha.2.2.2.2.2.2.2.2.2.1 hb.2.2.2.2.2.2.2.2.2.1 h.2.2.2.2.2.2.2.2.2.1,
    LawfulREq.symm _ _ ha.2.2.2.2.2.2.2.2.2.2 hb.2.2.2.2.2.2.2.2.2.2 h.2.2.2.2.2.2.2.2.2.2⟩
  trans a b c ha hb hc h h' := by
    rw [Source.req_iff] at h h' ⊢
    exact ⟨LawfulREq.trans _ _ _ ha.1 hb.1 hc.1 h.1 h'.1,
    LawfulREq.trans _ _ _ ha.2.1 hb.2.1 hc.2.1 h.2.1 h'.2.1,
    LawfulREq.trans _ _ _ ha.2.2.1 hb.2.2.1 hc.2.2.1 h.2.2.1 h'.2.2.1,
    LawfulREq.trans _ _ _ ha.2.2.2.1 hb.2.2.2.1 hc.2.2.2.1 h.2.2.2.1 h'.2.2.2.1,
    LawfulREq.trans _ _ _ ha.2.2.2.2.1 hb.2.2.2.2.1 hc.2.2.2.2.1 h.2.2.2.2.1 h'.2.2.2.2.1,
    LawfulREq.trans _ _ _ ha.2.2.2.2.2.1 hb.2.2.2.2.2.1 hc.2.2.2.2.2.1 h.2.2.2.2.2.1 h'.2.2.2.2.2.1,
    LawfulREq.trans _ _ _ ha.2.2.2.2.2.2.1 hb.2.2.2.2.2.2.1 hc.2.2.2.2.2.2.1 h.2.2.2.2.2.2.1 h'.2.2.2.2.2.2.1,
    LawfulREq.trans _ _ _ ha.2.2.2.2.2.2.2.1 hb.2.2.2.2.2.2.2.1 hc.2.2.2.2.2.2.2.1 h.2.2.2.2.2.2.2.1 h'.2.2.2.2.2.2.2.1,
    LawfulREq.trans _ _ _ ha.2.2.2.2.2.2.2.2.1 hb.2.2.2.2.2.2.2.2.1 hc.2.2.2.2.2.2.2.2.1 h.2.2.2.2.2.2.2.2.1 h'.2.2.2.2.2.2.2.2.1,
    LawfulREq.trans _ _ _ ha.2.2.2.2.2.2.2.2.2.1 hb.2.2.2.2.2.2.2.2.2.1 hc.2.2.2.2.2.2.2.2.2.1 h.2.2.2.2.2.2.2.2.2.1 h'.2.2.2.2.2.2.2.2.2.1,
    LawfulREq.trans _ _ _ ha.2.2.2.2.2.2.2.2.2.2 hb.2.2.2.2.2.2.2.2.2.2 hc.2.2.2.2.2.2.2.2.2.2 h.2.2.2.2.2.2.2.2.2.2 h'.2.2.2.2.2.2.2.2.2.2⟩
instance : SizeREq Source where
  size_eq a b ha hb h := by
    rw [Source.req_iff] at h
    show listSize (size a.address + size a.durable + size a.expiry_policy + size a.timeout + size a.dynamic + size a.dynamic_node_properties + size a.distribution_mode + size a.filter + size a.default_outcome + size a.outcomes + size a.capabilities) = listSize (size b.address + size b.durable + size b.expiry_policy + size b.timeout + size b.dynamic + size b.dynamic_node_properties + size b.distribution_mode + size b.filter + size b.default_outcome + size b.outcomes + size b.capabilities)
    rw [SizeREq.size_eq a.address b.address ha.1 hb.1 h.1,
      SizeREq.size_eq a.durable b.durable ha.2.1 hb.2.1 h.2.1,
      SizeREq.size_eq a.expiry_policy b.expiry_policy ha.2.2.1 hb.2.2.1 h.2.2.1,
      SizeREq.size_eq a.timeout b.timeout ha.2.2.2.1 hb.2.2.2.1 h.2.2.2.1,
      SizeREq.size_eq a.dynamic b.dynamic ha.2.2.2.2.1 hb.2.2.2.2.1 h.2.2.2.2.1,
      SizeREq.size_eq a.dynamic_node_properties b.dynamic_node_properties ha.2.2.2.2.2.1 hb.2.2.2.2.2.1 h.2.2.2.2.2.1,
      SizeREq.size_eq a.distribution_mode b.distribution_mode ha.2.2.2.2.2.2.1 hb.2.2.2.2.2.2.1 h.2.2.2.2.2.2.1,
      SizeREq.size_eq a.filter b.filter ha.2.2.2.2.2.2.2.1 hb.2.2.2.2.2.2.2.1 h.2.2.2.2.2.2.2.1,
      SizeREq.size_eq a.default_outcome b.default_outcome ha.2.2.2.2.2.2.2.2.1 hb.2.2.2.2.2.2.2.2.1 h.2.2.2.2.2.2.2.2.1,
      SizeREq.size_eq a.outcomes b.outcomes ha.2.2.2.2.2.2.2.2.2.1 hb.2.2.2.2.2.2.2.2.2.1 h.2.2.2.2.2.2.2.2.2.1,
      SizeREq.size_eq a.capabilities b.capabilities ha.2.2.2.2.2.2.2.2.2.2 hb.2.2.2.2.2.2.2.2.2.2 h.2.2.2.2.2.2.2.2.2.2]

theorem Target.req_iff (a b : Target) : req a b = true ↔
    req a.address b.address = true ∧ req a.durable b.durable = true ∧ req a.expiry_policy b.expiry_policy = true ∧ req a.timeout b.timeout = true ∧ req a.dynamic b.dynamic = true ∧ req a.dynamic_node_properties b.dynamic_node_properties = true ∧ req a.capabilities b.capabilities = true := by
  show (req a.address b.address && req a.durable b.durable && req a.expiry_policy b.expiry_policy && req a.timeout b.timeout && req a.dynamic b.dynamic && req a.dynamic_node_properties b.dynamic_node_properties && req a.capabilities b.capabilities) = true ↔ _
  simp only [Bool.and_eq_true, and_assoc]
instance : LawfulREq Target where
  refl a h := (Target.req_iff _ _).2 (⟨LawfulREq.refl _ h.1,
    LawfulREq.refl _ h.2.1,
    LawfulREq.refl _ h.2.2.1,
    LawfulREq.refl _ h.2.2.2.1,
    LawfulREq.refl _ h.2.2.2.2.1,
    LawfulREq.refl _ h.2.2.2.2.2.1,
    LawfulREq.refl _ h.2.2.2.2.2.2⟩)
  symm a b ha hb h := by
    rw [Target.req_iff] at h ⊢
    exact ⟨LawfulREq.symm _ _ ha.1 hb.1 h.1,
    LawfulREq.symm _ _ ha.2.1 hb.2.1 h.2.1,
    LawfulREq.symm _ _ ha.2.2.1 hb.2.2.1 h.2.2.1,
    LawfulREq.symm _ _ ha.2.2.2.1 hb.2.2.2.1 h.2.2.2.1,
    LawfulREq.symm _ _ ha.2.2.2.2.1 hb.2.2.2.2.1 h.2.2.2.2.1,
    LawfulREq.symm _ _ ha.2.2.2.2.2.1 hb.2.2.2.2.2.1 h.2.2.2.2.2.1,
    LawfulREq.symm _ _ ha.2.2.2.2.2.2 hb.2.2.2.2.2.2 h.2.2.2.2.2.2⟩
  trans a b c ha hb hc h h' := by
    rw [Target.req_iff] at h h' ⊢
    exact ⟨LawfulREq.trans _ _ _ ha.1 hb.1 hc.1 h.1 h'.1,
    LawfulREq.trans _ _ _ ha.2.1 hb.2.1 hc.2.1 h.2.1 h'.2.1,
    LawfulREq.trans _ _ _ ha.2.2.1 hb.2.2.1 hc.2.2.1 h.2.2.1 h'.2.2.1,
    LawfulREq.trans _ _ _ ha.2.2.2.1 hb.2.2.2.1 hc.2.2.2.1 h.2.2.2.1 h'.2.2.2.1,
    LawfulREq.trans _ _ _ ha.2.2.2.2.1 hb.2.2.2.2.1 hc.2.2.2.2.1 h.2.2.2.2.1 h'.2.2.2.2.1,
    LawfulREq.trans _ _ _ ha.2.2.2.2.2.1 hb.2.2.2.2.2.1 hc.2.2.2.2.2.1 h.2.2.2.2.2.1 h'.2.2.2.2.2.1,
    LawfulREq.trans _ _ _ ha.2.2.2.2.2.2 hb.2.2.2.2.2.2 hc.2.2.2.2.2.2 h.2.2.2.2.2.2 h'.2.2.2.2.2.2⟩
instance : SizeREq Target where
  size_eq a b ha hb h := by
    rw [Target.req_iff] at h
    show listSize (size a.address + size a.durable + size a.expiry_policy + size a.timeout + size a.dynamic + size a.dynamic_node_properties + size a.capabilities) = listSize (size b.address + size b.durable + size b.expiry_policy + size b.timeout + size b.dynamic + size b.dynamic_node_properties + size b.capabilities)
    rw [SizeREq.size_eq a.address b.address ha.1 hb.1 h.1,
      SizeREq.size_eq a.durable b.durable ha.2.1 hb.2.1 h.2.1,
      SizeREq.size_eq a.expiry_policy b.expiry_policy ha.2.2.1 hb.2.2.1 h.2.2.1,
      SizeREq.size_eq a.timeout b.timeout ha.2.2.2.1 hb.2.2.2.1 h.2.2.2.1,
      SizeREq.size_eq a.dynamic b.dynamic ha.2.2.2.2.1 hb.2.2.2.2.1 h.2.2.2.2.1,
      SizeREq.size_eq a.dynamic_node_properties b.dynamic_node_properties ha.2.2.2.2.2.1 hb.2.2.2.2.2.1 h.2.2.2.2.2.1,
      SizeREq.size_eq a.capabilities b.capabilities ha.2.2.2.2.2.2 hb.2.2.2.2.2.2 h.2.2.2.2.2.2]

theorem Attach.req_iff (a b : Attach) : req a b = true ↔
    req a.name b.name = true ∧ req a.handle b.handle = true ∧ req a.role b.role = true ∧ req a.snd_settle_mode b.snd_settle_mode = true ∧ req a.rcv_settle_mode b.rcv_settle_mode = true ∧ req a.source b.source = true ∧ req a.target b.target = true ∧ req a.unsettled b.unsettled = true ∧ req a.incomplete_unsettled b.incomplete_unsettled = true ∧ req a.initial_delivery_count b.initial_delivery_count = true ∧ req a.max_message_size b.max_message_size = true ∧ req a.offered_capabilities b.offered_capabilities = true ∧ req a.desired_capabilities b.desired_capabilities = true ∧ req a.properties b.properties = true := by
  show (req a.name b.name && req a.handle b.handle && req a.role b.role && req a.snd_settle_mode b.snd_settle_mode && req a.rcv_settle_mode b.rcv_settle_mode && req a.source b.source && req a.target b.target && req a.unsettled b.unsettled && req a.incomplete_unsettled b.incomplete_unsettled && req a.initial_delivery_count b.initial_delivery_count && req a.max_message_size b.max_message_size && req a.offered_capabilities b.offered_capabilities && req a.desired_capabilities b.desired_capabilities && req a.properties b.properties) = true ↔ _
  simp only [Bool.and_eq_true, and_assoc]
instance : LawfulREq Attach where
  refl a h := (Attach.req_iff _ _).2 (⟨LawfulREq.refl _ h.1,
    LawfulREq.refl _ h.2.1,
    LawfulREq.refl _ h.2.2.1,
    LawfulREq.refl _ h.2.2.2.1,
    LawfulREq.refl _ h.2.2.2.2.1,
    LawfulREq.refl _ h.2.2.2.2.2.1,
    LawfulREq.refl _ h.2.2.2.2.2.2.1,
    LawfulREq.refl _ h.2.2.2.2.2.2.2.1,
    LawfulREq.refl _ h.2.2.2.2.2.2.2.2.1,
    LawfulREq.refl _ h.2.2.2.2.2.2.2.2.2.1,
    LawfulREq.refl _ h.2.2.2.2.2.2.2.2.2.2.1,
    LawfulREq.refl _ h.2.2.2.2.2.2.2.2.2.2.2.1,
    LawfulREq.refl _ h.2.2.2.2.2.2.2.2.2.2.2.2.1,
    LawfulREq.refl _ h.2.2.2.2.2.2.2.2.2.2.2.2.2⟩)
  symm a b ha hb h := by
    rw [Attach.req_iff] at h ⊢
    exact ⟨LawfulREq.symm _ _ ha.1 hb.1 h.1,
    LawfulREq.symm _ _ ha.2.1 hb.2.1 h.2.1,
    LawfulREq.symm _ _ ha.2.2.1 hb.2.2.1 h.2.2.1,
    LawfulREq.symm _ _ ha.2.2.2.1 hb.2.2.2.1 h.2.2.2.1,
    LawfulREq.symm _ _ ha.2.2.2.2.1 hb.2.2.2.2.1 h.2.2.2.2.1,
    LawfulREq.symm _ _ ha.2.2.2.2.2.1 hb.2.2.2.2.2.1 h.2.2.2.2.2.1,
    LawfulREq.symm _ _ ha.2.2.2.2.2.2.1 hb.2.2.2.2.2.2.1 h.2.2.2.2.2.2.1,
    LawfulREq.symm _ _ ha.2.2.2.2.2.2.2.1 hb.2.2.2.2.2.2.2.1 h.2.2.2.2.2.2.2.1,
    LawfulREq.symm _ _ ha.2.2.2.2.2.2.2.2.1 hb.2.2.2.2.2.2.2.2.1 h.2.2.2.2.2.2.2.2.1,
    LawfulREq.symm _ _ ha.2.2.2.2.2.2.2.2.2.1 hb.2.2.2.2.2.2.2.2.2.1 h.2.2.2.2.2.2.2.2.2.1,
    LawfulREq.symm _ _ ha.2.2.2.2.2.2.2.2.2.2.1 hb.2.2.2.2.2.2.2.2.2.2.1 h.2.2.2.2.2.2.2.2.2.2.1,
    LawfulREq.symm _ _ ha.2.2.2.2.2.2.2.2.2.2.2.1 hb.2.2.2.2.2.2.2.2.2.2.2.1 h.2.2.2.2.2.2.2.2.2.2.2.1,
    LawfulREq.symm _ _ ha.2.2.2.2.2.2.2.2.2.2.2.2.1 hb.2.2.2.2.2.2.2.2.2.2.2.2.1 h.2.2.2.2.2.2.2.2.2.2.2.2.1,
    LawfulREq.symm _ _ ha.2.2.2.2.2.2.2.2.2.2.2.2.2 hb.2.2.2.2.2.2.2.2.2.2.2.2.2 h.2.2.2.2.2.2.2.2.2.2.2.2.2⟩
  trans a b c ha hb hc h h' := by
    rw [Attach.req_iff] at h h' ⊢
    exact ⟨LawfulREq.trans _ _ _ ha.1 hb.1 hc.1 h.1 h'.1,
    LawfulREq.trans _ _ _ ha.2.1 hb.2.1 hc.2.1 h.2.1 h'.2.1,
    LawfulREq.trans _ _ _ ha.2.2.1 hb.2.2.1 hc.2.2.1 h.2.2.1 h'.2.2.1,
    LawfulREq.trans _ _ _ ha.2.2.2.1 hb.2.2.2.1 hc.2.2.2.1 h.2.2.2.1 h'.2.2.2.1,
    LawfulREq.trans _ _ _ ha.2.2.2.2.1 hb.2.2.2.2.1 hc.2.2.2.2.1 h.2.2.2.2.1 h'.2.2.2.2.1,
    LawfulREq.trans _ _ _ ha.2.2.2.2.2.1 hb.2.2.2.2.2.1 hc.2.2.2.2.2.1 h.2.2.2.2.2.1 h'.2.2.2.2.2.1,
    LawfulREq.trans _ _ _ ha.2.2.2.2.2.2.1 hb.2.2.2.2.2.2.1 hc.2.2.2.2.2.2.1 h.2.2.2.2.2.2.1 h'.2.2.2.2.2.2.1,
    LawfulREq.trans _ _ _ ha.2.2.2.2.2.2.2.1 hb.2.2.2.2.2.2.2.1 hc.2.2.2.2.2.2.2.1 h.2.2.2.2.2.2.2.1 h'.2.2.2.2.2.2.2.1,
    LawfulREq.trans _ _ _ ha.2.2.2.2.2.2.2.2.1 hb.2.2.2.2.2.2.2.2.1 hc.2.2.2.2.2.2.2.2.1 h.2.2.2.2.2.2.2.2.1 h'.2.2.2.2.2.2.2.2.1,
    LawfulREq.trans _ _ _ ha.2.2.2.2.2.2.2.2.2.1 hb.2.2.2.2.2.2.2.2.2.1 hc.2.2.2.2.2.2.2.2.2.1 h.2.2.2.2.2.2.2.2.2.1 h'.2.2.2.2.2.2.2.2.2.1,
    LawfulREq.trans _ _ _ ha.2.2.2.2.2.2.2.2.2.2.1 hb.2.2.2.2.2.2.2.2.2.2.1 hc.2.2.2.2.2.2.2.2.2.2.1 h.2.2.2.2.2.2.2.2.2.2.1 h'.2.2.2.2.2.2.2.2.2.2.1,
    LawfulREq.trans _ _ _ ha.2.2.2.2.2.2.2.2.2.2.2.1 hb.2.2.2.2.2.2.2.2.2.2.2.1 hc.2.2.2.2.2.2.2.2.2.2.2.1 h.2.2.2.2.2.2.2.2.2.2.2.1 h'.2.2.2.2.2.2.2.2.2.2.2.1,
    LawfulREq.trans _ _ _ ha.2.2.2.2.2.2.2.2.2.2.2.2.1 hb.2.2.2.2.2.2.2.2.2.2.2.2.1 hc.2.2.2.2.2.2.2.2.2.2.2.2.1 h.2.2.2.2.2.2.2.2.2.2.2.2.1 h'.2.2.2.2.2.2.2.2.2.2.2.2.1,
    LawfulREq.trans _ _ _ ha.2.2.2.2.2.2.2.2.2.2.2.2.2 hb.2.2.2.2.2.2.2.2.2.2.2.2.2 hc.2.2.2.2.2.2.2.2.2.2.2.2.2 h.2.2.2.2.2.2.2.2.2.2.2.2.2 h'.2.2.2.2.2.2.2.2.2.2.2.2.2⟩
instance : SizeREq Attach where
  size_eq a b ha hb h := by
    rw [Attach.req_iff] at h
    show listSize (size a.name + size a.handle + size a.role + size a.snd_settle_mode + size a.rcv_settle_mode + size a.source + size a.target + size a.unsettled + size a.incomplete_unsettled + size a.initial_delivery_count + size a.max_message_size + size a.offered_capabilities + size a.desired_capabilities + size a.properties) = listSize (size b.name + size b.handle + size b.role + size b.snd_settle_mode + size b.rcv_settle_mode + size b.source + size b.target + size b.unsettled + size b.incomplete_unsettled + size b.initial_delivery_count + size b.max_message_size + size b.offered_capabilities + size b.desired_capabilities + size b.properties)
    rw [SizeREq.size_eq a.name b.name ha.1 hb.1 h.1,
      SizeREq.size_eq a.handle b.handle ha.2.1 hb.2.1 h.2.1,
      SizeREq.size_eq a.role b.role ha.2.2.1 hb.2.2.1 h.2.2.1,
      SizeREq.size_eq a.snd_settle_mode b.snd_settle_mode ha.2.2.2.1 hb.2.2.2.1 h.2.2.2.1,
      SizeREq.size_eq a.rcv_settle_mode b.rcv_settle_mode ha.2.2.2.2.1 hb.2.2.2.2.1 h.2.2.2.2.1,
      SizeREq.size_eq a.source b.source ha.2.2.2.2.2.1 hb.2.2.2.2.2.1 h.2.2.2.2.2.1,
      SizeREq.size_eq a.target b.target ha.2.2.2.2.2.2.1 hb.2.2.2.2.2.2.1 h.2.2.2.2.2.2.1,
      SizeREq.size_eq a.unsettled b.unsettled ha.2.2.2.2.2.2.2.1 hb.2.2.2.2.2.2.2.1 h.2.2.2.2.2.2.2.1,
      SizeREq.size_eq a.incomplete_unsettled b.incomplete_unsettled ha.2.2.2.2.2.2.2.2.1 hb.2.2.2.2.2.2.2.2.1 h.2.2.2.2.2.2.2.2.1,
      SizeREq.size_eq a.initial_delivery_count b.initial_delivery_count ha.2.2.2.2.2.2.2.2.2.1 hb.2.2.2.2.2.2.2.2.2.1 h.2.2.2.2.2.2.2.2.2.1,
      SizeREq.size_eq a.max_message_size b.max_message_size ha.2.2.2.2.2.2.2.2.2.2.1 hb.2.2.2.2.2.2.2.2.2.2.1 h.2.2.2.2.2.2.2.2.2.2.1,
      SizeREq.size_eq a.offered_capabilities b.offered_capabilities ha.2.2.2.2.2.2.2.2.2.2.2.1 hb.2.2.2.2.2.2.2.2.2.2.2.1 h.2.2.2.2.2.2.2.2.2.2.2.1,
      SizeREq.size_eq a.desired_capabilities b.desired_capabilities ha.2.2.2.2.2.2.2.2.2.2.2.2.1 hb.2.2.2.2.2.2.2.2.2.2.2.2.1 h.2.2.2.2.2.2.2.2.2.2.2.2.1,
      SizeREq.size_eq a.properties b.properties ha.2.2.2.2.2.2.2.2.2.2.2.2.2 hb.2.2.2.2.2.2.2.2.2.2.2.2.2 h.2.2.2.2.2.2.2.2.2.2.2.2.2]

theorem Flow.req_iff (a b : Flow) : req a b = true ↔
    req a.next_incoming_id b.next_incoming_id = true ∧ req a.incoming_window b.incoming_window = true ∧ req a.next_outgoing_id b.next_outgoing_id = true ∧ req a.outgoing_window b.outgoing_window = true ∧ req a.handle b.handle = true ∧ req a.delivery_count b.delivery_count = true ∧ req a.link_credit b.link_credit = true ∧ req a.available b.available = true ∧ req a.drain b.drain = true ∧ req a.echo b.echo = true ∧ req a.properties b.properties = true := by
  show (req a.next_incoming_id b.next_incoming_id && req a.incoming_window b.incoming_window && req a.next_outgoing_id b.next_outgoing_id && req a.outgoing_window b.outgoing_window && req a.handle b.handle && req a.delivery_count b.delivery_count && req a.link_credit b.link_credit && req a.available b.available && req a.drain b.drain && req a.echo b.echo && req a.properties b.properties) = true ↔ _
  simp only [Bool.and_eq_true, and_assoc]
instance : LawfulREq Flow where
  refl a h := (Flow.req_iff _ _).2 (⟨LawfulREq.refl _ h.1,
    LawfulREq.refl _ h.2.1,
    LawfulREq.refl _ h.2.2.1,
    LawfulREq.refl _ h.2.2.2.1,
    LawfulREq.refl _ h.2.2.2.2.1,
    LawfulREq.refl _ h.2.2.2.2.2.1,
    LawfulREq.refl _ h.2.2.2.2.2.2.1,
    LawfulREq.refl _ h.2.2.2.2.2.2.2.1,
    LawfulREq.refl _ h.2.2.2.2.2.2.2.2.1,
    LawfulREq.refl _ h.2.2.2.2.2.2.2.2.2.1,
    LawfulREq.refl _ h.2.2.2.2.2.2.2.2.2.2⟩)
  symm a b ha hb h := by
    rw [Flow.req_iff] at h ⊢
    exact ⟨LawfulREq.symm _ _ ha.1 hb.1 h.1,
    LawfulREq.symm _ _ ha.2.1 hb.2.1 h.2.1,
    LawfulREq.symm _ _ ha.2.2.1 hb.2.2.1 h.2.2.1,
    LawfulREq.symm _ _ ha.2.2.2.1 hb.2.2.2.1 h.2.2.2.1,
    LawfulREq.symm _ _ ha.2.2.2.2.1 hb.2.2.2.2.1 h.2.2.2.2.1,
    LawfulREq.symm _ _ ha.2.2.2.2.2.1 hb.2.2.2.2.2.1 h.2.2.2.2.2.1,
    LawfulREq.symm _ _ ha.2.2.2.2.2.2.1 hb.2.2.2.2.2.2.1 h.2.2.2.2.2.2.1,
    LawfulREq.symm _ _ ha.2.2.2.2.2.2.2.1 hb.2.2.2.2.2.2.2.1 h.2.2.2.2.2.2.2.1,
    LawfulREq.symm _ _ ha.2.2.2.2.2.2.2.2.1 hb.2.2.2.2.2.2.2.2.1 h.2.2.2.2.2.2.2.2.1,
    LawfulREq.symm _ _ ha.2.2.2.2.2.2.2.2.2.1 hb.2.2.2.2.2.2.2.2.2.1 h.2.2.2.2.2.2.2.2.2.1,
    LawfulREq.symm _ _ ha.2.2.2.2.2.2.2.2.2.2 hb.2.2.2.2.2.2.2.2.2.2 h.2.2.2.2.2.2.2.2.2.2⟩
  trans a b c ha hb hc h h' := by
    rw [Flow.req_iff] at h h' ⊢
    exact ⟨LawfulREq.trans _ _ _ ha.1 hb.1 hc.1 h.1 h'.1,
    LawfulREq.trans _ _ _ ha.2.1 hb.2.1 hc.2.1 h.2.1 h'.2.1,
    LawfulREq.trans _ _ _ ha.2.2.1 hb.2.2.1 hc.2.2.1 h.2.2.1 h'.2.2.1,
    LawfulREq.trans _ _ _ ha.2.2.2.1 hb.2.2.2.1 hc.2.2.2.1 h.2.2.2.1 h'.2.2.2.1,
    LawfulREq.trans _ _ _ ha.2.2.2.2.1 hb.2.2.2.2.1 hc.2.2.2.2.1 h.2.2.2.2.1 h'.2.2.2.2.1,
    LawfulREq.trans _ _ _ ha.2.2.2.2.2.1 hb.2.2.2.2.2.1 hc.2.2.2.2.2.1 h.2.2.2.2.2.1 h'.2.2.2.2.2.1,
    LawfulREq.trans _ _ _ ha.2.2.2.2.2.2.1 hb.2.2.2.2.2.2.1 hc.2.2.2.2.2.2.1 h.2.2.2.2.2.2.1 h'.2.2.2.2.2.2.1,
    LawfulREq.trans _ _ _ ha.2.2.2.2.2.2.2.1 hb.2.2.2.2.2.2.2.1 hc.2.2.2.2.2.2.2.1 h.2.2.2.2.2.2.2.1 h'.2.2.2.2.2.2.2.1,
    LawfulREq.trans _ _ _ ha.2.2.2.2.2.2.2.2.1 hb.2.2.2.2.2.2.2.2.1 hc.2.2.2.2.2.2.2.2.1 h.2.2.2.2.2.2.2.2.1 h'.2.2.2.2.2.2.2.2.1,
    LawfulREq.trans _ _ _ ha.2.2.2.2.2.2.2.2.2.1 hb.2.2.2.2.2.2.2.2.2.1 hc.2.2.2.2.2.2.2.2.2.1 h.2.2.2.2.2.2.2.2.2.1 h'.2.2.2.2.2.2.2.2.2.1,
    LawfulREq.trans _ _ _ ha.2.2.2.2.2.2.2.2.2.2 hb.2.2.2.2.2.2.2.2.2.2 hc.2.2.2.2.2.2.2.2.2.2 h.2.2.2.2.2.2.2.2.2.2 h'.2.2.2.2.2.2.2.2.2.2⟩
instance : SizeREq Flow where
  size_eq a b ha hb h := by
    rw [Flow.req_iff] at h
    show listSize (size a.next_incoming_id + size a.incoming_window + size a.next_outgoing_id + size a.outgoing_window + size a.handle + size a.delivery_count + size a.link_credit + size a.available + size a.drain + size a.echo + size a.properties) = listSize (size b.next_incoming_id + size b.incoming_window + size b.next_outgoing_id + size b.outgoing_window + size b.handle + size b.delivery_count + size b.link_credit + size b.available + size b.drain + size b.echo + size b.properties)
    rw [SizeREq.size_eq a.next_incoming_id b.next_incoming_id ha.1 hb.1 h.1,
      SizeREq.size_eq a.incoming_window b.incoming_window ha.2.1 hb.2.1 h.2.1,
      SizeREq.size_eq a.next_outgoing_id b.next_outgoing_id ha.2.2.1 hb.2.2.1 h.2.2.1,
      SizeREq.size_eq a.outgoing_window b.outgoing_window ha.2.2.2.1 hb.2.2.2.1 h.2.2.2.1,
      SizeREq.size_eq a.handle b.handle ha.2.2.2.2.1 hb.2.2.2.2.1 h.2.2.2.2.1,
      SizeREq.size_eq a.delivery_count b.delivery_count ha.2.2.2.2.2.1 hb.2.2.2.2.2.1 h.2.2.2.2.2.1,
      SizeREq.size_eq a.link_credit b.link_credit ha.2.2.2.2.2.2.1 hb.2.2.2.2.2.2.1 h.2.2.2.2.2.2.1,
      SizeREq.size_eq a.available b.available ha.2.2.2.2.2.2.2.1 hb.2.2.2.2.2.2.2.1 h.2.2.2.2.2.2.2.1,
      SizeREq.size_eq a.drain b.drain ha.2.2.2.2.2.2.2.2.1 hb.2.2.2.2.2.2.2.2.1 h.2.2.2.2.2.2.2.2.1,
      SizeREq.size_eq a.echo b.echo ha.2.2.2.2.2.2.2.2.2.1 hb.2.2.2.2.2.2.2.2.2.1 h.2.2.2.2.2.2.2.2.2.1,
      SizeREq.size_eq a.properties b.properties ha.2.2.2.2.2.2.2.2.2.2 hb.2.2.2.2.2.2.2.2.2.2 h.2.2.2.2.2.2.2.2.2.2]

theorem Received.req_iff (a b : Received) : req a b = true ↔
    req a.section_number b.section_number = true ∧ req a.section_offset b.section_offset = true := by
  show (req a.section_number b.section_number && req a.section_offset b.section_offset) = true ↔ _
  simp only [Bool.and_eq_true, and_assoc]
instance : LawfulREq Received where
  refl a h := (Received.req_iff _ _).2 (⟨LawfulREq.refl _ h.1,
    LawfulREq.refl _ h.2⟩)
  symm a b ha hb h := by
    rw [Received.req_iff] at h ⊢
    exact ⟨LawfulREq.symm _ _ ha.1 hb.1 h.1,
    LawfulREq.symm _ _ ha.2 hb.2 h.2⟩
  trans a b c ha hb hc h h' := by
    rw [Received.req_iff] at h h' ⊢
    exact ⟨LawfulREq.trans _ _ _ ha.1 hb.1 hc.1 h.1 h'.1,
    LawfulREq.trans _ _ _ ha.2 hb.2 hc.2 h.2 h'.2⟩
instance : SizeREq Received where
  size_eq a b ha hb h := by
    rw [Received.req_iff] at h
    show listSize (size a.section_number + size a.section_offset) = listSize (size b.section_number + size b.section_offset)
    rw [SizeREq.size_eq a.section_number b.section_number ha.1 hb.1 h.1,
      SizeREq.size_eq a.section_offset b.section_offset ha.2 hb.2 h.2]

instance : LawfulREq DeliveryState where
  refl a h := by
    cases a with
    | Received a => exact LawfulREq.refl a h
    | Accepted a => exact LawfulREq.refl a h
    | Rejected a => exact LawfulREq.refl a h
    | Released a => exact LawfulREq.refl a h
    | Modified a => exact LawfulREq.refl a h
  symm a b ha hb h := by
    cases a with
    | Received a => cases b with
      | Received b => exact LawfulREq.symm a b ha hb h
      | _ => exact Bool.noConfusion h
    | Accepted a => cases b with
      | Accepted b => exact LawfulREq.symm a b ha hb h
      | _ => exact Bool.noConfusion h
    | Rejected a => cases b with
      | Rejected b => exact LawfulREq.symm a b ha hb h
      | _ => exact Bool.noConfusion h
    | Released a => cases b with
      | Released b => exact LawfulREq.symm a b ha hb h
      | _ => exact Bool.noConfusion h
    | Modified a => cases b with
      | Modified b => exact LawfulREq.symm a b ha hb h
      | _ => exact Bool.noConfusion h
  trans a b c ha hb hc h h' := by
    cases a with
    | Received a => cases b with
      | Received b => cases c with
        | Received c => exact LawfulREq.trans a b c ha hb hc h h'
        | _ => exact Bool.noConfusion h'
      | _ => exact Bool.noConfusion h
    | Accepted a => cases b with
      | Accepted b => cases c with
        | Accepted c => exact LawfulREq.trans a b c ha hb hc h h'
        | _ => exact Bool.noConfusion h'
      | _ => exact Bool.noConfusion h
    | Rejected a => cases b with
      | Rejected b => cases c with
        | Rejected c => exact LawfulREq.trans a b c ha hb hc h h'
        | _ => exact Bool.noConfusion h'
      | _ => exact Bool.noConfusion h
    | Released a => cases b with
      | Released b => cases c with
        | Released c => exact LawfulREq.trans a b c ha hb hc h h'
        | _ => exact Bool.noConfusion h'
      | _ => exact Bool.noConfusion h
    | Modified a => cases b with
      | Modified b => cases c with
        | Modified c => exact LawfulREq.trans a b c ha hb hc h h'
        | _ => exact Bool.noConfusion h'
      | _ => exact Bool.noConfusion h
instance : SizeREq DeliveryState where
  size_eq a b ha hb h := by
    cases a with
    | Received a => cases b with
      | Received b => exact SizeREq.size_eq a b ha hb h
      | _ => exact Bool.noConfusion h
    | Accepted a => cases b with
      | Accepted b => exact SizeREq.size_eq a b ha hb h
      | _ => exact Bool.noConfusion h
    | Rejected a => cases b with
      | Rejected b => exact SizeREq.size_eq a b ha hb h
      | _ => exact Bool.noConfusion h
    | Released a => cases b with
      | Released b => exact SizeREq.size_eq a b ha hb h
      | _ => exact Bool.noConfusion h
    | Modified a => cases b with
      | Modified b => exact SizeREq.size_eq a b ha hb h
      | _ => exact Bool.noConfusion h

theorem TransferPerf.req_iff (a b : TransferPerf) : req a b = true ↔
    req a.handle b.handle = true ∧ req a.delivery_id b.delivery_id = true ∧ req a.delivery_tag b.delivery_tag = true ∧ req a.message_format b.message_format = true ∧ req a.settled b.settled = true ∧ req a.more b.more = true ∧ req a.rcv_settle_mode b.rcv_settle_mode = true ∧ req a.state b.state = true ∧ req a.resume b.resume = true ∧ req a.aborted b.aborted = true ∧ req a.batchable b.batchable = true := by
  show (req a.handle b.handle && req a.delivery_id b.delivery_id && req a.delivery_tag b.delivery_tag && req a.message_format b.message_format && req a.settled b.settled && req a.more b.more && req a.rcv_settle_mode b.rcv_settle_mode && req a.state b.state && req a.resume b.resume && req a.aborted b.aborted && req a.batchable b.batchable) = true ↔ _
  simp only [Bool.and_eq_true, and_assoc]
instance : LawfulREq TransferPerf where
  refl a h := (TransferPerf.req_iff _ _).2 (⟨LawfulREq.refl _ h.1,
    LawfulREq.refl _ h.2.1,
    LawfulREq.refl _ h.2.2.1,
    LawfulREq.refl _ h.2.2.2.1,
    LawfulREq.refl _ h.2.2.2.2.1,
    LawfulREq.refl _ h.2.2.2.2.2.1,
    LawfulREq.refl _ h.2.2.2.2.2.2.1,
    LawfulREq.refl _ h.2.2.2.2.2.2.2.1,
    LawfulREq.refl _ h.2.2.2.2.2.2.2.2.1,
    LawfulREq.refl _ h.2.2.2.2.2.2.2.2.2.1,
    LawfulREq.refl _ h.2.2.2.2.2.2.2.2.2.2⟩)
  symm a b ha hb h := by
    rw [TransferPerf.req_iff] at h ⊢
    exact ⟨LawfulREq.symm _ _ ha.1 hb.1 h.1,
    LawfulREq.symm _ _ ha.2.1 hb.2.1 h.2.1,
    LawfulREq.symm _ _ ha.2.2.1 hb.2.2.1 h.2.2.1,
    LawfulREq.symm _ _ ha.2.2.2.1 hb.2.2.2.1 h.2.2.2.1,
    LawfulREq.symm _ _ ha.2.2.2.2.1 hb.2.2.2.2.1 h.2.2.2.2.1,
    LawfulREq.symm _ _ ha.2.2.2.2.2.1 hb.2.2.2.2.2.1 h.2.2.2.2.2.1,
    LawfulREq.symm _ _ ha.2.2.2.2.2.2.1 hb.2.2.2.2.2.2.1 h.2.2.2.2.2.2.1,
    LawfulREq.symm _ _ ha.2.2.2.2.2.2.2.1 hb.2.2.2.2.2.2.2.1 h.2.2.2.2.2.2.2.1,
    LawfulREq.symm _ _ ha.2.2.2.2.2.2.2.2.1 hb.2.2.2.2.2.2.2.2.1 h.2.2.2.2.2.2.2.2.1,
    LawfulREq.symm _ _ ha.2.2.2.2.2.2.2.2.2.1 hb.2.2.2.2.2.2.2.2.2.1 h.2.2.2.2.2.2.2.2.2.1,
    LawfulREq.symm _ _ ha.2.2.2.2.2.2.2.2.2.2 hb.2.2.2.2.2.2.2.2.2.2 h.2.2.2.2.2.2.2.2.2.2⟩
  trans a b c ha hb hc h h' := by
    rw [TransferPerf.req_iff] at h h' ⊢
    exact ⟨LawfulREq.trans _ _ _ ha.1 hb.1 hc.1 h.1 h'.1,
    LawfulREq.trans _ _ _ ha.2.1 hb.2.1 hc.2.1 h.2.1 h'.2.1,
    LawfulREq.trans _ _ _ ha.2.2.1 hb.2.2.1 hc.2.2.1 h.2.2.1 h'.2.2.1,
    LawfulREq.trans _ _ _ ha.2.2.2.1 hb.2.2.2.1 hc.2.2.2.1 h.2.2.2.1 h'.2.2.2.1,
    LawfulREq.trans _ _ _ ha.2.2.2.2.1 hb.2.2.2.2.1 hc.2.2.2.2.1 h.2.2.2.2.1 h'.2.2.2.2.1,
    LawfulREq.trans _ _ _ ha.2.2.2.2.2.1 hb.2.2.2.2.2.1 hc.2.2.2.2.2.1 h.2.2.2.2.2.1 h'.2.2.2.2.2.1,
    LawfulREq.trans _ _ _ ha.2.2.2.2.2.2.1 hb.2.2.2.2.2.2.1 hc.2.2.2.2.2.2.1 h.2.2.2.2.2.2.1 h'.2.2.2.2.2.2.1,
    LawfulREq.trans _ _ _ ha.2.2.2.2.2.2.2.1 hb.2.2.2.2.2.2.2.1 hc.2.2.2.2.2.2.2.1 h.2.2.2.2.2.2.2.1 h'.2.2.2.2.2.2.2.1,
    LawfulREq.trans _ _ _ ha.2.2.2.2.2.2.2.2.1 hb.2.2.2.2.2.2.2.2.1 hc.2.2.2.2.2.2.2.2.1 h.2.2.2.2.2.2.2.2.1 h'.2.2.2.2.2.2.2.2.1,
    LawfulREq.trans _ _ _ ha.2.2.2.2.2.2.2.2.2.1 hb.2.2.2.2.2.2.2.2.2.1 hc.2.2.2.2.2.2.2.2.2.1 h.2.2.2.2.2.2.2.2.2.1 h'.2.2.2.2.2.2.2.2.2.1,
    LawfulREq.trans _ _ _ ha.2.2.2.2.2.2.2.2.2.2 hb.2.2.2.2.2.2.2.2.2.2 hc.2.2.2.2.2.2.2.2.2.2 h.2.2.2.2.2.2.2.2.2.2 h'.2.2.2.2.2.2.2.2.2.2⟩
instance : SizeREq TransferPerf where
  size_eq a b ha hb h := by
    rw [TransferPerf.req_iff] at h
    show listSize (size a.handle + size a.delivery_id + size a.delivery_tag + size a.message_format + size a.settled + size a.more + size a.rcv_settle_mode + size a.state + size a.resume + size a.aborted + size a.batchable) = listSize (size b.handle + size b.delivery_id + size b.delivery_tag + size b.message_format + size b.settled + size b.more + size b.rcv_settle_mode + size b.state + size b.resume + size b.aborted + size b.batchable)
    rw [SizeREq.size_eq a.handle b.handle ha.1 hb.1 h.1,
      SizeREq.size_eq a.delivery_id b.delivery_id ha.2.1 hb.2.1 h.2.1,
      SizeREq.size_eq a.delivery_tag b.delivery_tag ha.2.2.1 hb.2.2.1 h.2.2.1,
      SizeREq.size_eq a.message_format b.message_format ha.2.2.2.1 hb.2.2.2.1 h.2.2.2.1,
      SizeREq.size_eq a.settled b.settled ha.2.2.2.2.1 hb.2.2.2.2.1 h.2.2.2.2.1,
      SizeREq.size_eq a.more b.more ha.2.2.2.2.2.1 hb.2.2.2.2.2.1 h.2.2.2.2.2.1,
      SizeREq.size_eq a.rcv_settle_mode b.rcv_settle_mode ha.2.2.2.2.2.2.1 hb.2.2.2.2.2.2.1 h.2.2.2.2.2.2.1,
      SizeREq.size_eq a.state b.state ha.2.2.2.2.2.2.2.1 hb.2.2.2.2.2.2.2.1 h.2.2.2.2.2.2.2.1,
      SizeREq.size_eq a.resume b.resume ha.2.2.2.2.2.2.2.2.1 hb.2.2.2.2.2.2.2.2.1 h.2.2.2.2.2.2.2.2.1,
      SizeREq.size_eq a.aborted b.aborted ha.2.2.2.2.2.2.2.2.2.1 hb.2.2.2.2.2.2.2.2.2.1 h.2.2.2.2.2.2.2.2.2.1,
      SizeREq.size_eq a.batchable b.batchable ha.2.2.2.2.2.2.2.2.2.2 hb.2.2.2.2.2.2.2.2.2.2 h.2.2.2.2.2.2.2.2.2.2]

theorem Disposition.req_iff (a b : Disposition) : req a b = true ↔
    req a.role b.role = true ∧ req a.first b.first = true ∧ req a.last b.last = true ∧ req a.settled b.settled = true ∧ req a.state b.state = true ∧ req a.batchable b.batchable = true := by
  show (req a.role b.role && req a.first b.first && req a.last b.last && req a.settled b.settled && req a.state b.state && req a.batchable b.batchable) = true ↔ _
  simp only [Bool.and_eq_true, and_assoc]
instance : LawfulREq Disposition where
  refl a h := (Disposition.req_iff _ _).2 (⟨LawfulREq.refl _ h.1,
    LawfulREq.refl _ h.2.1,
    LawfulREq.refl _ h.2.2.1,
    LawfulREq.refl _ h.2.2.2.1,
    LawfulREq.refl _ h.2.2.2.2.1,
    LawfulREq.refl _ h.2.2.2.2.2⟩)
  symm a b ha hb h := by
    rw [Disposition.req_iff] at h ⊢
    exact ⟨LawfulREq.symm _ _ ha.1 hb.1 h.1,
    LawfulREq.symm _ _ ha.2.1 hb.2.1 h.2.1,
    LawfulREq.symm _ _ ha.2.2.1 hb.2.2.1 h.2.2.1,
    LawfulREq.symm _ _ ha.2.2.2.1 hb.2.2.2.1 h.2.2.2.1,
    LawfulREq.symm _ _ ha.2.2.2.2.1 hb.2.2.2.2.1 h.2.2.2.2.1,
    LawfulREq.symm _ _ ha.2.2.2.2.2 hb.2.2.2.2.2 h.2.2.2.2.2⟩
  trans a b c ha hb hc h h' := by
    rw [Disposition.req_iff] at h h' ⊢
    exact ⟨LawfulREq.trans _ _ _ ha.1 hb.1 hc.1 h.1 h'.1,
    LawfulREq.trans _ _ _ ha.2.1 hb.2.1 hc.2.1 h.2.1 h'.2.1,
    LawfulREq.trans _ _ _ ha.2.2.1 hb.2.2.1 hc.2.2.1 h.2.2.1 h'.2.2.1,
    LawfulREq.trans _ _ _ ha.2.2.2.1 hb.2.2.2.1 hc.2.2.2.1 h.2.2.2.1 h'.2.2.2.1,
    LawfulREq.trans _ _ _ ha.2.2.2.2.1 hb.2.2.2.2.1 hc.2.2.2.2.1 h.2.2.2.2.1 h'.2.2.2.2.1,
    LawfulREq.trans _ _ _ ha.2.2.2.2.2 hb.2.2.2.2.2 hc.2.2.2.2.2 h.2.2.2.2.2 h'.2.2.2.2.2⟩
instance : SizeREq Disposition where
  size_eq a b ha hb h := by
    rw [Disposition.req_iff] at h
    show listSize (size a.role + size a.first + size a.last + size a.settled + size a.state + size a.batchable) = listSize (size b.role + size b.first + size b.last + size b.settled + size b.state + size b.batchable)
    rw [SizeREq.size_eq a.role b.role ha.1 hb.1 h.1,
      SizeREq.size_eq a.first b.first ha.2.1 hb.2.1 h.2.1,
      SizeREq.size_eq a.last b.last ha.2.2.1 hb.2.2.1 h.2.2.1,
      SizeREq.size_eq a.settled b.settled ha.2.2.2.1 hb.2.2.2.1 h.2.2.2.1,
      SizeREq.size_eq a.state b.state ha.2.2.2.2.1 hb.2.2.2.2.1 h.2.2.2.2.1,
      SizeREq.size_eq a.batchable b.batchable ha.2.2.2.2.2 hb.2.2.2.2.2 h.2.2.2.2.2]

theorem Detach.req_iff (a b : Detach) : req a b = true ↔
    req a.handle b.handle = true ∧ req a.closed b.closed = true ∧ req a.error b.error = true := by
  show (req a.handle b.handle && req a.closed b.closed && req a.error b.error) = true ↔ _
  simp only [Bool.and_eq_true, and_assoc]
instance : LawfulREq Detach where
  refl a h := (Detach.req_iff _ _).2 (⟨LawfulREq.refl _ h.1,
    LawfulREq.refl _ h.2.1,
    LawfulREq.refl _ h.2.2⟩)
  symm a b ha hb h := by
    rw [Detach.req_iff] at h ⊢
    exact ⟨LawfulREq.symm _ _ ha.1 hb.1 h.1,
    LawfulREq.symm _ _ ha.2.1 hb.2.1 h.2.1,
    LawfulREq.symm _ _ ha.2.2 hb.2.2 h.2.2⟩
  trans a b c ha hb hc h h' := by
    rw [Detach.req_iff] at h h' ⊢
    exact ⟨LawfulREq.trans _ _ _ ha.1 hb.1 hc.1 h.1 h'.1,
    LawfulREq.trans _ _ _ ha.2.1 hb.2.1 hc.2.1 h.2.1 h'.2.1,
    LawfulREq.trans _ _ _ ha.2.2 hb.2.2 hc.2.2 h.2.2 h'.2.2⟩
instance : SizeREq Detach where
  size_eq a b ha hb h := by
    rw [Detach.req_iff] at h
    show listSize (size a.handle + size a.closed + size a.error) = listSize (size b.handle + size b.closed + size b.error)
    rw [SizeREq.size_eq a.handle b.handle ha.1 hb.1 h.1,
      SizeREq.size_eq a.closed b.closed ha.2.1 hb.2.1 h.2.1,
      SizeREq.size_eq a.error b.error ha.2.2 hb.2.2 h.2.2]

theorem End.req_iff (a b : End) : req a b = true ↔
    req a.error b.error = true := by
  show (req a.error b.error) = true ↔ _
  simp only [Bool.and_eq_true, and_assoc]
instance : LawfulREq End where
  refl a h := (End.req_iff _ _).2 (LawfulREq.refl _ h)
  symm a b ha hb h := by
    rw [End.req_iff] at h ⊢
    exact LawfulREq.symm _ _ ha hb h
  trans a b c ha hb hc h h' := by
    rw [End.req_iff] at h h' ⊢
    exact LawfulREq.trans _ _ _ ha hb hc h h'
instance : SizeREq End where
  size_eq a b ha hb h := by
    rw [End.req_iff] at h
    show listSize (size a.error) = listSize (size b.error)
    rw [SizeREq.size_eq a.error b.error ha hb h]

theorem Close.req_iff (a b : Close) : req a b = true ↔
    req a.error b.error = true := by
  show (req a.error b.error) = true ↔ _
  simp only [Bool.and_eq_true, and_assoc]
instance : LawfulREq Close where
  refl a h := (Close.req_iff _ _).2 (LawfulREq.refl _ h)
  symm a b ha hb h := by
    rw [Close.req_iff] at h ⊢
    exact LawfulREq.symm _ _ ha hb h
  trans a b c ha hb hc h h' := by
    rw [Close.req_iff] at h h' ⊢
    exact LawfulREq.trans _ _ _ ha hb hc h h'
instance : SizeREq Close where
  size_eq a b ha hb h := by
    rw [Close.req_iff] at h
    show listSize (size a.error) = listSize (size b.error)
    rw [SizeREq.size_eq a.error b.error ha hb h]

theorem SaslMechanisms.req_iff (a b : SaslMechanisms) : req a b = true ↔
    req a.sasl_server_mechanisms b.sasl_server_mechanisms = true := by
  show (req a.sasl_server_mechanisms b.sasl_server_mechanisms) = true ↔ _
  simp only [Bool.and_eq_true, and_assoc]
instance : LawfulREq SaslMechanisms where
  refl a h := (SaslMechanisms.req_iff _ _).2 (LawfulREq.refl _ h)
  symm a b ha hb h := by
    rw [SaslMechanisms.req_iff] at h ⊢
    exact LawfulREq.symm _ _ ha hb h
  trans a b c ha hb hc h h' := by
    rw [SaslMechanisms.req_iff] at h h' ⊢
    exact LawfulREq.trans _ _ _ ha hb hc h h'
instance : SizeREq SaslMechanisms where
  size_eq a b ha hb h := by
    rw [SaslMechanisms.req_iff] at h
    show listSize (size a.sasl_server_mechanisms) = listSize (size b.sasl_server_mechanisms)
    rw [SizeREq.size_eq a.sasl_server_mechanisms b.sasl_server_mechanisms ha hb h]

theorem SaslInit.req_iff (a b : SaslInit) : req a b = true ↔
    req a.mechanism b.mechanism = true ∧ req a.initial_response b.initial_response = true ∧ req a.hostname b.hostname = true := by
  show (req a.mechanism b.mechanism && req a.initial_response b.initial_response && req a.hostname b.hostname) = true ↔ _
  simp only [Bool.and_eq_true, and_assoc]
instance : LawfulREq SaslInit where
  refl a h := (SaslInit.req_iff _ _).2 (⟨LawfulREq.refl _ h.1,
    LawfulREq.refl _ h.2.1,
    LawfulREq.refl _ h.2.2⟩)
  symm a b ha hb h := by
    rw [SaslInit.req_iff] at h ⊢
    exact ⟨LawfulREq.symm _ _ ha.1 hb.1 h.1,
    LawfulREq.symm _ _ ha.2.1 hb.2.1 h.2.1,
    LawfulREq.symm _ _ ha.2.2 hb.2.2 h.2.2⟩
  trans a b c ha hb hc h h' := by
    rw [SaslInit.req_iff] at h h' ⊢
    exact ⟨LawfulREq.trans _ _ _ ha.1 hb.1 hc.1 h.1 h'.1,
    LawfulREq.trans _ _ _ ha.2.1 hb.2.1 hc.2.1 h.2.1 h'.2.1,
    LawfulREq.trans _ _ _ ha.2.2 hb.2.2 hc.2.2 h.2.2 h'.2.2⟩
instance : SizeREq SaslInit where
  size_eq a b ha hb h := by
    rw [SaslInit.req_iff] at h
    show listSize (size a.mechanism + size a.initial_response + size a.hostname) = listSize (size b.mechanism + size b.initial_response + size b.hostname)
    rw [SizeREq.size_eq a.mechanism b.mechanism ha.1 hb.1 h.1,
      SizeREq.size_eq a.initial_response b.initial_response ha.2.1 hb.2.1 h.2.1,
      SizeREq.size_eq a.hostname b.hostname ha.2.2 hb.2.2 h.2.2]

theorem SaslChallenge.req_iff (a b : SaslChallenge) : req a b = true ↔
    req a.challenge b.challenge = true := by
  show (req a.challenge b.challenge) = true ↔ _
  simp only [Bool.and_eq_true, and_assoc]
instance : LawfulREq SaslChallenge where
  refl a h := (SaslChallenge.req_iff _ _).2 (LawfulREq.refl _ h)
  symm a b ha hb h := by
    rw [SaslChallenge.req_iff] at h ⊢
    exact LawfulREq.symm _ _ ha hb h
  trans a b c ha hb hc h h' := by
    rw [SaslChallenge.req_iff] at h h' ⊢
    exact LawfulREq.trans _ _ _ ha hb hc h h'
instance : SizeREq SaslChallenge where
  size_eq a b ha hb h := by
    rw [SaslChallenge.req_iff] at h
    show listSize (size a.challenge) = listSize (size b.challenge)
    rw [SizeREq.size_eq a.challenge b.challenge ha hb h]

theorem SaslResponse.req_iff (a b : SaslResponse) : req a b = true ↔
    req a.response b.response = true := by
  show (req a.response b.response) = true ↔ _
  simp only [Bool.and_eq_true, and_assoc]
instance : LawfulREq SaslResponse where
  refl a h := (SaslResponse.req_iff _ _).2 (LawfulREq.refl _ h)
  symm a b ha hb h := by
    rw [SaslResponse.req_iff] at h ⊢
    exact LawfulREq.symm _ _ ha hb h
  trans a b c ha hb hc h h' := by
    rw [SaslResponse.req_iff] at h h' ⊢
    exact LawfulREq.trans _ _ _ ha hb hc h h'
instance : SizeREq SaslResponse where
  size_eq a b ha hb h := by
    rw [SaslResponse.req_iff] at h
    show listSize (size a.response) = listSize (size b.response)
    rw [SizeREq.size_eq a.response b.response ha hb h]

theorem SaslOutcome.req_iff (a b : SaslOutcome) : req a b = true ↔
    req a.code b.code = true ∧ req a.additional_data b.additional_data = true := by
  show (req a.code b.code && req a.additional_data b.additional_data) = true ↔ _
  simp only [Bool.and_eq_true, and_assoc]
instance : LawfulREq SaslOutcome where
  refl a h := (SaslOutcome.req_iff _ _).2 (⟨LawfulREq.refl _ h.1,
    LawfulREq.refl _ h.2⟩)
  symm a b ha hb h := by
    rw [SaslOutcome.req_iff] at h ⊢
    exact ⟨LawfulREq.symm _ _ ha.1 hb.1 h.1,
    LawfulREq.symm _ _ ha.2 hb.2 h.2⟩
  trans a b c ha hb hc h h' := by
    rw [SaslOutcome.req_iff] at h h' ⊢
    exact ⟨LawfulREq.trans _ _ _ ha.1 hb.1 hc.1 h.1 h'.1,
    LawfulREq.trans _ _ _ ha.2 hb.2 hc.2 h.2 h'.2⟩
instance : SizeREq SaslOutcome where
  size_eq a b ha hb h := by
    rw [SaslOutcome.req_iff] at h
    show listSize (size a.code + size a.additional_data) = listSize (size b.code + size b.additional_data)
    rw [SizeREq.size_eq a.code b.code ha.1 hb.1 h.1,
      SizeREq.size_eq a.additional_data b.additional_data ha.2 hb.2 h.2]

theorem Header.req_iff (a b : Header) : req a b = true ↔
    req a.durable b.durable = true ∧ req a.priority b.priority = true ∧ req a.ttl b.ttl = true ∧ req a.first_acquirer b.first_acquirer = true ∧ req a.delivery_count b.delivery_count = true := by
  show (req a.durable b.durable && req a.priority b.priority && req a.ttl b.ttl && req a.first_acquirer b.first_acquirer && req a.delivery_count b.delivery_count) = true ↔ _
  simp only [Bool.and_eq_true, and_assoc]
instance : LawfulREq Header where
  refl a h := (Header.req_iff _ _).2 (⟨LawfulREq.refl _ h.1,
    LawfulREq.refl _ h.2.1,
    LawfulREq.refl _ h.2.2.1,
    LawfulREq.refl _ h.2.2.2.1,
    LawfulREq.refl _ h.2.2.2.2⟩)
  symm a b ha hb h := by
    rw [Header.req_iff] at h ⊢
    exact ⟨LawfulREq.symm _ _ ha.1 hb.1 h.1,
    LawfulREq.symm _ _ ha.2.1 hb.2.1 h.2.1,
    LawfulREq.symm _ _ ha.2.2.1 hb.2.2.1 h.2.2.1,
    LawfulREq.symm _ _ ha.2.2.2.1 hb.2.2.2.1 h.2.2.2.1,
    LawfulREq.symm _ _ ha.2.2.2.2 hb.2.2.2.2 h.2.2.2.2⟩
  trans a b c ha hb hc h h' := by
    rw [Header.req_iff] at h h' ⊢
    exact ⟨LawfulREq.trans _ _ _ ha.1 hb.1 hc.1 h.1 h'.1,
    LawfulREq.trans _ _ _ ha.2.1 hb.2.1 hc.2.1 h.2.1 h'.2.1,
    LawfulREq.trans _ _ _ ha.2.2.1 hb.2.2.1 hc.2.2.1 h.2.2.1 h'.2.2.1,
    LawfulREq.trans _ _ _ ha.2.2.2.1 hb.2.2.2.1 hc.2.2.2.1 h.2.2.2.1 h'.2.2.2.1,
    LawfulREq.trans _ _ _ ha.2.2.2.2 hb.2.2.2.2 hc.2.2.2.2 h.2.2.2.2 h'.2.2.2.2⟩
instance : SizeREq Header where
  size_eq a b ha hb h := by
    rw [Header.req_iff] at h
    show listSize (size a.durable + size a.priority + size a.ttl + size a.first_acquirer + size a.delivery_count) = listSize (size b.durable + size b.priority + size b.ttl + size b.first_acquirer + size b.delivery_count)
    rw [SizeREq.size_eq a.durable b.durable ha.1 hb.1 h.1,
      SizeREq.size_eq a.priority b.priority ha.2.1 hb.2.1 h.2.1,
      SizeREq.size_eq a.ttl b.ttl ha.2.2.1 hb.2.2.1 h.2.2.1,
      SizeREq.size_eq a.first_acquirer b.first_acquirer ha.2.2.2.1 hb.2.2.2.1 h.2.2.2.1,
      SizeREq.size_eq a.delivery_count b.delivery_count ha.2.2.2.2 hb.2.2.2.2 h.2.2.2.2]

theorem Properties.req_iff (a b : Properties) : req a b = true ↔
    req a.message_id b.message_id = true ∧ req a.user_id b.user_id = true ∧ req a.to b.to = true ∧ req a.subject b.subject = true ∧ req a.reply_to b.reply_to = true ∧ req a.correlation_id b.correlation_id = true ∧ req a.content_type b.content_type = true ∧ req a.content_encoding b.content_encoding = true ∧ req a.absolute_expiry_time b.absolute_expiry_time = true ∧ req a.creation_time b.creation_time = true ∧ req a.group_id b.group_id = true ∧ req a.group_sequence b.group_sequence = true ∧ req a.reply_to_group_id b.reply_to_group_id = true := by
  show (req a.message_id b.message_id && req a.user_id b.user_id && req a.to b.to && req a.subject b.subject && req a.reply_to b.reply_to && req a.correlation_id b.correlation_id && req a.content_type b.content_type && req a.content_encoding b.content_encoding && req a.absolute_expiry_time b.absolute_expiry_time && req a.creation_time b.creation_time && req a.group_id b.group_id && req a.group_sequence b.group_sequence && req a.reply_to_group_id b.reply_to_group_id) = true ↔ _
  simp only [Bool.and_eq_true, and_assoc]
instance : LawfulREq Properties where
  refl a h := (Properties.req_iff _ _).2 (⟨LawfulREq.refl _ h.1,
    LawfulREq.refl _ h.2.1,
    LawfulREq.refl _ h.2.2.1,
    LawfulREq.refl _ h.2.2.2.1,
    LawfulREq.refl _ h.2.2.2.2.1,
    LawfulREq.refl _ h.2.2.2.2.2.1,
    LawfulREq.refl _ h.2.2.2.2.2.2.1,
    LawfulREq.refl _ h.2.2.2.2.2.2.2.1,
    LawfulREq.refl _ h.2.2.2.2.2.2.2.2.1,
    LawfulREq.refl _ h.2.2.2.2.2.2.2.2.2.1,
    LawfulREq.refl _ h.2.2.2.2.2.2.2.2.2.2.1,
    LawfulREq.refl _ h.2.2.2.2.2.2.2.2.2.2.2.1,
    LawfulREq.refl _ h.2.2.2.2.2.2.2.2.2.2.2.2⟩)
  symm a b ha hb h := by
    rw [Properties.req_iff] at h ⊢
    exact ⟨LawfulREq.symm _ _ ha.1 hb.1 h.1,
    LawfulREq.symm _ _ ha.2.1 hb.2.1 h.2.1,
    LawfulREq.symm _ _ ha.2.2.1 hb.2.2.1 h.2.2.1,
    LawfulREq.symm _ _ ha.2.2.2.1 hb.2.2.2.1 h.2.2.2.1,
    LawfulREq.symm _ _ ha.2.2.2.2.1 hb.2.2.2.2.1 h.2.2.2.2.1,
    LawfulREq.symm _ _ ha.2.2.2.2.2.1 hb.2.2.2.2.2.1 h.2.2.2.2.2.1,
    LawfulREq.symm _ _ ha.2.2.2.2.2.2.1 hb.2.2.2.2.2.2.1 h.2.2.2.2.2.2.1,
    LawfulREq.symm _ _ ha.2.2.2.2.2.2.2.1 hb.2.2.2.2.2.2.2.1 h.2.2.2.2.2.2.2.1,
    LawfulREq.symm _ _ ha.2.2.2.2.2.2.2.2.1 hb.2.2.2.2.2.2.2.2.1 h.2.2.2.2.2.2.2.2.1,
    LawfulREq.symm _ _ ha.2.2.2.2.2.2.2.2.2.1 hb.2.2.2.2.2.2.2.2.2.1 h.2.2.2.2.2.2.2.2.2.1,
    LawfulREq.symm _ _ ha.2.2.2.2.2.2.2.2.2.2.1 hb.2.2.2.2.2.2.2.2.2.2.1 h.2.2.2.2.2.2.2.2.2.2.1,
    LawfulREq.symm _ _ ha.2.2.2.2.2.2.2.2.2.2.2.1 hb.2.2.2.2.2.2.2.2.2.2.2.1 h.2.2.2.2.2.2.2.2.2.2.2.1,
    LawfulREq.symm _ _ ha.2.2.2.2.2.2.2.2.2.2.2.2 hb.2.2.2.2.2.2.2.2.2.2.2.2 h.2.2.2.2.2.2.2.2.2.2.2.2⟩
  trans a b c ha hb hc h h' := by
    rw [Properties.req_iff] at h h' ⊢
    exact ⟨LawfulREq.trans _ _ _ ha.1 hb.1 hc.1 h.1 h'.1,
    LawfulREq.trans _ _ _ ha.2.1 hb.2.1 hc.2.1 h.2.1 h'.2.1,
    LawfulREq.trans _ _ _ ha.2.2.1 hb.2.2.1 hc.2.2.1 h.2.2.1 h'.2.2.1,
    LawfulREq.trans _ _ _ ha.2.2.2.1 hb.2.2.2.1 hc.2.2.2.1 h.2.2.2.1 h'.2.2.2.1,
    LawfulREq.trans _ _ _ ha.2.2.2.2.1 hb.2.2.2.2.1 hc.2.2.2.2.1 h.2.2.2.2.1 h'.2.2.2.2.1,
    LawfulREq.trans _ _ _ ha.2.2.2.2.2.1 hb.2.2.2.2.2.1 hc.2.2.2.2.2.1 h.2.2.2.2.2.1 h'.2.2.2.2.2.1,
    LawfulREq.trans _ _ _ ha.2.2.2.2.2.2.1 hb.2.2.2.2.2.2.1 hc.2.2.2.2.2.2.1 h.2.2.2.2.2.2.1 h'.2.2.2.2.2.2.1,
    LawfulREq.trans _ _ _ ha.2.2.2.2.2.2.2.1 hb.2.2.2.2.2.2.2.1 hc.2.2.2.2.2.2.2.1 h.2.2.2.2.2.2.2.1 h'.2.2.2.2.2.2.2.1,
    LawfulREq.trans _ _ _ ha.2.2.2.2.2.2.2.2.1 hb.2.2.2.2.2.2.2.2.1 hc.2.2.2.2.2.2.2.2.1 h.2.2.2.2.2.2.2.2.1 h'.2.2.2.2.2.2.2.2.1,
    LawfulREq.trans _ _ _ ha.2.2.2.2.2.2.2.2.2.1 hb.2.2.2.2.2.2.2.2.2.1 hc.2.2.2.2.2.2.2.2.2.1 h.2.2.2.2.2.2.2.2.2.1 h'.2.2.2.2.2.2.2.2.2.1,
    LawfulREq.trans _ _ _ ha.2.2.2.2.2.2.2.2.2.2.1 hb.2.2.2.2.2.2.2.2.2.2.1 hc.2.2.2.2.2.2.2.2.2.2.1 h.2.2.2.2.2.2.2.2.2.2.1 h'.2.2.2.2.2.2.2.2.2.2.1,
    LawfulREq.trans _ _ _ ha.2.2.2.2.2.2.2.2.2.2.2.1 hb.2.2.2.2.2.2.2.2.2.2.2.1 hc.2.2.2.2.2.2.2.2.2.2.2.1 h.2.2.2.2.2.2.2.2.2.2.2.1 h'.2.2.2.2.2.2.2.2.2.2.2.1,
    LawfulREq.trans _ _ _ ha.2.2.2.2.2.2.2.2.2.2.2.2 hb.2.2.2.2.2.2.2.2.2.2.2.2 hc.2.2.2.2.2.2.2.2.2.2.2.2 h.2.2.2.2.2.2.2.2.2.2.2.2 h'.2.2.2.2.2.2.2.2.2.2.2.2⟩
instance : SizeREq Properties where
  size_eq a b ha hb h := by
    rw [Properties.req_iff] at h
    show listSize (size a.message_id + size a.user_id + size a.to + size a.subject + size a.reply_to + size a.correlation_id + size a.content_type + size a.content_encoding + size a.absolute_expiry_time + size a.creation_time + size a.group_id + size a.group_sequence + size a.reply_to_group_id) = listSize (size b.message_id + size b.user_id + size b.to + size b.subject + size b.reply_to + size b.correlation_id + size b.content_type + size b.content_encoding + size b.absolute_expiry_time + size b.creation_time + size b.group_id + size b.group_sequence + size b.reply_to_group_id)
    rw [SizeREq.size_eq a.message_id b.message_id ha.1 hb.1 h.1,
      SizeREq.size_eq a.user_id b.user_id ha.2.1 hb.2.1 h.2.1,
      SizeREq.size_eq a.to b.to ha.2.2.1 hb.2.2.1 h.2.2.1,
      SizeREq.size_eq a.subject b.subject ha.2.2.2.1 hb.2.2.2.1 h.2.2.2.1,
      SizeREq.size_eq a.reply_to b.reply_to ha.2.2.2.2.1 hb.2.2.2.2.1 h.2.2.2.2.1,
      SizeREq.size_eq a.correlation_id b.correlation_id ha.2.2.2.2.2.1 hb.2.2.2.2.2.1 h.2.2.2.2.2.1,
      SizeREq.size_eq a.content_type b.content_type ha.2.2.2.2.2.2.1 hb.2.2.2.2.2.2.1 h.2.2.2.2.2.2.1,
      SizeREq.size_eq a.content_encoding b.content_encoding ha.2.2.2.2.2.2.2.1 hb.2.2.2.2.2.2.2.1 h.2.2.2.2.2.2.2.1,
      SizeREq.size_eq a.absolute_expiry_time b.absolute_expiry_time ha.2.2.2.2.2.2.2.2.1 hb.2.2.2.2.2.2.2.2.1 h.2.2.2.2.2.2.2.2.1,
      SizeREq.size_eq a.creation_time b.creation_time ha.2.2.2.2.2.2.2.2.2.1 hb.2.2.2.2.2.2.2.2.2.1 h.2.2.2.2.2.2.2.2.2.1,
      SizeREq.size_eq a.group_id b.group_id ha.2.2.2.2.2.2.2.2.2.2.1 hb.2.2.2.2.2.2.2.2.2.2.1 h.2.2.2.2.2.2.2.2.2.2.1,
      SizeREq.size_eq a.group_sequence b.group_sequence ha.2.2.2.2.2.2.2.2.2.2.2.1 hb.2.2.2.2.2.2.2.2.2.2.2.1 h.2.2.2.2.2.2.2.2.2.2.2.1,
      SizeREq.size_eq a.reply_to_group_id b.reply_to_group_id ha.2.2.2.2.2.2.2.2.2.2.2.2 hb.2.2.2.2.2.2.2.2.2.2.2.2 h.2.2.2.2.2.2.2.2.2.2.2.2]

instance : LawfulREq SaslFrameBody where
  refl a h := by
    cases a with
    | SaslMechanisms a => exact LawfulREq.refl a h
    | SaslInit a => exact LawfulREq.refl a h
    | SaslChallenge a => exact LawfulREq.refl a h
    | SaslResponse a => exact LawfulREq.refl a h
    | SaslOutcome a => exact LawfulREq.refl a h
  symm a b ha hb h := by
    cases a with
    | SaslMechanisms a => cases b with
      | SaslMechanisms b => exact LawfulREq.symm a b ha hb h
      | _ => exact Bool.noConfusion h
    | SaslInit a => cases b with
      | SaslInit b => exact LawfulREq.symm a b ha hb h
      | _ => exact Bool.noConfusion h
    | SaslChallenge a => cases b with
      | SaslChallenge b => exact LawfulREq.symm a b ha hb h
      | _ => exact Bool.noConfusion h
    | SaslResponse a => cases b with
      | SaslResponse b => exact LawfulREq.symm a b ha hb h
      | _ => exact Bool.noConfusion h
    | SaslOutcome a => cases b with
      | SaslOutcome b => exact LawfulREq.symm a b ha hb h
      | _ => exact Bool.noConfusion h
  trans a b c ha hb hc h h' := by
    cases a with
    | SaslMechanisms a => cases b with
      | SaslMechanisms b => cases c with
        | SaslMechanisms c => exact LawfulREq.trans a b c ha hb hc h h'
        | _ => exact Bool.noConfusion h'
      | _ => exact Bool.noConfusion h
    | SaslInit a => cases b with
      | SaslInit b => cases c with
        | SaslInit c => exact LawfulREq.trans a b c ha hb hc h h'
        | _ => exact Bool.noConfusion h'
      | _ => exact Bool.noConfusion h
    | SaslChallenge a => cases b with
      | SaslChallenge b => cases c with
        | SaslChallenge c => exact LawfulREq.trans a b c ha hb hc h h'
        | _ => exact Bool.noConfusion h'
      | _ => exact Bool.noConfusion h
    | SaslResponse a => cases b with
      | SaslResponse b => cases c with
        | SaslResponse c => exact LawfulREq.trans a b c ha hb hc h h'
        | _ => exact Bool.noConfusion h'
      | _ => exact Bool.noConfusion h
    | SaslOutcome a => cases b with
      | SaslOutcome b => cases c with
        | SaslOutcome c => exact LawfulREq.trans a b c ha hb hc h h'
        | _ => exact Bool.noConfusion h'
      | _ => exact Bool.noConfusion h
instance : SizeREq SaslFrameBody where
  size_eq a b ha hb h := by
    cases a with
    | SaslMechanisms a => cases b with
      | SaslMechanisms b => exact SizeREq.size_eq a b ha hb h
      | _ => exact Bool.noConfusion h
    | SaslInit a => cases b with
      | SaslInit b => exact SizeREq.size_eq a b ha hb h
      | _ => exact Bool.noConfusion h
    | SaslChallenge a => cases b with
      | SaslChallenge b => exact SizeREq.size_eq a b ha hb h
      | _ => exact Bool.noConfusion h
    | SaslResponse a => cases b with
      | SaslResponse b => exact SizeREq.size_eq a b ha hb h
      | _ => exact Bool.noConfusion h
    | SaslOutcome a => cases b with
      | SaslOutcome b => exact SizeREq.size_eq a b ha hb h
      | _ => exact Bool.noConfusion h

instance : LawfulREq Section where
  refl a h := by
    cases a with
    | Header a => exact LawfulREq.refl a h
    | DeliveryAnnotations a => exact LawfulREq.refl a h
    | MessageAnnotations a => exact LawfulREq.refl a h
    | ApplicationProperties a => exact LawfulREq.refl a h
    | Data a => exact LawfulREq.refl a h
    | AmqpSequence a => exact LawfulREq.refl a h
    | AmqpValue a => exact LawfulREq.refl a h
    | Footer a => exact LawfulREq.refl a h
    | Properties a => exact LawfulREq.refl a h
  symm a b ha hb h := by
    cases a with
    | Header a => cases b with
      | Header b => exact LawfulREq.symm a b ha hb h
      | _ => exact Bool.noConfusion h
    | DeliveryAnnotations a => cases b with
      | DeliveryAnnotations b => exact LawfulREq.symm a b ha hb h
      | _ => exact Bool.noConfusion h
    | MessageAnnotations a => cases b with
      | MessageAnnotations b => exact LawfulREq.symm a b ha hb h
      | _ => exact Bool.noConfusion h
    | ApplicationProperties a => cases b with
      | ApplicationProperties b => exact LawfulREq.symm a b ha hb h
      | _ => exact Bool.noConfusion h
    | Data a => cases b with
      | Data b => exact LawfulREq.symm a b ha hb h
      | _ => exact Bool.noConfusion h
    | AmqpSequence a => cases b with
      | AmqpSequence b => exact LawfulREq.symm a b ha hb h
      | _ => exact Bool.noConfusion h
    | AmqpValue a => cases b with
      | AmqpValue b => exact LawfulREq.symm a b ha hb h
      | _ => exact Bool.noConfusion h
    | Footer a => cases b with
      | Footer b => exact LawfulREq.symm a b ha hb h
      | _ => exact Bool.noConfusion h
    | Properties a => cases b with
      | Properties b => exact LawfulREq.symm a b ha hb h
      | _ => exact Bool.noConfusion h
  trans a b c ha hb hc h h' := by
    cases a with
    | Header a => cases b with
      | Header b => cases c with
        | Header c => exact LawfulREq.trans a b c ha hb hc h h'
        | _ => exact Bool.noConfusion h'
      | _ => exact Bool.noConfusion h
    | DeliveryAnnotations a => cases b with
      | DeliveryAnnotations b => cases c with
        | DeliveryAnnotations c => exact LawfulREq.trans a b c ha hb hc h h'
        | _ => exact Bool.noConfusion h'
      | _ => exact Bool.noConfusion h
    | MessageAnnotations a => cases b with
      | MessageAnnotations b => cases c with
        | MessageAnnotations c => exact LawfulREq.trans a b c ha hb hc h h'
        | _ => exact Bool.noConfusion h'
      | _ => exact Bool.noConfusion h
    | ApplicationProperties a => cases b with
      | ApplicationProperties b => cases c with
        | ApplicationProperties c => exact LawfulREq.trans a b c ha hb hc h h'
        | _ => exact Bool.noConfusion h'
      | _ => exact Bool.noConfusion h
    | Data a => cases b with
      | Data b => cases c with
        | Data c => exact LawfulREq.trans a b c ha hb hc h h'
        | _ => exact Bool.noConfusion h'
      | _ => exact Bool.noConfusion h
    | AmqpSequence a => cases b with
      | AmqpSequence b => cases c with
        | AmqpSequence c => exact LawfulREq.trans a b c ha hb hc h h'
        | _ => exact Bool.noConfusion h'
      | _ => exact Bool.noConfusion h
    | AmqpValue a => cases b with
      | AmqpValue b => cases c with
        | AmqpValue c => exact LawfulREq.trans a b c ha hb hc h h'
        | _ => exact Bool.noConfusion h'
      | _ => exact Bool.noConfusion h
    | Footer a => cases b with
      | Footer b => cases c with
        | Footer c => exact LawfulREq.trans a b c ha hb hc h h'
        | _ => exact Bool.noConfusion h'
      | _ => exact Bool.noConfusion h
    | Properties a => cases b with
      | Properties b => cases c with
        | Properties c => exact LawfulREq.trans a b c ha hb hc h h'
        | _ => exact Bool.noConfusion h'
      | _ => exact Bool.noConfusion h
instance : SizeREq Section where
  size_eq a b ha hb h := by
    cases a with
    | Header a => cases b with
      | Header b => exact SizeREq.size_eq a b ha hb h
      | _ => exact Bool.noConfusion h
    | DeliveryAnnotations a => cases b with
      | DeliveryAnnotations b => exact congrArg (3 + ·) (SizeREq.size_eq a b ha hb h)
      | _ => exact Bool.noConfusion h
    | MessageAnnotations a => cases b with
      | MessageAnnotations b => exact congrArg (3 + ·) (SizeREq.size_eq a b ha hb h)
      | _ => exact Bool.noConfusion h
    | ApplicationProperties a => cases b with
      | ApplicationProperties b => exact congrArg (3 + ·) (SizeREq.size_eq a b ha hb h)
      | _ => exact Bool.noConfusion h
    | Data a => cases b with
      | Data b => exact congrArg (3 + ·) (SizeREq.size_eq a b ha hb h)
      | _ => exact Bool.noConfusion h
    | AmqpSequence a => cases b with
      | AmqpSequence b => exact congrArg (3 + ·) (SizeREq.size_eq a b ha hb h)
      | _ => exact Bool.noConfusion h
    | AmqpValue a => cases b with
      | AmqpValue b => exact congrArg (3 + ·) (SizeREq.size_eq a b ha hb h)
      | _ => exact Bool.noConfusion h
    | Footer a => cases b with
      | Footer b => exact congrArg (3 + ·) (SizeREq.size_eq a b ha hb h)
      | _ => exact Bool.noConfusion h
    | Properties a => cases b with
      | Properties b => exact SizeREq.size_eq a b ha hb h
      | _ => exact Bool.noConfusion h

end Amqp
