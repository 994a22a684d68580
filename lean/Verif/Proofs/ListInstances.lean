import Verif.Proofs.ListLaws
import Verif.Proofs.ConditionLaws
import Verif.Protocol.Lists
/-! Generated by `tools/gen_protocol.py`: every list type and described union
satisfies the generic list laws. -/
set_option linter.unusedSimpArgs false
set_option linter.unusedVariables false
namespace Amqp
open Dec

instance : ListType Error where
  code := 29
  name := "amqp:error:list"
  fields := [.req ErrorCondition "condition",
    .opt ByteStr,
    .opt Fields]
  toT v := (v.condition, v.description, v.info, ())
  ofT t := { condition := t.1, description := t.2.1, info := t.2.2.1 }
  ofT_toT _ := rfl
  toT_ofT _ := rfl
  code_pos := by decide
  code_lt := by decide
  inner := Error.decInner
  inner_eq env := by
    simp only [Error.decInner, Error.decFields, getFields, map_bind, map_pure, bind_assoc, pure_bind]
    rfl
  decF_eq _ _ := rfl
  size_eq' v := by
    show listSize _ = _
    simp only [sizeFields, Field.req, Field.opt, Field.dflt, Nat.add_assoc, Nat.add_zero]
  enc_eq' v := by
    show listHdr _ _ _ ++ _ = _
    simp only [sizeFields, encFields, Field.req, Field.opt, Field.dflt, Nat.add_assoc, Nat.add_zero,
      List.append_assoc, List.append_nil, List.length]

instance : HasWf Error := listWf Error
instance : LawfulEnc Error := listLawfulEnc
instance : LawfulDec Error := listLawfulDec
instance : LawfulCodec Error := listLawfulCodec rfl
instance : NonNull Error := listNonNull

instance : ListType Received where
  code := 35
  name := "amqp:received:list"
  fields := [.req UInt32 "section_number",
    .req UInt64 "section_offset"]
  toT v := (v.section_number, v.section_offset, ())
  ofT t := { section_number := t.1, section_offset := t.2.1 }
  ofT_toT _ := rfl
  toT_ofT _ := rfl
  code_pos := by decide
  code_lt := by decide
  inner := Received.decInner
  inner_eq env := by
    simp only [Received.decInner, Received.decFields, getFields, map_bind, map_pure, bind_assoc, pure_bind]
    rfl
  decF_eq _ _ := rfl
  size_eq' v := by
    show listSize _ = _
    simp only [sizeFields, Field.req, Field.opt, Field.dflt, Nat.add_assoc, Nat.add_zero]
  enc_eq' v := by
    show listHdr _ _ _ ++ _ = _
    simp only [sizeFields, encFields, Field.req, Field.opt, Field.dflt, Nat.add_assoc, Nat.add_zero,
      List.append_assoc, List.append_nil, List.length]

instance : HasWf Received := listWf Received
instance : LawfulEnc Received := listLawfulEnc
instance : LawfulDec Received := listLawfulDec
instance : LawfulCodec Received := listLawfulCodec rfl
instance : NonNull Received := listNonNull

instance : ListType Accepted where
  code := 36
  name := "amqp:accepted:list"
  fields := []
  toT _ := ()
  ofT _ := {}
  ofT_toT _ := rfl
  toT_ofT _ := rfl
  code_pos := by decide
  code_lt := by decide
  inner := Accepted.decInner
  inner_eq env := by
    simp only [Accepted.decInner, Accepted.decFields, getFields, map_bind, map_pure, bind_assoc, pure_bind]
    rfl
  decF_eq _ _ := rfl
  size_eq' v := by
    show listSize _ = _
    simp only [sizeFields, Field.req, Field.opt, Field.dflt, Nat.add_assoc, Nat.add_zero]
  enc_eq' v := by
    show listHdr _ _ _ ++ _ = _
    simp only [sizeFields, encFields, Field.req, Field.opt, Field.dflt, Nat.add_assoc, Nat.add_zero,
      List.append_assoc, List.append_nil, List.length]

instance : HasWf Accepted := listWf Accepted
instance : LawfulEnc Accepted := listLawfulEnc
instance : LawfulDec Accepted := listLawfulDec
instance : LawfulCodec Accepted := listLawfulCodec rfl
instance : NonNull Accepted := listNonNull

instance : ListType Rejected where
  code := 37
  name := "amqp:rejected:list"
  fields := [.opt Error]
  toT v := (v.error, ())
  ofT t := { error := t.1 }
  ofT_toT _ := rfl
  toT_ofT _ := rfl
  code_pos := by decide
  code_lt := by decide
  inner := Rejected.decInner
  inner_eq env := by
    simp only [Rejected.decInner, Rejected.decFields, getFields, map_bind, map_pure, bind_assoc, pure_bind]
    rfl
  decF_eq _ _ := rfl
  size_eq' v := by
    show listSize _ = _
    simp only [sizeFields, Field.req, Field.opt, Field.dflt, Nat.add_assoc, Nat.add_zero]
  enc_eq' v := by
    show listHdr _ _ _ ++ _ = _
    simp only [sizeFields, encFields, Field.req, Field.opt, Field.dflt, Nat.add_assoc, Nat.add_zero,
      List.append_assoc, List.append_nil, List.length]

instance : HasWf Rejected := listWf Rejected
instance : LawfulEnc Rejected := listLawfulEnc
instance : LawfulDec Rejected := listLawfulDec
instance : LawfulCodec Rejected := listLawfulCodec rfl
instance : NonNull Rejected := listNonNull

instance : ListType Released where
  code := 38
  name := "amqp:released:list"
  fields := []
  toT _ := ()
  ofT _ := {}
  ofT_toT _ := rfl
  toT_ofT _ := rfl
  code_pos := by decide
  code_lt := by decide
  inner := Released.decInner
  inner_eq env := by
    simp only [Released.decInner, Released.decFields, getFields, map_bind, map_pure, bind_assoc, pure_bind]
    rfl
  decF_eq _ _ := rfl
  size_eq' v := by
    show listSize _ = _
    simp only [sizeFields, Field.req, Field.opt, Field.dflt, Nat.add_assoc, Nat.add_zero]
  enc_eq' v := by
    show listHdr _ _ _ ++ _ = _
    simp only [sizeFields, encFields, Field.req, Field.opt, Field.dflt, Nat.add_assoc, Nat.add_zero,
      List.append_assoc, List.append_nil, List.length]

instance : HasWf Released := listWf Released
instance : LawfulEnc Released := listLawfulEnc
instance : LawfulDec Released := listLawfulDec
instance : LawfulCodec Released := listLawfulCodec rfl
instance : NonNull Released := listNonNull

instance : ListType Modified where
  code := 39
  name := "amqp:modified:list"
  fields := [.opt Bool,
    .opt Bool,
    .opt Fields]
  toT v := (v.delivery_failed, v.undeliverable_here, v.message_annotations, ())
  ofT t := { delivery_failed := t.1, undeliverable_here := t.2.1, message_annotations := t.2.2.1 }
  ofT_toT _ := rfl
  toT_ofT _ := rfl
  code_pos := by decide
  code_lt := by decide
  inner := Modified.decInner
  inner_eq env := by
    simp only [Modified.decInner, Modified.decFields, getFields, map_bind, map_pure, bind_assoc, pure_bind]
    rfl
  decF_eq _ _ := rfl
  size_eq' v := by
    show listSize _ = _
    simp only [sizeFields, Field.req, Field.opt, Field.dflt, Nat.add_assoc, Nat.add_zero]
  enc_eq' v := by
    show listHdr _ _ _ ++ _ = _
    simp only [sizeFields, encFields, Field.req, Field.opt, Field.dflt, Nat.add_assoc, Nat.add_zero,
      List.append_assoc, List.append_nil, List.length]

instance : HasWf Modified := listWf Modified
instance : LawfulEnc Modified := listLawfulEnc
instance : LawfulDec Modified := listLawfulDec
instance : LawfulCodec Modified := listLawfulCodec rfl
instance : NonNull Modified := listNonNull

instance : LawfulEnc DeliveryState := ⟨fun
  | .Received v => LawfulEnc.size_eq v
  | .Accepted v => LawfulEnc.size_eq v
  | .Rejected v => LawfulEnc.size_eq v
  | .Released v => LawfulEnc.size_eq v
  | .Modified v => LawfulEnc.size_eq v⟩
instance : HasWf DeliveryState := ⟨fun env u => match u with
  | .Received v => wf env v
  | .Accepted v => wf env v
  | .Rejected v => wf env v
  | .Released v => wf env v
  | .Modified v => wf env v⟩
theorem DeliveryState.local_dispatch (env : Env) (d : Descriptor) : Local (DeliveryState.dispatch env d) := by
  unfold DeliveryState.dispatch
  repeat' apply Local.ite
  all_goals first
    | exact Local.fail _
    | exact (local_listInner _ _).map _
    | exact (loc_decode _).map _
instance : LawfulDec DeliveryState := ⟨fun env fmt => local_validateCode _ _
  ((loc_decode _).bind fun d => DeliveryState.local_dispatch env d)⟩
instance : LawfulCodec DeliveryState := ⟨fun env u h => by
  cases u with
  | Received v =>
    exact reads_union_list DeliveryState.Received (DeliveryState.dispatch env) v h rfl rfl
  | Accepted v =>
    exact reads_union_list DeliveryState.Accepted (DeliveryState.dispatch env) v h rfl rfl
  | Rejected v =>
    exact reads_union_list DeliveryState.Rejected (DeliveryState.dispatch env) v h rfl rfl
  | Released v =>
    exact reads_union_list DeliveryState.Released (DeliveryState.dispatch env) v h rfl rfl
  | Modified v =>
    exact reads_union_list DeliveryState.Modified (DeliveryState.dispatch env) v h rfl rfl⟩
instance : NonNull DeliveryState := ⟨fun
  | .Received v => NonNull.head v
  | .Accepted v => NonNull.head v
  | .Rejected v => NonNull.head v
  | .Released v => NonNull.head v
  | .Modified v => NonNull.head v⟩

instance : LawfulEnc Outcome := ⟨fun
  | .Accepted v => LawfulEnc.size_eq v
  | .Rejected v => LawfulEnc.size_eq v
  | .Released v => LawfulEnc.size_eq v
  | .Modified v => LawfulEnc.size_eq v⟩
instance : HasWf Outcome := ⟨fun env u => match u with
  | .Accepted v => wf env v
  | .Rejected v => wf env v
  | .Released v => wf env v
  | .Modified v => wf env v⟩
theorem Outcome.local_dispatch (env : Env) (d : Descriptor) : Local (Outcome.dispatch env d) := by
  unfold Outcome.dispatch
  repeat' apply Local.ite
  all_goals first
    | exact Local.fail _
    | exact (local_listInner _ _).map _
    | exact (loc_decode _).map _
instance : LawfulDec Outcome := ⟨fun env fmt => local_validateCode _ _
  ((loc_decode _).bind fun d => Outcome.local_dispatch env d)⟩
instance : LawfulCodec Outcome := ⟨fun env u h => by
  cases u with
  | Accepted v =>
    exact reads_union_list Outcome.Accepted (Outcome.dispatch env) v h rfl rfl
  | Rejected v =>
    exact reads_union_list Outcome.Rejected (Outcome.dispatch env) v h rfl rfl
  | Released v =>
    exact reads_union_list Outcome.Released (Outcome.dispatch env) v h rfl rfl
  | Modified v =>
    exact reads_union_list Outcome.Modified (Outcome.dispatch env) v h rfl rfl⟩
instance : NonNull Outcome := ⟨fun
  | .Accepted v => NonNull.head v
  | .Rejected v => NonNull.head v
  | .Released v => NonNull.head v
  | .Modified v => NonNull.head v⟩

instance : ListType Source where
  code := 40
  name := "amqp:source:list"
  fields := [.opt Address,
    .dflt TerminusDurability TerminusDurability.None,
    .dflt TerminusExpiryPolicy TerminusExpiryPolicy.SessionEnd,
    .dflt Seconds 0,
    .dflt Bool false,
    .opt NodeProperties,
    .opt DistributionMode,
    .opt FilterSet,
    .opt Outcome,
    .opt Symbols,
    .opt Symbols]
  toT v := (v.address, v.durable, v.expiry_policy, v.timeout, v.dynamic, v.dynamic_node_properties, v.distribution_mode, v.filter, v.default_outcome, v.outcomes, v.capabilities, ())
  ofT t := { address := t.1, durable := t.2.1, expiry_policy := t.2.2.1, timeout := t.2.2.2.1, dynamic := t.2.2.2.2.1, dynamic_node_properties := t.2.2.2.2.2.1, distribution_mode := t.2.2.2.2.2.2.1, filter := t.2.2.2.2.2.2.2.1, default_outcome := t.2.2.2.2.2.2.2.2.1, outcomes := t.2.2.2.2.2.2.2.2.2.1, capabilities := t.2.2.2.2.2.2.2.2.2.2.1 }
  ofT_toT _ := rfl
  toT_ofT _ := rfl
  code_pos := by decide
  code_lt := by decide
  inner := Source.decInner
  inner_eq env := by
    simp only [Source.decInner, Source.decFields, getFields, map_bind, map_pure, bind_assoc, pure_bind]
    rfl
  decF_eq _ _ := rfl
  size_eq' v := by
    show listSize _ = _
    simp only [sizeFields, Field.req, Field.opt, Field.dflt, Nat.add_assoc, Nat.add_zero]
  enc_eq' v := by
    show listHdr _ _ _ ++ _ = _
    simp only [sizeFields, encFields, Field.req, Field.opt, Field.dflt, Nat.add_assoc, Nat.add_zero,
      List.append_assoc, List.append_nil, List.length]

instance : HasWf Source := listWf Source
instance : LawfulEnc Source := listLawfulEnc
instance : LawfulDec Source := listLawfulDec
instance : LawfulCodec Source := listLawfulCodec rfl
instance : NonNull Source := listNonNull

instance : ListType Target where
  code := 41
  name := "amqp:target:list"
  fields := [.opt Address,
    .dflt TerminusDurability TerminusDurability.None,
    .dflt TerminusExpiryPolicy TerminusExpiryPolicy.SessionEnd,
    .dflt Seconds 0,
    .dflt Bool false,
    .opt NodeProperties,
    .opt Symbols]
  toT v := (v.address, v.durable, v.expiry_policy, v.timeout, v.dynamic, v.dynamic_node_properties, v.capabilities, ())
  ofT t := { address := t.1, durable := t.2.1, expiry_policy := t.2.2.1, timeout := t.2.2.2.1, dynamic := t.2.2.2.2.1, dynamic_node_properties := t.2.2.2.2.2.1, capabilities := t.2.2.2.2.2.2.1 }
  ofT_toT _ := rfl
  toT_ofT _ := rfl
  code_pos := by decide
  code_lt := by decide
  inner := Target.decInner
  inner_eq env := by
    simp only [Target.decInner, Target.decFields, getFields, map_bind, map_pure, bind_assoc, pure_bind]
    rfl
  decF_eq _ _ := rfl
  size_eq' v := by
    show listSize _ = _
    simp only [sizeFields, Field.req, Field.opt, Field.dflt, Nat.add_assoc, Nat.add_zero]
  enc_eq' v := by
    show listHdr _ _ _ ++ _ = _
    simp only [sizeFields, encFields, Field.req, Field.opt, Field.dflt, Nat.add_assoc, Nat.add_zero,
      List.append_assoc, List.append_nil, List.length]

instance : HasWf Target := listWf Target
instance : LawfulEnc Target := listLawfulEnc
instance : LawfulDec Target := listLawfulDec
instance : LawfulCodec Target := listLawfulCodec rfl
instance : NonNull Target := listNonNull

instance : ListType Open where
  code := 16
  name := "amqp:open:list"
  fields := [.req ByteStr "container_id",
    .opt ByteStr,
    .dflt UInt32 4294967295,
    .dflt UInt16 65535,
    .opt Milliseconds,
    .opt IetfLanguageTags,
    .opt IetfLanguageTags,
    .opt Symbols,
    .opt Symbols,
    .opt Fields]
  toT v := (v.container_id, v.hostname, v.max_frame_size, v.channel_max, v.idle_time_out, v.outgoing_locales, v.incoming_locales, v.offered_capabilities, v.desired_capabilities, v.properties, ())
  ofT t := { container_id := t.1, hostname := t.2.1, max_frame_size := t.2.2.1, channel_max := t.2.2.2.1, idle_time_out := t.2.2.2.2.1, outgoing_locales := t.2.2.2.2.2.1, incoming_locales := t.2.2.2.2.2.2.1, offered_capabilities := t.2.2.2.2.2.2.2.1, desired_capabilities := t.2.2.2.2.2.2.2.2.1, properties := t.2.2.2.2.2.2.2.2.2.1 }
  ofT_toT _ := rfl
  toT_ofT _ := rfl
  code_pos := by decide
  code_lt := by decide
  inner := Open.decInner
  inner_eq env := by
    simp only [Open.decInner, Open.decFields, getFields, map_bind, map_pure, bind_assoc, pure_bind]
    rfl
  decF_eq _ _ := rfl
  size_eq' v := by
    show listSize _ = _
    simp only [sizeFields, Field.req, Field.opt, Field.dflt, Nat.add_assoc, Nat.add_zero]
  enc_eq' v := by
    show listHdr _ _ _ ++ _ = _
    simp only [sizeFields, encFields, Field.req, Field.opt, Field.dflt, Nat.add_assoc, Nat.add_zero,
      List.append_assoc, List.append_nil, List.length]

instance : HasWf Open := listWf Open
instance : LawfulEnc Open := listLawfulEnc
instance : LawfulDec Open := listLawfulDec
instance : LawfulCodec Open := listLawfulCodec rfl
instance : NonNull Open := listNonNull

instance : ListType Begin where
  code := 17
  name := "amqp:begin:list"
  fields := [.opt UInt16,
    .req TransferNumber "next_outgoing_id",
    .req UInt32 "incoming_window",
    .req UInt32 "outgoing_window",
    .dflt Handle 4294967295,
    .opt Symbols,
    .opt Symbols,
    .opt Fields]
  toT v := (v.remote_channel, v.next_outgoing_id, v.incoming_window, v.outgoing_window, v.handle_max, v.offered_capabilities, v.desired_capabilities, v.properties, ())
  ofT t := { remote_channel := t.1, next_outgoing_id := t.2.1, incoming_window := t.2.2.1, outgoing_window := t.2.2.2.1, handle_max := t.2.2.2.2.1, offered_capabilities := t.2.2.2.2.2.1, desired_capabilities := t.2.2.2.2.2.2.1, properties := t.2.2.2.2.2.2.2.1 }
  ofT_toT _ := rfl
  toT_ofT _ := rfl
  code_pos := by decide
  code_lt := by decide
  inner := Begin.decInner
  inner_eq env := by
    simp only [Begin.decInner, Begin.decFields, getFields, map_bind, map_pure, bind_assoc, pure_bind]
    rfl
  decF_eq _ _ := rfl
  size_eq' v := by
    show listSize _ = _
    simp only [sizeFields, Field.req, Field.opt, Field.dflt, Nat.add_assoc, Nat.add_zero]
  enc_eq' v := by
    show listHdr _ _ _ ++ _ = _
    simp only [sizeFields, encFields, Field.req, Field.opt, Field.dflt, Nat.add_assoc, Nat.add_zero,
      List.append_assoc, List.append_nil, List.length]

instance : HasWf Begin := listWf Begin
instance : LawfulEnc Begin := listLawfulEnc
instance : LawfulDec Begin := listLawfulDec
instance : LawfulCodec Begin := listLawfulCodec rfl
instance : NonNull Begin := listNonNull

instance : ListType Attach where
  code := 18
  name := "amqp:attach:list"
  fields := [.req ByteStr "name",
    .req Handle "handle",
    .req Role "role",
    .dflt SenderSettleMode SenderSettleMode.Mixed,
    .dflt ReceiverSettleMode ReceiverSettleMode.First,
    .opt Source,
    .opt Target,
    .opt Map,
    .dflt Bool false,
    .opt SequenceNo,
    .opt UInt64,
    .opt Symbols,
    .opt Symbols,
    .opt Fields]
  toT v := (v.name, v.handle, v.role, v.snd_settle_mode, v.rcv_settle_mode, v.source, v.target, v.unsettled, v.incomplete_unsettled, v.initial_delivery_count, v.max_message_size, v.offered_capabilities, v.desired_capabilities, v.properties, ())
  ofT t := { name := t.1, handle := t.2.1, role := t.2.2.1, snd_settle_mode := t.2.2.2.1, rcv_settle_mode := t.2.2.2.2.1, source := t.2.2.2.2.2.1, target := t.2.2.2.2.2.2.1, unsettled := t.2.2.2.2.2.2.2.1, incomplete_unsettled := t.2.2.2.2.2.2.2.2.1, initial_delivery_count := t.2.2.2.2.2.2.2.2.2.1, max_message_size := t.2.2.2.2.2.2.2.2.2.2.1, offered_capabilities := t.2.2.2.2.2.2.2.2.2.2.2.1, desired_capabilities := t.2.2.2.2.2.2.2.2.2.2.2.2.1, properties := t.2.2.2.2.2.2.2.2.2.2.2.2.2.1 }
  ofT_toT _ := rfl
  toT_ofT _ := rfl
  code_pos := by decide
  code_lt := by decide
  inner := Attach.decInner
  inner_eq env := by
    simp only [Attach.decInner, Attach.decFields, getFields, map_bind, map_pure, bind_assoc, pure_bind]
    rfl
  decF_eq _ _ := rfl
  size_eq' v := by
    show listSize _ = _
    simp only [sizeFields, Field.req, Field.opt, Field.dflt, Nat.add_assoc, Nat.add_zero]
  enc_eq' v := by
    show listHdr _ _ _ ++ _ = _
    simp only [sizeFields, encFields, Field.req, Field.opt, Field.dflt, Nat.add_assoc, Nat.add_zero,
      List.append_assoc, List.append_nil, List.length]

instance : HasWf Attach := listWf Attach
instance : LawfulEnc Attach := listLawfulEnc
instance : LawfulDec Attach := listLawfulDec
instance : LawfulCodec Attach := listLawfulCodec rfl
instance : NonNull Attach := listNonNull

instance : ListType Flow where
  code := 19
  name := "amqp:flow:list"
  fields := [.opt TransferNumber,
    .req UInt32 "incoming_window",
    .req TransferNumber "next_outgoing_id",
    .req UInt32 "outgoing_window",
    .opt Handle,
    .opt SequenceNo,
    .opt UInt32,
    .opt UInt32,
    .dflt Bool false,
    .dflt Bool false,
    .opt Fields]
  toT v := (v.next_incoming_id, v.incoming_window, v.next_outgoing_id, v.outgoing_window, v.handle, v.delivery_count, v.link_credit, v.available, v.drain, v.echo, v.properties, ())
  ofT t := { next_incoming_id := t.1, incoming_window := t.2.1, next_outgoing_id := t.2.2.1, outgoing_window := t.2.2.2.1, handle := t.2.2.2.2.1, delivery_count := t.2.2.2.2.2.1, link_credit := t.2.2.2.2.2.2.1, available := t.2.2.2.2.2.2.2.1, drain := t.2.2.2.2.2.2.2.2.1, echo := t.2.2.2.2.2.2.2.2.2.1, properties := t.2.2.2.2.2.2.2.2.2.2.1 }
  ofT_toT _ := rfl
  toT_ofT _ := rfl
  code_pos := by decide
  code_lt := by decide
  inner := Flow.decInner
  inner_eq env := by
    simp only [Flow.decInner, Flow.decFields, getFields, map_bind, map_pure, bind_assoc, pure_bind]
    rfl
  decF_eq _ _ := rfl
  size_eq' v := by
    show listSize _ = _
    simp only [sizeFields, Field.req, Field.opt, Field.dflt, Nat.add_assoc, Nat.add_zero]
  enc_eq' v := by
    show listHdr _ _ _ ++ _ = _
    simp only [sizeFields, encFields, Field.req, Field.opt, Field.dflt, Nat.add_assoc, Nat.add_zero,
      List.append_assoc, List.append_nil, List.length]

instance : HasWf Flow := listWf Flow
instance : LawfulEnc Flow := listLawfulEnc
instance : LawfulDec Flow := listLawfulDec
instance : LawfulCodec Flow := listLawfulCodec rfl
instance : NonNull Flow := listNonNull

instance : ListType Disposition where
  code := 21
  name := "amqp:disposition:list"
  fields := [.req Role "role",
    .req DeliveryNumber "first",
    .opt DeliveryNumber,
    .dflt Bool false,
    .opt DeliveryState,
    .dflt Bool false]
  toT v := (v.role, v.first, v.last, v.settled, v.state, v.batchable, ())
  ofT t := { role := t.1, first := t.2.1, last := t.2.2.1, settled := t.2.2.2.1, state := t.2.2.2.2.1, batchable := t.2.2.2.2.2.1 }
  ofT_toT _ := rfl
  toT_ofT _ := rfl
  code_pos := by decide
  code_lt := by decide
  inner := Disposition.decInner
  inner_eq env := by
    simp only [Disposition.decInner, Disposition.decFields, getFields, map_bind, map_pure, bind_assoc, pure_bind]
    rfl
  decF_eq _ _ := rfl
  size_eq' v := by
    show listSize _ = _
    simp only [sizeFields, Field.req, Field.opt, Field.dflt, Nat.add_assoc, Nat.add_zero]
  enc_eq' v := by
    show listHdr _ _ _ ++ _ = _
    simp only [sizeFields, encFields, Field.req, Field.opt, Field.dflt, Nat.add_assoc, Nat.add_zero,
      List.append_assoc, List.append_nil, List.length]

instance : HasWf Disposition := listWf Disposition
instance : LawfulEnc Disposition := listLawfulEnc
instance : LawfulDec Disposition := listLawfulDec
instance : LawfulCodec Disposition := listLawfulCodec rfl
instance : NonNull Disposition := listNonNull

instance : ListType Detach where
  code := 22
  name := "amqp:detach:list"
  fields := [.req Handle "handle",
    .dflt Bool false,
    .opt Error]
  toT v := (v.handle, v.closed, v.error, ())
  ofT t := { handle := t.1, closed := t.2.1, error := t.2.2.1 }
  ofT_toT _ := rfl
  toT_ofT _ := rfl
  code_pos := by decide
  code_lt := by decide
  inner := Detach.decInner
  inner_eq env := by
    simp only [Detach.decInner, Detach.decFields, getFields, map_bind, map_pure, bind_assoc, pure_bind]
    rfl
  decF_eq _ _ := rfl
  size_eq' v := by
    show listSize _ = _
    simp only [sizeFields, Field.req, Field.opt, Field.dflt, Nat.add_assoc, Nat.add_zero]
  enc_eq' v := by
    show listHdr _ _ _ ++ _ = _
    simp only [sizeFields, encFields, Field.req, Field.opt, Field.dflt, Nat.add_assoc, Nat.add_zero,
      List.append_assoc, List.append_nil, List.length]

instance : HasWf Detach := listWf Detach
instance : LawfulEnc Detach := listLawfulEnc
instance : LawfulDec Detach := listLawfulDec
instance : LawfulCodec Detach := listLawfulCodec rfl
instance : NonNull Detach := listNonNull

instance : ListType End where
  code := 23
  name := "amqp:end:list"
  fields := [.opt Error]
  toT v := (v.error, ())
  ofT t := { error := t.1 }
  ofT_toT _ := rfl
  toT_ofT _ := rfl
  code_pos := by decide
  code_lt := by decide
  inner := End.decInner
  inner_eq env := by
    simp only [End.decInner, End.decFields, getFields, map_bind, map_pure, bind_assoc, pure_bind]
    rfl
  decF_eq _ _ := rfl
  size_eq' v := by
    show listSize _ = _
    simp only [sizeFields, Field.req, Field.opt, Field.dflt, Nat.add_assoc, Nat.add_zero]
  enc_eq' v := by
    show listHdr _ _ _ ++ _ = _
    simp only [sizeFields, encFields, Field.req, Field.opt, Field.dflt, Nat.add_assoc, Nat.add_zero,
      List.append_assoc, List.append_nil, List.length]

instance : HasWf End := listWf End
instance : LawfulEnc End := listLawfulEnc
instance : LawfulDec End := listLawfulDec
instance : LawfulCodec End := listLawfulCodec rfl
instance : NonNull End := listNonNull

instance : ListType Close where
  code := 24
  name := "amqp:close:list"
  fields := [.opt Error]
  toT v := (v.error, ())
  ofT t := { error := t.1 }
  ofT_toT _ := rfl
  toT_ofT _ := rfl
  code_pos := by decide
  code_lt := by decide
  inner := Close.decInner
  inner_eq env := by
    simp only [Close.decInner, Close.decFields, getFields, map_bind, map_pure, bind_assoc, pure_bind]
    rfl
  decF_eq _ _ := rfl
  size_eq' v := by
    show listSize _ = _
    simp only [sizeFields, Field.req, Field.opt, Field.dflt, Nat.add_assoc, Nat.add_zero]
  enc_eq' v := by
    show listHdr _ _ _ ++ _ = _
    simp only [sizeFields, encFields, Field.req, Field.opt, Field.dflt, Nat.add_assoc, Nat.add_zero,
      List.append_assoc, List.append_nil, List.length]

instance : HasWf Close := listWf Close
instance : LawfulEnc Close := listLawfulEnc
instance : LawfulDec Close := listLawfulDec
instance : LawfulCodec Close := listLawfulCodec rfl
instance : NonNull Close := listNonNull

instance : ListType TransferPerf where
  code := 20
  name := "amqp:transfer:list"
  fields := [.req Handle "handle",
    .opt DeliveryNumber,
    .opt DeliveryTag,
    .opt MessageFormat,
    .opt Bool,
    .dflt Bool false,
    .opt ReceiverSettleMode,
    .opt DeliveryState,
    .dflt Bool false,
    .dflt Bool false,
    .dflt Bool false]
  toT v := (v.handle, v.delivery_id, v.delivery_tag, v.message_format, v.settled, v.more, v.rcv_settle_mode, v.state, v.resume, v.aborted, v.batchable, ())
  ofT t := { handle := t.1, delivery_id := t.2.1, delivery_tag := t.2.2.1, message_format := t.2.2.2.1, settled := t.2.2.2.2.1, more := t.2.2.2.2.2.1, rcv_settle_mode := t.2.2.2.2.2.2.1, state := t.2.2.2.2.2.2.2.1, resume := t.2.2.2.2.2.2.2.2.1, aborted := t.2.2.2.2.2.2.2.2.2.1, batchable := t.2.2.2.2.2.2.2.2.2.2.1 }
  ofT_toT _ := rfl
  toT_ofT _ := rfl
  code_pos := by decide
  code_lt := by decide
  inner := TransferPerf.decInner
  inner_eq env := by
    simp only [TransferPerf.decInner, TransferPerf.decFields, getFields, map_bind, map_pure, bind_assoc, pure_bind]
    rfl
  decF_eq _ _ := rfl
  size_eq' v := by
    show listSize _ = _
    simp only [sizeFields, Field.req, Field.opt, Field.dflt, Nat.add_assoc, Nat.add_zero]
  enc_eq' v := by
    show listHdr _ _ _ ++ _ = _
    simp only [sizeFields, encFields, Field.req, Field.opt, Field.dflt, Nat.add_assoc, Nat.add_zero,
      List.append_assoc, List.append_nil, List.length]

instance : HasWf TransferPerf := listWf TransferPerf
instance : LawfulEnc TransferPerf := listLawfulEnc
instance : LawfulDec TransferPerf := listLawfulDec
instance : LawfulCodec TransferPerf := listLawfulCodec rfl
instance : NonNull TransferPerf := listNonNull

instance : ListType SaslMechanisms where
  code := 64
  name := "amqp:sasl-mechanisms:list"
  fields := [.req Symbols "sasl_server_mechanisms"]
  toT v := (v.sasl_server_mechanisms, ())
  ofT t := { sasl_server_mechanisms := t.1 }
  ofT_toT _ := rfl
  toT_ofT _ := rfl
  code_pos := by decide
  code_lt := by decide
  inner := SaslMechanisms.decInner
  inner_eq env := by
    simp only [SaslMechanisms.decInner, SaslMechanisms.decFields, getFields, map_bind, map_pure, bind_assoc, pure_bind]
    rfl
  decF_eq _ _ := rfl
  size_eq' v := by
    show listSize _ = _
    simp only [sizeFields, Field.req, Field.opt, Field.dflt, Nat.add_assoc, Nat.add_zero]
  enc_eq' v := by
    show listHdr _ _ _ ++ _ = _
    simp only [sizeFields, encFields, Field.req, Field.opt, Field.dflt, Nat.add_assoc, Nat.add_zero,
      List.append_assoc, List.append_nil, List.length]

instance : HasWf SaslMechanisms := listWf SaslMechanisms
instance : LawfulEnc SaslMechanisms := listLawfulEnc
instance : LawfulDec SaslMechanisms := listLawfulDec
instance : LawfulCodec SaslMechanisms := listLawfulCodec rfl
instance : NonNull SaslMechanisms := listNonNull

instance : ListType SaslInit where
  code := 65
  name := "amqp:sasl-init:list"
  fields := [.req Symbol "mechanism",
    .opt Binary,
    .opt ByteStr]
  toT v := (v.mechanism, v.initial_response, v.hostname, ())
  ofT t := { mechanism := t.1, initial_response := t.2.1, hostname := t.2.2.1 }
  ofT_toT _ := rfl
  toT_ofT _ := rfl
  code_pos := by decide
  code_lt := by decide
  inner := SaslInit.decInner
  inner_eq env := by
    simp only [SaslInit.decInner, SaslInit.decFields, getFields, map_bind, map_pure, bind_assoc, pure_bind]
    rfl
  decF_eq _ _ := rfl
  size_eq' v := by
    show listSize _ = _
    simp only [sizeFields, Field.req, Field.opt, Field.dflt, Nat.add_assoc, Nat.add_zero]
  enc_eq' v := by
    show listHdr _ _ _ ++ _ = _
    simp only [sizeFields, encFields, Field.req, Field.opt, Field.dflt, Nat.add_assoc, Nat.add_zero,
      List.append_assoc, List.append_nil, List.length]

instance : HasWf SaslInit := listWf SaslInit
instance : LawfulEnc SaslInit := listLawfulEnc
instance : LawfulDec SaslInit := listLawfulDec
instance : LawfulCodec SaslInit := listLawfulCodec rfl
instance : NonNull SaslInit := listNonNull

instance : ListType SaslChallenge where
  code := 66
  name := "amqp:sasl-challenge:list"
  fields := [.req Binary "challenge"]
  toT v := (v.challenge, ())
  ofT t := { challenge := t.1 }
  ofT_toT _ := rfl
  toT_ofT _ := rfl
  code_pos := by decide
  code_lt := by decide
  inner := SaslChallenge.decInner
  inner_eq env := by
    simp only [SaslChallenge.decInner, SaslChallenge.decFields, getFields, map_bind, map_pure, bind_assoc, pure_bind]
    rfl
  decF_eq _ _ := rfl
  size_eq' v := by
    show listSize _ = _
    simp only [sizeFields, Field.req, Field.opt, Field.dflt, Nat.add_assoc, Nat.add_zero]
  enc_eq' v := by
    show listHdr _ _ _ ++ _ = _
    simp only [sizeFields, encFields, Field.req, Field.opt, Field.dflt, Nat.add_assoc, Nat.add_zero,
      List.append_assoc, List.append_nil, List.length]

instance : HasWf SaslChallenge := listWf SaslChallenge
instance : LawfulEnc SaslChallenge := listLawfulEnc
instance : LawfulDec SaslChallenge := listLawfulDec
instance : LawfulCodec SaslChallenge := listLawfulCodec rfl
instance : NonNull SaslChallenge := listNonNull

instance : ListType SaslResponse where
  code := 67
  name := "amqp:sasl-response:list"
  fields := [.req Binary "response"]
  toT v := (v.response, ())
  ofT t := { response := t.1 }
  ofT_toT _ := rfl
  toT_ofT _ := rfl
  code_pos := by decide
  code_lt := by decide
  inner := SaslResponse.decInner
  inner_eq env := by
    simp only [SaslResponse.decInner, SaslResponse.decFields, getFields, map_bind, map_pure, bind_assoc, pure_bind]
    rfl
  decF_eq _ _ := rfl
  size_eq' v := by
    show listSize _ = _
    simp only [sizeFields, Field.req, Field.opt, Field.dflt, Nat.add_assoc, Nat.add_zero]
  enc_eq' v := by
    show listHdr _ _ _ ++ _ = _
    simp only [sizeFields, encFields, Field.req, Field.opt, Field.dflt, Nat.add_assoc, Nat.add_zero,
      List.append_assoc, List.append_nil, List.length]

instance : HasWf SaslResponse := listWf SaslResponse
instance : LawfulEnc SaslResponse := listLawfulEnc
instance : LawfulDec SaslResponse := listLawfulDec
instance : LawfulCodec SaslResponse := listLawfulCodec rfl
instance : NonNull SaslResponse := listNonNull

instance : ListType SaslOutcome where
  code := 68
  name := "amqp:sasl-outcome:list"
  fields := [.req SaslCode "code",
    .opt Binary]
  toT v := (v.code, v.additional_data, ())
  ofT t := { code := t.1, additional_data := t.2.1 }
  ofT_toT _ := rfl
  toT_ofT _ := rfl
  code_pos := by decide
  code_lt := by decide
  inner := SaslOutcome.decInner
  inner_eq env := by
    simp only [SaslOutcome.decInner, SaslOutcome.decFields, getFields, map_bind, map_pure, bind_assoc, pure_bind]
    rfl
  decF_eq _ _ := rfl
  size_eq' v := by
    show listSize _ = _
    simp only [sizeFields, Field.req, Field.opt, Field.dflt, Nat.add_assoc, Nat.add_zero]
  enc_eq' v := by
    show listHdr _ _ _ ++ _ = _
    simp only [sizeFields, encFields, Field.req, Field.opt, Field.dflt, Nat.add_assoc, Nat.add_zero,
      List.append_assoc, List.append_nil, List.length]

instance : HasWf SaslOutcome := listWf SaslOutcome
instance : LawfulEnc SaslOutcome := listLawfulEnc
instance : LawfulDec SaslOutcome := listLawfulDec
instance : LawfulCodec SaslOutcome := listLawfulCodec rfl
instance : NonNull SaslOutcome := listNonNull

instance : LawfulEnc SaslFrameBody := ⟨fun
  | .SaslMechanisms v => LawfulEnc.size_eq v
  | .SaslInit v => LawfulEnc.size_eq v
  | .SaslChallenge v => LawfulEnc.size_eq v
  | .SaslResponse v => LawfulEnc.size_eq v
  | .SaslOutcome v => LawfulEnc.size_eq v⟩
instance : HasWf SaslFrameBody := ⟨fun env u => match u with
  | .SaslMechanisms v => wf env v
  | .SaslInit v => wf env v
  | .SaslChallenge v => wf env v
  | .SaslResponse v => wf env v
  | .SaslOutcome v => wf env v⟩
theorem SaslFrameBody.local_dispatch (env : Env) (d : Descriptor) : Local (SaslFrameBody.dispatch env d) := by
  unfold SaslFrameBody.dispatch
  repeat' apply Local.ite
  all_goals first
    | exact Local.fail _
    | exact (local_listInner _ _).map _
    | exact (loc_decode _).map _
instance : LawfulDec SaslFrameBody := ⟨fun env fmt => local_validateCode _ _
  ((loc_decode _).bind fun d => SaslFrameBody.local_dispatch env d)⟩
instance : LawfulCodec SaslFrameBody := ⟨fun env u h => by
  cases u with
  | SaslMechanisms v =>
    exact reads_union_list SaslFrameBody.SaslMechanisms (SaslFrameBody.dispatch env) v h rfl rfl
  | SaslInit v =>
    exact reads_union_list SaslFrameBody.SaslInit (SaslFrameBody.dispatch env) v h rfl rfl
  | SaslChallenge v =>
    exact reads_union_list SaslFrameBody.SaslChallenge (SaslFrameBody.dispatch env) v h rfl rfl
  | SaslResponse v =>
    exact reads_union_list SaslFrameBody.SaslResponse (SaslFrameBody.dispatch env) v h rfl rfl
  | SaslOutcome v =>
    exact reads_union_list SaslFrameBody.SaslOutcome (SaslFrameBody.dispatch env) v h rfl rfl⟩
instance : NonNull SaslFrameBody := ⟨fun
  | .SaslMechanisms v => NonNull.head v
  | .SaslInit v => NonNull.head v
  | .SaslChallenge v => NonNull.head v
  | .SaslResponse v => NonNull.head v
  | .SaslOutcome v => NonNull.head v⟩

instance : ListType Header where
  code := 112
  name := "amqp:header:list"
  fields := [.dflt Bool false,
    .dflt UInt8 4,
    .opt Milliseconds,
    .dflt Bool false,
    .dflt UInt32 0]
  toT v := (v.durable, v.priority, v.ttl, v.first_acquirer, v.delivery_count, ())
  ofT t := { durable := t.1, priority := t.2.1, ttl := t.2.2.1, first_acquirer := t.2.2.2.1, delivery_count := t.2.2.2.2.1 }
  ofT_toT _ := rfl
  toT_ofT _ := rfl
  code_pos := by decide
  code_lt := by decide
  inner := Header.decInner
  inner_eq env := by
    simp only [Header.decInner, Header.decFields, getFields, map_bind, map_pure, bind_assoc, pure_bind]
    rfl
  decF_eq _ _ := rfl
  size_eq' v := by
    show listSize _ = _
    simp only [sizeFields, Field.req, Field.opt, Field.dflt, Nat.add_assoc, Nat.add_zero]
  enc_eq' v := by
    show listHdr _ _ _ ++ _ = _
    simp only [sizeFields, encFields, Field.req, Field.opt, Field.dflt, Nat.add_assoc, Nat.add_zero,
      List.append_assoc, List.append_nil, List.length]

instance : HasWf Header := listWf Header
instance : LawfulEnc Header := listLawfulEnc
instance : LawfulDec Header := listLawfulDec
instance : LawfulCodec Header := listLawfulCodec rfl
instance : NonNull Header := listNonNull

instance : ListType Properties where
  code := 115
  name := "amqp:properties:list"
  fields := [.opt MessageId,
    .opt Binary,
    .opt Address,
    .opt ByteStr,
    .opt Address,
    .opt MessageId,
    .opt Symbol,
    .opt Symbol,
    .opt Timestamp,
    .opt Timestamp,
    .opt ByteStr,
    .opt SequenceNo,
    .opt ByteStr]
  toT v := (v.message_id, v.user_id, v.to, v.subject, v.reply_to, v.correlation_id, v.content_type, v.content_encoding, v.absolute_expiry_time, v.creation_time, v.group_id, v.group_sequence, v.reply_to_group_id, ())
  ofT t := { message_id := t.1, user_id := t.2.1, to := t.2.2.1, subject := t.2.2.2.1, reply_to := t.2.2.2.2.1, correlation_id := t.2.2.2.2.2.1, content_type := t.2.2.2.2.2.2.1, content_encoding := t.2.2.2.2.2.2.2.1, absolute_expiry_time := t.2.2.2.2.2.2.2.2.1, creation_time := t.2.2.2.2.2.2.2.2.2.1, group_id := t.2.2.2.2.2.2.2.2.2.2.1, group_sequence := t.2.2.2.2.2.2.2.2.2.2.2.1, reply_to_group_id := t.2.2.2.2.2.2.2.2.2.2.2.2.1 }
  ofT_toT _ := rfl
  toT_ofT _ := rfl
  code_pos := by decide
  code_lt := by decide
  inner := Properties.decInner
  inner_eq env := by
    simp only [Properties.decInner, Properties.decFields, getFields, map_bind, map_pure, bind_assoc, pure_bind]
    rfl
  decF_eq _ _ := rfl
  size_eq' v := by
    show listSize _ = _
    simp only [sizeFields, Field.req, Field.opt, Field.dflt, Nat.add_assoc, Nat.add_zero]
  enc_eq' v := by
    show listHdr _ _ _ ++ _ = _
    simp only [sizeFields, encFields, Field.req, Field.opt, Field.dflt, Nat.add_assoc, Nat.add_zero,
      List.append_assoc, List.append_nil, List.length]

instance : HasWf Properties := listWf Properties
instance : LawfulEnc Properties := listLawfulEnc
instance : LawfulDec Properties := listLawfulDec
instance : LawfulCodec Properties := listLawfulCodec rfl
instance : NonNull Properties := listNonNull

instance : LawfulEnc Section := ⟨fun
  | .Header v => LawfulEnc.size_eq v
  | .DeliveryAnnotations v => restricted_size _ (by decide) v
  | .MessageAnnotations v => restricted_size _ (by decide) v
  | .ApplicationProperties v => restricted_size _ (by decide) v
  | .Data v => restricted_size _ (by decide) v
  | .AmqpSequence v => restricted_size _ (by decide) v
  | .AmqpValue v => restricted_size _ (by decide) v
  | .Footer v => restricted_size _ (by decide) v
  | .Properties v => LawfulEnc.size_eq v⟩
instance : HasWf Section := ⟨fun env u => match u with
  | .Header v => wf env v
  | .DeliveryAnnotations v => wf env v
  | .MessageAnnotations v => wf env v
  | .ApplicationProperties v => wf env v
  | .Data v => wf env v
  | .AmqpSequence v => wf env v
  | .AmqpValue v => wf env v
  | .Footer v => wf env v
  | .Properties v => wf env v⟩
theorem Section.local_dispatch (env : Env) (d : Descriptor) : Local (Section.dispatch env d) := by
  unfold Section.dispatch
  repeat' apply Local.ite
  all_goals first
    | exact Local.fail _
    | exact (local_listInner _ _).map _
    | exact (loc_decode _).map _
instance : LawfulDec Section := ⟨fun env fmt => local_validateCode _ _
  ((loc_decode _).bind fun d => Section.local_dispatch env d)⟩
instance : LawfulCodec Section := ⟨fun env u h => by
  cases u with
  | Header v =>
    exact reads_union_list Section.Header (Section.dispatch env) v h rfl rfl
  | DeliveryAnnotations v =>
    exact reads_union_restricted Section.DeliveryAnnotations (Section.dispatch env) 113 (by decide) v h rfl rfl
  | MessageAnnotations v =>
    exact reads_union_restricted Section.MessageAnnotations (Section.dispatch env) 114 (by decide) v h rfl rfl
  | ApplicationProperties v =>
    exact reads_union_restricted Section.ApplicationProperties (Section.dispatch env) 116 (by decide) v h rfl rfl
  | Data v =>
    exact reads_union_restricted Section.Data (Section.dispatch env) 117 (by decide) v h rfl rfl
  | AmqpSequence v =>
    exact reads_union_restricted Section.AmqpSequence (Section.dispatch env) 118 (by decide) v h rfl rfl
  | AmqpValue v =>
    exact reads_union_restricted Section.AmqpValue (Section.dispatch env) 119 (by decide) v h rfl rfl
  | Footer v =>
    exact reads_union_restricted Section.Footer (Section.dispatch env) 120 (by decide) v h rfl rfl
  | Properties v =>
    exact reads_union_list Section.Properties (Section.dispatch env) v h rfl rfl⟩
instance : NonNull Section := ⟨fun
  | .Header v => NonNull.head v
  | .DeliveryAnnotations v => ⟨FC.described, _, rfl, by decide⟩
  | .MessageAnnotations v => ⟨FC.described, _, rfl, by decide⟩
  | .ApplicationProperties v => ⟨FC.described, _, rfl, by decide⟩
  | .Data v => ⟨FC.described, _, rfl, by decide⟩
  | .AmqpSequence v => ⟨FC.described, _, rfl, by decide⟩
  | .AmqpValue v => ⟨FC.described, _, rfl, by decide⟩
  | .Footer v => ⟨FC.described, _, rfl, by decide⟩
  | .Properties v => NonNull.head v⟩

end Amqp
