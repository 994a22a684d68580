import Verif.Protocol.WorkBase
/-! Generated by `tools/gen_work.py`: the encoders of
`src/protocol/definitions.rs` with a counter of calls. -/
set_option autoImplicit false
namespace Amqp

/-- `src/protocol/definitions.rs:458-483`. -/
instance : EncodeC Role := .over _ 2 2
/-- `src/protocol/definitions.rs:506-539`. -/
instance : EncodeC SenderSettleMode := .over _ 2 2
/-- `src/protocol/definitions.rs:560-585`. -/
instance : EncodeC ReceiverSettleMode := .over _ 2 2
/-- `src/protocol/definitions.rs:828-877`. -/
instance : EncodeC SaslCode := .over _ 2 2
/-- `src/protocol/definitions.rs:900-933`. -/
instance : EncodeC TerminusDurability := .over _ 2 2
/-- `src/protocol/definitions.rs:958-975`. -/
instance : EncodeC TerminusExpiryPolicy := .over _ 1 2

/-- `encoded_size_error_inner`, `src/protocol/definitions.rs:1129-1141`;
`encode_error_inner`, `src/protocol/definitions.rs:1142-1161`. -/
instance : EncodeC Error where
  measureC v := ⟨listSize ((measureC v.condition).val + (measureC v.description).val + (measureC v.info).val), 1 + ((measureC v.condition).calls + (measureC v.description).calls + (measureC v.info).calls)⟩
  writeC v := ⟨listHdr 29 ((measureC v.condition).val + (measureC v.description).val + (measureC v.info).val) 3 ++
    ((writeC v.condition).val ++ (writeC v.description).val ++ (writeC v.info).val),
    3 + ((measureC v.condition).calls + (measureC v.description).calls + (measureC v.info).calls) + ((writeC v.condition).calls + (writeC v.description).calls + (writeC v.info).calls)⟩

/-- `encoded_size_open_inner`, `src/protocol/definitions.rs:1346-1365`;
`encode_open_inner`, `src/protocol/definitions.rs:1366-1399`. -/
instance : EncodeC Open where
  measureC v := ⟨listSize ((measureC v.container_id).val + (measureC v.hostname).val + (measureC v.max_frame_size).val + (measureC v.channel_max).val + (measureC v.idle_time_out).val + (measureC v.outgoing_locales).val + (measureC v.incoming_locales).val + (measureC v.offered_capabilities).val + (measureC v.desired_capabilities).val + (measureC v.properties).val), 1 + ((measureC v.container_id).calls + (measureC v.hostname).calls + (measureC v.max_frame_size).calls + (measureC v.channel_max).calls + (measureC v.idle_time_out).calls + (measureC v.outgoing_locales).calls + (measureC v.incoming_locales).calls + (measureC v.offered_capabilities).calls + (measureC v.desired_capabilities).calls + (measureC v.properties).calls)⟩
  writeC v := ⟨listHdr 16 ((measureC v.container_id).val + (measureC v.hostname).val + (measureC v.max_frame_size).val + (measureC v.channel_max).val + (measureC v.idle_time_out).val + (measureC v.outgoing_locales).val + (measureC v.incoming_locales).val + (measureC v.offered_capabilities).val + (measureC v.desired_capabilities).val + (measureC v.properties).val) 10 ++
    ((writeC v.container_id).val ++ (writeC v.hostname).val ++ (writeC v.max_frame_size).val ++ (writeC v.channel_max).val ++ (writeC v.idle_time_out).val ++ (writeC v.outgoing_locales).val ++ (writeC v.incoming_locales).val ++ (writeC v.offered_capabilities).val ++ (writeC v.desired_capabilities).val ++ (writeC v.properties).val),
    3 + ((measureC v.container_id).calls + (measureC v.hostname).calls + (measureC v.max_frame_size).calls + (measureC v.channel_max).calls + (measureC v.idle_time_out).calls + (measureC v.outgoing_locales).calls + (measureC v.incoming_locales).calls + (measureC v.offered_capabilities).calls + (measureC v.desired_capabilities).calls + (measureC v.properties).calls) + ((writeC v.container_id).calls + (writeC v.hostname).calls + (writeC v.max_frame_size).calls + (writeC v.channel_max).calls + (writeC v.idle_time_out).calls + (writeC v.outgoing_locales).calls + (writeC v.incoming_locales).calls + (writeC v.offered_capabilities).calls + (writeC v.desired_capabilities).calls + (writeC v.properties).calls)⟩

/-- `encoded_size_begin_inner`, `src/protocol/definitions.rs:1556-1573`;
`encode_begin_inner`, `src/protocol/definitions.rs:1574-1603`. -/
instance : EncodeC Begin where
  measureC v := ⟨listSize ((measureC v.remote_channel).val + (measureC v.next_outgoing_id).val + (measureC v.incoming_window).val + (measureC v.outgoing_window).val + (measureC v.handle_max).val + (measureC v.offered_capabilities).val + (measureC v.desired_capabilities).val + (measureC v.properties).val), 1 + ((measureC v.remote_channel).calls + (measureC v.next_outgoing_id).calls + (measureC v.incoming_window).calls + (measureC v.outgoing_window).calls + (measureC v.handle_max).calls + (measureC v.offered_capabilities).calls + (measureC v.desired_capabilities).calls + (measureC v.properties).calls)⟩
  writeC v := ⟨listHdr 17 ((measureC v.remote_channel).val + (measureC v.next_outgoing_id).val + (measureC v.incoming_window).val + (measureC v.outgoing_window).val + (measureC v.handle_max).val + (measureC v.offered_capabilities).val + (measureC v.desired_capabilities).val + (measureC v.properties).val) 8 ++
    ((writeC v.remote_channel).val ++ (writeC v.next_outgoing_id).val ++ (writeC v.incoming_window).val ++ (writeC v.outgoing_window).val ++ (writeC v.handle_max).val ++ (writeC v.offered_capabilities).val ++ (writeC v.desired_capabilities).val ++ (writeC v.properties).val),
    3 + ((measureC v.remote_channel).calls + (measureC v.next_outgoing_id).calls + (measureC v.incoming_window).calls + (measureC v.outgoing_window).calls + (measureC v.handle_max).calls + (measureC v.offered_capabilities).calls + (measureC v.desired_capabilities).calls + (measureC v.properties).calls) + ((writeC v.remote_channel).calls + (writeC v.next_outgoing_id).calls + (writeC v.incoming_window).calls + (writeC v.outgoing_window).calls + (writeC v.handle_max).calls + (writeC v.offered_capabilities).calls + (writeC v.desired_capabilities).calls + (writeC v.properties).calls)⟩

/-- `encoded_size_accepted_inner`, `src/protocol/definitions.rs:4355-4364`;
`encode_accepted_inner`, `src/protocol/definitions.rs:4365-4378`. -/
instance : EncodeC Accepted where
  measureC _ := ⟨listSize (0), 1⟩
  writeC _ := ⟨listHdr 36 (0) 0 ++
    ([]),
    3⟩

/-- `encoded_size_rejected_inner`, `src/protocol/definitions.rs:4432-4441`;
`encode_rejected_inner`, `src/protocol/definitions.rs:4442-4456`. -/
instance : EncodeC Rejected where
  measureC v := ⟨listSize ((measureC v.error).val), 1 + ((measureC v.error).calls)⟩
  writeC v := ⟨listHdr 37 ((measureC v.error).val) 1 ++
    ((writeC v.error).val),
    3 + ((measureC v.error).calls) + ((writeC v.error).calls)⟩

/-- `encoded_size_released_inner`, `src/protocol/definitions.rs:4495-4504`;
`encode_released_inner`, `src/protocol/definitions.rs:4505-4518`. -/
instance : EncodeC Released where
  measureC _ := ⟨listSize (0), 1⟩
  writeC _ := ⟨listHdr 38 (0) 0 ++
    ([]),
    3⟩

/-- `encoded_size_modified_inner`, `src/protocol/definitions.rs:4605-4617`;
`encode_modified_inner`, `src/protocol/definitions.rs:4618-4637`. -/
instance : EncodeC Modified where
  measureC v := ⟨listSize ((measureC v.delivery_failed).val + (measureC v.undeliverable_here).val + (measureC v.message_annotations).val), 1 + ((measureC v.delivery_failed).calls + (measureC v.undeliverable_here).calls + (measureC v.message_annotations).calls)⟩
  writeC v := ⟨listHdr 39 ((measureC v.delivery_failed).val + (measureC v.undeliverable_here).val + (measureC v.message_annotations).val) 3 ++
    ((writeC v.delivery_failed).val ++ (writeC v.undeliverable_here).val ++ (writeC v.message_annotations).val),
    3 + ((measureC v.delivery_failed).calls + (measureC v.undeliverable_here).calls + (measureC v.message_annotations).calls) + ((writeC v.delivery_failed).calls + (writeC v.undeliverable_here).calls + (writeC v.message_annotations).calls)⟩

/-- `src/protocol/definitions.rs:304-321`. -/
instance : EncodeC Outcome where
  measureC
    | .Accepted v => measureC v
    | .Rejected v => measureC v
    | .Released v => measureC v
    | .Modified v => measureC v
  writeC
    | .Accepted v => writeC v
    | .Rejected v => writeC v
    | .Released v => writeC v
    | .Modified v => writeC v

/-- `encoded_size_source_inner`, `src/protocol/definitions.rs:3533-3553`;
`encode_source_inner`, `src/protocol/definitions.rs:3554-3589`. -/
instance : EncodeC Source where
  measureC v := ⟨listSize ((measureC v.address).val + (measureC v.durable).val + (measureC v.expiry_policy).val + (measureC v.timeout).val + (measureC v.dynamic).val + (measureC v.dynamic_node_properties).val + (measureC v.distribution_mode).val + (measureC v.filter).val + (measureC v.default_outcome).val + (measureC v.outcomes).val + (measureC v.capabilities).val), 1 + ((measureC v.address).calls + (measureC v.durable).calls + (measureC v.expiry_policy).calls + (measureC v.timeout).calls + (measureC v.dynamic).calls + (measureC v.dynamic_node_properties).calls + (measureC v.distribution_mode).calls + (measureC v.filter).calls + (measureC v.default_outcome).calls + (measureC v.outcomes).calls + (measureC v.capabilities).calls)⟩
  writeC v := ⟨listHdr 40 ((measureC v.address).val + (measureC v.durable).val + (measureC v.expiry_policy).val + (measureC v.timeout).val + (measureC v.dynamic).val + (measureC v.dynamic_node_properties).val + (measureC v.distribution_mode).val + (measureC v.filter).val + (measureC v.default_outcome).val + (measureC v.outcomes).val + (measureC v.capabilities).val) 11 ++
    ((writeC v.address).val ++ (writeC v.durable).val ++ (writeC v.expiry_policy).val ++ (writeC v.timeout).val ++ (writeC v.dynamic).val ++ (writeC v.dynamic_node_properties).val ++ (writeC v.distribution_mode).val ++ (writeC v.filter).val ++ (writeC v.default_outcome).val ++ (writeC v.outcomes).val ++ (writeC v.capabilities).val),
    3 + ((measureC v.address).calls + (measureC v.durable).calls + (measureC v.expiry_policy).calls + (measureC v.timeout).calls + (measureC v.dynamic).calls + (measureC v.dynamic_node_properties).calls + (measureC v.distribution_mode).calls + (measureC v.filter).calls + (measureC v.default_outcome).calls + (measureC v.outcomes).calls + (measureC v.capabilities).calls) + ((writeC v.address).calls + (writeC v.durable).calls + (writeC v.expiry_policy).calls + (writeC v.timeout).calls + (writeC v.dynamic).calls + (writeC v.dynamic_node_properties).calls + (writeC v.distribution_mode).calls + (writeC v.filter).calls + (writeC v.default_outcome).calls + (writeC v.outcomes).calls + (writeC v.capabilities).calls)⟩

/-- `encoded_size_target_inner`, `src/protocol/definitions.rs:3732-3748`;
`encode_target_inner`, `src/protocol/definitions.rs:3749-3776`. -/
instance : EncodeC Target where
  measureC v := ⟨listSize ((measureC v.address).val + (measureC v.durable).val + (measureC v.expiry_policy).val + (measureC v.timeout).val + (measureC v.dynamic).val + (measureC v.dynamic_node_properties).val + (measureC v.capabilities).val), 1 + ((measureC v.address).calls + (measureC v.durable).calls + (measureC v.expiry_policy).calls + (measureC v.timeout).calls + (measureC v.dynamic).calls + (measureC v.dynamic_node_properties).calls + (measureC v.capabilities).calls)⟩
  writeC v := ⟨listHdr 41 ((measureC v.address).val + (measureC v.durable).val + (measureC v.expiry_policy).val + (measureC v.timeout).val + (measureC v.dynamic).val + (measureC v.dynamic_node_properties).val + (measureC v.capabilities).val) 7 ++
    ((writeC v.address).val ++ (writeC v.durable).val ++ (writeC v.expiry_policy).val ++ (writeC v.timeout).val ++ (writeC v.dynamic).val ++ (writeC v.dynamic_node_properties).val ++ (writeC v.capabilities).val),
    3 + ((measureC v.address).calls + (measureC v.durable).calls + (measureC v.expiry_policy).calls + (measureC v.timeout).calls + (measureC v.dynamic).calls + (measureC v.dynamic_node_properties).calls + (measureC v.capabilities).calls) + ((writeC v.address).calls + (writeC v.durable).calls + (writeC v.expiry_policy).calls + (writeC v.timeout).calls + (writeC v.dynamic).calls + (writeC v.dynamic_node_properties).calls + (writeC v.capabilities).calls)⟩

/-- `encoded_size_attach_inner`, `src/protocol/definitions.rs:1844-1867`;
`encode_attach_inner`, `src/protocol/definitions.rs:1868-1909`. -/
instance : EncodeC Attach where
  measureC v := ⟨listSize ((measureC v.name).val + (measureC v.handle).val + (measureC v.role).val + (measureC v.snd_settle_mode).val + (measureC v.rcv_settle_mode).val + (measureC v.source).val + (measureC v.target).val + (measureC v.unsettled).val + (measureC v.incomplete_unsettled).val + (measureC v.initial_delivery_count).val + (measureC v.max_message_size).val + (measureC v.offered_capabilities).val + (measureC v.desired_capabilities).val + (measureC v.properties).val), 1 + ((measureC v.name).calls + (measureC v.handle).calls + (measureC v.role).calls + (measureC v.snd_settle_mode).calls + (measureC v.rcv_settle_mode).calls + (measureC v.source).calls + (measureC v.target).calls + (measureC v.unsettled).calls + (measureC v.incomplete_unsettled).calls + (measureC v.initial_delivery_count).calls + (measureC v.max_message_size).calls + (measureC v.offered_capabilities).calls + (measureC v.desired_capabilities).calls + (measureC v.properties).calls)⟩
  writeC v := ⟨listHdr 18 ((measureC v.name).val + (measureC v.handle).val + (measureC v.role).val + (measureC v.snd_settle_mode).val + (measureC v.rcv_settle_mode).val + (measureC v.source).val + (measureC v.target).val + (measureC v.unsettled).val + (measureC v.incomplete_unsettled).val + (measureC v.initial_delivery_count).val + (measureC v.max_message_size).val + (measureC v.offered_capabilities).val + (measureC v.desired_capabilities).val + (measureC v.properties).val) 14 ++
    ((writeC v.name).val ++ (writeC v.handle).val ++ (writeC v.role).val ++ (writeC v.snd_settle_mode).val ++ (writeC v.rcv_settle_mode).val ++ (writeC v.source).val ++ (writeC v.target).val ++ (writeC v.unsettled).val ++ (writeC v.incomplete_unsettled).val ++ (writeC v.initial_delivery_count).val ++ (writeC v.max_message_size).val ++ (writeC v.offered_capabilities).val ++ (writeC v.desired_capabilities).val ++ (writeC v.properties).val),
    3 + ((measureC v.name).calls + (measureC v.handle).calls + (measureC v.role).calls + (measureC v.snd_settle_mode).calls + (measureC v.rcv_settle_mode).calls + (measureC v.source).calls + (measureC v.target).calls + (measureC v.unsettled).calls + (measureC v.incomplete_unsettled).calls + (measureC v.initial_delivery_count).calls + (measureC v.max_message_size).calls + (measureC v.offered_capabilities).calls + (measureC v.desired_capabilities).calls + (measureC v.properties).calls) + ((writeC v.name).calls + (writeC v.handle).calls + (writeC v.role).calls + (writeC v.snd_settle_mode).calls + (writeC v.rcv_settle_mode).calls + (writeC v.source).calls + (writeC v.target).calls + (writeC v.unsettled).calls + (writeC v.incomplete_unsettled).calls + (writeC v.initial_delivery_count).calls + (writeC v.max_message_size).calls + (writeC v.offered_capabilities).calls + (writeC v.desired_capabilities).calls + (writeC v.properties).calls)⟩

/-- `encoded_size_flow_inner`, `src/protocol/definitions.rs:2108-2128`;
`encode_flow_inner`, `src/protocol/definitions.rs:2129-2164`. -/
instance : EncodeC Flow where
  measureC v := ⟨listSize ((measureC v.next_incoming_id).val + (measureC v.incoming_window).val + (measureC v.next_outgoing_id).val + (measureC v.outgoing_window).val + (measureC v.handle).val + (measureC v.delivery_count).val + (measureC v.link_credit).val + (measureC v.available).val + (measureC v.drain).val + (measureC v.echo).val + (measureC v.properties).val), 1 + ((measureC v.next_incoming_id).calls + (measureC v.incoming_window).calls + (measureC v.next_outgoing_id).calls + (measureC v.outgoing_window).calls + (measureC v.handle).calls + (measureC v.delivery_count).calls + (measureC v.link_credit).calls + (measureC v.available).calls + (measureC v.drain).calls + (measureC v.echo).calls + (measureC v.properties).calls)⟩
  writeC v := ⟨listHdr 19 ((measureC v.next_incoming_id).val + (measureC v.incoming_window).val + (measureC v.next_outgoing_id).val + (measureC v.outgoing_window).val + (measureC v.handle).val + (measureC v.delivery_count).val + (measureC v.link_credit).val + (measureC v.available).val + (measureC v.drain).val + (measureC v.echo).val + (measureC v.properties).val) 11 ++
    ((writeC v.next_incoming_id).val ++ (writeC v.incoming_window).val ++ (writeC v.next_outgoing_id).val ++ (writeC v.outgoing_window).val ++ (writeC v.handle).val ++ (writeC v.delivery_count).val ++ (writeC v.link_credit).val ++ (writeC v.available).val ++ (writeC v.drain).val ++ (writeC v.echo).val ++ (writeC v.properties).val),
    3 + ((measureC v.next_incoming_id).calls + (measureC v.incoming_window).calls + (measureC v.next_outgoing_id).calls + (measureC v.outgoing_window).calls + (measureC v.handle).calls + (measureC v.delivery_count).calls + (measureC v.link_credit).calls + (measureC v.available).calls + (measureC v.drain).calls + (measureC v.echo).calls + (measureC v.properties).calls) + ((writeC v.next_incoming_id).calls + (writeC v.incoming_window).calls + (writeC v.next_outgoing_id).calls + (writeC v.outgoing_window).calls + (writeC v.handle).calls + (writeC v.delivery_count).calls + (writeC v.link_credit).calls + (writeC v.available).calls + (writeC v.drain).calls + (writeC v.echo).calls + (writeC v.properties).calls)⟩

/-- `encoded_size_received_inner`, `src/protocol/definitions.rs:4291-4300`;
`encode_received_inner`, `src/protocol/definitions.rs:4301-4316`. -/
instance : EncodeC Received where
  measureC v := ⟨listSize ((measureC v.section_number).val + (measureC v.section_offset).val), 1 + ((measureC v.section_number).calls + (measureC v.section_offset).calls)⟩
  writeC v := ⟨listHdr 35 ((measureC v.section_number).val + (measureC v.section_offset).val) 2 ++
    ((writeC v.section_number).val ++ (writeC v.section_offset).val),
    3 + ((measureC v.section_number).calls + (measureC v.section_offset).calls) + ((writeC v.section_number).calls + (writeC v.section_offset).calls)⟩

/-- `src/protocol/definitions.rs:177-196`. -/
instance : EncodeC DeliveryState where
  measureC
    | .Received v => measureC v
    | .Accepted v => measureC v
    | .Rejected v => measureC v
    | .Released v => measureC v
    | .Modified v => measureC v
  writeC
    | .Received v => writeC v
    | .Accepted v => writeC v
    | .Rejected v => writeC v
    | .Released v => writeC v
    | .Modified v => writeC v

/-- `encoded_size_transfer_perf_inner`, `src/protocol/definitions.rs:2375-2396`;
`encode_transfer_perf_inner`, `src/protocol/definitions.rs:2397-2435`. -/
instance : EncodeC TransferPerf where
  measureC v := ⟨listSize ((measureC v.handle).val + (measureC v.delivery_id).val + (measureC v.delivery_tag).val + (measureC v.message_format).val + (measureC v.settled).val + (measureC v.more).val + (measureC v.rcv_settle_mode).val + (measureC v.state).val + (measureC v.resume).val + (measureC v.aborted).val + (measureC v.batchable).val), 1 + ((measureC v.handle).calls + (measureC v.delivery_id).calls + (measureC v.delivery_tag).calls + (measureC v.message_format).calls + (measureC v.settled).calls + (measureC v.more).calls + (measureC v.rcv_settle_mode).calls + (measureC v.state).calls + (measureC v.resume).calls + (measureC v.aborted).calls + (measureC v.batchable).calls)⟩
  writeC v := ⟨listHdr 20 ((measureC v.handle).val + (measureC v.delivery_id).val + (measureC v.delivery_tag).val + (measureC v.message_format).val + (measureC v.settled).val + (measureC v.more).val + (measureC v.rcv_settle_mode).val + (measureC v.state).val + (measureC v.resume).val + (measureC v.aborted).val + (measureC v.batchable).val) 11 ++
    ((writeC v.handle).val ++ (writeC v.delivery_id).val ++ (writeC v.delivery_tag).val ++ (writeC v.message_format).val ++ (writeC v.settled).val ++ (writeC v.more).val ++ (writeC v.rcv_settle_mode).val ++ (writeC v.state).val ++ (writeC v.resume).val ++ (writeC v.aborted).val ++ (writeC v.batchable).val),
    3 + ((measureC v.handle).calls + (measureC v.delivery_id).calls + (measureC v.delivery_tag).calls + (measureC v.message_format).calls + (measureC v.settled).calls + (measureC v.more).calls + (measureC v.rcv_settle_mode).calls + (measureC v.state).calls + (measureC v.resume).calls + (measureC v.aborted).calls + (measureC v.batchable).calls) + ((writeC v.handle).calls + (writeC v.delivery_id).calls + (writeC v.delivery_tag).calls + (writeC v.message_format).calls + (writeC v.settled).calls + (writeC v.more).calls + (writeC v.rcv_settle_mode).calls + (writeC v.state).calls + (writeC v.resume).calls + (writeC v.aborted).calls + (writeC v.batchable).calls)⟩

/-- `encoded_size_disposition_inner`, `src/protocol/definitions.rs:2564-2579`;
`encode_disposition_inner`, `src/protocol/definitions.rs:2580-2605`. -/
instance : EncodeC Disposition where
  measureC v := ⟨listSize ((measureC v.role).val + (measureC v.first).val + (measureC v.last).val + (measureC v.settled).val + (measureC v.state).val + (measureC v.batchable).val), 1 + ((measureC v.role).calls + (measureC v.first).calls + (measureC v.last).calls + (measureC v.settled).calls + (measureC v.state).calls + (measureC v.batchable).calls)⟩
  writeC v := ⟨listHdr 21 ((measureC v.role).val + (measureC v.first).val + (measureC v.last).val + (measureC v.settled).val + (measureC v.state).val + (measureC v.batchable).val) 6 ++
    ((writeC v.role).val ++ (writeC v.first).val ++ (writeC v.last).val ++ (writeC v.settled).val ++ (writeC v.state).val ++ (writeC v.batchable).val),
    3 + ((measureC v.role).calls + (measureC v.first).calls + (measureC v.last).calls + (measureC v.settled).calls + (measureC v.state).calls + (measureC v.batchable).calls) + ((writeC v.role).calls + (writeC v.first).calls + (writeC v.last).calls + (writeC v.settled).calls + (writeC v.state).calls + (writeC v.batchable).calls)⟩

/-- `encoded_size_detach_inner`, `src/protocol/definitions.rs:2692-2702`;
`encode_detach_inner`, `src/protocol/definitions.rs:2703-2720`. -/
instance : EncodeC Detach where
  measureC v := ⟨listSize ((measureC v.handle).val + (measureC v.closed).val + (measureC v.error).val), 1 + ((measureC v.handle).calls + (measureC v.closed).calls + (measureC v.error).calls)⟩
  writeC v := ⟨listHdr 22 ((measureC v.handle).val + (measureC v.closed).val + (measureC v.error).val) 3 ++
    ((writeC v.handle).val ++ (writeC v.closed).val ++ (writeC v.error).val),
    3 + ((measureC v.handle).calls + (measureC v.closed).calls + (measureC v.error).calls) + ((writeC v.handle).calls + (writeC v.closed).calls + (writeC v.error).calls)⟩

/-- `encoded_size_end_inner`, `src/protocol/definitions.rs:2774-2783`;
`encode_end_inner`, `src/protocol/definitions.rs:2784-2798`. -/
instance : EncodeC End where
  measureC v := ⟨listSize ((measureC v.error).val), 1 + ((measureC v.error).calls)⟩
  writeC v := ⟨listHdr 23 ((measureC v.error).val) 1 ++
    ((writeC v.error).val),
    3 + ((measureC v.error).calls) + ((writeC v.error).calls)⟩

/-- `encoded_size_close_inner`, `src/protocol/definitions.rs:2852-2861`;
`encode_close_inner`, `src/protocol/definitions.rs:2862-2876`. -/
instance : EncodeC Close where
  measureC v := ⟨listSize ((measureC v.error).val), 1 + ((measureC v.error).calls)⟩
  writeC v := ⟨listHdr 24 ((measureC v.error).val) 1 ++
    ((writeC v.error).val),
    3 + ((measureC v.error).calls) + ((writeC v.error).calls)⟩

/-- `encoded_size_sasl_mechanisms_inner`, `src/protocol/definitions.rs:2937-2946`;
`encode_sasl_mechanisms_inner`, `src/protocol/definitions.rs:2947-2961`. -/
instance : EncodeC SaslMechanisms where
  measureC v := ⟨listSize ((measureC v.sasl_server_mechanisms).val), 1 + ((measureC v.sasl_server_mechanisms).calls)⟩
  writeC v := ⟨listHdr 64 ((measureC v.sasl_server_mechanisms).val) 1 ++
    ((writeC v.sasl_server_mechanisms).val),
    3 + ((measureC v.sasl_server_mechanisms).calls) + ((writeC v.sasl_server_mechanisms).calls)⟩

/-- `encoded_size_sasl_init_inner`, `src/protocol/definitions.rs:3048-3060`;
`encode_sasl_init_inner`, `src/protocol/definitions.rs:3061-3080`. -/
instance : EncodeC SaslInit where
  measureC v := ⟨listSize ((measureC v.mechanism).val + (measureC v.initial_response).val + (measureC v.hostname).val), 1 + ((measureC v.mechanism).calls + (measureC v.initial_response).calls + (measureC v.hostname).calls)⟩
  writeC v := ⟨listHdr 65 ((measureC v.mechanism).val + (measureC v.initial_response).val + (measureC v.hostname).val) 3 ++
    ((writeC v.mechanism).val ++ (writeC v.initial_response).val ++ (writeC v.hostname).val),
    3 + ((measureC v.mechanism).calls + (measureC v.initial_response).calls + (measureC v.hostname).calls) + ((writeC v.mechanism).calls + (writeC v.initial_response).calls + (writeC v.hostname).calls)⟩

/-- `encoded_size_sasl_challenge_inner`, `src/protocol/definitions.rs:3134-3143`;
`encode_sasl_challenge_inner`, `src/protocol/definitions.rs:3144-3158`. -/
instance : EncodeC SaslChallenge where
  measureC v := ⟨listSize ((measureC v.challenge).val), 1 + ((measureC v.challenge).calls)⟩
  writeC v := ⟨listHdr 66 ((measureC v.challenge).val) 1 ++
    ((writeC v.challenge).val),
    3 + ((measureC v.challenge).calls) + ((writeC v.challenge).calls)⟩

/-- `encoded_size_sasl_response_inner`, `src/protocol/definitions.rs:3212-3221`;
`encode_sasl_response_inner`, `src/protocol/definitions.rs:3222-3236`. -/
instance : EncodeC SaslResponse where
  measureC v := ⟨listSize ((measureC v.response).val), 1 + ((measureC v.response).calls)⟩
  writeC v := ⟨listHdr 67 ((measureC v.response).val) 1 ++
    ((writeC v.response).val),
    3 + ((measureC v.response).calls) + ((writeC v.response).calls)⟩

/-- `encoded_size_sasl_outcome_inner`, `src/protocol/definitions.rs:3309-3318`;
`encode_sasl_outcome_inner`, `src/protocol/definitions.rs:3319-3334`. -/
instance : EncodeC SaslOutcome where
  measureC v := ⟨listSize ((measureC v.code).val + (measureC v.additional_data).val), 1 + ((measureC v.code).calls + (measureC v.additional_data).calls)⟩
  writeC v := ⟨listHdr 68 ((measureC v.code).val + (measureC v.additional_data).val) 2 ++
    ((writeC v.code).val ++ (writeC v.additional_data).val),
    3 + ((measureC v.code).calls + (measureC v.additional_data).calls) + ((writeC v.code).calls + (writeC v.additional_data).calls)⟩

/-- `encoded_size_header_inner`, `src/protocol/definitions.rs:3891-3905`;
`encode_header_inner`, `src/protocol/definitions.rs:3906-3929`. -/
instance : EncodeC Header where
  measureC v := ⟨listSize ((measureC v.durable).val + (measureC v.priority).val + (measureC v.ttl).val + (measureC v.first_acquirer).val + (measureC v.delivery_count).val), 1 + ((measureC v.durable).calls + (measureC v.priority).calls + (measureC v.ttl).calls + (measureC v.first_acquirer).calls + (measureC v.delivery_count).calls)⟩
  writeC v := ⟨listHdr 112 ((measureC v.durable).val + (measureC v.priority).val + (measureC v.ttl).val + (measureC v.first_acquirer).val + (measureC v.delivery_count).val) 5 ++
    ((writeC v.durable).val ++ (writeC v.priority).val ++ (writeC v.ttl).val ++ (writeC v.first_acquirer).val ++ (writeC v.delivery_count).val),
    3 + ((measureC v.durable).calls + (measureC v.priority).calls + (measureC v.ttl).calls + (measureC v.first_acquirer).calls + (measureC v.delivery_count).calls) + ((writeC v.durable).calls + (writeC v.priority).calls + (writeC v.ttl).calls + (writeC v.first_acquirer).calls + (writeC v.delivery_count).calls)⟩

/-- `encoded_size_properties_inner`, `src/protocol/definitions.rs:4156-4178`;
`encode_properties_inner`, `src/protocol/definitions.rs:4179-4218`. -/
instance : EncodeC Properties where
  measureC v := ⟨listSize ((measureC v.message_id).val + (measureC v.user_id).val + (measureC v.to).val + (measureC v.subject).val + (measureC v.reply_to).val + (measureC v.correlation_id).val + (measureC v.content_type).val + (measureC v.content_encoding).val + (measureC v.absolute_expiry_time).val + (measureC v.creation_time).val + (measureC v.group_id).val + (measureC v.group_sequence).val + (measureC v.reply_to_group_id).val), 1 + ((measureC v.message_id).calls + (measureC v.user_id).calls + (measureC v.to).calls + (measureC v.subject).calls + (measureC v.reply_to).calls + (measureC v.correlation_id).calls + (measureC v.content_type).calls + (measureC v.content_encoding).calls + (measureC v.absolute_expiry_time).calls + (measureC v.creation_time).calls + (measureC v.group_id).calls + (measureC v.group_sequence).calls + (measureC v.reply_to_group_id).calls)⟩
  writeC v := ⟨listHdr 115 ((measureC v.message_id).val + (measureC v.user_id).val + (measureC v.to).val + (measureC v.subject).val + (measureC v.reply_to).val + (measureC v.correlation_id).val + (measureC v.content_type).val + (measureC v.content_encoding).val + (measureC v.absolute_expiry_time).val + (measureC v.creation_time).val + (measureC v.group_id).val + (measureC v.group_sequence).val + (measureC v.reply_to_group_id).val) 13 ++
    ((writeC v.message_id).val ++ (writeC v.user_id).val ++ (writeC v.to).val ++ (writeC v.subject).val ++ (writeC v.reply_to).val ++ (writeC v.correlation_id).val ++ (writeC v.content_type).val ++ (writeC v.content_encoding).val ++ (writeC v.absolute_expiry_time).val ++ (writeC v.creation_time).val ++ (writeC v.group_id).val ++ (writeC v.group_sequence).val ++ (writeC v.reply_to_group_id).val),
    3 + ((measureC v.message_id).calls + (measureC v.user_id).calls + (measureC v.to).calls + (measureC v.subject).calls + (measureC v.reply_to).calls + (measureC v.correlation_id).calls + (measureC v.content_type).calls + (measureC v.content_encoding).calls + (measureC v.absolute_expiry_time).calls + (measureC v.creation_time).calls + (measureC v.group_id).calls + (measureC v.group_sequence).calls + (measureC v.reply_to_group_id).calls) + ((writeC v.message_id).calls + (writeC v.user_id).calls + (writeC v.to).calls + (writeC v.subject).calls + (writeC v.reply_to).calls + (writeC v.correlation_id).calls + (writeC v.content_type).calls + (writeC v.content_encoding).calls + (writeC v.absolute_expiry_time).calls + (writeC v.creation_time).calls + (writeC v.group_id).calls + (writeC v.group_sequence).calls + (writeC v.reply_to_group_id).calls)⟩

/-- `src/protocol/definitions.rs:244-263`. -/
instance : EncodeC SaslFrameBody where
  measureC
    | .SaslMechanisms v => measureC v
    | .SaslInit v => measureC v
    | .SaslChallenge v => measureC v
    | .SaslResponse v => measureC v
    | .SaslOutcome v => measureC v
  writeC
    | .SaslMechanisms v => writeC v
    | .SaslInit v => writeC v
    | .SaslChallenge v => writeC v
    | .SaslResponse v => writeC v
    | .SaslOutcome v => writeC v

/-- `src/protocol/definitions.rs:395-422`. -/
instance : EncodeC Section where
  measureC
    | .Header v => measureC v
    | .DeliveryAnnotations v => ⟨3 + (measureC v).val, 1 + (measureC v).calls⟩
    | .MessageAnnotations v => ⟨3 + (measureC v).val, 1 + (measureC v).calls⟩
    | .ApplicationProperties v => ⟨3 + (measureC v).val, 1 + (measureC v).calls⟩
    | .Data v => ⟨3 + (measureC v).val, 1 + (measureC v).calls⟩
    | .AmqpSequence v => ⟨3 + (measureC v).val, 1 + (measureC v).calls⟩
    | .AmqpValue v => ⟨3 + (measureC v).val, 1 + (measureC v).calls⟩
    | .Footer v => ⟨3 + (measureC v).val, 1 + (measureC v).calls⟩
    | .Properties v => measureC v
  writeC
    | .Header v => writeC v
    | .DeliveryAnnotations v => ⟨enc (Descriptor.ulong 113) ++ (writeC v).val, 3 + (writeC v).calls⟩
    | .MessageAnnotations v => ⟨enc (Descriptor.ulong 114) ++ (writeC v).val, 3 + (writeC v).calls⟩
    | .ApplicationProperties v => ⟨enc (Descriptor.ulong 116) ++ (writeC v).val, 3 + (writeC v).calls⟩
    | .Data v => ⟨enc (Descriptor.ulong 117) ++ (writeC v).val, 3 + (writeC v).calls⟩
    | .AmqpSequence v => ⟨enc (Descriptor.ulong 118) ++ (writeC v).val, 3 + (writeC v).calls⟩
    | .AmqpValue v => ⟨enc (Descriptor.ulong 119) ++ (writeC v).val, 3 + (writeC v).calls⟩
    | .Footer v => ⟨enc (Descriptor.ulong 120) ++ (writeC v).val, 3 + (writeC v).calls⟩
    | .Properties v => writeC v

end Amqp
