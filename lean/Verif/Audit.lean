import Lean
import Verif.Axioms
import Verif.Props.Accessors
import Verif.Props.Buffers
import Verif.Props.Builders
import Verif.Props.Codegen
import Verif.Props.CodegenAccessors
import Verif.Props.CodegenShipped
import Verif.Props.Conditions
import Verif.Props.Conversions
import Verif.Props.Counted
import Verif.Props.Crashes
import Verif.Props.Credentials
import Verif.Props.CutShort
import Verif.Props.Delivery
import Verif.Props.Descriptors
import Verif.Props.Display
import Verif.Props.EndOfStream
import Verif.Props.Enumerations
import Verif.Props.Equality
import Verif.Props.ErrorText
import Verif.Props.Errors
import Verif.Props.Extended
import Verif.Props.Flooding
import Verif.Props.Formats
import Verif.Props.Forwarding
import Verif.Props.Frames
import Verif.Props.Getters
import Verif.Props.Growth
import Verif.Props.Handshake
import Verif.Props.Hashing
import Verif.Props.KeyNumbers
import Verif.Props.Kinds
import Verif.Props.Laws
import Verif.Props.Lenient
import Verif.Props.Looks
import Verif.Props.Messages
import Verif.Props.Modes
import Verif.Props.Oversize
import Verif.Props.Passing
import Verif.Props.Performatives
import Verif.Props.Plain
import Verif.Props.ReadExactly
import Verif.Props.Refusals
import Verif.Props.Resources
import Verif.Props.Room
import Verif.Props.Safety
import Verif.Props.Scalars
import Verif.Props.Sending
import Verif.Props.Sent
import Verif.Props.Stack
import Verif.Props.StackUse
import Verif.Props.Standard
import Verif.Props.StandardReading
import Verif.Props.StandardWritten
import Verif.Props.Steady
import Verif.Props.Streams
import Verif.Props.Text
import Verif.Props.TextErrors
import Verif.Props.Times
import Verif.Props.Travel
import Verif.Props.Truncation
import Verif.Props.Values
import Verif.Props.Views
import Verif.Props.Wire
import Verif.Props.Work
import Verif.Props.WorkFrames
/-! Generated by `tools/gen_manifest.py`: the build fails if a theorem of the
manifest depends on an axiom other than `propext`, `Classical.choice` and
`Quot.sound`. -/

#audit Amqp.C01_fixed_round_trip
#audit Amqp.C01_fixed_items_round_trip
#audit Amqp.C02_text_round_trip
#audit Amqp.C02_text_items_round_trip
#audit Amqp.C02_static_symbol
#audit Amqp.C03_size_exact
#audit Amqp.C03_size_exact_generic
#audit Amqp.C03_size_exact_frames
#audit Amqp.C04_shortest_encoding
#audit Amqp.C05_reads_prefix
#audit Amqp.C05_reads_prefix_generic
#audit Amqp.C06_transfer
#audit Amqp.C06_transfer_cut
#audit Amqp.C06_frame_body
#audit Amqp.C06_amqp_frame
#audit Amqp.C06_sasl_frame
#audit Amqp.C06_message
#audit Amqp.C06_no_truncation
#audit Amqp.C06_no_truncation_generic
#audit Amqp.C06_encoder_output
#audit Amqp.C07_unambiguous
#audit Amqp.C07_sequence
#audit Amqp.C07_sequence_unambiguous
#audit Amqp.C08_never_panics
#audit Amqp.C08_optional
#audit Amqp.C09_causes_partial
#audit Amqp.C09_harmless_partial
#audit Amqp.C09_release_partial
#audit Amqp.C09_violated_overflow
#audit Amqp.C09_violated_map
#audit Amqp.C09_violated_array
#audit Amqp.C09_violated_key
#audit Amqp.C09_violated_timestamp
#audit Amqp.C09_violated_open
#audit Amqp.C10_text_is_utf8
#audit Amqp.C11_char_scalar_values
#audit Amqp.C12_timestamp_instant_partial
#audit Amqp.C12_violated_before_epoch
#audit Amqp.C12_violated_out_of_range
#audit Amqp.C12_encode_floor
#audit Amqp.C12_round_trip_iff
#audit Amqp.C13_descriptor_round_trip_partial
#audit Amqp.C13_violated_ulong_zero
#audit Amqp.C14_round_trip_iff
#audit Amqp.C14_round_trip_partial
#audit Amqp.C14_violated
#audit Amqp.C14_violated_witness
#audit Amqp.C14_violated_static_symbol
#audit Amqp.C15_violated_every_list
#audit Amqp.C15_violated_witness
#audit Amqp.C15_violated_sequence_section
#audit Amqp.C15_decodes_list8
#audit Amqp.C16_map_round_trip
#audit Amqp.C16_same_order
#audit Amqp.C16_variant_order
#audit Amqp.C17_keys_unique
#audit Amqp.C17_last_value_wins
#audit Amqp.C17_variant_keys_unique
#audit Amqp.C17_variant_last_value_wins
#audit Amqp.C18_map_items
#audit Amqp.C18_symbol_item
#audit Amqp.C18_array_iff
#audit Amqp.C18_array_round_trip_partial
#audit Amqp.C18_multiple_round_trip_partial
#audit Amqp.C18_item_sizes
#audit Amqp.C18_symbols_round_trip_partial
#audit Amqp.C18_violated_254
#audit Amqp.C18_violated_witness
#audit Amqp.C19_role
#audit Amqp.C19_sender_settle_mode
#audit Amqp.C19_receiver_settle_mode
#audit Amqp.C19_amqp_error
#audit Amqp.C19_connection_error
#audit Amqp.C19_session_error
#audit Amqp.C19_link_error
#audit Amqp.C19_sasl_code
#audit Amqp.C19_terminus_durability
#audit Amqp.C19_terminus_expiry_policy
#audit Amqp.C20_condition_decode
#audit Amqp.C20_condition_round_trip
#audit Amqp.C20_condition_custom_standard
#audit Amqp.C20_distribution_decode
#audit Amqp.C20_distribution_round_trip
#audit Amqp.C21_sasl_frame_body
#audit Amqp.C21_section
#audit Amqp.C21_delivery_state
#audit Amqp.C21_outcome
#audit Amqp.C21_error
#audit Amqp.C21_open
#audit Amqp.C21_begin
#audit Amqp.C21_attach
#audit Amqp.C21_flow
#audit Amqp.C21_transfer
#audit Amqp.C21_disposition
#audit Amqp.C21_detach
#audit Amqp.C21_end
#audit Amqp.C21_close
#audit Amqp.C21_sasl_mechanisms
#audit Amqp.C21_sasl_init
#audit Amqp.C21_sasl_challenge
#audit Amqp.C21_sasl_response
#audit Amqp.C21_sasl_outcome
#audit Amqp.C21_source
#audit Amqp.C21_target
#audit Amqp.C21_header
#audit Amqp.C21_properties
#audit Amqp.C21_received
#audit Amqp.C21_accepted
#audit Amqp.C21_rejected
#audit Amqp.C21_released
#audit Amqp.C21_modified
#audit Amqp.C22_null
#audit Amqp.C22_some
#audit Amqp.C22_error
#audit Amqp.C22_open
#audit Amqp.C22_begin
#audit Amqp.C22_attach
#audit Amqp.C22_flow
#audit Amqp.C22_transfer
#audit Amqp.C22_disposition
#audit Amqp.C22_detach
#audit Amqp.C22_end
#audit Amqp.C22_close
#audit Amqp.C22_sasl_mechanisms
#audit Amqp.C22_sasl_init
#audit Amqp.C22_sasl_challenge
#audit Amqp.C22_sasl_response
#audit Amqp.C22_sasl_outcome
#audit Amqp.C22_source
#audit Amqp.C22_target
#audit Amqp.C22_header
#audit Amqp.C22_properties
#audit Amqp.C22_received
#audit Amqp.C22_accepted
#audit Amqp.C22_rejected
#audit Amqp.C22_released
#audit Amqp.C22_modified
#audit Amqp.C23_lists
#audit Amqp.C24_error
#audit Amqp.C24_open
#audit Amqp.C24_begin
#audit Amqp.C24_attach
#audit Amqp.C24_flow
#audit Amqp.C24_transfer
#audit Amqp.C24_disposition
#audit Amqp.C24_detach
#audit Amqp.C24_end
#audit Amqp.C24_close
#audit Amqp.C24_sasl_mechanisms
#audit Amqp.C24_sasl_init
#audit Amqp.C24_sasl_challenge
#audit Amqp.C24_sasl_response
#audit Amqp.C24_sasl_outcome
#audit Amqp.C24_source
#audit Amqp.C24_target
#audit Amqp.C24_header
#audit Amqp.C24_properties
#audit Amqp.C24_received
#audit Amqp.C24_accepted
#audit Amqp.C24_rejected
#audit Amqp.C24_released
#audit Amqp.C24_modified
#audit Amqp.C24_sasl_frame_body_members
#audit Amqp.C24_sasl_frame_body_others
#audit Amqp.C24_section_members
#audit Amqp.C24_section_others
#audit Amqp.C24_delivery_state_members
#audit Amqp.C24_delivery_state_others
#audit Amqp.C24_outcome_members
#audit Amqp.C24_outcome_others
#audit Amqp.C24_frame_members
#audit Amqp.C24_frame_others
#audit Amqp.C25_amqp
#audit Amqp.C25_sasl
#audit Amqp.C25_amqp_only
#audit Amqp.C25_sasl_only
#audit Amqp.C25_reject
#audit Amqp.C26_amqp
#audit Amqp.C26_sasl
#audit Amqp.C27_decode
#audit Amqp.C27_decode_only
#audit Amqp.C27_frame
#audit Amqp.C27_encode
#audit Amqp.C27_messages
#audit Amqp.C27_round_trip
#audit Amqp.C28_chunks
#audit Amqp.C28_schedule
#audit Amqp.C29_amqp
#audit Amqp.C29_sasl
#audit Amqp.C30_prefix
#audit Amqp.C30_none_header
#audit Amqp.C30_none_frame
#audit Amqp.C30_some
#audit Amqp.C31_consumed_partial
#audit Amqp.C31_violated_always
#audit Amqp.C31_violated
#audit Amqp.C31_violated_forever
#audit Amqp.C32_violated_panic
#audit Amqp.C32_violated_stall
#audit Amqp.C32_short_partial
#audit Amqp.C33_wait
#audit Amqp.C33_decode
#audit Amqp.C33_accepts
#audit Amqp.C33_no_panic
#audit Amqp.C33_encode
#audit Amqp.C33_round_trip
#audit Amqp.C34_appends
#audit Amqp.C34_frames
#audit Amqp.C34_needs_size
#audit Amqp.C35_excess
#audit Amqp.C35_no_headers_partial
#audit Amqp.C35_app_properties
#audit Amqp.C35_violated
#audit Amqp.C35_violated_frame
#audit Amqp.C35_violated_nested
#audit Amqp.C36_history_partial
#audit Amqp.C36_start
#audit Amqp.C36_violated_set_value
#audit Amqp.C36_violated
#audit Amqp.C36_violated_overrun
#audit Amqp.C37_in
#audit Amqp.C37_out_in
#audit Amqp.C37_out
#audit Amqp.C37_nested
#audit Amqp.C38_violated_always
#audit Amqp.C38_violated
#audit Amqp.C38_violated_witness
#audit Amqp.C39_sections
#audit Amqp.C39_only
#audit Amqp.C39_exchange
#audit Amqp.C40_reply
#audit Amqp.C41_layout
#audit Amqp.C41_parse
#audit Amqp.C41_unique
#audit Amqp.C41_ambiguous
#audit Amqp.C42_eq
#audit Amqp.C42_equivalence
#audit Amqp.C42_eq_str
#audit Amqp.C42_accessors
#audit Amqp.C42_constructors
#audit Amqp.C42_encode
#audit Amqp.C42_hash
#audit Amqp.C42_hash_needs
#audit Amqp.C42_decode
#audit Amqp.C42_order
#audit Amqp.C42_order_inconsistent
#audit Amqp.C42_variant
#audit Amqp.C43_equivalence
#audit Amqp.C43_map_equality
#audit Amqp.C43_order_irrelevant
#audit Amqp.C43_floats
#audit Amqp.C43_nan
#audit Amqp.C44_violated
#audit Amqp.C44_enough
#audit Amqp.C45_decoded_round_trips
#audit Amqp.C45_not_longer
#audit Amqp.C45_decoded_variant
#audit Amqp.C46_vec_map_round_trip
#audit Amqp.C46_read_as_hash_map
#audit Amqp.C47_format_codes
#audit Amqp.C47_optional
#audit Amqp.C48_fixed_width
#audit Amqp.C48_char_timestamp
#audit Amqp.C48_variable_width
#audit Amqp.C48_empty
#audit Amqp.C49_message_id_round_trip
#audit Amqp.C49_message_id_codes
#audit Amqp.C50_decode_exactly_partial
#audit Amqp.C50_decoders_exact
#audit Amqp.C50_bool
#audit Amqp.C50_symbol
#audit Amqp.C50_symbol_lenient
#audit Amqp.C50_decode_partial
#audit Amqp.C50_unambiguous
#audit Amqp.C50_encode_partial
#audit Amqp.C50_encode_exactly_partial
#audit Amqp.C50_array
#audit Amqp.C50_map
#audit Amqp.C50_array_written_partial
#audit Amqp.C50_items_legal
#audit Amqp.C50_map_written
#audit Amqp.C50_violated_descriptor
#audit Amqp.C50_violated_timestamp
#audit Amqp.C50_violated_key
#audit Amqp.C50_violated_decode
#audit Amqp.C50_violated_list
#audit Amqp.C50_violated_array
#audit Amqp.C51_only_app_in
#audit Amqp.C51_only_app_out
#audit Amqp.C51_header
#audit Amqp.C51_annotations
#audit Amqp.C51_properties
#audit Amqp.C51_value
#audit Amqp.C51_set_body
#audit Amqp.C51_set_data
#audit Amqp.C51_update
#audit Amqp.C51_app_property
#audit Amqp.C51_app_properties
#audit Amqp.C51_delivered
#audit Amqp.C52_variant
#audit Amqp.C52_binary
#audit Amqp.C52_string
#audit Amqp.C52_symbol
#audit Amqp.C52_list
#audit Amqp.C52_map
#audit Amqp.C52_vec_map
#audit Amqp.C52_array_partial
#audit Amqp.C52_symbol_item
#audit Amqp.C52_symbols
#audit Amqp.C52_violated_array
#audit Amqp.C52_violated
#audit Amqp.C53_covered_partial
#audit Amqp.C53_limit_partial
#audit Amqp.C53_violated_frame
#audit Amqp.C53_same_result
#audit Amqp.C53_success_partial
#audit Amqp.C53_bounded_partial
#audit Amqp.C53_array
#audit Amqp.C53_array_bounded
#audit Amqp.C53_violated_nested
#audit Amqp.C53_violated
#audit Amqp.C53_violated_array
#audit Amqp.C54_text_keys
#audit Amqp.C54_equal_hash
#audit Amqp.C54_hash_panics
#audit Amqp.C54_get
#audit Amqp.C54_insert
#audit Amqp.C54_last_inserted
#audit Amqp.C54_decode
#audit Amqp.C54_borrow
#audit Amqp.C55_variant_iff
#audit Amqp.C55_small_fits
#audit Amqp.C55_text_iff
#audit Amqp.C55_overflow
#audit Amqp.C55_decoded_count
#audit Amqp.C55_violated_binary
#audit Amqp.C55_violated_string
#audit Amqp.C55_violated
#audit Amqp.C55_violated_frame
#audit Amqp.C56_scalars
#audit Amqp.C56_enumerations
#audit Amqp.C56_lists
#audit Amqp.C56_option
#audit Amqp.C56_variant
#audit Amqp.C56_compound_partial
#audit Amqp.C56_violated_map
#audit Amqp.C56_violated_array
#audit Amqp.C56_violated
#audit Amqp.C56_frame
#audit Amqp.C56_frame_nothing
#audit Amqp.C56_message_partial
#audit Amqp.C56_violated_message
#audit Amqp.C56_violated_waiting
#audit Amqp.C57_payloads
#audit Amqp.C57_messages
#audit Amqp.C57_whole_message
#audit Amqp.C57_sendable_partial
#audit Amqp.C57_violated_header
#audit Amqp.C57_violated
#audit Amqp.C58_schedule
#audit Amqp.C58_beginning
#audit Amqp.C58_handshake
#audit Amqp.C58_sasl
#audit Amqp.C58_plain
#audit Amqp.C59_same
#audit Amqp.C59_call
#audit Amqp.C59_memory
#audit Amqp.C59_waiting
#audit Amqp.C59_fit_partial
#audit Amqp.C59_violated
#audit Amqp.C60_code
#audit Amqp.C60_kind
#audit Amqp.C60_text_partial
#audit Amqp.C60_violated_static_symbol
#audit Amqp.C60_violated
#audit Amqp.C61_values
#audit Amqp.C61_arrays
#audit Amqp.C61_performatives
#audit Amqp.C61_frames
#audit Amqp.C61_codec
#audit Amqp.C61_connection
#audit Amqp.C61_release
#audit Amqp.C61_stack
#audit Amqp.C61_exceptions
#audit Amqp.C62_values_partial
#audit Amqp.C62_exactly_partial
#audit Amqp.C62_performatives_partial
#audit Amqp.C62_sasl_partial
#audit Amqp.C62_sections_partial
#audit Amqp.C62_frame_partial
#audit Amqp.C62_sasl_frame_partial
#audit Amqp.C62_connection_partial
#audit Amqp.C62_message_partial
#audit Amqp.C62_violated_list
#audit Amqp.C62_violated
#audit Amqp.C62_violated_descriptor
#audit Amqp.C62_violated_array
#audit Amqp.C62_violated_body
#audit Amqp.C63_equivalence
#audit Amqp.C63_performatives
#audit Amqp.C63_sizes
#audit Amqp.C63_maps
#audit Amqp.C63_map_order
#audit Amqp.C63_received_frames
#audit Amqp.C63_received_messages
#audit Amqp.C63_equal_content
#audit Amqp.C63_content_partial
#audit Amqp.C63_violated_sized
#audit Amqp.C63_violated
#audit Amqp.C63_sized_both_partial
#audit Amqp.C63_violated_transfer
#audit Amqp.C64_same_values
#audit Amqp.C64_same_messages
#audit Amqp.C64_size
#audit Amqp.C64_values_partial
#audit Amqp.C64_values_exact
#audit Amqp.C64_violated_nested
#audit Amqp.C64_messages
#audit Amqp.C64_messages_linear
#audit Amqp.C64_messages_exact
#audit Amqp.C64_same_frames
#audit Amqp.C64_same_sasl
#audit Amqp.C64_fields_partial
#audit Amqp.C64_types_partial
#audit Amqp.C64_sections_partial
#audit Amqp.C64_frames_partial
#audit Amqp.C64_frames_flat
#audit Amqp.C64_sasl
#audit Amqp.C64_violated_frames
#audit Amqp.C64_violated
#audit Amqp.C65_frame_received
#audit Amqp.C65_frame_sent
#audit Amqp.C65_sasl
#audit Amqp.C65_items
#audit Amqp.C65_entries
#audit Amqp.C65_message_received
#audit Amqp.C65_message_set
#audit Amqp.C65_transfer_body
#audit Amqp.C65_text
#audit Amqp.C65_conditions
#audit Amqp.C65_described
#audit Amqp.C65_static_symbol
#audit Amqp.C65_error
#audit Amqp.C65_open
#audit Amqp.C65_begin
#audit Amqp.C65_attach
#audit Amqp.C65_flow
#audit Amqp.C65_transfer
#audit Amqp.C65_disposition
#audit Amqp.C65_detach
#audit Amqp.C65_end
#audit Amqp.C65_close
#audit Amqp.C65_sasl_mechanisms
#audit Amqp.C65_sasl_init
#audit Amqp.C65_sasl_challenge
#audit Amqp.C65_sasl_response
#audit Amqp.C65_sasl_outcome
#audit Amqp.C65_source
#audit Amqp.C65_target
#audit Amqp.C65_header
#audit Amqp.C65_properties
#audit Amqp.C65_received
#audit Amqp.C65_rejected
#audit Amqp.C65_modified
#audit Amqp.C65_frame_names
#audit Amqp.C66_scalars
#audit Amqp.C66_text
#audit Amqp.C66_list
#audit Amqp.C66_map
#audit Amqp.C66_keyed
#audit Amqp.C66_vec_map
#audit Amqp.C66_option
#audit Amqp.C66_message_id
#audit Amqp.C67_violated_io
#audit Amqp.C67_violated
#audit Amqp.C67_codec_partial
#audit Amqp.C68_scalars
#audit Amqp.C68_dynamic
#audit Amqp.C68_plain_exact
#audit Amqp.C68_binary_exact
#audit Amqp.C68_text_exact
#audit Amqp.C68_restricted
#audit Amqp.C68_list_types
#audit Amqp.C68_unions
#audit Amqp.C68_messages
#audit Amqp.C68_frames
#audit Amqp.C68_frame_calls
#audit Amqp.C68_frame_looks
#audit Amqp.C68_payload_exact
#audit Amqp.C68_codec
#audit Amqp.C68_session
#audit Amqp.C68_session_looks
#audit Amqp.C68_counts
#audit Amqp.C68_array
#audit Amqp.C68_array_exception
#audit Amqp.C69_scalars
#audit Amqp.C69_compound
#audit Amqp.C69_restricted
#audit Amqp.C69_list_types
#audit Amqp.C69_unions
#audit Amqp.C69_messages
#audit Amqp.C69_frame_header
#audit Amqp.C69_frame_start
#audit Amqp.C69_frames
#audit Amqp.C69_role
#audit Amqp.C70_violated_list
#audit Amqp.C70_violated_map
#audit Amqp.C70_violated
#audit Amqp.C70_scalars_partial
#audit Amqp.C70_restricted_partial
#audit Amqp.C70_final_dynamic_partial
#audit Amqp.C70_final_lists_partial
#audit Amqp.C70_final_frames_partial
#audit Amqp.C71_received
#audit Amqp.C71_accepted
#audit Amqp.C71_released
#audit Amqp.C71_sasl_challenge
#audit Amqp.C71_sasl_response
#audit Amqp.C71_sasl_outcome
#audit Amqp.C71_header
#audit Amqp.C71_message_id
#audit Amqp.C71_role
#audit Amqp.C71_sender_settle_mode
#audit Amqp.C71_receiver_settle_mode
#audit Amqp.C71_terminus_durability
#audit Amqp.C71_terminus_expiry_policy
#audit Amqp.C71_sasl_code
#audit Amqp.C71_error_partial
#audit Amqp.C71_rejected_partial
#audit Amqp.C71_modified_partial
#audit Amqp.C71_delivery_state_partial
#audit Amqp.C71_outcome_partial
#audit Amqp.C71_source_partial
#audit Amqp.C71_target_partial
#audit Amqp.C71_open_partial
#audit Amqp.C71_begin_partial
#audit Amqp.C71_attach_partial
#audit Amqp.C71_flow_partial
#audit Amqp.C71_transfer_partial
#audit Amqp.C71_disposition_partial
#audit Amqp.C71_detach_partial
#audit Amqp.C71_end_partial
#audit Amqp.C71_close_partial
#audit Amqp.C71_properties_partial
#audit Amqp.C71_sasl_mechanisms_partial
#audit Amqp.C71_sasl_init_partial
#audit Amqp.C71_sasl_frame_body_partial
#audit Amqp.C71_error_condition_partial
#audit Amqp.C71_distribution_mode_partial
#audit Amqp.C71_filter_set_partial
#audit Amqp.C71_read_amqp_frame_partial
#audit Amqp.C71_read_sasl_frame
#audit Amqp.C71_read_stream_partial
#audit Amqp.C71_read_sasl_stream
#audit Amqp.C71_written_amqp_frame_partial
#audit Amqp.C71_written_transfer_partial
#audit Amqp.C71_written_sasl_frame_partial
#audit Amqp.C71_read_message_partial
#audit Amqp.C71_read_out_message_partial
#audit Amqp.C71_written_message_partial
#audit Amqp.C71_written_out_message_partial
#audit Amqp.C71_violated_filter
#audit Amqp.C71_violated_coordinator
#audit Amqp.C71_violated_sequence
#audit Amqp.C71_violated_two_bodies
#audit Amqp.C71_violated_filter_written
#audit Amqp.C71_read_exactly_partial
#audit Amqp.C71_read_amqp_frame_exactly_partial
#audit Amqp.C71_read_stream_exactly_partial
#audit Amqp.C71_read_message_exactly_partial
#audit Amqp.C71_written_exactly_partial
#audit Amqp.C71_written_amqp_frame_exactly_partial
#audit Amqp.C71_written_sasl_frame_exactly_partial
#audit Amqp.C71_written_message_exactly_partial
#audit Amqp.C71_written_out_message_exactly_partial
#audit Amqp.C72_bool
#audit Amqp.C72_u8
#audit Amqp.C72_u16
#audit Amqp.C72_u32
#audit Amqp.C72_u64
#audit Amqp.C72_i8
#audit Amqp.C72_i16
#audit Amqp.C72_i32
#audit Amqp.C72_i64
#audit Amqp.C72_f32
#audit Amqp.C72_f64
#audit Amqp.C72_char
#audit Amqp.C72_uuid
#audit Amqp.C72_binary
#audit Amqp.C72_string
#audit Amqp.C72_symbol
#audit Amqp.C72_timestamp
#audit Amqp.C72_descriptor
#audit Amqp.C72_variant
#audit Amqp.C72_list
#audit Amqp.C72_map
#audit Amqp.C72_fields
#audit Amqp.C72_annotations
#audit Amqp.C72_string_map
#audit Amqp.C72_filter_set
#audit Amqp.C72_vec_map
#audit Amqp.C72_symbols
#audit Amqp.C72_role
#audit Amqp.C72_sender_settle_mode
#audit Amqp.C72_receiver_settle_mode
#audit Amqp.C72_terminus_durability
#audit Amqp.C72_terminus_expiry_policy
#audit Amqp.C72_sasl_code
#audit Amqp.C72_amqp_error
#audit Amqp.C72_connection_error
#audit Amqp.C72_session_error
#audit Amqp.C72_link_error
#audit Amqp.C72_error_condition
#audit Amqp.C72_distribution_mode
#audit Amqp.C72_message_id
#audit Amqp.C72_error
#audit Amqp.C72_received
#audit Amqp.C72_accepted
#audit Amqp.C72_rejected
#audit Amqp.C72_released
#audit Amqp.C72_modified
#audit Amqp.C72_delivery_state
#audit Amqp.C72_outcome
#audit Amqp.C72_source
#audit Amqp.C72_target
#audit Amqp.C72_open
#audit Amqp.C72_begin
#audit Amqp.C72_attach
#audit Amqp.C72_flow
#audit Amqp.C72_transfer_performative
#audit Amqp.C72_disposition
#audit Amqp.C72_detach
#audit Amqp.C72_end
#audit Amqp.C72_close
#audit Amqp.C72_sasl_mechanisms
#audit Amqp.C72_sasl_init
#audit Amqp.C72_sasl_challenge
#audit Amqp.C72_sasl_response
#audit Amqp.C72_sasl_outcome
#audit Amqp.C72_sasl_frame_body
#audit Amqp.C72_header
#audit Amqp.C72_properties
#audit Amqp.C72_section
#audit Amqp.C72_array
#audit Amqp.C72_option
#audit Amqp.C72_transfer
#audit Amqp.C72_frame_body
#audit Amqp.C72_amqp_frame
#audit Amqp.C72_sasl_frame
#audit Amqp.C72_delivered
#audit Amqp.C72_stream
#audit Amqp.C72_sasl_stream
#audit Amqp.C72_message
#audit Amqp.C72_out_message
#audit Amqp.C72_message_language
#audit Amqp.C72_unambiguous
#audit Amqp.C72_unambiguous_frames
#audit Amqp.C72_legal_frames
#audit Amqp.C72_legal_sasl_frames
#audit Amqp.C72_legal_messages
#audit Amqp.C72_tolerated
#audit Amqp.Codegen.C73_accessors
#audit Amqp.Codegen.C73_accessors_fit
#audit Amqp.Codegen.C73_accessors_all
#audit Amqp.Codegen.C73_generate
#audit Amqp.Codegen.C73_lists
#audit Amqp.Codegen.C73_transfer
#audit Amqp.Codegen.C73_enums
#audit Amqp.Codegen.C73_unions
#audit Amqp.Codegen.C73_frame
#audit Amqp.Codegen.C74_list_partial
#audit Amqp.Codegen.C74_list_size_partial
#audit Amqp.Codegen.C74_list_refused
#audit Amqp.Codegen.C74_transfer_partial
#audit Amqp.Codegen.C74_enum
#audit Amqp.Codegen.C74_symbols
#audit Amqp.Codegen.C74_symbols_size_partial
#audit Amqp.Codegen.C74_union_partial
#audit Amqp.Codegen.C74_violated_zero
#audit Amqp.Codegen.C74_violated_size
#audit Amqp.Codegen.C74_violated_domain
#audit Amqp.Codegen.C75_type_identifier
#audit Amqp.Codegen.C75_field_identifier
#audit Amqp.Codegen.C75_types
#audit Amqp.Codegen.C75_fields
#audit Amqp.Codegen.C75_distinct
#audit Amqp.Codegen.C75_functions_partial
#audit Amqp.Codegen.C75_violated_functions
#audit Amqp.Codegen.C75_violated_keyword
#audit Amqp.Codegen.C76_read
#audit Amqp.Codegen.C76_stops
#audit Amqp.Codegen.C76_code
#audit Amqp.Codegen.C76_code_iff
#audit Amqp.Codegen.C76_provides
#audit Amqp.Codegen.C76_lists
#audit Amqp.Codegen.C76_others
#audit Amqp.Codegen.C76_types
#audit Amqp.Codegen.C76_unions
#audit Amqp.C77_insertions_partial
#audit Amqp.C77_spread_partial
#audit Amqp.C77_map_partial
#audit Amqp.C77_violated_any
#audit Amqp.C77_violated
#audit Amqp.C77_violated_open
#audit Amqp.C77_violated_fx
#audit Amqp.C77_violated_keys
#audit Amqp.C77_numbers_partial
#audit Amqp.C77_number_keys_partial
#audit Amqp.C78_identifies
#audit Amqp.C78_codec_identifies
#audit Amqp.C78_codec_io_identifies
#audit Amqp.C78_protocol_identifies
#audit Amqp.C78_one_line_iff_partial
#audit Amqp.C78_violated_quoted
#audit Amqp.C78_violated
#audit Amqp.C78_received_partial
#audit Amqp.C79_room
#audit Amqp.C79_exact_size
#audit Amqp.C79_all_or_panic
#audit Amqp.C79_frame_partial
#audit Amqp.C79_sasl
#audit Amqp.C79_plain
#audit Amqp.C79_scalars
#audit Amqp.C79_arrays
#audit Amqp.C79_message_partial
#audit Amqp.C79_messages_partial
#audit Amqp.C79_section_partial
#audit Amqp.C79_variant_iff
#audit Amqp.C79_violated_uuid
#audit Amqp.C80_size
#audit Amqp.C80_encode
#audit Amqp.C80_decoded
#audit Amqp.C80_needed
#audit Amqp.C80_hash
#audit Amqp.C80_hash_refused
#audit Amqp.C80_equal
#audit Amqp.C80_equal_needed
#audit Amqp.C80_clone
#audit Amqp.C80_drop
#audit Amqp.C80_decoded_uses
#audit Amqp.C81_body
#audit Amqp.C81_message
#audit Amqp.C81_frame
#audit Amqp.C81_codec
#audit Amqp.C82_ends
#audit Amqp.C82_ends_headers
#audit Amqp.C82_prompt
#audit Amqp.C82_prompt_headers
#audit Amqp.C82_amqp
#audit Amqp.C82_sasl
#audit Amqp.C82_headers
#audit Amqp.C82_clean_amqp
#audit Amqp.C82_clean_sasl
#audit Amqp.C82_cut_amqp
#audit Amqp.C82_cut_sasl
#audit Amqp.C83_sent
#audit Amqp.C83_refused
#audit Amqp.C83_flush
#audit Amqp.C83_pipe_amqp
#audit Amqp.C83_pipe_sasl
#audit Amqp.C84_scalars
#audit Amqp.C84_enumerations
#audit Amqp.C84_timestamp
#audit Amqp.C84_variant
#audit Amqp.C84_list
#audit Amqp.C84_map
#audit Amqp.C84_fields
#audit Amqp.C84_string_map
#audit Amqp.C84_filter_set
#audit Amqp.C84_vec_map
#audit Amqp.C84_symbols
#audit Amqp.C84_array
#audit Amqp.C84_option
#audit Amqp.C84_keys
#audit Amqp.C84_error
#audit Amqp.C84_received
#audit Amqp.C84_accepted
#audit Amqp.C84_rejected
#audit Amqp.C84_released
#audit Amqp.C84_modified
#audit Amqp.C84_delivery_state
#audit Amqp.C84_outcome
#audit Amqp.C84_source
#audit Amqp.C84_target
#audit Amqp.C84_open
#audit Amqp.C84_begin
#audit Amqp.C84_attach
#audit Amqp.C84_flow
#audit Amqp.C84_transfer_performative
#audit Amqp.C84_disposition
#audit Amqp.C84_detach
#audit Amqp.C84_end
#audit Amqp.C84_close
#audit Amqp.C84_sasl_mechanisms
#audit Amqp.C84_sasl_init
#audit Amqp.C84_sasl_challenge
#audit Amqp.C84_sasl_response
#audit Amqp.C84_sasl_outcome
#audit Amqp.C84_sasl_frame_body
#audit Amqp.C84_transfer
#audit Amqp.C84_header
#audit Amqp.C84_properties
#audit Amqp.C84_section
#audit Amqp.C84_frame_body
#audit Amqp.C84_amqp_frame
#audit Amqp.C84_sasl_frame
#audit Amqp.C84_codec
#audit Amqp.C84_sasl_codec
#audit Amqp.C84_codec_pending
#audit Amqp.C84_stream
#audit Amqp.C84_sasl_stream
#audit Amqp.C84_message
#audit Amqp.C84_out_message
#audit Amqp.C84_error_otherwise
#audit Amqp.C84_one_reason
#audit Amqp.C85_variant
#audit Amqp.C85_time
#audit Amqp.C85_map
#audit Amqp.C85_arrives_iff
#audit Amqp.C85_times_iff
#audit Amqp.C85_unaltered
#audit Amqp.C85_settled
#audit Amqp.C85_time_moved
#audit Amqp.C85_same_everywhere
#audit Amqp.C86_parts
#audit Amqp.C86_frame
#audit Amqp.C86_sasl_frame
#audit Amqp.C86_stream
#audit Amqp.C86_sasl_stream
#audit Amqp.C86_in_message
#audit Amqp.C86_out_message
#audit Amqp.C86_settled
#audit Amqp.C86_sasl_unaltered
#audit Amqp.C87_parts
#audit Amqp.C87_frame
#audit Amqp.C87_frame_iff
#audit Amqp.C87_sasl_frame
#audit Amqp.C87_connection
#audit Amqp.C87_chain
#audit Amqp.C87_message
#audit Amqp.C88_value
#audit Amqp.C88_value_tight
#audit Amqp.C88_parts
#audit Amqp.C88_plain
#audit Amqp.C88_frame
#audit Amqp.C88_sasl_frame
#audit Amqp.C88_message
#audit Amqp.C88_sasl_tight
#audit Amqp.C88_frame_tight
#audit Amqp.C88_max_frame_size
#audit Amqp.C88_connection
#audit Amqp.C88_sasl_connection
#audit Amqp.C88_short
#audit Amqp.C88_chain
#audit Amqp.C88_release
#audit Amqp.C89_condition_partial
#audit Amqp.C89_identifies_partial
#audit Amqp.C89_whole_partial
#audit Amqp.C89_one_line_iff_partial
#audit Amqp.C89_violated_forged
#audit Amqp.C89_violated_representation
#audit Amqp.C89_violated_quoted
#audit Amqp.C89_violated
#audit Amqp.C90_violated_tells
#audit Amqp.C90_violated_password
#audit Amqp.C90_violated
#audit Amqp.C90_errors_partial
#audit Amqp.Codegen.C91_extended
#audit Amqp.Codegen.C91_new_to_old
#audit Amqp.Codegen.C91_old_to_new
#audit Amqp.Codegen.C91_transfer
#audit Amqp.Codegen.C91_enum_extended
#audit Amqp.Codegen.C91_enum
#audit Amqp.Codegen.C91_symbols
#audit Amqp.Codegen.C91_union_known
#audit Amqp.Codegen.C91_union_added
#audit Amqp.C92_steady_partial
#audit Amqp.C92_sasl
#audit Amqp.C92_variant_iff
#audit Amqp.C92_violated_float
#audit Amqp.C92_violated_order
#audit Amqp.C92_violated
#audit Amqp.C93_scalars
#audit Amqp.C93_enumerations
#audit Amqp.C93_open_enumerations
#audit Amqp.C93_variant
#audit Amqp.C93_list
#audit Amqp.C93_map
#audit Amqp.C93_fields
#audit Amqp.C93_string_map
#audit Amqp.C93_filter_set
#audit Amqp.C93_vec_map
#audit Amqp.C93_symbols
#audit Amqp.C93_array
#audit Amqp.C93_multiple
#audit Amqp.C93_option
#audit Amqp.C93_error
#audit Amqp.C93_received
#audit Amqp.C93_accepted
#audit Amqp.C93_rejected
#audit Amqp.C93_released
#audit Amqp.C93_modified
#audit Amqp.C93_delivery_state
#audit Amqp.C93_outcome
#audit Amqp.C93_source
#audit Amqp.C93_target
#audit Amqp.C93_open
#audit Amqp.C93_begin
#audit Amqp.C93_attach
#audit Amqp.C93_flow
#audit Amqp.C93_transfer_performative
#audit Amqp.C93_disposition
#audit Amqp.C93_detach
#audit Amqp.C93_end
#audit Amqp.C93_close
#audit Amqp.C93_sasl_mechanisms
#audit Amqp.C93_sasl_init
#audit Amqp.C93_sasl_challenge
#audit Amqp.C93_sasl_response
#audit Amqp.C93_sasl_outcome
#audit Amqp.C93_sasl_frame_body
#audit Amqp.C93_transfer
#audit Amqp.C93_header
#audit Amqp.C93_properties
#audit Amqp.C93_section
#audit Amqp.C93_frame_body
#audit Amqp.C93_amqp_frame
#audit Amqp.C93_sasl_frame
#audit Amqp.C93_codec
#audit Amqp.C93_sasl_codec
#audit Amqp.C93_codec_pending
#audit Amqp.C93_sasl_codec_pending
#audit Amqp.C93_stream
#audit Amqp.C93_sasl_stream
#audit Amqp.C93_message
#audit Amqp.C93_out_message
#audit Amqp.C93_total
#audit Amqp.C93_codec_total
#audit Amqp.C93_sasl_codec_total
#audit Amqp.C93_message_total
#audit Amqp.C94_text
#audit Amqp.C94_value
#audit Amqp.C94_received
#audit Amqp.C94_one
#audit Amqp.C94_valid_up_to
#audit Amqp.C94_cut
#audit Amqp.C94_wrong
#audit Amqp.C95_value
#audit Amqp.C95_frame
#audit Amqp.C95_stream
#audit Amqp.C95_sasl_frame
#audit Amqp.C95_message
