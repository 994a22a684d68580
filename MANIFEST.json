{
 "claims": [
  {
   "property": "C01",
   "status": "proved",
   "theorems": [
    "Amqp.C01_fixed_round_trip",
    "Amqp.C01_fixed_items_round_trip"
   ],
   "note": ""
  },
  {
   "property": "C02",
   "status": "proved",
   "theorems": [
    "Amqp.C02_text_round_trip",
    "Amqp.C02_text_items_round_trip",
    "Amqp.C02_static_symbol"
   ],
   "note": ""
  },
  {
   "property": "C03",
   "status": "proved",
   "theorems": [
    "Amqp.C03_size_exact",
    "Amqp.C03_size_exact_generic",
    "Amqp.C03_size_exact_frames"
   ],
   "note": ""
  },
  {
   "property": "C04",
   "status": "proved",
   "theorems": [
    "Amqp.C04_shortest_encoding"
   ],
   "note": ""
  },
  {
   "property": "C05",
   "status": "proved",
   "theorems": [
    "Amqp.C05_reads_prefix",
    "Amqp.C05_reads_prefix_generic"
   ],
   "note": ""
  },
  {
   "property": "C06",
   "status": "proved",
   "theorems": [
    "Amqp.C06_transfer",
    "Amqp.C06_transfer_cut",
    "Amqp.C06_frame_body",
    "Amqp.C06_amqp_frame",
    "Amqp.C06_sasl_frame",
    "Amqp.C06_message",
    "Amqp.C06_no_truncation",
    "Amqp.C06_no_truncation_generic",
    "Amqp.C06_encoder_output"
   ],
   "note": ""
  },
  {
   "property": "C07",
   "status": "proved",
   "theorems": [
    "Amqp.C07_unambiguous",
    "Amqp.C07_sequence",
    "Amqp.C07_sequence_unambiguous"
   ],
   "note": ""
  },
  {
   "property": "C08",
   "status": "proved",
   "theorems": [
    "Amqp.C08_never_panics",
    "Amqp.C08_optional"
   ],
   "note": ""
  },
  {
   "property": "C09",
   "status": "partial",
   "theorems": [
    "Amqp.C09_causes_partial",
    "Amqp.C09_harmless_partial",
    "Amqp.C09_release_partial",
    "Amqp.C09_violated_overflow",
    "Amqp.C09_violated_map",
    "Amqp.C09_violated_array",
    "Amqp.C09_violated_key",
    "Amqp.C09_violated_timestamp",
    "Amqp.C09_violated_open"
   ],
   "note": "False of the code as stated: panic and stack-overflow witnesses are proved, and every panic of every decoder is proved to be due to a listed feature of the input (so inputs without them never panic)."
  },
  {
   "property": "C10",
   "status": "proved",
   "theorems": [
    "Amqp.C10_text_is_utf8"
   ],
   "note": ""
  },
  {
   "property": "C11",
   "status": "proved",
   "theorems": [
    "Amqp.C11_char_scalar_values"
   ],
   "note": ""
  },
  {
   "property": "C12",
   "status": "partial",
   "theorems": [
    "Amqp.C12_timestamp_instant_partial",
    "Amqp.C12_violated_before_epoch",
    "Amqp.C12_violated_out_of_range",
    "Amqp.C12_encode_floor",
    "Amqp.C12_round_trip_iff"
   ],
   "note": "False of the code for timestamps before the epoch and outside chrono's range; the exact set of surviving values is proved."
  },
  {
   "property": "C13",
   "status": "partial",
   "theorems": [
    "Amqp.C13_descriptor_round_trip_partial",
    "Amqp.C13_violated_ulong_zero"
   ],
   "note": "False of the code for the descriptor Ulong(0); proved for all others."
  },
  {
   "property": "C14",
   "status": "partial",
   "theorems": [
    "Amqp.C14_round_trip_iff",
    "Amqp.C14_round_trip_partial",
    "Amqp.C14_violated",
    "Amqp.C14_violated_witness",
    "Amqp.C14_violated_static_symbol"
   ],
   "note": "False of the code for some variants; proved as an equivalence: exactly the variants described by Variant.Survives round-trip."
  },
  {
   "property": "C15",
   "status": "partial",
   "theorems": [
    "Amqp.C15_violated_every_list",
    "Amqp.C15_violated_witness",
    "Amqp.C15_violated_sequence_section",
    "Amqp.C15_decodes_list8"
   ],
   "note": "False of the code: proved that no list at all can be read back."
  },
  {
   "property": "C16",
   "status": "proved",
   "theorems": [
    "Amqp.C16_map_round_trip",
    "Amqp.C16_same_order",
    "Amqp.C16_variant_order"
   ],
   "note": ""
  },
  {
   "property": "C17",
   "status": "proved",
   "theorems": [
    "Amqp.C17_keys_unique",
    "Amqp.C17_last_value_wins",
    "Amqp.C17_variant_keys_unique",
    "Amqp.C17_variant_last_value_wins"
   ],
   "note": ""
  },
  {
   "property": "C18",
   "status": "partial",
   "theorems": [
    "Amqp.C18_map_items",
    "Amqp.C18_symbol_item",
    "Amqp.C18_array_iff",
    "Amqp.C18_array_round_trip_partial",
    "Amqp.C18_multiple_round_trip_partial",
    "Amqp.C18_item_sizes",
    "Amqp.C18_symbols_round_trip_partial",
    "Amqp.C18_violated_254",
    "Amqp.C18_violated_witness"
   ],
   "note": "False of the code in builds with overflow checks for 254 item bytes; proved as an equivalence."
  },
  {
   "property": "C19",
   "status": "proved",
   "theorems": [
    "Amqp.C19_role",
    "Amqp.C19_sender_settle_mode",
    "Amqp.C19_receiver_settle_mode",
    "Amqp.C19_amqp_error",
    "Amqp.C19_connection_error",
    "Amqp.C19_session_error",
    "Amqp.C19_link_error",
    "Amqp.C19_sasl_code",
    "Amqp.C19_terminus_durability",
    "Amqp.C19_terminus_expiry_policy"
   ],
   "note": ""
  },
  {
   "property": "C20",
   "status": "proved",
   "theorems": [
    "Amqp.C20_condition_decode",
    "Amqp.C20_condition_round_trip",
    "Amqp.C20_condition_custom_standard",
    "Amqp.C20_distribution_decode",
    "Amqp.C20_distribution_round_trip"
   ],
   "note": ""
  },
  {
   "property": "C21",
   "status": "proved",
   "theorems": [
    "Amqp.C21_sasl_frame_body",
    "Amqp.C21_section",
    "Amqp.C21_delivery_state",
    "Amqp.C21_outcome",
    "Amqp.C21_error",
    "Amqp.C21_open",
    "Amqp.C21_begin",
    "Amqp.C21_attach",
    "Amqp.C21_flow",
    "Amqp.C21_transfer",
    "Amqp.C21_disposition",
    "Amqp.C21_detach",
    "Amqp.C21_end",
    "Amqp.C21_close",
    "Amqp.C21_sasl_mechanisms",
    "Amqp.C21_sasl_init",
    "Amqp.C21_sasl_challenge",
    "Amqp.C21_sasl_response",
    "Amqp.C21_sasl_outcome",
    "Amqp.C21_source",
    "Amqp.C21_target",
    "Amqp.C21_header",
    "Amqp.C21_properties",
    "Amqp.C21_received",
    "Amqp.C21_accepted",
    "Amqp.C21_rejected",
    "Amqp.C21_released",
    "Amqp.C21_modified"
   ],
   "note": ""
  },
  {
   "property": "C22",
   "status": "proved",
   "theorems": [
    "Amqp.C22_null",
    "Amqp.C22_some",
    "Amqp.C22_error",
    "Amqp.C22_open",
    "Amqp.C22_begin",
    "Amqp.C22_attach",
    "Amqp.C22_flow",
    "Amqp.C22_transfer",
    "Amqp.C22_disposition",
    "Amqp.C22_detach",
    "Amqp.C22_end",
    "Amqp.C22_close",
    "Amqp.C22_sasl_mechanisms",
    "Amqp.C22_sasl_init",
    "Amqp.C22_sasl_challenge",
    "Amqp.C22_sasl_response",
    "Amqp.C22_sasl_outcome",
    "Amqp.C22_source",
    "Amqp.C22_target",
    "Amqp.C22_header",
    "Amqp.C22_properties",
    "Amqp.C22_received",
    "Amqp.C22_accepted",
    "Amqp.C22_rejected",
    "Amqp.C22_released",
    "Amqp.C22_modified"
   ],
   "note": ""
  },
  {
   "property": "C23",
   "status": "proved",
   "theorems": [
    "Amqp.C23_lists"
   ],
   "note": ""
  },
  {
   "property": "C24",
   "status": "proved",
   "theorems": [
    "Amqp.C24_error",
    "Amqp.C24_open",
    "Amqp.C24_begin",
    "Amqp.C24_attach",
    "Amqp.C24_flow",
    "Amqp.C24_transfer",
    "Amqp.C24_disposition",
    "Amqp.C24_detach",
    "Amqp.C24_end",
    "Amqp.C24_close",
    "Amqp.C24_sasl_mechanisms",
    "Amqp.C24_sasl_init",
    "Amqp.C24_sasl_challenge",
    "Amqp.C24_sasl_response",
    "Amqp.C24_sasl_outcome",
    "Amqp.C24_source",
    "Amqp.C24_target",
    "Amqp.C24_header",
    "Amqp.C24_properties",
    "Amqp.C24_received",
    "Amqp.C24_accepted",
    "Amqp.C24_rejected",
    "Amqp.C24_released",
    "Amqp.C24_modified",
    "Amqp.C24_sasl_frame_body_members",
    "Amqp.C24_sasl_frame_body_others",
    "Amqp.C24_section_members",
    "Amqp.C24_section_others",
    "Amqp.C24_delivery_state_members",
    "Amqp.C24_delivery_state_others",
    "Amqp.C24_outcome_members",
    "Amqp.C24_outcome_others",
    "Amqp.C24_frame_members",
    "Amqp.C24_frame_others"
   ],
   "note": ""
  },
  {
   "property": "C25",
   "status": "proved",
   "theorems": [
    "Amqp.C25_amqp",
    "Amqp.C25_sasl",
    "Amqp.C25_amqp_only",
    "Amqp.C25_sasl_only",
    "Amqp.C25_reject"
   ],
   "note": ""
  },
  {
   "property": "C26",
   "status": "proved",
   "theorems": [
    "Amqp.C26_amqp",
    "Amqp.C26_sasl"
   ],
   "note": ""
  },
  {
   "property": "C27",
   "status": "proved",
   "theorems": [
    "Amqp.C27_decode",
    "Amqp.C27_decode_only",
    "Amqp.C27_frame",
    "Amqp.C27_encode",
    "Amqp.C27_messages",
    "Amqp.C27_round_trip"
   ],
   "note": ""
  },
  {
   "property": "C28",
   "status": "proved",
   "theorems": [
    "Amqp.C28_chunks",
    "Amqp.C28_schedule"
   ],
   "note": ""
  },
  {
   "property": "C29",
   "status": "proved",
   "theorems": [
    "Amqp.C29_amqp",
    "Amqp.C29_sasl"
   ],
   "note": ""
  },
  {
   "property": "C30",
   "status": "proved",
   "theorems": [
    "Amqp.C30_prefix",
    "Amqp.C30_none_header",
    "Amqp.C30_none_frame",
    "Amqp.C30_some"
   ],
   "note": ""
  },
  {
   "property": "C31",
   "status": "partial",
   "theorems": [
    "Amqp.C31_consumed_partial",
    "Amqp.C31_violated_always",
    "Amqp.C31_violated",
    "Amqp.C31_violated_forever"
   ],
   "note": "False of the code: a decoding error leaves the codec waiting for the rest of a frame it has consumed. What holds after errors is proved."
  },
  {
   "property": "C32",
   "status": "partial",
   "theorems": [
    "Amqp.C32_violated_panic",
    "Amqp.C32_violated_stall",
    "Amqp.C32_short_partial"
   ],
   "note": "False of the code: a frame size below 4 makes the codec panic (overflow checks) or wait for 2^64 bytes (no checks). Proved that all smaller violations are reported."
  },
  {
   "property": "C33",
   "status": "proved",
   "theorems": [
    "Amqp.C33_wait",
    "Amqp.C33_decode",
    "Amqp.C33_accepts",
    "Amqp.C33_no_panic",
    "Amqp.C33_encode",
    "Amqp.C33_round_trip"
   ],
   "note": ""
  },
  {
   "property": "C34",
   "status": "proved",
   "theorems": [
    "Amqp.C34_appends",
    "Amqp.C34_frames",
    "Amqp.C34_needs_size"
   ],
   "note": ""
  },
  {
   "property": "C35",
   "status": "partial",
   "theorems": [
    "Amqp.C35_excess",
    "Amqp.C35_no_headers_partial",
    "Amqp.C35_app_properties",
    "Amqp.C35_violated",
    "Amqp.C35_violated_frame",
    "Amqp.C35_violated_nested"
   ],
   "note": "False of the code for messages with a header section: the excess is proved to be exactly 3 bytes per header section; equality is proved for all others."
  },
  {
   "property": "C36",
   "status": "partial",
   "theorems": [
    "Amqp.C36_history_partial",
    "Amqp.C36_start",
    "Amqp.C36_violated_set_value",
    "Amqp.C36_violated",
    "Amqp.C36_violated_overrun"
   ],
   "note": "False of the code for set_value after encoded_size; proved for all other histories."
  },
  {
   "property": "C37",
   "status": "proved",
   "theorems": [
    "Amqp.C37_in",
    "Amqp.C37_out_in",
    "Amqp.C37_out",
    "Amqp.C37_nested"
   ],
   "note": ""
  },
  {
   "property": "C38",
   "status": "partial",
   "theorems": [
    "Amqp.C38_violated_always",
    "Amqp.C38_violated",
    "Amqp.C38_violated_witness"
   ],
   "note": "False of the code: the remainder of a decoded message is never empty; it is proved to be the bytes of the last section."
  },
  {
   "property": "C39",
   "status": "proved",
   "theorems": [
    "Amqp.C39_sections",
    "Amqp.C39_only",
    "Amqp.C39_exchange"
   ],
   "note": ""
  },
  {
   "property": "C40",
   "status": "proved",
   "theorems": [
    "Amqp.C40_reply"
   ],
   "note": ""
  },
  {
   "property": "C41",
   "status": "proved",
   "theorems": [
    "Amqp.C41_layout",
    "Amqp.C41_parse",
    "Amqp.C41_unique",
    "Amqp.C41_ambiguous"
   ],
   "note": ""
  },
  {
   "property": "C42",
   "status": "proved",
   "theorems": [
    "Amqp.C42_eq",
    "Amqp.C42_equivalence",
    "Amqp.C42_eq_str",
    "Amqp.C42_accessors",
    "Amqp.C42_constructors",
    "Amqp.C42_encode",
    "Amqp.C42_hash",
    "Amqp.C42_hash_needs",
    "Amqp.C42_decode",
    "Amqp.C42_order",
    "Amqp.C42_order_inconsistent",
    "Amqp.C42_variant"
   ],
   "note": "Hashing is proved to depend on the text only if the external crate string hashes String<Bytes> as a str (parameter asText; C42_hash_needs shows the assumption is needed). Ordering is proved to be inconsistent with equality, as the statement says."
  },
  {
   "property": "C43",
   "status": "proved",
   "theorems": [
    "Amqp.C43_equivalence",
    "Amqp.C43_map_equality",
    "Amqp.C43_order_irrelevant",
    "Amqp.C43_floats",
    "Amqp.C43_nan"
   ],
   "note": ""
  },
  {
   "property": "C44",
   "status": "partial",
   "theorems": [
    "Amqp.C44_violated",
    "Amqp.C44_enough"
   ],
   "note": "False of the code: proved that no stack budget suffices for all inputs; proved that a budget of a third of the input length suffices for every decoder."
  },
  {
   "property": "C45",
   "status": "proved",
   "theorems": [
    "Amqp.C45_decoded_round_trips",
    "Amqp.C45_not_longer",
    "Amqp.C45_decoded_variant"
   ],
   "note": ""
  },
  {
   "property": "C46",
   "status": "proved",
   "theorems": [
    "Amqp.C46_vec_map_round_trip",
    "Amqp.C46_read_as_hash_map"
   ],
   "note": ""
  },
  {
   "property": "C47",
   "status": "proved",
   "theorems": [
    "Amqp.C47_format_codes",
    "Amqp.C47_optional"
   ],
   "note": ""
  },
  {
   "property": "C48",
   "status": "proved",
   "theorems": [
    "Amqp.C48_fixed_width",
    "Amqp.C48_char_timestamp",
    "Amqp.C48_variable_width",
    "Amqp.C48_empty"
   ],
   "note": ""
  },
  {
   "property": "C49",
   "status": "proved",
   "theorems": [
    "Amqp.C49_message_id_round_trip",
    "Amqp.C49_message_id_codes"
   ],
   "note": ""
  },
  {
   "property": "C50",
   "status": "partial",
   "theorems": [
    "Amqp.C50_decode_exactly_partial",
    "Amqp.C50_decoders_exact",
    "Amqp.C50_bool",
    "Amqp.C50_symbol",
    "Amqp.C50_symbol_lenient",
    "Amqp.C50_decode_partial",
    "Amqp.C50_unambiguous",
    "Amqp.C50_encode_partial",
    "Amqp.C50_encode_exactly_partial",
    "Amqp.C50_array",
    "Amqp.C50_map",
    "Amqp.C50_array_written_partial",
    "Amqp.C50_items_legal",
    "Amqp.C50_map_written",
    "Amqp.C50_violated_descriptor",
    "Amqp.C50_violated_timestamp",
    "Amqp.C50_violated_key",
    "Amqp.C50_violated_decode",
    "Amqp.C50_violated_list",
    "Amqp.C50_violated_array"
   ],
   "note": "False of the code for descriptors in the one-byte form of 0, timestamps excluded by C12, keys containing maps (decoding), and for lists and arrays of 254 item bytes (encoding); proved otherwise, exactly for scalar and text types. What is written for a variant is legal exactly if it is Writable (C50_encode_exactly_partial). A legal encoding is read as its value exactly if it is within Dialect.accepted and nested within the stack (C50_decode_exactly_partial). The standard is transcribed in Verif/Spec/Wire.lean."
  },
  {
   "property": "C51",
   "status": "proved",
   "theorems": [
    "Amqp.C51_only_app_in",
    "Amqp.C51_only_app_out",
    "Amqp.C51_header",
    "Amqp.C51_annotations",
    "Amqp.C51_properties",
    "Amqp.C51_value",
    "Amqp.C51_set_body",
    "Amqp.C51_set_data",
    "Amqp.C51_update",
    "Amqp.C51_app_property",
    "Amqp.C51_app_properties",
    "Amqp.C51_delivered"
   ],
   "note": ""
  },
  {
   "property": "C52",
   "status": "partial",
   "theorems": [
    "Amqp.C52_variant",
    "Amqp.C52_binary",
    "Amqp.C52_string",
    "Amqp.C52_symbol",
    "Amqp.C52_list",
    "Amqp.C52_map",
    "Amqp.C52_vec_map",
    "Amqp.C52_array_partial",
    "Amqp.C52_symbol_item",
    "Amqp.C52_symbols",
    "Amqp.C52_violated_array",
    "Amqp.C52_violated"
   ],
   "note": "False of the code for arrays of items that take no bytes (C52_violated_array: ten bytes, any count); proved for all other types."
  },
  {
   "property": "C53",
   "status": "partial",
   "theorems": [
    "Amqp.C53_covered_partial",
    "Amqp.C53_limit_partial",
    "Amqp.C53_violated_frame",
    "Amqp.C53_same_result",
    "Amqp.C53_success_partial",
    "Amqp.C53_bounded_partial",
    "Amqp.C53_array",
    "Amqp.C53_array_bounded",
    "Amqp.C53_violated_nested",
    "Amqp.C53_violated",
    "Amqp.C53_violated_array"
   ],
   "note": "False of the code: a count is trusted before the input is looked at (C53_violated_nested). Proved for successful decodes other than arrays of items without bytes, and with a factor of 2^32-1 for all; both also for every message and frame (C53_covered_partial, C53_limit_partial), where C53_violated_frame needs 20 bytes of a SASL frame."
  },
  {
   "property": "C54",
   "status": "proved",
   "theorems": [
    "Amqp.C54_text_keys",
    "Amqp.C54_equal_hash",
    "Amqp.C54_hash_panics",
    "Amqp.C54_get",
    "Amqp.C54_insert",
    "Amqp.C54_last_inserted",
    "Amqp.C54_decode",
    "Amqp.C54_borrow"
   ],
   "note": "Strings are keyed by their text; that the two representations of Str hash alike is C42, under the same assumption on the external crate string."
  },
  {
   "property": "C55",
   "status": "partial",
   "theorems": [
    "Amqp.C55_variant_iff",
    "Amqp.C55_small_fits",
    "Amqp.C55_text_iff",
    "Amqp.C55_overflow",
    "Amqp.C55_decoded_count",
    "Amqp.C55_violated_binary",
    "Amqp.C55_violated_string",
    "Amqp.C55_violated",
    "Amqp.C55_violated_frame"
   ],
   "note": "False of the code: C55_violated_binary, C55_violated_frame. Proved as an equivalence for variants, binaries, strings and symbols; counts of arrays, lists and maps proved to be bounded for every decoded value."
  },
  {
   "property": "C56",
   "status": "partial",
   "theorems": [
    "Amqp.C56_scalars",
    "Amqp.C56_enumerations",
    "Amqp.C56_lists",
    "Amqp.C56_option",
    "Amqp.C56_variant",
    "Amqp.C56_compound_partial",
    "Amqp.C56_violated_map",
    "Amqp.C56_violated_array",
    "Amqp.C56_violated",
    "Amqp.C56_frame",
    "Amqp.C56_frame_nothing",
    "Amqp.C56_message_partial",
    "Amqp.C56_violated_message",
    "Amqp.C56_violated_waiting"
   ],
   "note": "False of the code: C56_violated_map, C56_violated_array, C56_violated_message, C56_violated_waiting. Proved without exception for scalars, text, enumerations, described lists and their unions; for values without maps; for frames up to the payload; maps, arrays and messages up to the stated outcomes."
  },
  {
   "property": "C57",
   "status": "partial",
   "theorems": [
    "Amqp.C57_payloads",
    "Amqp.C57_messages",
    "Amqp.C57_whole_message",
    "Amqp.C57_sendable_partial",
    "Amqp.C57_violated_header",
    "Amqp.C57_violated"
   ],
   "note": "Proved for payloads given as bytes and for messages without header sections given directly (C57_payloads, C57_messages, C57_whole_message, C57_sendable_partial). False of the code for messages with header sections given directly: C57_violated, exactly described by C57_violated_header."
  },
  {
   "property": "C58",
   "status": "proved",
   "theorems": [
    "Amqp.C58_schedule",
    "Amqp.C58_beginning",
    "Amqp.C58_handshake",
    "Amqp.C58_sasl",
    "Amqp.C58_plain"
   ],
   "note": ""
  },
  {
   "property": "C59",
   "status": "partial",
   "theorems": [
    "Amqp.C59_same",
    "Amqp.C59_call",
    "Amqp.C59_memory",
    "Amqp.C59_waiting",
    "Amqp.C59_fit_partial",
    "Amqp.C59_violated"
   ],
   "note": "Memory bound and independence of capacity proved. That the buffer is extended to fit the whole frame is false of the code beyond 32 KiB: C59_violated; proved up to that: C59_fit_partial."
  },
  {
   "property": "C60",
   "status": "partial",
   "theorems": [
    "Amqp.C60_code",
    "Amqp.C60_kind",
    "Amqp.C60_text_partial",
    "Amqp.C60_violated_static_symbol",
    "Amqp.C60_violated"
   ],
   "note": "Types proved without exception (C60_code, C60_kind). Text proved for all but StaticSymbol, for which it is false of the code: C60_violated_static_symbol."
  },
  {
   "property": "C61",
   "status": "proved",
   "theorems": [
    "Amqp.C61_values",
    "Amqp.C61_arrays",
    "Amqp.C61_performatives",
    "Amqp.C61_frames",
    "Amqp.C61_codec",
    "Amqp.C61_connection",
    "Amqp.C61_release",
    "Amqp.C61_stack",
    "Amqp.C61_exceptions"
   ],
   "note": ""
  },
  {
   "property": "C62",
   "status": "partial",
   "theorems": [
    "Amqp.C62_values_partial",
    "Amqp.C62_exactly_partial",
    "Amqp.C62_performatives_partial",
    "Amqp.C62_sasl_partial",
    "Amqp.C62_sections_partial",
    "Amqp.C62_frame_partial",
    "Amqp.C62_sasl_frame_partial",
    "Amqp.C62_connection_partial",
    "Amqp.C62_message_partial",
    "Amqp.C62_violated_list",
    "Amqp.C62_violated",
    "Amqp.C62_violated_descriptor",
    "Amqp.C62_violated_array",
    "Amqp.C62_violated_body"
   ],
   "note": "False of the code as stated (C62_statement): C62_violated and the witnesses C62_violated_list, C62_violated_descriptor, C62_violated_array, C62_violated_body. Proved for everything that holds none of these (Forwardable), for values, performatives, sections, frames, messages and whole connections; for variants as an equivalence (C62_exactly_partial), for everything else as an equivalence in C87."
  },
  {
   "property": "C63",
   "status": "partial",
   "theorems": [
    "Amqp.C63_equivalence",
    "Amqp.C63_performatives",
    "Amqp.C63_sizes",
    "Amqp.C63_maps",
    "Amqp.C63_map_order",
    "Amqp.C63_received_frames",
    "Amqp.C63_received_messages",
    "Amqp.C63_equal_content",
    "Amqp.C63_content_partial",
    "Amqp.C63_violated_sized",
    "Amqp.C63_violated",
    "Amqp.C63_sized_both_partial",
    "Amqp.C63_violated_transfer"
   ],
   "note": "False of the code as stated (C63_violated: messages whose size was remembered, and C63_violated_transfer). Proved: == is an equivalence everywhere (C63_equivalence, C63_performatives) and equal values have equal sizes; == goes by content for messages none or both of which have been measured (C63_content_partial, C63_sized_both_partial)."
  },
  {
   "property": "C64",
   "status": "partial",
   "theorems": [
    "Amqp.C64_same_values",
    "Amqp.C64_same_messages",
    "Amqp.C64_size",
    "Amqp.C64_values_partial",
    "Amqp.C64_values_exact",
    "Amqp.C64_violated_nested",
    "Amqp.C64_messages",
    "Amqp.C64_messages_linear",
    "Amqp.C64_messages_exact",
    "Amqp.C64_same_frames",
    "Amqp.C64_same_sasl",
    "Amqp.C64_fields_partial",
    "Amqp.C64_types_partial",
    "Amqp.C64_sections_partial",
    "Amqp.C64_frames_partial",
    "Amqp.C64_frames_flat",
    "Amqp.C64_sasl",
    "Amqp.C64_violated_frames",
    "Amqp.C64_violated"
   ],
   "note": "False of the code as stated (C64_violated: maps in maps cost quadratically many calls). Proved: at most one call per byte and level of nesting for values (C64_values_partial), and exactly which values are looked at how often (C64_values_exact); linear for messages, whatever is cached (C64_messages, C64_messages_linear); for performatives and sections (C64_fields_partial), whole messages (C64_sections_partial) and frames handed to the codec (C64_frames_partial, C64_frames_flat) at most a constant per byte and level, and linear for SASL frames (C64_sasl)."
  },
  {
   "property": "C65",
   "status": "proved",
   "theorems": [
    "Amqp.C65_frame_received",
    "Amqp.C65_frame_sent",
    "Amqp.C65_sasl",
    "Amqp.C65_items",
    "Amqp.C65_entries",
    "Amqp.C65_message_received",
    "Amqp.C65_message_set",
    "Amqp.C65_transfer_body",
    "Amqp.C65_text",
    "Amqp.C65_conditions",
    "Amqp.C65_described",
    "Amqp.C65_static_symbol",
    "Amqp.C65_error",
    "Amqp.C65_open",
    "Amqp.C65_begin",
    "Amqp.C65_attach",
    "Amqp.C65_flow",
    "Amqp.C65_transfer",
    "Amqp.C65_disposition",
    "Amqp.C65_detach",
    "Amqp.C65_end",
    "Amqp.C65_close",
    "Amqp.C65_sasl_mechanisms",
    "Amqp.C65_sasl_init",
    "Amqp.C65_sasl_challenge",
    "Amqp.C65_sasl_response",
    "Amqp.C65_sasl_outcome",
    "Amqp.C65_source",
    "Amqp.C65_target",
    "Amqp.C65_header",
    "Amqp.C65_properties",
    "Amqp.C65_received",
    "Amqp.C65_rejected",
    "Amqp.C65_modified",
    "Amqp.C65_frame_names"
   ],
   "note": ""
  },
  {
   "property": "C66",
   "status": "proved",
   "theorems": [
    "Amqp.C66_scalars",
    "Amqp.C66_text",
    "Amqp.C66_list",
    "Amqp.C66_map",
    "Amqp.C66_keyed",
    "Amqp.C66_vec_map",
    "Amqp.C66_option",
    "Amqp.C66_message_id"
   ],
   "note": ""
  },
  {
   "property": "C67",
   "status": "partial",
   "theorems": [
    "Amqp.C67_violated_io",
    "Amqp.C67_violated",
    "Amqp.C67_codec_partial"
   ],
   "note": "False of the code as stated (C67_violated_io: Clone drops the inner I/O error). Proved: an error's clone is the error unless it is Io(Some(_)), and in particular for every error the codec itself returns (C67_codec_partial)."
  },
  {
   "property": "C68",
   "status": "proved",
   "theorems": [
    "Amqp.C68_scalars",
    "Amqp.C68_dynamic",
    "Amqp.C68_plain_exact",
    "Amqp.C68_binary_exact",
    "Amqp.C68_text_exact",
    "Amqp.C68_restricted",
    "Amqp.C68_list_types",
    "Amqp.C68_unions",
    "Amqp.C68_messages",
    "Amqp.C68_frames",
    "Amqp.C68_frame_calls",
    "Amqp.C68_frame_looks",
    "Amqp.C68_payload_exact",
    "Amqp.C68_codec",
    "Amqp.C68_session",
    "Amqp.C68_session_looks",
    "Amqp.C68_counts",
    "Amqp.C68_array",
    "Amqp.C68_array_exception"
   ],
   "note": ""
  },
  {
   "property": "C69",
   "status": "proved",
   "theorems": [
    "Amqp.C69_scalars",
    "Amqp.C69_compound",
    "Amqp.C69_restricted",
    "Amqp.C69_list_types",
    "Amqp.C69_unions",
    "Amqp.C69_messages",
    "Amqp.C69_frame_header",
    "Amqp.C69_frame_start",
    "Amqp.C69_frames",
    "Amqp.C69_role"
   ],
   "note": ""
  },
  {
   "property": "C70",
   "status": "partial",
   "theorems": [
    "Amqp.C70_violated_list",
    "Amqp.C70_violated_map",
    "Amqp.C70_violated",
    "Amqp.C70_scalars_partial",
    "Amqp.C70_restricted_partial",
    "Amqp.C70_final_dynamic_partial",
    "Amqp.C70_final_lists_partial",
    "Amqp.C70_final_frames_partial"
   ],
   "note": "Second half false of the code (C70_violated_list, C70_violated_map: a field or entry that does not fit its list or map is answered with Incomplete whatever follows). Proved: the first half for every type, frame and message; the second half for scalars, text, binaries, descriptors, arrays and restricted types."
  },
  {
   "property": "C71",
   "status": "partial",
   "theorems": [
    "Amqp.C71_received",
    "Amqp.C71_accepted",
    "Amqp.C71_released",
    "Amqp.C71_sasl_challenge",
    "Amqp.C71_sasl_response",
    "Amqp.C71_sasl_outcome",
    "Amqp.C71_header",
    "Amqp.C71_message_id",
    "Amqp.C71_role",
    "Amqp.C71_sender_settle_mode",
    "Amqp.C71_receiver_settle_mode",
    "Amqp.C71_terminus_durability",
    "Amqp.C71_terminus_expiry_policy",
    "Amqp.C71_sasl_code",
    "Amqp.C71_error_partial",
    "Amqp.C71_rejected_partial",
    "Amqp.C71_modified_partial",
    "Amqp.C71_delivery_state_partial",
    "Amqp.C71_outcome_partial",
    "Amqp.C71_source_partial",
    "Amqp.C71_target_partial",
    "Amqp.C71_open_partial",
    "Amqp.C71_begin_partial",
    "Amqp.C71_attach_partial",
    "Amqp.C71_flow_partial",
    "Amqp.C71_transfer_partial",
    "Amqp.C71_disposition_partial",
    "Amqp.C71_detach_partial",
    "Amqp.C71_end_partial",
    "Amqp.C71_close_partial",
    "Amqp.C71_properties_partial",
    "Amqp.C71_sasl_mechanisms_partial",
    "Amqp.C71_sasl_init_partial",
    "Amqp.C71_sasl_frame_body_partial",
    "Amqp.C71_error_condition_partial",
    "Amqp.C71_distribution_mode_partial",
    "Amqp.C71_filter_set_partial",
    "Amqp.C71_read_amqp_frame_partial",
    "Amqp.C71_read_sasl_frame",
    "Amqp.C71_read_stream_partial",
    "Amqp.C71_read_sasl_stream",
    "Amqp.C71_written_amqp_frame_partial",
    "Amqp.C71_written_transfer_partial",
    "Amqp.C71_written_sasl_frame_partial",
    "Amqp.C71_read_message_partial",
    "Amqp.C71_read_out_message_partial",
    "Amqp.C71_written_message_partial",
    "Amqp.C71_written_out_message_partial",
    "Amqp.C71_violated_filter",
    "Amqp.C71_violated_coordinator",
    "Amqp.C71_violated_sequence",
    "Amqp.C71_violated_two_bodies",
    "Amqp.C71_violated_filter_written",
    "Amqp.C71_read_exactly_partial",
    "Amqp.C71_read_amqp_frame_exactly_partial",
    "Amqp.C71_read_stream_exactly_partial",
    "Amqp.C71_read_message_exactly_partial",
    "Amqp.C71_written_exactly_partial",
    "Amqp.C71_written_amqp_frame_exactly_partial",
    "Amqp.C71_written_sasl_frame_exactly_partial",
    "Amqp.C71_written_message_exactly_partial",
    "Amqp.C71_written_out_message_exactly_partial"
   ],
   "note": "False of the code as stated (C71_violated_filter, C71_violated_filter_written, C71_violated_coordinator, C71_violated_sequence, C71_violated_two_bodies). Proved in full for the types without values of any type, symbols or times; for the others reading within Scope.accepted (values as in C50, nesting within the stack) and writing under the conditions Standard.can\u2026 (no lists within values, ASCII symbols, whole milliseconds, distinct keys, no text filters, no custom names that are the standard's, no arrays of 254 bytes). These conditions are exact (C71_written_\u2026_exactly_partial): below 4 GiB nothing else is written as the standard says, for every type, frames and messages with one kind of body. So is the restriction on reading (C71_read_exactly_partial, C71_read_amqp_frame_exactly_partial, C71_read_stream_exactly_partial, C71_read_message_exactly_partial): a legal encoding of a performative, delivery state, terminus, error or properties, a legal frame, stream of frames or message is read as what it is exactly if it is within Scope.accepted."
  },
  {
   "property": "C72",
   "status": "proved",
   "theorems": [
    "Amqp.C72_bool",
    "Amqp.C72_u8",
    "Amqp.C72_u16",
    "Amqp.C72_u32",
    "Amqp.C72_u64",
    "Amqp.C72_i8",
    "Amqp.C72_i16",
    "Amqp.C72_i32",
    "Amqp.C72_i64",
    "Amqp.C72_f32",
    "Amqp.C72_f64",
    "Amqp.C72_char",
    "Amqp.C72_uuid",
    "Amqp.C72_binary",
    "Amqp.C72_string",
    "Amqp.C72_symbol",
    "Amqp.C72_timestamp",
    "Amqp.C72_descriptor",
    "Amqp.C72_variant",
    "Amqp.C72_list",
    "Amqp.C72_map",
    "Amqp.C72_fields",
    "Amqp.C72_annotations",
    "Amqp.C72_string_map",
    "Amqp.C72_filter_set",
    "Amqp.C72_vec_map",
    "Amqp.C72_symbols",
    "Amqp.C72_role",
    "Amqp.C72_sender_settle_mode",
    "Amqp.C72_receiver_settle_mode",
    "Amqp.C72_terminus_durability",
    "Amqp.C72_terminus_expiry_policy",
    "Amqp.C72_sasl_code",
    "Amqp.C72_amqp_error",
    "Amqp.C72_connection_error",
    "Amqp.C72_session_error",
    "Amqp.C72_link_error",
    "Amqp.C72_error_condition",
    "Amqp.C72_distribution_mode",
    "Amqp.C72_message_id",
    "Amqp.C72_error",
    "Amqp.C72_received",
    "Amqp.C72_accepted",
    "Amqp.C72_rejected",
    "Amqp.C72_released",
    "Amqp.C72_modified",
    "Amqp.C72_delivery_state",
    "Amqp.C72_outcome",
    "Amqp.C72_source",
    "Amqp.C72_target",
    "Amqp.C72_open",
    "Amqp.C72_begin",
    "Amqp.C72_attach",
    "Amqp.C72_flow",
    "Amqp.C72_transfer_performative",
    "Amqp.C72_disposition",
    "Amqp.C72_detach",
    "Amqp.C72_end",
    "Amqp.C72_close",
    "Amqp.C72_sasl_mechanisms",
    "Amqp.C72_sasl_init",
    "Amqp.C72_sasl_challenge",
    "Amqp.C72_sasl_response",
    "Amqp.C72_sasl_outcome",
    "Amqp.C72_sasl_frame_body",
    "Amqp.C72_header",
    "Amqp.C72_properties",
    "Amqp.C72_section",
    "Amqp.C72_array",
    "Amqp.C72_option",
    "Amqp.C72_transfer",
    "Amqp.C72_frame_body",
    "Amqp.C72_amqp_frame",
    "Amqp.C72_sasl_frame",
    "Amqp.C72_delivered",
    "Amqp.C72_stream",
    "Amqp.C72_sasl_stream",
    "Amqp.C72_message",
    "Amqp.C72_out_message",
    "Amqp.C72_message_language",
    "Amqp.C72_unambiguous",
    "Amqp.C72_unambiguous_frames",
    "Amqp.C72_legal_frames",
    "Amqp.C72_legal_sasl_frames",
    "Amqp.C72_legal_messages",
    "Amqp.C72_tolerated"
   ],
   "note": ""
  },
  {
   "property": "C73",
   "status": "proved",
   "theorems": [
    "Amqp.Codegen.C73_accessors",
    "Amqp.Codegen.C73_accessors_fit",
    "Amqp.Codegen.C73_accessors_all",
    "Amqp.Codegen.C73_generate",
    "Amqp.Codegen.C73_lists",
    "Amqp.Codegen.C73_transfer",
    "Amqp.Codegen.C73_enums",
    "Amqp.Codegen.C73_unions",
    "Amqp.Codegen.C73_frame"
   ],
   "note": ""
  },
  {
   "property": "C74",
   "status": "partial",
   "theorems": [
    "Amqp.Codegen.C74_list_partial",
    "Amqp.Codegen.C74_list_size_partial",
    "Amqp.Codegen.C74_list_refused",
    "Amqp.Codegen.C74_transfer_partial",
    "Amqp.Codegen.C74_enum",
    "Amqp.Codegen.C74_symbols",
    "Amqp.Codegen.C74_symbols_size_partial",
    "Amqp.Codegen.C74_union_partial",
    "Amqp.Codegen.C74_violated_zero",
    "Amqp.Codegen.C74_violated_size",
    "Amqp.Codegen.C74_violated_domain"
   ],
   "note": "False of the code as stated: a list with the code 0 cannot be read back (C74_violated_zero), one with a code above 255 announces 7 bytes too few (C74_violated_size), and the domain of a code is dropped (C74_violated_domain). Proved for all other codes; sizes as an equivalence."
  },
  {
   "property": "C75",
   "status": "partial",
   "theorems": [
    "Amqp.Codegen.C75_type_identifier",
    "Amqp.Codegen.C75_field_identifier",
    "Amqp.Codegen.C75_types",
    "Amqp.Codegen.C75_fields",
    "Amqp.Codegen.C75_distinct",
    "Amqp.Codegen.C75_functions_partial",
    "Amqp.Codegen.C75_violated_functions",
    "Amqp.Codegen.C75_violated_keyword"
   ],
   "note": "False of the code as stated: x-link and xlink give the same function names (C75_violated_functions), and of the keywords of Rust only type and return are provided for (C75_violated_keyword). Types and fields proved without exception, functions for names whose words other than the last have two letters or more."
  },
  {
   "property": "C76",
   "status": "proved",
   "theorems": [
    "Amqp.Codegen.C76_read",
    "Amqp.Codegen.C76_stops",
    "Amqp.Codegen.C76_code",
    "Amqp.Codegen.C76_code_iff",
    "Amqp.Codegen.C76_provides",
    "Amqp.Codegen.C76_lists",
    "Amqp.Codegen.C76_others",
    "Amqp.Codegen.C76_types",
    "Amqp.Codegen.C76_unions"
   ],
   "note": ""
  },
  {
   "property": "C77",
   "status": "partial",
   "theorems": [
    "Amqp.C77_insertions_partial",
    "Amqp.C77_spread_partial",
    "Amqp.C77_map_partial",
    "Amqp.C77_violated_any",
    "Amqp.C77_violated",
    "Amqp.C77_violated_open",
    "Amqp.C77_violated_fx",
    "Amqp.C77_violated_keys",
    "Amqp.C77_numbers_partial",
    "Amqp.C77_number_keys_partial"
   ],
   "note": "False of the code as stated: for every fixed hash function of 64 bits there are inputs whose decoding takes a quadratic number of comparisons (C77_violated, C77_violated_any), also as an open frame (C77_violated_open), and explicitly for the hash function in use (C77_violated_fx). Proved: the quadratic bound, that keys of different hashes need no comparisons, and that in the hash function in use numbers of one type, truth values and characters have different hashes (C77_numbers_partial, C77_number_keys_partial)."
  },
  {
   "property": "C78",
   "status": "partial",
   "theorems": [
    "Amqp.C78_identifies",
    "Amqp.C78_codec_identifies",
    "Amqp.C78_codec_io_identifies",
    "Amqp.C78_protocol_identifies",
    "Amqp.C78_one_line_iff_partial",
    "Amqp.C78_violated_quoted",
    "Amqp.C78_violated",
    "Amqp.C78_received_partial"
   ],
   "note": "That texts identify errors is proved without exception. That they are single lines is false of the code: a symbolic descriptor is quoted unescaped (C78_violated, C78_violated_quoted); the exact condition is C78_one_line_iff_partial; for errors of frames and messages C78_received_partial."
  },
  {
   "property": "C79",
   "status": "partial",
   "theorems": [
    "Amqp.C79_room",
    "Amqp.C79_exact_size",
    "Amqp.C79_all_or_panic",
    "Amqp.C79_frame_partial",
    "Amqp.C79_sasl",
    "Amqp.C79_plain",
    "Amqp.C79_scalars",
    "Amqp.C79_arrays",
    "Amqp.C79_message_partial",
    "Amqp.C79_messages_partial",
    "Amqp.C79_section_partial",
    "Amqp.C79_variant_iff",
    "Amqp.C79_violated_uuid"
   ],
   "note": "That there is a panic without room is false of values that hold UUIDs (C79_violated_uuid; C79_variant_iff gives the exact condition for values of any type). Everything else is proved for all types."
  },
  {
   "property": "C80",
   "status": "proved",
   "theorems": [
    "Amqp.C80_size",
    "Amqp.C80_encode",
    "Amqp.C80_decoded",
    "Amqp.C80_needed",
    "Amqp.C80_hash",
    "Amqp.C80_hash_refused",
    "Amqp.C80_equal",
    "Amqp.C80_equal_needed",
    "Amqp.C80_clone",
    "Amqp.C80_drop",
    "Amqp.C80_decoded_uses"
   ],
   "note": ""
  },
  {
   "property": "C81",
   "status": "proved",
   "theorems": [
    "Amqp.C81_body",
    "Amqp.C81_message",
    "Amqp.C81_frame",
    "Amqp.C81_codec"
   ],
   "note": ""
  },
  {
   "property": "C82",
   "status": "proved",
   "theorems": [
    "Amqp.C82_ends",
    "Amqp.C82_ends_headers",
    "Amqp.C82_prompt",
    "Amqp.C82_prompt_headers",
    "Amqp.C82_amqp",
    "Amqp.C82_sasl",
    "Amqp.C82_headers",
    "Amqp.C82_clean_amqp",
    "Amqp.C82_clean_sasl",
    "Amqp.C82_cut_amqp",
    "Amqp.C82_cut_sasl"
   ],
   "note": ""
  },
  {
   "property": "C83",
   "status": "proved",
   "theorems": [
    "Amqp.C83_sent",
    "Amqp.C83_refused",
    "Amqp.C83_flush",
    "Amqp.C83_pipe_amqp",
    "Amqp.C83_pipe_sasl"
   ],
   "note": ""
  },
  {
   "property": "C84",
   "status": "proved",
   "theorems": [
    "Amqp.C84_scalars",
    "Amqp.C84_enumerations",
    "Amqp.C84_timestamp",
    "Amqp.C84_variant",
    "Amqp.C84_list",
    "Amqp.C84_map",
    "Amqp.C84_fields",
    "Amqp.C84_string_map",
    "Amqp.C84_filter_set",
    "Amqp.C84_vec_map",
    "Amqp.C84_symbols",
    "Amqp.C84_array",
    "Amqp.C84_option",
    "Amqp.C84_keys",
    "Amqp.C84_error",
    "Amqp.C84_received",
    "Amqp.C84_accepted",
    "Amqp.C84_rejected",
    "Amqp.C84_released",
    "Amqp.C84_modified",
    "Amqp.C84_delivery_state",
    "Amqp.C84_outcome",
    "Amqp.C84_source",
    "Amqp.C84_target",
    "Amqp.C84_open",
    "Amqp.C84_begin",
    "Amqp.C84_attach",
    "Amqp.C84_flow",
    "Amqp.C84_transfer_performative",
    "Amqp.C84_disposition",
    "Amqp.C84_detach",
    "Amqp.C84_end",
    "Amqp.C84_close",
    "Amqp.C84_sasl_mechanisms",
    "Amqp.C84_sasl_init",
    "Amqp.C84_sasl_challenge",
    "Amqp.C84_sasl_response",
    "Amqp.C84_sasl_outcome",
    "Amqp.C84_sasl_frame_body",
    "Amqp.C84_transfer",
    "Amqp.C84_header",
    "Amqp.C84_properties",
    "Amqp.C84_section",
    "Amqp.C84_frame_body",
    "Amqp.C84_amqp_frame",
    "Amqp.C84_sasl_frame",
    "Amqp.C84_codec",
    "Amqp.C84_sasl_codec",
    "Amqp.C84_codec_pending",
    "Amqp.C84_stream",
    "Amqp.C84_sasl_stream",
    "Amqp.C84_message",
    "Amqp.C84_out_message",
    "Amqp.C84_error_otherwise",
    "Amqp.C84_one_reason"
   ],
   "note": ""
  },
  {
   "property": "C85",
   "status": "proved",
   "theorems": [
    "Amqp.C85_variant",
    "Amqp.C85_time",
    "Amqp.C85_map",
    "Amqp.C85_arrives_iff",
    "Amqp.C85_times_iff",
    "Amqp.C85_unaltered",
    "Amqp.C85_settled",
    "Amqp.C85_time_moved",
    "Amqp.C85_same_everywhere"
   ],
   "note": ""
  },
  {
   "property": "C86",
   "status": "proved",
   "theorems": [
    "Amqp.C86_parts",
    "Amqp.C86_frame",
    "Amqp.C86_sasl_frame",
    "Amqp.C86_stream",
    "Amqp.C86_sasl_stream",
    "Amqp.C86_in_message",
    "Amqp.C86_out_message",
    "Amqp.C86_settled",
    "Amqp.C86_sasl_unaltered"
   ],
   "note": ""
  },
  {
   "property": "C87",
   "status": "proved",
   "theorems": [
    "Amqp.C87_parts",
    "Amqp.C87_frame",
    "Amqp.C87_frame_iff",
    "Amqp.C87_sasl_frame",
    "Amqp.C87_connection",
    "Amqp.C87_chain",
    "Amqp.C87_message"
   ],
   "note": ""
  },
  {
   "property": "C88",
   "status": "proved",
   "theorems": [
    "Amqp.C88_value",
    "Amqp.C88_value_tight",
    "Amqp.C88_parts",
    "Amqp.C88_plain",
    "Amqp.C88_frame",
    "Amqp.C88_sasl_frame",
    "Amqp.C88_message",
    "Amqp.C88_sasl_tight",
    "Amqp.C88_frame_tight",
    "Amqp.C88_max_frame_size",
    "Amqp.C88_connection",
    "Amqp.C88_sasl_connection",
    "Amqp.C88_short",
    "Amqp.C88_chain",
    "Amqp.C88_release"
   ],
   "note": ""
  },
  {
   "property": "C89",
   "status": "partial",
   "theorems": [
    "Amqp.C89_condition_partial",
    "Amqp.C89_identifies_partial",
    "Amqp.C89_whole_partial",
    "Amqp.C89_one_line_iff_partial",
    "Amqp.C89_violated_forged",
    "Amqp.C89_violated_representation",
    "Amqp.C89_violated_quoted",
    "Amqp.C89_violated"
   ],
   "note": "False of the code in each of its parts (C89_violated; C89_violated_forged, C89_violated_quoted, C89_violated_representation): symbols and strings are quoted unescaped. Proved: errors without further information are identified by their texts (C89_identifies_partial), condition and description if the symbol of the condition has no quotes (C89_condition_partial), the whole error if nothing in it has quotes or is NaN (C89_whole_partial), and exactly when a text is one line (C89_one_line_iff_partial). How floating point numbers, times, uuids, characters and binaries are shown is a parameter."
  },
  {
   "property": "C90",
   "status": "partial",
   "theorems": [
    "Amqp.C90_violated_tells",
    "Amqp.C90_violated_password",
    "Amqp.C90_violated",
    "Amqp.C90_errors_partial"
   ],
   "note": "False of the code (C90_violated): the text of a frame determines its credentials (C90_violated_tells), and passwords stand in it as typed (C90_violated_password). Proved: the error for an incomplete frame shows only a number (C90_errors_partial). The Debug of Bytes is modelled after bytes 0.4."
  },
  {
   "property": "C91",
   "status": "proved",
   "theorems": [
    "Amqp.Codegen.C91_extended",
    "Amqp.Codegen.C91_new_to_old",
    "Amqp.Codegen.C91_old_to_new",
    "Amqp.Codegen.C91_transfer",
    "Amqp.Codegen.C91_enum_extended",
    "Amqp.Codegen.C91_enum",
    "Amqp.Codegen.C91_symbols",
    "Amqp.Codegen.C91_union_known",
    "Amqp.Codegen.C91_union_added"
   ],
   "note": ""
  },
  {
   "property": "C92",
   "status": "partial",
   "theorems": [
    "Amqp.C92_steady_partial",
    "Amqp.C92_sasl",
    "Amqp.C92_variant_iff",
    "Amqp.C92_violated_float",
    "Amqp.C92_violated_order",
    "Amqp.C92_violated"
   ],
   "note": "False of the code: C92_violated_float, C92_violated_order, C92_violated. Proved for everything without zeros and NaNs in floating point and without maps of several entries (C92_steady_partial), for SASL frames in full (C92_sasl), and as an equivalence for variants (C92_variant_iff)."
  },
  {
   "property": "C93",
   "status": "proved",
   "theorems": [
    "Amqp.C93_scalars",
    "Amqp.C93_enumerations",
    "Amqp.C93_open_enumerations",
    "Amqp.C93_variant",
    "Amqp.C93_list",
    "Amqp.C93_map",
    "Amqp.C93_fields",
    "Amqp.C93_string_map",
    "Amqp.C93_filter_set",
    "Amqp.C93_vec_map",
    "Amqp.C93_symbols",
    "Amqp.C93_array",
    "Amqp.C93_multiple",
    "Amqp.C93_option",
    "Amqp.C93_error",
    "Amqp.C93_received",
    "Amqp.C93_accepted",
    "Amqp.C93_rejected",
    "Amqp.C93_released",
    "Amqp.C93_modified",
    "Amqp.C93_delivery_state",
    "Amqp.C93_outcome",
    "Amqp.C93_source",
    "Amqp.C93_target",
    "Amqp.C93_open",
    "Amqp.C93_begin",
    "Amqp.C93_attach",
    "Amqp.C93_flow",
    "Amqp.C93_transfer_performative",
    "Amqp.C93_disposition",
    "Amqp.C93_detach",
    "Amqp.C93_end",
    "Amqp.C93_close",
    "Amqp.C93_sasl_mechanisms",
    "Amqp.C93_sasl_init",
    "Amqp.C93_sasl_challenge",
    "Amqp.C93_sasl_response",
    "Amqp.C93_sasl_outcome",
    "Amqp.C93_sasl_frame_body",
    "Amqp.C93_transfer",
    "Amqp.C93_header",
    "Amqp.C93_properties",
    "Amqp.C93_section",
    "Amqp.C93_frame_body",
    "Amqp.C93_amqp_frame",
    "Amqp.C93_sasl_frame",
    "Amqp.C93_codec",
    "Amqp.C93_sasl_codec",
    "Amqp.C93_codec_pending",
    "Amqp.C93_sasl_codec_pending",
    "Amqp.C93_stream",
    "Amqp.C93_sasl_stream",
    "Amqp.C93_message",
    "Amqp.C93_out_message",
    "Amqp.C93_total",
    "Amqp.C93_codec_total",
    "Amqp.C93_sasl_codec_total",
    "Amqp.C93_message_total"
   ],
   "note": ""
  },
  {
   "property": "C94",
   "status": "proved",
   "theorems": [
    "Amqp.C94_text",
    "Amqp.C94_value",
    "Amqp.C94_received",
    "Amqp.C94_one",
    "Amqp.C94_valid_up_to",
    "Amqp.C94_cut",
    "Amqp.C94_wrong"
   ],
   "note": "run_utf8_validation of the standard library is transcribed (Utf8Error.lean), without its fast path over ASCII."
  },
  {
   "property": "C95",
   "status": "proved",
   "theorems": [
    "Amqp.C95_value",
    "Amqp.C95_frame",
    "Amqp.C95_stream",
    "Amqp.C95_sasl_frame",
    "Amqp.C95_message"
   ],
   "note": "Legal encodings as in C50 and C71 (Spec/Wire, Spec/Standard), of these the ones that are accepted; what holds no list: Spec/Plain."
  }
 ]
}
