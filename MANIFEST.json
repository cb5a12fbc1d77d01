{
 "claims": [
  {
   "property": "C01",
   "status": "partial",
   "theorems": [
    "FinProto.C01_fixed_width_partial",
    "FinProto.C01_default_padding",
    "FinProto.C01_fixed_width_overflow",
    "FinProto.C01_left_empty_writes_nothing",
    "FinProto.C01_fixed_width_violated"
   ],
   "note": "Holds except for null/empty values with left padding, which write nothing (C01_left_empty_writes_nothing, C01_fixed_width_violated)."
  },
  {
   "property": "C02",
   "status": "proved",
   "theorems": [
    "FinProto.C02_read_back",
    "FinProto.C02_round_trip",
    "FinProto.C02_default_round_trip"
   ],
   "note": ""
  },
  {
   "property": "C03",
   "status": "proved",
   "theorems": [
    "FinProto.C03_truncation",
    "FinProto.C03_truncation_ascii"
   ],
   "note": ""
  },
  {
   "property": "C04",
   "status": "proved",
   "theorems": [
    "FinProto.C04_fixed",
    "FinProto.C04_message"
   ],
   "note": ""
  },
  {
   "property": "C05",
   "status": "proved",
   "theorems": [
    "FinProto.C05_trim",
    "FinProto.C05_trim_unique",
    "FinProto.C05_trim_idempotent"
   ],
   "note": ""
  },
  {
   "property": "C06",
   "status": "proved",
   "theorems": [
    "FinProto.C06_consumption",
    "FinProto.C06_default_read"
   ],
   "note": ""
  },
  {
   "property": "C07",
   "status": "proved",
   "theorems": [
    "FinProto.C07_crc16"
   ],
   "note": ""
  },
  {
   "property": "C08",
   "status": "proved",
   "theorems": [
    "FinProto.C08_crc32"
   ],
   "note": ""
  },
  {
   "property": "C09",
   "status": "proved",
   "theorems": [
    "FinProto.C09_burst16",
    "FinProto.C09_burst32",
    "FinProto.C09_burst_bytes"
   ],
   "note": ""
  },
  {
   "property": "C10",
   "status": "proved",
   "theorems": [
    "FinProto.C10_sse_sum"
   ],
   "note": ""
  },
  {
   "property": "C11",
   "status": "proved",
   "theorems": [
    "FinProto.C11_szse_sum"
   ],
   "note": ""
  },
  {
   "property": "C12",
   "status": "proved",
   "theorems": [
    "FinProto.C12_single_byte",
    "FinProto.C12_single_byte_szse",
    "FinProto.C12_permutation"
   ],
   "note": ""
  },
  {
   "property": "C13",
   "status": "proved",
   "theorems": [
    "FinProto.C13_sum_concat",
    "FinProto.C13_sum_concat_szse",
    "FinProto.C13_crc_concat"
   ],
   "note": ""
  },
  {
   "property": "C14",
   "status": "proved",
   "theorems": [
    "FinProto.C14_verify",
    "FinProto.C14_verify_calc"
   ],
   "note": ""
  },
  {
   "property": "C15",
   "status": "proved",
   "theorems": [
    "FinProto.C15_lookup",
    "FinProto.C15_registry_result",
    "FinProto.C15_names_independent"
   ],
   "note": ""
  },
  {
   "property": "C16",
   "status": "proved",
   "theorems": [
    "FinProto.C16_default_registry",
    "FinProto.C16_sse_frame",
    "FinProto.C16_szse_frame"
   ],
   "note": "Shown for the SSE and SZSE frames, whose algorithms are not registered by default."
  },
  {
   "property": "C17",
   "status": "proved",
   "theorems": [
    "FinProto.C17_byte_set",
    "FinProto.C17_short_set"
   ],
   "note": ""
  },
  {
   "property": "C18",
   "status": "partial",
   "theorems": [
    "FinProto.C18_int_set_partial",
    "FinProto.C18_int_actual",
    "FinProto.C18_int_clear_violated",
    "FinProto.C18_long_set_partial",
    "FinProto.C18_long_actual",
    "FinProto.C18_long_clear_violated"
   ],
   "note": "set/get hold; clear is wrong in the code (C18_int_clear_violated, C18_long_clear_violated), exact behaviour in C18_*_actual."
  },
  {
   "property": "C19",
   "status": "partial",
   "theorems": [
    "FinProto.C19_byte",
    "FinProto.C19_short_partial",
    "FinProto.C19_int_partial",
    "FinProto.C19_long_partial",
    "FinProto.C19_short_violated",
    "FinProto.C19_int_violated",
    "FinProto.C19_long_violated"
   ],
   "note": "Holds for ByteBitMap; false for the other three (C19_*_violated); the exact surviving positions are proved in C19_*_partial."
  },
  {
   "property": "C20",
   "status": "proved",
   "theorems": [
    "FinProto.C20_byte",
    "FinProto.C20_short",
    "FinProto.C20_int",
    "FinProto.C20_long"
   ],
   "note": ""
  },
  {
   "property": "C21",
   "status": "proved",
   "theorems": [
    "FinProto.C21_byte",
    "FinProto.C21_short",
    "FinProto.C21_int",
    "FinProto.C21_long"
   ],
   "note": ""
  },
  {
   "property": "C22",
   "status": "proved",
   "theorems": [
    "FinProto.C22_encode_appends_image",
    "FinProto.C22_encode_plain",
    "FinProto.C22_prefix_untouched",
    "FinProto.C22_frames"
   ],
   "note": ""
  },
  {
   "property": "C23",
   "status": "proved",
   "theorems": [
    "FinProto.C23_general",
    "FinProto.C23_round_trip",
    "FinProto.C23_round_trip_plain"
   ],
   "note": ""
  },
  {
   "property": "C24",
   "status": "proved",
   "theorems": [
    "FinProto.C24_stream"
   ],
   "note": ""
  },
  {
   "property": "C25",
   "status": "proved",
   "theorems": [
    "FinProto.C25_classes",
    "FinProto.C25_fixed_size",
    "FinProto.C25_fixed_size_all"
   ],
   "note": ""
  },
  {
   "property": "C26",
   "status": "proved",
   "theorems": [
    "FinProto.C26_truncated_fails",
    "FinProto.C26_truncated_encoding"
   ],
   "note": ""
  },
  {
   "property": "C27",
   "status": "proved",
   "theorems": [
    "FinProto.C27_buffer_unchanged",
    "FinProto.C27_sees_only_consumed"
   ],
   "note": ""
  },
  {
   "property": "C28",
   "status": "proved",
   "theorems": [
    "FinProto.C28_errors",
    "FinProto.C28_terminates",
    "FinProto.C28_default_depth",
    "FinProto.C28_default_world",
    "FinProto.C28_depth_irrelevant"
   ],
   "note": ""
  },
  {
   "property": "C29",
   "status": "proved",
   "theorems": [
    "FinProto.C29_reused",
    "FinProto.C29_same_iff",
    "FinProto.C29_sent"
   ],
   "note": ""
  },
  {
   "property": "C30",
   "status": "proved",
   "theorems": [
    "FinProto.C30_success_iff",
    "FinProto.C30_index_out_of_bounds",
    "FinProto.C30_null_pointer",
    "FinProto.C30_outcomes"
   ],
   "note": ""
  },
  {
   "property": "C31",
   "status": "proved",
   "theorems": [
    "FinProto.C31_limits",
    "FinProto.C31_count_seen",
    "FinProto.C31_no_round_trip",
    "FinProto.C31_exact_consumption",
    "FinProto.C31_default_factories"
   ],
   "note": "The limit is a fact about the code: C31_limits below it, C31_no_round_trip beyond it."
  },
  {
   "property": "C32",
   "status": "partial",
   "theorems": [
    "FinProto.C32_list_received",
    "FinProto.C32_no_empty_partial",
    "FinProto.C32_violated"
   ],
   "note": "Every element that is null or empty is dropped by decode (C32_violated); C32_list_received gives the exact list received, C32_no_empty_partial the lists that survive. Missing: the property for lists with empty elements, which is false."
  },
  {
   "property": "C33",
   "status": "proved",
   "theorems": [
    "FinProto.C33_sse",
    "FinProto.C33_szse",
    "FinProto.C33_root",
    "FinProto.C33_rc"
   ],
   "note": ""
  },
  {
   "property": "C34",
   "status": "proved",
   "theorems": [
    "FinProto.C34_sse",
    "FinProto.C34_szse",
    "FinProto.C34_root",
    "FinProto.C34_root_default",
    "FinProto.C34_sse_registered",
    "FinProto.C34_szse_registered"
   ],
   "note": ""
  },
  {
   "property": "C35",
   "status": "proved",
   "theorems": [
    "FinProto.C35_dispatch",
    "FinProto.C35_header_incomplete",
    "FinProto.C35_headers",
    "FinProto.C35_any",
    "FinProto.C35_sse"
   ],
   "note": "C35_headers lists how much is consumed before the key lookup for every dispatching class; C35_any covers all of them generically."
  },
  {
   "property": "C36",
   "status": "proved",
   "theorems": [
    "FinProto.C36_computed_fields_ignored",
    "FinProto.C36_sse",
    "FinProto.C36_szse",
    "FinProto.C36_root",
    "FinProto.C36_rc",
    "FinProto.C36_violated"
   ],
   "note": "The expectation is false of the code: C36_violated and the universally quantified C36_computed_fields_ignored show that decode accepts every length and checksum value."
  },
  {
   "property": "C37",
   "status": "proved",
   "theorems": [
    "FinProto.C37_keeps_types",
    "FinProto.C37_only_computed_fields_change",
    "FinProto.C37_idempotent"
   ],
   "note": ""
  },
  {
   "property": "C38",
   "status": "proved",
   "theorems": [
    "FinProto.C38_create",
    "FinProto.C38_remove_result",
    "FinProto.C38_independent"
   ],
   "note": ""
  },
  {
   "property": "C39",
   "status": "proved",
   "theorems": [
    "FinProto.C39_last_type",
    "FinProto.C39_default_inverse",
    "FinProto.C39_stale_after_remove"
   ],
   "note": ""
  },
  {
   "property": "C40",
   "status": "proved",
   "theorems": [
    "FinProto.C40_fromValue",
    "FinProto.C40_injective",
    "FinProto.C40_unknown"
   ],
   "note": ""
  },
  {
   "property": "C41",
   "status": "proved",
   "theorems": [
    "FinProto.C41_default_create",
    "FinProto.C41_keys_distinct",
    "FinProto.C41_unknown",
    "FinProto.C41_canonical",
    "FinProto.C41_round_trip",
    "FinProto.C41_used"
   ],
   "note": ""
  },
  {
   "property": "C42",
   "status": "proved",
   "theorems": [
    "FinProto.C42_refl",
    "FinProto.C42_symm",
    "FinProto.C42_trans",
    "FinProto.C42_others"
   ],
   "note": ""
  },
  {
   "property": "C43",
   "status": "proved",
   "theorems": [
    "FinProto.C43_equal_hash",
    "FinProto.C43_equal_outcome"
   ],
   "note": ""
  },
  {
   "property": "C44",
   "status": "partial",
   "theorems": [
    "FinProto.C44_violated",
    "FinProto.C44_field_less_count",
    "FinProto.C44_terminates_iff_partial"
   ],
   "note": "False for the 28 field-less classes and everything containing one (C44_violated); C44_terminates_iff_partial gives exactly the objects for which hashCode returns."
  },
  {
   "property": "C45",
   "status": "proved",
   "theorems": [
    "FinProto.C45_equals_same",
    "FinProto.C45_fields",
    "FinProto.C45_set"
   ],
   "note": ""
  },
  {
   "property": "C46",
   "status": "proved",
   "theorems": [
    "FinProto.C46_equal_encoding",
    "FinProto.C46_nan_payload_differs",
    "FinProto.C46_equal_iff_identical",
    "FinProto.C46_same_size"
   ],
   "note": "Equal up to the payload of floating-point NaNs; C46_nan_payload_differs is the counterexample for those."
  },
  {
   "property": "C47",
   "status": "proved",
   "theorems": [
    "FinProto.C47_prefix_free",
    "FinProto.C47_injective",
    "FinProto.C47_injective_plain"
   ],
   "note": ""
  },
  {
   "property": "C48",
   "status": "proved",
   "theorems": [
    "FinProto.C48_orders",
    "FinProto.C48_byte_weights",
    "FinProto.C48_value_weights",
    "FinProto.C48_encode_offset",
    "FinProto.C48_decode_offset"
   ],
   "note": ""
  },
  {
   "property": "C49",
   "status": "proved",
   "theorems": [
    "FinProto.C49_reproduced"
   ],
   "note": ""
  },
  {
   "property": "C50",
   "status": "proved",
   "theorems": [
    "FinProto.C50_toString",
    "FinProto.C50_format"
   ],
   "note": ""
  },
  {
   "property": "C51",
   "status": "proved",
   "theorems": [
    "FinProto.C51_properties",
    "FinProto.C51_get_set",
    "FinProto.C51_history",
    "FinProto.C51_set_typed"
   ],
   "note": ""
  },
  {
   "property": "C52",
   "status": "partial",
   "theorems": [
    "FinProto.C52_exact",
    "FinProto.C52_no_text_at_the_end_partial",
    "FinProto.C52_no_spare_partial",
    "FinProto.C52_last_number_partial",
    "FinProto.C52_violated"
   ],
   "note": "False when the buffer's array extends behind the writer index (C52_violated); proved without spare bytes, for messages ending in a number, and exactly: C52_exact says which 111 classes can read beyond the writer index (those whose messages can end with text) and that the other 71 cannot."
  },
  {
   "property": "C53",
   "status": "proved",
   "theorems": [
    "FinProto.C53_same_content",
    "FinProto.C53_content_kept",
    "FinProto.C53_retry",
    "FinProto.C53_retries",
    "FinProto.C53_partial_output",
    "FinProto.C53_registry_change_matters"
   ],
   "note": ""
  },
  {
   "property": "C54",
   "status": "proved",
   "theorems": [
    "FinProto.C54_resume",
    "FinProto.C54_pieces",
    "FinProto.C54_other_message_keeps"
   ],
   "note": ""
  },
  {
   "property": "C55",
   "status": "proved",
   "theorems": [
    "FinProto.C55_sendable",
    "FinProto.C55_relay",
    "FinProto.C55_relay_plain",
    "FinProto.C55_exchange",
    "FinProto.C55_replacement_violated",
    "FinProto.C55_sample_violated"
   ],
   "note": ""
  },
  {
   "property": "C56",
   "status": "proved",
   "theorems": [
    "FinProto.C56_same_bytes",
    "FinProto.C56_reproduced",
    "FinProto.C56_unambiguous",
    "FinProto.C56_absent_violated"
   ],
   "note": ""
  },
  {
   "property": "C57",
   "status": "proved",
   "theorems": [
    "FinProto.C57_one_protocol",
    "FinProto.C57_complete"
   ],
   "note": ""
  },
  {
   "property": "C58",
   "status": "proved",
   "theorems": [
    "FinProto.C58_one_owner",
    "FinProto.C58_wait_free",
    "FinProto.C58_own_name",
    "FinProto.C58_visible",
    "FinProto.C58_race_violated"
   ],
   "note": "C58_race_violated shows that the hypothesis (one owner per algorithm) is needed."
  },
  {
   "property": "C59",
   "status": "proved",
   "theorems": [
    "FinProto.C59_announced_type",
    "FinProto.C59_separate",
    "FinProto.C59_settled",
    "FinProto.C59_torn_violated"
   ],
   "note": "C59_torn_violated shows that register is not atomic."
  },
  {
   "property": "C60",
   "status": "proved",
   "theorems": [
    "FinProto.C60_shared_encode",
    "FinProto.C60_shared_object",
    "FinProto.C60_finishes",
    "FinProto.C60_checksum_race_violated"
   ],
   "note": "C60_checksum_race_violated shows that the hypothesis on the buffers is needed for frames with a registered checksum."
  },
  {
   "property": "C61",
   "status": "proved",
   "theorems": [
    "FinProto.C61_no_changes",
    "FinProto.C61_decode",
    "FinProto.C61_encode",
    "FinProto.C61_entries"
   ],
   "note": ""
  },
  {
   "property": "C62",
   "status": "proved",
   "theorems": [
    "FinProto.C62_contents",
    "FinProto.C62_size"
   ],
   "note": ""
  },
  {
   "property": "C63",
   "status": "proved",
   "theorems": [
    "FinProto.C63_write",
    "FinProto.C63_read",
    "FinProto.C63_defaults"
   ],
   "note": ""
  },
  {
   "property": "C64",
   "status": "proved",
   "theorems": [
    "FinProto.C64_shared_bytes",
    "FinProto.C64_changes"
   ],
   "note": ""
  },
  {
   "property": "C65",
   "status": "proved",
   "theorems": [
    "FinProto.C65_new",
    "FinProto.C65_independent",
    "FinProto.C65_shared_supplier_violated"
   ],
   "note": ""
  },
  {
   "property": "C66",
   "status": "proved",
   "theorems": [
    "FinProto.C66_reuse",
    "FinProto.C66_others",
    "FinProto.C66_lists",
    "FinProto.C66_shared_part_violated"
   ],
   "note": ""
  },
  {
   "property": "C67",
   "status": "proved",
   "theorems": [
    "FinProto.C67_settles",
    "FinProto.C67_accepted",
    "FinProto.C67_exchange",
    "FinProto.C67_fixed_text",
    "FinProto.C67_short",
    "FinProto.C67_default_world",
    "FinProto.C67_growing"
   ],
   "note": "From any message (C67_settles) and from any accepted bytes (C67_accepted, C67_short, C67_fixed_text); the sample protocol needs the condition on vanishing parts (C55_sample_violated)."
  },
  {
   "property": "C68",
   "status": "proved",
   "theorems": [
    "FinProto.C68_odd16",
    "FinProto.C68_two16",
    "FinProto.C68_two32",
    "FinProto.C68_few",
    "FinProto.C68_three32",
    "FinProto.C68_four32",
    "FinProto.C68_three32_violated",
    "FinProto.C68_four32_violated",
    "FinProto.C68_four16_violated"
   ],
   "note": ""
  },
  {
   "property": "C69",
   "status": "proved",
   "theorems": [
    "FinProto.C69_spelling",
    "FinProto.C69_write_fixed",
    "FinProto.C69_read_fixed",
    "FinProto.C69_read_as",
    "FinProto.C69_write_prefixed",
    "FinProto.C69_read_prefixed",
    "FinProto.C69_unpaired",
    "FinProto.C69_bytes_survive"
   ],
   "note": ""
  },
  {
   "property": "C70",
   "status": "proved",
   "theorems": [
    "FinProto.C70_encode",
    "FinProto.C70_body_throws",
    "FinProto.C70_service_fails",
    "FinProto.C70_no_body",
    "FinProto.C70_body",
    "FinProto.C70_bjse",
    "FinProto.C70_round_trip",
    "FinProto.C70_extension_encode",
    "FinProto.C70_extension_decode",
    "FinProto.C70_closed"
   ],
   "note": "All five frames and the 14 messages with an extension field; C70_closed ties the open model to the one the other claims use."
  },
  {
   "property": "C71",
   "status": "proved",
   "theorems": [
    "FinProto.C71_accepts",
    "FinProto.C71_unknown_key",
    "FinProto.C71_incomplete",
    "FinProto.C71_unambiguous",
    "FinProto.C71_unknown_final"
   ],
   "note": "For buffers without spare capacity (C52 shows what spare capacity does to truncated texts)."
  },
  {
   "property": "C72",
   "status": "proved",
   "theorems": [
    "FinProto.C72_final",
    "FinProto.C72_incomplete",
    "FinProto.C72_chunks",
    "FinProto.C72_delivers",
    "FinProto.C72_spare_violated"
   ],
   "note": "For buffers without spare capacity; C72_spare_violated shows that this is needed."
  },
  {
   "property": "C73",
   "status": "proved",
   "theorems": [
    "FinProto.C73_reused_buffer",
    "FinProto.C73_delivers",
    "FinProto.C73_no_checksum_violated",
    "FinProto.C73_other_classes_violated"
   ],
   "note": "Streams through reused buffers; C73_other_classes_violated shows that the condition on the class is needed (C73_no_checksum_violated is one case in full)."
  },
  {
   "property": "C74",
   "status": "proved",
   "theorems": [
    "FinProto.C74_common_parts",
    "FinProto.C74_bytes",
    "FinProto.C74_changes",
    "FinProto.C74_finishes",
    "FinProto.C74_single",
    "FinProto.C74_common_frame_violated"
   ],
   "note": "Steps are statements, loop iterations, calls and returns; C74_common_frame_violated shows that the exception for frames is needed."
  },
  {
   "property": "C75",
   "status": "proved",
   "theorems": [
    "FinProto.C75_accepts_iff",
    "FinProto.C75_genuine_sse",
    "FinProto.C75_genuine_szse",
    "FinProto.C75_genuine_root",
    "FinProto.C75_corrupted_sse",
    "FinProto.C75_corrupted_szse",
    "FinProto.C75_corrupted_root",
    "FinProto.C75_two_bits_root",
    "FinProto.C75_three_bits_root",
    "FinProto.C75_four_bits_root",
    "FinProto.C75_exchanged_bytes_violated",
    "FinProto.C75_unread_bytes_violated"
   ],
   "note": "C75_exchanged_bytes_violated and C75_unread_bytes_violated show the limits of the code's own checksums."
  },
  {
   "property": "C76",
   "status": "proved",
   "theorems": [
    "FinProto.C76_equals",
    "FinProto.C76_hash",
    "FinProto.C76_toString",
    "FinProto.C76_same_object",
    "FinProto.C76_cyclic",
    "FinProto.C76_cyclic_equals_violated"
   ],
   "note": "C76_cyclic and C76_cyclic_equals_violated show what happens with cycles; trees are C45, C46 and C50."
  },
  {
   "property": "C77",
   "status": "proved",
   "theorems": [
    "FinProto.C77_apart",
    "FinProto.C77_decoded",
    "FinProto.C77_encoded",
    "FinProto.C77_disjoint",
    "FinProto.C77_finishes",
    "FinProto.C77_single",
    "FinProto.C77_receivers",
    "FinProto.C77_one_body_violated"
   ],
   "note": "Steps are statements, loop iterations, calls and returns; C77_one_body_violated shows that suppliers must build new objects."
  },
  {
   "property": "C78",
   "status": "proved",
   "theorems": [
    "FinProto.C78_history",
    "FinProto.C78_classes",
    "FinProto.C78_encode",
    "FinProto.C78_decode",
    "FinProto.C78_objects",
    "FinProto.C78_changed_during_encode_violated"
   ],
   "note": "Histories interleave setters, list operations, registrations and steps of threads; an operation is indivisible."
  },
  {
   "property": "C79",
   "status": "proved",
   "theorems": [
    "FinProto.C79_decode",
    "FinProto.C79_encode",
    "FinProto.C79_left_padded_violated"
   ],
   "note": "A step is a statement, a loop iteration, a call or a return; a text or number is read or written in one step. C79_left_padded_violated shows why the length of left-padded lists enters the bound for encode."
  },
  {
   "property": "C80",
   "status": "proved",
   "theorems": [
    "FinProto.C80_no_races",
    "FinProto.C80_no_races_now",
    "FinProto.C80_each_alone",
    "FinProto.C80_decoded",
    "FinProto.C80_encoded",
    "FinProto.C80_finishes",
    "FinProto.C80_writes",
    "FinProto.C80_reads",
    "FinProto.C80_common_frame_violated",
    "FinProto.C80_decoded_while_encoded_violated"
   ],
   "note": "The accesses are those of Model/Access.lean; C80_writes and C80_reads show that a step changes and depends on nothing else. That race-free programs show only interleavings is the guarantee of JLS 17.4.5, which is not modelled. C80_common_frame_violated and C80_decoded_while_encoded_violated show that the condition is needed."
  },
  {
   "property": "C81",
   "status": "proved",
   "theorems": [
    "FinProto.C81_setter",
    "FinProto.C81_list",
    "FinProto.C81_elsewhere",
    "FinProto.C81_new",
    "FinProto.C81_getter",
    "FinProto.C81_cycle",
    "FinProto.C81_encode"
   ],
   "note": "On the heap of the history model (C78); C81_cycle is the complement of the condition of C81_setter."
  },
  {
   "property": "C82",
   "status": "proved",
   "theorems": [
    "FinProto.C82_encode",
    "FinProto.C82_decode",
    "FinProto.C82_ends",
    "FinProto.C82_bytes",
    "FinProto.C82_new",
    "FinProto.C82_round_trip"
   ],
   "note": "Lists shorter than 2^31 and buffer capacity below 2^31, as in Java. The statements are those Tests/Render.lean prints and tools/roundtrip.py compares with /repo."
  },
  {
   "property": "C83",
   "status": "proved",
   "theorems": [
    "FinProto.C83_pad_char",
    "FinProto.C83_write_fixed",
    "FinProto.C83_write_fixed_default",
    "FinProto.C83_trim",
    "FinProto.C83_read_fixed",
    "FinProto.C83_read_fixed_default",
    "FinProto.C83_fixed_round_trip",
    "FinProto.C83_tables",
    "FinProto.C83_crc",
    "FinProto.C83_sums",
    "FinProto.C83_calc",
    "FinProto.C83_byte_bit_map",
    "FinProto.C83_short_bit_map",
    "FinProto.C83_int_bit_map",
    "FinProto.C83_long_bit_map"
   ],
   "note": "Buffers and texts below 2^31 bytes, as in Java. ChecksumService.verify and the registry are in C84."
  },
  {
   "property": "C84",
   "status": "proved",
   "theorems": [
    "FinProto.C84_equals",
    "FinProto.C84_equals_values",
    "FinProto.C84_hashCode",
    "FinProto.C84_hashCode_values",
    "FinProto.C84_toString",
    "FinProto.C84_toString_values",
    "FinProto.C84_getter",
    "FinProto.C84_setter",
    "FinProto.C84_create",
    "FinProto.C84_create_shows",
    "FinProto.C84_create_in_decode",
    "FinProto.C84_register",
    "FinProto.C84_register_sse",
    "FinProto.C84_remove",
    "FinProto.C84_get_msg_type",
    "FinProto.C84_from_value",
    "FinProto.C84_factory_call",
    "FinProto.C84_factory_history",
    "FinProto.C84_static_initialisers",
    "FinProto.C84_create_after",
    "FinProto.C84_registry",
    "FinProto.C84_get_service",
    "FinProto.C84_registry_call",
    "FinProto.C84_registry_after",
    "FinProto.C84_verify"
   ],
   "note": "HashMap, Objects, ArrayList, String and the boxed types are library models. The order of class initialisation is arbitrary; a factory is initialised before its first use, as in Java."
  },
  {
   "property": "C85",
   "status": "proved",
   "theorems": [
    "FinProto.C85_registries",
    "FinProto.C85_when_does_not_matter",
    "FinProto.C85_first_use",
    "FinProto.C85_untouched",
    "FinProto.C85_round_trip"
   ],
   "note": "One thread; a class that is being initialised by several threads at once is locked by the JVM. Suppliers build new messages."
  },
  {
   "property": "C86",
   "status": "proved",
   "theorems": [
    "FinProto.C86_write_fixed",
    "FinProto.C86_read_fixed",
    "FinProto.C86_widths",
    "FinProto.C86_get_service",
    "FinProto.C86_calc",
    "FinProto.C86_verify"
   ],
   "note": "Texts and buffers below 2^31 bytes, as in the JVM. Services supplied by the application have no text; C70 is about those."
  },
  {
   "property": "C87",
   "status": "proved",
   "theorems": [
    "FinProto.C87_size",
    "FinProto.C87_services",
    "FinProto.C87_number"
   ],
   "note": "For messages without wrongly typed fields (all that Java code can build, C78); application-supplied codecs are not covered."
  },
  {
   "property": "C88",
   "status": "proved",
   "theorems": [
    "FinProto.C88_bytes",
    "FinProto.C88_shows",
    "FinProto.C88_outside",
    "FinProto.C88_others",
    "FinProto.C88_plain",
    "FinProto.C88_attempts",
    "FinProto.C88_common_frame"
   ],
   "note": "The bytes for all object graphs without cycles behind the message; what a message shows for well-typed messages (all that Java code can build, C78)."
  },
  {
   "property": "C89",
   "status": "proved",
   "theorems": [
    "FinProto.C89_factories",
    "FinProto.C89_complete",
    "FinProto.C89_finish",
    "FinProto.C89_registry",
    "FinProto.C89_services",
    "FinProto.C89_registry_finish"
   ],
   "note": "The JVM's rule for class initialisation (a thread that needs a class being initialised by another waits) is part of the model; map operations are indivisible as in C58 and C59."
  },
  {
   "property": "C90",
   "status": "proved",
   "theorems": [
    "FinProto.C90_bytes",
    "FinProto.C90_any_buffer",
    "FinProto.C90_unpooled",
    "FinProto.C90_through_buffer",
    "FinProto.C90_released",
    "FinProto.C90_released_refused"
   ],
   "note": "Buffers in the sense of Netty's AbstractByteBuf with heap memory; read-only and composite buffers are not modelled."
  },
  {
   "property": "C91",
   "status": "proved",
   "theorems": [
    "FinProto.C91_encoded",
    "FinProto.C91_stream",
    "FinProto.C91_so_far",
    "FinProto.C91_damaged",
    "FinProto.C91_disagree_violated"
   ],
   "note": "The receiver is a specification (Spec/Cut.lean) of a length-field frame decoder; Netty's own class is not modelled. C91_disagree_violated: for bytes no encode produced, decode and such a receiver can disagree."
  },
  {
   "property": "C92",
   "status": "proved",
   "theorems": [
    "FinProto.C92_decode",
    "FinProto.C92_queue",
    "FinProto.C92_room",
    "FinProto.C92_fits",
    "FinProto.C92_released",
    "FinProto.C92_ghost_violated",
    "FinProto.C92_kinds"
   ],
   "note": "The queue (Spec/MsgQueue.lean) is application code around encode and decode. Holds for every class with a field other than fixed-width texts; C92_ghost_violated shows what happens for the others."
  },
  {
   "property": "C93",
   "status": "proved",
   "theorems": [
    "FinProto.C93_later",
    "FinProto.C93_content",
    "FinProto.C93_buffer",
    "FinProto.C93_stays",
    "FinProto.C93_so_far",
    "FinProto.C93_prefix",
    "FinProto.C93_reader_violated"
   ],
   "note": "One step of a thread is one statement, loop iteration, call or return; an interruption inside a statement (between two bytes of one text field) is not modelled. (4) needs, as C74, that messages encoded at the same time have no frame in common; (1)-(3) do not. C93_reader_violated is the limit: readers must not look before the call returns."
  },
  {
   "property": "C94",
   "status": "proved",
   "theorems": [
    "FinProto.C94_no_error",
    "FinProto.C94_error",
    "FinProto.C94_buffer",
    "FinProto.C94_message",
    "FinProto.C94_room",
    "FinProto.C94_ensured",
    "FinProto.C94_retry",
    "FinProto.C94_queue"
   ],
   "note": "The allocator is any function of the buffer and the number of bytes needed, per call; only arrays of bytes are allocated in the model: OutOfMemoryError from the allocation of String.getBytes or of objects is an interruption in the sense of C93. OutOfMemoryError in decode (new objects, new strings) is not modelled (C62 bounds what decode builds)."
  },
  {
   "property": "C95",
   "status": "proved",
   "theorems": [
    "FinProto.C95_any_moment",
    "FinProto.C95_buffer",
    "FinProto.C95_again",
    "FinProto.C95_other_bytes",
    "FinProto.C95_left_over_violated"
   ],
   "note": "Steps are statements and loop iterations (as C77); an Error inside a library call that reads one value is placed before or after the step. Suppliers build new objects. C95_left_over_violated shows that part (4) cannot be strengthened to equal fields; this is the rule of C29."
  },
  {
   "property": "C96",
   "status": "proved",
   "theorems": [
    "FinProto.C96_map",
    "FinProto.C96_entries",
    "FinProto.C96_not_hashable",
    "FinProto.C96_encode_loses_violated"
   ],
   "note": "HashMap is modelled after JDK 11 (Model/Keys.lean): entries with stored hash codes in one list instead of buckets, no trees, numbers as values, no iteration. Single-threaded use. C96_encode_loses_violated and C96_not_hashable say where messages cannot be used as keys."
  },
  {
   "property": "C97",
   "status": "proved",
   "theorems": [
    "FinProto.C97_decode_touches",
    "FinProto.C97_others",
    "FinProto.C97_bodies",
    "FinProto.C97_lists",
    "FinProto.C97_nested_violated"
   ],
   "note": "Stronger than C66_others: any sharing, any suppliers, and bodies are not counted among the parts that are written to. C97_nested_violated: nested messages are decoded into in place."
  },
  {
   "property": "C98",
   "status": "proved",
   "theorems": [
    "FinProto.C98_recovered",
    "FinProto.C98_stays",
    "FinProto.C98_zeros",
    "FinProto.C98_saved_iff",
    "FinProto.C98_torn_zeros_violated",
    "FinProto.C98_not_cut_violated"
   ],
   "note": "Crash points are numbers of bytes; the file is a list of bytes of which a crash leaves a prefix. C98_torn_zeros_violated, C98_not_cut_violated: what the reader cannot see."
  },
  {
   "property": "C99",
   "status": "proved",
   "theorems": [
    "FinProto.C99_one_writer",
    "FinProto.C99_byte_agree",
    "FinProto.C99_short_agree",
    "FinProto.C99_int_agree",
    "FinProto.C99_long_agree",
    "FinProto.C99_lost_update_violated"
   ],
   "note": "Loads and stores of the field are single steps (the Java memory model allows more for unsynchronised fields). C99_lost_update_violated: two writers."
  },
  {
   "property": "C100",
   "status": "proved",
   "theorems": [
    "FinProto.C100_create",
    "FinProto.C100_only_unknown",
    "FinProto.C100_names_key",
    "FinProto.C100_from_value",
    "FinProto.C100_null_violated"
   ],
   "note": "The texts of all factories and of fromValue; two different unknown ids give different texts except null and \"null\" (C100_null_violated)."
  },
  {
   "property": "C101",
   "status": "proved",
   "theorems": [
    "FinProto.C101_byte_write",
    "FinProto.C101_short_write",
    "FinProto.C101_int_write",
    "FinProto.C101_long_write",
    "FinProto.C101_short_read",
    "FinProto.C101_int_read",
    "FinProto.C101_long_read"
   ],
   "note": "Exact bits of every written byte and of every read, for any bytes and any remaining capacity."
  },
  {
   "property": "C102",
   "status": "proved",
   "theorems": [
    "FinProto.C102_delivers",
    "FinProto.C102_all",
    "FinProto.C102_so_far",
    "FinProto.C102_length_violated"
   ],
   "note": "Damage outside the length field; damage inside it can cost more than its own frame (C102_length_violated)."
  },
  {
   "property": "C103",
   "status": "proved",
   "theorems": [
    "FinProto.C103_mixture",
    "FinProto.C103_no_null",
    "FinProto.C103_quiet",
    "FinProto.C103_one_field",
    "FinProto.C103_kept",
    "FinProto.C103_null_violated",
    "FinProto.C103_list_violated",
    "FinProto.C103_length_violated"
   ],
   "note": "Setters of list fields, of computed fields and with null are excluded or named; counterexamples for each are proved."
  },
  {
   "property": "C104",
   "status": "proved",
   "theorems": [
    "FinProto.C104_value",
    "FinProto.C104_one_field",
    "FinProto.C104_int_field",
    "FinProto.C104_collisions"
   ],
   "note": "Whether hashCode returns at all is C44."
  },
  {
   "property": "C105",
   "status": "proved",
   "theorems": [
    "FinProto.C105_blank",
    "FinProto.C105_typed",
    "FinProto.C105_equal",
    "FinProto.C105_build",
    "FinProto.C105_encodable",
    "FinProto.C105_bytes",
    "FinProto.C105_frame"
   ],
   "note": "Left-padded empty texts have no bytes at all (C01)."
  },
  {
   "property": "C106",
   "status": "proved",
   "theorems": [
    "FinProto.C106_setter",
    "FinProto.C106_in_place",
    "FinProto.C106_header",
    "FinProto.C106_received"
   ],
   "note": "C106_header covers numbers in front of the length field of frames whose body has no computed fields; what checksum results is C34."
  },
  {
   "property": "C107",
   "status": "proved",
   "theorems": [
    "FinProto.C107_equals",
    "FinProto.C107_equals_throws",
    "FinProto.C107_not_asked",
    "FinProto.C107_equivalence",
    "FinProto.C107_hash",
    "FinProto.C107_hash_throws",
    "FinProto.C107_hash_equal",
    "FinProto.C107_text",
    "FinProto.C107_text_throws",
    "FinProto.C107_library",
    "FinProto.C107_asymmetric"
   ],
   "note": ""
  },
  {
   "property": "C108",
   "status": "proved",
   "theorems": [
    "FinProto.C108_outcome",
    "FinProto.C108_untouched",
    "FinProto.C108_one_of",
    "FinProto.C108_quiet",
    "FinProto.C108_type_violated",
    "FinProto.C108_body_violated",
    "FinProto.C108_list_violated"
   ],
   "note": ""
  },
  {
   "property": "C109",
   "status": "proved",
   "theorems": [
    "FinProto.C109_moments",
    "FinProto.C109_order",
    "FinProto.C109_once",
    "FinProto.C109_torn_violated",
    "FinProto.C109_list_violated"
   ],
   "note": "Steps are statements and loop iterations (as C77); observers read between steps and see the latest assignment. Java promises this only to observers that synchronise with the decoding thread; without that they may also see older values. C109_torn_violated and C109_list_violated show what an observer cannot rely on."
  },
  {
   "property": "C110",
   "status": "proved",
   "theorems": [
    "FinProto.C110_equals",
    "FinProto.C110_itself",
    "FinProto.C110_one_field",
    "FinProto.C110_hashCode",
    "FinProto.C110_toString",
    "FinProto.C110_hashCode_one_field",
    "FinProto.C110_toString_one_field",
    "FinProto.C110_quiet",
    "FinProto.C110_equals_violated",
    "FinProto.C110_torn_violated"
   ],
   "note": "An access is indivisible and sees the latest assignment, as in C103. Other threads replace what a field refers to; they do not change the insides of lists and nested messages, so it makes no difference when a value that has been read is compared, hashed or printed. C110_equals_violated and C110_torn_violated show what callers cannot rely on."
  },
  {
   "property": "C111",
   "status": "proved",
   "theorems": [
    "FinProto.C111_mixture",
    "FinProto.C111_kept",
    "FinProto.C111_quiet",
    "FinProto.C111_image",
    "FinProto.C111_frame_sse",
    "FinProto.C111_frame_szse",
    "FinProto.C111_frame_root",
    "FinProto.C111_frame_rc",
    "FinProto.C111_shared_violated",
    "FinProto.C111_null_violated"
   ],
   "note": "An access is indivisible and sees the latest assignment, as in C103, but others may change parts at any depth. The message that was seen is specified by the relation Saw (Spec/RacingHeap.lean), apart from the run. Setters of lists are excluded from C111_mixture (a list field is read twice, see C103), not from C111_kept. C111_shared_violated and C111_null_violated show what callers cannot rely on."
  },
  {
   "property": "C112",
   "status": "proved",
   "theorems": [
    "FinProto.C112_mixture",
    "FinProto.C112_image",
    "FinProto.C112_frame_sse",
    "FinProto.C112_frame_szse",
    "FinProto.C112_frame_root",
    "FinProto.C112_frame_rc",
    "FinProto.C112_kept",
    "FinProto.C112_quiet",
    "FinProto.C112_torn_violated",
    "FinProto.C112_back_violated"
   ],
   "note": "Reads are results chosen freely among what Spec/WeakHeap.lean (Readable, MaySee) allows, which is at least what the Java memory model allows for plain fields of objects that were constructed before; it is not a model of the memory model itself (no happens-before order restricts the reads), so the theorems hold for more executions than Java has, and the two violated statements show executions JLS 17.4 and 17.7 allow. Reads of a list field, of elements of lists and of computed fields are ordinary."
  },
  {
   "property": "C113",
   "status": "proved",
   "theorems": [
    "FinProto.C113_appends",
    "FinProto.C113_frame_sse",
    "FinProto.C113_frame_szse",
    "FinProto.C113_frame_root",
    "FinProto.C113_frame_rc",
    "FinProto.C113_setters",
    "FinProto.C113_weak",
    "FinProto.C113_count_violated",
    "FinProto.C113_throws_violated",
    "FinProto.C113_length_violated"
   ],
   "note": "The other threads are any function of the memory (Acts), so nothing is assumed about them, except that they leave length and checksum of the frame alone. Calls of size() and get(i) on a list are indivisible: the fields inside ArrayList are not modelled. C113_length_violated shows that this is needed; C113_count_violated and C113_throws_violated show what callers cannot rely on."
  },
  {
   "property": "C114",
   "status": "proved",
   "theorems": [
    "FinProto.C114_reads",
    "FinProto.C114_quiet",
    "FinProto.C114_position",
    "FinProto.C114_kind",
    "FinProto.C114_others",
    "FinProto.C114_setters",
    "FinProto.C114_outcome",
    "FinProto.C114_sent",
    "FinProto.C114_setters_calm",
    "FinProto.C114_list_violated",
    "FinProto.C114_null_violated",
    "FinProto.C114_type_violated",
    "FinProto.C114_body_violated"
   ],
   "note": "C114_reads and C114_quiet assume nothing. C114_position, C114_kind and C114_others assume that the others leave message types and bodies alone (Steady); C114_setters shows that all other setters are among what they may do, and C114_type_violated and C114_body_violated that the assumption is needed. C114_outcome and C114_sent assume also that lists and parts are not set (Calm; C114_setters_calm), which C114_null_violated shows to be needed. The buffer is used by the decoding thread only; add on a list is indivisible."
  },
  {
   "property": "C115",
   "status": "proved",
   "theorems": [
    "FinProto.C115_hashCode",
    "FinProto.C115_toString",
    "FinProto.C115_equal",
    "FinProto.C115_different",
    "FinProto.C115_itself",
    "FinProto.C115_exceptions",
    "FinProto.C115_setters",
    "FinProto.C115_untouched",
    "FinProto.C115_quiet",
    "FinProto.C115_one_setter_violated",
    "FinProto.C115_equals_violated",
    "FinProto.C115_stale_violated"
   ],
   "note": "The memory that each access finds is arbitrary (Memory), so setters, weak reads and new objects are covered; C115_toString assumes only that no list contains itself, C115_exceptions that objects keep their class and lists their size (WellKept). If the size of a list changes meanwhile, ArrayList throws ConcurrentModificationException, which is not modelled: the theorems then say what holds if a value is returned all the same."
  },
  {
   "property": "C116",
   "status": "proved",
   "theorems": [
    "FinProto.C116_encode",
    "FinProto.C116_encode_value",
    "FinProto.C116_encode_making",
    "FinProto.C116_encode_making_value",
    "FinProto.C116_encode_making_others",
    "FinProto.C116_decode",
    "FinProto.C116_decode_value",
    "FinProto.C116_decode_new",
    "FinProto.C116_decode_making",
    "FinProto.C116_decode_making_value",
    "FinProto.C116_decode_making_others",
    "FinProto.C116_transfer",
    "FinProto.C116_encode_others",
    "FinProto.C116_decode_others",
    "FinProto.C116_shared_violated"
   ],
   "note": "The other threads are any function of the memory that leaves alone the objects of the message and the new ones (Elsewhere). For decode, objects that the others create are counted among those in memory at the start, unreachable, because memory addresses are handed out in order; for encode, C116_encode_making lets the others create any number of objects during the call, and so does C116_decode_making for the 150 classes without lists, parts and bodies. HListsFit says that no list has more than 2147483647 elements, as in Java. For decode the factories make a new object each time. Calls of size(), get and add of a list are indivisible."
  },
  {
   "property": "C117",
   "status": "proved",
   "theorems": [
    "FinProto.C117_decode",
    "FinProto.C117_decode_value",
    "FinProto.C117_field",
    "FinProto.C117_nothing_set",
    "FinProto.C117_setters",
    "FinProto.C117_set_violated"
   ],
   "note": "Which fields the others set, and to which values, is a parameter V (message, field and value); Lightly says that they set only those, only to these values, which are not references, and only if the field is neither a list, a part or body, nor a message type. The outcome alone under more disturbance (contents of lists changed as well) is C114. Objects that the others create are counted among those in memory at the start. Calls of add of a list are indivisible."
  },
  {
   "property": "C118",
   "status": "proved",
   "theorems": [
    "FinProto.C118_program",
    "FinProto.C118_shows",
    "FinProto.C118_others",
    "FinProto.C118_known_violated"
   ],
   "note": "The program is any function from what it has seen to the next operation; it can use only values it knows. With nobody else (Spec/OwnProgram.lean) encode and decode are those of C64 and C65, equals, hashCode and toString those of C76. The hypothesis hfit says that no list of the program gets more than 2147483647 elements, as in Java. Objects that the others create are counted among those in memory at the start. ConcurrentModificationException, which equals, hashCode and toString of a list may throw when its size changes, cannot occur here, as nobody else changes the lists. Calls of size(), get and add of a list are indivisible."
  },
  {
   "property": "C119",
   "status": "proved",
   "theorems": [
    "FinProto.C119_encode",
    "FinProto.C119_encode_value",
    "FinProto.C119_decode",
    "FinProto.C119_decode_value",
    "FinProto.C119_decode_new",
    "FinProto.C119_wait",
    "FinProto.C119_encode_unshared",
    "FinProto.C119_history",
    "FinProto.C119_encode_others",
    "FinProto.C119_decode_others",
    "FinProto.C119_transfer",
    "FinProto.C119_list_violated"
   ],
   "note": "Limited says what the others can do: as in Java, references cannot be made up. Objects of a thread are never taken away (no garbage collection is observable). HListsFit says that no list has more than 2147483647 elements, as in Java. For decode the factories make a new object each time. Calls of size(), get and add of a list are indivisible. In C119_history and C119_encode_unshared only the lists of the message itself have to be no longer than that (listsFit)."
  }
 ]
}