'FinProto.C01_fixed_width_partial' depends on axioms: [propext, Quot.sound]
'FinProto.C01_default_padding' depends on axioms: [propext, Quot.sound]
'FinProto.C01_fixed_width_overflow' depends on axioms: [propext, Quot.sound]
'FinProto.C01_left_empty_writes_nothing' depends on axioms: [propext]
'FinProto.C01_fixed_width_violated' depends on axioms: [propext, Quot.sound]
'FinProto.C02_read_back' depends on axioms: [propext, Classical.choice, Quot.sound]
'FinProto.C02_round_trip' depends on axioms: [propext, Classical.choice, Quot.sound]
'FinProto.C02_default_round_trip' depends on axioms: [propext, Classical.choice, Quot.sound]
'FinProto.C03_truncation' depends on axioms: [propext, Classical.choice, Quot.sound]
'FinProto.C03_truncation_ascii' depends on axioms: [propext, Classical.choice, Quot.sound]
'FinProto.C04_fixed' depends on axioms: [propext]
'FinProto.C04_message' depends on axioms: [propext, Classical.choice, Quot.sound]
'FinProto.C05_trim' depends on axioms: [propext, Classical.choice, Quot.sound]
'FinProto.C05_trim_unique' depends on axioms: [propext, Classical.choice, Quot.sound]
'FinProto.C05_trim_idempotent' depends on axioms: [propext, Classical.choice, Quot.sound]
'FinProto.C06_consumption' depends on axioms: [propext, Classical.choice, Quot.sound]
'FinProto.C06_default_read' depends on axioms: [propext, Classical.choice, Quot.sound]
'FinProto.C07_crc16' depends on axioms: [propext, Classical.choice, Quot.sound]
'FinProto.C08_crc32' depends on axioms: [propext, Classical.choice, Quot.sound]
'FinProto.C09_burst16' depends on axioms: [propext, Classical.choice, Quot.sound]
'FinProto.C09_burst32' depends on axioms: [propext, Classical.choice, Quot.sound]
'FinProto.C09_burst_bytes' depends on axioms: [propext, Classical.choice, Quot.sound]
'FinProto.C10_sse_sum' depends on axioms: [propext, Classical.choice, Quot.sound]
'FinProto.C11_szse_sum' depends on axioms: [propext, Classical.choice, Quot.sound]
'FinProto.C12_single_byte' depends on axioms: [propext, Classical.choice, Quot.sound]
'FinProto.C12_single_byte_szse' depends on axioms: [propext, Classical.choice, Quot.sound]
'FinProto.C12_permutation' depends on axioms: [propext, Classical.choice, Quot.sound]
'FinProto.C13_sum_concat' depends on axioms: [propext, Classical.choice, Quot.sound]
'FinProto.C13_sum_concat_szse' depends on axioms: [propext, Quot.sound]
'FinProto.C13_crc_concat' depends on axioms: [propext, Classical.choice, Quot.sound]
'FinProto.C14_verify' depends on axioms: [propext]
'FinProto.C14_verify_calc' depends on axioms: [propext, Quot.sound]
'FinProto.C15_lookup' depends on axioms: [propext, Classical.choice, Quot.sound]
'FinProto.C15_registry_result' depends on axioms: [propext, Classical.choice, Quot.sound]
'FinProto.C15_names_independent' depends on axioms: [propext, Classical.choice, Quot.sound]
'FinProto.C16_default_registry' depends on axioms: [propext, Classical.choice, Quot.sound]
'FinProto.C16_sse_frame' depends on axioms: [propext, Classical.choice, Quot.sound]
'FinProto.C16_szse_frame' depends on axioms: [propext, Classical.choice, Quot.sound]
'FinProto.C17_byte_set' depends on axioms: [propext, Classical.choice, Quot.sound]
'FinProto.C17_short_set' depends on axioms: [propext, Classical.choice, Quot.sound]
'FinProto.C18_int_set_partial' depends on axioms: [propext, Classical.choice, Quot.sound]
'FinProto.C18_int_actual' depends on axioms: [propext, Classical.choice, Quot.sound]
'FinProto.C18_int_clear_violated' depends on axioms: [propext, Classical.choice, Quot.sound]
'FinProto.C18_long_set_partial' depends on axioms: [propext, Classical.choice, Quot.sound]
'FinProto.C18_long_actual' depends on axioms: [propext, Classical.choice, Quot.sound]
'FinProto.C18_long_clear_violated' depends on axioms: [propext, Classical.choice, Quot.sound]
'FinProto.C19_byte' depends on axioms: [propext, Quot.sound]
'FinProto.C19_short_partial' depends on axioms: [propext, Classical.choice, Quot.sound]
'FinProto.C19_int_partial' depends on axioms: [propext, Classical.choice, Quot.sound]
'FinProto.C19_long_partial' depends on axioms: [propext, Classical.choice, Quot.sound]
'FinProto.C19_short_violated' depends on axioms: [propext, Quot.sound]
'FinProto.C19_int_violated' depends on axioms: [propext, Quot.sound]
'FinProto.C19_long_violated' depends on axioms: [propext, Quot.sound]
'FinProto.C20_byte' depends on axioms: [propext, Classical.choice, Quot.sound]
'FinProto.C20_short' depends on axioms: [propext, Classical.choice, Quot.sound]
'FinProto.C20_int' depends on axioms: [propext, Classical.choice, Quot.sound]
'FinProto.C20_long' depends on axioms: [propext, Classical.choice, Quot.sound]
'FinProto.C21_byte' depends on axioms: [propext]
'FinProto.C21_short' depends on axioms: [propext, Quot.sound]
'FinProto.C21_int' depends on axioms: [propext, Quot.sound]
'FinProto.C21_long' depends on axioms: [propext, Quot.sound]
'FinProto.C22_encode_appends_image' depends on axioms: [propext, Classical.choice, Quot.sound]
'FinProto.C22_encode_plain' depends on axioms: [propext, Classical.choice, Quot.sound]
'FinProto.C22_prefix_untouched' depends on axioms: [propext, Quot.sound]
'FinProto.C22_frames' depends on axioms: [propext]
'FinProto.C23_general' depends on axioms: [propext, Classical.choice, Quot.sound]
'FinProto.C23_round_trip' depends on axioms: [propext, Classical.choice, Quot.sound]
'FinProto.C23_round_trip_plain' depends on axioms: [propext, Classical.choice, Quot.sound]
'FinProto.C24_stream' depends on axioms: [propext, Classical.choice, Quot.sound]
'FinProto.C25_classes' depends on axioms: [propext, Quot.sound]
'FinProto.C25_fixed_size' depends on axioms: [propext, Classical.choice, Quot.sound]
'FinProto.C25_fixed_size_all' depends on axioms: [propext, Classical.choice, Quot.sound]
'FinProto.C26_truncated_fails' depends on axioms: [propext, Quot.sound]
'FinProto.C26_truncated_encoding' depends on axioms: [propext, Classical.choice, Quot.sound]
'FinProto.C27_buffer_unchanged' depends on axioms: [propext, Quot.sound]
'FinProto.C27_sees_only_consumed' depends on axioms: [propext, Quot.sound]
'FinProto.C28_errors' depends on axioms: [propext, Classical.choice, Quot.sound]
'FinProto.C28_terminates' depends on axioms: [propext, Classical.choice, Quot.sound]
'FinProto.C28_default_depth' depends on axioms: [propext, Classical.choice, Quot.sound]
'FinProto.C28_default_world' depends on axioms: [propext, Classical.choice, Quot.sound]
'FinProto.C28_depth_irrelevant' depends on axioms: [propext, Quot.sound]
'FinProto.C29_reused' depends on axioms: [propext, Classical.choice, Quot.sound]
'FinProto.C29_same_iff' depends on axioms: [propext, Classical.choice, Quot.sound]
'FinProto.C29_sent' depends on axioms: [propext, Classical.choice, Quot.sound]
'FinProto.C30_success_iff' depends on axioms: [propext, Classical.choice, Quot.sound]
'FinProto.C30_index_out_of_bounds' depends on axioms: [propext, Classical.choice, Quot.sound]
'FinProto.C30_null_pointer' depends on axioms: [propext, Classical.choice, Quot.sound]
'FinProto.C30_outcomes' depends on axioms: [propext, Classical.choice, Quot.sound]
'FinProto.C31_limits' depends on axioms: [propext, Classical.choice, Quot.sound]
'FinProto.C31_count_seen' depends on axioms: [propext, Classical.choice, Quot.sound]
'FinProto.C31_no_round_trip' depends on axioms: [propext, Classical.choice, Quot.sound]
'FinProto.C31_exact_consumption' depends on axioms: [propext, Classical.choice, Quot.sound]
'FinProto.C31_default_factories' depends on axioms: [propext, Classical.choice, Quot.sound]
'FinProto.C32_list_received' depends on axioms: [propext, Classical.choice, Quot.sound]
'FinProto.C32_no_empty_partial' depends on axioms: [propext, Classical.choice, Quot.sound]
'FinProto.C32_violated' depends on axioms: [propext, Classical.choice, Quot.sound]
'FinProto.C33_sse' depends on axioms: [propext, Classical.choice, Quot.sound]
'FinProto.C33_szse' depends on axioms: [propext, Classical.choice, Quot.sound]
'FinProto.C33_root' depends on axioms: [propext, Classical.choice, Quot.sound]
'FinProto.C33_rc' depends on axioms: [propext, Classical.choice, Quot.sound]
'FinProto.C34_sse' depends on axioms: [propext, Classical.choice, Quot.sound]
'FinProto.C34_szse' depends on axioms: [propext, Classical.choice, Quot.sound]
'FinProto.C34_root' depends on axioms: [propext, Classical.choice, Quot.sound]
'FinProto.C34_root_default' depends on axioms: [propext, Classical.choice, Quot.sound]
'FinProto.C34_sse_registered' depends on axioms: [propext, Classical.choice, Quot.sound]
'FinProto.C34_szse_registered' depends on axioms: [propext, Classical.choice, Quot.sound]
'FinProto.C35_dispatch' depends on axioms: [propext, Classical.choice, Quot.sound]
'FinProto.C35_header_incomplete' depends on axioms: [propext, Classical.choice, Quot.sound]
'FinProto.C35_headers' depends on axioms: [propext, Quot.sound]
'FinProto.C35_any' depends on axioms: [propext, Classical.choice, Quot.sound]
'FinProto.C35_sse' depends on axioms: [propext, Classical.choice, Quot.sound]
'FinProto.C36_computed_fields_ignored' depends on axioms: [propext, Classical.choice, Quot.sound]
'FinProto.C36_sse' depends on axioms: [propext, Classical.choice, Quot.sound]
'FinProto.C36_szse' depends on axioms: [propext, Classical.choice, Quot.sound]
'FinProto.C36_root' depends on axioms: [propext, Classical.choice, Quot.sound]
'FinProto.C36_rc' depends on axioms: [propext, Classical.choice, Quot.sound]
'FinProto.C36_violated' depends on axioms: [propext, Classical.choice, Quot.sound]
'FinProto.C37_keeps_types' depends on axioms: [propext, Classical.choice, Quot.sound]
'FinProto.C37_only_computed_fields_change' depends on axioms: [propext, Classical.choice, Quot.sound]
'FinProto.C37_idempotent' depends on axioms: [propext, Classical.choice, Quot.sound]
'FinProto.C38_create' depends on axioms: [propext, Quot.sound]
'FinProto.C38_remove_result' depends on axioms: [propext, Quot.sound]
'FinProto.C38_independent' depends on axioms: [propext, Quot.sound]
'FinProto.C39_last_type' depends on axioms: [propext, Quot.sound]
'FinProto.C39_default_inverse' depends on axioms: [propext, Classical.choice, Quot.sound]
'FinProto.C39_stale_after_remove' depends on axioms: [propext]
'FinProto.C40_fromValue' depends on axioms: [propext]
'FinProto.C40_injective' depends on axioms: [propext]
'FinProto.C40_unknown' depends on axioms: [propext]
'FinProto.C41_default_create' depends on axioms: [propext, Classical.choice, Quot.sound]
'FinProto.C41_keys_distinct' depends on axioms: [propext, Classical.choice, Quot.sound]
'FinProto.C41_unknown' depends on axioms: [propext, Classical.choice, Quot.sound]
'FinProto.C41_canonical' depends on axioms: [propext, Classical.choice, Quot.sound]
'FinProto.C41_round_trip' depends on axioms: [propext, Classical.choice, Quot.sound]
'FinProto.C41_used' depends on axioms: [propext, Classical.choice, Quot.sound]
'FinProto.C42_refl' depends on axioms: [propext, Classical.choice, Quot.sound]
'FinProto.C42_symm' depends on axioms: [propext, Classical.choice, Quot.sound]
'FinProto.C42_trans' depends on axioms: [propext, Classical.choice, Quot.sound]
'FinProto.C42_others' depends on axioms: [propext, Quot.sound]
'FinProto.C43_equal_hash' depends on axioms: [propext, Classical.choice, Quot.sound]
'FinProto.C43_equal_outcome' depends on axioms: [propext, Classical.choice, Quot.sound]
'FinProto.C44_violated' depends on axioms: [propext, Classical.choice, Quot.sound]
'FinProto.C44_field_less_count' does not depend on any axioms
'FinProto.C44_terminates_iff_partial' depends on axioms: [propext, Classical.choice, Quot.sound]
'FinProto.C45_equals_same' depends on axioms: [propext, Classical.choice, Quot.sound]
'FinProto.C45_fields' depends on axioms: [propext, Classical.choice, Quot.sound]
'FinProto.C45_set' depends on axioms: [propext, Classical.choice, Quot.sound]
'FinProto.C46_equal_encoding' depends on axioms: [propext, Classical.choice, Quot.sound]
'FinProto.C46_nan_payload_differs' depends on axioms: [propext, Classical.choice, Quot.sound]
'FinProto.C46_equal_iff_identical' depends on axioms: [propext, Classical.choice, Quot.sound]
'FinProto.C46_same_size' depends on axioms: [propext, Classical.choice, Quot.sound]
'FinProto.C47_prefix_free' depends on axioms: [propext, Classical.choice, Quot.sound]
'FinProto.C47_injective' depends on axioms: [propext, Classical.choice, Quot.sound]
'FinProto.C47_injective_plain' depends on axioms: [propext, Classical.choice, Quot.sound]
'FinProto.C48_orders' does not depend on any axioms
'FinProto.C48_byte_weights' depends on axioms: [propext, Quot.sound]
'FinProto.C48_value_weights' depends on axioms: [propext, Quot.sound]
'FinProto.C48_encode_offset' depends on axioms: [propext, Classical.choice, Quot.sound]
'FinProto.C48_decode_offset' depends on axioms: [propext, Classical.choice, Quot.sound]
'FinProto.C49_reproduced' depends on axioms: [propext, Classical.choice, Quot.sound]
'FinProto.C50_toString' depends on axioms: [propext, Classical.choice, Quot.sound]
'FinProto.C50_format' depends on axioms: [propext, Classical.choice, Quot.sound]
'FinProto.C51_properties' depends on axioms: [propext, Classical.choice, Quot.sound]
'FinProto.C51_get_set' depends on axioms: [propext, Quot.sound]
'FinProto.C51_history' depends on axioms: [propext, Classical.choice, Quot.sound]
'FinProto.C51_set_typed' depends on axioms: [propext]
'FinProto.C52_exact' depends on axioms: [propext, Classical.choice, Quot.sound]
'FinProto.C52_no_text_at_the_end_partial' depends on axioms: [propext, Classical.choice, Quot.sound]
'FinProto.C52_no_spare_partial' depends on axioms: [propext, Quot.sound]
'FinProto.C52_last_number_partial' depends on axioms: [propext, Quot.sound]
'FinProto.C52_violated' depends on axioms: [propext, Classical.choice, Quot.sound]
'FinProto.C53_same_content' depends on axioms: [propext, Quot.sound]
'FinProto.C53_content_kept' depends on axioms: [propext, Quot.sound]
'FinProto.C53_retry' depends on axioms: [propext, Quot.sound]
'FinProto.C53_retries' depends on axioms: [propext, Quot.sound]
'FinProto.C53_partial_output' depends on axioms: [propext, Classical.choice, Quot.sound]
'FinProto.C53_registry_change_matters' depends on axioms: [propext, Classical.choice, Quot.sound]
'FinProto.C54_resume' depends on axioms: [propext, Classical.choice, Quot.sound]
'FinProto.C54_pieces' depends on axioms: [propext, Classical.choice, Quot.sound]
'FinProto.C54_other_message_keeps' depends on axioms: [propext, Classical.choice, Quot.sound]
'FinProto.C55_sendable' depends on axioms: [propext, Classical.choice, Quot.sound]
'FinProto.C55_relay' depends on axioms: [propext, Classical.choice, Quot.sound]
'FinProto.C55_relay_plain' depends on axioms: [propext, Classical.choice, Quot.sound]
'FinProto.C55_exchange' depends on axioms: [propext, Classical.choice, Quot.sound]
'FinProto.C55_replacement_violated' depends on axioms: [propext, Classical.choice, Quot.sound]
'FinProto.C55_sample_violated' depends on axioms: [propext, Classical.choice, Quot.sound]
'FinProto.C56_same_bytes' depends on axioms: [propext, Classical.choice, Quot.sound]
'FinProto.C56_reproduced' depends on axioms: [propext, Classical.choice, Quot.sound]
'FinProto.C56_unambiguous' depends on axioms: [propext, Classical.choice, Quot.sound]
'FinProto.C56_absent_violated' depends on axioms: [propext, Classical.choice, Quot.sound]
'FinProto.C57_one_protocol' depends on axioms: [propext, Classical.choice, Quot.sound]
'FinProto.C57_complete' depends on axioms: [propext, Classical.choice, Quot.sound]
'FinProto.C58_one_owner' depends on axioms: [propext, Classical.choice, Quot.sound]
'FinProto.C58_wait_free' depends on axioms: [propext, Classical.choice, Quot.sound]
'FinProto.C58_own_name' depends on axioms: [propext, Classical.choice, Quot.sound]
'FinProto.C58_visible' depends on axioms: [propext, Classical.choice, Quot.sound]
'FinProto.C58_race_violated' depends on axioms: [propext, Quot.sound]
'FinProto.C59_announced_type' depends on axioms: [propext, Classical.choice, Quot.sound]
'FinProto.C59_separate' depends on axioms: [propext, Classical.choice, Quot.sound]
'FinProto.C59_settled' depends on axioms: [propext, Classical.choice, Quot.sound]
'FinProto.C59_torn_violated' depends on axioms: [propext, Classical.choice, Quot.sound]
'FinProto.C60_shared_encode' depends on axioms: [propext, Classical.choice, Quot.sound]
'FinProto.C60_shared_object' depends on axioms: [propext, Classical.choice, Quot.sound]
'FinProto.C60_finishes' depends on axioms: [propext, Quot.sound]
'FinProto.C60_checksum_race_violated' depends on axioms: [propext, Quot.sound]
'FinProto.C61_no_changes' depends on axioms: [propext, Classical.choice, Quot.sound]
'FinProto.C61_decode' depends on axioms: [propext, Classical.choice, Quot.sound]
'FinProto.C61_encode' depends on axioms: [propext, Quot.sound]
'FinProto.C61_entries' depends on axioms: [propext, Classical.choice, Quot.sound]
'FinProto.C62_contents' depends on axioms: [propext, Classical.choice, Quot.sound]
'FinProto.C62_size' depends on axioms: [propext, Classical.choice, Quot.sound]
'FinProto.C63_write' depends on axioms: [propext, Classical.choice, Quot.sound]
'FinProto.C63_read' depends on axioms: [propext, Quot.sound]
'FinProto.C63_defaults' depends on axioms: [propext, Classical.choice, Quot.sound]
'FinProto.C64_shared_bytes' depends on axioms: [propext, Classical.choice, Quot.sound]
'FinProto.C64_changes' depends on axioms: [propext, Classical.choice, Quot.sound]
'FinProto.C65_new' depends on axioms: [propext, Classical.choice, Quot.sound]
'FinProto.C65_independent' depends on axioms: [propext, Classical.choice, Quot.sound]
'FinProto.C65_shared_supplier_violated' depends on axioms: [propext]
'FinProto.C66_reuse' depends on axioms: [propext, Classical.choice, Quot.sound]
'FinProto.C66_others' depends on axioms: [propext, Classical.choice, Quot.sound]
'FinProto.C66_lists' depends on axioms: [propext, Classical.choice, Quot.sound]
'FinProto.C66_shared_part_violated' depends on axioms: [propext, Classical.choice, Quot.sound]
'FinProto.C67_settles' depends on axioms: [propext, Classical.choice, Quot.sound]
'FinProto.C67_accepted' depends on axioms: [propext, Classical.choice, Quot.sound]
'FinProto.C67_exchange' depends on axioms: [propext, Classical.choice, Quot.sound]
'FinProto.C67_fixed_text' depends on axioms: [propext, Classical.choice, Quot.sound]
'FinProto.C67_short' depends on axioms: [propext, Classical.choice, Quot.sound]
'FinProto.C67_default_world' depends on axioms: [propext, Classical.choice, Quot.sound]
'FinProto.C67_growing' depends on axioms: [propext, Classical.choice, Quot.sound]
'FinProto.C68_odd16' depends on axioms: [propext, Classical.choice, Quot.sound]
'FinProto.C68_two16' depends on axioms: [propext, Classical.choice, Quot.sound]
'FinProto.C68_two32' depends on axioms: [propext, Classical.choice, Quot.sound]
'FinProto.C68_few' depends on axioms: [propext, Classical.choice, Quot.sound]
'FinProto.C68_three32' depends on axioms: [propext, Classical.choice, Quot.sound]
'FinProto.C68_four32' depends on axioms: [propext, Classical.choice, Quot.sound]
'FinProto.C68_three32_violated' depends on axioms: [propext, Classical.choice, Quot.sound]
'FinProto.C68_four32_violated' depends on axioms: [propext, Classical.choice, Quot.sound]
'FinProto.C68_four16_violated' depends on axioms: [propext, Quot.sound]
'FinProto.C69_spelling' depends on axioms: [propext, Classical.choice, Quot.sound]
'FinProto.C69_write_fixed' depends on axioms: [propext, Classical.choice, Quot.sound]
'FinProto.C69_read_fixed' depends on axioms: [propext, Classical.choice, Quot.sound]
'FinProto.C69_read_as' depends on axioms: [propext, Classical.choice, Quot.sound]
'FinProto.C69_write_prefixed' depends on axioms: [propext, Classical.choice, Quot.sound]
'FinProto.C69_read_prefixed' depends on axioms: [propext, Classical.choice, Quot.sound]
'FinProto.C69_unpaired' depends on axioms: [propext, Classical.choice, Quot.sound]
'FinProto.C69_bytes_survive' depends on axioms: [propext, Classical.choice, Quot.sound]
'FinProto.C70_encode' depends on axioms: [propext, Classical.choice, Quot.sound]
'FinProto.C70_body_throws' depends on axioms: [propext, Classical.choice, Quot.sound]
'FinProto.C70_service_fails' depends on axioms: [propext, Classical.choice, Quot.sound]
'FinProto.C70_no_body' depends on axioms: [propext, Classical.choice, Quot.sound]
'FinProto.C70_body' depends on axioms: [propext, Classical.choice, Quot.sound]
'FinProto.C70_bjse' depends on axioms: [propext, Quot.sound]
'FinProto.C70_round_trip' depends on axioms: [propext, Classical.choice, Quot.sound]
'FinProto.C70_extension_encode' depends on axioms: [propext, Quot.sound]
'FinProto.C70_extension_decode' depends on axioms: [propext, Quot.sound]
'FinProto.C70_closed' depends on axioms: [propext, Classical.choice, Quot.sound]
'FinProto.C71_accepts' depends on axioms: [propext, Classical.choice, Quot.sound]
'FinProto.C71_unknown_key' depends on axioms: [propext, Classical.choice, Quot.sound]
'FinProto.C71_incomplete' depends on axioms: [propext, Classical.choice, Quot.sound]
'FinProto.C71_unambiguous' depends on axioms: [propext, Classical.choice, Quot.sound]
'FinProto.C71_unknown_final' depends on axioms: [propext, Classical.choice, Quot.sound]
'FinProto.C72_final' depends on axioms: [propext, Quot.sound]
'FinProto.C72_incomplete' depends on axioms: [propext, Classical.choice, Quot.sound]
'FinProto.C72_chunks' depends on axioms: [propext, Quot.sound]
'FinProto.C72_delivers' depends on axioms: [propext, Classical.choice, Quot.sound]
'FinProto.C72_spare_violated' depends on axioms: [propext, Classical.choice, Quot.sound]
'FinProto.C73_reused_buffer' depends on axioms: [propext, Classical.choice, Quot.sound]
'FinProto.C73_delivers' depends on axioms: [propext, Classical.choice, Quot.sound]
'FinProto.C73_no_checksum_violated' depends on axioms: [propext, Classical.choice, Quot.sound]
'FinProto.C73_other_classes_violated' depends on axioms: [propext, Classical.choice, Quot.sound]
'FinProto.C74_common_parts' depends on axioms: [propext, Classical.choice, Quot.sound]
'FinProto.C74_bytes' depends on axioms: [propext, Classical.choice, Quot.sound]
'FinProto.C74_changes' depends on axioms: [propext, Classical.choice, Quot.sound]
'FinProto.C74_finishes' depends on axioms: [propext, Classical.choice, Quot.sound]
'FinProto.C74_single' depends on axioms: [propext, Classical.choice, Quot.sound]
'FinProto.C74_common_frame_violated' depends on axioms: [propext, Quot.sound]
'FinProto.C75_accepts_iff' depends on axioms: [propext, Classical.choice, Quot.sound]
'FinProto.C75_genuine_sse' depends on axioms: [propext, Classical.choice, Quot.sound]
'FinProto.C75_genuine_szse' depends on axioms: [propext, Classical.choice, Quot.sound]
'FinProto.C75_genuine_root' depends on axioms: [propext, Classical.choice, Quot.sound]
'FinProto.C75_corrupted_sse' depends on axioms: [propext, Classical.choice, Quot.sound]
'FinProto.C75_corrupted_szse' depends on axioms: [propext, Classical.choice, Quot.sound]
'FinProto.C75_corrupted_root' depends on axioms: [propext, Classical.choice, Quot.sound]
'FinProto.C75_two_bits_root' depends on axioms: [propext, Classical.choice, Quot.sound]
'FinProto.C75_three_bits_root' depends on axioms: [propext, Classical.choice, Quot.sound]
'FinProto.C75_four_bits_root' depends on axioms: [propext, Classical.choice, Quot.sound]
'FinProto.C75_exchanged_bytes_violated' depends on axioms: [propext, Classical.choice, Quot.sound]
'FinProto.C75_unread_bytes_violated' depends on axioms: [propext, Classical.choice, Quot.sound]
'FinProto.C76_equals' depends on axioms: [propext, Classical.choice, Quot.sound]
'FinProto.C76_hash' depends on axioms: [propext, Classical.choice, Quot.sound]
'FinProto.C76_toString' depends on axioms: [propext, Classical.choice, Quot.sound]
'FinProto.C76_same_object' depends on axioms: [propext, Quot.sound]
'FinProto.C76_cyclic' depends on axioms: [propext, Classical.choice, Quot.sound]
'FinProto.C76_cyclic_equals_violated' depends on axioms: [propext, Classical.choice, Quot.sound]
'FinProto.C77_apart' depends on axioms: [propext, Classical.choice, Quot.sound]
'FinProto.C77_decoded' depends on axioms: [propext, Classical.choice, Quot.sound]
'FinProto.C77_encoded' depends on axioms: [propext, Classical.choice, Quot.sound]
'FinProto.C77_disjoint' depends on axioms: [propext, Classical.choice, Quot.sound]
'FinProto.C77_finishes' depends on axioms: [propext, Classical.choice, Quot.sound]
'FinProto.C77_single' depends on axioms: [propext, Classical.choice, Quot.sound]
'FinProto.C77_receivers' depends on axioms: [propext, Classical.choice, Quot.sound]
'FinProto.C77_one_body_violated' depends on axioms: [propext, Classical.choice, Quot.sound]
'FinProto.C78_history' depends on axioms: [propext, Classical.choice, Quot.sound]
'FinProto.C78_classes' depends on axioms: [propext, Classical.choice, Quot.sound]
'FinProto.C78_encode' depends on axioms: [propext, Classical.choice, Quot.sound]
'FinProto.C78_decode' depends on axioms: [propext, Classical.choice, Quot.sound]
'FinProto.C78_objects' depends on axioms: [propext, Quot.sound]
'FinProto.C78_changed_during_encode_violated' depends on axioms: [propext, Classical.choice, Quot.sound]
'FinProto.C79_decode' depends on axioms: [propext, Classical.choice, Quot.sound]
'FinProto.C79_encode' depends on axioms: [propext, Classical.choice, Quot.sound]
'FinProto.C79_left_padded_violated' depends on axioms: [propext, Classical.choice, Quot.sound]
'FinProto.C80_no_races' depends on axioms: [propext, Classical.choice, Quot.sound]
'FinProto.C80_no_races_now' depends on axioms: [propext, Classical.choice, Quot.sound]
'FinProto.C80_each_alone' depends on axioms: [propext, Classical.choice, Quot.sound]
'FinProto.C80_decoded' depends on axioms: [propext, Classical.choice, Quot.sound]
'FinProto.C80_encoded' depends on axioms: [propext, Classical.choice, Quot.sound]
'FinProto.C80_finishes' depends on axioms: [propext, Classical.choice, Quot.sound]
'FinProto.C80_writes' depends on axioms: [propext, Classical.choice, Quot.sound]
'FinProto.C80_reads' depends on axioms: [propext, Quot.sound]
'FinProto.C80_common_frame_violated' depends on axioms: [propext, Classical.choice, Quot.sound]
'FinProto.C80_decoded_while_encoded_violated' depends on axioms: [propext, Classical.choice, Quot.sound]
'FinProto.C81_setter' depends on axioms: [propext, Quot.sound]
'FinProto.C81_list' depends on axioms: [propext, Quot.sound]
'FinProto.C81_elsewhere' depends on axioms: [propext, Quot.sound]
'FinProto.C81_new' depends on axioms: [propext, Quot.sound]
'FinProto.C81_getter' depends on axioms: [propext]
'FinProto.C81_cycle' depends on axioms: [propext, Quot.sound]
'FinProto.C81_encode' depends on axioms: [propext, Classical.choice, Quot.sound]
'FinProto.C82_encode' depends on axioms: [propext, Classical.choice, Quot.sound]
'FinProto.C82_decode' depends on axioms: [propext, Classical.choice, Quot.sound]
'FinProto.C82_ends' depends on axioms: [propext, Classical.choice, Quot.sound]
'FinProto.C82_bytes' depends on axioms: [propext, Classical.choice, Quot.sound]
'FinProto.C82_new' depends on axioms: [propext, Classical.choice, Quot.sound]
'FinProto.C82_round_trip' depends on axioms: [propext, Classical.choice, Quot.sound]
'FinProto.C83_pad_char' depends on axioms: [propext, Classical.choice, Quot.sound]
'FinProto.C83_write_fixed' depends on axioms: [propext, Classical.choice, Quot.sound]
'FinProto.C83_write_fixed_default' depends on axioms: [propext, Classical.choice, Quot.sound]
'FinProto.C83_trim' depends on axioms: [propext, Classical.choice, Quot.sound]
'FinProto.C83_read_fixed' depends on axioms: [propext, Classical.choice, Quot.sound]
'FinProto.C83_read_fixed_default' depends on axioms: [propext, Classical.choice, Quot.sound]
'FinProto.C83_fixed_round_trip' depends on axioms: [propext, Classical.choice, Quot.sound]
'FinProto.C83_tables' depends on axioms: [propext, Classical.choice, Quot.sound]
'FinProto.C83_crc' depends on axioms: [propext, Classical.choice, Quot.sound]
'FinProto.C83_sums' depends on axioms: [propext, Classical.choice, Quot.sound]
'FinProto.C83_calc' depends on axioms: [propext, Classical.choice, Quot.sound]
'FinProto.C83_byte_bit_map' depends on axioms: [propext, Classical.choice, Quot.sound]
'FinProto.C83_short_bit_map' depends on axioms: [propext, Classical.choice, Quot.sound]
'FinProto.C83_int_bit_map' depends on axioms: [propext, Classical.choice, Quot.sound]
'FinProto.C83_long_bit_map' depends on axioms: [propext, Classical.choice, Quot.sound]
'FinProto.C84_equals' depends on axioms: [propext, Classical.choice, Quot.sound]
'FinProto.C84_equals_values' depends on axioms: [propext, Classical.choice, Quot.sound]
'FinProto.C84_hashCode' depends on axioms: [propext, Classical.choice, Quot.sound]
'FinProto.C84_hashCode_values' depends on axioms: [propext, Classical.choice, Quot.sound]
'FinProto.C84_toString' depends on axioms: [propext, Classical.choice, Quot.sound]
'FinProto.C84_toString_values' depends on axioms: [propext, Classical.choice, Quot.sound]
'FinProto.C84_getter' depends on axioms: [propext, Classical.choice, Quot.sound]
'FinProto.C84_setter' depends on axioms: [propext, Classical.choice, Quot.sound]
'FinProto.C84_create' depends on axioms: [propext, Classical.choice, Quot.sound]
'FinProto.C84_create_shows' depends on axioms: [propext, Classical.choice, Quot.sound]
'FinProto.C84_create_in_decode' depends on axioms: [propext, Classical.choice, Quot.sound]
'FinProto.C84_register' depends on axioms: [propext, Classical.choice, Quot.sound]
'FinProto.C84_register_sse' depends on axioms: [propext, Classical.choice, Quot.sound]
'FinProto.C84_remove' depends on axioms: [propext, Classical.choice, Quot.sound]
'FinProto.C84_get_msg_type' depends on axioms: [propext, Classical.choice, Quot.sound]
'FinProto.C84_from_value' depends on axioms: [propext, Classical.choice, Quot.sound]
'FinProto.C84_factory_call' depends on axioms: [propext, Classical.choice, Quot.sound]
'FinProto.C84_factory_history' depends on axioms: [propext, Classical.choice, Quot.sound]
'FinProto.C84_static_initialisers' depends on axioms: [propext, Classical.choice, Quot.sound]
'FinProto.C84_create_after' depends on axioms: [propext, Classical.choice, Quot.sound]
'FinProto.C84_registry' depends on axioms: [propext, Classical.choice, Quot.sound]
'FinProto.C84_get_service' depends on axioms: [propext, Classical.choice, Quot.sound]
'FinProto.C84_registry_call' depends on axioms: [propext, Classical.choice, Quot.sound]
'FinProto.C84_registry_after' depends on axioms: [propext, Classical.choice, Quot.sound]
'FinProto.C84_verify' depends on axioms: [propext, Classical.choice, Quot.sound]
'FinProto.C85_registries' depends on axioms: [propext, Classical.choice, Quot.sound]
'FinProto.C85_when_does_not_matter' depends on axioms: [propext, Classical.choice, Quot.sound]
'FinProto.C85_first_use' depends on axioms: [propext, Classical.choice, Quot.sound]
'FinProto.C85_untouched' depends on axioms: [propext, Classical.choice, Quot.sound]
'FinProto.C85_round_trip' depends on axioms: [propext, Classical.choice, Quot.sound]
'FinProto.C86_write_fixed' depends on axioms: [propext, Classical.choice, Quot.sound]
'FinProto.C86_read_fixed' depends on axioms: [propext, Classical.choice, Quot.sound]
'FinProto.C86_widths' depends on axioms: [propext, Quot.sound]
'FinProto.C86_get_service' depends on axioms: [propext, Classical.choice, Quot.sound]
'FinProto.C86_calc' depends on axioms: [propext, Classical.choice, Quot.sound]
'FinProto.C86_verify' depends on axioms: [propext, Classical.choice, Quot.sound]
'FinProto.C87_size' depends on axioms: [propext, Quot.sound]
'FinProto.C87_services' depends on axioms: [propext, Quot.sound]
'FinProto.C87_number' depends on axioms: [propext, Quot.sound]
'FinProto.C88_bytes' depends on axioms: [propext, Classical.choice, Quot.sound]
'FinProto.C88_shows' depends on axioms: [propext, Classical.choice, Quot.sound]
'FinProto.C88_outside' depends on axioms: [propext, Classical.choice, Quot.sound]
'FinProto.C88_others' depends on axioms: [propext, Classical.choice, Quot.sound]
'FinProto.C88_plain' depends on axioms: [propext, Classical.choice, Quot.sound]
'FinProto.C88_attempts' depends on axioms: [propext, Classical.choice, Quot.sound]
'FinProto.C88_common_frame' depends on axioms: [propext, Classical.choice, Quot.sound]
'FinProto.C89_factories' depends on axioms: [propext, Classical.choice, Quot.sound]
'FinProto.C89_complete' depends on axioms: [propext, Classical.choice, Quot.sound]
'FinProto.C89_finish' depends on axioms: [propext, Classical.choice, Quot.sound]
'FinProto.C89_registry' depends on axioms: [propext, Quot.sound]
'FinProto.C89_services' depends on axioms: [propext, Classical.choice, Quot.sound]
'FinProto.C89_registry_finish' depends on axioms: [propext, Classical.choice, Quot.sound]
'FinProto.C90_bytes' depends on axioms: [propext, Quot.sound]
'FinProto.C90_any_buffer' depends on axioms: [propext, Quot.sound]
'FinProto.C90_unpooled' depends on axioms: [propext, Classical.choice, Quot.sound]
'FinProto.C90_through_buffer' depends on axioms: [propext, Classical.choice, Quot.sound]
'FinProto.C90_released' depends on axioms: [propext, Quot.sound]
'FinProto.C90_released_refused' depends on axioms: [propext, Quot.sound]
'FinProto.C91_encoded' depends on axioms: [propext, Classical.choice, Quot.sound]
'FinProto.C91_stream' depends on axioms: [propext, Classical.choice, Quot.sound]
'FinProto.C91_so_far' depends on axioms: [propext, Classical.choice, Quot.sound]
'FinProto.C91_damaged' depends on axioms: [propext, Classical.choice, Quot.sound]
'FinProto.C91_disagree_violated' depends on axioms: [propext, Classical.choice, Quot.sound]
'FinProto.C92_decode' depends on axioms: [propext, Classical.choice, Quot.sound]
'FinProto.C92_queue' depends on axioms: [propext, Classical.choice, Quot.sound]
'FinProto.C92_room' depends on axioms: [propext, Classical.choice, Quot.sound]
'FinProto.C92_fits' depends on axioms: [propext, Classical.choice, Quot.sound]
'FinProto.C92_released' depends on axioms: [propext, Quot.sound]
'FinProto.C92_ghost_violated' depends on axioms: [propext, Classical.choice, Quot.sound]
'FinProto.C92_kinds' depends on axioms: [propext]
'FinProto.C93_later' depends on axioms: [propext, Classical.choice, Quot.sound]
'FinProto.C93_content' depends on axioms: [propext, Classical.choice, Quot.sound]
'FinProto.C93_buffer' depends on axioms: [propext, Classical.choice, Quot.sound]
'FinProto.C93_stays' depends on axioms: [propext, Classical.choice, Quot.sound]
'FinProto.C93_so_far' depends on axioms: [propext, Classical.choice, Quot.sound]
'FinProto.C93_prefix' depends on axioms: [propext, Classical.choice, Quot.sound]
'FinProto.C93_reader_violated' depends on axioms: [propext, Classical.choice, Quot.sound]
'FinProto.C94_no_error' depends on axioms: [propext, Classical.choice, Quot.sound]
'FinProto.C94_error' depends on axioms: [propext, Classical.choice, Quot.sound]
'FinProto.C94_buffer' depends on axioms: [propext, Classical.choice, Quot.sound]
'FinProto.C94_message' depends on axioms: [propext, Classical.choice, Quot.sound]
'FinProto.C94_room' depends on axioms: [propext, Classical.choice, Quot.sound]
'FinProto.C94_ensured' depends on axioms: [propext, Classical.choice, Quot.sound]
'FinProto.C94_retry' depends on axioms: [propext, Classical.choice, Quot.sound]
'FinProto.C94_queue' depends on axioms: [propext, Classical.choice, Quot.sound]
'FinProto.C95_any_moment' depends on axioms: [propext, Classical.choice, Quot.sound]
'FinProto.C95_buffer' depends on axioms: [propext, Quot.sound]
'FinProto.C95_again' depends on axioms: [propext, Classical.choice, Quot.sound]
'FinProto.C95_other_bytes' depends on axioms: [propext, Classical.choice, Quot.sound]
'FinProto.C95_left_over_violated' depends on axioms: [propext, Classical.choice, Quot.sound]
'FinProto.C96_map' depends on axioms: [propext, Classical.choice, Quot.sound]
'FinProto.C96_entries' depends on axioms: [propext, Classical.choice, Quot.sound]
'FinProto.C96_not_hashable' depends on axioms: [propext, Classical.choice, Quot.sound]
'FinProto.C96_encode_loses_violated' depends on axioms: [propext, Classical.choice, Quot.sound]
'FinProto.C97_decode_touches' depends on axioms: [propext, Classical.choice, Quot.sound]
'FinProto.C97_others' depends on axioms: [propext, Classical.choice, Quot.sound]
'FinProto.C97_bodies' depends on axioms: [propext, Classical.choice, Quot.sound]
'FinProto.C97_lists' depends on axioms: [propext, Classical.choice, Quot.sound]
'FinProto.C97_nested_violated' depends on axioms: [propext, Classical.choice, Quot.sound]
'FinProto.C98_recovered' depends on axioms: [propext, Classical.choice, Quot.sound]
'FinProto.C98_stays' depends on axioms: [propext, Classical.choice, Quot.sound]
'FinProto.C98_zeros' depends on axioms: [propext, Classical.choice, Quot.sound]
'FinProto.C98_saved_iff' depends on axioms: [propext, Classical.choice, Quot.sound]
'FinProto.C98_torn_zeros_violated' depends on axioms: [propext, Classical.choice, Quot.sound]
'FinProto.C98_not_cut_violated' depends on axioms: [propext, Classical.choice, Quot.sound]
'FinProto.C99_one_writer' depends on axioms: [propext, Quot.sound]
'FinProto.C99_byte_agree' depends on axioms: [propext, Classical.choice, Quot.sound]
'FinProto.C99_short_agree' depends on axioms: [propext, Classical.choice, Quot.sound]
'FinProto.C99_int_agree' depends on axioms: [propext, Classical.choice, Quot.sound]
'FinProto.C99_long_agree' depends on axioms: [propext, Classical.choice, Quot.sound]
'FinProto.C99_lost_update_violated' depends on axioms: [propext, Quot.sound]
'FinProto.C100_create' depends on axioms: [propext, Classical.choice, Quot.sound]
'FinProto.C100_only_unknown' depends on axioms: [propext, Classical.choice, Quot.sound]
'FinProto.C100_names_key' depends on axioms: [propext, Classical.choice, Quot.sound]
'FinProto.C100_from_value' depends on axioms: [propext, Classical.choice, Quot.sound]
'FinProto.C100_null_violated' depends on axioms: [propext, Classical.choice, Quot.sound]
'FinProto.C101_byte_write' depends on axioms: [propext, Classical.choice, Quot.sound]
'FinProto.C101_short_write' depends on axioms: [propext, Classical.choice, Quot.sound]
'FinProto.C101_int_write' depends on axioms: [propext, Classical.choice, Quot.sound]
'FinProto.C101_long_write' depends on axioms: [propext, Classical.choice, Quot.sound]
'FinProto.C101_short_read' depends on axioms: [propext, Classical.choice, Quot.sound]
'FinProto.C101_int_read' depends on axioms: [propext, Classical.choice, Quot.sound]
'FinProto.C101_long_read' depends on axioms: [propext, Classical.choice, Quot.sound]
'FinProto.C102_delivers' depends on axioms: [propext, Classical.choice, Quot.sound]
'FinProto.C102_all' depends on axioms: [propext, Classical.choice, Quot.sound]
'FinProto.C102_so_far' depends on axioms: [propext, Classical.choice, Quot.sound]
'FinProto.C102_length_violated' depends on axioms: [propext, Classical.choice, Quot.sound]
'FinProto.C103_mixture' depends on axioms: [propext, Classical.choice, Quot.sound]
'FinProto.C103_no_null' depends on axioms: [propext, Classical.choice, Quot.sound]
'FinProto.C103_quiet' depends on axioms: [propext, Classical.choice, Quot.sound]
'FinProto.C103_one_field' depends on axioms: [propext, Classical.choice, Quot.sound]
'FinProto.C103_kept' depends on axioms: [propext, Classical.choice, Quot.sound]
'FinProto.C103_null_violated' depends on axioms: [propext, Classical.choice, Quot.sound]
'FinProto.C103_list_violated' depends on axioms: [propext, Classical.choice, Quot.sound]
'FinProto.C103_length_violated' depends on axioms: [propext, Classical.choice, Quot.sound]
'FinProto.C104_value' depends on axioms: [propext, Classical.choice, Quot.sound]
'FinProto.C104_one_field' depends on axioms: [propext, Classical.choice, Quot.sound]
'FinProto.C104_int_field' depends on axioms: [propext, Classical.choice, Quot.sound]
'FinProto.C104_collisions' depends on axioms: [propext, Classical.choice, Quot.sound]
'FinProto.C105_blank' depends on axioms: [propext, Quot.sound]
'FinProto.C105_typed' depends on axioms: [propext]
'FinProto.C105_equal' depends on axioms: [propext, Classical.choice, Quot.sound]
'FinProto.C105_build' depends on axioms: [propext, Classical.choice, Quot.sound]
'FinProto.C105_encodable' depends on axioms: [propext, Classical.choice, Quot.sound]
'FinProto.C105_bytes' depends on axioms: [propext, Classical.choice, Quot.sound]
'FinProto.C105_frame' depends on axioms: [propext, Classical.choice, Quot.sound]
'FinProto.C106_setter' depends on axioms: [propext, Classical.choice, Quot.sound]
'FinProto.C106_in_place' depends on axioms: [propext, Classical.choice, Quot.sound]
'FinProto.C106_header' depends on axioms: [propext, Classical.choice, Quot.sound]
'FinProto.C106_received' depends on axioms: [propext, Classical.choice, Quot.sound]
'FinProto.C107_equals' depends on axioms: [propext, Classical.choice, Quot.sound]
'FinProto.C107_equals_throws' depends on axioms: [propext, Classical.choice, Quot.sound]
'FinProto.C107_not_asked' depends on axioms: [propext, Quot.sound]
'FinProto.C107_equivalence' depends on axioms: [propext, Classical.choice, Quot.sound]
'FinProto.C107_hash' depends on axioms: [propext, Quot.sound]
'FinProto.C107_hash_throws' depends on axioms: [propext, Quot.sound]
'FinProto.C107_hash_equal' depends on axioms: [propext, Classical.choice, Quot.sound]
'FinProto.C107_text' depends on axioms: [propext, Classical.choice, Quot.sound]
'FinProto.C107_text_throws' depends on axioms: [propext, Classical.choice, Quot.sound]
'FinProto.C107_library' depends on axioms: [propext, Classical.choice, Quot.sound]
'FinProto.C107_asymmetric' depends on axioms: [propext, Classical.choice, Quot.sound]
'FinProto.C108_outcome' depends on axioms: [propext, Classical.choice, Quot.sound]
'FinProto.C108_untouched' depends on axioms: [propext, Classical.choice, Quot.sound]
'FinProto.C108_one_of' depends on axioms: [propext, Classical.choice, Quot.sound]
'FinProto.C108_quiet' depends on axioms: [propext, Classical.choice, Quot.sound]
'FinProto.C108_type_violated' depends on axioms: [propext, Classical.choice, Quot.sound]
'FinProto.C108_body_violated' depends on axioms: [propext, Classical.choice, Quot.sound]
'FinProto.C108_list_violated' depends on axioms: [propext, Classical.choice, Quot.sound]
'FinProto.C109_moments' depends on axioms: [propext, Classical.choice, Quot.sound]
'FinProto.C109_order' depends on axioms: [propext, Classical.choice, Quot.sound]
'FinProto.C109_once' depends on axioms: [propext, Classical.choice, Quot.sound]
'FinProto.C109_torn_violated' depends on axioms: [propext, Classical.choice, Quot.sound]
'FinProto.C109_list_violated' depends on axioms: [propext, Classical.choice, Quot.sound]
'FinProto.C110_equals' depends on axioms: [propext, Classical.choice, Quot.sound]
'FinProto.C110_itself' depends on axioms: [propext, Quot.sound]
'FinProto.C110_one_field' depends on axioms: [propext, Classical.choice, Quot.sound]
'FinProto.C110_hashCode' depends on axioms: [propext, Classical.choice, Quot.sound]
'FinProto.C110_toString' depends on axioms: [propext, Classical.choice, Quot.sound]
'FinProto.C110_hashCode_one_field' depends on axioms: [propext, Classical.choice, Quot.sound]
'FinProto.C110_toString_one_field' depends on axioms: [propext, Classical.choice, Quot.sound]
'FinProto.C110_quiet' depends on axioms: [propext, Classical.choice, Quot.sound]
'FinProto.C110_equals_violated' depends on axioms: [propext, Classical.choice, Quot.sound]
'FinProto.C110_torn_violated' depends on axioms: [propext, Classical.choice, Quot.sound]
'FinProto.C111_mixture' depends on axioms: [propext, Classical.choice, Quot.sound]
'FinProto.C111_kept' depends on axioms: [propext, Classical.choice, Quot.sound]
'FinProto.C111_quiet' depends on axioms: [propext, Classical.choice, Quot.sound]
'FinProto.C111_image' depends on axioms: [propext, Classical.choice, Quot.sound]
'FinProto.C111_frame_sse' depends on axioms: [propext, Classical.choice, Quot.sound]
'FinProto.C111_frame_szse' depends on axioms: [propext, Classical.choice, Quot.sound]
'FinProto.C111_frame_root' depends on axioms: [propext, Classical.choice, Quot.sound]
'FinProto.C111_frame_rc' depends on axioms: [propext, Classical.choice, Quot.sound]
'FinProto.C111_shared_violated' depends on axioms: [propext, Classical.choice, Quot.sound]
'FinProto.C111_null_violated' depends on axioms: [propext, Classical.choice, Quot.sound]
'FinProto.C112_mixture' depends on axioms: [propext, Classical.choice, Quot.sound]
'FinProto.C112_image' depends on axioms: [propext, Classical.choice, Quot.sound]
'FinProto.C112_frame_sse' depends on axioms: [propext, Classical.choice, Quot.sound]
'FinProto.C112_frame_szse' depends on axioms: [propext, Classical.choice, Quot.sound]
'FinProto.C112_frame_root' depends on axioms: [propext, Classical.choice, Quot.sound]
'FinProto.C112_frame_rc' depends on axioms: [propext, Classical.choice, Quot.sound]
'FinProto.C112_kept' depends on axioms: [propext, Classical.choice, Quot.sound]
'FinProto.C112_quiet' depends on axioms: [propext, Classical.choice, Quot.sound]
'FinProto.C112_torn_violated' depends on axioms: [propext, Classical.choice, Quot.sound]
'FinProto.C112_back_violated' depends on axioms: [propext, Classical.choice, Quot.sound]
'FinProto.C113_appends' depends on axioms: [propext, Quot.sound]
'FinProto.C113_frame_sse' depends on axioms: [propext, Classical.choice, Quot.sound]
'FinProto.C113_frame_szse' depends on axioms: [propext, Classical.choice, Quot.sound]
'FinProto.C113_frame_root' depends on axioms: [propext, Classical.choice, Quot.sound]
'FinProto.C113_frame_rc' depends on axioms: [propext, Classical.choice, Quot.sound]
'FinProto.C113_setters' depends on axioms: [propext, Quot.sound]
'FinProto.C113_weak' depends on axioms: [propext, Classical.choice, Quot.sound]
'FinProto.C113_count_violated' depends on axioms: [propext, Classical.choice, Quot.sound]
'FinProto.C113_throws_violated' depends on axioms: [propext, Classical.choice, Quot.sound]
'FinProto.C113_length_violated' depends on axioms: [propext, Classical.choice, Quot.sound]
'FinProto.C114_reads' depends on axioms: [propext, Quot.sound]
'FinProto.C114_quiet' depends on axioms: [propext, Quot.sound]
'FinProto.C114_position' depends on axioms: [propext, Classical.choice, Quot.sound]
'FinProto.C114_kind' depends on axioms: [propext, Classical.choice, Quot.sound]
'FinProto.C114_others' depends on axioms: [propext, Classical.choice, Quot.sound]
'FinProto.C114_setters' depends on axioms: [propext, Quot.sound]
'FinProto.C114_outcome' depends on axioms: [propext, Classical.choice, Quot.sound]
'FinProto.C114_sent' depends on axioms: [propext, Classical.choice, Quot.sound]
'FinProto.C114_setters_calm' depends on axioms: [propext, Quot.sound]
'FinProto.C114_list_violated' depends on axioms: [propext, Classical.choice, Quot.sound]
'FinProto.C114_null_violated' depends on axioms: [propext, Classical.choice, Quot.sound]
'FinProto.C114_type_violated' depends on axioms: [propext, Classical.choice, Quot.sound]
'FinProto.C114_body_violated' depends on axioms: [propext, Classical.choice, Quot.sound]
'FinProto.C115_hashCode' depends on axioms: [propext, Quot.sound]
'FinProto.C115_toString' depends on axioms: [propext, Classical.choice, Quot.sound]
'FinProto.C115_equal' depends on axioms: [propext, Quot.sound]
'FinProto.C115_different' depends on axioms: [propext, Quot.sound]
'FinProto.C115_itself' depends on axioms: [propext, Quot.sound]
'FinProto.C115_exceptions' depends on axioms: [propext, Quot.sound]
'FinProto.C115_setters' depends on axioms: [propext, Quot.sound]
'FinProto.C115_untouched' depends on axioms: [propext, Classical.choice, Quot.sound]
'FinProto.C115_quiet' depends on axioms: [propext, Classical.choice, Quot.sound]
'FinProto.C115_one_setter_violated' depends on axioms: [propext, Classical.choice, Quot.sound]
'FinProto.C115_equals_violated' depends on axioms: [propext, Quot.sound]
'FinProto.C115_stale_violated' depends on axioms: [propext, Classical.choice, Quot.sound]
'FinProto.C116_encode' depends on axioms: [propext, Classical.choice, Quot.sound]
'FinProto.C116_encode_value' depends on axioms: [propext, Classical.choice, Quot.sound]
'FinProto.C116_encode_making' depends on axioms: [propext, Classical.choice, Quot.sound]
'FinProto.C116_encode_making_value' depends on axioms: [propext, Classical.choice, Quot.sound]
'FinProto.C116_encode_making_others' depends on axioms: [propext, Classical.choice, Quot.sound]
'FinProto.C116_decode' depends on axioms: [propext, Classical.choice, Quot.sound]
'FinProto.C116_decode_value' depends on axioms: [propext, Classical.choice, Quot.sound]
'FinProto.C116_decode_new' depends on axioms: [propext, Classical.choice, Quot.sound]
'FinProto.C116_decode_making' depends on axioms: [propext, Classical.choice, Quot.sound]
'FinProto.C116_decode_making_value' depends on axioms: [propext, Classical.choice, Quot.sound]
'FinProto.C116_decode_making_others' depends on axioms: [propext, Classical.choice, Quot.sound]
'FinProto.C116_transfer' depends on axioms: [propext, Classical.choice, Quot.sound]
'FinProto.C116_encode_others' depends on axioms: [propext, Classical.choice, Quot.sound]
'FinProto.C116_decode_others' depends on axioms: [propext, Classical.choice, Quot.sound]
'FinProto.C116_shared_violated' depends on axioms: [propext, Classical.choice, Quot.sound]
'FinProto.C117_decode' depends on axioms: [propext, Classical.choice, Quot.sound]
'FinProto.C117_decode_value' depends on axioms: [propext, Classical.choice, Quot.sound]
'FinProto.C117_field' depends on axioms: [propext, Classical.choice, Quot.sound]
'FinProto.C117_nothing_set' depends on axioms: [propext, Classical.choice, Quot.sound]
'FinProto.C117_setters' depends on axioms: [propext, Quot.sound]
'FinProto.C117_set_violated' depends on axioms: [propext, Classical.choice, Quot.sound]
'FinProto.C118_program' depends on axioms: [propext, Classical.choice, Quot.sound]
'FinProto.C118_shows' depends on axioms: [propext, Classical.choice, Quot.sound]
'FinProto.C118_others' depends on axioms: [propext, Classical.choice, Quot.sound]
'FinProto.C118_known_violated' depends on axioms: [propext, Classical.choice, Quot.sound]
'FinProto.C119_encode' depends on axioms: [propext, Classical.choice, Quot.sound]
'FinProto.C119_encode_value' depends on axioms: [propext, Classical.choice, Quot.sound]
'FinProto.C119_decode' depends on axioms: [propext, Classical.choice, Quot.sound]
'FinProto.C119_decode_value' depends on axioms: [propext, Classical.choice, Quot.sound]
'FinProto.C119_decode_new' depends on axioms: [propext, Classical.choice, Quot.sound]
'FinProto.C119_wait' depends on axioms: [propext, Classical.choice, Quot.sound]
'FinProto.C119_encode_unshared' depends on axioms: [propext, Classical.choice, Quot.sound]
'FinProto.C119_history' depends on axioms: [propext, Classical.choice, Quot.sound]
'FinProto.C119_encode_others' depends on axioms: [propext, Classical.choice, Quot.sound]
'FinProto.C119_decode_others' depends on axioms: [propext, Classical.choice, Quot.sound]
'FinProto.C119_transfer' depends on axioms: [propext, Classical.choice, Quot.sound]
'FinProto.C119_list_violated' depends on axioms: [propext, Classical.choice, Quot.sound] 
