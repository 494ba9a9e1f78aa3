# Axioms

Generated by `tools/axioms.py` from Lean's `#print axioms`.

## none

* `Mdf.C100_false`
* `Mdf.C100_in_buffer`
* `Mdf.C100_other_calls_partial`
* `Mdf.C103_false`
* `Mdf.C103_mdf3_false`
* `Mdf.C109_no_offsets`
* `Mdf.C113_range`
* `Mdf.C113_start`
* `Mdf.C118_composition_lost`
* `Mdf.C123_name_stays`
* `Mdf.C123_no_text`
* `Mdf.C125_bool`
* `Mdf.C125_bool_of_int`
* `Mdf.C126_no_program`
* `Mdf.C127_unsaved_data_group`
* `Mdf.C17_wrapped_offset_ub`
* `Mdf.C39_late_version_not_stored`
* `Mdf.C41_sizes`
* `Mdf.C42_new_channel`
* `Mdf.C48_read_data_loads`
* `Mdf.C67_parts_lost`
* `Mdf.C67_second_ignored`
* `Mdf.C80_destination_deleted`
* `Mdf.C80_false`
* `Mdf.C80_false_parts`
* `Mdf.C80_file_cut`
* `Mdf.C80_source_deleted`
* `Mdf.C80_success_without_file`
* `Mdf.C81_nothing_buffer`
* `Mdf.C88_calls_statement_fails`
* `Mdf.C88_integers_widen`
* `Mdf.C93_words`
* `Mdf.C96_not_ascii_ub`
* `Mdf.C97_composition_false`

## propext

* `Mdf.C09_overflow_overlaps`
* `Mdf.C102_foreign_sample_read`
* `Mdf.C103_not_delivered`
* `Mdf.C104_false`
* `Mdf.C104_first_start_partial`
* `Mdf.C104_not_in_file_before`
* `Mdf.C108_east_partial`
* `Mdf.C108_false`
* `Mdf.C108_getter`
* `Mdf.C108_half_hour`
* `Mdf.C108_local`
* `Mdf.C108_west`
* `Mdf.C108_zoned`
* `Mdf.C109_false`
* `Mdf.C110_channels_all`
* `Mdf.C110_conversion`
* `Mdf.C110_refs`
* `Mdf.C112_exception`
* `Mdf.C112_false_uncompressed`
* `Mdf.C112_init`
* `Mdf.C112_lock_lost`
* `Mdf.C112_loop_compressed`
* `Mdf.C112_loop_mdf3`
* `Mdf.C113_false`
* `Mdf.C113_reference_false`
* `Mdf.C113_set_short`
* `Mdf.C113_text_cut`
* `Mdf.C113_text_set_unterminated`
* `Mdf.C113_value_bytes_false`
* `Mdf.C114_ids_first`
* `Mdf.C115_bus`
* `Mdf.C115_false`
* `Mdf.C115_fixed_false`
* `Mdf.C115_fixed_never`
* `Mdf.C115_length_lost`
* `Mdf.C115_name`
* `Mdf.C117_started_early`
* `Mdf.C117_stream`
* `Mdf.C118_master`
* `Mdf.C119_defaults`
* `Mdf.C120_by_type`
* `Mdf.C120_eng`
* `Mdf.C124_console`
* `Mdf.C124_quiet`
* `Mdf.C125_byte`
* `Mdf.C125_type_word`
* `Mdf.C128_not_open`
* `Mdf.C130_ch_labels`
* `Mdf.C130_other`
* `Mdf.C130_short`
* `Mdf.C15_swapped_range`
* `Mdf.C22_chunks_are_the_stream`
* `Mdf.C31_linear`
* `Mdf.C31_text_number`
* `Mdf.C31_text_other`
* `Mdf.C31_unchanged`
* `Mdf.C32_copy_numbers_partial`
* `Mdf.C32_copy_to_text`
* `Mdf.C32_copy_translate`
* `Mdf.C33_decode`
* `Mdf.C35_channel_wide32_false`
* `Mdf.C35_wide16_back_false`
* `Mdf.C36_field_written`
* `Mdf.C36_position`
* `Mdf.C37_false`
* `Mdf.C37_finalize_false`
* `Mdf.C37_nothing_after_stop`
* `Mdf.C39_finalized_iff`
* `Mdf.C39_is_mdf`
* `Mdf.C40_array_index_false`
* `Mdf.C40_byte_array_false`
* `Mdf.C40_byte_array_partial`
* `Mdf.C40_sample_wrap_false`
* `Mdf.C49_false`
* `Mdf.C54_date_stays`
* `Mdf.C54_default_size`
* `Mdf.C54_type_statement_false`
* `Mdf.C59_lost_in_old_group`
* `Mdf.C59_terminates`
* `Mdf.C60_carriage_return`
* `Mdf.C60_line_feed_in_description`
* `Mdf.C63_offset_missing`
* `Mdf.C63_time_of_day`
* `Mdf.C64_blank_lost`
* `Mdf.C64_index_lost`
* `Mdf.C64_list_index_lost`
* `Mdf.C64_list_lost`
* `Mdf.C64_lost`
* `Mdf.C64_names_index_lost`
* `Mdf.C64_plain_partial`
* `Mdf.C64_read_twice`
* `Mdf.C65_bool`
* `Mdf.C65_boolean`
* `Mdf.C67_full_statement_fails`
* `Mdf.C67_index_lost`
* `Mdf.C68_array_size_kept`
* `Mdf.C70_attachments_kept`
* `Mdf.C74_data_wraps`
* `Mdf.C76_statement_false`
* `Mdf.C77_factor_lost`
* `Mdf.C77_statement_false`
* `Mdf.C80_sorting_accepted`
* `Mdf.C80_sorting_refused`
* `Mdf.C80_sorting_unread`
* `Mdf.C80_validating_refused`
* `Mdf.C81_deflate_error`
* `Mdf.C82_cut_block`
* `Mdf.C85_early_undefined`
* `Mdf.C85_other_kind`
* `Mdf.C85_other_size`
* `Mdf.C88_full_statement_fails`
* `Mdf.C88_no_file`
* `Mdf.C88_quote_breaks`
* `Mdf.C90_cycle_never_ends`
* `Mdf.C94_identity`
* `Mdf.C94_identity_twice`
* `Mdf.C96_second_directory_false`
* `Mdf.C98_false`
* `Mdf.C98_mdf3_header_false`

## propext, Classical.choice, Quot.sound

* `Mdf.C01_le_bitfield_roundtrip`
* `Mdf.C01_read_le`
* `Mdf.C02_le_write_frame`
* `Mdf.C02_le_write_keeps_neighbours`
* `Mdf.C03_be_bitfield_partial`
* `Mdf.C03_read_be`
* `Mdf.C04_signed_range`
* `Mdf.C04_signed_roundtrip`
* `Mdf.C05_get_float`
* `Mdf.C05_get_in_bounds`
* `Mdf.C05_get_signed`
* `Mdf.C05_get_unsigned_be`
* `Mdf.C05_get_unsigned_le`
* `Mdf.C07_byte_array_roundtrip`
* `Mdf.C07_float_roundtrip`
* `Mdf.C07_signed_roundtrip`
* `Mdf.C07_unsigned_be_roundtrip`
* `Mdf.C07_unsigned_le_roundtrip`
* `Mdf.C08_set_valid`
* `Mdf.C08_set_valid_sequence`
* `Mdf.C09_group_set_keeps_others`
* `Mdf.C09_layout_contiguous`
* `Mdf.C09_layout_disjoint`
* `Mdf.C09_store_keeps_others`
* `Mdf.C103_counter`
* `Mdf.C105_by_record_id`
* `Mdf.C105_channel_contains`
* `Mdf.C105_channel_false`
* `Mdf.C105_channel_partial`
* `Mdf.C105_group_exact`
* `Mdf.C105_group_part`
* `Mdf.C105_master`
* `Mdf.C106_channel_partial`
* `Mdf.C106_channels_distinct`
* `Mdf.C106_false`
* `Mdf.C106_group_partial`
* `Mdf.C106_group_twice`
* `Mdf.C107_all`
* `Mdf.C107_case_false`
* `Mdf.C107_exact_partial`
* `Mdf.C107_observed`
* `Mdf.C107_same_letter`
* `Mdf.C108_texts`
* `Mdf.C108_texts_given`
* `Mdf.C109_read_back`
* `Mdf.C10_record_id_bytes_distinct`
* `Mdf.C10_record_ids_unique`
* `Mdf.C110_array_kept`
* `Mdf.C110_array_lost`
* `Mdf.C110_arrays_kept`
* `Mdf.C110_false`
* `Mdf.C110_false_mdf4`
* `Mdf.C110_place`
* `Mdf.C111_exp_first`
* `Mdf.C111_exp_inverse`
* `Mdf.C111_exp_second`
* `Mdf.C111_exponential_partial`
* `Mdf.C111_false`
* `Mdf.C111_invalid`
* `Mdf.C111_log_first`
* `Mdf.C111_log_inverse`
* `Mdf.C111_log_inverse_second`
* `Mdf.C111_log_second`
* `Mdf.C112_save_writes`
* `Mdf.C113_value_bytes_iff`
* `Mdf.C113_value_text`
* `Mdf.C114_adapters`
* `Mdf.C114_again`
* `Mdf.C114_again_false`
* `Mdf.C114_again_partial`
* `Mdf.C114_again_unused`
* `Mdf.C114_all_kinds`
* `Mdf.C114_configured_partial`
* `Mdf.C114_earlier`
* `Mdf.C114_ethernet_filter`
* `Mdf.C114_false`
* `Mdf.C114_filters`
* `Mdf.C114_flexray`
* `Mdf.C114_flexray_adapter`
* `Mdf.C114_found`
* `Mdf.C114_groups`
* `Mdf.C114_kinds`
* `Mdf.C114_mandatory`
* `Mdf.C114_refused`
* `Mdf.C115_comment`
* `Mdf.C115_settings_partial`
* `Mdf.C116_channel`
* `Mdf.C116_half`
* `Mdf.C116_value`
* `Mdf.C118_channel_partial`
* `Mdf.C118_composition_partial`
* `Mdf.C118_found`
* `Mdf.C118_set_again_ignored`
* `Mdf.C119_bits`
* `Mdf.C119_bits_first`
* `Mdf.C119_bits_lost`
* `Mdf.C119_overwrites_first`
* `Mdf.C119_placed_partial`
* `Mdf.C119_type_sizes`
* `Mdf.C119_validity_lost`
* `Mdf.C119_validity_shared`
* `Mdf.C11_delivered`
* `Mdf.C11_samples_written_are_read`
* `Mdf.C11_saved_is_read`
* `Mdf.C11_stored_is_read`
* `Mdf.C11_untrimmed_is_read`
* `Mdf.C120_false`
* `Mdf.C120_listed_partial`
* `Mdf.C120_none_listed`
* `Mdf.C121_aborts`
* `Mdf.C121_att_false`
* `Mdf.C121_attachment_texts`
* `Mdf.C121_attachments_partial`
* `Mdf.C121_found_again`
* `Mdf.C121_header`
* `Mdf.C121_histories`
* `Mdf.C122_comment`
* `Mdf.C122_digits_lost`
* `Mdf.C122_false`
* `Mdf.C122_names`
* `Mdf.C122_new`
* `Mdf.C122_plain_lost`
* `Mdf.C122_set_partial`
* `Mdf.C122_six_kept`
* `Mdf.C122_value_same`
* `Mdf.C122_value_text`
* `Mdf.C123_class_by_number`
* `Mdf.C123_false`
* `Mdf.C123_minor_partial`
* `Mdf.C123_one_digit`
* `Mdf.C123_version3`
* `Mdf.C123_version4`
* `Mdf.C124_count`
* `Mdf.C125_double_lost`
* `Mdf.C125_double_partial`
* `Mdf.C125_empty`
* `Mdf.C125_false`
* `Mdf.C125_file`
* `Mdf.C125_int`
* `Mdf.C125_nat`
* `Mdf.C126_damaged_program`
* `Mdf.C126_damaged_trigger`
* `Mdf.C126_dependencies`
* `Mdf.C126_dependencies_read`
* `Mdf.C126_dimensions_skipped`
* `Mdf.C126_message`
* `Mdf.C126_module`
* `Mdf.C126_other_extension`
* `Mdf.C126_program`
* `Mdf.C126_program_kept`
* `Mdf.C126_triggers`
* `Mdf.C126_triggers_kept`
* `Mdf.C126_triggers_lost`
* `Mdf.C126_triggers_written`
* `Mdf.C127_false`
* `Mdf.C129_again`
* `Mdf.C129_exact`
* `Mdf.C129_false`
* `Mdf.C129_large`
* `Mdf.C129_near_partial`
* `Mdf.C129_negative`
* `Mdf.C129_seconds`
* `Mdf.C129_window`
* `Mdf.C12_refines_flat_reader`
* `Mdf.C12_split_invisible`
* `Mdf.C12_split_invisible_any_bytes`
* `Mdf.C13_empty_block_hides_data`
* `Mdf.C13_read_to_first_empty_partial`
* `Mdf.C13_records_before_partial`
* `Mdf.C14_skipping_is_filtering`
* `Mdf.C15_off_by_one`
* `Mdf.C15_partial_read_partial`
* `Mdf.C16_read_all`
* `Mdf.C16_read_offsets`
* `Mdf.C16_vlsd_roundtrip`
* `Mdf.C17_offset_unreadable`
* `Mdf.C18_offsets_increase`
* `Mdf.C18_records_point_to_values`
* `Mdf.C18_vlsd_group_offsets`
* `Mdf.C24_adds_records`
* `Mdf.C24_false`
* `Mdf.C24_partial`
* `Mdf.C24_repeated`
* `Mdf.C25_difference_partial`
* `Mdf.C25_false`
* `Mdf.C26_aligned_and_disjoint`
* `Mdf.C26_written_behind_everything`
* `Mdf.C27_header_read_back`
* `Mdf.C27_update_changes_one_link`
* `Mdf.C28_links_of_classes`
* `Mdf.C28_list_read_back`
* `Mdf.C28_rewrite_keeps_values`
* `Mdf.C28_tree_read_back`
* `Mdf.C28_write_keeps_values`
* `Mdf.C30_channel_observer_twice`
* `Mdf.C30_history`
* `Mdf.C31_configured_false`
* `Mdf.C31_eng_text_false`
* `Mdf.C31_eng_text_partial`
* `Mdf.C31_interpolation`
* `Mdf.C31_interpolation_monotone`
* `Mdf.C31_nearest`
* `Mdf.C31_range_to_text`
* `Mdf.C31_range_to_text3_kinds`
* `Mdf.C31_range_to_value`
* `Mdf.C31_table`
* `Mdf.C31_table_total`
* `Mdf.C31_text_failure_reported_valid`
* `Mdf.C31_text_to_value`
* `Mdf.C31_translate`
* `Mdf.C31_value_to_text`
* `Mdf.C32_copy_false`
* `Mdf.C33_round_trip`
* `Mdf.C33_set_data`
* `Mdf.C33_set_length`
* `Mdf.C34_data_inside_partial`
* `Mdf.C34_data_outside`
* `Mdf.C34_members_partial`
* `Mdf.C35_channel_latin1`
* `Mdf.C35_channel_utf8`
* `Mdf.C35_channel_wide16`
* `Mdf.C35_channel_wide32_partial`
* `Mdf.C35_encoder_is_utf8`
* `Mdf.C35_malformed_undefined`
* `Mdf.C35_valid_iff_utf8`
* `Mdf.C35_wide16_back_partial`
* `Mdf.C35_wide16_to_utf8`
* `Mdf.C35_wide32_round_trip`
* `Mdf.C39_history_mdf3`
* `Mdf.C39_history_mdf4`
* `Mdf.C39_mark_any_file`
* `Mdf.C40_reading`
* `Mdf.C41_channel`
* `Mdf.C41_date`
* `Mdf.C41_time_array`
* `Mdf.C41_time_iff`
* `Mdf.C42_bits`
* `Mdf.C42_byte_offset`
* `Mdf.C42_disjoint`
* `Mdf.C42_layout`
* `Mdf.C42_set_get`
* `Mdf.C42_stored_position`
* `Mdf.C43_record_ids`
* `Mdf.C43_samples_read`
* `Mdf.C43_stale_counters`
* `Mdf.C43_too_many_groups`
* `Mdf.C44_byte_order`
* `Mdf.C45_truncated_data_partial`
* `Mdf.C46_reading_ends`
* `Mdf.C47_vlsd_validity_partial`
* `Mdf.C51_false`
* `Mdf.C51_partial`
* `Mdf.C52_bit_position_false`
* `Mdf.C52_error_type_false`
* `Mdf.C52_frame_duration_false`
* `Mdf.C52_message_id`
* `Mdf.C52_r0_false`
* `Mdf.C52_read_partial`
* `Mdf.C52_remote_dlc_false`
* `Mdf.C53_position_false`
* `Mdf.C53_position_partial`
* `Mdf.C53_position_statement_false`
* `Mdf.C53_positions`
* `Mdf.C55_attachment`
* `Mdf.C55_attachment_flags`
* `Mdf.C55_attachment_no_checksum`
* `Mdf.C55_bitfield_parameter`
* `Mdf.C55_channel`
* `Mdf.C55_channel_bytes`
* `Mdf.C55_channel_data_bytes`
* `Mdf.C55_channel_decimals`
* `Mdf.C55_channel_ext_limit`
* `Mdf.C55_channel_flags`
* `Mdf.C55_channel_group`
* `Mdf.C55_channel_limit`
* `Mdf.C55_channel_range`
* `Mdf.C55_channel_unset`
* `Mdf.C55_conversion`
* `Mdf.C55_data_group`
* `Mdf.C55_data_list`
* `Mdf.C55_data_list_offsets`
* `Mdf.C55_event`
* `Mdf.C55_event_defaults`
* `Mdf.C55_event_setters`
* `Mdf.C55_header`
* `Mdf.C55_header_list`
* `Mdf.C55_hierarchy`
* `Mdf.C55_history`
* `Mdf.C55_many_parameters`
* `Mdf.C55_negative_offset`
* `Mdf.C55_parameter_partial`
* `Mdf.C55_parameter_uint_partial`
* `Mdf.C55_source`
* `Mdf.C55_start_angle`
* `Mdf.C55_start_distance`
* `Mdf.C55_start_time_partial`
* `Mdf.C55_values_read_back`
* `Mdf.C56_cut_exact`
* `Mdf.C56_cut_partial`
* `Mdf.C56_ends`
* `Mdf.C56_only_data_missing`
* `Mdf.C57_copied_partial`
* `Mdf.C57_copied_values_partial`
* `Mdf.C57_empty_records_lost`
* `Mdf.C57_shared_value_lost`
* `Mdf.C57_signal_data_lost`
* `Mdf.C57_sorted_partial`
* `Mdf.C57_sorted_values_partial`
* `Mdf.C57_two_values_one_lost`
* `Mdf.C57_wrong_value`
* `Mdf.C58_counter`
* `Mdf.C58_counter_exact`
* `Mdf.C58_counter_negative`
* `Mdf.C58_drift_partial`
* `Mdf.C58_drifts`
* `Mdf.C58_exact`
* `Mdf.C58_order`
* `Mdf.C58_rounding`
* `Mdf.C58_time_before_partial`
* `Mdf.C58_time_changes`
* `Mdf.C58_time_partial`
* `Mdf.C59_compression`
* `Mdf.C59_first_measurement`
* `Mdf.C59_further_measurement`
* `Mdf.C59_own_samples_partial`
* `Mdf.C60_comment_taken_over`
* `Mdf.C60_control_character`
* `Mdf.C60_distinct_properties`
* `Mdf.C60_header_partial`
* `Mdf.C60_metadata_partial`
* `Mdf.C60_second_setting`
* `Mdf.C60_special_characters`
* `Mdf.C60_tree_read_back`
* `Mdf.C61_any_reads`
* `Mdf.C61_checksum`
* `Mdf.C61_table`
* `Mdf.C62_attachments_partial`
* `Mdf.C62_changed_reference`
* `Mdf.C62_checksum_guard`
* `Mdf.C62_refused_aborts`
* `Mdf.C62_refused_finalized`
* `Mdf.C62_refused_last`
* `Mdf.C63_date`
* `Mdf.C63_fraction_wrong`
* `Mdf.C63_full_statement_fails`
* `Mdf.C63_negative_offset`
* `Mdf.C63_offset_without_colon`
* `Mdf.C63_read_partial`
* `Mdf.C63_round_trip`
* `Mdf.C63_written`
* `Mdf.C64_attributes_false`
* `Mdf.C64_attributes_partial`
* `Mdf.C64_built_partial`
* `Mdf.C64_names`
* `Mdf.C64_node_partial`
* `Mdf.C64_properties_partial`
* `Mdf.C64_read_partial`
* `Mdf.C65_date_lost`
* `Mdf.C65_full_statement_fails`
* `Mdf.C65_hex_lost`
* `Mdf.C65_number_partial`
* `Mdf.C65_time_of_day_lost`
* `Mdf.C65_time_partial`
* `Mdf.C67_once_partial`
* `Mdf.C67_read_back_partial`
* `Mdf.C67_read_partial`
* `Mdf.C67_set_partial`
* `Mdf.C68_array_read_back_partial`
* `Mdf.C68_resized`
* `Mdf.C68_stands_in_file`
* `Mdf.C68_too_many_dimensions`
* `Mdf.C70_block_above_lost`
* `Mdf.C70_events`
* `Mdf.C70_groups_lost`
* `Mdf.C70_later`
* `Mdf.C70_references_partial`
* `Mdf.C70_statement_false`
* `Mdf.C71_kind`
* `Mdf.C71_lin_false`
* `Mdf.C71_lin_partial`
* `Mdf.C71_long_data`
* `Mdf.C71_lost`
* `Mdf.C71_record`
* `Mdf.C71_setters`
* `Mdf.C71_transmission_size`
* `Mdf.C72_eth_false`
* `Mdf.C72_eth_partial`
* `Mdf.C72_eth_size`
* `Mdf.C73_first_only`
* `Mdf.C73_flexray_false`
* `Mdf.C73_flexray_partial`
* `Mdf.C73_lost`
* `Mdf.C73_wrong_group`
* `Mdf.C74_most`
* `Mdf.C75_channel_size`
* `Mdf.C75_conversion_size`
* `Mdf.C75_group_size`
* `Mdf.C75_header_old`
* `Mdf.C75_header_size`
* `Mdf.C75_mdf3_kept`
* `Mdf.C75_mdf3_read_back`
* `Mdf.C76_mdf3_samples_found_partial`
* `Mdf.C79_values_set_are_read_partial`
* `Mdf.C81_cut`
* `Mdf.C81_cut_file`
* `Mdf.C81_lossless`
* `Mdf.C82_complete_block_partial`
* `Mdf.C82_false`
* `Mdf.C82_small_block_partial`
* `Mdf.C82_stored_limit`
* `Mdf.C83_bus_name`
* `Mdf.C83_can_kind_partial`
* `Mdf.C83_channel_character`
* `Mdf.C83_channel_false`
* `Mdf.C83_eth_kind`
* `Mdf.C83_false`
* `Mdf.C83_flexray_kind_partial`
* `Mdf.C83_frame_header`
* `Mdf.C83_lin_kind_partial`
* `Mdf.C83_most_kind_partial`
* `Mdf.C83_names_differ`
* `Mdf.C84_again_false`
* `Mdf.C84_again_sample`
* `Mdf.C84_calls_partial`
* `Mdf.C84_kind_false`
* `Mdf.C84_kind_lost`
* `Mdf.C85_added`
* `Mdf.C85_after_reset_partial`
* `Mdf.C85_any_layout`
* `Mdf.C85_values_partial`
* `Mdf.C86_double_exact`
* `Mdf.C86_double_kept`
* `Mdf.C86_double_partial`
* `Mdf.C86_full_statement_fails`
* `Mdf.C86_integer32_partial`
* `Mdf.C86_integer_partial`
* `Mdf.C86_limit_lost`
* `Mdf.C86_limits_kept`
* `Mdf.C86_parts_fail`
* `Mdf.C86_parts_lost`
* `Mdf.C86_read_integer`
* `Mdf.C86_read_partial`
* `Mdf.C86_small_lost`
* `Mdf.C86_too_large`
* `Mdf.C87_address`
* `Mdf.C87_channel`
* `Mdf.C87_event_names_lost`
* `Mdf.C87_event_partial`
* `Mdf.C87_formula_lost`
* `Mdf.C87_full_statement_fails`
* `Mdf.C87_history_lost`
* `Mdf.C87_history_partial`
* `Mdf.C87_monotony`
* `Mdf.C87_source_partial`
* `Mdf.C87_unit`
* `Mdf.C88_calls_partial`
* `Mdf.C88_convert_partial`
* `Mdf.C88_plot_partial`
* `Mdf.C88_rectangular`
* `Mdf.C89_decimals_partial`
* `Mdf.C89_digits_lost`
* `Mdf.C89_fixed_decimals`
* `Mdf.C89_full_statement_fails`
* `Mdf.C89_half_up`
* `Mdf.C89_large_undefined`
* `Mdf.C89_no_decimals_partial`
* `Mdf.C89_signed_text`
* `Mdf.C89_six_digits`
* `Mdf.C89_unit`
* `Mdf.C89_unsigned_text`
* `Mdf.C90_records_found`
* `Mdf.C91_columns_partial`
* `Mdf.C93_category_lost`
* `Mdf.C93_full_statement_fails`
* `Mdf.C93_infinite_lost`
* `Mdf.C93_names_lost`
* `Mdf.C93_read_partial`
* `Mdf.C93_validity_lost`
* `Mdf.C93_word_texts`
* `Mdf.C94_added_partial`
* `Mdf.C94_exponents_lost`
* `Mdf.C94_full_statement_fails`
* `Mdf.C94_read_partial`
* `Mdf.C94_unit_names_lost`
* `Mdf.C95_double_text`
* `Mdf.C95_float`
* `Mdf.C95_float_formats`
* `Mdf.C95_integer_partial`
* `Mdf.C95_reading`
* `Mdf.C95_virtual_double`
* `Mdf.C95_virtual_float_false`
* `Mdf.C95_virtual_partial`
* `Mdf.C96_one_file_partial`
* `Mdf.C97_block_ends_partial`
* `Mdf.C97_opening_ends_partial`
* `Mdf.C98_mdf3_partial`
* `Mdf.C99_mdf3_destroyed`

## propext, Quot.sound

* `Mdf.C01_large_offset_ub`
* `Mdf.C02_bounds_necessary`
* `Mdf.C03_be_roundtrip_false`
* `Mdf.C04_signed_too_long`
* `Mdf.C05_array_index_wrap_ub`
* `Mdf.C05_byte_offset_wrap`
* `Mdf.C06_set_float_in_bounds`
* `Mdf.C06_set_int_in_bounds`
* `Mdf.C06_set_unsigned_be_partial`
* `Mdf.C06_set_unsigned_be_ub`
* `Mdf.C08_no_flag`
* `Mdf.C101_blocks_partial`
* `Mdf.C101_false`
* `Mdf.C101_large_samples`
* `Mdf.C102_false`
* `Mdf.C102_not_dropped`
* `Mdf.C102_own_queue_partial`
* `Mdf.C102_with_data_group`
* `Mdf.C103_mdf3_partial`
* `Mdf.C103_one_session_partial`
* `Mdf.C103_reopened_fixed`
* `Mdf.C104_kept`
* `Mdf.C109_kind`
* `Mdf.C109_offset_partial`
* `Mdf.C109_sort_false`
* `Mdf.C109_sort_mdf3`
* `Mdf.C109_sort_partial`
* `Mdf.C110_axis_refs`
* `Mdf.C110_channels_partial`
* `Mdf.C110_comments`
* `Mdf.C110_counters`
* `Mdf.C110_groups`
* `Mdf.C110_kept`
* `Mdf.C110_mdf3`
* `Mdf.C110_values_partial`
* `Mdf.C110_x_lost`
* `Mdf.C110_x_partial`
* `Mdf.C110_x_source`
* `Mdf.C112_clean_partial`
* `Mdf.C112_end_partial`
* `Mdf.C112_exception_lock`
* `Mdf.C112_exception_next`
* `Mdf.C112_false`
* `Mdf.C112_loop_writes`
* `Mdf.C112_save_partial`
* `Mdf.C112_terminates`
* `Mdf.C112_turn_partial`
* `Mdf.C112_turn_skips`
* `Mdf.C112_turn_uncompressed_partial`
* `Mdf.C113_list`
* `Mdf.C113_list_overflow`
* `Mdf.C113_list_set_get`
* `Mdf.C113_md5`
* `Mdf.C113_message_bytes`
* `Mdf.C113_reference_overflow`
* `Mdf.C113_reference_partial`
* `Mdf.C113_text`
* `Mdf.C113_text_any`
* `Mdf.C113_text_set_get`
* `Mdf.C113_value_bytes_partial`
* `Mdf.C113_value_text_safe`
* `Mdf.C114_ids_kept`
* `Mdf.C117_false`
* `Mdf.C117_kept_partial`
* `Mdf.C117_late_file`
* `Mdf.C117_not_understood`
* `Mdf.C117_only_named`
* `Mdf.C117_stream_ignored`
* `Mdf.C117_unreadable`
* `Mdf.C117_written`
* `Mdf.C118_false`
* `Mdf.C118_never_repaired`
* `Mdf.C118_unknown_link`
* `Mdf.C119_false`
* `Mdf.C119_last_call`
* `Mdf.C119_members_share`
* `Mdf.C120_beyond_end`
* `Mdf.C120_never_value`
* `Mdf.C120_overflow`
* `Mdf.C120_raw`
* `Mdf.C120_values_partial`
* `Mdf.C121_events_lost`
* `Mdf.C121_false`
* `Mdf.C121_mdf3_lost`
* `Mdf.C121_truncated`
* `Mdf.C123_bus_text`
* `Mdf.C123_names`
* `Mdf.C123_stem`
* `Mdf.C123_stem_plain`
* `Mdf.C124_delivered`
* `Mdf.C125_bool_text`
* `Mdf.C125_type`
* `Mdf.C127_first`
* `Mdf.C127_new_channel`
* `Mdf.C127_none`
* `Mdf.C127_saved_partial`
* `Mdf.C127_unsaved_first`
* `Mdf.C128_closed`
* `Mdf.C128_failed_write`
* `Mdf.C128_file`
* `Mdf.C128_only_named`
* `Mdf.C128_same_file`
* `Mdf.C130_ch_partial`
* `Mdf.C130_ch_wrong`
* `Mdf.C130_false`
* `Mdf.C130_form`
* `Mdf.C130_link_partial`
* `Mdf.C130_negative`
* `Mdf.C130_negative_false`
* `Mdf.C130_text`
* `Mdf.C15_range_stops`
* `Mdf.C16_offsets`
* `Mdf.C16_signal_data_blocks`
* `Mdf.C16_signal_data_compressed`
* `Mdf.C17_corrupt_offset_partial`
* `Mdf.C17_wrapped_record_ub`
* `Mdf.C18_vlsd_group_counters`
* `Mdf.C19_all_written`
* `Mdf.C19_exactly_once`
* `Mdf.C19_file_holds_saved`
* `Mdf.C20_before_start`
* `Mdf.C20_size`
* `Mdf.C20_trim_front`
* `Mdf.C20_window_kept`
* `Mdf.C21_false`
* `Mdf.C21_partial`
* `Mdf.C22_offsets`
* `Mdf.C22_same_stream`
* `Mdf.C23_counters`
* `Mdf.C28_cyclic_list_never_ends`
* `Mdf.C29_block_contents`
* `Mdf.C29_layout`
* `Mdf.C29_lossless`
* `Mdf.C30_nobody`
* `Mdf.C30_notify_partial`
* `Mdf.C30_one_id_false`
* `Mdf.C30_subscriber_called`
* `Mdf.C31_polynomial`
* `Mdf.C31_range3_float_false`
* `Mdf.C31_range_to_text3`
* `Mdf.C31_rational`
* `Mdf.C31_value_to_text3`
* `Mdf.C31_written`
* `Mdf.C33_too_long`
* `Mdf.C34_long_data_false`
* `Mdf.C34_new`
* `Mdf.C34_short_max_length_false`
* `Mdf.C36_cut_off_field_reads_garbage`
* `Mdf.C36_read_back`
* `Mdf.C36_same_text`
* `Mdf.C36_truncated`
* `Mdf.C37_finalize_partial`
* `Mdf.C37_nothing_before_start`
* `Mdf.C38_false`
* `Mdf.C38_ineffective_partial`
* `Mdf.C39_short_file`
* `Mdf.C40_fixed`
* `Mdf.C40_range`
* `Mdf.C40_signal_data`
* `Mdf.C40_virtual`
* `Mdf.C40_vlsd_group`
* `Mdf.C41_date_2070`
* `Mdf.C41_date_layout`
* `Mdf.C41_text_false`
* `Mdf.C41_text_statement_false`
* `Mdf.C42_one_value`
* `Mdf.C43_empty_record_ends_reading`
* `Mdf.C43_stop_loses`
* `Mdf.C43_stop_time`
* `Mdf.C44_byte_at`
* `Mdf.C44_byte_order_inverse`
* `Mdf.C45_phantom_sample`
* `Mdf.C45_truncated_data_ub`
* `Mdf.C46_empty_record_never_ends`
* `Mdf.C47_invalid_sample_becomes_valid`
* `Mdf.C48_large_signal_data_not_found`
* `Mdf.C48_signal_data_found_partial`
* `Mdf.C49_partial`
* `Mdf.C50_stop_ends`
* `Mdf.C54_data_type_partial`
* `Mdf.C54_other_types`
* `Mdf.C55_channel_size`
* `Mdf.C55_conversion_no_range`
* `Mdf.C55_conversion_range`
* `Mdf.C55_conversion_range_not_checked`
* `Mdf.C55_new_conversion`
* `Mdf.C56_cut_text`
* `Mdf.C59_extended_over_others`
* `Mdf.C59_overlap`
* `Mdf.C59_queues`
* `Mdf.C60_full_statement_fails`
* `Mdf.C61_length`
* `Mdf.C61_text_digits`
* `Mdf.C61_text_inj`
* `Mdf.C61_text_length`
* `Mdf.C62_created`
* `Mdf.C62_full_statement_fails`
* `Mdf.C62_missing_reference`
* `Mdf.C62_unreadable_refused`
* `Mdf.C63_calendar`
* `Mdf.C65_hex_partial`
* `Mdf.C68_can_be_written`
* `Mdf.C68_data_links_missing`
* `Mdf.C68_missing_references`
* `Mdf.C68_number_of_values`
* `Mdf.C68_prepared_can_be_written`
* `Mdf.C68_statement_false`
* `Mdf.C69_own_arrays_have_no_gaps`
* `Mdf.C69_own_validity_base_is_wrong`
* `Mdf.C69_statement_false`
* `Mdf.C69_stride_is_ignored`
* `Mdf.C69_validity_partial`
* `Mdf.C69_values_partial`
* `Mdf.C70_hierarchy_never_read`
* `Mdf.C71_new`
* `Mdf.C74_data`
* `Mdf.C75_counter_may_change`
* `Mdf.C75_data_group_may_change`
* `Mdf.C75_header_may_change`
* `Mdf.C75_text_kept_iff`
* `Mdf.C77_conversion_kept_partial`
* `Mdf.C77_params_read`
* `Mdf.C78_channel_name_partial`
* `Mdf.C78_long_name_lost`
* `Mdf.C78_statement_false`
* `Mdf.C79_false`
* `Mdf.C79_no_bytes_not_valid`
* `Mdf.C79_not_valid_shown_valid`
* `Mdf.C79_number_ignored`
* `Mdf.C79_short_record_not_valid`
* `Mdf.C79_text_cut`
* `Mdf.C79_text_not_encoded`
* `Mdf.C79_unreadable_not_valid`
* `Mdf.C80_sorting_destination_partial`
* `Mdf.C80_sorting_no_overwrite_partial`
* `Mdf.C80_sorting_others_kept_partial`
* `Mdf.C80_sorting_result_partial`
* `Mdf.C80_validating_others_kept_partial`
* `Mdf.C80_validating_reports`
* `Mdf.C80_validating_result_partial`
* `Mdf.C81_cut_buffer`
* `Mdf.C81_deflate_buffer`
* `Mdf.C81_error_buffer`
* `Mdf.C81_error_reported`
* `Mdf.C85_false`
* `Mdf.C85_layouts`
* `Mdf.C85_made_early`
* `Mdf.C85_other_size_lost`
* `Mdf.C85_raw`
* `Mdf.C85_stays_not_valid`
* `Mdf.C89_bytes_not_text`
* `Mdf.C89_no_number`
* `Mdf.C90_block_in_file`
* `Mdf.C90_copy_fits`
* `Mdf.C90_cut_off_filled`
* `Mdf.C90_data_behind_link`
* `Mdf.C90_links_invisible`
* `Mdf.C91_full_statement_fails`
* `Mdf.C91_values_taken_for_invalidation`
* `Mdf.C92_always_valid`
* `Mdf.C92_beyond_2GiB`
* `Mdf.C92_beyond_end`
* `Mdf.C92_columns_partial`
* `Mdf.C92_full_statement_fails`
* `Mdf.C92_invalidation_lost`
* `Mdf.C92_reads_before_buffer`
* `Mdf.C92_rows_partial`
* `Mdf.C95_lists`
* `Mdf.C95_offset`
* `Mdf.C95_virtual_signed_false`
* `Mdf.C95_virtual_signed_value`
* `Mdf.C95_virtual_width_false`
* `Mdf.C96_existing_kept`
* `Mdf.C96_names_kept`
* `Mdf.C96_same_names_false`
* `Mdf.C96_same_names_forced`
* `Mdf.C97_composition_channels`
* `Mdf.C97_loop_false`
* `Mdf.C98_failure_reported_once`
* `Mdf.C98_list_ends`
* `Mdf.C98_missing_link`
* `Mdf.C98_no_call_fails`
* `Mdf.C98_nothing_foreign`
* `Mdf.C98_staged_partial`
* `Mdf.C99_false`
* `Mdf.C99_mdf4_partial`
