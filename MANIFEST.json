{
 "claims": [
  {
   "property": "C01",
   "status": "proved",
   "theorems": [
    "Mdf.C01_large_offset_ub",
    "Mdf.C01_le_bitfield_roundtrip",
    "Mdf.C01_read_le"
   ],
   "note": "Buffers up to 256 MiB (32-bit int cast in the code); beyond that the code has undefined behaviour, shown in C01_large_offset_ub."
  },
  {
   "property": "C02",
   "status": "proved",
   "theorems": [
    "Mdf.C02_bounds_necessary",
    "Mdf.C02_le_write_frame",
    "Mdf.C02_le_write_keeps_neighbours"
   ],
   "note": ""
  },
  {
   "property": "C03",
   "status": "partial",
   "theorems": [
    "Mdf.C03_be_bitfield_partial",
    "Mdf.C03_be_roundtrip_false",
    "Mdf.C03_read_be"
   ],
   "note": "The property is false of the code (C03_be_roundtrip_false); proved with the start convention each function actually uses."
  },
  {
   "property": "C04",
   "status": "proved",
   "theorems": [
    "Mdf.C04_signed_range",
    "Mdf.C04_signed_roundtrip",
    "Mdf.C04_signed_too_long"
   ],
   "note": ""
  },
  {
   "property": "C05",
   "status": "proved",
   "theorems": [
    "Mdf.C05_array_index_wrap_ub",
    "Mdf.C05_byte_offset_wrap",
    "Mdf.C05_get_float",
    "Mdf.C05_get_in_bounds",
    "Mdf.C05_get_signed",
    "Mdf.C05_get_unsigned_be",
    "Mdf.C05_get_unsigned_le"
   ],
   "note": "Records up to 256 MiB and array indices whose bit position does not overflow 64 bits; C05_array_index_wrap_ub and C05_byte_offset_wrap show what the code does outside."
  },
  {
   "property": "C06",
   "status": "partial",
   "theorems": [
    "Mdf.C06_set_float_in_bounds",
    "Mdf.C06_set_int_in_bounds",
    "Mdf.C06_set_unsigned_be_partial",
    "Mdf.C06_set_unsigned_be_ub"
   ],
   "note": "Proved for all setters except the big-endian unsigned one, for which the property is false (C06_set_unsigned_be_ub)."
  },
  {
   "property": "C07",
   "status": "proved",
   "theorems": [
    "Mdf.C07_byte_array_roundtrip",
    "Mdf.C07_float_roundtrip",
    "Mdf.C07_signed_roundtrip",
    "Mdf.C07_unsigned_be_roundtrip",
    "Mdf.C07_unsigned_le_roundtrip"
   ],
   "note": "Unsigned, signed, float (bit patterns) and byte arrays; IEEE conversion of double to float is not modelled."
  },
  {
   "property": "C08",
   "status": "proved",
   "theorems": [
    "Mdf.C08_no_flag",
    "Mdf.C08_set_valid",
    "Mdf.C08_set_valid_sequence"
   ],
   "note": ""
  },
  {
   "property": "C09",
   "status": "proved",
   "theorems": [
    "Mdf.C09_group_set_keeps_others",
    "Mdf.C09_layout_contiguous",
    "Mdf.C09_layout_disjoint",
    "Mdf.C09_overflow_overlaps",
    "Mdf.C09_store_keeps_others"
   ],
   "note": "Layouts whose total fits the 32-bit counters; C09_overflow_overlaps shows the overlap beyond."
  },
  {
   "property": "C10",
   "status": "proved",
   "theorems": [
    "Mdf.C10_record_id_bytes_distinct",
    "Mdf.C10_record_ids_unique"
   ],
   "note": ""
  },
  {
   "property": "C11",
   "status": "proved",
   "theorems": [
    "Mdf.C11_delivered",
    "Mdf.C11_samples_written_are_read",
    "Mdf.C11_saved_is_read",
    "Mdf.C11_stored_is_read",
    "Mdf.C11_untrimmed_is_read"
   ],
   "note": ""
  },
  {
   "property": "C12",
   "status": "proved",
   "theorems": [
    "Mdf.C12_refines_flat_reader",
    "Mdf.C12_split_invisible",
    "Mdf.C12_split_invisible_any_bytes"
   ],
   "note": "For every sequence of complete records with any subscription, and for every byte string when everything is subscribed or the data do not end inside an unsubscribed record; the excluded case is C45."
  },
  {
   "property": "C13",
   "status": "partial",
   "theorems": [
    "Mdf.C13_empty_block_hides_data",
    "Mdf.C13_read_to_first_empty_partial",
    "Mdf.C13_records_before_partial"
   ],
   "note": "The property is false of the code (C13_empty_block_hides_data); without empty blocks it is C12. C13_read_to_first_empty_partial and C13_records_before_partial: what is read in general is exactly what is read of the blocks in front of the first empty one."
  },
  {
   "property": "C14",
   "status": "proved",
   "theorems": [
    "Mdf.C14_skipping_is_filtering"
   ],
   "note": ""
  },
  {
   "property": "C15",
   "status": "partial",
   "theorems": [
    "Mdf.C15_off_by_one",
    "Mdf.C15_partial_read_partial",
    "Mdf.C15_range_stops",
    "Mdf.C15_swapped_range"
   ],
   "note": "The property is false of the code: the range is compared with the index plus one (C15_off_by_one); proved with the range the code uses. C15_range_stops: a range of one group is read up to the first record behind it, however long the file is."
  },
  {
   "property": "C16",
   "status": "proved",
   "theorems": [
    "Mdf.C16_offsets",
    "Mdf.C16_read_all",
    "Mdf.C16_read_offsets",
    "Mdf.C16_signal_data_blocks",
    "Mdf.C16_signal_data_compressed",
    "Mdf.C16_vlsd_roundtrip"
   ],
   "note": "Values up to 2^32-1 bytes through records; callbacks up to 2^32-5 bytes, where the 32-bit sum of length and 4 does not wrap. C16_signal_data_compressed: which signal data is compressed."
  },
  {
   "property": "C17",
   "status": "partial",
   "theorems": [
    "Mdf.C17_corrupt_offset_partial",
    "Mdf.C17_offset_unreadable",
    "Mdf.C17_wrapped_offset_ub",
    "Mdf.C17_wrapped_record_ub"
   ],
   "note": "The property is false of the code for offsets within 4 bytes of 2^64 (C17_wrapped_offset_ub); proved for all others. C17_offset_unreadable: if the offset cannot be read the first value is returned as not valid."
  },
  {
   "property": "C18",
   "status": "proved",
   "theorems": [
    "Mdf.C18_offsets_increase",
    "Mdf.C18_records_point_to_values",
    "Mdf.C18_vlsd_group_counters",
    "Mdf.C18_vlsd_group_offsets"
   ],
   "note": ""
  },
  {
   "property": "C19",
   "status": "proved",
   "theorems": [
    "Mdf.C19_all_written",
    "Mdf.C19_exactly_once",
    "Mdf.C19_file_holds_saved"
   ],
   "note": "Every interleaving of one data group's queue; a schedule is a sequence of critical sections. Trimmed samples are governed by C20; the proof needs that the file can be opened and that the measurement is not finalized before it is stopped (see C37)."
  },
  {
   "property": "C20",
   "status": "proved",
   "theorems": [
    "Mdf.C20_before_start",
    "Mdf.C20_size",
    "Mdf.C20_trim_front",
    "Mdf.C20_window_kept"
   ],
   "note": "Samples saved in the order of their times."
  },
  {
   "property": "C21",
   "status": "partial",
   "theorems": [
    "Mdf.C21_false",
    "Mdf.C21_partial"
   ],
   "note": "The property is false of the code (C21_false: the subtraction wraps). Proved while the measurement has not been started."
  },
  {
   "property": "C22",
   "status": "proved",
   "theorems": [
    "Mdf.C22_chunks_are_the_stream",
    "Mdf.C22_offsets",
    "Mdf.C22_same_stream"
   ],
   "note": "Chunks of compressed blocks concatenate to the uncompressed stream for every split and every schedule of the writer thread; the offset stored for each block is the number of bytes in all blocks before it, over all saves. Deflate itself is outside the model."
  },
  {
   "property": "C23",
   "status": "proved",
   "theorems": [
    "Mdf.C23_counters"
   ],
   "note": "After any sequence of samples the sample counter of each group is the number of records with its id in the stored data."
  },
  {
   "property": "C24",
   "status": "partial",
   "theorems": [
    "Mdf.C24_adds_records",
    "Mdf.C24_false",
    "Mdf.C24_partial",
    "Mdf.C24_repeated"
   ],
   "note": "C24_adds_records is the exact behaviour for all records and counters (the count is added); the full statement is false (C24_false); C24_partial proves it for zero stored counters; C24_repeated: unsupported flags make it add again on every read."
  },
  {
   "property": "C25",
   "status": "partial",
   "theorems": [
    "Mdf.C25_difference_partial",
    "Mdf.C25_false"
   ],
   "note": "The full statement is false (C25_false): the finalizer also counts the 4 length bytes; C25_difference_partial gives the exact difference for every stream."
  },
  {
   "property": "C26",
   "status": "proved",
   "theorems": [
    "Mdf.C26_aligned_and_disjoint",
    "Mdf.C26_written_behind_everything"
   ],
   "note": "For every run of block writes, link updates, value changes and sample data: aligned, inside the file, pairwise disjoint, the earlier content unchanged; a new block goes behind everything."
  },
  {
   "property": "C27",
   "status": "proved",
   "theorems": [
    "Mdf.C27_header_read_back",
    "Mdf.C27_update_changes_one_link"
   ],
   "note": "For every such run the header read from the position of a block tells type, true size and links; a link update changes that link and no other header. Sizes below 2^63, links below 2^64, as the format requires."
  },
  {
   "property": "C28",
   "status": "proved",
   "theorems": [
    "Mdf.C28_cyclic_list_never_ends",
    "Mdf.C28_links_of_classes",
    "Mdf.C28_list_read_back",
    "Mdf.C28_rewrite_keeps_values",
    "Mdf.C28_tree_read_back",
    "Mdf.C28_write_keeps_values"
   ],
   "note": "Whole trees of blocks (lists in lists) over any schema of links, any number of rounds of adding blocks, changing rewritable values, appending data and writing again. Negation for cyclic lists: C28_cyclic_list_never_ends. C28_links_of_classes: the places and classes of the links of every MDF 4 block class, as in the standard."
  },
  {
   "property": "C29",
   "status": "proved",
   "theorems": [
    "Mdf.C29_block_contents",
    "Mdf.C29_layout",
    "Mdf.C29_lossless"
   ],
   "note": "Transpose and InvTranspose are modelled byte for byte with the index arithmetic of the code; the deflate and inflate calls of zlib are a parameter assumed to be a lossless pair, as zlib itself is outside the repository."
  },
  {
   "property": "C30",
   "status": "partial",
   "theorems": [
    "Mdf.C30_channel_observer_twice",
    "Mdf.C30_history",
    "Mdf.C30_nobody",
    "Mdf.C30_notify_partial",
    "Mdf.C30_one_id_false",
    "Mdf.C30_subscriber_called"
   ],
   "note": "Proved: observer list after any history; calls in order until one stops, if two or more record ids are subscribed or all observers need the id; a subscriber is always called. False with one subscribed id (all observers are called): C30_one_id_false. Channel observers are attached twice and called twice."
  },
  {
   "property": "C31",
   "status": "partial",
   "theorems": [
    "Mdf.C31_configured_false",
    "Mdf.C31_eng_text_false",
    "Mdf.C31_eng_text_partial",
    "Mdf.C31_interpolation",
    "Mdf.C31_interpolation_monotone",
    "Mdf.C31_linear",
    "Mdf.C31_nearest",
    "Mdf.C31_polynomial",
    "Mdf.C31_range3_float_false",
    "Mdf.C31_range_to_text",
    "Mdf.C31_range_to_text3",
    "Mdf.C31_range_to_text3_kinds",
    "Mdf.C31_range_to_value",
    "Mdf.C31_rational",
    "Mdf.C31_table",
    "Mdf.C31_table_total",
    "Mdf.C31_text_failure_reported_valid",
    "Mdf.C31_text_number",
    "Mdf.C31_text_other",
    "Mdf.C31_text_to_value",
    "Mdf.C31_translate",
    "Mdf.C31_unchanged",
    "Mdf.C31_value_to_text",
    "Mdf.C31_value_to_text3",
    "Mdf.C31_written"
   ],
   "note": "Proved for every table and raw value: linear, rational, value to value with and without interpolation (exact ordered-field arithmetic; key hits, below and above for any linear order, hence also for doubles without NaN), ranges, texts, translations, monotonicity of interpolation. False: conversions configured but not yet written, MDF 3 ranges of float channels, engineering texts with blanks, failures of text conversions reported as valid. Rounding of doubles is not modelled. C31_text_other, C31_range_to_text3_kinds: texts through other conversions, MDF 3 ranges by kind of channel."
  },
  {
   "property": "C32",
   "status": "partial",
   "theorems": [
    "Mdf.C32_copy_false",
    "Mdf.C32_copy_numbers_partial",
    "Mdf.C32_copy_to_text",
    "Mdf.C32_copy_translate"
   ],
   "note": "Proved for conversions without references; false for conversions to and from text (C32_copy_false), whose copies have no result at all."
  },
  {
   "property": "C33",
   "status": "proved",
   "theorems": [
    "Mdf.C33_decode",
    "Mdf.C33_round_trip",
    "Mdf.C33_set_data",
    "Mdf.C33_set_length",
    "Mdf.C33_too_long"
   ],
   "note": "For up to 64 bytes; C33_too_long shows that longer data get code 0."
  },
  {
   "property": "C34",
   "status": "partial",
   "theorems": [
    "Mdf.C34_data_inside_partial",
    "Mdf.C34_data_outside",
    "Mdf.C34_long_data_false",
    "Mdf.C34_members_partial",
    "Mdf.C34_new",
    "Mdf.C34_short_max_length_false"
   ],
   "note": "All kinds of frames, member sets and storage types. False for MLSD storage with a maximum length below 8 (C34_short_max_length_false) and for data longer than the maximum length (C34_long_data_false)."
  },
  {
   "property": "C35",
   "status": "partial",
   "theorems": [
    "Mdf.C35_channel_latin1",
    "Mdf.C35_channel_utf8",
    "Mdf.C35_channel_wide16",
    "Mdf.C35_channel_wide32_false",
    "Mdf.C35_channel_wide32_partial",
    "Mdf.C35_encoder_is_utf8",
    "Mdf.C35_malformed_undefined",
    "Mdf.C35_valid_iff_utf8",
    "Mdf.C35_wide16_back_false",
    "Mdf.C35_wide16_back_partial",
    "Mdf.C35_wide16_to_utf8",
    "Mdf.C35_wide32_round_trip"
   ],
   "note": "Proved: the encoder is UTF-8, exactly UTF-8 is accepted as valid, the round trip with 32-bit wchar_t, UTF-16 to UTF-8 with 16-bit wchar_t, Latin-1 and UTF-8 channels, UTF-16 channels with 16-bit wchar_t. False of the code, with proofs of the negation: characters beyond the basic multilingual plane overflow the buffer of utf8towide (16-bit wchar_t), and are read from UTF-16 channels as separately encoded surrogates (32-bit wchar_t)."
  },
  {
   "property": "C36",
   "status": "proved",
   "theorems": [
    "Mdf.C36_cut_off_field_reads_garbage",
    "Mdf.C36_field_written",
    "Mdf.C36_position",
    "Mdf.C36_read_back",
    "Mdf.C36_same_text",
    "Mdf.C36_truncated"
   ],
   "note": "Text fields of any size; the behaviour on a cut off field is C36_cut_off_field_reads_garbage."
  },
  {
   "property": "C37",
   "status": "partial",
   "theorems": [
    "Mdf.C37_false",
    "Mdf.C37_finalize_false",
    "Mdf.C37_finalize_partial",
    "Mdf.C37_nothing_after_stop",
    "Mdf.C37_nothing_before_start"
   ],
   "note": "False of the code in two ways (C37_false: samples of a measurement never started reach the file; C37_finalize_false: finalizing without a stop throws samples away). The rest is proved."
  },
  {
   "property": "C38",
   "status": "partial",
   "theorems": [
    "Mdf.C38_false",
    "Mdf.C38_ineffective_partial"
   ],
   "note": "The property is false of the code (C38_false); proved is that the stop time never has an effect."
  },
  {
   "property": "C39",
   "status": "proved",
   "theorems": [
    "Mdf.C39_finalized_iff",
    "Mdf.C39_history_mdf3",
    "Mdf.C39_history_mdf4",
    "Mdf.C39_is_mdf",
    "Mdf.C39_late_version_not_stored",
    "Mdf.C39_mark_any_file",
    "Mdf.C39_short_file"
   ],
   "note": "The version and the program identification set after the first write are not stored (C39_late_version_not_stored); the claim says what is stored."
  },
  {
   "property": "C40",
   "status": "partial",
   "theorems": [
    "Mdf.C40_array_index_false",
    "Mdf.C40_byte_array_false",
    "Mdf.C40_byte_array_partial",
    "Mdf.C40_fixed",
    "Mdf.C40_range",
    "Mdf.C40_reading",
    "Mdf.C40_sample_wrap_false",
    "Mdf.C40_signal_data",
    "Mdf.C40_virtual",
    "Mdf.C40_vlsd_group"
   ],
   "note": "Proved for all channel kinds and any sequence of notifications, end to end from the data blocks for fixed-size channels; requests for samples beyond the last are rejected. False: array index beyond the array size is not rejected, 64-bit wrap of the index, byte-array getter ignores the array size."
  },
  {
   "property": "C41",
   "status": "proved",
   "theorems": [
    "Mdf.C41_channel",
    "Mdf.C41_date",
    "Mdf.C41_date_2070",
    "Mdf.C41_date_layout",
    "Mdf.C41_sizes",
    "Mdf.C41_text_false",
    "Mdf.C41_text_statement_false",
    "Mdf.C41_time_array",
    "Mdf.C41_time_iff"
   ],
   "note": "localtime and mktime are parameters with the assumptions Zone.Sound, shown to hold for the Gregorian calendar with any fixed offset of whole minutes. The text of a CANopen channel is wrong for every time (C41_text_false): nanoseconds are taken as milliseconds."
  },
  {
   "property": "C42",
   "status": "proved",
   "theorems": [
    "Mdf.C42_bits",
    "Mdf.C42_byte_offset",
    "Mdf.C42_disjoint",
    "Mdf.C42_layout",
    "Mdf.C42_new_channel",
    "Mdf.C42_one_value",
    "Mdf.C42_set_get",
    "Mdf.C42_stored_position"
   ],
   "note": "Byte offsets, exact condition for success, disjoint layout, set/get of integers of 8, 16, 32 and 64 bits in a prepared group."
  },
  {
   "property": "C43",
   "status": "proved",
   "theorems": [
    "Mdf.C43_empty_record_ends_reading",
    "Mdf.C43_record_ids",
    "Mdf.C43_samples_read",
    "Mdf.C43_stale_counters",
    "Mdf.C43_stop_loses",
    "Mdf.C43_stop_time",
    "Mdf.C43_too_many_groups"
   ],
   "note": "Any history of the writer model (several data groups, one queue each), any observer; with crash tails and with counters that lag behind. Samples after the stop time and trimming by the pre-trigger time are excluded (C21, C38). Empty records end the reading: shown as C43_empty_record_ends_reading."
  },
  {
   "property": "C44",
   "status": "proved",
   "theorems": [
    "Mdf.C44_byte_at",
    "Mdf.C44_byte_order",
    "Mdf.C44_byte_order_inverse"
   ],
   "note": ""
  },
  {
   "property": "C45",
   "status": "partial",
   "theorems": [
    "Mdf.C45_phantom_sample",
    "Mdf.C45_truncated_data_partial",
    "Mdf.C45_truncated_data_ub"
   ],
   "note": "False of the code (C45_phantom_sample, C45_truncated_data_ub); proved for every other truncation."
  },
  {
   "property": "C46",
   "status": "partial",
   "theorems": [
    "Mdf.C46_empty_record_never_ends",
    "Mdf.C46_reading_ends"
   ],
   "note": "False of the code for empty records without record id (C46_empty_record_never_ends); proved for everything else."
  },
  {
   "property": "C47",
   "status": "partial",
   "theorems": [
    "Mdf.C47_invalid_sample_becomes_valid",
    "Mdf.C47_vlsd_validity_partial"
   ],
   "note": "The property is false of the code (C47_invalid_sample_becomes_valid); only the case of valid samples holds."
  },
  {
   "property": "C48",
   "status": "partial",
   "theorems": [
    "Mdf.C48_large_signal_data_not_found",
    "Mdf.C48_read_data_loads",
    "Mdf.C48_signal_data_found_partial"
   ],
   "note": "The property is false of the code for more than 4,000,000 compressed bytes (C48_large_signal_data_not_found); proved otherwise."
  },
  {
   "property": "C49",
   "status": "partial",
   "theorems": [
    "Mdf.C49_false",
    "Mdf.C49_partial"
   ],
   "note": "False of the code: a race (C49_false). Proved for every schedule in which the thread does not run between the change of state and the calculation."
  },
  {
   "property": "C50",
   "status": "proved",
   "theorems": [
    "Mdf.C50_stop_ends"
   ],
   "note": ""
  },
  {
   "property": "C51",
   "status": "partial",
   "theorems": [
    "Mdf.C51_false",
    "Mdf.C51_partial"
   ],
   "note": "C51_Statement is false (C51_false); C51_partial: for every crash byte either the file ends inside a record id or length and finalizing throws, or exactly the complete records are read back."
  },
  {
   "property": "C52",
   "status": "partial",
   "theorems": [
    "Mdf.C52_bit_position_false",
    "Mdf.C52_error_type_false",
    "Mdf.C52_frame_duration_false",
    "Mdf.C52_message_id",
    "Mdf.C52_r0_false",
    "Mdf.C52_read_partial",
    "Mdf.C52_remote_dlc_false"
   ],
   "note": "Proved for all members but R0, ErrorType, BitPosition, FrameDuration of error frames and data length codes that are not those of the data; for each of these the property is shown to be false of the code."
  },
  {
   "property": "C53",
   "status": "partial",
   "theorems": [
    "Mdf.C53_position_false",
    "Mdf.C53_position_partial",
    "Mdf.C53_position_statement_false",
    "Mdf.C53_positions"
   ],
   "note": "False of the code: C53_position_false gives every position that cannot be set; the partial theorem covers byte boundaries and the first bits of 8192-byte blocks."
  },
  {
   "property": "C54",
   "status": "partial",
   "theorems": [
    "Mdf.C54_data_type_partial",
    "Mdf.C54_date_stays",
    "Mdf.C54_default_size",
    "Mdf.C54_other_types",
    "Mdf.C54_type_statement_false"
   ],
   "note": "False of the code for dates and times turned into byte arrays (C54_date_stays). C54_default_size: the size of a channel whose data type alone is set."
  },
  {
   "property": "C55",
   "status": "partial",
   "theorems": [
    "Mdf.C55_attachment",
    "Mdf.C55_attachment_flags",
    "Mdf.C55_attachment_no_checksum",
    "Mdf.C55_bitfield_parameter",
    "Mdf.C55_channel",
    "Mdf.C55_channel_bytes",
    "Mdf.C55_channel_data_bytes",
    "Mdf.C55_channel_decimals",
    "Mdf.C55_channel_ext_limit",
    "Mdf.C55_channel_flags",
    "Mdf.C55_channel_group",
    "Mdf.C55_channel_limit",
    "Mdf.C55_channel_range",
    "Mdf.C55_channel_size",
    "Mdf.C55_channel_unset",
    "Mdf.C55_conversion",
    "Mdf.C55_conversion_no_range",
    "Mdf.C55_conversion_range",
    "Mdf.C55_conversion_range_not_checked",
    "Mdf.C55_data_group",
    "Mdf.C55_data_list",
    "Mdf.C55_data_list_offsets",
    "Mdf.C55_event",
    "Mdf.C55_event_defaults",
    "Mdf.C55_event_setters",
    "Mdf.C55_header",
    "Mdf.C55_header_list",
    "Mdf.C55_hierarchy",
    "Mdf.C55_history",
    "Mdf.C55_many_parameters",
    "Mdf.C55_negative_offset",
    "Mdf.C55_new_conversion",
    "Mdf.C55_parameter_partial",
    "Mdf.C55_parameter_uint_partial",
    "Mdf.C55_source",
    "Mdf.C55_start_angle",
    "Mdf.C55_start_distance",
    "Mdf.C55_start_time_partial",
    "Mdf.C55_values_read_back"
   ],
   "note": "Proved for all classes: the values in memory are read back, for every tree and history of writes, and the last call of a setter counts. Partial because the statement is false of the code for negative time zone offsets (C55_negative_offset), floating point parameters of bitfield conversions (C55_bitfield_parameter), 65536 parameters (C55_many_parameters); proved under the conditions that exclude these. Not covered: texts (C33, C28), data of compressed attachments."
  },
  {
   "property": "C56",
   "status": "partial",
   "theorems": [
    "Mdf.C56_cut_exact",
    "Mdf.C56_cut_partial",
    "Mdf.C56_cut_text",
    "Mdf.C56_ends",
    "Mdf.C56_only_data_missing"
   ],
   "note": "Exact result for every cut (C56_cut_exact), never a hang, only data missing (C56_only_data_missing). The full statement is false of the code for a cut within a text (C56_cut_text); C56_cut_partial excludes this."
  },
  {
   "property": "C57",
   "status": "partial",
   "theorems": [
    "Mdf.C57_copied_partial",
    "Mdf.C57_copied_values_partial",
    "Mdf.C57_empty_records_lost",
    "Mdf.C57_shared_value_lost",
    "Mdf.C57_signal_data_lost",
    "Mdf.C57_sorted_partial",
    "Mdf.C57_sorted_values_partial",
    "Mdf.C57_two_values_one_lost",
    "Mdf.C57_wrong_value"
   ],
   "note": "From the bytes of the source to the events read from the sorted file, for all schedules: groups without VLSD group (C57_sorted_partial), groups with values next to their records (C57_sorted_values_partial). Full statement false of the code (C57_wrong_value, C57_shared_value_lost, C57_two_values_one_lost, C57_empty_records_lost, C57_signal_data_lost)."
  },
  {
   "property": "C58",
   "status": "partial",
   "theorems": [
    "Mdf.C58_counter",
    "Mdf.C58_counter_exact",
    "Mdf.C58_counter_negative",
    "Mdf.C58_drift_partial",
    "Mdf.C58_drifts",
    "Mdf.C58_exact",
    "Mdf.C58_order",
    "Mdf.C58_rounding",
    "Mdf.C58_time_before_partial",
    "Mdf.C58_time_changes",
    "Mdf.C58_time_partial"
   ],
   "note": "Error at most 1 ns towards the start for |t| < 2^52 ns (C58_time_partial, C58_time_before_partial), exact when the seconds are a double, order kept, drift bounded. Full statement false of the code: 15 ns becomes 14 ns (C58_time_changes)."
  },
  {
   "property": "C59",
   "status": "partial",
   "theorems": [
    "Mdf.C59_compression",
    "Mdf.C59_extended_over_others",
    "Mdf.C59_first_measurement",
    "Mdf.C59_further_measurement",
    "Mdf.C59_lost_in_old_group",
    "Mdf.C59_overlap",
    "Mdf.C59_own_samples_partial",
    "Mdf.C59_queues",
    "Mdf.C59_terminates"
   ],
   "note": "Full statement (C59_Statement) is false of the code, proved by C59_overlap: a data group of an earlier measurement with an empty channel group is saved again and its data block is extended over all later blocks. Proved for all files where the channel groups of earlier measurements have samples (C59_own_samples_partial), hence for every first measurement and every further one of that kind."
  },
  {
   "property": "C60",
   "status": "partial",
   "theorems": [
    "Mdf.C60_carriage_return",
    "Mdf.C60_comment_taken_over",
    "Mdf.C60_control_character",
    "Mdf.C60_distinct_properties",
    "Mdf.C60_full_statement_fails",
    "Mdf.C60_header_partial",
    "Mdf.C60_line_feed_in_description",
    "Mdf.C60_metadata_partial",
    "Mdf.C60_second_setting",
    "Mdf.C60_special_characters",
    "Mdf.C60_tree_read_back"
   ],
   "note": "Full statement false: C60_full_statement_fails. Proved for all series of settings with texts without control characters other than tab and line feed: texts up to blanks around them, properties as a list to which each one is added or merged with the one of its name (C60_metadata_partial), all properties with names of their own (C60_distinct_properties), header texts (C60_header_partial). A control character destroys everything (C60_control_character), carriage returns are lost, line feeds in attributes become blanks, a property set again keeps its old unit, description, type and language, a plain comment of the header is lost."
  },
  {
   "property": "C61",
   "status": "proved",
   "theorems": [
    "Mdf.C61_any_reads",
    "Mdf.C61_checksum",
    "Mdf.C61_length",
    "Mdf.C61_table",
    "Mdf.C61_text_digits",
    "Mdf.C61_text_inj",
    "Mdf.C61_text_length"
   ],
   "note": "C61_checksum for every cutting into reads; C61_table: the 64 constants are floor(2^32 |sin(i+1)|), proved with Mathlib's sine. A read error in the middle of a file is taken for its end by the code (the checksum of the part that was read is returned); read errors are not modelled."
  },
  {
   "property": "C62",
   "status": "partial",
   "theorems": [
    "Mdf.C62_attachments_partial",
    "Mdf.C62_changed_reference",
    "Mdf.C62_checksum_guard",
    "Mdf.C62_created",
    "Mdf.C62_full_statement_fails",
    "Mdf.C62_missing_reference",
    "Mdf.C62_refused_aborts",
    "Mdf.C62_refused_finalized",
    "Mdf.C62_refused_last",
    "Mdf.C62_unreadable_refused"
   ],
   "note": "Full statement (C62_Statement) is false of the code, proved by C62_full_statement_fails: a file that is to be compressed and is empty or does not get smaller (more than 100 bytes) is refused. Proved for all other attachments (C62_attachments_partial, C62_checksum_guard, C62_changed_reference); what happens with refused ones is C62_refused_aborts, C62_refused_last, C62_refused_finalized. zlib is an arbitrary codec whose inflate undoes deflate."
  },
  {
   "property": "C63",
   "status": "partial",
   "theorems": [
    "Mdf.C63_calendar",
    "Mdf.C63_date",
    "Mdf.C63_fraction_wrong",
    "Mdf.C63_full_statement_fails",
    "Mdf.C63_negative_offset",
    "Mdf.C63_offset_missing",
    "Mdf.C63_offset_without_colon",
    "Mdf.C63_read_partial",
    "Mdf.C63_round_trip",
    "Mdf.C63_time_of_day",
    "Mdf.C63_written"
   ],
   "note": "Written times are read back for all 64 bit time stamps (C63_round_trip, C63_written, C63_date). Reading (C63_Statement) is false of the code, proved by C63_full_statement_fails; proved for fractions of 3, 6 or 9 digits and offsets with a colon that are positive or of whole hours (C63_read_partial). What happens with others is proved exactly: C63_fraction_wrong, C63_negative_offset, C63_offset_without_colon, C63_time_of_day. gmtime and timegm are the Gregorian calendar (C63_calendar: inverse to each other)."
  },
  {
   "property": "C64",
   "status": "partial",
   "theorems": [
    "Mdf.C64_attributes_false",
    "Mdf.C64_attributes_partial",
    "Mdf.C64_blank_lost",
    "Mdf.C64_built_partial",
    "Mdf.C64_index_lost",
    "Mdf.C64_list_index_lost",
    "Mdf.C64_list_lost",
    "Mdf.C64_lost",
    "Mdf.C64_names",
    "Mdf.C64_names_index_lost",
    "Mdf.C64_node_partial",
    "Mdf.C64_plain_partial",
    "Mdf.C64_properties_partial",
    "Mdf.C64_read_partial",
    "Mdf.C64_read_twice"
   ],
   "note": "Proved for every comment: exactly what is read (`MdCom.readBack`), that all attributes of the user are read, and that comments made by the Add calls meet the hypotheses if no tree is added under the name of a list or enumeration. The full statement is false of the code (C64_attributes_false): the library's attributes become attributes of the user, hexadecimal numbers become integers, the value of an enumeration and the indexes of a variable are lost (C64_lost), a list is lost if a tree has its name (C64_list_lost), names that differ by blanks collide (C64_blank_lost), an index of 64 bits ends the reading (C64_index_lost). C64_list_index_lost: the indexes of list items are not kept."
  },
  {
   "property": "C65",
   "status": "partial",
   "theorems": [
    "Mdf.C65_bool",
    "Mdf.C65_boolean",
    "Mdf.C65_date_lost",
    "Mdf.C65_full_statement_fails",
    "Mdf.C65_hex_lost",
    "Mdf.C65_hex_partial",
    "Mdf.C65_number_partial",
    "Mdf.C65_time_of_day_lost",
    "Mdf.C65_time_partial"
   ],
   "note": "Types string, decimal, integer and float: every 64 bit number is returned, before and after writing. Times: in milliseconds. Truth values: always. Hexadecimal: after writing and reading only (0 before). Shown false: a date returns its year, a time of day its hour, a boolean 0."
  },
  {
   "property": "C66",
   "status": "partial",
   "theorems": [],
   "note": "What is found is given exactly: the first property of that name which is at least as many levels down as there are slashes. It is the right one if the name is unique at those depths. Shown false: with the same name in two trees the property of the first tree is returned for the path of the second."
  },
  {
   "property": "C67",
   "status": "partial",
   "theorems": [
    "Mdf.C67_full_statement_fails",
    "Mdf.C67_index_lost",
    "Mdf.C67_once_partial",
    "Mdf.C67_parts_lost",
    "Mdf.C67_read_back_partial",
    "Mdf.C67_read_partial",
    "Mdf.C67_second_ignored",
    "Mdf.C67_set_partial"
   ],
   "note": "The value returned is the one that was set FIRST (setters do nothing if the property is there); time source and comment: last. After writing and reading the same values without blanks around them; the file index for all 64 bit values. Names and formula of a header comment are not written. UNIT-SPEC is not modelled."
  },
  {
   "property": "C68",
   "status": "partial",
   "theorems": [
    "Mdf.C68_array_read_back_partial",
    "Mdf.C68_array_size_kept",
    "Mdf.C68_can_be_written",
    "Mdf.C68_data_links_missing",
    "Mdf.C68_missing_references",
    "Mdf.C68_number_of_values",
    "Mdf.C68_prepared_can_be_written",
    "Mdf.C68_resized",
    "Mdf.C68_stands_in_file",
    "Mdf.C68_statement_false",
    "Mdf.C68_too_many_dimensions"
   ],
   "note": "For all definitions with at most 65535 dimensions whose block is in the file (which the block theorems give); the number of values fits 64 bits. An array can be written exactly if it has enough data links (DgTemplate storage), which asking for them or ResizeArrays gives. References are positions here; which positions the writer stores is C70. Shown false: data links missing, 65536 dimensions."
  },
  {
   "property": "C69",
   "status": "partial",
   "theorems": [
    "Mdf.C69_own_arrays_have_no_gaps",
    "Mdf.C69_own_validity_base_is_wrong",
    "Mdf.C69_statement_false",
    "Mdf.C69_stride_is_ignored",
    "Mdf.C69_validity_partial",
    "Mdf.C69_values_partial"
   ],
   "note": "Values: true if the values have no gaps, as in arrays the program writes (for whole bytes). Validity: if the base is 1. Shown false: the byte offset base of the file is ignored; the base of the validity bits the program writes is 0 although it gives each element its own bit."
  },
  {
   "property": "C70",
   "status": "partial",
   "theorems": [
    "Mdf.C70_attachments_kept",
    "Mdf.C70_block_above_lost",
    "Mdf.C70_events",
    "Mdf.C70_groups_lost",
    "Mdf.C70_hierarchy_never_read",
    "Mdf.C70_later",
    "Mdf.C70_references_partial",
    "Mdf.C70_statement_false"
   ],
   "note": "Decided for all trees and files: a reference is kept exactly if its block was in the file before or was written before the writing of the referring block began (Node.before); otherwise the link is zero, and later writes do not mend it. Kept: attachments of channels, events and hierarchies, earlier events, all blocks of a file already begun. Shown lost: data groups, channel groups and channels of hierarchies and events written with them, later events, the blocks above an array. The elements of a hierarchy are never read, even with right links. Not covered: the default X axis, the cast of the scope pointer of events (finding)."
  },
  {
   "property": "C71",
   "status": "partial",
   "theorems": [
    "Mdf.C71_kind",
    "Mdf.C71_lin_false",
    "Mdf.C71_lin_partial",
    "Mdf.C71_long_data",
    "Mdf.C71_lost",
    "Mdf.C71_new",
    "Mdf.C71_record",
    "Mdf.C71_setters",
    "Mdf.C71_transmission_size"
   ],
   "note": "False of the code (C71_lin_false). Proved for all messages except the members in linLost, whose values are given exactly (C71_lost): the direction always reads 0, the checksum model of a receive error always 0, the start of frame of wake up and spike messages its lowest 8 bits. Transmission errors need equal settings of writer and adapter (C71_transmission_size). Data of up to 8 bytes; beyond that C71_long_data."
  },
  {
   "property": "C72",
   "status": "partial",
   "theorems": [
    "Mdf.C72_eth_false",
    "Mdf.C72_eth_partial",
    "Mdf.C72_eth_size"
   ],
   "note": "False of the code if the writer and the configuration adapter have different settings of \"mandatory members only\" (C72_eth_false, C72_eth_size: the record size is then wrong for every message). Proved in full for equal settings."
  },
  {
   "property": "C73",
   "status": "partial",
   "theorems": [
    "Mdf.C73_first_only",
    "Mdf.C73_flexray_false",
    "Mdf.C73_flexray_partial",
    "Mdf.C73_lost",
    "Mdf.C73_wrong_group"
   ],
   "note": "False of the code (C73_flexray_false). Proved for all members except the FlexRay channel and the channel mask, which always read 0 (C73_lost). The position of the data bytes is right for the full PDU only; in all other groups the channel holds it shifted by two bytes, so that only position 0 is found (C73_first_only)."
  },
  {
   "property": "C74",
   "status": "proved",
   "theorems": [
    "Mdf.C74_data",
    "Mdf.C74_data_wraps",
    "Mdf.C74_most"
   ],
   "note": "All nine kinds, all messages. The position of variable length data is that given by the sample queue (C18)."
  },
  {
   "property": "C75",
   "status": "proved",
   "theorems": [
    "Mdf.C75_channel_size",
    "Mdf.C75_conversion_size",
    "Mdf.C75_counter_may_change",
    "Mdf.C75_data_group_may_change",
    "Mdf.C75_group_size",
    "Mdf.C75_header_may_change",
    "Mdf.C75_header_old",
    "Mdf.C75_header_size",
    "Mdf.C75_mdf3_kept",
    "Mdf.C75_mdf3_read_back",
    "Mdf.C75_text_kept_iff"
   ],
   "note": "All histories (Session3), all trees and values: what is read of each value is given exactly (Val3.seen), and it is the value itself if texts fit (C75_mdf3_kept, C75_text_kept_iff). The parameters of conversions are garbled (C77). Samples saved for a group must follow its earlier ones (C76). Blocks of older versions, for every size: C75_header_size, C75_header_old, C75_channel_size, C75_group_size, C75_conversion_size."
  },
  {
   "property": "C76",
   "status": "partial",
   "theorems": [
    "Mdf.C76_mdf3_samples_found_partial",
    "Mdf.C76_statement_false"
   ],
   "note": "False of the code (C76_statement_false): samples saved for a group after something else was appended to the file are not found. Proved for all histories in which samples saved for a data group follow those already in the file."
  },
  {
   "property": "C77",
   "status": "partial",
   "theorems": [
    "Mdf.C77_conversion_kept_partial",
    "Mdf.C77_factor_lost",
    "Mdf.C77_params_read",
    "Mdf.C77_statement_false"
   ],
   "note": "False of the code (C77_statement_false, C77_factor_lost): each parameter is written with 16 bytes but read with 8, so that every second parameter read is memory next to the parameters. C77_params_read gives what is read. Proved for conversions without numeric parameters (formula, text table, date, time, unit only)."
  },
  {
   "property": "C78",
   "status": "partial",
   "theorems": [
    "Mdf.C78_channel_name_partial",
    "Mdf.C78_long_name_lost",
    "Mdf.C78_statement_false"
   ],
   "note": "False of the code for names of more than 65530 bytes (C78_statement_false, C78_long_name_lost). Proved for all shorter names."
  },
  {
   "property": "C79",
   "status": "partial",
   "theorems": [
    "Mdf.C79_false",
    "Mdf.C79_no_bytes_not_valid",
    "Mdf.C79_not_valid_shown_valid",
    "Mdf.C79_number_ignored",
    "Mdf.C79_short_record_not_valid",
    "Mdf.C79_text_cut",
    "Mdf.C79_text_not_encoded",
    "Mdf.C79_unreadable_not_valid",
    "Mdf.C79_values_set_are_read_partial"
   ],
   "note": "False of the code for channels of variable length not set before the first sample (C79_false) or set as not valid (C79_not_valid_shown_valid), and for texts on UTF-16 channels or beyond ASCII on ASCII channels (C79_text_not_encoded). Proved from the calls of the application to the observers for all other channels of numbers, texts and bytes; the master time is C23. C79_unreadable_not_valid, C79_no_bytes_not_valid, C79_short_record_not_valid: what cannot be read is shown as not valid."
  },
  {
   "property": "C80",
   "status": "partial",
   "theorems": [
    "Mdf.C80_destination_deleted",
    "Mdf.C80_false",
    "Mdf.C80_false_parts",
    "Mdf.C80_file_cut",
    "Mdf.C80_sorting_accepted",
    "Mdf.C80_sorting_destination_partial",
    "Mdf.C80_sorting_no_overwrite_partial",
    "Mdf.C80_sorting_others_kept_partial",
    "Mdf.C80_sorting_refused",
    "Mdf.C80_sorting_result_partial",
    "Mdf.C80_sorting_unread",
    "Mdf.C80_source_deleted",
    "Mdf.C80_success_without_file",
    "Mdf.C80_validating_others_kept_partial",
    "Mdf.C80_validating_refused",
    "Mdf.C80_validating_reports",
    "Mdf.C80_validating_result_partial"
   ],
   "note": "False of the code (C80_false, C80_source_deleted, C80_destination_deleted, C80_success_without_file): the temporary file has the name of the destination (or source) in the directory for temporary files, and whatever is there is removed first. Proved for all files other than that one, with every failure and point of interruption. When a task refuses, and what it reports: C80_sorting_refused, C80_sorting_accepted (exactly), C80_sorting_unread, C80_validating_refused, C80_validating_reports."
  },
  {
   "property": "C81",
   "status": "proved",
   "theorems": [
    "Mdf.C81_cut",
    "Mdf.C81_cut_buffer",
    "Mdf.C81_cut_file",
    "Mdf.C81_deflate_buffer",
    "Mdf.C81_deflate_error",
    "Mdf.C81_error_buffer",
    "Mdf.C81_error_reported",
    "Mdf.C81_lossless",
    "Mdf.C81_nothing_buffer"
   ],
   "note": "zlib's inflate and deflate calls are objects of which only what zlib.h promises is assumed (Spec/ZStream.lean); storedZ is an instance, so the assumptions can be met. C81_error_reported: an error of deflate is reported."
  },
  {
   "property": "C82",
   "status": "partial",
   "theorems": [
    "Mdf.C82_complete_block_partial",
    "Mdf.C82_cut_block",
    "Mdf.C82_false",
    "Mdf.C82_small_block_partial",
    "Mdf.C82_stored_limit"
   ],
   "note": "False of the code (C82_false, C82_cut_block, C82_stored_limit): there is room for 100 bytes more than the data only, and nobody looks at the failure. Proved when the compressed data fit (C82_complete_block_partial), which is so for all data of a size whose compressed form is never 100 bytes longer (C82_small_block_partial)."
  },
  {
   "property": "C83",
   "status": "partial",
   "theorems": [
    "Mdf.C83_bus_name",
    "Mdf.C83_can_kind_partial",
    "Mdf.C83_channel_character",
    "Mdf.C83_channel_false",
    "Mdf.C83_eth_kind",
    "Mdf.C83_false",
    "Mdf.C83_flexray_kind_partial",
    "Mdf.C83_frame_header",
    "Mdf.C83_lin_kind_partial",
    "Mdf.C83_most_kind_partial",
    "Mdf.C83_names_differ"
   ],
   "note": "False of the code: a bus name may hold the name of another kind (C83_bus_name), FlexRay frames are stored in groups for frame headers (C83_frame_header, C83_false), and the channel number is a character (C83_channel_false). Proved for bus names without underscore, all filters and kinds; different names without restriction (C83_names_differ)."
  },
  {
   "property": "C84",
   "status": "partial",
   "theorems": [
    "Mdf.C84_again_false",
    "Mdf.C84_again_sample",
    "Mdf.C84_calls_partial",
    "Mdf.C84_kind_false",
    "Mdf.C84_kind_lost"
   ],
   "note": "Proved for all groups and lists of messages: one call for each message, in order, with sample number and time (C84_calls_partial). False of the code: the kind of the message is never set for a callback (C84_kind_lost, C84_kind_false); a second reading with the same observer reports the last sample number for all calls and calls twice with a VLSD group (C84_again_sample, C84_again_false). Members that are not read back: C52."
  },
  {
   "property": "C85",
   "status": "partial",
   "theorems": [
    "Mdf.C85_added",
    "Mdf.C85_after_reset_partial",
    "Mdf.C85_any_layout",
    "Mdf.C85_early_undefined",
    "Mdf.C85_false",
    "Mdf.C85_layouts",
    "Mdf.C85_made_early",
    "Mdf.C85_other_kind",
    "Mdf.C85_other_size",
    "Mdf.C85_other_size_lost",
    "Mdf.C85_raw",
    "Mdf.C85_stays_not_valid",
    "Mdf.C85_values_partial"
   ],
   "note": "Proved for all calls: C85_values_partial (values that have the size of the channel), C85_after_reset_partial, C85_layouts, C85_any_layout, C85_raw, C85_added. False of the code: a value of another size is silently ignored (C85_other_size_lost, C85_false), the bits of a number of another kind are stored (C85_other_kind), a channel marked as not valid stays so (C85_stays_not_valid), a writer made before InitMeasurement gives empty records, and adding one writes outside of it (C85_made_early, C85_early_undefined)."
  },
  {
   "property": "C86",
   "status": "partial",
   "theorems": [
    "Mdf.C86_double_exact",
    "Mdf.C86_double_kept",
    "Mdf.C86_double_partial",
    "Mdf.C86_full_statement_fails",
    "Mdf.C86_integer32_partial",
    "Mdf.C86_integer_partial",
    "Mdf.C86_limit_lost",
    "Mdf.C86_limits_kept",
    "Mdf.C86_parts_fail",
    "Mdf.C86_parts_lost",
    "Mdf.C86_read_integer",
    "Mdf.C86_read_partial",
    "Mdf.C86_small_lost",
    "Mdf.C86_too_large"
   ],
   "note": "Proved: C86_integer_partial (64 bits), C86_integer32_partial, C86_double_partial (nearest number with six decimals), C86_double_kept, C86_double_exact, C86_read_partial, C86_read_integer, C86_limits_kept (limits of six significant digits). False of the code: a double keeps six digits after the point only (C86_small_lost), limits six significant digits (C86_limit_lost), the type is not stored (C86_parts_lost), a hexadecimal number read as 32 bits is 0 (C86_full_statement_fails, C86_parts_fail). C86_too_large: numbers above 32 bits read as 32 bits."
  },
  {
   "property": "C87",
   "status": "partial",
   "theorems": [
    "Mdf.C87_address",
    "Mdf.C87_channel",
    "Mdf.C87_event_names_lost",
    "Mdf.C87_event_partial",
    "Mdf.C87_formula_lost",
    "Mdf.C87_full_statement_fails",
    "Mdf.C87_history_lost",
    "Mdf.C87_history_partial",
    "Mdf.C87_monotony",
    "Mdf.C87_source_partial",
    "Mdf.C87_unit"
   ],
   "note": "Proved: C87_channel and C87_unit (everything), C87_address, C87_event_partial (all but alternative names), C87_history_partial (all but alternative names and formula), C87_source_partial (all but the formula). False of the code: C87_event_names_lost, C87_history_lost, C87_formula_lost, C87_full_statement_fails."
  },
  {
   "property": "C88",
   "status": "partial",
   "theorems": [
    "Mdf.C88_calls_partial",
    "Mdf.C88_calls_statement_fails",
    "Mdf.C88_convert_partial",
    "Mdf.C88_full_statement_fails",
    "Mdf.C88_integers_widen",
    "Mdf.C88_no_file",
    "Mdf.C88_plot_partial",
    "Mdf.C88_quote_breaks",
    "Mdf.C88_rectangular"
   ],
   "note": "Proved: C88_convert_partial (mdf2csv, texts without double quotes), C88_no_file, C88_calls_partial and C88_plot_partial (viewer, texts without double quotes or with a comma, space or control sign too), C88_rectangular (texts only). False of the code: C88_quote_breaks, C88_full_statement_fails, C88_calls_statement_fails, C88_integers_widen."
  },
  {
   "property": "C89",
   "status": "partial",
   "theorems": [
    "Mdf.C89_bytes_not_text",
    "Mdf.C89_decimals_partial",
    "Mdf.C89_digits_lost",
    "Mdf.C89_fixed_decimals",
    "Mdf.C89_full_statement_fails",
    "Mdf.C89_half_up",
    "Mdf.C89_large_undefined",
    "Mdf.C89_no_decimals_partial",
    "Mdf.C89_no_number",
    "Mdf.C89_signed_text",
    "Mdf.C89_six_digits",
    "Mdf.C89_unit",
    "Mdf.C89_unsigned_text"
   ],
   "note": "Proved: C89_decimals_partial and C89_fixed_decimals (-9999 to 99999), C89_no_decimals_partial, C89_six_digits (all of 64 bits: so many decimals, or six significant digits), C89_unit, C89_unsigned_text, C89_signed_text, C89_no_number. False of the code: C89_digits_lost, C89_half_up, C89_large_undefined, C89_full_statement_fails, C89_bytes_not_text."
  },
  {
   "property": "C90",
   "status": "proved",
   "theorems": [
    "Mdf.C90_block_in_file",
    "Mdf.C90_copy_fits",
    "Mdf.C90_cut_off_filled",
    "Mdf.C90_cycle_never_ends",
    "Mdf.C90_data_behind_link",
    "Mdf.C90_links_invisible",
    "Mdf.C90_records_found"
   ],
   "note": "C90_data_behind_link, C90_links_invisible, C90_records_found (records, with C11). Limits: C90_cycle_never_ends (cyclic chains), C90_cut_off_filled (a file that ends in the data is filled with zeros). Buffers that are too small: C90_copy_fits; what follows a block: C90_block_in_file."
  },
  {
   "property": "C91",
   "status": "partial",
   "theorems": [
    "Mdf.C91_columns_partial",
    "Mdf.C91_full_statement_fails",
    "Mdf.C91_values_taken_for_invalidation"
   ],
   "note": "Proved: C91_columns_partial (records without invalidation bytes). False of the code: C91_values_taken_for_invalidation, C91_full_statement_fails."
  },
  {
   "property": "C92",
   "status": "partial",
   "theorems": [
    "Mdf.C92_always_valid",
    "Mdf.C92_beyond_2GiB",
    "Mdf.C92_beyond_end",
    "Mdf.C92_columns_partial",
    "Mdf.C92_full_statement_fails",
    "Mdf.C92_invalidation_lost",
    "Mdf.C92_reads_before_buffer",
    "Mdf.C92_rows_partial"
   ],
   "note": "Proved: C92_rows_partial (RD blocks, up to 2 GiB), C92_columns_partial (RV blocks without invalidation bytes, up to 2 GiB), both for the intervals stored. False of the code: C92_invalidation_lost with C92_always_valid, C92_beyond_end, C92_beyond_2GiB, C92_reads_before_buffer, C92_full_statement_fails."
  },
  {
   "property": "C93",
   "status": "partial",
   "theorems": [
    "Mdf.C93_category_lost",
    "Mdf.C93_full_statement_fails",
    "Mdf.C93_infinite_lost",
    "Mdf.C93_names_lost",
    "Mdf.C93_read_partial",
    "Mdf.C93_validity_lost",
    "Mdf.C93_word_texts",
    "Mdf.C93_words"
   ],
   "note": "Proved: C93_read_partial (everything but the names, the validity of a computation, limits without a number and a category alone; numbers with six digits), C93_words. False of the code: C93_names_lost, C93_category_lost, C93_validity_lost, C93_infinite_lost, C93_full_statement_fails."
  },
  {
   "property": "C94",
   "status": "partial",
   "theorems": [
    "Mdf.C94_added_partial",
    "Mdf.C94_exponents_lost",
    "Mdf.C94_full_statement_fails",
    "Mdf.C94_identity",
    "Mdf.C94_identity_twice",
    "Mdf.C94_read_partial",
    "Mdf.C94_unit_names_lost"
   ],
   "note": "Proved: C94_read_partial and C94_added_partial (everything but the names of units and dimensions and two exponents; numbers with six digits). False of the code: C94_unit_names_lost, C94_exponents_lost, C94_full_statement_fails."
  },
  {
   "property": "C95",
   "status": "partial",
   "theorems": [
    "Mdf.C95_double_text",
    "Mdf.C95_float",
    "Mdf.C95_float_formats",
    "Mdf.C95_integer_partial",
    "Mdf.C95_lists",
    "Mdf.C95_offset",
    "Mdf.C95_reading",
    "Mdf.C95_virtual_double",
    "Mdf.C95_virtual_float_false",
    "Mdf.C95_virtual_partial",
    "Mdf.C95_virtual_signed_false",
    "Mdf.C95_virtual_signed_value",
    "Mdf.C95_virtual_width_false"
   ],
   "note": "Proved: C95_integer_partial, C95_reading (integers, from the events and from the file), C95_double_text, C95_lists, C95_float, C95_virtual_partial (unsigned virtual channels that are wide enough or have no width). False of the code: C95_virtual_signed_false with C95_virtual_signed_value, C95_virtual_float_false, C95_virtual_width_false. C95_float_formats: the value of every bit pattern of 16, 32 and 64 bits."
  },
  {
   "property": "C96",
   "status": "partial",
   "theorems": [
    "Mdf.C96_existing_kept",
    "Mdf.C96_names_kept",
    "Mdf.C96_not_ascii_ub",
    "Mdf.C96_one_file_partial",
    "Mdf.C96_same_names_false",
    "Mdf.C96_same_names_forced",
    "Mdf.C96_second_directory_false"
   ],
   "note": "Proved: C96_one_file_partial (one measurement file, plain group names that differ in a data group), C96_existing_kept (full). False of the code: C96_same_names_false and C96_same_names_forced (two groups with the same name), C96_second_directory_false (the directory of the first measurement file is kept for all), C96_not_ascii_ub (characters outside ASCII). Which characters of names are kept: C96_names_kept."
  },
  {
   "property": "C97",
   "status": "partial",
   "theorems": [
    "Mdf.C97_block_ends_partial",
    "Mdf.C97_composition_channels",
    "Mdf.C97_composition_false",
    "Mdf.C97_loop_false",
    "Mdf.C97_opening_ends_partial"
   ],
   "note": "Proved: C97_opening_ends_partial and C97_block_ends_partial (files where following the links never comes back to a position: the depth and the length of lists are at most the length of the file), C97_composition_channels. False of the code: C97_loop_false (a block that is its own successor), C97_composition_false (a composition that is neither an array nor a list of channels, as in MDF 4.2 and 4.3)."
  },
  {
   "property": "C98",
   "status": "partial",
   "theorems": [
    "Mdf.C98_failure_reported_once",
    "Mdf.C98_false",
    "Mdf.C98_list_ends",
    "Mdf.C98_mdf3_header_false",
    "Mdf.C98_mdf3_partial",
    "Mdf.C98_missing_link",
    "Mdf.C98_no_call_fails",
    "Mdf.C98_nothing_foreign",
    "Mdf.C98_staged_partial"
   ],
   "note": "Proved: C98_staged_partial (if all calls returned true, the state is exactly that of the one call that reads most, and it is whole), C98_no_call_fails, C98_nothing_foreign (after any calls, failed ones included, all lists are beginnings of those of the file), C98_mdf3_partial (MDF 3: the last call alone decides, if the header can be read). False of the code: C98_false, C98_failure_reported_once (a broken list of data groups is reported by the first call; the same call again returns true with the groups in front of the break), C98_mdf3_header_false. Missing links: C98_list_ends, C98_missing_link."
  },
  {
   "property": "C99",
   "status": "partial",
   "theorems": [
    "Mdf.C99_false",
    "Mdf.C99_mdf3_destroyed",
    "Mdf.C99_mdf4_partial"
   ],
   "note": "Proved: C99_mdf4_partial (MDF 4: every object stays in every state). False of MDF 3: C99_false, C99_mdf3_destroyed (each ReadMeasurementInfo and ReadEverythingButData destroys all objects handed out before)."
  },
  {
   "property": "C100",
   "status": "partial",
   "theorems": [
    "Mdf.C100_false",
    "Mdf.C100_in_buffer",
    "Mdf.C100_other_calls_partial"
   ],
   "note": "Proved: C100_other_calls_partial (all functions but one). False of ReadInDataBuffer: C100_false, C100_in_buffer (the test of was_open is the wrong way round: the file stays open, and one that was open is opened again)."
  },
  {
   "property": "C101",
   "status": "partial",
   "theorems": [
    "Mdf.C101_blocks_partial",
    "Mdf.C101_false",
    "Mdf.C101_large_samples"
   ],
   "note": "Proved: C101_blocks_partial (all runs in which no sample alone needs 4,000,000 bytes), C101_large_samples (any samples: a larger block holds one sample alone). False of the code: C101_false (an empty block is written in front of a sample of 4,000,000 bytes)."
  },
  {
   "property": "C102",
   "status": "partial",
   "theorems": [
    "Mdf.C102_false",
    "Mdf.C102_foreign_sample_read",
    "Mdf.C102_not_dropped",
    "Mdf.C102_own_queue_partial",
    "Mdf.C102_with_data_group"
   ],
   "note": "Proved: C102_own_queue_partial (the data group is being recorded, or several are), C102_with_data_group (the call with the data group given is always right), C102_not_dropped. False of the code: C102_false (exactly one data group is recorded: samples of all others go into its queue); C102_foreign_sample_read shows what is then read."
  },
  {
   "property": "C103",
   "status": "partial",
   "theorems": [
    "Mdf.C103_counter",
    "Mdf.C103_false",
    "Mdf.C103_mdf3_false",
    "Mdf.C103_mdf3_partial",
    "Mdf.C103_not_delivered",
    "Mdf.C103_one_session_partial",
    "Mdf.C103_reopened_fixed"
   ],
   "note": "Proved: C103_one_session_partial (MDF 4, samples of one session), C103_counter (MDF 4, exactly which samples are counted, all histories), C103_reopened_fixed, C103_not_delivered (what the counter 0 hides), C103_mdf3_partial (MDF 3, all samples in one session, also a later one). False of the code: C103_false, C103_mdf3_false."
  },
  {
   "property": "C104",
   "status": "partial",
   "theorems": [
    "Mdf.C104_false",
    "Mdf.C104_first_start_partial",
    "Mdf.C104_kept",
    "Mdf.C104_not_in_file_before"
   ],
   "note": "Proved: C104_first_start_partial (no sample is stored inside StartMeasurement), C104_kept, C104_not_in_file_before (the time reaches the file only with finalization). False of the code: C104_false (samples held back are stored between the change of the state and the setting of the time)."
  },
  {
   "property": "C105",
   "status": "partial",
   "theorems": [
    "Mdf.C105_by_record_id",
    "Mdf.C105_channel_contains",
    "Mdf.C105_channel_false",
    "Mdf.C105_channel_partial",
    "Mdf.C105_group_exact",
    "Mdf.C105_group_part",
    "Mdf.C105_master"
   ],
   "note": "Proved: C105_group_exact, C105_group_part, C105_by_record_id, C105_master, C105_channel_partial (no name in front contains the one asked for), C105_channel_contains (what is found in all files). False of the code: C105_channel_false (the first channel whose name contains the text is returned)."
  },
  {
   "property": "C106",
   "status": "partial",
   "theorems": [
    "Mdf.C106_channel_partial",
    "Mdf.C106_channels_distinct",
    "Mdf.C106_false",
    "Mdf.C106_group_partial",
    "Mdf.C106_group_twice"
   ],
   "note": "Proved: C106_group_partial, C106_channel_partial (whole texts), C106_channels_distinct (all sequences of calls). False of the code: C106_false, C106_group_twice (views that end before their text)."
  },
  {
   "property": "C107",
   "status": "partial",
   "theorems": [
    "Mdf.C107_all",
    "Mdf.C107_case_false",
    "Mdf.C107_exact_partial",
    "Mdf.C107_observed",
    "Mdf.C107_same_letter"
   ],
   "note": "Proved: C107_observed (which channel is taken, for all data groups), C107_exact_partial (names that do not differ by case alone), C107_all. False of the code: C107_case_false. C107_same_letter: which letters count as the same."
  },
  {
   "property": "C108",
   "status": "partial",
   "theorems": [
    "Mdf.C108_east_partial",
    "Mdf.C108_false",
    "Mdf.C108_getter",
    "Mdf.C108_half_hour",
    "Mdf.C108_local",
    "Mdf.C108_texts",
    "Mdf.C108_texts_given",
    "Mdf.C108_west",
    "Mdf.C108_zoned"
   ],
   "note": "Proved: C108_east_partial (whole zones from Greenwich east), C108_zoned (zones given by the user), C108_texts, C108_texts_given, C108_local, C108_getter. False of the code: C108_false; C108_west gives the wrong offset that is stored west of Greenwich, C108_half_hour the error in zones with half an hour."
  },
  {
   "property": "C109",
   "status": "partial",
   "theorems": [
    "Mdf.C109_false",
    "Mdf.C109_kind",
    "Mdf.C109_no_offsets",
    "Mdf.C109_offset_partial",
    "Mdf.C109_read_back",
    "Mdf.C109_sort_false",
    "Mdf.C109_sort_mdf3",
    "Mdf.C109_sort_partial"
   ],
   "note": "Proved: C109_read_back, C109_kind, C109_offset_partial, C109_sort_partial (not local), C109_sort_mdf3. False of the code: C109_false (negative offsets are returned as uint16_t), C109_sort_false (a local start time counts as UTC in the sorted file). C109_no_offsets."
  },
  {
   "property": "C110",
   "status": "partial",
   "theorems": [
    "Mdf.C110_array_kept",
    "Mdf.C110_array_lost",
    "Mdf.C110_arrays_kept",
    "Mdf.C110_axis_refs",
    "Mdf.C110_channels_all",
    "Mdf.C110_channels_partial",
    "Mdf.C110_comments",
    "Mdf.C110_conversion",
    "Mdf.C110_counters",
    "Mdf.C110_false",
    "Mdf.C110_false_mdf4",
    "Mdf.C110_groups",
    "Mdf.C110_kept",
    "Mdf.C110_mdf3",
    "Mdf.C110_place",
    "Mdf.C110_refs",
    "Mdf.C110_values_partial",
    "Mdf.C110_x_lost",
    "Mdf.C110_x_partial",
    "Mdf.C110_x_source"
   ],
   "note": "Proved: C110_groups, C110_kept, C110_comments (which data groups are made), C110_channels_partial and C110_values_partial (MDF 4, no arrays that refer to other blocks), C110_channels_all, C110_conversion, C110_x_partial. False of the code: C110_false (MDF 3: C110_mdf3), C110_false_mdf4 (C110_axis_refs and C110_array_lost: every array with an axis is dropped), C110_x_lost. C110_refs, C110_array_kept, C110_arrays_kept, C110_place, C110_x_source, C110_counters: what the parts of the description are."
  },
  {
   "property": "C111",
   "status": "partial",
   "theorems": [
    "Mdf.C111_exp_first",
    "Mdf.C111_exp_inverse",
    "Mdf.C111_exp_second",
    "Mdf.C111_exponential_partial",
    "Mdf.C111_false",
    "Mdf.C111_invalid",
    "Mdf.C111_log_first",
    "Mdf.C111_log_inverse",
    "Mdf.C111_log_inverse_second",
    "Mdf.C111_log_second"
   ],
   "note": "Proved over the real numbers: both kinds of both conversions (C111_log_first, C111_log_second, C111_exp_first, C111_exp_second), exactly when they report failure (C111_invalid), their inverses (C111_log_inverse, C111_exp_inverse, C111_log_inverse_second), and that the exponential one is always a number (C111_exponential_partial). False of the code: C111_false (the logarithm of a negative number or zero is returned as a valid value). Missing: rounding of double."
  },
  {
   "property": "C112",
   "status": "partial",
   "theorems": [
    "Mdf.C112_clean_partial",
    "Mdf.C112_end_partial",
    "Mdf.C112_exception",
    "Mdf.C112_exception_lock",
    "Mdf.C112_exception_next",
    "Mdf.C112_false",
    "Mdf.C112_false_uncompressed",
    "Mdf.C112_init",
    "Mdf.C112_lock_lost",
    "Mdf.C112_loop_compressed",
    "Mdf.C112_loop_mdf3",
    "Mdf.C112_loop_writes",
    "Mdf.C112_save_partial",
    "Mdf.C112_save_writes",
    "Mdf.C112_terminates",
    "Mdf.C112_turn_partial",
    "Mdf.C112_turn_skips",
    "Mdf.C112_turn_uncompressed_partial"
   ],
   "note": "Proved: C112_clean_partial, C112_save_partial (with exactly when the size is read without the lock), C112_turn_partial, C112_turn_uncompressed_partial, C112_end_partial, if the data block is there. False of the code: C112_false (QueueSize without the lock), C112_false_uncompressed and C112_lock_lost (early returns), with C112_terminates, C112_turn_skips and C112_exception as consequences. Which samples are taken and what exceptions leave: C112_loop_writes, C112_loop_compressed, C112_loop_mdf3, C112_init, C112_save_writes, C112_exception_lock, C112_exception_next."
  },
  {
   "property": "C113",
   "status": "partial",
   "theorems": [
    "Mdf.C113_false",
    "Mdf.C113_list",
    "Mdf.C113_list_overflow",
    "Mdf.C113_list_set_get",
    "Mdf.C113_md5",
    "Mdf.C113_message_bytes",
    "Mdf.C113_range",
    "Mdf.C113_reference_false",
    "Mdf.C113_reference_overflow",
    "Mdf.C113_reference_partial",
    "Mdf.C113_set_short",
    "Mdf.C113_start",
    "Mdf.C113_text",
    "Mdf.C113_text_any",
    "Mdf.C113_text_cut",
    "Mdf.C113_text_set_get",
    "Mdf.C113_text_set_unterminated",
    "Mdf.C113_value_bytes_false",
    "Mdf.C113_value_bytes_iff",
    "Mdf.C113_value_bytes_partial",
    "Mdf.C113_value_text",
    "Mdf.C113_value_text_safe"
   ],
   "note": "Proved: C113_text, C113_text_any, C113_text_set_get, C113_md5, C113_value_text, C113_value_text_safe, C113_message_bytes, C113_list, C113_list_set_get and exactly when lists and texts overrun (C113_list_overflow, C113_text_any). False of the code: C113_false, by C113_value_bytes_false (GetChannelValueAsArray reads behind the value when there is more room than needed: C113_value_bytes_iff, C113_value_bytes_partial) and C113_reference_false (GetReference hands over the formula: C113_reference_overflow, C113_reference_partial)."
  },
  {
   "property": "C114",
   "status": "partial",
   "theorems": [
    "Mdf.C114_adapters",
    "Mdf.C114_again",
    "Mdf.C114_again_false",
    "Mdf.C114_again_partial",
    "Mdf.C114_again_unused",
    "Mdf.C114_all_kinds",
    "Mdf.C114_configured_partial",
    "Mdf.C114_earlier",
    "Mdf.C114_ethernet_filter",
    "Mdf.C114_false",
    "Mdf.C114_filters",
    "Mdf.C114_flexray",
    "Mdf.C114_flexray_adapter",
    "Mdf.C114_found",
    "Mdf.C114_groups",
    "Mdf.C114_ids_first",
    "Mdf.C114_ids_kept",
    "Mdf.C114_kinds",
    "Mdf.C114_mandatory",
    "Mdf.C114_refused"
   ],
   "note": "Proved: C114_configured_partial (all buses but FlexRay), C114_adapters (any adapters, also FlexRay, on any data group: references of the data channels right and different), C114_groups (these groups and no others), C114_found, C114_earlier, C114_filters, C114_all_kinds. False of the code: C114_false (nothing is made for FlexRay although success is reported) and C114_again_false (a second call adds VLSD groups: C114_again, C114_again_unused, C114_again_partial)."
  },
  {
   "property": "C115",
   "status": "partial",
   "theorems": [
    "Mdf.C115_bus",
    "Mdf.C115_comment",
    "Mdf.C115_false",
    "Mdf.C115_fixed_false",
    "Mdf.C115_fixed_never",
    "Mdf.C115_length_lost",
    "Mdf.C115_name",
    "Mdf.C115_settings_partial"
   ],
   "note": "full for the names and the bus; the settings are read back if one of channel, id, name or protocol is set; a message length set alone is lost, and the constant bus channel is never made"
  },
  {
   "property": "C116",
   "status": "proved",
   "theorems": [
    "Mdf.C116_channel",
    "Mdf.C116_half",
    "Mdf.C116_value"
   ],
   "note": ""
  },
  {
   "property": "C117",
   "status": "partial",
   "theorems": [
    "Mdf.C117_false",
    "Mdf.C117_kept_partial",
    "Mdf.C117_late_file",
    "Mdf.C117_not_understood",
    "Mdf.C117_only_named",
    "Mdf.C117_started_early",
    "Mdf.C117_stream",
    "Mdf.C117_stream_ignored",
    "Mdf.C117_unreadable",
    "Mdf.C117_written"
   ],
   "note": "full for which files are changed; files are kept as long as every Init opens the file there is, a writer with a name is not given a stream and nobody else makes the file; otherwise the file is emptied"
  },
  {
   "property": "C118",
   "status": "partial",
   "theorems": [
    "Mdf.C118_channel_partial",
    "Mdf.C118_composition_lost",
    "Mdf.C118_composition_partial",
    "Mdf.C118_false",
    "Mdf.C118_found",
    "Mdf.C118_master",
    "Mdf.C118_never_repaired",
    "Mdf.C118_set_again_ignored",
    "Mdf.C118_unknown_link"
   ],
   "note": "false of the code; exact instead: channels of groups keep the parts of the reference that lie in their own data group or in one before it, channels of compositions those written before themselves; nothing is completed later, and GetXChannel then returns the master of the group"
  },
  {
   "property": "C119",
   "status": "partial",
   "theorems": [
    "Mdf.C119_bits",
    "Mdf.C119_bits_first",
    "Mdf.C119_bits_lost",
    "Mdf.C119_defaults",
    "Mdf.C119_false",
    "Mdf.C119_last_call",
    "Mdf.C119_members_share",
    "Mdf.C119_overwrites_first",
    "Mdf.C119_placed_partial",
    "Mdf.C119_type_sizes",
    "Mdf.C119_validity_lost",
    "Mdf.C119_validity_shared"
   ],
   "note": "false of the code; proved for members whose byte offset is set into their structure, on whole bytes, without validity bit; exact for the others: without byte offset they are the first channel, with validity bit they share the first validity bit or have none, on bits they replace the whole byte and are not moved to their bit offset"
  },
  {
   "property": "C120",
   "status": "partial",
   "theorems": [
    "Mdf.C120_beyond_end",
    "Mdf.C120_by_type",
    "Mdf.C120_eng",
    "Mdf.C120_false",
    "Mdf.C120_listed_partial",
    "Mdf.C120_never_value",
    "Mdf.C120_none_listed",
    "Mdf.C120_overflow",
    "Mdf.C120_raw",
    "Mdf.C120_values_partial"
   ],
   "note": "false of the code; proved: no reduction is listed for channel group blocks of the size of the format, those of larger blocks are listed in order with their values, none ever gives a value; the values of data in memory are the stored ones below 2 GiB, and the dispatch by data type and conversion is exact"
  },
  {
   "property": "C121",
   "status": "partial",
   "theorems": [
    "Mdf.C121_aborts",
    "Mdf.C121_att_false",
    "Mdf.C121_attachment_texts",
    "Mdf.C121_attachments_partial",
    "Mdf.C121_events_lost",
    "Mdf.C121_false",
    "Mdf.C121_found_again",
    "Mdf.C121_header",
    "Mdf.C121_histories",
    "Mdf.C121_mdf3_lost",
    "Mdf.C121_truncated"
   ],
   "note": "false of the code; proved: header comment and texts of MDF 4 sources are kept if the library wrote them without surrounding spaces, start time, angle and distance are kept; attachments are kept if their size is not zero; histories are kept; findings: all texts of MDF 3 headers, events and hierarchies are lost, attachments of size zero are looked up again when sorting"
  },
  {
   "property": "C122",
   "status": "partial",
   "theorems": [
    "Mdf.C122_comment",
    "Mdf.C122_digits_lost",
    "Mdf.C122_false",
    "Mdf.C122_names",
    "Mdf.C122_new",
    "Mdf.C122_plain_lost",
    "Mdf.C122_set_partial",
    "Mdf.C122_six_kept",
    "Mdf.C122_value_same",
    "Mdf.C122_value_text"
   ],
   "note": "false of the code; proved: the last description is kept without surrounding blanks, the last intervals are kept rounded to six significant digits, in any order of calls and reopenings; comments replace them; all texts of enumerations; findings: digits beyond six are lost, a plain text is not returned as description until a setter is called"
  },
  {
   "property": "C123",
   "status": "partial",
   "theorems": [
    "Mdf.C123_bus_text",
    "Mdf.C123_class_by_number",
    "Mdf.C123_false",
    "Mdf.C123_minor_partial",
    "Mdf.C123_name_stays",
    "Mdf.C123_names",
    "Mdf.C123_no_text",
    "Mdf.C123_one_digit",
    "Mdf.C123_stem",
    "Mdf.C123_stem_plain",
    "Mdf.C123_version3",
    "Mdf.C123_version4"
   ],
   "note": "false of the code; proved: main version for all histories; minor version 0 and 10..99 are kept, 1..9 are found as tens, for larger numbers the last two digits; names and stems; bus texts"
  },
  {
   "property": "C124",
   "status": "proved",
   "theorems": [
    "Mdf.C124_console",
    "Mdf.C124_count",
    "Mdf.C124_delivered",
    "Mdf.C124_quiet"
   ],
   "note": "induction over the calls from their end"
  },
  {
   "property": "C125",
   "status": "partial",
   "theorems": [
    "Mdf.C125_bool",
    "Mdf.C125_bool_of_int",
    "Mdf.C125_bool_text",
    "Mdf.C125_byte",
    "Mdf.C125_double_lost",
    "Mdf.C125_double_partial",
    "Mdf.C125_empty",
    "Mdf.C125_false",
    "Mdf.C125_file",
    "Mdf.C125_int",
    "Mdf.C125_nat",
    "Mdf.C125_type",
    "Mdf.C125_type_word"
   ],
   "note": "false of the code; proved: integers and truth values are kept, doubles are rounded to six significant digits, bytes are kept unless they are blanks; data types are kept"
  },
  {
   "property": "C126",
   "status": "proved",
   "theorems": [
    "Mdf.C126_damaged_program",
    "Mdf.C126_damaged_trigger",
    "Mdf.C126_dependencies",
    "Mdf.C126_dependencies_read",
    "Mdf.C126_dimensions_skipped",
    "Mdf.C126_message",
    "Mdf.C126_module",
    "Mdf.C126_no_program",
    "Mdf.C126_other_extension",
    "Mdf.C126_program",
    "Mdf.C126_program_kept",
    "Mdf.C126_triggers",
    "Mdf.C126_triggers_kept",
    "Mdf.C126_triggers_lost",
    "Mdf.C126_triggers_written"
   ],
   "note": ""
  },
  {
   "property": "C127",
   "status": "partial",
   "theorems": [
    "Mdf.C127_false",
    "Mdf.C127_first",
    "Mdf.C127_new_channel",
    "Mdf.C127_none",
    "Mdf.C127_saved_partial",
    "Mdf.C127_unsaved_data_group",
    "Mdf.C127_unsaved_first"
   ],
   "note": "false of the code for channels that are not saved: no data group and the first channel group with an unsaved block is found; proved for saved channels"
  },
  {
   "property": "C128",
   "status": "proved",
   "theorems": [
    "Mdf.C128_closed",
    "Mdf.C128_failed_write",
    "Mdf.C128_file",
    "Mdf.C128_not_open",
    "Mdf.C128_only_named",
    "Mdf.C128_same_file"
   ],
   "note": ""
  },
  {
   "property": "C129",
   "status": "partial",
   "theorems": [
    "Mdf.C129_again",
    "Mdf.C129_exact",
    "Mdf.C129_false",
    "Mdf.C129_large",
    "Mdf.C129_near_partial",
    "Mdf.C129_negative",
    "Mdf.C129_seconds",
    "Mdf.C129_window"
   ],
   "note": "False as stated: 15 ns are returned as 14 ns (C129_false). Proved: up to 52 days it is right to two nanoseconds and the window is less than 3/2 ns too small and at most 1/2 ns too large; exact for doubles that are a whole number of nanoseconds below 2^53, so for whole seconds; setting the returned time again loses at most 1 ns; negative times and 2^64 ns and more are undefined behaviour. Missing: the exact time of other doubles, which the code does not keep; a bound between 2^52 and 2^64 ns."
  },
  {
   "property": "C130",
   "status": "partial",
   "theorems": [
    "Mdf.C130_ch_labels",
    "Mdf.C130_ch_partial",
    "Mdf.C130_ch_wrong",
    "Mdf.C130_false",
    "Mdf.C130_form",
    "Mdf.C130_link_partial",
    "Mdf.C130_negative",
    "Mdf.C130_negative_false",
    "Mdf.C130_other",
    "Mdf.C130_short",
    "Mdf.C130_text"
   ],
   "note": "False as stated (C130_false, C130_negative_false): the first child and the name of a CH block are shown with the link of the next block (C130_ch_wrong), and negative links are returned as 2^63 - 1 (C130_negative). Proved: all links of at least 0 are returned, different links are shown differently, the other links of a CH block are shown as stored for up to 2^32 / 3 elements, all labels are shown in order, other properties have no link."
  }
 ]
}