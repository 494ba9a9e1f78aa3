{
 "C01": {
  "status": "proved",
  "note": "Buffers up to 256 MiB (32-bit int cast in the code); beyond that the code has undefined behaviour, shown in C01_large_offset_ub."
 },
 "C02": {
  "status": "proved",
  "note": ""
 },
 "C03": {
  "status": "partial",
  "note": "The property is false of the code (C03_be_roundtrip_false); proved with the start convention each function actually uses."
 },
 "C04": {
  "status": "proved",
  "note": ""
 },
 "C05": {
  "status": "proved",
  "note": "Records up to 256 MiB and array indices whose bit position does not overflow 64 bits; C05_array_index_wrap_ub and C05_byte_offset_wrap show what the code does outside."
 },
 "C06": {
  "status": "partial",
  "note": "Proved for all setters except the big-endian unsigned one, for which the property is false (C06_set_unsigned_be_ub)."
 },
 "C07": {
  "status": "proved",
  "note": "Unsigned, signed, float (bit patterns) and byte arrays; IEEE conversion of double to float is not modelled."
 },
 "C08": {
  "status": "proved",
  "note": ""
 },
 "C09": {
  "status": "proved",
  "note": "Layouts whose total fits the 32-bit counters; C09_overflow_overlaps shows the overlap beyond."
 },
 "C10": {
  "status": "proved",
  "note": ""
 },
 "C11": {
  "status": "proved",
  "note": ""
 },
 "C12": {
  "status": "proved",
  "note": "For every sequence of complete records with any subscription, and for every byte string when everything is subscribed or the data do not end inside an unsubscribed record; the excluded case is C45."
 },
 "C13": {
  "status": "partial",
  "note": "The property is false of the code (C13_empty_block_hides_data); without empty blocks it is C12. C13_read_to_first_empty_partial and C13_records_before_partial: what is read in general is exactly what is read of the blocks in front of the first empty one."
 },
 "C14": {
  "status": "proved",
  "note": ""
 },
 "C15": {
  "status": "partial",
  "note": "The property is false of the code: the range is compared with the index plus one (C15_off_by_one); proved with the range the code uses. C15_range_stops: a range of one group is read up to the first record behind it, however long the file is."
 },
 "C16": {
  "status": "proved",
  "note": "Values up to 2^32-1 bytes through records; callbacks up to 2^32-5 bytes, where the 32-bit sum of length and 4 does not wrap. C16_signal_data_compressed: which signal data is compressed."
 },
 "C17": {
  "status": "partial",
  "note": "The property is false of the code for offsets within 4 bytes of 2^64 (C17_wrapped_offset_ub); proved for all others. C17_offset_unreadable: if the offset cannot be read the first value is returned as not valid."
 },
 "C18": {
  "status": "proved",
  "note": ""
 },
 "C19": {
  "status": "proved",
  "note": "Every interleaving of one data group's queue; a schedule is a sequence of critical sections. Trimmed samples are governed by C20; the proof needs that the file can be opened and that the measurement is not finalized before it is stopped (see C37)."
 },
 "C20": {
  "status": "proved",
  "note": "Samples saved in the order of their times."
 },
 "C21": {
  "status": "partial",
  "note": "The property is false of the code (C21_false: the subtraction wraps). Proved while the measurement has not been started."
 },
 "C22": {
  "status": "proved",
  "note": "Chunks of compressed blocks concatenate to the uncompressed stream for every split and every schedule of the writer thread; the offset stored for each block is the number of bytes in all blocks before it, over all saves. Deflate itself is outside the model."
 },
 "C23": {
  "status": "proved",
  "note": "After any sequence of samples the sample counter of each group is the number of records with its id in the stored data."
 },
 "C24": {
  "status": "partial",
  "note": "C24_adds_records is the exact behaviour for all records and counters (the count is added); the full statement is false (C24_false); C24_partial proves it for zero stored counters; C24_repeated: unsupported flags make it add again on every read."
 },
 "C25": {
  "status": "partial",
  "note": "The full statement is false (C25_false): the finalizer also counts the 4 length bytes; C25_difference_partial gives the exact difference for every stream."
 },
 "C26": {
  "status": "proved",
  "note": "For every run of block writes, link updates, value changes and sample data: aligned, inside the file, pairwise disjoint, the earlier content unchanged; a new block goes behind everything."
 },
 "C27": {
  "status": "proved",
  "note": "For every such run the header read from the position of a block tells type, true size and links; a link update changes that link and no other header. Sizes below 2^63, links below 2^64, as the format requires."
 },
 "C28": {
  "status": "proved",
  "note": "Whole trees of blocks (lists in lists) over any schema of links, any number of rounds of adding blocks, changing rewritable values, appending data and writing again. Negation for cyclic lists: C28_cyclic_list_never_ends. C28_links_of_classes: the places and classes of the links of every MDF 4 block class, as in the standard."
 },
 "C29": {
  "status": "proved",
  "note": "Transpose and InvTranspose are modelled byte for byte with the index arithmetic of the code; the deflate and inflate calls of zlib are a parameter assumed to be a lossless pair, as zlib itself is outside the repository."
 },
 "C30": {
  "status": "partial",
  "note": "Proved: observer list after any history; calls in order until one stops, if two or more record ids are subscribed or all observers need the id; a subscriber is always called. False with one subscribed id (all observers are called): C30_one_id_false. Channel observers are attached twice and called twice."
 },
 "C31": {
  "status": "partial",
  "note": "Proved for every table and raw value: linear, rational, value to value with and without interpolation (exact ordered-field arithmetic; key hits, below and above for any linear order, hence also for doubles without NaN), ranges, texts, translations, monotonicity of interpolation. False: conversions configured but not yet written, MDF 3 ranges of float channels, engineering texts with blanks, failures of text conversions reported as valid. Rounding of doubles is not modelled. C31_text_other, C31_range_to_text3_kinds: texts through other conversions, MDF 3 ranges by kind of channel."
 },
 "C32": {
  "status": "partial",
  "note": "Proved for conversions without references; false for conversions to and from text (C32_copy_false), whose copies have no result at all."
 },
 "C33": {
  "status": "proved",
  "note": "For up to 64 bytes; C33_too_long shows that longer data get code 0."
 },
 "C34": {
  "status": "partial",
  "note": "All kinds of frames, member sets and storage types. False for MLSD storage with a maximum length below 8 (C34_short_max_length_false) and for data longer than the maximum length (C34_long_data_false)."
 },
 "C35": {
  "status": "partial",
  "note": "Proved: the encoder is UTF-8, exactly UTF-8 is accepted as valid, the round trip with 32-bit wchar_t, UTF-16 to UTF-8 with 16-bit wchar_t, Latin-1 and UTF-8 channels, UTF-16 channels with 16-bit wchar_t. False of the code, with proofs of the negation: characters beyond the basic multilingual plane overflow the buffer of utf8towide (16-bit wchar_t), and are read from UTF-16 channels as separately encoded surrogates (32-bit wchar_t)."
 },
 "C36": {
  "status": "proved",
  "note": "Text fields of any size; the behaviour on a cut off field is C36_cut_off_field_reads_garbage."
 },
 "C37": {
  "status": "partial",
  "note": "False of the code in two ways (C37_false: samples of a measurement never started reach the file; C37_finalize_false: finalizing without a stop throws samples away). The rest is proved."
 },
 "C38": {
  "status": "partial",
  "note": "The property is false of the code (C38_false); proved is that the stop time never has an effect."
 },
 "C39": {
  "status": "proved",
  "note": "The version and the program identification set after the first write are not stored (C39_late_version_not_stored); the claim says what is stored."
 },
 "C40": {
  "status": "partial",
  "note": "Proved for all channel kinds and any sequence of notifications, end to end from the data blocks for fixed-size channels; requests for samples beyond the last are rejected. False: array index beyond the array size is not rejected, 64-bit wrap of the index, byte-array getter ignores the array size."
 },
 "C41": {
  "status": "proved",
  "note": "localtime and mktime are parameters with the assumptions Zone.Sound, shown to hold for the Gregorian calendar with any fixed offset of whole minutes. The text of a CANopen channel is wrong for every time (C41_text_false): nanoseconds are taken as milliseconds."
 },
 "C42": {
  "status": "proved",
  "note": "Byte offsets, exact condition for success, disjoint layout, set/get of integers of 8, 16, 32 and 64 bits in a prepared group."
 },
 "C43": {
  "status": "proved",
  "note": "Any history of the writer model (several data groups, one queue each), any observer; with crash tails and with counters that lag behind. Samples after the stop time and trimming by the pre-trigger time are excluded (C21, C38). Empty records end the reading: shown as C43_empty_record_ends_reading."
 },
 "C44": {
  "status": "proved",
  "note": ""
 },
 "C45": {
  "status": "partial",
  "note": "False of the code (C45_phantom_sample, C45_truncated_data_ub); proved for every other truncation."
 },
 "C46": {
  "status": "partial",
  "note": "False of the code for empty records without record id (C46_empty_record_never_ends); proved for everything else."
 },
 "C47": {
  "status": "partial",
  "note": "The property is false of the code (C47_invalid_sample_becomes_valid); only the case of valid samples holds."
 },
 "C48": {
  "status": "partial",
  "note": "The property is false of the code for more than 4,000,000 compressed bytes (C48_large_signal_data_not_found); proved otherwise."
 },
 "C49": {
  "status": "partial",
  "note": "False of the code: a race (C49_false). Proved for every schedule in which the thread does not run between the change of state and the calculation."
 },
 "C50": {
  "status": "proved",
  "note": ""
 },
 "C51": {
  "status": "partial",
  "note": "C51_Statement is false (C51_false); C51_partial: for every crash byte either the file ends inside a record id or length and finalizing throws, or exactly the complete records are read back."
 },
 "C52": {
  "status": "partial",
  "note": "Proved for all members but R0, ErrorType, BitPosition, FrameDuration of error frames and data length codes that are not those of the data; for each of these the property is shown to be false of the code."
 },
 "C53": {
  "status": "partial",
  "note": "False of the code: C53_position_false gives every position that cannot be set; the partial theorem covers byte boundaries and the first bits of 8192-byte blocks."
 },
 "C54": {
  "status": "partial",
  "note": "False of the code for dates and times turned into byte arrays (C54_date_stays). C54_default_size: the size of a channel whose data type alone is set."
 },
 "C55": {
  "status": "partial",
  "note": "Proved for all classes: the values in memory are read back, for every tree and history of writes, and the last call of a setter counts. Partial because the statement is false of the code for negative time zone offsets (C55_negative_offset), floating point parameters of bitfield conversions (C55_bitfield_parameter), 65536 parameters (C55_many_parameters); proved under the conditions that exclude these. Not covered: texts (C33, C28), data of compressed attachments."
 },
 "C56": {
  "status": "partial",
  "note": "Exact result for every cut (C56_cut_exact), never a hang, only data missing (C56_only_data_missing). The full statement is false of the code for a cut within a text (C56_cut_text); C56_cut_partial excludes this."
 },
 "C57": {
  "status": "partial",
  "note": "From the bytes of the source to the events read from the sorted file, for all schedules: groups without VLSD group (C57_sorted_partial), groups with values next to their records (C57_sorted_values_partial). Full statement false of the code (C57_wrong_value, C57_shared_value_lost, C57_two_values_one_lost, C57_empty_records_lost, C57_signal_data_lost)."
 },
 "C58": {
  "status": "partial",
  "note": "Error at most 1 ns towards the start for |t| < 2^52 ns (C58_time_partial, C58_time_before_partial), exact when the seconds are a double, order kept, drift bounded. Full statement false of the code: 15 ns becomes 14 ns (C58_time_changes)."
 },
 "C59": {
  "status": "partial",
  "note": "Full statement (C59_Statement) is false of the code, proved by C59_overlap: a data group of an earlier measurement with an empty channel group is saved again and its data block is extended over all later blocks. Proved for all files where the channel groups of earlier measurements have samples (C59_own_samples_partial), hence for every first measurement and every further one of that kind."
 },
 "C60": {
  "status": "partial",
  "note": "Full statement false: C60_full_statement_fails. Proved for all series of settings with texts without control characters other than tab and line feed: texts up to blanks around them, properties as a list to which each one is added or merged with the one of its name (C60_metadata_partial), all properties with names of their own (C60_distinct_properties), header texts (C60_header_partial). A control character destroys everything (C60_control_character), carriage returns are lost, line feeds in attributes become blanks, a property set again keeps its old unit, description, type and language, a plain comment of the header is lost."
 },
 "C61": {
  "status": "proved",
  "note": "C61_checksum for every cutting into reads; C61_table: the 64 constants are floor(2^32 |sin(i+1)|), proved with Mathlib's sine. A read error in the middle of a file is taken for its end by the code (the checksum of the part that was read is returned); read errors are not modelled."
 },
 "C62": {
  "status": "partial",
  "note": "Full statement (C62_Statement) is false of the code, proved by C62_full_statement_fails: a file that is to be compressed and is empty or does not get smaller (more than 100 bytes) is refused. Proved for all other attachments (C62_attachments_partial, C62_checksum_guard, C62_changed_reference); what happens with refused ones is C62_refused_aborts, C62_refused_last, C62_refused_finalized. zlib is an arbitrary codec whose inflate undoes deflate."
 },
 "C63": {
  "status": "partial",
  "note": "Written times are read back for all 64 bit time stamps (C63_round_trip, C63_written, C63_date). Reading (C63_Statement) is false of the code, proved by C63_full_statement_fails; proved for fractions of 3, 6 or 9 digits and offsets with a colon that are positive or of whole hours (C63_read_partial). What happens with others is proved exactly: C63_fraction_wrong, C63_negative_offset, C63_offset_without_colon, C63_time_of_day. gmtime and timegm are the Gregorian calendar (C63_calendar: inverse to each other)."
 },
 "C64": {
  "status": "partial",
  "note": "Proved for every comment: exactly what is read (`MdCom.readBack`), that all attributes of the user are read, and that comments made by the Add calls meet the hypotheses if no tree is added under the name of a list or enumeration. The full statement is false of the code (C64_attributes_false): the library's attributes become attributes of the user, hexadecimal numbers become integers, the value of an enumeration and the indexes of a variable are lost (C64_lost), a list is lost if a tree has its name (C64_list_lost), names that differ by blanks collide (C64_blank_lost), an index of 64 bits ends the reading (C64_index_lost). C64_list_index_lost: the indexes of list items are not kept."
 },
 "C65": {
  "status": "partial",
  "note": "Types string, decimal, integer and float: every 64 bit number is returned, before and after writing. Times: in milliseconds. Truth values: always. Hexadecimal: after writing and reading only (0 before). Shown false: a date returns its year, a time of day its hour, a boolean 0."
 },
 "C66": {
  "status": "partial",
  "note": "What is found is given exactly: the first property of that name which is at least as many levels down as there are slashes. It is the right one if the name is unique at those depths. Shown false: with the same name in two trees the property of the first tree is returned for the path of the second."
 },
 "C67": {
  "status": "partial",
  "note": "The value returned is the one that was set FIRST (setters do nothing if the property is there); time source and comment: last. After writing and reading the same values without blanks around them; the file index for all 64 bit values. Names and formula of a header comment are not written. UNIT-SPEC is not modelled."
 },
 "C68": {
  "status": "partial",
  "note": "For all definitions with at most 65535 dimensions whose block is in the file (which the block theorems give); the number of values fits 64 bits. An array can be written exactly if it has enough data links (DgTemplate storage), which asking for them or ResizeArrays gives. References are positions here; which positions the writer stores is C70. Shown false: data links missing, 65536 dimensions."
 },
 "C69": {
  "status": "partial",
  "note": "Values: true if the values have no gaps, as in arrays the program writes (for whole bytes). Validity: if the base is 1. Shown false: the byte offset base of the file is ignored; the base of the validity bits the program writes is 0 although it gives each element its own bit."
 },
 "C70": {
  "status": "partial",
  "note": "Decided for all trees and files: a reference is kept exactly if its block was in the file before or was written before the writing of the referring block began (Node.before); otherwise the link is zero, and later writes do not mend it. Kept: attachments of channels, events and hierarchies, earlier events, all blocks of a file already begun. Shown lost: data groups, channel groups and channels of hierarchies and events written with them, later events, the blocks above an array. The elements of a hierarchy are never read, even with right links. Not covered: the default X axis, the cast of the scope pointer of events (finding)."
 },
 "C71": {
  "status": "partial",
  "note": "False of the code (C71_lin_false). Proved for all messages except the members in linLost, whose values are given exactly (C71_lost): the direction always reads 0, the checksum model of a receive error always 0, the start of frame of wake up and spike messages its lowest 8 bits. Transmission errors need equal settings of writer and adapter (C71_transmission_size). Data of up to 8 bytes; beyond that C71_long_data."
 },
 "C72": {
  "status": "partial",
  "note": "False of the code if the writer and the configuration adapter have different settings of \"mandatory members only\" (C72_eth_false, C72_eth_size: the record size is then wrong for every message). Proved in full for equal settings."
 },
 "C73": {
  "status": "partial",
  "note": "False of the code (C73_flexray_false). Proved for all members except the FlexRay channel and the channel mask, which always read 0 (C73_lost). The position of the data bytes is right for the full PDU only; in all other groups the channel holds it shifted by two bytes, so that only position 0 is found (C73_first_only)."
 },
 "C74": {
  "status": "proved",
  "note": "All nine kinds, all messages. The position of variable length data is that given by the sample queue (C18)."
 },
 "C75": {
  "status": "proved",
  "note": "All histories (Session3), all trees and values: what is read of each value is given exactly (Val3.seen), and it is the value itself if texts fit (C75_mdf3_kept, C75_text_kept_iff). The parameters of conversions are garbled (C77). Samples saved for a group must follow its earlier ones (C76). Blocks of older versions, for every size: C75_header_size, C75_header_old, C75_channel_size, C75_group_size, C75_conversion_size."
 },
 "C76": {
  "status": "partial",
  "note": "False of the code (C76_statement_false): samples saved for a group after something else was appended to the file are not found. Proved for all histories in which samples saved for a data group follow those already in the file."
 },
 "C77": {
  "status": "partial",
  "note": "False of the code (C77_statement_false, C77_factor_lost): each parameter is written with 16 bytes but read with 8, so that every second parameter read is memory next to the parameters. C77_params_read gives what is read. Proved for conversions without numeric parameters (formula, text table, date, time, unit only)."
 },
 "C78": {
  "status": "partial",
  "note": "False of the code for names of more than 65530 bytes (C78_statement_false, C78_long_name_lost). Proved for all shorter names."
 },
 "C79": {
  "status": "partial",
  "note": "False of the code for channels of variable length not set before the first sample (C79_false) or set as not valid (C79_not_valid_shown_valid), and for texts on UTF-16 channels or beyond ASCII on ASCII channels (C79_text_not_encoded). Proved from the calls of the application to the observers for all other channels of numbers, texts and bytes; the master time is C23. C79_unreadable_not_valid, C79_no_bytes_not_valid, C79_short_record_not_valid: what cannot be read is shown as not valid."
 },
 "C80": {
  "status": "partial",
  "note": "False of the code (C80_false, C80_source_deleted, C80_destination_deleted, C80_success_without_file): the temporary file has the name of the destination (or source) in the directory for temporary files, and whatever is there is removed first. Proved for all files other than that one, with every failure and point of interruption. When a task refuses, and what it reports: C80_sorting_refused, C80_sorting_accepted (exactly), C80_sorting_unread, C80_validating_refused, C80_validating_reports."
 },
 "C81": {
  "status": "proved",
  "note": "zlib's inflate and deflate calls are objects of which only what zlib.h promises is assumed (Spec/ZStream.lean); storedZ is an instance, so the assumptions can be met. C81_error_reported: an error of deflate is reported."
 },
 "C82": {
  "status": "partial",
  "note": "False of the code (C82_false, C82_cut_block, C82_stored_limit): there is room for 100 bytes more than the data only, and nobody looks at the failure. Proved when the compressed data fit (C82_complete_block_partial), which is so for all data of a size whose compressed form is never 100 bytes longer (C82_small_block_partial)."
 },
 "C83": {
  "status": "partial",
  "note": "False of the code: a bus name may hold the name of another kind (C83_bus_name), FlexRay frames are stored in groups for frame headers (C83_frame_header, C83_false), and the channel number is a character (C83_channel_false). Proved for bus names without underscore, all filters and kinds; different names without restriction (C83_names_differ)."
 },
 "C84": {
  "status": "partial",
  "note": "Proved for all groups and lists of messages: one call for each message, in order, with sample number and time (C84_calls_partial). False of the code: the kind of the message is never set for a callback (C84_kind_lost, C84_kind_false); a second reading with the same observer reports the last sample number for all calls and calls twice with a VLSD group (C84_again_sample, C84_again_false). Members that are not read back: C52."
 },
 "C85": {
  "status": "partial",
  "note": "Proved for all calls: C85_values_partial (values that have the size of the channel), C85_after_reset_partial, C85_layouts, C85_any_layout, C85_raw, C85_added. False of the code: a value of another size is silently ignored (C85_other_size_lost, C85_false), the bits of a number of another kind are stored (C85_other_kind), a channel marked as not valid stays so (C85_stays_not_valid), a writer made before InitMeasurement gives empty records, and adding one writes outside of it (C85_made_early, C85_early_undefined)."
 },
 "C86": {
  "status": "partial",
  "note": "Proved: C86_integer_partial (64 bits), C86_integer32_partial, C86_double_partial (nearest number with six decimals), C86_double_kept, C86_double_exact, C86_read_partial, C86_read_integer, C86_limits_kept (limits of six significant digits). False of the code: a double keeps six digits after the point only (C86_small_lost), limits six significant digits (C86_limit_lost), the type is not stored (C86_parts_lost), a hexadecimal number read as 32 bits is 0 (C86_full_statement_fails, C86_parts_fail). C86_too_large: numbers above 32 bits read as 32 bits."
 },
 "C87": {
  "status": "partial",
  "note": "Proved: C87_channel and C87_unit (everything), C87_address, C87_event_partial (all but alternative names), C87_history_partial (all but alternative names and formula), C87_source_partial (all but the formula). False of the code: C87_event_names_lost, C87_history_lost, C87_formula_lost, C87_full_statement_fails."
 },
 "C88": {
  "status": "partial",
  "note": "Proved: C88_convert_partial (mdf2csv, texts without double quotes), C88_no_file, C88_calls_partial and C88_plot_partial (viewer, texts without double quotes or with a comma, space or control sign too), C88_rectangular (texts only). False of the code: C88_quote_breaks, C88_full_statement_fails, C88_calls_statement_fails, C88_integers_widen."
 },
 "C89": {
  "status": "partial",
  "note": "Proved: C89_decimals_partial and C89_fixed_decimals (-9999 to 99999), C89_no_decimals_partial, C89_six_digits (all of 64 bits: so many decimals, or six significant digits), C89_unit, C89_unsigned_text, C89_signed_text, C89_no_number. False of the code: C89_digits_lost, C89_half_up, C89_large_undefined, C89_full_statement_fails, C89_bytes_not_text."
 },
 "C90": {
  "status": "proved",
  "note": "C90_data_behind_link, C90_links_invisible, C90_records_found (records, with C11). Limits: C90_cycle_never_ends (cyclic chains), C90_cut_off_filled (a file that ends in the data is filled with zeros). Buffers that are too small: C90_copy_fits; what follows a block: C90_block_in_file."
 },
 "C91": {
  "status": "partial",
  "note": "Proved: C91_columns_partial (records without invalidation bytes). False of the code: C91_values_taken_for_invalidation, C91_full_statement_fails."
 },
 "C92": {
  "status": "partial",
  "note": "Proved: C92_rows_partial (RD blocks, up to 2 GiB), C92_columns_partial (RV blocks without invalidation bytes, up to 2 GiB), both for the intervals stored. False of the code: C92_invalidation_lost with C92_always_valid, C92_beyond_end, C92_beyond_2GiB, C92_reads_before_buffer, C92_full_statement_fails."
 },
 "C93": {
  "status": "partial",
  "note": "Proved: C93_read_partial (everything but the names, the validity of a computation, limits without a number and a category alone; numbers with six digits), C93_words. False of the code: C93_names_lost, C93_category_lost, C93_validity_lost, C93_infinite_lost, C93_full_statement_fails."
 },
 "C94": {
  "status": "partial",
  "note": "Proved: C94_read_partial and C94_added_partial (everything but the names of units and dimensions and two exponents; numbers with six digits). False of the code: C94_unit_names_lost, C94_exponents_lost, C94_full_statement_fails."
 },
 "C95": {
  "status": "partial",
  "note": "Proved: C95_integer_partial, C95_reading (integers, from the events and from the file), C95_double_text, C95_lists, C95_float, C95_virtual_partial (unsigned virtual channels that are wide enough or have no width). False of the code: C95_virtual_signed_false with C95_virtual_signed_value, C95_virtual_float_false, C95_virtual_width_false. C95_float_formats: the value of every bit pattern of 16, 32 and 64 bits."
 },
 "C96": {
  "status": "partial",
  "note": "Proved: C96_one_file_partial (one measurement file, plain group names that differ in a data group), C96_existing_kept (full). False of the code: C96_same_names_false and C96_same_names_forced (two groups with the same name), C96_second_directory_false (the directory of the first measurement file is kept for all), C96_not_ascii_ub (characters outside ASCII). Which characters of names are kept: C96_names_kept."
 },
 "C97": {
  "status": "partial",
  "note": "Proved: C97_opening_ends_partial and C97_block_ends_partial (files where following the links never comes back to a position: the depth and the length of lists are at most the length of the file), C97_composition_channels. False of the code: C97_loop_false (a block that is its own successor), C97_composition_false (a composition that is neither an array nor a list of channels, as in MDF 4.2 and 4.3)."
 },
 "C98": {
  "status": "partial",
  "note": "Proved: C98_staged_partial (if all calls returned true, the state is exactly that of the one call that reads most, and it is whole), C98_no_call_fails, C98_nothing_foreign (after any calls, failed ones included, all lists are beginnings of those of the file), C98_mdf3_partial (MDF 3: the last call alone decides, if the header can be read). False of the code: C98_false, C98_failure_reported_once (a broken list of data groups is reported by the first call; the same call again returns true with the groups in front of the break), C98_mdf3_header_false. Missing links: C98_list_ends, C98_missing_link."
 },
 "C99": {
  "status": "partial",
  "note": "Proved: C99_mdf4_partial (MDF 4: every object stays in every state). False of MDF 3: C99_false, C99_mdf3_destroyed (each ReadMeasurementInfo and ReadEverythingButData destroys all objects handed out before)."
 },
 "C100": {
  "status": "partial",
  "note": "Proved: C100_other_calls_partial (all functions but one). False of ReadInDataBuffer: C100_false, C100_in_buffer (the test of was_open is the wrong way round: the file stays open, and one that was open is opened again)."
 },
 "C101": {
  "status": "partial",
  "note": "Proved: C101_blocks_partial (all runs in which no sample alone needs 4,000,000 bytes), C101_large_samples (any samples: a larger block holds one sample alone). False of the code: C101_false (an empty block is written in front of a sample of 4,000,000 bytes)."
 },
 "C102": {
  "status": "partial",
  "note": "Proved: C102_own_queue_partial (the data group is being recorded, or several are), C102_with_data_group (the call with the data group given is always right), C102_not_dropped. False of the code: C102_false (exactly one data group is recorded: samples of all others go into its queue); C102_foreign_sample_read shows what is then read."
 },
 "C103": {
  "status": "partial",
  "note": "Proved: C103_one_session_partial (MDF 4, samples of one session), C103_counter (MDF 4, exactly which samples are counted, all histories), C103_reopened_fixed, C103_not_delivered (what the counter 0 hides), C103_mdf3_partial (MDF 3, all samples in one session, also a later one). False of the code: C103_false, C103_mdf3_false."
 },
 "C104": {
  "status": "partial",
  "note": "Proved: C104_first_start_partial (no sample is stored inside StartMeasurement), C104_kept, C104_not_in_file_before (the time reaches the file only with finalization). False of the code: C104_false (samples held back are stored between the change of the state and the setting of the time)."
 },
 "C105": {
  "status": "partial",
  "note": "Proved: C105_group_exact, C105_group_part, C105_by_record_id, C105_master, C105_channel_partial (no name in front contains the one asked for), C105_channel_contains (what is found in all files). False of the code: C105_channel_false (the first channel whose name contains the text is returned)."
 },
 "C106": {
  "status": "partial",
  "note": "Proved: C106_group_partial, C106_channel_partial (whole texts), C106_channels_distinct (all sequences of calls). False of the code: C106_false, C106_group_twice (views that end before their text)."
 },
 "C107": {
  "status": "partial",
  "note": "Proved: C107_observed (which channel is taken, for all data groups), C107_exact_partial (names that do not differ by case alone), C107_all. False of the code: C107_case_false. C107_same_letter: which letters count as the same."
 },
 "C108": {
  "status": "partial",
  "note": "Proved: C108_east_partial (whole zones from Greenwich east), C108_zoned (zones given by the user), C108_texts, C108_texts_given, C108_local, C108_getter. False of the code: C108_false; C108_west gives the wrong offset that is stored west of Greenwich, C108_half_hour the error in zones with half an hour."
 },
 "C109": {
  "status": "partial",
  "note": "Proved: C109_read_back, C109_kind, C109_offset_partial, C109_sort_partial (not local), C109_sort_mdf3. False of the code: C109_false (negative offsets are returned as uint16_t), C109_sort_false (a local start time counts as UTC in the sorted file). C109_no_offsets."
 },
 "C110": {
  "status": "partial",
  "note": "Proved: C110_groups, C110_kept, C110_comments (which data groups are made), C110_channels_partial and C110_values_partial (MDF 4, no arrays that refer to other blocks), C110_channels_all, C110_conversion, C110_x_partial. False of the code: C110_false (MDF 3: C110_mdf3), C110_false_mdf4 (C110_axis_refs and C110_array_lost: every array with an axis is dropped), C110_x_lost. C110_refs, C110_array_kept, C110_arrays_kept, C110_place, C110_x_source, C110_counters: what the parts of the description are."
 },
 "C111": {
  "status": "partial",
  "note": "Proved over the real numbers: both kinds of both conversions (C111_log_first, C111_log_second, C111_exp_first, C111_exp_second), exactly when they report failure (C111_invalid), their inverses (C111_log_inverse, C111_exp_inverse, C111_log_inverse_second), and that the exponential one is always a number (C111_exponential_partial). False of the code: C111_false (the logarithm of a negative number or zero is returned as a valid value). Missing: rounding of double."
 },
 "C112": {
  "status": "partial",
  "note": "Proved: C112_clean_partial, C112_save_partial (with exactly when the size is read without the lock), C112_turn_partial, C112_turn_uncompressed_partial, C112_end_partial, if the data block is there. False of the code: C112_false (QueueSize without the lock), C112_false_uncompressed and C112_lock_lost (early returns), with C112_terminates, C112_turn_skips and C112_exception as consequences. Which samples are taken and what exceptions leave: C112_loop_writes, C112_loop_compressed, C112_loop_mdf3, C112_init, C112_save_writes, C112_exception_lock, C112_exception_next."
 },
 "C113": {
  "status": "partial",
  "note": "Proved: C113_text, C113_text_any, C113_text_set_get, C113_md5, C113_value_text, C113_value_text_safe, C113_message_bytes, C113_list, C113_list_set_get and exactly when lists and texts overrun (C113_list_overflow, C113_text_any). False of the code: C113_false, by C113_value_bytes_false (GetChannelValueAsArray reads behind the value when there is more room than needed: C113_value_bytes_iff, C113_value_bytes_partial) and C113_reference_false (GetReference hands over the formula: C113_reference_overflow, C113_reference_partial)."
 },
 "C114": {
  "status": "partial",
  "note": "Proved: C114_configured_partial (all buses but FlexRay), C114_adapters (any adapters, also FlexRay, on any data group: references of the data channels right and different), C114_groups (these groups and no others), C114_found, C114_earlier, C114_filters, C114_all_kinds. False of the code: C114_false (nothing is made for FlexRay although success is reported) and C114_again_false (a second call adds VLSD groups: C114_again, C114_again_unused, C114_again_partial)."
 },
 "C115": {
  "status": "partial",
  "note": "full for the names and the bus; the settings are read back if one of channel, id, name or protocol is set; a message length set alone is lost, and the constant bus channel is never made"
 },
 "C116": {
  "status": "proved",
  "note": ""
 },
 "C117": {
  "status": "partial",
  "note": "full for which files are changed; files are kept as long as every Init opens the file there is, a writer with a name is not given a stream and nobody else makes the file; otherwise the file is emptied"
 },
"C118": {
"status": "partial",
"note": "false of the code; exact instead: channels of groups keep the parts of the reference that lie in their own data group or in one before it, channels of compositions those written before themselves; nothing is completed later, and GetXChannel then returns the master of the group"
},
"C119": {
"status": "partial",
"note": "false of the code; proved for members whose byte offset is set into their structure, on whole bytes, without validity bit; exact for the others: without byte offset they are the first channel, with validity bit they share the first validity bit or have none, on bits they replace the whole byte and are not moved to their bit offset"
},
"C120": {
"status": "partial",
"note": "false of the code; proved: no reduction is listed for channel group blocks of the size of the format, those of larger blocks are listed in order with their values, none ever gives a value; the values of data in memory are the stored ones below 2 GiB, and the dispatch by data type and conversion is exact"
},
"C121": {
"status": "partial",
"note": "false of the code; proved: header comment and texts of MDF 4 sources are kept if the library wrote them without surrounding spaces, start time, angle and distance are kept; attachments are kept if their size is not zero; histories are kept; findings: all texts of MDF 3 headers, events and hierarchies are lost, attachments of size zero are looked up again when sorting"
},
"C122": {
"status": "partial",
"note": "false of the code; proved: the last description is kept without surrounding blanks, the last intervals are kept rounded to six significant digits, in any order of calls and reopenings; comments replace them; all texts of enumerations; findings: digits beyond six are lost, a plain text is not returned as description until a setter is called"
},
"C123": {
"status": "partial",
"note": "false of the code; proved: main version for all histories; minor version 0 and 10..99 are kept, 1..9 are found as tens, for larger numbers the last two digits; names and stems; bus texts"
},
"C124": {
"status": "proved",
"note": "induction over the calls from their end"
},
"C125": {
"status": "partial",
"note": "false of the code; proved: integers and truth values are kept, doubles are rounded to six significant digits, bytes are kept unless they are blanks; data types are kept"
},
"C126": {
"status": "proved",
"note": ""
},
"C127": {
"status": "partial",
"note": "false of the code for channels that are not saved: no data group and the first channel group with an unsaved block is found; proved for saved channels"
},
"C128": {
"status": "proved",
"note": ""
},
"C129": {
"status": "partial",
"note": "False as stated: 15 ns are returned as 14 ns (C129_false). Proved: up to 52 days it is right to two nanoseconds and the window is less than 3/2 ns too small and at most 1/2 ns too large; exact for doubles that are a whole number of nanoseconds below 2^53, so for whole seconds; setting the returned time again loses at most 1 ns; negative times and 2^64 ns and more are undefined behaviour. Missing: the exact time of other doubles, which the code does not keep; a bound between 2^52 and 2^64 ns."
},
"C130": {
"status": "partial",
"note": "False as stated (C130_false, C130_negative_false): the first child and the name of a CH block are shown with the link of the next block (C130_ch_wrong), and negative links are returned as 2^63 - 1 (C130_negative). Proved: all links of at least 0 are returned, different links are shown differently, the other links of a CH block are shown as stored for up to 2^32 / 3 elements, all labels are shown in order, other properties have no link."
}
}
