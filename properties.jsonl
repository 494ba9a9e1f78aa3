{"id": "C01", "title": "Little-endian bit fields read back what was written", "statement": "Writing an unsigned value into a little-endian bit field of a record and reading the same field back returns the value modulo 2^length.", "quantifier": "every start bit, every length 1..64, every 64-bit value, every previous content and size of the buffer that covers the field", "why_tests_cant": "2^64 values times unbounded positions and prior buffer contents", "anchors": ["mdflib/src/dbchelper.cpp:UnsignedToRaw", "mdflib/src/dbchelper.cpp:RawToUnsigned", "mdflib/src/mdfhelper.cpp:UnsignedToRaw"]}
{"id": "C02", "title": "A bit field write touches only its own bits", "statement": "Writing a little-endian bit field leaves every bit of the buffer outside [start, start+length) unchanged and never accesses a byte outside the bytes covered by the field, so neighbouring signals packed in the same bytes keep their values.", "quantifier": "every start bit, length, value and buffer content, and every other field disjoint from the written one", "why_tests_cant": "neighbour interference depends on arbitrary pairs of fields and contents", "anchors": ["mdflib/src/dbchelper.cpp:UnsignedToRaw", "mdflib/src/mdfhelper.cpp:UnsignedToRaw"]}
{"id": "C03", "title": "Big-endian bit fields read back what was written", "statement": "Writing an unsigned value into a big-endian (Motorola) bit field and reading it with the same start and length returns the value modulo 2^length. (False of the code for unaligned starts; the negation is proved and the aligned relation between the two start conventions is kept.)", "quantifier": "every start bit, length, value and buffer", "why_tests_cant": "the write and read loops use different start conventions; only some alignments agree", "anchors": ["mdflib/src/dbchelper.cpp:UnsignedToRaw", "mdflib/src/dbchelper.cpp:RawToUnsigned"]}
{"id": "C04", "title": "Signed bit fields are sign-extended", "statement": "Writing a signed value that fits in `length` bits into a little-endian field and reading it back as signed returns the same value; reading never yields a value outside the two's complement range of the field.", "quantifier": "every length 1..64, start bit, representable value and buffer", "why_tests_cant": "sign extension per width over the whole 64-bit range", "anchors": ["mdflib/src/dbchelper.cpp:SignedToRaw", "mdflib/src/dbchelper.cpp:RawToSigned"]}
{"id": "C05", "title": "Reading a channel value never reads outside the record", "statement": "IChannel value readers return false (no value) instead of accessing bytes outside the record buffer, whatever the channel's byte offset, bit offset, bit count and array index are.", "quantifier": "every channel position, bit length, array index and record length", "why_tests_cant": "out-of-range accesses depend on file-controlled offsets of any size", "anchors": ["mdflib/src/ichannel.cpp:GetUnsignedValue", "mdflib/src/ichannel.cpp:GetSignedValue", "mdflib/src/ichannel.cpp:GetFloatValue"]}
{"id": "C06", "title": "Setting a channel value never writes outside the sample buffer", "statement": "SetChannelValue on an unsigned channel either marks the sample invalid or writes only the bytes of the channel's own value, inside the sample buffer. (Holds for little-endian; false for big-endian, where the bound check is one element short.)", "quantifier": "every byte offset, value size, array index, value and buffer size", "why_tests_cant": "needs all offset/array combinations; the failing case writes past the end", "anchors": ["mdflib/src/ichannel.cpp:SetUnsignedValueLe", "mdflib/src/ichannel.cpp:SetUnsignedValueBe"]}
{"id": "C07", "title": "A channel value set in a sample reads back", "statement": "After SetChannelValue(v, valid) on an integer channel (1, 2, 4 or 8 bytes, either byte order), GetChannelValue on the resulting record returns v truncated to the channel size, and other channels of the record read the same as before.", "quantifier": "every byte offset, array index, value, byte order and buffer content", "why_tests_cant": "state space of values and layouts is unbounded", "anchors": ["mdflib/src/ichannel.cpp:SetUnsignedValueLe", "mdflib/src/ichannel.cpp:SetUnsignedValueBe", "mdflib/src/ichannel.cpp:GetUnsignedValue"]}
{"id": "C08", "title": "Invalidation bits are independent per channel", "statement": "Setting a channel valid/invalid is read back by GetValid for that channel, leaves the validity of every other channel with another invalidation bit unchanged and changes no data byte.", "quantifier": "every record size, number of invalidation bytes, bit positions and sequence of SetValid calls", "why_tests_cant": "all pairs of channels and all call sequences", "anchors": ["mdflib/src/cn4block.cpp:SetValid", "mdflib/src/cn4block.cpp:GetValid"]}
{"id": "C09", "title": "Channel layout is disjoint and covers the record", "statement": "After preparing a channel group for writing, the byte ranges of the channels that occupy record bytes are pairwise disjoint, ordered, contiguous and exactly fill the data bytes of the record, and every invalidation bit lies inside the invalidation bytes and is used by one channel only.", "quantifier": "every list of channels, of any length, types, sizes and array sizes", "why_tests_cant": "unbounded number and size of channels", "anchors": ["mdflib/src/cg4block.cpp:PrepareForWriting", "mdflib/src/cn4block.cpp:PrepareForWriting"]}
{"id": "C10", "title": "Record ids are unique and fit the record id size", "statement": "After any sequence of channel group additions to a data group, all record ids are distinct and each fits in the record id field size of the data group; with one group the id size is 0.", "quantifier": "every number of channel groups", "why_tests_cant": "thresholds at 256, 65536 and 2^32 groups cannot be reached by tests", "anchors": ["mdflib/src/dg4block.cpp:AddCg4"]}
{"id": "C11", "title": "Samples written are the samples read", "statement": "Any interleaving of samples of any channel groups that is written to a data group is delivered to observers with the same bytes, in the same order, with the right record id and with a sample index counting up from 0 per group.", "quantifier": "every list of groups, every interleaving and number of samples, every record content", "why_tests_cant": "unbounded histories", "anchors": ["mdflib/src/cg4block.cpp:WriteSample", "mdflib/src/readcache.cpp:ParseRecord", "mdflib/src/dg4block.cpp:ReadData"]}
{"id": "C12", "title": "The split into data blocks is invisible to the reader", "statement": "Reading the records of a data group gives the same result for every way of splitting the data bytes over non-empty data blocks (DT, DZ or DL lists), also when a record, a record id or a length field straddles block boundaries.", "quantifier": "every sequence of complete records with every subscription, every byte string when all groups are subscribed, and every partition into non-empty blocks", "why_tests_cant": "exponentially many partitions of arbitrary streams", "anchors": ["mdflib/src/readcache.cpp:GetNextByte", "mdflib/src/readcache.cpp:GetArray", "mdflib/src/readcache.cpp:SkipBytes", "mdflib/src/readcache.cpp:ParseRecord"]}
{"id": "C13", "title": "Empty data blocks do not hide later data", "statement": "A data block without data bytes in a data list has no influence on the records read. (False of the code: an empty block ends the reading; negation proved.)", "quantifier": "every block list", "why_tests_cant": "needs specific file layouts", "anchors": ["mdflib/src/readcache.cpp:GetNextByte"]}
{"id": "C14", "title": "Groups nobody subscribes on are skipped without disturbing others", "statement": "Samples of channel groups without observers are skipped and the samples of the subscribed groups are still delivered exactly as if every group had been subscribed.", "quantifier": "every subscription set, interleaving, and block split", "why_tests_cant": "all subsets of groups times all interleavings", "anchors": ["mdflib/src/readcache.cpp:SkipBytes", "mdflib/src/readcache.cpp:ParseRecord", "mdflib/src/idatagroup.cpp:IsSubscribingOnRecord"]}
{"id": "C15", "title": "Partial read delivers exactly the requested samples", "statement": "ReadPartialData(min,max) delivers for each subscribed fixed-length group exactly the samples with index in [min,max], with the same index and bytes as a full read.", "quantifier": "every stream, groups, min and max", "why_tests_cant": "all ranges over all interleavings", "anchors": ["mdflib/src/readcache.cpp:ParseRangeRecord", "mdflib/src/dgrange.cpp:DgRange", "mdflib/src/mdfreader.cpp:ReadPartialData"]}
{"id": "C16", "title": "Variable length values read back through their offset", "statement": "Every value appended to signal data (VLSD) can be fetched with the offset returned at the time of writing, also after any number of later appends, and sequential parsing of the signal data returns all values in order with those offsets.", "quantifier": "every list of byte arrays of any lengths below 2^32 and every position in it", "why_tests_cant": "unbounded histories of appends", "anchors": ["mdflib/src/cn4block.cpp:WriteSdSample", "mdflib/src/cn4block.cpp:GetByteArrayValue", "mdflib/src/readcache.cpp:ParseSignalData"]}
{"id": "C17", "title": "A corrupt VLSD offset is rejected", "statement": "Reading a variable length value with an arbitrary (corrupt) offset never accesses memory outside the signal data buffer. (False of the code: the 64-bit bound check wraps around for offsets close to 2^64; negation proved, and the property is proved for offsets below that.)", "quantifier": "every 64-bit offset and signal data buffer", "why_tests_cant": "the failing offsets are astronomically rare", "anchors": ["mdflib/src/cn4block.cpp:GetTextValue", "mdflib/src/cn4block.cpp:GetByteArrayValue"]}
{"id": "C18", "title": "VLSD group offsets match the stored data", "statement": "The offset stored in the record of a sample with variable length data is the position of its data in the VLSD group's stream and offsets are strictly increasing.", "quantifier": "every sequence of samples with any data lengths", "why_tests_cant": "unbounded histories", "anchors": ["mdflib/src/cg4block.cpp:WriteVlsdSample", "mdflib/src/writer4samplequeue.cpp:SaveQueue", "mdflib/src/readcache.cpp:ParseVlsdCgData"]}
{"id": "C19", "title": "No sample is lost, duplicated or reordered by the writer thread", "statement": "For every interleaving of SaveSample calls from the application with worker thread activations between start and stop, the samples written to the file are exactly the samples saved, once each and in the order saved.", "quantifier": "every schedule of the application and the worker thread", "why_tests_cant": "schedules are unbounded and not controllable by tests", "anchors": ["mdflib/src/samplequeue.cpp:AddSample", "mdflib/src/writer4samplequeue.cpp:SaveQueue", "mdflib/src/writer4samplequeue.cpp:CleanQueue", "mdflib/src/writecache.cpp:WorkThread"]}
{"id": "C20", "title": "The pre-trig buffer keeps every sample inside the window", "statement": "Trimming the sample queue before start never removes a sample whose age relative to the newest sample is within the pre-trig time, never empties a non-empty queue, keeps the order and keeps the queue size bookkeeping exact.", "quantifier": "every queue with non-decreasing timestamps, every pre-trig time and every sequence of additions and trims", "why_tests_cant": "needs all timestamp patterns and schedules", "anchors": ["mdflib/src/samplequeue.cpp:TrimQueue"]}
{"id": "C21", "title": "A pre-trig time longer than the elapsed time keeps all samples", "statement": "When the pre-trig time is larger than the start time, trimming after start keeps all samples. (False of the code: the unsigned subtraction start - pre_trig wraps; negation proved.)", "quantifier": "every start time, pre-trig time and queue", "why_tests_cant": "depends on 64-bit wrap-around", "anchors": ["mdflib/src/samplequeue.cpp:TrimQueue"]}
{"id": "C22", "title": "Compressed chunks concatenate to the uncompressed stream", "statement": "The concatenation of the (inflated) chunks produced when a compressed measurement is saved is exactly the stream an uncompressed measurement would produce, and the list offsets equal the number of bytes in the preceding chunks.", "quantifier": "every queue content, record sizes, VLSD data and number of flushes", "why_tests_cant": "4 MB limits times any content", "anchors": ["mdflib/src/writer4samplequeue.cpp:CleanQueueCompressed", "mdflib/src/dl4block.cpp:Offset"]}
{"id": "C23", "title": "The sample counters equal the number of records in the file", "statement": "After any sequence of sample writes the stored cycle counter of each channel group equals the number of its records in the stream.", "quantifier": "every sequence of writes over every list of groups", "why_tests_cant": "unbounded histories", "anchors": ["mdflib/src/cg4block.cpp:WriteSample", "mdflib/src/cg4block.cpp:UpdateCycleCounter"]}
{"id": "C24", "title": "Finalizing restores the counters", "statement": "Finalizing an unfinalized file sets the cycle counter of each fixed-length group to the number of its records found in the data section, whatever the stored counter was. (False of the code when the stored counter is not zero, since the count is added; proved for zero counters.)", "quantifier": "every record stream, list of groups and stale counter", "why_tests_cant": "crash points are arbitrary", "anchors": ["mdflib/src/dg4block.cpp:FinalizeCgAndVlsdBlocks", "mdflib/src/cg4block.cpp:UpdateCycleCounter"]}
{"id": "C25", "title": "Finalizing agrees with the writer on VLSD sizes", "statement": "The VLSD byte counter computed when finalizing equals the counter the writer would have stored. (False of the code: the finalizer counts the 4-byte lengths too; negation proved with the exact difference.)", "quantifier": "every VLSD stream", "why_tests_cant": "crash points and streams are arbitrary", "anchors": ["mdflib/src/dg4block.cpp:FinalizeCgAndVlsdBlocks", "mdflib/src/cg4block.cpp:WriteVlsdSample"]}
{"id": "C26", "title": "Blocks are 8-byte aligned and never overlap", "statement": "Any sequence of MDF4 block writes puts every block at an 8-byte aligned position after everything written before, so blocks never overlap and earlier bytes are unchanged.", "quantifier": "every sequence of block writes, any sizes, any initial file", "why_tests_cant": "unbounded histories", "anchors": ["mdflib/src/mdfblock.cpp:Write", "mdflib/src/mdfblock.cpp:SetLastFilePosition"]}
{"id": "C27", "title": "Block headers read back", "statement": "The type, length and links of an MDF4 block read from its file position equal those written, whatever is written elsewhere in the file afterwards, and updating one link changes only that link.", "quantifier": "every block type, length, link list and file content; every sequence of link updates", "why_tests_cant": "unbounded link lists and update histories", "anchors": ["mdflib/src/mdfblock.cpp:Write", "mdflib/src/mdfblock.cpp:ReadHeader4", "mdflib/src/mdfblock.cpp:UpdateLink"]}
{"id": "C28", "title": "A block list is read back in order", "statement": "Writing a list of blocks as a linked chain and reading the chain gives the same blocks in the same order, also when blocks were appended after an earlier write; on a cyclic chain reading does not terminate (negation).", "quantifier": "every list of blocks, every number of append-and-write rounds", "why_tests_cant": "unbounded lists and histories", "anchors": ["mdflib/src/mdfblock.h:WriteLink4List", "mdflib/src/mdfblock.h:ReadLink4List"]}
{"id": "C29", "title": "Transposition of compressed data is lossless", "statement": "Inverse transposition after transposition with the same record size returns the original bytes, for every record size including 0 and sizes that do not divide the data length.", "quantifier": "every byte array and record size", "why_tests_cant": "unbounded sizes", "anchors": ["mdflib/src/zlibutil.cpp:Transpose", "mdflib/src/zlibutil.cpp:InvTranspose"]}
{"id": "C30", "title": "Observers get exactly the records they subscribe on", "statement": "A sample notification reaches each observer whose record id set contains the record id, in attach order, until one asks to stop, and no other observer. (False of the code when only one record id is observed: then all observers get every record id; negation proved.)", "quantifier": "every set of observers, attach/detach history and record id", "why_tests_cant": "all subscription combinations and histories", "anchors": ["mdflib/src/idatagroup.cpp:NotifySampleObservers", "mdflib/src/idatagroup.cpp:InitFastObserverList"]}
{"id": "C31", "title": "Linear and table conversions follow the MDF rules", "statement": "Linear, rational, value-to-value (with and without interpolation), value-range-to-value, value-to-text, value-range-to-text, text-to-value and text-to-text conversions return the value prescribed by the MDF standard for every raw value, including values below the first key, above the last key and between keys. (False of the code for conversions not yet written, MDF 3 range tables of float channels, and engineering texts with blanks; negations proved.)", "quantifier": "every raw value and every conversion table of any length", "why_tests_cant": "unbounded tables and continuous inputs", "anchors": ["mdflib/src/ichannelconversion.cpp:ConvertLinear", "mdflib/src/ichannelconversion.cpp:ConvertRational", "mdflib/src/ichannelconversion.cpp:ConvertValueToValueInterpolate", "mdflib/src/ichannelconversion.cpp:ConvertValueToValue", "mdflib/src/ichannelconversion.cpp:ConvertValueRangeToValue", "mdflib/src/cc4block.cpp:ConvertValueToText"]}
{"id": "C32", "title": "Copying a conversion keeps its behaviour", "statement": "A copied channel conversion converts every value as the original does. (False of the code for text conversions: the references are dropped; negation proved, numeric conversions proved.)", "quantifier": "every conversion and raw value", "why_tests_cant": "unbounded tables", "anchors": ["mdflib/src/cc4block.cpp:CopyFrom"]}
{"id": "C33", "title": "CAN data length code covers the data", "statement": "After setting the data bytes (up to 64) of a CAN message, the DLC is the smallest code whose length is at least the number of bytes, decoding the DLC gives a length that covers the bytes, and exact CAN lengths round-trip.", "quantifier": "every data length 0..64 and every byte content", "why_tests_cant": "settled by exhaustive proof rather than samples; content is unbounded", "anchors": ["mdflib/src/canmessage.cpp:DataLength", "mdflib/src/canmessage.cpp:DlcToLength"]}
{"id": "C34", "title": "CAN frames survive the raw record", "statement": "The bus channel, message id, flags, DLC, data length, frame duration, CRC and data bytes decoded from a raw CAN data frame record at the documented bit positions equal those of the message.", "quantifier": "every CAN message with up to max-length data bytes, both storage types and both member sets", "why_tests_cant": "2^32 ids times flags times contents", "anchors": ["mdflib/src/canmessage.cpp:ToRaw", "mdflib/src/canmessage.cpp:MessageId"]}
{"id": "C35", "title": "Text survives the conversions between UTF-8 and UTF-16", "statement": "Converting a sequence of valid code points from UTF-16 to UTF-8 and back returns the same sequence, the produced UTF-8 is accepted as valid (and nothing but UTF-8 is), and the value of a text channel in Latin-1, UTF-8 or UTF-16 of either byte order is read as the UTF-8 of its text.", "quantifier": "every text without zero characters, every channel value holding it, both sizes of wchar_t", "why_tests_cant": "1.1 million code points and unbounded strings", "anchors": ["mdflib/src/cutf.cpp:cutf_append", "mdflib/src/cutf.cpp:cutf_next", "mdflib/src/cutf.cpp:cutf_is_valid", "mdflib/src/cutf.cpp:cutf_16to8", "mdflib/src/cutf.cpp:utf8towide", "mdflib/src/mdfhelper.cpp:Latin1ToUtf8", "mdflib/src/cn4block.cpp:GetTextValue"]}
{"id": "C36", "title": "Fixed-size text fields are padded, truncated and read back", "statement": "Writing a text in a fixed-size field and reading it back returns the text (up to the trimming of blanks) if it has no embedded zero and fits, the file position always advances by the field size, and longer texts are truncated to the field size.", "quantifier": "every text and field size", "why_tests_cant": "unbounded texts", "anchors": ["mdflib/src/mdfblock.cpp:WriteStr", "mdflib/src/mdfblock.cpp:ReadStr"]}
{"id": "C37", "title": "The measurement life cycle only allows legal transitions", "statement": "In every sequence of writer calls a sample is accepted for writing only between InitMeasurement and StopMeasurement/Finalize and reaches the file only if the measurement was started; Init, Start, Stop and Finalize called out of order are rejected or harmless.", "quantifier": "every sequence of API calls and worker activations", "why_tests_cant": "unbounded call histories", "anchors": ["mdflib/src/mdfwriter.cpp:InitMeasurement", "mdflib/src/mdfwriter.cpp:StartMeasurement", "mdflib/src/mdfwriter.cpp:StopMeasurement", "mdflib/src/mdfwriter.cpp:FinalizeMeasurement"]}
{"id": "C38", "title": "Samples after the stop time are not written", "statement": "Samples with a timestamp after the stop time given to StopMeasurement do not reach the file. (False of the code: the queue is flushed before the stop time is set; negation proved.)", "quantifier": "every schedule and timestamp", "why_tests_cant": "schedule dependent", "anchors": ["mdflib/src/mdfwriter.cpp:StopMeasurement", "mdflib/src/writer4samplequeue.cpp:SaveQueue"]}
{"id": "C39", "title": "Finalized mark, version and class of a file", "statement": "Whatever is done with the identification of a file before and after it is first written (marking as finalized or unfinalized with flags, setting the version and the program, writing the rest, closing and reopening), a new reader finds the last mark and its flags, the version and program set before the first write, and opens the file with the class for its version; marking a file of another program, in any byte order, changes nothing but the mark; a file is finalized exactly when its id does not start with 'U'; a file shorter than the identification is rejected.", "quantifier": "every flag combination, version and interleaving of operations, every existing file", "why_tests_cant": "all 2^32 flag combinations and all interleavings of updates, reopening and writing", "anchors": ["mdflib/src/idblock.cpp:IsFinalized", "mdflib/src/idblock.cpp:Read", "mdflib/src/idblock.cpp:Write", "mdflib/src/idblock.cpp:MinorVersion", "mdflib/src/mdfreader.cpp:IsMdfFile"]}
{"id": "C40", "title": "Channel observers store each sample at its place", "statement": "After reading, the value returned for sample i and array index j is the value decoded from record i, samples that never arrived keep their defaults and are not valid, and index requests outside the range are rejected. (The last part is false of the code for array indexes beyond the array size and for sample numbers whose index wraps; negations proved. Also the getter for byte arrays ignores the array size.)", "quantifier": "every sequence of delivered samples, array size and index", "why_tests_cant": "unbounded histories", "anchors": ["mdflib/src/channelobserver.h:OnSample", "mdflib/src/channelobserver.h:GetSampleUnsigned"]}
{"id": "C41", "title": "CANopen date and time round-trip", "statement": "A time set on a CANopen time channel reads back rounded down to the millisecond exactly if it is in the 65536 days from 1984-01-01; a time set on a CANopen date channel reads back rounded down to the millisecond if its local year is 1970 to 2069, with or without daylight saving time; nothing else in the record changes; a time array with less than a day of milliseconds survives reading and storing it again.", "quantifier": "every nanosecond time, every time zone with whole-minute offsets, every channel position and record", "why_tests_cant": "2^64 times and every time zone", "anchors": ["mdflib/src/mdfhelper.cpp:NsToCanOpenTimeArray", "mdflib/src/mdfhelper.cpp:CanOpenTimeArrayToNs", "mdflib/src/mdfhelper.cpp:NsToCanOpenDateArray", "mdflib/src/mdfhelper.cpp:CanOpenDateArrayToNs", "include/mdf/ichannel.h:SetChannelValue", "mdflib/src/ichannel.cpp:GetCanOpenTime"]}
{"id": "C42", "title": "MDF3 channel positions round-trip", "statement": "Setting the byte offset of an MDF3 channel and reading it returns the same byte offset although it is stored as a 16-bit bit offset plus a 16-bit byte offset, for every record size MDF3 supports. Preparing a group for writing succeeds exactly if the channels fit in an MDF3 record; then the channels lie one after the other without overlap, and a value set on one channel reads back and leaves the values of the others unchanged.", "quantifier": "every byte offset below 65536 and every list of channels", "why_tests_cant": "all offsets and layouts", "anchors": ["mdflib/src/cn3block.cpp:ByteOffset", "mdflib/src/cn3block.cpp:BitOffset", "mdflib/src/cg3block.cpp:PrepareForWriting"]}
{"id": "C43", "title": "MDF3 record streams read back", "statement": "Samples written by the MDF3 writer (with one-byte record ids when there is more than one group) are delivered by the MDF3 reader in the order saved, with the same bytes and numbered per group, whatever the interleaving of saving and of queue cleaning. Bytes of an interrupted write after the counted records do not change the result, and counters that are too small only leave samples out.", "quantifier": "every history of samples and queue cleanings, any number of data groups with up to 256 groups each, records not empty, fewer than 2^32 samples per group and a file below 4 GiB", "why_tests_cant": "unbounded histories", "anchors": ["mdflib/src/dg3block.cpp:ParseDataRecords", "mdflib/src/dg3block.cpp:AddCg3", "mdflib/src/cg3block.cpp:ReadDataRecord", "mdflib/src/dt3block.cpp:DataSize", "mdflib/src/samplequeue.cpp:CleanQueue"]}
{"id": "C44", "title": "Bytes numbers round-trip in both byte orders", "statement": "Numbers of 1, 2, 4 or 8 bytes written in little or big endian order read back as the same number, and the two byte orders are mirror images.", "quantifier": "every value and width", "why_tests_cant": "2^64 values", "anchors": ["mdflib/src/littlebuffer.h:LittleBuffer", "mdflib/src/bigbuffer.h:BigBuffer", "mdflib/src/mdfblock.h:WriteNumber"]}
{"id": "C45", "title": "Truncated data give no samples that were not written", "statement": "If the data of a group end inside a record, as after a crash of the recorder, the complete records before are delivered and nothing else. (False of the code when the incomplete record belongs to a group nobody subscribes on: phantom samples or reads outside a buffer; negation proved.)", "quantifier": "every truncation point, subscription and block split", "why_tests_cant": "needs every truncation point of every file", "anchors": ["mdflib/src/readcache.cpp:SkipBytes", "mdflib/src/readcache.cpp:ParseRecord"]}
{"id": "C46", "title": "Reading a data group ends", "statement": "Reading a data group ends for every content of its data blocks, whatever the record ids and lengths in it say. (False of the code for a group of empty records without record ids; negation proved.)", "quantifier": "every block list, every byte content and every group list", "why_tests_cant": "termination for all contents of all files", "anchors": ["mdflib/src/readcache.cpp:ParseRecord", "mdflib/src/dg4block.cpp:ReadData"]}
{"id": "C47", "title": "Validity of a variable length sample is kept", "statement": "Setting a variable length channel with valid = false makes GetValid report the sample as invalid. (False of the code: storing the offset sets the sample valid again; negation proved.)", "quantifier": "every variable length channel, value, validity and record", "why_tests_cant": "the validity bit of every channel position and history", "anchors": ["mdflib/src/cn4block.cpp:SetTextValue", "mdflib/src/cn4block.cpp:SetByteArray", "mdflib/src/ichannel.cpp:SetUnsignedValueLe"]}
{"id": "C48", "title": "Written signal data are found by ReadVlsdData", "statement": "Whatever block type the writer links for the signal data of a channel, ReadVlsdData reads the values from it. (False of the code: large compressed signal data are linked through a header list block which ReadVlsdData ignores.)", "quantifier": "every size of signal data, compressed or not", "why_tests_cant": "needs more than 4,000,000 bytes of compressed signal data in one channel", "anchors": ["mdflib/src/cn4block.cpp:WriteSignalData", "mdflib/src/dg4block.cpp:ReadVlsdData"]}
{"id": "C49", "title": "The master time of every sample is relative to the start time", "statement": "In a measurement the master time stored in every sample of the file is the sample's time relative to the start time given to StartMeasurement. (False of the code: a race between StartMeasurement and the thread; negation proved.)", "quantifier": "all runs of the writer thread, all interleavings", "why_tests_cant": "The failing interleaving needs the thread to wake between two statements of StartMeasurement.", "anchors": ["mdflib/src/mdfwriter.cpp:StartMeasurement", "mdflib/src/samplequeue.cpp:RecalculateTimeMaster", "mdflib/src/writecache.cpp:WorkThread"]}
{"id": "C50", "title": "Stopping a measurement ends", "statement": "After the stop has been requested the writer thread writes what is queued and ends after a bounded number of steps, from every reachable state; StopMeasurement returns.", "quantifier": "all reachable states of queue and thread", "why_tests_cant": "The number of states and interleavings is unbounded.", "anchors": ["mdflib/src/writecache.cpp:StopWorkThread,WorkThread", "mdflib/src/writer4samplequeue.cpp:CleanQueueCompressed", "mdflib/src/samplequeue.cpp:CleanQueue"]}
{"id": "C51", "title": "Recovery after a crash", "statement": "If writing of an uncompressed file is interrupted at any byte of the data, then opening the file (which finalizes it) and reading gives exactly the records written completely. (False of the code: if the file ends inside a record id or a VLSD length the finalizer throws and the last data group keeps its zero counters; proved for all other crash points.)", "quantifier": "every record sequence, every crash byte, every id size, any mix of fixed length and VLSD groups", "why_tests_cant": "crash points are arbitrary", "anchors": ["mdflib/src/dg4block.cpp:FinalizeCgAndVlsdBlocks", "mdflib/src/mdf4file.cpp:FinalizeFile", "mdflib/src/readcache.cpp:ParseRecord"]}
{"id": "C52", "title": "CAN messages are read back as saved", "statement": "When a CAN group is read, the messages the CAN bus observer gives back hold, for every sample, the members that the group stores: bus channel, identifier, flags, data length code, frame duration, bit position, error type, CRC and the data bytes.", "quantifier": "every CAN message, kind of frame, set of members, storage type, number of samples and any records of other groups in between", "why_tests_cant": "state machine over the order of records of two groups, times all message contents and layouts", "anchors": ["mdflib/src/canbusobserver.cpp:OnSample", "mdflib/src/canbusobserver.cpp:ParseCanMessage", "mdflib/src/canmessage.cpp:ToRaw", "mdflib/src/canconfigadapter.cpp"]}
{"id": "C53", "title": "MDF3 channels can be placed at any bit", "statement": "The byte offset and the bit offset of an MDF3 channel can both be set, and both are read back. (False of the code: setting one of them changes the other one; proved exactly which positions can be set.)", "quantifier": "every byte offset below 65536 and every bit offset below 8, both orders of setting", "why_tests_cant": "all positions", "anchors": ["mdflib/src/cn3block.cpp:ByteOffset", "mdflib/src/cn3block.cpp:BitOffset"]}
{"id": "C54", "title": "MDF3 data types round-trip", "statement": "The data type set on an MDF3 channel is the one read back, in little and big endian files, whatever the channel was before and whatever sizes and positions are set afterwards. (False of the code for a channel that is changed from a date or time to a byte array; proved for all other cases. Types MDF3 does not have silently become another type.)", "quantifier": "every channel state, data type, byte order of the file and history of later settings", "why_tests_cant": "the type is encoded in 17 signal types that other setters change", "anchors": ["mdflib/src/cn3block.cpp:DataType", "mdflib/src/cn3block.cpp:DataBytes"]}
{"id": "C55", "title": "Values set on metadata objects are read back", "statement": "What a user sets last on the header (start time, angle, distance), a channel (type, decimals, range, limits), a conversion (type, parameters, range), an event, an attachment, a source, a group or a file history is what is returned for it after the file was written, finalised any number of times, and read again; what was never set is reported as not set. (False of the code in some cases, proved with the exceptions: negative time zone offsets are returned as large numbers; parameters of a bitfield conversion set as floating point numbers and conversions with 65536 parameters are not read back; the times of data list blocks are not read.)", "quantifier": "every sequence of setter calls, every values, every tree of blocks, every history of writing and changing it", "why_tests_cant": "any order of calls, any bit patterns, blocks anywhere in a file with later updates", "anchors": ["mdflib/src/cn4block.cpp:Write", "mdflib/src/cn4block.cpp:Read", "mdflib/src/cc4block.cpp:Write", "mdflib/src/cc4block.cpp:Read", "mdflib/src/hd4block.cpp:Read", "mdflib/src/ev4block.cpp:Read", "mdflib/src/at4block.cpp:Read", "mdflib/src/mdf4timestamp.cpp:SetTime", "mdflib/src/ichannelconversion.cpp:Parameter"]}
{"id": "C56", "title": "Metadata of a file that was cut off are right or an exception is thrown", "statement": "If a file is cut off anywhere, reading its metadata either gives the names, values and structure that were written or ends with an exception; it does not loop and does not return something else. Missing sample data do not disturb the metadata. (False of the code for texts: a file that ends within a name or comment is read with a text that was never written; proved for all other cuts, with the exact result for each cut.)", "quantifier": "every tree of blocks, every history of writing it, every number of bytes that are left", "why_tests_cant": "every cut of every file", "anchors": ["mdflib/src/mdfblock.cpp:ReadHeader4", "mdflib/src/mdfblock.cpp:ReadStr", "mdflib/src/tx4block.cpp:Read", "mdflib/src/dt4block.cpp:Read", "mdflib/src/mdf4file.cpp:ReadEverythingButData"]}
{"id": "C57", "title": "Sorting keeps the samples of every channel group", "statement": "After a file has been sorted, each channel group of the source has a data group of its own that holds exactly the samples of the group, in their order, with the same bytes (the time calculated again, see C58) and the same variable length values. (False of the code for variable length values: values that are not directly next to their record are mixed up or the sample is lost, values in signal data blocks are not copied, samples without bytes are not copied; proved for groups without variable length values and for groups whose values are next to their records.)", "quantifier": "every source file, every mixture of groups in a data group, every split into blocks, every schedule of the writing thread, with and without compression", "why_tests_cant": "interleavings of the threads and of the records of all groups", "anchors": ["mdflib/src/sortingtask.cpp:SortFile", "mdflib/src/samplerecordobserver.cpp:OnSample", "mdflib/src/copysampleobserver.cpp:OnSampleRecord", "mdflib/src/convertersamplequeue.cpp:SaveQueue", "mdflib/src/mdftask.cpp:CopyChannelConfig"]}
{"id": "C58", "title": "The time of a sample survives storing and reading", "statement": "A sample added with a time is read back with that time, also after the file has been sorted (all samples copied to a new file) any number of times; the order of samples is kept. (False of the code: times may change by one nanosecond each time; proved: up to 52 days from the start a time changes by at most 1 ns per copy, always towards the start, the order is kept, and times whose number of seconds is a double are exact.)", "quantifier": "every time, every number of copies", "why_tests_cant": "rounding depends on every single value, 2^53 of them", "anchors": ["mdflib/src/samplequeue.cpp:RecalculateTime", "mdflib/src/ichannel.cpp:SetTimestamp", "mdflib/src/ichannel.cpp:GetTimestamp", "mdflib/src/samplerecordobserver.cpp:OnSample"]}
{"id": "C59", "title": "Data groups saved in the same file keep their own samples", "statement": "When a measurement saves samples for several data groups of a file, periodically or at its end, compressed or not, a reader gets for every data group exactly the record bytes it had before, followed by the bytes saved for it; data groups of earlier measurements are unchanged.", "quantifier": "Every number of data groups and channel groups, every content of the file, every mode (compressed, periodic), every order in which the queues are saved, every sequence of saves.", "why_tests_cant": "The order of the queues depends on addresses, the number of periodic saves on time, and a wrong block length shows only for files with several measurements of which an earlier one left a channel group empty.", "anchors": ["mdflib/src/writecache.cpp WriteCache::Init, WorkThread", "mdflib/src/mdf4writer.cpp Mdf4Writer::PrepareForWriting", "mdflib/src/writer4samplequeue.cpp SaveQueue, CleanQueueCompressed", "mdflib/src/dg4block.cpp CreateOrGetDt4, CreateOrGetHl4"]}
{"id": "C60", "title": "Metadata and header texts are read back as set", "statement": "Texts and common properties (with units, descriptions, languages, creators and nested properties) set as metadata of a block, and author, department, project, subject, description and identifiers set on the header, are returned by the getters: each text is the last one set with its name, all properties are listed in the order they were set, and nothing set earlier is lost; also after the file was saved and opened again.", "quantifier": "Every series of settings, savings and openings, every text (also with the characters that have a meaning in XML), every name, every tree of properties of any depth, every block with or without a plain comment before.", "why_tests_cant": "Every setting parses and rewrites the whole XML text, so an error in escaping, in the search for a node or in the insertion shows only for particular combinations of names and texts, and may destroy what was set long before.", "anchors": ["mdflib/src/imetadata.cpp StringProperty, CommonProperty, CommonProperties, InsertETag, FetchETag", "mdflib/src/ixmlnode.cpp XmlString, Write, AddUniqueNode, IsTagName", "mdflib/src/ixmlnode.h SetProperty, Attribute, SetAttribute", "mdflib/src/expatxml.cpp ParseString", "mdflib/src/hd4block.cpp SetCommonProperty, GetCommonProperty, Description", "mdflib/src/mdfblock.cpp CreateMd4Block"]}
{"id": "C61", "title": "MD5 checksums are those of RFC 1321", "statement": "The checksum of a file or buffer that the library computes is the MD5 digest that RFC 1321 defines, whatever the length of the content and however it is cut into reads, so that checksums can be compared with those of other tools; its text form has 32 hexadecimal digits and tells all checksums apart.", "quantifier": "Every content of less than 2^61 bytes and more, of any length modulo the block size, and every way of cutting it into reads (also empty ones).", "why_tests_cant": "Errors in the handling of partial blocks or of the padding show only for particular lengths and read sizes; a wrong constant in the table shows only by comparison with the definition.", "anchors": ["mdflib/src/cryptoutil.cpp CreateMd5FileChecksum, CreateMd5FileString, CreateMd5Checksum, md5_init, md5_update, md5_final, body"]}
{"id": "C62", "title": "Attached files are listed in order and given back as they were", "statement": "Files attached to a measurement (embedded, embedded and compressed, or referred to by name) are listed by a reader in the order they were attached, after those attached before, with their settings, sizes and MD5 checksums, and exporting one gives the bytes of the file as it was attached; content that has changed since, so that its checksum is another one, is refused.", "quantifier": "Every file with any attachments, every series of new attachments with any settings, every content of the attached files, every later state of the file system.", "why_tests_cant": "The outcome depends on content, compressibility, order of the attachments and the history of the list (attachments of earlier measurements are already written); a test tries a few files that compress well.", "anchors": ["mdflib/src/at4block.cpp Write, Read, ReadData", "mdflib/src/hd4block.cpp CreateAttachment, Write", "mdflib/src/mdfblock.cpp WriteBlock4, WriteLink4List, UpdateLink", "mdflib/src/mdfreader.cpp ExportAttachmentData", "mdflib/src/zlibutil.cpp Deflate"]}
{"id": "C63", "title": "Texts of dates and times stand for the times they say", "statement": "A time stamp that is written as an ISO 8601 text and read again is the same, down to the precision of the text; a text in one of the usual forms (with or without separators, with a fraction of a second, in UTC or with an offset) is read as the time it stands for.", "quantifier": "Every 64 bit time stamp (1970 to 2554); every date that exists and time of day, every fraction of up to nine digits, every offset from UTC.", "why_tests_cant": "Calendars have leap years, month lengths and offsets that interact; errors show for single days, for particular numbers of digits or particular zones.", "anchors": ["mdflib/src/timestamp.cpp UtcTimestamp::ToIsoDate, ToIsoTime, ToIsoDateTime, FromIsoDateTime"]}
{"id": "C64", "title": "Structured comments are read back", "statement": "If a comment with a text, properties, trees and lists of properties, enumerations, alternative names and a formula is turned into XML and a new comment is read from it, then the new comment has the same contents: the same properties in the same trees, with the same names, types, units, values and attributes, the same names and the same formula with its variables.", "quantifier": "all comments whose names XML allows and whose texts have no control characters, of any size and depth, made by any sequence of the calls that add to a comment", "why_tests_cant": "trees can be nested to any depth and names can clash in any combination; tests read a few comments", "anchors": ["mdflib/src/mdcomment.cpp MdComment::ToXml, MdComment::FromXml", "mdflib/src/mdlist.cpp MdList::ToXml, FromXml, AddProperty, AddTree, AddList, AddEnumerate", "mdflib/src/mdproperty.cpp", "mdflib/src/mdenumerate.cpp", "mdflib/src/mdstring.cpp", "mdflib/src/mdstandardattribute.cpp", "mdflib/src/mdalternativename.cpp", "mdflib/src/mdformula.cpp", "mdflib/src/mdsyntax.cpp", "mdflib/src/mdvariable.cpp"]}
{"id": "C65", "title": "A value set on a property is the value returned", "statement": "A number, a truth value or a time that is set on a property of a comment is returned by the property, whatever its type, and also after the comment was written as XML and read.", "quantifier": "all 64 bit values, all types of properties, before and after the comment was written and read", "why_tests_cant": "the conversions between numbers and texts have a case for each type and for each size of the number; tests try one value for each", "anchors": ["mdflib/src/mdproperty.cpp MdProperty::Value", "include/mdf/mdproperty.h MdProperty::Value"]}
{"id": "C66", "title": "A property is found by its path", "statement": "A property in a tree of a comment is found by its path: the names of the trees on the way and its own name, with slashes between them; if there is none, nothing is found. The same holds for enumerations.", "quantifier": "all comments of any depth, all paths", "why_tests_cant": "the search goes through trees of any depth and shape in which the same names can occur again; tests use trees with different names", "anchors": ["mdflib/src/mdlist.cpp MdList::GetProperty, MdList::GetEnumerate", "include/mdf/mdcomment.h MdComment::GetProperty, GetPropertyValue"]}
{"id": "C67", "title": "The fields of a header comment are kept", "statement": "Author, department, project, subject, the identifiers, the file index, the time source and the constants of a header comment are returned as they were last set, also after the comment was written as XML and read by a new header comment.", "quantifier": "all sequences of calls on a new header comment, all texts without control characters, all 64 bit file indexes", "why_tests_cant": "the fields share one map of properties, so that what a call does depends on the calls before it; tests set each field once", "anchors": ["mdflib/src/hdcomment.cpp HdComment::Author, Department, Project, Subject, MeasurementUuid, RecorderUuid, RecorderFileIndex, TimeSource, AddConstant, ToXml, FromXml"]}
{"id": "C68", "title": "The definition of a channel array is read back", "statement": "The type, storage, flags, shape, axis values, cycle counters and the references of a channel array are what a reader of the written file gets; the lists have as many entries as the shape asks for.", "quantifier": "all array definitions: every type, storage and combination of flags, any number of dimensions of any size, lists of any length, every place in every file", "why_tests_cant": "which lists are in the block depends on seven flags and on the shape, and the reader has to count links the same way as the writer; tests use a few of the combinations", "anchors": ["mdflib/src/ca4block.cpp Ca4Block::Write, Read, FindAllReferences, ResizeArrays, Shape", "include/mdf/ichannelarray.h IChannelArray"]}
{"id": "C69", "title": "The elements of a channel array are where the file says", "statement": "A value of an array channel is read and written at the place in the record the definition in the file gives: the channel's offset plus index times the byte offset base, with the validity bit likewise.", "quantifier": "all channels, definitions, indexes and records", "why_tests_cant": "the definition and the access to the values are in different classes, which agree only if the values are stored without gaps; tests read arrays that the library wrote", "anchors": ["mdflib/src/ichannel.cpp IChannel::GetUnsignedValue, GetSignedValue, GetFloatValue, GetValid, BitPosition", "mdflib/src/ca4block.cpp Ca4Block::PrepareForWriting"]}
{"id": "C70", "title": "References between blocks lead to the right block", "statement": "A reference of one object of a file to another (attachments of channels and events, parent and range of an event, scope of an event, elements of a channel hierarchy, quantities of a channel array) leads a reader of the written file to that object.", "quantifier": "all trees of blocks, all references, files written in one or in many steps with changes between", "why_tests_cant": "a link is the file position of another block, which is known only when that block has been written; whether it is depends on the order in which all block classes write their lists. Tests write a few references and seldom read them", "anchors": ["mdflib/src/ch4block.cpp Ch4Block::Write, FindReferencedBlocks", "mdflib/src/ev4block.cpp Ev4Block::Write", "mdflib/src/cn4block.cpp Cn4Block::Write", "mdflib/src/ca4block.cpp Ca4Block::Write", "mdflib/src/hd4block.cpp Hd4Block::Write, Find"]}
{"id": "C71", "title": "LIN messages are found again", "statement": "A LIN message saved in a group of its kind is found again by a reader of the channels: the record has the size of the group, the time is kept, every channel of the group gives the value of the message, and the data bytes are found.", "quantifier": "all messages, all kinds of message, both settings of \"mandatory members only\", all times and positions of data bytes", "why_tests_cant": "the record function and the channel definitions are in different classes and agree only if the bit positions in both are the same for every member of every kind; tests check that the messages are written, not what each channel reads", "anchors": ["mdflib/src/linmessage.cpp LinMessage::ToRaw", "mdflib/src/linconfigadapter.cpp LinConfigAdapter", "mdflib/src/samplequeue.cpp SampleQueue::SaveLinMessage"]}
{"id": "C72", "title": "Ethernet messages are found again", "statement": "An Ethernet message saved in a group of its kind is found again by a reader of the channels: the record has the size of the group, the time is kept, every channel gives the value of the message, and the data channel holds the position of the data bytes.", "quantifier": "all messages, all kinds of message, both settings of \"mandatory members only\", all times and positions of data bytes", "why_tests_cant": "the record function and the channel definitions are in different classes and agree only if the bit positions in both are the same for every member of every kind; tests check that the messages are written, not what each channel reads", "anchors": ["mdflib/src/ethmessage.cpp EthMessage::ToRaw", "mdflib/src/ethconfigadapter.cpp EthConfigAdapter", "mdflib/src/samplequeue.cpp SampleQueue::SaveEthMessage"]}
{"id": "C73", "title": "FlexRay messages are found again", "statement": "A FlexRay message saved in a group of its kind is found again by a reader of the channels: the record has the size of the group, the time is kept, every channel gives the value of the message, and the data channel holds the position of the data bytes.", "quantifier": "all messages, all kinds of message, both settings of \"mandatory members only\", all times and positions of data bytes", "why_tests_cant": "the record function and the channel definitions are in different classes and agree only if the bit positions in both are the same for every member of every kind; tests check that the messages are written, not what each channel reads", "anchors": ["mdflib/src/flexraymessage.cpp FlexRayFrame::ToRaw, FlexRayPdu::ToRaw, FlexRaySymbol::ToRaw", "mdflib/src/flexrayconfigadapter.cpp FlexRayConfigAdapter", "mdflib/src/samplequeue.cpp SampleQueue::SaveFlexRayMessage"]}
{"id": "C74", "title": "MOST messages are found again", "statement": "A MOST message saved in a group of its kind is found again by a reader of the channels: the record has the size of the group, the time is kept, every channel gives the value of the message, and the data channel holds the position of the data bytes.", "quantifier": "all messages, all kinds of message, both settings of \"mandatory members only\", all times and positions of data bytes", "why_tests_cant": "the record function and the channel definitions are in different classes and agree only if the bit positions in both are the same for every member of every kind; tests check that the messages are written, not what each channel reads", "anchors": ["mdflib/src/mostmessage.cpp MostMessage::ToRaw, MostEthernetPacket::ToRaw", "mdflib/src/mostconfigadapter.cpp MostConfigAdapter", "mdflib/src/samplequeue.cpp SampleQueue::SaveMostMessage"]}
{"id": "C75", "title": "The description of an MDF 3 measurement is read back", "statement": "After any history of writing an MDF 3 file, changing values, adding groups and saving samples, a reader finds the header, the data groups, channel groups, channels, conversions and comments in their order, each with the values that were set; of a text it finds what fits into its field.", "quantifier": "all trees of blocks, all values, all histories of writes, changes and saved samples, all files below 4 GB", "why_tests_cant": "blocks are appended, links and sizes patched and values rewritten in place at computed offsets; a wrong offset shows only for certain orders of writes or lengths of texts", "anchors": ["mdflib/src/mdfblock.cpp MdfBlock::Write, Update, UpdateLink, UpdateBlockSize, ReadHeader3, ReadLinks3", "mdflib/src/hd3block.cpp Hd3Block::Write, Read", "mdflib/src/dg3block.cpp Dg3Block::Write, Read", "mdflib/src/cg3block.cpp Cg3Block::Write, Read", "mdflib/src/cn3block.cpp Cn3Block::Write, Read", "mdflib/src/cc3block.cpp Cc3Block::Write, Read", "mdflib/src/tx3block.cpp Tx3Block::Write, Read"]}
{"id": "C76", "title": "The samples of an MDF 3 data group are found", "statement": "The records saved for a data group of an MDF 3 file stand, all in order, at the position that its block tells.", "quantifier": "all histories of writes and saved samples, any number of data groups", "why_tests_cant": "an MDF 3 file has no headers for data: the reader takes what stands at one position, so that any block or other group's data in between is read as samples", "anchors": ["mdflib/src/samplequeue.cpp SampleQueue::CleanQueue, SetLastPosition", "mdflib/src/dg3block.cpp Dg3Block::Read, ReadData"]}
{"id": "C77", "title": "The conversion of an MDF 3 channel is read back", "statement": "The parameters, formula, text table and unit that were set for the conversion of an MDF 3 channel are read back from the file.", "quantifier": "all conversion types, all parameters", "why_tests_cant": "a test of writing alone does not show what the bytes mean to the reader", "anchors": ["mdflib/src/cc3block.cpp Cc3Block::Write, Read", "include/mdf/ichannelconversion.h IChannelConversion::ParameterList"]}
{"id": "C78", "title": "The name of an MDF 3 channel is read back", "statement": "The name of an MDF 3 channel, of any length, is read back.", "quantifier": "all names", "why_tests_cant": "names longer than 31 bytes go to a block of their own, whose size has 16 bits", "anchors": ["mdflib/src/cn3block.cpp Cn3Block::Name", "mdflib/src/tx3block.cpp Tx3Block::Write, Read"]}
{"id": "C79", "title": "The values set are the values read", "statement": "Whatever values an application sets on the channels of a data group and whenever it saves samples, from the initialisation of a measurement until its stop, reading the file shows for each sample of a group and each element of a channel the value that was last set when the sample was saved, with its validity, and zero if none was set.", "quantifier": "all data groups (any number of groups, any channels of numbers, texts and bytes), all sequences of SetChannelValue and SaveSample calls mixed in any way with the steps of the writer's thread, all samples, channels and array elements", "why_tests_cant": "the value passes the record layout, validity bits, the sample queue, trimming, the blocks of the file, parsing of records and the observers; tests try a few values on a few channels one after the other", "anchors": ["include/mdf/ichannel.h IChannel::SetChannelValue, GetChannelValue", "include/mdf/mdfwriter.h MdfWriter::SaveSample", "mdflib/src/cn4block.cpp Cn4Block::SetTextValue, SetByteArray, GetTextValue, GetByteArrayValue", "mdflib/src/samplequeue.cpp SampleQueue::AddSample, RecalculateTimeMaster", "mdflib/src/channelobserver.h ChannelObserver::OnSample"]}
{"id": "C80", "title": "A task changes no file but its destination", "statement": "Whatever fails and wherever it is interrupted, a sorting or validating task changes no existing file but the one it writes to (its destination, or for validating without a destination the source), and that one only if it may be overwritten; a sorting task that reports success has left the sorted file at its destination.", "quantifier": "all file systems and ways in which paths lead to files, all settings, every failing step and every point of interruption", "why_tests_cant": "tests run tasks on a few paths without failures; which files are lost depends on where they lie and on the step that fails", "anchors": ["mdflib/src/mdftask.cpp MdfTask::CheckDestinationFile, CreateSourceTempFile, CreateDestinationTempFile, CopyTempFile, DeleteTempFile, ~MdfTask", "mdflib/src/sortingtask.cpp SortingTask::Run", "mdflib/src/validatingtask.cpp ValidatingTask::Run"]}
{"id": "C81", "title": "Decompression gives back what was compressed", "statement": "Deflate and Inflate, on streams, files and buffers, give back data of any size, read in any number of pieces; they always end, and return true for a complete stream only: of one that is cut, no more than a beginning of the data is put out and false is returned.", "quantifier": "all data, all ways zlib may divide its output over calls, all places where a stream is cut, anything that follows the stream", "why_tests_cant": "tests compress a few small files; errors at the borders of the 16384 byte buffers or of cut files need particular sizes", "anchors": ["mdflib/src/zlibutil.cpp Deflate(streambuf,streambuf), Deflate(ByteArray,ByteArray), Inflate(streambuf,streambuf), Inflate(streambuf,streambuf,nof_bytes), Inflate(ByteArray,ByteArray), Inflate(ByteArray,streambuf)"]}
{"id": "C82", "title": "A compressed block gives back its data", "statement": "Data stored in a compressed block, plain or transposed, are read from it as they were.", "quantifier": "all data, ways of compression and parameters, every zlib", "why_tests_cant": "data that cannot be compressed get longer, and only large blocks of them get too long", "anchors": ["mdflib/src/dz4block.cpp Dz4Block::Data, CopyDataToBuffer, CopyDataToFile", "mdflib/src/zlibutil.cpp Deflate(ByteArray,ByteArray)"]}
{"id": "C83", "title": "Bus messages are stored as messages of their group's kind", "statement": "In the groups a bus configuration makes, for every bus name and filter: CAN, LIN and Ethernet messages are stored as messages of the kind of the group, MOST and FlexRay messages are stored in groups of their kind only, different groups have different names, and the name of a group for one channel has the number of the channel.", "quantifier": "all bus names, filters, channels, message identities and kinds", "why_tests_cant": "the kind is found by looking for a part of the group's name, which goes wrong for particular names only; tests use the default names without filters", "anchors": ["mdflib/src/iconfigadapter.cpp IConfigAdapter::MakeGroupName", "mdflib/src/samplequeue.cpp SampleQueue::SaveCanMessage, SaveLinMessage, SaveEthMessage, SaveMostMessage, SaveFlexRayMessage", "mdflib/src/canconfigadapter.cpp", "mdflib/src/linconfigadapter.cpp", "mdflib/src/ethconfigadapter.cpp", "mdflib/src/mostconfigadapter.cpp", "mdflib/src/flexrayconfigadapter.cpp"]}
{"id": "C84", "title": "CAN messages are handed to the callback once each", "statement": "While a CAN group is read, in a data group with any other groups and for all storage types, OnCanMessage is called once for each saved message, in the order of saving, with the number of the sample, the kind of the group, the time of the sample and the members of the message; a second reading with the same observer makes the same calls.", "quantifier": "all CAN configurations, lists of messages, and orders in which records of other groups come in between", "why_tests_cant": "the call is made on the record or on the variable length data, depending on the storage type and on what came before; tests read one small file once", "anchors": ["mdflib/src/canbusobserver.cpp CanBusObserver::OnSample, HandleCallback, FireCallback, ParseCanMessage"]}
{"id": "C85", "title": "The bulk data writer stores what it is given", "statement": "A record filled through the bulk data writer (Reset, SetValue, WriteRawRecord, Commit) holds for each channel the value last set, or else what the last whole record holds; setting a channel changes no other channel, nothing is ever written outside the record, raw records of another size are refused, and the record can be added as a sample of the group without changing any channel but the master.", "quantifier": "all groups of channels after InitMeasurement, lists of calls, layouts and values of all C++ number types", "why_tests_cant": "values are copied by offset and size into a shared record; tests set one type of channel with values of its type", "anchors": ["include/mdf/idatawriter.h IDataWriter::SetValue", "mdflib/src/cg4datawriter.cpp Cg4DataWriter", "mdflib/src/mdffactory.cpp MdfFactory::CreateDataWriter", "mdflib/src/samplequeue.cpp SampleQueue::AddSample, RecalculateTime"]}
{"id": "C86", "title": "A number in a comment is the number it was given", "statement": "A number in a comment (MdNumber) returns the integer or floating point value it was set to, and what is read of a number that was written has its value, type, attributes, byte count, bit mask, byte order, limits, units and trigger flag.", "quantifier": "all 64 bit integers, all finite double values, all numbers with texts XML can hold", "why_tests_cant": "the conversions between binary numbers and decimal text round differently for each value; tests use values with few digits", "anchors": ["include/mdf/mdnumber.h MdNumber::Number", "mdflib/src/mdnumber.cpp MdNumber::ToXml, MdNumber::FromXml, MdNumber::Number"]}
{"id": "C87", "title": "Comments of channels, events, history, sources and units are kept", "statement": "What is read of the comment of a channel, an event, a file history entry or a source, or of a unit, has the text, alternative names, formula, common properties and the own parts (addresses, raster, monotony; trigger intervals; tool and user; path, bus and protocol; unit reference) of the comment that was written.", "quantifier": "all comments with texts XML can hold, all combinations of parts", "why_tests_cant": "each part is optional and there are five classes with many parts; tests set some parts of each", "anchors": ["mdflib/src/cncomment.cpp CnComment", "mdflib/src/evcomment.cpp EvComment", "mdflib/src/fhcomment.cpp FhComment", "mdflib/src/sicomment.cpp SiComment", "mdflib/src/ccunit.cpp CcUnit", "mdflib/src/cnunit.cpp CnUnit", "mdflib/src/mdcomment.cpp MdComment::FromXml"]}
{"id": "C88", "title": "A CSV file says what was exported", "statement": "Reading a CSV file that mdf2csv or the viewer has written gives the titles (name and unit) of the channels and a line for each sample, with the text of each valid sample in its column; all lines have the same number of fields.", "quantifier": "all channel lists, all names, units and sample texts (with delimiters, quotes, line feeds), all sequences of calls of the writer", "why_tests_cant": "texts with delimiters, quotes and line feeds change what a reader of the file sees; tests use plain names and numbers", "anchors": ["mdf2csv/src/csvwriter.cpp CsvWriter::Convert, CsvWriter::CsvText", "mdfviewer/src/util/csvwriter.cpp CsvWriter::AddColumnHeader, CsvWriter::AddColumnValue, CsvWriter::AddRow, CsvWriter::SaveText", "mdfviewer/src/mdfdocument.cpp CreateCsvFile"]}
{"id": "C89", "title": "The text of a value names the value", "statement": "A floating point value is shown rounded to the number of decimals asked for; an integer of a channel that is written as text is read as the same text, and a text that is no number is rejected.", "quantifier": "all double values, all numbers of decimals, all integers of all channel sizes", "why_tests_cant": "rounding and length limits depend on the value; tests use a few small values", "anchors": ["mdflib/src/mdfhelper.cpp MdfHelper::FormatDouble", "mdflib/src/ichannel.cpp IChannel::SetChannelValue, IChannel::GetChannelValue", "mdflib/src/ichannelobserver.cpp IChannelObserver::GetChannelValue", "include/mdf/ichannelconversion.h IChannelConversion::Convert"]}
{"id": "C90", "title": "The data behind a link are those of its blocks, in order", "statement": "Reading the data behind a link of a data group, a signal or a sample reduction gives the contents of the data blocks in the order of the links, whether the link leads to a block, to a chain of data lists or to a header list, compressed or not.", "quantifier": "all files, all chains of list blocks of any length, all splits into plain and compressed blocks", "why_tests_cant": "the number and nesting of blocks is unbounded; tests have files with few blocks", "anchors": ["mdflib/src/datalistblock.cpp DataListBlock::ReadBlockList, DataListBlock::ReadLinkList, DataListBlock::DataSize, DataListBlock::GetDataBlockList, DataListBlock::CopyDataToBuffer", "mdflib/src/dl4block.cpp Dl4Block::Read", "mdflib/src/ld4block.cpp Ld4Block::Read", "mdflib/src/hl4block.cpp Hl4Block::Read", "mdflib/src/datablock.cpp DataBlock::CopyDataToBuffer", "mdflib/src/dz4block.cpp Dz4Block::CopyDataToBuffer"]}
{"id": "C91", "title": "Records stored by columns are put together", "statement": "The samples of a data group whose values and invalidation bytes are stored in different blocks are notified with their values and their invalidation bytes.", "quantifier": "all record sizes, all numbers of samples, all splits into blocks", "why_tests_cant": "an error shifts the records and shows only with invalidation bytes and several samples", "anchors": ["mdflib/src/ld4block.cpp Ld4Block::Read", "mdflib/src/datalistblock.cpp DataListBlock::ReadLinkList", "mdflib/src/readcache.cpp ReadCache::ParseRecord"]}
{"id": "C92", "title": "Mean, minimum and maximum of a sample reduction are those stored", "statement": "For each interval of a sample reduction the mean, minimum and maximum returned for a channel are what the channel reads of the records stored for them, including the validity; there is no value for other intervals.", "quantifier": "all reductions, stored row by row or by columns, all record sizes, all intervals, all channels", "why_tests_cant": "the records are found by arithmetic on 32 bit numbers that goes wrong for sizes no test uses; the validity is only lost with one kind of storage", "anchors": ["mdflib/src/sr4block.h Sr4Block::GetChannelValueT", "mdflib/src/sr4block.cpp Sr4Block::ReadData", "include/mdf/isamplereduction.h ISampleReduction::GetChannelValue"]}
{"id": "C93", "title": "A computation method in a conversion comment is kept", "statement": "The computation method that is set in the comment of a conversion is returned after the comment was written and read: its names, category, unit, limits, computations and default value.", "quantifier": "all computation methods with any number of limits, computations and coefficients, all texts XML can hold", "why_tests_cant": "each of many optional parts may be set or not, in any combination; names written by one object are read by another", "anchors": ["mdflib/src/cccomment.cpp CcComment::ToXml, CcComment::FromXml", "mdflib/src/hocompumethod.cpp HoCompuMethod::ToXml, HoCompuMethod::FromXml", "mdflib/src/hocompuscale.cpp HoCompuScale::ToXml, HoCompuScale::FromXml", "mdflib/src/hoscaleconstraint.cpp HoScaleConstraint::ToXml, HoScaleConstraint::FromXml", "mdflib/src/hointerval.cpp HoInterval::ToXml, HoInterval::FromXml", "mdflib/src/honamedetails.cpp HoNameDetails::ToXml", "mdflib/src/hoenumerates.cpp"]}
{"id": "C94", "title": "A unit specification in the header comment is kept", "statement": "The units, dimensions, unit groups and revisions added to the unit specification of the header comment are returned after the comment was written and read; a second one with the same identity is not taken.", "quantifier": "all sequences of calls that add units, dimensions, groups and revisions, all texts XML can hold", "why_tests_cant": "any number of objects with optional parts; two of seven exponents are lost, which only files with these exponents show", "anchors": ["mdflib/src/hdcomment.cpp HdComment::ToXml, HdComment::FromXml", "mdflib/src/hounitspecification.cpp HoUnitSpecification::ToXml, HoUnitSpecification::FromXml, HoUnitSpecification::AddUnit", "mdflib/src/hoadmindata.cpp HoAdminData::ToXml, HoAdminData::FromXml", "mdflib/src/hounit.cpp HoUnit::ToXml, HoUnit::FromXml", "mdflib/src/hophysicaldimension.cpp HoPhysicalDimension::ToXml, HoPhysicalDimension::FromXml", "mdflib/src/hounitgroup.cpp HoUnitGroup::ToXml, HoUnitGroup::FromXml", "mdflib/src/horevision.cpp HoRevision::ToXml, HoRevision::FromXml"]}
{"id": "C95", "title": "A value asked in another type is the value of the record", "statement": "Asking the observer of an integer channel for a sample in any type that can hold the number gives exactly the number that the record of this sample has at the place of the channel; asking for a double gives the nearest double, asking for a text the number in decimal. For a float channel asked for a double it is exactly the number stored. The value of a virtual channel is the number of the sample.", "quantifier": "all integer widths from 1 to 64 bits at all places in both byte orders, floats of 16, 32 and 64 bits, all arrays, all requested integer types, all records and sequences of records", "why_tests_cant": "the observer keeps values in a type chosen by the width of the channel, so values pass two or three casts; a test with small values never shows a cast that cuts", "anchors": ["mdflib/src/mdfreader.cpp CreateChannelObserver", "include/mdf/ichannel.h IChannel::GetChannelValue, IChannel::GetVirtualSample", "mdflib/src/channelobserver.h ChannelObserver::GetSampleUnsigned, ChannelObserver::GetSampleSigned, ChannelObserver::GetSampleFloat", "include/mdf/ichannelobserver.h IChannelObserver::GetChannelValue, IChannelObserver::GetChannelSamples, IChannelObserver::GetChannelValues", "mdflib/src/ichannelobserver.cpp"]}
{"id": "C96", "title": "mdf2csv gives each group with samples a file of its own", "statement": "Converting measurement files to CSV puts each channel group that holds samples into a CSV file of its own, in the output directory asked for or beside the measurement file. Without the option to overwrite, no existing file is changed.", "quantifier": "all lists of measurement files, all names of files and groups, all states of the disk, with and without overwriting", "why_tests_cant": "the names of the CSV files are made of the names of the groups with characters left out; whether two of them meet depends on all names together", "anchors": ["mdf2csv/src/createfilelist.cpp ConvertMdfFile, StripName", "mdf2csv/src/main.cpp"]}
{"id": "C97", "title": "Opening a file ends", "statement": "Opening an MDF 4 file for reading ends for every file, with the description of its contents or with an exception.", "quantifier": "all files, damaged ones and such with unknown blocks included", "why_tests_cant": "an endless loop needs a file that no writer makes; no test shows that there is no such file", "anchors": ["mdflib/src/hd4block.cpp Hd4Block::ReadMeasurementInfo, Hd4Block::ReadEverythingButData", "mdflib/src/mdfblock.h MdfBlock::ReadLink4List", "mdflib/src/mdfblock.cpp ReadHeader4, ReadBlockType", "mdflib/src/cn4block.cpp Cn4Block::Read"]}
{"id": "C98", "title": "Reading the description in steps gives the same description", "statement": "The description of a measurement file may be read in steps (ReadHeader, ReadMeasurementInfo, ReadEverythingButData), in any order and more than once. After a call that returned true the description holds everything the call promises, each block once and in the order of the file, as if only this call had been made.", "quantifier": "all files, all sequences of calls on one reader, calls that failed included", "why_tests_cant": "the readers keep what is there and skip what seems to be read; whether something is read twice or never depends on the whole sequence of calls and on where an earlier call failed", "anchors": ["mdflib/src/mdfreader.cpp MdfReader::ReadHeader, ReadMeasurementInfo, ReadEverythingButData", "mdflib/src/mdf4file.cpp", "mdflib/src/mdf3file.cpp", "mdflib/src/hd4block.cpp Hd4Block::ReadMeasurementInfo, ReadEverythingButData", "mdflib/src/hd3block.cpp", "mdflib/src/dg3block.cpp", "mdflib/src/mdfblock.h MdfBlock::ReadLink4List"]}
{"id": "C99", "title": "Objects handed out stay valid while the reader lives", "statement": "Data groups, channel groups, channels and other objects got from a reader stay valid as long as the reader, also if the description is read further or again.", "quantifier": "all files, all states of the reader, all later calls", "why_tests_cant": "use of a destroyed object often goes unnoticed; tests ask for objects after the last call", "anchors": ["mdflib/src/hd3block.cpp Hd3Block::ReadMeasurementInfo", "mdflib/src/hd4block.cpp", "mdflib/src/mdfblock.h MdfBlock::ReadLink4List"]}
{"id": "C100", "title": "A reader leaves its file open or closed as it was", "statement": "Each function of a reader that opens the file closes it again before it returns, and leaves a file open that the user has opened, also if reading fails.", "quantifier": "all functions of the reader, both states of the file, files that can and cannot be opened, failing and successful reading", "why_tests_cant": "an open file shows only when it is to be replaced or removed, and closing one too early only in the next call", "anchors": ["mdflib/src/mdfreader.cpp MdfReader::Open, Close, ReadHeader, ReadMeasurementInfo, ReadEverythingButData, ReadData, ReadPartialData, ReadSrData, ReadInDataBuffer"]}
{"id": "C101", "title": "Compressed data is stored in blocks of at most 4 MB", "statement": "When the writer compresses the data, every compressed block of samples that it writes holds at least one byte and at most 4,000,000 bytes of records before compression.", "quantifier": "all sequences of samples, of all sizes, all interleavings of the user's calls with the writer's thread, saving during and at the end of the measurement", "why_tests_cant": "the size of a block depends on how the samples happen to come between the wake-ups of the thread; tests use samples of a few bytes", "anchors": ["mdflib/src/writer4samplequeue.cpp Writer4SampleQueue::CleanQueueCompressed", "mdflib/src/samplequeue.cpp"]}
{"id": "C102", "title": "A sample is stored in the channel group it was saved for", "statement": "SaveSample and AddSample put a sample into the queue of the data group of the channel group it was saved for, or drop it if nothing of that data group is being recorded; it never ends up among the records of another data group. Samples of a data group that has a group without samples are not dropped.", "quantifier": "all files with any number of data groups and channel groups and any counters, all saving calls", "why_tests_cant": "tests record into new files, in which every group is recorded; the wrong choice needs a file that was opened again with exactly one group left to fill", "anchors": ["mdflib/src/writecache.cpp WriteCache::Init, GetSampleQueue", "mdflib/src/mdfwriter.cpp MdfWriter::SaveSample, AddSample"]}
{"id": "C103", "title": "The sample counters in the file count the samples in the file, also if the file is opened again", "statement": "After every finalization the counter of a channel group in the file is the number of its samples in the file, whichever sessions they were stored in.", "quantifier": "all histories of writing the block, storing samples and opening the file again, both file versions", "why_tests_cant": "the histories are unbounded and tests that append check the new groups only", "anchors": ["mdflib/src/cg4block.cpp Cg4Block::Write, Read", "mdflib/src/cg3block.cpp Cg3Block::Write", "mdflib/src/samplequeue.cpp SampleQueue::IncrementNofSamples"]}
{"id": "C104", "title": "The start time in the file is that of the first measurement", "statement": "After finalization the start time of the file is the one given to the last StartMeasurement before the first sample was stored, whatever starts, stops and measurements follow.", "quantifier": "all sequences of starts, stored samples and finalizations, all interleavings with the writer's thread", "why_tests_cant": "the thread may store the samples held back between the two halves of StartMeasurement; no test forces this", "anchors": ["mdflib/src/mdfwriter.cpp MdfWriter::StartMeasurement, IsFirstMeasurement, FinalizeMeasurement, InitMeasurement"]}
{"id": "C105", "title": "Channels and channel groups are found by name", "statement": "IDataGroup::GetChannelGroup(name) returns the first group of that name; IChannelGroup::GetChannel(name) returns the channel of that name if there is one; GetMasterChannel and GetChannelGroup(record_id) return what their names say.", "quantifier": "all files, all names", "why_tests_cant": "tests use names of which none contains another", "anchors": ["mdflib/src/ichannelgroup.cpp IChannelGroup::GetChannel, GetMasterChannel", "mdflib/src/idatagroup.cpp IDataGroup::GetChannelGroup"]}
{"id": "C106", "title": "Creating a channel or group by name returns one of that name", "statement": "CreateChannel(name) and CreateChannelGroup(name) return an object with the name given, reuse the one that exists, and keep all others; no sequence of calls makes two channels of the same name.", "quantifier": "all names given as std::string_view, all sequences of calls", "why_tests_cant": "tests give whole texts as names, a view may end before its text", "anchors": ["mdflib/src/ichannelgroup.cpp IChannelGroup::CreateChannel", "mdflib/src/idatagroup.cpp IDataGroup::CreateChannelGroup"]}
{"id": "C107", "title": "The channel that an observer is made for by name", "statement": "CreateChannelObserver(data_group, channel name) observes a channel of exactly that name if there is one, in the group with the most samples; CreateChannelObserverForDataGroup makes one observer for every channel of a group with samples.", "quantifier": "all data groups, all names", "why_tests_cant": "it depends on how names and sample counts of several groups come together", "anchors": ["mdflib/src/mdfreader.cpp CreateChannelObserver, CreateChannelObserverForDataGroup", "mdflib/src/platform.cpp Platform::stricmp"]}
{"id": "C108", "title": "The start time of an MDF 3 file", "statement": "The date, the time, the local start time and the UTC offset in the header of an MDF 3 file stand for the time that was set with StartTime.", "quantifier": "all times, all time zones of the computer, with and without daylight saving, times given as UTC, as local time or with a time zone", "why_tests_cant": "tests run in the time zone of the build machine", "anchors": ["mdflib/src/mdf3timestamp.cpp Mdf3Timestamp::SetTime", "mdflib/src/hd3block.cpp Hd3Block::StartTime"]}
{"id": "C109", "title": "The start time of an MDF 4 file, also after sorting", "statement": "The start time of an MDF 4 file is read back as it was set, with its kind and offsets; a sorted copy stands for the same time.", "quantifier": "all times, offsets and kinds of start time", "why_tests_cant": "the offsets are signed numbers returned as unsigned ones, and sorting a file with a local start time needs a time zone to be seen wrong", "anchors": ["mdflib/src/mdf4timestamp.cpp", "mdflib/src/iheader.cpp IHeader::CopyFrom", "mdflib/src/sortingtask.cpp"]}
{"id": "C110", "title": "A sorted file describes the channels of its source", "statement": "A sorted file has one data group for each channel group of the source that is not left out, and each group has all channels of its source, at the same place of the record, with the same number of array elements, the same name, unit, comment, source, conversion and X channel.", "quantifier": "all source files (MDF 3 and MDF 4), all nestings of compositions, all arrays", "why_tests_cant": "the tests sort MDF 4 files without arrays that have an axis", "anchors": ["mdflib/src/mdftask.cpp MdfTask::CopyChannelConfig", "mdflib/src/sortingtask.cpp SortingTask::SortFile", "mdflib/src/cn4block.cpp Cn4Block::CopyConfigFrom", "mdflib/src/cg4block.cpp Cg4Block::CopyFrom, GetXChannel"]}
{"id": "C111", "title": "Logarithmic and exponential conversions", "statement": "The logarithmic and the exponential conversion compute the function given by their seven parameters, the stored value can be computed back from the shown one, and a value said to be valid is a number.", "quantifier": "all parameters, all stored values (as real numbers)", "why_tests_cant": "the tests have one file with few values; the argument of the logarithm depends on the value", "anchors": ["mdflib/src/ichannelconversion.cpp IChannelConversion::ConvertLogarithmic, ConvertExponential"]}
{"id": "C112", "title": "The sample queue is used only while its lock is held", "statement": "The thread that saves samples uses a queue only while it holds the lock, holds the lock again when a queue has been saved, and does not end the program, so that samples added by other threads meanwhile are neither lost nor read half-written.", "quantifier": "all numbers of queues, all classes of queues, all samples, all file states, exceptions of file operations at any place", "why_tests_cant": "a race shows only under unlucky scheduling; the early returns need files of an earlier measurement", "anchors": ["mdflib/src/writecache.cpp WriteCache::WorkThread", "mdflib/src/samplequeue.cpp SampleQueue::CleanQueue", "mdflib/src/writer4samplequeue.cpp SaveQueue, CleanQueueCompressed", "mdflib/src/convertersamplequeue.cpp SaveQueue, CleanQueueCompressed"]}
{"id": "C113", "title": "The C interface hands over texts, lists and bytes within the caller's memory", "statement": "Every function of the C interface that fills memory of the caller tells the size needed when called with a null pointer, and when called with that much memory stores exactly the value of the library and touches nothing else; a text, byte sequence or list that is set is the one that is got.", "quantifier": "all texts, byte sequences and lists of any length, all contents and sizes of the caller's memory", "why_tests_cant": "tests of the interface use exactly fitting memory; an overrun shows only with other sizes and often does not crash", "anchors": ["mdflibrary/src/MdfExport.cpp"]}
{"id": "C114", "title": "A bus log has a group for every kind of message", "statement": "After CreateBusLogConfiguration the last data group has, for every bus of BusType and every kind of message of it, exactly one group under the name by which the messages are stored, with one time channel, and, where the storage type demands it, a VLSD group of its own whose record id the data channel of the group refers to. Other data groups are unchanged; calling it again changes nothing.", "quantifier": "all bus types, storage types, filters, data groups made before, any number of adapters on one data group", "why_tests_cant": "the record ids are given anew with every added group; a wrong reference shows only for certain orders and combinations of buses", "anchors": ["mdflib/src/mdfwriter.cpp MdfWriter::CreateBusLogConfiguration", "mdflib/src/canconfigadapter.cpp", "mdflib/src/linconfigadapter.cpp", "mdflib/src/ethconfigadapter.cpp", "mdflib/src/mostconfigadapter.cpp", "mdflib/src/flexrayconfigadapter.cpp", "mdflib/src/iconfigadapter.cpp"]}
{"id": "C115", "title": "The source information of a bus group tells the settings of the adapter", "statement": "The source information an adapter makes for its groups and channels names the network, the device, the bus or the group, tells the bus, and its comment holds channel number, message id, message length, message name and protocol of the adapter wherever they were set; all of them are read back with GetSiComment. A channel filter makes the bus channel a constant.", "quantifier": "all settings of an adapter, all names of groups", "why_tests_cant": "tests set no or all settings; a setting that is lost alone is not seen", "anchors": ["mdflib/src/iconfigadapter.cpp IConfigAdapter::CreateSourceInformation, CreateBusChannel", "mdflib/src/isourceinformation.cpp"]}
{"id": "C116", "title": "A half precision number is the number its bits stand for", "statement": "The value read from a float channel of 16 bits is the half precision number of IEEE 754 that its bits stand for, for normal and subnormal numbers, zeros of both signs, infinities and NaN, in both byte orders.", "quantifier": "all 65536 bit patterns, all records and channels of 16 bits", "why_tests_cant": "the conversion adds entries of tables with 2048, 64 and 64 numbers; tests try a few patterns", "anchors": ["mdflib/src/half.hpp half2float_impl", "mdflib/src/dbchelper.cpp DbcHelper::RawToHalf", "mdflib/src/ichannel.cpp IChannel::GetFloatValue"]}
{"id": "C117", "title": "A writer empties no file that was there before", "statement": "Whatever is called on a writer and whatever fails, only files named in Init, or open in a stream given to it, are changed, and a file that was there before Init is still there and not shorter; a new file gets what is written, an existing one is appended to.", "quantifier": "all sequences of Init, InitMeasurement, StartMeasurement, saving, FinalizeMeasurement, all failures to open or read, all states of the disk", "why_tests_cant": "the loss needs a file that cannot be opened once, a second Init, or another program at the same time", "anchors": ["mdflib/src/mdfwriter.cpp MdfWriter::Init, Open, Close, InitMeasurement, FinalizeMeasurement", "mdflib/src/mdfblock.cpp OpenMdfFile"]}
{"id": "C118", "title": "The reference of a channel to its X axis is kept", "statement": "Of the reference set by IChannel::DefaultX a reader of the file gets back the data group, the channel group and the channel that were set, for every channel, also in compositions; GetXChannel finds that channel, and the master of the group for channels without reference.", "quantifier": "all files of any number of data groups, channel groups, channels and compositions, all references within the file, all sizes of blocks up to 2^63 bytes", "why_tests_cant": "what is kept depends on the order in which blocks get their positions; tests refer to a master in the same group", "anchors": ["mdflib/src/cn4block.cpp Cn4Block::Write, DefaultX, XAxisLinkList", "mdflib/src/dg4block.cpp Dg4Block::Write, UpdateDefaultX", "mdflib/src/cg4block.cpp Cg4Block::Write, GetXChannel", "mdflib/src/hd4block.cpp Hd4Block::Write"]}
{"id": "C119", "title": "Members of a structure have places of their own in the record", "statement": "Setting a channel made by CreateChannelComposition changes the value and the validity of no other channel of the group than its structure, and the member shows what was set.", "quantifier": "all groups of any channels, all structures, all members made by any sequence of the setters, all values, all contents of the record", "why_tests_cant": "the tests of compositions do not set values of members; what is overwritten depends on the layout of the whole group", "anchors": ["mdflib/src/cn4block.cpp Cn4Block::CreateChannelComposition, Init, SetValid, GetValid", "mdflib/src/cg4block.cpp Cg4Block::PrepareForWriting", "include/mdf/ichannel.h IChannel::ByteOffset, BitOffset, BitCount"]}
{"id": "C120", "title": "Mean, minimum and maximum of an MDF 3 sample reduction are those stored", "statement": "The sample reductions of an MDF 3 channel group are listed in order with their number of samples and interval, and after ReadSrData GetChannelValue gives the mean, minimum and maximum that are stored behind their data link for each sample, GetEngValue the converted values.", "quantifier": "all files, all channel groups, all chains of reductions, all samples, all channels and conversions", "why_tests_cant": "no test file has MDF 3 sample reductions; that no value can ever be read is a statement about all files", "anchors": ["mdflib/src/sr3block.cpp Sr3Block::Read, ReadData", "mdflib/src/sr3block.h Sr3Block::GetChannelValueT", "mdflib/src/cg3block.cpp Cg3Block::Read, ReadSrList", "include/mdf/isamplereduction.h ISampleReduction::GetChannelValue, GetEngValue", "include/mdf/mdfreader.h MdfReader::ReadSrData"]}
{"id": "C121", "title": "A sorted file has the header, the attachments and the file histories of its source", "statement": "After MdfSorter/MdfConverter has sorted a file, Author, Department, Project, Subject, Description, start time, start angle, start distance and the HdComment of the new file are those of the source; its attachments are listed in order with name, type, flags, checksum, comment and content; its file histories in order with time and comment; events and channel hierarchies are there as well.", "quantifier": "all header texts and comments, all attachments and all file systems at sort time, all lists of histories", "why_tests_cant": "the tests sort files of one writer without attachments; that all texts of every MDF 3 header are lost and that a copied comment is a fixed point of reading and writing are statements about all comments", "anchors": ["mdflib/src/sortingconfigadapter.cpp SortingConfigAdapter::CreateConfig", "mdflib/src/iheader.cpp IHeader::CopyFrom, SetHdComment, GetHdComment", "mdflib/src/at4block.cpp At4Block::CopyFrom, Write", "mdflib/src/mdfreader.cpp MdfReader::ReadInDataBuffer", "mdflib/src/ifilehistory.cpp IFileHistory::CopyFrom"]}
{"id": "C122", "title": "The description, the trigger intervals and the texts of an event are kept", "statement": "IEvent::Description(), PreTrig() and PostTrig() return what was set last (the empty text and 0 if nothing was), whatever else was set on the event and however often the file was saved and opened again; SetEvComment replaces all of them by those of the comment; an event whose comment is a plain text has this text as description. TypeToString, RangeToString, CauseToString and ValueToString of an event and TypeToString of a channel hierarchy give the name of every value and the empty text for any other number; ValueToString gives position times factor and the unit.", "quantifier": "all sequences of setter calls and reopenings, all texts, all finite doubles, all comments, all 256 values of each enumeration", "why_tests_cant": "the tests set one interval of few digits; that setters do not disturb each other in any order and which numbers survive the detour through XML text are statements about all sequences and all numbers", "anchors": ["mdflib/src/ievent.cpp IEvent::Description, PreTrig, PostTrig, TypeToString, ValueToString, RangeToString, CauseToString, SetEvComment", "mdflib/src/imetadata.cpp IMetaData::FloatProperty", "mdflib/src/ichannelhierarchy.cpp IChannelHierarchy::TypeToString"]}
{"id": "C123", "title": "MainVersion, MinorVersion and Name tell the version and the name of a file", "statement": "After MinorVersion(m) with 0 <= m <= 99 on a new file that is then written, a new reader finds MainVersion() 4 (3 for MDF 3) and MinorVersion() m, whatever else is done with the file. Name() is the name that was set, else the stem of the file name (last part of the path without its extension); FileName() is the last file name set. MdfBusTypeToString gives the names of all bits that are set, with commas between them.", "quantifier": "all histories of the ID block before and after it is written, all minor versions, all paths, all sequences of name calls, all bus types", "why_tests_cant": "the tests set one minor version of two digits; which numbers survive and that the name stays with the first file name are statements about all numbers and all sequences", "anchors": ["mdflib/src/mdffile.cpp MdfFile::MainVersion, MinorVersion, FileName", "mdflib/src/idblock.cpp IdBlock::MinorVersion, VersionString", "mdflib/src/mdfenumerates.cpp MdfBusTypeToString"]}
{"id": "C124", "title": "A log message is given to every registered log function", "statement": "A log message is given to each function registered by SetLogFunction1 and SetLogFunction2 since the last ResetLogFunction, as often as it was registered, those of the first kind first and each kind in the order of registration, with its severity and text; empty functions are skipped and nothing else calls a log function. LogToConsole shows a message exactly if its severity is not below the level.", "quantifier": "all sequences of registrations, resets and messages", "why_tests_cant": "the tests register one function; that a reset ends and only a reset ends the calls is a statement about all sequences", "anchors": ["mdflib/src/mdflogstream.cpp MdfLogStream::LogString, SetLogFunction1, SetLogFunction2, ResetLogFunction, LogToConsole"]}
{"id": "C125", "title": "The value and the data type of a tag are returned as they were set", "statement": "ETag::Value<T>() returns the value that was set by ETag::Value(v) for integers, unsigned integers, bytes, doubles and truth values, also after the tag was stored as metadata and the file was saved and opened again; a value outside of the range of T gives the nearest bound, a tag without a value 0 or false. DataType() returns the type that was set; the word of the type is compared without regard to case and any other word is a text.", "quantifier": "all integers and bounds, all 256 bytes, all finite doubles, all texts, all numbers of reopenings", "why_tests_cant": "the tests use short numbers; which doubles and bytes are lost is a statement about all of them", "anchors": ["include/mdf/etag.h ETag::Value", "mdflib/src/etag.cpp ETag::Value, ETag::DataType"]}
{"id": "C126", "title": "Program text, triggers, dependencies and extensions of an MDF 3 file are read as stored", "statement": "An MDF 3 file with program, trigger, dependency and extension blocks as the format lays them out is opened without an exception. The header shows the stored program text, cut after 20 characters; the trigger block holds its events in order and its comment; linear and matrix dependencies and the two kinds of extensions (control unit, CAN message) are held as stored. Extensions of other kinds, and dependencies of several dimensions with up to 256 entries, are skipped.", "quantifier": "all files, positions, texts of up to 65531 bytes, event lists, dependency lists and block sizes", "why_tests_cant": "no test has such blocks; how many events and characters fit is a statement about 16-bit sizes", "anchors": ["mdflib/src/pr3block.cpp Pr3Block::Read", "mdflib/src/tr3block.cpp Tr3Block::Read, Tr3Block::Write", "mdflib/src/cd3block.cpp Cd3Block::Read", "mdflib/src/ce3block.cpp Ce3Block::Read", "mdflib/src/hd3block.cpp Hd3Block::GetBlockProperty"]}
{"id": "C127", "title": "The parent group that is found for a channel is the group that holds it", "statement": "MdfFile::FindParentDataGroup(channel) returns the data group, and IDataGroup::FindParentChannelGroup(channel) the channel group, that holds the channel, also for members of structures; if there is none, nullptr.", "quantifier": "all trees of blocks of MDF 3 and MDF 4 files, all channels, saved or not", "why_tests_cant": "the tests ask for a few channels of saved files; the result for channels that are not saved depends on all blocks in front of them", "anchors": ["mdflib/src/mdf4file.cpp Mdf4File::FindParentDataGroup", "mdflib/src/mdf3file.cpp Mdf3File::FindParentDataGroup", "mdflib/src/dg4block.cpp Dg4Block::FindParentChannelGroup, Dg4Block::Find", "mdflib/src/dg3block.cpp Dg3Block::FindParentChannelGroup", "mdflib/src/mdfblock.cpp MdfBlock::Find"]}
{"id": "C128", "title": "A converter leaves the same file as a writer, and closes it", "statement": "An MdfWriter of type MdfConverter keeps its file open between InitMeasurement and FinalizeMeasurement. The file is the one given to Init; after FinalizeMeasurement it holds, behind what was there before, what was written, in order, the same bytes as those of a writer that opens the file for each writing; it is closed then, and at the latest when the converter is destroyed. Files that were never given to Init are not changed. Without an open file FinalizeMeasurement returns false and nothing is saved.", "quantifier": "all sequences of calls, all files, all contents written, all results of opening and writing", "why_tests_cant": "the tests convert whole files without failures; sequences of calls with failures are not run", "anchors": ["mdflib/src/mdfconverter.cpp MdfConverter::InitMeasurement, FinalizeMeasurement, ~MdfConverter", "mdflib/src/convertersamplequeue.cpp ConverterSampleQueue::SaveQueue", "mdflib/src/mdfwriter.cpp MdfWriter::Open, Close"]}
{"id": "C129", "title": "The pre-trigger time is the time that was set", "statement": "MdfWriter::PreTrigTime() returns the time given to PreTrigTime(s), and PreTrigTimeNs() is that time in nanoseconds.", "quantifier": "all doubles", "why_tests_cant": "the tests set 0, 1 and 1.23 and compare as float, which does not see nanoseconds; the loss depends on the rounding of single values", "anchors": ["mdflib/src/mdfwriter.cpp MdfWriter::PreTrigTime, PreTrigTimeNs"]}
{"id": "C130", "title": "The link of a property is the link of the block", "statement": "BlockProperty::Link of a link in the list of properties of a block (GetBlockProperty) is the link itself, for all 64-bit links; properties that are no links have none. In the list of a CH block each label shows the link stored at its place: next, first child, name, comment and the references of each element.", "quantifier": "all links, all property values, all lists of links and all numbers of elements", "why_tests_cant": "no test reads the list of properties of a block or its links", "anchors": ["mdflib/src/blockproperty.cpp BlockProperty::Link", "mdflib/src/mdfblock.h ToHexString, MdfBlock::Link", "mdflib/src/ch4block.cpp Ch4Block::GetBlockProperty"]}
