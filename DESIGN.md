# Formal model of ihedvall/mdflib in Lean 4

The model is written in Lean 4.33 under `lean/Verif/`.

* `Model/*.lean` holds the definitions. Each cites the file and lines of `/repo` it models and says where it simplifies.
* `Spec/*.lean` holds the small vocabulary the theorems are stated with, independent of the loops of the model.
* `Proof/*.lean` holds the helper lemmas.
* `Props/*.lean` holds the theorems for the properties of `properties.jsonl`, named `C01_...`, each with a concrete
  non-trivial `example` that meets the hypotheses.
* `MANIFEST.json` is generated by `tools/manifest.py` from `tools/claims.json` (status and note per property) and the theorem names.
* `AXIOMS.md` is generated by `tools/axioms.py`: the axioms each claimed theorem depends on, as Lean prints them.
* `seeded/LOG.jsonl` records the wrong programs the theorems were tested against.

## Trusted base

* Lean's kernel (4.33.0), which checks every proof. No `sorry`, no `admit`, no axioms of our own, no `native_decide`, no `bv_decide`.
* The axioms `propext`, `Classical.choice` and `Quot.sound` of Lean's standard library, nothing else (see `AXIOMS.md` per theorem).
* The statements: that the definitions of `Model` say what the C++ code does, and that the theorems say what the English
  properties say. This is a reading of the source, as the code cannot be run here. The cited lines make it possible to compare.
* Where a model takes a parameter, the property of that parameter is a hypothesis of the theorem:
  zlib's deflate and inflate (a lossless pair, for C81 and C82 what zlib.h says of single calls), `localtime` and `mktime` (`Zone.Sound`, proved for fixed-offset Gregorian zones),
  `double` arithmetic in conversions (an ordered field, or only a linear order), `FormatDouble`, `std::stod`.

## Conventions

* Undefined behaviour (access out of bounds, dangling reference, overflow) is a distinct outcome of
  the model (`none` of an `Option`, or a constructor `ub`), never a default value. Exceptions are a distinct outcome as well.
* Sizes and positions are unbounded `Nat` unless the property is about wrap-around; then `BitVec` or `mod 2^k` is used. Casts
  in the code to a smaller type are in the model.
* A property that is false of the code keeps its full statement (a `def ..._Statement : Prop` or the English text), with a proved
  negation (`..._false`) and a `..._partial` theorem that holds. Such properties have the status `partial`.
* Concurrency: a transition is a critical section of the mutex, so every interleaving is a list of transitions. Theorems are by
  induction over such lists.
* The host is little endian, as everywhere the library is used.

## What is modelled

| Model | Code |
|---|---|
| `Bits` | `mdfhelper.cpp`: `RawToUnsigned`, `RawToSigned`, `UnsignedToRaw`, `SignedToRaw` with their bit loops |
| `Channel` | `ichannel.cpp`: value setters and getters; `cn4block.cpp`: `SetValid`, `GetValid`, `PrepareForWriting`, `DataBytes`; `cg4block.cpp`: `PrepareForWriting`; `littlebuffer.h`, `bigbuffer.h` |
| `RecordId` | `dg4block.cpp`: `AddCg4`; record ids in `cg4block.cpp`, `readcache.cpp` |
| `ReadCache`, `ReadRange` | `readcache.cpp`, `dg4block.cpp`: `ReadData`, `ReadRangeData`; `dgrange.cpp`; `mdfreader.cpp`: `ReadPartialData` |
| `Vlsd` | `cn4block.cpp`: signal data; `sd4block.cpp`; `vlsddata.cpp`; VLSD parts of `cg4block.cpp`, `readcache.cpp`, `dg4block.cpp` |
| `Queue` | `samplequeue.cpp`, `writer4samplequeue.cpp`, `convertersamplequeue.cpp`, `writecache.cpp`, states of `mdfwriter.cpp` |
| `Store` | the bytes stored per sample, compressed and not; counters of `cg4block.cpp`; list of DZ blocks |
| `Finalize` | `mdf4file.cpp`: `FinalizeFile`; `hd4block.cpp`, `dg4block.cpp`, `dt4block.cpp`, `cg4block.cpp`: finalizing |
| `Transpose` | `zlibutil.cpp`: `Transpose`, `InvTranspose`; `dz4block.cpp`: `Data`, `CopyDataToBuffer`, `CopyDataToFile` |
| `Block`, `BlockKinds` | `mdfblock.cpp`, `mdfblock.h`: headers, links, lists, updates; the links of the MDF 4 block classes |
| `Text`, `Utf` | `ReadStr`, `WriteStr`, `Trim`; `cutf.cpp`; text decoding of `cn4block.cpp` |
| `Observer` | `idatagroup.cpp`, `isampleobserver.cpp`, `channelobserver.h`, `channelobserver.cpp` |
| `Convert` | `ichannelconversion.cpp`, `ichannelconversion.h`, text conversions of `cc4block.cpp`, `cc3block.cpp` |
| `Can` | `canmessage.cpp`, `canconfigadapter.cpp`, `canbusobserver.cpp`, `IChannelGroup::GetChannel` |
| `Id` | `idblock.cpp`, `mdfreader.cpp`: `IsMdfFile` and the choice of the file class |
| `CanOpen` | CANopen functions of `mdfhelper.cpp`, `ichannel.cpp`, `ichannel.h` |
| `Sort` | `samplerecordobserver.cpp`, `copysampleobserver.cpp`; samples in `sortingtask.cpp`, `mdftask.cpp` |
| `Groups` | `writecache.cpp`: which data groups have queues; `mdf4writer.cpp`: choice of compression; data blocks of `dg4block.cpp`, `writer4samplequeue.cpp` |
| `XmlParse`, `Xml` | `ixmlnode.cpp`, `ixmlnode.h`, `imetadata.cpp`, `expatxml.cpp`: trees, writing, searching; Expat as a state machine over bytes; `CreateMd4Block`; header texts of `hd4block.cpp`; `md4block.cpp`, `tx4block.cpp` |
| `Md5` | `cryptoutil.cpp`: MD5 of files and buffers |
| `Attach` | `at4block.cpp`: writing, reading; list of attachments of `hd4block.cpp`; `ExportAttachmentData` of `mdfreader.cpp`; `Deflate` of a file with its buffer size |
| `Time` | `timestamp.cpp`: `UtcTimestamp`: texts of dates and times |
| `Comment` | `mdcomment.cpp`, `mdlist.cpp`, `mdproperty.cpp`, `mdenumerate.cpp`, `mdstring.cpp`, `mdstandardattribute.cpp`, `mdalternativename.cpp`, `mdformula.cpp`, `mdsyntax.cpp`, `mdvariable.cpp`: structured comments |
| `CommentApi` | mdproperty.cpp / mdproperty.h (Value as number, truth value, time), mdlist.cpp (GetProperty, GetEnumerate) |
| `HdComment` | hdcomment.cpp (without UNIT-SPEC) |
| `Array` | ca4block.cpp (Write, Read, FindAllReferences, PrepareForWriting, ResizeArrays, Shape, the growing of lists), ichannel.cpp (ArraySize) |
| `Refs` | hd4block.cpp `Find` (order of the search as a list), ch4block.cpp (links of elements, FindReferencedBlocks); the links stored are `Info.refs` of Model/Block |
| `Bus`, `Lin`, `Eth`, `FlexRay`, `Most` | linmessage.cpp, ethmessage.cpp, flexraymessage.cpp, mostmessage.cpp (`ToRaw` as lists of writes, the getters and setters of LIN), the composition channels of linconfigadapter.cpp, ethconfigadapter.cpp, flexrayconfigadapter.cpp, mostconfigadapter.cpp (offsets, sizes, types; not names, units, conversions), the choice of the kind in samplequeue.cpp 207-387 |
| `Block3`, `Mdf3Meta` | mdfblock.cpp for MDF 3 (`Write`, `Update`, `UpdateLink`, `UpdateBlockSize`, `ReadHeader3`, `ReadLinks3`, `ReadTx3`), `Write` and `Read` of hd3block.cpp, dg3block.cpp, cg3block.cpp, cn3block.cpp, cc3block.cpp, tx3block.cpp, `CleanQueue` of samplequeue.cpp as far as it changes the file |
| `Session` | ichannel.h `SetChannelValue`, `GetChannelValue`; cn4block.cpp `SetTextValue`, `SetByteArray`, `GetTextValue`, `GetByteArrayValue`; `SetTimestamp` of ichannel.cpp as bytes; the sample buffers of the groups, joined with `Queue`, `Store`, `Channel`, `Observer` to one run from the calls of the application to the file. Not: CANopen and complex data types, channels with a VLSD group or MLSD channel |
| `Task` | mdftask.cpp, sortingtask.cpp `Run`, validatingtask.cpp as operations on files, each of which may fail; what sorting and validating make of the contents are parameters (C57 for sorting) |
| `ZStream` | the loops of zlibutil.cpp around `inflate` and `deflate`; dz4block.cpp `Data`, `CopyDataToBuffer`, `CopyDataToFile` with them. zlib's calls are parameters, Spec/ZStream.lean has what is known of them |
| `BusName` | iconfigadapter.cpp `MakeGroupName`, the group names of the five configuration adapters, and how samplequeue.cpp finds the kind of a message in them |
| `CanCall` | canbusobserver.cpp with `OnCanMessage` set, the time stamp of the message |
| `DataWriter` | idatawriter.h `SetValue`, cg4datawriter.cpp, samplequeue.cpp `AddSample` with a given record |
| `NumText`, `Number` | mdnumber.cpp, mdnumber.h; the library functions between `double` and text |
| `CommentKinds` | cncomment.cpp, evcomment.cpp, fhcomment.cpp, sicomment.cpp, ccunit.cpp, cnunit.cpp |
| `Csv` | mdf2csv/src/csvwriter.cpp; mdfviewer/src/util/csvwriter.cpp, mdfviewer/src/mdfdocument.cpp (`CreateCsvFile`) |
| `Format` | mdfhelper.cpp (`FormatDouble`); ichannel.cpp (`SetChannelValue`, `GetChannelValue` with a text) |
| `DataList` | datalistblock.cpp; reading of dl4block.cpp, ld4block.cpp, hl4block.cpp; copying of datablock.cpp, dz4block.cpp; sr4block.cpp, sr4block.h |
| `Ho`, `HoComment` | honamedetails.cpp, hointerval.cpp, hoscaleconstraint.cpp, hocompuscale.cpp, hocompumethod.cpp, hounit.cpp, hophysicaldimension.cpp, hounitgroup.cpp, horevision.cpp, hoadmindata.cpp, hounitspecification.cpp, hoenumerates.cpp, cccomment.cpp, hdcomment.cpp with UNIT-SPEC; numbers are rationals, without infinities and NaN |
| `TypedObs` | the type an observer keeps its values in (mdfreader.cpp `CreateChannelObserver`), the casts of ichannel.h, channelobserver.h, ichannelobserver.h; integer and float channels; a float is sign and magnitude, infinity or NaN; `static_cast<float>` without overflow and underflow |
| `CsvFiles` | mdf2csv createfilelist.cpp `ConvertMdfFile`, `StripName`, main.cpp (loop over the files); the CSV text of a group is a parameter (`Csv`) |
| `Opening` | the loop of `Cn4Block::Read` over the composition of a channel, `ReadBlockType` |
| `Reader` | `mdfreader.cpp`: `ReadHeader`, `ReadMeasurementInfo`, `ReadEverythingButData`, opening and closing; `hd4block.cpp`, `hd3block.cpp`, `dg4block.cpp`, `dg3block.cpp`, `cg4block.cpp`, `cg3block.cpp`: which lists of blocks are read when; `ReadLink4List` |
| `Append` | `writecache.cpp` and `mdfwriter.cpp`: choice of the queue of a sample, start time of the file; `cg3block.cpp`, `cg4block.cpp`, `samplequeue.cpp`: sample counters over several sessions (one group at a time; times are numbers) |
| `Lookup` | `ichannelgroup.cpp`, `idatagroup.cpp`: find and create by name, master channel; `mdfreader.cpp`: channel of an observer made by name; `platform.cpp`: comparison without regard to case (ASCII letters) |
| `StartTime` | `mdf3timestamp.cpp`, `mdf4timestamp.cpp`: set, write, read, kind of the start time; start time of a sorted file (`iheader.cpp`, `sortingtask.cpp`). The zone of the computer is a parameter |
| `SortConfig` | `sortingtask.cpp`, `mdftask.cpp`: data groups and channels of a sorted file; `CopyFrom` of `cg4block.cpp`, `cn4block.cpp`, `ca4block.cpp`; `GetXChannel` (comments are the texts read of them) |
| `ExpLog` | `ichannelconversion.cpp`: logarithmic and exponential conversions, over the real numbers |
| `CApi` | `mdflibrary/src/MdfExport.cpp`: transfer of texts, lists and bytes between the library and the memory of the caller |
| `BusConfig` | groups made by `CreateConfig` of the bus adapters; `mdfwriter.cpp`: `CreateBusLogConfiguration` |
| `SourceInfo` | `iconfigadapter.cpp`: `CreateSourceInformation`, the fixed channel of `CreateBusChannel`; `isourceinformation.cpp` |
| `Half` | `half.hpp`: the tables and `half2float_impl`, used by `DbcHelper::RawToHalf` |
| `InitFile` | `mdfwriter.cpp`: `Init`, `Open`, `IsOpen`, `Close`, and which files `InitMeasurement`, saving and `FinalizeMeasurement` open; `OpenMdfFile` |
| `XAxis` | `Cn4Block::Write`, `DefaultX`; `Cg4Block::Write`, `GetXChannel`; `Dg4Block::Write`, `UpdateDefaultX`; `Hd4Block::Write`: positions and the links of X axes |
| `Members` | `Cn4Block::CreateChannelComposition`, `Init`, `Type`, `DataType`, `DataBytes`, `BitCount`, `ByteOffset`, `BitOffset`, `Flags` of members of structures |
| `Sr3` | `Sr3Block::Read`, `Write`, `ReadData`, `GetChannelValueT`; `Cg3Block::ReadSrList`; `ISampleReduction::GetChannelValue`, `GetEngValue` |
| `SortHead` | `SortingConfigAdapter::CreateConfig`, `IHeader::CopyFrom`, `At4Block::CopyFrom`, `IFileHistory::CopyFrom`, `MdfReader::ReadInDataBuffer` |
| `EventApi` | `IEvent`, `IMetaData::FloatProperty`, `IChannelHierarchy::TypeToString` |
| `FileApi` | `MdfFile` (versions, names), `MdfLogStream`, `MdfBusTypeToString` |
| `TagValue` | `ETag::Value`, `ETag::DataType` |
| `Rare3` | `Pr3Block`, `Tr3Block`, `Cd3Block`, `Ce3Block`, the program item of `Hd3Block::GetBlockProperty` |
| `Parent` | `FindParentDataGroup`, `FindParentChannelGroup`, `Find` of the block classes |
| `Converter` | `MdfConverter`: which file is open when |
| `PreTrig` | `MdfWriter::PreTrigTime`, `PreTrigTimeNs` |
| `BlockProp` | `BlockProperty::Link`, `ToHexString`, links of `Ch4Block::GetBlockProperty` |
| `Lock` | `writecache.cpp`: `WorkThread`; `samplequeue.cpp`, `writer4samplequeue.cpp`, `convertersamplequeue.cpp`: order of locking, unlocking and use of the queue |
| `Double` | times in `samplequeue.cpp`, `ichannel.cpp`, `samplerecordobserver.cpp` as `double` |
| `Mdf3` | `cn3block.cpp`: positions and types; `cg3block.cpp`, `dg3block.cpp`, `dt3block.cpp`: records; MDF 3 part of `samplequeue.cpp` |

## Plan per property

* **C01 Little-endian bit fields read back what was written** — `Verif/Model/Bits.lean`: the shift/mask loops as structural recursion on the number of remaining bits over a byte list with explicit out-of-bounds outcome (`none`). Proof: characterise the written buffer bit by bit, then read = value mod 2^len by induction on the length.
* **C02 A bit field write touches only its own bits** — Same model; per-bit frame theorem for the write loop.
* **C03 Big-endian bit fields read back what was written** — Same model; negation by a concrete witness, positive theorem under the condition that makes the two conventions agree.
* **C04 Signed bit fields are sign-extended** — Model the union-bitfield truncation and the sign-extension switch of RawToSigned; BitVec/Int proof.
* **C05 Reading a channel value never reads outside the record** — Model GetUnsignedValue with the buffer access as an `Option`-valued operation (out of bounds = distinct UB outcome); prove that UB is unreachable.
* **C06 Setting a channel value never writes outside the sample buffer** — Model SetUnsignedValueLe/Be; prove UB unreachable for Le, negation for Be.
* **C07 A channel value set in a sample reads back** — Round trip through the byte level model, both byte orders.
* **C08 Invalidation bits are independent per channel** — SetValid/GetValid over the sample buffer; bit-frame theorem and induction over call sequences.
* **C09 Channel layout is disjoint and covers the record** — PrepareForWriting as a fold over the channel list; invariant = prefix sums of sizes.
* **C10 Record ids are unique and fit the record id size** — AddCg4 as a list operation; counting argument on thresholds.
* **C11 Samples written are the samples read** — Writer = append of id bytes and record; reader = ReadCache model; refinement to the abstract list of samples.
* **C12 The split into data blocks is invisible to the reader** — ReadCache state (block index, byte index, remaining blocks); refinement: state ↦ remaining flat byte list; every operation commutes with the abstraction.
* **C13 Empty data blocks do not hide later data** — Concrete witness by `decide` on the ReadCache model.
* **C14 Groups nobody subscribes on are skipped without disturbing others** — SkipBytes refinement (drop on the flat list), then equality of delivered samples filtered by subscription.
* **C15 Partial read delivers exactly the requested samples** — ParseRangeRecord model; delivered = full delivery filtered on the index range.
* **C16 Variable length values read back through their offset** — Signal data as byte list; offsets = prefix sums; induction over appends.
* **C17 A corrupt VLSD offset is rejected** — Index check in BitVec 64 arithmetic; UB outcome when the access is out of bounds.
* **C18 VLSD group offsets match the stored data** — WriteVlsdSample's running index against the stream position.
* **C19 No sample is lost, duplicated or reordered by the writer thread** — Queue + file + schedule of {save, activate} steps; invariant file ++ queue = history.
* **C20 The pre-trig buffer keeps every sample inside the window** — TrimQueue as a recursion on the queue; timestamps as UInt64/BitVec where wrap matters.
* **C21 A pre-trig time longer than the elapsed time keeps all samples** — Witness by `decide`; positive theorem when pre_trig ≤ start.
* **C22 Compressed chunks concatenate to the uncompressed stream** — CleanQueueCompressed as a fold with buffer and emitted chunks; invariant concat chunks ++ buffer = stream.
* **C23 The sample counters equal the number of records in the file** — Counters in the writer state; invariant.
* **C24 Finalizing restores the counters** — Finalizer as a parser of the stream; counts vs the abstract list of records; witness for stale counter.
* **C25 Finalizing agrees with the writer on VLSD sizes** — Both counters as functions of the list of VLSD values; difference is 4·n.
* **C26 Blocks are 8-byte aligned and never overlap** — File as byte list; Write pads to 8 and appends; invariant over write sequences.
* **C27 Block headers read back** — Byte-exact header encoding and decoding; frame property of overwriting.
* **C28 A block list is read back in order** — Abstract heap of blocks with link 0; WriteLink4List and ReadLink4List; fuel-indexed reader for non-termination.
* **C29 Transposition of compressed data is lossless** — Transpose as the in-place index permutation loop; round trip over List.
* **C30 Observers get exactly the records they subscribe on** — Observer list and fast observer map; list semantics.
* **C31 Linear and table conversions follow the MDF rules** — Conversions over ℚ (floating-point rounding is not modelled) with tables as lists.
* **C32 Copying a conversion keeps its behaviour** — CopyFrom on the reference list; witness.
* **C33 CAN data length code covers the data** — Finite table of lengths, exhaustive.
* **C34 CAN frames survive the raw record** — ToRaw byte writes; decoding by bit position.
* **C35 Text survives the conversions between UTF-8 and UTF-16** — cutf_append/cutf_next/utf16 conversions on lists of bytes.
* **C36 Fixed-size text fields are padded, truncated and read back** — WriteStr/ReadStr on byte lists.
* **C37 The measurement life cycle only allows legal transitions** — Writer state machine with worker activations.
* **C38 Samples after the stop time are not written** — Same state machine; witness schedule.
* **C39 Unfinalized marking round-trips** — ID block bytes.
* **C40 Channel observers store each sample at its place** — Observer value list; induction over OnSample calls.
* **C41 CANopen date and time round-trip** — Arithmetic on days/milliseconds.
* **C42 MDF3 channel positions round-trip** — Nat arithmetic mod 2^16; fold for the layout.
* **C43 MDF3 record streams read back** — MDF3 stream writer/reader.
* **C44 Bytes numbers round-trip in both byte orders** — Byte order encodings.
* **C45 Truncated data give no samples that were not written** — ReadCache model on a byte list that ends anywhere; the delivered samples are a prefix; witnesses for the unsubscribed case.
* **C46 Reading a data group ends** — The read loop with explicit fuel; a bound on the number of steps by the bytes left; a witness that never ends.
* **C47 Validity of a variable length sample is kept** — SetTextValue/SetByteArray followed by the offset store; negation by witness.
* **C48 Written signal data are found by ReadVlsdData** — WriteSignalData's choice of block against the block types ReadVlsdData accepts.
* **C49 The master time of every sample is relative to the start time** — Transition system of writer and thread with the time stamp as history variable; invariant; witness schedule.
* **C50 Stopping a measurement ends** — Measure on the states of the transition system that decreases with every step of the thread.
* **C51 Recovery after a crash** — Writer stream cut at any byte, finalizer model, reader model; case analysis on where the cut is.
* **C52 CAN messages are read back as saved** — ToRaw, the channels of the CAN groups and CanBusObserver::OnSample as a state machine; induction over the notifications.
* **C53 MDF3 channels can be placed at any bit** — The two setters of Cn3Block in both orders; exact result; negation.
* **C54 MDF3 data types round-trip** — Signal type codes as in Cn3Block::DataType; case analysis and induction over later setters.
* **C55 Values set on metadata objects are read back** — `Write` and `Read` of the values of each block class (Model/Meta), the setters and getters (Model/MetaApi); `Read` undoes `Write` class by class, at the place where the tree of blocks puts it (C28); the last call counts by induction over the calls.
* **C56 Metadata of a file that was cut off** — the reader of Model/Block on the first k bytes of the file; how each class reads its values decides (numbers throw, `ReadStr` does not, sample data are not read); mutual induction over the tree gives the exact result.
* **C57 Sorting keeps the samples of every channel group** — the observer that puts records and values together (Model/Sort) as a fold over the notifications of C11; what it needs of the notifications is the reading of the needed records alone; the copied samples go through the writer of C19/C11 with the settings of the converter queue; the result is read with C11 again.
* **C58 The time of a sample survives storing and reading** — doubles are rationals, rounding is to the nearest number of 53 bits (proved nearest against an independent definition); error bounds by monotony of rounding; induction over the number of copies.
* **C59 Data groups saved in the same file keep their own samples** — the file as bytes that only grow, each data group with its data block (position and length) or its compressed chunks (Model/Groups); a pass over the queues in any order. Invariant: a data group that is saved again has its data block at the end of the file. The full statement is false (witness); proved if the data groups of earlier measurements have no empty channel groups.
* **C60 Metadata and header texts are read back as set** — the XML text as bytes, Expat as a state machine (Model/XmlParse), the writer and the node functions (Model/Xml). First: writing then parsing gives the tree back (induction over the tree). Then: documents refine a list of properties and a map of texts, each setting changes only what it names; induction over the settings. The full statement is false (witnesses); proved for texts without control characters.
* **C61 MD5 checksums are those of RFC 1321** — the code with its 64 byte buffer as a state machine over reads (Model/Md5), RFC 1321 written down independently (Spec/Md5: padding, functions, index and shift formulas). Invariant over the reads: state = blocks done so far, buffer = rest; the table of the code equals ⌊2^32 |sin(i+1)|⌋ by bounds on the sine series (Proof/Md5Sine).
* **C62 Attached files are listed in order and given back as they were** — file system as a partial function of names, zlib as a codec with inflate ∘ deflate = id, the list of AT blocks as objects with positions and links (Model/Attach). Invariant of the list (`AtLinked`), induction over the pass that writes the list; checksums by C61.
* **C63 Texts of dates and times stand for the times they say** — the scanner as a state machine over bytes (Model/Time), the calendar of C41; ISO texts and their times written down independently (Spec/Time). The scanner is run over the segments of a text with symbolic digits; the calendar functions are inverse by induction over years and months.
* **C64 Structured comments are read back** — the classes of a comment as structures, the tree of properties as a nested inductive type, written to and read from the nodes of the XML model (Model/Comment). What is read is written down part by part (`readBack`, Spec/Comment). Attributes: the list that is written, and a reader that folds over it; trees: mutual induction over trees and lists with the entries in the order of their names, so that inserting into a map is appending. The calls that add keep the hypotheses (Proof/CommentAdd).
* **C65 A value set on a property is the value returned** — the conversions by type (Model/CommentApi): decimal, hexadecimal and ISO texts. `std::to_string`, `std::stoull` with base 10 and 16 and the ISO functions of C63 are modelled on bytes. Round trips by the lemmas on decimal texts (C64), on hexadecimal digits (new) and C63; with `readBack` of C64 they hold after writing and reading.
* **C66 A property is found by its path** — the recursive search (Model/CommentApi) is shown equal to the first match in a list of the properties by depth (Spec/Lookup: `deep`), by mutual induction over the trees; paths are a relation `Has` in Spec/Lookup.
* **C67 The fields of a header comment are kept** — Model/HdComment: setters as insertions into the map of properties, the XML nodes of the header comment. By induction over the calls the properties are a sorted map in which the first insertion wins; `hd_read` reduces reading to C64's lemmas.
* **C68 The definition of a channel array is read back** — Model/Array: the block as links and values. `Write` is shown to give the concatenation of the segments of the links that the flags ask for (and to fail exactly if data links are missing); reading takes the segments apart with an index into the list of links (`Seg` lemmas). What has to come back is given by `ReadAs` in Spec/Array. With the invariant of the block model (C26) it holds in every file.
* **C69 The elements of a channel array are where the file says** — the channel model (C01) with an array index against the channel of a single value at the place that the definition gives.
* **C70 References between blocks lead to the right block** — the block model already stores the positions of referred blocks when the writing of a block begins. Spec/Refs reads off the tree which block is written before another is begun (`Node.before`). `writeNode_refs` (Proof/Refs, induction over the tree with the invariant of C26) gives each link after a write: the position of its block, or zero. A reader finds the block by position (positions are distinct, C26).
* **C71-C74 LIN, Ethernet, FlexRay and MOST messages are found again** — `ToRaw` is a list of writes to the record (`BusOp`), the group a list of channels. Spec/Bus says what a member means in terms of the message, and what must be found (`BusFound`). Proof/Bus gives every bit of the record after a list of writes, and every field that each write covers or misses; the channels are read with the theorems of C05. One lemma per kind then compares the two lists.
* **C75-C78 what an MDF 3 file keeps** — Spec/Block3 says when a file holds a tree of blocks (`NodeOk3`), and what a history is (`Session3`: write, write again after changes, save samples). Proof/Block3, Tree3, TreeWrite3 show that each step keeps this, TreeRead3 that the reader then finds the tree (`view3`), Session3 does the induction over histories together with the bytes of the samples. Spec/Mdf3Meta gives what is kept of each value (`seen`); Proof/Mdf3Meta shows per class that its `Read` returns this.
* **C79 the values set are the values read** — joins C08/C09 (channels and layout), C18/C19 (queue and thread), C33/C11 (records in blocks and their parsing), C40 (observers), C44 (signal data): a session is any list of `SetChannelValue`, `SaveSample` and steps of the thread; Spec/Session says with `savedAs` what an application expects. Proof/SessionValue shows that a value set is shown and that setting other channels or elements keeps it, Proof/SessionRun does the induction over the calls.
* **C80 a task changes no file but its destination** — a task is a list of steps on a file system; the states between all single changes are kept, also those in the middle of a copy. Proved by an invariant of the steps (`KeepsFs`) and by following the steps that went well.
* **C81 decompression gives back what was compressed** — zlib's calls as state machines of which only this is known: they take input in order, put out the data in order, and go on until input or room is used up. Induction over the calls of the inner loop and the rounds of the outer loop; all ways in which zlib may divide its work are covered.
* **C82 a compressed block gives back its data** — C81 for buffers with C29. A zlib with stored blocks (Proof/ZStored.lean) shows where it fails, and that the assumptions can be met.
* **C83 bus messages are stored as messages of their group's kind** — names as lists of characters; a lemma on texts that start with an underscore and have no other reduces all names to the finite table of kinds.
* **C84 CAN messages are handed to the callback once each** — the calls of one sample from any state after the samples before it, then induction over the samples; records of other groups change nothing.
* **C85 The bulk data writer stores what it is given** — refinement: the buffer is the last whole record with, for each channel, the bytes of the value set since; kept by every call, since channels of a layout do not overlap (C09).
* **C86 A number in a comment is the number it was given** — `%f`, `%g`, `stod` and hexadecimal texts on bytes (Model/NumText), a `double` as a rational number. The text is shown to stand exactly for the nearest number with six decimals (six significant digits), reading gives the nearest `double` (Model/Double); numbers of so few digits are apart by more than the rounding of a `double`, so they are kept.
* **C87 Comments of channels, events, history, sources and units are kept** — each comment is a list of pieces of XML with a tag of its own; by C64's lemmas the document is parsed into them, and each of the two loops over the children reads its own pieces and skips the others.
* **C88 A CSV file says what was exported** — Spec/Csv is a reader of CSV files (RFC 4180) as an automaton with four states; both writers are functions on bytes. Each cell is shown to take the automaton to the end of a field with the right text; for the viewer the calls are followed by a table that they build up, with an invariant between the counters of the writer, the table and the state of the reader.
* **C89 The text of a value names the value** — `FormatDouble` on rational numbers with the decimal texts of C86; all texts have the form sign, digits, point, digits, and dropping or adding zeros keeps the number; the error is that of the last rounding. Integers: C07 with the texts of `stoull` and `stoll`.
* **C90 The data behind a link are those of its blocks, in order** — a file is a map from positions to blocks; Spec/DataList has inductive relations for chains of lists and the blocks they lead to. Reading follows the relation by induction; all functions on the tree of lists are shown to depend on its data blocks only; copying block by block keeps the bytes copied before.
* **C91 Records stored by columns are put together** — C90 with the record reader of C11; the links to invalidation bytes are never followed, a file with two records is the witness.
* **C92 Mean, minimum and maximum of a sample reduction are those stored** — the three copies into the record buffer by position arithmetic (32 bit positions, 64 bit sums); slices of the stored records.
* **C93 A computation method in a conversion comment is kept** — nodes as in C87; each reader is a fold over the children, shown piece by piece; numbers by the digits of C86 and the nearest `double`. The words of all kinds are told apart by cases.
* **C94 A unit specification in the header comment is kept** — the same for units, dimensions, groups and revisions; maps ordered by identity are read back as they were (insertion in order); for a sequence of calls the first with an identity wins.
* **C95 A value asked in another type is the value of the record** — the type kept by the observer is at least as wide as the channel, so each cast is the identity on the numbers of the channel (`Int.bmod`, `%`); a float of 16 or 32 bits has at most 24 significant bits, so rounding to single precision does not change it; composed with C05 (bits of a record) and C40 (samples of an observer, reading a file).
* **C96 mdf2csv gives each group with samples a file of its own** — the loops are flattened to a list of (file name, text); the names are injective because of the counter of data groups and the different names in a group; the state of the disk by induction over the list.
* **C97 Opening a file ends** — if reading runs out of steps, it has followed a way of as many links; a way that never comes back to a position is not longer than the file (pigeonhole), so there are enough steps. Uses the reader of C26–C28 with every family of block classes.
* **C98 Reading the description in steps gives the same description** — a file is a function from kind and position of a block to its links and contents; the reader is a state of lists of objects. A call that succeeds from nothing makes every list the whole list of the file; a whole list is not changed by a further call; a larger call after a smaller one goes through the same states as the larger one alone. Failures: invariant that all lists are beginnings of those of the file, over all sequences of calls.
* **C99 Objects handed out stay valid while the reader lives** — every object has a number that is never used again; the numbers in the state before and after a call are compared.
* **C100 A reader leaves its file open or closed as it was** — the open state of the stream as a state machine, all cases.
* **C101 Compressed data is stored in blocks of at most 4 MB** — invariant over all runs of the queue (`Queue` model): the buffer and all blocks hold fewer than 4,000,000 bytes or one sample alone. The lengths of the contents come from the storing model (`Store`).
* **C102 A sample is stored in the channel group it was saved for** — the list of queues made by `WriteCache::Init` as a function of the counters; case analysis of the two lookups.
* **C103 The sample counters in the file** — a group's counters as a state machine over writing, storing and opening again; invariants over all histories, and for MDF 4 the exact value.
* **C104 The start time in the file** — `StartMeasurement` in two steps with the thread in between; induction over all call sequences.
* **C105 Channels and groups are found by name** — search in lists; which index is found is characterised exactly for all lists, then compared with the claim.
* **C106 Creating by name** — a view is a text and a length, since the code passes on the start of the text; induction over all call sequences.
* **C107 Observers by name** — the two loops as folds with an invariant: the best channel so far.
* **C108 MDF 3 start time** — numbers as bit vectors, so that the unsigned division by hours is the one of C++; the texts through the calendar theorems of C63.
* **C109 MDF 4 start time** — bytes of the header fields; sorting composes `StartTime()` of the source with `SetTime(uint64_t)` of the copy.
* **C110 A sorted file describes the channels of its source** — a channel is a tree; copying by structural recursion; what a reader sees of source and copy is compared over all channels in order.
* **C111 Logarithmic and exponential conversions** — the functions over ℝ with `Real.log` and `Real.exp` of Mathlib; the logarithm of a number that is not positive is a separate result.
* **C112 The sample queue is used only under its lock** — each function as the list of its lock operations and uses of the queue, for all that it can meet; `std::unique_lock` as a state machine over such lists; induction over samples and queues.
* **C113 The C interface stays within the caller's memory** — memory as a list, copying as a partial function; the protocol “ask for the size, then fetch” stated for any getter; induction over the copying loop.
* **C114 The groups of a bus log** — a data group as list of groups, record ids by position; invariant of the references kept by every step of every adapter; induction over the kinds and the adapters.
* **C115 The source information of bus groups** — the comment as in C87, its properties through the sorted map of the XML reader; the numbers by the decimal text of C86.
* **C116 Half precision numbers** — the tables of the source equal their formulas, entry by entry by evaluation in the kernel; the value by cases of the exponent, subnormal numbers by the logarithm.
* **C117 The file of a writer** — files as a map from names to bytes, faults given with the calls; an invariant (a writer about to make a file waits for a name no file has) over all careful sequences.
* **C118 X axis** — positions as a map; writing as folds; one lemma on what is written before, by and after an element of a list, used at all levels.
* **C119 members of structures** — invariants of the setters by induction on the calls; frames of C79 restricted to a part of a channel.
* **C120 MDF 3 sample reductions** — induction on the chain of blocks; invariant that the block list of every reduction read is empty.
* **C121 header of a sorted file** — a comment that is read, written and read again is the comment that was read (mutual induction over trees of properties, attribute maps as sorted lists); the attachments by the invariant of linked blocks of C62.
* **C122 texts and intervals of an event** — the calls are mapped to the calls on metadata of C72 and its induction is reused; numbers by the lemmas on six significant digits of C86.
* **C123 version and name of a file** — the histories of C39 end in a version text that the two functions read (all thousand texts by the kernel); stems by splitting the reversed path; names by induction over the calls.
* **C124 log functions** — the lists of functions are those registered since the last reset, by induction over the calls from their end.
* **C125 values of tags** — digits of a number are read back (lemmas of C67 and C86); in the file by C122.
* **C126 rare MDF 3 blocks** — headers by `readHeader3_at` of C120; the loops over events and dependencies by induction over the list.
* **C127 parent groups** — `Find` finds a block exactly if the tree holds one at the position (mutual induction over the tree); positions of saved blocks differ by C26.
* **C128 converter** — invariant over call sequences (what is open is what was named); equality of the files by induction over the writings, with the writer of C117.
* **C129 pre-trigger time** — error bounds of the rounding of Model/Double (C58), and floor of the rounded product.
* **C130 links of properties** — digits and value of hexadecimal text by induction (Proof/CommentApi); the list of a CH block by cases on the label.

## What is not modelled

* Of the XML comments (C60, C64–C67): extensions, the dates of revisions as times, UTF-8 checks of Expat, XML texts the library does not write.
* Names, units and conversions of the channels of bus messages; of `dbchelper` what is not used for channels; `mdfbuslogger`.
* zlib, expat, file buffers of the C++ library (writes succeed, except where a property is about failure), memory exhaustion.
* Attachments: file names and MIME types are not checked, read errors in the middle of a file. Structures as compositions.
* Formulas of algebraic conversions; rounding in logarithmic and exponential conversions (modelled with real numbers in `ExpLog`).
* Rounding of `double` except for times (C58); NaN. Values of float channels are bit patterns.
* MDF 3: trigger, program, sample reduction, dependency and extension blocks (none can be made through the API); text ranges of conversions (no setter).

### Simplifications inside modelled code

* The data list of a data group is one block slot in `Block`; the update of the DT block length at the end, `UpdateVlsdChannel` and
  the like are covered as link updates (`BOp.link`) only.
* References between blocks that are not ownership (attachments of a channel, hierarchy elements, event scopes) are `Info.refs`.
* One data group at a time in `Queue`; other groups share nothing with it but the file.
* Compressed blocks are given by their inflated content when reading.
* MDF 3: headers are rewritten in place, which does not change the length of the file; the order in which queues are
  cleaned is left open; the link is cut to 32 bits when it is read.
* `ID` block: errors while writing are not modelled.

## Findings

Places where the code does not do what a user would expect. For those with a property id the negation is proved in Lean.

* C01, C05: bit positions above 2^31 are cast to `int`; `ByteOffset * 8` wraps at 32 bits, `array_index * BitCount` at 64 bits.
* C03: big-endian bit fields are written and read with different start conventions.
* C06: `SetUnsignedValueBe` checks the wrong bound and writes outside the sample buffer.
* C09: layouts of 4 GiB and more wrap and overlap.
* C13: an empty data block hides the data after it.
* C15: a partial read is off by one (MDF 3 as well).
* C17: a VLSD offset close to 2^64 passes the check and reads out of bounds.
* C21: a pre-trigger time larger than the start time wraps, and samples are lost.
* C24, C25, C51: finalizing adds to stale counters, counts the length bytes of VLSD values, counts an incomplete last record or throws;
  unsupported flags make it repeat the additions at every opening; only the last data group is finalized.
* C28: cyclic links are never left (`ReadLink4List`, `Cn4Block::Read`).
* C30, C40: with one subscribed record id all observers are notified; channel observers are attached twice and called twice; an
  array index beyond the array is not rejected; `GetSampleByteArray` ignores the array size.
* C31, C32: conversions that have not been written have `nof_values_ == 0` and use the default; MDF 3 conversions never learn the data type of
  their channel; failed text conversions are reported as valid; engineering texts end at the first blank; copies of text
  conversions lose all references.
* C33, C34, C52: more than 64 data bytes give DLC 0; MLSD storage with a maximum length below 8 makes records longer than
  declared; longer data are cut and then read as zeros; the observer looks for `RO` instead of `R0`, never for `ErrorType`, and stores the
  bit position as frame duration; the DLC is overwritten by that of the data length.
* C35: surrogates are encoded separately with a 32-bit `wchar_t`; `utf8towide` overflows its buffer with a 16-bit `wchar_t`.
* C36: a text field at the end of the file is filled with 0xFF.
* C37, C38, C49: samples are written although the measurement never started; finalizing without stopping resets the queue; the stop time has no effect;
  a race between starting and the thread leaves master times uncalculated.
* C39: the version and the program set after the first write are not stored; reading an empty file marks the ID block as written.
* C41: the text of a CANopen time takes nanoseconds as milliseconds; times before 1984 and after 65536 days wrap; dates from 2070 on are read as 1970 and later.
* C43: more than 256 groups share record ids; empty records end the reading of all groups of the data group.
* C45, C46: phantom samples and reads outside a buffer when data end inside a record nobody needs; empty records without record id are read for ever.
* C47, C48: the validity of a variable length sample is lost; compressed signal data linked through an HL block is not found.
* C53: the byte and the bit position of an MDF 3 channel overwrite each other.
* C54: an MDF 3 date or time channel cannot become a byte array.
* C55: time zone and daylight saving offsets are returned as unsigned numbers (-60 minutes is 65476); a parameter of a bitfield conversion set with `Parameter(double)` is read as an integer with the bits of the number; a conversion with 65536 parameters is read with none; `Range(min, max)` of a conversion with max not above min keeps an earlier valid flag; the time, angle and distance values of data list blocks are written but not read; `CreatorIndex` of an event keeps 16 bits.
* C56: `ReadStr` does not notice the end of the file: a name or comment in which the file ends is returned filled up with the character 0xFF instead of an exception.
* C57: sorting puts a record together with the variable length value that was read last with the same running number. If values and records are not stored alternately, records get wrong values or are lost; a value used by two records and two variable length channels in a group lose data as well. Values in signal data blocks are not copied (the offsets in the records point to nothing). Samples without bytes are not copied. Seen in the code, not modelled: the result of `ReadData` is ignored, so a source that cannot be read is sorted "successfully"; the length channel of an MLSD channel is not copied; the offset of a value is always stored in the last 8 bytes of the record, whatever channel is there.
* C58: times are cut off, not rounded, when nanoseconds are calculated from seconds: about one time in 36 (evaluating the model) becomes 1 ns smaller each time a file is sorted (15 ns becomes 14 ns). With a master channel that counts nanoseconds different times become equal (17 and 18 are both 17).
* C59: a data group of an earlier measurement is saved again if one of its channel groups has no samples (usual for bus logger files without remote or error frames). Without compression its data block is then extended to the end of the file, over the blocks of all later data groups, although nothing is saved for it: its readers get the blocks of others as records. If its data are compressed and the new measurement's are not, the program ends when the measurement is stopped. If the new measurement is compressed, samples saved for the old data group are lost.
* C60: a control character in one text makes all metadata of the block unreadable, also what was set before; carriage returns are lost; line feeds and tabs in names, units and descriptions become blanks; blanks around texts are removed; a property that is set again keeps its old unit, description, type and language (`SetAttribute` does not replace); names that differ only in case are one property; a property with properties below it loses its value, unit and type; the plain comment of the header is lost when the first metadata or header text is set. `FloatProperty` writes six digits (no theorem).
* C62: an attachment that is to be embedded and compressed is refused if the file is empty or its compressed form is longer than the file and than 100 bytes (the output buffer of `Deflate` has only the size of the input; files that are compressed already). If another attachment follows, the update of the link throws and the whole write fails: `InitMeasurement` returns false and hierarchy, events and data groups are not written (C62_refused_aborts). If it is the last, `InitMeasurement` reports success, the attachment is missing while measuring (C62_refused_last), and `FinalizeMeasurement` writes it without content: exporting it fails (C62_refused_finalized).
* C63: a fraction of a second with 1, 2, 4, 5, 7 or 8 digits is read wrongly (".5" is 5 ms). The minutes of a negative offset are added instead of subtracted ("-03:30" is taken as -02:30, "-00:30" as +00:30). An offset without a colon is taken as hours ("+0100" as 100 hours). Texts of `ToIsoTime` are read as dates. The limit of nine digits looks at the wrong text.
* C64: after reading, the attributes that the library wrote (`name`, `type`, ...) are also among the attributes of the user, because the reader takes every attribute but `ci` and `lang`. A property of type hex is read as an integer. The value of an enumeration is not written. The indexes of a variable are written as `idx_list_pattern`, read from `idx`, and the loop never collects one. `AddTree` does not look at lists and enumerations: a list with the name of a tree is written and not read. Names with blanks around them collide after reading. An index (`ci`) of 2^63 or more makes `std::stoll` throw; `catch (const std::exception_ptr&)` does not catch it, and the rest of the comment is not read. `FromXml` does not clear the comment: properties that are there keep their values.
* C65: a property of type hex that was set to a number returns 0 (`std::stoull` of `0x..` with base 10) until the comment was written and read (then its type is integer, for which `0x` is known). A property of type date returns the year as its value, of type time the hour, of type boolean 0.
* C66: `GetProperty("b/x")` ignores the name `b`: it looks for `x` in all trees. If another tree has an `x`, that one can be returned, and a path with trees that do not exist finds properties.
* C67: `HdComment::Author(..)` and the other setters call `AddProperty`, which does nothing if the property is there: a second call has no effect (an error is logged). `HdComment::ToXml` does not write the alternative names and the formula.
* C68: an array with storage `DgTemplate` whose data links were never asked for makes `UpdateLink` throw when it is written: the whole file is not written. A shape with 65536 dimensions or more is cut to 16 bits. `ResizeArrays` does not resize the list of conversions. `GetBlockProperty` counts three output links for each dimension (display only).
* C69: `byte_offset_base_` of the file is ignored: values stored with gaps are read from wrong places. `PrepareForWriting` stores 0 as base of the validity bits, though each element has its own bit: other programs take all elements for invalid or valid together.
* C70: hierarchies are written before data groups, so their elements get zero links in a file written at once (ch4block.cpp 79-88, hd4block.cpp 529-544), and they stay zero. The reader takes the elements from link 5 on, the writer puts them at link 4 (ch4block.cpp 80 and 151), so they are not read in any case. References of arrays to their own data or channel group are zero (written before them). Parent and range of an event are kept only if they are earlier in the list.
* C71: the direction of LIN frames is written to bit 6 and read from bit 7 (linmessage.cpp 169, linconfigadapter.cpp 126); the checksum model of a receive error is written to byte 11 and read from byte 9 (linmessage.cpp 328, linconfigadapter.cpp 318); the start of frame channel of wake up and spike messages has 8 of 64 bits. More than 8 data bytes in a group with mandatory members only read back as zeros.
* C71, C72: the channels of Ethernet groups and of LIN transmission errors follow the setting of the writer, the records that of the data group, which is the adapter's (ethconfigadapter.cpp 71, 170; linconfigadapter.cpp 21, 418).
* C73: `FlexRayChannel()` and `FlexRayChannelMask()` in the record functions are new values of the enumeration types, not the members (flexraymessage.cpp 55, 305): always 0. The records are two bytes longer than their channels, so the position of the data bytes is stored two bytes behind its channel in all groups but that of the full PDU: only the first message finds its data. A frame is accepted by a group of frame headers, whose name contains "_Frame" (C73_wrong_group).
* C76: the position of the samples of an MDF 3 data group is stored once (samplequeue.cpp 469-487), the samples go to the end of the file. If anything else was appended in between, the reader takes those bytes for samples.
* C77: the parameters of an MDF 3 conversion are `std::variant<uint64_t, double>`; `WriteNumber` writes the 16 bytes of the variant (cc3block.cpp 317, 326), `Read` takes 8 for each. A linear conversion loses its factor: it reads as the index of the variant and uninitialised padding.
* C78: the size of a text block has 16 bits: long texts (names, comments) are cut or lost. 65531 to 65534 bytes are read by luck: the size to read wraps below zero and the text ends at its zero.
* C79: a channel of variable length that has not been set holds position 0 in the record and so shows the first value set later (cn4block.cpp 808-864: nothing is stored at the start); `SetTextValue` copies the UTF-8 bytes whatever the encoding of the channel (808-835), while `GetTextValue` decodes; `SetChannelValue` of a number on a channel of bytes does nothing, not even set the validity (ichannel.h 753-757).
* C80: tasks use a file in the directory for temporary files with the name of the destination (sorting) or source (validating) and remove what is there (mdftask.cpp 111-160). Sorting /tmp/a.mf4 to another directory under the same name removes /tmp/a.mf4 before it is read. Paths are compared as texts only. When copying back in place fails, the file is cut and the temporary copy is removed by the destructor. `CopyTempFile` does nothing, and reports no error, if the destination exists and may not be overwritten.
* C82: `Deflate(buf_in, buf_out)` has room for 100 bytes more than the data (zlibutil.cpp 108-118). zlib needs 5 bytes for each stored block (16383 bytes with the default memory level) and 6 bytes more, so data that cannot be compressed and have more than 294894 bytes do not fit; data blocks have up to 4 MB. `Dz4Block::Data` returns false then, which no caller looks at, the block is written with its end missing, and `CopyDataToBuffer` copies more bytes than were decompressed (dz4block.cpp 127-134: a read out of bounds).
* C83: `bus_channel_` is a `uint8_t`, which `MakeGroupName` prints as a character (iconfigadapter.cpp 342, 348): the group for channel 1 is named "CAN", a control character and "_DataFrame"; channel 0 gives a zero byte in the middle of the name. `SaveLinMessage` looks for the kind anywhere in the name, so a bus named "Body_Frame" has all its messages stored as frames. "_Frame" is found in "_FrameHeader" (samplequeue.cpp 343).
* C84: `FireCallback` does not set the kind of the message (canbusobserver.cpp 243-253), so all are data frames. `current_sample_index_` is not set back, so a second reading with the same observer reports all messages with the last sample number, and with a VLSD group twice, the first time with the data of the one and the members of another message. What the callback returns is not looked at.
* C85: `SetValue` does nothing if the type of the value has not the size of the channel (idatawriter.h 77-79) and returns `void`, so `SetValue(layout, 5)` on a 64 bit channel is lost. It stores the bits of the value, so a `float` in an integer channel of 32 bits becomes another number, and it does not touch the validity bits. The buffer gets its size when the writer is made: made before `InitMeasurement`, it stays empty. `IChannel::SetTimestamp` (ichannel.cpp 961-1070) copies the time without looking at the size of the record, so `AddSample` with a record that is too short writes outside of it.
* C86: `MdNumber(double)` and `Number(double)` use `std::to_string`: 2⁻³⁰ becomes 0. `Min`, `Max` and `Average` are written with six significant digits: 1234567 is read as 1234570. The data type is not written. `Number<uint32_t>()` of a hexadecimal number reads "0" and stops at "x".
* C87: `EvComment::ToXml` does not write the alternative names, `SiComment::ToXml` not the formula, `FhComment::ToXml` neither, although all of them can be set. A unit that was read has its reference also as an attribute of the reference.
* C74: a MOST message with 65536 data bytes has both lengths 0.
* C88: `CsvText` of mdf2csv puts quotes around a text with quotes but does not double them: `a"b` makes the file unreadable, `x";"y` becomes two columns; titles have the same problem. The viewer doubles quotes but puts no quotes around the text unless it has a comma, a space or a control sign. `AddColumnValue` of an integer does not begin a new row when the row is full. `Convert` uses the first observer without checking it, although it checks the others.
* C89: `FormatDouble` replaces a text of more than 6 + decimals signs by six significant digits: 1234567.5 with six decimals is shown as 1.23457E+06, 100000.5 as 100000, 12345678 with one decimal as 1.23457E+07. Samples and converted values are shown so. The cast to `int64_t` is undefined for numbers of 2⁶³ and more; without decimals 0.49999999999999994 is shown as 1. Byte arrays are read as hexadecimal digits but set as letters.
* C90: cyclic chains of DL or LD blocks are followed for ever; signal data and reductions of a file that was cut off are filled with zeros without an error.
* C91: `ReadLinkList` follows the first `nof_blocks_` links of an LD block only, so the blocks of invalidation bytes (DI, RI) are never read. The record reader nevertheless takes the invalidation bytes of each record from the values: all records but the first are shifted and the last ones are lost.
* C92: for the same reason all values of a reduction in RV and RI blocks are reported as valid. An interval beyond the last one gives zeros reported as valid. Positions are cast to `int`: beyond 2 GiB all values are zeros, near 4 GiB bytes before the buffer are copied, beyond 4 GiB the values are those of other intervals.
* C93: the names of a computation method, of a unit and of a dimension are written but never read. `HoCompuScale::ToXml` does not write the validity. A limit without a number (such as an infinite one) is not written. `HoCompuMethod::IsActive` does not look at the category, so a category alone is not written.
* C94: `HoPhysicalDimension` writes MOLAR-AMOUNT-EXP and LUMINOUS-INTENSITY-EXP but reads MOLAR-EXP and LUMINOUS-EXP: both exponents are lost.
* C95: a virtual channel has no bits in the record, so `CreateChannelObserver` chooses the narrowest type: `int8_t` for a signed one (sample 128 has the value -128) and `float` for a float one (samples 16777216 and 16777217 have the same value). Only unsigned ones get 64 bits.
* C96: two groups of a data group with the same name get the same CSV file: the second is not exported (or, with overwriting, the first is lost). The same if the names differ only in blanks or punctuation. `output_path_` is set from the first measurement file and kept: the CSV files of the others are put there as well, and skipped if the names meet. `std::isspace` gets negative values for characters outside ASCII (undefined).
* C97: a list of blocks that leads back to one of its members is read without end, and memory grows with each turn (176 bytes are enough). `Cn4Block::Read` looks at the block type of a composition once and loops while the link is not zero; for other types than CA and CN the link is never changed, so files with `##DS`, `##CL`, `##CV` or `##CU` compositions (MDF 4.2 and 4.3) hang the reader.
* C98: `ReadLink4List` reads only if the list is empty, and `Hd4Block` does not forget a list that was cut off by an exception. After a failed `ReadMeasurementInfo` the same call returns true, and the groups behind the break are missing without notice. MDF 3 reads its lists anew in each call, but a header cut off in the first call counts as read in the second.
* C99: `Hd3Block::ReadMeasurementInfo` clears the list of data groups and reads it anew: the sequence `ReadMeasurementInfo`, take a data group, `ReadEverythingButData`, `ReadData` (group) uses a destroyed object.
* C100: `MdfReader::ReadInDataBuffer` opens the file if `was_open` is true and never closes it if it was closed.
* C101: in front of a sample that needs 4,000,000 bytes or more an empty compressed block is written (`CleanQueueCompressed` flushes the buffer without a look at its size). With C13 this hides the sample: the reader stops at an empty block.
* C102: if a file is opened again and exactly one data group has a group without samples, `GetSampleQueue(channel_group)` returns its queue for every channel group; samples saved for other groups are written among its records and shift all that follow.
* C103: `Cg4Block::Write` knows where the counter is only in the session that made the block. Samples stored into an empty group of a file that was opened again are written, but the counter in the file stays 0 and readers deliver none of them. In MDF 3 the counter is written anew but starts again at 0.
* C104: `StartMeasurement` sets the state in which the thread stores samples before it asks whether it is the first measurement. If the thread runs in between and stores held-back samples, the start time is not set, and the file keeps the time the header was made.
* C105: `GetChannel(name)` returns the first channel whose name *contains* the text. `GetChannel("Speed")` returns `SpeedLimit` if it comes first, though there is a channel `Speed`.
* C106: `CreateChannelGroup(string_view)` and `CreateChannel(string_view)` pass `name.data()` on, so a view of a part of a text gives an object with the whole text as name.
* C107: an observer made by name ignores case, so it may observe another channel than the one of exactly that name.
* C108: `Mdf3Timestamp::SetTime(uint64_t)` divides a negative offset as an unsigned number. In UTC-5 the UTC offset in the file is 12282 hours. In zones with half an hour the half hour is lost.
* C109: `GetTzOffsetMin` returns `uint16_t`: -300 is returned as 65236. Sorting copies the start time by its number alone, so a local start time becomes one in UTC, and the local time of an MDF 3 file counts as UTC.
* C110: sorting an MDF 3 file gives channels without names, of zero bits, in records of zero bytes, and reports success (`CopyFrom` of the MDF 4 blocks takes nothing from MDF 3 blocks).
* C110: an array with an axis is not copied when sorting, as reading fills its list of axis conversions even if all are null. The channel keeps its first element only.
* C110: the X channel set with `DefaultX` is lost by sorting, the flag for it is kept.
* C111: a logarithmic conversion of a value for which the logarithm does not exist returns `true`, with a value that is no number or minus infinity.
* C112: if a data group has no data block of its own (data compressed earlier, C59), `SaveQueue` returns without locking again. The next queue of the turn is not saved (`unlock` throws); at the end of the thread this ends the program, as does every exception of a file operation there.
* C113: `MdfChannelObserverGetChannelValueAsArray` copies `size` bytes, the room of the caller, instead of the size of the value: with more room than needed it reads behind the value (`MdfExport.cpp` line 768). `MdfChannelConversionGetReference` copies the formula and returns the size of the reference, so memory of the size told can be overrun (lines 660-663). The getters of ranges and limits use an empty `std::optional` if there is none. Texts with a zero byte are cut, but their full size is told. The getters of lists have no parameter for the room.
* C114: `CreateBusLogConfiguration` makes nothing for FlexRay, but returns true. A second call keeps the named groups and adds VLSD groups; the former ones are no longer referred to. Ethernet adapters with different filters use the same groups. With `MandatoryMembersOnly` groups of remote and error frames are made, although only data frames should be saved (`mdfwriter.h`).
* C115: a message length that is the only setting is not stored in the comment. The conversion "Fixed Bus Channel" is never made, as `MessageFilter()` is the default value of the enumeration and not the filter of the adapter (`iconfigadapter.cpp` 364-365).
* C117: if an existing file cannot be opened (for six seconds), `Init` returns false but leaves the writer in the state in which `InitMeasurement` empties the file. `Init` with a stream does not clear the file name; a `filebuf` of the caller is then closed and opened on the former file, which is emptied. A file made by another program between `Init` and `InitMeasurement` is emptied. After an exception while reading, `InitMeasurement` writes into the file that was not understood. `StartMeasurement` before `InitMeasurement` makes the latter fail for a new file.
* C118: a reference to a channel of a later data group is stored as zero links and never completed; the reader gets an empty reference and `GetXChannel` silently the master of the own group. A channel of a composition loses its own data group and channel group. `DefaultX(y)` of a written channel has no effect on what `DefaultX()` returns.
* C119: the layout skips members of structures. A member without `ByteOffset` overwrites the first channel of the group (usually the time); one with `InvalidValid` makes the first channel with validity bits invalid, or is always valid if there is none. A value set on a member behind a bit offset is not moved there and replaces the whole byte, so a flag at bit 3 set to 1 reads 0 and sets the flag at bit 0.
* C120: values of MDF 3 sample reductions can never be read. `Cg3Block::Read` reads the link to them only if the block tells more than 30 bytes (the format has 30), and `Sr3Block::ReadData` asks the empty `block_list_` for the size of the data, finds 0 and reads nothing. `ReadSrData` returns true and all values are zero and invalid.
* C121: `IHeader::CopyFrom` sets author, department, project, subject and description of the new header and then replaces its comment by `GetHdComment` of the source. An MDF 3 header has no metadata, so all five texts of every MDF 3 file are lost when it is sorted.
* C121: an attachment with the original size 0 (its file was missing or empty when the source was written) is looked up again at sort time: the sorted file gets the content of whatever file then has that name, or, if that file cannot be compressed and the attachment is not the last, sorting fails.
* C121: `ReadInDataBuffer` ignores a short read: the copy of a truncated attachment is filled with zeros up to its full size.
* C121: `SortingConfigAdapter::CreateConfig` copies neither events nor channel hierarchies.
* C122: `PreTrig` and `PostTrig` are written with six significant digits: 1234567 s is returned as 1234570 s, also without saving the file.
* C122: the description of an event whose comment is a TX block, which the format allows, is not returned by `Description()`; it appears as soon as any setter was called, as that makes an MD block of it.
* C122: `ValueToString` writes six significant digits, so events at 2000000 s and 2000001 s have the same text.
* C123: the comment of `MinorVersion()` says it returns 1 for version 4.1; after `MinorVersion(1)` it returns 10, and so for every number of one digit; `MinorVersion(105)` makes the text "4.5" beside the number 405.
* C123: the class of a file is chosen by the version number in the ID block, `MainVersion()` is told by the version text; nothing compares them, so a file read as MDF 4 can tell main version 3.
* C123: a file object that is given another file name keeps the name of the first one.
* C124: a log function that is registered twice gets each message twice; there is no way to remove a single function.
* C125: a `double` as value of a tag keeps six significant digits: 1234567.0 is returned as 1234570.0.
* C125: a `uint8_t` or `int8_t` as value of a tag is stored as the character with this code: 9 to 13 and 32 are returned as 0, and read as another integer type most are 0.
* C125: `Value<bool>()` of a tag with an integer value tells whether its first digit is 1: 2 is false, 10 is true.
* C126: a program block that tells less than four bytes is read up to the next zero byte of the file (the size wraps to nearly 2^64).
* C126: `Tr3Block::Read` checks for 8 of the 24 bytes of an event, so a block that is 16 bytes short makes the file unreadable if it is the last one; `Write` of 2731 or more events wraps the size, most of them are lost.
* C126: the dimensions of a dependency are read from index 256 on, so for up to 256 entries neither dimensions nor dependencies are read.
* C127: `FindParentChannelGroup` of a channel that is not saved returns the first channel group with a block that is not saved, because all have position 0; `FindParentDataGroup` returns nullptr.
* C128: `MdfConverter::InitMeasurement` that fails to write the blocks returns false but leaves the file open and samples are saved; a second `FinalizeMeasurement` returns false (that of other writers returns true).
* C129: `PreTrigTime(s)` cuts the product instead of rounding it, so a time of 15 ns becomes 14 ns; a negative time is undefined behaviour.
* C130: `Ch4Block::GetBlockProperty` shows the link of the next block as first child and as name; `BlockProperty::Link` of a negative link is 2^63 - 1.

Seen while reading, without a theorem: `PopSample` uses a reference to a removed element;
`Dz4Block::CopyDataToBuffer` may read out of bounds; `Sd4Block` and `Cn4Block` search a map nothing is
inserted in; `Tx4Block::Read` underflows for block lengths below 24; the scope of an event is kept as `const void*` and cast to `MdfBlock` (ev4block.cpp 195) although users pass a pointer to `IDataGroup` or `IChannel`, the second base
class; `At4Block::Write` stores the wrong data position, its file buffer is never closed and `CopyBytes` writes 0xFF after the end of a file; `Mdf3Writer` reports success when writing fails; `IdBlock::MinorVersion`
makes "4.5" of 105; `CanMessage::Reset` keeps the CRC; `CleanQueue` (MDF 3) loses the first sample after the stop time; a comment set on an MDF 3 group while
measuring is written into the data; `Dg3Block::ReadRangeData` reads at the wrong position when there are sample reductions;
MDF 3: the link to sample reductions is never read, the texts of text ranges are lost, the name of a group is not stored, a start time set as UTC is returned as local time;
`Dg4Block::UpdateDefaultX` (dg4block.cpp 600-611) updates channels that are not nested, for targets already written; `Cn4Block::Read` (416-438) does not
end if the composition is neither an array nor a channel; the comments of history, events and sources leave out names or formulas that were set;
`Sr3Block::Read` reads no data block, so `DataSize()` is 0 and the reductions of MDF 3 files never have values.
* `kDataTypeList` in hoenumerates.cpp has "A_UNIT8" and the like for "A_UINT8". `HoUnit::Identity` sets the short name as well, reading does not. The exponents of a dimension are written without the prefix "ho:".
