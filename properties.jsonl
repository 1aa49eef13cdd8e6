{"id": "C01", "title": "Bit stream round trip", "statement": "Writing any sequence of bit fields (WriteBits) with the bit writer and reading the bytes back with the bit reader (ReadBits) using the same widths returns the same values in the same order, whatever the widths and alignment; the bytes emitted are exactly the fields concatenated most-significant-bit first.", "quantifier": "every list of (value, width) pairs whose total width is a multiple of 8, every following byte string", "why_tests_cant": "Widths, values and alignments combine without bound; a test fixes a handful of alignments.", "anchors": ["internal/bitio/write.go: writer.WriteBits, writer.WriteBit", "internal/bitio/read.go: reader.ReadBits, reader.ReadBit"]}
{"id": "C02", "title": "Bit reader exactness and refusal of misaligned byte reads", "statement": "ReadBits(n) succeeds exactly when at least n unread bits remain, returns precisely the next n bits right-aligned, and leaves precisely the rest; Read and Seek relative to the current position are refused with ErrInvalidAlignment in the middle of a byte and otherwise behave as on the underlying reader.", "quantifier": "every reader state reachable by any sequence of operations, every n, every byte string", "why_tests_cant": "Correctness depends on the hidden (octet,width) state after an arbitrary history of reads.", "anchors": ["internal/bitio/read.go: reader.Read, reader.ReadBits, reader.ReadBit, reader.Seek"]}
{"id": "C03", "title": "Box header read is exactly the ISO header grammar", "statement": "ReadBoxInfo, at any position of any byte string, either returns the offset, size, header size, type and extend-to-EOF flag that the ISO/IEC 14496-12 header grammar assigns to the bytes there, with the stream positioned at the payload, or returns an error exactly when the header is truncated or its effective size is 0. It never panics.", "quantifier": "every byte string and every start position", "why_tests_cant": "All 2^32 size fields, all 2^64 large sizes and all truncation points matter.", "anchors": ["box_info.go: ReadBoxInfo, BoxInfo.SeekToPayload"]}
{"id": "C04", "title": "Box header round trip", "statement": "A header written by WriteBoxInfo and read back by ReadBoxInfo yields the same type, size, header size and offset, provided the BoxInfo is self-consistent; the returned BoxInfo always reports the true offset and the true header length.", "quantifier": "every BoxInfo value and every writer position", "why_tests_cant": "Size and header-size combinations (small/large/extends-to-EOF, boundary 2^32) are unbounded.", "anchors": ["box_info.go: WriteBoxInfo, ReadBoxInfo"]}
{"id": "C05", "title": "Marshal then Unmarshal returns the same box", "statement": "For every registered box type and every value of it that the format can represent (integers fit their field widths, counts agree with slice lengths, strings contain no NUL, absent optional fields are zero, supported version), Marshal succeeds and Unmarshal of the produced bytes with payloadSize = number of bytes written returns an equal box and the same byte count.", "quantifier": "every registered box type, every representable value, every context, any bytes following the payload", "why_tests_cant": "The value space (nested arrays of any length, optional fields selected by flags/version/context) is infinite; the tests use one or two literals per box.", "anchors": ["marshaller.go: Marshal, Unmarshal, UnmarshalAny", "field.go: resolveFieldInstance, isTargetField", "box_types_*.go"]}
{"id": "C06", "title": "Marshal reports exactly what it wrote", "statement": "When Marshal returns (n, nil) to a writer that accepts everything, exactly n bytes have been appended to the writer, and they are the field encodings in tag order, most significant bit first.", "quantifier": "every registered box type, every value, every context", "why_tests_cant": "Depends on every nested value and on the alignment carried between fields.", "anchors": ["marshaller.go: Marshal, marshalStruct, marshalSlice, marshalUint, marshalInt, marshalString, writeUvarint"]}
{"id": "C07", "title": "Unmarshal then Marshal reproduces the payload", "statement": "If Unmarshal of a payload consumes all of it and the payload is in canonical form, Marshal of the result writes the identical bytes.", "quantifier": "every registered box type, every byte string accepted by Unmarshal", "why_tests_cant": "Ranges over all parseable files.", "anchors": ["marshaller.go: Unmarshal, Marshal"]}
{"id": "C08", "title": "Unmarshal never panics", "statement": "Unmarshal/UnmarshalAny of any registered box type on any byte string with any declared payload size and any context returns normally or with an error; it never panics.", "quantifier": "every registered box type, byte string, payload size (up to 2^64-1), context, start position inside the stream", "why_tests_cant": "Hostile inputs are unbounded; a fuzzer samples.", "anchors": ["marshaller.go: Unmarshal, UnmarshalAny, unmarshalSlice, readerHasSize", "box_types_*.go: GetFieldSize, GetFieldLength"]}
{"id": "C09", "title": "Unmarshal stays inside the payload", "statement": "When Unmarshal returns (n, nil), n <= payloadSize and the stream position has advanced by exactly n bytes.", "quantifier": "every registered box type, byte string, payload size, context and start position", "why_tests_cant": "Needs every branch of every field layout; an overrun on one rare layout is a parser differential.", "anchors": ["marshaller.go: Unmarshal"]}
{"id": "C10", "title": "Unmarshal depends only on the payload bytes", "statement": "The outcome of a successful Unmarshal (box, n) is determined by the payload window: replacing the bytes after the payload by anything else gives the same result.", "quantifier": "every registered box type, payload, pair of following byte strings", "why_tests_cant": "A relation between two runs on arbitrary data.", "anchors": ["marshaller.go: Unmarshal", "box_types_iso14496_12.go: Meta.BeforeUnmarshal"]}
{"id": "C11", "title": "Unmarshal terminates", "statement": "Unmarshal returns on every input, in a number of steps bounded by the number of bits available.", "quantifier": "every registered box type, byte string, payload size, context", "why_tests_cant": "Non-termination cannot be observed by a finite test, and the bad inputs are rare.", "anchors": ["marshaller.go: unmarshalSlice, unmarshalStringC, readUvarint", "box_types_iso14496_12.go: Trun.GetFieldSize"]}
{"id": "C12", "title": "Unsupported version is reported and the stream is rewound", "statement": "Unmarshal of a versioned box whose version byte is not among the registered versions returns ErrUnsupportedBoxVersion, reports n = 0 and leaves the stream position where it was before the call, so that the caller can skip or copy the box.", "quantifier": "every registered versioned box type, every version byte, every following bytes", "why_tests_cant": "256 versions times all types times all payloads.", "anchors": ["marshaller.go: Unmarshal, unmarshalStruct", "mp4.go: BoxType.IsSupportedVersion"]}
{"id": "C13", "title": "Entry counts equal the number of entries", "statement": "After a successful Unmarshal of a box with an explicit entry-count field, the length of the entry list equals the count field.", "quantifier": "every counted box type and every byte string", "why_tests_cant": "The count ranges over all 32-bit values, including the library's own 'unlimited' sentinel.", "anchors": ["marshaller.go: unmarshalSlice", "box.go: LengthUnlimited", "box_types_iso14496_12.go: GetFieldLength methods"]}
{"id": "C14", "title": "Marshal reports writer failures", "statement": "If any write to the destination fails during Marshal, Marshal returns an error.", "quantifier": "every box value, every destination writer, every failing write call", "why_tests_cant": "Every crash point of every value; unit tests write to a bytes.Buffer that never fails.", "anchors": ["marshaller.go: marshalSlice, marshalUint, writeUvarint", "internal/bitio/write.go"]}
{"id": "C15", "title": "Marshal rejects too-short lists", "statement": "If a list (at any nesting depth) has fewer elements than its count field says, Marshal returns an error rather than producing a short payload.", "quantifier": "every box value with a count mismatch at any depth", "why_tests_cant": "Any nesting level and any count.", "anchors": ["marshaller.go: marshalSlice"]}
{"id": "C16", "title": "Marshal never panics", "statement": "Marshal of any value of any registered box type returns normally or with an error.", "quantifier": "every registered box type, every Go value of it, every context", "why_tests_cant": "The value space is infinite (versions, nil pointers).", "anchors": ["marshaller.go: Marshal, marshalPtr", "box_types_iso14496_12.go: Elst.GetFieldSize, Tfra.GetFieldSize", "box_types_iso14496_14.go: Descriptor"]}
{"id": "C17", "title": "Flag operations form the expected algebra", "statement": "After SetFlags(f), GetFlags returns the low 24 bits of f; AddFlag sets exactly the given bits, RemoveFlag clears exactly the given bits, CheckFlag(f) is true iff some bit of f is set; none touches the version.", "quantifier": "every version, every flag state and every 32-bit argument, every sequence of operations", "why_tests_cant": "2^24 x 2^32 states.", "anchors": ["box.go: FullBox.GetFlags, SetFlags, AddFlag, RemoveFlag, CheckFlag"]}
{"id": "C18", "title": "Compatible brand set operations", "statement": "AddCompatibleBrand makes HasCompatibleBrand true for that brand and changes no other brand; RemoveCompatibleBrand makes it false and changes no other brand; adding twice equals adding once; removal terminates and never panics.", "quantifier": "every brand list (with duplicates, any length), every brand, every history of operations", "why_tests_cant": "Lists of any length with duplicates in any position (removal swaps with the last element).", "anchors": ["box_types_iso14496_12.go: Ftyp.AddCompatibleBrand, RemoveCompatibleBrand, HasCompatibleBrand"]}
{"id": "C19", "title": "Box definition lookup", "statement": "For every type and context, the definition used is the most recently registered one whose context condition holds; numbered items are used only under ilst for ids 1..key count and only when no registered definition applies; IsSupported, New, GetSupportedVersions and IsSupportedVersion all agree with that choice.", "quantifier": "every registration history, box type, context and version", "why_tests_cant": "The registry is a global mutable map; histories are unbounded.", "anchors": ["mp4.go: getBoxDef, AddBoxDef, AddBoxDefEx, AddAnyTypeBoxDef, AddAnyTypeBoxDefEx, IsSupported, New, IsSupportedVersion"]}
{"id": "C20", "title": "Structure traversal visits the box tree in file order", "statement": "On a well-formed file, ReadBoxStructure with a handler that expands every box calls the handler once per box, in file order, with the true path, offset, size and header size of each box.", "quantifier": "every well-formed forest of nested boxes of any depth and width", "why_tests_cant": "Trees of unbounded depth and width.", "anchors": ["read.go: ReadBoxStructure, readBoxStructure, readBoxStructureFromInternal"]}
{"id": "C21", "title": "The handler cannot derail the traversal", "statement": "Whatever the handler does with its handle (ReadPayload, ReadData, Expand, any number of times and in any order, or seeking the stream anywhere), if it returns nil the next sibling is read from exactly offset+size of the current box.", "quantifier": "every handler program, every file", "why_tests_cant": "Handlers are arbitrary programs.", "anchors": ["read.go: readBoxStructureFromInternal, BoxInfo.SeekToEnd"]}
{"id": "C22", "title": "Children lie inside their parent", "statement": "Every box passed to the handler from Expand of a box lies within the byte range of that box.", "quantifier": "every byte string, every handler, every depth", "why_tests_cant": "Hostile sizes (including 64-bit) at any depth.", "anchors": ["read.go: readBoxStructure (too large box size check), Expand"]}
{"id": "C23", "title": "Structure traversal terminates", "statement": "ReadBoxStructure returns on every finite input for every terminating handler.", "quantifier": "every byte string, every handler", "why_tests_cant": "Non-termination is not observable by tests; needs wrap-around of 64-bit sizes.", "anchors": ["read.go: readBoxStructure", "box_info.go: ReadBoxInfo"]}
{"id": "C24", "title": "Handler errors and values are propagated", "statement": "The first error returned by a handler aborts the traversal and is returned unchanged; otherwise the returned values are the handler's results in file order, at the root and from every Expand.", "quantifier": "every file, every handler", "why_tests_cant": "All handler programs and all error points.", "anchors": ["read.go: readBoxStructure, readBoxStructureFromInternal"]}
{"id": "C25", "title": "ExtractBoxes returns exactly the matching boxes", "statement": "On a well-formed file, ExtractBoxes returns exactly the boxes whose path matches one of the given paths (with BoxTypeAny as wildcard), in file order, each once; boxes of type 0x00000000 are never returned.", "quantifier": "every well-formed forest, every list of paths", "why_tests_cant": "Unbounded trees and path sets.", "anchors": ["extract.go: ExtractBox, ExtractBoxes, matchPath", "read.go: BoxPath.compareWith", "mp4.go: BoxType.MatchWith"]}
{"id": "C26", "title": "ExtractBoxesWithPayload decodes each box in its own context", "statement": "The payload returned for each extracted box is the one ReadPayload would give for that box during a traversal (same context).", "quantifier": "every file, every path list", "why_tests_cant": "Context is built from the whole chain of ancestors.", "anchors": ["extract.go: ExtractBoxesWithPayload", "box_info.go: Context"]}
{"id": "C27", "title": "Context propagation", "statement": "During traversal the context of a box is determined by its ancestors and preceding siblings as documented: UnderWave/UnderIlst/UnderIlstMeta/UnderIlstFreeMeta/UnderUdta are set exactly below such boxes and never leak to siblings; QuickTime compatibility is set exactly after a root ftyp with brand 'qt  '.", "quantifier": "every file, every handler", "why_tests_cant": "Depends on whole histories of ancestors and siblings.", "anchors": ["read.go: readBoxStructureFromInternal, readBoxStructure"]}
{"id": "C28", "title": "Writer produces correct sizes for any nesting", "statement": "For every well-nested sequence of StartBox / Write / EndBox, the bytes produced are the serialisation of the corresponding box tree: every header carries the true size of its box and payload bytes are unchanged.", "quantifier": "every box tree (any depth, width, payloads) whose sizes fit the chosen header form", "why_tests_cant": "Sizes are patched afterwards by seeking back; all nestings matter.", "anchors": ["write.go: Writer.StartBox, Writer.EndBox, Writer.Write", "box_info.go: WriteBoxInfo"]}
{"id": "C29", "title": "Writer then reader is the identity on box trees", "statement": "Reading back with ReadBoxStructure what the Writer produced for a tree visits exactly that tree.", "quantifier": "every box tree within header limits", "why_tests_cant": "Composition of two unbounded recursive procedures.", "anchors": ["write.go", "read.go"]}
{"id": "C30", "title": "CopyBox copies the box byte for byte", "statement": "CopyBox appends exactly the bytes [offset, offset+size) of the source box at the writer's position, or returns an error if the source is shorter; it never writes anything else.", "quantifier": "every source, BoxInfo and destination", "why_tests_cant": "All offsets/sizes including >= 2^63.", "anchors": ["write.go: Writer.CopyBox"]}
{"id": "C31", "title": "EndBox failure modes", "statement": "EndBox either patches the header and returns to the end of the box, or returns an error without having damaged payload bytes already written.", "quantifier": "every tree, including boxes growing past 4 GiB", "why_tests_cant": "A 4 GiB payload is impractical in a unit test.", "anchors": ["write.go: Writer.EndBox"]}
{"id": "C32", "title": "Sample table expansion", "statement": "Probe's sample list of a track is the pointwise combination of the run-length tables: sample i has the size from stsz (constant or i-th entry), the time delta of the stts run containing i and the composition offset of the ctts run containing i.", "quantifier": "every stts/ctts/stsz table of any length", "why_tests_cant": "Run lengths are arbitrary 32-bit counts.", "anchors": ["probe.go: probeTrak"]}
{"id": "C33", "title": "Chunk table expansion", "statement": "Probe's chunk list has one entry per stco/co64 offset, in order, with the samples-per-chunk of the last stsc run whose first chunk is at or before it.", "quantifier": "every stco/co64 and stsc table", "why_tests_cant": "Arbitrary tables.", "anchors": ["probe.go: probeTrak"]}
{"id": "C34", "title": "Fast start detection", "statement": "Probe reports FastStart iff a moov box precedes every mdat box (and there is an mdat after it), judged on root boxes.", "quantifier": "every sequence of root boxes", "why_tests_cant": "All orders of root boxes.", "anchors": ["probe.go: Probe"]}
{"id": "C35", "title": "Bitrate functions", "statement": "GetBitrate is total bits times timescale over total duration (0 when the duration is 0); GetMaxBitrate is at least the bitrate of every window of the given duration it examines; neither panics nor loops forever.", "quantifier": "every sample list, timescale and window", "why_tests_cant": "Arbitrary sample lists.", "anchors": ["probe.go: Samples.GetBitrate, Samples.GetMaxBitrate, Segments.GetBitrate, Segments.GetMaxBitrate"]}
{"id": "C36", "title": "FindIDRFrames", "statement": "FindIDRFrames returns exactly the indices of samples that contain an IDR NAL unit and terminates.", "quantifier": "every sample layout and NAL structure", "why_tests_cant": "Arbitrary NAL length fields, including wrap-around.", "anchors": ["probe.go: FindIDRFrames"]}
{"id": "C37", "title": "Variable-length integer round trip", "statement": "The size field of MPEG-4 descriptors written by Marshal is read back unchanged, for every value the 4-byte form can hold; larger values are rejected.", "quantifier": "every 32-bit value", "why_tests_cant": "2^32 values; tests use small ones.", "anchors": ["marshaller.go: writeUvarint, readUvarint"]}
{"id": "C38", "title": "Box type text", "statement": "BoxType.String is printable ASCII for every type, and StrToBoxType inverts it for types whose four bytes are ASCII; different types have different texts, apart from the one pair of types whose text is (c)(c); Uint32ToBoxType is the big-endian bijection.", "quantifier": "every box type", "why_tests_cant": "2^32 values.", "anchors": ["mp4.go: BoxType.String, StrToBoxType, Uint32ToBoxType"]}
{"id": "C39", "title": "Box type matching", "statement": "MatchWith is reflexive and symmetric, BoxTypeAny matches everything, and two concrete types match iff equal.", "quantifier": "every pair of box types", "why_tests_cant": "2^64 pairs.", "anchors": ["mp4.go: BoxType.MatchWith"]}
{"id": "C40", "title": "Versioned accessors return the field of the version in force", "statement": "GetCreationTime, GetDuration, GetModificationTime, GetFragmentDuration, GetBaseMediaDecodeTime, GetSegmentDuration, GetMediaTime etc. return the value just decoded for the box's version, and 0 for any other version. The fractional accessors (GetRate, GetWidth, GetHeight, GetSampleRate, GetBalance) return exactly the fixed point number in the box, without rounding. The lists of an XML subtitle sample entry (GetNamespaceList etc.) are the words of the string, whatever white space is between them.", "quantifier": "every value of the box", "why_tests_cant": "All values of all versions.", "anchors": ["box_types_iso14496_12.go: accessor methods"]}
{"id": "C41", "title": "Stringify hides hidden fields and terminates with printable text", "statement": "EscapeUnprintables yields only printable runes and keeps the length in runes; strings in Stringify output are escaped so that one box stays on one line.", "quantifier": "every byte string", "why_tests_cant": "All byte strings.", "anchors": ["internal/util/string.go: EscapeUnprintables", "string.go: Stringify"]}
{"id": "C42", "title": "Both emsg layouts decode to the same fields", "statement": "For versions 0 and 1 of emsg, whose wire orders differ, Marshal followed by Unmarshal preserves all fields, and the bytes follow the order required by each version.", "quantifier": "every emsg value without NUL in its strings", "why_tests_cant": "Arbitrary strings and data.", "anchors": ["box_types_iso14496_12.go: Emsg.OnReadField, Emsg.OnWriteField"]}
{"id": "C43", "title": "hdlr names in C and Pascal form", "statement": "A handler name stored as Pascal string in a QuickTime hdlr, or NUL-terminated in an ISO hdlr, decodes to the same name for every name the form can hold.", "quantifier": "every name", "why_tests_cant": "Lengths 0..255, including the uint8 boundary.", "anchors": ["box_types_iso14496_12.go: Hdlr.OnReadName"]}
{"id": "C44", "title": "Field tag interpretation", "statement": "The mp4 struct tags of every registered box are parsed to the field layout the codec uses, fields are ordered by their order key (stable), independent of map iteration order.", "quantifier": "every registered box, every tag string", "why_tests_cant": "Go map iteration order is random per run.", "anchors": ["field.go: buildField, parseFieldTag, buildFieldsStruct"]}
{"id": "C45", "title": "mp4tool edit changes only what it is told to", "statement": "mp4tool edit writes the boxes of the input without those named by -drop, at every level; headers around them keep their form and get the new sizes; all other bytes are as they were, except for the decode time of tfdt boxes when -base_media_decode_time is given; without options the output is the input.", "quantifier": "every well-formed file and every set of options", "why_tests_cant": "Trees of boxes are unbounded; a test compares a few files.", "anchors": ["cmd/mp4tool/internal/edit/edit.go"]}
{"id": "C46", "title": "Unmarshal failure leaves no partial success", "statement": "A payload cut short at any point (fewer bytes in the stream than the encoding of the value needs) makes Unmarshal return an error, never a wrong value.", "quantifier": "every representable value and every truncation point", "why_tests_cant": "All truncation points of all values.", "anchors": ["marshaller.go: Unmarshal"]}
{"id": "C47", "title": "Structure traversal does not panic", "statement": "ReadBoxStructure never panics, whatever the file contains and whatever the (non-panicking) handler does with its handle.", "quantifier": "every byte string of at most 2^48 bytes, every handler", "why_tests_cant": "Panics hide in size arithmetic on corrupted headers and in interactions of the handler's calls; the space of files and handlers is infinite.", "anchors": ["read.go:37-199", "marshaller.go:277-332"]}
{"id": "C48", "title": "Boxes of the standard have the byte layout of the standard", "statement": "For the boxes ftyp, mvhd, tkhd, mdhd, mehd, trex, mfhd, mfro, tfdt, tfhd, trun, vmhd, smhd, btrt, pasp, stts, ctts, stsc, stsz, stco, co64, stss, elst and sidx, Marshal of the Go struct writes exactly the sequence of big-endian fields that ISO/IEC 14496-12 prescribes for the version and flags of the box, Unmarshal of these bytes gives back the struct, and the four-character code of the standard selects that struct.", "quantifier": "every value of every field of each of these boxes, both versions where there are two, all flags, tables of every length, every context", "why_tests_cant": "A pair of matching mistakes in Marshal and Unmarshal (or in the struct tags that both read) goes unnoticed in round trips; tests compare a few literal byte strings, with the flag combinations of tfhd and trun hardly covered.", "anchors": ["box_types_iso14496_12.go", "marshaller.go:57-123", "marshaller.go:277-332", "field.go"]}
{"id": "C49", "title": "Operations of a handle give the payload of their box", "statement": "During a traversal, ReadPayload returns what UnmarshalAny gives for exactly the payload of the box (value, count and error), and ReadData copies exactly the payload bytes (or reports the end of the file or the failure of the destination), whatever was done with the handle or the stream before.", "quantifier": "every file, every box, every handler before and after the call, every destination", "why_tests_cant": "The stream position and the variables captured by the closures depend on everything the handler did before.", "anchors": ["read.go:101-125"]}
{"id": "C50", "title": "Sample entries and codec configurations have the layout of their specifications", "statement": "For visual and audio sample entries (including the QuickTime variants), avcC, hvcC, av1C, vpcC, dOps, dac3, pcmC, colr, fiel, trep, urn and emsg, Marshal of the Go struct writes exactly the fields that the specification of the box prescribes, in its order and widths, and Unmarshal of these bytes gives back the struct with each field under its own name.", "quantifier": "every value of every field, all lists of parameter sets and NAL unit arrays, both versions of emsg, every context", "why_tests_cant": "Round trips cannot show a wrong width or a swapped pair of neighbouring fields, since Marshal and Unmarshal read the same struct tags; the lists of NAL units nest and have no bound.", "anchors": ["box_types_iso14496_12.go:708-746", "box_types_iso14496_12.go:1225-1425", "box_types_av1.go", "box_types_vp.go", "box_types_opus.go", "box_types_etsi_ts_102_366.go", "box_types_iso23001_5.go", "box_types_iso14496_12.go:404-463"]}
{"id": "C51", "title": "The summary covers every track and segment", "statement": "On success Probe reports one track for each moov/trak box and one segment for each moof box at the root, in file order and each made from that box, the brands of the last ftyp box, and the timescale and duration of the last moov/mvhd box (zero values if there is none).", "quantifier": "every well-formed file, any number and order of boxes", "why_tests_cant": "Files have any number of tracks, segments and unrelated boxes in any order.", "anchors": ["probe.go: Probe"]}
{"id": "C52", "title": "Stringify shows the values of fields", "statement": "Every visible field appears in the output of Stringify with its own value: numbers in decimal or, where tag or type ask for it, in hexadecimal, such that reading the digits back gives the number.", "quantifier": "every value of every registered box type", "why_tests_cant": "Values and table lengths are unbounded; tests compare a few literal strings.", "anchors": ["string.go: stringifyStruct, stringifyInt, stringifyUint"]}
{"id": "C53", "title": "A track is summarised from its own boxes", "statement": "The Track that Probe reports for a trak box has the track ID of its tkhd box, the timescale and (by version) the duration of its mdhd box, the edit list of its elst box entry by entry, is encrypted if and only if it has an encrypted sample entry, and names codec and codec parameters (AVC configuration and dimensions, AAC profile and channels) of its sample entry.", "quantifier": "every trak box of every file, any boxes in any order below it", "why_tests_cant": "The result is assembled from boxes found in any order and number; tests use a handful of sample files with one sample entry each.", "anchors": ["probe.go:181-368"]}
{"id": "C54", "title": "A segment is summarised from its own boxes", "statement": "The Segment that Probe reports for a moof box has the offset of the box, the track ID of its tfhd box, the base decode time of its tfdt box, and number, total duration and total size of its samples, with defaults where samples give no values of their own; the composition time offset is the least composition time of a sample relative to the base decode time.", "quantifier": "every moof box, any number of samples, any flags, any versions", "why_tests_cant": "Sample counts and flag combinations are unbounded, and sums wrap only for large values.", "anchors": ["probe.go:489-567"]}
{"id": "C55", "title": "The AAC profile is that of the AudioSpecificConfig", "statement": "For MPEG-4 audio, the object type that Probe reports is the one the AudioSpecificConfig of ISO/IEC 14496-3 starts with (also with escape codes and explicit frequencies), or 5 or 29 when the configuration signals spectral band replication or parametric stereo in the backward compatible way; for other object type indications none is reported.", "quantifier": "every AudioSpecificConfig, every esds box", "why_tests_cant": "Configurations are bit strings with escape codes of variable length; the tests have a few literal ones.", "anchors": ["probe.go:370-487"]}
{"id": "C56", "title": "Extraction yields only boxes that are there", "statement": "Whatever the file, ExtractBoxes and ExtractBoxesWithPayload do not panic, and every box they return has its header in the file at the offset returned and is reached from the root (or from the given box) through boxes of the types of one of the paths asked for; each payload is of the Go type registered for its box.", "quantifier": "every byte string as file, every list of paths, every starting box of the file", "why_tests_cant": "Tests extract from a few valid files; here the file is arbitrary, so sizes overlap, lie outside of parents or are impossible.", "anchors": ["extract.go:17-100", "read.go:40-198"]}
{"id": "C57", "title": "Probe and FindIDRFrames never panic", "statement": "Whatever the file, Probe does not panic: its type assertions, divisions and indexing into chunks, samples and configurations are safe. FindIDRFrames does not panic either, even if the track is one of another file.", "quantifier": "every byte string as file, every track", "why_tests_cant": "A panic needs one of unboundedly many inconsistent combinations of boxes; fuzzing samples a few of them.", "anchors": ["probe.go:106-174", "probe.go:181-567", "probe.go:569-609"]}
{"id": "C58", "title": "mp4tool extract writes the bytes of the boxes of the given type", "statement": "For a well-formed file whose boxes can be decoded, `mp4tool extract TYPE` writes, in file order, exactly the bytes of all boxes of that type at any depth. For any file, it does not panic, all it writes are bytes of boxes of that type that it got to, and when it succeeds none of them is cut off.", "quantifier": "every well-formed box tree (every byte string, for the second half), every type", "why_tests_cant": "Tests extract from sample files; the claim is about every arrangement of boxes, nested boxes of the same type and every malformed file.", "anchors": ["cmd/mp4tool/internal/extract/extract.go:43-79", "cmd/mp4tool/internal/util/util.go:5-22"]}
{"id": "C59", "title": "mp4tool psshdump reports every pssh box", "statement": "`mp4tool psshdump` prints, for every pssh box of a moov or moof box and in file order, its number, offset, size, version, flags, system ID in the usual form and size of the data, and a Base64 text that decodes to the bytes of the box. For any file it does not panic, and every entry printed is about a pssh box that is in the file as a whole.", "quantifier": "every well-formed file with pssh boxes of versions 0 and 1 (every byte string, for the second half)", "why_tests_cant": "The output depends on all bytes of the boxes and on their announced sizes; a size that no test uses makes the program panic.", "anchors": ["cmd/mp4tool/internal/psshdump/psshdump.go:26-73"]}
{"id": "C60", "title": "What has been read can be printed and written", "statement": "After Unmarshal or UnmarshalAny has succeeded, on whatever bytes, Stringify and StringifyWithIndent of the box return a text and Marshal of the box returns; none of them panics.", "quantifier": "every registered box type, every byte string and payload size, every previous content of the box, every context, indentation and destination", "why_tests_cant": "Stringify and Marshal panic for some values that a program can make (versions without a field layout, nil descriptors); that Unmarshal never produces one of them is a statement about all inputs.", "anchors": ["string.go", "marshaller.go: Marshal, Unmarshal, UnmarshalAny", "field.go: resolveFieldInstance", "box_types_iso14496_14.go: Descriptor"]}
{"id": "C61", "title": "mp4tool dump lists the boxes of a file", "statement": "For a well-formed file whose boxes can be decoded, `mp4tool dump` prints one line per box in file order: two blanks per level, the name, the offset if asked for, the size (decimal or hexadecimal), and then the contents as Stringify shows them, or the bytes of a box of unknown type or version; contents are left out only if they have not been asked for and the box is mdat, free, skip, a table of 64 bytes or more, not decodable, or too wide for the terminal. For any file and any options it does not panic, and every line printed is about a box that is in the file.", "quantifier": "every well-formed box tree (every byte string, for the second half), every choice of options and terminal width", "why_tests_cant": "Tests compare the dump of sample files under a few options; the claim is about every arrangement of boxes, and a panic needs sizes that no test uses.", "anchors": ["cmd/mp4tool/internal/dump/dump.go:95-184", "cmd/mp4tool/internal/util/util.go:5-22", "string.go"]}
{"id": "C62", "title": "mp4tool probe reports what Probe found", "statement": "For any file, the report of `mp4tool probe` repeats brands, fast start flag, timescale and duration of Probe's summary and describes its tracks one by one and in order: codec in the form of RFC 6381 (avc1.PPCCLL, mp4a.OTI.AOT), encryption, picture size, the numbers of samples, chunks and IDR frames, and the bit rates of the samples or else of the segments. It is printed for every file that Probe can summarise, and no file makes the command panic.", "quantifier": "every byte string as file; every track in it", "why_tests_cant": "Tests print the reports of a few sample files; panics and missing output depend on tables and headers that sample files do not have, such as samples without duration.", "anchors": ["cmd/mp4tool/internal/probe/probe.go:57-154", "probe.go:611-684"]}
{"id": "C63", "title": "mp4tool divide separates the tracks and loses nothing", "statement": "When `mp4tool divide` succeeds on a file whose tracks are of different kinds, then for every track `init.mp4` is a copy of the file's initialization boxes (ftyp, pssh, sidx, moov with mvhd, mvex, udta and the trak) without the trak boxes of the other tracks and with sizes of moov that fit, and the segments are the fragments of the track in the order of the file, each of them its moof and the mdat boxes up to the next moof, byte by byte; the noted durations are the sums of the sample durations. The tracks are the trak boxes with one tkhd and one mdhd, of the kind that their first supported sample entry says. It succeeds on every well-formed file that has just these boxes, where every trak has one tkhd and one mdhd and every moof one tfhd and a trun. No file makes the command panic, and tracks of the same kind are kept apart as well.", "quantifier": "every byte string as file, every set of tracks in it, every order in which they are processed", "why_tests_cant": "Tests divide one sample file; the claim is about every arrangement of boxes, tracks and fragments, about patched sizes at every position, and about handles that share files.", "anchors": ["cmd/mp4tool/internal/divide/divide.go:67-337"]}
{"id": "C64", "title": "A traversal that succeeds has seen everything", "statement": "When ReadBoxStructure returns no error, the handler has been called for top-level boxes that follow each other without gaps from the first byte of the file to the last; when Expand returns no error, the handler has been called for boxes that fill the rest of the box from behind its payload to its end, except for up to seven bytes in a QuickTime compatible file. In both cases one value is returned for each of them. So a file that is cut off, or has bytes that belong to no box, is not taken for a complete one.", "quantifier": "every byte string as file, every handler (any decisions, any number of calls of Expand and of reads), every box of it", "why_tests_cant": "Tests traverse intact sample files with one handler; the claim is about the absence of skipped bytes for all files and handlers, in particular for broken files.", "anchors": ["read.go: ReadBoxStructure, readBoxStructure, readBoxStructureFromInternal", "box_info.go: ReadBoxInfo"]}
{"id": "C65", "title": "Playlists of mp4tool divide", "statement": "mp4tool divide writes for every track an HLS media playlist that refers to init.mp4 and lists exactly the segments of the track, in order, each with its duration in seconds to the nearest millionth, and whose target duration is the least number of seconds that no segment exceeds; and a master playlist that refers to the playlist of the audio track and to that of the video track, with its width and height and a bandwidth that is no less than the bit rate of any segment.", "quantifier": "every file that divide accepts (any fragments, sample durations, timescales and sizes), every order in which Go iterates over the map of tracks, every result of conversions that Go leaves open", "why_tests_cant": "There are tests for one sample file; whether rounding in float64 gives the right digits and the right target duration, and whether the bandwidth is an upper bound, is a claim about all durations, timescales and sizes.", "anchors": ["cmd/mp4tool/internal/divide/divide.go:305-317", "cmd/mp4tool/internal/divide/divide.go:340-434"]}
{"id": "C66", "title": "What is decoded is no larger than what was read", "statement": "When Unmarshal or UnmarshalAny succeeds, the lists and strings of the decoded box (at all depths, taken together) have at most as many elements and bytes as bytes have been read for the box. So no entry count or size in a payload can make the library keep more than the payload itself has.", "quantifier": "every supported box type, every payload, every context and payload size, every value the box had before", "why_tests_cant": "A test decodes payloads whose counts fit; a count that is not backed by bytes can stand at any place of any of the box types, and the claim is about all of them.", "anchors": ["marshaller.go: UnmarshalAny, Unmarshal, unmarshalSlice, unmarshalString", "box_types_iso14496_12.go: Trun"]}
{"id": "C67", "title": "The summary of a file is no larger than the file", "statement": "When Probe succeeds, the chunks, the edits and the samples it reports for a track are no more than the bytes of the file, whatever the counts in the tables of the track are.", "quantifier": "every byte string of at most 2^48 bytes as file, every track reported for it", "why_tests_cant": "Tests probe sample files whose tables agree with their contents; the claim is about memory on all files, in particular hostile ones.", "anchors": ["probe.go: Probe, probeTrak"]}
{"id": "C68", "title": "It does not matter how a reader delivers the bytes, and its failures are not swallowed", "statement": "Unmarshal, UnmarshalAny, ReadBoxInfo, ReadBoxStructure, ExtractBoxes, ExtractBoxesWithPayload, Probe and FindIDRFrames give the same result, and leave the same position, for every io.ReadSeeker that delivers the bytes of a file, in whatever portions its Read delivers them, as for the bytes in memory; a traversal makes the same calls of the handler. If the reader fails on the way, an error is returned, never a result.", "quantifier": "every io.ReadSeeker (any state, any portions, failing at any call), every file, every box type, payload size and context, every handler that passes errors on, every set of paths", "why_tests_cant": "Tests read from bytes.Reader or a file and see a handful of ways to cut up the bytes; the claim is about all readers, including those that deliver a byte at a time or fail at an arbitrary point.", "anchors": ["marshaller.go: Unmarshal, UnmarshalAny", "internal/bitio/read.go: reader", "internal/util/io.go: ReadString", "box_info.go: ReadBoxInfo", "read.go: ReadBoxStructure", "extract.go: ExtractBoxes, ExtractBoxesWithPayload", "probe.go: Probe, FindIDRFrames"]}
{"id": "C69", "title": "What a struct held before has no effect on decoding into it", "statement": "Unmarshal into a struct that has been used before ends as it would with a new struct: at the same position, with the same error, or with the same number of bytes and a box that differs at most in optional fields that are absent. Marshal and Stringify do not look at those: what was decoded is written out and printed the same. Box types without optional fields are overwritten completely.", "quantifier": "every box type, every byte string, position, payload size and context, every two structs of the type as destinations, every writer", "why_tests_cant": "Tests decode into new structs. Whether a hook, an optional field or a length method looks at what was there before depends on the type, the bytes and the old contents together.", "anchors": ["marshaller.go: Unmarshal, unmarshalStruct", "marshaller.go: Marshal", "string.go: StringifyWithIndent"]}
{"id": "C70", "title": "Boxes an application defines are as safe as those of the library", "statement": "A box type that an application describes by a struct with tags behaves like those of the library, provided its methods answer for every field with a dynamic size or length, elements of lists of open length are not empty, and sizes are fixed: Unmarshal returns for all bytes, without panic, and consumes no more than the payload, whose surroundings have no effect; Marshal returns without panic. If moreover methods look only at fields decoded earlier, what is written is read again; if numbers fit their Go types, what was read is written again byte by byte. The example of the README is such a box type.", "quantifier": "every definition of a box type (any fields, any nesting, any methods) that meets the conditions, every byte string, position, announced size, context, previous content and writer", "why_tests_cant": "The definitions are written by users of the library; tests can try only those that come with it, and for each only some bytes.", "anchors": ["README.md: User-defined Boxes", "mp4.go: AddBoxDef, AddBoxDefEx, AddAnyTypeBoxDef, AddAnyTypeBoxDefEx", "box.go: BaseCustomFieldObject", "marshaller.go: Marshal, Unmarshal, marshalBool", "field.go: resolveFieldInstance"]}
{"id": "C71", "title": "Registering box types does not disturb the traversal", "statement": "After an application has registered box types of its own (as in C70, for any types other than ftyp and keys, also such as the library knows, restricted to contexts or not), ReadBoxStructure still does not panic; UnmarshalAny of any type consumes no more than the payload; after each box the handler is called for the box right behind it, and the children of a box are read from right behind what the definition in force consumes; every box handed to the handler is a box of the file and lies in its parent; calls are nested, values and errors are passed on unchanged; and the traversal returns.", "quantifier": "every list of registrations, every file, every handler and every sequence of what it does", "why_tests_cant": "Which types are registered, with which layout, is up to the application; tests of the library exercise its own registry only.", "anchors": ["mp4.go: AddBoxDef, AddBoxDefEx, AddAnyTypeBoxDef, AddAnyTypeBoxDefEx, getBoxDef", "read.go: ReadBoxStructure, readBoxStructure, readBoxStructureFromInternal", "marshaller.go: UnmarshalAny"]}
{"id": "C72", "title": "The README's rewriting program changes only what it is told to", "statement": "The program of the README that copies a file with ReadBoxStructure and Writer and rewrites the boxes of one type (StartBox, ReadPayload, change the value, Marshal, EndBox; CopyBox for all others) succeeds for every file that is a row of boxes, those of that type decodable and the changed values encodable: the output has the boxes of the input in order, those of other types byte for byte, those of the type with a header of the same form, the right new size and the encoding of the changed value. For emsg, as printed: MessageData is replaced and every other field of every top-level emsg box of version 0 or 1 is as it was.", "quantifier": "every file, every box type and change of its value, every new message", "why_tests_cant": "The README's program is not tested; what the input's boxes hold, how long they are, whether they have 64-bit sizes or extend to the end of the file and how much longer or shorter the new payload is are unbounded.", "anchors": ["README.md: Writing", "read.go: ReadBoxStructure", "write.go: StartBox, EndBox, CopyBox", "marshaller.go: Marshal, UnmarshalAny", "box_types_iso14496_12.go: Emsg"]}
{"id": "C73", "title": "Success means that everything has been written", "statement": "Whatever the destination does (any Write or Seek may fail): if a sequence of calls of a Writer and of Marshal into it all succeed, their results and the contents of the destination are those of a destination that never fails; and if mp4tool edit or the README's rewriting program reports success, its output is the one it writes when nothing fails.", "quantifier": "every sequence of calls, every box and value, every input file, every schedule of failures of the destination", "why_tests_cant": "Failures can occur at any call, and only the combination of calls shows whether an error has been swallowed on the way.", "anchors": ["write.go: Writer", "marshaller.go: Marshal", "box_info.go: WriteBoxInfo", "cmd/mp4tool/internal/edit/edit.go: editFile", "README.md: Writing"]}
{"id": "C74", "title": "A registration matters only for boxes of its type", "statement": "Registering any box definition, sound or not, for types other than ftyp and keys has no effect on code that does not meet boxes of these types: ReadBoxStructure does the same (result, calls of the handler, position) until the handler is called for a box of such a type, and throughout if the handler neither decodes nor expands such boxes; ExtractBox(es) depends only on what is registered for ftyp, keys, the parent's type and the types asked for in places of the paths other than the last, with payloads also in the last; Probe depends only on the types of its own paths and keys.", "quantifier": "every two registries, every file, every handler, every list of paths", "why_tests_cant": "The registry is a global variable that any package of a program can add to; that unrelated registrations cannot disturb a call is a statement about all registries and all files.", "anchors": ["mp4.go: AddBoxDef, AddAnyTypeBoxDef, getBoxDef", "read.go: ReadBoxStructure, readBoxStructureFromInternal", "extract.go: ExtractBoxes, ExtractBoxesWithPayload", "probe.go: Probe"]}
{"id": "C75", "title": "Rewriting a file does not panic", "statement": "mp4tool edit does not panic, whatever the input file contains (up to 2^48 bytes), whatever the options are, and whatever Write and Seek of the output file do; it returns unless the input has boxes on which traversal itself does not end. The rewriting program of the README does not panic on any input and with any output either, with any message, and nor does its variant for another box type whose Go type is the asserted one wherever the box occurs.", "quantifier": "every input file, every option, every schedule of failures of the output, every message", "why_tests_cant": "Malformed boxes are decoded and encoded again with version- and flag-dependent layouts, and writing may fail at any call; neither can be enumerated.", "anchors": ["cmd/mp4tool/internal/edit/edit.go: editFile", "README.md: Writing", "write.go: StartBox, EndBox, CopyBox", "marshaller.go: Marshal, Unmarshal"]}
{"id": "C76", "title": "Editing a file is editing its tree of boxes", "statement": "For every file that is the encoding of a tree of boxes, mp4tool edit with any types to be dropped other than ftyp and keys, and with or without a decode time, writes a file that the library reads as the tree without the boxes of those types at any level: ReadBoxStructure finds exactly the boxes left, in their order and nesting, with true offsets and sizes; ReadPayload gives the fields they had, apart from the decode time of tfdt boxes; payloads of boxes of unknown type are unchanged. Running the command on its own output is the same as running it once with both lists of types and the later time; running it again with the same options changes nothing.", "quantifier": "every tree of boxes (any number, depth, fields and header forms), every list of types, every decode time", "why_tests_cant": "Trees of boxes are unbounded in number and depth, and whether an output can be read again depends on the fields of all boxes, on their sizes after children were removed, and on the context in which they are found.", "anchors": ["cmd/mp4tool/internal/edit/edit.go: editFile", "read.go: ReadBoxStructure", "write.go: Writer", "marshaller.go: Marshal, Unmarshal"]}
{"id": "C77", "title": "Calls of a handler are bounded by the length of the file", "statement": "If no box that ReadBoxStructure visits announces a size smaller than its header or an end behind 2^64, then a handler that calls Expand at most once for each box is called at most once for every eight bytes of the file, and for every handler boxes are visited at most as deep as headers fit into the file; whether the traversal succeeds or fails. The handlers of ExtractBoxes and of mp4tool extract, dump and edit call Expand at most once. There is no smaller limit: files of nested boxes reach both bounds.", "quantifier": "every byte string, every handler, every outcome; every number of nested boxes", "why_tests_cant": "The bound is about all files, including broken ones, and all handlers; tests count calls for a few sample files.", "anchors": ["read.go: ReadBoxStructure, readBoxStructure, readBoxStructureFromInternal", "box_info.go: ReadBoxInfo", "extract.go: ExtractBoxes", "cmd/mp4tool/internal/dump/dump.go", "cmd/mp4tool/internal/edit/edit.go", "cmd/mp4tool/internal/extract/extract.go"]}
{"id": "C78", "title": "Probe of a written file is the summary of its boxes", "statement": "For every row of boxes (any number, nesting, fields, header forms) written with StartBox, Marshal and EndBox, Probe of the file gives: brands and minor version of the last ftyp at the root; FastStart if there is a moov at the root and no mdat before the last one; time scale and duration of the last mvhd directly in a moov; for each trak in a moov, in file order, the track made from the boxes at the fixed paths below it; for each moof at the root, in file order, the segment made from the boxes at the fixed paths below it, with the true offset of the moof. Other boxes make no difference wherever they are. If a track or segment cannot be made from its boxes Probe fails, with the error of the first of these.", "quantifier": "every row of boxes as the library writes it, up to 2^48 bytes, every reader position", "why_tests_cant": "The number, order, nesting and fields of boxes are unbounded; tests probe a few sample files.", "anchors": ["probe.go: Probe, probeTrak, probeMoof", "write.go: StartBox, EndBox", "marshaller.go: Marshal", "extract.go: ExtractBoxes, ExtractBoxesWithPayload"]}
{"id": "C79", "title": "Files one behind the other are read as the two files", "statement": "If the first of two files written by the library has no box that extends to the end of the file, no ftyp at the root with the brand 'qt  ' and no keys box, then in the concatenation ReadBoxStructure visits the boxes of the first as in the first alone and then those of the second as in the second alone, with offsets later by the length of the first; ReadPayload of each box gives the same fields; ExtractBoxes gives the results for the first and then those for the second, moved likewise. If the second is a media segment (no ftyp and no moov at the root), Probe of the concatenation is Probe of the first with the segments of the second appended, their MoofOffset moved by the length of the first, and fails exactly as Probe of the parts does.", "quantifier": "every two rows of boxes as the library writes them, together up to 2^48 bytes, every list of paths, every handler that expands the known boxes", "why_tests_cant": "Segmented streams are concatenations of arbitrary initialization and media segments; that context does not leak from one part to the next is a statement about all pairs of files.", "anchors": ["read.go: ReadBoxStructure, readBoxStructureFromInternal", "extract.go: ExtractBoxes", "probe.go: Probe", "box_info.go: ReadBoxInfo"]}
{"id": "C80", "title": "The beginning of a file is read as in the whole", "statement": "If only the first n bytes of a file are there (a recording or a download in progress), and no box in the part says that it extends to the end of the file, then ReadBoxStructure of the part, with any handler that passes on errors, calls the handler for the first few of the boxes for which it is called in the whole file, with the same infos, parents and paths, and for no other; if it succeeds, the values are the first of those for the whole. ReadPayload of a box, if it succeeds in the part, gives the same fields and position as in the whole. ExtractBoxes and ExtractBoxesWithPayload find in the part the first of what they find in the whole; below a given box they find the same if they succeed. Conversely, if the file is well formed, the handler is called in the part for every box that lies in the part as a whole, also inside boxes that are cut off.", "quantifier": "every byte sequence of at most 2^48 bytes, well formed or not (the converse: every well-formed one), every n, every handler that passes on errors, every list of paths", "why_tests_cant": "The cut may be at any byte of any file, also inside length fields, lists, strings and bit fields; tests try a few.", "anchors": ["read.go: ReadBoxStructure, readBoxStructure, readBoxStructureFromInternal", "box_info.go: ReadBoxInfo", "extract.go: ExtractBoxes, ExtractBoxesWithPayload", "marshaller.go: UnmarshalAny"]}
{"id": "C81", "title": "The remaining boxes have the layouts and codes of their specifications", "statement": "Marshal and Unmarshal of every registered box not covered by C48 and its neighbours follow the specifications, bit by bit: containers (moov, trak, ..., ilst and its items, the cues of WebVTT) have nothing in front of their children and Unmarshal reads nothing of them; free and skip are bytes; styp is like ftyp; stpp and sbtt are a sample entry and strings that end in NUL, wvtt is a sample entry; vttC, vlab, ctim, iden, sttg, payl and vtta are a string up to the end of the box and vsid is a number (ISO/IEC 14496-30); the assets of 3GPP are a bit, three letters of five bits and a text; data, mean, name, keys and numbered items of the metadata; meta with and without version and flags; sgpd with recovery distances, startup sequences, random access points, temporal levels or other groupings, with a common length, with a length in front of each entry, or in version 2. Every code of the registry is decoded into the type of these layouts: 101 in every context, the assets in udta outside ilst, the items in ilst, data in items, mean and name in free-form items; there are no others.", "quantifier": "every value of every field in range, every length of lists and strings, every context, every surrounding stream", "why_tests_cant": "The repository's tests compare one literal per box type with itself through the library; variants without a literal (such as roll distances with lengths in sgpd) are not tested at all, and one of them cannot be read.", "anchors": ["box_types_iso14496_12.go: Sgpd, Styp, Free, Skip, Meta, XMLSubtitleSampleEntry, TextSubtitleSampleEntry", "box_types_iso14496_30.go", "box_types_3gpp.go: Udta3GppString", "box_types_metadata.go: Ilst, Data, StringData, Item, Keys", "mp4.go: getBoxDef"]}
{"id": "C82", "title": "What mp4tool divide writes is a file for each track that reads as the track's share of the original", "statement": "For every file written with the library as a row of boxes (not a QuickTime file, every box with its size) on which mp4tool divide succeeds, with tracks of different kinds: init.mp4 of a track consists of exactly the boxes of initialization segments of the file, in order and unchanged, except that moov boxes have lost the other tracks; the segments of the track consist of exactly its moof boxes, in order, each with the mdat boxes up to the next moof, unchanged.  If Probe can summarize the file, then Probe of init.mp4 gives the same brands, time scale and duration, fast start, exactly the tracks with this ID, as they were, and no segments; and Probe of init.mp4 followed by the segments gives in addition exactly the segments of the file with this track ID, in order and as they were, each at the offset where its segment file begins.", "quantifier": "every row of boxes with every field values, sizes, header forms, numbers of tracks and fragments, in any order, including nested moov boxes and boxes the summary does not use", "why_tests_cant": "The repository has no test that reads the outputs of divide; whether tracks or fragments are lost, mixed up or damaged depends on the order and number of boxes in the file.", "anchors": ["cmd/mp4tool/internal/divide/divide.go", "probe.go: Probe, probeTrak, probeMoof", "write.go: Writer", "read.go: ReadBoxStructure"]}
{"id": "C83", "title": "The boxes that ExtractBoxes returns beside an error can be used", "statement": "ExtractBoxes returns the boxes found so far also when it returns an error. On any file, whatever the outcome, each of them stands in the file where it says and is reached from the root through boxes of the types of a path asked for. If only the first n bytes of a file are there (and no box of the part extends to the end of the file), the boxes returned for the part, with or without an error, are an initial segment of those returned for the whole. In a well-formed file every box asked for that lies in the first n bytes as a whole is among the boxes returned for these bytes, whether or not there is an error. The same holds for the boxes below a parent box given to ExtractBoxes.", "quantifier": "every byte sequence, every set of paths with wildcards, every place where the file is cut off", "why_tests_cant": "Tests look at complete files, or at the error only; which boxes are there beside an error depends on where the file ends and on the nesting at that place.", "anchors": ["extract.go: ExtractBoxes", "read.go: ReadBoxStructure"]}
{"id": "C84", "title": "Probe of a recording in progress reports the first tracks and segments of the finished file", "statement": "Only the first n bytes of a file are there, and none of the boxes Probe looks at in them extends to the end of the file. If Probe succeeds on these bytes and on the whole file, the tracks and segments it reports for the part are the first of those it reports for the whole, with the same contents in every field. If the boxes Probe finds in the whole and not yet in the part are moof and mdat boxes only, then the brands, FastStart, time scale, duration and tracks are the same, and only segments are added. Probe need not succeed on the part: cut inside a moof box it returns an error.", "quantifier": "every byte sequence, every place where it is cut off", "why_tests_cant": "Tests probe complete files; where a growing file ends when it is probed is arbitrary, and each of the boxes and payloads read may be the one that is cut off.", "anchors": ["probe.go: Probe", "probe.go: probeTrak", "probe.go: probeMoof"]}
{"id": "C85", "title": "What mp4tool probe prints is JSON that says what the report says", "statement": "When mp4tool probe (format json, the default) ends without an error, the bytes it has written to standard output are valid UTF-8 and one JSON text in the sense of RFC 8259, whatever bytes the brands in the file consist of (quotation marks, backslashes, control characters, bytes that are not UTF-8). Read back, this text has every field of the report exactly once and nothing of it changed: MinorVersion, Timescale, Duration and FastStart are the reported values, the brands have the reported characters, Tracks has one object per track, in order, with the track's TrackID, Timescale, Duration, Codec and Encrypted, and Width, Height, SampleNum, ChunkNum, IDRFrameNum, Bitrate and MaxBitrate with their values or, if they are zero, not at all. Brands that are not UTF-8 cannot be told apart: each such byte is printed as U+FFFD.", "quantifier": "every input file on which the command succeeds; every version of encoding/json with or without \\b and \\f; every text of the seconds that is a number", "why_tests_cant": "Tests compare the output for one sample file whose brands are four letters; the brands are arbitrary bytes taken from the file.", "anchors": ["cmd/mp4tool/internal/probe/probe.go: Main", "cmd/mp4tool/internal/probe/probe.go: report", "cmd/mp4tool/internal/probe/probe.go: track"]}
{"id": "C86", "title": "A run of mp4tool does what its arguments say, and exit status 0 means that it was done", "statement": "Options of mp4tool may be written with one dash or two and with their value behind = or as the next argument; the last value counts; everything behind the first operand (or behind --) is an operand, even if it looks like an option. With the options so read, dump, extract, probe, psshdump, alpha edit and alpha divide do their work on the contents of the file named: dump shows in full exactly the types named by -full, -mdat and -free, extract writes the boxes of the type, probe prints the report as JSON, alpha edit writes the edited boxes to its second operand. If the exit status is 0, either help was asked for or all of the work has been done, standard output has what the command prints and no message, and no files were created other than those of alpha edit and alpha divide. An unknown option makes the command do nothing and exit with status 2; -h does nothing and exits with 0. It fails for alpha edit with the same file as input and output: the file is empty afterwards and the exit status is 0.", "quantifier": "every argument list, every file system and contents of files, every error text", "why_tests_cant": "Tests run the commands with a handful of argument lists on sample files; the ways to write options are unbounded, and no test runs edit on its own input.", "anchors": ["cmd/mp4tool/main.go: main", "cmd/mp4tool/internal/dump/dump.go: Main", "cmd/mp4tool/internal/extract/extract.go: Main", "cmd/mp4tool/internal/probe/probe.go: Main", "cmd/mp4tool/internal/psshdump/psshdump.go: Main", "cmd/mp4tool/internal/edit/edit.go: editFile", "cmd/mp4tool/internal/divide/divide.go: Main"]}
{"id": "C87", "title": "Probe of an edited file says what it said of the original", "statement": "mp4tool alpha edit may be used to strip boxes that Probe does not consult, and to set decode times, without changing what Probe says about the file: brands, FastStart, time scale, duration and tracks (with their chunks, samples and codec data) are the same, and so are the number of segments and, for each segment, track, durations, sample count, size and composition offset. Only the offsets of the moof boxes follow the new layout, and the decode time of each segment whose fragment has a tfdt is the given one (cut to 32 bits for version 0). If Probe fails on the original it fails with the same error on the edited file. Chunk offsets are among what stays the same, so they no longer point to the samples if a box before them was dropped.", "quantifier": "every file made of boxes in the sense of C29, every list of types to drop other than keys and the 31 types that Probe consults, every decode time below 2^64-1 or none", "why_tests_cant": "The test of edit compares one file with a golden dump; it says nothing about other files, about nested boxes that are dropped inside of tracks, or about what Probe reads from the result.", "anchors": ["cmd/mp4tool/internal/edit/edit.go: editFile", "probe.go: Probe", "probe.go: probeTrak", "probe.go: probeMoof"]}
{"id": "C88", "title": "mp4tool dump of a written file shows what was written", "statement": "If a program writes boxes with StartBox, Marshal and EndBox and the file is given to mp4tool dump, the tool succeeds and prints exactly one line for each box, in the order of writing, each child below its parent and indented by two blanks per level. The line has the name of the box, its true offset (if asked for) and size in decimal or hexadecimal without leading zeros, and behind that the fields as they were given to Marshal, rendered by Stringify, or for a box of unknown type its payload bytes. Contents are left out, with a remark how to see them, only if the user has not asked for them and the box is mdat, free or skip, or a table of 64 bytes or more, or the line would be longer than the terminal is wide.", "quantifier": "every file made of boxes in the sense of C29 in which the boxes that are passed over contain no others, every combination of the options of dump, every width of the terminal", "why_tests_cant": "The tests of dump compare a few sample files with golden outputs; that fields written through the API are the ones shown, for all boxes, contexts, header forms and options, is a statement about the composition of Marshal, Writer, reader and Stringify.", "anchors": ["cmd/mp4tool/internal/dump/dump.go: Main", "cmd/mp4tool/internal/dump/dump.go: dump", "write.go: Writer", "string.go: Stringify"]}
{"id": "C89", "title": "What mp4tool extract takes out of a file can be used", "statement": "mp4tool extract TYPE on a file written with StartBox, Marshal and EndBox prints the boxes of that type, at every depth and in order, each with the header, the fields and the children with which it was written. If the boxes of the type are at the root only and the file is not a QuickTime file, the output is a file with just these boxes and reads as such. In particular the output of extract moov, given to Probe, yields the same time scale, duration and tracks (chunks, samples, codec data) as the whole file; there are no brands and no segments.", "quantifier": "every file made of boxes in the sense of C29 in which tables contain no boxes, every type (moov, for the last part)", "why_tests_cant": "A test extracts one box of one sample file and compares sizes; that the extracted boxes mean the same outside of their file depends on the contexts of all boxes that were before them.", "anchors": ["cmd/mp4tool/internal/extract/extract.go: Main", "cmd/mp4tool/internal/extract/extract.go: extract", "probe.go: Probe"]}
{"id": "C90", "title": "mp4tool psshdump of a written file shows the pssh boxes that were written", "statement": "If a program writes boxes with StartBox, Marshal and EndBox and the file is given to mp4tool psshdump, the tool succeeds and prints one entry for each pssh box directly in a moov or moof box of the root, in the order of writing and numbered from 0, and none for any other box. The entry has the true offset and size, the version, the flags in hexadecimal, the system identifier in the form of a UUID and the size of the data, as they were given to Marshal, and a Base 64 text that decodes to exactly the bytes of the box in the file, header included.", "quantifier": "every file made of boxes in the sense of C29 whose pssh boxes have version 0 or 1 and contents as in ISO/IEC 23001-7: every system identifier, any number of identifiers of keys, any data", "why_tests_cant": "The test of psshdump compares one sample file with its golden output; that what a packager wrote is what is shown, for all systems, keys, data and places, is a statement about the composition of Marshal, Writer, ExtractBoxes and the tool.", "anchors": ["cmd/mp4tool/internal/psshdump/psshdump.go: Main", "cmd/mp4tool/internal/psshdump/psshdump.go: dump", "box_types_iso23001_7.go: Pssh", "write.go: Writer"]}
{"id": "C91", "title": "What mp4tool dump, extract, psshdump and probe print does not depend on how the file is delivered", "statement": "The commands do not read the file from memory but through an io.ReadSeeker that delivers it in blocks. As long as the reader does not fail, dump prints the same lines, extract the same bytes, and psshdump and probe the same report as they would from the bytes in memory, however the bytes are cut into portions; so does every traversal with ReadBoxStructure, also with a handler that goes on after errors, provided it does not use what ReadData has delivered before failing. If the reader fails, psshdump and probe end with an error; if they succeed, what they print is right.", "quantifier": "every file, every reader that delivers at least one byte per Read and io.EOF by itself (blocks of any size, any state), failing at any call (for psshdump and probe); every handler and registry; every combination of options of dump", "why_tests_cant": "Tests run the commands on small files that fit into one block; where block boundaries fall in headers, lists, strings and bit fields, and where reads fail, is unbounded.", "anchors": ["cmd/mp4tool/internal/dump/dump.go: dump", "cmd/mp4tool/internal/psshdump/psshdump.go: dump", "cmd/mp4tool/internal/probe/probe.go: buildReport", "read.go: ReadBoxStructure", "cmd/mp4tool/internal/extract/extract.go: extract"]}
{"id": "C92", "title": "A program that rewrites a file does not take a failure of the input for its end", "statement": "mp4tool edit, and the program of the README that changes boxes of one type and copies all others, read their input through an io.ReadSeeker. As long as the reader does not fail, the outcome and the output file are the same as for the bytes in memory, however the reader cuts them into portions. If the reader fails, in a header, in a payload that is decoded, while a box is being copied or when seeking, the program does not report success. So success means that the output is that of the whole input: for a file that was written with the library, the bytes of the edited boxes.", "quantifier": "every file, all options of edit, every type and change for the README's program, every reader that delivers at least one byte per Read and io.EOF by itself, failing at any call; outputs that do not fail (for these see C73)", "why_tests_cant": "Tests edit small files in memory; the reader's failure may come at any of the calls that the traversal, the decoder and CopyBox make, the number of which grows with the file, and only one place that swallows it is enough to lose data silently.", "anchors": ["cmd/mp4tool/internal/edit/edit.go: editFile", "README.md: edit emsg", "write.go: Writer.CopyBox", "read.go: ReadBoxStructure"]}
{"id": "C93", "title": "mp4tool divide does not take a failure of the input for its end", "statement": "mp4tool divide reads its input through an io.ReadSeeker: first the tracks, then again from the beginning, copying the boxes of initialization segments to every track and the fragments to their track, and looking up tkhd, tfhd and trun inside the boxes it is about to copy. As long as the reader does not fail, the outcome, the tracks, init.mp4 and all segments are the same as for the bytes in memory, however the reader cuts them into portions. If the reader fails at any call, divide does not report success. So after success nothing is missing in any file: for a file that was written with the library and has tracks of different kinds, init.mp4 and the segments of a track are exactly its boxes.", "quantifier": "every file, every reader that delivers at least one byte per Read and io.EOF by itself, failing at any call; output files that do not fail", "why_tests_cant": "There is no test of divide with a failing reader; the failure may come at any of hundreds of calls for even a small movie, and a segment that lacks its last bytes still looks like a segment.", "anchors": ["cmd/mp4tool/internal/divide/divide.go: divide", "extract.go: ExtractBoxWithPayload", "read.go: ReadBoxStructure"]}
{"id": "C94", "title": "mp4tool divide reports success only if the playlists could be written", "statement": "When mp4tool divide reports success, the master playlist and the playlists of all tracks are complete, even if the disk may be full or a write may fail. Without failures this is so. With failures it is refuted: most lines are written with file.WriteString, whose error is dropped. What remains true on a disk that stays full: the playlist of a track that has segments lacks at most its last line, #EXT-X-ENDLIST (which makes players wait for further segments), and a failure is reported exactly if it concerns the target duration or a segment; the master playlist is there at least up to the resolution if there are pictures, and may be empty without any error if there are none.", "quantifier": "all tracks, durations and orders of the tracks, every schedule of failing writes for every file (for the positive part: files that take nothing after a failure), any number of bytes written by a failing write", "why_tests_cant": "Tests write to a disk that has room; which of the calls may fail without notice is a statement about all schedules of failures.", "anchors": ["cmd/mp4tool/internal/divide/divide.go: outputMasterPlaylist", "cmd/mp4tool/internal/divide/divide.go: outputMediaPlaylist", "cmd/mp4tool/internal/divide/divide.go: divide"]}
{"id": "C95", "title": "mp4tool divide reports success for the segments only if everything could be written", "statement": "While mp4tool divide copies boxes to init.mp4 and to the segments of each track, any call on these files may fail: creating them, Seek, Write (having written a part) and io.CopyN. If the copying ends without error, then no failure has left a trace: the tracks, init.mp4, all segments, their durations and rates are the same as without failures; and if no call fails, nothing else than the input decides about success. So after success, for a file that was written with the library and has tracks of different kinds, init.mp4 and the segments of a track are exactly its boxes. (The playlists, written afterwards, are different: see C94.)", "quantifier": "every file, every schedule of failures of the output files, any number of bytes written by a failing call, any position of the input after a failing copy", "why_tests_cant": "Tests write to a disk that has room; even a small movie leads to dozens of calls on several files, each of which may fail after any number of bytes.", "anchors": ["cmd/mp4tool/internal/divide/divide.go: divide", "box_info.go: WriteBoxInfo", "read.go: ReadData"]}
