# A Lean 4 model of abema/go-mp4

## Approach

The library is modelled function by function as total Lean functions over
in-memory streams.  Every definition names the Go file and lines it follows.
Properties are stated in `Verif/Props/*.lean`, apart from the lemmas that
support them.

### Conventions

* Bytes are `BitVec 8`. `uint64`/`uint32` arithmetic is done on `Nat` with an
  explicit `% 2^64` (`% 2^32`) wherever the Go code can wrap around.
* A call has one of four outcomes: `ok`, `err e`, `panic` and `hang`.  Loops
  that Go runs "until something happens" carry fuel; running out of fuel is
  `hang`.  "Terminates" is stated as "for all sufficiently large fuel (explicit
  bound) the outcome is not `hang`"; "does not terminate" as "for every fuel the
  outcome is `hang`".
* A readable stream is a byte list with a position and obeys the contract of
  `bytes.Reader` (positions past the end are allowed and read as EOF; negative
  positions are refused).
* A writable stream is either an in-memory file (byte list and position) or, for
  `Marshal`, an arbitrary sink: any state type with any `write` function that may
  fail whenever it likes.
* Struct values are association lists from field names to values, so that the
  custom-field methods (`GetFieldLength` ...) can be written as in Go.

### Trusted base

* Lean's kernel, and the axioms `propext`, `Classical.choice`, `Quot.sound`.
  No axioms of our own, no `sorry`, no `native_decide`, no `bv_decide`.
* The reading of the Go source by the author, i.e. that the Lean definitions say
  what the Go code says.  The table of box layouts is produced from the Go struct
  declarations by `tools/gen_catalog.py` and is committed.

See the sections at the end for what is modelled, what is simplified and what is
left out.

## Plan per property

| Id | What is modelled | How it is proved |
|----|------------------|------------------|
| C01, C02 | `bitio` reader and writer with their `(octet,width)` state | refinement: reader state = list of remaining bits; writer state = list of emitted bits; induction over the operation list |
| C03, C04 | `ReadBoxInfo`, `WriteBoxInfo`, seeks | refinement to a grammar of headers written separately; round trip; counterexample for BoxInfo values that are not self-consistent |
| C05, C06, C42, C46 | reflection codec (`Marshal`, `Unmarshal`), catalogue of all registered boxes, hooks | pure encoding function; Marshal refines it; Unmarshal inverts it (mutual induction over type descriptors); per-box causality of the custom methods |
| C07 | same | values produced by Unmarshal are representable; canonical payloads are exactly encodings |
| C08, C11 | same | induction over type descriptors: custom methods are defined for every name used; loops consume bits; counterexample: trun with SampleCount = 2^32-1 and no per-sample fields never returns |
| C09, C10 | same | invariant of the reader state; counterexample for C10: `meta` peeks 4 bytes even if its payload is shorter |
| C12 | same | the FullBox prefix is decoded first; direct |
| C13 | same | follows from the slice loop; counterexample for count = 2^32-1, the `LengthUnlimited` sentinel |
| C14, C15, C16 | same, with arbitrary sinks | counterexamples: errors of slice elements are dropped (marshaller.go:154), errors of varints are dropped (:199), nil descriptor pointers and elst/tfra versions >= 2 panic; partial theorems for the layouts where it holds |
| C17, C18, C38, C39, C40 | small pure functions | bit-vector and list reasoning |
| C19 | registry as list of registrations | equivalence with a declarative "last matching registration" |
| C20 - C27 | traversal with handlers as programs | induction on box forests / on fuel; counterexamples for wrap-around of 64-bit sizes and for extraction with context |
| C28 - C31 | `Writer` over an in-memory file | induction over box trees; counterexamples for header growth |
| C32 - C36 | `Probe` table expansion, bitrate, IDR search | equivalence with pointwise specifications; counterexamples (constant stsz size ignored; division by zero; 32-bit wrap) |
| C37 | `writeUvarint`, `readUvarint` | arithmetic; counterexample for values >= 2^28 |
| C41 | `EscapeUnprintables`, `Stringify` | list induction |
| C52 | `Stringify` | the text described without a buffer (Spec/StringifyText); recursion over types and values |
| C43 | `Hdlr.OnReadName` | case analysis; counterexample for length 255 |
| C44 | tag parser | evaluation on every tag of the catalogue; permutation invariance of key lookup |
| C45 | `mp4tool edit` | induction on box forests |
| C51, C53 - C55 | `Probe`, `probeTrak`, `probeMoof`, `detectAACProfile` | last box of each type; refinement of the bit reader to the bits of `AudioSpecificConfig`; counterexamples as concrete files |
| C56 | `ExtractBoxes` on any file | collected boxes are the visited ones that match; induction on the trace of a traversal |
| C57 | `Probe`, `FindIDRFrames` on any file | types of decoded payloads; loop invariants that keep indices in range |
| C58 | `mp4tool extract` | effect of a handler on well-formed files by induction on box forests; invariant of the calls of the handler on any file |
| C59 | `mp4tool psshdump` | from C25, C48 and C56; Base 64 decoding inverts encoding |
| C60 | `Stringify`, `Marshal` after `Unmarshal` | recursion over types and values; what decoding leaves in versions and pointers |
| C61 | `mp4tool dump` | as C58; the lines are described by a relation of their own; no panic from `Stringify` by C60 |
| C62 | `mp4tool probe` | codec names by reading digits back; numbers and panics by C35, C36, C53, C57; JSON fails on infinite durations |
| C63 | `mp4tool divide` | inversion of successful runs (`Lemmas/Success`), then induction over the rows; files of different tracks do not interfere; segments as a fold over the boxes, equal to the list of fragments; for success, the same induction forwards over well-formed files, with the invariant that the current track has a duration |
| C64 | nothing is skipped by a traversal that succeeds | induction on the grammar of traversals `Tr`: the boxes of a row tile it, the boxes of deeper levels do not count; every split of the record at the end of an `Expand` |
| C65 | the playlists of `mp4tool divide` | binary64 as multiples of 2^-1074 with rounding to nearest even; bounds on the relative error of the quotients; a rounded quotient is on the same side of every whole number as the exact one; the durations and sizes from C63 |
| C66 | what is decoded is no larger than what was read | a lower bound on the bits of a value of every field type (`least`), from the tags alone; every list element and string byte of a supported box type, except those of `trun`, costs 8 bits at least; `trun` by its flags |
| C67 | the summary of a file is no larger than the file | C66's bounds for the last field of `stco`, `co64`, `elst`, lifted through extraction to `Probe` |
| C68 | it does not matter how a reader delivers the bytes, and its failures are not swallowed | the reading functions once more over an arbitrary reader; simulation between both, function by function |
| C69 | what a struct held before has no effect on decoding into it | two runs side by side: the fields decoded so far agree or are absent from both; a static check of all box types that no method looks at fields decoded later |
| C70 | box types that an application defines | the lemmas behind C05–C11 and C16 for a definition that is a variable, with the facts that the catalogue was checked for as hypotheses (`SafeDef`, `OrderedDef`, `ExactDef` in Spec/Custom) |
| C71 | traversal with box types of an application | the description `Tr` of all traversals and the invariants of C21–C24 again with the registry as a variable (namespace `Mp4.Reg`; only that `UnmarshalAny` behaves is used), `registered_good` for the library's registry with any further safe definitions |
| C72 | the README's rewriting program | `Model/Rewrite` (box type and change as parameters); `rewritten` says box by box what the output should be; a run of the traversal is a run of the writer over `rewriteTree`, whose output C31 gives; `Event.payload` spells out the bytes of an `emsg` payload |
| C73 | success with a destination that may fail | `Lemmas/SimulateUpTo`: `Marshal` into two destinations that answer alike up to the first failure; `OkSame`: what succeeds would have done the same without failures, for each method of the writer and, for programs that hand errors on, for whole traversals; with failures that last, a later successful `Write` vouches for `Marshal` |
| C74 | two registries that agree outside a set of types | `Lemmas/RegLocal`: decoding and expanding look up the box's own type only, so the runs of a handler under both registries are equal (as functions, if the handler leaves the other types alone; up to the first such box otherwise); a box is expanded by `ExtractBoxes` only if its type is asked for in an inner place, and extracted only if it is asked for (invariant of the handler's variable) |
| C75 | the invariant of the writing programs: no call of the writer has panicked, and the open boxes are those of the handler calls under way | `Lemmas/Tidy`: a handler that leaves the invariant's index as it found it when it returns keeps it over every traversal (the children of `Expand` included); what `ReadPayload` returns is a well-typed value of the box type's definition, so encoding it again does not panic (C16), also after the change of `tfdt` |
| C76 | a tree of boxes with fields (`Boxes`, as in C29) and the edited tree (`Boxes.edit`, `Spec/EditBoxes`) | induction over the tree: the calls made for it (`editTree`, C45) write the bytes of the edited tree (`Lemmas/EditBoxes`); fields that fit a payload still fit it when children are removed (`Lemmas/Shrink`, over all box types), so the edited tree can be read (C29); `Boxes.edit` composes |
| C77 | number of `enter` events and lengths of their paths; `Prog.AtMost`, `ExpandsOnce` (`Spec/Calls`) | a stack automaton (`scan`, `Lemmas/Calls`) accepts the records of handlers that open boxes at most once (induction over programs and fuel), and induction over the grammar `Tr` charges each accepted call to the eight bytes of its header; the family `nested n` (well-formed for every `n`, C20) reaches the bounds |
| C78 | `Boxes.summary` (`Spec/Summary`): one pass over the row of boxes, with the boxes at the fixed paths below `trak` and `moof`; `collect`/`trackOf` of C53, C54 turn the fields found into a track or segment | `boxes_probe`: the boxes asked for by `Probe` are those of the row (induction over the row and over the children of `moov`); `summary_run`: the loop of `Probe` over them computes `summaryFrom` (induction, `ReadPayload` facts from C29) |
| C79 | the results for the two files alone, moved by `BoxInfo.later`, `laterCall`, `laterSegment` | `Boxes.append` commutes with encoding, forest and fields (`Lemmas/Concat`); the context behind a neutral row is the one before it (`endCtx_neutral`); `segmentsFrom_later` |
| C80 | list prefix (`<+:`) between the calls, results and payloads of `d.take n` and of `d` | `TCut`, `RootCut` (`Lemmas/Cut`): the run on the part is the same as that on the whole, or has stopped with an error after a prefix of the calls, or has visited an open box; decoding agrees by `box_sim` (C46); `part_sees` by induction over the forest (`Lemmas/CutAll`) |
| C81 | `Encodes` (as C48) for each remaining box, with the bits written out from the specifications; `restTypes`, `assetTypes`, `itemTypes` and `types_complete` for the codes | as C48; lists of entries of different length by `fitsV_var`; structs with a size of their own (`alst`) by `fitsV_struct` |
| C82 | `initOf`, `mdats`, `segmentsOf` (`Spec/DivideBoxes`: the outputs as boxes), and for the summary `filter` on the track IDs of the summary of the original, `offsetless`, `startsFrom` | `laid` (the row with only `moov` opened) satisfies `Laid`, so C63's `divide_writes` applies; what is found below `trak` and `moof` by `payloads_below` (C78); `initSegment`, `segments` are the bytes of the boxes by induction over the row; summaries by induction, joined by C79 |
| C83 | `Leads`, `Asked` (C56), list prefix, `askedBoxes` (C25) | the handler notes what it is called for (`Collected`), also when the traversal fails; the calls in a part are the first of those in the whole (C80) |
| C84 | list prefix on the tracks and segments of `ProbeInfo` | what succeeds on a part has the same value on the whole (`OkTo`, closed under bind; C80 for boxes and payloads); the loop of `Probe` only adds tracks and segments |
| C85 | `Spec/Json`: a reader of JSON texts after RFC 8259, over characters | the text of a value is read back behind any indentation, by recursion over the value; strings character by character (UTF-8 decoding of the written bytes gives the escaped characters, and unescaping those gives the characters of the string) |
| C86 | `Spec/Main`: the ways to write options as an inductive relation between options and argument lists | `FlagSet.Parse` reads back every such list, by induction over it (numbers by reading digits back); the commands by what is proved of their functions (C45, C58, C61, C76, C85); exit status by cases over `main` |
| C87 | `Spec/EditProbe`: the types consulted as a list of names, the relation of two reports | the boxes found at the paths of C53 and C54 after an edit are those before, with new fields for `tfdt` (induction over the boxes); the loop of `Probe` keeps the relation; C76 and C78 for the two files |
| C88 | `Spec/DumpBoxes`: the lines about a row of boxes, by recursion over the boxes written | C61 for the file of C29; the fields read are those written, so the text is that of the fields written |
| C89 | `Spec/ExtractBoxes`: the bytes of the boxes of a type, and the row that has only these, by recursion over the boxes written | C58 for the file of C29; the row that is left can be written, and its bytes are those printed; the summary of C78 for both rows |
| C90 | `Spec/PsshBoxes`: the `pssh` boxes in the `moov` and `moof` boxes of a row, with place, bytes and fields | C59 for the file of C29; the boxes asked for are these, by recursion over the row; the fields read are unique, so they are the ones written |
| C91 | `Model/SourceTool`: the commands on any `io.ReadSeeker` | as C68; for a reader that does not fail what a handler does with errors does not matter |
| C92 | `Model/SourceEdit`: `mp4tool edit` and the README's program on any `io.ReadSeeker` | simulation as in C68 that leaves the position of the input open after an error and after a copied box |
| C93 | `Model/SourceDivide`: `mp4tool divide` on any `io.ReadSeeker` | as C92; boxes looked up inside the handler as in C68 |
| C94 | `Full`: a file that takes nothing after a failed `Write` (`Spec/PlaylistFile`) | the calls as a list with the mark whether the error is looked at; induction over it; a call that is looked at shows all failures before it |
| C95 | `divide` itself, on files that do not fail, and the boxes of C82 | a simulation: a program with faults that returns a value does the same as the one without; through `ReadBoxStructure` as in C73 |

## What is modelled

| Go source | Lean module | Remarks |
|-----------|-------------|---------|
| `internal/bitio/*.go`, `internal/util/io.go` | `Model/Bitio`, `Model/Basic` | all of it |
| `box.go`, `mp4.go`, `anytype.go`, brands of `Ftyp` | `Model/Box`, `Model/Registry` | flags, versions, box types, lookup of definitions |
| `box_info.go` | `Model/BoxInfo` | reading and writing headers, seeks |
| `field.go` | `Model/Field`, `Model/Tags`, `Model/Types` | tags, their order, dynamic sizes and lengths; the warnings on standard error are left out |
| `marshaller.go` | `Model/Marshal`, `Model/Unmarshal` | all of it, for every registered type |
| `box_types_*.go` | `Model/Catalog`, `Model/Cfos`, `Model/Accessors`, `Model/AccessorsMore` | every registered struct, its methods and hooks |
| `README.md:82-111` | `Model/Rewrite` | the program that rewrites `emsg` boxes, for any type and change |
| `read.go`, `extract.go` | `Model/Read`, `Model/Extract` | traversal with any handler, extraction |
| `cmd/mp4tool/internal/dump`, `extract`, `psshdump`, `probe` once more | `Model/SourceTool` | from an arbitrary `io.ReadSeeker` |
| `cmd/mp4tool/internal/edit`, README.md:82-111 once more | `Model/SourceEdit` | from an arbitrary `io.ReadSeeker` to a file that does not fail; a copied box is handed to the output in portions of 32 KiB, whatever portions it was delivered in |
| `cmd/mp4tool/internal/divide` once more | `Model/SourceDivide` | from an arbitrary `io.ReadSeeker` to files that do not fail |
| `cmd/mp4tool/internal/divide/divide.go:341-434` once more | `Model/PlaylistFile` | the playlists written call by call to files that may fail; creating and closing them does not fail |
| `cmd/mp4tool/internal/divide/divide.go:156-339` once more | `Model/DivideFaults` | every call on `init.mp4` and on the segments may fail; `Close` and `os.MkdirAll`, whose errors are dropped, do not |
| the reading half of `internal/bitio`, `marshaller.go`, `box_info.go`, `read.go`, `extract.go`, `probe.go` once more | `Model/Source`, `Model/SourceRead` | from an arbitrary `io.ReadSeeker` instead of bytes in memory; `io.ReadFull` and `io.CopyN` are written out |
| `write.go` | `Model/Write`, `Model/File` | all of it |
| `probe.go` | `Model/Probe` | all of it |
| `string.go`, `internal/util/string.go` | `Model/Stringify` | all of it |
| `cmd/mp4tool/internal/edit/edit.go` | `Model/Edit` | `editFile` and what its options mean; for flags and files see `Model/Main` |
| `cmd/mp4tool/internal/extract`, `dump`, `psshdump`, `probe`, `util` | `Model/Tool` | what is written to standard output; left out is the rendering of the probe report as YAML; as JSON it is `Model/ToolJson`, with the part of `encoding/json` it needs; the decimal text of `DurationSeconds` (float32) is a parameter |
| `cmd/mp4tool/main.go`, the functions `Main` | `Model/Main` | arguments to exit status, standard output and created files; package `flag` and `strconv.ParseUint`, `ParseBool` as far as used; standard error is left out |
| `cmd/mp4tool/internal/divide/divide.go` | `Model/Divide`, `Model/Playlist` | the tracks, the initialization segments, the segments and their durations, the playlists; `range` over the tracks in the order of a list, which theorems leave open |

`Model/Catalog.lean` and `Model/Tags.lean` are generated by `tools/gen_catalog.py`.
The interpretation of tags in the generator need not be trusted: `catalogue_layout`
proves that the modelled `buildFieldsStruct`, applied to the tags as they stand in
the Go source, gives the layout in `Catalog`.  What remains trusted there is that
names, types, tags and registrations were copied correctly.

## How the model was compared with the code

Nothing here is a proof; it guards against misreading the Go source, which is part of the trusted base.

* `Test/Vectors.lean`, generated by `tools/gen_vectors.py` from the test cases of `box_types_*_test.go`: marshalling and unmarshalling in the
  model give the expected bytes and values, and `Stringify` the expected text, for all 138 test cases (checked in the build).
* `Test/Functions.lean`: the test cases of `box_info_test.go`, `marshaller_test.go`, `write_test.go`, `string_test.go`, `mp4_test.go`, and those of
  `probe_test.go` and `box_types_iso14496_12_test.go` for single functions (checked in the build).
* `tools/validate.py` runs the model on the files of `testdata` and compares with what the Go tests expect: the output of `mp4tool dump` with four
  sets of options, letter by letter, and of the QuickTime sample; the report of `mp4tool probe`; the output of `mp4tool psshdump`; the sizes of
  `mp4tool extract`; 132 assertions about `Probe` and `ProbeFra`; the results of `ExtractBox` and `ExtractBoxes`.  All agree.

## What is simplified

* Machine integers of type `int` have 64 bits.
* Files that are read are at most 2^48 bytes long where a theorem says so.
* Traversal: a handler uses only its own handle, and only while it runs; it does
  not change `h.Path` in place and does not panic.
* `Writer`: the caller does not write through the pointer returned by `StartBox`;
  the source of `CopyBox` is a `bytes.Reader` other than the destination.
* Accessors that return floating-point numbers: conversion and division are rounded to nearest even
  (`Model/AccessorsMore`); `strings.Fields` follows its description.
* `Probe`: slices of pointers are lists of values; loops carry fuel.
* `Stringify`: `unicode.IsGraphic` is written out for Latin-1 and is an arbitrary
  function beyond; fixed-point numbers are printed by exact rounding instead of
  through `strconv.FormatFloat`; `StringifyField` of a nested struct is found by the
  place of the struct instead of its Go type.
* `mp4tool divide`: `float64` is modelled for the numbers that occur, which are not
  negative, as multiples of 2^-1074, infinity and not-a-number; operations round
  exactly to nearest even.  What conversions of numbers out of range to integers
  give is a parameter.
* A Go map is a list of pairs; `range` over it may present them in any order.

## What is left out

* `mp4tool divide`: the warning about other tracks.
* Standard error; `mp4tool divide` with an output directory that contains the input.  The commands read through a buffer
  (`bufseekio`), in the model from a `bytes.Reader`; C91, C92 and C93 say that this makes no difference for `dump`, `extract`, `psshdump`, `probe`, `edit` and `divide`.
* Concurrency: registrations and calls from several goroutines.
* Errors of the operating system when reading: sources are in memory, except in C68, C91, C92 and C93, which compare with
  other sources.  There, the bytes that a destination of `ReadData` has received before an error are left out.
* Text of error messages, except where code depends on it.

## Findings

Each is proved as a theorem about a concrete input, beside the `_partial` theorem
that says where the property holds.

| Id | The property fails when | Theorem |
|----|-------------------------|---------|
| C10 | a `meta` payload is shorter than 4 bytes | `meta_looks_behind_payload` |
| C11 | a `trun` box announces 2^32-1 samples | `unmarshal_trun_hangs`, `unmarshal_trun_entries` |
| C12 | the box is `meta` | `meta_version_accepted` |
| C13 | a count is 2^32-1; roll distances of `sgpd` | `count_sentinel_ignored`, `sgpd_roll_count_ignored` |
| C14 | the destination fails inside a list | `marshal_loses_write_failure` |
| C15 | a list inside a list element is too short | `marshal_accepts_short_nested_list` |
| C16 | `elst`/`tfra` of version 2 or more; nil descriptors | `marshal_elst_panics`, `marshal_esds_panics` |
| C22 | a parent announces less than its header | `children_outside_parent` |
| C23 | sizes wrap around | `traversal_root_loops`, `traversal_recurses_forever` |
| C25 | an unknown box lies on the way to a path | `extract_unknown_fails`, `extract_empty_path` |
| C26 | a payload depends on the context of the box | `extract_payload_fails`, `extract_payload_differs` |
| C31 | a box outgrows its header; no box is open | `endBox_damages`, `endBox_panics` |
| C32 | `stsz` has a constant size; 2^32 samples | `constant_size_ignored`, `offsets_lost` |
| C34 | there is no `mdat`; there are two `moov` | `fast_start_no_mdat`, `fast_start_two_moov` |
| C35 | products pass 2^64; samples without duration | `bitrate_wraps`, `max_bitrate_panics`, `max_bitrate_misses` |
| C36 | a NAL unit length wraps around or is 0 | `idr_hangs`, `idr_cycle_hangs` (any length field that leads back to an earlier unit), `idr_empty_unit`; otherwise `idr_frames_exact` holds for every file |
| C37 | a descriptor size is 2^28 or more | `esds_size_wraps` |
| C41 | a language code has a letter of 31 or more | `language_delete`, `language_newline` |
| C43 | a Pascal string has 255 bytes | `hdlr_name_255` |
| C44 | a tag has two order keys (none in the library) | `order_depends` |
| C45 | QuickTime `udta` ends with zeros; QuickTime `meta`; `tfdt` of version 0; boxes of unknown version; offsets in `stco` | `edit_loses_terminator`, `edit_changes_meta`, `edit_truncates_time`, `edit_fails_on_version`, `edit_keeps_offsets` |
| C49 | a payload has 2^63 bytes or more | `readData_huge` |
| C50 | `hvcC` has a temporal layer | `hvcC_layers` |
| C52 | the field is `Version` of an item or `dOps` | `version_not_shown` |
| C53 | a video track is encrypted; a track has several sample entries | `encrypted_avc_missing`, `entries_mixed` |
| C54 | a fragment has several tracks or runs; sums pass 2^32; defaults are in `trex` | `tracks_mixed`, `only_last_run`, `duration_wraps`, `trex_ignored` |
| C55 | HE-AAC is signalled where ISO/IEC 14496-3 puts it | `extension_missed` |
| C57 | a program replaces the Go type of a box that `Probe` reads (panic) | `probe_panics_if_replaced` |
| C59 | a `pssh` box announces more than 2^48 bytes (panic) | `psshdump_panics` |
| C60 | (values not read, but made) `Stringify` of an `elst` box of version 2, or of an `esds` box with a nil descriptor, panics | `stringify_elst_panics`, `stringify_esds_panics` |
| C61 | `-a` or `-full`, and a box of unknown type or version announces less bytes than its header has, or more than 2^48 (panic) | `dump_panics`, `dump_panics_large` |
| C62 | a track whose last sample takes no time makes `mp4tool probe` panic; nothing is printed as JSON for a file without `moov/mvhd` or with a timescale of 0 | `report_panics`, `json_needs_movie`, `json_segment` |
| C63 | `mp4tool divide` panics for a `moof` without `trun`, and for `mfra`, `moof` or `mdat` inside `moov`; it rejects `styp` and all boxes it does not know; two tracks of the same kind write into the same files; only the first `trun` counts for the duration; an `mdat` before the first fragment is a panic if a track has the ID 2^32 - 1 | `divide_max_id`, `divide_no_trun`, `divide_moov_mfra`, `divide_styp`, `divide_same_kind`, `divide_two_runs` |
| C64 | `ReadBoxStructure` takes a header that is cut off for the end of the file, and does not compare the size of a top-level box with that of the file: a last box that is cut off, or up to 15 bytes behind it, go unnoticed | `cut_off_box_unnoticed`, `trailing_bytes_unnoticed` |
| C65 | `mp4tool divide` does not look at the timescale: if it is 0, the playlist contains `+Inf` and `NaN` and a meaningless target duration | `zero_timescale`, `zero_timescale_target` |
| C94 | `mp4tool divide` drops the errors of `file.WriteString`: on a full disk it may report success for a playlist without `#EXT-X-ENDLIST`, without its first line, or for an empty master playlist | `media_success_lost`, `media_head_lost`, `master_never_fails` |
| C65 | BANDWIDTH counts only `mdat` boxes, each by itself, and not the `moof`; RFC 8216 asks for the rate of whole segments.  A fragment without duration makes it a conversion of infinity, which Go leaves open | `bandwidth_too_small`, `zero_duration` |
| C66 | a `trun` box without per-sample fields has as many entries as it claims: up to 2^32-2 (empty) entries from 8 bytes | `run_unbounded` |
| C67 | `Probe` appends as many samples as `stts` says: 4294967295 samples (16 bytes and a pointer each in Go) from a file of 220 bytes | `samples_unbounded` |
| C33 | with 2^32 chunks (a file of more than 16 GiB) the number of chunks is taken for 0, and no chunk gets its number of samples | `chunks_lost` |
| C68 | a reader that returns `io.EOF` together with the last bytes, as package `io` allows, makes `Unmarshal` fail with `io.EOF` although all bytes were delivered | `eof_with_data_refused` |
| C68 | a `Read` that returns `(0, nil)` makes `Unmarshal` fail, except in the strings of `emsg` version 1: there a character is repeated (or the string ends) without an error, and the message loses a byte | `empty_read_refused`, `empty_read_wrong_string` |
| C68 | errors of `Seek` are replaced by `not enough bits` where the size of the reader is looked up | `seek_error_replaced` |
| C69 | an optional field that is absent from the bytes keeps what the struct held before, so a reused struct mixes two boxes | `reuse_stale_refuted` |
| C69 | `Sgpd` version 2 with grouping type `alst`: the length of entries is taken from `DefaultLength`, which is read in version 1 only; with a reused struct the same bytes are read differently or refused | `reuse_sgpd_refuted` |
| C70 | the README's example of a user-defined box panics in `Marshal` (always) and in `Unmarshal` (of 8 bytes or more with version 0): it has a field with `len=dynamic` and no `GetFieldLength` | `readme_marshal_panics`, `readme_unmarshal_panics` |
| C70 | a `bool` field of more than 8 bits: `Marshal` reports the bytes as written, but writes nothing (`WriteBits` with a width beyond the data) | `wide_bool_not_written` |
| C71 | once the README's box is registered, expanding such a box in a traversal panics | `readme_traversal_panics` |
| C72 | an `emsg` box of an unknown version makes the README's program stop with an error, with the output cut off after the box header | `readme_unknown_version` |
| C73 | `mp4tool edit` reports success although entries of a list were not written, if the destination can still be overwritten (a full disk): errors of list elements are dropped by `Marshal` | `edit_success_lost`, `writer_success_lost` |
| C76 | `-drop ftyp` on a QuickTime file: the QuickTime data of an audio sample entry is taken for child boxes when the output is read | `edit_twice_needs_ftyp` |
| C77 | the depth of recursion is limited by nothing but the length of the file: 8·n bytes of nested `moov` headers make `Expand` recurse n levels deep | `nested_reaches_bounds` |
| C79 | a media segment appended to a QuickTime file is read with the QuickTime layout, so the same bytes have different fields than in the segment alone; a box of size 0 at the end of the first file takes in the second | `concat_quicktime_differs`, `concat_to_end_swallows` |
| C80 | a box of size 0 has in a file that is still being written the size it has so far | `part_open_differs` |
| C81 | `Sgpd.RollDistancesL` has the tag `size=16` (box_types_iso14496_12.go:1557), though an entry has 32 bits of length and 16 bits of distance: `Unmarshal` refuses with `invalid alignment` what `Marshal` writes | `sgpd_rollL_refuted` |
| C85 | bytes of a brand that are not UTF-8 are printed as U+FFFD, so files of different brands have the same report | `json_brand_lossy` |
| C86 | `mp4tool alpha edit F F` leaves an empty file and exits with status 0; `-base_media_decode_time 18446744073709551615` has no effect; options behind the file name are ignored without a message; `extract` cannot be asked for types like `©nam` in UTF-8 | `edit_in_place`, `edit_no_value`, `options_read`, `extract_no_copyright` |
| C89 | `mp4tool extract moov` of a QuickTime file: without `ftyp` the sample entry of an audio track is read differently, and `Probe` fails on what it accepted in the whole file | `extract_quicktime` |
