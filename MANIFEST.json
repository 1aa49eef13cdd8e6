{
 "claims": [
  {
   "property": "C01",
   "status": "proved",
   "theorems": [
    "Mp4.Props.bit_round_trip"
   ],
   "note": ""
  },
  {
   "property": "C02",
   "status": "proved",
   "theorems": [
    "Mp4.Props.bit_reader_exact"
   ],
   "note": ""
  },
  {
   "property": "C03",
   "status": "proved",
   "theorems": [
    "Mp4.Props.readBoxInfo_iso",
    "Mp4.Props.readBoxInfo_returns"
   ],
   "note": "streams shorter than 2^63 bytes, as every Go slice or file is"
  },
  {
   "property": "C04",
   "status": "proved",
   "theorems": [
    "Mp4.Props.boxInfo_round_trip"
   ],
   "note": "boxInfo_promotion_mismatch shows that the self-consistency condition is needed"
  },
  {
   "property": "C05",
   "status": "proved",
   "theorems": [
    "Mp4.Props.box_round_trip"
   ],
   "note": ""
  },
  {
   "property": "C06",
   "status": "proved",
   "theorems": [
    "Mp4.Props.marshal_reports_written",
    "Mp4.Props.marshal_writes_layout"
   ],
   "note": "the count for every value; the contents for every value whose numbers are signed and in range or unsigned (also too large), and whose lists are long enough"
  },
  {
   "property": "C07",
   "status": "proved",
   "theorems": [
    "Mp4.Props.reencode",
    "Mp4.Props.reencode_same_size",
    "Mp4.Props.reencode_noStr",
    "Mp4.Props.reencode_canonical",
    "Mp4.Props.reencode_unterminated_differs",
    "Mp4.Props.reencode_hdlr_differs",
    "Mp4.Props.reencode_esds_differs"
   ],
   "note": "canonical form: the encoding of the result has the length of what was consumed (nothing at all is asked of types without strings); for esds and hdlr: the payload is the encoding of a representable value; the last three theorems show that the conditions are needed"
  },
  {
   "property": "C08",
   "status": "proved",
   "theorems": [
    "Mp4.Props.unmarshal_never_panics",
    "Mp4.Props.unmarshal_outside_stream_panics"
   ],
   "note": "streams of at most 2^48 bytes; the second theorem shows that the start position has to be inside the stream"
  },
  {
   "property": "C09",
   "status": "proved",
   "theorems": [
    "Mp4.Props.unmarshal_stays_inside"
   ],
   "note": "streams of at most 2^48 bytes"
  },
  {
   "property": "C10",
   "status": "partial",
   "theorems": [
    "Mp4.Props.unmarshal_is_local_partial",
    "Mp4.Props.meta_looks_behind_payload"
   ],
   "note": "proved for every box type, for meta with a payload of at least 4 bytes; refuted for meta with less"
  },
  {
   "property": "C11",
   "status": "partial",
   "theorems": [
    "Mp4.Props.unmarshal_terminates_partial",
    "Mp4.Props.unmarshal_trun_hangs",
    "Mp4.Props.unmarshal_trun_entries"
   ],
   "note": "termination is proved except for a trun box announcing 2^32-1 samples, for which it is refuted; the bound by the number of bits is refuted"
  },
  {
   "property": "C12",
   "status": "partial",
   "theorems": [
    "Mp4.Props.unsupported_version_rewinds_partial",
    "Mp4.Props.meta_version_accepted"
   ],
   "note": "proved for every box type but meta, refuted for meta"
  },
  {
   "property": "C13",
   "status": "partial",
   "theorems": [
    "Mp4.Props.counts_match_partial",
    "Mp4.Props.count_sentinel_ignored",
    "Mp4.Props.sgpd_roll_count_ignored"
   ],
   "note": "proved for every counted list of the library, also nested ones, and every count but 2^32-1, for which it is refuted; refuted for the roll distances of sgpd"
  },
  {
   "property": "C14",
   "status": "partial",
   "theorems": [
    "Mp4.Props.marshal_reports_write_failure_partial",
    "Mp4.Props.marshal_loses_write_failure"
   ],
   "note": "proved for the 71 box types without lists of anything but bytes; refuted for the others (stts as witness)"
  },
  {
   "property": "C15",
   "status": "partial",
   "theorems": [
    "Mp4.Props.marshal_rejects_short_list_partial",
    "Mp4.Props.marshal_accepts_short_nested_list"
   ],
   "note": "proved for the lists of every box; refuted for lists inside list elements (hvcC as witness)"
  },
  {
   "property": "C16",
   "status": "partial",
   "theorems": [
    "Mp4.Props.marshal_never_panics_partial",
    "Mp4.Props.marshal_elst_panics",
    "Mp4.Props.marshal_esds_panics"
   ],
   "note": "proved for every value of every box type except elst/tfra of version 2 or more and esds with nil descriptors, for which it is refuted"
  },
  {
   "property": "C17",
   "status": "proved",
   "theorems": [
    "Mp4.Props.flags_history",
    "Mp4.Props.getFlags_after_setFlags",
    "Mp4.Props.checkFlag_iff"
   ],
   "note": ""
  },
  {
   "property": "C18",
   "status": "proved",
   "theorems": [
    "Mp4.Props.removeBrand_spec",
    "Mp4.Props.addBrand_spec",
    "Mp4.Props.brands_history"
   ],
   "note": ""
  },
  {
   "property": "C19",
   "status": "proved",
   "theorems": [
    "Mp4.Props.lookup_is_newest",
    "Mp4.Props.chosen_unique",
    "Mp4.Props.lookup_functions_agree"
   ],
   "note": "for any sequence of registrations, not only those of the library"
  },
  {
   "property": "C20",
   "status": "proved",
   "theorems": [
    "Mp4.Props.visits_every_box_in_order",
    "Mp4.Props.boxes_in_file_order",
    "Mp4.Props.walk_visits"
   ],
   "note": ""
  },
  {
   "property": "C21",
   "status": "proved",
   "theorems": [
    "Mp4.Props.handler_cannot_derail",
    "Mp4.Props.expand_starts_at_children",
    "Mp4.Props.expand_start"
   ],
   "note": "files of at most 2^48 bytes; the reader is a bytes.Reader"
  },
  {
   "property": "C22",
   "status": "partial",
   "theorems": [
    "Mp4.Props.children_inside_partial",
    "Mp4.Props.children_outside_parent",
    "Mp4.Props.visited_box_is_real"
   ],
   "note": "proved for parents whose announced size covers their header and does not run past 2^64; refuted for others"
  },
  {
   "property": "C23",
   "status": "partial",
   "theorems": [
    "Mp4.Props.traversal_terminates_partial",
    "Mp4.Props.traversal_fuel_irrelevant",
    "Mp4.Props.traversal_root_loops",
    "Mp4.Props.traversal_recurses_forever"
   ],
   "note": "proved unless a visited box announces a size smaller than its header or running past 2^64, or is a trun with 2^32-1 samples; refuted for such files"
  },
  {
   "property": "C24",
   "status": "proved",
   "theorems": [
    "Mp4.Props.values_and_errors",
    "Mp4.Props.root_values_and_errors"
   ],
   "note": ""
  },
  {
   "property": "C25",
   "status": "partial",
   "theorems": [
    "Mp4.Props.extract_exact_partial",
    "Mp4.Props.extract_below_exact_partial",
    "Mp4.Props.extract_empty_path",
    "Mp4.Props.extract_unknown_fails"
   ],
   "note": "proved unless a box without known children (as one of unknown type) lies on a prefix of a path asked for, for which it is refuted"
  },
  {
   "property": "C26",
   "status": "partial",
   "theorems": [
    "Mp4.Props.extract_payload_partial",
    "Mp4.Props.extract_payload_fails",
    "Mp4.Props.extract_payload_differs"
   ],
   "note": "proved for boxes whose context differs from the one used in nothing that matters for them; refuted for others"
  },
  {
   "property": "C27",
   "status": "proved",
   "theorems": [
    "Mp4.Props.context_says_what_is_above",
    "Mp4.Props.quicktime_after_ftyp"
   ],
   "note": ""
  },
  {
   "property": "C28",
   "status": "proved",
   "theorems": [
    "Mp4.Props.writer_serialises",
    "Mp4.Props.wellNested_tree"
   ],
   "note": "sequences of StartBox, Write, CopyBox, EndBox and Marshal into the writer; any contents and position of the destination"
  },
  {
   "property": "C29",
   "status": "proved",
   "theorems": [
    "Mp4.Props.write_then_read",
    "Mp4.Props.writes_boxes"
   ],
   "note": "also the payloads: fields decode to what was written; files of at most 2^48 bytes; QuickTime meta boxes without version and flags are outside"
  },
  {
   "property": "C30",
   "status": "proved",
   "theorems": [
    "Mp4.Props.copyBox_exact"
   ],
   "note": "source: a bytes.Reader other than the destination; failing destinations included"
  },
  {
   "property": "C31",
   "status": "partial",
   "theorems": [
    "Mp4.Props.endBox_partial",
    "Mp4.Props.endBox_damages",
    "Mp4.Props.endBox_panics"
   ],
   "note": "proved for boxes that fit the header form begun with, also when the destination fails; refuted for boxes that outgrow it; panics when no box is open"
  },
  {
   "property": "C32",
   "status": "partial",
   "theorems": [
    "Mp4.Props.sample_table_partial",
    "Mp4.Props.constant_size_ignored",
    "Mp4.Props.offsets_lost"
   ],
   "note": "proved for tables with one size per sample and fewer than 2^32 samples; refuted for a constant stsz size, which is ignored, and for 2^32 or more samples, where composition offsets are lost"
  },
  {
   "property": "C33",
   "status": "partial",
   "theorems": [
    "Mp4.Props.chunk_table_file_partial",
    "Mp4.Props.chunk_table_partial",
    "Mp4.Props.chunks_lost"
   ],
   "note": "proved for the library's own registrations and files of less than 2^34 bytes (and, for any registrations, for tracks with fewer than 2^32 chunks and stsc entries of 32 bits); refuted for a track with 2^32 chunks, whose samples per chunk are lost"
  },
  {
   "property": "C34",
   "status": "partial",
   "theorems": [
    "Mp4.Props.fast_start_partial",
    "Mp4.Props.fast_start_exact",
    "Mp4.Props.fast_start_no_mdat",
    "Mp4.Props.fast_start_two_moov"
   ],
   "note": "proved for well-formed files with one moov and some mdat box; refuted for files without mdat and for files with two moov boxes; fast_start_exact says what is reported in every case"
  },
  {
   "property": "C35",
   "status": "partial",
   "theorems": [
    "Mp4.Props.bitrate_partial",
    "Mp4.Props.bitrate_wraps",
    "Mp4.Props.max_bitrate_partial",
    "Mp4.Props.max_bitrate_no_span",
    "Mp4.Props.max_bitrate_returns_partial",
    "Mp4.Props.max_bitrate_panics",
    "Mp4.Props.max_bitrate_misses",
    "Mp4.Props.segments_bitrate_partial",
    "Mp4.Props.segments_max_partial"
   ],
   "note": "proved where 64-bit arithmetic does not wrap; refuted by wrap-around, by a division by zero and by windows that are not examined"
  },
  {
   "property": "C36",
   "status": "partial",
   "theorems": [
    "Mp4.Props.idr_frames_partial",
    "Mp4.Props.idr_no_avc",
    "Mp4.Props.idr_frames_exact",
    "Mp4.Props.idr_terminates_short",
    "Mp4.Props.idr_cycle_hangs",
    "Mp4.Props.idr_hangs",
    "Mp4.Props.idr_empty_unit"
   ],
   "note": "proved for samples made of NAL units; for every file, that it terminates and finds the IDR units met by following the length fields, unless a length field makes the position exceed 32 bits; refuted there: it loops forever if the position returns to an earlier unit, and an empty NAL unit is taken for an IDR unit"
  },
  {
   "property": "C37",
   "status": "partial",
   "theorems": [
    "Mp4.Props.esds_partial",
    "Mp4.Props.esds_size_wraps",
    "Mp4.Props.size_any_length"
   ],
   "note": "proved for sizes below 2^28; refuted above: sizes of 2^28 and more are not rejected but written modulo 2^28; Unmarshal reads sizes in any number of bytes"
  },
  {
   "property": "C38",
   "status": "proved",
   "theorems": [
    "Mp4.Props.boxType_string",
    "Mp4.Props.boxType_string_injective",
    "Mp4.Props.uint32ToBoxType_bij"
   ],
   "note": ""
  },
  {
   "property": "C39",
   "status": "proved",
   "theorems": [
    "Mp4.Props.matchWith_laws"
   ],
   "note": ""
  },
  {
   "property": "C40",
   "status": "proved",
   "theorems": [
    "Mp4.Props.mvhd_accessors",
    "Mp4.Props.tkhd_accessors",
    "Mp4.Props.mdhd_accessors",
    "Mp4.Props.mehd_accessors",
    "Mp4.Props.tfdt_accessors",
    "Mp4.Props.smhd_accessors",
    "Mp4.Props.cslg_accessors",
    "Mp4.Props.sidx_accessors",
    "Mp4.Props.ctts_accessors_v0",
    "Mp4.Props.ctts_accessors_v1",
    "Mp4.Props.elst_accessors",
    "Mp4.Props.saio_accessors",
    "Mp4.Props.tfra_accessors",
    "Mp4.Props.trun_accessors",
    "Mp4.Props.audio_accessors",
    "Mp4.Props.accessors_other_version",
    "Mp4.Props.tkhd_size_exact",
    "Mp4.Props.mvhd_rate_exact",
    "Mp4.Props.smhd_balance_exact",
    "Mp4.Props.audio_rate_exact",
    "Mp4.Props.fields_are_words",
    "Mp4.Props.fields_nonempty",
    "Mp4.Props.subtitle_lists"
   ],
   "note": "each accessor after Unmarshal of the bits of the standard; fractional results (rates, widths, balance) in a model of binary64 and binary32"
  },
  {
   "property": "C41",
   "status": "partial",
   "theorems": [
    "Mp4.Props.escape_runes",
    "Mp4.Props.graphic_latin1",
    "Mp4.Props.decode_encode",
    "Mp4.Props.decode_malformed",
    "Mp4.Props.encode_invalid",
    "Mp4.Props.escape_printable",
    "Mp4.Props.printable_one_line",
    "Mp4.Props.stringify_printable",
    "Mp4.Props.stringify_printable_partial",
    "Mp4.Props.language_delete",
    "Mp4.Props.language_newline"
   ],
   "note": "EscapeUnprintables proved for every byte string; Stringify proved printable for every registered box type but mdhd and the 3GPP strings, and for these when the letters of the language code are below 31; refuted otherwise, since language codes are not escaped"
  },
  {
   "property": "C42",
   "status": "proved",
   "theorems": [
    "Mp4.Props.emsg_encodes"
   ],
   "note": ""
  },
  {
   "property": "C43",
   "status": "partial",
   "theorems": [
    "Mp4.Props.hdlr_name_iso",
    "Mp4.Props.hdlr_name_unterminated",
    "Mp4.Props.hdlr_name_quicktime_partial",
    "Mp4.Props.hdlr_name_quicktime_c",
    "Mp4.Props.hdlr_name_255"
   ],
   "note": "proved for C strings, unterminated names and Pascal strings of up to 254 bytes; refuted for Pascal strings of 255 bytes, whose length byte ends up in the name because plen+1 wraps in uint8"
  },
  {
   "property": "C44",
   "status": "partial",
   "theorems": [
    "Mp4.Props.catalogue_layout",
    "Mp4.Props.fullBox_layout",
    "Mp4.Props.fields_sorted",
    "Mp4.Props.tag_elements",
    "Mp4.Props.tag_pair",
    "Mp4.Props.tag_value",
    "Mp4.Props.tag_flag_number",
    "Mp4.Props.tag_version_number",
    "Mp4.Props.order_independent_partial",
    "Mp4.Props.order_depends"
   ],
   "note": "proved for every struct of the library and every iteration order of the maps; for arbitrary tags, independence of the iteration order is proved for at most one order key and refuted for two"
  },
  {
   "property": "C45",
   "status": "partial",
   "theorems": [
    "Mp4.Props.edit_partial",
    "Mp4.Props.edit_nothing_partial",
    "Mp4.Props.canonical_noStr",
    "Mp4.Props.edit_loses_terminator",
    "Mp4.Props.edit_changes_meta",
    "Mp4.Props.edit_truncates_time",
    "Mp4.Props.edit_fails_on_version",
    "Mp4.Props.edit_keeps_offsets"
   ],
   "note": "proved for every well-formed file whose kept boxes of known types can be decoded and are in canonical form (which boxes without strings always are), every list of names and every time, when nothing fails; refuted for QuickTime files with terminated udta, for meta in the QuickTime form, for times beyond 32 bits in tfdt of version 0, for boxes of an unknown version"
  },
  {
   "property": "C46",
   "status": "proved",
   "theorems": [
    "Mp4.Props.truncated_payload_is_error"
   ],
   "note": "streams of at most 2^48 bytes"
  },
  {
   "property": "C47",
   "status": "proved",
   "theorems": [
    "Mp4.Props.traversal_never_panics"
   ],
   "note": ""
  },
  {
   "property": "C48",
   "status": "proved",
   "theorems": [
    "Mp4.Props.mvhd_v0",
    "Mp4.Props.mvhd_v1",
    "Mp4.Props.tkhd_v0",
    "Mp4.Props.tkhd_v1",
    "Mp4.Props.mdhd_v0",
    "Mp4.Props.mdhd_v1",
    "Mp4.Props.mehd_v0",
    "Mp4.Props.mehd_v1",
    "Mp4.Props.trex_v0",
    "Mp4.Props.mfhd_v0",
    "Mp4.Props.mfro_v0",
    "Mp4.Props.tfdt_v0",
    "Mp4.Props.tfdt_v1",
    "Mp4.Props.vmhd_v0",
    "Mp4.Props.smhd_v0",
    "Mp4.Props.btrt_iso",
    "Mp4.Props.pasp_iso",
    "Mp4.Props.stts_iso",
    "Mp4.Props.ctts_v0",
    "Mp4.Props.ctts_v1",
    "Mp4.Props.stsc_iso",
    "Mp4.Props.stsz_each",
    "Mp4.Props.stsz_same",
    "Mp4.Props.stco_iso",
    "Mp4.Props.co64_iso",
    "Mp4.Props.stss_iso",
    "Mp4.Props.elst_v0",
    "Mp4.Props.elst_v1",
    "Mp4.Props.sidx_v0",
    "Mp4.Props.sidx_v1",
    "Mp4.Props.ftyp_iso",
    "Mp4.Props.tfhd_iso",
    "Mp4.Props.trun_iso",
    "Mp4.Props.cslg_v0",
    "Mp4.Props.cslg_v1",
    "Mp4.Props.dref_iso",
    "Mp4.Props.stsd_iso",
    "Mp4.Props.frma_iso",
    "Mp4.Props.url_iso",
    "Mp4.Props.schm_iso",
    "Mp4.Props.saio_v0",
    "Mp4.Props.saio_v1",
    "Mp4.Props.saiz_same",
    "Mp4.Props.saiz_each",
    "Mp4.Props.sbgp_v0",
    "Mp4.Props.sbgp_v1",
    "Mp4.Props.sdtp_iso",
    "Mp4.Props.mdat_iso",
    "Mp4.Props.pssh_v0",
    "Mp4.Props.pssh_v1",
    "Mp4.Props.tenc_v0",
    "Mp4.Props.tenc_v1",
    "Mp4.Props.tfra_iso",
    "Mp4.Props.iso_types"
   ],
   "note": "tables of at most 2^32-2 entries: a count of 2^32-1 is the library's sentinel for an unlimited list; the Go fields of the other version are zero"
  },
  {
   "property": "C49",
   "status": "partial",
   "theorems": [
    "Mp4.Props.handle_readPayload",
    "Mp4.Props.handle_readData_partial",
    "Mp4.Props.readData_huge"
   ],
   "note": "ReadPayload proved; ReadData proved for payloads below 2^63 bytes and refuted above: it copies nothing and reports success"
  },
  {
   "property": "C50",
   "status": "partial",
   "theorems": [
    "Mp4.Props.visual_iso",
    "Mp4.Props.audio_iso",
    "Mp4.Props.audio_quicktime",
    "Mp4.Props.audio_wave",
    "Mp4.Props.av1C_iso",
    "Mp4.Props.dac3_iso",
    "Mp4.Props.vpcC_iso",
    "Mp4.Props.dOps_family0",
    "Mp4.Props.dOps_mapped",
    "Mp4.Props.colr_nclx",
    "Mp4.Props.trep_iso",
    "Mp4.Props.fiel_iso",
    "Mp4.Props.pcmC_iso",
    "Mp4.Props.urn_iso",
    "Mp4.Props.emsg_v0",
    "Mp4.Props.emsg_v1",
    "Mp4.Props.avcC_iso",
    "Mp4.Props.avcC_high",
    "Mp4.Props.hvcC_iso_partial",
    "Mp4.Props.hvcC_layers"
   ],
   "note": "all but hvcC as claimed; in hvcC NumTemporalLayers has 2 bits instead of 3 and TemporalIdNested 2 instead of 1: hvcC_iso_partial says what is read instead, hvcC_layers refutes the claim for every record with a temporal layer"
  },
  {
   "property": "C51",
   "status": "proved",
   "theorems": [
    "Mp4.Props.probe_summary"
   ],
   "note": "well-formed files in which no moov box is opaque; the tracks and segments themselves are the subject of C32 and C33"
  },
  {
   "property": "C52",
   "status": "partial",
   "theorems": [
    "Mp4.Props.stringify_text",
    "Mp4.Props.dec_value",
    "Mp4.Props.hex_value",
    "Mp4.Props.fixed_text",
    "Mp4.Props.uuid_text",
    "Mp4.Props.own_notations",
    "Mp4.Props.number_text",
    "Mp4.Props.uint_text_partial",
    "Mp4.Props.version_not_shown"
   ],
   "note": "the text of every value of every registered box type, on one line and with indentation, is proved to be Name=value for each visible field in order, in notations from which numbers can be read back (fixed-point ones up to rounding); refuted for the field Version of items and dOps, in whose place the version of the box is shown"
  },
  {
   "property": "C53",
   "status": "partial",
   "theorems": [
    "Mp4.Props.track_fields_partial",
    "Mp4.Props.track_boxes_partial",
    "Mp4.Props.encrypted_avc_missing",
    "Mp4.Props.entries_mixed"
   ],
   "note": "proved for every file which boxes each field is taken from (the last of each type); refuted for encrypted AVC tracks, which get no AVC information, and for tracks with several sample entries, of which parts are mixed"
  },
  {
   "property": "C54",
   "status": "partial",
   "theorems": [
    "Mp4.Props.segment_fields_partial",
    "Mp4.Props.tracks_mixed",
    "Mp4.Props.only_last_run",
    "Mp4.Props.duration_wraps",
    "Mp4.Props.trex_ignored"
   ],
   "note": "proved for fragments with one track fragment and one run whose sums fit 32 bits; refuted for several track fragments, several runs, larger sums, and defaults in trex"
  },
  {
   "property": "C55",
   "status": "partial",
   "theorems": [
    "Mp4.Props.aac_profile_partial",
    "Mp4.Props.aac_descriptors",
    "Mp4.Props.extension_missed"
   ],
   "note": "proved for every configuration without backward compatible extension or with one directly behind the channel configuration; refuted for the place the standard gives the extension: it is never seen there"
  },
  {
   "property": "C56",
   "status": "proved",
   "theorems": [
    "Mp4.Props.extract_sound",
    "Mp4.Props.extract_below_sound",
    "Mp4.Props.extract_payload_sound"
   ],
   "note": "files of at most 2^48 bytes, the library's own registrations; the starting box is one whose header is in the file"
  },
  {
   "property": "C57",
   "status": "proved",
   "theorems": [
    "Mp4.Props.probe_never_panics",
    "Mp4.Props.findIDR_never_panics",
    "Mp4.Props.probe_panics_if_replaced"
   ],
   "note": "files of at most 2^48 bytes, the library's own registrations; a program that registers another Go type for a box Probe reads makes it panic (probe_panics_if_replaced); memory use is not part of the model"
  },
  {
   "property": "C58",
   "status": "proved",
   "theorems": [
    "Mp4.Props.extract_tool_writes",
    "Mp4.Props.extract_tool_sound"
   ],
   "note": "files of at most 2^48 bytes; well-formed: boxes other than large tables can be decoded, or are of an unknown version and do not contain boxes"
  },
  {
   "property": "C59",
   "status": "partial",
   "theorems": [
    "Mp4.Props.psshdump_lists",
    "Mp4.Props.psshdump_sound",
    "Mp4.Props.base64_decodes",
    "Mp4.Props.psshdump_panics"
   ],
   "note": "proved for well-formed files in which moov and moof contain boxes, and for any file in which no pssh box that is reached announces more than 2^48 bytes; refuted for such boxes: 56 bytes make it panic"
  },
  {
   "property": "C60",
   "status": "proved",
   "theorems": [
    "Mp4.Props.stringify_decoded",
    "Mp4.Props.stringify_any",
    "Mp4.Props.marshal_decoded",
    "Mp4.Props.stringify_returns_partial",
    "Mp4.Props.stringify_elst_panics",
    "Mp4.Props.stringify_esds_panics"
   ],
   "note": "streams of at most 2^48 bytes; of the values that a program makes by itself, those that Stringify panics for are as for Marshal (C16): stringify_returns_partial and the two witnesses"
  },
  {
   "property": "C61",
   "status": "partial",
   "theorems": [
    "Mp4.Props.dump_lists",
    "Mp4.Props.dump_sound",
    "Mp4.Props.dump_panics",
    "Mp4.Props.dump_panics_large"
   ],
   "note": "files of at most 2^48 bytes; the first half is proved; the second is proved except that boxes that cannot be decoded, are to be shown in full and announce less bytes than their header or more than 2^48 make it panic (two witnesses)"
  },
  {
   "property": "C62",
   "status": "partial",
   "theorems": [
    "Mp4.Props.report_describes",
    "Mp4.Props.report_never_panics_partial",
    "Mp4.Props.report_panics",
    "Mp4.Props.json_printed",
    "Mp4.Props.json_needs_movie",
    "Mp4.Props.json_segment"
   ],
   "note": "files of at most 2^48 bytes; the contents of the report are proved for every file, the bit rates where 64-bit arithmetic does not wrap; refuted: a last sample without duration makes the command panic, and nothing is printed as JSON if a timescale is 0, as for every file without a movie header"
  },
  {
   "property": "C63",
   "status": "partial",
   "theorems": [
    "Mp4.Props.divTracks_found",
    "Mp4.Props.divide_writes",
    "Mp4.Props.divide_any_order",
    "Mp4.Props.divide_succeeds",
    "Mp4.Props.divide_max_id",
    "Mp4.Props.divide_styp",
    "Mp4.Props.divide_no_trun",
    "Mp4.Props.divide_moov_mfra",
    "Mp4.Props.divide_same_kind",
    "Mp4.Props.divide_two_runs"
   ],
   "note": "files of at most 2^48 bytes in which no box is shorter than its header or has 2^63 bytes or more; what is written and the tracks are proved, for every order of the tracks; that it succeeds is proved for well-formed files with the boxes it expects and a trun in every fragment, whose tracks do not have the ID 2^32 - 1; for the playlists see C65; refuted: the track ID 2^32 - 1, a fragment without trun and other boxes inside moov make the command panic, two tracks of the same kind write into the same files, and of several trun boxes only the first counts for the duration"
  },
  {
   "property": "C64",
   "status": "partial",
   "theorems": [
    "Mp4.Props.whole_file_seen_partial",
    "Mp4.Props.sizes_cover_file_partial",
    "Mp4.Props.whole_box_seen",
    "Mp4.Props.cut_off_box_unnoticed",
    "Mp4.Props.trailing_bytes_unnoticed"
   ],
   "note": "files of at most 2^48 bytes; for Expand proved in full (for boxes at least as large as their header); for the file up to what is refuted: the last top-level box may announce more bytes than there are, and up to 7 bytes behind it (15 if they begin like a 64-bit header) are ignored"
  },
  {
   "property": "C65",
   "status": "partial",
   "theorems": [
    "Mp4.Props.divide_media_playlists_partial",
    "Mp4.Props.divide_master_playlist_partial",
    "Mp4.Props.zero_timescale",
    "Mp4.Props.zero_timescale_target",
    "Mp4.Props.zero_duration",
    "Mp4.Props.bandwidth_too_small"
   ],
   "note": "files of at most 2^48 bytes whose tracks are of different kinds, and whose boxes are no shorter than their headers; the media playlists for tracks whose timescale is not 0; the bandwidth is proved to be the greatest rate of a single mdat (if every fragment has a duration), that it is no less than the rate of any segment is refuted"
  },
  {
   "property": "C66",
   "status": "partial",
   "theorems": [
    "Mp4.Props.unmarshal_volume_partial",
    "Mp4.Props.unmarshalAny_volume_partial",
    "Mp4.Props.run_unbounded"
   ],
   "note": "proved for all box types but trun boxes without any per-sample field, for which it is refuted"
  },
  {
   "property": "C67",
   "status": "partial",
   "theorems": [
    "Mp4.Props.probe_volume_partial",
    "Mp4.Props.samples_unbounded"
   ],
   "note": "proved for chunks and edits (one per four bytes at most), files of at most 2^48 bytes, the library's own registrations; refuted for samples"
  },
  {
   "property": "C68",
   "status": "partial",
   "theorems": [
    "Mp4.Props.source_decode_partial",
    "Mp4.Props.source_traversal_partial",
    "Mp4.Props.source_probe_partial",
    "Mp4.Props.source_success",
    "Mp4.Props.eof_with_data_refused",
    "Mp4.Props.empty_read_refused",
    "Mp4.Props.empty_read_wrong_string",
    "Mp4.Props.seek_error_replaced"
   ],
   "note": "proved for readers that deliver at least one byte per Read and io.EOF by itself; for readers that report the end together with the last bytes or deliver nothing once, which package io allows, it is refuted; ReadData with destinations that take everything"
  },
  {
   "property": "C69",
   "status": "partial",
   "theorems": [
    "Mp4.Props.reuse_partial",
    "Mp4.Props.reuse_encodes_partial",
    "Mp4.Props.reuse_whole",
    "Mp4.Props.reuse_whole_count",
    "Mp4.Props.reuse_stale_refuted",
    "Mp4.Props.reuse_sgpd_refuted"
   ],
   "note": "proved for all box types; for Sgpd the two structs must have held the same DefaultLength, without which it is refuted (version 2, grouping type alst).  That absent optional fields are reset is refuted (they keep what they held)"
  },
  {
   "property": "C70",
   "status": "partial",
   "theorems": [
    "Mp4.Props.custom_decodes_safely",
    "Mp4.Props.custom_is_local",
    "Mp4.Props.custom_round_trip",
    "Mp4.Props.custom_reencode",
    "Mp4.Props.custom_reencode_noStr",
    "Mp4.Props.custom_encodes_safely",
    "Mp4.Props.custom_marshal_counts",
    "Mp4.Props.readme_layout",
    "Mp4.Props.readme_with_length_safe",
    "Mp4.Props.readme_with_length_ordered",
    "Mp4.Props.readme_with_length_exact",
    "Mp4.Props.readme_marshal_panics",
    "Mp4.Props.readme_unmarshal_panics",
    "Mp4.Props.wide_bool_not_written",
    "Mp4.Props.empty_elements_hang",
    "Mp4.Props.late_count_lost"
   ],
   "note": "proved for all definitions that meet the conditions (without OnReadField, OnWriteField or BeforeUnmarshal); that the example of the README meets them is refuted: it lacks GetFieldLength, and Marshal and Unmarshal panic; with the method it does.  A bool field of more than 8 bits is reported as written, but is not"
  },
  {
   "property": "C71",
   "status": "partial",
   "theorems": [
    "Mp4.Props.registered_decodes_safely_partial",
    "Mp4.Props.registered_traversal_never_panics",
    "Mp4.Props.registered_handler_cannot_derail",
    "Mp4.Props.registered_expand_start",
    "Mp4.Props.registered_visited_boxes_partial",
    "Mp4.Props.registered_values_and_errors",
    "Mp4.Props.registered_traversal_terminates_partial",
    "Mp4.Props.registered_fuel_irrelevant",
    "Mp4.Props.registered_nil",
    "Mp4.Props.readme_traversal_panics"
   ],
   "note": "proved for all lists of registrations of definitions that decode safely in the sense of C70; lying in the parent and termination have the exceptions of C22 and C23 (boxes smaller than their header or running past 2^64, trun announcing 2^32-1 samples)"
  },
  {
   "property": "C72",
   "status": "proved",
   "theorems": [
    "Mp4.Props.rewrite_boxes",
    "Mp4.Props.readme_rewrites",
    "Mp4.Props.readme_unknown_version"
   ],
   "note": "for all files that are rows of boxes, of at most 2^48 bytes, whose boxes of the type can be decoded, changed and encoded within the form of their header; of an emsg box that cannot be decoded readme_unknown_version shows that the program stops with an error and a truncated output"
  },
  {
   "property": "C73",
   "status": "partial",
   "theorems": [
    "Mp4.Props.writer_success_partial",
    "Mp4.Props.writer_success_lasting",
    "Mp4.Props.writer_success_tree",
    "Mp4.Props.edit_success_lasting",
    "Mp4.Props.rewrite_success_lasting",
    "Mp4.Props.rewrite_success_partial",
    "Mp4.Props.readme_success",
    "Mp4.Props.writer_success_lost",
    "Mp4.Props.edit_success_lost"
   ],
   "note": "proved for all box types and programs if the destination keeps failing once a Write has failed, and for any failures if no value of the 23 types of mayLoseErrors (lists) is encoded, as in the program of the README; refuted for lists and a destination that can still be overwritten after a failure"
  },
  {
   "property": "C74",
   "status": "proved",
   "theorems": [
    "Mp4.Props.registration_local",
    "Mp4.Props.registration_unnoticed",
    "Mp4.Props.registering_is_local",
    "Mp4.Props.extraction_local",
    "Mp4.Props.extracted_asked",
    "Mp4.Props.extraction_with_payload_local",
    "Mp4.Props.probe_local",
    "Mp4.Props.registering_keeps_probe",
    "Mp4.Props.any_inside_sees_registration"
   ],
   "note": "ftyp and keys are excluded since the traversal itself decodes them"
  },
  {
   "property": "C75",
   "status": "partial",
   "theorems": [
    "Mp4.Props.edit_never_panics",
    "Mp4.Props.edit_returns_partial",
    "Mp4.Props.rewrite_never_panics_partial",
    "Mp4.Props.readme_never_panics",
    "Mp4.Props.rewrite_wrong_type_panics"
   ],
   "note": "that edit and the README program do not panic is proved for all inputs and outputs; termination has the exceptions of C23; the variant for other types excludes elst, tfra and esds, whose encoding can panic for values that a change can produce (C16)"
  },
  {
   "property": "C76",
   "status": "proved",
   "theorems": [
    "Mp4.Props.edit_boxes",
    "Mp4.Props.edit_then_read",
    "Mp4.Props.edit_twice",
    "Mp4.Props.edit_again",
    "Mp4.Props.edit_twice_needs_ftyp"
   ],
   "note": "for files of at most 2^48 bytes that are the encoding of a tree of boxes as the library writes it; why ftyp and keys are excluded: edit_twice_needs_ftyp shows a QuickTime file whose audio data is taken for a box once ftyp is gone"
  },
  {
   "property": "C77",
   "status": "proved",
   "theorems": [
    "Mp4.Props.calls_bounded",
    "Mp4.Props.depth_bounded",
    "Mp4.Props.nested_reaches_bounds",
    "Mp4.Props.extract_once",
    "Mp4.Props.extractTool_once",
    "Mp4.Props.dumpTool_once",
    "Mp4.Props.edit_once",
    "Mp4.Props.rewrite_once"
   ],
   "note": "for files of at most 2^48 bytes; what happens with boxes that announce too small or too large a size is in C23"
  },
  {
   "property": "C78",
   "status": "proved",
   "theorems": [
    "Mp4.Props.probe_ser",
    "Mp4.Props.probe_written"
   ],
   "note": "for files of at most 2^48 bytes that the library writes; boxes given as raw bytes are of unknown type; how a track or a segment is made from its boxes is C53 and C54"
  },
  {
   "property": "C79",
   "status": "proved",
   "theorems": [
    "Mp4.Props.concat_reads",
    "Mp4.Props.concat_extract",
    "Mp4.Props.concat_probe",
    "Mp4.Props.concat_quicktime_differs",
    "Mp4.Props.concat_to_end_swallows"
   ],
   "note": "for files of at most 2^48 bytes together; concat_quicktime_differs and concat_to_end_swallows show why the first file may not be a QuickTime file or end with an open box"
  },
  {
   "property": "C80",
   "status": "proved",
   "theorems": [
    "Mp4.Props.part_reads",
    "Mp4.Props.part_outcome",
    "Mp4.Props.part_payload",
    "Mp4.Props.part_extract",
    "Mp4.Props.part_extract_below",
    "Mp4.Props.part_extract_payload",
    "Mp4.Props.part_sees",
    "Mp4.Props.part_open_differs"
   ],
   "note": "for files of at most 2^48 bytes; part_open_differs shows why boxes that extend to the end of the file are excluded; part_sees is for the handlers of C20 and files whose ftyp and keys boxes contain their fields only"
  },
  {
   "property": "C81",
   "status": "partial",
   "theorems": [
    "Mp4.Props.container_iso",
    "Mp4.Props.container_reads_nothing",
    "Mp4.Props.free_iso",
    "Mp4.Props.styp_iso",
    "Mp4.Props.stpp_iso",
    "Mp4.Props.sbtt_iso",
    "Mp4.Props.wvtt_iso",
    "Mp4.Props.webvtt_iso",
    "Mp4.Props.vsid_iso",
    "Mp4.Props.asset_iso",
    "Mp4.Props.data_iso",
    "Mp4.Props.stringData_iso",
    "Mp4.Props.item_iso",
    "Mp4.Props.keys_iso",
    "Mp4.Props.meta_iso",
    "Mp4.Props.meta_quicktime",
    "Mp4.Props.sgpd_roll_partial",
    "Mp4.Props.sgpd_roll_v2",
    "Mp4.Props.sgpd_rap",
    "Mp4.Props.sgpd_rapL",
    "Mp4.Props.sgpd_tele",
    "Mp4.Props.sgpd_teleL",
    "Mp4.Props.sgpd_other",
    "Mp4.Props.sgpd_alst",
    "Mp4.Props.sgpd_alstL",
    "Mp4.Props.sgpd_rollL_refuted",
    "Mp4.Props.rest_types",
    "Mp4.Props.asset_types",
    "Mp4.Props.item_types",
    "Mp4.Props.value_types",
    "Mp4.Props.types_complete"
   ],
   "note": "false for sgpd with roll distances that have a length in front of each entry: they are written as the standard says and cannot be read back (sgpd_rollL_refuted); everything else is proved"
  },
  {
   "property": "C82",
   "status": "proved",
   "theorems": [
    "Mp4.Props.divide_boxes",
    "Mp4.Props.divide_probe"
   ],
   "note": "for files of at most 2^48 bytes whose boxes all say their sizes and that are not QuickTime files; tracks of the same kind overwrite each other (C63)"
  },
  {
   "property": "C83",
   "status": "proved",
   "theorems": [
    "Mp4.Props.beside_agrees",
    "Mp4.Props.beside_sound",
    "Mp4.Props.beside_part",
    "Mp4.Props.beside_complete",
    "Mp4.Props.beside_below_sound",
    "Mp4.Props.beside_below_part",
    "Mp4.Props.beside_below_complete"
   ],
   "note": "for files of at most 2^48 bytes; beside_complete for files whose ftyp and keys boxes contain their fields only"
  },
  {
   "property": "C84",
   "status": "proved",
   "theorems": [
    "Mp4.Props.part_probe",
    "Mp4.Props.part_probe_fragments",
    "Mp4.Props.part_probe_fails"
   ],
   "note": "for files of at most 2^48 bytes; part_probe_fails is the witness that Probe may fail on a part"
  },
  {
   "property": "C85",
   "status": "proved",
   "theorems": [
    "Mp4.Props.report_json",
    "Mp4.Props.json_brand_lossy"
   ],
   "note": "for every text of DurationSeconds that is a number (the conversion of float32 to decimal is left open); json_brand_lossy is the witness that bytes of a brand that are not UTF-8 are not written"
  },
  {
   "property": "C86",
   "status": "partial",
   "theorems": [
    "Mp4.Props.options_read",
    "Mp4.Props.dump_command",
    "Mp4.Props.extract_command",
    "Mp4.Props.extract_command_writes",
    "Mp4.Props.probe_command",
    "Mp4.Props.edit_command_boxes",
    "Mp4.Props.pssh_command",
    "Mp4.Props.divide_command",
    "Mp4.Props.status_zero",
    "Mp4.Props.help_command",
    "Mp4.Props.unknown_option",
    "Mp4.Props.edit_in_place",
    "Mp4.Props.edit_no_value",
    "Mp4.Props.extract_no_copyright"
   ],
   "note": "everything is proved except that alpha edit with the input as output loses the file and reports success (edit_in_place), and that the largest decode time cannot be set (edit_no_value); standard error, and a divide whose output directory contains the input, are not represented"
  },
  {
   "property": "C87",
   "status": "proved",
   "theorems": [
    "Mp4.Props.edit_then_probe",
    "Mp4.Props.edit_then_probe_same"
   ],
   "note": "for files of at most 2^48 bytes without payload bytes of known type left uninterpreted (as in C76 and C78); keys must not be dropped, and a decode time of 2^64-1 counts as none"
  },
  {
   "property": "C88",
   "status": "proved",
   "theorems": [
    "Mp4.Props.dump_written"
   ],
   "note": "for files of at most 2^48 bytes without payload bytes of known type left uninterpreted; a table that contains boxes and is passed over hides them, so such files are excluded"
  },
  {
   "property": "C89",
   "status": "proved",
   "theorems": [
    "Mp4.Props.extract_written",
    "Mp4.Props.extract_is_file",
    "Mp4.Props.extract_then_probe",
    "Mp4.Props.extract_quicktime"
   ],
   "note": "for files of at most 2^48 bytes without payload bytes of known type left uninterpreted (as in C76 and C78); no keys box at the root; that QuickTime files must be excluded is shown by extract_quicktime"
  },
  {
   "property": "C90",
   "status": "proved",
   "theorems": [
    "Mp4.Props.psshdump_written"
   ],
   "note": "for files of at most 2^48 bytes without payload bytes of known type left uninterpreted; pssh boxes of version 0 or 1 with less than 2^31 bytes of data"
  },
  {
   "property": "C91",
   "status": "proved",
   "theorems": [
    "Mp4.Props.source_traversal_whole",
    "Mp4.Props.source_dump",
    "Mp4.Props.source_extract",
    "Mp4.Props.source_reports"
   ],
   "note": "readers as in C68: at least one byte per Read, io.EOF by itself; for edit see C92, for divide C93"
  },
  {
   "property": "C92",
   "status": "proved",
   "theorems": [
    "Mp4.Props.source_edit",
    "Mp4.Props.source_rewrite",
    "Mp4.Props.source_written",
    "Mp4.Props.source_edit_boxes"
   ],
   "note": "readers as in C68; how a copied box is divided into calls of Write is not represented"
  },
  {
   "property": "C93",
   "status": "proved",
   "theorems": [
    "Mp4.Props.source_divide",
    "Mp4.Props.source_divided",
    "Mp4.Props.source_divide_boxes"
   ],
   "note": "readers as in C68; output files that do not fail; the playlists are written after the traversal from the same tracks and durations (C65)"
  },
  {
   "property": "C94",
   "status": "partial",
   "theorems": [
    "Mp4.Props.playlists_written",
    "Mp4.Props.playlists_success_partial",
    "Mp4.Props.media_success_partial",
    "Mp4.Props.media_success_iff",
    "Mp4.Props.media_success_lost",
    "Mp4.Props.media_head_lost",
    "Mp4.Props.master_never_fails",
    "Mp4.Props.master_success_partial"
   ],
   "note": "proved: without failures the files have the texts of C65; if a file takes nothing after a failure, success means that a playlist with segments is complete except perhaps for its last line, and that a master playlist with pictures is there up to width and height. Refuted: that success means complete playlists. Files that can be created; Close is not represented"
  },
  {
   "property": "C95",
   "status": "proved",
   "theorems": [
    "Mp4.Props.divide_success",
    "Mp4.Props.divide_success_boxes",
    "Mp4.Props.divide_calm"
   ],
   "note": "errors of Close are dropped by the program and not represented; the input does not fail (for that see C93)"
  }
 ]
}