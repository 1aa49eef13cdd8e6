c("C01","proved",["bit_round_trip"])
c("C02","proved",["bit_reader_exact"])
c("C03","proved",["readBoxInfo_iso","readBoxInfo_returns"],"streams shorter than 2^63 bytes, as every Go slice or file is")
c("C04","proved",["boxInfo_round_trip"],"boxInfo_promotion_mismatch shows that the self-consistency condition is needed")
c("C17","proved",["flags_history","getFlags_after_setFlags","checkFlag_iff"])
c("C18","proved",["removeBrand_spec","addBrand_spec","brands_history"])
c("C37","partial",["esds_partial","esds_size_wraps","size_any_length"],"proved for sizes below 2^28; refuted above: sizes of 2^28 and more are not rejected but written modulo 2^28; Unmarshal reads sizes in any number of bytes")
c("C38","proved",["boxType_string","boxType_string_injective","uint32ToBoxType_bij"])
c("C39","proved",["matchWith_laws"])
c("C05","proved",["box_round_trip"])
c("C06","proved",["marshal_reports_written","marshal_writes_layout"],"the count for every value; the contents for every value whose numbers are signed and in range or unsigned (also too large), and whose lists are long enough")
c("C14","partial",["marshal_reports_write_failure_partial","marshal_loses_write_failure"],"proved for the 71 box types without lists of anything but bytes; refuted for the others (stts as witness)")
c("C15","partial",["marshal_rejects_short_list_partial","marshal_accepts_short_nested_list"],"proved for the lists of every box; refuted for lists inside list elements (hvcC as witness)")
c("C16","partial",["marshal_never_panics_partial","marshal_elst_panics","marshal_esds_panics"],"proved for every value of every box type except elst/tfra of version 2 or more and esds with nil descriptors, for which it is refuted")
c("C08","proved",["unmarshal_never_panics","unmarshal_outside_stream_panics"],"streams of at most 2^48 bytes; the second theorem shows that the start position has to be inside the stream")
c("C09","proved",["unmarshal_stays_inside"],"streams of at most 2^48 bytes")
c("C11","partial",["unmarshal_terminates_partial","unmarshal_trun_hangs","unmarshal_trun_entries"],"termination is proved except for a trun box announcing 2^32-1 samples, for which it is refuted; the bound by the number of bits is refuted")
c("C12","partial",["unsupported_version_rewinds_partial","meta_version_accepted"],"proved for every box type but meta, refuted for meta")
c("C10","partial",["unmarshal_is_local_partial","meta_looks_behind_payload"],"proved for every box type, for meta with a payload of at least 4 bytes; refuted for meta with less")
c("C46","proved",["truncated_payload_is_error"],"streams of at most 2^48 bytes")
c("C07","proved",["reencode","reencode_same_size","reencode_noStr","reencode_canonical","reencode_unterminated_differs","reencode_hdlr_differs","reencode_esds_differs"],"canonical form: the encoding of the result has the length of what was consumed (nothing at all is asked of types without strings); for esds and hdlr: the payload is the encoding of a representable value; the last three theorems show that the conditions are needed")
c("C13","partial",["counts_match_partial","count_sentinel_ignored","sgpd_roll_count_ignored"],"proved for every counted list of the library, also nested ones, and every count but 2^32-1, for which it is refuted; refuted for the roll distances of sgpd")
c("C19","proved",["lookup_is_newest","chosen_unique","lookup_functions_agree"],"for any sequence of registrations, not only those of the library")
c("C20","proved",["visits_every_box_in_order","boxes_in_file_order","walk_visits"])
c("C21","proved",["handler_cannot_derail","expand_starts_at_children","expand_start"],"files of at most 2^48 bytes; the reader is a bytes.Reader")
c("C22","partial",["children_inside_partial","children_outside_parent","visited_box_is_real"],"proved for parents whose announced size covers their header and does not run past 2^64; refuted for others")
c("C23","partial",["traversal_terminates_partial","traversal_fuel_irrelevant","traversal_root_loops","traversal_recurses_forever"],"proved unless a visited box announces a size smaller than its header or running past 2^64, or is a trun with 2^32-1 samples; refuted for such files")
c("C24","proved",["values_and_errors","root_values_and_errors"])
c("C25","partial",["extract_exact_partial","extract_below_exact_partial","extract_empty_path","extract_unknown_fails"],"proved unless a box without known children (as one of unknown type) lies on a prefix of a path asked for, for which it is refuted")
c("C26","partial",["extract_payload_partial","extract_payload_fails","extract_payload_differs"],"proved for boxes whose context differs from the one used in nothing that matters for them; refuted for others")
c("C27","proved",["context_says_what_is_above","quicktime_after_ftyp"])
c("C47","proved",["traversal_never_panics"])
c("C28","proved",["writer_serialises","wellNested_tree"],"sequences of StartBox, Write, CopyBox, EndBox and Marshal into the writer; any contents and position of the destination")
c("C30","proved",["copyBox_exact"],"source: a bytes.Reader other than the destination; failing destinations included")
c("C31","partial",["endBox_partial","endBox_damages","endBox_panics"],"proved for boxes that fit the header form begun with, also when the destination fails; refuted for boxes that outgrow it; panics when no box is open")
c("C29","proved",["write_then_read","writes_boxes"],"also the payloads: fields decode to what was written; files of at most 2^48 bytes; QuickTime meta boxes without version and flags are outside")
c("C42","proved",["emsg_encodes"],"")
c("C48","proved",["mvhd_v0","mvhd_v1","tkhd_v0","tkhd_v1","mdhd_v0","mdhd_v1","mehd_v0","mehd_v1","trex_v0","mfhd_v0","mfro_v0","tfdt_v0","tfdt_v1","vmhd_v0","smhd_v0","btrt_iso","pasp_iso","stts_iso","ctts_v0","ctts_v1","stsc_iso","stsz_each","stsz_same","stco_iso","co64_iso","stss_iso","elst_v0","elst_v1","sidx_v0","sidx_v1","ftyp_iso","tfhd_iso","trun_iso","cslg_v0","cslg_v1","dref_iso","stsd_iso","frma_iso","url_iso","schm_iso","saio_v0","saio_v1","saiz_same","saiz_each","sbgp_v0","sbgp_v1","sdtp_iso","mdat_iso","pssh_v0","pssh_v1","tenc_v0","tenc_v1","tfra_iso","iso_types"],"tables of at most 2^32-2 entries: a count of 2^32-1 is the library's sentinel for an unlimited list; the Go fields of the other version are zero")
c("C49","partial",["handle_readPayload","handle_readData_partial","readData_huge"],"ReadPayload proved; ReadData proved for payloads below 2^63 bytes and refuted above: it copies nothing and reports success")
c("C40","proved",["mvhd_accessors","tkhd_accessors","mdhd_accessors","mehd_accessors","tfdt_accessors","smhd_accessors","cslg_accessors","sidx_accessors","ctts_accessors_v0","ctts_accessors_v1","elst_accessors","saio_accessors","tfra_accessors","trun_accessors","audio_accessors","accessors_other_version","tkhd_size_exact","mvhd_rate_exact","smhd_balance_exact","audio_rate_exact","fields_are_words","fields_nonempty","subtitle_lists"],"each accessor after Unmarshal of the bits of the standard; fractional results (rates, widths, balance) in a model of binary64 and binary32")
c("C43","partial",["hdlr_name_iso","hdlr_name_unterminated","hdlr_name_quicktime_partial","hdlr_name_quicktime_c","hdlr_name_255"],"proved for C strings, unterminated names and Pascal strings of up to 254 bytes; refuted for Pascal strings of 255 bytes, whose length byte ends up in the name because plen+1 wraps in uint8")
c("C50","partial",["visual_iso","audio_iso","audio_quicktime","audio_wave","av1C_iso","dac3_iso","vpcC_iso","dOps_family0","dOps_mapped","colr_nclx","trep_iso","fiel_iso","pcmC_iso","urn_iso","emsg_v0","emsg_v1","avcC_iso","avcC_high","hvcC_iso_partial","hvcC_layers"],"all but hvcC as claimed; in hvcC NumTemporalLayers has 2 bits instead of 3 and TemporalIdNested 2 instead of 1: hvcC_iso_partial says what is read instead, hvcC_layers refutes the claim for every record with a temporal layer")
c("C32","partial",["sample_table_partial","constant_size_ignored","offsets_lost"],"proved for tables with one size per sample and fewer than 2^32 samples; refuted for a constant stsz size, which is ignored, and for 2^32 or more samples, where composition offsets are lost")
c("C33","partial",["chunk_table_file_partial","chunk_table_partial","chunks_lost"],"proved for the library's own registrations and files of less than 2^34 bytes (and, for any registrations, for tracks with fewer than 2^32 chunks and stsc entries of 32 bits); refuted for a track with 2^32 chunks, whose samples per chunk are lost")
c("C34","partial",["fast_start_partial","fast_start_exact","fast_start_no_mdat","fast_start_two_moov"],"proved for well-formed files with one moov and some mdat box; refuted for files without mdat and for files with two moov boxes; fast_start_exact says what is reported in every case")
c("C35","partial",["bitrate_partial","bitrate_wraps","max_bitrate_partial","max_bitrate_no_span","max_bitrate_returns_partial","max_bitrate_panics","max_bitrate_misses","segments_bitrate_partial","segments_max_partial"],"proved where 64-bit arithmetic does not wrap; refuted by wrap-around, by a division by zero and by windows that are not examined")
c("C36","partial",["idr_frames_partial","idr_no_avc","idr_frames_exact","idr_terminates_short","idr_cycle_hangs","idr_hangs","idr_empty_unit"],"proved for samples made of NAL units; for every file, that it terminates and finds the IDR units met by following the length fields, unless a length field makes the position exceed 32 bits; refuted there: it loops forever if the position returns to an earlier unit, and an empty NAL unit is taken for an IDR unit")
c("C51","proved",["probe_summary"],"well-formed files in which no moov box is opaque; the tracks and segments themselves are the subject of C32 and C33")
c("C44","partial",["catalogue_layout","fullBox_layout","fields_sorted","tag_elements","tag_pair","tag_value","tag_flag_number","tag_version_number","order_independent_partial","order_depends"],"proved for every struct of the library and every iteration order of the maps; for arbitrary tags, independence of the iteration order is proved for at most one order key and refuted for two")
c("C41","partial",["escape_runes","graphic_latin1","decode_encode","decode_malformed","encode_invalid","escape_printable","printable_one_line","stringify_printable","stringify_printable_partial","language_delete","language_newline"],"EscapeUnprintables proved for every byte string; Stringify proved printable for every registered box type but mdhd and the 3GPP strings, and for these when the letters of the language code are below 31; refuted otherwise, since language codes are not escaped")
c("C52","partial",["stringify_text","dec_value","hex_value","fixed_text","uuid_text","own_notations","number_text","uint_text_partial","version_not_shown"],"the text of every value of every registered box type, on one line and with indentation, is proved to be Name=value for each visible field in order, in notations from which numbers can be read back (fixed-point ones up to rounding); refuted for the field Version of items and dOps, in whose place the version of the box is shown")
c("C45","partial",["edit_partial","edit_nothing_partial","canonical_noStr","edit_loses_terminator","edit_changes_meta","edit_truncates_time","edit_fails_on_version","edit_keeps_offsets"],"proved for every well-formed file whose kept boxes of known types can be decoded and are in canonical form (which boxes without strings always are), every list of names and every time, when nothing fails; refuted for QuickTime files with terminated udta, for meta in the QuickTime form, for times beyond 32 bits in tfdt of version 0, for boxes of an unknown version")
c("C53","partial",["track_fields_partial","track_boxes_partial","encrypted_avc_missing","entries_mixed"],"proved for every file which boxes each field is taken from (the last of each type); refuted for encrypted AVC tracks, which get no AVC information, and for tracks with several sample entries, of which parts are mixed")
c("C54","partial",["segment_fields_partial","tracks_mixed","only_last_run","duration_wraps","trex_ignored"],"proved for fragments with one track fragment and one run whose sums fit 32 bits; refuted for several track fragments, several runs, larger sums, and defaults in trex")
c("C55","partial",["aac_profile_partial","aac_descriptors","extension_missed"],"proved for every configuration without backward compatible extension or with one directly behind the channel configuration; refuted for the place the standard gives the extension: it is never seen there")
c("C56","proved",["extract_sound","extract_below_sound","extract_payload_sound"],"files of at most 2^48 bytes, the library's own registrations; the starting box is one whose header is in the file")
c("C57","proved",["probe_never_panics","findIDR_never_panics","probe_panics_if_replaced"],"files of at most 2^48 bytes, the library's own registrations; a program that registers another Go type for a box Probe reads makes it panic (probe_panics_if_replaced); memory use is not part of the model")
c("C58","proved",["extract_tool_writes","extract_tool_sound"],"files of at most 2^48 bytes; well-formed: boxes other than large tables can be decoded, or are of an unknown version and do not contain boxes")
c("C59","partial",["psshdump_lists","psshdump_sound","base64_decodes","psshdump_panics"],"proved for well-formed files in which moov and moof contain boxes, and for any file in which no pssh box that is reached announces more than 2^48 bytes; refuted for such boxes: 56 bytes make it panic")
c("C60","proved",["stringify_decoded","stringify_any","marshal_decoded","stringify_returns_partial","stringify_elst_panics","stringify_esds_panics"],"streams of at most 2^48 bytes; of the values that a program makes by itself, those that Stringify panics for are as for Marshal (C16): stringify_returns_partial and the two witnesses")
c("C61","partial",["dump_lists","dump_sound","dump_panics","dump_panics_large"],"files of at most 2^48 bytes; the first half is proved; the second is proved except that boxes that cannot be decoded, are to be shown in full and announce less bytes than their header or more than 2^48 make it panic (two witnesses)")
c("C62","partial",["report_describes","report_never_panics_partial","report_panics","json_printed","json_needs_movie","json_segment"],"files of at most 2^48 bytes; the contents of the report are proved for every file, the bit rates where 64-bit arithmetic does not wrap; refuted: a last sample without duration makes the command panic, and nothing is printed as JSON if a timescale is 0, as for every file without a movie header")
c("C63","partial",["divTracks_found","divide_writes","divide_any_order","divide_succeeds","divide_max_id","divide_styp","divide_no_trun","divide_moov_mfra","divide_same_kind","divide_two_runs"],"files of at most 2^48 bytes in which no box is shorter than its header or has 2^63 bytes or more; what is written and the tracks are proved, for every order of the tracks; that it succeeds is proved for well-formed files with the boxes it expects and a trun in every fragment, whose tracks do not have the ID 2^32 - 1; for the playlists see C65; refuted: the track ID 2^32 - 1, a fragment without trun and other boxes inside moov make the command panic, two tracks of the same kind write into the same files, and of several trun boxes only the first counts for the duration")
c("C64","partial",["whole_file_seen_partial","sizes_cover_file_partial","whole_box_seen","cut_off_box_unnoticed","trailing_bytes_unnoticed"],"files of at most 2^48 bytes; for Expand proved in full (for boxes at least as large as their header); for the file up to what is refuted: the last top-level box may announce more bytes than there are, and up to 7 bytes behind it (15 if they begin like a 64-bit header) are ignored")
c("C65","partial",["divide_media_playlists_partial","divide_master_playlist_partial","zero_timescale","zero_timescale_target","zero_duration","bandwidth_too_small"],"files of at most 2^48 bytes whose tracks are of different kinds, and whose boxes are no shorter than their headers; the media playlists for tracks whose timescale is not 0; the bandwidth is proved to be the greatest rate of a single mdat (if every fragment has a duration), that it is no less than the rate of any segment is refuted")
c("C66","partial",["unmarshal_volume_partial","unmarshalAny_volume_partial","run_unbounded"],"proved for all box types but trun boxes without any per-sample field, for which it is refuted")
c("C67","partial",["probe_volume_partial","samples_unbounded"],"proved for chunks and edits (one per four bytes at most), files of at most 2^48 bytes, the library's own registrations; refuted for samples")
c("C68","partial",["source_decode_partial","source_traversal_partial","source_probe_partial","source_success","eof_with_data_refused","empty_read_refused","empty_read_wrong_string","seek_error_replaced"],"proved for readers that deliver at least one byte per Read and io.EOF by itself; for readers that report the end together with the last bytes or deliver nothing once, which package io allows, it is refuted; ReadData with destinations that take everything")
c("C69","partial",["reuse_partial","reuse_encodes_partial","reuse_whole","reuse_whole_count","reuse_stale_refuted","reuse_sgpd_refuted"],"proved for all box types; for Sgpd the two structs must have held the same DefaultLength, without which it is refuted (version 2, grouping type alst).  That absent optional fields are reset is refuted (they keep what they held)")
c("C70","partial",["custom_decodes_safely","custom_is_local","custom_round_trip","custom_reencode","custom_reencode_noStr","custom_encodes_safely","custom_marshal_counts","readme_layout","readme_with_length_safe","readme_with_length_ordered","readme_with_length_exact","readme_marshal_panics","readme_unmarshal_panics","wide_bool_not_written","empty_elements_hang","late_count_lost"],"proved for all definitions that meet the conditions (without OnReadField, OnWriteField or BeforeUnmarshal); that the example of the README meets them is refuted: it lacks GetFieldLength, and Marshal and Unmarshal panic; with the method it does.  A bool field of more than 8 bits is reported as written, but is not")
c("C71","partial",["registered_decodes_safely_partial","registered_traversal_never_panics","registered_handler_cannot_derail","registered_expand_start","registered_visited_boxes_partial","registered_values_and_errors","registered_traversal_terminates_partial","registered_fuel_irrelevant","registered_nil","readme_traversal_panics"],"proved for all lists of registrations of definitions that decode safely in the sense of C70; lying in the parent and termination have the exceptions of C22 and C23 (boxes smaller than their header or running past 2^64, trun announcing 2^32-1 samples)")
c("C72","proved",["rewrite_boxes","readme_rewrites","readme_unknown_version"],"for all files that are rows of boxes, of at most 2^48 bytes, whose boxes of the type can be decoded, changed and encoded within the form of their header; of an emsg box that cannot be decoded readme_unknown_version shows that the program stops with an error and a truncated output")
c("C73","partial",["writer_success_partial","writer_success_lasting","writer_success_tree","edit_success_lasting","rewrite_success_lasting","rewrite_success_partial","readme_success","writer_success_lost","edit_success_lost"],"proved for all box types and programs if the destination keeps failing once a Write has failed, and for any failures if no value of the 23 types of mayLoseErrors (lists) is encoded, as in the program of the README; refuted for lists and a destination that can still be overwritten after a failure")
c("C74","proved",["registration_local","registration_unnoticed","registering_is_local","extraction_local","extracted_asked","extraction_with_payload_local","probe_local","registering_keeps_probe","any_inside_sees_registration"],"ftyp and keys are excluded since the traversal itself decodes them")
c("C75","partial",["edit_never_panics","edit_returns_partial","rewrite_never_panics_partial","readme_never_panics","rewrite_wrong_type_panics"],"that edit and the README program do not panic is proved for all inputs and outputs; termination has the exceptions of C23; the variant for other types excludes elst, tfra and esds, whose encoding can panic for values that a change can produce (C16)")
c("C76","proved",["edit_boxes","edit_then_read","edit_twice","edit_again","edit_twice_needs_ftyp"],"for files of at most 2^48 bytes that are the encoding of a tree of boxes as the library writes it; why ftyp and keys are excluded: edit_twice_needs_ftyp shows a QuickTime file whose audio data is taken for a box once ftyp is gone")
c("C77","proved",["calls_bounded","depth_bounded","nested_reaches_bounds","extract_once","extractTool_once","dumpTool_once","edit_once","rewrite_once"],"for files of at most 2^48 bytes; what happens with boxes that announce too small or too large a size is in C23")
c("C78","proved",["probe_ser","probe_written"],"for files of at most 2^48 bytes that the library writes; boxes given as raw bytes are of unknown type; how a track or a segment is made from its boxes is C53 and C54")
c("C79","proved",["concat_reads","concat_extract","concat_probe","concat_quicktime_differs","concat_to_end_swallows"],"for files of at most 2^48 bytes together; concat_quicktime_differs and concat_to_end_swallows show why the first file may not be a QuickTime file or end with an open box")
c("C80","proved",["part_reads","part_outcome","part_payload","part_extract","part_extract_below","part_extract_payload","part_sees","part_open_differs"],"for files of at most 2^48 bytes; part_open_differs shows why boxes that extend to the end of the file are excluded; part_sees is for the handlers of C20 and files whose ftyp and keys boxes contain their fields only")
c("C81","partial",["container_iso","container_reads_nothing","free_iso","styp_iso","stpp_iso","sbtt_iso","wvtt_iso","webvtt_iso","vsid_iso","asset_iso","data_iso","stringData_iso","item_iso","keys_iso","meta_iso","meta_quicktime","sgpd_roll_partial","sgpd_roll_v2","sgpd_rap","sgpd_rapL","sgpd_tele","sgpd_teleL","sgpd_other","sgpd_alst","sgpd_alstL","sgpd_rollL_refuted","rest_types","asset_types","item_types","value_types","types_complete"],"false for sgpd with roll distances that have a length in front of each entry: they are written as the standard says and cannot be read back (sgpd_rollL_refuted); everything else is proved")
c("C82","proved",["divide_boxes","divide_probe"],"for files of at most 2^48 bytes whose boxes all say their sizes and that are not QuickTime files; tracks of the same kind overwrite each other (C63)")
c("C83","proved",["beside_agrees","beside_sound","beside_part","beside_complete","beside_below_sound","beside_below_part","beside_below_complete"],"for files of at most 2^48 bytes; beside_complete for files whose ftyp and keys boxes contain their fields only")
c("C84","proved",["part_probe","part_probe_fragments","part_probe_fails"],"for files of at most 2^48 bytes; part_probe_fails is the witness that Probe may fail on a part")
c("C85","proved",["report_json","json_brand_lossy"],"for every text of DurationSeconds that is a number (the conversion of float32 to decimal is left open); json_brand_lossy is the witness that bytes of a brand that are not UTF-8 are not written")
c("C86","partial",["options_read","dump_command","extract_command","extract_command_writes","probe_command","edit_command_boxes","pssh_command","divide_command","status_zero","help_command","unknown_option","edit_in_place","edit_no_value","extract_no_copyright"],"everything is proved except that alpha edit with the input as output loses the file and reports success (edit_in_place), and that the largest decode time cannot be set (edit_no_value); standard error, and a divide whose output directory contains the input, are not represented")
c("C87","proved",["edit_then_probe","edit_then_probe_same"],"for files of at most 2^48 bytes without payload bytes of known type left uninterpreted (as in C76 and C78); keys must not be dropped, and a decode time of 2^64-1 counts as none")
c("C88","proved",["dump_written"],"for files of at most 2^48 bytes without payload bytes of known type left uninterpreted; a table that contains boxes and is passed over hides them, so such files are excluded")
c("C89","proved",["extract_written","extract_is_file","extract_then_probe","extract_quicktime"],"for files of at most 2^48 bytes without payload bytes of known type left uninterpreted (as in C76 and C78); no keys box at the root; that QuickTime files must be excluded is shown by extract_quicktime")
c("C90","proved",["psshdump_written"],"for files of at most 2^48 bytes without payload bytes of known type left uninterpreted; pssh boxes of version 0 or 1 with less than 2^31 bytes of data")
c("C91","proved",["source_traversal_whole","source_dump","source_extract","source_reports"],"readers as in C68: at least one byte per Read, io.EOF by itself; for edit see C92, for divide C93")
c("C92","proved",["source_edit","source_rewrite","source_written","source_edit_boxes"],"readers as in C68; how a copied box is divided into calls of Write is not represented")
c("C93","proved",["source_divide","source_divided","source_divide_boxes"],"readers as in C68; output files that do not fail; the playlists are written after the traversal from the same tracks and durations (C65)")
c("C94","partial",["playlists_written","playlists_success_partial","media_success_partial","media_success_iff","media_success_lost","media_head_lost","master_never_fails","master_success_partial"],"proved: without failures the files have the texts of C65; if a file takes nothing after a failure, success means that a playlist with segments is complete except perhaps for its last line, and that a master playlist with pictures is there up to width and height. Refuted: that success means complete playlists. Files that can be created; Close is not represented")
c("C95","proved",["divide_success","divide_success_boxes","divide_calm"],"errors of Close are dropped by the program and not represented; the input does not fail (for that see C93)")
