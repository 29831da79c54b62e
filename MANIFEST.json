{
 "claims": [
  {
   "property": "C06",
   "status": "proved",
   "theorems": [
    "Props.endian_reads",
    "Props.endian_reverse"
   ],
   "note": ""
  },
  {
   "property": "C08",
   "status": "proved",
   "theorems": [
    "Props.decode_12be_exact",
    "Props.decode_12be_msb16_exact",
    "Props.decode_12be_msb32_exact",
    "Props.decode_12le_16bitaligned_exact"
   ],
   "note": ""
  },
  {
   "property": "C09",
   "status": "proved",
   "theorems": [
    "Props.decode_12le_exact"
   ],
   "note": ""
  },
  {
   "property": "C10",
   "status": "partial",
   "theorems": [
    "Props.decode_10le_lsb16_exact",
    "Props.decode_10le_exact_partial",
    "Props.decode_10le_wrong"
   ],
   "note": "Proved for the byte-swapped layout. The plain layout is wrong in the code: every third sample of four takes its low bits from the wrong byte (decode_10le_wrong is a witness); decode_10le_exact_partial covers the other samples."
  },
  {
   "property": "C11",
   "status": "proved",
   "theorems": [
    "Props.decode_16le_exact",
    "Props.decode_16be_exact",
    "Props.decode_16le_skiplines_exact",
    "Props.decode_12le_unpacked_exact",
    "Props.decode_12be_unpacked_exact",
    "Props.decode_14le_unpacked_exact",
    "Props.decode_14be_unpacked_exact",
    "Props.decode_12le_unpacked_left_aligned_exact",
    "Props.decode_12be_unpacked_left_aligned_exact"
   ],
   "note": ""
  },
  {
   "property": "C12",
   "status": "proved",
   "theorems": [
    "Props.decode_12le_wcontrol_exact",
    "Props.decode_12be_wcontrol_exact",
    "Props.wcontrol_ignores_control"
   ],
   "note": ""
  },
  {
   "property": "C13",
   "status": "proved",
   "theorems": [
    "Props.decode_12be_interlaced_exact",
    "Props.decode_12be_interlaced_unaligned_exact"
   ],
   "note": ""
  },
  {
   "property": "C14",
   "status": "proved",
   "theorems": [
    "Props.decode_12be_truncated",
    "Props.decode_12le_truncated",
    "Props.decode_12le_16bitaligned_truncated",
    "Props.decode_10le_lsb16_truncated",
    "Props.decode_10le_truncated",
    "Props.packed_size_and_depth",
    "Props.unpacked_size_and_depth",
    "Props.decode_12le_wcontrol_truncated",
    "Props.decode_12be_wcontrol_truncated",
    "Props.decode_12be_msb_truncated",
    "Props.decode_12be_interlaced_truncated",
    "Props.decode_8bit_wtable_size"
   ],
   "note": ""
  },
  {
   "property": "C07",
   "status": "partial",
   "theorems": [
    "Props.clampbits_partial",
    "Props.clampbits_not_saturating",
    "Props.clampbits16_saturates"
   ],
   "note": "Saturation is false above the range for fewer than 16 bits: the code yields -1 there (clampbits_not_saturating, all such values). The rest is clampbits_partial; 16 bits is exact after the cast to u16."
  },
  {
   "property": "C15",
   "status": "proved",
   "theorems": [
    "Props.schedule_independent",
    "Props.schedule_progress",
    "Props.decodeThreaded_schedule_independent"
   ],
   "note": ""
  },
  {
   "property": "C16",
   "status": "proved",
   "theorems": [
    "Props.msb_reader",
    "Props.msb32_reader",
    "Props.msb_split",
    "Props.msb32_split",
    "Props.msb_peek_transparent"
   ],
   "note": ""
  },
  {
   "property": "C17",
   "status": "proved",
   "theorems": [
    "Props.lsb_reader",
    "Props.lsb_split",
    "Props.lsb_peek_transparent"
   ],
   "note": ""
  },
  {
   "property": "C18",
   "status": "partial",
   "theorems": [
    "Props.jpeg_reader_partial",
    "Props.jpeg_reader_total_partial",
    "Props.jpeg_reader_short",
    "Props.jpeg_reader_trailing"
   ],
   "note": "Proved for every segment of at least four bytes that does not end with a lone 0xff. For the remaining segments the reader panics (jpeg_reader_short, jpeg_reader_trailing are witnesses)."
  },
  {
   "property": "C19",
   "status": "proved",
   "theorems": [
    "Props.sign_extension",
    "Props.sign_extension_msb"
   ],
   "note": ""
  },
  {
   "property": "C44",
   "status": "proved",
   "theorems": [
    "Props.dither_near_curve",
    "Props.dither_exact",
    "Props.dither_spans",
    "Props.decode_8bit_wtable_exact",
    "Props.dither_condition_needed",
    "Props.dither_never_overflows"
   ],
   "note": ""
  },
  {
   "property": "C31",
   "status": "proved",
   "theorems": [
    "Props.cfa_matches_name",
    "Props.cfa_wraps"
   ],
   "note": "All positions whose coordinates plus 48 fit in 64 bits; cfa_wraps shows what happens beyond."
  },
  {
   "property": "C32",
   "status": "proved",
   "theorems": [
    "Props.cfa_shift",
    "Props.cfa_shift_shift",
    "Props.cfa_shift_period"
   ],
   "note": ""
  },
  {
   "property": "C34",
   "status": "proved",
   "theorems": [
    "Props.cfa_accepts",
    "Props.cfa_colour_below_four"
   ],
   "note": ""
  },
  {
   "property": "C33",
   "status": "proved",
   "theorems": [
    "Props.cropped_cfa_aligned",
    "Props.cropped_pixels_keep_colour"
   ],
   "note": ""
  },
  {
   "property": "C35",
   "status": "proved",
   "theorems": [
    "Props.rotate_is_exif",
    "Props.exifPlace_injective",
    "Props.exifPlace_surjective",
    "Props.exifPlace_inside",
    "Props.rotate_unknown"
   ],
   "note": ""
  },
  {
   "property": "C36",
   "status": "proved",
   "theorems": [
    "Props.rotate_inverse",
    "Props.rotate_compose",
    "Props.composed_group"
   ],
   "note": ""
  },
  {
   "property": "C37",
   "status": "partial",
   "theorems": [
    "Props.gofloat_bayer",
    "Props.gofloat_mono",
    "Props.gofloat_rgb_partial",
    "Props.gofloat_rgb_actual",
    "Props.gofloat_rgb_wrong",
    "Props.sample_exact"
   ],
   "note": "One-component images (colour filter array and monochrome) are proved in full. For three-component images with a non-zero crop the code does not satisfy the property: gofloat_rgb_actual says what it copies, gofloat_rgb_wrong is the concrete violation and gofloat_rgb_partial is the uncropped case, where it holds."
  },
  {
   "property": "C38",
   "status": "proved",
   "theorems": [
    "Props.demosaic_full",
    "Props.ofRat_nearest"
   ],
   "note": ""
  },
  {
   "property": "C41",
   "status": "proved",
   "theorems": [
    "Props.curve_at_knot",
    "Props.curve_beyond",
    "Props.curve_between",
    "Props.curve_below",
    "Props.curve_total"
   ],
   "note": ""
  },
  {
   "property": "C42",
   "status": "partial",
   "theorems": [
    "Props.inverse_exact_partial",
    "Props.pseudoinverse_exact_partial",
    "Props.pseudoinverse_normal_partial",
    "Props.pseudoinverse_least_squares_partial"
   ],
   "note": "Proved in exact arithmetic (every f32 operation replaced by the field operation), for every ordered field and every nonsingular or full-column-rank matrix, including the least squares property. Missing: a bound on the rounding errors of the f32 evaluation for all matrices; C88 has one for the matrices of the shipped cameras."
  },
  {
   "property": "C51",
   "status": "partial",
   "theorems": [
    "Props.white_goes_to_white_partial"
   ],
   "note": "Proved in exact arithmetic. Missing: rounding errors of the f32 evaluation for all matrices; C88 has a bound for the matrices of the shipped cameras."
  },
  {
   "property": "C52",
   "status": "partial",
   "theorems": [
    "Props.curve_monotone_partial",
    "Props.piece_hermite",
    "Props.c1_tangent",
    "Props.base_curve_nearly_monotone",
    "Props.base_curve_dips",
    "Props.base_stage"
   ],
   "note": "In exact arithmetic the curve through any rising knots is monotone, with the Hermite form and the tangents specified independently (curve_monotone_partial). As computed in f32, the base curve of the pipeline with its own knots never falls by more than 2^-18 for inputs from 0 on (base_curve_nearly_monotone), and in the last place it does fall (base_curve_dips), so the literal claim is false for f32. Missing: an error bound for other knots, which the program does not use."
  },
  {
   "property": "C39",
   "status": "proved",
   "theorems": [
    "Props.to_rgb_size",
    "Props.to_srgb_bytes",
    "Props.targetSize_spec",
    "Props.to_rgb_thin_panics"
   ],
   "note": "A thin strip whose scaled width would be below one pixel makes the program panic (to_rgb_thin_panics); that is why the maximum has to leave a pixel."
  },
  {
   "property": "C40",
   "status": "proved",
   "theorems": [
    "Props.gamma_index_in_table",
    "Props.gamma_index_exact",
    "Props.gamma_total",
    "Props.labf_total"
   ],
   "note": ""
  },
  {
   "property": "C53",
   "status": "proved",
   "theorems": [
    "Props.to_rgb_range",
    "Props.gamma_range",
    "Props.gamma_monotone",
    "Props.to_srgb_bytes"
   ],
   "note": "powf is a parameter of the model; its range and monotonicity on [0,1] are hypotheses."
  },
  {
   "property": "C20",
   "status": "proved",
   "theorems": [
    "Props.huffman_canonical",
    "Props.huffman_unambiguous",
    "Props.huffman_last_symbol_refused",
    "Props.huffman_last_symbol_reachable"
   ],
   "note": "Symbols with codes longer than 8 bits also need a sample precision of at least the code length. The case of 256 symbols is a separate theorem: the last symbol is refused."
  },
  {
   "property": "C21",
   "status": "partial",
   "theorems": [
    "Props.huffman_fast_agrees_partial",
    "Props.huffman_fast_disagrees"
   ],
   "note": "False as first stated for category 16 with codes longer than 13 bits (huffman_fast_disagrees is a counterexample) and for the dng_bug variant of category 16; proved for all other tables and streams. The stream has to go on for 32 bits."
  },
  {
   "property": "C22",
   "status": "proved",
   "theorems": [
    "Props.huffman_build_ends",
    "Props.huffman_lookup_total",
    "Props.huffman_too_many",
    "Props.huffman_build_panics_sparse",
    "Props.huffman_build_panics_ones",
    "Props.huffman_build_panics_256"
   ],
   "note": "Three families of tables panic while building; see the huffman_build_panics theorems."
  },
  {
   "property": "C23",
   "status": "proved",
   "theorems": [
    "Props.ljpeg_round_trip"
   ],
   "note": ""
  },
  {
   "property": "C24",
   "status": "proved",
   "theorems": [
    "Props.ljpeg_header_checked",
    "Props.ljpeg_undefined_table_panics",
    "Props.ljpeg_undefined_table_accepted",
    "Props.ljpeg_short_dht_panics"
   ],
   "note": ""
  },
  {
   "property": "C25",
   "status": "proved",
   "theorems": [
    "Props.tiff_parsing_ends",
    "Props.tiff_depth_never_exhausted",
    "Props.tiff_root_depth"
   ],
   "note": "Both builds. Memory and stack use are not modelled: directories may be visited again through different parents, so the running time can be exponential in the depth."
  },
  {
   "property": "C26",
   "status": "proved",
   "theorems": [
    "Props.find_entry_first",
    "Props.find_entry_none",
    "Props.has_entry_iff",
    "Props.find_ifds_all_and_only",
    "Props.find_first_ifd_first"
   ],
   "note": ""
  },
  {
   "property": "C27",
   "status": "partial",
   "theorems": [
    "Props.tiff_entry_bytes",
    "Props.tiff_component_partial",
    "Props.tiff_undefined_misread",
    "Props.tiff_rational",
    "Props.tiff_srational",
    "Props.tiff_rational_roundtrip",
    "Props.tiff_field_roundtrip",
    "Props.tiff_byte_order_irrelevant"
   ],
   "note": "False as first stated for type 7 (UNDEFINED), which get_u32 reads as 32 bit words (tiff_undefined_misread); types 2 and 6 panic in get_u32. Proved for the other types."
  },
  {
   "property": "C28",
   "status": "proved",
   "theorems": [
    "Props.ciff_parsing_ends",
    "Props.ciff_find_entry_first",
    "Props.ciff_find_entry_none"
   ],
   "note": ""
  },
  {
   "property": "C29",
   "status": "partial",
   "theorems": [
    "Props.mrw_terminates_debug",
    "Props.mrw_budget_enough",
    "Props.mrw_terminates_release_partial",
    "Props.mrw_release_hangs"
   ],
   "note": "False as first stated for release builds, where a block length of 0xfffffff8 makes the scan loop forever (mrw_release_hangs). Proved for debug builds, and for release builds without such a block."
  },
  {
   "property": "C30",
   "status": "proved",
   "theorems": [
    "Props.camera_lookup",
    "Props.camera_lookup_tiff"
   ],
   "note": ""
  },
  {
   "property": "C01",
   "status": "partial",
   "theorems": [
    "Props.decode_terminates",
    "Props.decode_runs_forever_iff",
    "Props.decode_terminates_release_partial",
    "Props.decode_hangs",
    "Props.decode_never_unwinds",
    "Props.decode_results",
    "Props.decode_entry"
   ],
   "note": "Debug builds: proved for every file and every database that loads (the loader is built outside catch_unwind, decode_entry): decode_safe returns an image or an error. Release builds: false for MRW files with a block length of 0xfffffff8, for which it never returns (decode_hangs); proved for all other files (decode_terminates_release_partial, decode_runs_forever_iff). Stack exhaustion, memory exhaustion and aborts are not modelled."
  },
  {
   "property": "C02",
   "status": "proved",
   "theorems": [
    "Props.sniffing_safe",
    "Props.tiff_sniffing_safe",
    "Props.fuji_header_unchecked"
   ],
   "note": "The parsers behind the magic numbers are another matter: fuji_header_unchecked shows that the TIFF parser panics on the bare FUJIFILM marker."
  },
  {
   "property": "C03",
   "status": "proved",
   "theorems": [
    "Props.dispatch_priority",
    "Props.dispatch_complete",
    "Props.dispatch_magic",
    "Props.dispatch_dng"
   ],
   "note": ""
  },
  {
   "property": "C04",
   "status": "proved",
   "theorems": [
    "Props.unrecognised_rejected",
    "Props.empty_rejected"
   ],
   "note": ""
  },
  {
   "property": "C05",
   "status": "proved",
   "theorems": [
    "Props.headerless_by_size"
   ],
   "note": ""
  },
  {
   "property": "C50",
   "status": "partial",
   "theorems": [
    "Props.decode_fills_partial",
    "Props.cr2_fields_fill",
    "Props.cr2_short"
   ],
   "note": "Proved for every format but CR2, and for CR2 files with one component per pixel from cameras without the hint double_line, and for CR2 files whose directory gives the vertical fields and the width. False in general for CR2 (cr2_short). In release builds restricted to images below 2^64 pixels."
  },
  {
   "property": "C43",
   "status": "proved",
   "theorems": [
    "Props.sony_decrypt_stream",
    "Props.sony_decrypt_twice"
   ],
   "note": ""
  },
  {
   "property": "C45",
   "status": "partial",
   "theorems": [
    "Props.fuji_rotation_plain_partial",
    "Props.fuji_rotation_alt_partial"
   ],
   "note": "The rotation is a placement of every cropped pixel, each in its own cell, for crops with an even height (plain layout) or an even width (alternative layout); for odd ones the code always panics, which is the second half of both theorems."
  },
  {
   "property": "C46",
   "status": "proved",
   "theorems": [
    "Props.leaf_rows_permute",
    "Props.leaf_deinterlace"
   ],
   "note": ""
  },
  {
   "property": "C47",
   "status": "partial",
   "theorems": [
    "Props.cr2_slices_restored",
    "Props.cr2_slices_complete",
    "Props.cr2_arrange_restored",
    "Props.cr2_pairs_restored_partial",
    "Props.cr2_pairs_distinct",
    "Props.cr2_pairs_unequal"
   ],
   "note": "The one-line copy restores the image for every slice layout. The two-line copy ignores the width of the last slice: it is right when all slices are equally wide (cr2_pairs_restored_partial) and loses columns otherwise (cr2_pairs_unequal)."
  },
  {
   "property": "C48",
   "status": "partial",
   "theorems": [
    "Props.arw1_round_trip_partial",
    "Props.arw1_odd_height_loses_rows",
    "Props.arw1_no_rows"
   ],
   "note": "Every pixel is decoded, once, for even heights. With an odd height the odd rows are never written (arw1_odd_height_loses_rows) and with no rows the decoder panics (arw1_no_rows)."
  },
  {
   "property": "C49",
   "status": "partial",
   "theorems": [
    "Props.dng_tiles_restored_partial",
    "Props.dng_tiles_uneven",
    "Props.dng_tiles_four"
   ],
   "note": "Proved for images with a whole number of JPEG pixels per line, and for tiles with two or three components, or four if there is one tile per line. Other widths panic (dng_tiles_uneven) and several tiles with four components per line lose samples (dng_tiles_four)."
  },
  {
   "property": "C54",
   "status": "proved",
   "theorems": [
    "Props.marker_search_first",
    "Props.marker_search_none"
   ],
   "note": ""
  },
  {
   "property": "C55",
   "status": "proved",
   "theorems": [
    "Props.msb32_position"
   ],
   "note": ""
  },
  {
   "property": "C56",
   "status": "proved",
   "theorems": [
    "Props.canon_subsampled_round_trip"
   ],
   "note": ""
  },
  {
   "property": "C57",
   "status": "proved",
   "theorems": [
    "Props.leaf_strips_round_trip"
   ],
   "note": ""
  },
  {
   "property": "C58",
   "status": "proved",
   "theorems": [
    "Props.hasselblad_round_trip"
   ],
   "note": ""
  },
  {
   "property": "C59",
   "status": "proved",
   "theorems": [
    "Props.ljpeg_misfit_refused"
   ],
   "note": ""
  },
  {
   "property": "C60",
   "status": "proved",
   "theorems": [
    "Props.pef_round_trip",
    "Props.pef_odd_width"
   ],
   "note": ""
  },
  {
   "property": "C61",
   "status": "partial",
   "theorems": [
    "Props.nef_round_trip_partial",
    "Props.nef_split_panics",
    "Props.nef_split_wrong"
   ],
   "note": "Behind the split row of lossy images the tables have symbols with a second half (bits left out). The code takes them for sizes: nef_split_panics and nef_split_wrong show a panic in the checked build and a wrong difference in the other. Proved for all images whose differences there have plain symbols, and for all images without a split row."
  },
  {
   "property": "C62",
   "status": "proved",
   "theorems": [
    "Props.arw2_exact",
    "Props.arw2_round_trip",
    "Props.arw2_kept",
    "Props.arw2_picks",
    "Props.sony_curve",
    "Props.arw2_file",
    "Props.sony_curve_steep"
   ],
   "note": "A curve that is steep from the first entries on cannot be used at all: sony_curve_steep. arw2_picks shows that every group of 11-bit samples has a valid choice of extremes."
  },
  {
   "property": "C63",
   "status": "proved",
   "theorems": [
    "Props.tiff_file_roundtrip",
    "Props.tiff_lookup_stored",
    "Props.tiff_lookup_missing",
    "Props.tiff_open_and_look"
   ],
   "note": "Files starting with FUJIFILM are not covered; newRoot at any offset, which they use, is."
  },
  {
   "property": "C64",
   "status": "proved",
   "theorems": [
    "Props.ciff_file_roundtrip",
    "Props.ciff_open_and_look"
   ],
   "note": ""
  },
  {
   "property": "C65",
   "status": "partial",
   "theorems": [
    "Props.pana_exact_partial",
    "Props.pana_unsplit",
    "Props.pana_total",
    "Props.pana_roundtrip",
    "Props.pana_torn_group",
    "Props.pana_needs_byte"
   ],
   "note": "Group 512 of every block of a split file takes bits from the following block (pana_torn_group), so its samples are excluded; for unsplit files the whole image is proved. Widths are multiples of 14; other widths panic in the code."
  },
  {
   "property": "C66",
   "status": "proved",
   "theorems": [
    "Props.srw2_roundtrip",
    "Props.srw2_file"
   ],
   "note": "The encoder is independent of the model (Spec/Srw.lean). Four bytes must follow the compressed data, as the reader loads words of four bytes and looks ten bits ahead."
  },
  {
   "property": "C67",
   "status": "proved",
   "theorems": [
    "Props.orf_roundtrip",
    "Props.orf_even",
    "Props.orf_overflow"
   ],
   "note": "The encoder is independent of the model (Spec/Orf.lean). Five bytes must follow the compressed data, as the reader loads words of four bytes and looks 15 bits ahead."
  },
  {
   "property": "C68",
   "status": "proved",
   "theorems": [
    "Props.mef_file",
    "Props.pef_file",
    "Props.orf_file",
    "Props.rw2_file",
    "Props.crw_file",
    "Props.pro70_file"
   ],
   "note": "The theorems are for the formats named in the statement; measured black levels appear as the binary32 means whose error C69 bounds. Pentax files always get the black levels of the database."
  },
  {
   "property": "C69",
   "status": "partial",
   "theorems": [
    "Props.black_measured",
    "Props.black_measured_partial",
    "Props.black_drifts"
   ],
   "note": "The exact statement is false (black_drifts); proved exactly for sums below 2^24 (black_measured_partial), and with the error of the roundings for up to 2^24 pixels per colour (black_measured)."
  },
  {
   "property": "C70",
   "status": "proved",
   "theorems": [
    "Props.crw_roundtrip",
    "Props.crw_roundtrip_ten",
    "Props.crw_sixty_four"
   ],
   "note": "The encoder is specified separately (Spec/Crw.lean). crw_roundtrip: with low bits; crw_roundtrip_ten: cameras with the hint nolowbits; crw_sixty_four: other pixel counts are never decoded."
  },
  {
   "property": "C71",
   "status": "proved",
   "theorems": [
    "Props.srw1_roundtrip",
    "Props.srw1_file",
    "Props.srw1_plain",
    "Props.srw1_any",
    "Props.srw1_odd_height"
   ],
   "note": "The encoder is specified separately (Spec/Srw1.lean). srw1_roundtrip: lines anywhere in the file; srw1_file, srw1_any: complete data with its table; srw1_plain: every 14-bit picture has legal choices; srw1_odd_height: odd numbers of lines are never decoded. Odd widths are not claimed."
  },
  {
   "property": "C72",
   "status": "proved",
   "theorems": [
    "Props.srw3_roundtrip",
    "Props.srw3_plain",
    "Props.srw3_width"
   ],
   "note": "The encoder is specified separately (Spec/Srw3.lean), with the scale as this decoder reads it: it counts in one block of four and starts from zero each time. srw3_roundtrip: every legal choice; srw3_plain: every picture of at most 14 bits has legal choices; srw3_width: other widths are never decoded."
  },
  {
   "property": "C73",
   "status": "proved",
   "theorems": [
    "Props.iiq_roundtrip",
    "Props.iiq_plain",
    "Props.iiq_file"
   ],
   "note": "The encoder and the table are specified separately (Spec/Iiq.lean). iiq_roundtrip: the lines; iiq_plain: every 16-bit picture has legal choices; iiq_file: from the bytes of the file to the result of decode_safe, for cameras in the database."
  },
  {
   "property": "C74",
   "status": "proved",
   "theorems": [
    "Props.kodak_roundtrip",
    "Props.dcr_file"
   ],
   "note": "The encoder is specified separately (Spec/Dcr.lean), with a segment's differences as one number. kodak_roundtrip: the data; dcr_file: from the bytes of the file to the result of decode_safe, for cameras in the database."
  },
  {
   "property": "C75",
   "status": "partial",
   "theorems": [
    "Props.scale_down_partial",
    "Props.scaled_partial",
    "Props.demosaic_order",
    "Props.scale_last_column_black"
   ],
   "note": "Range and order are proved without gaps, with every f32 operation rounded. The last part is proved for cells that contain the centre of a source pixel (of that colour), which is why the names end in _partial: rows are spaced by the horizontal scale and columns by the vertical one, so the last cells may lie outside the source and stay black. scale_last_column_black proves it for every 5184 by 3456 Bayer picture made to fit 1000 by 1000, all white ones included."
  },
  {
   "property": "C76",
   "status": "proved",
   "theorems": [
    "Props.sony_white",
    "Props.arw_words_file",
    "Props.arw_r1_file",
    "Props.arw_packed_file",
    "Props.arw_first_file",
    "Props.arw_second_file",
    "Props.srf_file",
    "Props.tiff_part_roundtrip",
    "Props.tiff_dir_roundtrip",
    "Props.tiff_field_from"
   ],
   "note": "arw_words_file, arw_r1_file, arw_packed_file, arw_first_file, arw_second_file and srf_file are the six formats, from the bytes of the file to the result of decode_safe. The DSLR-A100, whose files are not laid out as TIFF says, is not part of the claim. Conditions on the curve of the second compression are those of C62, and the height of the first compression is even as in C48."
  },
  {
   "property": "C77",
   "status": "proved",
   "theorems": [
    "Props.nikon_serial",
    "Props.nikon_ratios",
    "Props.nikon_white",
    "Props.nef_packed_file",
    "Props.nef_words_file",
    "Props.nef_d100_file",
    "Props.nef_compressed_file"
   ],
   "note": "nef_packed_file, nef_words_file, nef_d100_file and nef_compressed_file are the four formats, from the bytes of the file to the result of decode_safe; nikon_white and nikon_ratios are the white balance, nikon_serial the serial number. Small NEF pictures (three samples per pixel) are not part of the claim, and neither are compressed pictures with the symbols behind the split row that the code misreads (C61)."
  },
  {
   "property": "C78",
   "status": "proved",
   "theorems": [
    "Props.dng_raw_found",
    "Props.dng_level",
    "Props.dng_pattern",
    "Props.dng_pixels",
    "Props.dng_file",
    "Props.dng_lossy_refused",
    "Props.dng_strips_refused",
    "Props.dng_white_required",
    "Props.dng_no_picture",
    "Props.dng_big_endian_swapped"
   ],
   "note": "dng_file goes from the bytes of the file to the result of decode_safe. dng_raw_found is the choice of the directory, dng_pixels the sample formats, dng_pattern the colours, dng_level the value of a stored level. dng_lossy_refused, dng_strips_refused, dng_white_required and dng_no_picture are the files that are not decoded, dng_big_endian_swapped the words of big endian files. Uncompressed pictures are read as one piece from the first strip on. The conditions on lossless JPEG pictures are those of C23 and C49."
  },
  {
   "property": "C79",
   "status": "proved",
   "theorems": [
    "Props.erf_file",
    "Props.kdc_file",
    "Props.dcs_file",
    "Props.dcs_preview_refused",
    "Props.nrw_file",
    "Props.tfr_file"
   ],
   "note": "erf_file, kdc_file, dcs_file, nrw_file and tfr_file go from the bytes of the file to the result of decode_safe; dcs_preview_refused is the file with previews only. The conditions on sizes are those of the sample formats (C08 to C14, C44, C58). The table of the DCS has to rise gently (C44)."
  },
  {
   "property": "C80",
   "status": "proved",
   "theorems": [
    "Props.mrw_file",
    "Props.ari_file",
    "Props.x3f_refused",
    "Props.nkd_file",
    "Props.nkd_refused"
   ],
   "note": "mrw_file, ari_file and nkd_file go from the bytes of the file to the result of decode_safe; x3f_refused and nkd_refused are the files that are not decoded. In Minolta files the blocks that begin in the last 20 bytes before the picture are not looked at, which is part of MrwLayout. The conditions on sizes are those of the sample formats (C08, C09, C11, C12)."
  },
  {
   "property": "C81",
   "status": "proved",
   "theorems": [
    "Props.cr2_file",
    "Props.cr2_small_file",
    "Props.cr2_curve_file",
    "Props.cr2_arranged",
    "Props.cr2_pixels_whole",
    "Props.cr2_found",
    "Props.cr2_white"
   ],
   "note": "cr2_file, cr2_small_file and cr2_curve_file go from the bytes of the file to the result of decode_safe. Slices of line pairs have to be equally wide and of whole pixels, as in C47: cr2.rs ignores the width of the last slice there. The bounds on the levels keep the products within i32, whose overflow would stop a debug build. cr2_pixels_whole says that slices keep the three values of a pixel together."
  },
  {
   "property": "C82",
   "status": "proved",
   "theorems": [
    "Props.raf_file",
    "Props.raf_rotated_file",
    "Props.raf_rotated_alt_file",
    "Props.raf_pixels",
    "Props.fuji_opens",
    "Props.fuji_table_read",
    "Props.tiff_file_positions"
   ],
   "note": "raf_file, raf_rotated_file and raf_rotated_alt_file go from the bytes of the file to the result of decode_safe. The error for odd sizes is that of C45: the code makes the turned picture one line too small. In files with further directories, those about the shot must not have field 0xf007, since the code searches the whole tree for it. The sizes have to suit the packing as in C08 to C14."
  },
  {
   "property": "C83",
   "status": "proved",
   "theorems": [
    "Props.srw_whole_file",
    "Props.samsung_white",
    "Props.samsung_pixels"
   ],
   "note": "srw_whole_file goes from the bytes of the file to the result of decode_safe. The positions of fields come from TiffFileWith, which says where the values of every field are; fields 0xa021 and 0xa028 have to be stored the same way in all directories that have them. The conditions on pictures are those of C66, C71 and C72."
  },
  {
   "property": "C84",
   "status": "proved",
   "theorems": [
    "Props.mos_file",
    "Props.leaf_opens",
    "Props.leaf_white",
    "Props.leaf_pixels",
    "Props.carries_xmp",
    "Props.utf8_valid"
   ],
   "note": "mos_file goes from the bytes of the file to the result of decode_safe. XMP texts start with < and end with >, apart from blanks around them; UTF-8 is the encoding of Lean's String. The parser of decimal numbers is a parameter. The numbers are stated as ASCII lines up to a NUL."
  },
  {
   "property": "C85",
   "status": "proved",
   "theorems": [
    "Props.shipped_loads",
    "Props.shipped_exists",
    "Props.shipped_found",
    "Props.shipped_from_file",
    "Props.last_file_wins",
    "Props.shipped_order_matters"
   ],
   "note": "The files are in the model verbatim. They are read by a small reader for the part of TOML they use, which stands for the toml crate. shipped_exists shows that the hypothesis IsShipped can be met, shipped_order_matters is the negative part."
  },
  {
   "property": "C86",
   "status": "partial",
   "theorems": [
    "Props.shipped_levels_partial",
    "Props.shipped_matrix",
    "Props.coolpix_white_zero"
   ],
   "note": "The matrices are as claimed (shipped_matrix). The levels are as claimed except for Nikon cameras looked up without a mode (shipped_levels_partial). Cameras of NIKON CORPORATION are always looked up with a mode, but the Coolpix P330 and B700 are not: every file of theirs that is decoded has white level 0 (coolpix_white_zero), so the literal claim is false."
  },
  {
   "property": "C87",
   "status": "proved",
   "theorems": [
    "Props.shipped_headerless"
   ],
   "note": "The settings that nkd_file (C80) assumes are checked for every entry with a file size, and the sizes are distinct. Headerless is the predicate of C05: no magic number, and no TIFF directory that names a format."
  },
  {
   "property": "C88",
   "status": "proved",
   "theorems": [
    "Props.shipped_colours",
    "Props.shipped_neutral",
    "Props.shipped_white",
    "Props.shipped_pixel"
   ],
   "note": ""
  },
  {
   "property": "C89",
   "status": "proved",
   "theorems": [
    "Props.overexposed_colour",
    "Props.white_pixel",
    "Props.bayer_covers",
    "Props.accurate_exists"
   ],
   "note": "overexposed_colour is the whole statement for full size output (both limits zero). white_pixel is the part after the camera matrix; bayer_covers shows that patterns of two by two cover every pixel of pictures of at least two by two; accurate_exists shows that a library of the assumed accuracy exists."
  },
  {
   "property": "C90",
   "status": "proved",
   "theorems": [
    "Props.black_picture",
    "Props.shipped_black"
   ],
   "note": "black_picture is for any image, shipped_black for the cameras of the database. Sizes other than the full one and pictures with several samples per pixel are not covered."
  },
  {
   "property": "C91",
   "status": "proved",
   "theorems": [
    "Props.flat_field",
    "Props.flat_pixels",
    "Props.bayer_covers"
   ],
   "note": "flat_field is the claim, flat_pixels the demosaiced picture; bayer_covers is the condition on patterns of two by two. Reduced sizes are not covered: there the claim is false, see C75."
  },
  {
   "property": "C92",
   "status": "proved",
   "theorems": [
    "Props.pixel_local",
    "Props.hot_pixel",
    "Props.local_pixels"
   ],
   "note": "pixel_local is the claim, hot_pixel the consequence for a single sample, local_pixels the demosaiced picture. Reduced sizes are not covered."
  },
  {
   "property": "C93",
   "status": "proved",
   "theorems": [
    "Props.program_writes",
    "Props.program_outcomes",
    "Props.program_short",
    "Props.program_byte",
    "Props.ppm_reads",
    "Props.statistics_right",
    "Props.default_output"
   ],
   "note": "program_writes is the successful run, program_outcomes all runs, program_short the panic; program_byte and ppm_reads are the two halves of the file. Errors while writing to a file that could be created are not modelled."
  },
  {
   "property": "C94",
   "status": "proved",
   "theorems": [
    "Props.crop_is_cut",
    "Props.same_window",
    "Props.margins_ignored"
   ],
   "note": "crop_is_cut is the claim; same_window compares two pictures; margins_ignored is about the samples outside. For pictures with three samples per pixel it fails, see C37."
  },
  {
   "property": "C95",
   "status": "proved",
   "theorems": [
    "Props.rotation_last",
    "Props.rotation_stops",
    "Props.decoder_rotates"
   ],
   "note": "rotation_last compares the three outputs of the turned and of the upright picture pixel by pixel; rotation_stops covers the failing sizes."
  },
  {
   "property": "C96",
   "status": "proved",
   "theorems": [
    "Props.mono_curve",
    "Props.mono_balance_ignored"
   ],
   "note": "mono_curve is the curve at full size; mono_balance_ignored is about the white balance at every size."
  },
  {
   "property": "C97",
   "status": "proved",
   "theorems": [
    "Props.fits_already"
   ],
   "note": "fits_already compares the three outputs with those at full size."
  },
  {
   "property": "C98",
   "status": "proved",
   "theorems": [
    "Props.balance_ratio"
   ],
   "note": "balance_ratio; the products must be representable in single precision, as they are for powers of two or small integers."
  },
  {
   "property": "C99",
   "status": "proved",
   "theorems": [
    "Props.more_bits",
    "Props.more_bits_mono"
   ],
   "note": "more_bits for pictures with a pattern, more_bits_mono for those without. At requested sizes, where the scaling weights are also rounded, nothing is claimed."
  },
  {
   "property": "C100",
   "status": "proved",
   "theorems": [
    "Props.mono_clip"
   ],
   "note": "mono_clip. For pictures with a pattern, where means of neighbours are taken before values are cut off at white, nothing is claimed."
  },
  {
   "property": "C101",
   "status": "proved",
   "theorems": [
    "Props.fourth_ignored"
   ],
   "note": "fourth_ignored; the hypotheses on levels and coefficients keep the value of the channel a number, since zero times infinity would not be zero."
  },
  {
   "property": "C102",
   "status": "proved",
   "theorems": [
    "Props.one_picture"
   ],
   "note": "one_picture; the curve is the one of C53, where its range and monotonicity are proved."
  }
 ]
}