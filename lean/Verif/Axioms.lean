import Verif.Props.Arw1
import Verif.Props.Arw2
import Verif.Props.ArwFile
import Verif.Props.BalanceRatio
import Verif.Props.BaseCurve
import Verif.Props.Basics
import Verif.Props.BitDepth
import Verif.Props.Black
import Verif.Props.BlackPicture
import Verif.Props.Camera
import Verif.Props.Cfa
import Verif.Props.Ciff
import Verif.Props.CiffFile
import Verif.Props.Cr2File
import Verif.Props.Crw
import Verif.Props.CrwFile
import Verif.Props.Curves
import Verif.Props.CutOut
import Verif.Props.Dcr
import Verif.Props.Demosaic
import Verif.Props.Dispatch
import Verif.Props.Dither
import Verif.Props.DngFile
import Verif.Props.Fill
import Verif.Props.FitsAlready
import Verif.Props.FlatField
import Verif.Props.FourthChannel
import Verif.Props.Gamma
import Verif.Props.Gofloat
import Verif.Props.Hasselblad
import Verif.Props.Huffman
import Verif.Props.Iiq
import Verif.Props.Interlace
import Verif.Props.LeafStrips
import Verif.Props.Ljpeg
import Verif.Props.Markers
import Verif.Props.Matrix
import Verif.Props.MonoClip
import Verif.Props.MonoCurve
import Verif.Props.MosFile
import Verif.Props.Mrw
import Verif.Props.Nef
import Verif.Props.NefFile
import Verif.Props.OnePicture
import Verif.Props.Orf
import Verif.Props.OtherFile
import Verif.Props.Output
import Verif.Props.Packed
import Verif.Props.PackedMore
import Verif.Props.Pef
import Verif.Props.PixelLocal
import Verif.Props.Program
import Verif.Props.Pumps
import Verif.Props.RafFile
import Verif.Props.Rotate
import Verif.Props.RotateLast
import Verif.Props.Rw2
import Verif.Props.Scale
import Verif.Props.Scaling
import Verif.Props.ScalingWhole
import Verif.Props.Schedule
import Verif.Props.Shipped
import Verif.Props.ShippedCameras
import Verif.Props.ShippedColour
import Verif.Props.Slices
import Verif.Props.SmallFile
import Verif.Props.Sony
import Verif.Props.Srw1
import Verif.Props.Srw2
import Verif.Props.Srw3
import Verif.Props.SrwFile
import Verif.Props.Subsampled
import Verif.Props.Tiff
import Verif.Props.TiffFile
import Verif.Props.Tiles
import Verif.Props.Transform
import Verif.Props.WhiteCast
import Verif.Props.WhitePixel
import Verif.Props.WholeFile
/-! The axioms every property theorem depends on. -/

#print axioms Props.accurate_exists
#print axioms Props.ari_file
#print axioms Props.arw1_no_rows
#print axioms Props.arw1_odd_height_loses_rows
#print axioms Props.arw1_round_trip_partial
#print axioms Props.arw2_exact
#print axioms Props.arw2_file
#print axioms Props.arw2_kept
#print axioms Props.arw2_picks
#print axioms Props.arw2_round_trip
#print axioms Props.arw_first_file
#print axioms Props.arw_packed_file
#print axioms Props.arw_r1_file
#print axioms Props.arw_second_file
#print axioms Props.arw_words_file
#print axioms Props.balance_ratio
#print axioms Props.base_curve_dips
#print axioms Props.base_curve_nearly_monotone
#print axioms Props.base_stage
#print axioms Props.bayer_covers
#print axioms Props.black_drifts
#print axioms Props.black_measured
#print axioms Props.black_measured_partial
#print axioms Props.black_picture
#print axioms Props.c1_tangent
#print axioms Props.camera_lookup
#print axioms Props.camera_lookup_tiff
#print axioms Props.canon_subsampled_round_trip
#print axioms Props.carries_xmp
#print axioms Props.cfa_accepts
#print axioms Props.cfa_colour_below_four
#print axioms Props.cfa_matches_name
#print axioms Props.cfa_shift
#print axioms Props.cfa_shift_period
#print axioms Props.cfa_shift_shift
#print axioms Props.cfa_wraps
#print axioms Props.ciff_file_roundtrip
#print axioms Props.ciff_find_entry_first
#print axioms Props.ciff_find_entry_none
#print axioms Props.ciff_open_and_look
#print axioms Props.ciff_parsing_ends
#print axioms Props.clampbits16_saturates
#print axioms Props.clampbits_not_saturating
#print axioms Props.clampbits_partial
#print axioms Props.composed_group
#print axioms Props.coolpix_white_zero
#print axioms Props.cr2_arrange_restored
#print axioms Props.cr2_arranged
#print axioms Props.cr2_curve_file
#print axioms Props.cr2_fields_fill
#print axioms Props.cr2_file
#print axioms Props.cr2_found
#print axioms Props.cr2_pairs_distinct
#print axioms Props.cr2_pairs_restored_partial
#print axioms Props.cr2_pairs_unequal
#print axioms Props.cr2_pixels_whole
#print axioms Props.cr2_short
#print axioms Props.cr2_slices_complete
#print axioms Props.cr2_slices_restored
#print axioms Props.cr2_small_file
#print axioms Props.cr2_white
#print axioms Props.crop_is_cut
#print axioms Props.cropped_cfa_aligned
#print axioms Props.cropped_pixels_keep_colour
#print axioms Props.crw_file
#print axioms Props.crw_roundtrip
#print axioms Props.crw_roundtrip_ten
#print axioms Props.crw_sixty_four
#print axioms Props.curve_at_knot
#print axioms Props.curve_below
#print axioms Props.curve_between
#print axioms Props.curve_beyond
#print axioms Props.curve_monotone_partial
#print axioms Props.curve_total
#print axioms Props.dcr_file
#print axioms Props.dcs_file
#print axioms Props.dcs_preview_refused
#print axioms Props.decodeThreaded_schedule_independent
#print axioms Props.decode_10le_exact_partial
#print axioms Props.decode_10le_lsb16_exact
#print axioms Props.decode_10le_lsb16_truncated
#print axioms Props.decode_10le_truncated
#print axioms Props.decode_10le_wrong
#print axioms Props.decode_12be_exact
#print axioms Props.decode_12be_interlaced_exact
#print axioms Props.decode_12be_interlaced_truncated
#print axioms Props.decode_12be_interlaced_unaligned_exact
#print axioms Props.decode_12be_msb16_exact
#print axioms Props.decode_12be_msb32_exact
#print axioms Props.decode_12be_msb_truncated
#print axioms Props.decode_12be_truncated
#print axioms Props.decode_12be_unpacked_exact
#print axioms Props.decode_12be_unpacked_left_aligned_exact
#print axioms Props.decode_12be_wcontrol_exact
#print axioms Props.decode_12be_wcontrol_truncated
#print axioms Props.decode_12le_16bitaligned_exact
#print axioms Props.decode_12le_16bitaligned_truncated
#print axioms Props.decode_12le_exact
#print axioms Props.decode_12le_truncated
#print axioms Props.decode_12le_unpacked_exact
#print axioms Props.decode_12le_unpacked_left_aligned_exact
#print axioms Props.decode_12le_wcontrol_exact
#print axioms Props.decode_12le_wcontrol_truncated
#print axioms Props.decode_14be_unpacked_exact
#print axioms Props.decode_14le_unpacked_exact
#print axioms Props.decode_16be_exact
#print axioms Props.decode_16le_exact
#print axioms Props.decode_16le_skiplines_exact
#print axioms Props.decode_8bit_wtable_exact
#print axioms Props.decode_8bit_wtable_size
#print axioms Props.decode_entry
#print axioms Props.decode_fills_partial
#print axioms Props.decode_hangs
#print axioms Props.decode_never_unwinds
#print axioms Props.decode_results
#print axioms Props.decode_runs_forever_iff
#print axioms Props.decode_terminates
#print axioms Props.decode_terminates_release_partial
#print axioms Props.decoder_rotates
#print axioms Props.default_output
#print axioms Props.demosaic_full
#print axioms Props.demosaic_order
#print axioms Props.dispatch_complete
#print axioms Props.dispatch_dng
#print axioms Props.dispatch_magic
#print axioms Props.dispatch_priority
#print axioms Props.dither_condition_needed
#print axioms Props.dither_exact
#print axioms Props.dither_near_curve
#print axioms Props.dither_never_overflows
#print axioms Props.dither_spans
#print axioms Props.dng_big_endian_swapped
#print axioms Props.dng_file
#print axioms Props.dng_level
#print axioms Props.dng_lossy_refused
#print axioms Props.dng_no_picture
#print axioms Props.dng_pattern
#print axioms Props.dng_pixels
#print axioms Props.dng_raw_found
#print axioms Props.dng_strips_refused
#print axioms Props.dng_tiles_four
#print axioms Props.dng_tiles_restored_partial
#print axioms Props.dng_tiles_uneven
#print axioms Props.dng_white_required
#print axioms Props.empty_rejected
#print axioms Props.endian_reads
#print axioms Props.endian_reverse
#print axioms Props.erf_file
#print axioms Props.exifPlace_injective
#print axioms Props.exifPlace_inside
#print axioms Props.exifPlace_surjective
#print axioms Props.find_entry_first
#print axioms Props.find_entry_none
#print axioms Props.find_first_ifd_first
#print axioms Props.find_ifds_all_and_only
#print axioms Props.fits_already
#print axioms Props.flat_field
#print axioms Props.flat_pixels
#print axioms Props.fourth_ignored
#print axioms Props.fuji_header_unchecked
#print axioms Props.fuji_opens
#print axioms Props.fuji_rotation_alt_partial
#print axioms Props.fuji_rotation_plain_partial
#print axioms Props.fuji_table_read
#print axioms Props.gamma_index_exact
#print axioms Props.gamma_index_in_table
#print axioms Props.gamma_monotone
#print axioms Props.gamma_range
#print axioms Props.gamma_total
#print axioms Props.gofloat_bayer
#print axioms Props.gofloat_mono
#print axioms Props.gofloat_rgb_actual
#print axioms Props.gofloat_rgb_partial
#print axioms Props.gofloat_rgb_wrong
#print axioms Props.has_entry_iff
#print axioms Props.hasselblad_round_trip
#print axioms Props.headerless_by_size
#print axioms Props.hot_pixel
#print axioms Props.huffman_build_ends
#print axioms Props.huffman_build_panics_256
#print axioms Props.huffman_build_panics_ones
#print axioms Props.huffman_build_panics_sparse
#print axioms Props.huffman_canonical
#print axioms Props.huffman_fast_agrees_partial
#print axioms Props.huffman_fast_disagrees
#print axioms Props.huffman_last_symbol_reachable
#print axioms Props.huffman_last_symbol_refused
#print axioms Props.huffman_lookup_total
#print axioms Props.huffman_too_many
#print axioms Props.huffman_unambiguous
#print axioms Props.iiq_file
#print axioms Props.iiq_plain
#print axioms Props.iiq_roundtrip
#print axioms Props.inverse_exact_partial
#print axioms Props.jpeg_reader_partial
#print axioms Props.jpeg_reader_short
#print axioms Props.jpeg_reader_total_partial
#print axioms Props.jpeg_reader_trailing
#print axioms Props.kdc_file
#print axioms Props.kodak_roundtrip
#print axioms Props.labf_total
#print axioms Props.last_file_wins
#print axioms Props.leaf_deinterlace
#print axioms Props.leaf_opens
#print axioms Props.leaf_pixels
#print axioms Props.leaf_rows_permute
#print axioms Props.leaf_strips_round_trip
#print axioms Props.leaf_white
#print axioms Props.ljpeg_header_checked
#print axioms Props.ljpeg_misfit_refused
#print axioms Props.ljpeg_round_trip
#print axioms Props.ljpeg_short_dht_panics
#print axioms Props.ljpeg_undefined_table_accepted
#print axioms Props.ljpeg_undefined_table_panics
#print axioms Props.local_pixels
#print axioms Props.lsb_peek_transparent
#print axioms Props.lsb_reader
#print axioms Props.lsb_split
#print axioms Props.margins_ignored
#print axioms Props.marker_search_first
#print axioms Props.marker_search_none
#print axioms Props.mef_file
#print axioms Props.mono_balance_ignored
#print axioms Props.mono_clip
#print axioms Props.mono_curve
#print axioms Props.more_bits
#print axioms Props.more_bits_mono
#print axioms Props.mos_file
#print axioms Props.mrw_budget_enough
#print axioms Props.mrw_file
#print axioms Props.mrw_release_hangs
#print axioms Props.mrw_terminates_debug
#print axioms Props.mrw_terminates_release_partial
#print axioms Props.msb32_position
#print axioms Props.msb32_reader
#print axioms Props.msb32_split
#print axioms Props.msb_peek_transparent
#print axioms Props.msb_reader
#print axioms Props.msb_split
#print axioms Props.nef_compressed_file
#print axioms Props.nef_d100_file
#print axioms Props.nef_packed_file
#print axioms Props.nef_round_trip_partial
#print axioms Props.nef_split_panics
#print axioms Props.nef_split_wrong
#print axioms Props.nef_words_file
#print axioms Props.nikon_ratios
#print axioms Props.nikon_serial
#print axioms Props.nikon_white
#print axioms Props.nkd_file
#print axioms Props.nkd_refused
#print axioms Props.nrw_file
#print axioms Props.ofRat_nearest
#print axioms Props.one_picture
#print axioms Props.orf_even
#print axioms Props.orf_file
#print axioms Props.orf_overflow
#print axioms Props.orf_roundtrip
#print axioms Props.overexposed_colour
#print axioms Props.packed_size_and_depth
#print axioms Props.pana_exact_partial
#print axioms Props.pana_needs_byte
#print axioms Props.pana_roundtrip
#print axioms Props.pana_torn_group
#print axioms Props.pana_total
#print axioms Props.pana_unsplit
#print axioms Props.pef_file
#print axioms Props.pef_odd_width
#print axioms Props.pef_round_trip
#print axioms Props.piece_hermite
#print axioms Props.pixel_local
#print axioms Props.ppm_reads
#print axioms Props.pro70_file
#print axioms Props.program_byte
#print axioms Props.program_outcomes
#print axioms Props.program_short
#print axioms Props.program_writes
#print axioms Props.pseudoinverse_exact_partial
#print axioms Props.pseudoinverse_least_squares_partial
#print axioms Props.pseudoinverse_normal_partial
#print axioms Props.raf_file
#print axioms Props.raf_pixels
#print axioms Props.raf_rotated_alt_file
#print axioms Props.raf_rotated_file
#print axioms Props.rotate_compose
#print axioms Props.rotate_inverse
#print axioms Props.rotate_is_exif
#print axioms Props.rotate_unknown
#print axioms Props.rotation_last
#print axioms Props.rotation_stops
#print axioms Props.rw2_file
#print axioms Props.same_window
#print axioms Props.sample_exact
#print axioms Props.samsung_pixels
#print axioms Props.samsung_white
#print axioms Props.scale_down_partial
#print axioms Props.scale_last_column_black
#print axioms Props.scaled_partial
#print axioms Props.schedule_independent
#print axioms Props.schedule_progress
#print axioms Props.shipped_black
#print axioms Props.shipped_colours
#print axioms Props.shipped_exists
#print axioms Props.shipped_found
#print axioms Props.shipped_from_file
#print axioms Props.shipped_headerless
#print axioms Props.shipped_levels_partial
#print axioms Props.shipped_loads
#print axioms Props.shipped_matrix
#print axioms Props.shipped_neutral
#print axioms Props.shipped_order_matters
#print axioms Props.shipped_pixel
#print axioms Props.shipped_white
#print axioms Props.sign_extension
#print axioms Props.sign_extension_msb
#print axioms Props.sniffing_safe
#print axioms Props.sony_curve
#print axioms Props.sony_curve_steep
#print axioms Props.sony_decrypt_stream
#print axioms Props.sony_decrypt_twice
#print axioms Props.sony_white
#print axioms Props.srf_file
#print axioms Props.srw1_any
#print axioms Props.srw1_file
#print axioms Props.srw1_odd_height
#print axioms Props.srw1_plain
#print axioms Props.srw1_roundtrip
#print axioms Props.srw2_file
#print axioms Props.srw2_roundtrip
#print axioms Props.srw3_plain
#print axioms Props.srw3_roundtrip
#print axioms Props.srw3_width
#print axioms Props.srw_whole_file
#print axioms Props.statistics_right
#print axioms Props.targetSize_spec
#print axioms Props.tfr_file
#print axioms Props.tiff_byte_order_irrelevant
#print axioms Props.tiff_component_partial
#print axioms Props.tiff_depth_never_exhausted
#print axioms Props.tiff_dir_roundtrip
#print axioms Props.tiff_entry_bytes
#print axioms Props.tiff_field_from
#print axioms Props.tiff_field_roundtrip
#print axioms Props.tiff_file_positions
#print axioms Props.tiff_file_roundtrip
#print axioms Props.tiff_lookup_missing
#print axioms Props.tiff_lookup_stored
#print axioms Props.tiff_open_and_look
#print axioms Props.tiff_parsing_ends
#print axioms Props.tiff_part_roundtrip
#print axioms Props.tiff_rational
#print axioms Props.tiff_rational_roundtrip
#print axioms Props.tiff_root_depth
#print axioms Props.tiff_sniffing_safe
#print axioms Props.tiff_srational
#print axioms Props.tiff_undefined_misread
#print axioms Props.to_rgb_range
#print axioms Props.to_rgb_size
#print axioms Props.to_rgb_thin_panics
#print axioms Props.to_srgb_bytes
#print axioms Props.unpacked_size_and_depth
#print axioms Props.unrecognised_rejected
#print axioms Props.utf8_valid
#print axioms Props.wcontrol_ignores_control
#print axioms Props.white_goes_to_white_partial
#print axioms Props.white_pixel
#print axioms Props.x3f_refused
