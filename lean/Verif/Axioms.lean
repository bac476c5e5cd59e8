import Verif.Props.Announced
import Verif.Props.AnyInput
import Verif.Props.Av1Symbols
import Verif.Props.BlockCopy
import Verif.Props.BlockHead
import Verif.Props.BlockInfo
import Verif.Props.Candidates
import Verif.Props.Canonical
import Verif.Props.Cli
import Verif.Props.Codes
import Verif.Props.CoeffContexts
import Verif.Props.CommandLine
import Verif.Props.Contexts
import Verif.Props.Cosine
import Verif.Props.Cost
import Verif.Props.Cover
import Verif.Props.Decoder
import Verif.Props.DefaultTables
import Verif.Props.EdgePartition
import Verif.Props.Elements
import Verif.Props.FilmGrain
import Verif.Props.Filters
import Verif.Props.FrameFilters
import Verif.Props.FrameFront
import Verif.Props.FrameParams
import Verif.Props.FrameState
import Verif.Props.FrameWhole
import Verif.Props.Framing
import Verif.Props.FrontState
import Verif.Props.Geometry
import Verif.Props.GlobalMotion
import Verif.Props.HeaderAgain
import Verif.Props.HeaderLeft
import Verif.Props.Learn
import Verif.Props.Metadata
import Verif.Props.ModeInfo
import Verif.Props.MoreContexts
import Verif.Props.Motion
import Verif.Props.MvStack
import Verif.Props.Names
import Verif.Props.OwnTable
import Verif.Props.Partition
import Verif.Props.Pending
import Verif.Props.Picture
import Verif.Props.Process
import Verif.Props.QmSample
import Verif.Props.Quantizer
import Verif.Props.RangeCoder
import Verif.Props.Restoration
import Verif.Props.Reuse
import Verif.Props.Run
import Verif.Props.Search
import Verif.Props.SegExact
import Verif.Props.SelfGuided
import Verif.Props.SeqHeader
import Verif.Props.SeqSize
import Verif.Props.Stream
import Verif.Props.TileGroup
import Verif.Props.TileWalk
import Verif.Props.Tiles
import Verif.Props.Transform
import Verif.Props.Tree
import Verif.Props.Util
import Verif.Props.WholeFile
import Verif.Props.WholeOutput
import Verif.Props.Writer

/-! Axioms of every theorem listed in MANIFEST.json (printed when this file is built). -/

#print axioms Av1.C01_round_trip
#print axioms Av1.C02_tables_in_sync
#print axioms Av1.C03_reads_own_bits
#print axioms Av1.C04_adaptation_well_formed
#print axioms Av1.C04_session_tables
#print axioms Av1.C05_encode_total
#print axioms Av1.C05_no_overflow_partial
#print axioms Av1.C05_adapt_no_overflow
#print axioms Av1.C05_counter_unbounded
#print axioms Av1.C05_negation
#print axioms Av1.C06_zero_probability_diverges
#print axioms Av1.C07_whole_bytes_partial
#print axioms Av1.C07_first_session
#print axioms Av1.C07_negation
#print axioms Av1.C07_iff
#print axioms Av1.C08_mixed_round_trip
#print axioms Av1.C09_injective
#print axioms Av1.C10_default_tables
#print axioms Av1.C10_counts
#print axioms Av1.C10_lossless_from_defaults
#print axioms Av1.C11_fixed_width
#print axioms Av1.C11_msb_first
#print axioms Av1.C11_too_wide
#print axioms Av1.C12_uvlc_round_trip
#print axioms Av1.C12_uvlc_max
#print axioms Av1.C12_uvlc_decode_max
#print axioms Av1.C12_uvlc_diverges
#print axioms Av1.C13_le_round_trip
#print axioms Av1.C13_le_bytes
#print axioms Av1.C13_le_too_wide
#print axioms Av1.C14_leb128_round_trip
#print axioms Av1.C14_leb128_too_big
#print axioms Av1.C15_su_round_trip
#print axioms Av1.C15_su_limit
#print axioms Av1.C16_ns_round_trip
#print axioms Av1.C16_ns_zero
#print axioms Av1.C17_mixture_round_trip
#print axioms Av1.C17_prefix_free
#print axioms Av1.C18_msb16
#print axioms Av1.C18_msb32
#print axioms Av1.C18_msb64
#print axioms Av1.C19_round2
#print axioms Av1.C19_signed_partial
#print axioms Av1.C19_signed_negation
#print axioms Av1.C19_floorLog2
#print axioms Av1.C19_order
#print axioms Av1.C20_lossless
#print axioms Av1.C20_grouping
#print axioms Av1.C21_align
#print axioms Av1.C21_vector_align
#print axioms Av1.C22_inverse
#print axioms Av1.C23_read_partial
#print axioms Av1.C23_negation
#print axioms Av1.C23_iff
#print axioms Av1.C48_exit_decoder_partial
#print axioms Av1.C48_negation
#print axioms Av1.Cli.C24_accepted_complete
#print axioms Av1.Cli.C25_options_take_effect_partial
#print axioms Av1.Cli.C25_negation
#print axioms Av1.Cli.C25_ratio_drops_rest
#print axioms Av1.Cli.C25_exact
#print axioms Av1.Cli.C26_no_panic_partial
#print axioms Av1.Cli.C26_negation
#print axioms Av1.Cli.C26_negation_dash
#print axioms Av1.Cli.C26_negation_utf8
#print axioms Av1.Cli.C26_negation_denominator
#print axioms Av1.Cli.C26_iff
#print axioms Av1.C27_header_byte
#print axioms Av1.C27_distinct
#print axioms Av1.C28_exact_partial
#print axioms Av1.C28_negation
#print axioms Av1.C28_total
#print axioms Av1.C29_size_partial
#print axioms Av1.C29_injective
#print axioms Av1.C29_negation
#print axioms Av1.C29_fields_wrong
#print axioms Av1.C29_every_size
#print axioms Av1.C30_exact_partial
#print axioms Av1.C30_negation
#print axioms Av1.C31_content_light
#print axioms Av1.C31_mastering
#print axioms Av1.C32_kinds_partial
#print axioms Av1.C32_type_code_partial
#print axioms Av1.C32_type_code_iff
#print axioms Av1.C32_collision
#print axioms Av1.C32_negation
#print axioms Av1.C33_timecode
#print axioms Av1.C33_dropped
#print axioms Av1.C33_not_av1
#print axioms Av1.C34_scalability_partial
#print axioms Av1.C34_predefined
#print axioms Av1.C34_negation
#print axioms Av1.C34_iff
#print axioms Av1.C35_padding_partial
#print axioms Av1.C35_negation
#print axioms Av1.C35_iff
#print axioms Av1.Run.C36_output_partial
#print axioms Av1.Run.C36_independent
#print axioms Av1.Run.C36_bytes
#print axioms Av1.Run.C36_negation
#print axioms Av1.Run.C36_exact
#print axioms Av1.Run.C36_iff
#print axioms Av1.C49_t35_partial
#print axioms Av1.C49_negation
#print axioms Av1.C49_iff
#print axioms Av1.C50_recoverable
#print axioms Av1.C50_injective
#print axioms Av1.C50_order_hint_panics
#print axioms Av1.C51_again_partial
#print axioms Av1.C51_stable
#print axioms Av1.C51_planes
#print axioms Av1.C51_negation
#print axioms Av1.C51_iff
#print axioms Av1.Run.C52_negation
#print axioms Av1.Run.C52_banner
#print axioms Av1.Run.C53_complete_partial
#print axioms Av1.Run.C53_negation
#print axioms Av1.Run.C53_iff
#print axioms Av1.Run.C53_lost
#print axioms Av1.Run.C54_fixed_partial
#print axioms Av1.Run.C54_negation
#print axioms Av1.Run.C54_iff
#print axioms Av1.C37_relative_dist
#print axioms Av1.C37_panics
#print axioms Av1.wrapDist_unique
#print axioms Av1.C42_segment_map_partial
#print axioms Av1.C42_negation
#print axioms Av1.C42_defined_iff
#print axioms Av1.C45_tables_partial
#print axioms Av1.C45_negation
#print axioms Av1.C46_lookup_partial
#print axioms Av1.C46_lookup_iff
#print axioms Av1.C46_neighbours
#print axioms Av1.C46_negation
#print axioms Av1.C47_lower_partial
#print axioms Av1.C47_add_sub
#print axioms Av1.C47_overflow
#print axioms Av1.C47_negation
#print axioms Av1.C47_lower_iff
#print axioms Av1.C55_iff
#print axioms Av1.C55_tiling_partial
#print axioms Av1.C55_negation
#print axioms Av1.C56_tx_tables
#print axioms Av1.C56_find_only
#print axioms Av1.C56_row_shift
#print axioms Av1.C57_residual_size
#print axioms Av1.C43_tables_partial
#print axioms Av1.C43_elements_lossless_partial
#print axioms Av1.C43_fails
#print axioms Av1.C43_negation
#print axioms Av1.C58_sets_partial
#print axioms Av1.C58_inter
#print axioms Av1.C58_iff
#print axioms Av1.C58_negation
#print axioms Av1.C59_allowed_partial
#print axioms Av1.C59_inter_luma
#print axioms Av1.C59_negation
#print axioms Av1.C59_iff
#print axioms Av1.C60_value_free_partial
#print axioms Av1.C60_negation
#print axioms Av1.C60_iff
#print axioms Av1.C61_128_partial
#print axioms Av1.C61_wrong
#print axioms Av1.C61_negation
#print axioms Av1.C61_iff
#print axioms Av1.C62_injective_partial
#print axioms Av1.C62_never
#print axioms Av1.C62_negation
#print axioms Av1.C63_contexts_partial
#print axioms Av1.C63_comp_ref_type_partial
#print axioms Av1.C63_tx_depth_iff
#print axioms Av1.C63_interp_filter_iff
#print axioms Av1.C63_interp_single
#print axioms Av1.C63_cfl_never
#print axioms Av1.C63_negation
#print axioms Av1.C64_small_partial
#print axioms Av1.C64_never
#print axioms Av1.C64_negation
#print axioms Av1.C64_mass
#print axioms Av1.C38_candidates
#print axioms Av1.C38_search
#print axioms Av1.C38_weights_grow
#print axioms Av1.C65_weights
#print axioms Av1.C66_inner_partial
#print axioms Av1.C66_first_row
#print axioms Av1.C66_never_fresh
#print axioms Av1.C66_negation
#print axioms Av1.C66_iff
#print axioms Av1.C44_readable_iff
#print axioms Av1.C44_read_back_partial
#print axioms Av1.C44_single_partial
#print axioms Av1.C44_ambiguous
#print axioms Av1.C44_negation
#print axioms Av1.C44_forward
#print axioms Av1.C44_uni
#print axioms Av1.C67_delta_q_partial
#print axioms Av1.C67_iff
#print axioms Av1.C67_swapped
#print axioms Av1.C67_wrong
#print axioms Av1.C67_negation
#print axioms Av1.C68_delta_lf_iff
#print axioms Av1.C68_misread
#print axioms Av1.C68_small_partial
#print axioms Av1.C68_negation
#print axioms Av1.C69_single_partial
#print axioms Av1.C69_compound
#print axioms Av1.C69_compound_never
#print axioms Av1.C69_negation
#print axioms Av1.C70_candidate_choice
#print axioms Av1.C71_predicted_partial
#print axioms Av1.C71_only_joint
#print axioms Av1.C71_told_iff
#print axioms Av1.C71_negation
#print axioms Av1.C71_compound_partial
#print axioms Av1.C71_second_lost
#print axioms Av1.C72_own_partial
#print axioms Av1.C72_wrong
#print axioms Av1.C72_negation
#print axioms Av1.C72_iff
#print axioms Av1.C73_never
#print axioms Av1.C73_inter_frame
#print axioms Av1.C73_inter_flag
#print axioms Av1.C73_segmentation_panics
#print axioms Av1.C73_negation
#print axioms Av1.C74_deltas_once
#print axioms Av1.C74_deltas_due
#print axioms Av1.C75_coded_partial
#print axioms Av1.C75_condition
#print axioms Av1.C75_wrong
#print axioms Av1.C75_negation
#print axioms Av1.C75_iff
#print axioms Av1.C40_uniform_layout
#print axioms Av1.C40_kept
#print axioms Av1.C76_uniform_partial
#print axioms Av1.C76_uniform_iff
#print axioms Av1.C76_columns_panic
#print axioms Av1.C76_uniform_panics
#print axioms Av1.C76_nonuniform_one_partial
#print axioms Av1.C76_nonuniform_wrong
#print axioms Av1.C76_negation
#print axioms Av1.C77_exact_partial
#print axioms Av1.C77_negation
#print axioms Av1.C77_count_negation
#print axioms Av1.C77_square
#print axioms Av1.C77_outside
#print axioms Av1.C78_quant_read_back
#print axioms Av1.C78_range_is_needed
#print axioms Av1.C79_seven_partial
#print axioms Av1.C79_skip_panics
#print axioms Av1.C79_reference_wrong
#print axioms Av1.C79_empty_never
#print axioms Av1.C79_negation
#print axioms Av1.C79_iff
#print axioms Av1.C80_kept_partial
#print axioms Av1.C80_off_partial
#print axioms Av1.C80_all_active
#print axioms Av1.C80_negation
#print axioms Av1.C80_flags
#print axioms Av1.C80_values
#print axioms Av1.C80_iff
#print axioms Av1.C81_q_partial
#print axioms Av1.C81_res_never
#print axioms Av1.C81_lf_partial
#print axioms Av1.C81_stale
#print axioms Av1.C81_negation
#print axioms Av1.C81_q_after
#print axioms Av1.C82_lossless_partial
#print axioms Av1.C82_fresh_wrong
#print axioms Av1.C82_tx_mode
#print axioms Av1.C82_negation
#print axioms Av1.C82_qindex_iff
#print axioms Av1.C82_iff
#print axioms Av1.C83_loop_filter_partial
#print axioms Av1.C83_defaults
#print axioms Av1.C83_kept
#print axioms Av1.C83_mode_wrong
#print axioms Av1.C83_negation
#print axioms Av1.C83_iff
#print axioms Av1.C84_cdef_partial
#print axioms Av1.C84_disabled_never
#print axioms Av1.C84_again_value
#print axioms Av1.C84_again_iff
#print axioms Av1.C84_negation
#print axioms Av1.C84_off
#print axioms Av1.C85_off_partial
#print axioms Av1.C85_never
#print axioms Av1.C85_body_partial
#print axioms Av1.C85_shift_never
#print axioms Av1.C85_negation
#print axioms Av1.C41_subexp
#print axioms Av1.C41_lower_half
#print axioms Av1.C41_lower_iff_partial
#print axioms Av1.C41_unchanged_wrong
#print axioms Av1.C41_top_panics
#print axioms Av1.C41_negation
#print axioms Av1.C86_intra_partial
#print axioms Av1.C86_independent
#print axioms Av1.C86_six
#print axioms Av1.C86_warp_panics
#print axioms Av1.C86_never
#print axioms Av1.C86_negation
#print axioms Av1.C86_param
#print axioms Av1.C86_identity_prev
#print axioms Av1.C86_identity_prev_wrong
#print axioms Av1.C86_left
#print axioms Av1.C87_identity_partial
#print axioms Av1.C87_translation_partial
#print axioms Av1.C87_warp_partial
#print axioms Av1.C87_warp_abs
#print axioms Av1.C87_warp_iff
#print axioms Av1.C87_translation_desync
#print axioms Av1.C87_negation
#print axioms Av1.C88_read_back_partial
#print axioms Av1.C88_extra_bit_never
#print axioms Av1.C88_forgotten
#print axioms Av1.C88_again
#print axioms Av1.C88_again_iff
#print axioms Av1.C88_negation
#print axioms Av1.C88_coeff_iff
#print axioms Av1.C89_read_back_partial
#print axioms Av1.C89_next_empty
#print axioms Av1.C89_negation
#print axioms Av1.C89_after
#print axioms Av1.C90_valid_refs
#print axioms Av1.C90_named
#print axioms Av1.C90_unnamed
#print axioms Av1.C90_hints
#print axioms Av1.C91_front_partial
#print axioms Av1.C91_shown_key_panics
#print axioms Av1.C91_still_picture_panics
#print axioms Av1.C91_intrabc_never
#print axioms Av1.C91_requests_cleared
#print axioms Av1.C91_negation
#print axioms Av1.C91_tools
#print axioms Av1.C91_override
#print axioms Av1.C91_primary
#print axioms Av1.C91_removal_panics_iff
#print axioms Av1.C91_removal_iff
#print axioms Av1.C91_end
#print axioms Av1.C92_sizes_partial
#print axioms Av1.C92_own_size_never
#print axioms Av1.C92_again_wrong
#print axioms Av1.C92_negation
#print axioms Av1.C92_own_size
#print axioms Av1.C93_refs_partial
#print axioms Av1.C93_never
#print axioms Av1.C93_negation
#print axioms Av1.C93_size
#print axioms Av1.C93_size_after
#print axioms Av1.C93_inter_partial
#print axioms Av1.C94_header_partial
#print axioms Av1.C94_iff
#print axioms Av1.C94_no_grain_never
#print axioms Av1.C94_lossy_never
#print axioms Av1.C94_first_frame_panics
#print axioms Av1.C94_fresh_frame_panics
#print axioms Av1.C94_negation
#print axioms Av1.C95_skip_mode
#print axioms Av1.C95_positions
#print axioms Av1.C95_written
#print axioms Av1.C96_raw_partial
#print axioms Av1.C96_wrong
#print axioms Av1.C96_negation
#print axioms Av1.C96_iff
#print axioms Av1.Run.C97_status_partial
#print axioms Av1.Run.C97_rejected
#print axioms Av1.Run.C97_no_arguments
#print axioms Av1.Run.C97_unopened
#print axioms Av1.Run.C97_unread
#print axioms Av1.Run.C97_negation
#print axioms Av1.Run.C97_iff
#print axioms Av1.C98_color_partial
#print axioms Av1.C98_mono_never
#print axioms Av1.C98_quant_left
#print axioms Av1.C98_negation
#print axioms Av1.C99_luma_partial
#print axioms Av1.C99_fresh_wrong
#print axioms Av1.C99_iff
#print axioms Av1.C99_again_iff
#print axioms Av1.C99_negation
#print axioms Av1.C39_first_partial
#print axioms Av1.C39_never
#print axioms Av1.C39_state_left
#print axioms Av1.C39_split_first
#print axioms Av1.C39_negation
#print axioms Av1.C100_exact_partial
#print axioms Av1.C100_wrong
#print axioms Av1.C100_last_panics
#print axioms Av1.C100_negation
#print axioms Av1.C101_raster
#print axioms Av1.C101_cover
#print axioms Av1.C101_order
#print axioms Av1.C102_reset_partial
#print axioms Av1.C102_never
#print axioms Av1.C102_cdef_panics
#print axioms Av1.C102_negation
#print axioms Av1.C102_cdef_partial
#print axioms Av1.C102_cdef_edge
#print axioms Av1.C103_chroma
#print axioms Av1.C103_avail
#print axioms Av1.C103_once
#print axioms Av1.C104_all_partial
#print axioms Av1.C104_pow2_partial
#print axioms Av1.C104_wrong
#print axioms Av1.C104_negation
#print axioms Av1.C104_iff
#print axioms Av1.C105_size_partial
#print axioms Av1.C105_sizes_partial
#print axioms Av1.C105_empty_panics
#print axioms Av1.C105_panics
#print axioms Av1.C105_dropped
#print axioms Av1.C105_negation
#print axioms Av1.C106_contexts_partial
#print axioms Av1.C106_interintra_never
#print axioms Av1.C106_txfm_never
#print axioms Av1.C106_samedir
#print axioms Av1.C106_negation
#print axioms Av1.C106_compound_mode
#print axioms Av1.C106_compound_mode_panics
#print axioms Av1.C107_contexts_partial
#print axioms Av1.C107_q_wrong
#print axioms Av1.C107_negation
#print axioms Av1.C107_iff
#print axioms Av1.C108_units_once
#print axioms Av1.C108_units_inside
#print axioms Av1.C108_zero_panics
#print axioms Av1.C109_subexp
#print axioms Av1.C109_sgr_iff_partial
#print axioms Av1.C109_first_never
#print axioms Av1.C109_negation
#print axioms Av1.C110_flag_partial
#print axioms Av1.C110_switchable_silent
#print axioms Av1.C110_flag_uncoded
#print axioms Av1.C110_wiener_panics
#print axioms Av1.C110_stored
#print axioms Av1.C110_none
#print axioms Av1.C110_fresh_panics
#print axioms Av1.C110_negation
#print axioms Av1.C110_wiener_unborrowed
#print axioms Av1.C110_superblock
#print axioms Av1.C111_kept
#print axioms Av1.C111_derived_iff_partial
#print axioms Av1.C111_negation
#print axioms Av1.C112_negation
#print axioms Av1.C112_empty_partial
#print axioms Av1.C112_never
#print axioms Av1.C112_indistinct
#print axioms Av1.C112_header_state
#print axioms Av1.C113_negation
#print axioms Av1.C113_repeated_empty
#print axioms Av1.C113_first_partial
#print axioms Av1.C113_after_group_partial
#print axioms Av1.C114_negation
#print axioms Av1.C114_agrees_exact_partial
#print axioms Av1.C114_rest_exact_partial
#print axioms Av1.C114_existing_partial
#print axioms Av1.C114_whole_partial
#print axioms Av1.C114_ids_never
#print axioms Av1.C114_mono_never
#print axioms Av1.C115_negation
#print axioms Av1.C115_head_iff
#print axioms Av1.C115_head_partial
#print axioms Av1.C115_defined_iff
#print axioms Av1.C116_negation
#print axioms Av1.C116_is_inter_partial
#print axioms Av1.C116_defined_iff
#print axioms Av1.C116_refs_partial
#print axioms Av1.C116_refs_defined_iff
#print axioms Av1.C117_inter_read
#print axioms Av1.C118_negation
#print axioms Av1.C118_row_partial
#print axioms Av1.C118_defined_iff
#print axioms Av1.C118_joint_partial
#print axioms Av1.C118_joint_wrong
#print axioms Av1.C118_column_wrong
#print axioms Av1.C119_negation
#print axioms Av1.C119_search_partial
#print axioms Av1.C119_order_iff
#print axioms Av1.C119_stale
#print axioms Av1.C119_fill_wrong
#print axioms Av1.C119_wide_wrong
#print axioms Av1.C120_decoder
#print axioms Av1.C121_row
#print axioms Av1.C122_square
#print axioms Av1.C122_finishes
#print axioms Av1.C122_tree
#print axioms Av1.C122_tile
#print axioms Av1.C122_tile_finishes
#print axioms Av1.C122_mode_info
#print axioms Av1.C122_excluded
#print axioms Av1.C123_negation
#print axioms Av1.C123_iff
#print axioms Av1.C123_first_partial
#print axioms Av1.C123_undivided
#print axioms Av1.C123_tables
#print axioms Av1.C124_present
#print axioms Av1.C124_absent
#print axioms Av1.C124_transpose
#print axioms Av1.C124_flat
#print axioms Av1.C124_parts
#print axioms Av1.C124_no_gap
#print axioms Av1.C124_sampled
#print axioms Av1.C124_levels
#print axioms Av1.C125_dc
#print axioms Av1.C125_ac
#print axioms Av1.C125_dc_le_ac
#print axioms Av1.C125_ac_injective
#print axioms Av1.C125_scale
#print axioms Av1.C125_fine
#print axioms Av1.C126_constant
#print axioms Av1.C126_range
#print axioms Av1.C126_copy
#print axioms Av1.C126_subpel_mirror
#print axioms Av1.C126_upscale_mirror
#print axioms Av1.C126_warp_mirror
#print axioms Av1.C127_cos
#print axioms Av1.C127_cos_length
#print axioms Av1.C127_div
#print axioms Av1.C127_div_length
#print axioms Av1.C128_obmc
#print axioms Av1.C128_wedge
#print axioms Av1.C128_wedge_grows
#print axioms Av1.C128_interintra
#print axioms Av1.C128_distance
#print axioms Av1.C128_cdef_turn
#print axioms Av1.C128_thresholds
#print axioms Av1.C128_cdef_mirror
#print axioms Av1.C128_cdef_chroma
#print axioms Av1.C128_cdef_taps
#print axioms Av1.C129_length
#print axioms Av1.C129_worst_case
#print axioms Av1.C129_bits
#print axioms Av1.C129_bits_least
#print axioms Av1.C130_negation
#print axioms Av1.C130_literal_plain
#print axioms Av1.C130_literal_wrong
#print axioms Av1.C130_every_width
#print axioms Av1.C130_cut_literal
#print axioms Av1.C130_cut
#print axioms Av1.C130_rate_iff
#print axioms Av1.C130_no_default_table
#print axioms Av1.C130_symbol_iff
#print axioms Av1.C130_default_alone
#print axioms Av1.C130_first_symbol_partial
#print axioms Av1.C130_zeros_partial
#print axioms Av1.C130_start_partial
#print axioms Av1.C130_one_bit_partial
#print axioms Av1.C131_symbol_partial
#print axioms Av1.C131_search_partial
#print axioms Av1.C131_half_wrong
#print axioms Av1.C131_negation
#print axioms Av1.C131_iff
#print axioms Av1.C132_negation
#print axioms Av1.C132_iff
#print axioms Av1.C132_segmentation_panics
#print axioms Av1.C132_again_partial
#print axioms Av1.C133_learns
#print axioms Av1.C133_floor
#print axioms Av1.C133_predictable
#print axioms Av1.C133_flags
#print axioms Av1.C133_symbols
#print axioms Av1.C133_default_size
#print axioms Av1.C133_default_ready
#print axioms Av1.C134_left_partial
#print axioms Av1.C134_levels_iff
#print axioms Av1.C134_tx_mode
#print axioms Av1.C134_types
#print axioms Av1.C134_history
#print axioms Av1.C134_levels_kept
#print axioms Av1.C134_fresh_wrong
#print axioms Av1.C134_negation
#print axioms Av1.C135_units_partial
#print axioms Av1.C135_iff
#print axioms Av1.C135_never
#print axioms Av1.C135_negation
#print axioms Av1.C136_square_partial
#print axioms Av1.C136_tile_partial
#print axioms Av1.C136_first
#print axioms Av1.C136_search
#print axioms Av1.C136_same
#print axioms Av1.C136_code_list
#print axioms Av1.C136_negation
#print axioms Av1.C137_others_partial
#print axioms Av1.C137_never
#print axioms Av1.C137_nothing
#print axioms Av1.C137_tile_never
#print axioms Av1.C137_blind
#print axioms Av1.C137_negation
#print axioms Av1.C138_new_partial
#print axioms Av1.C138_never
#print axioms Av1.C138_runs
#print axioms Av1.C138_negation
#print axioms Av1.C139_final_partial
#print axioms Av1.C139_silent
#print axioms Av1.C139_negation
#print axioms Av1.C140_any_input
#print axioms Av1.C140_interval
#print axioms Av1.C140_local
#print axioms Av1.C140_decoder
#print axioms Av1.C140_blocks
#print axioms Av1.C141_canonical
#print axioms Av1.C141_uvlc
#print axioms Av1.C141_leb128
#print axioms Av1.C141_fields
#print axioms Av1.C141_total
#print axioms Av1.C142_file
#print axioms Av1.C142_injective
#print axioms Av1.C143_values_partial
#print axioms Av1.C143_iff
#print axioms Av1.C143_off
#print axioms Av1.C143_negation
#print axioms Av1.C143_model
#print axioms Av1.C143_depth
#print axioms Av1.C143_inverse
#print axioms Av1.C143_bounds
#print axioms Av1.C143_signs
#print axioms Av1.C143_biggest
#print axioms Av1.C144_history_partial
#print axioms Av1.C144_iff
#print axioms Av1.C144_negation
#print axioms Av1.C144_tables
#print axioms Av1.C144_sequence
#print axioms Av1.C144_decode
#print axioms Av1.C145_own_partial
#print axioms Av1.C145_tx_type_partial
#print axioms Av1.C145_iff
#print axioms Av1.C145_negation
#print axioms Av1.C145_eob_extra
#print axioms Av1.C145_apart
#print axioms Av1.C145_others
#print axioms Av1.Cli.C146_meaning_partial
#print axioms Av1.Cli.C146_exact
#print axioms Av1.Cli.C146_number
#print axioms Av1.Cli.C146_help
#print axioms Av1.Cli.C146_rejected
#print axioms Av1.Cli.C146_negation
#print axioms Av1.Run.C147_whole_or_empty
#print axioms Av1.Run.C147_iff
#print axioms Av1.Run.C147_exact
#print axioms Av1.C148_sets
#print axioms Av1.C148_passes
#print axioms Av1.C148_stronger
#print axioms Av1.C148_coded
#print axioms Av1.C148_fits
