{
 "claims": [
  {
   "property": "C01",
   "status": "proved",
   "theorems": [
    "Av1.C01_round_trip"
   ],
   "note": "Any bank of well-formed tables, any symbol sequence, any trailing bits, any prior coder state. The registers are unbounded integers in the model; below 2^27 symbols they are the code's 32-bit ones (C05)."
  },
  {
   "property": "C02",
   "status": "proved",
   "theorems": [
    "Av1.C02_tables_in_sync"
   ],
   "note": "Every split of the call sequence, i.e. after every symbol."
  },
  {
   "property": "C03",
   "status": "proved",
   "theorems": [
    "Av1.C03_reads_own_bits"
   ],
   "note": "At most eight zero bits of the session stay unread, followed by exactly the trailing data."
  },
  {
   "property": "C04",
   "status": "proved",
   "theorems": [
    "Av1.C04_adaptation_well_formed",
    "Av1.C04_session_tables"
   ],
   "note": "Any alphabet size up to 1024."
  },
  {
   "property": "C05",
   "status": "partial",
   "theorems": [
    "Av1.C05_encode_total",
    "Av1.C05_no_overflow_partial",
    "Av1.C05_adapt_no_overflow",
    "Av1.C05_counter_unbounded",
    "Av1.C05_negation"
   ],
   "note": "Total, within fifteen steps, registers and table update always in range. The counter of pending bits has no bound, so its 32 bits are enough for sessions below 2^27 symbols but not for all."
  },
  {
   "property": "C06",
   "status": "proved",
   "theorems": [
    "Av1.C06_zero_probability_diverges"
   ],
   "note": "For every coder state and any number of loop iterations."
  },
  {
   "property": "C07",
   "status": "partial",
   "theorems": [
    "Av1.C07_whole_bytes_partial",
    "Av1.C07_first_session",
    "Av1.C07_negation",
    "Av1.C07_iff"
   ],
   "note": "True for a fresh coder; false when a coder is reused, because init_encoder does not reset the bit counter; for any number of sessions on one coder the exact condition is proved (C07_iff)."
  },
  {
   "property": "C08",
   "status": "proved",
   "theorems": [
    "Av1.C08_mixed_round_trip"
   ],
   "note": "Literals up to 64 bits (the argument type)."
  },
  {
   "property": "C09",
   "status": "proved",
   "theorems": [
    "Av1.C09_injective"
   ],
   "note": "Stronger: not even with different data appended."
  },
  {
   "property": "C10",
   "status": "proved",
   "theorems": [
    "Av1.C10_default_tables",
    "Av1.C10_counts",
    "Av1.C10_lossless_from_defaults"
   ],
   "note": "Tables transcribed by tools/gen_cdf.py; the check is a kernel evaluation over the complete tables."
  },
  {
   "property": "C11",
   "status": "proved",
   "theorems": [
    "Av1.C11_fixed_width",
    "Av1.C11_msb_first",
    "Av1.C11_too_wide"
   ],
   "note": ""
  },
  {
   "property": "C12",
   "status": "proved",
   "theorems": [
    "Av1.C12_uvlc_round_trip",
    "Av1.C12_uvlc_max",
    "Av1.C12_uvlc_decode_max",
    "Av1.C12_uvlc_diverges"
   ],
   "note": "Also: the decoder never returns on input without a one bit."
  },
  {
   "property": "C13",
   "status": "proved",
   "theorems": [
    "Av1.C13_le_round_trip",
    "Av1.C13_le_bytes",
    "Av1.C13_le_too_wide"
   ],
   "note": ""
  },
  {
   "property": "C14",
   "status": "proved",
   "theorems": [
    "Av1.C14_leb128_round_trip",
    "Av1.C14_leb128_too_big"
   ],
   "note": ""
  },
  {
   "property": "C15",
   "status": "proved",
   "theorems": [
    "Av1.C15_su_round_trip",
    "Av1.C15_su_limit"
   ],
   "note": "Up to 62 bits; from 63 bits on negative values panic (C15_su_limit)."
  },
  {
   "property": "C16",
   "status": "proved",
   "theorems": [
    "Av1.C16_ns_round_trip",
    "Av1.C16_ns_zero"
   ],
   "note": ""
  },
  {
   "property": "C17",
   "status": "proved",
   "theorems": [
    "Av1.C17_mixture_round_trip",
    "Av1.C17_prefix_free"
   ],
   "note": ""
  },
  {
   "property": "C18",
   "status": "proved",
   "theorems": [
    "Av1.C18_msb16",
    "Av1.C18_msb32",
    "Av1.C18_msb64"
   ],
   "note": ""
  },
  {
   "property": "C19",
   "status": "partial",
   "theorems": [
    "Av1.C19_round2",
    "Av1.C19_signed_partial",
    "Av1.C19_signed_negation",
    "Av1.C19_floorLog2",
    "Av1.C19_order"
   ],
   "note": "Round2 and floor-log2 hold; Round2Signed does not negate its result for negative arguments."
  },
  {
   "property": "C20",
   "status": "proved",
   "theorems": [
    "Av1.C20_lossless",
    "Av1.C20_grouping"
   ],
   "note": ""
  },
  {
   "property": "C21",
   "status": "proved",
   "theorems": [
    "Av1.C21_align",
    "Av1.C21_vector_align"
   ],
   "note": ""
  },
  {
   "property": "C22",
   "status": "proved",
   "theorems": [
    "Av1.C22_inverse"
   ],
   "note": ""
  },
  {
   "property": "C23",
   "status": "partial",
   "theorems": [
    "Av1.C23_read_partial",
    "Av1.C23_negation",
    "Av1.C23_iff"
   ],
   "note": "A short read or the end of the input is reported as success with zero samples; `C23_iff` is the exact condition."
  },
  {
   "property": "C48",
   "status": "partial",
   "theorems": [
    "Av1.C48_exit_decoder_partial",
    "Av1.C48_negation"
   ],
   "note": "exit_decoder leaves stray padding bits because the remaining-bit counter is decremented twice per bit; the exact number left, and the exact condition for none, are proved."
  },
  {
   "property": "C24",
   "status": "proved",
   "theorems": [
    "Av1.Cli.C24_accepted_complete"
   ],
   "note": ""
  },
  {
   "property": "C25",
   "status": "partial",
   "theorems": [
    "Av1.Cli.C25_options_take_effect_partial",
    "Av1.Cli.C25_negation",
    "Av1.Cli.C25_ratio_drops_rest",
    "Av1.Cli.C25_exact"
   ],
   "note": "A frame rate of the form N/D silently drops every argument after it; `C25_exact` gives what takes effect for every list of well-formed settings."
  },
  {
   "property": "C26",
   "status": "partial",
   "theorems": [
    "Av1.Cli.C26_no_panic_partial",
    "Av1.Cli.C26_negation",
    "Av1.Cli.C26_negation_dash",
    "Av1.Cli.C26_negation_utf8",
    "Av1.Cli.C26_negation_denominator",
    "Av1.Cli.C26_iff"
   ],
   "note": "An empty argument, a lone dash, a non-ASCII first or second character or a zero denominator panics; `C26_iff` gives exactly the command lines that do."
  },
  {
   "property": "C27",
   "status": "proved",
   "theorems": [
    "Av1.C27_header_byte",
    "Av1.C27_distinct"
   ],
   "note": ""
  },
  {
   "property": "C28",
   "status": "partial",
   "theorems": [
    "Av1.C28_exact_partial",
    "Av1.C28_negation",
    "Av1.C28_total"
   ],
   "note": "Exactly what is written is proved: payload first, then four constant bytes. The unit is not length-prefixed and the lengths count bits of the header."
  },
  {
   "property": "C29",
   "status": "partial",
   "theorems": [
    "Av1.C29_size_partial",
    "Av1.C29_injective",
    "Av1.C29_negation",
    "Av1.C29_fields_wrong",
    "Av1.C29_every_size"
   ],
   "note": "The size is recoverable under the code's own layout only. C29_every_size: for no size does an AV1 reader find it in the header followed by zeros or nothing. For every size, even a reader that has found the AV1 size fields reads a width and a height that are both too small."
  },
  {
   "property": "C30",
   "status": "partial",
   "theorems": [
    "Av1.C30_exact_partial",
    "Av1.C30_negation"
   ],
   "note": "Panics exactly when the width or height is 1 or 2."
  },
  {
   "property": "C31",
   "status": "proved",
   "theorems": [
    "Av1.C31_content_light",
    "Av1.C31_mastering"
   ],
   "note": ""
  },
  {
   "property": "C32",
   "status": "partial",
   "theorems": [
    "Av1.C32_kinds_partial",
    "Av1.C32_type_code_partial",
    "Av1.C32_type_code_iff",
    "Av1.C32_collision",
    "Av1.C32_negation"
   ],
   "note": "Time codes share the type number of scalability metadata."
  },
  {
   "property": "C33",
   "status": "proved",
   "theorems": [
    "Av1.C33_timecode",
    "Av1.C33_dropped",
    "Av1.C33_not_av1"
   ],
   "note": "Proved for the layout the code uses; that layout is not AV1's (C33_not_av1)."
  },
  {
   "property": "C34",
   "status": "partial",
   "theorems": [
    "Av1.C34_scalability_partial",
    "Av1.C34_predefined",
    "Av1.C34_negation",
    "Av1.C34_iff"
   ],
   "note": "Recovered iff dimensions or reference ids are given (`C34_iff`): a structure without dimensions and descriptions panics."
  },
  {
   "property": "C35",
   "status": "partial",
   "theorems": [
    "Av1.C35_padding_partial",
    "Av1.C35_negation",
    "Av1.C35_iff"
   ],
   "note": "n zero bytes are written, but before the header byte; right iff n = 0 (`C35_iff`)."
  },
  {
   "property": "C36",
   "status": "partial",
   "theorems": [
    "Av1.Run.C36_output_partial",
    "Av1.Run.C36_independent",
    "Av1.Run.C36_bytes",
    "Av1.Run.C36_negation",
    "Av1.Run.C36_exact",
    "Av1.Run.C36_iff"
   ],
   "note": "Holds iff no frame is requested, or the size is at least 3x3 and no read fails (`C36_iff`); `C36_exact` gives ending and output of every run with open files."
  },
  {
   "property": "C49",
   "status": "partial",
   "theorems": [
    "Av1.C49_t35_partial",
    "Av1.C49_negation",
    "Av1.C49_iff"
   ],
   "note": "The payload of ITU-T T.35 metadata is never written; `C49_iff` says exactly which messages have the same bits."
  },
  {
   "property": "C50",
   "status": "proved",
   "theorems": [
    "Av1.C50_recoverable",
    "Av1.C50_injective",
    "Av1.C50_order_hint_panics"
   ],
   "note": ""
  },
  {
   "property": "C51",
   "status": "partial",
   "theorems": [
    "Av1.C51_again_partial",
    "Av1.C51_stable",
    "Av1.C51_planes",
    "Av1.C51_negation",
    "Av1.C51_iff"
   ],
   "note": "The second encoding equals the first iff a color description was given; otherwise it is exactly 24 bits longer (`C51_iff`)."
  },
  {
   "property": "C52",
   "status": "partial",
   "theorems": [
    "Av1.Run.C52_negation",
    "Av1.Run.C52_banner"
   ],
   "note": "False in every run: the version banner goes to standard output."
  },
  {
   "property": "C53",
   "status": "partial",
   "theorems": [
    "Av1.Run.C53_complete_partial",
    "Av1.Run.C53_negation",
    "Av1.Run.C53_iff",
    "Av1.Run.C53_lost"
   ],
   "note": "Lost when a read fails, because process::exit skips the flush; `C53_iff` and `C53_lost` are the exact conditions."
  },
  {
   "property": "C54",
   "status": "partial",
   "theorems": [
    "Av1.Run.C54_fixed_partial",
    "Av1.Run.C54_negation",
    "Av1.Run.C54_iff"
   ],
   "note": "Every frame consumes a 176x144 frame, whatever the configured size; right iff the configured size has as many samples (`C54_iff`)."
  },
  {
   "property": "C37",
   "status": "proved",
   "theorems": [
    "Av1.C37_relative_dist",
    "Av1.C37_panics",
    "Av1.wrapDist_unique"
   ],
   "note": "All hint widths from 1 to 63; 0 and 64 or more panic."
  },
  {
   "property": "C42",
   "status": "partial",
   "theorems": [
    "Av1.C42_segment_map_partial",
    "Av1.C42_negation",
    "Av1.C42_defined_iff"
   ],
   "note": "Panics for every prediction strictly between 0 and the largest id."
  },
  {
   "property": "C45",
   "status": "partial",
   "theorems": [
    "Av1.C45_tables_partial",
    "Av1.C45_negation"
   ],
   "note": "num_4x4_blocks_wide is 3 for 16 wide blocks; mi_*_log2 count pixels."
  },
  {
   "property": "C46",
   "status": "partial",
   "theorems": [
    "Av1.C46_lookup_partial",
    "Av1.C46_lookup_iff",
    "Av1.C46_neighbours",
    "Av1.C46_negation"
   ],
   "note": "Holds exactly for frame sizes that are multiples of 8."
  },
  {
   "property": "C47",
   "status": "partial",
   "theorems": [
    "Av1.C47_lower_partial",
    "Av1.C47_add_sub",
    "Av1.C47_overflow",
    "Av1.C47_negation",
    "Av1.C47_lower_iff"
   ],
   "note": "allow_high_precision_mv is ignored; `C47_lower_iff`: right iff it is off or the value has no precision to lose."
  },
  {
   "property": "C55",
   "status": "partial",
   "theorems": [
    "Av1.C55_iff",
    "Av1.C55_tiling_partial",
    "Av1.C55_negation"
   ],
   "note": "C55_iff is exact for every type, square, position and frame: HORZ_B and VERT_B always misplace a part, VERT_4 whenever its last strip is in the frame, and partitions of a 16x16 square overlap unless only one row or column of it is in the frame."
  },
  {
   "property": "C56",
   "status": "proved",
   "theorems": [
    "Av1.C56_tx_tables",
    "Av1.C56_find_only",
    "Av1.C56_row_shift"
   ],
   "note": ""
  },
  {
   "property": "C57",
   "status": "proved",
   "theorems": [
    "Av1.C57_residual_size"
   ],
   "note": ""
  },
  {
   "property": "C43",
   "status": "partial",
   "theorems": [
    "Av1.C43_tables_partial",
    "Av1.C43_elements_lossless_partial",
    "Av1.C43_fails",
    "Av1.C43_negation"
   ],
   "note": "The exact set of elements that stay inside their table is given and proved both ways; uv_mode 13, partitions >= 8 of 32/64 blocks, txfm_split without neighbours, coeff_base_eob, and others read outside."
  },
  {
   "property": "C58",
   "status": "partial",
   "theorems": [
    "Av1.C58_sets_partial",
    "Av1.C58_inter",
    "Av1.C58_iff",
    "Av1.C58_negation"
   ],
   "note": "Intra sets agree; the inter sets are numbered from 0 while their table starts with the DCT-only row, so an inter block gets the set before its own; `C58_iff` says exactly which types are judged rightly."
  },
  {
   "property": "C59",
   "status": "partial",
   "theorems": [
    "Av1.C59_allowed_partial",
    "Av1.C59_inter_luma",
    "Av1.C59_negation",
    "Av1.C59_iff"
   ],
   "note": "Holds for intra blocks and others listed in the theorem; fails for inter blocks whose stored type only the neighbouring set has. `C59_iff` is the exact condition, luma and chroma."
  },
  {
   "property": "C60",
   "status": "partial",
   "theorems": [
    "Av1.C60_value_free_partial",
    "Av1.C60_negation",
    "Av1.C60_iff"
   ],
   "note": "Every element but uv_mode, which uses the coded value as table row; exactly that one (`C60_iff`)."
  },
  {
   "property": "C61",
   "status": "partial",
   "theorems": [
    "Av1.C61_128_partial",
    "Av1.C61_wrong",
    "Av1.C61_negation",
    "Av1.C61_iff"
   ],
   "note": "Only 128x128 uses its own table (`C61_iff`); the code compares a pixel log2 with a unit log2."
  },
  {
   "property": "C62",
   "status": "partial",
   "theorems": [
    "Av1.C62_injective_partial",
    "Av1.C62_never",
    "Av1.C62_negation"
   ],
   "note": "The raw type is written; different types give different symbols but no symbol decodes to its type as AV1 prescribes."
  },
  {
   "property": "C63",
   "status": "partial",
   "theorems": [
    "Av1.C63_contexts_partial",
    "Av1.C63_comp_ref_type_partial",
    "Av1.C63_tx_depth_iff",
    "Av1.C63_interp_filter_iff",
    "Av1.C63_interp_single",
    "Av1.C63_cfl_never",
    "Av1.C63_negation"
   ],
   "note": "18 elements agree for all neighbours; transform depth, reference type and interpolation filter contexts differ exactly under the stated conditions, chroma-from-luma contexts always."
  },
  {
   "property": "C64",
   "status": "partial",
   "theorems": [
    "Av1.C64_small_partial",
    "Av1.C64_never",
    "Av1.C64_negation",
    "Av1.C64_mass"
   ],
   "note": "The derived table is valid exactly when the accumulated sum is small; with the default tables never."
  },
  {
   "property": "C38",
   "status": "proved",
   "theorems": [
    "Av1.C38_candidates",
    "Av1.C38_search",
    "Av1.C38_weights_grow"
   ],
   "note": "Candidate list bounded, free of duplicates, weights grow."
  },
  {
   "property": "C65",
   "status": "proved",
   "theorems": [
    "Av1.C65_weights"
   ],
   "note": "Near candidates weigh at least 640, temporal ones at most 128."
  },
  {
   "property": "C66",
   "status": "partial",
   "theorems": [
    "Av1.C66_inner_partial",
    "Av1.C66_first_row",
    "Av1.C66_never_fresh",
    "Av1.C66_negation",
    "Av1.C66_iff"
   ],
   "note": "Exact condition in `C66_iff`. Holds away from the first row when neighbours and motion field are stored; panics on the first row and on every fresh frame."
  },
  {
   "property": "C44",
   "status": "partial",
   "theorems": [
    "Av1.C44_readable_iff",
    "Av1.C44_read_back_partial",
    "Av1.C44_single_partial",
    "Av1.C44_ambiguous",
    "Av1.C44_negation",
    "Av1.C44_forward",
    "Av1.C44_uni"
   ],
   "note": "Exactly the single references and four compound ones are read back; others miss an element."
  },
  {
   "property": "C67",
   "status": "partial",
   "theorems": [
    "Av1.C67_delta_q_partial",
    "Av1.C67_iff",
    "Av1.C67_swapped",
    "Av1.C67_wrong",
    "Av1.C67_negation"
   ],
   "note": "Multiples of the resolution below three steps are read back; every larger reduced delta is misread, `C67_swapped` says as what; `C67_iff` is exact with the clipping of the index."
  },
  {
   "property": "C68",
   "status": "partial",
   "theorems": [
    "Av1.C68_delta_lf_iff",
    "Av1.C68_misread",
    "Av1.C68_small_partial",
    "Av1.C68_negation"
   ],
   "note": "Exactly the deltas below 5 are read back; `C68_misread` says what the others become."
  },
  {
   "property": "C69",
   "status": "partial",
   "theorems": [
    "Av1.C69_single_partial",
    "Av1.C69_compound",
    "Av1.C69_compound_never",
    "Av1.C69_negation"
   ],
   "note": "Right with one reference; with two references never."
  },
  {
   "property": "C70",
   "status": "proved",
   "theorems": [
    "Av1.C70_candidate_choice"
   ],
   "note": "Encoder and decoder select the same candidate."
  },
  {
   "property": "C71",
   "status": "partial",
   "theorems": [
    "Av1.C71_predicted_partial",
    "Av1.C71_only_joint",
    "Av1.C71_told_iff",
    "Av1.C71_negation",
    "Av1.C71_compound_partial",
    "Av1.C71_second_lost"
   ],
   "note": "Vectors taken from the candidates agree with AV1; of a coded difference only the joint type is written, so two vectors can be told apart exactly when different components differ from the prediction; with two references the joint type is always that of the first difference."
  },
  {
   "property": "C72",
   "status": "partial",
   "theorems": [
    "Av1.C72_own_partial",
    "Av1.C72_wrong",
    "Av1.C72_negation",
    "Av1.C72_iff"
   ],
   "note": "The block's own areas are right; every block also overwrites all areas above and to its left, right only if those held the same index (`C72_iff`)."
  },
  {
   "property": "C73",
   "status": "partial",
   "theorems": [
    "Av1.C73_never",
    "Av1.C73_inter_frame",
    "Av1.C73_inter_flag",
    "Av1.C73_segmentation_panics",
    "Av1.C73_negation"
   ],
   "note": "No block carries an intra mode; blocks of inter frames carry nothing. What is missing is the property itself."
  },
  {
   "property": "C74",
   "status": "proved",
   "theorems": [
    "Av1.C74_deltas_once",
    "Av1.C74_deltas_due"
   ],
   "note": "For every sequence of blocks of one frame, of either kind."
  },
  {
   "property": "C75",
   "status": "partial",
   "theorems": [
    "Av1.C75_coded_partial",
    "Av1.C75_condition",
    "Av1.C75_wrong",
    "Av1.C75_negation",
    "Av1.C75_iff"
   ],
   "note": "Right for blocks that are not skipped; skipped blocks write an index nobody reads. `C75_iff` is the exact condition."
  },
  {
   "property": "C40",
   "status": "proved",
   "theorems": [
    "Av1.C40_uniform_layout",
    "Av1.C40_kept"
   ],
   "note": "The uniform layout the code computes; what the header says about it is C76."
  },
  {
   "property": "C76",
   "status": "partial",
   "theorems": [
    "Av1.C76_uniform_partial",
    "Av1.C76_uniform_iff",
    "Av1.C76_columns_panic",
    "Av1.C76_uniform_panics",
    "Av1.C76_nonuniform_one_partial",
    "Av1.C76_nonuniform_wrong",
    "Av1.C76_negation"
   ],
   "note": "Right for uniform spacing exactly below the limits (C76_uniform_iff) and for one explicit tile; the code writes a closing bit at the limit, panics for wide frames and writes no explicit sizes."
  },
  {
   "property": "C77",
   "status": "partial",
   "theorems": [
    "Av1.C77_exact_partial",
    "Av1.C77_negation",
    "Av1.C77_count_negation",
    "Av1.C77_square",
    "Av1.C77_outside"
   ],
   "note": "Right exactly for the frames with one tile."
  },
  {
   "property": "C78",
   "status": "proved",
   "theorems": [
    "Av1.C78_quant_read_back",
    "Av1.C78_range_is_needed"
   ],
   "note": "For all parameters in the range of their fields."
  },
  {
   "property": "C79",
   "status": "partial",
   "theorems": [
    "Av1.C79_seven_partial",
    "Av1.C79_skip_panics",
    "Av1.C79_reference_wrong",
    "Av1.C79_empty_never",
    "Av1.C79_negation",
    "Av1.C79_iff"
   ],
   "note": "Right iff no features are sent (`C79_iff`); otherwise right for a decoder of seven features, where AV1 has eight. Skip panics, references 4 to 7 are read as 0 to 3."
  },
  {
   "property": "C80",
   "status": "partial",
   "theorems": [
    "Av1.C80_kept_partial",
    "Av1.C80_off_partial",
    "Av1.C80_all_active",
    "Av1.C80_negation",
    "Av1.C80_flags",
    "Av1.C80_values",
    "Av1.C80_iff"
   ],
   "note": "Right iff no data is sent or every feature is set and in range (`C80_iff`); when data is sent all features of all segments become active."
  },
  {
   "property": "C81",
   "status": "partial",
   "theorems": [
    "Av1.C81_q_partial",
    "Av1.C81_res_never",
    "Av1.C81_lf_partial",
    "Av1.C81_stale",
    "Av1.C81_negation",
    "Av1.C81_q_after"
   ],
   "note": "Right without quantizer deltas on the wire and for loop filter deltas with them; the quantizer resolution is one element instead of two bits."
  },
  {
   "property": "C82",
   "status": "partial",
   "theorems": [
    "Av1.C82_lossless_partial",
    "Av1.C82_fresh_wrong",
    "Av1.C82_tx_mode",
    "Av1.C82_negation",
    "Av1.C82_qindex_iff",
    "Av1.C82_iff"
   ],
   "note": "`C82_iff` is the exact condition. Right if the context's quantizer is the frame's or all segments carry one; a fresh context takes every frame for lossless."
  },
  {
   "property": "C83",
   "status": "partial",
   "theorems": [
    "Av1.C83_loop_filter_partial",
    "Av1.C83_defaults",
    "Av1.C83_kept",
    "Av1.C83_mode_wrong",
    "Av1.C83_negation",
    "Av1.C83_iff"
   ],
   "note": "Right if mode and reference update flags agree; the code tests the wrong flag. C83_iff is the exact condition: the flags agree, or one coincidence of flags and values."
  },
  {
   "property": "C84",
   "status": "partial",
   "theorems": [
    "Av1.C84_cdef_partial",
    "Av1.C84_disabled_never",
    "Av1.C84_again_value",
    "Av1.C84_again_iff",
    "Av1.C84_negation",
    "Av1.C84_off"
   ],
   "note": "Right once with CDEF enabled; written even if disabled. Written again, every secondary strength 3 is read as 0 (C84_again_value), so exactly the parameters without it survive (C84_again_iff)."
  },
  {
   "property": "C85",
   "status": "partial",
   "theorems": [
    "Av1.C85_off_partial",
    "Av1.C85_never",
    "Av1.C85_body_partial",
    "Av1.C85_shift_never",
    "Av1.C85_negation"
   ],
   "note": "Right only where nothing is coded; the test of enable_restoration is inverted."
  },
  {
   "property": "C41",
   "status": "partial",
   "theorems": [
    "Av1.C41_subexp",
    "Av1.C41_lower_half",
    "Av1.C41_lower_iff_partial",
    "Av1.C41_unchanged_wrong",
    "Av1.C41_top_panics",
    "Av1.C41_negation"
   ],
   "note": "The code without a reference is right. With a reference in the lower half exactly the values of Involuted are read back, because the encoder applies the decoder's recentering instead of its inverse; a parameter equal to its reference is never read back unless the reference is the lowest or second lowest value; a reference at the top panics."
  },
  {
   "property": "C86",
   "status": "partial",
   "theorems": [
    "Av1.C86_intra_partial",
    "Av1.C86_independent",
    "Av1.C86_six",
    "Av1.C86_warp_panics",
    "Av1.C86_never",
    "Av1.C86_negation",
    "Av1.C86_param",
    "Av1.C86_identity_prev",
    "Av1.C86_identity_prev_wrong",
    "Av1.C86_left"
   ],
   "note": "Right only for intra frames. The last reference is never written, parameters never depend on the caller, every translation is read as 48 samples, every warp panics."
  },
  {
   "property": "C87",
   "status": "partial",
   "theorems": [
    "Av1.C87_identity_partial",
    "Av1.C87_translation_partial",
    "Av1.C87_warp_partial",
    "Av1.C87_warp_abs",
    "Av1.C87_warp_iff",
    "Av1.C87_translation_desync",
    "Av1.C87_negation"
   ],
   "note": "Translations and non-negative warps are right without high precision, but they put row and column in opposite order; warps come out as the absolute values of AV1's components (`C87_warp_abs`), so exactly the non-negative ones are right."
  },
  {
   "property": "C88",
   "status": "partial",
   "theorems": [
    "Av1.C88_read_back_partial",
    "Av1.C88_extra_bit_never",
    "Av1.C88_forgotten",
    "Av1.C88_again",
    "Av1.C88_again_iff",
    "Av1.C88_negation",
    "Av1.C88_coeff_iff"
   ],
   "note": "Right for every shown frame of a sequence with film grain; otherwise a bit is written that AV1 does not have, and a hidden frame discards the parameters. C88_again_iff: exactly when writing the frame again gives the same bits (not if its parameters come from a reference)."
  },
  {
   "property": "C89",
   "status": "partial",
   "theorems": [
    "Av1.C89_read_back_partial",
    "Av1.C89_next_empty",
    "Av1.C89_negation",
    "Av1.C89_after"
   ],
   "note": "The header itself is right; seen_frame_header stays set after it, so the next frame header is empty."
  },
  {
   "property": "C90",
   "status": "proved",
   "theorems": [
    "Av1.C90_valid_refs",
    "Av1.C90_named",
    "Av1.C90_unnamed",
    "Av1.C90_hints"
   ],
   "note": "Validity is exactly modular distance, and it is what the delta field can name."
  },
  {
   "property": "C91",
   "status": "partial",
   "theorems": [
    "Av1.C91_front_partial",
    "Av1.C91_shown_key_panics",
    "Av1.C91_still_picture_panics",
    "Av1.C91_intrabc_never",
    "Av1.C91_requests_cleared",
    "Av1.C91_negation",
    "Av1.C91_tools",
    "Av1.C91_override",
    "Av1.C91_primary",
    "Av1.C91_removal_panics_iff",
    "Av1.C91_removal_iff",
    "Av1.C91_end"
   ],
   "note": "Right for intra-only and hidden key frames without superresolution under screen content tools. Buffer removal times are read exactly if every operating point the frame belongs to has a decoder model. Shown key frames and reduced still pictures always panic."
  },
  {
   "property": "C92",
   "status": "partial",
   "theorems": [
    "Av1.C92_sizes_partial",
    "Av1.C92_own_size_never",
    "Av1.C92_again_wrong",
    "Av1.C92_negation",
    "Av1.C92_own_size"
   ],
   "note": "Exact condition for the render size to survive; a frame size of its own has too few bits; writing a superresolved frame again shrinks it again."
  },
  {
   "property": "C93",
   "status": "partial",
   "theorems": [
    "Av1.C93_refs_partial",
    "Av1.C93_never",
    "Av1.C93_negation",
    "Av1.C93_size",
    "Av1.C93_size_after",
    "Av1.C93_inter_partial"
   ],
   "note": "Everything an inter frame adds (references, size, precision, filter, motion mode) is read back section by section, but no inter or switch header completes: an out-of-range order hint index."
  },
  {
   "property": "C94",
   "status": "partial",
   "theorems": [
    "Av1.C94_header_partial",
    "Av1.C94_iff",
    "Av1.C94_no_grain_never",
    "Av1.C94_lossy_never",
    "Av1.C94_first_frame_panics",
    "Av1.C94_fresh_frame_panics",
    "Av1.C94_negation"
   ],
   "note": "Whole header round trip for lossless intra frames with film grain. The header of a shown key frame, so of any first frame, is never written. C94_iff: of the intra frames whose earlier sections are read back, the header is read back exactly if the frame is lossless, shown at some time, no shown key frame, and the sequence has film grain; otherwise it is not (no value at all without film grain, none with the right film grain if lossy)."
  },
  {
   "property": "C95",
   "status": "proved",
   "theorems": [
    "Av1.C95_skip_mode",
    "Av1.C95_positions",
    "Av1.C95_written"
   ],
   "note": "Nearest past and nearest future or second past reference, ties to the first index; C95_positions ties it to get_relative_dist."
  },
  {
   "property": "C96",
   "status": "partial",
   "theorems": [
    "Av1.C96_raw_partial",
    "Av1.C96_wrong",
    "Av1.C96_negation",
    "Av1.C96_iff"
   ],
   "note": "Right on a byte boundary; otherwise raw bytes overtake the pending bits, right only if both commute (`C96_iff`)."
  },
  {
   "property": "C97",
   "status": "partial",
   "theorems": [
    "Av1.Run.C97_status_partial",
    "Av1.Run.C97_rejected",
    "Av1.Run.C97_no_arguments",
    "Av1.Run.C97_unopened",
    "Av1.Run.C97_unread",
    "Av1.Run.C97_negation",
    "Av1.Run.C97_iff"
   ],
   "note": "Every failure the program detects itself ends with status 0; only panics show. `C97_iff` is the exact condition of a status other than 0."
  },
  {
   "property": "C98",
   "status": "partial",
   "theorems": [
    "Av1.C98_color_partial",
    "Av1.C98_mono_never",
    "Av1.C98_quant_left",
    "Av1.C98_negation"
   ],
   "note": "Sequences with chroma only: the context count is never set to 1, so monochrome frames carry chroma fields."
  },
  {
   "property": "C99",
   "status": "partial",
   "theorems": [
    "Av1.C99_luma_partial",
    "Av1.C99_fresh_wrong",
    "Av1.C99_iff",
    "Av1.C99_again_iff",
    "Av1.C99_negation"
   ],
   "note": "Luma size only; chroma sizes are shifted in place, never derived from luma, and stay 0 in a fresh context. C99_iff: right exactly if the context held the luma size for chroma; C99_again_iff: a second frame stays right exactly without a chroma shift."
  },
  {
   "property": "C39",
   "status": "partial",
   "theorems": [
    "Av1.C39_first_partial",
    "Av1.C39_never",
    "Av1.C39_state_left",
    "Av1.C39_split_first",
    "Av1.C39_negation"
   ],
   "note": "Proved for every encoder, every state and every candidate list in which a split never comes first where several quarters are in the frame: a finished search leaves bits, coder, tables and tree of encoding only the first allowed candidate. With the ten candidates of the code the search of every square in the frame panics (four strips of an 8x8 square), and the state outside the coder is not restored."
  },
  {
   "property": "C100",
   "status": "partial",
   "theorems": [
    "Av1.C100_exact_partial",
    "Av1.C100_wrong",
    "Av1.C100_last_panics",
    "Av1.C100_negation"
   ],
   "note": "The code uses n / TileCols as the column and n / TileRows as the row. Exact characterisation of the tiles that are right; every layout with more than one tile has a wrong tile; with different numbers of rows and columns the last tile panics."
  },
  {
   "property": "C101",
   "status": "proved",
   "theorems": [
    "Av1.C101_raster",
    "Av1.C101_cover",
    "Av1.C101_order"
   ],
   "note": "For every superblock encoder: the walk is the fold over the superblocks in raster order; exact cover and order of the list."
  },
  {
   "property": "C102",
   "status": "partial",
   "theorems": [
    "Av1.C102_reset_partial",
    "Av1.C102_never",
    "Av1.C102_cdef_panics",
    "Av1.C102_negation",
    "Av1.C102_cdef_partial",
    "Av1.C102_cdef_edge"
   ],
   "note": "The reset is right; no tile that starts inside the frame can be encoded (the partition search panics); frames from Frame::new already fail at cdef_idx."
  },
  {
   "property": "C103",
   "status": "proved",
   "theorems": [
    "Av1.C103_chroma",
    "Av1.C103_avail",
    "Av1.C103_once"
   ],
   "note": "For all block sizes, positions, subsamplings and areas; has_chroma against the luma units the block holds."
  },
  {
   "property": "C104",
   "status": "partial",
   "theorems": [
    "Av1.C104_all_partial",
    "Av1.C104_pow2_partial",
    "Av1.C104_wrong",
    "Av1.C104_negation",
    "Av1.C104_iff"
   ],
   "note": "Right for one group and for powers of two; for every other layout only the group of tile 0 alone is read back, and only if the padding makes up for the missing bits (logarithms rounded down; `C104_iff`)."
  },
  {
   "property": "C105",
   "status": "partial",
   "theorems": [
    "Av1.C105_size_partial",
    "Av1.C105_sizes_partial",
    "Av1.C105_empty_panics",
    "Av1.C105_panics",
    "Av1.C105_dropped",
    "Av1.C105_negation"
   ],
   "note": "Every group with a tile panics (encode_tile borrows the context again); independent of that the tile data is dropped, only lengths matter; the size fields of every group are right (`C105_sizes_partial`)."
  },
  {
   "property": "C106",
   "status": "partial",
   "theorems": [
    "Av1.C106_contexts_partial",
    "Av1.C106_interintra_never",
    "Av1.C106_txfm_never",
    "Av1.C106_samedir",
    "Av1.C106_negation",
    "Av1.C106_compound_mode",
    "Av1.C106_compound_mode_panics"
   ],
   "note": "All elements of the group agree except inter-intra (row off by one for every block) and the transform split flag (adds widths instead of comparing them)."
  },
  {
   "property": "C107",
   "status": "partial",
   "theorems": [
    "Av1.C107_contexts_partial",
    "Av1.C107_q_wrong",
    "Av1.C107_negation",
    "Av1.C107_iff"
   ],
   "note": "Agrees for base_q_idx up to 20 when each edge sees a single block and levels are non-negative; for every larger index the wrong table set is used."
  },
  {
   "property": "C108",
   "status": "proved",
   "theorems": [
    "Av1.C108_units_once",
    "Av1.C108_units_inside",
    "Av1.C108_zero_panics"
   ],
   "note": "For planes whose unit size is positive; a size of zero (chroma, see C99) panics, which is C108_zero_panics."
  },
  {
   "property": "C109",
   "status": "partial",
   "theorems": [
    "Av1.C109_subexp",
    "Av1.C109_sgr_iff_partial",
    "Av1.C109_first_never",
    "Av1.C109_negation"
   ],
   "note": "Exact set of pairs that decode; from the initial references no value at all decodes (recentering applied in the wrong direction, bits bypass the coder)."
  },
  {
   "property": "C110",
   "status": "partial",
   "theorems": [
    "Av1.C110_flag_partial",
    "Av1.C110_switchable_silent",
    "Av1.C110_flag_uncoded",
    "Av1.C110_wiener_panics",
    "Av1.C110_stored",
    "Av1.C110_none",
    "Av1.C110_fresh_panics",
    "Av1.C110_negation",
    "Av1.C110_wiener_unborrowed",
    "Av1.C110_superblock"
   ],
   "note": "The flag bypasses the coder, frames with a type per unit write no type, Wiener units panic."
  },
  {
   "property": "C111",
   "status": "partial",
   "theorems": [
    "Av1.C111_kept",
    "Av1.C111_derived_iff_partial",
    "Av1.C111_negation"
   ],
   "note": "The code subtracts from 16 instead of 128: right exactly for first coefficients up to -79."
  },
  {
   "property": "C112",
   "status": "partial",
   "theorems": [
    "Av1.C112_negation",
    "Av1.C112_empty_partial",
    "Av1.C112_never",
    "Av1.C112_indistinct",
    "Av1.C112_header_state"
   ],
   "note": "False for every frame that has a header (C112_never): the branches for OBU_FRAME and OBU_REDUNDANT_FRAME_HEADER are empty, so two runs that differ only in the contents of their frame OBUs give the same bytes (C112_indistinct). What is left is that such units change no state (C112_empty_partial)."
  },
  {
   "property": "C113",
   "status": "partial",
   "theorems": [
    "Av1.C113_negation",
    "Av1.C113_repeated_empty",
    "Av1.C113_first_partial",
    "Av1.C113_after_group_partial"
   ],
   "note": "A repeated header is always empty instead of a copy, over arbitrary sequences of calls. The first header after a temporal delimiter, or after a tile group that ends with the last tile, is always written. The encoding of a tile is a parameter here, so this holds for any; the code's own panics (C105)."
  },
  {
   "property": "C114",
   "status": "partial",
   "theorems": [
    "Av1.C114_negation",
    "Av1.C114_agrees_exact_partial",
    "Av1.C114_rest_exact_partial",
    "Av1.C114_existing_partial",
    "Av1.C114_whole_partial",
    "Av1.C114_ids_never",
    "Av1.C114_mono_never"
   ],
   "note": "Exact conditions under which a decoder that has read the sequence header agrees with the encoder about every parameter, and end-to-end read back of a sequence header followed by a frame header under those conditions (and those of C94). False for sequences with frame ids (flag never set, so ids are announced but not written), for monochrome sequences (the context keeps three planes) and for frames whose own decoder model differs from the announced one."
  },
  {
   "property": "C115",
   "status": "partial",
   "theorems": [
    "Av1.C115_negation",
    "Av1.C115_head_iff",
    "Av1.C115_head_partial",
    "Av1.C115_defined_iff"
   ],
   "note": "Exact condition: the start of a block is read back iff it is not a skipped block whose segment id comes after the skip flag (the code tests a flag it never sets and writes a symbol no decoder reads). C115_defined_iff gives exactly when it is written at all: it panics unless the predicted id is 0 or at least the last active one."
  },
  {
   "property": "C116",
   "status": "partial",
   "theorems": [
    "Av1.C116_negation",
    "Av1.C116_is_inter_partial",
    "Av1.C116_defined_iff",
    "Av1.C116_refs_partial",
    "Av1.C116_refs_defined_iff"
   ],
   "note": "The inter flag is read back whenever it is written; it is written exactly when segmentation is off or the segment fixes the reference (the feature table has 7 entries and the code reads entry 7). References are read back under the stated conditions."
  },
  {
   "property": "C117",
   "status": "proved",
   "theorems": [
    "Av1.C117_inter_read"
   ],
   "note": "Single reference, modes other than NEWMV."
  },
  {
   "property": "C118",
   "status": "partial",
   "theorems": [
    "Av1.C118_negation",
    "Av1.C118_row_partial",
    "Av1.C118_defined_iff",
    "Av1.C118_joint_partial",
    "Av1.C118_joint_wrong",
    "Av1.C118_column_wrong"
   ],
   "note": "No reading of x and y makes both right: predictions need x as the row, joint types need x as the column. Each is proved right under its reading and characterised under the other; predictions panic in the first superblock row unless a candidate exists."
  },
  {
   "property": "C119",
   "status": "partial",
   "theorems": [
    "Av1.C119_negation",
    "Av1.C119_search_partial",
    "Av1.C119_order_iff",
    "Av1.C119_stale",
    "Av1.C119_fill_wrong",
    "Av1.C119_wide_wrong"
   ],
   "note": "Before sorting, the list, weights, counters and zero context are exactly AV1's for the nearest row and column, the top right corner and the grid of temporal samples, for blocks whose width the code knows (C45). The code never sorts, so its order is AV1's exactly when the weights happen to fall in both parts. It never fills an empty list (it keeps an earlier block's vectors), and misplaces the corner for 16 wide blocks. AV1's remaining sources (top left point, second and third rows and columns, extra temporal samples, extra search) do not exist in the code and are outside the statement; the motion field is used whether or not the frame allows it."
  },
  {
   "property": "C120",
   "status": "proved",
   "theorems": [
    "Av1.C120_decoder"
   ],
   "note": "Decoders are an inductive type: stop, fail, or ask and go on with the answer. From C08 by induction on the decoder."
  },
  {
   "property": "C121",
   "status": "proved",
   "theorems": [
    "Av1.C121_row"
   ],
   "note": "For the class of blocks named in the statement (Call.Fits). The decoder (Spec/Decoder.lean) follows the AV1 syntax; it uses the code's own choice of tables (compared with AV1 in C61, C63, C64) and gets neighbours and candidates from what it decoded. Outside the class are what a decoder cannot read: a CDEF index on a skipped block (C75), larger deltas (C67, C68), two references (C69) and coded differences (C71)."
  },
  {
   "property": "C122",
   "status": "proved",
   "theorems": [
    "Av1.C122_square",
    "Av1.C122_finishes",
    "Av1.C122_tree",
    "Av1.C122_tile",
    "Av1.C122_tile_finishes",
    "Av1.C122_mode_info",
    "Av1.C122_excluded"
   ],
   "note": "The decoder (Spec/Tree.lean) has AV1's partition syntax and geometry, and the code's choice of tables (C61, C123). It is proved for any block coder that a block decoder follows; C122_mode_info instantiates it with the blocks of C121. C122_excluded shows that the partition types left out have no symbol in the table or parts that are not where AV1 has them; the edge flags left out can never be coded (C64)."
  },
  {
   "property": "C123",
   "status": "partial",
   "theorems": [
    "Av1.C123_negation",
    "Av1.C123_iff",
    "Av1.C123_first_partial",
    "Av1.C123_undivided",
    "Av1.C123_tables"
   ],
   "note": "The code passes availability of the neighbours instead of their comparison with the square. C123_iff gives the exact condition for agreement; the first square of a tile agrees; in a tile of undivided superblocks all others take a different table."
  },
  {
   "property": "C124",
   "status": "proved",
   "theorems": [
    "Av1.C124_present",
    "Av1.C124_absent",
    "Av1.C124_transpose",
    "Av1.C124_flat",
    "Av1.C124_parts",
    "Av1.C124_no_gap",
    "Av1.C124_sampled",
    "Av1.C124_levels"
   ],
   "note": "The table is in the model entry by entry (generated from the source, one byte per entry); no function of the repository reads it. The properties over its entries are settled by kernel evaluation of the whole table."
  },
  {
   "property": "C125",
   "status": "proved",
   "theorems": [
    "Av1.C125_dc",
    "Av1.C125_ac",
    "Av1.C125_dc_le_ac",
    "Av1.C125_ac_injective",
    "Av1.C125_scale",
    "Av1.C125_fine"
   ],
   "note": "Whole tables; no function of the repository reads them."
  },
  {
   "property": "C126",
   "status": "proved",
   "theorems": [
    "Av1.C126_constant",
    "Av1.C126_range",
    "Av1.C126_copy",
    "Av1.C126_subpel_mirror",
    "Av1.C126_upscale_mirror",
    "Av1.C126_warp_mirror"
   ],
   "note": "The filtering itself is in the statement (AV1's eight-tap sum with rounding); the repository has the tables only. Kernel evaluation of the tables plus general lemmas about sums."
  },
  {
   "property": "C127",
   "status": "proved",
   "theorems": [
    "Av1.C127_cos",
    "Av1.C127_cos_length",
    "Av1.C127_div",
    "Av1.C127_div_length"
   ],
   "note": "The cosine is Mathlib's real cosine. Its values are enclosed by integers scaled by 2^200: half-angle formula from cos(pi/2) = 0, then the recurrence for multiples; the comparison with the table is kernel evaluation. Tables only, no code reads them."
  },
  {
   "property": "C128",
   "status": "proved",
   "theorems": [
    "Av1.C128_obmc",
    "Av1.C128_wedge",
    "Av1.C128_wedge_grows",
    "Av1.C128_interintra",
    "Av1.C128_distance",
    "Av1.C128_cdef_turn",
    "Av1.C128_thresholds",
    "Av1.C128_cdef_mirror",
    "Av1.C128_cdef_chroma",
    "Av1.C128_cdef_taps"
   ],
   "note": "Kernel evaluation of the whole tables; no code reads them."
  },
  {
   "property": "C129",
   "status": "proved",
   "theorems": [
    "Av1.C129_length",
    "Av1.C129_worst_case",
    "Av1.C129_bits",
    "Av1.C129_bits_least"
   ],
   "note": "C129_length is the bound as products of integers; C129_bits and C129_bits_least are the same with real logarithms: sum of log2(32768/(p-1)) + log2(129/128) plus 24 from above (symbols of probability at least 2/32768), sum of log2(32768/(p+256)) plus 15 from below. C129_worst_case covers every probability."
  },
  {
   "property": "C130",
   "status": "partial",
   "theorems": [
    "Av1.C130_negation",
    "Av1.C130_literal_plain",
    "Av1.C130_literal_wrong",
    "Av1.C130_every_width",
    "Av1.C130_cut_literal",
    "Av1.C130_cut",
    "Av1.C130_rate_iff",
    "Av1.C130_no_default_table",
    "Av1.C130_symbol_iff",
    "Av1.C130_default_alone",
    "Av1.C130_first_symbol_partial",
    "Av1.C130_zeros_partial",
    "Av1.C130_start_partial",
    "Av1.C130_one_bit_partial"
   ],
   "note": "The property is false: intervals are cut without EC_PROB_SHIFT and EC_MIN_PROB and tables adapt with other rates and targets. C130_literal_wrong gives a class of misread literals for every width, C130_every_width a witness for each; C130_cut and C130_rate_iff say exactly how the cut and the rate differ; C130_no_default_table: no built-in table adapts as in AV1 on any symbol. C130_symbol_iff: exactly which symbols are read by AV1 when they stand alone in a session (9470 of the 17345 of the built-in tables, C130_default_alone). What holds: both decoders start alike, a single literal bit is read correctly, and so is every run of first symbols of a table of at most 16 symbols, however long (C130_zeros_partial)."
  },
  {
   "property": "C131",
   "status": "partial",
   "theorems": [
    "Av1.C131_symbol_partial",
    "Av1.C131_search_partial",
    "Av1.C131_half_wrong",
    "Av1.C131_negation",
    "Av1.C131_iff"
   ],
   "note": "`C131_iff` is the exact condition for every square, position and frame; the search is proved under it for every coder and candidate list. Where a frame ends in the middle of a 16x16 square the encoder takes the half of the square for one unit and writes a symbol no decoder expects there, whatever the type."
  },
  {
   "property": "C132",
   "status": "partial",
   "theorems": [
    "Av1.C132_negation",
    "Av1.C132_iff",
    "Av1.C132_segmentation_panics",
    "Av1.C132_again_partial"
   ],
   "note": "False: a secondary CDEF strength of 3 becomes 4 and is written as 0, segmentation features are all switched on and the seventh cannot be written, force_integer_mv becomes 1. C132_iff gives the exact condition for frames without super-resolution; under it C132_again_partial gives any number of repetitions, through payloads. Missing: super-resolution (the width shrinks, C92) and show_existing_frame."
  },
  {
   "property": "C133",
   "status": "proved",
   "theorems": [
    "Av1.C133_learns",
    "Av1.C133_floor",
    "Av1.C133_predictable",
    "Av1.C133_flags",
    "Av1.C133_symbols",
    "Av1.C133_default_size",
    "Av1.C133_default_ready"
   ],
   "note": "C133_default_ready: the initial probability is at least 2 for every symbol of every built-in table except the largest class of motion vector difference, so the bound applies to all others from the start."
  },
  {
   "property": "C134",
   "status": "partial",
   "theorems": [
    "Av1.C134_left_partial",
    "Av1.C134_levels_iff",
    "Av1.C134_tx_mode",
    "Av1.C134_types",
    "Av1.C134_history",
    "Av1.C134_levels_kept",
    "Av1.C134_fresh_wrong",
    "Av1.C134_negation"
   ],
   "note": "Full claim C134_full is refuted: with a new context and no segmentation every segment counts as lossless, gets matrix level 15 and the 4x4 transform mode, whatever the quantizer (obu_encoder.rs 960 returns current_q_index instead of base_q_idx). Proved: right if the context's quantizer is the frame's or every segment has its own; exact condition for the levels; transform mode and restoration types are those the decoder reads, for all headers."
  },
  {
   "property": "C135",
   "status": "partial",
   "theorems": [
    "Av1.C135_units_partial",
    "Av1.C135_iff",
    "Av1.C135_never",
    "Av1.C135_negation"
   ],
   "note": "Full claim C135_full is refuted: the chroma unit sizes are only ever shifted, never set, so after any history of headers they are 0 and every call of encode_lr for a frame with restoration in three planes divides by zero (C135_never). Proved: the luma units are always determined, the chroma units exactly if the size left by earlier frames survives the shift."
  },
  {
   "property": "C136",
   "status": "partial",
   "theorems": [
    "Av1.C136_square_partial",
    "Av1.C136_tile_partial",
    "Av1.C136_first",
    "Av1.C136_search",
    "Av1.C136_same",
    "Av1.C136_code_list",
    "Av1.C136_negation"
   ],
   "note": "Right for every tree whose squares are well placed (C55 gives the exact condition), in particular for the candidates and cost of the code; HORZ_B, VERT_B, VERT_4 and divided 16x16 squares break it."
  },
  {
   "property": "C137",
   "status": "partial",
   "theorems": [
    "Av1.C137_others_partial",
    "Av1.C137_never",
    "Av1.C137_nothing",
    "Av1.C137_tile_never",
    "Av1.C137_blind",
    "Av1.C137_negation"
   ],
   "note": "False: from a new encoder every run with a tile group panics, so what is written never depends on the picture; on a free context each tile panics too. Runs of the other kinds without headers go through."
  },
  {
   "property": "C138",
   "status": "partial",
   "theorems": [
    "Av1.C138_new_partial",
    "Av1.C138_never",
    "Av1.C138_runs",
    "Av1.C138_negation"
   ],
   "note": "False for all new frames: the CDEF parameters of Frame::new make every header panic. With CDEF strengths filled in exactly the new intra-only frames get one."
  },
  {
   "property": "C139",
   "status": "partial",
   "theorems": [
    "Av1.C139_final_partial",
    "Av1.C139_silent",
    "Av1.C139_negation"
   ],
   "note": "Bits that came out are final. There is no bound on the delay: after three calls a session can go on for any number of calls without output."
  },
  {
   "property": "C140",
   "status": "proved",
   "theorems": [
    "Av1.C140_any_input",
    "Av1.C140_interval",
    "Av1.C140_local",
    "Av1.C140_decoder",
    "Av1.C140_blocks"
   ],
   "note": "C140_any_input: success with enough bits, bound on the bits read, legal answers, what the encoder would have written. C140_interval: the exact set of inputs that decode to given values. C140_local: bits not yet taken have no influence. C140_decoder, C140_blocks: decoders whose requests depend on the answers, and the decoder of blocks of C120."
  },
  {
   "property": "C141",
   "status": "proved",
   "theorems": [
    "Av1.C141_canonical",
    "Av1.C141_uvlc",
    "Av1.C141_leb128",
    "Av1.C141_fields",
    "Av1.C141_total"
   ],
   "note": "C141_canonical, C141_fields: codes with one word per value. C141_uvlc, C141_leb128: the exact exceptions. C141_total: enough bits suffice. Fixed-width fields are read with the loop that the other decoders use, since the code has no reader of its own for them."
  },
  {
   "property": "C142",
   "status": "proved",
   "theorems": [
    "Av1.C142_file",
    "Av1.C142_injective"
   ],
   "note": "The reader is told the number of bits of each session, because leaving the decoder does not position the input after it (C48)."
  },
  {
   "property": "C143",
   "status": "partial",
   "theorems": [
    "Av1.C143_values_partial",
    "Av1.C143_iff",
    "Av1.C143_off",
    "Av1.C143_negation",
    "Av1.C143_model",
    "Av1.C143_depth",
    "Av1.C143_inverse",
    "Av1.C143_bounds",
    "Av1.C143_signs",
    "Av1.C143_biggest"
   ],
   "note": "Exactly sixteen names differ: the inter modes are one more than AV1's because UV_CFL_PRED shares their enumeration, SEG_LVL_MAX is 7 instead of 8, the transform sets of inter blocks are numbered from 0. C143_model ties the constants of the other modules of the model to this list."
  },
  {
   "property": "C144",
   "status": "partial",
   "theorems": [
    "Av1.C144_history_partial",
    "Av1.C144_iff",
    "Av1.C144_negation",
    "Av1.C144_tables",
    "Av1.C144_sequence",
    "Av1.C144_decode"
   ],
   "note": "Reading does not depend on the history (C144_decode). A session writes the same bits on every coder except for the zeros at its end, because init_encoder keeps the bit counter; two coders give the same bits iff their counters agree modulo eight (C144_iff). No hypothesis on tables or calls."
  },
  {
   "property": "C145",
   "status": "partial",
   "theorems": [
    "Av1.C145_own_partial",
    "Av1.C145_tx_type_partial",
    "Av1.C145_iff",
    "Av1.C145_negation",
    "Av1.C145_eob_extra",
    "Av1.C145_apart",
    "Av1.C145_others"
   ],
   "note": "Exact condition C145_iff: every element except the partitions of blocks below 128x128, which take the array of another size (C61), and the transform types, which take their own array at the right position but are written with the stored number (C62). eob_extra always takes the first set of coefficient tables (C145_eob_extra). C145_apart and C145_others (no two tables share storage) hold without exception."
  },
  {
   "property": "C146",
   "status": "partial",
   "theorems": [
    "Av1.Cli.C146_meaning_partial",
    "Av1.Cli.C146_exact",
    "Av1.Cli.C146_number",
    "Av1.Cli.C146_help",
    "Av1.Cli.C146_rejected",
    "Av1.Cli.C146_negation"
   ],
   "note": "Exact for all command lines (C146_exact, C146_help, C146_rejected with C26_iff): the only difference to the full claim is that a frame rate N/D ends the command line, so anything behind it is accepted and ignored. C146_number: the numbers."
  },
  {
   "property": "C147",
   "status": "proved",
   "theorems": [
    "Av1.Run.C147_whole_or_empty",
    "Av1.Run.C147_iff",
    "Av1.Run.C147_exact"
   ],
   "note": "The complete stream of a size is stated bit by bit in C36_bytes and C29. Writes to the file are assumed to succeed."
  },
  {
   "property": "C148",
   "status": "proved",
   "theorems": [
    "Av1.C148_sets",
    "Av1.C148_passes",
    "Av1.C148_stronger",
    "Av1.C148_coded",
    "Av1.C148_fits"
   ],
   "note": "Kernel evaluation of the whole table of sets; the 32-bit bound is proved for all samples, the coding for all units and states. No code of the crate applies the filter."
  }
 ]
}