/-!
# The named values of AV1

Values that the AV1 specification gives to its constants (section 3) and to the names of syntax element values, written down from the
specification.  `none`: AV1 has no such name.
-/

namespace Av1.Ref

/-- Names whose values count up. -/
def count : Int → List String → List (String × Option Int)
  | _, [] => []
  | k, n :: l => (n, some k) :: count (k + 1) l

/-- Colour primaries: 3 and 13 to 21 are reserved. -/
def named1 : List (String × Option Int) := count 1 [
    "CP_BT_709", "CP_UNSPECIFIED"]

/-- Colour primaries, continued. -/
def named2 : List (String × Option Int) := count 4 [
    "CP_BT_470_M", "CP_BT_470_B_G", "CP_BT_601", "CP_SMPTE_240", "CP_GENERIC_FILM", "CP_BT_2020", "CP_XYZ",
    "CP_SMPTE_431", "CP_SMPTE_432"]

/-- Colour primaries, continued. -/
def named3 : List (String × Option Int) := count 22 [
    "CP_EBU_3213"]

/-- Transfer characteristics. -/
def named4 : List (String × Option Int) := count 0 [
    "TC_RESERVED_0", "TC_BT_709", "TC_UNSPECIFIED", "TC_RESERVED_3", "TC_BT_470_M", "TC_BT_470_B_G", "TC_BT_601",
    "TC_SMPTE_240", "TC_LINEAR", "TC_LOG_100", "TC_LOG_100_SQRT10", "TC_IEC_61966", "TC_BT_1361", "TC_SRGB",
    "TC_BT_2020_10_BIT", "TC_BT_2020_12_BIT", "TC_SMPTE_2084", "TC_SMPTE_428", "TC_HLG"]

/-- Matrix coefficients. -/
def named5 : List (String × Option Int) := count 0 [
    "MC_IDENTITY", "MC_BT_709", "MC_UNSPECIFIED", "MC_RESERVED_3", "MC_FCC", "MC_BT_470_B_G", "MC_BT_601",
    "MC_SMPTE_240", "MC_SMPTE_YCGCO", "MC_BT_2020_NCL", "MC_BT_2020_CL", "MC_SMPTE_2085", "MC_CHROMAT_NCL",
    "MC_CHROMAT_CL", "MC_ICTCP"]

/-- Chroma sample position. -/
def named6 : List (String × Option Int) := count 0 [
    "CSP_UNKNOWN", "CSP_VERTICAL", "CSP_COLOCATED", "CSP_RESERVED"]

/-- Frame types. -/
def named7 : List (String × Option Int) := count 0 [
    "KEY_FRAME", "INTER_FRAME", "INTRA_ONLY_FRAME", "SWITCH_FRAME"]

/-- Restoration types. -/
def named8 : List (String × Option Int) := count 0 [
    "RESTORE_NONE", "RESTORE_WIENER", "RESTORE_SGRPROJ", "RESTORE_SWITCHABLE"]

/-- Partition types. -/
def named9 : List (String × Option Int) := count 0 [
    "PARTITION_NONE", "PARTITION_HORZ", "PARTITION_VERT", "PARTITION_SPLIT", "PARTITION_HORZ_A", "PARTITION_HORZ_B",
    "PARTITION_VERT_A", "PARTITION_VERT_B", "PARTITION_HORZ_4", "PARTITION_VERT_4"]

/-- Block sizes. -/
def named10 : List (String × Option Int) := count 0 [
    "BLOCK_4X4", "BLOCK_4X8", "BLOCK_8X4", "BLOCK_8X8", "BLOCK_8X16", "BLOCK_16X8", "BLOCK_16X16", "BLOCK_16X32",
    "BLOCK_32X16", "BLOCK_32X32", "BLOCK_32X64", "BLOCK_64X32", "BLOCK_64X64", "BLOCK_64X128", "BLOCK_128X64",
    "BLOCK_128X128", "BLOCK_4X16", "BLOCK_16X4", "BLOCK_8X32", "BLOCK_32X8", "BLOCK_16X64", "BLOCK_64X16",
    "BLOCK_INVALID"]

/-- Intra modes; 13 is UV_CFL_PRED for chroma. -/
def named11 : List (String × Option Int) := count 0 [
    "DC_PRED", "V_PRED", "H_PRED", "D45_PRED", "D135_PRED", "D113_PRED", "D157_PRED", "D203_PRED", "D67_PRED",
    "SMOOTH_PRED", "SMOOTH_V_PRED", "SMOOTH_H_PRED", "PAETH_PRED", "UV_CFL_PRED"]

/-- Inter modes: 13 is NEARESTMV for luma. -/
def named12 : List (String × Option Int) := count 13 [
    "NEARESTMV", "NEARMV", "GLOBALMV", "NEWMV", "NEAREST_NEARESTMV", "NEAR_NEARMV", "NEAREST_NEWMV", "NEW_NEARESTMV",
    "NEAR_NEWMV", "NEW_NEARMV", "GLOBAL_GLOBALMV", "NEW_NEWMV"]

/-- Transform sizes. -/
def named13 : List (String × Option Int) := count 0 [
    "TX_4X4", "TX_8X8", "TX_16X16", "TX_32X32", "TX_64X64", "TX_4X8", "TX_8X4", "TX_8X16", "TX_16X8", "TX_16X32",
    "TX_32X16", "TX_32X64", "TX_64X32", "TX_4X16", "TX_16X4", "TX_8X32", "TX_32X8", "TX_16X64", "TX_64X16"]

/-- Not a name of AV1. -/
def named14 : List (String × Option Int) := [("TX_INVALID", none)]

/-- Transform modes. -/
def named15 : List (String × Option Int) := count 0 [
    "ONLY_4X4", "TX_MODE_LARGEST", "TX_MODE_SELECT"]

/-- Motion vector classes. -/
def named16 : List (String × Option Int) := count 0 [
    "MV_CLASS_0", "MV_CLASS_1", "MV_CLASS_2", "MV_CLASS_3", "MV_CLASS_4", "MV_CLASS_5", "MV_CLASS_6", "MV_CLASS_7",
    "MV_CLASS_8", "MV_CLASS_9", "MV_CLASS_10"]

/-- Signs of chroma from luma. -/
def named17 : List (String × Option Int) := count 0 [
    "CFL_SIGN_ZERO", "CFL_SIGN_NEG", "CFL_SIGN_POS"]

/-- Interpolation filters. -/
def named18 : List (String × Option Int) := count 0 [
    "EIGHTTAP", "EIGHTTAP_SMOOTH", "EIGHTTAP_SHARP", "BILINEAR", "SWITCHABLE"]

/-- Filter intra modes. -/
def named19 : List (String × Option Int) := count 0 [
    "FILTER_DC_PRED", "FILTER_V_PRED", "FILTER_H_PRED", "FILTER_D157_PRED", "FILTER_PAETH_PRED"]

/-- Number of references. -/
def named20 : List (String × Option Int) := count 0 [
    "SINGLE_REFERENCE", "COMPOUND_REFERENCE"]

/-- Compound reference types. -/
def named21 : List (String × Option Int) := count 0 [
    "UNIDIR_COMP_REFERENCE", "BIDIR_COMP_REFERENCE"]

/-- Reference frames. -/
def named22 : List (String × Option Int) := count (-1) [
    "NONE", "INTRA_FRAME", "LAST_FRAME", "LAST2_FRAME", "LAST3_FRAME", "GOLDEN_FRAME", "BWDREF_FRAME",
    "ALTREF2_FRAME", "ALTREF_FRAME"]

/-- Motion modes. -/
def named23 : List (String × Option Int) := count 0 [
    "SIMPLE", "OBMC", "LOCALWARP"]

/-- Inter-intra modes. -/
def named24 : List (String × Option Int) := count 0 [
    "II_DC_PRED", "II_V_PRED", "II_H_PRED", "II_SMOOTH_PRED"]

/-- Compound types. -/
def named25 : List (String × Option Int) := count 0 [
    "COMPOUND_WEDGE", "COMPOUND_DIFFWTD", "COMPOUND_AVERAGE", "COMPOUND_INTRA", "COMPOUND_DISTANCE"]

/-- Mask types. -/
def named26 : List (String × Option Int) := count 0 [
    "UNIFORM_45", "UNIFORM_45_INV"]

/-- Joint types. -/
def named27 : List (String × Option Int) := count 0 [
    "MV_JOINT_ZERO", "MV_JOINT_HNZVZ", "MV_JOINT_HZVNZ", "MV_JOINT_HNZVNZ"]

/-- Section 3. -/
def named28 : List (String × Option Int) := [
    ("REFS_PER_FRAME", some 7), ("TOTAL_REFS_PER_FRAME", some 8), ("BLOCK_SIZE_GROUPS", some 4),
    ("BLOCK_SIZES", some 22), ("MAX_SB_SIZE", some 128), ("MI_SIZE", some 4), ("MI_SIZE_LOG2", some 2),
    ("MAX_TILE_WIDTH", some 4096), ("MAX_TILE_AREA", some (4096 * 2304)), ("MAX_TILE_ROWS", some 64),
    ("MAX_TILE_COLS", some 64), ("INTRABC_DELAY_PIXELS", some 256), ("INTRABC_DELAY_SB64", some 4),
    ("NUM_REF_FRAMES", some 8), ("IS_INTER_CONTEXTS", some 4), ("REF_CONTEXTS", some 3), ("MAX_SEGMENTS", some 8),
    ("SEGMENT_ID_CONTEXTS", some 3), ("SEG_LVL_ALT_Q", some 0), ("SEG_LVL_ALT_LF_Y_V", some 1),
    ("SEG_LVL_REF_FRAME", some 5), ("SEG_LVL_SKIP", some 6), ("SEG_LVL_GLOBALMV", some 7), ("SEG_LVL_MAX", some 8),
    ("PLANE_TYPES", some 2), ("TX_SIZE_CONTEXTS", some 3), ("INTERP_FILTERS", some 3),
    ("INTERP_FILTER_CONTEXTS", some 16), ("SKIP_MODE_CONTEXTS", some 3), ("SKIP_CONTEXTS", some 3),
    ("PARTITION_CONTEXTS", some 4), ("TX_SIZES", some 5), ("TX_SIZES_ALL", some 19), ("TX_MODES", some 3),
    ("TX_TYPES", some 16), ("MB_MODE_COUNT", some 17), ("INTRA_MODES", some 13),
    ("UV_INTRA_MODES_CFL_NOT_ALLOWED", some 13), ("UV_INTRA_MODES_CFL_ALLOWED", some 14), ("COMPOUND_MODES", some 8),
    ("COMPOUND_MODE_CONTEXTS", some 8), ("COMP_NEWMV_CTXS", some 5), ("NEW_MV_CONTEXTS", some 6),
    ("ZERO_MV_CONTEXTS", some 2), ("REF_MV_CONTEXTS", some 6), ("DRL_MODE_CONTEXTS", some 3),
    ("MV_CONTEXTS", some 2), ("MV_INTRABC_CONTEXT", some 1), ("MV_JOINTS", some 4), ("MV_CLASSES", some 11),
    ("CLASS0_SIZE", some 2), ("MV_OFFSET_BITS", some 10), ("MAX_LOOP_FILTER", some 63), ("REF_SCALE_SHIFT", some 14),
    ("SUBPEL_BITS", some 4), ("SUBPEL_MASK", some (2 ^ 4 - 1)), ("SCALE_SUBPEL_BITS", some 10),
    ("MV_BORDER", some 128), ("PALETTE_COLOR_CONTEXTS", some 5), ("PALETTE_MAX_COLOR_CONTEXT_HASH", some 8),
    ("PALETTE_BLOCK_SIZE_CONTEXTS", some 7), ("PALETTE_Y_MODE_CONTEXTS", some 3),
    ("PALETTE_UV_MODE_CONTEXTS", some 2), ("PALETTE_SIZES", some 7), ("PALETTE_COLORS", some 8),
    ("PALETTE_NUM_NEIGHBORS", some 3), ("DELTA_Q_SMALL", some 3), ("DELTA_LF_SMALL", some 3),
    ("QM_TOTAL_SIZE", some 3344), ("MAX_ANGLE_DELTA", some 3), ("DIRECTIONAL_MODES", some 8), ("ANGLE_STEP", some 3),
    ("TX_SET_TYPES_INTRA", some 3), ("TX_SET_TYPES_INTER", some 4), ("WARPEDMODEL_PREC_BITS", some 16),
    ("IDENTITY", some 0), ("TRANSLATION", some 1), ("ROTZOOM", some 2), ("AFFINE", some 3),
    ("GM_ABS_TRANS_BITS", some 12), ("GM_ABS_TRANS_ONLY_BITS", some 9), ("GM_ABS_ALPHA_BITS", some 12),
    ("DIV_LUT_PREC_BITS", some 14), ("DIV_LUT_BITS", some 8), ("DIV_LUT_NUM", some (2 ^ 8 + 1)),
    ("MOTION_MODES", some 3), ("SIMPLE", some 0), ("OBMC", some 1), ("LOCALWARP", some 2),
    ("LEAST_SQUARES_SAMPLES_MAX", some 8), ("LS_MV_MAX", some 256), ("WARPEDMODEL_TRANS_CLAMP", some (2 ^ 23)),
    ("WARPEDMODEL_NONDIAGAFFINE_CLAMP", some (2 ^ 13)), ("WARPEDPIXEL_PREC_SHIFTS", some (2 ^ 6)),
    ("WARPEDDIFF_PREC_BITS", some 10), ("GM_ALPHA_PREC_BITS", some 15), ("GM_TRANS_PREC_BITS", some 6),
    ("GM_TRANS_ONLY_PREC_BITS", some 3), ("INTERINTRA_MODES", some 4), ("MASK_MASTER_SIZE", some 64),
    ("SEGMENT_ID_PREDICTED_CONTEXTS", some 3), ("FWD_REFS", some 4), ("BWD_REFS", some 3), ("SINGLE_REFS", some 7),
    ("UNIDIR_COMP_REFS", some 4), ("COMPOUND_TYPES", some 2), ("CFL_JOINT_SIGNS", some 8),
    ("CFL_ALPHABET_SIZE", some 16), ("COMP_INTER_CONTEXTS", some 5), ("COMP_REF_TYPE_CONTEXTS", some 5),
    ("CFL_ALPHA_CONTEXTS", some 6), ("INTRA_MODE_CONTEXTS", some 5), ("COMP_GROUP_IDX_CONTEXTS", some 6),
    ("COMPOUND_IDX_CONTEXTS", some 6), ("INTRA_EDGE_KERNELS", some 3), ("INTRA_EDGE_TAPS", some 5),
    ("FRAME_LF_COUNT", some 4), ("MAX_VARTX_DEPTH", some 2), ("TXFM_PARTITION_CONTEXTS", some 21),
    ("REF_CAT_LEVEL", some 640), ("MAX_REF_MV_STACK_SIZE", some 8), ("MFMV_STACK_SIZE", some 3),
    ("MAX_TX_DEPTH", some 2), ("WEDGE_TYPES", some 16), ("FILTER_BITS", some 7), ("WIENER_COEFFS", some 3),
    ("SGRPROJ_PARAMS_BITS", some 4), ("SGRPROJ_PRJ_SUBEXP_K", some 4), ("SGRPROJ_PRJ_BITS", some 7),
    ("SGRPROJ_RST_BITS", some 4), ("SGRPROJ_MTABLE_BITS", some 20), ("SGRPROJ_RECIP_BITS", some 12),
    ("SGRPROJ_SGR_BITS", some 8), ("EC_PROB_SHIFT", some 6), ("EC_MIN_PROB", some 4),
    ("SELECT_SCREEN_CONTENT_TOOLS", some 2), ("SELECT_INTEGER_MV", some 2), ("RESTORATION_TILESIZE_MAX", some 256),
    ("MAX_FRAME_DISTANCE", some 31), ("MAX_OFFSET_WIDTH", some 8), ("MAX_OFFSET_HEIGHT", some 0),
    ("WARP_PARAM_REDUCE_BITS", some 6), ("NUM_BASE_LEVELS", some 2), ("COEFF_BASE_RANGE", some 12),
    ("BR_CDF_SIZE", some 4), ("SIG_COEF_CONTEXTS_EOB", some 4), ("SIG_COEF_CONTEXTS_2D", some 26),
    ("SIG_COEF_CONTEXTS", some 42), ("SIG_REF_DIFF_OFFSET_NUM", some 5), ("SUPERRES_NUM", some 8),
    ("SUPERRES_DENOM_MIN", some 9), ("SUPERRES_DENOM_BITS", some 3), ("SUPERRES_FILTER_BITS", some 6),
    ("SUPERRES_FILTER_SHIFTS", some (2 ^ 6)), ("SUPERRES_FILTER_TAPS", some 8), ("SUPERRES_FILTER_OFFSET", some 3),
    ("SUPERRES_SCALE_BITS", some 14), ("SUPERRES_SCALE_MASK", some (2 ^ 14 - 1)),
    ("SUPERRES_EXTRA_BITS", some (14 - 6)), ("TXB_SKIP_CONTEXTS", some 13), ("EOB_COEF_CONTEXTS", some 22),
    ("DC_SIGN_CONTEXTS", some 3), ("LEVEL_CONTEXTS", some 21), ("TX_CLASS_2D", some 0), ("TX_CLASS_HORIZ", some 1),
    ("TX_CLASS_VERT", some 2), ("REFMVS_LIMIT", some (2 ^ 12 - 1)), ("INTRA_FILTER_SCALE_BITS", some 4),
    ("INTRA_FILTER_MODES", some 5), ("COEFF_CDF_Q_CTXS", some 4), ("PRIMARY_REF_NONE", some 7)]

/-- Wedge directions. -/
def named29 : List (String × Option Int) := count 0 [
    "WEDGE_HORIZONTAL", "WEDGE_VERTICAL", "WEDGE_OBLIQUE27", "WEDGE_OBLIQUE63", "WEDGE_OBLIQUE117", "WEDGE_OBLIQUE153"]

/-- Transform sets for intra blocks. -/
def named30 : List (String × Option Int) := count 0 [
    "TX_SET_DCTONLY", "TX_SET_INTRA_1", "TX_SET_INTRA_2"]

/-- Transform sets for inter blocks, after TX_SET_DCTONLY. -/
def named31 : List (String × Option Int) := count 1 [
    "TX_SET_INTER_1", "TX_SET_INTER_2", "TX_SET_INTER_3"]

/-- Transform types. -/
def named32 : List (String × Option Int) := count 0 [
    "DCT_DCT", "ADST_DCT", "DCT_ADST", "ADST_ADST", "FLIPADST_DCT", "DCT_FLIPADST", "FLIPADST_FLIPADST",
    "ADST_FLIPADST", "FLIPADST_ADST", "IDTX", "V_DCT", "H_DCT", "V_ADST", "H_ADST", "V_FLIPADST", "H_FLIPADST"]

/-- All of them. -/
def named : List (String × Option Int) :=
  named1 ++ named2 ++ named3 ++ named4 ++ named5 ++ named6 ++ named7 ++ named8 ++ named9 ++ named10 ++
    named11 ++ named12 ++ named13 ++ named14 ++ named15 ++ named16 ++ named17 ++ named18 ++ named19 ++
    named20 ++ named21 ++ named22 ++ named23 ++ named24 ++ named25 ++ named26 ++ named27 ++ named28 ++
    named29 ++ named30 ++ named31 ++ named32

end Av1.Ref
