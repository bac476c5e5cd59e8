/-! Generated by tools/gen_names.py from src/constants.rs: the scalar constants and the enumerators with their values,
in the order of the file. -/

namespace Av1.K

/-- `enum ColorPrimaries`, constants.rs 15–28 -/
def named1 : List (String × Int) := [
  ("CP_BT_709", 1), ("CP_UNSPECIFIED", 2), ("CP_BT_470_M", 4), ("CP_BT_470_B_G", 5), ("CP_BT_601", 6),
  ("CP_SMPTE_240", 7), ("CP_GENERIC_FILM", 8), ("CP_BT_2020", 9), ("CP_XYZ", 10), ("CP_SMPTE_431", 11),
  ("CP_SMPTE_432", 12), ("CP_EBU_3213", 22)]

/-- `enum TransferCharacteristics`, constants.rs 31–51 -/
def named2 : List (String × Int) := [
  ("TC_RESERVED_0", 0), ("TC_BT_709", 1), ("TC_UNSPECIFIED", 2), ("TC_RESERVED_3", 3), ("TC_BT_470_M", 4),
  ("TC_BT_470_B_G", 5), ("TC_BT_601", 6), ("TC_SMPTE_240", 7), ("TC_LINEAR", 8), ("TC_LOG_100", 9),
  ("TC_LOG_100_SQRT10", 10), ("TC_IEC_61966", 11), ("TC_BT_1361", 12), ("TC_SRGB", 13), ("TC_BT_2020_10_BIT", 14),
  ("TC_BT_2020_12_BIT", 15), ("TC_SMPTE_2084", 16), ("TC_SMPTE_428", 17), ("TC_HLG", 18)]

/-- `enum MatrixCoefficients`, constants.rs 54–70 -/
def named3 : List (String × Int) := [
  ("MC_IDENTITY", 0), ("MC_BT_709", 1), ("MC_UNSPECIFIED", 2), ("MC_RESERVED_3", 3), ("MC_FCC", 4),
  ("MC_BT_470_B_G", 5), ("MC_BT_601", 6), ("MC_SMPTE_240", 7), ("MC_SMPTE_YCGCO", 8), ("MC_BT_2020_NCL", 9),
  ("MC_BT_2020_CL", 10), ("MC_SMPTE_2085", 11), ("MC_CHROMAT_NCL", 12), ("MC_CHROMAT_CL", 13), ("MC_ICTCP", 14)]

/-- `enum ChromaSamplePosition`, constants.rs 73–78 -/
def named4 : List (String × Int) := [
  ("CSP_UNKNOWN", 0), ("CSP_VERTICAL", 1), ("CSP_COLOCATED", 2), ("CSP_RESERVED", 3)]

/-- `enum FrameType`, constants.rs 81–86 -/
def named5 : List (String × Int) := [
  ("KEY_FRAME", 0), ("INTER_FRAME", 1), ("INTRA_ONLY_FRAME", 2), ("SWITCH_FRAME", 3)]

/-- `enum FrameRestorationType`, constants.rs 89–94 -/
def named6 : List (String × Int) := [
  ("RESTORE_NONE", 0), ("RESTORE_WIENER", 1), ("RESTORE_SGRPROJ", 2), ("RESTORE_SWITCHABLE", 3)]

/-- `enum Partition`, constants.rs 97–108 -/
def named7 : List (String × Int) := [
  ("PARTITION_NONE", 0), ("PARTITION_HORZ", 1), ("PARTITION_VERT", 2), ("PARTITION_SPLIT", 3), ("PARTITION_HORZ_A", 4),
  ("PARTITION_HORZ_B", 5), ("PARTITION_VERT_A", 6), ("PARTITION_VERT_B", 7), ("PARTITION_HORZ_4", 8),
  ("PARTITION_VERT_4", 9)]

/-- `enum BlockSize`, constants.rs 111–135 -/
def named8 : List (String × Int) := [
  ("BLOCK_4X4", 0), ("BLOCK_4X8", 1), ("BLOCK_8X4", 2), ("BLOCK_8X8", 3), ("BLOCK_8X16", 4), ("BLOCK_16X8", 5),
  ("BLOCK_16X16", 6), ("BLOCK_16X32", 7), ("BLOCK_32X16", 8), ("BLOCK_32X32", 9), ("BLOCK_32X64", 10),
  ("BLOCK_64X32", 11), ("BLOCK_64X64", 12), ("BLOCK_64X128", 13), ("BLOCK_128X64", 14), ("BLOCK_128X128", 15),
  ("BLOCK_4X16", 16), ("BLOCK_16X4", 17), ("BLOCK_8X32", 18), ("BLOCK_32X8", 19), ("BLOCK_16X64", 20),
  ("BLOCK_64X16", 21), ("BLOCK_INVALID", 22)]

/-- `enum YMode`, constants.rs 139–166 -/
def named9 : List (String × Int) := [
  ("DC_PRED", 0), ("V_PRED", 1), ("H_PRED", 2), ("D45_PRED", 3), ("D135_PRED", 4), ("D113_PRED", 5), ("D157_PRED", 6),
  ("D203_PRED", 7), ("D67_PRED", 8), ("SMOOTH_PRED", 9), ("SMOOTH_V_PRED", 10), ("SMOOTH_H_PRED", 11),
  ("PAETH_PRED", 12), ("UV_CFL_PRED", 13), ("NEARESTMV", 14), ("NEARMV", 15), ("GLOBALMV", 16), ("NEWMV", 17),
  ("NEAREST_NEARESTMV", 18), ("NEAR_NEARMV", 19), ("NEAREST_NEWMV", 20), ("NEW_NEARESTMV", 21), ("NEAR_NEWMV", 22),
  ("NEW_NEARMV", 23), ("GLOBAL_GLOBALMV", 24), ("NEW_NEWMV", 25)]

/-- `enum TxSize`, constants.rs 171–192 -/
def named10 : List (String × Int) := [
  ("TX_4X4", 0), ("TX_8X8", 1), ("TX_16X16", 2), ("TX_32X32", 3), ("TX_64X64", 4), ("TX_4X8", 5), ("TX_8X4", 6),
  ("TX_8X16", 7), ("TX_16X8", 8), ("TX_16X32", 9), ("TX_32X16", 10), ("TX_32X64", 11), ("TX_64X32", 12),
  ("TX_4X16", 13), ("TX_16X4", 14), ("TX_8X32", 15), ("TX_32X8", 16), ("TX_16X64", 17), ("TX_64X16", 18),
  ("TX_INVALID", 19)]

/-- `enum TxMode`, constants.rs 196–200 -/
def named11 : List (String × Int) := [
  ("ONLY_4X4", 0), ("TX_MODE_LARGEST", 1), ("TX_MODE_SELECT", 2)]

/-- `enum MVClass`, constants.rs 204–216 -/
def named12 : List (String × Int) := [
  ("MV_CLASS_0", 0), ("MV_CLASS_1", 1), ("MV_CLASS_2", 2), ("MV_CLASS_3", 3), ("MV_CLASS_4", 4), ("MV_CLASS_5", 5),
  ("MV_CLASS_6", 6), ("MV_CLASS_7", 7), ("MV_CLASS_8", 8), ("MV_CLASS_9", 9), ("MV_CLASS_10", 10)]

/-- `enum SignUV`, constants.rs 219–223 -/
def named13 : List (String × Int) := [
  ("CFL_SIGN_ZERO", 0), ("CFL_SIGN_NEG", 1), ("CFL_SIGN_POS", 2)]

/-- `enum InterpFilter`, constants.rs 237–243 -/
def named14 : List (String × Int) := [
  ("EIGHTTAP", 0), ("EIGHTTAP_SMOOTH", 1), ("EIGHTTAP_SHARP", 2), ("BILINEAR", 3), ("SWITCHABLE", 4)]

/-- `enum FilterIntraMode`, constants.rs 246–252 -/
def named15 : List (String × Int) := [
  ("FILTER_DC_PRED", 0), ("FILTER_V_PRED", 1), ("FILTER_H_PRED", 2), ("FILTER_D157_PRED", 3), ("FILTER_PAETH_PRED", 4)]

/-- `enum CompMode`, constants.rs 255–258 -/
def named16 : List (String × Int) := [
  ("SINGLE_REFERENCE", 0), ("COMPOUND_REFERENCE", 1)]

/-- `enum CompRefType`, constants.rs 261–264 -/
def named17 : List (String × Int) := [
  ("UNIDIR_COMP_REFERENCE", 0), ("BIDIR_COMP_REFERENCE", 1)]

/-- `enum RefFrame`, constants.rs 268–278 -/
def named18 : List (String × Int) := [
  ("NONE", -1), ("INTRA_FRAME", 0), ("LAST_FRAME", 1), ("LAST2_FRAME", 2), ("LAST3_FRAME", 3), ("GOLDEN_FRAME", 4),
  ("BWDREF_FRAME", 5), ("ALTREF2_FRAME", 6), ("ALTREF_FRAME", 7)]

/-- `enum MotionMode`, constants.rs 281–285 -/
def named19 : List (String × Int) := [
  ("SIMPLE", 0), ("OBMC", 1), ("LOCALWARP", 2)]

/-- `enum InterIntraMode`, constants.rs 287–292 -/
def named20 : List (String × Int) := [
  ("II_DC_PRED", 0), ("II_V_PRED", 1), ("II_H_PRED", 2), ("II_SMOOTH_PRED", 3)]

/-- `enum CompoundType`, constants.rs 294–300 -/
def named21 : List (String × Int) := [
  ("COMPOUND_WEDGE", 0), ("COMPOUND_DIFFWTD", 1), ("COMPOUND_AVERAGE", 2), ("COMPOUND_INTRA", 3),
  ("COMPOUND_DISTANCE", 4)]

/-- `enum MaskType`, constants.rs 302–305 -/
def named22 : List (String × Int) := [
  ("UNIFORM_45", 0), ("UNIFORM_45_INV", 1)]

/-- `enum MvJoint`, constants.rs 307–312 -/
def named23 : List (String × Int) := [
  ("MV_JOINT_ZERO", 0), ("MV_JOINT_HNZVZ", 1), ("MV_JOINT_HZVNZ", 2), ("MV_JOINT_HNZVNZ", 3)]

/-- Scalar constants, constants.rs 314–485 -/
def named24 : List (String × Int) := [
  ("REFS_PER_FRAME", 7), ("TOTAL_REFS_PER_FRAME", 8), ("BLOCK_SIZE_GROUPS", 4), ("BLOCK_SIZES", 22),
  ("MAX_SB_SIZE", 128), ("MI_SIZE", 4), ("MI_SIZE_LOG2", 2), ("MAX_TILE_WIDTH", 4096), ("MAX_TILE_AREA", 9437184),
  ("MAX_TILE_ROWS", 64), ("MAX_TILE_COLS", 64), ("INTRABC_DELAY_PIXELS", 256), ("INTRABC_DELAY_SB64", 4),
  ("NUM_REF_FRAMES", 8), ("IS_INTER_CONTEXTS", 4), ("REF_CONTEXTS", 3), ("MAX_SEGMENTS", 8),
  ("SEGMENT_ID_CONTEXTS", 3), ("SEG_LVL_ALT_Q", 0), ("SEG_LVL_ALT_LF_Y_V", 1), ("SEG_LVL_REF_FRAME", 5),
  ("SEG_LVL_SKIP", 6), ("SEG_LVL_GLOBALMV", 7), ("SEG_LVL_MAX", 7), ("PLANE_TYPES", 2), ("TX_SIZE_CONTEXTS", 3),
  ("INTERP_FILTERS", 3), ("INTERP_FILTER_CONTEXTS", 16), ("SKIP_MODE_CONTEXTS", 3), ("SKIP_CONTEXTS", 3),
  ("PARTITION_CONTEXTS", 4), ("TX_SIZES", 5), ("TX_SIZES_ALL", 19), ("TX_MODES", 3), ("TX_TYPES", 16),
  ("MB_MODE_COUNT", 17), ("INTRA_MODES", 13), ("UV_INTRA_MODES_CFL_NOT_ALLOWED", 13),
  ("UV_INTRA_MODES_CFL_ALLOWED", 14), ("COMPOUND_MODES", 8), ("COMPOUND_MODE_CONTEXTS", 8), ("COMP_NEWMV_CTXS", 5),
  ("NEW_MV_CONTEXTS", 6), ("ZERO_MV_CONTEXTS", 2), ("REF_MV_CONTEXTS", 6), ("DRL_MODE_CONTEXTS", 3),
  ("MV_CONTEXTS", 2), ("MV_INTRABC_CONTEXT", 1), ("MV_JOINTS", 4), ("MV_CLASSES", 11), ("CLASS0_SIZE", 2),
  ("MV_OFFSET_BITS", 10), ("MAX_LOOP_FILTER", 63), ("REF_SCALE_SHIFT", 14), ("SUBPEL_BITS", 4), ("SUBPEL_MASK", 15),
  ("SCALE_SUBPEL_BITS", 10), ("MV_BORDER", 128), ("PALETTE_COLOR_CONTEXTS", 5), ("PALETTE_MAX_COLOR_CONTEXT_HASH", 8),
  ("PALETTE_BLOCK_SIZE_CONTEXTS", 7), ("PALETTE_Y_MODE_CONTEXTS", 3), ("PALETTE_UV_MODE_CONTEXTS", 2),
  ("PALETTE_SIZES", 7), ("PALETTE_COLORS", 8), ("PALETTE_NUM_NEIGHBORS", 3), ("DELTA_Q_SMALL", 3),
  ("DELTA_LF_SMALL", 3), ("QM_TOTAL_SIZE", 3344), ("MAX_ANGLE_DELTA", 3), ("DIRECTIONAL_MODES", 8), ("ANGLE_STEP", 3),
  ("TX_SET_TYPES_INTRA", 3), ("TX_SET_TYPES_INTER", 4), ("WARPEDMODEL_PREC_BITS", 16), ("IDENTITY", 0),
  ("TRANSLATION", 1), ("ROTZOOM", 2), ("AFFINE", 3), ("GM_ABS_TRANS_BITS", 12), ("GM_ABS_TRANS_ONLY_BITS", 9),
  ("GM_ABS_ALPHA_BITS", 12), ("DIV_LUT_PREC_BITS", 14), ("DIV_LUT_BITS", 8), ("DIV_LUT_NUM", 257), ("MOTION_MODES", 3),
  ("SIMPLE", 0), ("OBMC", 1), ("LOCALWARP", 2), ("LEAST_SQUARES_SAMPLES_MAX", 8), ("LS_MV_MAX", 256),
  ("WARPEDMODEL_TRANS_CLAMP", 8388608), ("WARPEDMODEL_NONDIAGAFFINE_CLAMP", 8192), ("WARPEDPIXEL_PREC_SHIFTS", 64),
  ("WARPEDDIFF_PREC_BITS", 10), ("GM_ALPHA_PREC_BITS", 15), ("GM_TRANS_PREC_BITS", 6), ("GM_TRANS_ONLY_PREC_BITS", 3),
  ("INTERINTRA_MODES", 4), ("MASK_MASTER_SIZE", 64), ("SEGMENT_ID_PREDICTED_CONTEXTS", 3), ("FWD_REFS", 4),
  ("BWD_REFS", 3), ("SINGLE_REFS", 7), ("UNIDIR_COMP_REFS", 4), ("COMPOUND_TYPES", 2), ("CFL_JOINT_SIGNS", 8),
  ("CFL_ALPHABET_SIZE", 16), ("COMP_INTER_CONTEXTS", 5), ("COMP_REF_TYPE_CONTEXTS", 5), ("CFL_ALPHA_CONTEXTS", 6),
  ("INTRA_MODE_CONTEXTS", 5), ("COMP_GROUP_IDX_CONTEXTS", 6), ("COMPOUND_IDX_CONTEXTS", 6), ("INTRA_EDGE_KERNELS", 3),
  ("INTRA_EDGE_TAPS", 5), ("FRAME_LF_COUNT", 4), ("MAX_VARTX_DEPTH", 2), ("TXFM_PARTITION_CONTEXTS", 21),
  ("REF_CAT_LEVEL", 640), ("MAX_REF_MV_STACK_SIZE", 8), ("MFMV_STACK_SIZE", 3), ("MAX_TX_DEPTH", 2),
  ("WEDGE_TYPES", 16), ("FILTER_BITS", 7), ("WIENER_COEFFS", 3), ("SGRPROJ_PARAMS_BITS", 4),
  ("SGRPROJ_PRJ_SUBEXP_K", 4), ("SGRPROJ_PRJ_BITS", 7), ("SGRPROJ_RST_BITS", 4), ("SGRPROJ_MTABLE_BITS", 20),
  ("SGRPROJ_RECIP_BITS", 12), ("SGRPROJ_SGR_BITS", 8), ("EC_PROB_SHIFT", 6), ("EC_MIN_PROB", 4),
  ("SELECT_SCREEN_CONTENT_TOOLS", 2), ("SELECT_INTEGER_MV", 2), ("RESTORATION_TILESIZE_MAX", 256),
  ("MAX_FRAME_DISTANCE", 31), ("MAX_OFFSET_WIDTH", 8), ("MAX_OFFSET_HEIGHT", 0), ("WARP_PARAM_REDUCE_BITS", 6),
  ("NUM_BASE_LEVELS", 2), ("COEFF_BASE_RANGE", 12), ("BR_CDF_SIZE", 4), ("SIG_COEF_CONTEXTS_EOB", 4),
  ("SIG_COEF_CONTEXTS_2D", 26), ("SIG_COEF_CONTEXTS", 42), ("SIG_REF_DIFF_OFFSET_NUM", 5), ("SUPERRES_NUM", 8),
  ("SUPERRES_DENOM_MIN", 9), ("SUPERRES_DENOM_BITS", 3), ("SUPERRES_FILTER_BITS", 6), ("SUPERRES_FILTER_SHIFTS", 64),
  ("SUPERRES_FILTER_TAPS", 8), ("SUPERRES_FILTER_OFFSET", 3), ("SUPERRES_SCALE_BITS", 14),
  ("SUPERRES_SCALE_MASK", 16383), ("SUPERRES_EXTRA_BITS", 8), ("TXB_SKIP_CONTEXTS", 13), ("EOB_COEF_CONTEXTS", 22),
  ("DC_SIGN_CONTEXTS", 3), ("LEVEL_CONTEXTS", 21), ("TX_CLASS_2D", 0), ("TX_CLASS_HORIZ", 1), ("TX_CLASS_VERT", 2),
  ("REFMVS_LIMIT", 4095), ("INTRA_FILTER_SCALE_BITS", 4), ("INTRA_FILTER_MODES", 5), ("COEFF_CDF_Q_CTXS", 4),
  ("PRIMARY_REF_NONE", 7)]

/-- `enum WedgeDirection`, constants.rs 894–901 -/
def named25 : List (String × Int) := [
  ("WEDGE_HORIZONTAL", 0), ("WEDGE_VERTICAL", 1), ("WEDGE_OBLIQUE27", 2), ("WEDGE_OBLIQUE63", 3),
  ("WEDGE_OBLIQUE117", 4), ("WEDGE_OBLIQUE153", 5)]

/-- Scalar constants, constants.rs 1259–1264 -/
def named26 : List (String × Int) := [
  ("TX_SET_DCTONLY", 0), ("TX_SET_INTRA_1", 1), ("TX_SET_INTRA_2", 2), ("TX_SET_INTER_1", 0), ("TX_SET_INTER_2", 1),
  ("TX_SET_INTER_3", 2)]

/-- `enum TxType`, constants.rs 1267–1284 -/
def named27 : List (String × Int) := [
  ("DCT_DCT", 0), ("ADST_DCT", 1), ("DCT_ADST", 2), ("ADST_ADST", 3), ("FLIPADST_DCT", 4), ("DCT_FLIPADST", 5),
  ("FLIPADST_FLIPADST", 6), ("ADST_FLIPADST", 7), ("FLIPADST_ADST", 8), ("IDTX", 9), ("V_DCT", 10), ("H_DCT", 11),
  ("V_ADST", 12), ("H_ADST", 13), ("V_FLIPADST", 14), ("H_FLIPADST", 15)]

/-- All named values of constants.rs. -/
def named : List (String × Int) :=
  named1 ++ named2 ++ named3 ++ named4 ++ named5 ++ named6 ++ named7 ++ named8 ++ named9 ++ named10 ++
    named11 ++ named12 ++ named13 ++ named14 ++ named15 ++ named16 ++ named17 ++ named18 ++ named19 ++
    named20 ++ named21 ++ named22 ++ named23 ++ named24 ++ named25 ++ named26 ++ named27

/-- `cfl_alpha_signs`, constants.rs 225–234 -/
def cfl_alpha_signs : List (Nat × Nat) := [(0, 1), (0, 2), (1, 0), (1, 1), (1, 2), (2, 0), (2, 1), (2, 2)]

/-- `tx_mode_to_biggest_tx_size`, constants.rs 1049–1053 -/
def tx_mode_to_biggest_tx_size : List Nat := [0, 4, 4]

end Av1.K
