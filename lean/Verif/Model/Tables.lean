/-! Generated by tools/gen_tables.py from src/constants.rs: constants, enumerators (as their discriminants) and
lookup tables. A table access goes through `[i]?`, so that an index outside the table is visible. -/

namespace Av1.K

/-- constants.rs 314 -/
def REFS_PER_FRAME : Nat := 7
/-- constants.rs 317 -/
def BLOCK_SIZES : Nat := 22
/-- constants.rs 320 -/
def MI_SIZE : Nat := 4
/-- constants.rs 328 -/
def NUM_REF_FRAMES : Nat := 8
/-- constants.rs 331 -/
def MAX_SEGMENTS : Nat := 8
/-- constants.rs 333 -/
def SEG_LVL_ALT_Q : Nat := 0
/-- constants.rs 335 -/
def SEG_LVL_REF_FRAME : Nat := 5
/-- constants.rs 336 -/
def SEG_LVL_SKIP : Nat := 6
/-- constants.rs 337 -/
def SEG_LVL_GLOBALMV : Nat := 7
/-- constants.rs 338 -/
def SEG_LVL_MAX : Nat := 7
/-- constants.rs 346 -/
def TX_SIZES : Nat := 5
/-- constants.rs 347 -/
def TX_SIZES_ALL : Nat := 19
/-- constants.rs 322 -/
def MAX_TILE_WIDTH : Nat := 4096
/-- constants.rs 323 -/
def MAX_TILE_AREA : Nat := 9437184
/-- constants.rs 324 -/
def MAX_TILE_ROWS : Nat := 64
/-- constants.rs 325 -/
def MAX_TILE_COLS : Nat := 64
/-- constants.rs 356 -/
def COMP_NEWMV_CTXS : Nat := 5
/-- constants.rs 362 -/
def MV_INTRABC_CONTEXT : Nat := 1
/-- constants.rs 365 -/
def CLASS0_SIZE : Nat := 2
/-- constants.rs 389 -/
def WARPEDMODEL_PREC_BITS : Nat := 16
/-- constants.rs 390 -/
def IDENTITY : Nat := 0
/-- constants.rs 391 -/
def TRANSLATION : Nat := 1
/-- constants.rs 392 -/
def ROTZOOM : Nat := 2
/-- constants.rs 393 -/
def AFFINE : Nat := 3
/-- constants.rs 394 -/
def GM_ABS_TRANS_BITS : Nat := 12
/-- constants.rs 395 -/
def GM_ABS_TRANS_ONLY_BITS : Nat := 9
/-- constants.rs 396 -/
def GM_ABS_ALPHA_BITS : Nat := 12
/-- constants.rs 410 -/
def GM_ALPHA_PREC_BITS : Nat := 15
/-- constants.rs 411 -/
def GM_TRANS_PREC_BITS : Nat := 6
/-- constants.rs 412 -/
def GM_TRANS_ONLY_PREC_BITS : Nat := 3
/-- constants.rs 434 -/
def REF_CAT_LEVEL : Nat := 640
/-- constants.rs 435 -/
def MAX_REF_MV_STACK_SIZE : Nat := 8
/-- constants.rs 381 -/
def DELTA_Q_SMALL : Nat := 3
/-- constants.rs 382 -/
def DELTA_LF_SMALL : Nat := 3
/-- constants.rs 441 -/
def SGRPROJ_PARAMS_BITS : Nat := 4
/-- constants.rs 442 -/
def SGRPROJ_PRJ_SUBEXP_K : Nat := 4
/-- constants.rs 450 -/
def SELECT_SCREEN_CONTENT_TOOLS : Nat := 2
/-- constants.rs 451 -/
def SELECT_INTEGER_MV : Nat := 2
/-- constants.rs 452 -/
def RESTORATION_TILESIZE_MAX : Nat := 256
/-- constants.rs 457 -/
def NUM_BASE_LEVELS : Nat := 2
/-- constants.rs 458 -/
def COEFF_BASE_RANGE : Nat := 12
/-- constants.rs 460 -/
def SIG_COEF_CONTEXTS_EOB : Nat := 4
/-- constants.rs 461 -/
def SIG_COEF_CONTEXTS_2D : Nat := 26
/-- constants.rs 462 -/
def SIG_COEF_CONTEXTS : Nat := 42
/-- constants.rs 463 -/
def SIG_REF_DIFF_OFFSET_NUM : Nat := 5
/-- constants.rs 464 -/
def SUPERRES_NUM : Nat := 8
/-- constants.rs 465 -/
def SUPERRES_DENOM_MIN : Nat := 9
/-- constants.rs 466 -/
def SUPERRES_DENOM_BITS : Nat := 3
/-- constants.rs 478 -/
def TX_CLASS_2D : Nat := 0
/-- constants.rs 479 -/
def TX_CLASS_HORIZ : Nat := 1
/-- constants.rs 480 -/
def TX_CLASS_VERT : Nat := 2
/-- constants.rs 485 -/
def PRIMARY_REF_NONE : Nat := 7
/-- constants.rs 367 -/
def MAX_LOOP_FILTER : Nat := 63
/-- constants.rs 431 -/
def FRAME_LF_COUNT : Nat := 4
/-- constants.rs 440 -/
def WIENER_COEFFS : Nat := 3
/-- constants.rs 326 -/
def INTRABC_DELAY_PIXELS : Nat := 256
/-- constants.rs 1259 -/
def TX_SET_DCTONLY : Nat := 0
/-- constants.rs 1260 -/
def TX_SET_INTRA_1 : Nat := 1
/-- constants.rs 1261 -/
def TX_SET_INTRA_2 : Nat := 2
/-- constants.rs 1262 -/
def TX_SET_INTER_1 : Nat := 0
/-- constants.rs 1263 -/
def TX_SET_INTER_2 : Nat := 1
/-- constants.rs 1264 -/
def TX_SET_INTER_3 : Nat := 2

/-! `enum FrameType`, constants.rs 81–86 -/
def KEY_FRAME : Nat := 0
def INTER_FRAME : Nat := 1
def INTRA_ONLY_FRAME : Nat := 2
def SWITCH_FRAME : Nat := 3

/-! `enum FrameRestorationType`, constants.rs 89–94 -/
def RESTORE_NONE : Nat := 0
def RESTORE_WIENER : Nat := 1
def RESTORE_SGRPROJ : Nat := 2
def RESTORE_SWITCHABLE : Nat := 3

/-! `enum Partition`, constants.rs 97–108 -/
def PARTITION_NONE : Nat := 0
def PARTITION_HORZ : Nat := 1
def PARTITION_VERT : Nat := 2
def PARTITION_SPLIT : Nat := 3
def PARTITION_HORZ_A : Nat := 4
def PARTITION_HORZ_B : Nat := 5
def PARTITION_VERT_A : Nat := 6
def PARTITION_VERT_B : Nat := 7
def PARTITION_HORZ_4 : Nat := 8
def PARTITION_VERT_4 : Nat := 9

/-! `enum BlockSize`, constants.rs 111–135 -/
def BLOCK_4X4 : Nat := 0
def BLOCK_4X8 : Nat := 1
def BLOCK_8X4 : Nat := 2
def BLOCK_8X8 : Nat := 3
def BLOCK_8X16 : Nat := 4
def BLOCK_16X8 : Nat := 5
def BLOCK_16X16 : Nat := 6
def BLOCK_16X32 : Nat := 7
def BLOCK_32X16 : Nat := 8
def BLOCK_32X32 : Nat := 9
def BLOCK_32X64 : Nat := 10
def BLOCK_64X32 : Nat := 11
def BLOCK_64X64 : Nat := 12
def BLOCK_64X128 : Nat := 13
def BLOCK_128X64 : Nat := 14
def BLOCK_128X128 : Nat := 15
def BLOCK_4X16 : Nat := 16
def BLOCK_16X4 : Nat := 17
def BLOCK_8X32 : Nat := 18
def BLOCK_32X8 : Nat := 19
def BLOCK_16X64 : Nat := 20
def BLOCK_64X16 : Nat := 21
def BLOCK_INVALID : Nat := 22

/-! `enum YMode`, constants.rs 139–166 -/
def DC_PRED : Nat := 0
def V_PRED : Nat := 1
def H_PRED : Nat := 2
def D45_PRED : Nat := 3
def D135_PRED : Nat := 4
def D113_PRED : Nat := 5
def D157_PRED : Nat := 6
def D203_PRED : Nat := 7
def D67_PRED : Nat := 8
def SMOOTH_PRED : Nat := 9
def SMOOTH_V_PRED : Nat := 10
def SMOOTH_H_PRED : Nat := 11
def PAETH_PRED : Nat := 12
def UV_CFL_PRED : Nat := 13
def NEARESTMV : Nat := 14
def NEARMV : Nat := 15
def GLOBALMV : Nat := 16
def NEWMV : Nat := 17
def NEAREST_NEARESTMV : Nat := 18
def NEAR_NEARMV : Nat := 19
def NEAREST_NEWMV : Nat := 20
def NEW_NEARESTMV : Nat := 21
def NEAR_NEWMV : Nat := 22
def NEW_NEARMV : Nat := 23
def GLOBAL_GLOBALMV : Nat := 24
def NEW_NEWMV : Nat := 25

/-! `enum TxSize`, constants.rs 171–192 -/
def TX_4X4 : Nat := 0
def TX_8X8 : Nat := 1
def TX_16X16 : Nat := 2
def TX_32X32 : Nat := 3
def TX_64X64 : Nat := 4
def TX_4X8 : Nat := 5
def TX_8X4 : Nat := 6
def TX_8X16 : Nat := 7
def TX_16X8 : Nat := 8
def TX_16X32 : Nat := 9
def TX_32X16 : Nat := 10
def TX_32X64 : Nat := 11
def TX_64X32 : Nat := 12
def TX_4X16 : Nat := 13
def TX_16X4 : Nat := 14
def TX_8X32 : Nat := 15
def TX_32X8 : Nat := 16
def TX_16X64 : Nat := 17
def TX_64X16 : Nat := 18
def TX_INVALID : Nat := 19

/-! `enum TxMode`, constants.rs 196–200 -/
def ONLY_4X4 : Nat := 0
def TX_MODE_LARGEST : Nat := 1
def TX_MODE_SELECT : Nat := 2

/-! `enum MVClass`, constants.rs 204–216 -/
def MV_CLASS_0 : Nat := 0
def MV_CLASS_1 : Nat := 1
def MV_CLASS_2 : Nat := 2
def MV_CLASS_3 : Nat := 3
def MV_CLASS_4 : Nat := 4
def MV_CLASS_5 : Nat := 5
def MV_CLASS_6 : Nat := 6
def MV_CLASS_7 : Nat := 7
def MV_CLASS_8 : Nat := 8
def MV_CLASS_9 : Nat := 9
def MV_CLASS_10 : Nat := 10

/-! `enum InterpFilter`, constants.rs 237–243 -/
def EIGHTTAP : Nat := 0
def EIGHTTAP_SMOOTH : Nat := 1
def EIGHTTAP_SHARP : Nat := 2
def BILINEAR : Nat := 3
def SWITCHABLE : Nat := 4

/-! `enum CompMode`, constants.rs 255–258 -/
def SINGLE_REFERENCE : Nat := 0
def COMPOUND_REFERENCE : Nat := 1

/-! `enum CompRefType`, constants.rs 261–264 -/
def UNIDIR_COMP_REFERENCE : Nat := 0
def BIDIR_COMP_REFERENCE : Nat := 1

/-! `enum RefFrame`, constants.rs 268–278 -/
def NONE : Int := -1
def INTRA_FRAME : Int := 0
def LAST_FRAME : Int := 1
def LAST2_FRAME : Int := 2
def LAST3_FRAME : Int := 3
def GOLDEN_FRAME : Int := 4
def BWDREF_FRAME : Int := 5
def ALTREF2_FRAME : Int := 6
def ALTREF_FRAME : Int := 7

/-! `enum MvJoint`, constants.rs 307–312 -/
def MV_JOINT_ZERO : Nat := 0
def MV_JOINT_HNZVZ : Nat := 1
def MV_JOINT_HZVNZ : Nat := 2
def MV_JOINT_HNZVNZ : Nat := 3

/-! `enum TxType`, constants.rs 1267–1284 -/
def DCT_DCT : Nat := 0
def ADST_DCT : Nat := 1
def DCT_ADST : Nat := 2
def ADST_ADST : Nat := 3
def FLIPADST_DCT : Nat := 4
def DCT_FLIPADST : Nat := 5
def FLIPADST_FLIPADST : Nat := 6
def ADST_FLIPADST : Nat := 7
def FLIPADST_ADST : Nat := 8
def IDTX : Nat := 9
def V_DCT : Nat := 10
def H_DCT : Nat := 11
def V_ADST : Nat := 12
def H_ADST : Nat := 13
def V_FLIPADST : Nat := 14
def H_FLIPADST : Nat := 15

/-- `coeff_base_ctx_offset`, constants.rs 487–621 -/
def coeff_base_ctx_offset : List (List (List Nat)) := [
  [
    [0, 1, 6, 6, 0],
    [1, 6, 6, 21, 0],
    [6, 6, 21, 21, 0],
    [6, 21, 21, 21, 0],
    [0, 0, 0, 0, 0]],
  [
    [0, 1, 6, 6, 21],
    [1, 6, 6, 21, 21],
    [6, 6, 21, 21, 21],
    [6, 21, 21, 21, 21],
    [21, 21, 21, 21, 21]],
  [
    [0, 1, 6, 6, 21],
    [1, 6, 6, 21, 21],
    [6, 6, 21, 21, 21],
    [6, 21, 21, 21, 21],
    [21, 21, 21, 21, 21]],
  [
    [0, 1, 6, 6, 21],
    [1, 6, 6, 21, 21],
    [6, 6, 21, 21, 21],
    [6, 21, 21, 21, 21],
    [21, 21, 21, 21, 21]],
  [
    [0, 1, 6, 6, 21],
    [1, 6, 6, 21, 21],
    [6, 6, 21, 21, 21],
    [6, 21, 21, 21, 21],
    [21, 21, 21, 21, 21]],
  [
    [0, 11, 11, 11, 0],
    [11, 11, 11, 11, 0],
    [6, 6, 21, 21, 0],
    [6, 21, 21, 21, 0],
    [21, 21, 21, 21, 0]],
  [
    [0, 16, 6, 6, 21],
    [16, 16, 6, 21, 21],
    [16, 16, 21, 21, 21],
    [16, 16, 21, 21, 21],
    [0, 0, 0, 0, 0]],
  [
    [0, 11, 11, 11, 11],
    [11, 11, 11, 11, 11],
    [6, 6, 21, 21, 21],
    [6, 21, 21, 21, 21],
    [21, 21, 21, 21, 21]],
  [
    [0, 16, 6, 6, 21],
    [16, 16, 6, 21, 21],
    [16, 16, 21, 21, 21],
    [16, 16, 21, 21, 21],
    [16, 16, 21, 21, 21]],
  [
    [0, 11, 11, 11, 11],
    [11, 11, 11, 11, 11],
    [6, 6, 21, 21, 21],
    [6, 21, 21, 21, 21],
    [21, 21, 21, 21, 21]],
  [
    [0, 16, 6, 6, 21],
    [16, 16, 6, 21, 21],
    [16, 16, 21, 21, 21],
    [16, 16, 21, 21, 21],
    [16, 16, 21, 21, 21]],
  [
    [0, 11, 11, 11, 11],
    [11, 11, 11, 11, 11],
    [6, 6, 21, 21, 21],
    [6, 21, 21, 21, 21],
    [21, 21, 21, 21, 21]],
  [
    [0, 16, 6, 6, 21],
    [16, 16, 6, 21, 21],
    [16, 16, 21, 21, 21],
    [16, 16, 21, 21, 21],
    [16, 16, 21, 21, 21]],
  [
    [0, 11, 11, 11, 0],
    [11, 11, 11, 11, 0],
    [6, 6, 21, 21, 0],
    [6, 21, 21, 21, 0],
    [21, 21, 21, 21, 0]],
  [
    [0, 16, 6, 6, 21],
    [16, 16, 6, 21, 21],
    [16, 16, 21, 21, 21],
    [16, 16, 21, 21, 21],
    [0, 0, 0, 0, 0]],
  [
    [0, 11, 11, 11, 11],
    [11, 11, 11, 11, 11],
    [6, 6, 21, 21, 21],
    [6, 21, 21, 21, 21],
    [21, 21, 21, 21, 21]],
  [
    [0, 16, 6, 6, 21],
    [16, 16, 6, 21, 21],
    [16, 16, 21, 21, 21],
    [16, 16, 21, 21, 21],
    [16, 16, 21, 21, 21]],
  [
    [0, 11, 11, 11, 11],
    [11, 11, 11, 11, 11],
    [6, 6, 21, 21, 21],
    [6, 21, 21, 21, 21],
    [21, 21, 21, 21, 21]],
  [
    [0, 16, 6, 6, 21],
    [16, 16, 6, 21, 21],
    [16, 16, 21, 21, 21],
    [16, 16, 21, 21, 21],
    [16, 16, 21, 21, 21]]]

/-- `coeff_base_pos_ctx_offset`, constants.rs 623–627 -/
def coeff_base_pos_ctx_offset : List Nat := [26, 31, 36]

/-- `sgr_params`, constants.rs 1002–1007 -/
def sgr_params : List (List Nat) := [
  [2, 12, 1, 4],
  [2, 15, 1, 6],
  [2, 18, 1, 8],
  [2, 21, 1, 9],
  [2, 24, 1, 10],
  [2, 29, 1, 11],
  [2, 36, 1, 12],
  [2, 45, 1, 13],
  [2, 56, 1, 14],
  [2, 68, 1, 15],
  [0, 0, 1, 5],
  [0, 0, 1, 8],
  [0, 0, 1, 11],
  [0, 0, 1, 14],
  [2, 30, 0, 0],
  [2, 75, 0, 0]]

/-- `sgrproj_xqd_min`, constants.rs 1009–1011 -/
def sgrproj_xqd_min : List Int := [-96, -32]

/-- `sgrproj_xqd_max`, constants.rs 1013–1015 -/
def sgrproj_xqd_max : List Int := [31, 95]

/-- `segmentation_feature_bits`, constants.rs 1018–1020 -/
def segmentation_feature_bits : List Nat := [8, 6, 6, 6, 6, 3, 0, 0]

/-- `segmentation_feature_signed`, constants.rs 1022–1024 -/
def segmentation_feature_signed : List Bool := [true, true, true, true, true, false, false, false]

/-- `segmentation_feature_max`, constants.rs 1026–1028 -/
def segmentation_feature_max : List Nat := [255, 63, 63, 63, 63, 7, 0, 0]

/-- `remap_lr_type`, constants.rs 1030–1035 -/
def remap_lr_type : List Nat := [0, 3, 1, 2]

/-- `wiener_taps_mid`, constants.rs 1037–1037 -/
def wiener_taps_mid : List Int := [3, -7, 15]

/-- `sgrproj_xqd_mid`, constants.rs 1038–1038 -/
def sgrproj_xqd_mid : List Int := [-32, 31]

/-- `max_tx_depth`, constants.rs 1040–1047 -/
def max_tx_depth : List Nat := [0, 1, 1, 1, 2, 2, 2, 3, 3, 3, 4, 4, 4, 4, 4, 4, 2, 2, 3, 3, 4, 4]

/-- `subsampled_size`, constants.rs 1055–1078 -/
def subsampled_size : List (List (List Nat)) := [
  [
    [0, 0],
    [0, 0]],
  [
    [1, 0],
    [22, 0]],
  [
    [2, 22],
    [0, 0]],
  [
    [3, 2],
    [1, 0]],
  [
    [4, 3],
    [22, 1]],
  [
    [5, 22],
    [3, 2]],
  [
    [6, 5],
    [4, 3]],
  [
    [7, 6],
    [22, 4]],
  [
    [8, 22],
    [6, 5]],
  [
    [9, 8],
    [7, 6]],
  [
    [10, 9],
    [22, 7]],
  [
    [11, 22],
    [9, 8]],
  [
    [12, 11],
    [10, 9]],
  [
    [13, 12],
    [22, 10]],
  [
    [14, 22],
    [12, 11]],
  [
    [15, 14],
    [13, 12]],
  [
    [16, 1],
    [22, 1]],
  [
    [17, 22],
    [2, 2]],
  [
    [18, 4],
    [22, 16]],
  [
    [19, 22],
    [5, 17]],
  [
    [20, 7],
    [22, 18]],
  [
    [21, 22],
    [8, 19]]]

/-- `tx_type_in_set_intra`, constants.rs 1080–1090 -/
def tx_type_in_set_intra : List (List Bool) := [
  [true, false, false, false, false, false, false, false, false, false, false, false, false, false, false, false],
  [true, true, true, true, false, false, false, false, false, true, true, true, false, false, false, false],
  [true, true, true, true, false, false, false, false, false, true, false, false, false, false, false, false]]

/-- `tx_type_in_set_inter`, constants.rs 1092–1105 -/
def tx_type_in_set_inter : List (List Bool) := [
  [true, false, false, false, false, false, false, false, false, false, false, false, false, false, false, false],
  [true, true, true, true, true, true, true, true, true, true, true, true, true, true, true, true],
  [true, true, true, true, true, true, true, true, true, true, true, true, false, false, false, false],
  [true, false, false, false, false, false, false, false, false, true, false, false, false, false, false, false]]

/-- `tx_type_intra_inv_set1`, constants.rs 1107–1109 -/
def tx_type_intra_inv_set1 : List Nat := [9, 0, 10, 11, 3, 1, 2]

/-- `tx_type_intra_inv_set2`, constants.rs 1111–1113 -/
def tx_type_intra_inv_set2 : List Nat := [9, 0, 3, 1, 2]

/-- `tx_type_inter_inv_set1`, constants.rs 1115–1119 -/
def tx_type_inter_inv_set1 : List Nat := [9, 10, 11, 12, 13, 14, 15, 0, 1, 2, 4, 5, 3, 6, 7, 8]

/-- `tx_type_inter_inv_set12`, constants.rs 1121–1125 -/
def tx_type_inter_inv_set12 : List Nat := [9, 10, 11, 0, 1, 2, 4, 5, 3, 6, 7, 8]

/-- `tx_type_inter_inv_set3`, constants.rs 1127–1129 -/
def tx_type_inter_inv_set3 : List Nat := [9, 0]

/-- `wiener_taps_min`, constants.rs 1131–1131 -/
def wiener_taps_min : List Int := [-5, -23, -17]

/-- `wiener_taps_max`, constants.rs 1132–1132 -/
def wiener_taps_max : List Int := [10, 8, 46]

/-- `wiener_taps_k`, constants.rs 1133–1133 -/
def wiener_taps_k : List Int := [1, 2, 3]

/-- `intra_mode_context`, constants.rs 1138–1140 -/
def intra_mode_context : List Nat := [0, 1, 2, 3, 4, 4, 4, 4, 3, 0, 1, 2, 0]

/-- `size_group`, constants.rs 1142–1145 -/
def size_group : List Nat := [0, 0, 0, 1, 1, 1, 2, 2, 2, 3, 3, 3, 3, 3, 3, 3, 0, 0, 1, 1, 2, 2]

/-- `block_width`, constants.rs 1147–1149 -/
def block_width : List Nat := [4, 4, 8, 8, 8, 16, 16, 16, 32, 32, 32, 64, 64, 64, 128, 128, 4, 16, 8, 32, 16, 64]

/-- `block_height`, constants.rs 1151–1153 -/
def block_height : List Nat := [4, 8, 4, 8, 16, 8, 16, 32, 16, 32, 64, 32, 64, 128, 64, 128, 16, 4, 32, 8, 64, 16]

/-- `mi_width_log2`, constants.rs 1155–1157 -/
def mi_width_log2 : List Nat := [2, 2, 3, 3, 3, 4, 4, 4, 5, 5, 5, 6, 6, 6, 7, 7, 2, 4, 3, 5, 4, 6]

/-- `mi_height_log2`, constants.rs 1159–1161 -/
def mi_height_log2 : List Nat := [2, 3, 2, 3, 4, 3, 4, 5, 4, 5, 6, 5, 6, 7, 6, 7, 4, 2, 5, 3, 6, 4]

/-- `num_4x4_blocks_wide`, constants.rs 1163–1166 -/
def num_4x4_blocks_wide : List Nat := [1, 1, 2, 2, 2, 3, 3, 3, 8, 8, 8, 16, 16, 16, 32, 32, 1, 4, 2, 8, 4, 16]

/-- `num_4x4_blocks_high`, constants.rs 1168–1171 -/
def num_4x4_blocks_high : List Nat := [1, 2, 1, 2, 4, 2, 4, 8, 4, 8, 16, 8, 16, 32, 16, 32, 4, 1, 8, 2, 16, 4]

/-- `tx_width`, constants.rs 1173–1175 -/
def tx_width : List Nat := [4, 8, 16, 32, 64, 4, 8, 8, 16, 16, 32, 32, 64, 4, 16, 8, 32, 16, 64]

/-- `tx_width_log2`, constants.rs 1177–1179 -/
def tx_width_log2 : List Nat := [2, 3, 4, 5, 6, 2, 3, 3, 4, 4, 5, 5, 6, 2, 4, 3, 5, 4, 6]

/-- `tx_height`, constants.rs 1181–1183 -/
def tx_height : List Nat := [4, 8, 16, 32, 64, 8, 4, 16, 8, 32, 16, 64, 32, 16, 4, 32, 8, 64, 16]

/-- `tx_height_log2`, constants.rs 1185–1187 -/
def tx_height_log2 : List Nat := [2, 3, 4, 5, 6, 3, 2, 4, 3, 5, 4, 6, 5, 4, 2, 5, 3, 6, 4]

/-- `tx_size_sqr`, constants.rs 1213–1234 -/
def tx_size_sqr : List Nat := [0, 1, 2, 3, 4, 0, 0, 1, 1, 2, 2, 3, 3, 0, 0, 1, 1, 2, 2, 19]

/-- `tx_size_sqr_up`, constants.rs 1236–1257 -/
def tx_size_sqr_up : List Nat := [0, 1, 2, 3, 4, 1, 1, 2, 2, 3, 3, 4, 4, 2, 2, 3, 3, 4, 4, 19]

/-- `mode_to_txfm`, constants.rs 1287–1305 -/
def mode_to_txfm : List Nat := [0, 1, 2, 0, 3, 1, 2, 2, 1, 3, 1, 2, 3, 0, 0, 0, 0]

/-- `adjusted_tx_size`, constants.rs 1307–1327 -/
def adjusted_tx_size : List Nat := [0, 1, 2, 3, 3, 5, 6, 7, 8, 9, 10, 3, 3, 13, 14, 15, 16, 9, 10]

/-- `sig_ref_diff_offset`, constants.rs 1329–1339 -/
def sig_ref_diff_offset : List (List (List Nat)) := [
  [
    [0, 1],
    [1, 0],
    [1, 1],
    [0, 2],
    [2, 0]],
  [
    [0, 1],
    [1, 0],
    [0, 2],
    [0, 3],
    [0, 4]],
  [
    [0, 1],
    [1, 0],
    [2, 0],
    [3, 0],
    [4, 0]]]

/-- `mag_ref_offset_with_tx_class`, constants.rs 1341–1345 -/
def mag_ref_offset_with_tx_class : List (List (List Nat)) := [
  [
    [0, 1],
    [1, 0],
    [1, 1]],
  [
    [0, 1],
    [1, 0],
    [0, 2]],
  [
    [0, 1],
    [1, 0],
    [2, 0]]]

/-- `palette_color_context`, constants.rs 1347–1349 -/
def palette_color_context : List Int := [-1, -1, 0, -1, -1, 4, 3, 2, 1]

/-- `filter_intra_mode_to_intra_dir`, constants.rs 1352–1354 -/
def filter_intra_mode_to_intra_dir : List Nat := [0, 1, 2, 6, 0]

/-- `partition_subsize`, constants.rs 1356–1448 -/
def partition_subsize : List (List Nat) := [
  [0, 22, 22, 3, 22, 22, 6, 22, 22, 9, 22, 22, 12, 22, 22, 15, 22, 22, 22, 22, 22, 22],
  [22, 22, 22, 2, 22, 22, 5, 22, 22, 8, 22, 22, 11, 22, 22, 14, 22, 22, 22, 22, 22, 22],
  [22, 22, 22, 1, 22, 22, 4, 22, 22, 7, 22, 22, 10, 22, 22, 13, 22, 22, 22, 22, 22, 22],
  [22, 22, 22, 0, 22, 22, 3, 22, 22, 6, 22, 22, 9, 22, 22, 12, 22, 22, 22, 22, 22, 22],
  [22, 22, 22, 2, 22, 22, 5, 22, 22, 8, 22, 22, 11, 22, 22, 14, 22, 22, 22, 22, 22, 22],
  [22, 22, 22, 2, 22, 22, 5, 22, 22, 8, 22, 22, 11, 22, 22, 14, 22, 22, 22, 22, 22, 22],
  [22, 22, 22, 1, 22, 22, 4, 22, 22, 7, 22, 22, 10, 22, 22, 13, 22, 22, 22, 22, 22, 22],
  [22, 22, 22, 1, 22, 22, 4, 22, 22, 7, 22, 22, 10, 22, 22, 13, 22, 22, 22, 22, 22, 22],
  [22, 22, 22, 22, 22, 22, 17, 22, 22, 19, 22, 22, 21, 22, 22, 22, 22, 22, 22, 22, 22, 22],
  [22, 22, 22, 22, 22, 22, 16, 22, 22, 18, 22, 22, 20, 22, 22, 22, 22, 22, 22, 22, 22, 22]]

end Av1.K
