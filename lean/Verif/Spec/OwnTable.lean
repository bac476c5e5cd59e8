import Verif.Spec.Elements
import Verif.Props.Geometry

/-!
# The table, the arguments and the number AV1 gives each syntax element

`Ref.tableName` is the array of section 8.3.2 of the AV1 specification (`NewMvCdf` is written `new_mv`), `Ref.args` the
position in it for the elements whose contexts are handed over by the caller (the computed ones are C63, C106, C107), and
`Ref.number` the number a value is coded as.  The sets of transform types are given by the program's numbers (`K.TX_SET_…`).
-/

namespace Av1.Ref

/-- Whether chroma may be predicted from luma: lossless blocks with a 4×4 chroma block, other blocks up to 32×32. -/
def cflAllowed (bs : Nat) (lossless ssx ssy : Bool) : Option Bool :=
  (blockDims[bs]?).map fun d =>
    if lossless then decide (max 4 (d.1 / 2 ^ ssx.toNat) = 4 ∧ max 4 (d.2 / 2 ^ ssy.toNat) = 4)
    else decide (d.1 ≤ 32 ∧ d.2 ≤ 32)

def tableName : Elem → Option String
  | .intraFrameYMode .. => some "intra_frame_y_mode"
  | .yMode .. => some "y_mode"
  | .uvMode _ bs lossless ssx ssy => (cflAllowed bs lossless ssx ssy).map fun c =>
    if c then "uv_mode_cfl_allowed" else "uv_mode_cfl_not_allowed"
  | .angleDelta .. => some "angle_delta"
  | .partition bs _ _ _ => match blockDims[bs]? with
    | some (8, 8) => some "partition_w8"
    | some (16, 16) => some "partition_w16"
    | some (32, 32) => some "partition_w32"
    | some (64, 64) => some "partition_w64"
    | some (128, 128) => some "partition_w128"
    | _ => none
  | .txDepth _ maxDepth _ => some (match maxDepth with
    | 4 => "tx_64x64"
    | 3 => "tx_32x32"
    | 2 => "tx_16x16"
    | _ => "tx_8x8")
  | .txfmSplit .. => some "txfm_split"
  | .segmentId .. => some "segment_id"
  | .segIdPredicted .. => some "segment_id_predicted"
  | .newMv .. => some "new_mv"
  | .zeroMv .. => some "zero_mv"
  | .refMv .. => some "ref_mv"
  | .drlMode .. => some "drl_mode"
  | .isInter .. => some "is_inter"
  | .useFilterIntra .. => some "filter_intra"
  | .filterIntraMode .. => some "filter_intra_mode"
  | .compMode .. => some "comp_mode"
  | .skipMode .. => some "skip_mode"
  | .skip .. => some "skip"
  | .compRef .. | .compRefP1 .. | .compRefP2 .. => some "comp_ref"
  | .compBwdref .. | .compBwdrefP1 .. => some "comp_bwd_ref"
  | .singleRefP1 .. | .singleRefP2 .. | .singleRefP3 .. | .singleRefP4 .. | .singleRefP5 .. | .singleRefP6 .. =>
    some "single_ref"
  | .compoundMode .. => some "compound_mode"
  | .interpFilter .. => some "interp_filter"
  | .motionMode .. => some "motion_mode"
  | .mvJoint .. => some "mv_joint"
  | .mvSign .. => some "mv_sign"
  | .mvClass .. => some "mv_class"
  | .mvClass0Bit .. => some "mv_class0_bit"
  | .mvClass0Fr .. => some "mv_class0_fr"
  | .mvClass0Hp .. => some "mv_class0_hp"
  | .mvFr .. => some "mv_fr"
  | .mvHp .. => some "mv_hp"
  | .mvBit .. => some "mv_bit"
  | .allZero .. => some "txb_skip"
  | .eobPt _ k _ _ => ["eob_pt_16", "eob_pt_32", "eob_pt_64", "eob_pt_128", "eob_pt_256", "eob_pt_512", "eob_pt_1024"][k]?
  | .eobExtra .. => some "eob_extra"
  | .coeffBase .. => some "coeff_base"
  | .coeffBaseEob .. => some "coeff_base_eob"
  | .dcSign .. => some "dc_sign"
  | .coeffBr .. => some "coeff_br"
  | .hasPaletteY .. => some "palette_y_mode"
  | .hasPaletteUv .. => some "palette_uv_mode"
  | .paletteSizeY .. => some "palette_y_size"
  | .paletteSizeUv .. => some "palette_uv_size"
  | .paletteColorY _ _ n => [none, none, some "palette_size_2_y_color", some "palette_size_3_y_color",
      some "palette_size_4_y_color", some "palette_size_5_y_color", some "palette_size_6_y_color",
      some "palette_size_7_y_color", some "palette_size_8_y_color"].getD n none
  | .paletteColorUv _ _ n => [none, none, some "palette_size_2_uv_color", some "palette_size_3_uv_color",
      some "palette_size_4_uv_color", some "palette_size_5_uv_color", some "palette_size_6_uv_color",
      some "palette_size_7_uv_color", some "palette_size_8_uv_color"].getD n none
  | .deltaQAbs .. => some "delta_q"
  | .deltaLfAbs _ multi _ => some (if multi = 0 then "delta_lf" else "delta_lf_multi")
  | .intraTxType _ set _ _ _ _ =>
    if set = K.TX_SET_INTRA_1 then some "intra_tx_type_set1" else if set = K.TX_SET_INTRA_2 then some "intra_tx_type_set2"
    else none
  | .interTxType _ _ set =>
    if set = K.TX_SET_INTER_1 then some "inter_tx_type_set1" else if set = K.TX_SET_INTER_2 then some "inter_tx_type_set2"
    else if set = K.TX_SET_INTER_3 then some "inter_tx_type_set3" else none
  | .compRefType .. => some "comp_ref_type"
  | .uniCompRef .. | .uniCompRefP1 .. | .uniCompRefP2 .. => some "uni_comp_ref"
  | .compGroupIdx .. => some "comp_group_idx"
  | .compoundIdx .. => some "compound_idx"
  | .compoundType .. => some "compound_type"
  | .interintra .. => some "inter_intra"
  | .interintraMode .. => some "inter_intra_mode"
  | .wedgeIndex .. => some "wedge_index"
  | .wedgeInterintra .. => some "wedge_inter_intra"
  | .useObmc .. => some "use_obmc"
  | .cflSigns .. => some "cfl_sign"
  | .cflAlphaU .. | .cflAlphaV .. => some "cfl_alpha"
  | .useWiener .. => some "use_wiener"
  | .useSgrproj .. => some "use_sgrproj"
  | .restorationType .. => some "restoration_type"

/-- Context of a palette color index from the hash of its neighbours. -/
def paletteCtx (hash : Nat) : Option Nat :=
  if hash = 2 then some 0 else if hash = 5 then some 4 else if hash = 6 then some 3 else if hash = 7 then some 2
  else if hash = 8 then some 1 else none

/-- Position in the array, for the elements whose contexts are arguments. -/
def args : Elem → Option (List Nat)
  | .newMv _ ctx | .zeroMv _ ctx | .refMv _ ctx => some [ctx]
  | .drlMode _ idx stack => (stack[idx]?).map fun ctx => [ctx]
  | .useFilterIntra _ bs | .motionMode _ bs | .compoundType _ bs | .wedgeIndex _ bs | .wedgeInterintra _ bs
  | .useObmc _ bs => some [bs]
  | .filterIntraMode _ | .deltaQAbs _ | .cflSigns _ | .useWiener _ | .useSgrproj _ | .restorationType _ => some []
  | .mvJoint _ ctx => some [ctx]
  | .mvSign _ ctx comp | .mvClass _ ctx comp | .mvClass0Bit _ ctx comp | .mvClass0Hp _ ctx comp | .mvFr _ ctx comp
  | .mvHp _ ctx comp => some [ctx, comp]
  | .mvClass0Fr _ bit ctx comp => some [ctx, comp, bit]
  | .mvBit _ i ctx comp => some [ctx, comp, i]
  | .paletteSizeY _ c | .paletteSizeUv _ c => some [c]
  | .paletteColorY _ hash _ | .paletteColorUv _ hash _ => (paletteCtx hash).map fun c => [c]
  | .deltaLfAbs _ multi i => some (if multi = 0 then [] else [i])
  | .interTxType _ tx _ => (txDims[tx]?).map fun d => [Nat.log2 (min d.1 d.2) - 2]
  | _ => none

/-- The number coded for the value; the sign of a DC coefficient is not among the arguments. -/
def number : Elem → Option Nat
  | .intraFrameYMode v _ _ | .yMode v _ | .uvMode v _ _ _ _ | .angleDelta _ v | .partition _ _ _ v | .txDepth _ _ v
  | .txfmSplit _ _ _ _ v | .segmentId v _ _ _ | .segIdPredicted v | .newMv v _ | .zeroMv v _ | .refMv v _ | .drlMode v _ _
  | .useFilterIntra v _ | .filterIntraMode v | .compMode v | .skipMode v | .skip v | .compRef v | .compRefP1 v | .compRefP2 v
  | .compBwdref v | .compBwdrefP1 v | .singleRefP1 v | .singleRefP2 v | .singleRefP3 v | .singleRefP4 v | .singleRefP5 v
  | .singleRefP6 v | .compoundMode v _ _ | .interpFilter v _ | .motionMode v _ | .mvJoint v _ | .mvSign v _ _
  | .mvClass v _ _ | .mvClass0Bit v _ _ | .mvClass0Fr v _ _ _ | .mvClass0Hp v _ _ | .mvFr v _ _ | .mvHp v _ _
  | .mvBit v _ _ _ | .allZero _ v _ _ _ _ | .eobPt _ _ v _ | .eobExtra v _ _ _ | .coeffBase _ v _ _ _ _ _
  | .coeffBaseEob _ v _ _ _ _ _ | .coeffBr _ v _ _ _ _ | .hasPaletteY v _ | .hasPaletteUv v _ | .paletteSizeY v _
  | .paletteSizeUv v _ | .paletteColorY v _ _ | .paletteColorUv v _ _ | .deltaQAbs v | .deltaLfAbs v _ _ | .compRefType v
  | .uniCompRef v | .uniCompRefP1 v | .uniCompRefP2 v | .compGroupIdx v | .compoundIdx v _ _ _ _ _ _ | .compoundType v _
  | .interintra v _ | .interintraMode v _ | .wedgeIndex v _ | .wedgeInterintra v _ | .useObmc v _ | .cflSigns v
  | .cflAlphaU v _ | .cflAlphaV v _ | .useWiener v | .useSgrproj v | .restorationType v => some v
  | .isInter v => some v.toNat
  | .intraTxType t set _ _ _ _ =>
    if set = K.TX_SET_INTRA_1 then some ([9, 0, 10, 11, 3, 1, 2].idxOf t)
    else if set = K.TX_SET_INTRA_2 then some ([9, 0, 3, 1, 2].idxOf t) else none
  | .interTxType t _ set =>
    if set = K.TX_SET_INTER_1 then some ([9, 10, 11, 12, 13, 14, 15, 0, 1, 2, 4, 5, 3, 6, 7, 8].idxOf t)
    else if set = K.TX_SET_INTER_2 then some ([9, 10, 11, 0, 1, 2, 4, 5, 3, 6, 7, 8].idxOf t)
    else if set = K.TX_SET_INTER_3 then some ([9, 0].idxOf t) else none
  | .dcSign .. => none

end Av1.Ref
