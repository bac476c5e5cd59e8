import Verif.Model.Names
import Verif.Spec.Names
import Verif.Model.ReconTables
import Verif.Props.Transform
import Verif.Props.Geometry

/-! # The named values of constants.rs: C143 -/

namespace Av1

/-- Names of constants.rs whose value is not AV1's: the inter modes, the number of segmentation features, the transform sets of
inter blocks. -/
def oddNames : List String := ["NEARESTMV", "NEARMV", "GLOBALMV", "NEWMV", "NEAREST_NEARESTMV", "NEAR_NEARMV", "NEAREST_NEWMV",
  "NEW_NEARESTMV", "NEAR_NEWMV", "NEW_NEARMV", "GLOBAL_GLOBALMV", "NEW_NEWMV", "SEG_LVL_MAX", "TX_SET_INTER_1", "TX_SET_INTER_2",
  "TX_SET_INTER_3"]

/-- **C143**, full claim: every name of constants.rs that AV1 has too stands for AV1's value. -/
def C143_full : Prop := ∀ (i : Nat) (n : String) (v w : Int), K.named[i]? = some (n, v) → Ref.named[i]? = some (n, some w) → v = w

/-- One entry of both lists. -/
def nameRow (p : String × Int) (q : String × Option Int) : Bool :=
  decide (p.1 = q.1) && (match q.2 with
    | some w => decide (p.2 = w) == decide (p.1 ∉ oddNames)
    | none => decide (p.1 = "TX_INVALID"))

theorem named_rows : K.named.length = Ref.named.length ∧
    (List.zipWith nameRow K.named Ref.named).all id = true := by
  constructor <;> decide +kernel

theorem named_row (i : Nat) (p : String × Int) (h : K.named[i]? = some p) : ∃ q, Ref.named[i]? = some q ∧ nameRow p q = true := by
  obtain ⟨hl, ha⟩ := named_rows
  have hi : i < K.named.length := (List.getElem?_eq_some_iff.1 h).1
  obtain ⟨q, hq⟩ : ∃ q, Ref.named[i]? = some q := ⟨_, List.getElem?_eq_getElem (hl ▸ hi)⟩
  refine ⟨q, hq, ?_⟩
  rw [List.all_eq_true] at ha
  have : nameRow p q ∈ List.zipWith nameRow K.named Ref.named := by
    apply List.mem_of_getElem? (i := i)
    rw [List.getElem?_zipWith, h, hq]
  exact ha _ this

/-- **C143**, exactly: both lists have the same names in the same places, all but one of them are AV1's, and the value is AV1's except for
the sixteen names above. -/
theorem C143_iff (i : Nat) (n : String) (v : Int) (h : K.named[i]? = some (n, v)) :
    ∃ w, Ref.named[i]? = some (n, w) ∧ (w = none ↔ n = "TX_INVALID") ∧ ∀ x, w = some x → (v = x ↔ n ∉ oddNames) := by
  obtain ⟨⟨m, w⟩, hq, hr⟩ := named_row i _ h
  unfold nameRow at hr
  rw [Bool.and_eq_true, decide_eq_true_eq] at hr
  obtain ⟨hn, hr⟩ := hr
  simp only at hn hr
  subst hn
  refine ⟨w, hq, ?_, ?_⟩
  · cases w with
    | none => simpa using hr
    | some x =>
      simp only [reduceCtorEq, false_iff]
      rintro rfl
      have hall : (Ref.named.all fun q => !(decide (q.1 = "TX_INVALID") && q.2.isSome)) = true := by decide +kernel
      have := (List.all_eq_true.1 hall) _ (List.mem_of_getElem? hq)
      simp at this
  · rintro x rfl
    simp only [beq_iff_eq, decide_eq_decide] at hr
    exact hr

/-- **C143**, the part that holds: all other names.  Missing: the inter modes, `SEG_LVL_MAX` and the transform sets of inter blocks. -/
theorem C143_values_partial (i : Nat) (n : String) (v w : Int) (h : K.named[i]? = some (n, v)) (hr : Ref.named[i]? = some (n, some w))
    (ho : n ∉ oddNames) : v = w := by
  obtain ⟨w', h1, -, h3⟩ := C143_iff i n v h
  rw [hr, Option.some.injEq, Prod.mk.injEq] at h1
  exact (h3 w h1.2.symm).2 ho

/-- By how much the others are off: the inter modes are one more (`UV_CFL_PRED` takes 13 in the same enumeration), the other four one
less. -/
theorem C143_off (i : Nat) (n : String) (v w : Int) (h : K.named[i]? = some (n, v)) (hr : Ref.named[i]? = some (n, some w))
    (ho : n ∈ oddNames) : v = if n ∈ oddNames.take 12 then w + 1 else w - 1 := by
  have hall : ((List.zip K.named Ref.named).all fun p => !(decide (p.1.1 ∈ oddNames)) || p.2.2 == some
      (if p.1.1 ∈ oddNames.take 12 then p.1.2 - 1 else p.1.2 + 1)) = true := by decide +kernel
  have hm : ((n, v), (n, some w)) ∈ List.zip K.named Ref.named := by
    apply List.mem_of_getElem? (i := i)
    rw [List.getElem?_zip_eq_some]
    exact ⟨h, hr⟩
  have := (List.all_eq_true.1 hall) _ hm
  simp only [ho, decide_true, Bool.not_true, Bool.false_or, beq_iff_eq, Option.some.injEq] at this
  split at this <;> simp_all

/-- **C143** is false: `NEARESTMV` is 14 instead of 13. -/
theorem C143_negation : ¬ C143_full := by
  intro h
  have h1 : K.named[105]? = some ("NEARESTMV", 14) := by decide +kernel
  have h2 : Ref.named[105]? = some ("NEARESTMV", some 13) := by decide +kernel
  exact absurd (h _ _ _ _ h1 h2) (by decide)

example : K.named[0]? = some ("CP_BT_709", 1) ∧ Ref.named[0]? = some ("CP_BT_709", some 1) ∧ "CP_BT_709" ∉ oddNames := by decide +kernel

/-- The constants that the model names have these values. -/
theorem C143_model : ([
  ("KEY_FRAME", (K.KEY_FRAME : Int)), ("INTER_FRAME", (K.INTER_FRAME : Int)),
  ("INTRA_ONLY_FRAME", (K.INTRA_ONLY_FRAME : Int)), ("SWITCH_FRAME", (K.SWITCH_FRAME : Int)),
  ("RESTORE_NONE", (K.RESTORE_NONE : Int)), ("RESTORE_WIENER", (K.RESTORE_WIENER : Int)),
  ("RESTORE_SGRPROJ", (K.RESTORE_SGRPROJ : Int)), ("RESTORE_SWITCHABLE", (K.RESTORE_SWITCHABLE : Int)),
  ("PARTITION_NONE", (K.PARTITION_NONE : Int)), ("PARTITION_HORZ", (K.PARTITION_HORZ : Int)),
  ("PARTITION_VERT", (K.PARTITION_VERT : Int)), ("PARTITION_SPLIT", (K.PARTITION_SPLIT : Int)),
  ("PARTITION_HORZ_A", (K.PARTITION_HORZ_A : Int)), ("PARTITION_HORZ_B", (K.PARTITION_HORZ_B : Int)),
  ("PARTITION_VERT_A", (K.PARTITION_VERT_A : Int)), ("PARTITION_VERT_B", (K.PARTITION_VERT_B : Int)),
  ("PARTITION_HORZ_4", (K.PARTITION_HORZ_4 : Int)), ("PARTITION_VERT_4", (K.PARTITION_VERT_4 : Int)),
  ("BLOCK_4X4", (K.BLOCK_4X4 : Int)), ("BLOCK_4X8", (K.BLOCK_4X8 : Int)), ("BLOCK_8X4", (K.BLOCK_8X4 : Int)),
  ("BLOCK_8X8", (K.BLOCK_8X8 : Int)), ("BLOCK_8X16", (K.BLOCK_8X16 : Int)), ("BLOCK_16X8", (K.BLOCK_16X8 : Int)),
  ("BLOCK_16X16", (K.BLOCK_16X16 : Int)), ("BLOCK_16X32", (K.BLOCK_16X32 : Int)), ("BLOCK_32X16", (K.BLOCK_32X16 : Int)),
  ("BLOCK_32X32", (K.BLOCK_32X32 : Int)), ("BLOCK_32X64", (K.BLOCK_32X64 : Int)), ("BLOCK_64X32", (K.BLOCK_64X32 : Int)),
  ("BLOCK_64X64", (K.BLOCK_64X64 : Int)), ("BLOCK_64X128", (K.BLOCK_64X128 : Int)),
  ("BLOCK_128X64", (K.BLOCK_128X64 : Int)), ("BLOCK_128X128", (K.BLOCK_128X128 : Int)),
  ("BLOCK_4X16", (K.BLOCK_4X16 : Int)), ("BLOCK_16X4", (K.BLOCK_16X4 : Int)), ("BLOCK_8X32", (K.BLOCK_8X32 : Int)),
  ("BLOCK_32X8", (K.BLOCK_32X8 : Int)), ("BLOCK_16X64", (K.BLOCK_16X64 : Int)), ("BLOCK_64X16", (K.BLOCK_64X16 : Int)),
  ("BLOCK_INVALID", (K.BLOCK_INVALID : Int)), ("DC_PRED", (K.DC_PRED : Int)), ("V_PRED", (K.V_PRED : Int)),
  ("H_PRED", (K.H_PRED : Int)), ("D45_PRED", (K.D45_PRED : Int)), ("D135_PRED", (K.D135_PRED : Int)),
  ("D113_PRED", (K.D113_PRED : Int)), ("D157_PRED", (K.D157_PRED : Int)), ("D203_PRED", (K.D203_PRED : Int)),
  ("D67_PRED", (K.D67_PRED : Int)), ("SMOOTH_PRED", (K.SMOOTH_PRED : Int)), ("SMOOTH_V_PRED", (K.SMOOTH_V_PRED : Int)),
  ("SMOOTH_H_PRED", (K.SMOOTH_H_PRED : Int)), ("PAETH_PRED", (K.PAETH_PRED : Int)), ("UV_CFL_PRED", (K.UV_CFL_PRED : Int)),
  ("NEARESTMV", (K.NEARESTMV : Int)), ("NEARMV", (K.NEARMV : Int)), ("GLOBALMV", (K.GLOBALMV : Int)),
  ("NEWMV", (K.NEWMV : Int)), ("NEAREST_NEARESTMV", (K.NEAREST_NEARESTMV : Int)), ("NEAR_NEARMV", (K.NEAR_NEARMV : Int)),
  ("NEAREST_NEWMV", (K.NEAREST_NEWMV : Int)), ("NEW_NEARESTMV", (K.NEW_NEARESTMV : Int)),
  ("NEAR_NEWMV", (K.NEAR_NEWMV : Int)), ("NEW_NEARMV", (K.NEW_NEARMV : Int)),
  ("GLOBAL_GLOBALMV", (K.GLOBAL_GLOBALMV : Int)), ("NEW_NEWMV", (K.NEW_NEWMV : Int)), ("TX_4X4", (K.TX_4X4 : Int)),
  ("TX_8X8", (K.TX_8X8 : Int)), ("TX_16X16", (K.TX_16X16 : Int)), ("TX_32X32", (K.TX_32X32 : Int)),
  ("TX_64X64", (K.TX_64X64 : Int)), ("TX_4X8", (K.TX_4X8 : Int)), ("TX_8X4", (K.TX_8X4 : Int)),
  ("TX_8X16", (K.TX_8X16 : Int)), ("TX_16X8", (K.TX_16X8 : Int)), ("TX_16X32", (K.TX_16X32 : Int)),
  ("TX_32X16", (K.TX_32X16 : Int)), ("TX_32X64", (K.TX_32X64 : Int)), ("TX_64X32", (K.TX_64X32 : Int)),
  ("TX_4X16", (K.TX_4X16 : Int)), ("TX_16X4", (K.TX_16X4 : Int)), ("TX_8X32", (K.TX_8X32 : Int)),
  ("TX_32X8", (K.TX_32X8 : Int)), ("TX_16X64", (K.TX_16X64 : Int)), ("TX_64X16", (K.TX_64X16 : Int)),
  ("TX_INVALID", (K.TX_INVALID : Int)), ("ONLY_4X4", (K.ONLY_4X4 : Int)), ("TX_MODE_LARGEST", (K.TX_MODE_LARGEST : Int)),
  ("TX_MODE_SELECT", (K.TX_MODE_SELECT : Int)), ("MV_CLASS_0", (K.MV_CLASS_0 : Int)), ("MV_CLASS_1", (K.MV_CLASS_1 : Int)),
  ("MV_CLASS_2", (K.MV_CLASS_2 : Int)), ("MV_CLASS_3", (K.MV_CLASS_3 : Int)), ("MV_CLASS_4", (K.MV_CLASS_4 : Int)),
  ("MV_CLASS_5", (K.MV_CLASS_5 : Int)), ("MV_CLASS_6", (K.MV_CLASS_6 : Int)), ("MV_CLASS_7", (K.MV_CLASS_7 : Int)),
  ("MV_CLASS_8", (K.MV_CLASS_8 : Int)), ("MV_CLASS_9", (K.MV_CLASS_9 : Int)), ("MV_CLASS_10", (K.MV_CLASS_10 : Int)),
  ("EIGHTTAP", (K.EIGHTTAP : Int)), ("EIGHTTAP_SMOOTH", (K.EIGHTTAP_SMOOTH : Int)),
  ("EIGHTTAP_SHARP", (K.EIGHTTAP_SHARP : Int)), ("BILINEAR", (K.BILINEAR : Int)), ("SWITCHABLE", (K.SWITCHABLE : Int)),
  ("SINGLE_REFERENCE", (K.SINGLE_REFERENCE : Int)), ("COMPOUND_REFERENCE", (K.COMPOUND_REFERENCE : Int)),
  ("UNIDIR_COMP_REFERENCE", (K.UNIDIR_COMP_REFERENCE : Int)), ("BIDIR_COMP_REFERENCE", (K.BIDIR_COMP_REFERENCE : Int)),
  ("NONE", (K.NONE : Int)), ("INTRA_FRAME", (K.INTRA_FRAME : Int)), ("LAST_FRAME", (K.LAST_FRAME : Int)),
  ("LAST2_FRAME", (K.LAST2_FRAME : Int)), ("LAST3_FRAME", (K.LAST3_FRAME : Int)), ("GOLDEN_FRAME", (K.GOLDEN_FRAME : Int)),
  ("BWDREF_FRAME", (K.BWDREF_FRAME : Int)), ("ALTREF2_FRAME", (K.ALTREF2_FRAME : Int)),
  ("ALTREF_FRAME", (K.ALTREF_FRAME : Int)), ("MV_JOINT_ZERO", (K.MV_JOINT_ZERO : Int)),
  ("MV_JOINT_HNZVZ", (K.MV_JOINT_HNZVZ : Int)), ("MV_JOINT_HZVNZ", (K.MV_JOINT_HZVNZ : Int)),
  ("MV_JOINT_HNZVNZ", (K.MV_JOINT_HNZVNZ : Int)), ("REFS_PER_FRAME", (K.REFS_PER_FRAME : Int)),
  ("BLOCK_SIZES", (K.BLOCK_SIZES : Int)), ("MI_SIZE", (K.MI_SIZE : Int)), ("MAX_TILE_WIDTH", (K.MAX_TILE_WIDTH : Int)),
  ("MAX_TILE_AREA", (K.MAX_TILE_AREA : Int)), ("MAX_TILE_ROWS", (K.MAX_TILE_ROWS : Int)),
  ("MAX_TILE_COLS", (K.MAX_TILE_COLS : Int)), ("INTRABC_DELAY_PIXELS", (K.INTRABC_DELAY_PIXELS : Int)),
  ("NUM_REF_FRAMES", (K.NUM_REF_FRAMES : Int)), ("MAX_SEGMENTS", (K.MAX_SEGMENTS : Int)),
  ("SEG_LVL_ALT_Q", (K.SEG_LVL_ALT_Q : Int)), ("SEG_LVL_REF_FRAME", (K.SEG_LVL_REF_FRAME : Int)),
  ("SEG_LVL_SKIP", (K.SEG_LVL_SKIP : Int)), ("SEG_LVL_GLOBALMV", (K.SEG_LVL_GLOBALMV : Int)),
  ("SEG_LVL_MAX", (K.SEG_LVL_MAX : Int)), ("TX_SIZES", (K.TX_SIZES : Int)), ("TX_SIZES_ALL", (K.TX_SIZES_ALL : Int)),
  ("COMP_NEWMV_CTXS", (K.COMP_NEWMV_CTXS : Int)), ("MV_INTRABC_CONTEXT", (K.MV_INTRABC_CONTEXT : Int)),
  ("CLASS0_SIZE", (K.CLASS0_SIZE : Int)), ("MAX_LOOP_FILTER", (K.MAX_LOOP_FILTER : Int)),
  ("DELTA_Q_SMALL", (K.DELTA_Q_SMALL : Int)), ("DELTA_LF_SMALL", (K.DELTA_LF_SMALL : Int)),
  ("WARPEDMODEL_PREC_BITS", (K.WARPEDMODEL_PREC_BITS : Int)), ("IDENTITY", (K.IDENTITY : Int)),
  ("TRANSLATION", (K.TRANSLATION : Int)), ("ROTZOOM", (K.ROTZOOM : Int)), ("AFFINE", (K.AFFINE : Int)),
  ("GM_ABS_TRANS_BITS", (K.GM_ABS_TRANS_BITS : Int)), ("GM_ABS_TRANS_ONLY_BITS", (K.GM_ABS_TRANS_ONLY_BITS : Int)),
  ("GM_ABS_ALPHA_BITS", (K.GM_ABS_ALPHA_BITS : Int)), ("GM_ALPHA_PREC_BITS", (K.GM_ALPHA_PREC_BITS : Int)),
  ("GM_TRANS_PREC_BITS", (K.GM_TRANS_PREC_BITS : Int)), ("GM_TRANS_ONLY_PREC_BITS", (K.GM_TRANS_ONLY_PREC_BITS : Int)),
  ("FRAME_LF_COUNT", (K.FRAME_LF_COUNT : Int)), ("REF_CAT_LEVEL", (K.REF_CAT_LEVEL : Int)),
  ("MAX_REF_MV_STACK_SIZE", (K.MAX_REF_MV_STACK_SIZE : Int)), ("WIENER_COEFFS", (K.WIENER_COEFFS : Int)),
  ("SGRPROJ_PARAMS_BITS", (K.SGRPROJ_PARAMS_BITS : Int)), ("SGRPROJ_PRJ_SUBEXP_K", (K.SGRPROJ_PRJ_SUBEXP_K : Int)),
  ("SELECT_SCREEN_CONTENT_TOOLS", (K.SELECT_SCREEN_CONTENT_TOOLS : Int)),
  ("SELECT_INTEGER_MV", (K.SELECT_INTEGER_MV : Int)), ("RESTORATION_TILESIZE_MAX", (K.RESTORATION_TILESIZE_MAX : Int)),
  ("NUM_BASE_LEVELS", (K.NUM_BASE_LEVELS : Int)), ("COEFF_BASE_RANGE", (K.COEFF_BASE_RANGE : Int)),
  ("SIG_COEF_CONTEXTS_EOB", (K.SIG_COEF_CONTEXTS_EOB : Int)), ("SIG_COEF_CONTEXTS_2D", (K.SIG_COEF_CONTEXTS_2D : Int)),
  ("SIG_COEF_CONTEXTS", (K.SIG_COEF_CONTEXTS : Int)), ("SIG_REF_DIFF_OFFSET_NUM", (K.SIG_REF_DIFF_OFFSET_NUM : Int)),
  ("SUPERRES_NUM", (K.SUPERRES_NUM : Int)), ("SUPERRES_DENOM_MIN", (K.SUPERRES_DENOM_MIN : Int)),
  ("SUPERRES_DENOM_BITS", (K.SUPERRES_DENOM_BITS : Int)), ("TX_CLASS_2D", (K.TX_CLASS_2D : Int)),
  ("TX_CLASS_HORIZ", (K.TX_CLASS_HORIZ : Int)), ("TX_CLASS_VERT", (K.TX_CLASS_VERT : Int)),
  ("PRIMARY_REF_NONE", (K.PRIMARY_REF_NONE : Int)), ("TX_SET_DCTONLY", (K.TX_SET_DCTONLY : Int)),
  ("TX_SET_INTRA_1", (K.TX_SET_INTRA_1 : Int)), ("TX_SET_INTRA_2", (K.TX_SET_INTRA_2 : Int)),
  ("TX_SET_INTER_1", (K.TX_SET_INTER_1 : Int)), ("TX_SET_INTER_2", (K.TX_SET_INTER_2 : Int)),
  ("TX_SET_INTER_3", (K.TX_SET_INTER_3 : Int)), ("DCT_DCT", (K.DCT_DCT : Int)), ("ADST_DCT", (K.ADST_DCT : Int)),
  ("DCT_ADST", (K.DCT_ADST : Int)), ("ADST_ADST", (K.ADST_ADST : Int)), ("FLIPADST_DCT", (K.FLIPADST_DCT : Int)),
  ("DCT_FLIPADST", (K.DCT_FLIPADST : Int)), ("FLIPADST_FLIPADST", (K.FLIPADST_FLIPADST : Int)),
  ("ADST_FLIPADST", (K.ADST_FLIPADST : Int)), ("FLIPADST_ADST", (K.FLIPADST_ADST : Int)), ("IDTX", (K.IDTX : Int)),
  ("V_DCT", (K.V_DCT : Int)), ("H_DCT", (K.H_DCT : Int)), ("V_ADST", (K.V_ADST : Int)), ("H_ADST", (K.H_ADST : Int)),
  ("V_FLIPADST", (K.V_FLIPADST : Int)), ("H_FLIPADST", (K.H_FLIPADST : Int))] : List (String × Int)).Sublist K.named := by
  decide +kernel

/-! ## Tables that follow from the names -/

/-- The next transform of a transform tree: the longer side is halved, or both. -/
def halveTx (d : Nat × Nat) : Nat × Nat :=
  (if d.2 ≤ d.1 then d.1 / 2 else d.1, if d.1 ≤ d.2 then d.2 / 2 else d.2)

/-- **C143**: `max_tx_depth` is the number of halvings from the largest transform of a block to 4×4. -/
theorem C143_depth (bs : Nat) (d : Nat × Nat) (h : blockDims[bs]? = some d) : ∃ k, K.max_tx_depth[bs]? = some k ∧
    halveTx^[k] (min 64 d.1, min 64 d.2) = (4, 4) ∧ ∀ j < k, halveTx^[j] (min 64 d.1, min 64 d.2) ≠ (4, 4) := by
  have hall : ∀ b : Fin 22, ∃ k : Fin 5, K.max_tx_depth[(b : Nat)]? = some (k : Nat) ∧ ∃ d, blockDims[(b : Nat)]? = some d ∧
      halveTx^[k] (min 64 d.1, min 64 d.2) = (4, 4) ∧ ∀ j : Fin 5, j < k → halveTx^[j] (min 64 d.1, min 64 d.2) ≠ (4, 4) := by
    decide +kernel
  have hb : bs < 22 := (List.getElem?_eq_some_iff.1 h).1
  obtain ⟨k, h1, d', h2, h3, h4⟩ := hall ⟨bs, hb⟩
  simp only at h1 h2
  rw [h, Option.some.injEq] at h2
  subst h2
  refine ⟨k, h1, h3, fun j hj => h4 ⟨j, by omega⟩ ?_⟩
  exact hj

/-- **C143**: the tables from symbols to transform types, which the encoder does not use (C62), are AV1's. -/
theorem C143_inverse : K.tx_type_intra_inv_set1 = TxSet.intra1.decode ∧ K.tx_type_intra_inv_set2 = TxSet.intra2.decode ∧
    K.tx_type_inter_inv_set1 = TxSet.inter1.decode ∧ K.tx_type_inter_inv_set12 = TxSet.inter2.decode ∧
    K.tx_type_inter_inv_set3 = TxSet.inter3.decode := by decide

/-- **C143**: the second pair of bounds of the self-guided filter weights is the first. -/
theorem C143_bounds : K.sgrproj_taps_min = K.sgrproj_xqd_min ∧ K.sgrproj_taps_max.map (fun n : Nat => (n : Int)) = K.sgrproj_xqd_max := by decide

/-- **C143**: the joint sign of chroma from luma stands for the signs AV1 derives from it, `(k + 1) / 3` and `(k + 1) % 3`; both
zero has no joint sign, every other pair has exactly one. -/
theorem C143_signs : (∀ k u v, K.cfl_alpha_signs[k]? = some (u, v) ↔ k < 8 ∧ u = (k + 1) / 3 ∧ v = (k + 1) % 3) ∧
    ∀ u v, u < 3 → v < 3 → ((∃! k : Nat, K.cfl_alpha_signs[k]? = some (u, v)) ↔ (u, v) ≠ (0, 0)) := by
  have h : ∀ k u v, K.cfl_alpha_signs[k]? = some (u, v) ↔ k < 8 ∧ u = (k + 1) / 3 ∧ v = (k + 1) % 3 := by
    intro k u v
    by_cases hk : k < 8
    · have hall : ∀ k : Fin 8, K.cfl_alpha_signs[(k : Nat)]? = some (((k : Nat) + 1) / 3, ((k : Nat) + 1) % 3) := by decide
      rw [hall ⟨k, hk⟩]
      simp only [Option.some.injEq, Prod.mk.injEq, hk, true_and]
      exact ⟨fun h => ⟨h.1.symm, h.2.symm⟩, fun h => ⟨h.1.symm, h.2.symm⟩⟩
    · rw [List.getElem?_eq_none (by simpa [K.cfl_alpha_signs] using hk)]
      simp [hk]
  refine ⟨h, fun u v hu hv => ?_⟩
  simp only [h, ne_eq, Prod.mk.injEq, not_and]
  constructor
  · rintro ⟨k, ⟨hk, h1, h2⟩, -⟩ h3
    omega
  · intro h3
    refine ⟨3 * u + v - 1, ⟨by omega, by omega, by omega⟩, fun j hj => by omega⟩

/-- **C143**: the largest transform of a transform mode is 4×4 for lossless frames and 64×64 for the others. -/
theorem C143_biggest : ∀ m, m < 3 → (K.tx_mode_to_biggest_tx_size[m]?.bind (txDims[·]?)) = some (if m = 0 then (4, 4) else (64, 64)) := by
  decide +kernel

end Av1
