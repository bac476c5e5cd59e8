import Verif.Model.Common
import Verif.Model.DefaultCdf

/-!
# Choice of probability table for every syntax element (`bool_coder.rs` 387–1327)

Every `encode_<element>` function looks at neighbouring blocks, picks one table of one field of `struct CDF` and calls
`encode_symbol` on it.  The model returns the choice (`Sel`): the family, the indices and the symbol.  `none` is a panic
before `encode_symbol` is reached (index outside a constant table, arithmetic underflow, `assert!`, `unwrap` of `None`).
An index outside the *probability* table is not `none` here, it is what `InTable` (Spec) is about.

The neighbours are given as the functions see them, i.e. after `Frame::get_above_mi` / `get_left_mi` / `get_mi`
(whose own panics are C46).  Values passed as `usize` and cast to `i32` are naturals; the cast is the identity below 2^31.
-/

namespace Av1

/-- `ModeInfo` (constants.rs 1190–1210), without `mvs` and `segment_id`, which no context uses. -/
structure ModeInfo where
  miSize : Nat
  txSize : Nat
  txType : Nat
  isInter : Bool
  skip : Bool
  intra : Bool
  single : Bool
  segIdPredicted : Nat
  skipMode : Nat
  ref0 : Int
  ref1 : Int
  interp0 : Nat
  interp1 : Nat
  level : List Nat
  dc : List Nat
  palette : List Nat
  compGroupIdx : Nat
  compoundIdx : Nat
  yMode : Nat
deriving Repr, DecidableEq

/-- The blocks a context looks at: above, left and the current one. -/
structure Nbrs where
  above : Option ModeInfo
  left : Option ModeInfo
  cur : Option ModeInfo := none

/-- A table and the symbol to be coded with it. -/
structure Sel where
  fam : Family
  idx : List Nat
  sym : Int

/-- `match … { Some(mi) => f mi, None => d }`. -/
def orElse {α β} (o : Option α) (d : β) (f : α → β) : β :=
  match o with
  | some a => f a
  | none => d

namespace Sel

/-- `encode_intra_frame_y_mode` (bool_coder.rs 387–395). -/
def intraFrameYMode (y above left : Nat) : Option Sel := do
  let am ← K.intra_mode_context[above]?
  let lm ← K.intra_mode_context[left]?
  some ⟨Default.intra_frame_y_mode, [am, lm], y⟩

/-- `encode_y_mode` (bool_coder.rs 397–401). -/
def yMode (y bs : Nat) : Option Sel := do
  let ctx ← K.size_group[bs]?
  some ⟨Default.y_mode, [ctx], y⟩

/-- Whether `encode_uv_mode` uses the tables with chroma-from-luma (bool_coder.rs 404–410). -/
def cflTables (bs : Nat) (lossless ssx ssy : Bool) : Option Bool := do
  if lossless then
    -- `lossless && residual == BLOCK_4X4`; the second condition needs `!lossless`
    let r ← getPlaneResidualSize bs 1 ssx ssy
    some (r == K.BLOCK_4X4)
  else
    let w ← K.block_width[bs]?
    let h ← K.block_height[bs]?
    some (decide (max w h ≤ 32))

/-- `encode_uv_mode` (bool_coder.rs 403–412). -/
def uvMode (uv bs : Nat) (lossless ssx ssy : Bool) : Option Sel := do
  let cfl ← cflTables bs lossless ssx ssy
  some ⟨if cfl then Default.uv_mode_cfl_allowed else Default.uv_mode_cfl_not_allowed, [uv], uv⟩

/-- `encode_angle_delta_y`, `encode_angle_delta_uv` (bool_coder.rs 414–422). -/
def angleDelta (mode delta : Nat) : Option Sel := do
  let k ← usub mode K.V_PRED
  some ⟨Default.angle_delta, [k], delta⟩

/-- The family chosen from `bsl` (bool_coder.rs 427–437, and the same in 444–454, 470–480). -/
def partitionFam (bsl : Nat) : Family :=
  if bsl = 1 then Default.partition_w8
  else if bsl = 2 then Default.partition_w16
  else if bsl = 3 then Default.partition_w32
  else if bsl = 4 then Default.partition_w64
  else Default.partition_w128

/-- `encode_partition` (bool_coder.rs 424–439). -/
def partition (bs : Nat) (above left : Bool) (p : Nat) : Option Sel := do
  let bsl ← K.mi_width_log2[bs]?
  some ⟨partitionFam bsl, [left.toNat * 2 + above.toNat], p⟩

/-- `encode_tx_depth` (bool_coder.rs 493–523). -/
def txDepth (nb : Nbrs) (maxRect maxDepth depth : Nat) : Option Sel := do
  let mw ← K.tx_width[maxRect]?
  let mh ← K.tx_height[maxRect]?
  let aw ← orElse nb.above (some 0) fun mi => if mi.isInter then K.block_width[mi.miSize]? else K.tx_width[mi.txSize]?
  let lh ← orElse nb.left (some 0) fun mi => if mi.isInter then K.block_width[mi.miSize]? else K.tx_height[mi.txSize]?
  let ctx := (decide (aw ≥ mw)).toNat + (decide (lh ≥ mh)).toNat
  some ⟨if maxDepth = 4 then Default.tx_64x64 else if maxDepth = 3 then Default.tx_32x32
    else if maxDepth = 2 then Default.tx_16x16 else Default.tx_8x8, [ctx], depth⟩

/-- One side of the context of `encode_txfm_split` (bool_coder.rs 526–541). -/
def txfmSide (edge : Bool) (mi edgeMi : Option ModeInfo) : Option Nat :=
  if edge then
    orElse edgeMi (some 64) fun m => if m.skip && m.isInter then K.block_width[m.miSize]? else K.tx_width[m.txSize]?
  else do
    let m ← mi
    K.tx_width[m.txSize]?

/-- `encode_txfm_split` (bool_coder.rs 525–548). `rowEdge` is `row == mi_row`, `colEdge` is `col == mi_col`; away from the
edge both sides look at the block above. -/
def txfmSplit (nb : Nbrs) (rowEdge colEdge : Bool) (txSize bs split : Nat) : Option Sel := do
  let above ← txfmSide rowEdge nb.above nb.above
  let left ← txfmSide colEdge nb.above nb.left
  let w ← K.block_width[bs]?
  let h ← K.block_height[bs]?
  let size := min 64 (max w h)
  let maxTx := findTxSize size size
  let up ← K.tx_size_sqr_up[txSize]?
  let k ← usub (K.TX_SIZES - 1) maxTx
  let ctx := (up != maxTx && decide (maxTx > K.TX_8X8)).toNat * 3 + k * 6 + above + left
  some ⟨Default.txfm_split, [ctx], split⟩

/-- `encode_segment_id` of the coder (bool_coder.rs 550–560). -/
def segmentId (id : Nat) (pu pl pul : Int) : Option Sel :=
  let ctx :=
    if pul < 0 ∨ pu < 0 ∨ pl < 0 then 0
    else if pul = pu ∧ pul = pl then 2
    else if pul = pu ∨ pul = pl ∨ pu = pl then 1
    else 0
  some ⟨Default.segment_id, [ctx], id⟩

/-- `encode_seg_id_predicted` (bool_coder.rs 562–572). -/
def segIdPredicted (nb : Nbrs) (v : Nat) : Option Sel :=
  some ⟨Default.segment_id_predicted, [orElse nb.left 0 (·.segIdPredicted) + orElse nb.above 0 (·.segIdPredicted)], v⟩

/-- `encode_new_mv`, `encode_zero_mv`, `encode_ref_mv` (bool_coder.rs 574–587). -/
def newMv (v ctx : Nat) : Option Sel := some ⟨Default.new_mv, [ctx], v⟩
def zeroMv (v ctx : Nat) : Option Sel := some ⟨Default.zero_mv, [ctx], v⟩
def refMv (v ctx : Nat) : Option Sel := some ⟨Default.ref_mv, [ctx], v⟩

/-- `encode_drl_mode` (bool_coder.rs 589–592). -/
def drlMode (v idx : Nat) (stack : List Nat) : Option Sel := do
  let ctx ← stack[idx]?
  some ⟨Default.drl_mode, [ctx], v⟩

/-- `encode_is_inter` (bool_coder.rs 594–603). -/
def isInter (nb : Nbrs) (v : Bool) : Option Sel :=
  let ctx := match nb.left, nb.above with
    | some l, some u => if l.intra && u.intra then 3 else (l.intra || u.intra).toNat
    | some l, none => 2 * l.intra.toNat
    | none, some u => 2 * u.intra.toNat
    | none, none => 0
  some ⟨Default.is_inter, [ctx], v.toNat⟩

/-- `encode_use_filter_intra` (bool_coder.rs 605–608). -/
def useFilterIntra (v bs : Nat) : Option Sel := some ⟨Default.filter_intra, [bs], v⟩

/-- `encode_filter_intra_mode` (bool_coder.rs 610–613). -/
def filterIntraMode (v : Nat) : Option Sel := some ⟨Default.filter_intra_mode, [], v⟩

/-- `encode_comp_mode` (bool_coder.rs 615–630). -/
def compMode (nb : Nbrs) (v : Nat) : Option Sel :=
  let ctx := match nb.above, nb.left with
    | some u, some l =>
      if u.single && l.single then (checkBackward u.ref0 ^^ checkBackward l.ref0).toNat
      else if u.single then 2 + (checkBackward u.ref0 || u.intra).toNat
      else if l.single then 2 + (checkBackward l.ref0 || l.intra).toNat
      else 4
    | some u, none => if u.single then (checkBackward u.ref0).toNat else 3
    | none, some l => if l.single then (checkBackward l.ref0).toNat else 3
    | none, none => 1
  some ⟨Default.comp_mode, [ctx], v⟩

/-- `encode_skip_mode` (bool_coder.rs 632–642). -/
def skipMode (nb : Nbrs) (v : Nat) : Option Sel :=
  some ⟨Default.skip_mode, [orElse nb.above 0 (·.skipMode) + orElse nb.left 0 (·.skipMode)], v⟩

/-- `encode_skip` (bool_coder.rs 644–654). -/
def skip (nb : Nbrs) (v : Nat) : Option Sel :=
  some ⟨Default.skip, [orElse nb.above 0 (·.skip.toNat) + orElse nb.left 0 (·.skip.toNat)], v⟩

/-- `count_refs` (common.rs 60–68). -/
def countRefs (nb : Nbrs) (r : Int) : Nat :=
  orElse nb.above 0 (fun mi => (decide (mi.ref0 = r)).toNat + (decide (mi.ref1 = r)).toNat) +
  orElse nb.left 0 (fun mi => (decide (mi.ref0 = r)).toNat + (decide (mi.ref1 = r)).toNat)

/-- The comparison of two groups of references every reference element uses. -/
def refCtx (nb : Nbrs) (g0 g1 : List Int) : Nat :=
  refCountCtx ((g0.map (countRefs nb)).sum) ((g1.map (countRefs nb)).sum)

def fwdRefs : List Int := [K.LAST_FRAME, K.LAST2_FRAME, K.LAST3_FRAME, K.GOLDEN_FRAME]
def bwdRefs : List Int := [K.BWDREF_FRAME, K.ALTREF2_FRAME, K.ALTREF_FRAME]

/-- `encode_comp_ref` (bool_coder.rs 656–662), `_p1` (664–670), `_p2` (672–678). -/
def compRef (nb : Nbrs) (v : Nat) : Option Sel :=
  some ⟨Default.comp_ref, [refCtx nb [K.LAST_FRAME, K.LAST2_FRAME] [K.LAST3_FRAME, K.GOLDEN_FRAME], 0], v⟩
def compRefP1 (nb : Nbrs) (v : Nat) : Option Sel :=
  some ⟨Default.comp_ref, [refCtx nb [K.LAST_FRAME] [K.LAST2_FRAME], 1], v⟩
def compRefP2 (nb : Nbrs) (v : Nat) : Option Sel :=
  some ⟨Default.comp_ref, [refCtx nb [K.LAST3_FRAME] [K.GOLDEN_FRAME], 2], v⟩

/-- `encode_comp_bwdref` (bool_coder.rs 680–686), `_p1` (688–694). -/
def compBwdref (nb : Nbrs) (v : Nat) : Option Sel :=
  some ⟨Default.comp_bwd_ref, [refCtx nb [K.BWDREF_FRAME, K.ALTREF2_FRAME] [K.ALTREF_FRAME], 0], v⟩
def compBwdrefP1 (nb : Nbrs) (v : Nat) : Option Sel :=
  some ⟨Default.comp_bwd_ref, [refCtx nb [K.BWDREF_FRAME] [K.ALTREF2_FRAME], 1], v⟩

/-- `encode_single_ref_p1` … `_p6` (bool_coder.rs 696–747). -/
def singleRefP1 (nb : Nbrs) (v : Nat) : Option Sel := some ⟨Default.single_ref, [refCtx nb fwdRefs bwdRefs, 0], v⟩
def singleRefP2 (nb : Nbrs) (v : Nat) : Option Sel :=
  some ⟨Default.single_ref, [refCtx nb [K.BWDREF_FRAME, K.ALTREF2_FRAME] [K.ALTREF_FRAME], 1], v⟩
def singleRefP3 (nb : Nbrs) (v : Nat) : Option Sel :=
  some ⟨Default.single_ref, [refCtx nb [K.LAST_FRAME, K.LAST2_FRAME] [K.LAST3_FRAME, K.GOLDEN_FRAME], 2], v⟩
def singleRefP4 (nb : Nbrs) (v : Nat) : Option Sel :=
  some ⟨Default.single_ref, [refCtx nb [K.LAST_FRAME] [K.LAST2_FRAME], 3], v⟩
def singleRefP5 (nb : Nbrs) (v : Nat) : Option Sel :=
  some ⟨Default.single_ref, [refCtx nb [K.LAST3_FRAME] [K.GOLDEN_FRAME], 4], v⟩
def singleRefP6 (nb : Nbrs) (v : Nat) : Option Sel :=
  some ⟨Default.single_ref, [refCtx nb [K.BWDREF_FRAME] [K.ALTREF2_FRAME], 5], v⟩

/-- `compound_mode_ctx_map` (bool_coder.rs 750–754). -/
def compoundModeCtxMap : List (List Nat) := [[0, 1, 1, 1, 1], [1, 2, 3, 4, 4], [4, 4, 5, 6, 7]]

/-- `encode_compound_mode` (bool_coder.rs 749–758). -/
def compoundMode (v refMvCtx newMvCtx : Nat) : Option Sel := do
  let row ← compoundModeCtxMap[refMvCtx >>> 1]?
  let ctx ← row[min newMvCtx (K.COMP_NEWMV_CTXS - 1)]?
  some ⟨Default.compound_mode, [ctx], v⟩

/-- `interp_filter[dir]` of a block: an array of two. -/
def ModeInfo.interp (mi : ModeInfo) (dir : Nat) : Option Nat := [mi.interp0, mi.interp1][dir]?

/-- `left_type` / `above_type` of `encode_interp_filter` (bool_coder.rs 763–772). -/
def interpType (cur : ModeInfo) (dir : Nat) (nb : Option ModeInfo) : Option Nat :=
  orElse nb (some K.BILINEAR) fun mi =>
    if mi.ref0 = cur.ref0 ∨ mi.ref1 = cur.ref1 then ModeInfo.interp mi dir else some K.BILINEAR

/-- `encode_interp_filter` (bool_coder.rs 760–782). -/
def interpFilter (nb : Nbrs) (f dir : Nat) : Option Sel := do
  let cur ← nb.cur
  let base := (dir % 2 * 2 + (decide (cur.ref1 > K.INTRA_FRAME)).toNat) * 4
  let l ← interpType cur dir nb.left
  let a ← interpType cur dir nb.above
  let ctx := base + if l = a then l else if l = K.BILINEAR then a else if a = K.BILINEAR then l else K.BILINEAR
  some ⟨Default.interp_filter, [ctx], f⟩

/-- `encode_motion_mode` (bool_coder.rs 784–787). -/
def motionMode (v bs : Nat) : Option Sel := some ⟨Default.motion_mode, [bs], v⟩

/-- `encode_mv_joint` … `encode_mv_bit` (bool_coder.rs 789–832). -/
def mvJoint (v ctx : Nat) : Option Sel := some ⟨Default.mv_joint, [ctx], v⟩
def mvSign (v ctx comp : Nat) : Option Sel := some ⟨Default.mv_sign, [ctx, comp], v⟩
def mvClass (v ctx comp : Nat) : Option Sel := some ⟨Default.mv_class, [ctx, comp], v⟩
def mvClass0Bit (v ctx comp : Nat) : Option Sel := some ⟨Default.mv_class0_bit, [ctx, comp], v⟩
def mvClass0Fr (v bit ctx comp : Nat) : Option Sel := some ⟨Default.mv_class0_fr, [ctx, comp, bit], v⟩
def mvClass0Hp (v ctx comp : Nat) : Option Sel := some ⟨Default.mv_class0_hp, [ctx, comp], v⟩
def mvFr (v ctx comp : Nat) : Option Sel := some ⟨Default.mv_fr, [ctx, comp], v⟩
def mvHp (v ctx comp : Nat) : Option Sel := some ⟨Default.mv_hp, [ctx, comp], v⟩
def mvBit (v i ctx comp : Nat) : Option Sel := some ⟨Default.mv_bit, [ctx, comp, i], v⟩

/-- What the transform-block elements get besides the neighbours: position in 4×4 units (`x4`, `y4`, `w4`, `h4`), frame
size in 4×4 units, subsampling. -/
structure TxPos where
  w4 : Nat
  h4 : Nat
  x4 : Nat
  y4 : Nat
  miCols : Nat
  miRows : Nat
  ssx : Bool
  ssy : Bool

def TxPos.maxX (t : TxPos) (plane : Nat) : Nat := if plane > 0 then t.miCols >>> t.ssx.toNat else t.miCols
def TxPos.maxY (t : TxPos) (plane : Nat) : Nat := if plane > 0 then t.miRows >>> t.ssy.toNat else t.miRows

/-- A loop `for k in 0..n { if x+k < mx { acc = f(acc) } }`. -/
def edgeLoop {α} (n x mx : Nat) (f : α → α) (init : α) : α :=
  (List.range n).foldl (fun acc k => if x + k < mx then f acc else acc) init

/-- The context of `encode_all_zero` (bool_coder.rs 835–907). -/
def allZeroCtx (nb : Nbrs) (t : TxPos) (plane txSize bs : Nat) : Option Nat := do
  let w ← K.tx_width[txSize]?
  let h ← K.tx_height[txSize]?
  let bsize ← getPlaneResidualSize bs plane t.ssx t.ssy
  let bw ← K.block_width[bsize]?
  let bh ← K.block_height[bsize]?
  let la ← orElse nb.above (some 0) fun mi => mi.level[plane]?
  let ll ← orElse nb.left (some 0) fun mi => mi.level[plane]?
  if plane = 0 then
    let top := min (edgeLoop t.w4 t.x4 (t.maxX plane) (max · la) 0) 255
    let left := min (edgeLoop t.h4 t.y4 (t.maxY plane) (max · ll) 0) 255
    let ctx :=
      if bw = w ∧ bh = h then 0
      else if top = 0 ∧ left = 0 then 1
      else if top = 0 ∨ left = 0 then 2 + (decide (max top left > 3)).toNat
      else if max top left ≤ 3 then 4
      else if min top left ≤ 3 then 5
      else 6
    some ctx
  else
    let da ← orElse nb.above (some 0) fun mi => mi.dc[plane]?
    let dl ← orElse nb.left (some 0) fun mi => mi.dc[plane]?
    let above := edgeLoop t.w4 t.x4 (t.maxX plane) (· ||| (la ||| da)) 0
    let left := edgeLoop t.h4 t.y4 (t.maxY plane) (· ||| (ll ||| dl)) 0
    let ctx := (decide (above ≠ 0)).toNat + (decide (left ≠ 0)).toNat + 7 + if bw * bh > w * h then 3 else 0
    some ctx

/-- `encode_all_zero` (bool_coder.rs 834–911). -/
def allZero (nb : Nbrs) (t : TxPos) (v plane txSize txSizeCtx bs : Nat) : Option Sel := do
  let ctx ← allZeroCtx nb t plane txSize bs
  some ⟨Default.txb_skip, [0, txSizeCtx, ctx], v⟩

/-- The arguments of `compute_tx_type` (common.rs 105–137). -/
structure TxEnv where
  at_ : Nat → Nat → Option Nat
  ssx : Bool
  ssy : Bool
  plane : Nat
  txSize : Nat
  blockX : Nat
  blockY : Nat
  lossless : Bool
  isInter : Bool
  reduced : Bool
  uvMode : Nat
  miRow : Nat
  miCol : Nat

def TxEnv.txType (e : TxEnv) : Option Nat :=
  computeTxType e.at_ e.ssx e.ssy e.plane e.txSize e.blockX e.blockY e.lossless e.isInter e.reduced e.uvMode e.miRow e.miCol

/-- `encode_eob_pt_16` … `encode_eob_pt_1024` (bool_coder.rs 913–960); `k` from 0 to 6 is the number in the name,
`2^(k+4)`. -/
def eobPt (e : TxEnv) (k v ptype : Nat) : Option Sel := do
  let t ← e.txType
  let ctx := if getTxClass t = K.TX_CLASS_2D then 0 else 1
  let fam ← [Default.eob_pt_16, Default.eob_pt_32, Default.eob_pt_64, Default.eob_pt_128, Default.eob_pt_256,
    Default.eob_pt_512, Default.eob_pt_1024][k]?
  some ⟨fam, [0, ptype, ctx], v⟩

/-- `encode_eob_extra` (bool_coder.rs 962–965). -/
def eobExtra (v txSizeCtx ptype eobPt : Nat) : Option Sel := some ⟨Default.eob_extra, [0, txSizeCtx, ptype, eobPt], v⟩

/-- The loop of `get_coeff_base_ctx` (common.rs 162–169) over the offsets of one transform class. -/
def sigMag (quant : List Int) (bwl width height row col : Nat) : List (List Nat) → Option Nat
  | [] => some 0
  | o :: os => do
    let dr ← o[0]?
    let dc ← o[1]?
    let m ← if row + dr < height ∧ col + dc < width then
        (quant[((row + dr) <<< bwl) + (col + dc)]?).map fun q => min q.natAbs 3
      else some 0
    let rest ← sigMag quant bwl width height row col os
    some (m + rest)

/-- `get_coeff_base_ctx` (common.rs 147–180). -/
def coeffBaseCtx (e : TxEnv) (pos c : Nat) (isEob : Bool) (quant : List Int) : Option Nat := do
  let adj ← K.adjusted_tx_size[e.txSize]?
  let bwl ← K.tx_width_log2[adj]?
  let width := 1 <<< bwl
  let height ← K.tx_height[adj]?
  let t ← e.txType
  if isEob then
    if c = 0 then some (K.SIG_COEF_CONTEXTS - 4)
    else if c ≤ (height <<< bwl) / 8 then some (K.SIG_COEF_CONTEXTS - 3)
    else if c ≤ (height <<< bwl) / 4 then some (K.SIG_COEF_CONTEXTS - 2)
    else some (K.SIG_COEF_CONTEXTS - 1)
  else
    let cls := getTxClass t
    let row := pos >>> bwl
    let col := pos - (row <<< bwl)
    let offs ← K.sig_ref_diff_offset[cls]?
    let mag ← sigMag quant bwl width height row col offs
    let ctx := min ((mag + 1) >>> 1) 4
    if cls = K.TX_CLASS_2D then
      if row = 0 ∧ col = 0 then some 0
      else do
        let a ← K.coeff_base_ctx_offset[e.txSize]?
        let b ← a[min row 4]?
        let o ← b[min col 4]?
        some (ctx + o)
    else
      let idx := if cls = K.TX_CLASS_VERT then row else col
      let o ← K.coeff_base_pos_ctx_offset[min idx 2]?
      some (ctx + o)

/-- `encode_coeff_base` (bool_coder.rs 967–971). -/
def coeffBase (e : TxEnv) (v txSizeCtx ptype c : Nat) (scan : List Nat) (quant : List Int) : Option Sel := do
  let pos ← scan[c]?
  let ctx ← coeffBaseCtx e pos c false quant
  some ⟨Default.coeff_base, [0, txSizeCtx, ptype, ctx], v⟩

/-- `encode_coeff_base_eob` (bool_coder.rs 973–977); the subtraction is on `usize` and comes first. -/
def coeffBaseEob (e : TxEnv) (v txSizeCtx ptype c : Nat) (scan : List Nat) (quant : List Int) : Option Sel := do
  let pos ← scan[c]?
  let k ← coeffBaseCtx e pos c true quant
  let d ← usub k K.SIG_COEF_CONTEXTS
  some ⟨Default.coeff_base_eob, [0, txSizeCtx, ptype, d + K.SIG_COEF_CONTEXTS_EOB], v⟩

/-- One step of the sign count of `encode_dc_sign` (bool_coder.rs 993–997, 1006–1010). -/
def signStep (sign : Nat) (acc : Int) : Int := if sign = 1 then acc - 1 else if sign = 2 then acc + 1 else acc

/-- `encode_dc_sign` (bool_coder.rs 979–1018).  There is no argument for the sign to be coded: the symbol is the count. -/
def dcSign (nb : Nbrs) (t : TxPos) (ptype plane : Nat) : Option Sel := do
  let da ← orElse nb.above (some 0) fun mi => mi.dc[plane]?
  let dl ← orElse nb.left (some 0) fun mi => mi.dc[plane]?
  let s1 : Int := edgeLoop t.w4 t.x4 (t.maxX plane) (signStep da) 0
  let s2 : Int := edgeLoop t.h4 t.y4 (t.maxY plane) (signStep dl) s1
  let ctx := if s2 < 0 then 1 else if s2 > 0 then 2 else 0
  some ⟨Default.dc_sign, [0, ptype, ctx], s2⟩

/-- `quant[i] as usize`: negative values wrap around. -/
def asUsize (q : Int) : Nat := (q % 2 ^ 64).toNat

/-- The loop of `encode_coeff_br` (bool_coder.rs 1030–1036). -/
def brMag (quant : List Int) (bwl txw txh row col : Nat) : List (List Nat) → Option Nat
  | [] => some 0
  | o :: os => do
    let dr ← o[0]?
    let dc ← o[1]?
    let m ← if row + dr < txh ∧ col + dc < 1 <<< bwl then
        (quant[(row + dr) * txw + (col + dc)]?).map fun q => min (asUsize q) (K.COEFF_BASE_RANGE + K.NUM_BASE_LEVELS + 1)
      else some 0
    let rest ← brMag quant bwl txw txh row col os
    some (m + rest)

/-- `encode_coeff_br` (bool_coder.rs 1020–1061). -/
def coeffBr (e : TxEnv) (v txSizeCtx ptype pos : Nat) (quant : List Int) : Option Sel := do
  let adj ← K.adjusted_tx_size[e.txSize]?
  let bwl ← K.tx_width_log2[adj]?
  let txw ← K.tx_width[adj]?
  let txh ← K.tx_height[adj]?
  let row := pos >>> bwl
  let col := pos - (row <<< bwl)
  let t ← e.txType
  let cls := getTxClass t
  let offs ← K.mag_ref_offset_with_tx_class[cls]?
  let mag0 ← brMag quant bwl txw txh row col offs
  let mag := min ((mag0 + 1) >>> 1) 6
  let ctx :=
    if pos = 0 then mag
    else if cls = 0 then if row < 2 ∧ col < 2 then mag + 7 else mag + 14
    else if cls = 1 then if col = 0 then mag + 7 else mag + 14
    else if row = 0 then mag + 7 else mag + 14
  some ⟨Default.coeff_br, [0, min txSizeCtx K.TX_32X32, ptype, ctx], v⟩

/-- `encode_has_palette_y` (bool_coder.rs 1063–1074). -/
def hasPaletteY (nb : Nbrs) (v bsizeCtx : Nat) : Option Sel := do
  let a ← orElse nb.above (some 0) fun mi => mi.palette[0]?.map fun s => if s > 0 then 1 else 0
  let l ← orElse nb.left (some 0) fun mi => mi.palette[0]?.map fun s => if s > 0 then 1 else 0
  some ⟨Default.palette_y_mode, [bsizeCtx, a + l], v⟩

/-- `encode_has_palette_uv` (bool_coder.rs 1076–1080). -/
def hasPaletteUv (v sizeY : Nat) : Option Sel := some ⟨Default.palette_uv_mode, [if sizeY > 0 then 1 else 0], v⟩

/-- `encode_palette_size_y_minus_2`, `encode_palette_size_uv_minus_2` (bool_coder.rs 1082–1090). -/
def paletteSizeY (v bsizeCtx : Nat) : Option Sel := some ⟨Default.palette_y_size, [bsizeCtx], v⟩
def paletteSizeUv (v bsizeCtx : Nat) : Option Sel := some ⟨Default.palette_uv_size, [bsizeCtx], v⟩

/-- `encode_palette_color_idx_y` (bool_coder.rs 1092–1105). -/
def paletteColorY (v hash size : Nat) : Option Sel := do
  let ctx ← K.palette_color_context[hash]?
  if ctx ≥ 0 then
    some ⟨match size with
      | 2 => Default.palette_size_2_y_color | 3 => Default.palette_size_3_y_color | 4 => Default.palette_size_4_y_color
      | 5 => Default.palette_size_5_y_color | 6 => Default.palette_size_6_y_color | 7 => Default.palette_size_7_y_color
      | _ => Default.palette_size_8_y_color, [ctx.toNat], v⟩
  else none

/-- `encode_palette_color_idx_uv` (bool_coder.rs 1107–1120). -/
def paletteColorUv (v hash size : Nat) : Option Sel := do
  let ctx ← K.palette_color_context[hash]?
  if ctx ≥ 0 then
    some ⟨match size with
      | 2 => Default.palette_size_2_uv_color | 3 => Default.palette_size_3_uv_color | 4 => Default.palette_size_4_uv_color
      | 5 => Default.palette_size_5_uv_color | 6 => Default.palette_size_6_uv_color | 7 => Default.palette_size_7_uv_color
      | _ => Default.palette_size_8_uv_color, [ctx.toNat], v⟩
  else none

/-- `encode_delta_q_abs` (bool_coder.rs 1122–1125). -/
def deltaQAbs (v : Nat) : Option Sel := some ⟨Default.delta_q, [], v⟩

/-- `encode_delta_lf_abs` (bool_coder.rs 1127–1134). -/
def deltaLfAbs (v multi i : Nat) : Option Sel :=
  some (if multi = 0 then ⟨Default.delta_lf, [], v⟩ else ⟨Default.delta_lf_multi, [i], v⟩)

/-- `encode_intra_tx_type` (bool_coder.rs 1136–1146). -/
def intraTxType (t txSet txSize : Nat) (useFilter : Bool) (filterMode yMode : Nat) : Option Sel := do
  let dir ← if useFilter then K.filter_intra_mode_to_intra_dir[filterMode]? else some yMode
  let sqr ← K.tx_size_sqr[txSize]?
  some ⟨if txSet = K.TX_SET_INTRA_1 then Default.intra_tx_type_set1 else Default.intra_tx_type_set2, [sqr, dir], t⟩

/-- `encode_inter_tx_type` (bool_coder.rs 1148–1157). -/
def interTxType (t txSize txSet : Nat) : Option Sel := do
  let sqr ← K.tx_size_sqr[txSize]?
  some ⟨if txSet = K.TX_SET_INTER_1 then Default.inter_tx_type_set1 else if txSet = K.TX_SET_INTER_2
    then Default.inter_tx_type_set2 else Default.inter_tx_type_set3, [sqr], t⟩

/-- What `encode_comp_ref_type` takes from a neighbour: available, references, compound, intra (1160–1167). -/
def compSide (o : Option ModeInfo) : Bool × Int × Int × Bool × Bool :=
  orElse o (false, K.INTRA_FRAME, K.INTRA_FRAME, false, false) fun mi =>
    (true, mi.ref0, mi.ref1, !mi.intra && !mi.single, mi.intra)

/-- The context of `encode_comp_ref_type` (bool_coder.rs 1168–1195) from the two sides. -/
def compRefTypeCtx (x y : Bool × Int × Int × Bool × Bool) : Nat :=
  let (availU, above0, above1, aboveComp, aboveIntra) := x
  let (availL, left0, left1, leftComp, leftIntra) := y
  let aboveUni := aboveComp && isSamedirRefPair above0 above1
  let leftUni := leftComp && isSamedirRefPair left0 left1
  if availU && !aboveIntra && availL && !leftIntra then
    let same := (isSamedirRefPair above0 left0).toNat
    if !aboveComp && !leftComp then 1 + 2 * same
    else if !aboveComp then if !leftUni then 1 else 3 + same
    else if !leftComp then if !aboveUni then 1 else 3 + same
    else if !aboveUni && !leftUni then 0
    else if !aboveUni || leftUni then 2
    else 3 + ((decide (above0 = K.BWDREF_FRAME)) == (decide (left0 = K.BWDREF_FRAME))).toNat
  else if availU && availL then
    if aboveComp then 1 + 2 * aboveUni.toNat
    else if leftComp then 1 + 2 * leftUni.toNat
    else 2
  else if aboveComp then 4 * aboveUni.toNat
  else if leftComp then 4 * leftUni.toNat
  else 2

/-- `encode_comp_ref_type` (bool_coder.rs 1159–1198). -/
def compRefType (nb : Nbrs) (v : Nat) : Option Sel :=
  some ⟨Default.comp_ref_type, [compRefTypeCtx (compSide nb.above) (compSide nb.left)], v⟩

/-- `encode_uni_comp_ref` (bool_coder.rs 1200–1211), `_p1` (1213–1219), `_p2` (1221–1227). -/
def uniCompRef (nb : Nbrs) (v : Nat) : Option Sel := some ⟨Default.uni_comp_ref, [refCtx nb fwdRefs bwdRefs, 0], v⟩
def uniCompRefP1 (nb : Nbrs) (v : Nat) : Option Sel :=
  some ⟨Default.uni_comp_ref, [refCtx nb [K.LAST2_FRAME] [K.LAST3_FRAME, K.GOLDEN_FRAME], 1], v⟩
def uniCompRefP2 (nb : Nbrs) (v : Nat) : Option Sel :=
  some ⟨Default.uni_comp_ref, [refCtx nb [K.LAST3_FRAME] [K.GOLDEN_FRAME], 2], v⟩

/-- `encode_comp_group_idx` (bool_coder.rs 1229–1240). -/
def compGroupIdx (nb : Nbrs) (v : Nat) : Option Sel :=
  let side (o : Option ModeInfo) : Nat :=
    orElse o 0 fun mi => if !mi.single then mi.compGroupIdx else if mi.ref0 = K.ALTREF_FRAME then 3 else 0
  some ⟨Default.comp_group_idx, [min 5 (side nb.above + side nb.left)], v⟩

/-- `order_hints[ref_frame as usize]`: `NONE` wraps to a huge index. -/
def hintOf (hints : List Nat) (r : Int) : Option Nat := hints[asUsize r]?

/-- `encode_compound_idx` (bool_coder.rs 1242–1263). -/
def compoundIdx (nb : Nbrs) (v : Nat) (hints : List Nat) (hint : Nat) (r0 r1 : Int) (enable : Bool) (bits : Nat) :
    Option Sel := do
  let h0 ← hintOf hints r0
  let d0 ← getRelativeDist h0 hint enable bits
  let h1 ← hintOf hints r1
  let d1 ← getRelativeDist h1 hint enable bits
  let side (o : Option ModeInfo) : Nat :=
    orElse o 0 fun mi => if !mi.single then mi.compoundIdx else if mi.ref0 = K.ALTREF_FRAME then 1 else 0
  some ⟨Default.compound_idx, [(if d0.natAbs = d1.natAbs then 3 else 0) + (side nb.above + side nb.left)], v⟩

/-- `encode_compound_type`, `encode_interintra`, `encode_interintra_mode`, `encode_wedge_index`,
`encode_wedge_interintra`, `encode_use_obmc` (bool_coder.rs 1265–1295). -/
def compoundType (v bs : Nat) : Option Sel := some ⟨Default.compound_type, [bs], v⟩
def interintra (v bs : Nat) : Option Sel := do
  let ctx ← K.size_group[bs]?
  some ⟨Default.inter_intra, [ctx], v⟩
def interintraMode (v bs : Nat) : Option Sel := do
  let ctx ← K.size_group[bs]?
  some ⟨Default.inter_intra_mode, [ctx], v⟩
def wedgeIndex (v bs : Nat) : Option Sel := some ⟨Default.wedge_index, [bs], v⟩
def wedgeInterintra (v bs : Nat) : Option Sel := some ⟨Default.wedge_inter_intra, [bs], v⟩
def useObmc (v bs : Nat) : Option Sel := some ⟨Default.use_obmc, [bs], v⟩

/-- `encode_cfl_alpha_signs` (bool_coder.rs 1297–1300). -/
def cflSigns (v : Nat) : Option Sel := some ⟨Default.cfl_sign, [], v⟩

/-- `encode_cfl_alpha_u` (bool_coder.rs 1302–1306). -/
def cflAlphaU (v signs : Nat) : Option Sel :=
  if signs ≥ 2 then some ⟨Default.cfl_alpha, [signs - 1], v⟩ else none

/-- `encode_cfl_alpha_v` (bool_coder.rs 1308–1312). -/
def cflAlphaV (v signs : Nat) : Option Sel :=
  if signs % 3 < 2 then do
    let ctx ← usub (signs % 3 * 3 + signs / 3) 1
    some ⟨Default.cfl_alpha, [ctx], v⟩
  else none

/-- `encode_use_wiener`, `encode_use_sgrproj`, `encode_restoration_type` (bool_coder.rs 1314–1327). -/
def useWiener (v : Nat) : Option Sel := some ⟨Default.use_wiener, [], v⟩
def useSgrproj (v : Nat) : Option Sel := some ⟨Default.use_sgrproj, [], v⟩
def restorationType (v : Nat) : Option Sel := some ⟨Default.restoration_type, [], v⟩

end Sel

/-- `1 << k` of an `i32`, for `k < 32`: bit 31 is the sign. -/
def shl1 (k : Nat) : Int := if k = 31 then -2 ^ 31 else 2 ^ k

/-- `encode_split_or_horz` (bool_coder.rs 441–465) up to the call of `encode_symbol`: the two-symbol table it builds from
a partition table.  `1<<15 - psum` is `1 << (15 - psum)`; a shift amount outside 0…31 panics. -/
def splitOrHorzCdf (partition : List Int) (bs : Nat) : Option (List Int) := do
  let v ← partition[K.PARTITION_VERT]?
  let v' ← partition[K.PARTITION_VERT - 1]?
  let p5 := v - v' + v - v' + v - v' + v - v' + v - v'
  let psum ← if bs ≠ K.BLOCK_128X128 then do
      let a ← partition[K.PARTITION_VERT_4]?
      let b ← partition[K.PARTITION_VERT_4 - 1]?
      some (p5 + (a - b))
    else some p5
  if 0 ≤ 15 - psum ∧ 15 - psum < 32 then some [shl1 (15 - psum).toNat, 2 ^ 15, 0] else none

/-- `encode_split_or_vert` (bool_coder.rs 467–491) up to the call of `encode_symbol`. -/
def splitOrVertCdf (partition : List Int) (bs : Nat) : Option (List Int) := do
  let step (p : Nat) : Option Int := do
    let a ← partition[p]?
    let b ← partition[p - 1]?
    some (a - b)
  let s1 ← step K.PARTITION_VERT
  let s2 ← step K.PARTITION_SPLIT
  let s3 ← step K.PARTITION_HORZ_A
  let s4 ← step K.PARTITION_VERT_A
  let s5 ← step K.PARTITION_VERT_B
  let p5 := s1 + s2 + s3 + s4 + s5
  let psum ← if bs ≠ K.BLOCK_128X128 then (step K.PARTITION_VERT_4).map (p5 + ·) else some p5
  if 0 ≤ 15 - psum ∧ 15 - psum < 32 then some [shl1 (15 - psum).toNat, 2 ^ 15, 0] else none

/-- A call of one of the `encode_<element>` functions: the value coded and the arguments its context uses. -/
inductive Elem where
  | intraFrameYMode (y above left : Nat)
  | yMode (y bs : Nat)
  | uvMode (uv bs : Nat) (lossless ssx ssy : Bool)
  | angleDelta (mode delta : Nat)
  | partition (bs : Nat) (above left : Bool) (p : Nat)
  | txDepth (maxRect maxDepth depth : Nat)
  | txfmSplit (rowEdge colEdge : Bool) (txSize bs split : Nat)
  | segmentId (id : Nat) (pu pl pul : Int)
  | segIdPredicted (v : Nat)
  | newMv (v ctx : Nat)
  | zeroMv (v ctx : Nat)
  | refMv (v ctx : Nat)
  | drlMode (v idx : Nat) (stack : List Nat)
  | isInter (v : Bool)
  | useFilterIntra (v bs : Nat)
  | filterIntraMode (v : Nat)
  | compMode (v : Nat)
  | skipMode (v : Nat)
  | skip (v : Nat)
  | compRef (v : Nat)
  | compRefP1 (v : Nat)
  | compRefP2 (v : Nat)
  | compBwdref (v : Nat)
  | compBwdrefP1 (v : Nat)
  | singleRefP1 (v : Nat)
  | singleRefP2 (v : Nat)
  | singleRefP3 (v : Nat)
  | singleRefP4 (v : Nat)
  | singleRefP5 (v : Nat)
  | singleRefP6 (v : Nat)
  | compoundMode (v refMvCtx newMvCtx : Nat)
  | interpFilter (f dir : Nat)
  | motionMode (v bs : Nat)
  | mvJoint (v ctx : Nat)
  | mvSign (v ctx comp : Nat)
  | mvClass (v ctx comp : Nat)
  | mvClass0Bit (v ctx comp : Nat)
  | mvClass0Fr (v bit ctx comp : Nat)
  | mvClass0Hp (v ctx comp : Nat)
  | mvFr (v ctx comp : Nat)
  | mvHp (v ctx comp : Nat)
  | mvBit (v i ctx comp : Nat)
  | allZero (t : Sel.TxPos) (v plane txSize txSizeCtx bs : Nat)
  | eobPt (e : Sel.TxEnv) (k v ptype : Nat)
  | eobExtra (v txSizeCtx ptype pt : Nat)
  | coeffBase (e : Sel.TxEnv) (v txSizeCtx ptype c : Nat) (scan : List Nat) (quant : List Int)
  | coeffBaseEob (e : Sel.TxEnv) (v txSizeCtx ptype c : Nat) (scan : List Nat) (quant : List Int)
  | dcSign (t : Sel.TxPos) (ptype plane : Nat)
  | coeffBr (e : Sel.TxEnv) (v txSizeCtx ptype pos : Nat) (quant : List Int)
  | hasPaletteY (v bsizeCtx : Nat)
  | hasPaletteUv (v sizeY : Nat)
  | paletteSizeY (v bsizeCtx : Nat)
  | paletteSizeUv (v bsizeCtx : Nat)
  | paletteColorY (v hash size : Nat)
  | paletteColorUv (v hash size : Nat)
  | deltaQAbs (v : Nat)
  | deltaLfAbs (v multi i : Nat)
  | intraTxType (t txSet txSize : Nat) (useFilter : Bool) (filterMode ym : Nat)
  | interTxType (t txSize txSet : Nat)
  | compRefType (v : Nat)
  | uniCompRef (v : Nat)
  | uniCompRefP1 (v : Nat)
  | uniCompRefP2 (v : Nat)
  | compGroupIdx (v : Nat)
  | compoundIdx (v : Nat) (hints : List Nat) (hint : Nat) (r0 r1 : Int) (enable : Bool) (bits : Nat)
  | compoundType (v bs : Nat)
  | interintra (v bs : Nat)
  | interintraMode (v bs : Nat)
  | wedgeIndex (v bs : Nat)
  | wedgeInterintra (v bs : Nat)
  | useObmc (v bs : Nat)
  | cflSigns (v : Nat)
  | cflAlphaU (v signs : Nat)
  | cflAlphaV (v signs : Nat)
  | useWiener (v : Nat)
  | useSgrproj (v : Nat)
  | restorationType (v : Nat)

/-- The table and symbol the call passes to `encode_symbol`. -/
def Elem.select : Elem → Nbrs → Option Sel
  | .intraFrameYMode y above left, _ => Sel.intraFrameYMode y above left
  | .yMode y bs, _ => Sel.yMode y bs
  | .uvMode uv bs lossless ssx ssy, _ => Sel.uvMode uv bs lossless ssx ssy
  | .angleDelta mode delta, _ => Sel.angleDelta mode delta
  | .partition bs above left p, _ => Sel.partition bs above left p
  | .txDepth maxRect maxDepth depth, nb => Sel.txDepth nb maxRect maxDepth depth
  | .txfmSplit rowEdge colEdge txSize bs split, nb => Sel.txfmSplit nb rowEdge colEdge txSize bs split
  | .segmentId id pu pl pul, _ => Sel.segmentId id pu pl pul
  | .segIdPredicted v, nb => Sel.segIdPredicted nb v
  | .newMv v ctx, _ => Sel.newMv v ctx
  | .zeroMv v ctx, _ => Sel.zeroMv v ctx
  | .refMv v ctx, _ => Sel.refMv v ctx
  | .drlMode v idx stack, _ => Sel.drlMode v idx stack
  | .isInter v, nb => Sel.isInter nb v
  | .useFilterIntra v bs, _ => Sel.useFilterIntra v bs
  | .filterIntraMode v, _ => Sel.filterIntraMode v
  | .compMode v, nb => Sel.compMode nb v
  | .skipMode v, nb => Sel.skipMode nb v
  | .skip v, nb => Sel.skip nb v
  | .compRef v, nb => Sel.compRef nb v
  | .compRefP1 v, nb => Sel.compRefP1 nb v
  | .compRefP2 v, nb => Sel.compRefP2 nb v
  | .compBwdref v, nb => Sel.compBwdref nb v
  | .compBwdrefP1 v, nb => Sel.compBwdrefP1 nb v
  | .singleRefP1 v, nb => Sel.singleRefP1 nb v
  | .singleRefP2 v, nb => Sel.singleRefP2 nb v
  | .singleRefP3 v, nb => Sel.singleRefP3 nb v
  | .singleRefP4 v, nb => Sel.singleRefP4 nb v
  | .singleRefP5 v, nb => Sel.singleRefP5 nb v
  | .singleRefP6 v, nb => Sel.singleRefP6 nb v
  | .compoundMode v refMvCtx newMvCtx, _ => Sel.compoundMode v refMvCtx newMvCtx
  | .interpFilter f dir, nb => Sel.interpFilter nb f dir
  | .motionMode v bs, _ => Sel.motionMode v bs
  | .mvJoint v ctx, _ => Sel.mvJoint v ctx
  | .mvSign v ctx comp, _ => Sel.mvSign v ctx comp
  | .mvClass v ctx comp, _ => Sel.mvClass v ctx comp
  | .mvClass0Bit v ctx comp, _ => Sel.mvClass0Bit v ctx comp
  | .mvClass0Fr v bit ctx comp, _ => Sel.mvClass0Fr v bit ctx comp
  | .mvClass0Hp v ctx comp, _ => Sel.mvClass0Hp v ctx comp
  | .mvFr v ctx comp, _ => Sel.mvFr v ctx comp
  | .mvHp v ctx comp, _ => Sel.mvHp v ctx comp
  | .mvBit v i ctx comp, _ => Sel.mvBit v i ctx comp
  | .allZero t v plane txSize txSizeCtx bs, nb => Sel.allZero nb t v plane txSize txSizeCtx bs
  | .eobPt e k v ptype, _ => Sel.eobPt e k v ptype
  | .eobExtra v txSizeCtx ptype pt, _ => Sel.eobExtra v txSizeCtx ptype pt
  | .coeffBase e v txSizeCtx ptype c scan quant, _ => Sel.coeffBase e v txSizeCtx ptype c scan quant
  | .coeffBaseEob e v txSizeCtx ptype c scan quant, _ => Sel.coeffBaseEob e v txSizeCtx ptype c scan quant
  | .dcSign t ptype plane, nb => Sel.dcSign nb t ptype plane
  | .coeffBr e v txSizeCtx ptype pos quant, _ => Sel.coeffBr e v txSizeCtx ptype pos quant
  | .hasPaletteY v bsizeCtx, nb => Sel.hasPaletteY nb v bsizeCtx
  | .hasPaletteUv v sizeY, _ => Sel.hasPaletteUv v sizeY
  | .paletteSizeY v bsizeCtx, _ => Sel.paletteSizeY v bsizeCtx
  | .paletteSizeUv v bsizeCtx, _ => Sel.paletteSizeUv v bsizeCtx
  | .paletteColorY v hash size, _ => Sel.paletteColorY v hash size
  | .paletteColorUv v hash size, _ => Sel.paletteColorUv v hash size
  | .deltaQAbs v, _ => Sel.deltaQAbs v
  | .deltaLfAbs v multi i, _ => Sel.deltaLfAbs v multi i
  | .intraTxType t txSet txSize useFilter filterMode ym, _ => Sel.intraTxType t txSet txSize useFilter filterMode ym
  | .interTxType t txSize txSet, _ => Sel.interTxType t txSize txSet
  | .compRefType v, nb => Sel.compRefType nb v
  | .uniCompRef v, nb => Sel.uniCompRef nb v
  | .uniCompRefP1 v, nb => Sel.uniCompRefP1 nb v
  | .uniCompRefP2 v, nb => Sel.uniCompRefP2 nb v
  | .compGroupIdx v, nb => Sel.compGroupIdx nb v
  | .compoundIdx v hints hint r0 r1 enable bits, nb => Sel.compoundIdx nb v hints hint r0 r1 enable bits
  | .compoundType v bs, _ => Sel.compoundType v bs
  | .interintra v bs, _ => Sel.interintra v bs
  | .interintraMode v bs, _ => Sel.interintraMode v bs
  | .wedgeIndex v bs, _ => Sel.wedgeIndex v bs
  | .wedgeInterintra v bs, _ => Sel.wedgeInterintra v bs
  | .useObmc v bs, _ => Sel.useObmc v bs
  | .cflSigns v, _ => Sel.cflSigns v
  | .cflAlphaU v signs, _ => Sel.cflAlphaU v signs
  | .cflAlphaV v signs, _ => Sel.cflAlphaV v signs
  | .useWiener v, _ => Sel.useWiener v
  | .useSgrproj v, _ => Sel.useSgrproj v
  | .restorationType v, _ => Sel.restorationType v

end Av1
