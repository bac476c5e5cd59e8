import Verif.Model.Context

/-!
# What an AV1 decoder allows for each syntax element

`Elem.Legal` is the range of the value and of the arguments by the AV1 specification (the syntax tables and the symbol
semantics), `Sel.InTable` says that the chosen table exists and has the symbol.
-/

namespace Av1

/-- `idx` addresses a table of an array with dimensions `dims` (the last one is the table itself) and `sym` is one of its
symbols; a table of `n` entries has `n - 1` symbols. -/
def InDims : List Nat → List Nat → Int → Prop
  | [], [n], sym => 0 ≤ sym ∧ sym + 1 < n
  | i :: is, d :: ds, sym => i < d ∧ InDims is ds sym
  | _, _, _ => False

/-- The table exists in `struct CDF` and has the symbol. -/
def Sel.InTable (s : Sel) : Prop := s.fam ∈ Default.families ∧ InDims s.idx s.fam.dims s.sym

/-- A block's mode info as an AV1 encoder may produce it. -/
structure ModeInfo.Valid (mi : ModeInfo) : Prop where
  size : mi.miSize < 22
  tx : mi.txSize < 19
  txType : mi.txType < 16
  pred : mi.segIdPredicted ≤ 1
  skipMode : mi.skipMode ≤ 1
  ref0 : -1 ≤ mi.ref0 ∧ mi.ref0 ≤ 7
  ref1 : -1 ≤ mi.ref1 ∧ mi.ref1 ≤ 7
  interp0 : mi.interp0 ≤ 3
  interp1 : mi.interp1 ≤ 3
  level : mi.level.length = 3
  dc : mi.dc.length = 3
  palette : mi.palette.length = 3
  group : mi.compGroupIdx ≤ 1
  cidx : mi.compoundIdx ≤ 1

def Nbrs.Valid (nb : Nbrs) : Prop :=
  (∀ mi, nb.above = some mi → mi.Valid) ∧ (∀ mi, nb.left = some mi → mi.Valid) ∧ (∀ mi, nb.cur = some mi → mi.Valid)

/-- Pixels of the coded part of a transform block (64-point sides are cut to 32). -/
def codedDims : List (Nat × Nat) :=
  [(4, 4), (8, 8), (16, 16), (32, 32), (32, 32), (4, 8), (8, 4), (8, 16), (16, 8), (16, 32), (32, 16), (32, 32), (32, 32),
   (4, 16), (16, 4), (8, 32), (32, 8), (16, 32), (32, 16)]

/-- The transform types of the sets of the AV1 specification.  0 DCT_DCT, 1 ADST_DCT, 2 DCT_ADST,
3 ADST_ADST, 4 FLIPADST_DCT, 5 DCT_FLIPADST, 6 FLIPADST_FLIPADST, 7 ADST_FLIPADST, 8 FLIPADST_ADST, 9 IDTX, 10 V_DCT,
11 H_DCT, 12 V_ADST, 13 H_ADST, 14 V_FLIPADST, 15 H_FLIPADST. -/
inductive TxSet where
  | dctOnly | intra1 | intra2 | inter1 | inter2 | inter3
deriving DecidableEq, Repr

def TxSet.types : TxSet → List Nat
  | .dctOnly => [0]
  | .intra1 => [0, 1, 2, 3, 9, 10, 11]
  | .intra2 => [0, 1, 2, 3, 9]
  | .inter1 => [0, 1, 2, 3, 4, 5, 6, 7, 8, 9, 10, 11, 12, 13, 14, 15]
  | .inter2 => [0, 1, 2, 3, 4, 5, 6, 7, 8, 9, 10, 11]
  | .inter3 => [0, 9]

/-- Arguments of `compute_tx_type` an AV1 encoder may pass, and blocks stored where it looks. -/
structure Sel.TxEnv.Ok (e : Sel.TxEnv) : Prop where
  tx : e.txSize < 19
  uv : e.uvMode < 14
  stored : ∀ r c, ∃ t, e.at_ r c = some t ∧ t < 16

/-- Value and arguments in the ranges of the AV1 specification.  `nb.cur` matters only where the element reads it. -/
def Elem.Legal (nb : Nbrs) : Elem → Prop
  | .intraFrameYMode y above left => y < 13 ∧ above < 13 ∧ left < 13
  | .yMode y bs => y < 13 ∧ bs < 22
  | .uvMode uv bs lossless ssx ssy =>
    bs < 22 ∧ (uv < 13 ∨ uv = 13 ∧ Sel.cflTables bs lossless ssx ssy = some true)
  | .angleDelta mode delta => 1 ≤ mode ∧ mode ≤ 8 ∧ delta ≤ 6
  | .partition bs _ _ p => bs = K.BLOCK_8X8 ∧ p < 4 ∨ (bs = K.BLOCK_16X16 ∨ bs = K.BLOCK_32X32 ∨ bs = K.BLOCK_64X64) ∧ p < 10 ∨
    bs = K.BLOCK_128X128 ∧ p < 8
  | .txDepth maxRect maxDepth depth => maxRect < 19 ∧ maxDepth ≤ 4 ∧ depth ≤ 2 ∧ (maxDepth ≤ 1 → depth ≤ 1)
  | .txfmSplit rowEdge colEdge txSize bs split => txSize < 19 ∧ bs < 22 ∧ split ≤ 1 ∧
    ((rowEdge = false ∨ colEdge = false) → nb.above ≠ none)
  | .segmentId id _ _ _ => id < 8
  | .segIdPredicted v => v ≤ 1
  | .newMv v ctx => v ≤ 1 ∧ ctx < 6
  | .zeroMv v ctx => v ≤ 1 ∧ ctx < 2
  | .refMv v ctx => v ≤ 1 ∧ ctx < 6
  | .drlMode v idx stack => v ≤ 1 ∧ idx < stack.length ∧ ∀ c ∈ stack, c < 3
  | .isInter _ => True
  | .useFilterIntra v bs => v ≤ 1 ∧ bs < 22
  | .filterIntraMode v => v < 5
  | .compMode v | .skipMode v | .skip v | .compRef v | .compRefP1 v | .compRefP2 v | .compBwdref v | .compBwdrefP1 v
  | .singleRefP1 v | .singleRefP2 v | .singleRefP3 v | .singleRefP4 v | .singleRefP5 v | .singleRefP6 v => v ≤ 1
  | .compoundMode v refMvCtx _ => v < 8 ∧ refMvCtx < 6
  | .interpFilter f dir => f < 3 ∧ dir < 2 ∧ nb.cur ≠ none
  | .motionMode v bs => v < 3 ∧ bs < 22
  | .mvJoint v ctx => v < 4 ∧ ctx < 2
  | .mvSign v ctx comp | .mvClass0Bit v ctx comp | .mvClass0Hp v ctx comp | .mvHp v ctx comp => v ≤ 1 ∧ ctx < 2 ∧ comp < 2
  | .mvClass v ctx comp => v < 11 ∧ ctx < 2 ∧ comp < 2
  | .mvClass0Fr v bit ctx comp => v < 4 ∧ bit < 2 ∧ ctx < 2 ∧ comp < 2
  | .mvFr v ctx comp => v < 4 ∧ ctx < 2 ∧ comp < 2
  | .mvBit v i ctx comp => v ≤ 1 ∧ i < 10 ∧ ctx < 2 ∧ comp < 2
  | .allZero t v plane txSize txSizeCtx bs => v ≤ 1 ∧ plane < 3 ∧ txSize < 19 ∧ txSizeCtx < 5 ∧ bs < 22 ∧
    ∃ r, getPlaneResidualSize bs plane t.ssx t.ssy = some r ∧ r < 22
  | .eobPt e k v ptype => e.Ok ∧ k < 7 ∧ v < k + 5 ∧ ptype < 2
  | .eobExtra v txSizeCtx ptype pt => v ≤ 1 ∧ txSizeCtx < 5 ∧ ptype < 2 ∧ pt < 9
  | .coeffBase e v txSizeCtx ptype c scan quant => e.Ok ∧ v < 4 ∧ txSizeCtx < 5 ∧ ptype < 2 ∧ c < scan.length ∧
    ∀ w h, codedDims[e.txSize]? = some (w, h) → w * h ≤ quant.length ∧ ∀ p ∈ scan, p < w * h
  | .coeffBaseEob e v txSizeCtx ptype c scan quant => e.Ok ∧ v < 3 ∧ txSizeCtx < 5 ∧ ptype < 2 ∧ c < scan.length ∧
    ∀ w h, codedDims[e.txSize]? = some (w, h) → w * h ≤ quant.length ∧ ∀ p ∈ scan, p < w * h
  | .dcSign _ ptype plane => ptype < 2 ∧ plane < 3
  | .coeffBr e v txSizeCtx ptype pos quant => e.Ok ∧ v < 4 ∧ txSizeCtx < 5 ∧ ptype < 2 ∧
    ∀ w h, codedDims[e.txSize]? = some (w, h) → w * h ≤ quant.length ∧ pos < w * h
  | .hasPaletteY v bsizeCtx => v ≤ 1 ∧ bsizeCtx < 7
  | .hasPaletteUv v _ => v ≤ 1
  | .paletteSizeY v bsizeCtx | .paletteSizeUv v bsizeCtx => v < 7 ∧ bsizeCtx < 7
  | .paletteColorY v hash size | .paletteColorUv v hash size => 2 ≤ size ∧ size ≤ 8 ∧ v < size ∧ hash ∈ [2, 5, 6, 7, 8]
  | .deltaQAbs v => v < 4
  | .deltaLfAbs v multi i => v < 4 ∧ (multi ≠ 0 → i < 4)
  | .intraTxType t txSet txSize _ filterMode ym => txSize ∈ [0, 1, 2, 5, 6, 7, 8, 13, 14] ∧ filterMode < 5 ∧ ym < 13 ∧
    (txSet = K.TX_SET_INTRA_1 ∧ t ∈ TxSet.intra1.types ∨ txSet = K.TX_SET_INTRA_2 ∧ t ∈ TxSet.intra2.types)
  | .interTxType t txSize txSet => txSize < 19 ∧ txSize ∉ [4, 11, 12, 17, 18] ∧
    (txSet = K.TX_SET_INTER_1 ∧ t ∈ TxSet.inter1.types ∨ txSet = K.TX_SET_INTER_2 ∧ t ∈ TxSet.inter2.types ∨
      txSet = K.TX_SET_INTER_3 ∧ t ∈ TxSet.inter3.types)
  | .compRefType v | .uniCompRef v | .uniCompRefP1 v | .uniCompRefP2 v | .compGroupIdx v => v ≤ 1
  | .compoundIdx v hints _ r0 r1 _ bits => v ≤ 1 ∧ hints.length = K.REFS_PER_FRAME ∧ 1 ≤ r0 ∧ r0 ≤ 7 ∧ 1 ≤ r1 ∧ r1 ≤ 7 ∧
    1 ≤ bits ∧ bits ≤ 8
  | .compoundType v bs | .interintra v bs | .wedgeInterintra v bs | .useObmc v bs => v ≤ 1 ∧ bs < 22
  | .interintraMode v bs => v < 4 ∧ bs < 22
  | .wedgeIndex v bs => v < 16 ∧ bs < 22
  | .cflSigns v => v < 8
  | .cflAlphaU v signs => v < 16 ∧ signs < 8 ∧ (signs + 1) / 3 ≠ 0
  | .cflAlphaV v signs => v < 16 ∧ signs < 8 ∧ (signs + 1) % 3 ≠ 0
  | .useWiener v | .useSgrproj v => v ≤ 1
  | .restorationType v => v < 3

end Av1
