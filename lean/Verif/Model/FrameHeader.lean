import Verif.Model.Obu
import Verif.Model.Tables

/-!
# `src/obu_encoder.rs`: sections of the frame header from tile info to transform mode

Each section is a function from the part of `Frame` / `EncoderContext` it reads to the elements it appends, and a
function to the part it leaves behind (`…After`).  `none` = panic.  `usize` sizes are assumed to be far below `2^63`
(frames of at most `2^30` samples a side), so that sums of sizes do not overflow.
-/

namespace Av1

/-- `push_bit` in a loop. -/
def pushOnes (n : Nat) : Option Raw := some (List.replicate n 1)

/-- `encode_su` (bool_coder.rs 308–319). -/
def pushSu (v : Int) (n : Nat) : Option Raw := (encodeSu v n).map raw

/-- `encode_ns` (bool_coder.rs 332–347). -/
def pushNs (v n : Nat) : Option Raw := (encodeNs v n).map raw

/-! ## Tile info (750–815) -/

/-- The loop of `tile_log2` (763–769); `fuel` 64 is the width of `usize`, beyond which `blk_size << k` panics. -/
def tileLog2Go (blk target : Nat) : Nat → Nat → Option Nat
  | 0, _ => none
  | fuel + 1, k => if blk <<< k < target then tileLog2Go blk target fuel (k + 1) else some k

/-- `tile_log2` (763–769). -/
def tileLog2 (blk target : Nat) : Option Nat := tileLog2Go blk target 64 0

/-- Superblocks in `mi` units of 4 samples (753–758). -/
def sbCount (use128 : Bool) (mi : Nat) : Nat := if use128 then (mi + 31) >>> 5 else (mi + 15) >>> 4

/-- `sb_shift` (759). -/
def sbShift (use128 : Bool) : Nat := if use128 then 5 else 4

/-- `frame.mi_cols()`, `frame.mi_rows()` (frame.rs 365–371). -/
def miSize (samples : Nat) : Nat := 2 * ((samples + 7) >>> 3)

/-- `tile_cols_log2()`, `tile_rows_log2()` (frame.rs 385–391). -/
def startsLog2 (len : Nat) : Option Nat := (msb16 (len % 2 ^ 16))

/-- The `while` loop over tile starts (782–787, 800–805): the positions assigned, in superblocks. -/
def startsGo (total width : Nat) : Nat → Nat → List Nat
  | 0, _ => []
  | fuel + 1, start => if start < total then start :: startsGo total width fuel (start + width) else []

/-- `tile_width_sb` (779): superblocks per tile. -/
def tileWidth (total k : Nat) : Nat := (total + (1 <<< k) - 1) >>> k

/-- The values assigned to `mi_col_starts[0..=i]` (782–788); a width of 0 never terminates but needs `total = 0`, where
the loop does not start. -/
def uniformStarts (total k shift mi : Nat) : List Nat :=
  (startsGo total (tileWidth total k) total 0).map (· <<< shift) ++ [mi]

/-- Assigning `xs[0], xs[1], …` to a vector: beyond its length it panics. -/
def assignAll (vec xs : List Nat) : Option (List Nat) :=
  if xs.length ≤ vec.length then some (xs ++ vec.drop xs.length) else none

/-- What tile info reads. -/
structure TileIn where
  width : Nat
  height : Nat
  use128 : Bool
  uniform : Bool
  /-- `tile_col_starts.len()` -/
  cols : Nat
  /-- `tile_row_starts.len()` -/
  rows : Nat
  contextUpdateTileId : Nat
  tileSizeBytes : Nat
  /-- `ecx.mi_col_starts` -/
  miColStarts : List Nat
  miRowStarts : List Nat
deriving Repr, DecidableEq

/-- The limits of lines 761–773: `min_log2_tile_cols`, `max_log2_tile_cols`, `max_log2_tile_rows`, `min_log2_tiles`. -/
def tileLimits (use128 : Bool) (sbCols sbRows : Nat) : Option (Nat × Nat × Nat × Nat) := do
  let sbSize := sbShift use128 + 2
  let minCols ← tileLog2 (4096 >>> sbSize) sbCols
  let maxCols ← tileLog2 1 (min sbCols 64)
  let maxRows ← tileLog2 1 (min sbRows 64)
  let area ← tileLog2 ((4096 * 2304) >>> (2 * sbSize)) (sbRows * sbCols)
  some (minCols, maxCols, maxRows, max minCols area)

/-- The uniform branch (775–807): bits, and the two start vectors.  `min_log2_tiles - tile_cols_log2()` is a `usize`. -/
def encodeUniform (t : TileIn) : Option (Raw × List Nat × List Nat) := do
  let miCols := miSize t.width
  let miRows := miSize t.height
  let sbCols := sbCount t.use128 miCols
  let sbRows := sbCount t.use128 miRows
  let (minCols, _, _, minTiles) ← tileLimits t.use128 sbCols sbRows
  let colsLog2 ← startsLog2 t.cols
  let colInc ← usub colsLog2 minCols
  let colStarts ← assignAll t.miColStarts (uniformStarts sbCols colsLog2 (sbShift t.use128) miCols)
  let minRows ← usub minTiles colsLog2
  let rowsLog2 ← startsLog2 t.rows
  let rowInc ← usub rowsLog2 minRows
  let rowStarts ← assignAll t.miRowStarts (uniformStarts sbRows rowsLog2 (sbShift t.use128) miRows)
  let bits ← cat [pushOnes colInc, pushU 0, pushOnes rowInc, pushU 0]
  some (bits, colStarts, rowStarts)

/-- The trailing fields (810–815). -/
def encodeTileTail (t : TileIn) : Option Raw := do
  let c ← startsLog2 t.cols
  let r ← startsLog2 t.rows
  if c > 0 ∨ r > 0 then
    let s ← usub t.tileSizeBytes 1
    cat [pushN t.contextUpdateTileId (r + c), pushN s 2]
  else some []

/-- Tile info (750–815).  The non-uniform branch is a TODO that writes nothing. -/
def encodeTileInfo (t : TileIn) : Option Raw := do
  let _ ← tileLimits t.use128 (sbCount t.use128 (miSize t.width)) (sbCount t.use128 (miSize t.height))
  if t.uniform then
    let (bits, _, _) ← encodeUniform t
    cat [pushB true, some bits, encodeTileTail t]
  else cat [pushB false, encodeTileTail t]

/-- What tile info leaves behind. -/
def tileAfter (t : TileIn) : Option TileIn := do
  let c ← startsLog2 t.cols
  let r ← startsLog2 t.rows
  let t := if c > 0 ∨ r > 0 then t else { t with contextUpdateTileId := 0 }
  if t.uniform then
    let (_, cs, rs) ← encodeUniform t
    some { t with miColStarts := cs, miRowStarts := rs }
  else some t

/-- `tile_row`, `tile_col` of tile `n` (tile_encoder.rs 116–117). -/
def tilePosition (n cols rows : Nat) : Nat × Nat := (n / rows, n / cols)

/-! ## Quantization parameters (817–858) -/

/-- `QuantizationParams` (frame.rs 19–27) with the `delta_q_*` fields of `EncoderContext`. -/
structure Quant where
  baseQIdx : Nat
  yDc : Int
  uDc : Int
  uAc : Int
  vDc : Int
  vAc : Int
  diffUvDelta : Bool
  usingQm : Bool
  qmY : Nat
  qmU : Nat
  qmV : Nat
deriving Repr, DecidableEq

/-- `encode_delta_q` (819–826). -/
def encodeDeltaQ (d : Int) : Option Raw := if d ≠ 0 then cat [pushB true, pushSu d 7] else pushB false

/-- `diff_uv_delta` after lines 828–833. -/
def diffAfter (q : Quant) (sep : Bool) : Bool := if sep then q.diffUvDelta else false

/-- Lines 828–848. -/
def encodeChromaQ (q : Quant) (planes : Nat) (sep : Bool) : Option Raw :=
  if planes > 1 then
    cat [if sep then pushB q.diffUvDelta else cat [], encodeDeltaQ q.uDc, encodeDeltaQ q.uAc,
      if diffAfter q sep then cat [encodeDeltaQ q.vDc, encodeDeltaQ q.vAc] else cat []]
  else cat []

/-- Lines 849–858. -/
def encodeQm (q : Quant) (sep : Bool) : Option Raw :=
  cat [pushB q.usingQm,
    if q.usingQm then cat [pushN q.qmY 4, pushN q.qmU 4, if sep then pushN q.qmV 4 else cat []] else cat []]

/-- Quantization parameters (817–858). -/
def encodeQuant (q : Quant) (planes : Nat) (sep : Bool) : Option Raw :=
  cat [pushN q.baseQIdx 8, encodeDeltaQ q.yDc, encodeChromaQ q planes sep, encodeQm q sep]

/-- What the section leaves behind. -/
def quantAfter (q : Quant) (planes : Nat) (sep : Bool) : Quant :=
  let q := if planes > 1 then
      let q := { q with diffUvDelta := diffAfter q sep }
      if q.diffUvDelta then q else { q with vDc := q.uDc, vAc := q.uAc }
    else { q with uDc := 0, uAc := 0, vDc := 0, vAc := 0 }
  if q.usingQm && !sep then { q with qmV := q.qmU } else q

/-! ## Segmentation parameters (860–912) -/

/-- `SegmentationParams` (frame.rs 29–35). -/
structure Seg where
  enabled : Bool
  updateMap : Bool
  temporalUpdate : Bool
  updateData : Bool
  /-- `feature_value`: 8 segments of 7 features. -/
  features : List (List (Option Int))
deriving Repr, DecidableEq

/-- One feature (879–894). -/
def encodeFeature (j : Nat) (v : Option Int) : Option Raw :=
  match v with
  | none => pushB false
  | some fv => do
    let n ← K.segmentation_feature_bits[j]?
    let s ← K.segmentation_feature_signed[j]?
    cat [pushB true, if s then pushSu fv (1 + n) else pushSu fv n]

/-- The value the feature gets (881, 886–895). -/
def featureAfter (j : Nat) (v : Option Int) : Option Int :=
  match v with
  | none => some 0
  | some fv =>
    let lim : Int := K.segmentation_feature_max.getD j 0
    some (if K.segmentation_feature_signed.getD j false then clip3 (-lim) lim fv else clip3 0 lim fv)

/-- The flags of lines 863–873 after them. -/
def segFlags (s : Seg) (primaryNone : Bool) : Seg :=
  if primaryNone then { s with updateMap := true, temporalUpdate := false, updateData := true } else s

/-- Segmentation parameters (860–902). -/
def encodeSeg (s : Seg) (primaryNone : Bool) : Option Raw :=
  cat [pushB s.enabled,
    if s.enabled then
      cat [
        if primaryNone then cat [] else
          cat [pushB s.updateMap, if s.updateMap then pushB s.temporalUpdate else cat [], pushB s.updateData],
        if (segFlags s primaryNone).updateData then
          cat (s.features.map fun seg => cat (seg.mapIdx encodeFeature))
        else cat []]
    else cat []]

/-- What the section leaves behind in `segmentation_params` (860–902). -/
def segAfter (s : Seg) (primaryNone : Bool) : Seg :=
  if s.enabled then
    let s := segFlags s primaryNone
    if s.updateData then { s with features := s.features.map fun seg => seg.mapIdx featureAfter } else s
  else { s with features := s.features.map fun seg => seg.map fun _ => none }

/-- `seg_id_pre_skip` (903, 907–910): some feature from `SEG_LVL_REF_FRAME` = 5 on is present. -/
def segIdPreSkip (features : List (List (Option Int))) : Bool :=
  features.any fun seg => (seg.drop 5).any Option.isSome

/-- `last_active_seg_id` (904, 905–909): the last segment with a feature. -/
def lastActiveSegId (features : List (List (Option Int))) : Nat :=
  (features.zipIdx.filter fun x => x.1.any Option.isSome).foldl (fun _ x => x.2) 0

/-! ## Delta q and delta lf parameters (914–942) -/

/-- `DeltaQParams`, `DeltaLFParams` (frame.rs 37–46). -/
structure Deltas where
  qPresent : Bool
  qRes : Nat
  lfPresent : Bool
  lfRes : Nat
  lfMulti : Bool
deriving Repr, DecidableEq

/-- `delta_q_present` after lines 915–919. -/
def qPresentAfter (d : Deltas) (baseQIdx : Nat) : Bool := if baseQIdx > 0 then d.qPresent else false

/-- Delta q parameters (914–924); `delta_q_res` is pushed as one element. -/
def encodeDeltaQParams (d : Deltas) (baseQIdx : Nat) : Option Raw :=
  cat [if baseQIdx > 0 then pushB d.qPresent else cat [],
    if qPresentAfter d baseQIdx then pushU d.qRes else cat []]

/-- `delta_lf_present` inside the branch of lines 928–932. -/
def lfPresentAfter (d : Deltas) (intrabc : Bool) : Bool := if !intrabc then d.lfPresent else false

/-- Delta lf parameters (926–940); `d` after the delta q section. -/
def encodeDeltaLfParams (d : Deltas) (intrabc : Bool) : Option Raw :=
  if d.qPresent then
    cat [if !intrabc then pushB d.lfPresent else cat [],
      if lfPresentAfter d intrabc then cat [pushN d.lfRes 2, pushB d.lfMulti] else cat []]
  else cat []

/-- What the two sections leave behind. -/
def deltaQAfter (d : Deltas) (baseQIdx : Nat) : Deltas :=
  let p := qPresentAfter d baseQIdx
  { d with qPresent := p, qRes := if p then d.qRes else 0 }

def deltaLfAfter (d : Deltas) (intrabc : Bool) : Deltas :=
  if d.qPresent then
    let p := lfPresentAfter d intrabc
    { d with lfPresent := p, lfRes := if p then d.lfRes else 0, lfMulti := p && d.lfMulti }
  else d

/-! ## Lossless (947–985) -/

/-- `seg_feature_active_idx` (948–950). -/
def segFeature (s : Seg) (idx feature : Nat) : Option Int :=
  if s.enabled then (s.features.getD idx []).getD feature none else none

/-- `get_qindex` (951–964); `current` = `ecx.current_q_index`. -/
def getQIndex (ignore : Bool) (segId : Nat) (s : Seg) (baseQIdx current : Nat) (deltaQPresent : Bool) : Nat :=
  match segFeature s segId 0 with
  | some data =>
    let q : Int := if !ignore && deltaQPresent then current + data else baseQIdx + data
    (clip3 0 255 q).toNat
  | none => if ignore then current else baseQIdx

/-- `lossless_array` (965–969). -/
def losslessArray (s : Seg) (q : Quant) (current : Nat) (deltaQPresent : Bool) : List Bool :=
  (List.range 8).map fun i =>
    decide (getQIndex true i s q.baseQIdx current deltaQPresent = 0) && decide (q.yDc = 0) && decide (q.uAc = 0) &&
      decide (q.uDc = 0) && decide (q.vAc = 0) && decide (q.vDc = 0)

/-- `coded_lossless` (947, 970–972). -/
def codedLossless (s : Seg) (q : Quant) (current : Nat) (deltaQPresent : Bool) : Bool :=
  (losslessArray s q current deltaQPresent).all id

/-! ## Loop filter parameters (987–1030) -/

/-- `LoopFilterParams` (frame.rs 48–57). -/
structure LoopFilter where
  level : List Nat
  sharpness : Nat
  deltaEnabled : Bool
  deltaUpdate : Bool
  updateRef : List Bool
  refDeltas : List Int
  updateMode : List Bool
  /-- `u8` -/
  modeDeltas : List Nat
deriving Repr, DecidableEq

/-- One reference delta (1015–1020). -/
def encodeRefDelta (l : LoopFilter) (i : Nat) : Option Raw := do
  let u ← l.updateRef[i]?
  cat [pushB u, if u then (do let d ← l.refDeltas[i]?; pushSu d 7) else cat []]

/-- One mode delta (1021–1026): the flag written is `update_mode_delta[i]`, the one tested is `update_ref_delta[i]`. -/
def encodeModeDelta (l : LoopFilter) (i : Nat) : Option Raw := do
  let u ← l.updateMode[i]?
  let t ← l.updateRef[i]?
  cat [pushB u, if t then (do let d ← l.modeDeltas[i]?; pushSu (d : Int) 7) else cat []]

/-- `level[i] as u32` in 6 bits. -/
def pushLevel (l : LoopFilter) (i : Nat) : Option Raw := do
  let v ← l.level[i]?
  pushN v 6

/-- Lines 1013–1027. -/
def encodeLfDeltas (l : LoopFilter) : Option Raw :=
  cat [pushB l.deltaEnabled,
    if l.deltaEnabled then
      cat [pushB l.deltaUpdate,
        if l.deltaUpdate then
          cat [cat ((List.range 8).map (encodeRefDelta l)), cat ((List.range 2).map (encodeModeDelta l))]
        else cat []]
    else cat []]

/-- Loop filter parameters (987–1030); `off` = `coded_lossless || allow_intrabc`. -/
def encodeLoopFilter (l : LoopFilter) (off : Bool) (planes : Nat) : Option Raw :=
  if off then cat [] else
    cat [pushLevel l 0, pushLevel l 1,
      if planes > 1 ∧ (l.level.getD 0 0 > 0 ∨ l.level.getD 1 0 > 0) then cat [pushLevel l 2, pushLevel l 3] else cat [],
      pushN l.sharpness 3, encodeLfDeltas l]

/-- What the section leaves behind; `RefFrame` order INTRA, LAST, LAST2, LAST3, GOLDEN, BWDREF, ALTREF2, ALTREF. -/
def loopFilterAfter (l : LoopFilter) (off : Bool) : LoopFilter :=
  if off then
    { l with level := 0 :: 0 :: l.level.drop 2, refDeltas := [1, 0, 0, 0, -1, 0, -1, -1], modeDeltas := [0, 0] }
  else l

/-! ## CDEF parameters (1032–1057) -/

/-- `CDEFParams` (frame.rs 59–66). -/
structure Cdef where
  damping : Nat
  bits : Nat
  yPri : List Nat
  ySec : List Nat
  uvPri : List Nat
  uvSec : List Nat
deriving Repr, DecidableEq

/-- One strength of a vector. -/
def pushAt (l : List Nat) (i n : Nat) : Option Raw := do
  let v ← l[i]?
  pushN v n

/-- One set of strengths (1044–1055). -/
def encodeStrength (c : Cdef) (planes i : Nat) : Option Raw :=
  cat [pushAt c.yPri i 4, pushAt c.ySec i 2,
    if planes > 1 then cat [pushAt c.uvPri i 4, pushAt c.uvSec i 2] else cat []]

/-- CDEF parameters (1032–1057); the assignments to index 0 of the branch without bits panic on empty vectors.
`1 << cdef_bits` overflows from 64 bits on. -/
def encodeCdef (c : Cdef) (off : Bool) (planes : Nat) : Option Raw :=
  if off then
    if c.yPri = [] ∨ c.ySec = [] ∨ c.uvPri = [] ∨ c.uvSec = [] then none else some []
  else do
    let d ← usub c.damping 3
    if c.bits ≥ 64 then none
    cat [pushN d 2, pushN c.bits 2, cat ((List.range (1 <<< c.bits)).map (encodeStrength c planes))]

/-- 3 becomes 4 in the first `n` entries. -/
def bumpSec (n : Nat) (l : List Nat) : List Nat := l.mapIdx fun i v => if i < n ∧ v = 3 then 4 else v

/-- What the section leaves behind. -/
def cdefAfter (c : Cdef) (off : Bool) (planes : Nat) : Cdef :=
  if off then
    { damping := 3, bits := 0, yPri := c.yPri.set 0 0, ySec := c.ySec.set 0 0, uvPri := c.uvPri.set 0 0,
      uvSec := c.uvSec.set 0 0 }
  else
    { c with ySec := bumpSec (1 <<< c.bits) c.ySec,
             uvSec := if planes > 1 then bumpSec (1 <<< c.bits) c.uvSec else c.uvSec }

/-! ## Loop restoration parameters (1059–1097) -/

/-- `LRParams` (frame.rs 68–73) and `loop_restoration_size`. -/
structure Lr where
  lrType : Nat
  unitShift : Nat
  extraShift : Nat
  uvShift : Nat
  size : List Nat
deriving Repr, DecidableEq

/-- The unit size bits (1079–1088); `lr_unit_shift - 1` and `2 - lr_unit_shift` are `usize`. -/
def encodeUnitShift (l : Lr) (use128 : Bool) : Option Raw :=
  if use128 then do
    let s ← usub l.unitShift 1
    pushU s
  else cat [pushU l.unitShift, if l.unitShift ≥ 1 then pushU (l.unitShift - 1) else cat []]

/-- The chroma shift (1089–1094): pushed as a bit, then used to shift the sizes, which panics from 64 on. -/
def pushUvShift (v : Nat) : Option Raw := if v ≥ 64 then none else pushU v

/-- Loop restoration parameters (1059–1097); `off` = `all_lossless || allow_intrabc || enable_restoration`,
`sub` = `subsampling_x && subsampling_y`. -/
def encodeLrParams (l : Lr) (off : Bool) (planes : Nat) (use128 sub : Bool) : Option Raw :=
  if off then cat [] else do
    let t ← if planes = 0 then some 0 else K.remap_lr_type[l.lrType]?
    if planes > 3 then none
    cat [cat (List.replicate planes (pushN l.lrType 2)),
      if planes > 0 ∧ t ≠ 0 then do
        let _ ← usub 2 l.unitShift
        cat [encodeUnitShift l use128, if sub ∧ planes > 1 then pushUvShift l.uvShift else cat []]
      else cat []]

/-- The section leaves these sizes behind (1089–1096). -/
def lrSizeAfter (l : Lr) (off : Bool) (planes : Nat) (sub : Bool) : List Nat :=
  if off || planes == 0 || K.remap_lr_type.getD l.lrType 0 == 0 then l.size
  else
    let uv := if sub ∧ planes > 1 then l.uvShift else 0
    [256 >>> (2 - l.unitShift), l.size.getD 1 0 >>> uv, l.size.getD 2 0 >>> uv]

/-- What the section leaves in `lr_params` and `loop_restoration_size` (1079–1096). -/
def lrAfter (l : Lr) (off : Bool) (planes : Nat) (use128 sub : Bool) : Lr :=
  if off || planes == 0 || K.remap_lr_type.getD l.lrType 0 == 0 then l
  else
    { l with
      extraShift := if !use128 && decide (l.unitShift ≥ 1) then l.unitShift - 1 else l.extraShift
      uvShift := if sub ∧ planes > 1 then l.uvShift else 0
      size := lrSizeAfter l off planes sub }

/-! ## Transform mode (1099–1109) -/

/-- Transform mode (1099–1109). -/
def encodeTxMode (lossless select : Bool) : Option Raw := if lossless then cat [] else pushB select

end Av1
