import Verif.Model.MvStack

/-!
# Mode info of a block (`tile_encoder.rs` 543–886, 1330–1440)

The functions write a sequence of syntax elements (`Syn`): calls of `encode_<element>` (whose table choice is `Elem.select`)
and calls of `encode_literal`.  `none` is a panic.
-/

namespace Av1

/-- One call of the coder. -/
inductive Syn where
  | elem (e : Elem)
  /-- `encode_literal(v, n)` -/
  | lit (v n : Nat)

/-- `PartitionTree` without the tree structure (block.rs 20–40). -/
structure Blk where
  bsize : Nat
  segId : Nat := 0
  skip : Bool := false
  cdefIdx : Int := 0
  qIndex : Nat := 0
  deltaLf : List Int := [0, 0, 0, 0]
  isInter : Bool := false
  ref0 : Int := 1
  ref1 : Int := 1
  /-- `comp_mode == COMPOUND_REFERENCE` -/
  comp : Bool := false
  /-- `comp_ref_type == BIDIR_COMP_REFERENCE` -/
  bidir : Bool := false
  compoundMode : Nat := 18
  newMv : Bool := false
  zeroMv : Bool := false
  refMv : Bool := false
  drl : List Nat := List.replicate 8 0
  useIntrabc : Bool := false
  mvs : Mv × Mv := (⟨0, 0⟩, ⟨0, 0⟩)
deriving Repr, DecidableEq

/-! ### Reference frames -/

/-- Single reference tree (tile_encoder.rs 790–809). -/
def singleRefSyn (r0 : Int) : List Elem :=
  let p1 := decide (r0 ∈ [K.ALTREF2_FRAME, K.BWDREF_FRAME, K.ALTREF_FRAME])
  .singleRefP1 p1.toNat ::
    if p1 then
      let p2 := decide (r0 = K.ALTREF_FRAME)
      .singleRefP2 p2.toNat :: if !p2 then [.singleRefP6 (decide (r0 = K.ALTREF2_FRAME)).toNat] else []
    else
      let p3 := decide (r0 ∈ [K.GOLDEN_FRAME, K.LAST3_FRAME])
      .singleRefP3 p3.toNat ::
        if p3 then [.singleRefP5 (decide (r0 = K.GOLDEN_FRAME)).toNat] else [.singleRefP4 (decide (r0 = K.LAST2_FRAME)).toNat]

/-- Compound reference from one group (tile_encoder.rs 765–770). -/
def uniRefSyn (r0 r1 : Int) : List Elem :=
  let u := decide (r0 = K.BWDREF_FRAME ∧ r1 = K.ALTREF_FRAME)
  .uniCompRef u.toNat ::
    if !u then [.uniCompRefP1 (decide (r0 = K.LAST_FRAME ∧ r1 ∈ [K.GOLDEN_FRAME, K.LAST3_FRAME])).toNat] else []

/-- Compound reference from two groups (tile_encoder.rs 772–787).  The last decision is made on `comp_ref` and coded with
`encode_comp_ref_p1`. -/
def bidirRefSyn (r0 r1 : Int) : List Elem :=
  let p := decide (r0 ∈ [K.GOLDEN_FRAME, K.LAST3_FRAME])
  .compRef p.toNat ::
    (if !p then Elem.compRefP1 (decide (r0 = K.LAST2_FRAME)).toNat else Elem.compRefP2 (decide (r0 = K.GOLDEN_FRAME)).toNat) ::
    .compBwdref (decide (r1 = K.ALTREF_FRAME)).toNat ::
    if !p then [.compRefP1 (decide (r1 = K.ALTREF2_FRAME)).toNat] else []

/-- Coded reference frames (tile_encoder.rs 755–811): the elements and the block afterwards. -/
def refFramesSyn (referenceSelect : Bool) (b : Blk) : Option (List Elem × Blk) := do
  let bw4 ← K.num_4x4_blocks_wide[b.bsize]?
  let bh4 ← K.num_4x4_blocks_high[b.bsize]?
  let coded := referenceSelect && decide (min bw4 bh4 ≥ 2)
  let b := if coded then b else { b with comp := false }
  let head : List Elem := if coded then [.compMode b.comp.toNat] else []
  if b.comp then
    let tail := if b.bidir then bidirRefSyn b.ref0 b.ref1 else uniRefSyn b.ref0 b.ref1
    some (head ++ .compRefType b.bidir.toNat :: tail, b)
  else some (head ++ singleRefSyn b.ref0, { b with ref1 := K.NONE })

/-! ### Quantizer index and loop filter deltas -/

/-- The escape code shared by both deltas (tile_encoder.rs 672–675, 701–704): three bits for the length, then the rest.
`dec` is what the loop filter code subtracts from the remainder once more. -/
def deltaEscape (abs dec : Nat) : Option (List Syn) := do
  let rem ← msb16 ((abs - 1) % 2 ^ 16)
  let rem1 ← usub rem 1
  let bits ← usub (abs - 1) (2 ^ rem1)
  let v ← usub bits dec
  some [.lit rem1 3, .lit v rem]

/-- Magnitude: small ones as a symbol, others as the symbol 3 and the escape code (tile_encoder.rs 668–676, 697–705). -/
def deltaAbsSyn (small : Nat → Elem) (limit dec abs : Nat) : Option (List Syn) :=
  if abs < limit then some [.elem (small abs)] else (deltaEscape abs dec).map (.elem (small limit) :: ·)

/-- Magnitude and sign. -/
def deltaSyn (small : Nat → Elem) (limit dec : Nat) (d : Int) : Option (List Syn) :=
  if d ≠ 0 then (deltaAbsSyn small limit dec (absM d).toNat).map (· ++ [.lit (decide (d < 0)).toNat 1])
  else some [.elem (small 0)]

/-- Delta of the quantizer index (tile_encoder.rs 666–681), `d` being the difference already divided by the resolution. -/
def deltaQSyn (d : Int) : Option (List Syn) := deltaSyn .deltaQAbs K.DELTA_Q_SMALL 0 d

/-- Delta of one loop filter strength (tile_encoder.rs 695–710). -/
def deltaLfSyn (multi : Bool) (i : Nat) (d : Int) : Option (List Syn) :=
  deltaSyn (.deltaLfAbs · multi.toNat i) K.DELTA_LF_SMALL 1 d

/-- `a >> res` on `isize` (arithmetic); a shift by 64 or more panics. -/
def sar (a : Int) (res : Nat) : Option Int := if res < 64 then some (a / 2 ^ res) else none

/-- The loop over the loop filter strengths (tile_encoder.rs 687–713): elements and the new context values. -/
def deltaLfLoop (multi : Bool) (res : Nat) (target : List Int) : Nat → Nat → List Int → Option (List Syn × List Int)
  | 0, _, cur => some ([], cur)
  | n + 1, i, cur => do
    let t ← target[i]?
    let c ← cur[i]?
    let d ← sar (← isize (t - c)) res
    let s ← deltaLfSyn multi i d
    let (rest, cur) ← deltaLfLoop multi res target n (i + 1) (cur.set i t)
    some (s ++ rest, cur)

/-! ### Inter mode -/

/-- Mode of an inter block (tile_encoder.rs 825–844): the elements and `self.y_mode` afterwards.  In the compound branch
`y_mode` keeps its old value. -/
def interModeSyn (isCompound : Bool) (b : Blk) (newCtx zeroCtx refCtx y : Nat) : Option (List Elem × Nat) :=
  if isCompound then do
    let m ← usub b.compoundMode K.NEAREST_NEARESTMV
    some ([.compoundMode m refCtx newCtx], y)
  else if !b.newMv then some ([.newMv 0 newCtx], K.NEWMV)
  else if !b.zeroMv then some ([.newMv 1 newCtx, .zeroMv 0 zeroCtx], K.GLOBALMV)
  else some ([.newMv 1 newCtx, .zeroMv 1 zeroCtx, .refMv b.refMv.toNat refCtx], if b.refMv then K.NEARMV else K.NEARESTMV)

/-- `has_nearmv` (tile_encoder.rs 846–849). -/
def hasNearmv (y : Nat) : Bool := decide (y = K.NEARMV ∨ y = K.NEAR_NEARMV ∨ y = K.NEAR_NEWMV ∨ y = K.NEW_NEARMV)

/-- Loop over `drl_mode` (tile_encoder.rs 851–860, 863–872): elements and `ref_mv_idx`. -/
def drlLoop (found : Nat) (drl stack : List Nat) : List Nat → Nat → Option (List Elem × Nat)
  | [], r => some ([], r)
  | i :: is, r =>
    if found > i + 1 then do
      let v ← drl[i]?
      if v = 0 then some ([.drlMode 0 i stack], i)
      else
        let (es, r) ← drlLoop found drl stack is (i + 1)
        some (.drlMode v i stack :: es, r)
    else drlLoop found drl stack is r

/-- `ref_mv_idx` and its elements (tile_encoder.rs 845–873). -/
def drlSyn (y found : Nat) (drl stack : List Nat) : Option (List Elem × Nat) :=
  if y = K.NEWMV ∨ y = K.NEW_NEWMV then drlLoop found drl stack [0, 1] 0
  else if hasNearmv y then drlLoop found drl stack [1, 2] 1
  else some ([], 0)

/-! ### Motion vector -/

/-- `get_mode` (tile_encoder.rs 1335–1356). -/
def getMode (y : Nat) (second : Bool) : Nat :=
  if !second then
    if y < K.NEAREST_NEARESTMV then y
    else if y = K.NEW_NEWMV ∨ y = K.NEW_NEARESTMV ∨ y = K.NEW_NEARMV then K.NEWMV
    else if y = K.NEAREST_NEARESTMV ∨ y = K.NEAREST_NEWMV then K.NEARESTMV
    else if y = K.NEAR_NEARMV ∨ y = K.NEAR_NEWMV then K.NEARMV
    else K.GLOBALMV
  else
    if y = K.NEW_NEWMV ∨ y = K.NEAREST_NEWMV ∨ y = K.NEAR_NEWMV then K.NEWMV
    else if y = K.NEAREST_NEARESTMV ∨ y = K.NEW_NEARESTMV then K.NEARESTMV
    else if y = K.NEAR_NEARMV ∨ y = K.NEW_NEARMV then K.NEARMV
    else K.GLOBALMV

/-- The joint type of a difference (tile_encoder.rs 1397–1402). -/
def mvJointOf (d : Mv) : Nat :=
  if d.x = 0 then (if d.y = 0 then K.MV_JOINT_ZERO else K.MV_JOINT_HZVNZ)
  else if d.y = 0 then K.MV_JOINT_HNZVZ else K.MV_JOINT_HNZVNZ

/-- What `assign_mv` reads. -/
structure AssignEnv where
  yMode : Nat
  found : Nat
  refMvIdx : Nat
  refs : List (Mv × Mv)
  globalMvs : Mv × Mv
  use128 : Bool
  miRow : Nat
  rowStart : Nat

/-- Component of a pair. -/
def pick (second : Bool) (p : Mv × Mv) : Mv := if second then p.2 else p.1

/-- Replace a component. -/
def setAt (second : Bool) (p : Mv × Mv) (m : Mv) : Mv × Mv := if second then (p.1, m) else (m, p.2)

/-- Prediction for intra block copy (tile_encoder.rs 1360–1378). -/
def intrabcPred (a : AssignEnv) : Option Mv := do
  let m ← (a.refs[0]?).map (·.1)
  if m ≠ ⟨0, 0⟩ then some m else
  let m ← (a.refs[1]?).map (·.1)
  if m ≠ ⟨0, 0⟩ then some m else
  let sb4 ← K.num_4x4_blocks_high[if a.use128 then K.BLOCK_128X128 else K.BLOCK_64X64]?
  let top ← usub a.miRow sb4
  if top < a.rowStart then some ⟨0, -((sb4 * K.MI_SIZE + K.INTRABC_DELAY_PIXELS : Nat) : Int) * 8⟩
  else some ⟨-((sb4 * K.MI_SIZE * 8 : Nat) : Int), 0⟩

/-- The prediction (tile_encoder.rs 1359–1388). -/
def predMv (a : AssignEnv) (second : Bool) (b : Blk) (pred : Mv × Mv) : Option (Mv × Mv) :=
  if b.useIntrabc then (intrabcPred a).map fun m => (m, pred.2)
  else if b.compoundMode = K.GLOBALMV then some (setAt second pred (pick second a.globalMvs))
  else
    let pos := if (b.compoundMode = K.NEWMV ∧ a.found ≤ 1) ∨ b.compoundMode = K.NEARESTMV then 0 else a.refMvIdx
    (a.refs[pos]?).map fun p => setAt second pred (pick second p)

/-- One round of `assign_mv` (tile_encoder.rs 1331–1439): the elements, `pred_mv` and the block afterwards.  The difference
is always that of the first vectors; the closure that would write the components (1404–1435) is never called. -/
def assignStep (a : AssignEnv) (second : Bool) (b : Blk) (pred : Mv × Mv) : Option (List Elem × (Mv × Mv) × Blk) := do
  let b := { b with compoundMode := if b.useIntrabc then K.NEWMV else getMode a.yMode second }
  let pred ← predMv a second b pred
  if b.compoundMode = K.NEWMV then
    let d ← b.mvs.1.sub pred.1
    some ([.mvJoint (mvJointOf d) (if b.useIntrabc then K.MV_INTRABC_CONTEXT else 0)], pred, b)
  else some ([], pred, { b with mvs := setAt second b.mvs (pick second pred) })

/-- `assign_mv` (tile_encoder.rs 1330–1440). -/
def assignMv (a : AssignEnv) (isCompound : Bool) (b : Blk) (pred : Mv × Mv) : Option (List Elem × (Mv × Mv) × Blk) := do
  let (e0, pred, b) ← assignStep a false b pred
  if isCompound then
    let (e1, pred, b) ← assignStep a true b pred
    some (e0 ++ e1, pred, b)
  else some (e0, pred, b)

/-! ### CDEF index -/

/-- `frame.cdef_idx[i][j] = v`. -/
def setGrid (g : List (List Int)) (i j : Nat) (v : Int) : Option (List (List Int)) := do
  let row ← g[i]?
  let _ ← row[j]?
  some (g.set i (row.set j v))

/-- The `cdef` part (tile_encoder.rs 636–655) when it is not skipped: elements and the grid.  The loops start at 0. -/
def cdefSyn (bits miRow miCol : Nat) (b : Blk) (g : List (List Int)) : Option (List Syn × List (List Int)) := do
  let size4 ← K.num_4x4_blocks_wide[K.BLOCK_64X64]?
  let r := miRow / size4 * size4
  let c := miCol / size4 * size4
  let row ← g[r]?
  let cur ← row[c]?
  if cur = -1 then
    let w4 ← K.num_4x4_blocks_wide[b.bsize]?
    let h4 ← K.num_4x4_blocks_high[b.bsize]?
    let cells := (steps (r + h4) size4).flatMap fun i => (steps (c + w4) size4).map fun j => (i, j)
    let g ← cells.foldlM (fun g p => setGrid g p.1 p.2 b.cdefIdx) g
    -- `cdef_idx as u64`
    some ([.lit (b.cdefIdx % 2 ^ 64).toNat bits], g)
  else some ([], g)

/-! ### Segment id -/

/-- Prediction from the neighbours' segment ids, -1 = not available (tile_encoder.rs 553–559). -/
def segPred (pu pl pul : Int) : Int :=
  if pu = -1 then (if pl = -1 then 0 else pl)
  else if pl = -1 then pu
  else if pul = pu then pu else pl

/-- `encode_segment_id` (tile_encoder.rs 543–593): elements and segment id. -/
def segmentIdSyn (skip : Bool) (pu pl pul : Int) (segId lastActive : Nat) : Option (List Elem × Nat) := do
  let pred := (segPred pu pl pul).toNat
  if skip then some ([], pred)
  else
    let v ← negInterleave segId pred (lastActive + 1)
    some ([.segmentId v pu pl pul], segId)

/-! ### The whole mode info -/

/-- What `encode_mode_info` reads from the frame, the shared context and the tile encoder. -/
structure ModeEnv where
  /-- `ectx.frame_is_intra` -/
  frameIsIntra : Bool
  segIdPreSkip : Bool
  segEnabled : Bool
  /-- `feature_value`, 8 rows of 7 -/
  feature : List (List (Option Int))
  losslessArray : List Bool
  codedLossless : Bool
  enableCdef : Bool
  allowIntrabc : Bool
  cdefBits : Nat
  use128 : Bool
  deltaQRes : Nat
  deltaLfPresent : Bool
  deltaLfMulti : Bool
  deltaLfRes : Nat
  numPlanes : Nat
  referenceSelect : Bool
  /-- `self.last_active_seg_id` -/
  lastActive : Nat
  miRow : Nat
  miCol : Nat
  rowStart : Nat
  /-- segment ids above, left and above left (-1 = outside the tile); `none` = the `unwrap` panics -/
  segNbrs : Option (Int × Int × Int)

/-- The fields it changes, besides the block. -/
structure ModeState where
  readDeltas : Bool
  currentQ : Nat
  deltaLf : List Int
  cdefIdx : List (List Int)
  yMode : Nat
  predMv : Mv × Mv
deriving Repr, DecidableEq

/-- What `find_mv_stack` leaves in the tile encoder. -/
structure FoundMvs where
  found : Nat
  refs : List (Mv × Mv)
  globalMvs : Mv × Mv
  newCtx : Nat
  refCtx : Nat
  zeroCtx : Nat
  drlStack : List Nat

/-- `seg_feature_active_idx` (tile_encoder.rs 613–615 and three copies). -/
def ModeEnv.segActive (e : ModeEnv) (seg f : Nat) : Option Bool :=
  if e.segEnabled then do
    let row ← e.feature[seg]?
    let v ← row[f]?
    some v.isSome
  else some false

/-- Segment id of an intra frame block without the look at `lossless_array`. -/
def segCore (e : ModeEnv) (b : Blk) : Option (List Syn × Blk) :=
  if e.segEnabled then do
    let (pu, pl, pul) ← e.segNbrs
    let (es, id) ← segmentIdSyn false pu pl pul b.segId e.lastActive
    some (es.map Syn.elem, { b with segId := id })
  else some ([], { b with segId := 0 })

/-- Segment id of an intra frame block (tile_encoder.rs 603–608, 624–629). -/
def segPart (e : ModeEnv) (b : Blk) : Option (List Syn × Blk) := do
  let (es, b) ← segCore e b
  let _ ← e.losslessArray[b.segId]?
  some (es, b)

/-- `seg_id_pre_skip && seg_feature_active_idx(.., SEG_LVL_SKIP, ..)`. -/
def ModeEnv.skipBySegment (e : ModeEnv) (seg : Nat) : Option Bool :=
  if e.segIdPreSkip then e.segActive seg K.SEG_LVL_SKIP else some false

/-- `seg_feature_active_idx(.., SEG_LVL_SKIP, ..) || seg_feature_active_idx(.., SEG_LVL_GLOBALMV, ..)`. -/
def ModeEnv.skipOrGlobal (e : ModeEnv) (seg : Nat) : Option Bool := do
  if ← e.segActive seg K.SEG_LVL_SKIP then some true else e.segActive seg K.SEG_LVL_GLOBALMV

/-- Skip flag (tile_encoder.rs 611–620). -/
def skipPart (e : ModeEnv) (b : Blk) : Option (List Syn × Blk) := do
  let a ← e.skipBySegment b.segId
  if a then some ([], { b with skip := true }) else some ([.elem (.skip b.skip.toNat)], b)

/-- CDEF index (tile_encoder.rs 632–656).  `self.skip` is false here, whatever the block's flag. -/
def cdefPart (e : ModeEnv) (b : Blk) (st : ModeState) : Option (List Syn × ModeState) :=
  if e.codedLossless || !e.enableCdef || e.allowIntrabc then some ([], st)
  else (cdefSyn e.cdefBits e.miRow e.miCol b st.cdefIdx).map fun (es, g) => (es, { st with cdefIdx := g })

/-- Are deltas written for this block? -/
def ModeEnv.deltasFor (e : ModeEnv) (b : Blk) (st : ModeState) : Bool :=
  !(decide (b.bsize = if e.use128 then K.BLOCK_128X128 else K.BLOCK_64X64) && b.skip) && st.readDeltas

/-- Quantizer delta (tile_encoder.rs 658–683). -/
def deltaQPart (e : ModeEnv) (b : Blk) (st : ModeState) : Option (List Syn × ModeState) :=
  if e.deltasFor b st then do
    let d ← sar (← isize ((b.qIndex : Int) - st.currentQ)) e.deltaQRes
    let es ← deltaQSyn d
    some (es, { st with currentQ := b.qIndex })
  else some ([], st)

/-- Loop filter deltas (tile_encoder.rs 685–713); `st` still has the old `read_deltas`. -/
def deltaLfPart (e : ModeEnv) (b : Blk) (st : ModeState) : Option (List Syn × ModeState) :=
  if e.deltasFor b st && e.deltaLfPresent then do
    let n := if e.deltaLfMulti then (if e.numPlanes > 1 then K.FRAME_LF_COUNT else K.FRAME_LF_COUNT - 2) else 1
    let (es, cur) ← deltaLfLoop e.deltaLfMulti e.deltaLfRes b.deltaLf n 0 st.deltaLf
    some (es, { st with deltaLf := cur })
  else some ([], st)

/-- Inter flag (tile_encoder.rs 717–731). -/
def isInterPart (e : ModeEnv) (b : Blk) : Option (List Syn × Blk) := do
  if ← e.segActive b.segId K.SEG_LVL_REF_FRAME then
    let v ← (e.feature[b.segId]?).bind (·[K.SEG_LVL_REF_FRAME]?)
    let r ← v
    some ([], { b with isInter := decide (r ≠ K.INTRA_FRAME) })
  else if ← e.segActive b.segId K.SEG_LVL_GLOBALMV then some ([], { b with isInter := true })
  else some ([.elem (.isInter b.isInter)], b)

/-- Reference frames (tile_encoder.rs 738–813). -/
def refsPart (e : ModeEnv) (b : Blk) : Option (List Syn × Blk) := do
  if ← e.segActive b.segId K.SEG_LVL_REF_FRAME then
    let v ← (e.feature[b.segId]?).bind (·[K.SEG_LVL_REF_FRAME]?)
    let r ← v
    -- `RefFrame::from_isize(..).unwrap()`
    if -1 ≤ r ∧ r ≤ 7 then some ([], { b with ref0 := r, ref1 := K.NONE }) else none
  else
    let glob ← e.skipOrGlobal b.segId
    if glob then some ([], { b with ref0 := K.LAST_FRAME, ref1 := K.NONE })
    else (refFramesSyn e.referenceSelect b).map fun (es, b) => (es.map Syn.elem, b)

/-- The segment forces the global vector, or the mode is coded. -/
def modeOr (glob : Bool) (coded : Option (List Elem × Nat)) : Option (List Elem × Nat) :=
  if glob then some ([], K.GLOBALMV) else coded

/-- Inter mode, choice of candidate and motion vector (tile_encoder.rs 819–875). -/
def modePart (e : ModeEnv) (b : Blk) (m : FoundMvs) (st : ModeState) : Option (List Syn × Blk × ModeState) := do
  let compound := decide (b.ref1 > K.INTRA_FRAME)
  let glob ← e.skipOrGlobal b.segId
  let (es, y) ← modeOr glob (interModeSyn compound b m.newCtx m.zeroCtx m.refCtx st.yMode)
  let (ds, idx) ← drlSyn y m.found b.drl m.drlStack
  let a : AssignEnv := ⟨y, m.found, idx, m.refs, m.globalMvs, e.use128, e.miRow, e.rowStart⟩
  let (ms, pred, b) ← assignMv a compound b st.predMv
  some ((es ++ ds ++ ms).map Syn.elem, b, { st with yMode := y, predMv := pred })

/-- The inter part of a block (tile_encoder.rs 733–876); `find` is `find_mv_stack`. -/
def interPart (e : ModeEnv) (find : Blk → Option FoundMvs) (b : Blk) (st : ModeState) :
    Option (List Syn × Blk × ModeState) :=
  if b.isInter then do
    let (es, b) ← refsPart e b
    let m ← find b
    let (ms, b, st) ← modePart e b m st
    some (es ++ ms, b, st)
  else some ([], b, st)

/-- The part between skip flag and inter flag. -/
def deltasPart (e : ModeEnv) (b : Blk) (st : ModeState) : Option (List Syn × ModeState) := do
  let (s1, st) ← cdefPart e b st
  let (s2, st) ← deltaQPart e b st
  let (s3, st) ← deltaLfPart e b st
  some (s1 ++ s2 ++ s3, { st with readDeltas := false })

/-- Segment id before or after the skip flag (tile_encoder.rs 599–630). -/
def headPart (e : ModeEnv) (b : Blk) : Option (List Syn × Blk) :=
  if e.segIdPreSkip then do
    let (s1, b) ← segPart e b
    let (s2, b) ← skipPart e b
    some (s1 ++ s2, b)
  else do
    let (s1, b) ← skipPart e b
    let (s2, b) ← segPart e b
    some (s1 ++ s2, b)

/-- `encode_mode_info` (tile_encoder.rs 595–886).  `skip_mode` is the constant 0. -/
def modeInfo (e : ModeEnv) (find : Blk → Option FoundMvs) (b : Blk) (st : ModeState) : Option (List Syn × Blk × ModeState) :=
  if e.frameIsIntra then do
    let (s1, b) ← headPart e b
    let (s2, st) ← deltasPart e b st
    let (s3, b) ← isInterPart e b
    let (s4, b, st) ← interPart e find b st
    some (s1 ++ s2 ++ s3 ++ s4, b, st)
  else some ([], b, st)

end Av1
