import Verif.Model.Context
import Verif.Model.Util

/-!
# Motion vector candidate list (`tile_encoder.rs` 888–1328)

`TileEncoder` keeps `ref_stack_mv`, `weight_stack` (arrays of 8), `num_mv_found`, `new_mv_count` and `found_match`.
`none` is a panic.  `frame.get_mi(r, c).unwrap()` is a function argument `at_`, whose `none` is the panic of the index or of
the `unwrap`.
-/

namespace Av1

/-- `ModeInfo` with the two fields only the motion vector code uses (constants.rs 1190–1210). -/
structure StoredMi extends ModeInfo where
  segmentId : Nat
  mvs : Mv × Mv
deriving Repr, DecidableEq

/-- The stack fields of `TileEncoder` (tile_encoder.rs 52–62). -/
structure MvStack where
  found : Nat
  newCount : Nat
  foundMatch : Bool
  refs : List (Mv × Mv)
  weights : List Nat
deriving Repr, DecidableEq

/-- What identifies a candidate: both vectors of a compound block, the first one otherwise. -/
def mvKey (compound : Bool) (p : Mv × Mv) : Mv × Option Mv := (p.1, if compound then some p.2 else none)

/-- Search and insert (tile_encoder.rs 1241–1256, 1299–1316, and in the temporal scan 1112–1125, 1149–1166): the `while` loop
finds the first live entry equal to the candidate; a hit adds to its weight, a miss appends if there is room.  A single
candidate overwrites only the first vector of the slot. -/
def MvStack.insert (s : MvStack) (compound : Bool) (cand : Mv × Mv) (weight : Nat) : Option MvStack :=
  if s.refs.length < s.found then none  -- the loop would index past the array
  else
    match (s.refs.take s.found).findIdx? fun p => decide (mvKey compound p = mvKey compound cand) with
    | some i => do
      let w ← s.weights[i]?
      some { s with weights := s.weights.set i (w + weight) }
    | none =>
      if s.found < K.MAX_REF_MV_STACK_SIZE then do
        let old ← s.refs[s.found]?
        let _ ← s.weights[s.found]?
        some { s with
          refs := s.refs.set s.found (cand.1, if compound then cand.2 else old.2),
          weights := s.weights.set s.found weight,
          found := s.found + 1 }
      else some s

/-- `has_newmv` (tile_encoder.rs 1232–1236, 1317–1321). -/
def hasNewmv (y : Nat) : Bool :=
  decide (y = K.NEWMV ∨ y = K.NEW_NEWMV ∨ y = K.NEAR_NEWMV ∨ y = K.NEW_NEARMV ∨ y = K.NEAREST_NEWMV ∨ y = K.NEW_NEARESTMV)

/-- Both components lowered. -/
def lowerMv (force : Bool) (m : Mv) : Mv := ⟨lowerMvPrecision force m.x, lowerMvPrecision force m.y⟩

/-- What the candidate search reads from the block, the frame and the context. -/
structure MvEnv where
  bsize : Nat
  ref0 : Int
  ref1 : Int
  compound : Bool
  force : Bool
  /-- `gm_type`, 8 entries -/
  gmType : List Nat
  globalMvs : Mv × Mv
  miRow : Nat
  miCol : Nat
  miRows : Nat
  miCols : Nat
  rowStart : Nat
  rowEnd : Nat
  colStart : Nat
  colEnd : Nat
  /-- `frame.get_mi(r, c).unwrap()` -/
  at_ : Nat → Nat → Option StoredMi
  /-- `motion_field_mvs[ref][y8][x8]` -/
  field : Nat → Nat → Nat → Option Mv

/-- `x as usize` of a reference frame used as index: -1 becomes a huge number. -/
def refIdx (r : Int) : Option Nat := if 0 ≤ r then some r.toNat else none

/-- `is_inside` (tile_encoder.rs 108–110). -/
def MvEnv.inside (e : MvEnv) (r c : Int) : Bool :=
  decide ((e.colStart : Int) ≤ c ∧ c < e.colEnd ∧ (e.rowStart : Int) ≤ r ∧ r < e.rowEnd)

/-- Is the global vector used instead of the stored one? (tile_encoder.rs 1200–1207) -/
def useGlobal (e : MvEnv) (mi : StoredMi) : Option Bool := do
  let w ← K.block_width[mi.miSize]?
  let h ← K.block_height[mi.miSize]?
  if mi.yMode = K.GLOBALMV ∨ mi.yMode = K.GLOBAL_GLOBALMV then
    let t ← (← refIdx e.ref0) |> (e.gmType[·]?)
    some (decide (t > K.TRANSLATION) && decide (min w h ≥ 8))
  else some false

/-- The search for one of the candidate's two references (tile_encoder.rs 1196–1257). -/
def addSingle (e : MvEnv) (mi : StoredMi) (r : Int) (mv : Mv) (weight : Nat) (s : MvStack) : Option MvStack := do
  if r = e.ref0 then
    let glob ← useGlobal e mi
    let cand := lowerMv e.force (if glob then e.globalMvs.1 else mv)
    let s := { s with newCount := s.newCount + (hasNewmv mi.yMode).toNat, foundMatch := true }
    s.insert false (cand, cand) weight
  else some s

/-- The vector replaced by the global one (tile_encoder.rs 1265–1271). -/
def globalOr (e : MvEnv) (mi : StoredMi) (r : Int) (g mv : Mv) : Option Mv := do
  if mi.yMode = K.GLOBAL_GLOBALMV then
    let t ← (← refIdx r) |> (e.gmType[·]?)
    pure (if t > K.TRANSLATION then g else mv)
  else pure mv

/-- `add_ref_mv_candidate` (tile_encoder.rs 1192–1328). -/
def addCandidate (e : MvEnv) (mi : StoredMi) (weight : Nat) (s : MvStack) : Option MvStack :=
  if mi.isInter then
    if e.compound then
      if mi.ref0 = e.ref0 ∧ mi.ref1 = e.ref1 then do
        let c0 ← globalOr e mi e.ref0 e.globalMvs.1 mi.mvs.1
        let c1 ← globalOr e mi e.ref1 e.globalMvs.2 mi.mvs.2
        let s ← ({ s with foundMatch := true } : MvStack).insert true (lowerMv e.force c0, lowerMv e.force c1) weight
        some { s with newCount := s.newCount + (hasNewmv mi.yMode).toNat }
      else some s
    else do
      let s ← addSingle e mi mi.ref0 mi.mvs.1 weight s
      addSingle e mi mi.ref1 mi.mvs.2 weight s
  else some s

/-- `num_4x4_blocks_wide` for a row scan, `num_4x4_blocks_high` for a column scan. -/
def blocks4 (row : Bool) (bs : Nat) : Option Nat :=
  if row then K.num_4x4_blocks_wide[bs]? else K.num_4x4_blocks_high[bs]?

/-- `mv_row`, `mv_col` at step `i` of a scan at distance 1. -/
def MvEnv.scanPos (e : MvEnv) (row : Bool) (i : Nat) : Int × Int :=
  if row then ((e.miRow : Int) - 1, (e.miCol : Int) + i) else ((e.miRow : Int) + i, (e.miCol : Int) - 1)

/-- Loop of `scan_row(-1)` / `scan_col(-1)` (tile_encoder.rs 962–993, 999–1030) from position `i`; `row` says which.  For
a distance of 1 the offsets along the scan are 0.  `fuel` bounds the number of rounds; a round that advances by 0 would loop
for ever. -/
def scanLoop (e : MvEnv) (row : Bool) (b4 end4 : Nat) : Nat → Nat → MvStack → Option MvStack
  | 0, i, s => if i < end4 then none else some s
  | fuel + 1, i, s =>
    if i < end4 then
      if e.inside (e.scanPos row i).1 (e.scanPos row i).2 then do
        let mi ← e.at_ (e.scanPos row i).1.toNat (e.scanPos row i).2.toNat
        let n ← blocks4 row mi.miSize
        let len := min b4 n
        let len := if b4 ≥ 16 then max 4 len else len
        let s ← addCandidate e mi (len * 2) s
        scanLoop e row b4 end4 fuel (i + len) s
      else some s
    else some s

/-- `scan_row(-1)` and `scan_col(-1)`. -/
def scan (e : MvEnv) (row : Bool) (s : MvStack) : Option MvStack := do
  let b4 ← blocks4 row e.bsize
  let rest ← usub (if row then e.miCols else e.miRows) (if row then e.miCol else e.miRow)
  let end4 := min (min b4 rest) 16
  scanLoop e row b4 end4 end4 0 s

/-- The top right neighbour (tile_encoder.rs 1035–1046).  `get_mi` is called before the position is checked; the row above
row 0 is a huge index. -/
def scanPoint (e : MvEnv) (s : MvStack) : Option MvStack := do
  let bw4 ← K.num_4x4_blocks_wide[e.bsize]?
  let bh4 ← K.num_4x4_blocks_high[e.bsize]?
  if max bw4 bh4 ≤ 16 then
    let r ← usub e.miRow 1
    let c := e.miCol + bw4
    let mi ← e.at_ r c
    if e.inside r c ∧ mi.ref0 ≠ K.NONE then addCandidate e mi 4 s else some s
  else some s

/-- `for idx in 0..num_nearest { weight_stack[idx] += REF_CAT_LEVEL }` (tile_encoder.rs 1053–1057). -/
def bumpWeights (s : MvStack) : Option MvStack :=
  if s.weights.length < s.found then none
  else some { s with weights := (s.weights.take s.found).map (· + K.REF_CAT_LEVEL) ++ s.weights.drop s.found }

/-- A motion field vector that is not marked invalid (tile_encoder.rs 1100, 1130). -/
def fieldValid (m : Mv) : Bool := m.x != -32768

/-- Is the vector at least 16 away from the global one? (tile_encoder.rs 1106, 1140–1143) -/
def farFrom (m g : Mv) : Option Bool := do
  let dx ← isize (m.x - g.x)
  if absM dx ≥ 16 then some true else do
  let dy ← isize (m.y - g.y)
  some (decide (absM dy ≥ 16))

/-- `zero_mv_context` is recomputed at the first sample only. -/
def firstZero (first : Bool) (zero : Nat) (z : Option Nat) : Option Nat := if first then z else some zero

/-- The test of the compound branch (tile_encoder.rs 1140–1147). -/
def farPair (e : MvEnv) (m0 m1 : Mv) : Option Nat := do
  if ← farFrom m0 e.globalMvs.1 then some 1
  else (farFrom m1 e.globalMvs.2).map Bool.toNat

/-- One temporal sample (tile_encoder.rs 1069–1169): the stack and `zero_mv_context`. -/
def temporalSample (e : MvEnv) (dr dc : Nat) (st : MvStack × Nat) : Option (MvStack × Nat) :=
  let r := (e.miRow + dr) ||| 1
  let c := (e.miCol + dc) ||| 1
  let first := dr = 0 ∧ dc = 0
  if e.inside r c then do
    let zero := if first then 1 else st.2
    let i0 ← refIdx e.ref0
    let m0 ← e.field i0 (r >>> 1) (c >>> 1)
    if e.compound then
      let i1 ← refIdx e.ref1
      let m1 ← e.field i1 (r >>> 1) (c >>> 1)
      if fieldValid m0 && fieldValid m1 then
        let m0 := lowerMv e.force m0
        let m1 := lowerMv e.force m1
        let zero ← firstZero (decide first) zero (farPair e m0 m1)
        let s ← st.1.insert true (m0, m1) 2
        some (s, zero)
      else some (st.1, zero)
    else if fieldValid m0 then
      let m0 := lowerMv e.force m0
      let zero ← firstZero (decide first) zero ((farFrom m0 e.globalMvs.1).map Bool.toNat)
      let s ← st.1.insert false (m0, m0) 2
      some (s, zero)
    else some (st.1, zero)
  else some st

/-- `while d < limit { …; d += step }`. -/
def steps (limit step : Nat) : List Nat := (List.range limit).filter (· % step == 0)

/-- All temporal samples in order (tile_encoder.rs 1058–1174).  The part after (1175–1188) has no effect. -/
def temporalScan (e : MvEnv) (st : MvStack × Nat) : Option (MvStack × Nat) := do
  let bw4 ← K.num_4x4_blocks_wide[e.bsize]?
  let bh4 ← K.num_4x4_blocks_high[e.bsize]?
  let stepW := if bw4 ≥ 16 then 4 else 2
  let stepH := if bh4 ≥ 16 then 4 else 2
  let grid := (steps (min bh4 16) stepH).flatMap fun dr => (steps (min bw4 16) stepW).map fun dc => (dr, dc)
  grid.foldlM (fun st d => temporalSample e d.1 d.2 st) st

/-- `find_mv_stack` (tile_encoder.rs 888–1190) after the global vectors are set up: the stack, `zero_mv_context` and
`close_matches`. -/
def findMvStack (e : MvEnv) (s : MvStack) : Option (MvStack × Nat × Nat) := do
  let s := { s with found := 0, newCount := 0, foundMatch := false }
  let s ← scan e true s
  let above := s.foundMatch
  let s ← scan e false { s with foundMatch := false }
  let left := s.foundMatch
  let s ← scanPoint e { s with foundMatch := false }
  let above := above || s.foundMatch
  let s ← bumpWeights s
  let (s, zero) ← temporalScan e (s, 0)
  some (s, zero, above.toNat + left.toNat)

end Av1
