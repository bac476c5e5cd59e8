import Verif.Spec.Parser
import Mathlib.Data.Nat.Log

/-!
# The frame header as an AV1 decoder reads it

Readers for the syntax tables of section 5.9 of the AV1 specification, written from the specification and independent of
the code.  A reader returns what the decoder knows after the table.
-/

namespace Av1

namespace Hdr

open P

/-! ## Tile info, 5.9.15 -/

/-- `tile_log2` (5.9.16): the smallest `k` with `blkSize << k ≥ target`. -/
def IsTileLog2 (blk target k : Nat) : Prop := target ≤ blk * 2 ^ k ∧ ∀ j < k, blk * 2 ^ j < target

/-- `while (x < max) increment f(1) …`: a truncated unary number from `lo` to at most `hi`. -/
def incr (hi : Nat) : Nat → Nat → P Nat
  | 0, x => pure x
  | fuel + 1, x =>
    if x < hi then do
      let b ← flag
      if b then incr hi fuel (x + 1) else pure x
    else pure x

/-- `TileColsLog2` and `TileRowsLog2` of uniform spacing, from the limits `minLog2TileCols`, `maxLog2TileCols`,
`maxLog2TileRows`, `minLog2Tiles`. -/
def uniform (minCols maxCols maxRows minTiles : Nat) : P (Nat × Nat) := do
  let c ← incr maxCols maxCols minCols
  let r ← incr maxRows maxRows (minTiles - c)
  pure (c, r)

/-- The sizes of tiles in non-uniform spacing: `width_in_sbs_minus_1 ns(maxWidth)` until all superblocks are used. -/
def sizes (maxTile total : Nat) : Nat → Nat → P (List Nat)
  | 0, _ => pure []
  | fuel + 1, start =>
    if start < total then do
      let w ← ns (min (total - start) maxTile)
      let l ← sizes maxTile total fuel (start + w + 1)
      pure ((w + 1) :: l)
    else pure []

/-- Non-uniform spacing: the numbers of columns and rows as `tile_log2(1, n)`. -/
def nonUniform (sbCols sbRows maxWidth minTiles : Nat) : P (Nat × Nat) := do
  let cs ← sizes maxWidth sbCols sbCols 0
  let area := if minTiles > 0 then sbRows * sbCols / 2 ^ (minTiles + 1) else sbRows * sbCols
  let rs ← sizes (max (area / cs.foldl max 1) 1) sbRows sbRows 0
  pure (Nat.clog 2 cs.length, Nat.clog 2 rs.length)

/-- `context_update_tile_id f(TileRowsLog2+TileColsLog2)`, `tile_size_bytes_minus_1 f(2)`. -/
def tileTail (c r : Nat) : P (Option (Nat × Nat)) :=
  opt (decide (c > 0 ∨ r > 0)) do
    let id ← f (r + c)
    let n ← f 2
    pure (id, n + 1)

/-- What the decoder derives from the frame size before it reads tile info. -/
structure TileLimits where
  sbCols : Nat
  sbRows : Nat
  maxWidth : Nat
  minCols : Nat
  maxCols : Nat
  maxRows : Nat
  minTiles : Nat

/-- The derivation, for a frame of `miCols` by `miRows` 4x4 blocks. -/
structure TileLimits.For (l : TileLimits) (miCols miRows : Nat) (use128 : Bool) : Prop where
  sbCols : l.sbCols = if use128 then (miCols + 31) / 32 else (miCols + 15) / 16
  sbRows : l.sbRows = if use128 then (miRows + 31) / 32 else (miRows + 15) / 16
  maxWidth : l.maxWidth = if use128 then 32 else 64
  minCols : IsTileLog2 l.maxWidth l.sbCols l.minCols
  maxCols : IsTileLog2 1 (min l.sbCols 64) l.maxCols
  maxRows : IsTileLog2 1 (min l.sbRows 64) l.maxRows
  minTiles : ∃ a, IsTileLog2 (if use128 then 576 else 2304) (l.sbRows * l.sbCols) a ∧ l.minTiles = max l.minCols a

/-- `tile_info`: `TileColsLog2`, `TileRowsLog2` and the trailing fields. -/
def tileInfo (l : TileLimits) : P (Nat × Nat × Option (Nat × Nat)) := do
  let u ← flag
  let cr ← (if u then uniform l.minCols l.maxCols l.maxRows l.minTiles
    else nonUniform l.sbCols l.sbRows l.maxWidth l.minTiles)
  let tail ← tileTail cr.1 cr.2
  pure (cr.1, cr.2, tail)

/-! ## Quantization parameters, 5.9.12 -/

structure Quant where
  baseQIdx : Nat
  yDc : Int
  uDc : Int
  uAc : Int
  vDc : Int
  vAc : Int
  /-- `qm_y`, `qm_u`, `qm_v` if `using_qmatrix` -/
  qm : Option (Nat × Nat × Nat)
deriving Repr, DecidableEq

/-- `read_delta_q`, 5.9.13. -/
def deltaQ : P Int := do
  let b ← flag
  if b then su 7 else pure 0

/-- The chroma offsets. -/
def chromaQ (planes : Nat) (sep : Bool) : P (Int × Int × Int × Int) :=
  if planes > 1 then do
    let diff ← (if sep then flag else pure false)
    let uDc ← deltaQ
    let uAc ← deltaQ
    if diff then
      let vDc ← deltaQ
      let vAc ← deltaQ
      pure (uDc, uAc, vDc, vAc)
    else pure (uDc, uAc, uDc, uAc)
  else pure (0, 0, 0, 0)

def qmLevels (sep : Bool) : P (Nat × Nat × Nat) := do
  let y ← f 4
  let u ← f 4
  if sep then
    let v ← f 4
    pure (y, u, v)
  else pure (y, u, u)

def quant (planes : Nat) (sep : Bool) : P Quant := do
  let base ← f 8
  let yDc ← deltaQ
  let c ← chromaQ planes sep
  let qm ← flagged (qmLevels sep)
  pure ⟨base, yDc, c.1, c.2.1, c.2.2.1, c.2.2.2, qm⟩

/-! ## Segmentation parameters, 5.9.14 -/

/-- `Segmentation_Feature_Bits`, `_Signed`, `_Max`. -/
def featBits : Nat → Nat
  | 0 => 8 | 1 => 6 | 2 => 6 | 3 => 6 | 4 => 6 | 5 => 3 | _ => 0
def featSigned (j : Nat) : Bool := decide (j ≤ 4)
def featMax : Nat → Nat
  | 0 => 255 | 1 => 63 | 2 => 63 | 3 => 63 | 4 => 63 | 5 => 7 | _ => 0

/-- `Clip3`. -/
def clip (lo hi v : Int) : Int := max lo (min hi v)

/-- One feature: `FeatureEnabled` and `FeatureData`. -/
def feature (j : Nat) : P (Option Int) := flagged (
  if featSigned j then do
    let v ← su (1 + featBits j)
    pure (clip (-(featMax j : Int)) (featMax j) v)
  else do
    let v ← f (featBits j)
    pure (clip 0 (featMax j) v))

/-- Features `j, …, j + k - 1` of one segment. -/
def features : Nat → Nat → P (List (Option Int))
  | 0, _ => pure []
  | k + 1, j => do
    let x ← feature j
    let xs ← features k (j + 1)
    pure (x :: xs)

structure Seg where
  updateMap : Bool
  temporalUpdate : Bool
  /-- all features of all segments if `segmentation_update_data` -/
  data : Option (List (List (Option Int)))
deriving Repr, DecidableEq

/-- The three update flags. -/
def segFlags (primaryNone : Bool) : P (Bool × Bool × Bool) :=
  if primaryNone then pure (true, false, true)
  else do
    let m ← flag
    let t ← (if m then flag else pure false)
    let d ← flag
    pure (m, t, d)

/-- `segmentation_params` with `n` features per segment; AV1 has `SEG_LVL_MAX = 8`. -/
def segmentation (n : Nat) (primaryNone : Bool) : P (Option Seg) := flagged do
  let fl ← segFlags primaryNone
  let d ← opt fl.2.2 (many 8 (features n 0))
  pure ⟨fl.1, fl.2.1, d⟩

/-! ## Delta q and delta lf parameters, 5.9.17, 5.9.18 -/

/-- `delta_q_present`, `delta_q_res`. -/
def deltaQParams (baseQIdx : Nat) : P (Bool × Nat) := do
  let p ← (if baseQIdx > 0 then flag else pure false)
  if p then
    let r ← f 2
    pure (true, r)
  else pure (false, 0)

/-- `delta_lf_present`, `delta_lf_res`, `delta_lf_multi`. -/
def deltaLfParams (deltaQPresent intrabc : Bool) : P (Bool × Nat × Bool) :=
  if deltaQPresent then do
    let p ← (if intrabc then pure false else flag)
    if p then
      let r ← f 2
      let m ← flag
      pure (true, r, m)
    else pure (false, 0, false)
  else pure (false, 0, false)

/-! ## Lossless, 5.9.2 and 7.12.2 -/

/-- `get_qindex(1, segmentId)` and the loop over segments: `alt` is the active `SEG_LVL_ALT_Q` of each segment. -/
def LosslessSegment (alt : Option Int) (baseQIdx : Nat) (deltas : List Int) : Prop :=
  (match alt with
    | some d => clip 0 255 (baseQIdx + d)
    | none => (baseQIdx : Int)) = 0 ∧ ∀ d ∈ deltas, d = 0

/-! ## Loop filter parameters, 5.9.11 -/

structure LoopFilter where
  level0 : Nat
  level1 : Nat
  /-- chroma levels, if present -/
  chroma : Option (Nat × Nat)
  sharpness : Nat
  /-- `loop_filter_delta_enabled`; then `loop_filter_delta_update`; then the updated deltas. -/
  deltas : Option (Option (List (Option Int) × List (Option Int)))
deriving Repr, DecidableEq

def loopFilter (planes : Nat) : P LoopFilter := do
  let a ← f 6
  let b ← f 6
  let c ← opt (decide (planes > 1 ∧ (a > 0 ∨ b > 0))) do
    let u ← f 6
    let v ← f 6
    pure (u, v)
  let s ← f 3
  let d ← flagged (flagged do
    let r ← many 8 (flagged (su 7))
    let m ← many 2 (flagged (su 7))
    pure (r, m))
  pure ⟨a, b, c, s, d⟩

/-- Nothing is coded if `CodedLossless || allow_intrabc`. -/
def loopFilterParams (lossless intrabc : Bool) (planes : Nat) : P (Option LoopFilter) :=
  opt (!(lossless || intrabc)) (loopFilter planes)

/-! ## CDEF parameters, 5.9.19 -/

/-- One set: primary and secondary strength, luma and chroma. -/
def sec : P Nat := do
  let v ← f 2
  pure (if v = 3 then 4 else v)

def strength : P (Nat × Nat) := do
  let p ← f 4
  let s ← sec
  pure (p, s)

def strengths (planes : Nat) : P ((Nat × Nat) × Option (Nat × Nat)) := do
  let y ← strength
  let uv ← opt (decide (planes > 1)) strength
  pure (y, uv)

/-- `CdefDamping` and the strengths. -/
def cdef (planes : Nat) : P (Nat × List ((Nat × Nat) × Option (Nat × Nat))) := do
  let d ← f 2
  let b ← f 2
  let l ← many (2 ^ b) (strengths planes)
  pure (d + 3, l)

/-- Nothing is coded if `CodedLossless || allow_intrabc || !enable_cdef`. -/
def cdefParams (lossless intrabc enable : Bool) (planes : Nat) :
    P (Option (Nat × List ((Nat × Nat) × Option (Nat × Nat)))) :=
  opt (!(lossless || intrabc || !enable)) (cdef planes)

/-! ## Loop restoration parameters, 5.9.20 -/

inductive Restoration where
  | none | wiener | sgrproj | switchable
deriving Repr, DecidableEq

/-- `Remap_Lr_Type`. -/
def remap : Nat → Restoration
  | 0 => .none
  | 1 => .switchable
  | 2 => .wiener
  | _ => .sgrproj

/-- `lr_unit_shift` after the table. -/
def unitShift (use128 : Bool) : P Nat := do
  let b ← f 1
  if use128 then pure (b + 1)
  else if b = 1 then
    let e ← f 1
    pure (1 + e)
  else pure 0

/-- Per plane the type; `LoopRestorationSize` of luma and chroma if used. -/
def lr (planes : Nat) (use128 sub : Bool) : P (List Restoration × Option (Nat × Nat)) := do
  let ts ← many planes (f 2)
  let ts := ts.map remap
  let s ← opt (ts.any (· ≠ .none)) do
    let sh ← unitShift use128
    let uv ← (if sub && (ts.drop 1).any (· ≠ .none) then f 1 else pure 0)
    pure (2 ^ (6 + sh), 2 ^ (6 + sh) / 2 ^ uv)
  pure (ts, s)

/-- Nothing is coded if `AllLossless || allow_intrabc || !enable_restoration`. -/
def lrParams (lossless intrabc enable : Bool) (planes : Nat) (use128 sub : Bool) :
    P (Option (List Restoration × Option (Nat × Nat))) :=
  opt (!(lossless || intrabc || !enable)) (lr planes use128 sub)

/-! ## Transform mode, 5.9.21 -/

inductive TxMode where
  | only4x4 | largest | select
deriving Repr, DecidableEq

def txMode (lossless : Bool) : P TxMode :=
  if lossless then pure .only4x4
  else do
    let b ← flag
    pure (if b then .select else .largest)

end Hdr

end Av1
