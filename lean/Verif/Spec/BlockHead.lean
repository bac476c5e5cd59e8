import Verif.Props.BlockInfo
import Verif.Props.Motion

/-!
# AV1: the first elements of a block, and what the segment decides

Written from AV1 5.11.7–5.11.11, 5.11.20–5.11.25 and 5.9.14 (`seg_feature_active_idx`).  A reader takes the elements that
were written and returns the value it gets with the elements it did not read.
-/

namespace Av1.Blocks

/-- The segmentation parameters in force. -/
structure Seg where
  enabled : Bool
  /-- `SegIdPreSkip` -/
  preSkip : Bool
  /-- `LastActiveSegId` -/
  lastActive : Nat
  /-- `FeatureData`, `none` where the feature is not enabled -/
  feature : Nat → Nat → Option Int

/-- `seg_feature_active_idx`. -/
def Seg.active (s : Seg) (id f : Nat) : Bool := s.enabled && (s.feature id f).isSome

/-- The prediction of a segment id from the blocks above, to the left and above left, where they exist. -/
def predicted : (above left corner : Option Nat) → Nat
  | none, none, _ => 0
  | none, some l, _ => l
  | some u, none, _ => u
  | some u, some l, c => if c = some u then u else l

/-- `intra_segment_id`. -/
def segmentId (s : Seg) (above left corner : Option Nat) (skip : Bool) (l : List Syn) : Option (Nat × List Syn) :=
  if s.enabled then
    let p := predicted above left corner
    if skip then some (p, l)
    else match l with
      | .elem (.segmentId v _ _ _) :: l =>
        some ((max 0 (min (s.lastActive : Int) (negDeinterleave v p (s.lastActive + 1)))).toNat, l)
      | _ => none
  else some (0, l)

/-- `read_skip`. -/
def skip (s : Seg) (id : Nat) (l : List Syn) : Option (Bool × List Syn) :=
  if s.preSkip && s.active id 6 then some (true, l)
  else match l with
    | .elem (.skip v) :: l => some (decide (v = 1), l)
    | _ => none

/-- Segment id and skip flag at the start of `intra_frame_mode_info`. -/
def head (s : Seg) (above left corner : Option Nat) (l : List Syn) : Option ((Nat × Bool) × List Syn) :=
  if s.preSkip then do
    let (id, l) ← segmentId s above left corner false l
    let (k, l) ← skip s id l
    some ((id, k), l)
  else do
    let (k, l) ← skip s 0 l
    let (id, l) ← segmentId s above left corner k l
    some ((id, k), l)

/-- `read_is_inter` without skip mode. -/
def isInter (s : Seg) (id : Nat) (l : List Syn) : Option (Bool × List Syn) :=
  if s.active id 5 then some (decide (s.feature id 5 ≠ some 0), l)
  else if s.active id 7 then some (true, l)
  else match l with
    | .elem (.isInter v) :: l => some (v, l)
    | _ => none

/-- The references that a segment gives to its inter blocks, if it does. -/
def forcedRefs (s : Seg) (id : Nat) : Option (Int × Int) :=
  if s.active id 5 then (s.feature id 5).map fun r => (r, -1)
  else if s.active id 6 || s.active id 7 then some (1, -1)
  else none

/-- Does a segment give its inter blocks the global motion vector? -/
def forcedGlobal (s : Seg) (id : Nat) : Bool := s.active id 6 || s.active id 7

/-- The two references of a choice. -/
def pair : RefChoice → Int × Int
  | .single r => (r, -1)
  | .uni r0 r1 | .bidir r0 r1 => (r0, r1)

/-- May a block of this size have two references?  `sel` is `reference_select`. -/
def two (sel : Bool) (bsize : Nat) : Bool :=
  sel && match blockDims[bsize]? with
    | some (w, h) => decide (8 ≤ min w h)
    | none => false

/-- `read_ref_frames`; `two` says whether the block may have two references. -/
def refs (s : Seg) (id : Nat) (two : Bool) (l : List Elem) : Option ((Int × Int) × List Elem) :=
  match forcedRefs s id with
  | some r => some (r, l)
  | none => if two then (readRefs l).map fun p => (pair p.1, p.2) else (readSingle l).map fun p => ((p.1, -1), p.2)

/-- What a decoder knows of an inter block with one reference. -/
structure Inter where
  ref : Int
  mode : Nat
  mv : Mv
deriving DecidableEq

/-- The mode of a block with one reference: the segment's, or coded. -/
def mode (s : Seg) (id : Nat) (l : List Elem) : Option (Nat × List Elem) :=
  if forcedGlobal s id then some (16, l) else readInterMode false l

/-- The vector of a mode that needs no difference. -/
def vector (m : FoundMvs) (y idx : Nat) : Option Mv :=
  if y = 17 then none else av1Predicted y m.found idx m.refs m.globalMvs.1 false

/-- An inter block with one reference and a mode that takes the vector from the candidates: `inter_block_mode_info` up to
`assign_mv`.  `cands` gives the candidate list of a pair of references.  Other blocks are not read. -/
def inter (s : Seg) (id : Nat) (two : Bool) (cands : Int × Int → Option FoundMvs) (l : List Elem) : Option (Inter × List Elem) := do
  let (r, l) ← refs s id two l
  let m ← cands r
  if r.2 = -1 then
    let (y, l) ← mode s id l
    let (idx, l) ← readRefMvIdx y m.found l
    let v ← vector m y idx
    some (⟨r.1, y, v⟩, l)
  else none

end Av1.Blocks
