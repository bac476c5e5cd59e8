import Verif.Model.Util
import Verif.Model.Emit
import Verif.Model.Tables

/-!
# `src/common.rs` and the block map of `src/frame.rs`

Block sizes, transform sizes, transform types, prediction modes are their discriminants (`Nat`), reference frames
`Int` (because of `NONE = -1`).  `none` is a panic: index outside a table, `unwrap` of `None`, arithmetic underflow.
-/

namespace Av1

/-- `MotionVector` (common.rs 12–16). -/
structure Mv where
  x : Int
  y : Int
deriving Repr, DecidableEq

/-- Range of `isize` on the 64-bit target. -/
def isizeOk (v : Int) : Bool := decide (-2 ^ 63 ≤ v ∧ v < 2 ^ 63)

/-- An `isize` operation with result `v`; outside the range it panics (debug build). -/
def isize (v : Int) : Option Int := if isizeOk v then some v else none

/-- `Add for MotionVector` (common.rs 25–31). -/
def Mv.add (a b : Mv) : Option Mv := do
  let x ← isize (a.x + b.x)
  let y ← isize (a.y + b.y)
  some ⟨x, y⟩

/-- `Sub for MotionVector` (common.rs 33–39). -/
def Mv.sub (a b : Mv) : Option Mv := do
  let x ← isize (a.x - b.x)
  let y ← isize (a.y - b.y)
  some ⟨x, y⟩

/-- `lower_mv_precision` (tile_encoder.rs 929–948, and three identical copies at 1078–1097, 1208–1227, 1272–1291).
`force` is `frame.force_integer_mv > 0`.  Computed on unbounded integers; the intermediate values stay within
`|v| + 3`, so for vectors of an actual stream no overflow arises. -/
def lowerMvPrecision (force : Bool) (v : Int) : Int :=
  if force then
    let a := absM v
    let aInt := (a + 3) >>> 3
    if v > 0 then aInt <<< 3 else -(aInt <<< 3)
  else
    if v % 2 ≠ 0 then        -- `v & 1 != 0`
      if v > 0 then v - 1 else v + 1
    else v

/-- `get_plane_residual_size` (common.rs 41–45). -/
def getPlaneResidualSize (subsize plane : Nat) (ssx ssy : Bool) : Option Nat := do
  let subx := if plane > 0 then ssx.toNat else 0
  let suby := if plane > 0 then ssy.toNat else 0
  let a ← K.subsampled_size[subsize]?
  let b ← a[subx]?
  b[suby]?

/-- Loop of `find_tx_size` (common.rs 47–54) over the transform sizes from `i` on. -/
def findTxSizeFrom (w h : Nat) : Nat → List Nat → List Nat → Nat
  | i, tw :: tws, th :: ths => if tw = w ∧ th = h then i else findTxSizeFrom w h (i + 1) tws ths
  | _, _, _ => K.TX_INVALID

/-- `find_tx_size` (common.rs 47–54). -/
def findTxSize (w h : Nat) : Nat := findTxSizeFrom w h 0 K.tx_width K.tx_height

/-- `check_backward` (common.rs 56–58). -/
def checkBackward (r : Int) : Bool := decide (r ≥ K.BWDREF_FRAME ∧ r ≤ K.ALTREF_FRAME)

/-- `ref_count_ctx` (common.rs 70–74). -/
def refCountCtx (c0 c1 : Nat) : Nat := if c0 < c1 then 0 else if c0 = c1 then 1 else 2

/-- `get_tx_set` (common.rs 76–97).  The enumerators are compared by discriminant (`PartialOrd`). -/
def getTxSet (txSize : Nat) (isInter reducedTxSet : Bool) : Option Nat := do
  let sqr ← K.tx_size_sqr[txSize]?
  let up ← K.tx_size_sqr_up[txSize]?
  if up > K.TX_32X32 then some K.TX_SET_DCTONLY
  else if isInter then
    if reducedTxSet || up == K.TX_32X32 then some K.TX_SET_INTER_3
    else if sqr == K.TX_16X16 then some K.TX_SET_INTER_2
    else some K.TX_SET_INTER_1
  else
    if up == K.TX_32X32 then some K.TX_SET_DCTONLY
    else if reducedTxSet then some K.TX_SET_INTRA_2
    else if sqr == K.TX_16X16 then some K.TX_SET_INTRA_2
    else some K.TX_SET_INTRA_1

/-- `is_tx_type_in_set` (common.rs 99–103). -/
def isTxTypeInSet (txSet txType : Nat) (isInter : Bool) : Option Bool := do
  let row ← if isInter then K.tx_type_in_set_inter[txSet]? else K.tx_type_in_set_intra[txSet]?
  row[txType]?

/-- The tail shared by the three branches of `compute_tx_type`: fall back to DCT outside the set. -/
def txTypeOrDct (txSet txType : Nat) (isInter : Bool) : Option Nat := do
  let b ← isTxTypeInSet txSet txType isInter
  if b then some txType else some K.DCT_DCT

/-- `compute_tx_type` (common.rs 105–137).  `at_ row col` is `frame.get_mi(row, col).unwrap().tx_type`. -/
def computeTxType (at_ : Nat → Nat → Option Nat) (ssx ssy : Bool) (plane txSize blockX blockY : Nat)
    (lossless isInter reducedTxSet : Bool) (uvMode miRow miCol : Nat) : Option Nat := do
  let up ← K.tx_size_sqr_up[txSize]?
  if lossless || decide (up > K.TX_32X32) then some K.DCT_DCT
  else
    let txSet ← getTxSet txSize isInter reducedTxSet
    if plane = 0 then
      let t ← at_ miRow miCol
      txTypeOrDct txSet t isInter
    else if isInter then
      let x4 := max miCol (blockX <<< ssx.toNat)
      let y4 := max miRow (blockY <<< ssy.toNat)
      let t ← at_ y4 x4
      txTypeOrDct txSet t isInter
    else
      let t ← K.mode_to_txfm[uvMode]?
      txTypeOrDct txSet t isInter

/-- `get_tx_class` (common.rs 139–145). -/
def getTxClass (t : Nat) : Nat :=
  if t = K.V_DCT ∨ t = K.V_ADST ∨ t = K.V_FLIPADST then K.TX_CLASS_VERT
  else if t = K.H_DCT ∨ t = K.H_ADST ∨ t = K.H_FLIPADST then K.TX_CLASS_HORIZ
  else K.TX_CLASS_2D

/-- `is_samedir_ref_pair` (common.rs 182–188). -/
def isSamedirRefPair (r0 r1 : Int) : Bool :=
  if r0 ≤ K.INTRA_FRAME ∨ r1 ≤ K.INTRA_FRAME then false
  else decide (r0 ≥ K.BWDREF_FRAME) == decide (r1 ≥ K.BWDREF_FRAME)

/-- Two's complement `x & (2^k - 1)` of a signed number: the low `k` bits. -/
def lowBits (x : Int) (k : Nat) : Int := x % 2 ^ k

/-- Two's complement `x & 2^k` of a signed number: bit `k` in place. -/
def bitAt (x : Int) (k : Nat) : Int := x / 2 ^ k % 2 * 2 ^ k

/-- `get_relative_dist` (common.rs 190–198).  `order_hint_bits - 1` underflows at 0; a shift by 63 or more of the
`isize` `1` overflows or makes `m - 1` overflow. -/
def getRelativeDist (a b : Nat) (enable : Bool) (bits : Nat) : Option Int :=
  if !enable then some 0
  else if bits = 0 ∨ bits ≥ 64 then none
  else
    let diff : Int := (a : Int) - b
    some (lowBits diff (bits - 1) - bitAt diff (bits - 1))

/-- `mis` of a frame as `Frame::new` allocates it (frame.rs 258): `height/4` rows of `width/4` entries; `α` is the
information per block. -/
def newMis (α : Type) (width height : Nat) : List (List (Option α)) :=
  List.replicate (height / 4) (List.replicate (width / 4) none)

/-- `Frame::get_mi` (frame.rs 351–353): outer `none` = index panic, inner = no block stored. -/
def getMi {α} (mis : List (List (Option α))) (row col : Nat) : Option (Option α) := do
  let r ← mis[row]?
  r[col]?

/-- `Frame::get_above_mi` (frame.rs 355–358). -/
def getAboveMi {α} (mis : List (List (Option α))) (row col : Nat) : Option (Option α) :=
  if row = 0 then some none else getMi mis (row - 1) col

/-- `Frame::get_left_mi` (frame.rs 360–363). -/
def getLeftMi {α} (mis : List (List (Option α))) (row col : Nat) : Option (Option α) :=
  if col = 0 then some none else getMi mis row (col - 1)

/-- `Frame::mi_rows` / `mi_cols` (frame.rs 365–371) of a dimension. -/
def miDim (n : Nat) : Nat := 2 * ((n + 7) >>> 3)

/-- `neg_interleave` (tile_encoder.rs 563–589), all subtractions on `usize`. -/
def negInterleave (v rf mx : Nat) : Option Nat :=
  if rf = 0 then some v
  else do
    let m1 ← usub mx 1
    if rf ≥ m1 then usub m1 v
    else if 2 * rf < mx then
      let d0 ← usub v rf
      let d1 ← usub (d0 <<< 1) 1
      let e ← usub rf v
      let d2 := e <<< 1
      if d1 ≤ 2 * rf then some d1
      else if d2 ≤ 2 * rf then some d2
      else some v
    else
      let d0 ← usub v rf
      let d1 ← usub (d0 <<< 1) 1
      let e ← usub rf v
      let d2 := e <<< 1
      let q ← usub mx rf
      let q1 ← usub q 1
      if d1 ≤ 2 * q1 then some d1
      else if d2 ≤ 2 * q1 then some d2
      else do
        let a ← usub rf v
        usub a 1

end Av1
