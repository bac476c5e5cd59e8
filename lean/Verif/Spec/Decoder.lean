import Verif.Spec.BlockHead
import Verif.Props.Contexts

/-!
# Decoders that decide as they go

`decodeSession` is given all its requests beforehand.  A real decoder is not: which table it uses next depends on what it has
read so far.  A `Dec` is such a decoder.  The second half writes the block decoder of AV1 5.11.7–5.11.26 in this form, for the
blocks C117 is about, and a decoder for a row of such blocks that gets its neighbours and candidate lists from the blocks
it has decoded.
-/

namespace Av1

/-- A decoder: it stops with a result, gives up, or makes a request and goes on with the answer. -/
inductive Dec (α : Type) : Type where
  | done (a : α)
  | fail
  | ask (r : Req) (k : List Nat → Dec α)

namespace Dec

def bind {α β : Type} : Dec α → (α → Dec β) → Dec β
  | .done a, f => f a
  | .fail, _ => .fail
  | .ask r k, f => .ask r fun v => (k v).bind f

instance : Monad Dec where
  pure := .done
  bind := Dec.bind

/-- Run it on the range decoder. -/
def run {α : Type} : Dec α → BoolCoder → Bits → Bank → Option (α × BoolCoder × Bits × Bank)
  | .done a, d, input, bank => some (a, d, input, bank)
  | .fail, _, _, _ => none
  | .ask r k, d, input, bank =>
    match decodeOp d input bank r with
    | some (v, d, input, bank) => (k v).run d input bank
    | none => none

/-- Run it on the bits of a session from the start. -/
def onBits {α : Type} (x : Dec α) (d : BoolCoder) (input : Bits) (sz : Nat) (bank : Bank) :
    Option (α × BoolCoder × Bits × Bank) :=
  match initDecoder d input sz with
  | some (d, rest) => x.run d rest bank
  | none => none

/-- What it would do if the answers were the values that the calls `ops` coded, one after the other: the result and the
calls it did not get to.  It has to make the request that matches the call. -/
def hears {α : Type} : Dec α → List Op → Option (α × List Op)
  | .done a, ops => some (a, ops)
  | .fail, _ => none
  | .ask _ _, [] => none
  | .ask r k, op :: ops => if r = op.req then (k op.val).hears ops else none

/-- Ask for an element, with the table that the element has here; the value in `e` does not matter (C60). -/
def elem (e : Elem) (nb : Nbrs) : Dec Nat :=
  match (e.setValue 0).table nb with
  | some (f, idx) => .ask (.sym (famStart f + tablePos idx f.dims)) fun v => match v with | [s] => .done s | _ => .fail
  | none => .fail

/-- The result of something the decoder computes. -/
def ofOption {α : Type} : Option α → Dec α
  | some a => .done a
  | none => .fail

/-! ### Blocks -/

/-- The reference of a block with one reference. -/
def single (nb : Nbrs) : Dec Int := do
  if (← elem (.singleRefP1 0) nb) = 1 then
    if (← elem (.singleRefP2 0) nb) = 1 then return 7
    else if (← elem (.singleRefP6 0) nb) = 1 then return 6
    else return 5
  else if (← elem (.singleRefP3 0) nb) = 1 then
    if (← elem (.singleRefP5 0) nb) = 1 then return 4 else return 3
  else if (← elem (.singleRefP4 0) nb) = 1 then return 2
  else return 1

/-- The reference of a block that is known to have one; two references are not read. -/
def reference (s : Blocks.Seg) (id : Nat) (two : Bool) (nb : Nbrs) : Dec Int :=
  match Blocks.forcedRefs s id with
  | some r => .done r.1
  | none =>
    if two then do
      if (← elem (.compMode 0) nb) = 0 then single nb else .fail
    else single nb

/-- The mode of a block with one reference. -/
def mode (s : Blocks.Seg) (id : Nat) (m : FoundMvs) (nb : Nbrs) : Dec Nat :=
  if Blocks.forcedGlobal s id then .done 16
  else do
    if (← elem (.newMv 0 m.newCtx) nb) = 0 then return 17
    else if (← elem (.zeroMv 0 m.zeroCtx) nb) = 0 then return 16
    else if (← elem (.refMv 0 m.refCtx) nb) = 0 then return 14
    else return 15

/-- Which candidate, going through the positions `is`; `r` is the answer if nothing more is coded. -/
def candidate (m : FoundMvs) (nb : Nbrs) : List Nat → Nat → Dec Nat
  | [], r => .done r
  | i :: is, r =>
    if m.found > i + 1 then do
      if (← elem (.drlMode 0 i m.drlStack) nb) = 0 then return i else candidate m nb is (i + 1)
    else candidate m nb is r

/-- `ref_mv_idx` for the modes of blocks with one reference that need no difference. -/
def candidateOf (y : Nat) (m : FoundMvs) (nb : Nbrs) : Dec Nat :=
  if y = 15 then candidate m nb [1, 2] 1 else .done 0

/-- An inter block with one reference and a mode without difference. -/
def inter (s : Blocks.Seg) (id : Nat) (two : Bool) (cands : Int × Int → Option FoundMvs) (nb : Nbrs) : Dec Blocks.Inter := do
  let r ← reference s id two nb
  let m ← ofOption (cands (r, -1))
  let y ← mode s id m nb
  if y = 17 then .fail
  else
    let idx ← candidateOf y m nb
    let v ← ofOption (Blocks.vector m y idx)
    return ⟨r, y, v⟩

/-- What the neighbours say about the segment id. -/
structure SegNbrs where
  above : Option Nat
  left : Option Nat
  corner : Option Nat

/-- A neighbour's segment id as the table choice takes it. -/
def nbrInt : Option Nat → Int
  | none => -1
  | some v => v

/-- `intra_segment_id`. -/
def segmentId (s : Blocks.Seg) (n : SegNbrs) (skip : Bool) (nb : Nbrs) : Dec Nat :=
  if s.enabled then
    let p := Blocks.predicted n.above n.left n.corner
    if skip then .done p
    else do
      let v ← elem (.segmentId 0 (nbrInt n.above) (nbrInt n.left) (nbrInt n.corner)) nb
      return (max 0 (min (s.lastActive : Int) (negDeinterleave v p (s.lastActive + 1)))).toNat
  else .done 0

/-- `read_skip`. -/
def skip (s : Blocks.Seg) (id : Nat) (nb : Nbrs) : Dec Bool :=
  if s.preSkip && s.active id 6 then .done true
  else do return decide ((← elem (.skip 0) nb) = 1)

/-- Segment id and skip flag. -/
def head (s : Blocks.Seg) (n : SegNbrs) (nb : Nbrs) : Dec (Nat × Bool) :=
  if s.preSkip then do
    let id ← segmentId s n false nb
    let k ← skip s id nb
    return (id, k)
  else do
    let k ← skip s 0 nb
    let id ← segmentId s n k nb
    return (id, k)

/-- `read_is_inter` without skip mode. -/
def isInter (s : Blocks.Seg) (id : Nat) (nb : Nbrs) : Dec Bool :=
  if s.active id 5 then .done (decide (s.feature id 5 ≠ some 0))
  else if s.active id 7 then .done true
  else do return decide ((← elem (.isInter false) nb) = 1)

/-- Ask for a number of bits. -/
def lit (n : Nat) : Dec Nat := .ask (.lit n) fun v => match v with | [x] => .done x | _ => .fail

/-- The magnitude of a delta: a small one, or its number of bits and the bits.  `a` is the element of the small one. -/
def magnitude (a : Elem) (nb : Nbrs) : Dec Nat := do
  let small ← elem a nb
  if small = 3 then
    let n ← lit 3
    let v ← lit (n + 1)
    return v + 2 ^ (n + 1) + 1
  else return small

/-- A delta: magnitude and sign. -/
def delta (a : Elem) (nb : Nbrs) : Dec Int := do
  let mag ← magnitude a nb
  if mag = 0 then return 0
  else if (← lit 1) = 1 then return -(mag : Int)
  else return (mag : Int)

/-- Has the CDEF index of this 64×64 area been read? -/
inductive Cdef where
  /-- there are no indices -/
  | off
  | known (i : Int)
  /-- not yet; this is the number of its bits -/
  | due (bits : Nat)

/-- What a decoder knows about the CDEF index and the deltas when it comes to a block. -/
structure Adjust where
  cdef : Cdef
  /-- is this the first block of a superblock, in a frame with quantizer deltas? -/
  deltas : Bool
  /-- is the block the whole superblock? -/
  whole : Bool
  /-- quantizer index and resolution of its deltas -/
  q : Int
  qRes : Nat
  /-- loop filter deltas, their resolution, how many are coded, and whether each has its own table -/
  lf : List Int
  lfRes : Nat
  lfCount : Nat
  lfMulti : Bool

/-- `read_cdef`: the index that holds for the block. -/
def cdefIdx (a : Adjust) (skip : Bool) : Dec (Option Int) :=
  match a.cdef with
  | .off => .done none
  | .known i => .done (some i)
  | .due n => if skip then .done (some (-1)) else do return some (((← lit n : Nat)) : Int)

/-- `read_delta_qindex`: the quantizer index that holds for the block. -/
def qIndex (a : Adjust) (skip : Bool) (nb : Nbrs) : Dec Int :=
  if a.deltas && !(a.whole && skip) then do
    let d ← delta (.deltaQAbs 0) nb
    return if d = 0 then a.q else max 1 (min 255 (a.q + d * 2 ^ a.qRes))
  else .done a.q

/-- The loop filter deltas from number `i` on. -/
def lfDeltas (a : Adjust) (nb : Nbrs) : Nat → Nat → List Int → Dec (List Int)
  | 0, _, l => .done l
  | n + 1, i, l => do
    let d ← delta (.deltaLfAbs 0 a.lfMulti.toNat i) nb
    let x ← ofOption l[i]?
    lfDeltas a nb n (i + 1) (l.set i (if d = 0 then x else max (-63) (min 63 (x + d * 2 ^ a.lfRes))))

/-- `read_delta_lf`: the loop filter deltas that hold for the block. -/
def lf (a : Adjust) (skip : Bool) (nb : Nbrs) : Dec (List Int) :=
  if a.deltas && !(a.whole && skip) then lfDeltas a nb a.lfCount 0 a.lf else .done a.lf

/-- A decoded block: segment id, skip flag, CDEF index, quantizer index, loop filter deltas, and reference, mode and vector
of an inter block. -/
structure Got where
  segId : Nat
  skip : Bool
  cdef : Option Int
  q : Int
  lf : List Int
  inter : Option Blocks.Inter
deriving DecidableEq

/-- What a decoder knows when it comes to a block: from the headers, and from the blocks it has decoded. -/
structure Here where
  seg : Blocks.Seg
  segNbrs : SegNbrs
  adjust : Adjust
  /-- may the block have two references? -/
  two : Bool
  nb : Nbrs
  cands : Int × Int → Option FoundMvs

/-- A block. -/
def block (h : Here) : Dec Got := do
  let (id, k) ← head h.seg h.segNbrs h.nb
  let i ← cdefIdx h.adjust k
  let q ← qIndex h.adjust k h.nb
  let l ← lf h.adjust k h.nb
  if ← isInter h.seg id h.nb then
    let m ← inter h.seg id h.two h.cands h.nb
    return ⟨id, k, i, q, l, some m⟩
  else return ⟨id, k, i, q, l, none⟩

/-- One block after the other.  `here` says what is known after the blocks decoded so far. -/
def blocks (here : List Got → Here) : Nat → List Got → Dec (List Got)
  | 0, got => .done got
  | n + 1, got => do
    let g ← block (here got)
    blocks here n (got ++ [g])

end Dec

end Av1
