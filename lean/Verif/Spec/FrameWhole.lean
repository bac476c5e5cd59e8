import Verif.Spec.FrameFront
import Verif.Spec.FrameLayout
import Verif.Spec.GlobalMotion
import Verif.Spec.FilmGrain

/-!
# A whole intra frame header as an AV1 decoder reads it

Section 5.9.2 of the AV1 specification after the part in `Spec/FrameFront.lean`, for frames with `FrameIsIntra`.
-/

namespace Av1

namespace Hdr

open P

/-- What a decoder knows from the sequence header beyond `SeqInfo`. -/
structure SeqRest where
  planes : Nat
  separateUv : Bool
  mono : Bool
  /-- `subsampling_x && subsampling_y` -/
  sub : Bool
  use128 : Bool
  cdef : Bool
  restoration : Bool
  filmGrain : Bool
  /-- limits of tile info for a frame of the given coded width and height -/
  limits : Nat → Nat → TileLimits

/-- `CodedLossless`. -/
def codedLossless (seg : Option Seg) (q : Quant) : Bool :=
  (List.range 8).all fun i =>
    let alt := (seg.bind Seg.data).bind fun fs => (fs.getD i []).getD 0 none
    decide ((match alt with | some d => clip 0 255 (q.baseQIdx + d) | none => (q.baseQIdx : Int)) = 0) &&
      decide (q.yDc = 0) && decide (q.uDc = 0) && decide (q.uAc = 0) && decide (q.vDc = 0) && decide (q.vAc = 0)

/-- The sections from tile info on. -/
structure Rest where
  tile : Nat × Nat × Option (Nat × Nat)
  quant : Quant
  seg : Option Seg
  deltaQ : Bool × Nat
  deltaLf : Bool × Nat × Bool
  loopFilter : Option LoopFilter
  cdef : Option (Nat × List ((Nat × Nat) × Option (Nat × Nat)))
  lr : Option (List Restoration × Option (Nat × Nat))
  txMode : TxMode
  reducedTx : Bool
  motion : List (Nat × List Int)
  grain : Option (Nat × (Nat ⊕ GrainParams))

/-- From tile info on, for an intra frame of size `z`; segmentation features without data keep those of the previous frame,
which an intra frame does not have. -/
def rest (r : SeqRest) (o : Opening) (z : Size) (intrabc : Bool) : P Rest := do
  let tile ← tileInfo (r.limits z.coded z.height)
  let q ← quant r.planes r.separateUv
  let seg ← segmentation 8 true
  let dq ← deltaQParams q.baseQIdx
  let dl ← deltaLfParams dq.1 intrabc
  let lossless := codedLossless seg q
  let allLossless := lossless && decide (z.coded = z.width)
  let lf ← loopFilterParams lossless intrabc r.planes
  let cd ← cdefParams lossless intrabc r.cdef r.planes
  let l ← lrParams allLossless intrabc r.restoration r.planes r.use128 r.sub
  let tx ← txMode lossless
  let rt ← flag
  let gm ← globalMotion true false fun _ => []
  let g ← filmGrain r.filmGrain (o.shown || o.showable) (o.type == 1) r.mono r.sub
  pure ⟨tile, q, seg, dq, dl, lf, cd, l, tx, rt, gm, g⟩

/-- A whole header of an intra frame; other frames are not read. -/
def whole (s : SeqInfo) (r : SeqRest) : P (Sum Existing (Front × Rest)) := do
  let h ← header s
  match h with
  | .inl e => pure (.inl e)
  | .inr f =>
    match f.sizes with
    | .inl (z, b) => do
      let x ← rest r f.opening z b
      pure (.inr (f, x))
    | .inr _ => fun _ => none

end Hdr

end Av1
