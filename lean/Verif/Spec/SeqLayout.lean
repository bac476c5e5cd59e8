import Verif.Spec.Parser

/-!
# The bit layout of the sequence header as the code writes it

It is not the AV1 layout (timing information comes late, the operating point count is not "minus one", the size field
is a private code); this reader documents it.  Used for the "nothing is lost" theorems.
-/

namespace Av1.Layout

open P

/-- A frame dimension after its width field `n`: the low `n` bits of dimension - 1, whose leading one is implied; all
ones means 2^(n+1) and is followed by one more bit. -/
def dim (n : Nat) : P Nat := do
  let v ← f n
  if v + 1 = 2 ^ n then do
    let _ ← f 1
    pure (2 ^ (n + 1))
  else pure (2 ^ n + v + 1)

def size : P (Nat × Nat) := do
  let wb ← f 4
  let hb ← f 4
  let w ← dim (wb + 1)
  let h ← dim (hb + 1)
  pure (w, h)

/-- Operating point: idc, level, tier (only for levels above 7). -/
def operatingPoint : P (Nat × Nat × Option Bool) := do
  let idc ← f 12
  let level ← f 5
  let tier ← opt (decide (level > 7)) flag
  pure (idc, level, tier)

def operatingPoints : P (List (Nat × Nat × Option Bool)) := do
  let n ← f 5
  many n operatingPoint

/-- Frame id lengths: (delta, additional). -/
def frameId : P (Nat × Nat) := do
  let d ← f 4
  let a ← f 3
  pure (d + 2, a + 1)

structure Tools where
  interintra : Bool
  masked : Bool
  warped : Bool
  dualFilter : Bool
  /-- (joint compound, reference frame mvs), absent when order hints are off -/
  orderHint : Option (Bool × Bool)
  /-- 0 off, 1 on, 2 chosen per frame -/
  screenContent : Nat
  /-- 0 off, 1 on, 2 chosen per frame -/
  integerMv : Nat
  orderHintBits : Option Nat
deriving Repr, DecidableEq

def tools : P Tools := do
  let a ← flag
  let b ← flag
  let c ← flag
  let d ← flag
  let oh ← flag
  let ohTools ← opt oh (do
    let j ← flag
    let r ← flag
    pure (j, r))
  let choose ← flag
  let sct ← (if choose then pure 2 else f 1)
  let imv ← (if sct > 0 then do
      let choose ← flag
      if choose then pure 2 else f 1
    else pure 2)
  let bits ← opt oh (do
    let n ← f 3
    pure (n + 1))
  pure ⟨a, b, c, d, ohTools, sct, imv, bits⟩

structure Color where
  bitDepth : Nat
  monoChrome : Bool
  /-- primaries, transfer, matrix -/
  description : Option (Nat × Nat × Nat)
  /-- absent for sRGB, where it is implied -/
  fullRange : Option Bool
  subsampling : Bool × Bool
  /-- only with 4:2:0 color -/
  samplePosition : Option Nat
  separateUvDeltaQ : Bool
deriving Repr, DecidableEq

def color (profile : Nat) : P Color := do
  let high ← flag
  let depth ← (if profile = 2 && high then do
      let twelve ← flag
      pure (if twelve then 12 else 10)
    else pure (if high then 10 else 8))
  let mono ← (if profile = 1 then pure false else flag)
  let desc ← flagged (do
    let a ← f 8
    let b ← f 8
    let c ← f 8
    pure (a, b, c))
  let (range, sub, pos) ← (if mono then do
      let r ← flag
      pure (some r, (true, true), none)
    else if desc = some (1, 13, 0) then pure (none, (false, false), none)
    else do
      let r ← flag
      let sub ← (if profile = 0 then pure (true, true)
        else if profile = 1 then pure (false, false)
        else if depth = 12 then do
          let x ← flag
          let y ← (if x then flag else pure false)
          pure (x, y)
        else pure (true, false))
      let pos ← opt (sub.1 && sub.2) (f 2)
      pure (some r, sub, pos))
  let sep ← flag
  pure ⟨depth, mono, desc, range, sub, pos, sep⟩

structure DecoderModel where
  bitrateScale : Nat
  bufferSizeScale : Nat
  bufferDelayLength : Nat
  decodingTick : Nat
  removalDelayLength : Nat
  presentationDelayLength : Nat
deriving Repr, DecidableEq

structure Timing where
  displayTick : Nat
  timeScale : Nat
  /-- present iff pictures are equally spaced -/
  ticksPerPicture : Option Nat
  decoderModel : Option DecoderModel
deriving Repr, DecidableEq

def decoderModel : P DecoderModel := do
  let a ← f 4
  let b ← f 4
  let c ← f 5
  let d ← f 32
  let e ← f 5
  let g ← f 5
  pure ⟨a, b, c + 1, d, e + 1, g + 1⟩

def timing : P Timing := do
  let a ← f 32
  let b ← f 32
  let eq ← flag
  let t ← opt eq (do
    let t ← uvlc
    pure (t + 1))
  let dm ← flagged decoderModel
  pure ⟨a, b, t, dm⟩

structure Params where
  bitrate : Nat
  bufferSize : Nat
  cbr : Bool
  decoderDelay : Nat
  encoderDelay : Nat
  lowDelay : Bool
deriving Repr, DecidableEq

def params (n : Nat) : P Params := do
  let a ← uvlc
  let b ← uvlc
  let c ← flag
  let d ← f n
  let e ← f n
  let g ← flag
  pure ⟨a + 1, b + 1, c, d, e, g⟩

/-- Operating point model: idc, initial display delay, parameters (only with a decoder model). -/
def opModel (dm : Option DecoderModel) : P (Nat × Option Nat × Option Params) := do
  let idc ← f 12
  let d ← flagged (do
    let d ← f 4
    pure (d + 1))
  let p ← (match dm with
    | some dm => flagged (params dm.bufferDelayLength)
    | none => pure none)
  pure (idc, d, p)

def opModels (dm : Option DecoderModel) : P (List (Nat × Option Nat × Option Params)) := do
  let present ← flag
  if present then
    let n ← f 5
    many (n + 1) (opModel dm)
  else pure []

structure Sequence where
  profile : Nat
  still : Bool
  reduced : Bool
  operatingPoints : Option (List (Nat × Nat × Option Bool))
  size : Nat × Nat
  frameId : Option (Nat × Nat)
  use128 : Bool
  filterIntra : Bool
  intraEdgeFilter : Bool
  tools : Option Tools
  superres : Bool
  cdef : Bool
  restoration : Bool
  color : Color
  timing : Option Timing
  opModels : List (Nat × Option Nat × Option Params)
  filmGrain : Bool
deriving Repr, DecidableEq

def sequence : P Sequence := do
  let profile ← f 3
  let still ← flag
  let reduced ← flag
  let ops ← opt (!reduced) operatingPoints
  let sz ← size
  let fid ← (if reduced then pure none else flagged frameId)
  let use128 ← flag
  let fi ← flag
  let ie ← flag
  let tl ← opt (!reduced) tools
  let sr ← flag
  let cd ← flag
  let rs ← flag
  let col ← color profile
  let tm ← (if reduced then pure none else flagged timing)
  let om ← opModels (tm.bind (·.decoderModel))
  let fg ← flag
  pure ⟨profile, still, reduced, ops, sz, fid, use128, fi, ie, tl, sr, cd, rs, col, tm, om, fg⟩

end Av1.Layout
