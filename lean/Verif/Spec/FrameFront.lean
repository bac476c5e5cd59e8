import Verif.Spec.Parser

/-!
# The frame header up to tile info as an AV1 decoder reads it

Sections 5.9.2 and 5.9.4 to 5.9.10 of the AV1 specification, written from the specification and independent of the code.
-/

namespace Av1

namespace Hdr

open P

/-- What a decoder knows from the sequence header and the OBU header. -/
structure SeqInfo where
  reduced : Bool
  /-- lengths of buffer removal and frame presentation times -/
  model : Option (Nat × Nat)
  equalInterval : Bool
  /-- `delta_frame_id_length`, `idLen` -/
  ids : Option (Nat × Nat)
  forceSct : Nat
  forceIntMv : Nat
  enableOrderHint : Bool
  orderHintBits : Nat
  /-- `operating_point_idc`, `decoder_model_present_for_this_op` -/
  ops : List (Nat × Bool)
  temporalId : Nat
  spatialId : Nat
  maxWidth : Nat
  maxHeight : Nat
  widthBits : Nat
  heightBits : Nat
  superres : Bool
  refMvs : Bool

/-- Frame types: 0 key, 1 inter, 2 intra only, 3 switch. -/
abbrev isIntra (t : Nat) : Bool := t == 0 || t == 2

/-- `temporal_point_info` where it is present. -/
def point (s : SeqInfo) : P (Option Nat) :=
  match s.model with
  | some (_, n) => if s.equalInterval then pure none else do
      let t ← f n
      pure (some t)
  | none => pure none

/-- `show_existing_frame = 1`: index, presentation time, frame id. -/
structure Existing where
  idx : Nat
  time : Option Nat
  id : Option Nat
deriving DecidableEq, Repr

def existing (s : SeqInfo) : P Existing := do
  let i ← f 3
  let t ← point s
  let d ← (match s.ids with
    | some (_, n) => do
      let v ← f n
      pure (some v)
    | none => pure none)
  pure ⟨i, t, d⟩

/-- Frame type, whether shown, presentation time, whether showable, error resilience. -/
structure Opening where
  type : Nat
  shown : Bool
  time : Option Nat
  showable : Bool
  errRes : Bool
deriving DecidableEq, Repr

def opening (s : SeqInfo) : P Opening :=
  if s.reduced then pure ⟨0, true, none, false, true⟩
  else do
    let t ← f 2
    let shown ← flag
    let time ← (if shown then point s else pure none)
    let showable ← (if shown then pure (t != 0) else flag)
    let e ← (if t == 3 || (t == 0 && shown) then pure true else flag)
    pure ⟨t, shown, time, showable, e⟩

/-- `disable_cdf_update`, `allow_screen_content_tools`, `force_integer_mv`. -/
def tools (s : SeqInfo) (intra : Bool) : P (Bool × Nat × Nat) := do
  let d ← flag
  let sct ← (if s.forceSct = 2 then f 1 else pure s.forceSct)
  let mv ← (if sct > 0 then (if s.forceIntMv = 2 then f 1 else pure s.forceIntMv) else pure 0)
  pure (d, sct, if intra then 1 else mv)

/-- `current_frame_id`. -/
def frameId (s : SeqInfo) : P (Option Nat) :=
  match s.ids with
  | some (_, n) => do
    let v ← f n
    pure (some v)
  | none => pure none

/-- Whether an operating point is in the layers of this frame. -/
def inLayers (s : SeqInfo) (idc : Nat) : Bool := idc == 0 || (idc.testBit s.temporalId && idc.testBit (s.spatialId + 8))

/-- Buffer removal times of the operating points. -/
def removalTimes (s : SeqInfo) (n : Nat) : List (Nat × Bool) → P (List (Option Nat))
  | [] => pure []
  | (idc, present) :: l => do
    let t ← P.opt (present && inLayers s idc) (f n)
    let ts ← removalTimes s n l
    pure (t :: ts)

def removal (s : SeqInfo) : P (Option (List (Option Nat))) :=
  match s.model with
  | some (n, _) => P.flagged (removalTimes s n s.ops)
  | none => pure none

/-- Sizes: as coded before super-resolution, its denominator, the render size. -/
structure Size where
  width : Nat
  height : Nat
  denom : Nat
  renderWidth : Nat
  renderHeight : Nat
deriving DecidableEq, Repr

/-- Width of the coded (downscaled) frame (5.9.8). -/
def Size.coded (z : Size) : Nat := (z.width * 8 + z.denom / 2) / z.denom

/-- `frame_size` without super-resolution (5.9.5). -/
def frameSize (s : SeqInfo) (override : Bool) : P (Nat × Nat) :=
  if override then do
    let w ← f s.widthBits
    let h ← f s.heightBits
    pure (w + 1, h + 1)
  else pure (s.maxWidth, s.maxHeight)

/-- `superres_params` (5.9.8): the denominator. -/
def superres (s : SeqInfo) : P Nat :=
  if s.superres then do
    let u ← flag
    if u then
      let d ← f 3
      pure (d + 9)
    else pure 8
  else pure 8

/-- `render_size` (5.9.6) for a frame of the given upscaled size. -/
def renderSize (w h : Nat) : P (Nat × Nat) := do
  let d ← flag
  if d then
    let rw ← f 16
    let rh ← f 16
    pure (rw + 1, rh + 1)
  else pure (w, h)

def size (s : SeqInfo) (override : Bool) : P Size := do
  let (w, h) ← frameSize s override
  let d ← superres s
  let (rw, rh) ← renderSize w h
  pure ⟨w, h, d, rw, rh⟩

/-- One reference: its slot (unless derived), and the distance of its frame id. -/
def ref (s : SeqInfo) (short : Bool) : P (Option Nat × Option Nat) := do
  let i ← P.opt (!short) (f 3)
  let d ← (match s.ids with
    | some (n, _) => do
      let v ← f n
      pure (some (v + 1))
    | none => pure none)
  pure (i, d)

/-- `found_ref` of `frame_size_with_refs` (5.9.7): the reference whose size is taken. -/
def foundRef : Nat → Nat → P (Option Nat)
  | 0, _ => pure none
  | n + 1, i => do
    let b ← flag
    if b then pure (some i) else foundRef n (i + 1)

/-- Size of an inter frame: that of a reference with a new denominator, or one of its own. -/
def interSize (s : SeqInfo) (override errRes : Bool) : P (Sum (Nat × Nat) Size) :=
  if override && !errRes then do
    let r ← foundRef 7 0
    match r with
    | some i => do
      let d ← superres s
      pure (.inl (i, d))
    | none => do
      let z ← size s true
      pure (.inr z)
  else do
    let z ← size s override
    pure (.inr z)

/-- What only inter frames have. -/
structure Inter where
  short : Option (Nat × Nat)
  refs : List (Option Nat × Option Nat)
  size : Sum (Nat × Nat) Size
  highPrec : Bool
  /-- interpolation filter; 4 is switchable -/
  filter : Nat
  motionSwitchable : Bool
  refMvs : Bool
deriving DecidableEq

/-- `frame_refs_short_signaling` and its two slots. -/
def short (s : SeqInfo) : P (Option (Nat × Nat)) :=
  if s.enableOrderHint then P.flagged do
    let l ← f 3
    let g ← f 3
    pure (l, g)
  else pure none

def inter (s : SeqInfo) (override errRes : Bool) (intMv : Nat) : P Inter := do
  let sh ← short s
  let refs ← P.many 7 (ref s sh.isSome)
  let z ← interSize s override errRes
  let hp ← (if intMv > 0 then pure false else flag)
  let sw ← flag
  let fl ← (if sw then pure 4 else f 2)
  let mm ← flag
  let rm ← (if errRes || !s.refMvs then pure false else flag)
  pure ⟨sh, refs, z, hp, fl, mm, rm⟩

/-- A frame header up to tile info. -/
structure Front where
  opening : Opening
  disableCdf : Bool
  sct : Nat
  intMv : Nat
  id : Option Nat
  override : Bool
  orderHint : Nat
  primary : Nat
  removal : Option (List (Option Nat))
  refresh : Nat
  refHints : Option (List Nat)
  /-- size and `allow_intrabc` of an intra frame -/
  sizes : Sum (Size × Bool) Inter
  noEndUpdate : Bool
deriving DecidableEq

/-- Size and `allow_intrabc` of an intra frame. -/
def intra (s : SeqInfo) (override : Bool) (sct : Nat) : P (Size × Bool) := do
  let z ← size s override
  let b ← (if sct > 0 ∧ z.coded = z.width then flag else pure false)
  pure (z, b)

/-- `uncompressed_header` (5.9.2) of a frame of its own, after `show_existing_frame`. -/
def front (s : SeqInfo) : P Front := do
  let o ← opening s
  let (d, sct, mv) ← tools s (isIntra o.type)
  let id ← frameId s
  let ov ← (if o.type = 3 then pure true else if s.reduced then pure false else flag)
  let oh ← f s.orderHintBits
  let pr ← (if isIntra o.type || o.errRes then pure 7 else f 3)
  let rm ← removal s
  let rf ← (if o.type = 3 ∨ (o.type = 0 ∧ o.shown) then pure 255 else f 8)
  let rh ← P.opt ((!isIntra o.type || rf != 255) && (o.errRes && s.enableOrderHint)) (P.many 8 (f s.orderHintBits))
  let z ← (if isIntra o.type then do
      let a ← intra s ov sct
      pure (Sum.inl a)
    else do
      let i ← inter s ov o.errRes mv
      pure (Sum.inr i))
  let e ← (if s.reduced || d then pure true else flag)
  pure ⟨o, d, sct, mv, id, ov, oh, pr, rm, rf, rh, z, e⟩

/-- A whole header: an existing frame or one of its own. -/
def header (s : SeqInfo) : P (Sum Existing Front) := do
  let e ← (if s.reduced then pure false else flag)
  if e then do
    let x ← existing s
    pure (.inl x)
  else do
    let x ← front s
    pure (.inr x)

end Hdr

end Av1
