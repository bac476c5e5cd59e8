import Verif.Model.FrameHeader
import Verif.Model.Common

/-!
# `src/obu_encoder.rs` 318–748: the frame header up to tile info

As in `Model/FrameHeader.lean`, a section is a function to the elements appended (`…Bits`) and one to what it leaves
behind (`…After`).  `none` = panic.  Arrays are lists; their lengths are part of the Rust types and appear in `HCtx.Ok`.
Lengths of identifiers and sizes are assumed small enough for `1 << len` not to overflow.
-/

namespace Av1

/-- `FrameType` (constants.rs 81–86). -/
inductive FrameType where
  | key | inter | intraOnly | switch
deriving Repr, DecidableEq

/-- The discriminant. -/
def FrameType.code : FrameType → Nat
  | .key => 0 | .inter => 1 | .intraOnly => 2 | .switch => 3

/-- The part of `DecoderModelInfo` (sequence_header.rs 44–53) a frame header reads. -/
structure FrameDmi where
  removalPresent : Bool
  removalLen : Nat
  removal : Nat
  presentationLen : Nat
deriving Repr, DecidableEq

/-- Fields of `EncoderContext` (encoder.rs 11–89) read or written here. -/
structure HCtx where
  showExisting : Bool
  showFrame : Bool
  showable : Bool
  showIdx : Nat
  idsPresent : Bool
  disableCdfUpdate : Bool
  seen : Bool
  additionalLen : Nat
  deltaLen : Nat
  reduced : Bool
  isIntra : Bool
  timing : Option TimingInfo
  refresh : Nat
  refType : List FrameType
  refValid : List Bool
  refId : List Nat
  refHint : List Nat
  orderHints : List Nat
  expectedId : List Nat
  forceSct : Nat
  forceIntMv : Nat
  prevId : Nat
  currentId : Nat
  /-- `operating_points_decoder_model`, the `idc` of each -/
  opIdcs : List Nat
  temporalId : Nat
  spatialId : Nat
  enableOrderHint : Bool
  superresDenom : Nat
  upscaledWidth : Nat
  enableSuperres : Bool
  enableRefMvs : Bool
  sizeOverride : Bool
  noEndUpdate : Bool
deriving Repr, DecidableEq

/-- Array lengths (encoder.rs 25–36). -/
structure HCtx.Ok (c : HCtx) : Prop where
  refType : c.refType.length = 8
  refValid : c.refValid.length = 8
  refId : c.refId.length = 8
  refHint : c.refHint.length = 8
  orderHints : c.orderHints.length = 7
  expectedId : c.expectedId.length = 7

/-- Fields of `Frame` (frame.rs 178–240) read or written here. -/
structure HFrame where
  type : FrameType
  width : Nat
  height : Nat
  renderWidth : Nat
  renderHeight : Nat
  dmi : Option FrameDmi
  pointInfo : Option Nat
  displayId : Option Nat
  errRes : Bool
  sct : Nat
  intMv : Nat
  highPrec : Bool
  useRefMvs : Bool
  orderHint : Nat
  primary : Nat
  intrabc : Bool
  refHint : List Nat
  useSuperres : Bool
  shortSig : Bool
  lastIdx : Nat
  goldIdx : Nat
  refIdx : List Nat
  deltaId : List Nat
  filterSwitchable : Bool
  filter : Nat
  motionSwitchable : Bool
deriving Repr, DecidableEq

/-- `self.id_len` (326–328); without the flag it keeps its value. -/
def idLenOf (c : HCtx) (old : Nat) : Option Nat :=
  if c.idsPresent then do
    let a ← usub c.additionalLen 1
    let d ← usub c.deltaLen 2
    some (a + d + 3)
  else some old

/-- `timing_info` with equal picture intervals (341, 370). -/
def HCtx.equalInterval (c : HCtx) : Bool := match c.timing with | some t => t.equalPictureInterval | none => false

/-- `temporal_point_info` (340–350, 369–379); the missing value is `assert!(false)`. -/
def pointInfoBits (c : HCtx) (f : HFrame) : Option Raw :=
  match f.dmi with
  | none => cat []
  | some d =>
    if c.equalInterval then cat []
    else match f.pointInfo with
      | some t => pushN t (d.presentationLen % 256)
      | none => none

/-- The header of a frame that shows an existing one (339–354), without its leading flag. -/
def existingBits (c : HCtx) (f : HFrame) (idLen : Nat) : Option Raw :=
  cat [pushN c.showIdx 3, pointInfoBits c f,
    if c.idsPresent then (do let d ← f.displayId; pushN d (idLen % 256)) else cat []]

/-- What it leaves behind before `return` (324, 351–363). -/
def existingAfter (c : HCtx) (f : HFrame) : Option (HCtx × HFrame) := do
  let t ← c.refType[c.showIdx]?
  some ({ c with seen := true, refresh := if t = .key then 255 else 0 }, { f with type := t })

/-- `frame_type==SWITCH_FRAME || (frame_type==KEY_FRAME && show_frame)`. -/
def keyLike (t : FrameType) (shown : Bool) : Bool := decide (t = .switch) || (decide (t = .key) && shown)

/-- `frame_is_intra` (366). -/
def intraType (t : FrameType) : Bool := decide (t = .intraOnly) || decide (t = .key)

/-- Lines 330–335 and 365–390 for a frame of its own, without the leading flag. -/
def openingBits (c : HCtx) (f : HFrame) : Option Raw :=
  if c.reduced then cat []
  else cat [pushN f.type.code 2, pushB c.showFrame, if c.showFrame then pointInfoBits c f else cat [],
    if c.showFrame then cat [] else pushB c.showable,
    if keyLike f.type c.showFrame then cat [] else pushB f.errRes]

def openingAfter (c : HCtx) (f : HFrame) : HCtx × HFrame :=
  if c.reduced then
    ({ c with seen := true, showExisting := false, isIntra := true, showFrame := true, showable := false },
     { f with type := .key })
  else
    ({ c with seen := true, isIntra := intraType f.type, showable := if c.showFrame then false else c.showable },
     { f with errRes := if keyLike f.type c.showFrame then false else f.errRes })

/-- Lines 392–400: the second loop assigns `order_hints[LAST_FRAME + i]`, `i < 7`. -/
def resetAfter (c : HCtx) (f : HFrame) : Option HCtx :=
  if f.type = .key ∧ c.showFrame then
    if c.orderHints.length < 8 then none
    else some { c with refValid := List.replicate 8 false, refHint := List.replicate 8 0,
                       orderHints := c.orderHints.take 1 ++ List.replicate 7 0 ++ c.orderHints.drop 8 }
  else some c

/-- `allow_screen_content_tools` after 402–406. -/
def frameSct (c : HCtx) (f : HFrame) : Nat := if c.forceSct = 2 then f.sct else c.forceSct

/-- Lines 401–418. -/
def toolsBits (c : HCtx) (f : HFrame) : Option Raw :=
  cat [pushB c.disableCdfUpdate, if c.forceSct = 2 then pushU f.sct else cat [],
    if frameSct c f > 0 then (if c.forceIntMv = 2 then pushU f.intMv else cat []) else cat []]

def toolsAfter (c : HCtx) (f : HFrame) : HFrame :=
  { f with
    sct := frameSct c f
    intMv := if c.isIntra then 1
      else if frameSct c f > 0 then (if c.forceIntMv = 2 then f.intMv else c.forceIntMv) else 0 }

/-- Whether the reference with id `r` loses its validity (425–433). -/
def staleRef (cur diff idLen r : Nat) : Option Bool :=
  if cur > 1 <<< diff then some (decide (r > cur) || decide (r < cur - (1 <<< diff)))
  else do
    let top ← usub ((1 <<< idLen) + cur) (1 <<< diff)
    some (decide (r > cur) && decide (r < top))

/-- `mark ref frames` (423–434). -/
def markRefs (cur diff idLen : Nat) (ids : List Nat) (valid : List Bool) : Option (List Bool) :=
  (List.zip ids valid).mapM fun (r, v) => do
    let s ← staleRef cur diff idLen r
    some (if s then false else v)

/-- Line 421. -/
def idBits (c : HCtx) (idLen : Nat) : Option Raw := if c.idsPresent then pushN c.currentId (idLen % 256) else cat []

/-- Lines 419–437. -/
def idAfter (c : HCtx) (idLen : Nat) : Option HCtx :=
  if c.idsPresent then do
    let v ← markRefs c.currentId c.deltaLen idLen c.refId c.refValid
    some { c with prevId := c.currentId, refValid := v }
  else some { c with currentId := 0 }

/-- Lines 438–444. -/
def overrideBits (c : HCtx) (f : HFrame) : Option Raw :=
  if f.type = .switch then cat [] else if c.reduced then cat [] else pushB c.sizeOverride

def overrideAfter (c : HCtx) (f : HFrame) : Bool :=
  if f.type = .switch then true else if c.reduced then false else c.sizeOverride

/-- Lines 445–451; `hintBits` is `self.order_hint_bits`. -/
def primaryBits (c : HCtx) (f : HFrame) (hintBits : Nat) : Option Raw :=
  cat [pushN f.orderHint (hintBits % 256), if c.isIntra || f.errRes then cat [] else pushN f.primary 3]

def primaryAfter (c : HCtx) (f : HFrame) : Nat := if c.isIntra || f.errRes then 7 else f.primary

/-- The context after 438–444. -/
def setOverride (c : HCtx) (f : HFrame) : HCtx := { c with sizeOverride := overrideAfter c f }

/-- The frame after 446–451. -/
def setPrimary (c : HCtx) (f : HFrame) : HFrame := { f with primary := primaryAfter c f }

/-- One operating point of the buffer removal times (456–463); `idc` is a `u16`. -/
def removalBit (c : HCtx) (d : FrameDmi) (idc : Nat) : Option Raw :=
  if c.temporalId ≥ 16 ∨ c.spatialId + 8 ≥ 16 then none
  else if idc = 0 ∨ ((idc >>> c.temporalId) % 2 = 1 ∧ (idc >>> (c.spatialId + 8)) % 2 = 1) then
    pushN d.removal (d.removalLen % 256)
  else cat []

/-- Lines 452–465. -/
def removalBits (c : HCtx) (f : HFrame) : Option Raw :=
  match f.dmi with
  | none => cat []
  | some d => cat [pushB d.removalPresent, if d.removalPresent then cat (c.opIdcs.map (removalBit c d)) else cat []]

/-- Lines 469–473. -/
def refreshBits (c : HCtx) (f : HFrame) : Option Raw :=
  if keyLike f.type c.showFrame then cat [] else pushN c.refresh 8

/-- Lines 466–482: the validity of references, and the flags that are cleared. -/
def refreshAfter (c : HCtx) (f : HFrame) : HCtx × HFrame :=
  let r := if keyLike f.type c.showFrame then 255 else c.refresh
  ({ c with
      refresh := r
      refValid := if (!c.isIntra || r != 255) && (f.errRes && c.enableOrderHint) then
          List.zipWith (fun (p : Nat × Nat) v => if p.1 ≠ p.2 then false else v) (f.refHint.zip c.refHint) c.refValid
        else c.refValid },
   { f with highPrec := false, useRefMvs := false, intrabc := false })

/-- `frame size` (485–492): lengths from the frame itself; without the override nothing. -/
def sizeBits (c : HCtx) (f : HFrame) : Option Raw :=
  if c.sizeOverride then do
    let w ← usub f.width 1
    let h ← usub f.height 1
    let nw ← msb16 (w % 2 ^ 16)
    let nh ← msb16 (h % 2 ^ 16)
    cat [pushN w nw, pushN h nh]
  else cat []

/-- `frame.use_superres` after 495–499. -/
def superresOn (c : HCtx) (f : HFrame) : Bool := c.enableSuperres && f.useSuperres

/-- `superres params` (495–505). -/
def superresBits (c : HCtx) (f : HFrame) : Option Raw :=
  cat [if c.enableSuperres then pushB f.useSuperres else cat [],
    if superresOn c f then (do let d ← usub c.superresDenom 9; pushN d 3) else cat []]

/-- `ecx.superres_denom` after 500–505. -/
def denomAfter (c : HCtx) (f : HFrame) : Nat := if superresOn c f then c.superresDenom else 8

/-- Lines 495–508. -/
def superresAfter (c : HCtx) (f : HFrame) : HCtx × HFrame :=
  ({ c with superresDenom := denomAfter c f, upscaledWidth := f.width },
   { f with useSuperres := superresOn c f, width := (f.width * 8 + denomAfter c f / 2) / denomAfter c f })

/-- `render_and_frame_size_different` (511). -/
def renderDiffers (f : HFrame) : Bool := decide (f.width ≠ f.renderWidth ∨ f.height ≠ f.renderHeight)

/-- `render size` (511–515). -/
def renderBits (f : HFrame) : Option Raw :=
  cat [pushB (renderDiffers f), if renderDiffers f then (do
      let w ← usub f.renderWidth 1
      let h ← usub f.renderHeight 1
      cat [pushN w 16, pushN h 16]) else cat []]

/-- Lines 516–519. -/
def renderAfter (c : HCtx) (f : HFrame) : HFrame :=
  if renderDiffers f then f else { f with renderWidth := c.upscaledWidth, renderHeight := f.height }

/-- Frame size, super-resolution and render size (484–519, repeated at 526–561 and 651–686). -/
def fullSizeBits (c : HCtx) (f : HFrame) : Option Raw :=
  cat [sizeBits c f, superresBits c f, renderBits (superresAfter c f).2]

def fullSizeAfter (c : HCtx) (f : HFrame) : HCtx × HFrame :=
  ((superresAfter c f).1, renderAfter (superresAfter c f).1 (superresAfter c f).2)

/-- `allow_intrabc` of a key frame (521–523) and of an intra-only frame (563–565). -/
def intrabcBits (c : HCtx) (f : HFrame) : Option Raw :=
  if f.type = .key then (if f.sct > 0 then pushB f.intrabc else cat [])
  else if f.sct > 0 ∧ c.upscaledWidth = f.width then pushB f.intrabc else cat []

/-- One reference of an inter frame (578–586). -/
def refBits (c : HCtx) (f : HFrame) (i : Nat) : Option Raw :=
  cat [if f.shortSig then cat [] else pushAt f.refIdx i 3,
    if c.idsPresent then (do
      let d ← f.deltaId[i]?
      let d ← usub d 1
      pushN d (c.deltaLen % 256)) else cat []]

/-- `expected_frame_id[i]` (585). -/
def expectedOf (c : HCtx) (idLen delta : Nat) : Option Nat := do
  let v ← usub (c.currentId + 1 <<< idLen) delta
  some (v % 1 <<< idLen)

/-- The references of an inter frame (567–587); `f.shortSig` has been cleared without order hints. -/
def refsBits (c : HCtx) (f : HFrame) : Option Raw :=
  cat [if c.enableOrderHint then
      cat [pushB f.shortSig, if f.shortSig then cat [pushN f.lastIdx 3, pushN f.goldIdx 3] else cat []]
    else cat [],
    cat ((List.range 7).map (refBits c { f with shortSig := c.enableOrderHint && f.shortSig }))]

/-- The size of an inter frame (588–687): with the override and without error resilience one bit 1 (`found_ref`) and the
super-resolution parameters. -/
def interSizeBits (c : HCtx) (f : HFrame) : Option Raw :=
  if c.sizeOverride && !f.errRes then cat [pushB true, superresBits c f] else fullSizeBits c f

def interSizeAfter (c : HCtx) (f : HFrame) : HCtx × HFrame :=
  if c.sizeOverride && !f.errRes then superresAfter c f else fullSizeAfter c f

/-- Lines 688–706; `allow_high_precision_mv` and `use_ref_frame_mvs` were cleared before. -/
def interTailBits (c : HCtx) (f : HFrame) : Option Raw :=
  cat [if f.intMv > 0 then cat [] else pushB f.highPrec,
    pushB f.filterSwitchable, if f.filterSwitchable then cat [] else pushN f.filter 2,
    pushB f.motionSwitchable,
    if f.errRes || !c.enableRefMvs then cat [] else pushB f.useRefMvs]

/-- Lines 483–708. -/
def sizesBits (c : HCtx) (f : HFrame) : Option Raw :=
  if intraType f.type then
    let a := fullSizeAfter c f
    cat [fullSizeBits c f, intrabcBits a.1 a.2]
  else cat [refsBits c f, interSizeBits c f, interTailBits c f]

def sizesAfter (c : HCtx) (f : HFrame) : HCtx × HFrame :=
  if intraType f.type then fullSizeAfter c f else interSizeAfter c f

/-- Lines 710–731: `order_hints[LAST_FRAME + i]` for `i < 7`, for every frame that is not intra.  What is assigned does
not matter: the last index is outside the array. -/
def hintsAfter (c : HCtx) (f : HFrame) : Option HCtx :=
  if c.isIntra then some c
  else (List.range 7).foldlM (init := c) fun c i => do
    let j ← f.refIdx[i]?
    let h ← c.refHint[j]?
    if 1 + i < c.orderHints.length then some { c with orderHints := c.orderHints.set (1 + i) h } else none

/-- Lines 732–736. -/
def endBits (c : HCtx) : Option Raw := if c.reduced || c.disableCdfUpdate then cat [] else pushB c.noEndUpdate

def endAfter (c : HCtx) : Bool := if c.reduced || c.disableCdfUpdate then true else c.noEndUpdate

/-- The context after 732–736. -/
def setEnd (c : HCtx) : HCtx := { c with noEndUpdate := endAfter c }

/-- Lines 330–437: elements and state. -/
def frontStart (c : HCtx) (f : HFrame) (idLen : Nat) : Option (Raw × HCtx × HFrame) := do
  let b1 ← openingBits c f
  let (c, f) := openingAfter c f
  let c ← resetAfter c f
  let b2 ← toolsBits c f
  let b3 ← idBits c idLen
  let c' ← idAfter c idLen
  some (b1 ++ b2 ++ b3, c', toolsAfter c f)

/-- Lines 438–482. -/
def frontMiddle (c : HCtx) (f : HFrame) (hintBits : Nat) : Option (Raw × HCtx × HFrame) := do
  let b4 ← overrideBits c f
  let c := setOverride c f
  let b5 ← primaryBits c f hintBits
  let f := setPrimary c f
  let b6 ← removalBits c f
  let b7 ← refreshBits c f
  some (b4 ++ b5 ++ b6 ++ b7, refreshAfter c f)

/-- Lines 483–736. -/
def frontEnd (c : HCtx) (f : HFrame) : Option (Raw × HCtx × HFrame) := do
  let b8 ← sizesBits c f
  let (c, f) := sizesAfter c f
  let c ← hintsAfter c f
  let b9 ← endBits c
  some (b8 ++ b9, setEnd c, f)

/-- A frame header of its own up to tile info (330–736), without the leading flag: elements and state. -/
def frontOf (c : HCtx) (f : HFrame) (idLen hintBits : Nat) : Option (Raw × HCtx × HFrame) := do
  let (a, c, f) ← frontStart c f idLen
  let (b, c, f) ← frontMiddle c f hintBits
  let (e, c, f) ← frontEnd c f
  some (a ++ b ++ e, c, f)

/-! ## New objects -/

/-- The context of `EncoderContext::new` (encoder.rs 92–182), as far as the header needs it. -/
def HCtx.new : HCtx where
  showExisting := false
  showFrame := true
  showable := true
  showIdx := 0
  idsPresent := false
  disableCdfUpdate := false
  seen := false
  additionalLen := 0
  deltaLen := 0
  reduced := false
  isIntra := false
  timing := none
  refresh := 0
  refType := List.replicate 8 .key
  refValid := List.replicate 8 false
  refId := List.replicate 8 0
  refHint := List.replicate 8 0
  orderHints := List.replicate 7 0
  expectedId := List.replicate 7 0
  forceSct := 0
  forceIntMv := 0
  prevId := 0
  currentId := 0
  opIdcs := []
  temporalId := 0
  spatialId := 0
  enableOrderHint := false
  superresDenom := 1
  upscaledWidth := 0
  enableSuperres := false
  enableRefMvs := false
  sizeOverride := false
  noEndUpdate := false

/-- `Frame::new` (frame.rs 241–349), as far as the front needs it; `interp_filter` `SWITCHABLE` is 4. -/
def HFrame.new (t : FrameType) (w h : Nat) : HFrame where
  type := t
  width := w
  height := h
  renderWidth := w
  renderHeight := h
  dmi := none
  pointInfo := none
  displayId := none
  errRes := false
  sct := 0
  intMv := 0
  highPrec := true
  useRefMvs := true
  orderHint := 0
  primary := 0
  intrabc := false
  refHint := List.replicate 8 0
  useSuperres := false
  shortSig := false
  lastIdx := 0
  goldIdx := 0
  refIdx := List.replicate 7 0
  deltaId := List.replicate 7 0
  filterSwitchable := false
  filter := 4
  motionSwitchable := true

end Av1
