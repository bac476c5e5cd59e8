import Verif.Model.Emit
import Verif.Model.Util
import Verif.Model.Writer

/-!
# `src/obu.rs`, `src/sequence_header.rs`, `src/obu_encoder.rs`: OBU header, sequence header, metadata, padding, framing

Enum values are represented by their discriminants.  The frame header and tile group payloads are modelled elsewhere;
the framing functions take the payload emission as an argument.
-/

namespace Av1

/-! ## OBU header and framing -/

/-- `enum OBU` (obu.rs 73–84), without the contents. -/
inductive ObuKind where
  | sequenceHeader | temporalDelimiter | frameHeader | redundantFrameHeader | tileGroup | metadata | frame | padding
deriving Repr, DecidableEq

/-- `obu_type` (obu_encoder.rs 62–71). -/
def ObuKind.code : ObuKind → Nat
  | .sequenceHeader => 1
  | .temporalDelimiter => 2
  | .frameHeader => 3
  | .redundantFrameHeader => 7
  | .tileGroup => 4
  | .metadata => 5
  | .frame => 6
  | .padding => 15

/-- `encode_obu_header` (59–87); the extension flag is the constant 0. -/
def encodeObuHeader (k : ObuKind) : Option Raw := cat [pushU 0, pushN k.code 4, pushU 0, pushU 0, pushU 0]

/-- `encode_obu` (1575–1585): the header goes to the caller's bits, the payload straight to the writer. -/
def encodeObu (k : ObuKind) (payload : Option Raw) (w : Writer) : Option (Raw × Writer) := do
  let hdr ← encodeObuHeader k
  let p ← payload
  let w ← writeBits w p
  let w ← byteAlign w
  some (hdr, w)

/-- `encode_temporal_unit` (1587–1604). -/
def encodeTemporalUnit (k : ObuKind) (payload : Option Raw) (w : Writer) : Option Writer := do
  let (obuBits, w) ← encodeObu k payload w
  let obuLength := obuBits.length
  let frameUnitBits ← cat [pushLeb obuLength, some obuBits]
  let frameUnitSize := frameUnitBits.length
  let temporalUnitBits ← cat [pushLeb frameUnitSize, some frameUnitBits]
  let temporalUnitSize := temporalUnitBits.length
  let sizeBits ← pushLeb temporalUnitSize
  let w ← writeBits w sizeBits
  writeBits w temporalUnitBits

/-! ## Sequence header -/

/-- `OperatingPoint` (sequence_header.rs 5–9). -/
structure OperatingPoint where
  idc : Nat
  seqLevelIdx : Nat
  seqTier : Option Bool
deriving Repr, DecidableEq

/-- `FrameID` (11–14). -/
structure FrameId where
  deltaLen : Nat
  additionalLen : Nat
deriving Repr, DecidableEq

/-- `ColorDescription` (17–21), discriminants. -/
structure ColorDescription where
  primaries : Nat
  transfer : Nat
  matrix : Nat
deriving Repr, DecidableEq

/-- `ColorConfig` (24–34). -/
structure ColorConfig where
  highBitdepth : Bool
  twelveBit : Bool
  monoChrome : Bool
  description : Option ColorDescription
  colorRange : Bool
  subX : Bool
  subY : Bool
  chromaSamplePosition : Nat
  separateUvDeltaQ : Bool
deriving Repr, DecidableEq

/-- `TimingInfo` (37–42). -/
structure TimingInfo where
  numUnitsInDisplayTick : Nat
  timeScale : Nat
  equalPictureInterval : Bool
  numTicksPerPicture : Nat
deriving Repr, DecidableEq

/-- `DecoderModelInfo` (44–53), the fields the sequence header writes. -/
structure DecoderModelInfo where
  bitrateScale : Nat
  bufferSizeScale : Nat
  bufferDelayLength : Nat
  numUnitsInDecodingTick : Nat
  bufferRemovalDelayLength : Nat
  framePresentationDelayLength : Nat
deriving Repr, DecidableEq

/-- `OperatingParametersInfo` (55–62). -/
structure OperatingParameters where
  bitrate : Nat
  bufferSize : Nat
  cbr : Bool
  decoderBufferDelay : Nat
  encoderBufferDelay : Nat
  lowDelay : Bool
deriving Repr, DecidableEq

/-- `OperatingPointsDecoderModel` (64–68). -/
structure OpModel where
  idc : Nat
  initialDisplayDelay : Option Nat
  params : Option OperatingParameters
deriving Repr, DecidableEq

/-- `SequenceHeader` (70–88). -/
structure SeqHeader where
  profile : Nat
  stillPicture : Bool
  operatingPoints : List OperatingPoint
  width : Nat
  height : Nat
  maxWidth : Nat
  maxHeight : Nat
  frameId : Option FrameId
  filterIntra : Bool
  intraEdgeFilter : Bool
  interintra : Bool
  masked : Bool
  dualFilter : Bool
  jntComp : Bool
  chooseSct : Bool
  chooseIntMv : Bool
  decoderModel : Option DecoderModelInfo
deriving Repr, DecidableEq

/-- `SequenceHeader::new` (91–109). -/
def SeqHeader.new (w h : Nat) : SeqHeader where
  profile := 0
  stillPicture := false
  operatingPoints := []
  width := w
  height := h
  maxWidth := w
  maxHeight := h
  frameId := none
  filterIntra := false
  intraEdgeFilter := false
  interintra := false
  masked := false
  dualFilter := false
  jntComp := false
  chooseSct := false
  chooseIntMv := false
  decoderModel := none

/-- The fields of `EncoderContext` (encoder.rs 11–89) and `OBUEncoder` (obu_encoder.rs 30–41) that the sequence header
reads or writes. -/
structure SeqCtx where
  reduced : Bool
  use128 : Bool
  warped : Bool
  orderHint : Bool
  refFrameMvs : Bool
  forceSct : Nat
  forceIntMv : Nat
  orderHintBits : Nat
  superres : Bool
  cdef : Bool
  restoration : Bool
  color : ColorConfig
  timing : Option TimingInfo
  opModels : List OpModel
  filmGrain : Bool
  bitDepth : Nat
  numPlanes : Nat
deriving Repr, DecidableEq

/-- `EncoderContext::new` (encoder.rs 92–182), `OBUEncoder::new` (obu_encoder.rs 44–57). -/
def SeqCtx.new : SeqCtx where
  reduced := false
  use128 := true
  warped := false
  orderHint := false
  refFrameMvs := false
  forceSct := 0
  forceIntMv := 0
  orderHintBits := 0
  superres := false
  cdef := false
  restoration := false
  color := ⟨false, false, false, none, false, true, true, 2, false⟩
  timing := none
  opModels := []
  filmGrain := false
  bitDepth := 8
  numPlanes := 3

/-- `SELECT_SCREEN_CONTENT_TOOLS`, `SELECT_INTEGER_MV` (constants.rs). -/
def selectSct : Nat := 2
def selectIntMv : Nat := 2

/-- One operating point (105–113): a level above 7 without a tier panics (`unwrap`), a level up to 7 with a tier fails
the assertion. -/
def encodeOp1 (op : OperatingPoint) : Option Raw :=
  cat [pushN op.idc 12, pushN op.seqLevelIdx 5,
    if op.seqLevelIdx > 7 then
      match op.seqTier with
      | some t => pushB t
      | none => none
    else if op.seqTier = none then cat [] else none]

/-- Operating points (100–114). -/
def encodeOps' (sh : SeqHeader) (c : SeqCtx) : Option Raw :=
  if c.reduced then cat []
  else cat (pushN sh.operatingPoints.length 5 :: sh.operatingPoints.map encodeOp1)

/-- `msb16(x as u16) - 1` (115, 116, 119, 120): `u8` underflow panics. -/
def msbMinus1 (x : Nat) : Option Nat := do
  let m ← msb16 (x % 2 ^ 16)
  usub m 1

/-- Frame size (115–126). -/
def encodeSize (sh : SeqHeader) : Option Raw := do
  let w1 ← usub sh.width 1
  let fw ← msbMinus1 w1
  let h1 ← usub sh.height 1
  let fh ← msbMinus1 h1
  let nw ← msbMinus1 sh.maxWidth
  let nh ← msbMinus1 sh.maxHeight
  let mw ← usub sh.maxWidth 1
  let mh ← usub sh.maxHeight 1
  cat [pushN fw 4, pushN fh 4, pushN mw (nw + 1), pushN mh (nh + 1)]

/-- Frame id lengths (127–135). -/
def encodeFrameId (sh : SeqHeader) (c : SeqCtx) : Option Raw :=
  cat [if c.reduced then (if sh.frameId = none then cat [] else none) else pushB sh.frameId.isSome,
    match sh.frameId with
    | some fid => do
      let d ← usub fid.deltaLen 2
      let a ← usub fid.additionalLen 1
      cat [pushN d 4, pushN a 3]
    | none => cat []]

/-- `ecx.seq_force_screen_content_tools` after lines 163–168. -/
def sctAfter (sh : SeqHeader) (c : SeqCtx) : Nat := if sh.chooseSct then selectSct else c.forceSct

/-- Coding tools (136–184). -/
def encodeTools (sh : SeqHeader) (c : SeqCtx) : Option Raw :=
  cat [pushB c.use128, pushB sh.filterIntra, pushB sh.intraEdgeFilter,
    if c.reduced then cat []
    else cat [pushB sh.interintra, pushB sh.masked, pushB c.warped, pushB sh.dualFilter, pushB c.orderHint,
      if c.orderHint then cat [pushB sh.jntComp, pushB c.refFrameMvs] else cat [],
      pushB sh.chooseSct,
      if sh.chooseSct then cat [] else pushU c.forceSct,
      if sctAfter sh c > 0 then cat [pushB sh.chooseIntMv, if sh.chooseIntMv then cat [] else pushU c.forceIntMv]
      else cat [],
      if c.orderHint then (usub c.orderHintBits 1).bind (pushN · 3) else cat []]]

/-- `self.bit_depth` after lines 189–195. -/
def bitDepthAfter (sh : SeqHeader) (c : SeqCtx) : Nat :=
  if sh.profile = 2 && c.color.highBitdepth then (if c.color.twelveBit then 12 else 10)
  else if sh.profile ≤ 2 then (if c.color.highBitdepth then 10 else 8)
  else c.bitDepth

/-- `ecx.color_config.mono_chrome` after lines 196–200. -/
def monoAfter (sh : SeqHeader) (c : SeqCtx) : Bool := if sh.profile = 1 then false else c.color.monoChrome

/-- `ecx.color_config.color_description` after lines 208–214 (the three unspecified codes are 2). -/
def descAfter (c : SeqCtx) : ColorDescription := c.color.description.getD ⟨2, 2, 2⟩

/-- The sRGB special case (221–225): `CP_BT_709`, `TC_SRGB`, `MC_IDENTITY`. -/
def isSrgb (d : ColorDescription) : Bool := decide (d = ⟨1, 13, 0⟩)

/-- `subsampling_x`, `subsampling_y` after the color configuration (215–257). -/
def subAfter (sh : SeqHeader) (c : SeqCtx) : Bool × Bool :=
  if monoAfter sh c then (true, true)
  else if isSrgb (descAfter c) then (false, false)
  else if sh.profile = 0 then (true, true)
  else if sh.profile = 1 then (false, false)
  else if bitDepthAfter sh c = 12 then (c.color.subX, if c.color.subX then c.color.subY else false)
  else (true, false)

/-- Color configuration (188–258). -/
def encodeColor (sh : SeqHeader) (c : SeqCtx) : Option Raw :=
  cat [pushB c.color.highBitdepth,
    if sh.profile = 2 && c.color.highBitdepth then pushB c.color.twelveBit else cat [],
    if sh.profile = 1 then cat [] else pushB c.color.monoChrome,
    pushB c.color.description.isSome,
    match c.color.description with
    | some d => cat [pushN d.primaries 8, pushN d.transfer 8, pushN d.matrix 8]
    | none => cat [],
    if monoAfter sh c then pushB c.color.colorRange
    else if isSrgb (descAfter c) then cat []
    else cat [pushB c.color.colorRange,
      if sh.profile = 0 then cat []
      else if sh.profile = 1 then cat []
      else if bitDepthAfter sh c = 12 then
        cat [pushB c.color.subX, if c.color.subX then pushB c.color.subY else cat []]
      else cat [],
      if (subAfter sh c).1 && (subAfter sh c).2 then pushN c.color.chromaSamplePosition 2 else cat []],
    -- line 220: the flag is cleared for monochrome before it is written
    pushB (if monoAfter sh c then false else c.color.separateUvDeltaQ)]

/-- Decoder model information (276–283). -/
def encodeDmi (d : DecoderModelInfo) : Option Raw := do
  let a ← usub d.bufferDelayLength 1
  let b ← usub d.bufferRemovalDelayLength 1
  let e ← usub d.framePresentationDelayLength 1
  cat [pushN d.bitrateScale 4, pushN d.bufferSizeScale 4, pushN a 5, pushN d.numUnitsInDecodingTick 32, pushN b 5,
    pushN e 5]

/-- `ecx.timing_info` after line 261. -/
def timingAfter (c : SeqCtx) : Option TimingInfo := if c.reduced then none else c.timing

/-- `sequence_header.decoder_model_info` after line 286. -/
def dmiAfter (sh : SeqHeader) (c : SeqCtx) : Option DecoderModelInfo :=
  if (timingAfter c).isSome then sh.decoderModel else none

/-- Timing and decoder model (260–288). -/
def encodeTiming (sh : SeqHeader) (c : SeqCtx) : Option Raw :=
  cat [if c.reduced then cat [] else pushB c.timing.isSome,
    match timingAfter c with
    | some ti => cat [pushN ti.numUnitsInDisplayTick 32, pushN ti.timeScale 32, pushB ti.equalPictureInterval,
        if ti.equalPictureInterval then (usub ti.numTicksPerPicture 1).bind pushUvlc else cat [],
        pushB sh.decoderModel.isSome,
        match sh.decoderModel with
        | some d => encodeDmi d
        | none => cat []]
    | none => cat []]

/-- Operating parameters (300–308); `n` is `encoder_decoder_buffer_delay_length`. -/
def encodeParams (n : Nat) (p : OperatingParameters) : Option Raw :=
  cat [(usub p.bitrate 1).bind pushUvlc, (usub p.bufferSize 1).bind pushUvlc, pushB p.cbr,
    pushN p.decoderBufferDelay n, pushN p.encoderBufferDelay n, pushB p.lowDelay]

/-- One operating point decoder model (292–310). -/
def encodeOpModel (dmi : Option DecoderModelInfo) (op : OpModel) : Option Raw :=
  cat [pushN op.idc 12, pushB op.initialDisplayDelay.isSome,
    match op.initialDisplayDelay with
    | some d => (usub d 1).bind (pushN · 4)
    | none => cat [],
    match dmi with
    | some d => cat [pushB op.params.isSome,
        match op.params with
        | some p => encodeParams d.bufferDelayLength p
        | none => cat []]
    | none => cat []]

/-- Operating point decoder models (289–311). -/
def encodeOpModels (sh : SeqHeader) (c : SeqCtx) : Option Raw :=
  cat [pushB (decide (c.opModels.length > 0)),
    if c.opModels.length > 0 then
      cat (pushN (c.opModels.length - 1) 5 :: c.opModels.map (encodeOpModel (dmiAfter sh c)))
    else cat []]

/-- `encode_obu_payload` for a sequence header (93–313). -/
def encodeSeqHeader (sh : SeqHeader) (c : SeqCtx) : Option Raw :=
  cat [pushN sh.profile 3, pushB sh.stillPicture, pushB c.reduced, encodeOps' sh c, encodeSize sh, encodeFrameId sh c,
    encodeTools sh c, pushB c.superres, pushB c.cdef, pushB c.restoration, encodeColor sh c, encodeTiming sh c,
    encodeOpModels sh c, pushB c.filmGrain]

/-- What the call leaves in the header and the context (93–313). -/
def seqAfter (sh : SeqHeader) (c : SeqCtx) : SeqHeader × SeqCtx :=
  let mono := monoAfter sh c
  let srgb := isSrgb (descAfter c)
  let sub := subAfter sh c
  let color : ColorConfig :=
    { c.color with
      monoChrome := mono
      description := some (descAfter c)
      colorRange := if !mono && srgb then true else c.color.colorRange
      subX := sub.1
      subY := sub.2
      chromaSamplePosition := if mono then 0 else c.color.chromaSamplePosition
      separateUvDeltaQ := if mono then false else c.color.separateUvDeltaQ }
  let c1 : SeqCtx :=
    { c with
      color := color
      timing := timingAfter c
      bitDepth := bitDepthAfter sh c
      numPlanes := if mono then 1 else 3 }
  let sh1 : SeqHeader := { sh with decoderModel := dmiAfter sh c }
  if c.reduced then
    ({ sh1 with interintra := false, masked := false, dualFilter := false, jntComp := false },
      { c1 with warped := false, orderHint := false, refFrameMvs := false, forceSct := selectSct,
                forceIntMv := selectIntMv, orderHintBits := 0 })
  else
    ({ sh1 with jntComp := if c.orderHint then sh.jntComp else false },
      { c1 with
        refFrameMvs := if c.orderHint then c.refFrameMvs else false
        forceSct := sctAfter sh c
        forceIntMv := if sctAfter sh c > 0 then (if sh.chooseIntMv then selectIntMv else c.forceIntMv) else selectIntMv
        orderHintBits := if c.orderHint then c.orderHintBits else 0 })

/-! ## Metadata and padding -/

/-- `TemporalGroup` (obu.rs 16–21). -/
structure TemporalGroup where
  temporalId : Nat
  temporalSwitch : Nat
  spatialSwitch : Nat
  refPicDiffs : List Nat
deriving Repr, DecidableEq

/-- `ScalabilityStructure` (42–46); dimensions are (width, height) pairs. -/
structure ScalStructure where
  dims : List (Nat × Nat)
  descs : List Nat
  groups : List TemporalGroup
deriving Repr, DecidableEq

/-- `enum MetaData` (48–71). -/
inductive Metadata where
  | itutT35 (countryCode : Nat) (payload : List Nat)
  | hdrCll (maxCll maxFall : Nat)
  | hdrMdcv (x y : Nat × Nat × Nat) (wx wy lmax lmin : Nat)
  | scalability (mode : Nat) (structure_ : Option ScalStructure)
  | timecode (countingType : Nat) (seconds minutes hours : Option Nat) (offLen offVal : Nat)
deriving Repr, DecidableEq

/-- `SCALABILITY_SS` (obu.rs 39). -/
def scalabilitySS : Nat := 14

/-- One temporal group (1508–1514). -/
def encodeGroup (g : TemporalGroup) : Option Raw :=
  cat [pushN g.temporalId 3, pushU g.temporalSwitch, pushU g.spatialSwitch,
    cat (pushN g.refPicDiffs.length 3 :: g.refPicDiffs.map (pushN · 8))]

/-- Scalability structure (1492–1516). -/
def encodeStructure (s : ScalStructure) : Option Raw := do
  let cnt ← usub (if s.dims.length > s.descs.length then s.dims.length else s.descs.length) 1
  cat [pushN cnt 2, pushB (decide (s.dims.length > 0)), pushB (decide (s.descs.length > 0)),
    pushB (decide (s.groups.length > 0)), pushN 0 3,
    cat (s.dims.map fun d => cat [pushN d.1 16, pushN d.2 16]),
    cat (s.descs.map (pushN · 8)),
    if s.groups.length > 0 then cat (pushN s.groups.length 8 :: s.groups.map encodeGroup) else cat []]

/-- `encode_obu_payload` for metadata (1453–1563). -/
def encodeMetadata : Metadata → Option Raw
  | .itutT35 cc _ => cat [pushLeb 4, pushN cc 8, if cc = 0xFF then pushN 0 8 else cat []]
  | .hdrCll mc mf => cat [pushLeb 1, pushN mc 16, pushN mf 16]
  | .hdrMdcv x y wx wy lmax lmin =>
    cat [pushLeb 2, pushN x.1 16, pushN y.1 16, pushN x.2.1 16, pushN y.2.1 16, pushN x.2.2 16, pushN y.2.2 16,
      pushN wx 16, pushN wy 16, pushN lmax 32, pushN lmin 32]
  | .scalability mode st =>
    cat [pushLeb 3, pushN mode 8,
      if mode = scalabilitySS then
        match st with
        | some s => encodeStructure s
        | none => none
      else cat []]
  | .timecode ct secs mins hrs tol tov =>
    cat [pushLeb 3, pushN ct 5,
      match secs, mins, hrs with
      | some s, some m, some h => cat [pushU 1, pushN s 6, pushN m 6, pushN h 5]
      | _, _, _ => cat [pushU 0,
          match secs with
          | some s => cat [pushU 1, pushN s 6,
              match mins with
              | some m => cat [pushU 1, pushN m 6,
                  match hrs with
                  | some h => cat [pushU 1, pushN h 5]
                  | none => pushU 0]
              | none => pushU 0]
          | none => pushU 0],
      pushN tol 5, pushN tov tol]

/-- `encode_obu_payload` for padding (1567–1571). -/
def encodePadding (n : Nat) : Option Raw := cat (List.replicate n (pushN 0 8))

end Av1
