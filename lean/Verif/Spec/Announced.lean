import Verif.Spec.SeqLayout
import Verif.Spec.FrameWhole

/-!
# What a sequence header announces to the frame headers after it

A reader of the code's own sequence layout (`Spec/SeqLayout.lean`) that goes on with AV1 frame headers takes the parameters of
the frame header syntax from the sequence header (AV1 5.5.1, 5.5.2).
-/

namespace Av1.Hdr

/-- The parameters of the frame header up to tile info; `t` and `s` are the layer ids of the OBU header. -/
def announced (v : Layout.Sequence) (t s : Nat) : SeqInfo where
  reduced := v.reduced
  model := (v.timing.bind (·.decoderModel)).map fun d => (d.removalDelayLength, d.presentationDelayLength)
  equalInterval := (v.timing.bind (·.ticksPerPicture)).isSome
  ids := v.frameId.map fun x => (x.1, x.2 + x.1)
  forceSct := match v.tools with | some t => t.screenContent | none => 2
  forceIntMv := match v.tools with | some t => t.integerMv | none => 2
  enableOrderHint := (v.tools.bind (·.orderHint)).isSome
  orderHintBits := (v.tools.bind (·.orderHintBits)).getD 0
  ops := v.opModels.map fun o => (o.1, o.2.2.isSome)
  temporalId := t
  spatialId := s
  maxWidth := v.size.1
  maxHeight := v.size.2
  widthBits := Nat.log 2 (v.size.1 - 1) + 1
  heightBits := Nat.log 2 (v.size.2 - 1) + 1
  superres := v.superres
  refMvs := ((v.tools.bind (·.orderHint)).map Prod.snd).getD false

/-- The parameters of the sections from tile info on. -/
def announcedRest (v : Layout.Sequence) (limits : Nat → Nat → TileLimits) : SeqRest where
  planes := if v.color.monoChrome then 1 else 3
  separateUv := v.color.separateUvDeltaQ
  mono := v.color.monoChrome
  sub := v.color.subsampling.1 && v.color.subsampling.2
  use128 := v.use128
  cdef := v.cdef
  restoration := v.restoration
  filmGrain := v.filmGrain
  limits := limits

/-- A sequence header, then a frame header. -/
def sequenceThenFrame (t s : Nat) (limits : Nat → Nat → TileLimits) : P (Layout.Sequence × Sum Existing (Front × Rest)) := do
  let v ← Layout.sequence
  let h ← whole (announced v t s) (announcedRest v limits)
  pure (v, h)

end Av1.Hdr
