import Verif.Spec.Parser

/-!
# AV1 syntax of the OBUs the encoder writes

Readers following the AV1 bitstream specification (sections 5.3, 5.5, 5.8), plus the reader for the layout the code
actually uses where it deviates.  Independent of the model of the code.
-/

namespace Av1.Syntax

open P

/-- `obu_header` (5.3.2) without extension: the type; `none` when a bit that must be zero is not. -/
def obuHeader : P (Option Nat) := do
  let forbidden ← flag
  let t ← f 4
  let ext ← flag
  let hasSize ← flag
  let reserved ← flag
  pure (if forbidden || ext || hasSize || reserved then none else some t)

/-- AV1 type numbers (6.2.2). -/
def typeSequenceHeader : Nat := 1
def typeTemporalDelimiter : Nat := 2
def typeFrameHeader : Nat := 3
def typeTileGroup : Nat := 4
def typeMetadata : Nat := 5
def typeFrame : Nat := 6
def typeRedundantFrameHeader : Nat := 7
def typePadding : Nat := 15

/-- The four fields of `sequence_header_obu` that give the frame size (5.5.1): `frame_width_bits_minus_1`,
`frame_height_bits_minus_1`, `max_frame_width_minus_1`, `max_frame_height_minus_1`. -/
def sizeFields : P (Nat × Nat) := do
  let wb ← f 4
  let hb ← f 4
  let w ← f (wb + 1)
  let h ← f (hb + 1)
  pure (w + 1, h + 1)

/-- The frame size a decoder finds in `sequence_header_obu` (5.5.1): (max width, max height). -/
def sequenceSize : P (Nat × Nat) := do
  let _profile ← f 3
  let _still ← flag
  let reduced ← flag
  if reduced then
    let _level ← f 5
    pure ()
  else
    let timing ← flag
    let (dmi, n) ← (if timing then do
        let _ ← f 32
        let _ ← f 32
        let equal ← flag
        let _ ← (if equal then uvlc else pure 0)
        let dmi ← flag
        let n ← (if dmi then do
            let _ ← f 4
            let _ ← f 4
            let n ← f 5
            let _ ← f 32
            let _ ← f 5
            let _ ← f 5
            pure (n + 1)
          else pure 0)
        pure (dmi, n)
      else pure (false, 0))
    let idd ← flag
    let cnt ← f 5
    let _ ← many (cnt + 1) (do
      let _ ← f 12
      let level ← f 5
      let _ ← (if level > 7 then f 1 else pure 0)
      let _ ← (if dmi then do
          let present ← flag
          if present then do
            let _ ← f n
            let _ ← f n
            let _ ← f 1
            pure ()
          else pure ()
        else pure ())
      let _ ← (if idd then do
          let present ← flag
          if present then do
            let _ ← f 4
            pure ()
          else pure ()
        else pure ())
      pure ())
    pure ()
  sizeFields

/-! ## Metadata (5.8) -/

/-- A temporal group of the scalability structure. -/
structure Group where
  temporalId : Nat
  temporalSwitch : Bool
  spatialSwitch : Bool
  refPicDiffs : List Nat
deriving Repr, DecidableEq

structure Scalability where
  layers : Nat
  dims : List (Nat × Nat)
  refIds : List Nat
  groups : List Group
deriving Repr, DecidableEq

def group : P Group := do
  let t ← f 3
  let a ← flag
  let b ← flag
  let n ← f 3
  let d ← many n (f 8)
  pure ⟨t, a, b, d⟩

/-- `scalability_structure` (5.8.6). -/
def scalabilityStructure : P Scalability := do
  let cnt ← f 2
  let hasDims ← flag
  let hasIds ← flag
  let hasGroups ← flag
  let _ ← f 3
  let dims ← many (if hasDims then cnt + 1 else 0) (do
    let w ← f 16
    let h ← f 16
    pure (w, h))
  let ids ← many (if hasIds then cnt + 1 else 0) (f 8)
  let groups ← (if hasGroups then do
      let n ← f 8
      many n group
    else pure [])
  pure ⟨cnt + 1, dims, ids, groups⟩

/-- What a decoder learns from a metadata OBU. -/
inductive Meta where
  | contentLight (maxCll maxFall : Nat)
  | mastering (primaries : List (Nat × Nat)) (whiteX whiteY lumMax lumMin : Nat)
  | scalability (mode : Nat) (s : Option Scalability)
  | t35 (country : Nat) (extension : Option Nat)
  | timecode (countingType : Nat) (full discontinuity dropped : Bool) (nFrames : Nat)
      (seconds minutes hours : Option Nat) (offLen offVal : Nat)
deriving Repr, DecidableEq

/-- Seconds, minutes, hours of a time code (5.8.7). -/
def clock (full : Bool) : P (Option Nat × Option Nat × Option Nat) :=
  if full then do
    let s ← f 6
    let m ← f 6
    let h ← f 5
    pure (some s, some m, some h)
  else do
    let s ← flagged (f 6)
    let m ← (if s.isSome then flagged (f 6) else pure none)
    let h ← (if m.isSome then flagged (f 5) else pure none)
    pure (s, m, h)

/-- `metadata_obu` (5.8.1); the payload bytes of ITU-T T.35 metadata, which follow the country code, are left over. -/
def metadata : P (Option Meta) := do
  let t ← leb128
  if t = 1 then
    let a ← f 16
    let b ← f 16
    pure (some (.contentLight a b))
  else if t = 2 then
    let p ← many 3 (do
      let x ← f 16
      let y ← f 16
      pure (x, y))
    let wx ← f 16
    let wy ← f 16
    let lx ← f 32
    let ln ← f 32
    pure (some (.mastering p wx wy lx ln))
  else if t = 3 then
    let mode ← f 8
    let s ← opt (mode == 14) scalabilityStructure
    pure (some (.scalability mode s))
  else if t = 4 then
    let cc ← f 8
    let e ← opt (cc == 0xFF) (f 8)
    pure (some (.t35 cc e))
  else if t = 5 then
    let ct ← f 5
    let full ← flag
    let disc ← flag
    let drop ← flag
    let n ← f 9
    let (s, m, h) ← clock full
    let tol ← f 5
    let tov ← f tol
    pure (some (.timecode ct full disc drop n s m h tol tov))
  else pure none

/-- The layout the code uses for time codes: type code 3, without the discontinuity, dropped and frame-number
fields. -/
def timecodeLayout : P (Nat × Nat × Option Nat × Option Nat × Option Nat × Nat × Nat) := do
  let t ← leb128
  let ct ← f 5
  let full ← flag
  let (s, m, h) ← clock full
  let tol ← f 5
  let tov ← f tol
  pure (t, ct, s, m, h, tol, tov)

end Av1.Syntax
