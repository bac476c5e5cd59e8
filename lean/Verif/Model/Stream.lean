import Verif.Model.Obu
import Verif.Model.HeaderLeft
import Verif.Model.Tile

/-!
# `src/obu_encoder.rs` 89–1573: `encode_obu_payload` as a whole, and sequences of calls

The payloads of the single kinds are modelled in `Model/Obu.lean`, `Model/FrameWhole.lean` and `Model/Tile.lean`; here are the
dispatch and the state that passes from one call to the next.
-/

namespace Av1

/-- `enum OBU` (obu.rs 73–84); `φ` stands for `Frame`. -/
inductive ObuIn (φ : Type) where
  | sequence (sh : SeqHeader)
  | delimiter
  | frameHeader (f : φ)
  | redundant
  | tileGroup (f : φ)
  | metadata (m : Metadata)
  | frame (f : φ)
  | padding (n : Nat)

/-- The kind, for `encode_obu_header`. -/
def ObuIn.kind {φ : Type} : ObuIn φ → ObuKind
  | .sequence _ => .sequenceHeader
  | .delimiter => .temporalDelimiter
  | .frameHeader _ => .frameHeader
  | .redundant => .redundantFrameHeader
  | .tileGroup _ => .tileGroup
  | .metadata _ => .metadata
  | .frame _ => .frame
  | .padding _ => .padding

/-- `EncoderContext` and `OBUEncoder` between two calls: as the sequence header sees them, as the frame header sees them, and
what the tiles use.  Fields in both `sc` and `w` are one field in the code; `share` keeps them equal. -/
structure EncState (τ : Type) where
  sc : SeqCtx
  w : Whole
  left : HeaderLeft
  tgStart : Nat
  tgEnd : Nat
  rest : τ

/-- The fields of `EncoderContext` (encoder.rs 11–89) and `OBUEncoder` (obu_encoder.rs 30–41) that the sequence header may
change and the frame header reads. -/
def share (sc : SeqCtx) (w : Whole) : Whole :=
  { w with
    c := { w.c with
      reduced := sc.reduced
      timing := sc.timing
      forceSct := sc.forceSct
      forceIntMv := sc.forceIntMv
      opIdcs := sc.opModels.map OpModel.idc
      enableOrderHint := sc.orderHint
      enableSuperres := sc.superres
      enableRefMvs := sc.refFrameMvs }
    hintBits := sc.orderHintBits
    tile := { w.tile with use128 := sc.use128 }
    enableWarped := sc.warped
    enableRestoration := sc.restoration
    sep := sc.color.separateUvDeltaQ
    mono := sc.color.monoChrome
    sub := sc.color.subX && sc.color.subY }

/-- What the frame-carrying kinds need of a frame. -/
structure FrameIO (φ τ : Type) where
  /-- The frame's fields beside those of the context. -/
  load : φ → Whole → Whole
  /-- Numbers of tile columns, tile rows and tile groups. -/
  layout : φ → Nat × Nat × Nat
  /-- `encode_tile` with the context the headers left. -/
  tile : φ → Whole → HeaderLeft → Bool → Nat → τ → Option (τ × Bits)
  /-- A frame has no fields of the context. -/
  load_c : ∀ f w, (load f w).c = w.c

/-- `ecx.seen_frame_header = b`. -/
def setSeen (b : Bool) (w : Whole) : Whole := { w with c := { w.c with seen := b } }

/-- `encode_obu_payload` (89–1573). -/
def encodePayload {φ τ : Type} (io : FrameIO φ τ) (e : EncState τ) : ObuIn φ → Option (Raw × EncState τ)
  | .sequence sh => do
    let sc := { e.sc with filmGrain := e.w.grain.isSome }
    let b ← encodeSeqHeader sh sc
    let sc' := (seqAfter sh sc).2
    some (b, { e with sc := sc', w := share sc' e.w })
  | .delimiter => some ([], { e with w := setSeen false e.w })
  | .frameHeader f => do
    let w := io.load f e.w
    let b ← frameHeaderBits w
    let w' ← wholeAfter w
    let left ← leftAfter w e.left
    some (b, { e with w := w', left := left })
  | .redundant => some ([], e)
  | .tileGroup f => do
    let (cols, rows, groups) := io.layout f
    let (_, s, t) ← tileGroupHeader cols rows groups e.tgStart e.tgEnd
    let (b, x, done) ← encodeTileGroup (io.tile f e.w e.left) cols rows groups e.tgStart e.tgEnd e.w.tile.tileSizeBytes e.rest
    some (b, { e with tgStart := s, tgEnd := t, rest := x, w := if done then setSeen false e.w else e.w })
  | .metadata m => do
    let b ← encodeMetadata m
    some (b, e)
  | .frame _ => some ([], e)
  | .padding n => do
    let b ← encodePadding n
    some (b, e)

/-- A sequence of calls: the payloads and the state they leave. -/
def payloads {φ τ : Type} (io : FrameIO φ τ) : EncState τ → List (ObuIn φ) → Option (List Raw × EncState τ)
  | e, [] => some ([], e)
  | e, u :: us => do
    let (b, e) ← encodePayload io e u
    let (bs, e) ← payloads io e us
    some (b :: bs, e)

/-- A sequence of calls of `encode_temporal_unit` (1587–1604): the bytes written. -/
def stream {φ τ : Type} (io : FrameIO φ τ) : EncState τ → List (ObuIn φ) → Writer → Option Writer
  | _, [], w => some w
  | e, u :: us, w => do
    let (b, e) ← encodePayload io e u
    let w ← encodeTemporalUnit u.kind (some b) w
    stream io e us w

end Av1
