import Verif.Model.FrameFront
import Verif.Model.GlobalMotion
import Verif.Model.FilmGrain

/-!
# `src/obu_encoder.rs` 318–1403: the whole frame header

The sections of `Model/FrameFront.lean`, `Model/FrameHeader.lean`, `Model/GlobalMotion.lean` and `Model/FilmGrain.lean`
in the order of the code, with the state each leaves to the next.
-/

namespace Av1

/-! ## Reference mode and skip mode (1111–1184) -/

/-- `forward_idx`, `forward_hint`, `backward_idx`, `backward_hint` (1122–1125); an index of -1 is `none`. -/
structure SkipScan where
  fwd : Option (Nat × Nat)
  bwd : Option (Nat × Nat)
deriving Repr, DecidableEq

/-- One turn of the loop over references (1137–1149); `dist` is the closure `get_relative_dist` (1126–1135), the same
function as in common.rs. -/
def skipStep (dist : Nat → Nat → Option Int) (cur : Nat) (s : SkipScan) (i hint : Nat) : Option SkipScan := do
  let d ← dist hint cur
  if d < 0 then
    match s.fwd with
    | none => some { s with fwd := some (i, hint) }
    | some (_, h) => do
      let e ← dist hint h
      some (if e > 0 then { s with fwd := some (i, hint) } else s)
  else if d > 0 then
    match s.bwd with
    | none => some { s with bwd := some (i, hint) }
    | some (_, h) => do
      let e ← dist hint h
      some (if e < 0 then { s with bwd := some (i, hint) } else s)
  else some s

/-- The loop over references (1136–1149) from reference `i` on. -/
def skipScan (dist : Nat → Nat → Option Int) (cur : Nat) : SkipScan → Nat → List Nat → Option SkipScan
  | s, _, [] => some s
  | s, i, h :: l => do
    let s ← skipStep dist cur s i h
    skipScan dist cur s (i + 1) l

/-- The second loop (1159–1167): the nearest reference before the forward one. -/
def secondScan (dist : Nat → Nat → Option Int) (fwd : Nat) : Option (Nat × Nat) → Nat → List Nat → Option (Option (Nat × Nat))
  | s, _, [] => some s
  | s, i, h :: l => do
    let d ← dist h fwd
    let s ← (if d < 0 then
        match s with
        | none => some (some (i, h))
        | some (_, g) => do
          let e ← dist h g
          some (if e > 0 then some (i, h) else s)
      else some s)
    secondScan dist fwd s (i + 1) l

/-- `skip_mode_allowed` and `skip_mode_frame` (1119–1177): the two references, `LAST_FRAME` = 1; `hints` are the order
hints of the seven references. -/
def skipModeFrames (dist : Nat → Nat → Option Int) (cur : Nat) (hints : List Nat) : Option (Option (Nat × Nat)) := do
  let s ← skipScan dist cur ⟨none, none⟩ 0 hints
  match s.fwd with
  | none => some none
  | some (fi, fh) =>
    match s.bwd with
    | some (bi, _) => some (some (1 + min fi bi, 1 + max fi bi))
    | none => do
      let t ← secondScan dist fh none 0 hints
      match t with
      | none => some none
      | some (si, _) => some (some (1 + min fi si, 1 + max fi si))

/-! ## The whole header -/

/-- Everything the header reads of `Frame`, `EncoderContext` and `OBUEncoder`. -/
structure Whole where
  c : HCtx
  f : HFrame
  /-- `self.id_len` -/
  idLen : Nat
  /-- `self.order_hint_bits` -/
  hintBits : Nat
  /-- `ecx.order_hint_bits` -/
  ctxHintBits : Nat
  /-- `use_128x128_superblock`, tile starts and tile sizes; `width` and `height` are those of `f` -/
  tile : TileIn
  quant : Quant
  seg : Seg
  deltas : Deltas
  /-- `ecx.current_q_index` -/
  currentQ : Nat
  lf : LoopFilter
  cdef : Cdef
  lr : Lr
  enableRestoration : Bool
  txSelect : Bool
  refSelect : Bool
  skipPresent : Bool
  enableWarped : Bool
  allowWarped : Bool
  reducedTx : Bool
  gm : Gm
  grain : Option Grain
  grainRefs : List Grain
  /-- `ecx.num_planes` -/
  planes : Nat
  /-- `separate_uv_delta_q`, `mono_chrome`, `subsampling_x && subsampling_y` -/
  sep : Bool
  mono : Bool
  sub : Bool
  /-- `self.tile_num` -/
  tileNum : Nat
deriving Repr, DecidableEq

/-- `reference_select` after 1111–1116. -/
def refSelectAfter (w : Whole) (c : HCtx) : Bool := if c.isIntra then false else w.refSelect

/-- `skip_mode_allowed` (1118–1177); `f` is the frame after the front. -/
def skipAllowed (w : Whole) (c : HCtx) (f : HFrame) : Option Bool :=
  if c.isIntra || !refSelectAfter w c || !c.enableOrderHint then some false else do
    let hints ← f.refIdx.mapM (c.refHint[·]?)
    let s ← skipModeFrames (fun a b => getRelativeDist a b c.enableOrderHint w.ctxHintBits) f.orderHint hints
    some s.isSome

/-- Reference mode, skip mode, warped motion, transform set (1111–1188); `f` is the frame after the front. -/
def modeBits (w : Whole) (c : HCtx) (f : HFrame) : Option Raw := do
  let b1 ← (if c.isIntra then cat [] else pushB w.refSelect)
  let allowed ← skipAllowed w c f
  let b2 ← (if allowed then pushB w.skipPresent else cat [])
  let b3 ← (if c.isIntra || f.errRes || !w.enableWarped then cat [] else pushB w.allowWarped)
  let b4 ← pushB w.reducedTx
  some (b1 ++ b2 ++ b3 ++ b4)

/-- A header of its own (330–1403), after the front: elements from tile info on (750–1391). -/
def backBits (w : Whole) (c : HCtx) (f : HFrame) : Option Raw :=
  let none_ := decide (f.primary = 7)
  let seg := segAfter w.seg none_
  let d := deltaQAfter w.deltas w.quant.baseQIdx
  let q := quantAfter w.quant w.planes w.sep
  let lossless := codedLossless seg q w.currentQ d.qPresent
  let allLossless := lossless && decide (f.width = c.upscaledWidth)
  cat [encodeTileInfo { w.tile with width := f.width, height := f.height },
    encodeQuant w.quant w.planes w.sep,
    encodeSeg w.seg none_,
    encodeDeltaQParams w.deltas w.quant.baseQIdx,
    encodeDeltaLfParams d f.intrabc,
    encodeLoopFilter w.lf (lossless || f.intrabc) w.planes,
    encodeCdef w.cdef (lossless || f.intrabc) w.planes,
    encodeLrParams w.lr (allLossless || f.intrabc || w.enableRestoration) w.planes w.tile.use128 w.sub,
    encodeTxMode lossless w.txSelect,
    modeBits w c f,
    encodeGlobalMotion w.gm c.isIntra f.highPrec,
    encodeGrain w.grain ⟨c.showFrame || c.showable, decide (f.type = .inter), w.mono, w.sub, w.grainRefs⟩]

/-- `coded_lossless` (947–972) of a header whose front leaves `f`. -/
def losslessOf (w : Whole) (f : HFrame) : Bool :=
  codedLossless (segAfter w.seg (decide (f.primary = 7))) (quantAfter w.quant w.planes w.sep) w.currentQ
    (deltaQAfter w.deltas w.quant.baseQIdx).qPresent

/-- What the sections from tile info on (750–1391) leave, `w` being what the front leaves. -/
def backAfter (w : Whole) : Option Whole := do
  let lossless := losslessOf w w.f
  let off := lossless || w.f.intrabc
  let tile ← tileAfter { w.tile with width := w.f.width, height := w.f.height }
  let allowed ← skipAllowed w w.c w.f
  let grain ← grainAfter w.grain
    ⟨w.c.showFrame || w.c.showable, decide (w.f.type = .inter), w.mono, w.sub, w.grainRefs⟩
  some { w with
    tile := tile
    quant := quantAfter w.quant w.planes w.sep
    seg := segAfter w.seg (decide (w.f.primary = 7))
    deltas := deltaLfAfter (deltaQAfter w.deltas w.quant.baseQIdx) w.f.intrabc
    lf := loopFilterAfter w.lf off
    cdef := cdefAfter w.cdef off w.planes
    lr := lrAfter w.lr (lossless && decide (w.f.width = w.c.upscaledWidth) || w.f.intrabc || w.enableRestoration) w.planes
      w.tile.use128 w.sub
    refSelect := refSelectAfter w w.c
    skipPresent := allowed && w.skipPresent
    allowWarped := if w.c.isIntra || w.f.errRes || !w.enableWarped then false else w.allowWarped
    gm := gmAfter w.gm w.c.isIntra
    grain := some grain }

/-- The elements of `OBU_FRAME_HEADER` (318–1403). -/
def frameHeaderBits (w : Whole) : Option Raw :=
  if w.c.seen then some []
  else do
    let idLen ← idLenOf w.c w.idLen
    if !w.c.reduced && w.c.showExisting then
      let _ ← existingAfter w.c w.f
      cat [pushB true, existingBits w.c w.f idLen]
    else
      let b0 ← (if w.c.reduced then cat [] else pushB false)
      let (b1, c, f) ← frontOf w.c w.f idLen w.hintBits
      let b2 ← backBits w c f
      some (b0 ++ b1 ++ b2)

/-- What `OBU_FRAME_HEADER` leaves of the front's state, of `tile_num` and of `seen_frame_header` (324, 363, 1393–1402);
the states of the later sections are their `…After` functions. -/
def frameHeaderAfter (w : Whole) : Option Whole :=
  if w.c.seen then some w
  else do
    let idLen ← idLenOf w.c w.idLen
    if !w.c.reduced && w.c.showExisting then
      let (c, f) ← existingAfter w.c w.f
      some { w with c := c, f := f, idLen := idLen }
    else
      let (_, c, f) ← frontOf w.c w.f idLen w.hintBits
      some { w with c := { c with seen := !c.showExisting }, f := f, idLen := idLen,
                    tileNum := if c.showExisting then w.tileNum else 0 }

/-- All that `OBU_FRAME_HEADER` leaves (318–1403). -/
def wholeAfter (w : Whole) : Option Whole := do
  let w' ← frameHeaderAfter w
  if w.c.seen || !w.c.reduced && w.c.showExisting then some w' else backAfter w'

end Av1
