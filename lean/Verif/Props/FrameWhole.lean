import Verif.Spec.FrameWhole
import Verif.Props.FrameFront
import Verif.Props.Tiles
import Verif.Props.FrameParams
import Verif.Props.GlobalMotion
import Verif.Props.FilmGrain
import Verif.Props.Motion
import Verif.Props.FrameFilters

/-! # C94, C95: whole frame headers, skip mode -/

namespace Av1

/-! ## C94 -/

/-- What an AV1 decoder should read of the sections from tile info on of a lossless intra frame. -/
def restView (w : Whole) (tile : Nat × Nat × Option (Nat × Nat)) : Hdr.Rest where
  tile := tile
  quant := (quantAfter w.quant w.planes w.sep).view
  seg := none
  deltaQ := (false, 0)
  deltaLf := (false, 0, false)
  loopFilter := none
  cdef := none
  lr := none
  txMode := .only4x4
  reducedTx := w.reducedTx
  motion := List.replicate 7 (0, [0, 0, 2 ^ 16, 0, 0, 2 ^ 16])
  grain := grainAsked w.grain true false w.mono w.sub

/-- A decoder has read the rest of the sequence header the encoder works with. -/
structure AgreesRest (r : Hdr.SeqRest) (w : Whole) : Prop where
  planes : r.planes = w.planes
  sep : r.separateUv = w.sep
  mono : r.mono = w.mono
  sub : r.sub = w.sub
  use128 : r.use128 = w.tile.use128
  restoration : r.restoration = w.enableRestoration
  grain : r.filmGrain = w.grain.isSome
  limits : (r.limits w.f.width w.f.height).For (miSize w.f.width) (miSize w.f.height) w.tile.use128

/-- A lossless frame: no quantizer index, no offsets, no segments. -/
structure LosslessOk (w : Whole) : Prop where
  base : w.quant.baseQIdx = 0
  ok : w.quant.Ok
  deltas : w.quant.yDc = 0 ∧ w.quant.uDc = 0 ∧ w.quant.uAc = 0 ∧ w.quant.vDc = 0 ∧ w.quant.vAc = 0
  seg : w.seg.enabled = false
  current : w.currentQ = 0

theorem C83_loop_filter_off (l : LoopFilter) (lossless intrabc : Bool) (planes : Nat) (h : (lossless || intrabc) = true) :
    Writes (encodeLoopFilter l true planes) (Hdr.loopFilterParams lossless intrabc planes) none := by
  unfold encodeLoopFilter Hdr.loopFilterParams
  rw [h]; exact Writes.pure none

theorem quantAfter_zero (q : Quant) (planes : Nat) (sep : Bool)
    (h : q.yDc = 0 ∧ q.uDc = 0 ∧ q.uAc = 0 ∧ q.vDc = 0 ∧ q.vAc = 0) :
    (quantAfter q planes sep).baseQIdx = q.baseQIdx ∧ ∀ d ∈ [(quantAfter q planes sep).yDc, (quantAfter q planes sep).uAc,
      (quantAfter q planes sep).uDc, (quantAfter q planes sep).vAc, (quantAfter q planes sep).vDc], d = 0 := by
  obtain ⟨h1, h2, h3, h4, h5⟩ := h
  unfold quantAfter
  by_cases hp : planes > 1 <;> cases hd : diffAfter q sep <;> cases hu : q.usingQm <;> cases sep <;>
    simp [hp, hu, hd, h1, h2, h3, h4, h5]

/-- The front's state after an intra frame, as far as the rest needs it. -/
theorem back_lossless (r : Hdr.SeqRest) (w : Whole) (c : HCtx) (f : HFrame) (z : Hdr.Size) (o : Hdr.Opening)
    (tv : Nat × Nat × Option (Nat × Nat)) (g : Grain)
    (ha : AgreesRest r w) (hl : LosslessOk w) (hcd : w.cdef.Ok) (hg : w.grain = some g) (hgo : g.Ok) (hgr : w.grainRefs.length = 8)
    (hi : c.isIntra = true) (hp : f.primary = 7) (hb : f.intrabc = false) (hw : f.width = z.coded) (hh : f.height = z.height)
    (hu : c.upscaledWidth = z.width) (hun : z.coded = z.width) (hs : (c.showFrame || c.showable) = true)
    (hos : (o.shown || o.showable) = true) (ht : f.type ≠ .inter) (hot : o.type ≠ 1) (hhp : f.highPrec = false)
    (htile : Writes (encodeTileInfo { w.tile with width := z.coded, height := z.height }) (Hdr.tileInfo (r.limits z.coded z.height)) tv) :
    Writes (backBits w c f) (Hdr.rest r o z false) (restView w tv) := by
  have hq0 : (quantAfter w.quant w.planes w.sep).baseQIdx = 0 := by
    rw [(quantAfter_zero _ _ _ hl.deltas).1, hl.base]
  have hqd : ∀ d ∈ [(quantAfter w.quant w.planes w.sep).yDc, (quantAfter w.quant w.planes w.sep).uAc,
      (quantAfter w.quant w.planes w.sep).uDc, (quantAfter w.quant w.planes w.sep).vAc,
      (quantAfter w.quant w.planes w.sep).vDc], d = 0 := by
    exact (quantAfter_zero _ _ _ hl.deltas).2
  have hseg : (segAfter w.seg true).enabled = false := by unfold segAfter; rw [hl.seg]; simp [hl.seg]
  have hll : codedLossless (segAfter w.seg true) (quantAfter w.quant w.planes w.sep) w.currentQ (deltaQAfter w.deltas w.quant.baseQIdx).qPresent = true := by
    rw [hl.current]; exact C82_fresh_wrong _ _ _ hseg hqd
  have hdl : Hdr.codedLossless none (quantAfter w.quant w.planes w.sep).view = true := by
    simp only [List.mem_cons, List.not_mem_nil, or_false, forall_eq_or_imp, forall_eq] at hqd
    obtain ⟨h1, h2, h3, h4, h5⟩ := hqd
    unfold Hdr.codedLossless Quant.view
    simp [hq0, h1, h2, h3, h4, h5]
  have hdq : (deltaQAfter w.deltas w.quant.baseQIdx).qPresent = false := by
    rw [hl.base]; rfl
  have h1 : decide (f.type = .inter) = false := by simpa using ht
  have h2 : (o.type == 1) = false := by simpa using hot
  have t3 : Writes (encodeSeg w.seg true) (Hdr.segmentation 8 true) none := by
    unfold encodeSeg Hdr.segmentation P.flagged
    rw [hl.seg]
    exact Writes.cons (writes_flag false) (Writes.skip (Writes.pure _))
  have t4 : Writes (encodeDeltaQParams w.deltas w.quant.baseQIdx) (Hdr.deltaQParams (quantAfter w.quant w.planes w.sep).view.baseQIdx) (false, 0) := by
    rw [show (quantAfter w.quant w.planes w.sep).view.baseQIdx = w.quant.baseQIdx from by rw [hl.base]; exact hq0]
    exact C81_q_partial w.deltas _ (Or.inl hl.base)
  have t5 : Writes (encodeDeltaLfParams (deltaQAfter w.deltas w.quant.baseQIdx) false) (Hdr.deltaLfParams false false) (false, 0, false) := by
    have := (C81_stale (deltaQAfter w.deltas w.quant.baseQIdx) false hdq).1
    rwa [hdq] at this
  have t6 := C83_loop_filter_off w.lf true false w.planes rfl
  have t7 : Writes (encodeCdef w.cdef true w.planes) (Hdr.cdefParams true false r.cdef w.planes) none :=
    C84_cdef_partial w.cdef true false r.cdef w.planes hcd (Or.inr rfl)
  have t8 : Writes (encodeLrParams w.lr true w.planes w.tile.use128 w.sub)
      (Hdr.lrParams true false r.restoration w.planes r.use128 r.sub) none := by
    rw [ha.use128, ha.sub]
    exact C85_off_partial w.lr true false r.restoration w.planes w.tile.use128 w.sub rfl
  have t9 : Writes (encodeTxMode true w.txSelect) (Hdr.txMode true) .only4x4 := C82_tx_mode true w.txSelect
  have t10 : Writes (modeBits w c f) P.flag w.reducedTx := by
    have : modeBits w c f = pushB w.reducedTx := by
      unfold modeBits skipAllowed
      simp only [hi, if_true, Bool.true_or, cat_nil, Option.bind_eq_bind, Option.bind_some]
      rfl
    rw [this]; exact writes_flag _
  have t11 : Writes (encodeGlobalMotion w.gm true false) (Hdr.globalMotion true false fun _ => [])
      (List.replicate 7 (0, [0, 0, 2 ^ 16, 0, 0, 2 ^ 16])) := Writes.pure _
  have t12 : Writes (encodeGrain w.grain ⟨true, false, w.mono, w.sub, w.grainRefs⟩)
      (Hdr.filmGrain r.filmGrain true false r.mono r.sub) (grainAsked w.grain true false w.mono w.sub) := by
    rw [ha.grain, hg, ha.mono, ha.sub]
    exact C88_read_back_partial g ⟨true, false, w.mono, w.sub, w.grainRefs⟩ hgo hgr rfl
  have t2 := C78_quant_read_back w.quant w.planes w.sep hl.ok
  have htile' : Writes (encodeTileInfo { w.tile with width := f.width, height := f.height }) (Hdr.tileInfo (r.limits z.coded z.height)) tv := by
    rw [hw, hh]; exact htile
  have e : backBits w c f = cat [encodeTileInfo { w.tile with width := f.width, height := f.height },
      encodeQuant w.quant w.planes w.sep, encodeSeg w.seg true, encodeDeltaQParams w.deltas w.quant.baseQIdx,
      encodeDeltaLfParams (deltaQAfter w.deltas w.quant.baseQIdx) false, encodeLoopFilter w.lf true w.planes,
      encodeCdef w.cdef true w.planes, encodeLrParams w.lr true w.planes w.tile.use128 w.sub, encodeTxMode true w.txSelect,
      modeBits w c f, encodeGlobalMotion w.gm true false, encodeGrain w.grain ⟨true, false, w.mono, w.sub, w.grainRefs⟩] := by
    have e1 : decide (f.primary = 7) = true := by rw [hp]; rfl
    have e2 : decide (f.width = c.upscaledWidth) = true := by rw [hu, hw, hun]; exact decide_eq_true rfl
    unfold backBits
    simp only [e1, hb, hi, hhp, hs, h1, hll, e2, Bool.true_and, Bool.true_or, Bool.or_false]
  rw [e]
  unfold Hdr.rest
  rw [hos, h2, ha.planes, ha.sep]
  refine Writes.cons htile' (Writes.cons t2 (Writes.cons t3 (Writes.cons t4 (Writes.cons t5 ?_))))
  have e3 : decide (z.coded = z.width) = true := by rw [hun]; exact decide_eq_true rfl
  rw [hdl, e3]
  exact Writes.cons t6 (Writes.cons t7 (Writes.cons t8 (Writes.cons t9 (Writes.cons t10 (Writes.cons t11 (Writes.last (Writes.map
    (fun x => ({ restView w tv with grain := x } : Hdr.Rest)) t12)))))))

/-- Tile info of an unscaled frame: one tile in a frame of one superblock, or uniform tiles within the limits of C76. -/
def TileOk (r : Hdr.SeqRest) (w : Whole) (tv : Nat × Nat × Option (Nat × Nat)) : Prop :=
  let t := { w.tile with width := w.f.width, height := w.f.height }
  let l := r.limits w.f.width w.f.height
  (t.uniform = false ∧ l.sbCols = 1 ∧ l.sbRows = 1 ∧ t.cols = 1 ∧ t.rows = 1 ∧ tv = (0, 0, none)) ∨
  (t.uniform = true ∧ ∃ c r, t.Ok l c r ∧ c < l.maxCols ∧ r < l.maxRows ∧ c ≤ l.minTiles ∧ tv = tileView t c r)

/-- What a user relies on: the header of an intra frame is read back by a decoder. Lossless frames with film grain only. -/
def C94_full : Prop := ∀ (s : Hdr.SeqInfo) (r : Hdr.SeqRest) (w : Whole) (g : Grain) (tv : Nat × Nat × Option (Nat × Nat)),
  IntraOk s w.c w.f → w.c.seen = false → w.c.showExisting = false → w.hintBits = 0 → AgreesRest r w → LosslessOk w →
  w.cdef.Ok → w.grain = some g → g.Ok → w.grainRefs.length = 8 → TileOk r w tv → (w.c.showFrame || w.c.showable) = true →
  w.f.width ≤ 2 ^ 16 → w.f.height ≤ 2 ^ 16 →
  (∀ d, w.f.dmi = some d → d.removalPresent = true → ∀ o ∈ s.ops, Hdr.inLayers s o.1 = true → o.2 = true) → superresOn w.c w.f = false →
  Writes (frameHeaderBits w) (Hdr.whole s r) (.inr (frontView s w.c w.f, restView w tv))

/-- **C94, partial.** A whole frame header is read back, bit for bit, for lossless intra-only frames and hidden key frames of
sequences with film grain and no order hints. Missing: shown key frames (`C94_first_frame_panics`), inter frames (C93),
lossy frames (C85) and frames without film grain (C88, `C94_no_grain_never`). -/
theorem C94_header_partial (s : Hdr.SeqInfo) (r : Hdr.SeqRest) (w : Whole) (g : Grain) (tv : Nat × Nat × Option (Nat × Nat))
    (h : IntraOk s w.c w.f) (hk : keyLike w.f.type w.c.showFrame = false) (hseen : w.c.seen = false)
    (hex : w.c.showExisting = false) (hhb : w.hintBits = 0) (ha : AgreesRest r w) (hl : LosslessOk w) (hcd : w.cdef.Ok)
    (hg : w.grain = some g) (hgo : g.Ok) (hgr : w.grainRefs.length = 8) (ht : TileOk r w tv)
    (hs : (w.c.showFrame || w.c.showable) = true) (hw : w.f.width ≤ 2 ^ 16) (hh : w.f.height ≤ 2 ^ 16)
    (hrem : ∀ d, w.f.dmi = some d → d.removalPresent = true → ∀ o ∈ s.ops, Hdr.inLayers s o.1 = true → o.2 = true)
    (hsr : superresOn w.c w.f = false) :
    Writes (frameHeaderBits w) (Hdr.whole s r) (.inr (frontView s w.c w.f, restView w tv)) := by
  have hd : denomAfter w.c w.f = 8 := by unfold denomAfter; rw [hsr]; rfl
  have hun : (sizeOf w.c w.f).coded = w.f.width := by
    show (w.f.width * 8 + denomAfter w.c w.f / 2) / denomAfter w.c w.f = w.f.width
    rw [hd]; omega
  obtain ⟨n, b1, c', f', h1, h2, ⟨e1, he1, r1⟩, i1, i2, i3, i4, i5, i6, i7, i8, i9, i10, i11⟩ :=
    front_intra s w.c w.f h hk hrem (fun _ _ => hun) w.idLen
  have htile : Writes (encodeTileInfo { w.tile with width := (sizeOf w.c w.f).coded, height := (sizeOf w.c w.f).height })
      (Hdr.tileInfo (r.limits (sizeOf w.c w.f).coded (sizeOf w.c w.f).height)) tv := by
    rw [hun, show (sizeOf w.c w.f).height = w.f.height from rfl]
    rcases ht with ⟨t1, t2, t3, t4, t5, rfl⟩ | ⟨t1, c, r', t2, t3, t4, t5, rfl⟩
    · exact C76_nonuniform_one_partial _ _ t1 ha.limits hw hh t2 t3 t4 t5
    · exact C76_uniform_partial _ _ c r' t2 t1 t3 t4 t5
  have hty : w.f.type = .key ∨ w.f.type = .intraOnly := by
    have := h.intra
    revert this; cases w.f.type <;> simp [intraType]
  obtain ⟨e2, he2, r2⟩ := back_lossless r w c' f' (sizeOf w.c w.f) (frontView s w.c w.f).opening tv g ha hl hcd hg hgo hgr i1 i8 i9
    i6 i7 i5 hun (by rw [i2, i3]; revert hs; cases w.c.showFrame <;> simp) (by
      show (w.c.showFrame || (if w.c.showFrame then w.f.type.code != 0 else w.c.showable)) = true
      revert hs; cases w.c.showFrame <;> simp) (by rw [i10]; rcases hty with h | h <;> rw [h] <;> simp)
    (by show w.f.type.code ≠ 1; rcases hty with h | h <;> rw [h] <;> decide) i11 htile
  have he : frameHeaderBits w = some (raw ([false] ++ e1 ++ e2)) := by
    unfold frameHeaderBits
    rw [hseen, h.full, hex, hhb, h1]
    simp only [Bool.false_eq_true, if_false, Bool.not_false, Bool.and_false, Option.bind_eq_bind, Option.bind_some, pushB]
    rw [h2]
    simp only [Option.bind_some]
    rw [he2]
    simp only [Option.bind_some]
    rw [Option.some.inj he1, raw_append, raw_append]
    rfl
  refine ⟨_, he, ?_⟩
  have hhead : Reads (Hdr.header s) ([false] ++ e1) (.inr (frontView s w.c w.f)) := by
    unfold Hdr.header
    rw [h.agrees.reduced, h.full]
    simp only [Bool.false_eq_true, if_false]
    refine (reads_flag false).bind ?_
    have := r1.bind (g := fun x => (pure (Sum.inr x) : P (Sum Hdr.Existing Hdr.Front))) (Reads.pure _)
    rw [List.append_nil] at this
    exact this
  unfold Hdr.whole
  refine hhead.bind ?_
  have := r2.bind (g := fun x => (pure (Sum.inr (frontView s w.c w.f, x)) : P (Sum Hdr.Existing (Hdr.Front × Hdr.Rest)))) (Reads.pure _)
  rw [List.append_nil] at this
  exact this

/-! ### An example -/

/-- A 64x64 intra-only frame, lossless, with film grain, one tile. -/
def losslessCtx : HCtx := { HCtx.new with refresh := 5, disableCdfUpdate := true }
def losslessFrame : HFrame := HFrame.new .intraOnly 64 64
def losslessWhole : Whole := { wholeSample losslessCtx losslessFrame with
  tile := ⟨0, 0, false, false, 1, 1, 0, 0, [], []⟩
  cdef := ⟨3, 0, [0], [0], [0], [0]⟩
  grain := some grainSample }
def losslessSeq : Hdr.SeqInfo := { plainSeq with maxWidth := 64, maxHeight := 64, widthBits := 6, heightBits := 6 }
def losslessRest : Hdr.SeqRest where
  planes := 3
  separateUv := false
  mono := false
  sub := true
  use128 := false
  cdef := true
  restoration := true
  filmGrain := true
  limits := fun _ _ => oneLim

theorem losslessWhole_written : Writes (frameHeaderBits { losslessWhole with enableRestoration := true }) (Hdr.whole losslessSeq losslessRest)
    (.inr (frontView losslessSeq losslessCtx losslessFrame, restView { losslessWhole with enableRestoration := true } (0, 0, none))) := by
  refine C94_header_partial losslessSeq losslessRest { losslessWhole with enableRestoration := true } grainSample _ ?_ rfl rfl rfl rfl
    ?_ ?_ ?_ rfl grainSample_ok rfl (Or.inl ⟨rfl, rfl, rfl, rfl, rfl, rfl⟩) rfl (by decide) (by decide) (by intro d hd; cases hd) rfl
  · refine ⟨rfl, ?_, ?_, ⟨rfl, rfl, rfl, rfl, rfl, rfl⟩, rfl, ⟨rfl, rfl⟩, rfl, rfl, rfl, by decide⟩
    · constructor <;> first | rfl | decide
    · constructor
      · decide
      · intro d hd; cases hd
      all_goals decide
  · exact ⟨rfl, rfl, rfl, rfl, rfl, rfl, rfl, oneTile_ok.lim⟩
  · refine ⟨rfl, ?_, by decide, rfl, rfl⟩
    constructor <;> decide
  · constructor <;> decide

/-- The header of a shown key frame, so of the first frame of any stream, is never written. -/
theorem C94_first_frame_panics (w : Whole) (hl : w.c.orderHints.length = 7) (hseen : w.c.seen = false)
    (hex : w.c.showExisting = false) (hk : w.f.type = .key) (hs : w.c.showFrame = true) : frameHeaderBits w = none := by
  unfold frameHeaderBits
  rw [hseen, hex]
  simp only [Bool.false_eq_true, if_false, Bool.and_false, Option.bind_eq_bind]
  cases h1 : idLenOf w.c w.idLen with
  | none => rfl
  | some n =>
    simp only [Option.bind_some]
    rw [C91_shown_key_panics w.c w.f hl hk hs]
    cases (if w.c.reduced then cat [] else pushB false) <;> rfl

/-- **C94** is false. -/
theorem C94_negation : ¬ C94_full := by
  intro h
  have := h losslessSeq losslessRest { losslessWhole with f := HFrame.new .key 64 64, enableRestoration := true } grainSample (0, 0, none)
    ?_ rfl rfl rfl ?_ ?_ ?_ rfl grainSample_ok rfl (Or.inl ⟨rfl, rfl, rfl, rfl, rfl, rfl⟩) rfl (by decide) (by decide)
    (by intro d hd; cases hd) rfl
  · rw [C94_first_frame_panics _ rfl rfl rfl rfl rfl] at this
    obtain ⟨e, he, -⟩ := this
    exact absurd he (by simp)
  · refine ⟨rfl, ?_, ?_, ⟨rfl, rfl, rfl, rfl, rfl, rfl⟩, rfl, ⟨rfl, rfl⟩, rfl, rfl, rfl, by decide⟩
    · constructor <;> first | rfl | decide
    · constructor
      · decide
      · intro d hd; cases hd
      all_goals decide
  · exact ⟨rfl, rfl, rfl, rfl, rfl, rfl, rfl, oneTile_ok.lim⟩
  · refine ⟨rfl, ?_, by decide, rfl, rfl⟩
    constructor <;> decide
  · constructor <;> decide

/-- Whatever the caller chooses for everything else, a frame as `Frame::new` makes it (empty CDEF strength vectors) with a
lossless quantizer never gets a header either, hidden or shown. -/
theorem C94_fresh_frame_panics (w : Whole) (c : HCtx) (f : HFrame) (hp : f.primary = 7) (hl : LosslessOk w)
    (hc : w.cdef.yPri = [] ∨ w.cdef.ySec = [] ∨ w.cdef.uvPri = [] ∨ w.cdef.uvSec = []) : backBits w c f = none := by
  have hseg : (segAfter w.seg true).enabled = false := by unfold segAfter; rw [hl.seg]; simp [hl.seg]
  have hll : codedLossless (segAfter w.seg true) (quantAfter w.quant w.planes w.sep) w.currentQ (deltaQAfter w.deltas w.quant.baseQIdx).qPresent = true := by
    rw [hl.current]; exact C82_fresh_wrong _ _ _ hseg (quantAfter_zero _ _ _ hl.deltas).2
  have e1 : decide (f.primary = 7) = true := by rw [hp]; rfl
  have hcd : encodeCdef w.cdef true w.planes = none := by unfold encodeCdef; rw [if_pos rfl, if_pos hc]
  unfold backBits
  simp only [e1, hll, Bool.true_or, hcd]
  exact cat_none (by simp)

/-! ### Without film grain no header is read back -/

/-- Loop restoration and what follows it in the header of an intra frame, for a decoder: what it has read so far goes into `k`. -/
def Hdr.tail {β : Type} (allLossless lossless intrabc enable : Bool) (planes : Nat) (use128 sub : Bool)
    (k : Option (List Hdr.Restoration × Option (Nat × Nat)) → Hdr.TxMode → Bool → β) : P β := do
  let l ← Hdr.lrParams allLossless intrabc enable planes use128 sub
  let tx ← Hdr.txMode lossless
  let rt ← P.flag
  pure (k l tx rt)

/-- The last sections without film grain: the decoder is either left with a bit too many or asks for bits that are not there. -/
theorem tail_never {β : Type} (l : Lr) (A B I E S R : Bool) (planes : Nat) (use128 sub : Bool) (hp : planes = 1 ∨ planes = 3)
    (k : Option (List Hdr.Restoration × Option (Nat × Nat)) → Hdr.TxMode → Bool → β) (v : β) :
    ¬ Writes (cat [encodeLrParams l (A || I || E) planes use128 sub, encodeTxMode B S, pushB R, cat [], some [0]])
      (Hdr.tail A B I E planes use128 sub k) v := by
  rintro ⟨e, he, hr⟩
  have hlen : ∃ a, encodeLrParams l (A || I || E) planes use128 sub = some a ∧
      raw e = a ++ (if B then [] else raw [S]) ++ raw [R] ++ [0] := by
    cases ha : encodeLrParams l (A || I || E) planes use128 sub with
    | none => rw [ha] at he; exact absurd he (by simp [cat_cons])
    | some a =>
      refine ⟨a, rfl, ?_⟩
      rw [ha] at he
      cases B <;> simp [cat_cons, cat_nil, encodeTxMode, pushB] at he <;> rw [← he] <;> simp [raw]
  obtain ⟨a, ha, hraw⟩ := hlen
  by_cases hon : (A || I || !E) = true
  · -- nothing is read for loop restoration
    have hlr : Hdr.lrParams A I E planes use128 sub = pure none := by
      unfold Hdr.lrParams; rw [hon]; rfl
    have h0 := hr []
    rw [List.append_nil] at h0
    unfold Hdr.tail at h0
    rw [hlr] at h0
    have hle : e.length = a.length + (if B then 0 else 1) + 2 := by
      have := congrArg List.length hraw
      cases B <;> simp [raw] at this ⊢ <;> omega
    cases B with
    | true =>
      match e, hle with
      | x :: y :: t, _ => exact absurd h0 (by intro h; cases h)
      | [_], h => simp at h
      | [], h => simp at h
    | false =>
      match e, hle with
      | x :: y :: z :: t, _ => exact absurd h0 (by intro h; cases h)
      | [_, _], h => simp at h
      | [_], h => simp at h
      | [], h => simp at h
  · -- loop restoration is read and has not been written
    have hA : A = false := by revert hon; cases A <;> simp
    have hI : I = false := by revert hon; cases A <;> cases I <;> simp
    have hE : E = true := by revert hon; cases A <;> cases I <;> cases E <;> simp
    subst hA hI hE
    have ha' : a = [] := by
      have : encodeLrParams l (false || false || true) planes use128 sub = some [] := rfl
      rw [this] at ha; exact (Option.some.inj ha).symm
    subst ha'
    have he' : e = (if B then [] else [S]) ++ [R, false] := by
      apply raw_inj; rw [hraw]; cases B <;> rfl
    subst he'
    have h0 := hr []
    rcases hp with rfl | rfl
    · revert h0; cases B <;> cases S <;> cases R <;> cases use128 <;> cases sub <;> intro h0 <;> cases h0
    · revert h0; cases B <;> cases S <;> cases R <;> cases use128 <;> cases sub <;> intro h0 <;> cases h0

/-- The sections of an intra frame before loop restoration are read by the decoder as `v`, whatever that is; both sides agree on
whether the frame is lossless. -/
structure EarlierRead (r : Hdr.SeqRest) (w : Whole) (lossless : Bool) (v : Hdr.Rest) : Prop where
  tile : Writes (encodeTileInfo { w.tile with width := w.f.width, height := w.f.height })
    (Hdr.tileInfo (r.limits w.f.width w.f.height)) v.tile
  quant : Writes (encodeQuant w.quant w.planes w.sep) (Hdr.quant r.planes r.separateUv) v.quant
  seg : Writes (encodeSeg w.seg true) (Hdr.segmentation 8 true) v.seg
  deltaQ : Writes (encodeDeltaQParams w.deltas w.quant.baseQIdx) (Hdr.deltaQParams v.quant.baseQIdx) v.deltaQ
  deltaLf : Writes (encodeDeltaLfParams (deltaQAfter w.deltas w.quant.baseQIdx) false) (Hdr.deltaLfParams v.deltaQ.1 false) v.deltaLf
  loopFilter : Writes (encodeLoopFilter w.lf lossless w.planes) (Hdr.loopFilterParams lossless false r.planes) v.loopFilter
  cdef : Writes (encodeCdef w.cdef lossless w.planes) (Hdr.cdefParams lossless false r.cdef r.planes) v.cdef
  encoder : codedLossless (segAfter w.seg true) (quantAfter w.quant w.planes w.sep) w.currentQ
    (deltaQAfter w.deltas w.quant.baseQIdx).qPresent = lossless
  decoder : Hdr.codedLossless v.seg v.quant = lossless

/-- The header of an intra frame that is not a shown key frame is read if and as its end is, from loop restoration on. -/
theorem header_tail (s : Hdr.SeqInfo) (r : Hdr.SeqRest) (w : Whole) (lossless : Bool) (v : Hdr.Rest)
    (h : IntraOk s w.c w.f) (hk : keyLike w.f.type w.c.showFrame = false) (hseen : w.c.seen = false)
    (hex : w.c.showExisting = false) (hhb : w.hintBits = 0) (ha : AgreesRest r w) (he : EarlierRead r w lossless v)
    (hrem : ∀ d, w.f.dmi = some d → d.removalPresent = true → ∀ o ∈ s.ops, Hdr.inLayers s o.1 = true → o.2 = true)
    (hsr : superresOn w.c w.f = false) (x : Sum Hdr.Existing (Hdr.Front × Hdr.Rest)) :
    Writes (frameHeaderBits w) (Hdr.whole s r) x ↔ ∃ y, x = .inr (frontView s w.c w.f, y) ∧ Writes (cat [
        encodeLrParams w.lr (lossless || false || w.enableRestoration) w.planes w.tile.use128 w.sub, encodeTxMode lossless w.txSelect,
        pushB w.reducedTx, cat [], encodeGrain w.grain ⟨w.c.showFrame || w.c.showable, false, w.mono, w.sub, w.grainRefs⟩])
      (do
        let l ← Hdr.lrParams lossless false w.enableRestoration w.planes w.tile.use128 w.sub
        let tx ← Hdr.txMode lossless
        let rt ← P.flag
        let g ← Hdr.filmGrain w.grain.isSome (w.c.showFrame || w.c.showable) false w.mono w.sub
        pure (⟨v.tile, v.quant, v.seg, v.deltaQ, v.deltaLf, v.loopFilter, v.cdef, l, tx, rt,
          List.replicate 7 (0, [0, 0, 2 ^ 16, 0, 0, 2 ^ 16]), g⟩ : Hdr.Rest)) y := by
  have hty : w.f.type = .key ∨ w.f.type = .intraOnly := by
    have := h.intra
    revert this; cases w.f.type <;> simp [intraType]
  have hd : denomAfter w.c w.f = 8 := by unfold denomAfter; rw [hsr]; rfl
  have hun : (sizeOf w.c w.f).coded = w.f.width := by
    show (w.f.width * 8 + denomAfter w.c w.f / 2) / denomAfter w.c w.f = w.f.width
    rw [hd]; omega
  obtain ⟨n, b1, c', f', h1, h2, ⟨e1, he1, r1⟩, i1, i2, i3, i4, i5, i6, i7, i8, i9, i10, i11⟩ :=
    front_intra s w.c w.f h hk hrem (fun _ _ => hun) w.idLen
  have hback : ∀ y, Writes (backBits w c' f') (Hdr.rest r (frontView s w.c w.f).opening (sizeOf w.c w.f) false) y ↔
      Writes (cat [
        encodeLrParams w.lr (lossless || false || w.enableRestoration) w.planes w.tile.use128 w.sub, encodeTxMode lossless w.txSelect,
        pushB w.reducedTx, cat [], encodeGrain w.grain ⟨w.c.showFrame || w.c.showable, false, w.mono, w.sub, w.grainRefs⟩])
      (do
        let l ← Hdr.lrParams lossless false w.enableRestoration w.planes w.tile.use128 w.sub
        let tx ← Hdr.txMode lossless
        let rt ← P.flag
        let g ← Hdr.filmGrain w.grain.isSome (w.c.showFrame || w.c.showable) false w.mono w.sub
        pure (⟨v.tile, v.quant, v.seg, v.deltaQ, v.deltaLf, v.loopFilter, v.cdef, l, tx, rt,
          List.replicate 7 (0, [0, 0, 2 ^ 16, 0, 0, 2 ^ 16]), g⟩ : Hdr.Rest)) y := by
    intro y
    have e1 : decide (f'.primary = 7) = true := by rw [i8]; rfl
    have e2 : decide (f'.width = c'.upscaledWidth) = true := by rw [i5, i6, hun]; exact decide_eq_true rfl
    have e3 : modeBits w c' f' = pushB w.reducedTx := by
      unfold modeBits skipAllowed
      simp only [i1, if_true, Bool.true_or, cat_nil, Option.bind_eq_bind, Option.bind_some]
      rfl
    have e5 : encodeGlobalMotion w.gm c'.isIntra f'.highPrec = cat [] := by unfold encodeGlobalMotion; rw [i1]; rfl
    have e6 : decide ((sizeOf w.c w.f).coded = (sizeOf w.c w.f).width) = true := by rw [hun]; exact decide_eq_true rfl
    have e7 : backBits w c' f' = cat [encodeTileInfo { w.tile with width := w.f.width, height := w.f.height },
        encodeQuant w.quant w.planes w.sep, encodeSeg w.seg true, encodeDeltaQParams w.deltas w.quant.baseQIdx,
        encodeDeltaLfParams (deltaQAfter w.deltas w.quant.baseQIdx) false, encodeLoopFilter w.lf lossless w.planes,
        encodeCdef w.cdef lossless w.planes,
        encodeLrParams w.lr (lossless || false || w.enableRestoration) w.planes w.tile.use128 w.sub, encodeTxMode lossless w.txSelect,
        pushB w.reducedTx, cat [], encodeGrain w.grain ⟨c'.showFrame || c'.showable, decide (f'.type = .inter), w.mono, w.sub, w.grainRefs⟩] := by
      unfold backBits
      simp only [e1, e2, e3, e5, i9, he.encoder, Bool.and_true, Bool.or_false]
      simp only [i6, i7, hun]
    have e8 : ((frontView s w.c w.f).opening.shown || (frontView s w.c w.f).opening.showable) = (w.c.showFrame || w.c.showable) := by
      show (w.c.showFrame || (if w.c.showFrame then w.f.type.code != 0 else w.c.showable)) = _
      cases w.c.showFrame <;> simp
    have e9 : ((frontView s w.c w.f).opening.type == 1) = false := by
      show (w.f.type.code == 1) = false
      rcases hty with h | h <;> rw [h] <;> rfl
    have e10 : (c'.showFrame || c'.showable) = (w.c.showFrame || w.c.showable) := by
      rw [i2, i3]; cases w.c.showFrame <;> simp
    have e11 : decide (f'.type = .inter) = false := by
      rw [i10]; rcases hty with h | h <;> rw [h] <;> rfl
    rw [e7, e10, e11]
    unfold Hdr.rest
    rw [e8, e9, e6, hun]
    refine (writes_cons_iff he.tile).trans ((writes_cons_iff he.quant).trans ((writes_cons_iff he.seg).trans
      ((writes_cons_iff he.deltaQ).trans ((writes_cons_iff he.deltaLf).trans ?_))))
    rw [he.decoder]
    refine (writes_cons_iff he.loopFilter).trans ((writes_cons_iff he.cdef).trans ?_)
    rw [Bool.and_true, ha.restoration, ha.planes, ha.use128, ha.sub, ha.grain, ha.mono]
    exact Iff.rfl
  have hhead : Writes (some (raw ([false] ++ e1))) (Hdr.header s) (.inr (frontView s w.c w.f)) := by
    refine ⟨_, rfl, ?_⟩
    unfold Hdr.header
    rw [h.agrees.reduced, h.full]
    simp only [Bool.false_eq_true, if_false]
    refine (reads_flag false).bind ?_
    have := r1.bind (g := fun x => (pure (Sum.inr x) : P (Sum Hdr.Existing Hdr.Front))) (Reads.pure _)
    rw [List.append_nil] at this
    exact this
  have hbits : frameHeaderBits w = cat [some (raw ([false] ++ e1)), backBits w c' f'] := by
    unfold frameHeaderBits
    rw [hseen, h.full, hex, hhb, h1]
    simp only [Bool.false_eq_true, if_false, Bool.not_false, Bool.and_false, Option.bind_eq_bind, Option.bind_some, pushB]
    rw [h2]
    simp only [Option.bind_some]
    rw [Option.some.inj he1, raw_append, cat_cons, cat_single]
    rfl
  rw [hbits]
  have hinj : ∀ a b : Hdr.Rest, (Sum.inr (frontView s w.c w.f, a) : Sum Hdr.Existing (Hdr.Front × Hdr.Rest)) =
      Sum.inr (frontView s w.c w.f, b) → a = b := fun a b hab => (Prod.mk.inj (Sum.inr.inj hab)).2
  unfold Hdr.whole
  refine (writes_cons_iff hhead).trans ?_
  rw [cat_single]
  show Writes (backBits w c' f') (do
      let y ← Hdr.rest r (frontView s w.c w.f).opening (sizeOf w.c w.f) false
      pure (Sum.inr (frontView s w.c w.f, y))) x ↔ _
  constructor
  · rintro ⟨e, h3, h4⟩
    have h5 := h4 []
    obtain ⟨y, rfl⟩ : ∃ y, x = Sum.inr (frontView s w.c w.f, y) := by
      have h5 : (Hdr.rest r (frontView s w.c w.f).opening (sizeOf w.c w.f) false (e ++ [])).bind
        (fun y => some ((Sum.inr (frontView s w.c w.f, y.1) : Sum Hdr.Existing (Hdr.Front × Hdr.Rest)), y.2)) = some (x, []) := h5
      cases h6 : Hdr.rest r (frontView s w.c w.f).opening (sizeOf w.c w.f) false (e ++ []) with
      | none => rw [h6] at h5; exact absurd h5 (by simp)
      | some y =>
        rw [h6] at h5
        exact ⟨y.1, (congrArg Prod.fst (Option.some.inj h5)).symm⟩
    exact ⟨y, rfl, (hback y).1 ((writes_map_iff (g := fun y => (Sum.inr (frontView s w.c w.f, y) :
      Sum Hdr.Existing (Hdr.Front × Hdr.Rest))) hinj).1 ⟨e, h3, h4⟩)⟩
  · rintro ⟨y, rfl, hy⟩
    exact (writes_map_iff (g := fun y => (Sum.inr (frontView s w.c w.f, y) :
      Sum Hdr.Existing (Hdr.Front × Hdr.Rest))) hinj).2 ((hback y).2 hy)

/-- **C94, without film grain.** However well the sections before loop restoration are read, no intra frame of a sequence without
film grain, and no frame that is never shown, lossless or lossy, has a header that a decoder reads to its end and no further: not
one value is read back. -/
theorem C94_no_grain_never (s : Hdr.SeqInfo) (r : Hdr.SeqRest) (w : Whole) (lossless : Bool) (v : Hdr.Rest)
    (h : IntraOk s w.c w.f) (hoh : w.c.orderHints.length = 7) (hseen : w.c.seen = false)
    (hex : w.c.showExisting = false) (hhb : w.hintBits = 0) (ha : AgreesRest r w) (he : EarlierRead r w lossless v)
    (hp : w.planes = 1 ∨ w.planes = 3) (hg : w.grain = none ∨ (w.c.showFrame || w.c.showable) = false)
    (hgr : w.grainRefs.length = 8)
    (hrem : ∀ d, w.f.dmi = some d → d.removalPresent = true → ∀ o ∈ s.ops, Hdr.inLayers s o.1 = true → o.2 = true)
    (hsr : superresOn w.c w.f = false) (x : Sum Hdr.Existing (Hdr.Front × Hdr.Rest)) :
    ¬ Writes (frameHeaderBits w) (Hdr.whole s r) x := by
  have hty : w.f.type = .key ∨ w.f.type = .intraOnly := by
    have := h.intra
    revert this; cases w.f.type <;> simp [intraType]
  by_cases hk : w.f.type = .key ∧ w.c.showFrame = true
  · rintro ⟨e, h1, -⟩
    rw [C94_first_frame_panics w hoh hseen hex hk.1 hk.2] at h1
    exact absurd h1 (by simp)
  have hk : keyLike w.f.type w.c.showFrame = false := by
    revert hk
    rcases hty with h | h <;> rw [h] <;> cases w.c.showFrame <;> simp [keyLike]
  intro hx
  obtain ⟨y, -, hy⟩ := (header_tail s r w lossless v h hk hseen hex hhb ha he hrem hsr x).1 hx
  have e4 := (C88_extra_bit_never w.grain ⟨w.c.showFrame || w.c.showable, false, w.mono, w.sub, w.grainRefs⟩ hgr hg).1
  have e8 : Hdr.filmGrain w.grain.isSome (w.c.showFrame || w.c.showable) false w.mono w.sub = pure none := by
    have : (w.grain.isSome && (w.c.showFrame || w.c.showable)) = false := by
      rcases hg with hg | hg
      · rw [hg]; rfl
      · rw [hg, Bool.and_false]
    unfold Hdr.filmGrain
    rw [this]; rfl
  rw [e4, e8] at hy
  exact tail_never w.lr lossless lossless false w.enableRestoration w.txSelect w.reducedTx w.planes w.tile.use128 w.sub hp
    (fun l tx rt => (⟨v.tile, v.quant, v.seg, v.deltaQ, v.deltaLf, v.loopFilter, v.cdef, l, tx, rt,
      List.replicate 7 (0, [0, 0, 2 ^ 16, 0, 0, 2 ^ 16]), none⟩ : Hdr.Rest)) y hy

/-- A lossy 64x64 intra-only frame without film grain whose sections before loop restoration are all read back. -/
def coarseWhole : Whole := { losslessWhole with
  grain := none
  quant := ⟨100, 0, 0, 0, 0, 0, false, false, 0, 0, 0⟩
  currentQ := 100
  lf := lfSample
  cdef := cdefSample
  txSelect := true
  enableRestoration := true }
def coarseRest : Hdr.SeqRest := { losslessRest with filmGrain := false }
def coarseRead : Hdr.Rest where
  tile := (0, 0, none)
  quant := (quantAfter coarseWhole.quant 3 false).view
  seg := none
  deltaQ := (false, 0)
  deltaLf := (false, 0, false)
  loopFilter := some (lfSample.view 3)
  cdef := some ((cdefAfter cdefSample false 3).applied 3)
  lr := none
  txMode := .select
  reducedTx := false
  motion := []
  grain := none

theorem coarse_earlier : EarlierRead coarseRest coarseWhole false coarseRead where
  tile := C76_nonuniform_one_partial { coarseWhole.tile with width := 64, height := 64 } (oneLim) rfl oneTile_ok.lim (by decide) (by decide)
    rfl rfl rfl rfl
  quant := C78_quant_read_back coarseWhole.quant 3 false (by constructor <;> decide)
  seg := Writes.cons (writes_flag false) (Writes.skip (Writes.pure _))
  deltaQ := C81_q_partial coarseWhole.deltas 100 (Or.inr rfl)
  deltaLf := (C81_stale (deltaQAfter coarseWhole.deltas 100) false rfl).1
  loopFilter := C83_loop_filter_partial lfSample false false 3 lfSample_ok (fun _ _ => by decide)
  cdef := C84_cdef_partial cdefSample false false true 3 cdefSample_ok (Or.inl rfl)
  encoder := by decide +kernel
  decoder := by decide +kernel

example (x : Sum Hdr.Existing (Hdr.Front × Hdr.Rest)) : ¬ Writes (frameHeaderBits coarseWhole) (Hdr.whole losslessSeq coarseRest) x := by
  refine C94_no_grain_never losslessSeq coarseRest coarseWhole false coarseRead ?_ rfl rfl rfl rfl ?_ coarse_earlier (Or.inr rfl) (Or.inl rfl) rfl
    (by intro d hd; cases hd) rfl x
  · refine ⟨rfl, ?_, ?_, ⟨rfl, rfl, rfl, rfl, rfl, rfl⟩, rfl, ⟨rfl, rfl⟩, rfl, rfl, rfl, by decide⟩
    · constructor <;> first | rfl | decide
    · constructor
      · decide
      · intro d hd; cases hd
      all_goals decide
  · exact ⟨rfl, rfl, rfl, rfl, rfl, rfl, rfl, oneTile_ok.lim⟩

/-- The header itself is written: it is only of no use. -/
example : (frameHeaderBits coarseWhole).isSome = true := by decide +kernel

/-! ## C95: skip mode -/

/-- `best` over a list: the entry with the largest position below `c`, the first of them on ties; `none` if there is none. -/
def Nearest (pos : Nat → Int) (c : Int) (l : List Nat) : Option (Nat × Nat) → Prop
  | none => ∀ h ∈ l, ¬ pos h < c
  | some (i, h) => l[i]? = some h ∧ pos h < c ∧ (∀ h' ∈ l, pos h' < c → pos h' ≤ pos h) ∧
      ∀ (j : Nat), j < i → ∀ h', l[j]? = some h' → pos h' ≠ pos h

/-- The specification determines the choice. -/
theorem Nearest.unique {pos : Nat → Int} {c : Int} {l : List Nat} {a b : Option (Nat × Nat)} (h1 : Nearest pos c l a)
    (h2 : Nearest pos c l b) : a = b := by
  cases a with
  | none =>
    cases b with
    | none => rfl
    | some b => exact absurd h2.2.1 (h1 _ (List.mem_of_getElem? h2.1))
  | some a =>
    cases b with
    | none => exact absurd h1.2.1 (h2 _ (List.mem_of_getElem? h1.1))
    | some b =>
      obtain ⟨i, x⟩ := a
      obtain ⟨j, y⟩ := b
      have hxy : pos x = pos y := le_antisymm (h2.2.2.1 x (List.mem_of_getElem? h1.1) h1.2.1)
        (h1.2.2.1 y (List.mem_of_getElem? h2.1) h2.2.1)
      have hij : i = j := by
        rcases lt_trichotomy i j with h | h | h
        · exact absurd hxy (h2.2.2.2 i h x h1.1)
        · exact h
        · exact absurd hxy.symm (h1.2.2.2 j h y h2.1)
      subst hij
      have : some x = some y := h1.1.symm.trans h2.1
      simp at this
      rw [this]

/-- The better of the choice so far and the entry `x` at index `n`. -/
def nearer (pos : Nat → Int) (c : Int) (s : Option (Nat × Nat)) (n x : Nat) : Option (Nat × Nat) :=
  if pos x < c then (match s with
    | none => some (n, x)
    | some (_, y) => if pos x > pos y then some (n, x) else s) else s

/-- Adding one entry. -/
theorem Nearest.snoc {pos : Nat → Int} {c : Int} {l : List Nat} {s : Option (Nat × Nat)} (h : Nearest pos c l s) (x : Nat) :
    Nearest pos c (l ++ [x]) (nearer pos c s l.length x) := by
  unfold nearer
  have hmem : ∀ h', h' ∈ l ++ [x] ↔ h' ∈ l ∨ h' = x := by simp
  have hget : ∀ (i y : Nat), l[i]? = some y → (l ++ [x])[i]? = some y := by
    intro i y hi
    rw [List.getElem?_append_left (List.getElem?_eq_some_iff.1 hi).1]; exact hi
  have hget' : ∀ (j y : Nat), j < l.length → (l ++ [x])[j]? = some y → l[j]? = some y := by
    intro j y hj hy
    rwa [List.getElem?_append_left hj] at hy
  by_cases hx : pos x < c
  · rw [if_pos hx]
    cases s with
    | none =>
      refine ⟨by simp, hx, ?_, ?_⟩
      · intro h' hh hp
        rcases (hmem h').1 hh with hh | rfl
        · exact absurd hp (h h' hh)
        · exact le_refl _
      · intro j hj h' hh heq
        have := h h' (List.mem_of_getElem? (hget' j h' hj hh))
        rw [heq] at this; exact this hx
    | some a =>
      obtain ⟨i, y⟩ := a
      obtain ⟨h1, h2, h3, h4⟩ := h
      dsimp only
      by_cases hxy : pos x > pos y
      · rw [if_pos hxy]
        refine ⟨by simp, hx, ?_, ?_⟩
        · intro h' hh hp
          rcases (hmem h').1 hh with hh | rfl
          · exact (h3 h' hh hp).trans hxy.le
          · exact le_refl _
        · intro j hj h' hh heq
          have := h3 h' (List.mem_of_getElem? (hget' j h' hj hh)) (by rw [heq]; exact hx)
          omega
      · rw [if_neg hxy]
        refine ⟨hget i y h1, h2, ?_, ?_⟩
        · intro h' hh hp
          rcases (hmem h').1 hh with hh | rfl
          · exact h3 h' hh hp
          · omega
        · intro j hj h' hh
          exact h4 j hj h' (hget' j h' (by have := (List.getElem?_eq_some_iff.1 h1).1; omega) hh)
  · rw [if_neg hx]
    cases s with
    | none =>
      intro h' hh
      rcases (hmem h').1 hh with hh | rfl
      · exact h h' hh
      · exact hx
    | some a =>
      obtain ⟨i, y⟩ := a
      obtain ⟨h1, h2, h3, h4⟩ := h
      refine ⟨hget i y h1, h2, ?_, ?_⟩
      · intro h' hh hp
        rcases (hmem h').1 hh with hh | rfl
        · exact h3 h' hh hp
        · exact absurd hp hx
      · intro j hj h' hh
        exact h4 j hj h' (hget' j h' (by have := (List.getElem?_eq_some_iff.1 h1).1; omega) hh)

/-- Order hints that stand for positions: distances are differences. -/
def Positions (dist : Nat → Nat → Option Int) (pos : Nat → Int) (l : List Nat) : Prop :=
  ∀ a ∈ l, ∀ b ∈ l, dist a b = some (pos a - pos b)

theorem secondScan_spec (dist : Nat → Nat → Option Int) (pos : Nat → Int) (c : Nat) : ∀ (l pre : List Nat) (s : Option (Nat × Nat)),
    Positions dist pos (c :: (pre ++ l)) → Nearest pos (pos c) pre s →
    ∃ t, secondScan dist c s pre.length l = some t ∧ Nearest pos (pos c) (pre ++ l) t
  | [], pre, s, _, hs => ⟨s, rfl, by simpa using hs⟩
  | x :: l, pre, s, hp, hs => by
    have hx : x ∈ c :: (pre ++ x :: l) := by simp
    have hd := hp x hx c (by simp)
    obtain ⟨t, ht, hn⟩ := secondScan_spec dist pos c l (pre ++ [x]) _ (by simpa using hp) (hs.snoc x)
    refine ⟨t, ?_, by simpa using hn⟩
    rw [List.length_append, List.length_singleton] at ht
    rw [← ht]
    simp only [secondScan, hd, Option.bind_eq_bind, Option.bind_some, nearer]
    have hlt : (pos x - pos c < 0) ↔ pos x < pos c := by omega
    simp only [hlt]
    cases s with
    | none => split <;> rfl
    | some a =>
      obtain ⟨i, y⟩ := a
      have hy : y ∈ c :: (pre ++ x :: l) := by have := List.mem_of_getElem? hs.1; simp [this]
      have hgt : (pos x - pos y > 0) ↔ pos x > pos y := by omega
      simp only [hp x hx y hy, Option.bind_some, hgt]
      split <;> rfl

theorem skipScan_spec (dist : Nat → Nat → Option Int) (pos : Nat → Int) (c : Nat) : ∀ (l pre : List Nat) (s : SkipScan),
    Positions dist pos (c :: (pre ++ l)) → Nearest pos (pos c) pre s.fwd → Nearest (fun h => - pos h) (- pos c) pre s.bwd →
    ∃ t, skipScan dist c s pre.length l = some t ∧ Nearest pos (pos c) (pre ++ l) t.fwd ∧
      Nearest (fun h => - pos h) (- pos c) (pre ++ l) t.bwd
  | [], pre, s, _, h1, h2 => ⟨s, rfl, by simpa using h1, by simpa using h2⟩
  | x :: l, pre, s, hp, h1, h2 => by
    have hx : x ∈ c :: (pre ++ x :: l) := by simp
    have hd := hp x hx c (by simp)
    have hstep : skipStep dist c s pre.length x = some ⟨nearer pos (pos c) s.fwd pre.length x,
        nearer (fun h => - pos h) (- pos c) s.bwd pre.length x⟩ := by
      obtain ⟨sf, sb⟩ := s
      unfold skipStep nearer
      simp only [hd, Option.bind_eq_bind, Option.bind_some]
      have e1 : (pos x - pos c < 0) ↔ pos x < pos c := by omega
      have e2 : (pos x - pos c > 0) ↔ - pos x < - pos c := by omega
      simp only [e1, e2]
      by_cases ha : pos x < pos c
      · have hb : ¬ - pos x < - pos c := by omega
        simp only [ha, hb, if_true, if_false]
        cases sf with
        | none => rfl
        | some a =>
          obtain ⟨i, y⟩ := a
          have hy : y ∈ c :: (pre ++ x :: l) := by have := List.mem_of_getElem? h1.1; simp [this]
          have hgt : (pos x - pos y > 0) ↔ pos x > pos y := by omega
          simp only [hp x hx y hy, Option.bind_some, hgt]
          split <;> rfl
      · simp only [ha, if_false]
        by_cases hb : - pos x < - pos c
        · simp only [hb, if_true]
          cases sb with
          | none => rfl
          | some a =>
            obtain ⟨i, y⟩ := a
            have hy : y ∈ c :: (pre ++ x :: l) := by have := List.mem_of_getElem? h2.1; simp [this]
            have hgt : (pos x - pos y < 0) ↔ - pos x > - pos y := by omega
            simp only [hp x hx y hy, Option.bind_some, hgt]
            split <;> rfl
        · simp only [hb, if_false]
    obtain ⟨t, ht, hn1, hn2⟩ := skipScan_spec dist pos c l (pre ++ [x]) ⟨nearer pos (pos c) s.fwd pre.length x,
      nearer (fun h => - pos h) (- pos c) s.bwd pre.length x⟩ (by simpa using hp) (h1.snoc x) (h2.snoc x)
    refine ⟨t, ?_, by simpa using hn1, by simpa using hn2⟩
    rw [List.length_append, List.length_singleton] at ht
    rw [← ht]
    simp only [skipScan, hstep, Option.bind_eq_bind, Option.bind_some]

/-- **C95.** When the hints stand for positions, skip mode takes the nearest past reference, and the nearest future
reference or, if there is none, the nearest reference before the first; the lower reference comes first. Without a past
reference, or with only one and no future one, skip mode is not allowed. -/
theorem C95_skip_mode (dist : Nat → Nat → Option Int) (pos : Nat → Int) (cur : Nat) (hints : List Nat)
    (hp : Positions dist pos (cur :: hints)) (a b c : Option (Nat × Nat))
    (ha : Nearest pos (pos cur) hints a) (hb : Nearest (fun h => - pos h) (- pos cur) hints b)
    (hc : ∀ i h, a = some (i, h) → Nearest pos (pos h) hints c) :
    skipModeFrames dist cur hints = some (match a, b, c with
      | some (i, _), some (j, _), _ => some (1 + min i j, 1 + max i j)
      | some (i, _), none, some (k, _) => some (1 + min i k, 1 + max i k)
      | _, _, _ => none) := by
  obtain ⟨t, ht, h1, h2⟩ := skipScan_spec dist pos cur hints [] ⟨none, none⟩ (by simpa using hp)
    (by simp [Nearest]) (by simp [Nearest])
  simp only [List.nil_append, List.length_nil] at ht h1 h2
  obtain rfl := ha.unique h1
  obtain rfl := hb.unique h2
  unfold skipModeFrames
  simp only [ht, Option.bind_eq_bind, Option.bind_some]
  obtain ⟨tf, tb⟩ := t
  cases tf with
  | none => cases tb <;> cases c <;> rfl
  | some x =>
    obtain ⟨i, h⟩ := x
    cases tb with
    | some y => rfl
    | none =>
      have hmem : h ∈ hints := List.mem_of_getElem? h1.1
      obtain ⟨u, hu, hn⟩ := secondScan_spec dist pos h hints [] none
        (by intro x hx y hy; exact hp x (by rcases List.mem_cons.1 hx with rfl | hx <;> simp_all) y (by rcases List.mem_cons.1 hy with rfl | hy <;> simp_all))
        (by simp [Nearest])
      simp only [List.nil_append, List.length_nil] at hu hn
      obtain rfl := (hc i h rfl).unique hn
      simp only [hu, Option.bind_some]
      cases c <;> rfl

/-- The distance of C37 gives positions for all frames within half a cycle of each other. -/
theorem C95_positions (bits base : Nat) (hb : 0 < bits) (hb' : bits < 64) (l : List Nat)
    (hl : ∀ h ∈ l, ((h : Int) - base) % 2 ^ bits < 2 ^ (bits - 1)) :
    Positions (fun a b => getRelativeDist a b true bits) (fun h => ((h : Int) - base) % 2 ^ bits) l := by
  intro a ha b hb''
  obtain ⟨⟨d, hd, hw, -⟩, -⟩ := C37_relative_dist a b bits hb hb'
  dsimp only
  rw [hd]
  congr 1
  have hpos : (0 : Int) < 2 ^ bits := by positivity
  refine wrapDist_unique hb hw ⟨⟨((b : Int) - base) / 2 ^ bits - ((a : Int) - base) / 2 ^ bits, ?_⟩, ?_, ?_⟩
  · have h1 := Int.emod_add_mul_ediv ((a : Int) - base) (2 ^ bits)
    have h2 := Int.emod_add_mul_ediv ((b : Int) - base) (2 ^ bits)
    linarith
  · have h1 := Int.emod_nonneg ((a : Int) - base) hpos.ne'
    have h2 := hl b hb''
    linarith
  · have h1 := hl a ha
    have h2 := Int.emod_nonneg ((b : Int) - base) hpos.ne'
    linarith

/-- **C95**, on the wire: in an inter frame that may select its reference mode, `skip_mode_present` is written exactly when
there are two references for it. -/
theorem C95_written (w : Whole) (x : HCtx) (f : HFrame) (hints : List Nat) (pos : Nat → Int) (a b c : Option (Nat × Nat))
    (hi : x.isIntra = false) (hs : w.refSelect = true) (ho : x.enableOrderHint = true)
    (hh : f.refIdx.mapM (x.refHint[·]?) = some hints)
    (hp : Positions (fun p q => getRelativeDist p q true w.ctxHintBits) pos (f.orderHint :: hints))
    (ha : Nearest pos (pos f.orderHint) hints a) (hb : Nearest (fun h => - pos h) (- pos f.orderHint) hints b)
    (hc : ∀ i h, a = some (i, h) → Nearest pos (pos h) hints c) :
    modeBits w x f = some (1 :: ((if a.isSome && (b.isSome || c.isSome) then [w.skipPresent.toNat] else []) ++
      ((if f.errRes || !w.enableWarped then [] else [w.allowWarped.toNat]) ++ [w.reducedTx.toNat]))) := by
  have h := C95_skip_mode _ pos f.orderHint hints hp a b c ha hb hc
  have hsk : skipAllowed w x f = some (a.isSome && (b.isSome || c.isSome)) := by
    unfold skipAllowed refSelectAfter
    simp only [hi, hs, ho, hh, Option.bind_eq_bind, Option.bind_some]
    simp only [Bool.false_or, if_false, Bool.not_true, Bool.false_eq_true, h, Option.bind_some, Bool.or_self]
    rcases a with _ | ⟨i, u⟩ <;> rcases b with _ | ⟨j, v⟩ <;> rcases c with _ | ⟨k, t⟩ <;> rfl
  unfold modeBits
  rw [hsk, hi, hs]
  generalize (a.isSome && (b.isSome || c.isSome)) = al
  cases al <;> cases f.errRes <;> cases w.enableWarped <;> rfl

example : skipModeFrames (fun a b => getRelativeDist a b true 4) 3 [1, 15, 2, 14, 5, 4, 5] = some (some (3, 6)) ∧
    skipModeFrames (fun a b => getRelativeDist a b true 4) 3 [1, 15, 2, 14, 1, 1, 1] = some (some (1, 3)) ∧
    skipModeFrames (fun a b => getRelativeDist a b true 4) 3 [3, 5, 3, 6, 5, 4, 5] = some none := by decide

/-! ### Lossy frames -/

theorem P.bind_some {α β : Type} {p : P α} {g : α → P β} {i r : Bits} {b : β} (h : (p >>= g) i = some (b, r)) :
    ∃ a s, p i = some (a, s) ∧ g a s = some (b, r) := by
  have h : (p i).bind (fun y => g y.1 y.2) = some (b, r) := h
  cases hp : p i with
  | none => rw [hp] at h; exact absurd h (by simp)
  | some y => rw [hp] at h; exact ⟨y.1, y.2, rfl, h⟩

theorem P.pure_some {α : Type} {i r : Bits} {a b : α} (h : (pure a : P α) i = some (b, r)) : a = b ∧ i = r := by
  have h : some (a, i) = some (b, r) := h
  simpa using h

/-- Reading a value takes a number of bits that depends on the value only. -/
def Costs {α : Type} (p : P α) (c : α → Nat) : Prop := ∀ i v r, p i = some (v, r) → i.length = c v + r.length

theorem costs_flag : Costs P.flag fun _ => 1 := by
  intro i v r h
  cases i with
  | nil => exact absurd h (by simp [P.flag])
  | cons b t =>
    have h : some (b, t) = some (v, r) := h
    simp only [Option.some.injEq, Prod.mk.injEq] at h
    simp [h.2]; omega

theorem costs_f (n : Nat) : Costs (P.f n) fun _ => n := by
  intro i v r h
  unfold P.f at h
  split at h
  · exact absurd h (by simp)
  · simp only [Option.some.injEq, Prod.mk.injEq] at h
    rw [← h.2, List.length_drop]; beta_reduce; omega

theorem costs_pure {α : Type} (a : α) : Costs (pure a) fun _ => 0 := by
  intro i v r h
  rw [(P.pure_some h).2]; beta_reduce; omega

theorem costs_many {α : Type} {p : P α} {k : Nat} (h : Costs p fun _ => k) (n : Nat) : Costs (P.many n p) fun l => k * l.length := by
  induction n with
  | zero =>
    intro i v r h
    obtain ⟨rfl, rfl⟩ := P.pure_some h
    simp
  | succ n ih =>
    intro i v r hr
    obtain ⟨x, s, h1, h2⟩ := P.bind_some hr
    obtain ⟨xs, s', h3, h4⟩ := P.bind_some h2
    obtain ⟨rfl, rfl⟩ := P.pure_some h4
    have e1 := h _ _ _ h1
    have e2 := ih _ _ _ h3
    simp only [List.length_cons] at *
    rw [Nat.mul_add]; omega

theorem costs_points : Costs Hdr.points fun l => 4 + 16 * l.length := by
  intro i v r h
  obtain ⟨n, s, h1, h2⟩ := P.bind_some h
  have e1 := costs_f 4 _ _ _ h1
  have hk : Costs (do
      let v ← P.f 8
      let s ← P.f 8
      pure (v, s) : P (Nat × Nat)) fun _ => 16 := by
    intro i v r h
    obtain ⟨a, s, h1, h2⟩ := P.bind_some h
    obtain ⟨b, s', h3, h4⟩ := P.bind_some h2
    have e1 := costs_f 8 _ _ _ h1
    have e2 := costs_f 8 _ _ _ h3
    rw [(P.pure_some h4).2] at e2
    beta_reduce at *
    omega
  have e2 := costs_many hk n _ _ _ h2
  beta_reduce at *
  omega

theorem costs_coeff : Costs Hdr.coeff fun _ => 8 := by
  intro i v r h
  obtain ⟨n, s, h1, h2⟩ := P.bind_some h
  have e1 := costs_f 8 _ _ _ h1
  rw [(P.pure_some h2).2] at e1
  exact e1

theorem costs_mult (b : Bool) : Costs (P.opt b Hdr.mult) fun o => if o.isSome then 25 else 0 := by
  intro i v r h
  cases b with
  | false =>
    obtain ⟨rfl, rfl⟩ := P.pure_some h
    simp
  | true =>
    obtain ⟨n, s, h1, h2⟩ := P.bind_some h
    obtain ⟨rfl, rfl⟩ := P.pure_some h2
    obtain ⟨a, s1, h3, h4⟩ := P.bind_some h1
    obtain ⟨b, s2, h5, h6⟩ := P.bind_some h4
    obtain ⟨c, s3, h7, h8⟩ := P.bind_some h6
    have e1 := costs_f 8 _ _ _ h3
    have e2 := costs_f 8 _ _ _ h5
    have e3 := costs_f 9 _ _ _ h7
    rw [(P.pure_some h8).2] at e3
    simp only [Option.isSome_some, if_true]
    beta_reduce at *
    omega

theorem costs_ite {α : Type} {b : Bool} {p : P (List α)} {k : Nat} (h : Costs p fun l => k * l.length) :
    Costs (if b then p else pure []) fun l => k * l.length := by
  cases b with
  | true => exact h
  | false => intro i v r h; obtain ⟨rfl, rfl⟩ := P.pure_some h; simp

theorem costs_ite' {α : Type} {b : Bool} {p : P (List α)} {k : Nat} (h : Costs p fun l => k * l.length) :
    Costs (if b then pure [] else p) fun l => k * l.length := by
  cases b with
  | false => exact h
  | true => intro i v r h; obtain ⟨rfl, rfl⟩ := P.pure_some h; simp

/-- The bits of film grain parameters. -/
def grainCost (mono sub : Bool) (p : Hdr.GrainParams) : Nat :=
  4 + 16 * p.y.length + (if mono then 0 else 1) +
  (if mono || p.fromLuma || (sub && p.y.isEmpty) then 0 else 8 + 16 * p.cb.length + 16 * p.cr.length) + 4 +
  8 * p.arY.length + 8 * p.arCb.length + 8 * p.arCr.length + 4 + (if p.cbMult.isSome then 25 else 0) +
  (if p.crMult.isSome then 25 else 0) + 2

theorem costs_grainParams (mono sub : Bool) : Costs (Hdr.grainParams mono sub) (grainCost mono sub) := by
  intro i v r h
  unfold Hdr.grainParams at h
  obtain ⟨y, s1, h1, h⟩ := P.bind_some h
  obtain ⟨fl, s2, h2, h⟩ := P.bind_some h
  obtain ⟨c, s3, h3, h⟩ := P.bind_some h
  obtain ⟨s, s4, h4, h⟩ := P.bind_some h
  obtain ⟨lag, s5, h5, h⟩ := P.bind_some h
  obtain ⟨ay, s6, h6, h⟩ := P.bind_some h
  obtain ⟨acb, s7, h7, h⟩ := P.bind_some h
  obtain ⟨acr, s8, h8, h⟩ := P.bind_some h
  obtain ⟨sh, s9, h9, h⟩ := P.bind_some h
  obtain ⟨ss, s10, h10, h⟩ := P.bind_some h
  obtain ⟨mcb, s11, h11, h⟩ := P.bind_some h
  obtain ⟨mcr, s12, h12, h⟩ := P.bind_some h
  obtain ⟨ov, s13, h13, h⟩ := P.bind_some h
  obtain ⟨cl, s14, h14, h⟩ := P.bind_some h
  obtain ⟨rfl, rfl⟩ := P.pure_some h
  have e1 := costs_points _ _ _ h1
  have e2 : s1.length = (if mono then 0 else 1) + s2.length := by
    cases mono with
    | true => exact costs_pure _ _ _ _ h2
    | false => exact costs_flag _ _ _ h2
  have e3 : s2.length = (if mono || fl || (sub && y.isEmpty) then 0 else 8 + 16 * c.1.length + 16 * c.2.length) + s3.length := by
    cases hb : (mono || fl || (sub && y.isEmpty)) with
    | true => rw [hb] at h3; exact costs_pure _ _ _ _ h3
    | false =>
      rw [hb] at h3
      obtain ⟨cb, t1, g1, g2⟩ := P.bind_some h3
      obtain ⟨cr, t2, g3, g4⟩ := P.bind_some g2
      obtain ⟨rfl, rfl⟩ := P.pure_some g4
      have f1 := costs_points _ _ _ g1
      have f2 := costs_points _ _ _ g3
      simp only [Bool.false_eq_true, if_false]
      beta_reduce at *
      omega
  have e4 := costs_f 2 _ _ _ h4
  have e5 := costs_f 2 _ _ _ h5
  have e6 := costs_ite' (costs_many costs_coeff _) _ _ _ h6
  have e7 := costs_ite (costs_many costs_coeff _) _ _ _ h7
  have e8 := costs_ite (costs_many costs_coeff _) _ _ _ h8
  have e9 := costs_f 2 _ _ _ h9
  have e10 := costs_f 2 _ _ _ h10
  have e11 := costs_mult _ _ _ _ h11
  have e12 := costs_mult _ _ _ _ h12
  have e13 := costs_flag _ _ _ h13
  have e14 := costs_flag _ _ _ h14
  simp only [grainCost] at *
  omega

/-- The bits of the film grain section of an intra frame. -/
def grainSectionCost (mono sub : Bool) : Option (Nat × (Nat ⊕ Hdr.GrainParams)) → Nat
  | none => 1
  | some (_, .inl _) => 20
  | some (_, .inr p) => 17 + grainCost mono sub p

theorem costs_filmGrain (mono sub : Bool) : Costs (Hdr.filmGrain true true false mono sub) (grainSectionCost mono sub) := by
  intro i v r h
  obtain ⟨b, s1, h1, h⟩ := P.bind_some h
  have e1 := costs_flag _ _ _ h1
  cases b with
  | false =>
    obtain ⟨rfl, rfl⟩ := P.pure_some h
    exact e1
  | true =>
    obtain ⟨a, s2, h2, h⟩ := P.bind_some h
    obtain ⟨rfl, rfl⟩ := P.pure_some h
    obtain ⟨seed, s3, h3, h⟩ := P.bind_some h2
    have e3 := costs_f 16 _ _ _ h3
    obtain ⟨up, s4, h4, h⟩ := P.bind_some h
    obtain ⟨rfl, rfl⟩ := P.pure_some h4
    obtain ⟨p, s5, h5, h⟩ := P.bind_some h
    obtain ⟨rfl, rfl⟩ := P.pure_some h
    have e5 := costs_grainParams _ _ _ _ _ h5
    simp only [grainSectionCost]
    beta_reduce at *
    omega

/-- A reader does not give back more bits than it was given. -/
def Shrinks {α : Type} (p : P α) : Prop := ∀ i v r, p i = some (v, r) → r.length ≤ i.length

theorem Costs.shrinks {α : Type} {p : P α} {c : α → Nat} (h : Costs p c) : Shrinks p := fun i v r hr => by
  have := h i v r hr; omega

theorem shrinks_bind {α β : Type} {p : P α} {g : α → P β} (hp : Shrinks p) (hg : ∀ a, Shrinks (g a)) : Shrinks (p >>= g) := by
  intro i v r h
  obtain ⟨a, s, h1, h2⟩ := P.bind_some h
  exact Nat.le_trans (hg a _ _ _ h2) (hp _ _ _ h1)

theorem shrinks_opt {α : Type} {p : P α} (b : Bool) (hp : Shrinks p) : Shrinks (P.opt b p) := by
  cases b with
  | false => exact (costs_pure _).shrinks
  | true => exact shrinks_bind hp fun a => (costs_pure _).shrinks

theorem shrinks_unitShift (use128 : Bool) : Shrinks (Hdr.unitShift use128) := by
  refine shrinks_bind (costs_f 1).shrinks fun a => ?_
  cases use128
  · simp only [Bool.false_eq_true, if_false]
    split
    · exact shrinks_bind (costs_f 1).shrinks fun b => (costs_pure _).shrinks
    · exact (costs_pure _).shrinks
  · exact (costs_pure _).shrinks

theorem lr_reads (planes : Nat) (use128 sub : Bool) (hp : planes = 1 ∨ planes = 3) (i : Bits)
    (v : Option (List Hdr.Restoration × Option (Nat × Nat))) (r : Bits)
    (h : Hdr.lrParams false false true planes use128 sub i = some (v, r)) : r.length < i.length := by
  obtain ⟨x, s, h1, h2⟩ := P.bind_some (show (Hdr.lr planes use128 sub >>= fun x => pure (some x)) i = some (v, r) from h)
  obtain ⟨-, rfl⟩ := P.pure_some h2
  obtain ⟨ts, s2, h3, h4⟩ := P.bind_some h1
  have e1 : 2 ≤ 2 * ts.length := by
    rcases hp with rfl | rfl
    · obtain ⟨a, t1, g1, g2⟩ := P.bind_some h3
      obtain ⟨b, t2, g3, g4⟩ := P.bind_some g2
      obtain ⟨rfl, -⟩ := P.pure_some g4
      simp
    · obtain ⟨a, t1, g1, g2⟩ := P.bind_some h3
      obtain ⟨b, t2, g3, g4⟩ := P.bind_some g2
      obtain ⟨rfl, -⟩ := P.pure_some g4
      simp
  have e2 := costs_many (costs_f 2) planes _ _ _ h3
  obtain ⟨o, s3, h5, h6⟩ := P.bind_some h4
  obtain ⟨-, rfl⟩ := P.pure_some h6
  have e3 := shrinks_opt _ (shrinks_bind (shrinks_unitShift use128) fun a => shrinks_bind (by
    split
    · exact (costs_f 1).shrinks
    · exact (costs_pure _).shrinks) fun b => (costs_pure _).shrinks) _ _ _ h5
  beta_reduce at *
  omega

/-- **C94, lossy frames.** However well the sections before loop restoration are read, the header of a lossy intra frame with film
grain is never read back: whatever value a decoder reads, if it reads to the end of the header and no further the film grain
parameters are not those of the frame. -/
theorem C94_lossy_never (s : Hdr.SeqInfo) (r : Hdr.SeqRest) (w : Whole) (g : Grain) (v : Hdr.Rest)
    (h : IntraOk s w.c w.f) (hoh : w.c.orderHints.length = 7) (hseen : w.c.seen = false)
    (hex : w.c.showExisting = false) (hhb : w.hintBits = 0) (ha : AgreesRest r w) (he : EarlierRead r w false v)
    (hp : w.planes = 1 ∨ w.planes = 3) (hg : w.grain = some g) (hgo : g.Ok) (hgr : w.grainRefs.length = 8)
    (hs : (w.c.showFrame || w.c.showable) = true)
    (hrem : ∀ d, w.f.dmi = some d → d.removalPresent = true → ∀ o ∈ s.ops, Hdr.inLayers s o.1 = true → o.2 = true)
    (hsr : superresOn w.c w.f = false) (fr : Hdr.Front) (y : Hdr.Rest) (hy : y.grain = grainAsked w.grain true false w.mono w.sub) :
    ¬ Writes (frameHeaderBits w) (Hdr.whole s r) (.inr (fr, y)) := by
  have hty : w.f.type = .key ∨ w.f.type = .intraOnly := by
    have := h.intra
    revert this; cases w.f.type <;> simp [intraType]
  by_cases hk : w.f.type = .key ∧ w.c.showFrame = true
  · rintro ⟨e, h1, -⟩
    rw [C94_first_frame_panics w hoh hseen hex hk.1 hk.2] at h1
    exact absurd h1 (by simp)
  have hk : keyLike w.f.type w.c.showFrame = false := by
    revert hk
    rcases hty with h | h <;> rw [h] <;> cases w.c.showFrame <;> simp [keyLike]
  intro hx
  obtain ⟨y', hyy, hw⟩ := (header_tail s r w false v h hk hseen hex hhb ha he hrem hsr _).1 hx
  obtain rfl := (Prod.mk.inj (Sum.inr.inj hyy)).2
  obtain ⟨eg, heg, hrg⟩ : Writes (encodeGrain w.grain ⟨true, false, w.mono, w.sub, w.grainRefs⟩)
      (Hdr.filmGrain true true false w.mono w.sub) (grainAsked w.grain true false w.mono w.sub) := by
    rw [hg]
    exact C88_read_back_partial g ⟨true, false, w.mono, w.sub, w.grainRefs⟩ hgo hgr rfl
  have hge := costs_filmGrain w.mono w.sub _ _ _ (hrg [])
  rw [hs, heg, show w.grain.isSome = true from by rw [hg]; rfl] at hw
  obtain ⟨e, he1, he2⟩ := hw
  obtain ⟨a, hla, hlen⟩ : ∃ a, encodeLrParams w.lr (false || false || w.enableRestoration) w.planes w.tile.use128 w.sub = some a ∧
      e.length = a.length + 2 + eg.length := by
    cases hla : encodeLrParams w.lr (false || false || w.enableRestoration) w.planes w.tile.use128 w.sub with
    | none => rw [hla] at he1; exact absurd he1 (by simp [cat_cons])
    | some a =>
      refine ⟨a, rfl, ?_⟩
      rw [hla] at he1
      simp [cat_cons, cat_nil, encodeTxMode, pushB] at he1
      have := congrArg List.length he1
      simp [raw] at this
      omega
  obtain ⟨l, s1, h1, h2⟩ := P.bind_some (he2 [])
  obtain ⟨tx, s2, h3, h4⟩ := P.bind_some h2
  obtain ⟨rt, s3, h5, h6⟩ := P.bind_some h4
  obtain ⟨gr, s4, h7, h8⟩ := P.bind_some h6
  obtain ⟨rfl, rfl⟩ := P.pure_some h8
  have c2 : s1.length = 1 + s2.length := by
    obtain ⟨b, t, g1, g2⟩ := P.bind_some (show (P.flag >>= fun b => pure (if b then Hdr.TxMode.select else .largest)) s1 = some (tx, s2) from h3)
    obtain ⟨-, rfl⟩ := P.pure_some g2
    exact costs_flag _ _ _ g1
  have c3 := costs_flag _ _ _ h5
  have c4 := costs_filmGrain w.mono w.sub _ _ _ h7
  have hy : gr = grainAsked w.grain true false w.mono w.sub := hy
  rw [hy] at c4
  simp only [List.append_nil, List.length_nil] at *
  cases hE : w.enableRestoration with
  | true =>
    rw [hE] at hla h1
    have : a = [] := (Option.some.inj hla).symm
    subst this
    have := lr_reads _ _ _ hp _ _ _ h1
    simp only [List.length_nil] at hlen
    omega
  | false =>
    rw [hE] at hla h1
    have c1 := costs_pure _ _ _ _ h1
    have : a ≠ [] := by
      rintro rfl
      exact C85_never w.lr false w.planes w.tile.use128 w.sub hp none (by
        rw [hla]
        exact Writes.pure none)
    have : a.length ≠ 0 := by simpa using this
    beta_reduce at *
    omega

/-- The lossy frame of the example above with film grain. -/
theorem grain_earlier : EarlierRead losslessRest { coarseWhole with grain := some grainSample } false coarseRead :=
  ⟨coarse_earlier.tile, coarse_earlier.quant, coarse_earlier.seg, coarse_earlier.deltaQ, coarse_earlier.deltaLf, coarse_earlier.loopFilter,
    coarse_earlier.cdef, coarse_earlier.encoder, coarse_earlier.decoder⟩

example (fr : Hdr.Front) (y : Hdr.Rest) (hy : y.grain = grainAsked (some grainSample) true false false true) :
    ¬ Writes (frameHeaderBits { coarseWhole with grain := some grainSample }) (Hdr.whole losslessSeq losslessRest) (.inr (fr, y)) := by
  refine C94_lossy_never losslessSeq losslessRest { coarseWhole with grain := some grainSample } grainSample coarseRead ?_ rfl rfl rfl rfl
    ?_ grain_earlier (Or.inr rfl) rfl grainSample_ok rfl rfl (by intro d hd; cases hd) rfl fr y hy
  · refine ⟨rfl, ?_, ?_, ⟨rfl, rfl, rfl, rfl, rfl, rfl⟩, rfl, ⟨rfl, rfl⟩, rfl, rfl, rfl, by decide⟩
    · constructor <;> first | rfl | decide
    · constructor
      · decide
      · intro d hd; cases hd
      all_goals decide
  · exact ⟨rfl, rfl, rfl, rfl, rfl, rfl, rfl, oneTile_ok.lim⟩

/-- What a decoder should read of an intra frame whose sections before loop restoration it reads as `v`; `lr` is what it should
read of loop restoration. -/
def rightRest (w : Whole) (v : Hdr.Rest) (lossless : Bool) (lr : Option (List Hdr.Restoration × Option (Nat × Nat))) : Hdr.Rest :=
  { v with
    lr := lr
    txMode := if lossless then .only4x4 else if w.txSelect then .select else .largest
    reducedTx := w.reducedTx
    motion := List.replicate 7 (0, [0, 0, 2 ^ 16, 0, 0, 2 ^ 16])
    grain := grainAsked w.grain (w.c.showFrame || w.c.showable) false w.mono w.sub }

/-- **C94, exactly when.** Of the intra frames whose sections before loop restoration are read back, without super-resolution and
order hints, the header is read back if and only if the frame is no shown key frame, is lossless, is shown at some time, and the
sequence has film grain. -/
theorem C94_iff (s : Hdr.SeqInfo) (r : Hdr.SeqRest) (w : Whole) (lossless : Bool) (v : Hdr.Rest)
    (h : IntraOk s w.c w.f) (hoh : w.c.orderHints.length = 7) (hseen : w.c.seen = false)
    (hex : w.c.showExisting = false) (hhb : w.hintBits = 0) (ha : AgreesRest r w) (he : EarlierRead r w lossless v)
    (hp : w.planes = 1 ∨ w.planes = 3) (hgo : ∀ g, w.grain = some g → g.Ok) (hgr : w.grainRefs.length = 8)
    (hrem : ∀ d, w.f.dmi = some d → d.removalPresent = true → ∀ o ∈ s.ops, Hdr.inLayers s o.1 = true → o.2 = true)
    (hsr : superresOn w.c w.f = false) (lr : Option (List Hdr.Restoration × Option (Nat × Nat)))
    (hlr : lossless = true → lr = none) :
    Writes (frameHeaderBits w) (Hdr.whole s r) (.inr (frontView s w.c w.f, rightRest w v lossless lr)) ↔
      (w.c.showFrame = true → w.f.type ≠ .key) ∧ lossless = true ∧ (w.c.showFrame || w.c.showable) = true ∧ w.grain.isSome = true := by
  have hty : w.f.type = .key ∨ w.f.type = .intraOnly := by
    have := h.intra
    revert this; cases w.f.type <;> simp [intraType]
  constructor
  · intro hx
    refine ⟨?_, ?_, ?_, ?_⟩
    · intro hs hk
      obtain ⟨e, h1, -⟩ := hx
      rw [C94_first_frame_panics w hoh hseen hex hk hs] at h1
      exact absurd h1 (by simp)
    · cases lossless with
      | true => rfl
      | false =>
        exfalso
        cases hg : w.grain with
        | none => exact C94_no_grain_never s r w false v h hoh hseen hex hhb ha he hp (Or.inl hg) hgr hrem hsr _ hx
        | some g =>
          cases hs : (w.c.showFrame || w.c.showable) with
          | false => exact C94_no_grain_never s r w false v h hoh hseen hex hhb ha he hp (Or.inr hs) hgr hrem hsr _ hx
          | true =>
            refine C94_lossy_never s r w g v h hoh hseen hex hhb ha he hp hg (hgo g hg) hgr hs hrem hsr _ _ ?_ hx
            show grainAsked w.grain (w.c.showFrame || w.c.showable) false w.mono w.sub = _
            rw [hs]
    · cases hs : (w.c.showFrame || w.c.showable) with
      | false => exact absurd hx (C94_no_grain_never s r w lossless v h hoh hseen hex hhb ha he hp (Or.inr hs) hgr hrem hsr _)
      | true => rfl
    · cases hg : w.grain with
      | none => exact absurd hx (C94_no_grain_never s r w lossless v h hoh hseen hex hhb ha he hp (Or.inl hg) hgr hrem hsr _)
      | some g => rfl
  · rintro ⟨h1, rfl, h2, h3⟩
    have hk : keyLike w.f.type w.c.showFrame = false := by
      revert h1
      rcases hty with h | h <;> rw [h] <;> cases w.c.showFrame <;> simp [keyLike]
    obtain ⟨g, hg⟩ : ∃ g, w.grain = some g := Option.isSome_iff_exists.1 h3
    refine (header_tail s r w true v h hk hseen hex hhb ha he hrem hsr _).2 ⟨_, rfl, ?_⟩
    unfold rightRest
    rw [hlr rfl, h2]
    have t8 := C85_off_partial w.lr true false w.enableRestoration w.planes w.tile.use128 w.sub rfl
    have t9 : Writes (encodeTxMode true w.txSelect) (Hdr.txMode true) .only4x4 := C82_tx_mode true w.txSelect
    have t12 : Writes (encodeGrain w.grain ⟨true, false, w.mono, w.sub, w.grainRefs⟩)
        (Hdr.filmGrain w.grain.isSome true false w.mono w.sub) (grainAsked w.grain true false w.mono w.sub) := by
      rw [hg]
      exact C88_read_back_partial g ⟨true, false, w.mono, w.sub, w.grainRefs⟩ (hgo g hg) hgr rfl
    exact Writes.cons t8 (Writes.cons t9 (Writes.cons (writes_flag _) (Writes.skip (Writes.last (Writes.map
      (fun x => (⟨v.tile, v.quant, v.seg, v.deltaQ, v.deltaLf, v.loopFilter, v.cdef, none, .only4x4, w.reducedTx,
        List.replicate 7 (0, [0, 0, 2 ^ 16, 0, 0, 2 ^ 16]), x⟩ : Hdr.Rest)) t12)))))

/-- Both sides occur: the lossless frame of the example above is read back, the lossy one is not. -/
example : ¬ Writes (frameHeaderBits { coarseWhole with grain := some grainSample }) (Hdr.whole losslessSeq losslessRest)
    (.inr (frontView losslessSeq losslessCtx losslessFrame, rightRest { coarseWhole with grain := some grainSample } coarseRead false
      (some ([.none, .none, .none], none)))) := by
  intro hx
  have := (C94_iff losslessSeq losslessRest { coarseWhole with grain := some grainSample } false coarseRead ?_ rfl rfl rfl rfl
    ?_ grain_earlier (Or.inr rfl) (fun g hg => by cases hg; exact grainSample_ok) rfl (by intro d hd; cases hd) rfl _ (by simp)).1 hx
  · exact absurd this.2.1 (by decide)
  · refine ⟨rfl, ?_, ?_, ⟨rfl, rfl, rfl, rfl, rfl, rfl⟩, rfl, ⟨rfl, rfl⟩, rfl, rfl, rfl, by decide⟩
    · constructor <;> first | rfl | decide
    · constructor
      · decide
      · intro d hd; cases hd
      all_goals decide
  · exact ⟨rfl, rfl, rfl, rfl, rfl, rfl, rfl, oneTile_ok.lim⟩

end Av1
