import Verif.Spec.Announced
import Verif.Props.Stream

/-! # C114: frame headers against the sequence header that announces them -/

namespace Av1

/-- Every field the frame header has in common with the sequence header is as `encode_obu_payload` leaves it after `sh`. -/
def Follows (sh : SeqHeader) (sc : SeqCtx) (w : Whole) : Prop := share (seqAfter sh sc).2 w = w

/-- It does so right after the call, and for any frame loaded without touching those fields. -/
theorem follows_share (sh : SeqHeader) (sc : SeqCtx) (w : Whole) : Follows sh sc (share (seqAfter sh sc).2 w) := rfl

theorem follows_payload {φ τ : Type} (io : FrameIO φ τ) (e e' : EncState τ) (sh : SeqHeader) (b : Raw)
    (h : encodePayload io e (.sequence sh) = some (b, e')) :
    Follows sh { e.sc with filmGrain := e.w.grain.isSome } e'.w ∧ encodeSeqHeader sh { e.sc with filmGrain := e.w.grain.isSome } = some b ∧
      e'.w.grain = e.w.grain ∧ e'.w.planes = e.w.planes ∧ e'.w.c.idsPresent = e.w.c.idsPresent := by
  simp only [encodePayload, Option.bind_eq_bind] at h
  obtain ⟨x, hx, h⟩ := Option.bind_eq_some_iff.1 h
  simp only [Option.some.injEq, Prod.mk.injEq] at h
  rw [← h.2, ← h.1]
  exact ⟨rfl, hx, rfl, rfl, rfl⟩

section
variable (sh : SeqHeader) (sc : SeqCtx)

theorem view_model : ((seqView sh sc).timing.bind (·.decoderModel)).map (fun d => (d.removalDelayLength, d.presentationDelayLength)) =
    (dmiAfter sh sc).map fun d => (d.bufferRemovalDelayLength, d.framePresentationDelayLength) := by
  unfold seqView dmiAfter
  cases timingAfter sc with
  | none => rfl
  | some t => cases hd : sh.decoderModel <;> simp [timingView, hd, DecoderModelInfo.view]

theorem view_equal : ((seqView sh sc).timing.bind (·.ticksPerPicture)).isSome =
    (match (seqAfter sh sc).2.timing with | some t => t.equalPictureInterval | none => false) := by
  rw [after_timing]
  unfold seqView
  cases timingAfter sc with
  | none => rfl
  | some t => cases ht : t.equalPictureInterval <;> simp [timingView, ht]

theorem view_sct : (match (seqView sh sc).tools with | some t => t.screenContent | none => 2) = (seqAfter sh sc).2.forceSct := by
  unfold seqView seqAfter
  cases sc.reduced with
  | true => rfl
  | false => cases sh.chooseSct <;> simp [toolsView, sctAfter, selectSct]

theorem view_intMv : (match (seqView sh sc).tools with | some t => t.integerMv | none => 2) = (seqAfter sh sc).2.forceIntMv := by
  unfold seqView seqAfter
  cases sc.reduced with
  | true => rfl
  | false =>
    by_cases h0 : sc.forceSct = 0
    · cases hq : sh.chooseSct <;> simp [toolsView, sctAfter, selectSct, selectIntMv, h0, hq]
    · have : 0 < sc.forceSct := by omega
      cases hq : sh.chooseSct <;> simp [toolsView, sctAfter, selectSct, selectIntMv, h0, this, hq]

theorem view_hint : ((seqView sh sc).tools.bind (·.orderHint)).isSome = (seqAfter sh sc).2.orderHint ∧
    ((seqView sh sc).tools.bind (·.orderHintBits)).getD 0 = (seqAfter sh sc).2.orderHintBits ∧
    (((seqView sh sc).tools.bind (·.orderHint)).map Prod.snd).getD false = (seqAfter sh sc).2.refFrameMvs := by
  unfold seqView seqAfter
  cases sc.reduced with
  | true => exact ⟨rfl, rfl, rfl⟩
  | false => cases ho : sc.orderHint <;> simp [toolsView, ho]

theorem view_ops : ((seqView sh sc).opModels.map fun o => (o.1, o.2.2.isSome)).map Prod.fst = (seqAfter sh sc).2.opModels.map OpModel.idc := by
  have : (seqAfter sh sc).2.opModels = sc.opModels := by unfold seqAfter; simp only; split <;> rfl
  rw [this]
  unfold seqView
  simp [List.map_map, Function.comp_def, OpModel.view]

end

/-- **C114, exactly.** In a context whose flag for frame ids is off, as it is created and as the code leaves it, a decoder that
has read the sequence header agrees with the encoder about the first half of the frame header iff the sequence header announces
no frame ids and the frame carries the decoder model the sequence header announces. -/
theorem C114_agrees_exact_partial (sh : SeqHeader) (sc : SeqCtx) (w : Whole) (hw : Follows sh sc w) (hi : w.c.idsPresent = false)
    (hl : w.c.temporalId < 8 ∧ w.c.spatialId < 4) :
    Agrees (Hdr.announced (seqView sh sc) w.c.temporalId w.c.spatialId) w.c w.f ↔
      sh.frameId = none ∧ ((dmiAfter sh sc).map fun d => (d.bufferRemovalDelayLength, d.framePresentationDelayLength)) =
        w.f.dmi.map fun d => (d.removalLen, d.presentationLen) := by
  have hc : ∀ {α : Type} (g : Whole → α), g w = g (share (seqAfter sh sc).2 w) := fun g => by rw [hw]
  constructor
  · intro h
    refine ⟨?_, ?_⟩
    · have := h.ids
      rw [hi] at this
      cases hf : sh.frameId with
      | none => rfl
      | some x => simp [Hdr.announced, seqView, hf] at this
    · rw [← view_model]; exact h.model
  · rintro ⟨h1, h2⟩
    exact {
      reduced := by
        rw [hc (fun w => w.c.reduced)]
        exact (after_reduced sh sc).symm
      model := by rw [← h2, ← view_model]; rfl
      equal := by
        rw [hc (fun w => w.c.equalInterval)]
        exact view_equal sh sc
      ids := by
        rw [hi]
        simp [Hdr.announced, seqView, h1]
      idLens := by rw [hi]; simp
      sct := by rw [hc (fun w => w.c.forceSct)]; exact view_sct sh sc
      intMv := by rw [hc (fun w => w.c.forceIntMv)]; exact view_intMv sh sc
      hint := by rw [hc (fun w => w.c.enableOrderHint)]; exact (view_hint sh sc).1
      ops := by rw [hc (fun w => w.c.opIdcs)]; exact view_ops sh sc
      temporal := rfl
      spatial := rfl
      superres := by
        rw [hc (fun w => w.c.enableSuperres)]
        show sc.superres = (seqAfter sh sc).2.superres
        unfold seqAfter; simp only; split <;> rfl
      refMvs := by rw [hc (fun w => w.c.enableRefMvs)]; exact (view_hint sh sc).2.2
      layers := hl }

/-- **C114, exactly**, for the second half: the two agree iff the number of planes in the context is the announced one and the
film grain flag still is what it was; the context's number of planes is not the one the sequence header sets. -/
theorem C114_rest_exact_partial (sh : SeqHeader) (sc : SeqCtx) (w : Whole) (hw : Follows sh sc w) (limits : Nat → Nat → Hdr.TileLimits)
    (hlim : (limits w.f.width w.f.height).For (miSize w.f.width) (miSize w.f.height) w.tile.use128) :
    AgreesRest (Hdr.announcedRest (seqView sh sc) limits) w ↔
      w.planes = (if monoAfter sh sc then 1 else 3) ∧ sc.filmGrain = w.grain.isSome := by
  have hc : ∀ {α : Type} (g : Whole → α), g w = g (share (seqAfter sh sc).2 w) := fun g => by rw [hw]
  constructor
  · intro h
    exact ⟨h.planes.symm, h.grain⟩
  · rintro ⟨h1, h2⟩
    exact {
      planes := h1.symm
      sep := by rw [hc (fun w => w.sep)]; exact (after_separate sh sc).symm
      mono := by rw [hc (fun w => w.mono)]; exact (after_color_mono sh sc).symm
      sub := by
        rw [hc (fun w => w.sub)]
        show ((subAfter sh sc).1 && (subAfter sh sc).2) = ((seqAfter sh sc).2.color.subX && (seqAfter sh sc).2.color.subY)
        rw [after_subX, after_subY]
      use128 := by
        rw [hc (fun w => w.tile.use128)]
        show sc.use128 = (seqAfter sh sc).2.use128
        unfold seqAfter; simp only; split <;> rfl
      restoration := by
        rw [hc (fun w => w.enableRestoration)]
        show sc.restoration = (seqAfter sh sc).2.restoration
        unfold seqAfter; simp only; split <;> rfl
      grain := h2
      limits := hlim }

/-- **C114**, full claim: a sequence header and the header of a frame shown again, as written one after the other, are read
back by a decoder that takes the parameters from the sequence header. -/
def C114_full : Prop := ∀ (sh : SeqHeader) (sc : SeqCtx) (w : Whole) (limits : Nat → Nat → Hdr.TileLimits),
  SeqOk sh sc → Follows sh sc w → FrontOk w.c w.f → w.c.Ok → w.c.seen = false → w.c.showExisting = true →
  w.c.reduced = false → w.c.temporalId < 8 → w.c.spatialId < 4 →
  ((dmiAfter sh sc).map fun d => (d.bufferRemovalDelayLength, d.framePresentationDelayLength)) =
    (w.f.dmi.map fun d => (d.removalLen, d.presentationLen)) →
  ∃ v, Writes (cat [encodeSeqHeader sh sc, frameHeaderBits w]) (Hdr.sequenceThenFrame w.c.temporalId w.c.spatialId limits) v

/-- **C114, partial**: shown again, without frame ids. -/
theorem C114_existing_partial (sh : SeqHeader) (sc : SeqCtx) (w : Whole) (limits : Nat → Nat → Hdr.TileLimits)
    (hs : SeqOk sh sc) (hw : Follows sh sc w) (ho : FrontOk w.c w.f) (hk : w.c.Ok) (hseen : w.c.seen = false)
    (hex : w.c.showExisting = true) (hred : w.c.reduced = false) (hl : w.c.temporalId < 8 ∧ w.c.spatialId < 4)
    (hd : ((dmiAfter sh sc).map fun d => (d.bufferRemovalDelayLength, d.framePresentationDelayLength)) =
      w.f.dmi.map fun d => (d.removalLen, d.presentationLen))
    (hi : w.c.idsPresent = false) (hf : sh.frameId = none) :
    Writes (cat [encodeSeqHeader sh sc, frameHeaderBits w]) (Hdr.sequenceThenFrame w.c.temporalId w.c.spatialId limits)
      (seqView sh sc, .inl ⟨w.c.showIdx, timeOf w.c w.f, none⟩) := by
  have ha := (C114_agrees_exact_partial sh sc w hw hi hl).2 ⟨hf, hd⟩
  have h2 := C89_read_back_partial _ w ha ho hk hseen hred hex
  rw [hi] at h2
  refine Writes.cons (writes_sequence sh sc hs) (Writes.last ?_)
  obtain ⟨e, he, r⟩ := h2
  refine ⟨e, he, fun rest => ?_⟩
  unfold Hdr.whole
  show ((Hdr.header _ (e ++ rest)).bind _).bind _ = _
  rw [r rest]
  rfl

/-- **C114, partial**: a whole frame header (C94) after its sequence header, read by one reader. -/
theorem C114_whole_partial (sh : SeqHeader) (sc : SeqCtx) (w : Whole) (limits : Nat → Nat → Hdr.TileLimits)
    (hs : SeqOk sh sc) (hw : Follows sh sc w) (hl : w.c.temporalId < 8 ∧ w.c.spatialId < 4)
    (hd : ((dmiAfter sh sc).map fun d => (d.bufferRemovalDelayLength, d.framePresentationDelayLength)) =
      w.f.dmi.map fun d => (d.removalLen, d.presentationLen))
    (hi : w.c.idsPresent = false) (hf : sh.frameId = none)
    (hp : w.planes = if monoAfter sh sc then 1 else 3) (hfg : sc.filmGrain = w.grain.isSome)
    (hlim : (limits w.f.width w.f.height).For (miSize w.f.width) (miSize w.f.height) w.tile.use128)
    (hred : sc.reduced = false) (hnh : sc.orderHint = false) (hsz : w.f.width = sh.width ∧ w.f.height = sh.height)
    (hov : w.c.sizeOverride = false) (hty : intraType w.f.type = true) (ho : FrontOk w.c w.f) (hk : w.c.Ok)
    (hr : ∀ r ∈ w.c.refId, r < 2 ^ (w.c.additionalLen + w.c.deltaLen))
    (g : Grain) (tv : Nat × Nat × Option (Nat × Nat)) (hkl : keyLike w.f.type w.c.showFrame = false)
    (hseen : w.c.seen = false) (hex : w.c.showExisting = false) (hll : LosslessOk w) (hcd : w.cdef.Ok)
    (hg : w.grain = some g) (hgo : g.Ok) (hgr : w.grainRefs.length = 8)
    (ht : TileOk (Hdr.announcedRest (seqView sh sc) limits) w tv) (hsf : (w.c.showFrame || w.c.showable) = true)
    (hww : w.f.width ≤ 2 ^ 16) (hhh : w.f.height ≤ 2 ^ 16)
    (hrem : ∀ d, w.f.dmi = some d → d.removalPresent = true → ∀ o ∈ (seqView sh sc).opModels,
      Hdr.inLayers (Hdr.announced (seqView sh sc) w.c.temporalId w.c.spatialId) o.1 = true → o.2.2.isSome = true)
    (hsr : superresOn w.c w.f = false) :
    Writes (cat [encodeSeqHeader sh sc, frameHeaderBits w]) (Hdr.sequenceThenFrame w.c.temporalId w.c.spatialId limits)
      (seqView sh sc, .inr (frontView (Hdr.announced (seqView sh sc) w.c.temporalId w.c.spatialId) w.c w.f, restView w tv)) := by
  have ha := (C114_agrees_exact_partial sh sc w hw hi hl).2 ⟨hf, hd⟩
  have hb := (C114_rest_exact_partial sh sc w hw limits hlim).2 ⟨hp, hfg⟩
  have hwc : ∀ {α : Type} (g : Whole → α), g w = g (share (seqAfter sh sc).2 w) := fun g => by rw [hw]
  have e1 : w.c.reduced = false := by
    rw [hwc (fun w => w.c.reduced)]
    exact (after_reduced sh sc).trans hred
  have e2 : w.c.enableOrderHint = false := by
    rw [hwc (fun w => w.c.enableOrderHint)]
    show (seqAfter sh sc).2.orderHint = false
    unfold seqAfter; simp [hred, hnh]
  have e3 : (seqAfter sh sc).2.orderHintBits = 0 := by unfold seqAfter; simp [hred, hnh]
  have e4 : w.hintBits = 0 := by rw [hwc (fun w => w.hintBits)]; exact e3
  have hin : IntraOk (Hdr.announced (seqView sh sc) w.c.temporalId w.c.spatialId) w.c w.f :=
    ⟨hty, ha, ho, hk, e1, ⟨e2, (view_hint sh sc).2.1.trans e3⟩, hov, hsz.1.symm, hsz.2.symm, hr⟩
  refine Writes.cons (writes_sequence sh sc hs) (Writes.last (Writes.map _ ?_))
  refine C94_header_partial _ _ w g tv hin hkl hseen hex e4 hb hll hcd hg hgo hgr ht hsf hww hhh ?_ hsr
  intro d hd1 hd2 o ho1 ho2
  obtain ⟨p, hp1, rfl⟩ := List.mem_map.1 ho1
  exact hrem d hd1 hd2 p hp1 ho2

/-- **C114**, frame ids: the sequence header may announce them, but nothing sets the context's flag, so they are never
written. Whatever the announced lengths and the frame, a decoder runs past the header of a frame shown again. -/
theorem C114_ids_never (sh : SeqHeader) (sc : SeqCtx) (w : Whole) (x : FrameId)
    (hs : SeqOk sh sc) (hw : Follows sh sc w) (ho : FrontOk w.c w.f) (hk : w.c.Ok) (hseen : w.c.seen = false)
    (hex : w.c.showExisting = true) (hred : w.c.reduced = false) (hl : w.c.temporalId < 8 ∧ w.c.spatialId < 4)
    (hd : ((dmiAfter sh sc).map fun d => (d.bufferRemovalDelayLength, d.framePresentationDelayLength)) =
      w.f.dmi.map fun d => (d.removalLen, d.presentationLen))
    (hi : w.c.idsPresent = false) (hf : sh.frameId = some x) :
    ∃ e, frameHeaderBits w = some (raw e) ∧ ∀ rest : Bits, rest.length < x.additionalLen + x.deltaLen →
      Hdr.header (Hdr.announced (seqView sh sc) w.c.temporalId w.c.spatialId) (e ++ rest) = none := by
  have hw' : Follows { sh with frameId := none } sc w := by
    have : (seqAfter { sh with frameId := none } sc).2 = (seqAfter sh sc).2 := by
      unfold seqAfter
      cases sc.reduced <;> rfl
    unfold Follows
    rw [this]; exact hw
  have ha := (C114_agrees_exact_partial { sh with frameId := none } sc w hw' hi hl).2 ⟨rfl, hd⟩
  have hlt : w.c.showIdx < w.c.refType.length := by rw [hk.refType]; exact ho.show_
  obtain ⟨e1, he1, r1⟩ := writes_f 3 w.c.showIdx (by decide) ho.show_
  obtain ⟨e2, he2, r2⟩ := writes_point _ w.c w.f ha ho
  refine ⟨[true] ++ (e1 ++ e2), ?_, fun rest hr => ?_⟩
  · unfold frameHeaderBits existingBits existingAfter
    simp only [hseen, hred, hex, Bool.false_eq_true, if_false, Bool.not_false, Bool.and_self, if_true, Option.bind_eq_bind,
      idLenOf, hi, Option.bind_some, pushB, cat_cons, cat_nil, he1, he2, List.getElem?_eq_getElem hlt, raw_append]
    simp [raw]
  · unfold Hdr.header
    rw [show (Hdr.announced (seqView sh sc) w.c.temporalId w.c.spatialId).reduced = false from by rw [← hred]; exact ha.reduced]
    simp only [Bool.false_eq_true, if_false]
    rw [List.append_assoc, (reads_flag true).step]
    simp only [if_true]
    unfold Hdr.existing
    rw [List.append_assoc]
    have h3 : (Hdr.announced (seqView sh sc) w.c.temporalId w.c.spatialId).ids = some (x.deltaLen, x.additionalLen + x.deltaLen) := by
      simp [Hdr.announced, seqView, hf, FrameId.view]
    rw [h3]
    have r2' : Reads (Hdr.point (Hdr.announced (seqView sh sc) w.c.temporalId w.c.spatialId)) e2 (timeOf w.c w.f) := r2
    show ((P.f 3 >>= _) (e1 ++ (e2 ++ rest))).bind _ = none
    rw [r1.step, r2'.step]
    show (((P.f (x.additionalLen + x.deltaLen) rest).bind _).bind _).bind _ = none
    unfold P.f
    rw [if_pos hr]
    rfl

/-- A sequence with frame ids and a frame shown again. -/
def idSeq : SeqHeader := { SeqHeader.new 64 64 with frameId := some ⟨14, 1⟩ }
def againCtx : HCtx := { HCtx.new with showExisting := true, showIdx := 2 }
def againWhole : Whole := share (seqAfter idSeq SeqCtx.new).2 (wholeSample againCtx (HFrame.new .key 64 64))

theorem idSeq_ok : SeqOk idSeq SeqCtx.new :=
  { seqOk_new 64 64 (by decide) (by decide) (by decide) (by decide) with
    frameId := by simp [idSeq, FrameId.InRange]
    reducedId := by simp [SeqCtx.new] }

theorem againWhole_ok : FrontOk againWhole.c againWhole.f := by
  constructor
  · decide
  · intro d hd; cases hd
  all_goals decide

/-- **C114** is false. -/
theorem C114_negation : ¬ C114_full := by
  intro h
  obtain ⟨v, a, ha, r⟩ := h idSeq SeqCtx.new againWhole (fun _ _ => oneLim) idSeq_ok rfl againWhole_ok
    ⟨rfl, rfl, rfl, rfl, rfl, rfl⟩ rfl rfl rfl (by decide) (by decide) rfl
  obtain ⟨e, he, hn⟩ := C114_ids_never idSeq SeqCtx.new againWhole ⟨14, 1⟩ idSeq_ok rfl againWhole_ok
    ⟨rfl, rfl, rfl, rfl, rfl, rfl⟩ rfl rfl rfl ⟨by decide, by decide⟩ rfl rfl rfl
  obtain ⟨b, hb, rb⟩ := writes_sequence idSeq SeqCtx.new idSeq_ok
  rw [cat_cons, hb, cat_cons, he, cat_nil] at ha
  simp only [Option.bind_eq_bind, Option.bind_some, Option.some.injEq, List.append_nil, ← raw_append] at ha
  have hr := r []
  rw [← raw_inj ha, List.append_nil] at hr
  unfold Hdr.sequenceThenFrame at hr
  rw [rb.step] at hr
  have h0 := hn [] (by decide)
  rw [List.append_nil] at h0
  unfold Hdr.whole at hr
  change (((Hdr.header _ e).bind _).bind _) = _ at hr
  rw [show Hdr.header (Hdr.announced (seqView idSeq SeqCtx.new) againWhole.c.temporalId againWhole.c.spatialId) e = none from h0] at hr
  exact absurd hr (by simp)

/-- Non-vacuity of `C114_existing_partial`. -/
example : Writes (cat [encodeSeqHeader (SeqHeader.new 64 64) SeqCtx.new, frameHeaderBits againWhole])
    (Hdr.sequenceThenFrame 0 0 fun _ _ => oneLim) (seqView (SeqHeader.new 64 64) SeqCtx.new, .inl ⟨2, none, none⟩) :=
  C114_existing_partial (SeqHeader.new 64 64) SeqCtx.new againWhole _ (seqOk_new 64 64 (by decide) (by decide) (by decide) (by decide))
    rfl againWhole_ok ⟨rfl, rfl, rfl, rfl, rfl, rfl⟩ rfl rfl rfl ⟨by decide, by decide⟩ rfl rfl rfl

/-- Non-vacuity of `C114_whole_partial`: the frame of C94 after its sequence header. -/
example :
    let sc : SeqCtx := { SeqCtx.new with use128 := false, restoration := true, cdef := true, filmGrain := true }
    let w := share (seqAfter (SeqHeader.new 64 64) sc).2 { losslessWhole with enableRestoration := true }
    ∃ v, Writes (cat [encodeSeqHeader (SeqHeader.new 64 64) sc, frameHeaderBits w]) (Hdr.sequenceThenFrame 0 0 fun _ _ => oneLim)
      (seqView (SeqHeader.new 64 64) sc, .inr v) := by
  intro sc w
  refine ⟨_, C114_whole_partial (SeqHeader.new 64 64) sc w (fun _ _ => oneLim)
    { seqOk_new 64 64 (by decide) (by decide) (by decide) (by decide) with
      reducedId := by simp [sc, SeqCtx.new]
      sct := by simp [sc, SeqCtx.new]
      imv := by simp [sc, SeqCtx.new]
      orderHintBits := by simp [sc, SeqCtx.new]
      description := by simp [sc, SeqCtx.new]
      position := by simp [sc, SeqCtx.new]
      timing := by simp [sc, SeqCtx.new]
      opModels := by simp [sc, SeqCtx.new]
      opModel := by simp [sc, SeqCtx.new] } rfl ⟨by decide, by decide⟩ rfl rfl rfl rfl rfl oneTile_ok.lim rfl rfl ⟨rfl, rfl⟩ rfl rfl
    ?_ ⟨rfl, rfl, rfl, rfl, rfl, rfl⟩ (by decide) grainSample (0, 0, none) rfl rfl rfl ?_ ?_ rfl grainSample_ok rfl
    (Or.inl ⟨rfl, rfl, rfl, rfl, rfl, rfl⟩) rfl (by decide) (by decide) (by intro d hd; cases hd) rfl⟩
  · constructor
    · decide
    · intro d hd; cases hd
    all_goals decide
  · refine ⟨rfl, ?_, by decide, rfl, rfl⟩
    constructor <;> decide
  · constructor <;> decide

theorem deltaQ_shape {e : Bits} {v : Int} (h : Reads Hdr.deltaQ e v) : e = [false] ∨ ∃ t, e = true :: t ∧ t.length = 7 := by
  have h0 := h []
  rw [List.append_nil] at h0
  cases e with
  | nil => exact absurd h0 (by simp [Hdr.deltaQ, P.flag, bind, StateT.bind])
  | cons b t =>
    cases b with
    | false =>
      have : (some ((0 : Int), t) : Option (Int × Bits)) = some (v, []) := h0
      simp only [Option.some.injEq, Prod.mk.injEq] at this
      exact Or.inl (by rw [this.2])
    | true =>
      refine Or.inr ⟨t, rfl, ?_⟩
      change (P.f 7 t).bind _ = _ at h0
      obtain ⟨y, hy, h0⟩ := Option.bind_eq_some_iff.1 h0
      unfold P.f at hy
      split at hy
      · exact absurd hy (by simp)
      · rename_i hlt
        have h1 := Option.some.inj hy
        have h2 : y.2 = [] := by
          have := congrArg (fun o => o.map Prod.snd) h0
          simpa [pure, StateT.pure] using this
        rw [← h1] at h2
        have := List.drop_eq_nil_iff.1 h2
        omega

/-- **C114**, monochrome: the sequence header sets the encoder's own number of planes, the frame header uses the context's,
which stays 3. Whatever the quantizer, a decoder that was told "one plane" stops short of the end of the section. -/
theorem C114_mono_never (q : Quant) (h : q.Ok) (planes : Nat) (hp : 1 < planes) :
    ∃ e, encodeQuant q planes false = some (raw e) ∧ ∀ rest v r, Hdr.quant 1 false (e ++ rest) = some (v, r) → rest.length < r.length := by
  obtain ⟨e0, i0, r0⟩ := writes_f 8 q.baseQIdx (by decide) h.base
  obtain ⟨e1, i1, r1⟩ := writes_deltaQ _ h.y
  obtain ⟨e2, i2, r2⟩ := writes_deltaQ _ h.u
  obtain ⟨e3, i3, r3⟩ := writes_deltaQ _ h.ua
  obtain ⟨e4, i4, r4⟩ := writes_qm q false h
  have l3 : 1 ≤ e3.length := by rcases deltaQ_shape r3 with rfl | ⟨t, rfl, -⟩ <;> simp
  have l4 : 1 ≤ e4.length := by
    cases e4 with
    | nil =>
      have := r4 []
      exact absurd this (by simp [P.flagged, P.flag, bind, StateT.bind])
    | cons b t => simp
  refine ⟨e0 ++ (e1 ++ (e2 ++ (e3 ++ e4))), ?_, fun rest v r hr => ?_⟩
  · unfold encodeQuant encodeChromaQ
    simp only [if_pos hp, diffAfter, Bool.false_eq_true, if_false, cat_cons, cat_nil, i0, i1, i2, i3, i4, Option.bind_eq_bind,
      Option.bind_some, raw_append, List.append_nil, List.nil_append, List.append_assoc]
  · unfold Hdr.quant at hr
    simp only [List.append_assoc] at hr
    rw [r0.step, r1.step] at hr
    change ((P.flagged (Hdr.qmLevels false) (e2 ++ (e3 ++ (e4 ++ rest)))).bind _) = _ at hr
    obtain ⟨⟨y, s⟩, hy, hr⟩ := Option.bind_eq_some_iff.1 hr
    have hs : s = r := by
      have := congrArg (fun o => o.map Prod.snd) hr
      simpa [pure, StateT.pure] using this
    rw [← hs]
    rcases deltaQ_shape r2 with rfl | ⟨t, rfl, ht⟩
    · have : (some ((none : Option (Nat × Nat × Nat)), e3 ++ (e4 ++ rest)) : Option _) = some (y, s) := hy
      simp only [Option.some.injEq, Prod.mk.injEq] at this
      rw [← this.2]
      simp only [List.length_append]
      omega
    · change ((Hdr.qmLevels false (t ++ (e3 ++ (e4 ++ rest)))).bind _) = _ at hy
      obtain ⟨⟨z, s2⟩, hz, hy⟩ := Option.bind_eq_some_iff.1 hy
      have hs2 : s2 = s := by
        have := congrArg (fun o => o.map Prod.snd) hy
        simpa [pure, StateT.pure] using this
      rw [← hs2]
      change ((P.f 4 (t ++ (e3 ++ (e4 ++ rest)))).bind _) = _ at hz
      obtain ⟨⟨z1, s3⟩, h1, hz⟩ := Option.bind_eq_some_iff.1 hz
      change ((P.f 4 s3).bind _) = _ at hz
      obtain ⟨⟨z2, s4⟩, h2, hz⟩ := Option.bind_eq_some_iff.1 hz
      have hs4 : s4 = s2 := by
        have := congrArg (fun o => o.map Prod.snd) hz
        simpa [pure, StateT.pure] using this
      rw [← hs4]
      unfold P.f at h1 h2
      split at h1
      · exact absurd h1 (by simp)
      · split at h2
        · exact absurd h2 (by simp)
        · simp only [Option.some.injEq, Prod.mk.injEq] at h1 h2
          rw [← h2.2, ← h1.2]
          simp only [List.length_drop, List.length_append, ht]
          omega

end Av1
