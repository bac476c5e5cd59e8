import Verif.Spec.SeqLayout
import Verif.Model.Obu
import Verif.Lemmas.Parser
import Verif.Lemmas.Util

namespace Av1

/-! ## Frame size -/

theorem log2_pred (w : Nat) (h : 3 ≤ w) :
    (w = 2 ^ ((w - 1).log2 + 1) ∧ w.log2 = (w - 1).log2 + 1) ∨
      (w < 2 ^ ((w - 1).log2 + 1) ∧ w.log2 = (w - 1).log2) := by
  have h1 := Nat.log2_self_le (n := w - 1) (by omega)
  have h2 := Nat.lt_log2_self (n := w - 1)
  by_cases hw : w = 2 ^ ((w - 1).log2 + 1)
  · left
    refine ⟨hw, ?_⟩
    conv_lhs => rw [hw]
    exact Nat.log2_two_pow
  · right
    refine ⟨by omega, ?_⟩
    rw [Nat.log2_eq_iff (by omega)]
    omega

theorem log2_pred_pos (w : Nat) (h : 3 ≤ w) : 1 ≤ (w - 1).log2 :=
  (Nat.le_log2 (by omega)).2 (by omega)

theorem msbMinus1_eq (x : Nat) (h : 2 ≤ x) (h2 : x < 2 ^ 16) : msbMinus1 x = some (x.log2 - 1) := by
  have : 1 ≤ x.log2 := (Nat.le_log2 (by omega)).2 (by omega)
  unfold msbMinus1
  rw [Nat.mod_eq_of_lt h2, msb16_eq x h2]
  simp [usub, this]

theorem usub_eq (v k : Nat) (h : k ≤ v) : usub v k = some (v - k) := by rw [usub, if_pos h]

theorem writes_dim (w : Nat) (h : 3 ≤ w) (h2 : w < 2 ^ 16) :
    Writes (pushN (w - 1) w.log2) (Layout.dim (w - 1).log2) w := by
  have hl := log2_pred_pos w h
  have h3 := Nat.log2_self_le (n := w - 1) (by omega)
  have h4 : w.log2 ≤ 32 := by have := (Nat.log2_lt (n := w) (k := 16) (by omega)).2 h2; omega
  unfold Layout.dim
  rcases log2_pred w h with ⟨hw, hlog⟩ | ⟨hw, hlog⟩
  · generalize hn : (w - 1).log2 = n at *
    have e : toBits (n + 1) (w - 1) = toBits n (2 ^ n - 1) ++ toBits 1 1 := by
      rw [toBits_append n 1]
      have hp : 2 ^ (n + 1) = 2 * 2 ^ n := by rw [pow_succ]; ring
      have hp0 : 0 < 2 ^ n := by positivity
      congr 1
      · apply toBits_congr; congr 1; omega
      · apply toBits_congr; omega
    refine ⟨toBits (n + 1) (w - 1), by rw [hlog]; exact pushN_eq _ _ (by omega), ?_⟩
    rw [e]
    have hp0 : 0 < 2 ^ n := by positivity
    refine (reads_f n (2 ^ n - 1) (by omega)).bind ?_
    rw [if_pos (by omega)]
    have := (reads_f 1 1 (by norm_num)).bind (g := fun _ => (pure (2 ^ (n + 1)) : P Nat)) (Reads.pure _)
    rw [List.append_nil] at this
    rwa [← hw] at this ⊢
  · generalize hn : (w - 1).log2 = n at *
    have hp : 2 ^ (n + 1) = 2 * 2 ^ n := by rw [pow_succ]; ring
    have e : toBits n (w - 1) = toBits n (w - 1 - 2 ^ n) := by
      apply toBits_congr
      rw [Nat.mod_eq_sub_mod h3]
    refine ⟨toBits n (w - 1), by rw [hlog]; exact pushN_eq _ _ (by omega), ?_⟩
    rw [e]
    have := (reads_f n (w - 1 - 2 ^ n) (by omega)).bind (g := fun v => if v + 1 = 2 ^ n then do
      let _ ← P.f 1
      pure (2 ^ (n + 1))
      else pure (2 ^ n + v + 1)) (b := []) (w := w) (by
        rw [if_neg (by omega)]
        rw [show 2 ^ n + (w - 1 - 2 ^ n) + 1 = w by omega]
        exact Reads.pure w)
    rwa [List.append_nil] at this

/-- The size is written without panic and recoverable from 3x3 up. -/
theorem writes_size (sh : SeqHeader) (h1 : 3 ≤ sh.width) (h2 : sh.width < 2 ^ 16) (h3 : 3 ≤ sh.height)
    (h4 : sh.height < 2 ^ 16) (h5 : sh.maxWidth = sh.width) (h6 : sh.maxHeight = sh.height) :
    Writes (encodeSize sh) Layout.size (sh.width, sh.height) := by
  have log_lt : ∀ w, 3 ≤ w → w < 2 ^ 16 → (w - 1).log2 - 1 < 2 ^ 4 ∧ 1 ≤ w.log2 := by
    intro w h h2
    have := (Nat.log2_lt (n := w - 1) (k := 16) (by omega)).2 (by omega)
    exact ⟨by omega, (Nat.le_log2 (by omega)).2 (by omega)⟩
  unfold encodeSize Layout.size
  rw [h5, h6, usub_eq sh.width 1 (by omega), usub_eq sh.height 1 (by omega),
    msbMinus1_eq sh.width (by omega) h2, msbMinus1_eq sh.height (by omega) h4]
  simp only [Option.bind_eq_bind, Option.bind_some, msbMinus1_eq (sh.width - 1) (by omega) (by omega),
    msbMinus1_eq (sh.height - 1) (by omega) (by omega)]
  have lw := log_lt _ h1 h2
  have lh := log_lt _ h3 h4
  have pw := log2_pred_pos _ h1
  have ph := log2_pred_pos _ h3
  rw [show sh.width.log2 - 1 + 1 = sh.width.log2 by omega, show sh.height.log2 - 1 + 1 = sh.height.log2 by omega]
  refine Writes.cons (writes_f 4 _ (by norm_num) lw.1) (Writes.cons (writes_f 4 _ (by norm_num) lh.1) ?_)
  rw [show (sh.width - 1).log2 - 1 + 1 = (sh.width - 1).log2 by omega,
    show (sh.height - 1).log2 - 1 + 1 = (sh.height - 1).log2 by omega]
  exact Writes.cons (writes_dim _ h1 h2) (Writes.map _ (Writes.last (writes_dim _ h3 h4)))

/-! ## Ranges -/

def OperatingPoint.InRange (o : OperatingPoint) : Prop :=
  o.idc < 2 ^ 12 ∧ o.seqLevelIdx < 2 ^ 5 ∧ (o.seqTier.isSome ↔ o.seqLevelIdx > 7)

def FrameId.InRange (x : FrameId) : Prop :=
  2 ≤ x.deltaLen ∧ x.deltaLen < 18 ∧ 1 ≤ x.additionalLen ∧ x.additionalLen < 9

def ColorDescription.InRange (d : ColorDescription) : Prop := d.primaries < 256 ∧ d.transfer < 256 ∧ d.matrix < 256

def DecoderModelInfo.InRange (d : DecoderModelInfo) : Prop :=
  d.bitrateScale < 16 ∧ d.bufferSizeScale < 16 ∧ 1 ≤ d.bufferDelayLength ∧ d.bufferDelayLength ≤ 32 ∧
    d.numUnitsInDecodingTick < 2 ^ 32 ∧ 1 ≤ d.bufferRemovalDelayLength ∧ d.bufferRemovalDelayLength ≤ 32 ∧
    1 ≤ d.framePresentationDelayLength ∧ d.framePresentationDelayLength ≤ 32

def TimingInfo.InRange (t : TimingInfo) : Prop :=
  t.numUnitsInDisplayTick < 2 ^ 32 ∧ t.timeScale < 2 ^ 32 ∧
    (t.equalPictureInterval = true → 1 ≤ t.numTicksPerPicture ∧ t.numTicksPerPicture < 2 ^ 32)

def OperatingParameters.InRange (n : Nat) (p : OperatingParameters) : Prop :=
  1 ≤ p.bitrate ∧ p.bitrate < 2 ^ 32 ∧ 1 ≤ p.bufferSize ∧ p.bufferSize < 2 ^ 32 ∧ p.decoderBufferDelay < 2 ^ n ∧
    p.encoderBufferDelay < 2 ^ n

def OpModel.InRange (dmi : Option DecoderModelInfo) (o : OpModel) : Prop :=
  o.idc < 2 ^ 12 ∧ (∀ d, o.initialDisplayDelay = some d → 1 ≤ d ∧ d ≤ 16) ∧
    (∀ d p, dmi = some d → o.params = some p → p.InRange d.bufferDelayLength)

/-- Everything the header can say is within its field. -/
structure SeqOk (sh : SeqHeader) (c : SeqCtx) : Prop where
  profile : sh.profile ≤ 2
  ops : sh.operatingPoints.length < 32
  op : ∀ o ∈ sh.operatingPoints, o.InRange
  width : 3 ≤ sh.width ∧ sh.width < 2 ^ 16
  height : 3 ≤ sh.height ∧ sh.height < 2 ^ 16
  maxWidth : sh.maxWidth = sh.width
  maxHeight : sh.maxHeight = sh.height
  frameId : ∀ x, sh.frameId = some x → x.InRange
  reducedId : c.reduced = true → sh.frameId = none
  sct : sh.chooseSct = false → c.forceSct < 2
  imv : sh.chooseIntMv = false → c.forceIntMv < 2
  orderHintBits : c.orderHint = true → 1 ≤ c.orderHintBits ∧ c.orderHintBits ≤ 8
  description : ∀ d, c.color.description = some d → d.InRange
  position : c.color.chromaSamplePosition < 4
  timing : ∀ t, c.timing = some t → t.InRange
  decoderModel : ∀ d, sh.decoderModel = some d → d.InRange
  opModels : c.opModels.length ≤ 32
  opModel : ∀ o ∈ c.opModels, o.InRange (dmiAfter sh c)

/-! ## What a reader should find -/

def OperatingPoint.view (o : OperatingPoint) : Nat × Nat × Option Bool := (o.idc, o.seqLevelIdx, o.seqTier)

def FrameId.view (x : FrameId) : Nat × Nat := (x.deltaLen, x.additionalLen)

def toolsView (sh : SeqHeader) (c : SeqCtx) : Layout.Tools where
  interintra := sh.interintra
  masked := sh.masked
  warped := c.warped
  dualFilter := sh.dualFilter
  orderHint := if c.orderHint then some (sh.jntComp, c.refFrameMvs) else none
  screenContent := if sh.chooseSct then 2 else c.forceSct
  integerMv := if !sh.chooseSct && c.forceSct == 0 then 2 else if sh.chooseIntMv then 2 else c.forceIntMv
  orderHintBits := if c.orderHint then some c.orderHintBits else none

def ColorDescription.view (d : ColorDescription) : Nat × Nat × Nat := (d.primaries, d.transfer, d.matrix)

def colorView (sh : SeqHeader) (c : SeqCtx) : Layout.Color where
  bitDepth := bitDepthAfter sh c
  monoChrome := monoAfter sh c
  description := c.color.description.map ColorDescription.view
  fullRange := if !monoAfter sh c && isSrgb (descAfter c) then none else some c.color.colorRange
  subsampling := subAfter sh c
  samplePosition := if !monoAfter sh c && !isSrgb (descAfter c) && (subAfter sh c).1 && (subAfter sh c).2
    then some c.color.chromaSamplePosition else none
  separateUvDeltaQ := if monoAfter sh c then false else c.color.separateUvDeltaQ

def DecoderModelInfo.view (d : DecoderModelInfo) : Layout.DecoderModel :=
  ⟨d.bitrateScale, d.bufferSizeScale, d.bufferDelayLength, d.numUnitsInDecodingTick, d.bufferRemovalDelayLength,
    d.framePresentationDelayLength⟩

def timingView (sh : SeqHeader) (t : TimingInfo) : Layout.Timing :=
  ⟨t.numUnitsInDisplayTick, t.timeScale, if t.equalPictureInterval then some t.numTicksPerPicture else none,
    sh.decoderModel.map DecoderModelInfo.view⟩

def OperatingParameters.view (p : OperatingParameters) : Layout.Params :=
  ⟨p.bitrate, p.bufferSize, p.cbr, p.decoderBufferDelay, p.encoderBufferDelay, p.lowDelay⟩

def OpModel.view (dmi : Option DecoderModelInfo) (o : OpModel) : Nat × Option Nat × Option Layout.Params :=
  (o.idc, o.initialDisplayDelay, if dmi.isSome then o.params.map OperatingParameters.view else none)

def seqView (sh : SeqHeader) (c : SeqCtx) : Layout.Sequence where
  profile := sh.profile
  still := sh.stillPicture
  reduced := c.reduced
  operatingPoints := if c.reduced then none else some (sh.operatingPoints.map OperatingPoint.view)
  size := (sh.width, sh.height)
  frameId := sh.frameId.map FrameId.view
  use128 := c.use128
  filterIntra := sh.filterIntra
  intraEdgeFilter := sh.intraEdgeFilter
  tools := if c.reduced then none else some (toolsView sh c)
  superres := c.superres
  cdef := c.cdef
  restoration := c.restoration
  color := colorView sh c
  timing := (timingAfter c).map (timingView sh)
  opModels := c.opModels.map (OpModel.view (dmiAfter sh c))
  filmGrain := c.filmGrain

/-! ## Sections -/

/-- An optional part whose presence is known from earlier bits. -/
theorem writes_optMap {α β : Type} {p : P β} (o : Option α) (x : Option Raw) (v : α → β)
    (h : ∀ a, o = some a → Writes x p (v a)) (h0 : o = none → x = cat []) :
    Writes x (P.opt o.isSome p) (o.map v) := by
  cases o with
  | none => rw [h0 rfl]; exact Writes.pure none
  | some a => exact Writes.map some (h a rfl)

/-- A part that is written under a condition. -/
theorem writes_if {α : Type} {p : P α} (b : Bool) (x : Option Raw) (v : α) (h : b = true → Writes x p v) :
    Writes (if b then x else cat []) (P.opt b p) (if b then some v else none) := by
  cases b with
  | false => exact Writes.pure none
  | true => exact Writes.map some (h rfl)

/-- An optional part behind its presence flag. -/
theorem Writes.flagged {α β γ : Type} {p : P β} {g : Option β → P γ} {o : Option α} {v : α → β} {x : Option Raw}
    {xs : List (Option Raw)} {w : γ} (h : ∀ a, o = some a → Writes x p (v a)) (h0 : o = none → x = cat [])
    (h2 : Writes (cat xs) (g (o.map v)) w) : Writes (cat (pushB o.isSome :: x :: xs)) (P.flagged p >>= g) w := by
  unfold P.flagged
  rw [bind_assoc]
  exact Writes.cons (writes_flag _) (Writes.cons (writes_optMap o x v h h0) h2)

theorem Writes.flaggedLast {α β : Type} {p : P β} {o : Option α} {v : α → β} {x : Option Raw}
    (h : ∀ a, o = some a → Writes x p (v a)) (h0 : o = none → x = cat []) :
    Writes (cat [pushB o.isSome, x]) (P.flagged p) (o.map v) := by
  have := Writes.flagged (g := fun y => (Pure.pure y : P _)) (xs := []) h h0 (Writes.pure _)
  rwa [bind_pure] at this

theorem writes_op (o : OperatingPoint) (h : o.InRange) : Writes (encodeOp1 o) Layout.operatingPoint o.view := by
  obtain ⟨h1, h2, h3⟩ := h
  unfold encodeOp1 Layout.operatingPoint
  refine Writes.cons (writes_f 12 _ (by norm_num) h1) (Writes.cons (writes_f 5 _ (by norm_num) h2) ?_)
  refine Writes.last ?_
  refine Writes.map (fun t => (o.idc, o.seqLevelIdx, t)) (v := o.seqTier) ?_
  by_cases h7 : o.seqLevelIdx > 7
  · obtain ⟨t, ht⟩ := Option.isSome_iff_exists.1 (h3.2 h7)
    simp only [h7, if_true, decide_true, ht]
    exact Writes.map some (writes_flag t)
  · have : o.seqTier = none := by
      cases ht : o.seqTier with
      | none => rfl
      | some t => exact absurd (h3.1 (by simp [ht])) h7
    simp only [h7, if_false, decide_false, this, if_true]
    exact Writes.pure none

theorem writes_ops (sh : SeqHeader) (c : SeqCtx) (h : SeqOk sh c) :
    Writes (encodeOps' sh c) (P.opt (!c.reduced) Layout.operatingPoints)
      (if c.reduced then none else some (sh.operatingPoints.map OperatingPoint.view)) := by
  unfold encodeOps' Layout.operatingPoints
  cases c.reduced with
  | true => exact Writes.pure none
  | false =>
    refine Writes.map some (Writes.cons (writes_f 5 _ (by norm_num) h.ops) ?_)
    exact writes_manyMap _ _ _ _ (fun o ho => writes_op o (h.op o ho))

theorem writes_frameId (sh : SeqHeader) (c : SeqCtx) (h : SeqOk sh c) :
    Writes (encodeFrameId sh c) (if c.reduced then pure none else P.flagged Layout.frameId)
      (sh.frameId.map FrameId.view) := by
  unfold encodeFrameId
  by_cases hr : c.reduced = true
  · simp only [hr, if_true, h.reducedId hr, Option.map_none]
    exact Writes.skip (Writes.last (Writes.pure none))
  · simp only [hr, if_false]
    refine Writes.flaggedLast (fun x hx => ?_) (fun hn => by rw [hn])
    obtain ⟨a1, a2, a3, a4⟩ := h.frameId x hx
    rw [hx]
    simp only [usub_eq _ _ a1, usub_eq _ _ a3, Option.bind_eq_bind, Option.bind_some]
    have := Writes.cons (g := fun d => do
      let a ← P.f 3
      pure (d + 2, a + 1)) (writes_f 4 (x.deltaLen - 2) (by norm_num) (by omega))
      (Writes.map (fun a => (x.deltaLen - 2 + 2, a + 1))
        (Writes.last (writes_f 3 (x.additionalLen - 1) (by norm_num) (by omega))))
    rw [show x.deltaLen - 2 + 2 = x.deltaLen by omega, show x.additionalLen - 1 + 1 = x.additionalLen by omega]
      at this
    exact this

theorem writes_f1 (v : Nat) (h : v < 2) : Writes (pushU v) (P.f 1) v := by
  have h2 := writes_f 1 v (by norm_num) (by simpa using h)
  have : pushU v = pushN v 1 := by
    have : v = 0 ∨ v = 1 := by omega
    rcases this with rfl | rfl <;> rfl
  rwa [this]

theorem writes_tools (sh : SeqHeader) (c : SeqCtx) (h : SeqOk sh c) :
    Writes (cat [pushB sh.interintra, pushB sh.masked, pushB c.warped, pushB sh.dualFilter, pushB c.orderHint,
      if c.orderHint then cat [pushB sh.jntComp, pushB c.refFrameMvs] else cat [],
      pushB sh.chooseSct,
      if sh.chooseSct then cat [] else pushU c.forceSct,
      if sctAfter sh c > 0 then cat [pushB sh.chooseIntMv, if sh.chooseIntMv then cat [] else pushU c.forceIntMv]
      else cat [],
      if c.orderHint then (usub c.orderHintBits 1).bind (pushN · 3) else cat []]) Layout.tools (toolsView sh c) := by
  unfold Layout.tools
  refine Writes.cons (writes_flag _) (Writes.cons (writes_flag _) (Writes.cons (writes_flag _)
    (Writes.cons (writes_flag _) (Writes.cons (writes_flag _)
    (Writes.cons (writes_if c.orderHint _ (sh.jntComp, c.refFrameMvs) ?_)
    (Writes.cons (writes_flag _) (Writes.cons (v := sctAfter sh c) ?_ (Writes.cons (v := (toolsView sh c).integerMv) ?_
    (Writes.cons (writes_if c.orderHint _ c.orderHintBits ?_) ?_)))))))))
  · intro _
    exact Writes.cons (writes_flag _) (Writes.map _ (Writes.last (writes_flag _)))
  · unfold sctAfter
    cases hc : sh.chooseSct with
    | true => exact Writes.pure _
    | false => exact writes_f1 _ (h.sct hc)
  · unfold toolsView sctAfter
    cases hc : sh.chooseSct with
    | true =>
      simp only [selectSct, if_true, gt_iff_lt, Nat.ofNat_pos, Bool.not_true, Bool.false_and, Bool.false_eq_true,
        if_false]
      refine Writes.cons (writes_flag _) (Writes.last ?_)
      cases hi : sh.chooseIntMv with
      | true => exact Writes.pure _
      | false => exact writes_f1 _ (h.imv hi)
    | false =>
      by_cases h0 : c.forceSct = 0
      · simp only [h0, Bool.false_eq_true, if_false, gt_iff_lt, lt_self_iff_false, Bool.not_false, beq_self_eq_true,
          Bool.and_self, if_true]
        exact Writes.pure _
      · have : 0 < c.forceSct := by omega
        have e : (c.forceSct == 0) = false := by simp [h0]
        simp only [Bool.false_eq_true, if_false, gt_iff_lt, this, if_true, Bool.not_false, Bool.true_and, e]
        refine Writes.cons (writes_flag _) (Writes.last ?_)
        cases hi : sh.chooseIntMv with
        | true => exact Writes.pure _
        | false => exact writes_f1 _ (h.imv hi)
  · intro ho
    obtain ⟨h1, h2⟩ := h.orderHintBits ho
    rw [usub_eq _ _ h1]
    have := Writes.map (· + 1) (writes_f 3 (c.orderHintBits - 1) (by norm_num) (by omega))
    rwa [show c.orderHintBits - 1 + 1 = c.orderHintBits by omega] at this
  · exact Writes.pure _

theorem writes_color (sh : SeqHeader) (c : SeqCtx) (h : SeqOk sh c) :
    Writes (encodeColor sh c) (Layout.color sh.profile) (colorView sh c) := by
  have hp := h.profile
  unfold encodeColor Layout.color
  refine Writes.cons (writes_flag _) (Writes.cons (v := bitDepthAfter sh c) ?_ (Writes.cons (v := monoAfter sh c) ?_
    (Writes.flagged (v := ColorDescription.view) ?_ (fun hn => by rw [hn])
      (Writes.cons (v := ((colorView sh c).fullRange, (colorView sh c).subsampling, (colorView sh c).samplePosition)) ?_
        (Writes.last (Writes.map _ (writes_flag _)))))))
  · unfold bitDepthAfter
    by_cases hh : (decide (sh.profile = 2) && c.color.highBitdepth) = true
    · simp only [hh, if_true]
      exact Writes.map (fun t => if t = true then 12 else 10) (writes_flag _)
    · simp only [hh, if_false, hp, if_true]
      exact Writes.pure _
  · unfold monoAfter
    by_cases h1 : sh.profile = 1
    · simp only [h1, if_true]; exact Writes.pure _
    · simp only [h1, if_false]; exact writes_flag _
  · intro d hd
    obtain ⟨a1, a2, a3⟩ := h.description d hd
    rw [hd]
    exact Writes.cons (writes_f 8 _ (by norm_num) a1) (Writes.cons (writes_f 8 _ (by norm_num) a2)
      (Writes.map _ (Writes.last (writes_f 8 _ (by norm_num) a3))))
  · have hs : (c.color.description.map ColorDescription.view = some (1, 13, 0)) ↔ isSrgb (descAfter c) = true := by
      unfold isSrgb descAfter
      cases c.color.description with
      | none => simp
      | some d => cases d; simp [ColorDescription.view]
    unfold colorView
    by_cases hm : monoAfter sh c = true
    · simp only [hm, if_true, Bool.not_true, Bool.false_and, Bool.false_eq_true, if_false, subAfter]
      exact Writes.map (fun r => (some r, (true, true), none)) (writes_flag _)
    · by_cases hsr : isSrgb (descAfter c) = true
      · simp only [hm, if_false, hsr, if_true, subAfter, hs.2 hsr, Bool.not_false, Bool.true_and, Bool.not_true,
          Bool.false_and, Bool.false_eq_true]
        exact Writes.pure _
      · simp only [hm, if_false, hsr, mt hs.1 hsr, Bool.not_false, Bool.true_and, Bool.false_eq_true]
        refine Writes.cons (writes_flag _) (Writes.cons (v := subAfter sh c) ?_ (Writes.last ?_))
        · unfold subAfter
          simp only [hm, if_false, hsr, Bool.false_eq_true]
          by_cases h0 : sh.profile = 0
          · simp only [h0, if_true]; exact Writes.pure _
          · by_cases h1 : sh.profile = 1
            · simp only [h0, h1, if_true, if_false]; exact Writes.pure _
            · by_cases hb : bitDepthAfter sh c = 12
              · simp only [h0, h1, hb, if_true, if_false]
                refine Writes.cons (writes_flag _) (Writes.last ?_)
                cases c.color.subX with
                | true => exact Writes.map _ (writes_flag _)
                | false => exact Writes.map (x := cat []) _ (Writes.pure false)
              · simp only [h0, h1, hb, if_false]; exact Writes.pure _
        · exact Writes.map _ (writes_if _ _ _ (fun _ => writes_f 2 _ (by norm_num) h.position))

theorem writes_dmi (d : DecoderModelInfo) (h : d.InRange) : Writes (encodeDmi d) Layout.decoderModel d.view := by
  obtain ⟨h1, h2, h3, h4, h5, h6, h7, h8, h9⟩ := h
  unfold encodeDmi Layout.decoderModel
  rw [usub_eq _ _ h3, usub_eq _ _ h6, usub_eq _ _ h8]
  simp only [Option.bind_eq_bind, Option.bind_some]
  refine Writes.cons (writes_f 4 _ (by norm_num) h1) (Writes.cons (writes_f 4 _ (by norm_num) h2)
    (Writes.cons (writes_f 5 _ (by norm_num) (by omega)) (Writes.cons (writes_f 32 _ (by norm_num) h5)
    (Writes.cons (writes_f 5 _ (by norm_num) (by omega)) ?_))))
  have := Writes.map (fun g => (⟨d.bitrateScale, d.bufferSizeScale, d.bufferDelayLength - 1 + 1,
    d.numUnitsInDecodingTick, d.bufferRemovalDelayLength - 1 + 1, g + 1⟩ : Layout.DecoderModel))
    (Writes.last (writes_f 5 (d.framePresentationDelayLength - 1) (by norm_num) (by omega)))
  have e : d.view = (⟨d.bitrateScale, d.bufferSizeScale, d.bufferDelayLength - 1 + 1,
    d.numUnitsInDecodingTick, d.bufferRemovalDelayLength - 1 + 1,
    d.framePresentationDelayLength - 1 + 1⟩ : Layout.DecoderModel) := by
    unfold DecoderModelInfo.view; congr 1 <;> omega
  rw [e]
  exact this

theorem writes_timing (sh : SeqHeader) (c : SeqCtx) (h : SeqOk sh c) :
    Writes (encodeTiming sh c) (if c.reduced then pure none else P.flagged Layout.timing)
      ((timingAfter c).map (timingView sh)) := by
  unfold encodeTiming timingAfter
  cases c.reduced with
  | true => exact Writes.skip (Writes.last (Writes.pure none))
  | false =>
    refine Writes.flaggedLast (fun t ht => ?_) (fun hn => by simp [hn])
    obtain ⟨h1, h2, h3⟩ := h.timing t ht
    simp only [Bool.false_eq_true, if_false, ht]
    unfold Layout.timing
    refine Writes.cons (writes_f 32 _ (by norm_num) h1) (Writes.cons (writes_f 32 _ (by norm_num) h2)
      (Writes.cons (writes_flag _) (Writes.cons (writes_if t.equalPictureInterval _ t.numTicksPerPicture ?_) ?_)))
    · intro he
      obtain ⟨h4, h5⟩ := h3 he
      rw [usub_eq _ _ h4]
      have := Writes.map (· + 1) (writes_uvlc (t.numTicksPerPicture - 1) (by omega))
      rwa [show t.numTicksPerPicture - 1 + 1 = t.numTicksPerPicture by omega] at this
    · refine Writes.map _ (Writes.flaggedLast (v := DecoderModelInfo.view) (fun d hd => ?_) (fun hn => by simp [hn]))
      rw [hd]
      exact writes_dmi d (h.decoderModel d hd)

theorem writes_params (n : Nat) (hn : n ≤ 32) (p : OperatingParameters) (h : p.InRange n) :
    Writes (encodeParams n p) (Layout.params n) p.view := by
  obtain ⟨h1, h2, h3, h4, h5, h6⟩ := h
  unfold encodeParams Layout.params
  rw [usub_eq _ _ h1, usub_eq _ _ h3]
  refine Writes.cons (writes_uvlc _ (by omega)) (Writes.cons (writes_uvlc _ (by omega)) (Writes.cons (writes_flag _)
    (Writes.cons (writes_f n _ hn h5) (Writes.cons (writes_f n _ hn h6) ?_))))
  have e : p.view = (⟨p.bitrate - 1 + 1, p.bufferSize - 1 + 1, p.cbr, p.decoderBufferDelay, p.encoderBufferDelay,
    p.lowDelay⟩ : Layout.Params) := by
    unfold OperatingParameters.view; congr 1 <;> omega
  rw [e]
  exact Writes.map _ (Writes.last (writes_flag _))

theorem writes_opModel (dmi : Option DecoderModelInfo) (hd : ∀ d, dmi = some d → d.InRange) (o : OpModel)
    (h : o.InRange dmi) :
    Writes (encodeOpModel dmi o) (Layout.opModel (dmi.map DecoderModelInfo.view)) (o.view dmi) := by
  obtain ⟨h1, h2, h3⟩ := h
  unfold encodeOpModel Layout.opModel
  refine Writes.cons (writes_f 12 _ (by norm_num) h1) (Writes.flagged (v := id) (fun d hd => ?_) (fun hn => by simp [hn])
    (Writes.last ?_))
  · obtain ⟨h4, h5⟩ := h2 d hd
    rw [hd]
    simp only [usub_eq _ _ h4, Option.bind_some]
    have := Writes.map (· + 1) (writes_f 4 (d - 1) (by norm_num) (by omega))
    rwa [show d - 1 + 1 = d by omega] at this
  · have e : o.view dmi = (o.idc, o.initialDisplayDelay.map id, (o.view dmi).2.2) := by simp [OpModel.view]
    rw [e]
    refine Writes.map (fun p => (o.idc, o.initialDisplayDelay.map id, p)) ?_
    cases dmi with
    | none => exact Writes.pure none
    | some d =>
      have hr := hd d rfl
      refine Writes.flaggedLast (fun p hp => ?_) (fun hn => by simp [hn])
      rw [hp]
      exact writes_params _ hr.2.2.2.1 p (h3 d p rfl hp)

theorem writes_opModels (sh : SeqHeader) (c : SeqCtx) (h : SeqOk sh c) :
    Writes (encodeOpModels sh c) (Layout.opModels ((dmiAfter sh c).map DecoderModelInfo.view))
      (c.opModels.map (OpModel.view (dmiAfter sh c))) := by
  have hl := h.opModels
  unfold encodeOpModels Layout.opModels
  refine Writes.cons (writes_flag _) (Writes.last ?_)
  by_cases h0 : c.opModels.length > 0
  · simp only [h0, decide_true, if_true]
    refine Writes.cons (writes_f 5 _ (by norm_num) (by omega)) ?_
    rw [show c.opModels.length - 1 + 1 = c.opModels.length by omega]
    refine writes_manyMap _ _ _ _ (fun o ho => writes_opModel _ (fun d hd => ?_) o (h.opModel o ho))
    unfold dmiAfter at hd
    split at hd
    · exact h.decoderModel d hd
    · cases hd
  · simp only [h0, decide_false, if_false, Bool.false_eq_true]
    rw [List.length_eq_zero_iff.1 (by omega : c.opModels.length = 0)]
    exact Writes.pure []

/-- Reading the whole header back. -/
theorem writes_sequence (sh : SeqHeader) (c : SeqCtx) (h : SeqOk sh c) :
    Writes (encodeSeqHeader sh c) Layout.sequence (seqView sh c) := by
  have hp := h.profile
  unfold encodeSeqHeader Layout.sequence
  refine Writes.cons (writes_f 3 _ (by norm_num) (by omega)) (Writes.cons (writes_flag _) (Writes.cons (writes_flag _)
    (Writes.cons (writes_ops sh c h) (Writes.cons
      (writes_size sh h.width.1 h.width.2 h.height.1 h.height.2 h.maxWidth h.maxHeight)
    (Writes.cons (writes_frameId sh c h) ?_)))))
  unfold encodeTools
  refine Writes.flat ?_
  simp only [List.cons_append, List.nil_append]
  refine Writes.cons (writes_flag _) (Writes.cons (writes_flag _) (Writes.cons (writes_flag _) (Writes.cons
    (v := (seqView sh c).tools) ?_ (Writes.cons (writes_flag _) (Writes.cons (writes_flag _) (Writes.cons (writes_flag _)
    (Writes.cons (writes_color sh c h) (Writes.cons (writes_timing sh c h) (Writes.cons
    (v := (seqView sh c).opModels) ?_ (Writes.last (Writes.map _ (writes_flag _))))))))))))
  · unfold seqView
    cases c.reduced with
    | true => exact Writes.pure none
    | false => exact Writes.map some (writes_tools sh c h)
  · have := writes_opModels sh c h
    have e : (dmiAfter sh c).map DecoderModelInfo.view =
        ((timingAfter c).map (timingView sh)).bind (·.decoderModel) := by
      unfold dmiAfter
      cases timingAfter c <;> simp [timingView]
    rw [e] at this
    exact this

end Av1
