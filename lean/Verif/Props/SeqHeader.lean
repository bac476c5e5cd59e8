import Verif.Lemmas.SeqHeader
import Verif.Spec.Obu

/-! # C29, C30, C50, C51: the sequence header -/

namespace Av1

/-- What `main` encodes (main.rs 111–115). -/
def runHeader (w h : Nat) : Option Raw := encodeSeqHeader (SeqHeader.new w h) SeqCtx.new

/-! ## C29 -/

/-- **C29**, full claim: a reader following the AV1 syntax finds the size, whatever follows the header. -/
def C29_full : Prop := ∀ w h, 1 ≤ w → w ≤ 8191 → 1 ≤ h → h ≤ 8191 →
  ∃ e, runHeader w h = some (raw e) ∧ ∀ rest, (Syntax.sequenceSize (e ++ rest)).map (·.1) = some (w, h)

theorem seqOk_new (w h : Nat) (hw : 3 ≤ w) (hw2 : w < 2 ^ 16) (hh : 3 ≤ h) (hh2 : h < 2 ^ 16) :
    SeqOk (SeqHeader.new w h) SeqCtx.new where
  profile := by simp [SeqHeader.new]
  ops := by simp [SeqHeader.new]
  op := by simp [SeqHeader.new]
  width := ⟨hw, hw2⟩
  height := ⟨hh, hh2⟩
  maxWidth := rfl
  maxHeight := rfl
  frameId := by simp [SeqHeader.new]
  reducedId := by simp [SeqHeader.new]
  sct := by simp [SeqCtx.new]
  imv := by simp [SeqCtx.new]
  orderHintBits := by simp [SeqCtx.new]
  description := by simp [SeqCtx.new]
  position := by simp [SeqCtx.new]
  timing := by simp [SeqCtx.new]
  decoderModel := by simp [SeqHeader.new]
  opModels := by simp [SeqCtx.new]
  opModel := by simp [SeqCtx.new]

/-- The header of a 176x144 run. -/
def qcifBits : Bits := toBits 56 0x19978f400020

/-- **C29** is false, for the very size `main` reads frames of: the code writes a private layout, and a decoder that
follows AV1 takes other bits for the size. -/
theorem C29_negation : ¬ C29_full := by
  intro h
  obtain ⟨e, he, hr⟩ := h 176 144 (by decide) (by decide) (by decide) (by decide)
  have hq : runHeader 176 144 = some (raw qcifBits) := by decide +kernel
  rw [hq] at he
  rw [← raw_inj (Option.some.inj he)] at hr
  exact absurd (hr (List.replicate 60 false)) (by decide +kernel)

/-- The bits `encodeSize` writes begin with the two lengths, each one less than AV1 asks for. -/
theorem encodeSize_lengths (sh : SeqHeader) (h1 : 3 ≤ sh.width) (h2 : sh.width < 2 ^ 16) (h3 : 3 ≤ sh.height)
    (h4 : sh.height < 2 ^ 16) (h5 : sh.maxWidth = sh.width) (h6 : sh.maxHeight = sh.height) :
    ∃ e, encodeSize sh = some (raw (toBits 4 ((sh.width - 1).log2 - 1) ++ (toBits 4 ((sh.height - 1).log2 - 1) ++ e))) := by
  have l16 : ∀ w, 3 ≤ w → w < 2 ^ 16 → w.log2 - 1 + 1 ≤ 32 := by
    intro w h h2
    have := (Nat.log2_lt (n := w) (k := 16) (by omega)).2 h2
    omega
  unfold encodeSize
  rw [h5, h6, usub_eq sh.width 1 (by omega), usub_eq sh.height 1 (by omega),
    msbMinus1_eq sh.width (by omega) h2, msbMinus1_eq sh.height (by omega) h4]
  simp only [Option.bind_eq_bind, Option.bind_some, msbMinus1_eq (sh.width - 1) (by omega) (by omega),
    msbMinus1_eq (sh.height - 1) (by omega) (by omega)]
  rw [pushN_eq _ 4 (by norm_num), pushN_eq _ 4 (by norm_num), pushN_eq _ _ (l16 _ h1 h2), pushN_eq _ _ (l16 _ h3 h4)]
  exact ⟨toBits (sh.width.log2 - 1 + 1) (sh.width - 1) ++ toBits (sh.height.log2 - 1 + 1) (sh.height - 1),
    by simp [cat_cons, cat_nil, raw_append]⟩

/-- **C29**, for every size: even a reader that has found the size fields, and whatever follows them, reads a width and
a height that are both too small — the two length fields are one too low, so the true values do not fit. -/
theorem C29_fields_wrong (sh : SeqHeader) (h1 : 3 ≤ sh.width) (h2 : sh.width < 2 ^ 16) (h3 : 3 ≤ sh.height)
    (h4 : sh.height < 2 ^ 16) (h5 : sh.maxWidth = sh.width) (h6 : sh.maxHeight = sh.height) :
    ∃ e, encodeSize sh = some (raw e) ∧ ∀ rest w h r, Syntax.sizeFields (e ++ rest) = some ((w, h), r) →
      w < sh.width ∧ h < sh.height := by
  obtain ⟨e, he⟩ := encodeSize_lengths sh h1 h2 h3 h4 h5 h6
  refine ⟨_, he, ?_⟩
  intro rest w h r hs
  have bound : ∀ x, 3 ≤ x → x < 2 ^ 16 → (x - 1).log2 - 1 < 2 ^ 4 ∧ 2 ^ ((x - 1).log2 - 1 + 1) < x := by
    intro x ha hb
    have := (Nat.log2_lt (n := x - 1) (k := 16) (by omega)).2 (by omega)
    have hp := log2_pred_pos x ha
    have := Nat.log2_self_le (n := x - 1) (by omega)
    rw [show (x - 1).log2 - 1 + 1 = (x - 1).log2 by omega]
    omega
  have bw := bound _ h1 h2
  have bh := bound _ h3 h4
  unfold Syntax.sizeFields at hs
  rw [List.append_assoc, List.append_assoc] at hs
  rw [P_bind, reads_f 4 _ bw.1, Option.bind_some, P_bind, reads_f 4 _ bh.1, Option.bind_some, P_bind] at hs
  obtain ⟨⟨a, r1⟩, ha, hs⟩ := Option.bind_eq_some_iff.1 hs
  rw [P_bind] at hs
  obtain ⟨⟨b, r2⟩, hb, hs⟩ := Option.bind_eq_some_iff.1 hs
  have la := f_lt ha
  have lb := f_lt hb
  change some ((a + 1, b + 1), r2) = _ at hs
  simp only [Option.some.injEq, Prod.mk.injEq] at hs la lb
  omega

/-- For a video of 176x144 such a reader finds 48x16. -/
example : encodeSize (SeqHeader.new 176 144) = some (raw (toBits 22 0x19978f)) ∧
    Syntax.sizeFields (toBits 22 0x19978f) = some ((48, 16), []) := by decide +kernel

/-- **C29**, what holds: the header is a code word of the code's own layout and the size is recovered from it whatever
follows.  Missing: the layout is not AV1's, and widths and heights of 1 and 2 have no header. -/
theorem C29_size_partial (w h : Nat) (hw : 3 ≤ w) (hw2 : w ≤ 8191) (hh : 3 ≤ h) (hh2 : h ≤ 8191) :
    ∃ e, runHeader w h = some (raw e) ∧ ∀ rest, ∃ s, Layout.sequence (e ++ rest) = some (s, rest) ∧ s.size = (w, h) := by
  obtain ⟨e, he, hr⟩ := writes_sequence _ _ (seqOk_new w h hw (by omega) hh (by omega))
  exact ⟨e, he, fun rest => ⟨_, hr rest, rfl⟩⟩

/-- **C29**, consequence: different sizes never share a header, even as prefixes of longer streams. -/
theorem C29_injective (w h w' h' : Nat) (hw : 3 ≤ w ∧ w ≤ 8191) (hh : 3 ≤ h ∧ h ≤ 8191) (hw' : 3 ≤ w' ∧ w' ≤ 8191)
    (hh' : 3 ≤ h' ∧ h' ≤ 8191) (e e' r r' : Bits) (he : runHeader w h = some (raw e))
    (he' : runHeader w' h' = some (raw e')) (hs : e ++ r = e' ++ r') : (w, h) = (w', h') := by
  obtain ⟨d, hd, h1⟩ := C29_size_partial w h hw.1 hw.2 hh.1 hh.2
  obtain ⟨d', hd', h2⟩ := C29_size_partial w' h' hw'.1 hw'.2 hh'.1 hh'.2
  rw [he] at hd
  rw [he'] at hd'
  rw [← raw_inj (Option.some.inj hd)] at h1
  rw [← raw_inj (Option.some.inj hd')] at h2
  obtain ⟨s, a1, a2⟩ := h1 r
  obtain ⟨t, b1, b2⟩ := h2 r'
  rw [hs, b1] at a1
  simp only [Option.some.injEq, Prod.mk.injEq] at a1
  rw [← a2, ← b2, a1.1]

/-! ## C30 -/

/-- **C30**, full claim: every size the command line accepts (C24) gets a header. -/
def C30_full : Prop := ∀ w h, 1 ≤ w → w ≤ 8191 → 1 ≤ h → h ≤ 8191 → (runHeader w h).isSome

theorem msbMinus1_small (x : Nat) (h : x ≤ 1) : msbMinus1 x = none := by
  have : x = 0 ∨ x = 1 := by omega
  rcases this with rfl | rfl <;> decide

theorem runHeader_none (w h : Nat) (hs : encodeSize (SeqHeader.new w h) = none) : runHeader w h = none := by
  unfold runHeader encodeSeqHeader
  apply cat_none
  rw [hs]
  simp

/-- **C30**, exactly: the header is produced iff both dimensions are at least 3; a width or height of 1 or 2 panics
(`msb16(..) - 1` underflows). -/
theorem C30_exact_partial (w h : Nat) (hw : 1 ≤ w) (hw2 : w ≤ 8191) (hh : 1 ≤ h) (hh2 : h ≤ 8191) :
    (runHeader w h).isSome ↔ 3 ≤ w ∧ 3 ≤ h := by
  constructor
  · intro hi
    by_contra hn
    have : runHeader w h = none := by
      apply runHeader_none
      unfold encodeSize
      rw [show (SeqHeader.new w h).width = w from rfl, show (SeqHeader.new w h).height = h from rfl, usub_eq w 1 hw,
        usub_eq h 1 hh]
      simp only [Option.bind_eq_bind, Option.bind_some]
      by_cases h3 : 3 ≤ w
      · rw [msbMinus1_small (h - 1) (by omega)]
        cases msbMinus1 (w - 1) <;> rfl
      · rw [msbMinus1_small (w - 1) (by omega)]; rfl
    rw [this] at hi
    simp at hi
  · rintro ⟨h1, h2⟩
    obtain ⟨e, he, -⟩ := C29_size_partial w h h1 hw2 h2 hh2
    rw [he]; rfl

/-- **C30** is false. -/
theorem C30_negation : ¬ C30_full := by
  intro h
  have := (C30_exact_partial 2 144 (by decide) (by decide) (by decide) (by decide)).1
    (h 2 144 (by decide) (by decide) (by decide) (by decide))
  omega

/-! ## C50 -/

/-- **C50**. Whatever the settings, as long as each fits its field, the header is written without panic and every
setting it mentions is recovered from it, whatever follows. -/
theorem C50_recoverable (sh : SeqHeader) (c : SeqCtx) (h : SeqOk sh c) :
    ∃ e, encodeSeqHeader sh c = some (raw e) ∧ ∀ rest, Layout.sequence (e ++ rest) = some (seqView sh c, rest) :=
  writes_sequence sh c h

/-- **C50**, hence settings that differ in anything the header mentions get different headers. -/
theorem C50_injective (sh sh' : SeqHeader) (c c' : SeqCtx) (h : SeqOk sh c) (h' : SeqOk sh' c')
    (he : encodeSeqHeader sh c = encodeSeqHeader sh' c') : seqView sh c = seqView sh' c' :=
  (writes_sequence sh c h).unique (he ▸ writes_sequence sh' c' h')

/-- A header that uses most of the syntax. -/
def exSeq : SeqHeader where
  profile := 2
  stillPicture := true
  operatingPoints := [⟨0x101, 5, none⟩, ⟨0x303, 13, some true⟩]
  width := 1920
  height := 1080
  maxWidth := 1920
  maxHeight := 1080
  frameId := some ⟨14, 1⟩
  filterIntra := true
  intraEdgeFilter := false
  interintra := true
  masked := true
  dualFilter := false
  jntComp := true
  chooseSct := false
  chooseIntMv := false
  decoderModel := some ⟨3, 4, 20, 1000, 10, 32⟩

def exCtx : SeqCtx where
  reduced := false
  use128 := false
  warped := true
  orderHint := true
  refFrameMvs := true
  forceSct := 1
  forceIntMv := 1
  orderHintBits := 7
  superres := true
  cdef := true
  restoration := true
  color := ⟨true, true, false, some ⟨9, 16, 9⟩, true, true, true, 1, true⟩
  timing := some ⟨1001, 60000, true, 2⟩
  opModels := [⟨0x101, some 10, some ⟨5000000, 600000, true, 90000, 80000, false⟩⟩, ⟨1, none, none⟩]
  filmGrain := true
  bitDepth := 8
  numPlanes := 3

/-- Non-vacuity of `SeqOk`. -/
theorem exSeq_ok : SeqOk exSeq exCtx where
  profile := by decide
  ops := by decide
  op := by simp [exSeq, OperatingPoint.InRange]
  width := by decide
  height := by decide
  maxWidth := rfl
  maxHeight := rfl
  frameId := by simp [exSeq, FrameId.InRange]
  reducedId := by simp [exCtx]
  sct := by simp [exCtx]
  imv := by simp [exCtx]
  orderHintBits := by simp [exCtx]
  description := by simp [exCtx, ColorDescription.InRange]
  position := by decide
  timing := by simp [exCtx, TimingInfo.InRange]
  decoderModel := by simp [exSeq, DecoderModelInfo.InRange]
  opModels := by decide
  opModel := by
    simp [exCtx, exSeq, OpModel.InRange, dmiAfter, timingAfter, OperatingParameters.InRange]

/-- The ranges are needed: with order hints on and the context as created (order hint bits 0) there is no header. -/
theorem C50_order_hint_panics (sh : SeqHeader) (c : SeqCtx) (h : c.reduced = false) (ho : c.orderHint = true)
    (hb : c.orderHintBits = 0) : encodeSeqHeader sh c = none := by
  have ht : encodeTools sh c = none := by
    unfold encodeTools
    apply cat_none
    rw [h, ho, hb]
    rw [cat_none (l := _ :: _)]
    · simp
    · simp [usub]
  unfold encodeSeqHeader
  apply cat_none
  rw [ht]
  simp

/-! ## C51 -/

/-- **C51**, full claim: encoding the same sequence header again, in the state the first encoding left behind, gives
the same bits. -/
def C51_full : Prop := ∀ sh c, encodeSeqHeader (seqAfter sh c).1 (seqAfter sh c).2 = encodeSeqHeader sh c

/-- **C51** is false for the default settings: the first encoding stores an explicit "unspecified" color description,
which the second one writes out. -/
theorem C51_negation : ¬ C51_full := fun h => absurd (h (SeqHeader.new 176 144) SeqCtx.new) (by decide +kernel)

section again
variable (sh : SeqHeader) (c : SeqCtx)

theorem after_profile : (seqAfter sh c).1.profile = sh.profile := by unfold seqAfter; simp only; split <;> rfl
theorem after_reduced : (seqAfter sh c).2.reduced = c.reduced := by unfold seqAfter; simp only; split <;> rfl
theorem after_high : (seqAfter sh c).2.color.highBitdepth = c.color.highBitdepth := by
  unfold seqAfter; simp only; split <;> rfl
theorem after_twelve : (seqAfter sh c).2.color.twelveBit = c.color.twelveBit := by
  unfold seqAfter; simp only; split <;> rfl
theorem after_color_mono : (seqAfter sh c).2.color.monoChrome = monoAfter sh c := by
  unfold seqAfter; simp only; split <;> rfl
theorem after_color_desc : (seqAfter sh c).2.color.description = some (descAfter c) := by
  unfold seqAfter; simp only; split <;> rfl
theorem after_bitDepth : (seqAfter sh c).2.bitDepth = bitDepthAfter sh c := by
  unfold seqAfter; simp only; split <;> rfl
theorem after_subX : (seqAfter sh c).2.color.subX = (subAfter sh c).1 := by
  unfold seqAfter; simp only; split <;> rfl
theorem after_subY : (seqAfter sh c).2.color.subY = (subAfter sh c).2 := by
  unfold seqAfter; simp only; split <;> rfl
theorem after_timing : (seqAfter sh c).2.timing = timingAfter c := by unfold seqAfter; simp only; split <;> rfl
theorem after_dmi : (seqAfter sh c).1.decoderModel = dmiAfter sh c := by unfold seqAfter; simp only; split <;> rfl
theorem after_range : (seqAfter sh c).2.color.colorRange =
    if !monoAfter sh c && isSrgb (descAfter c) then true else c.color.colorRange := by
  unfold seqAfter; simp only; split <;> rfl
theorem after_position : (seqAfter sh c).2.color.chromaSamplePosition =
    if monoAfter sh c then 0 else c.color.chromaSamplePosition := by
  unfold seqAfter; simp only; split <;> rfl
theorem after_separate : (seqAfter sh c).2.color.separateUvDeltaQ =
    if monoAfter sh c then false else c.color.separateUvDeltaQ := by
  unfold seqAfter; simp only; split <;> rfl

theorem again_mono : monoAfter (seqAfter sh c).1 (seqAfter sh c).2 = monoAfter sh c := by
  unfold monoAfter
  rw [after_profile, after_color_mono]
  unfold monoAfter
  split <;> rfl

theorem again_desc : descAfter (seqAfter sh c).2 = descAfter c := by
  conv_lhs => unfold descAfter
  rw [after_color_desc]; rfl

theorem again_depth : bitDepthAfter (seqAfter sh c).1 (seqAfter sh c).2 = bitDepthAfter sh c := by
  unfold bitDepthAfter
  rw [after_profile, after_high, after_twelve, after_bitDepth]
  unfold bitDepthAfter
  split
  · rfl
  · split <;> rfl

theorem again_sub : subAfter (seqAfter sh c).1 (seqAfter sh c).2 = subAfter sh c := by
  conv_lhs => unfold subAfter
  rw [again_mono, again_desc, after_profile, again_depth, after_subX, after_subY]
  unfold subAfter
  split_ifs <;> simp_all

theorem again_timing : timingAfter (seqAfter sh c).2 = timingAfter c := by
  conv_lhs => unfold timingAfter
  rw [after_reduced, after_timing]
  unfold timingAfter
  split <;> rfl

theorem again_dmi : dmiAfter (seqAfter sh c).1 (seqAfter sh c).2 = dmiAfter sh c := by
  conv_lhs => unfold dmiAfter
  rw [again_timing, after_dmi]
  unfold dmiAfter
  split <;> rfl

theorem again_sct (hr : c.reduced = false) : sctAfter (seqAfter sh c).1 (seqAfter sh c).2 = sctAfter sh c := by
  unfold sctAfter seqAfter
  simp only [hr, Bool.false_eq_true, if_false, sctAfter]
  split <;> rfl

theorem again_color (h : c.color.description.isSome) :
    encodeColor (seqAfter sh c).1 (seqAfter sh c).2 = encodeColor sh c := by
  obtain ⟨d, hd⟩ := Option.isSome_iff_exists.1 h
  have hd' : descAfter c = d := by rw [descAfter, hd]; rfl
  unfold encodeColor
  rw [again_mono, again_desc, again_sub, again_depth, after_profile, after_high, after_twelve, after_color_mono,
    after_color_desc, after_range, after_position, after_separate, after_subX, after_subY, hd', hd]
  by_cases h1 : sh.profile = 1
  · by_cases hs : isSrgb d = true <;> simp [h1, monoAfter, hs, hd']
  · by_cases hm : c.color.monoChrome = true
    · simp [h1, monoAfter, hm]
    · by_cases hs : isSrgb d = true
      · simp [h1, monoAfter, hs, hm, hd']
      · by_cases h0 : sh.profile = 0
        · simp [h0, monoAfter, hs, hm, hd']
        · by_cases hb : bitDepthAfter sh c = 12
          · cases hx : c.color.subX <;> simp [h0, h1, monoAfter, hs, hm, hb, hd', subAfter, hx]
          · simp [h0, h1, monoAfter, hs, hm, hb, hd']

theorem again_timing_bits :
    encodeTiming (seqAfter sh c).1 (seqAfter sh c).2 = encodeTiming sh c := by
  unfold encodeTiming
  rw [after_reduced, again_timing, after_timing, after_dmi]
  unfold dmiAfter
  cases hr : c.reduced with
  | true => simp [timingAfter, hr]
  | false =>
    cases ht : c.timing with
    | none => simp [timingAfter, hr, ht]
    | some t => simp [timingAfter, hr, ht]

theorem again_tools : encodeTools (seqAfter sh c).1 (seqAfter sh c).2 = encodeTools sh c := by
  cases hr : c.reduced with
  | true => unfold encodeTools; rw [after_reduced]; simp only [hr, if_true]; simp [seqAfter, hr]
  | false =>
    unfold encodeTools
    rw [after_reduced, again_sct sh c hr]
    simp only [hr, Bool.false_eq_true, if_false]
    simp only [seqAfter, hr, Bool.false_eq_true, if_false]
    cases ho : c.orderHint <;> cases hc : sh.chooseSct <;> cases hi : sh.chooseIntMv <;>
      rcases Nat.eq_zero_or_pos c.forceSct with h0 | h0 <;> simp [sctAfter, hc, hi, h0, selectSct]

end again

/-- **C51**, what holds: with a color description given, encoding again gives the same bits.  Missing: the case
without a description. -/
theorem C51_again_partial (sh : SeqHeader) (c : SeqCtx) (h : c.color.description.isSome) :
    encodeSeqHeader (seqAfter sh c).1 (seqAfter sh c).2 = encodeSeqHeader sh c := by
  have hops : encodeOps' (seqAfter sh c).1 (seqAfter sh c).2 = encodeOps' sh c := by
    unfold encodeOps'; rw [after_reduced]; unfold seqAfter; simp only; split <;> rfl
  have hsize : encodeSize (seqAfter sh c).1 = encodeSize sh := by
    unfold encodeSize seqAfter; simp only; split <;> rfl
  have hid : encodeFrameId (seqAfter sh c).1 (seqAfter sh c).2 = encodeFrameId sh c := by
    unfold encodeFrameId; rw [after_reduced]; unfold seqAfter; simp only; split <;> rfl
  have hom : encodeOpModels (seqAfter sh c).1 (seqAfter sh c).2 = encodeOpModels sh c := by
    unfold encodeOpModels; rw [again_dmi]; unfold seqAfter; simp only; split <;> rfl
  unfold encodeSeqHeader
  rw [hops, hsize, hid, again_tools, again_color sh c h, again_timing_bits, hom, after_profile, after_reduced]
  unfold seqAfter; simp only; split <;> rfl

/-- Non-vacuity. -/
example : exCtx.color.description.isSome := rfl

/-- From the second encoding on nothing changes any more. -/
theorem C51_stable (sh : SeqHeader) (c : SeqCtx) :
    let s1 := seqAfter sh c
    let s2 := seqAfter s1.1 s1.2
    encodeSeqHeader s2.1 s2.2 = encodeSeqHeader s1.1 s1.2 :=
  C51_again_partial _ _ (by rw [after_color_desc]; rfl)

section lengths

/-- The number of bits written. -/
def bitCount (x : Option Raw) : Option Nat := x.map List.length

theorem bitCount_cat (x : Option Raw) (xs : List (Option Raw)) :
    bitCount (cat (x :: xs)) = (bitCount x).bind fun a => (bitCount (cat xs)).map (a + ·) := by
  rw [cat_cons]
  cases x <;> cases cat xs <;> simp [bitCount]

theorem bitCount_nil : bitCount (cat []) = some 0 := rfl

end lengths

/-- The same context with the default color description written out. -/
def described (c : SeqCtx) : SeqCtx := { c with color := { c.color with description := some (descAfter c) } }

theorem after_described (sh : SeqHeader) (c : SeqCtx) : seqAfter sh (described c) = seqAfter sh c := by
  unfold seqAfter monoAfter subAfter bitDepthAfter dmiAfter timingAfter sctAfter descAfter described
  rfl

theorem color_longer (sh : SeqHeader) (c : SeqCtx) (h : c.color.description = none) :
    bitCount (encodeColor sh (described c)) = (bitCount (encodeColor sh c)).map (· + 24) := by
  have hd : descAfter (described c) = descAfter c := rfl
  have hm : monoAfter sh (described c) = monoAfter sh c := rfl
  have hb : bitDepthAfter sh (described c) = bitDepthAfter sh c := rfl
  have hs : subAfter sh (described c) = subAfter sh c := rfl
  have h24 : bitCount (cat [pushN (descAfter c).primaries 8, pushN (descAfter c).transfer 8, pushN (descAfter c).matrix 8]) = some 24 := by
    simp [cat_cons, cat_nil, pushN_eq, bitCount, raw]
  have key : ∀ x1 x2 x3 y x4 x5 : Option Raw, bitCount y = some 24 →
      bitCount (cat [x1, x2, x3, pushB true, y, x4, x5]) =
        (bitCount (cat [x1, x2, x3, pushB false, cat [], x4, x5])).map (· + 24) := by
    intro x1 x2 x3 y x4 x5 hy
    simp only [bitCount_cat, bitCount_nil, hy]
    have hbit : ∀ b, bitCount (pushB b) = some 1 := fun b => rfl
    simp only [hbit]
    cases bitCount x1 <;> cases bitCount x2 <;> cases bitCount x3 <;> cases bitCount x4 <;> cases bitCount x5 <;> simp
    omega
  unfold encodeColor
  rw [hd, hm, hb, hs, h]
  exact key _ _ _ _ _ _ h24

/-- **C51**, the exact condition: a header that can be encoded is encoded the same the second time if and only if a color
description was given; otherwise the second encoding is 24 bits longer (the description the encoder filled in). -/
theorem C51_iff (sh : SeqHeader) (c : SeqCtx) (b : Raw) (hb : encodeSeqHeader sh c = some b) :
    (encodeSeqHeader (seqAfter sh c).1 (seqAfter sh c).2 = some b ↔ c.color.description.isSome) ∧
    ∃ b', encodeSeqHeader (seqAfter sh c).1 (seqAfter sh c).2 = some b' ∧
      b'.length = b.length + if c.color.description.isSome then 0 else 24 := by
  cases hd : c.color.description with
  | some d =>
    have := C51_again_partial sh c (by rw [hd]; rfl)
    rw [this, hb]
    exact ⟨by simp, b, rfl, rfl⟩
  | none =>
    have e : encodeSeqHeader (seqAfter sh c).1 (seqAfter sh c).2 = encodeSeqHeader sh (described c) := by
      rw [← after_described]
      exact C51_again_partial sh (described c) rfl
    have hlen : bitCount (encodeSeqHeader sh (described c)) = (bitCount (encodeSeqHeader sh c)).map (· + 24) := by
      have e1 : encodeOps' sh (described c) = encodeOps' sh c := rfl
      have e2 : encodeFrameId sh (described c) = encodeFrameId sh c := rfl
      have e3 : encodeTools sh (described c) = encodeTools sh c := rfl
      have e4 : encodeTiming sh (described c) = encodeTiming sh c := rfl
      have e5 : encodeOpModels sh (described c) = encodeOpModels sh c := rfl
      unfold encodeSeqHeader
      rw [e1, e2, e3, e4, e5]
      simp only [bitCount_cat, bitCount_nil, color_longer sh c hd]
      generalize bitCount (encodeOps' sh c) = x1
      generalize bitCount (encodeSize sh) = x2
      generalize bitCount (encodeFrameId sh c) = x3
      generalize bitCount (encodeTools sh c) = x4
      generalize bitCount (encodeColor sh c) = x5
      generalize bitCount (encodeTiming sh c) = x6
      generalize bitCount (encodeOpModels sh c) = x7
      have hbit : ∀ b, bitCount (pushB b) = some 1 := fun b => rfl
      have hp : bitCount (pushN sh.profile 3) = some 3 := by simp [pushN_eq, bitCount, raw]
      simp only [described, hbit, hp]
      cases x1 <;> try rfl
      cases x2 <;> try rfl
      cases x3 <;> try rfl
      cases x4 <;> try rfl
      cases x5 <;> try rfl
      cases x6 <;> try rfl
      cases x7 <;> try rfl
      simp
      omega
    rw [e]
    rw [hb] at hlen
    cases hx : encodeSeqHeader sh (described c) with
    | none => rw [hx] at hlen; cases hlen
    | some b' =>
      rw [hx] at hlen
      simp only [bitCount, Option.map_some, Option.some.injEq] at hlen
      refine ⟨?_, b', rfl, by simpa using hlen⟩
      simp only [Option.some.injEq, Option.isSome_none, Bool.false_eq_true, iff_false]
      rintro rfl
      omega

/-- The header of a new session has no description: 24 bits more the second time. -/
example : ∃ b b', encodeSeqHeader (SeqHeader.new 176 144) SeqCtx.new = some b ∧
    encodeSeqHeader (seqAfter (SeqHeader.new 176 144) SeqCtx.new).1 (seqAfter (SeqHeader.new 176 144) SeqCtx.new).2 = some b' ∧
    b'.length = b.length + 24 := by
  obtain ⟨b, hb⟩ : ∃ b, encodeSeqHeader (SeqHeader.new 176 144) SeqCtx.new = some b :=
    Option.isSome_iff_exists.1 (by decide +kernel)
  obtain ⟨-, b', h1, h2⟩ := C51_iff _ _ b hb
  exact ⟨b, b', hb, h1, h2⟩

end Av1
