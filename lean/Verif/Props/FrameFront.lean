import Verif.Lemmas.FrameFront
import Verif.Model.FrameWhole
import Verif.Props.Util
import Verif.Props.FrameFilters
import Mathlib.Tactic.IntervalCases

/-! # C89–C92: the frame header up to tile info -/

namespace Av1

/-! ## C90: which references stay valid -/

/-- How far the frame with id `r` lies behind the current one on the circle of `2^n` ids. -/
def idDistance (cur r n : Nat) : Nat := (cur + 2 ^ n - r) % 2 ^ n

theorem staleRef_spec (cur diff n r : Nat) (hc : cur < 2 ^ n) (hr : r < 2 ^ n) (hd : diff ≤ n) :
    staleRef cur diff n r = some (decide (2 ^ diff < idDistance cur r n)) := by
  have hp : 2 ^ diff ≤ 2 ^ n := Nat.pow_le_pow_right (by decide) hd
  have hdist : idDistance cur r n = if r ≤ cur then cur - r else cur + 2 ^ n - r := by
    unfold idDistance
    split
    · rename_i h
      rw [show cur + 2 ^ n - r = (cur - r) + 2 ^ n by omega, Nat.add_mod_right, Nat.mod_eq_of_lt (by omega)]
    · rename_i h
      rw [Nat.mod_eq_of_lt (by omega)]
  unfold staleRef
  rw [hdist, Nat.shiftLeft_eq, Nat.shiftLeft_eq, Nat.one_mul, Nat.one_mul]
  by_cases h1 : cur > 2 ^ diff
  · rw [if_pos h1]
    congr 1
    rw [Bool.eq_iff_iff]
    simp only [Bool.or_eq_true, decide_eq_true_eq]
    split <;> omega
  · rw [if_neg h1, usub_eq _ _ (by omega)]
    simp only [Option.bind_eq_bind, Option.bind_some]
    congr 1
    rw [Bool.eq_iff_iff]
    simp only [Bool.and_eq_true, decide_eq_true_eq]
    split <;> omega

/-- **C90.** After a header with frame ids a reference is valid exactly if it was before and lies at most
`2^delta_frame_id_length` behind the current frame. -/
theorem C90_valid_refs (cur diff n : Nat) (hc : cur < 2 ^ n) (hd : diff ≤ n) : ∀ (ids : List Nat) (valid : List Bool),
    (∀ r ∈ ids, r < 2 ^ n) → ids.length = valid.length →
    ∃ v, markRefs cur diff n ids valid = some v ∧ v.length = valid.length ∧
      ∀ (i r : Nat), ids[i]? = some r →
        (v[i]? = some true ↔ valid[i]? = some true ∧ idDistance cur r n ≤ 2 ^ diff)
  | [], [], _, _ => ⟨[], rfl, rfl, by simp⟩
  | [], _ :: _, _, h => by simp at h
  | _ :: _, [], _, h => by simp at h
  | r :: ids, b :: valid, hr, hl => by
    obtain ⟨v, h1, h2, h3⟩ := C90_valid_refs cur diff n hc hd ids valid (fun x hx => hr x (by simp [hx])) (by simpa using hl)
    refine ⟨(if decide (2 ^ diff < idDistance cur r n) then false else b) :: v, ?_, by simp [h2], ?_⟩
    · unfold markRefs at h1 ⊢
      rw [List.zip_cons_cons, List.mapM_cons, h1]
      simp only [staleRef_spec cur diff n r hc (hr r (by simp)) hd]
      rfl
    · intro i r' hi
      cases i with
      | zero =>
        simp only [List.getElem?_cons_zero, Option.some.injEq] at hi ⊢
        subst hi
        by_cases hq : 2 ^ diff < idDistance cur r n <;> simp [hq] <;> omega
      | succ i =>
        simp only [List.getElem?_cons_succ] at hi ⊢
        exact h3 i r' hi

example : markRefs 3 2 4 [2, 15, 14, 4, 3] [true, true, true, true, false] = some [true, true, false, false, false] := by decide

/-- **C90.** A valid reference other than the current frame can be named: its distance fits the field of an inter frame,
and the id a decoder expects is its own. -/
theorem C90_named (c : HCtx) (n r : Nat) (hc : c.currentId < 2 ^ n) (hr : r < 2 ^ n) (hne : r ≠ c.currentId)
    (hv : idDistance c.currentId r n ≤ 2 ^ c.deltaLen) :
    1 ≤ idDistance c.currentId r n ∧ idDistance c.currentId r n - 1 < 2 ^ c.deltaLen ∧
      expectedOf c n (idDistance c.currentId r n) = some r := by
  have hp : 0 < 2 ^ n := by positivity
  have hdist : idDistance c.currentId r n = if r ≤ c.currentId then c.currentId - r else c.currentId + 2 ^ n - r := by
    unfold idDistance
    split
    · rename_i h
      rw [show c.currentId + 2 ^ n - r = (c.currentId - r) + 2 ^ n by omega, Nat.add_mod_right, Nat.mod_eq_of_lt (by omega)]
    · rename_i h
      rw [Nat.mod_eq_of_lt (by omega)]
  rw [hdist] at hv ⊢
  have hpd : 0 < 2 ^ c.deltaLen := by positivity
  refine ⟨by split <;> omega, by split at hv <;> split <;> omega, ?_⟩
  unfold expectedOf
  rw [Nat.shiftLeft_eq, Nat.one_mul]
  split
  · rename_i h
    rw [usub_eq _ _ (by omega)]
    simp only [Option.bind_eq_bind, Option.bind_some]
    congr 1
    rw [show c.currentId + 2 ^ n - (c.currentId - r) = r + 2 ^ n by omega, Nat.add_mod_right, Nat.mod_eq_of_lt hr]
  · rw [usub_eq _ _ (by omega)]
    simp only [Option.bind_eq_bind, Option.bind_some]
    congr 1
    rw [show c.currentId + 2 ^ n - (c.currentId + 2 ^ n - r) = r by omega, Nat.mod_eq_of_lt hr]

/-- Beyond that distance the field cannot hold it: exactly the invalid references cannot be named. -/
theorem C90_unnamed (c : HCtx) (n r : Nat) (hv : 2 ^ c.deltaLen < idDistance c.currentId r n) :
    ¬ idDistance c.currentId r n - 1 < 2 ^ c.deltaLen := by omega

/-! ## C89: showing an existing frame -/

/-- What a user relies on: the decoder is told which frame to show, and the frame after it has a header of its own. -/
def C89_full : Prop := ∀ (s : Hdr.SeqInfo) (w : Whole), Agrees s w.c w.f → FrontOk w.c w.f → w.c.Ok → w.c.seen = false →
  w.c.reduced = false → w.c.showExisting = true →
  Writes (frameHeaderBits w) (Hdr.header s) (.inl ⟨w.c.showIdx, timeOf w.c w.f, if w.c.idsPresent then w.f.displayId else none⟩) ∧
  ∀ w', frameHeaderAfter w = some w' → ∀ g, frameHeaderBits { w' with c := { w'.c with showExisting := false }, f := g } ≠ some []

/-- **C89, partial.** The header is read as the frame to show, its time and its id. Missing: the next frame
(`C89_next_empty`). -/
theorem C89_read_back_partial (s : Hdr.SeqInfo) (w : Whole) (h : Agrees s w.c w.f) (ho : FrontOk w.c w.f) (hk : w.c.Ok)
    (hseen : w.c.seen = false) (hred : w.c.reduced = false) (hex : w.c.showExisting = true) :
    Writes (frameHeaderBits w) (Hdr.header s)
      (.inl ⟨w.c.showIdx, timeOf w.c w.f, if w.c.idsPresent then w.f.displayId else none⟩) := by
  have hlt : w.c.showIdx < w.c.refType.length := by rw [hk.refType]; exact ho.show_
  have hbits : ∃ n, idLenOf w.c w.idLen = some n ∧ existingBits w.c w.f n = existingBits w.c w.f (w.c.additionalLen + w.c.deltaLen) := by
    cases hi : w.c.idsPresent with
    | true => exact ⟨_, idLenOf_eq s w.c w.f h hi w.idLen, rfl⟩
    | false =>
      refine ⟨w.idLen, by simp [idLenOf, hi], ?_⟩
      unfold existingBits; rw [hi]; rfl
  obtain ⟨n, hn, he⟩ := hbits
  have e : frameHeaderBits w = cat [pushB true, existingBits w.c w.f (w.c.additionalLen + w.c.deltaLen)] := by
    unfold frameHeaderBits existingAfter
    simp only [hseen, hred, hex, Bool.false_eq_true, if_false, Bool.not_false, Bool.and_self, if_true, hn,
      Option.bind_eq_bind, Option.bind_some, List.getElem?_eq_getElem hlt, he]
  rw [e]
  unfold Hdr.header
  rw [h.reduced, hred]
  simp only [Bool.false_eq_true, if_false]
  refine Writes.cons (writes_flag true) ?_
  simp only [if_true]
  exact Writes.last (Writes.map Sum.inl (writes_existing s w.c w.f h ho))

/-- `return` leaves `seen_frame_header` set: whatever frame comes next gets no header at all. -/
theorem C89_next_empty (w w' : Whole) (hseen : w.c.seen = false) (hred : w.c.reduced = false) (hex : w.c.showExisting = true)
    (ha : frameHeaderAfter w = some w') (b : Bool) (g : HFrame) :
    frameHeaderBits { w' with c := { w'.c with showExisting := b }, f := g } = some [] := by
  have hs : w'.c.seen = true := by
    unfold frameHeaderAfter existingAfter at ha
    simp only [hseen, hred, hex, Bool.false_eq_true, if_false, Bool.not_false, Bool.and_self, if_true,
      Option.bind_eq_bind] at ha
    cases h1 : idLenOf w.c w.idLen with
    | none => simp [h1] at ha
    | some n =>
      cases h2 : w.c.refType[w.c.showIdx]? with
      | none => simp [h1, h2] at ha
      | some t =>
        simp only [h1, h2, Option.bind_some, Option.some.injEq] at ha
        rw [← ha]
  unfold frameHeaderBits
  simp only [hs, if_true]

theorem HCtx.new_ok : HCtx.new.Ok := ⟨rfl, rfl, rfl, rfl, rfl, rfl⟩

/-- A sequence of 352x288 frames without options. -/
def plainSeq : Hdr.SeqInfo where
  reduced := false
  model := none
  equalInterval := false
  ids := none
  forceSct := 0
  forceIntMv := 0
  enableOrderHint := false
  orderHintBits := 0
  ops := []
  temporalId := 0
  spatialId := 0
  maxWidth := 352
  maxHeight := 288
  widthBits := 9
  heightBits := 9
  superres := false
  refMvs := false

/-- A context that shows frame 2 of a sequence with frame ids, a decoder model and presentation times. -/
def showTwo : HCtx := { HCtx.new with showExisting := true, showIdx := 2, idsPresent := true, additionalLen := 3, deltaLen := 4 }
def showTwoFrame : HFrame := { HFrame.new .key 352 288 with dmi := some ⟨true, 10, 5, 12⟩, pointInfo := some 77, displayId := some 100 }
def showTwoSeq : Hdr.SeqInfo := { plainSeq with model := some (10, 12), ids := some (4, 7) }

theorem showTwo_agrees : Agrees showTwoSeq showTwo showTwoFrame ∧ FrontOk showTwo showTwoFrame := by
  refine ⟨?_, ?_⟩
  · constructor <;> first | rfl | decide
  · constructor
    · decide
    · intro d hd
      obtain rfl : (⟨true, 10, 5, 12⟩ : FrameDmi) = d := Option.some.inj hd
      exact ⟨by decide, by decide, by decide, by decide, by decide, 77, rfl, by decide⟩
    · intro _; exact ⟨100, rfl, by decide⟩
    all_goals decide

/-- Parameters of the rest of a header. -/
def wholeSample (c : HCtx) (f : HFrame) : Whole where
  c := c
  f := f
  idLen := 0
  hintBits := 0
  ctxHintBits := 0
  tile := ⟨0, 0, true, false, 1, 1, 0, 0, [], []⟩
  quant := ⟨0, 0, 0, 0, 0, 0, false, false, 0, 0, 0⟩
  seg := ⟨false, false, false, false, List.replicate 8 (List.replicate 7 none)⟩
  deltas := ⟨false, 0, false, 0, false⟩
  currentQ := 0
  lf := ⟨[0, 0, 0, 0], 0, false, false, List.replicate 8 false, List.replicate 8 0, [false, false], [0, 0]⟩
  cdef := ⟨0, 0, [], [], [], []⟩
  lr := ⟨0, 0, 0, 0, [0, 0, 0]⟩
  enableRestoration := false
  txSelect := false
  refSelect := false
  skipPresent := false
  enableWarped := false
  allowWarped := false
  reducedTx := false
  gm := ⟨List.replicate 8 ⟨false, false, false⟩, List.replicate 8 0, List.replicate 8 (List.replicate 6 0), List.replicate 8 (List.replicate 6 0)⟩
  grain := none
  grainRefs := List.replicate 8 Grain.new
  planes := 3
  sep := false
  mono := false
  sub := true
  tileNum := 1

/-- **C89** is false. -/
theorem C89_negation : ¬ C89_full := by
  intro h
  obtain ⟨-, h2⟩ := h showTwoSeq (wholeSample showTwo showTwoFrame) showTwo_agrees.1 showTwo_agrees.2
    ⟨rfl, rfl, rfl, rfl, rfl, rfl⟩ rfl rfl rfl
  obtain ⟨w', hw'⟩ : ∃ w', frameHeaderAfter (wholeSample showTwo showTwoFrame) = some w' := ⟨_, rfl⟩
  exact h2 w' hw' showTwoFrame (C89_next_empty _ w' rfl rfl rfl hw' false _)

/-! ## C92: sizes -/

/-- What a user relies on: a decoder gets the size of the frame and the size to render it at. -/
def C92_full : Prop := ∀ (s : Hdr.SeqInfo) (c : HCtx) (f : HFrame), Agrees s c f → FrontOk c f →
  s.widthBits ≤ 16 → s.heightBits ≤ 16 → s.maxWidth ≤ 2 ^ s.widthBits → s.maxHeight ≤ 2 ^ s.heightBits →
  (if c.sizeOverride then 1 ≤ f.width ∧ f.width ≤ s.maxWidth ∧ 1 ≤ f.height ∧ f.height ≤ s.maxHeight
    else f.width = s.maxWidth ∧ f.height = s.maxHeight) →
  Writes (fullSizeBits c f) (Hdr.size s c.sizeOverride) ⟨f.width, f.height, denomAfter c f, f.renderWidth, f.renderHeight⟩

/-- **C92, partial.** Without a size of its own a frame is read with the right sizes exactly if the render size is the
frame size or differs from the downscaled size. Missing: own sizes (`C92_own_size_never`) and render sizes equal to the
downscaled size of a super-resolved frame. -/
theorem C92_sizes_partial (s : Hdr.SeqInfo) (c : HCtx) (f : HFrame) (h : Agrees s c f) (ho : FrontOk c f)
    (hov : c.sizeOverride = false) (hw : s.maxWidth = f.width) (hh : s.maxHeight = f.height) :
    Writes (fullSizeBits c f) (Hdr.size s c.sizeOverride)
      ⟨f.width, f.height, denomAfter c f, f.renderWidth, f.renderHeight⟩ ↔
    ((f.renderWidth = f.width ∧ f.renderHeight = f.height) ∨
      (f.renderWidth ≠ (f.width * 8 + denomAfter c f / 2) / denomAfter c f ∨ f.renderHeight ≠ f.height)) := by
  rw [hov]
  have hwr := writes_fullSize s c f h ho hov hw hh
  have hd : renderDiffers (superresAfter c f).2 = true ↔
      (f.renderWidth ≠ (f.width * 8 + denomAfter c f / 2) / denomAfter c f ∨ f.renderHeight ≠ f.height) := by
    unfold renderDiffers superresAfter
    rw [decide_eq_true_eq]
    exact ⟨fun hx => hx.imp Ne.symm Ne.symm, fun hx => hx.imp Ne.symm Ne.symm⟩
  constructor
  · intro hx
    have := hwr.unique hx
    simp only [sizeOf, renderOf, Hdr.Size.mk.injEq, true_and] at this
    by_cases hq : renderDiffers (superresAfter c f).2 = true
    · exact Or.inr (hd.1 hq)
    · rw [if_neg hq] at this
      exact Or.inl ⟨this.1.symm, this.2.symm⟩
  · intro hx
    have he : sizeOf c f = ⟨f.width, f.height, denomAfter c f, f.renderWidth, f.renderHeight⟩ := by
      unfold sizeOf renderOf
      by_cases hq : renderDiffers (superresAfter c f).2 = true
      · rw [if_pos hq]
      · rw [if_neg hq]
        rcases hx with hx | hx
        · rw [hx.1, hx.2]
        · exact absurd (hd.2 hx) hq
    rw [← he]; exact hwr

/-- A 352x288 frame coded at half width. -/
def halfCtx : HCtx := { HCtx.new with enableSuperres := true, superresDenom := 16, showFrame := false }
def halfFrame : HFrame := { HFrame.new .intraOnly 352 288 with useSuperres := true }
def halfSeq : Hdr.SeqInfo := { plainSeq with superres := true }

theorem half_agrees : Agrees halfSeq halfCtx halfFrame := by constructor <;> first | rfl | decide
theorem half_ok (w : Nat) (h : 1 ≤ w ∧ w ≤ 2 ^ 16) : FrontOk halfCtx { halfFrame with renderWidth := w } := by
  constructor
  · decide
  · intro d hd; exact absurd hd (by simp [halfFrame, HFrame.new])
  · intro hx; exact absurd hx (by decide)
  · decide
  · exact (by decide : (0 : Nat) < 2)
  · exact (by decide : (0 : Nat) < 2)
  · exact (by decide : (0 : Nat) < 8)
  · decide
  · intro _; decide
  · exact ⟨h.1, h.2, (by decide : 1 ≤ 288), (by decide : 288 ≤ 2 ^ 16)⟩

example : Writes (fullSizeBits halfCtx halfFrame) (Hdr.size halfSeq false) ⟨352, 288, 16, 352, 288⟩ :=
  (C92_sizes_partial halfSeq halfCtx halfFrame half_agrees (half_ok 352 (by decide)) rfl rfl rfl).2 (Or.inl ⟨rfl, rfl⟩)

/-- **C92** is false: a render width equal to the downscaled width is lost. -/
theorem C92_negation : ¬ C92_full := by
  intro h
  have hb : (halfCtx.sizeOverride = false) := rfl
  have ha : Agrees halfSeq halfCtx { halfFrame with renderWidth := 176 } := by
    constructor <;> first | rfl | decide
  have h1 := h halfSeq halfCtx { halfFrame with renderWidth := 176 } ha (half_ok 176 (by decide)) (by decide) (by decide)
    (by decide) (by decide) (by rw [hb]; exact ⟨rfl, rfl⟩)
  have h2 := (C92_sizes_partial halfSeq halfCtx { halfFrame with renderWidth := 176 } ha (half_ok 176 (by decide)) rfl rfl rfl).1 h1
  revert h2; decide

/-- A frame with a size of its own is written with too few bits whatever the sizes: as many as the position of the top bit,
where the sequence header promises enough for the largest frame. -/
theorem C92_own_size_never (s : Hdr.SeqInfo) (c : HCtx) (f : HFrame) (hov : c.sizeOverride = true)
    (hw : 2 ≤ f.width ∧ f.width ≤ s.maxWidth) (hh : 2 ≤ f.height ∧ f.height ≤ s.maxHeight)
    (hbw : s.maxWidth ≤ 2 ^ s.widthBits ∧ s.widthBits ≤ 16) (hbh : s.maxHeight ≤ 2 ^ s.heightBits ∧ s.heightBits ≤ 16) :
    (∃ e, sizeBits c f = some (raw e) ∧ e.length < s.widthBits + s.heightBits) ∧
    ∀ v, ¬ Writes (sizeBits c f) (Hdr.frameSize s true) v := by
  have hp16 : 2 ^ s.widthBits ≤ 2 ^ 16 := Nat.pow_le_pow_right (by decide) hbw.2
  have hq16 : 2 ^ s.heightBits ≤ 2 ^ 16 := Nat.pow_le_pow_right (by decide) hbh.2
  obtain ⟨nw, hnw, hlw⟩ := C18_msb16 (f.width - 1) (by omega)
  obtain ⟨nh, hnh, hlh⟩ := C18_msb16 (f.height - 1) (by omega)
  have hnw' : nw < s.widthBits := by
    have h1 : 2 ^ nw ≤ f.width - 1 := (hlw.resolve_left (by omega)).1
    exact (Nat.pow_lt_pow_iff_right (by decide : 1 < 2)).1 (by omega)
  have hnh' : nh < s.heightBits := by
    have h1 : 2 ^ nh ≤ f.height - 1 := (hlh.resolve_left (by omega)).1
    exact (Nat.pow_lt_pow_iff_right (by decide : 1 < 2)).1 (by omega)
  have he : sizeBits c f = some (raw (toBits nw (f.width - 1) ++ toBits nh (f.height - 1))) := by
    unfold sizeBits
    rw [if_pos hov, usub_eq _ _ (by omega), usub_eq _ _ (by omega)]
    simp only [Option.bind_eq_bind, Option.bind_some]
    rw [Nat.mod_eq_of_lt (by omega), Nat.mod_eq_of_lt (by omega), hnw, hnh]
    simp only [Option.bind_some]
    rw [pushN_eq _ _ (by omega), pushN_eq _ _ (by omega), cat_cons, cat_single, raw_append]
    rfl
  have hl : (toBits nw (f.width - 1) ++ toBits nh (f.height - 1)).length < s.widthBits + s.heightBits := by
    simp; omega
  refine ⟨⟨_, he, hl⟩, ?_⟩
  rintro v ⟨e, h1, h2⟩
  rw [he] at h1
  obtain rfl := raw_inj (Option.some.inj h1)
  have h3 := h2 []
  rw [List.append_nil] at h3
  generalize toBits nw (f.width - 1) ++ toBits nh (f.height - 1) = e at h3 hl
  have h4 : Hdr.frameSize s true e = none := by
    show (P.f s.widthBits e >>= fun x => P.f s.heightBits x.2 >>= fun y => some ((x.1 + 1, y.1 + 1), y.2)) = none
    unfold P.f
    by_cases hq : e.length < s.widthBits
    · rw [if_pos hq]; rfl
    · rw [if_neg hq]
      show ((if (e.drop s.widthBits).length < s.heightBits then none else _) >>= _) = none
      rw [if_pos (by rw [List.length_drop]; omega)]; rfl
  rw [h4] at h3
  exact absurd h3 (by simp)

example : sizeBits { HCtx.new with sizeOverride := true } (HFrame.new .key 352 288) =
    some [0, 1, 0, 1, 1, 1, 1, 1, 0, 0, 0, 1, 1, 1, 1, 1] := by decide +kernel

/-- Encoding the header of the same super-resolved frame again scales its width down again: the frame keeps the downscaled
width as its own. -/
theorem C92_again_wrong (c : HCtx) (f : HFrame) (hon : superresOn c f = true) (hd : 9 ≤ c.superresDenom ∧ c.superresDenom ≤ 16)
    (hw : 5 ≤ f.width) : (superresAfter (superresAfter c f).1 (superresAfter c f).2).1.upscaledWidth < f.width := by
  show (f.width * 8 + denomAfter c f / 2) / denomAfter c f < f.width
  have : denomAfter c f = c.superresDenom := by unfold denomAfter; rw [if_pos hon]
  rw [this, Nat.div_lt_iff_lt_mul (by omega)]
  obtain ⟨h1, h2⟩ := hd
  generalize c.superresDenom = d at h1 h2
  interval_cases d <;> omega

/-! ## C91: the front of intra frames -/

/-- What an AV1 decoder should read for an intra frame of the size of the sequence; without order hints. -/
def frontView (s : Hdr.SeqInfo) (c : HCtx) (f : HFrame) : Hdr.Front where
  opening := ⟨f.type.code, c.showFrame, if c.showFrame then timeOf c f else none,
    if c.showFrame then f.type.code != 0 else c.showable, keyLike f.type c.showFrame || f.errRes⟩
  disableCdf := c.disableCdfUpdate
  sct := frameSct c f
  intMv := 1
  id := if c.idsPresent then some c.currentId else none
  override := false
  orderHint := 0
  primary := 7
  removal := f.dmi.bind fun d => if d.removalPresent then
    some (c.opIdcs.map fun idc => if Hdr.inLayers s idc then some d.removal else none) else none
  refresh := if keyLike f.type c.showFrame then 255 else c.refresh
  refHints := none
  sizes := .inl (sizeOf c f, false)
  noEndUpdate := c.disableCdfUpdate || c.noEndUpdate

/-- Values of an intra frame without order hints, of the size of the sequence and without options AV1 would read differently. -/
structure IntraOk (s : Hdr.SeqInfo) (c : HCtx) (f : HFrame) : Prop where
  intra : intraType f.type = true
  agrees : Agrees s c f
  ok : FrontOk c f
  lists : c.Ok
  full : c.reduced = false
  noHints : c.enableOrderHint = false ∧ s.orderHintBits = 0
  noOverride : c.sizeOverride = false
  width : s.maxWidth = f.width
  height : s.maxHeight = f.height
  ids : ∀ r ∈ c.refId, r < 2 ^ (c.additionalLen + c.deltaLen)

theorem fullSizeAfter_fields (c : HCtx) (f : HFrame) : (fullSizeAfter c f).2.type = f.type ∧ (fullSizeAfter c f).2.sct = f.sct ∧
    (fullSizeAfter c f).2.intrabc = f.intrabc ∧ (fullSizeAfter c f).2.width = (sizeOf c f).coded ∧
    (fullSizeAfter c f).2.height = f.height ∧ (fullSizeAfter c f).2.primary = f.primary ∧
    (fullSizeAfter c f).2.highPrec = f.highPrec := by
  unfold fullSizeAfter renderAfter
  split <;> exact ⟨rfl, rfl, rfl, rfl, rfl, rfl, rfl⟩

/-- `allow_intrabc` is read back, except for super-resolved key frames with screen content tools. -/
theorem writes_intrabc (c : HCtx) (f : HFrame) (hbc : f.type = .key → f.sct > 0 → (sizeOf c f).coded = f.width)
    (hf : f.intrabc = false) :
    Writes (intrabcBits (fullSizeAfter c f).1 (fullSizeAfter c f).2)
      (if f.sct > 0 ∧ (sizeOf c f).coded = (sizeOf c f).width then P.flag else pure false) false := by
  obtain ⟨h1, h2, h3, h4, -⟩ := fullSizeAfter_fields c f
  unfold intrabcBits
  have hu : (fullSizeAfter c f).1.upscaledWidth = f.width := rfl
  have hw : (sizeOf c f).width = f.width := rfl
  rw [h1, h2, h3, h4, hu, hw, hf]
  by_cases hs : f.sct > 0
  · by_cases hc : (sizeOf c f).coded = f.width
    · simp only [hs, hc, and_self, if_true, ite_self]
      exact writes_flag _
    · have hk : f.type ≠ .key := fun hk => hc (hbc hk hs)
      have hc' : ¬ f.width = (sizeOf c f).coded := fun x => hc x.symm
      simp only [hk, hc, hc', and_false, if_false]
      exact Writes.pure _
  · simp only [hs, false_and, if_false, ite_self]
    exact Writes.pure _

theorem frontOf_chain {c f n hb} {b1 b2 b3 b4 b5 b6 b7 b8 b9 : Raw} {c1 c2 c3 c4 c5 c6 c7 : HCtx} {f1 f2 f4 f5 f6 : HFrame}
    (h1 : openingBits c f = some b1) (s1 : openingAfter c f = (c1, f1)) (s2 : resetAfter c1 f1 = some c2)
    (h2 : toolsBits c2 f1 = some b2) (t2 : toolsAfter c2 f1 = f2) (h3 : idBits c2 n = some b3) (s3 : idAfter c2 n = some c3)
    (h4 : overrideBits c3 f2 = some b4) (s4 : setOverride c3 f2 = c4) (h5 : primaryBits c4 f2 hb = some b5)
    (s5 : setPrimary c4 f2 = f4) (h6 : removalBits c4 f4 = some b6) (h7 : refreshBits c4 f4 = some b7)
    (s7 : refreshAfter c4 f4 = (c5, f5)) (h8 : sizesBits c5 f5 = some b8) (s8 : sizesAfter c5 f5 = (c6, f6))
    (s9 : hintsAfter c6 f6 = some c7) (h9 : endBits c7 = some b9) :
    frontOf c f n hb = some (b1 ++ b2 ++ b3 ++ (b4 ++ b5 ++ b6 ++ b7) ++ (b8 ++ b9), setEnd c7, f6) := by
  have e1 : frontStart c f n = some (b1 ++ b2 ++ b3, c3, f2) := by
    unfold frontStart
    simp only [h1, s1, s2, h2, t2, h3, s3, Option.bind_eq_bind, Option.bind_some]
  have e2 : frontMiddle c3 f2 hb = some (b4 ++ b5 ++ b6 ++ b7, c5, f5) := by
    unfold frontMiddle
    simp only [h4, s4, h5, s5, h6, h7, s7, Option.bind_eq_bind, Option.bind_some]
  have e3 : frontEnd c5 f5 = some (b8 ++ b9, setEnd c7, f6) := by
    unfold frontEnd
    simp only [h8, s8, s9, h9, Option.bind_eq_bind, Option.bind_some]
  unfold frontOf
  simp only [e1, e2, e3, Option.bind_eq_bind, Option.bind_some]

/-- The frames that are not shown key frames come through, unless their elements differ from AV1's. -/
theorem front_intra (s : Hdr.SeqInfo) (c : HCtx) (f : HFrame) (h : IntraOk s c f) (hk : keyLike f.type c.showFrame = false)
    (hrem : ∀ d, f.dmi = some d → d.removalPresent = true → ∀ o ∈ s.ops, Hdr.inLayers s o.1 = true → o.2 = true)
    (hbc : f.type = .key → frameSct c f > 0 → (sizeOf c f).coded = f.width) (old : Nat) :
    ∃ n r c' f', idLenOf c old = some n ∧ frontOf c f n 0 = some (r, c', f') ∧
      Writes (some r) (Hdr.front s) (frontView s c f) ∧
      c'.isIntra = true ∧ c'.showFrame = c.showFrame ∧ c'.showable = (if c.showFrame then false else c.showable) ∧
      c'.showExisting = c.showExisting ∧ c'.upscaledWidth = f.width ∧ f'.width = (sizeOf c f).coded ∧ f'.height = f.height ∧
      f'.primary = 7 ∧ f'.intrabc = false ∧ f'.type = f.type ∧ f'.highPrec = false := by
  obtain ⟨n, hn, hid⟩ : ∃ n, idLenOf c old = some n ∧ (c.idsPresent = true → n = c.additionalLen + c.deltaLen) := by
    cases hi : c.idsPresent with
    | true => exact ⟨_, idLenOf_eq s c f h.agrees hi old, fun _ => rfl⟩
    | false => exact ⟨old, by simp [idLenOf, hi], fun hx => absurd hx (by simp)⟩
  have hidb : idBits c n = idBits c (c.additionalLen + c.deltaLen) := by
    unfold idBits
    cases hi : c.idsPresent with
    | true => rw [hid hi]
    | false => rfl
  have hnk : ¬ (f.type = .key ∧ c.showFrame = true) := by
    rintro ⟨h1, h2⟩; rw [h1, h2] at hk; exact absurd hk (by decide)
  have hsw : f.type ≠ .switch := by intro h1; have := h.intra; rw [h1] at this; exact absurd this (by decide)
  -- the state after the frame id
  obtain ⟨p, q, v, hia⟩ : ∃ p q v, idAfter { c with seen := true, isIntra := true, showable := if c.showFrame then false else c.showable } n =
      some { c with seen := true, isIntra := true, showable := (if c.showFrame then false else c.showable), prevId := p,
                    currentId := q, refValid := v } := by
    unfold idAfter
    cases hi : c.idsPresent with
    | true =>
      have hle : c.deltaLen ≤ c.additionalLen + c.deltaLen := by omega
      obtain ⟨v, hv, -⟩ := C90_valid_refs c.currentId c.deltaLen (c.additionalLen + c.deltaLen) (h.ok.id hi) hle c.refId
        c.refValid h.ids (by rw [h.lists.refId, h.lists.refValid])
      refine ⟨c.currentId, c.currentId, v, ?_⟩
      simp only [if_true, hid hi, hv, Option.bind_eq_bind, Option.bind_some]
    | false => exact ⟨c.prevId, 0, c.refValid, rfl⟩
  -- the sections
  obtain ⟨e1, b1, r1⟩ := writes_opening s c f h.agrees h.ok
  rw [if_neg (by simp [h.full])] at r1
  obtain ⟨e2, b2, r2⟩ := writes_frontTools s c f h.agrees h.ok true
  obtain ⟨e3, b3, r3⟩ := writes_id s c f h.agrees h.ok
  rw [← hidb] at b3
  obtain ⟨e6, b6, r6⟩ := writes_removal s c f h.agrees h.ok hrem
  obtain ⟨e7, b7, r7⟩ := writes_f 8 c.refresh (by decide) h.ok.refresh
  obtain ⟨e8, b8, r8⟩ := writes_fullSize s c f h.agrees h.ok h.noOverride h.width h.height
  -- the states
  let c1 : HCtx := { c with seen := true, isIntra := true, showable := if c.showFrame then false else c.showable }
  let f2 : HFrame := { f with sct := frameSct c f, intMv := 1 }
  let c2 : HCtx := { c1 with prevId := p, currentId := q, refValid := v }
  let f4 : HFrame := { f2 with primary := 7 }
  let c5 : HCtx := { c2 with refValid := (refreshAfter c2 f4).1.refValid }
  let f5 : HFrame := { f4 with highPrec := false, useRefMvs := false, intrabc := false }
  obtain ⟨e9, b9, r9⟩ := writes_intrabc c5 f5 hbc rfl
  have s1 : openingAfter c f = (c1, f) := by
    unfold openingAfter; rw [if_neg (by simp [h.full]), hk, h.intra]; rfl
  have s2 : resetAfter c1 f = some c1 := by unfold resetAfter; exact if_neg hnk
  have s4 : overrideBits c2 f2 = pushB false := by
    unfold overrideBits
    rw [if_neg hsw, if_neg (by rw [show c2.reduced = c.reduced from rfl, h.full]; simp),
      show c2.sizeOverride = c.sizeOverride from rfl, h.noOverride]
  have s4' : overrideAfter c2 f2 = c2.sizeOverride := by
    unfold overrideAfter
    rw [if_neg hsw, if_neg (by rw [show c2.reduced = c.reduced from rfl, h.full]; simp)]
  have s5 : primaryBits c2 f2 0 = some [] := rfl
  have s7 : refreshBits c2 f4 = pushN c.refresh 8 := by
    unfold refreshBits; exact if_neg (by rw [show keyLike f4.type c2.showFrame = keyLike f.type c.showFrame from rfl, hk]; simp)
  have s7' : refreshAfter c2 f4 = (c5, f5) := by
    have : (refreshAfter c2 f4).1.refresh = c2.refresh := by
      show (if keyLike f.type c.showFrame then 255 else c.refresh) = c.refresh
      rw [hk]; rfl
    refine Prod.ext ?_ rfl
    show { c2 with refresh := (refreshAfter c2 f4).1.refresh, refValid := (refreshAfter c2 f4).1.refValid } = c5
    rw [this]
  have s8 : sizesBits c5 f5 = some (raw (e8 ++ e9)) := by
    unfold sizesBits
    rw [show intraType f5.type = intraType f.type from rfl, h.intra]
    simp only [if_true]
    rw [show fullSizeBits c5 f5 = fullSizeBits c f from rfl, b8, b9, cat_cons, cat_single, raw_append]
    rfl
  have s8' : sizesAfter c5 f5 = fullSizeAfter c5 f5 := by
    unfold sizesAfter
    rw [show intraType f5.type = intraType f.type from rfl, h.intra]; rfl
  have s9 : hintsAfter (fullSizeAfter c5 f5).1 (fullSizeAfter c5 f5).2 = some (fullSizeAfter c5 f5).1 := rfl
  obtain ⟨e10, b10, r10⟩ : Writes (endBits (fullSizeAfter c5 f5).1) (if s.reduced || c.disableCdfUpdate then pure true else P.flag)
      (c.disableCdfUpdate || c.noEndUpdate) := by
    rw [h.agrees.reduced, h.full]
    show Writes (if c.reduced || c.disableCdfUpdate then cat [] else pushB c.noEndUpdate) _ _
    rw [h.full]
    cases c.disableCdfUpdate with
    | true => exact Writes.pure _
    | false => exact writes_flag _
  have s4'' : setOverride c2 f2 = c2 := by unfold setOverride; rw [s4']
  have hfront := frontOf_chain (hb := 0) b1 s1 s2 b2 (f2 := f2) rfl b3 hia s4 s4'' s5 (f4 := f4) rfl b6 (s7.trans b7) s7' s8 s8' s9 b10
  rw [show (raw e1 ++ raw e2 ++ raw e3 ++ ([false.toNat] ++ [] ++ raw e6 ++ raw e7) ++ (raw (e8 ++ e9) ++ raw e10)) =
    raw (e1 ++ (e2 ++ (e3 ++ ([false] ++ ([] ++ (e6 ++ (e7 ++ ((e8 ++ e9) ++ e10)))))))) by
      simp only [raw_append, List.append_assoc]; rfl] at hfront
  refine ⟨n, _, _, _, hn, hfront, ⟨_, rfl, ?_⟩, rfl, rfl, rfl, rfl, rfl, ?_⟩
  · have ht : Hdr.isIntra f.type.code = true := by
      have := h.intra
      revert this; cases f.type <;> decide
    have h3 : f.type.code ≠ 3 := by revert hsw; cases f.type <;> decide
    have h0 : ¬ (f.type.code = 3 ∨ (f.type.code = 0 ∧ c.showFrame = true)) := by
      rintro (hx | ⟨hx, hy⟩)
      · exact h3 hx
      · refine hnk ⟨?_, hy⟩
        revert hx; cases f.type <;> decide
    have hsz : Reads (Hdr.intra s false (frameSct c f)) (e8 ++ e9) (sizeOf c f, false) :=
      r8.bind (by
        have := r9.bind (g := fun b => (pure (sizeOf c f, b) : P (Hdr.Size × Bool))) (Reads.pure (sizeOf c f, false))
        rw [List.append_nil] at this
        exact this)
    have hz : Reads (do let a ← Hdr.intra s false (frameSct c f); pure (Sum.inl a) : P (Sum (Hdr.Size × Bool) Hdr.Inter))
        (e8 ++ e9) (.inl (sizeOf c f, false)) := by
      have := hsz.bind (g := fun a => (pure (Sum.inl a) : P (Sum (Hdr.Size × Bool) Hdr.Inter))) (Reads.pure _)
      rw [List.append_nil] at this
      exact this
    unfold Hdr.front
    refine r1.bind ?_
    dsimp only
    rw [ht]
    refine r2.bind ?_
    dsimp only
    refine r3.bind ?_
    rw [if_neg h3, h.agrees.reduced, h.full]
    simp only [Bool.false_eq_true, if_false, Bool.true_or, if_true]
    refine (reads_flag false).bind ?_
    refine Reads.bind (a := []) (v := 0) ?_ ?_
    · rw [h.noHints.2]; exact reads_f 0 0 (by decide)
    simp only [pure_bind]
    refine r6.bind ?_
    rw [if_neg h0, h.agrees.hint, h.noHints.1]
    refine r7.bind ?_
    simp only [Bool.and_false, P.opt, Bool.false_eq_true, if_false, pure_bind]
    refine hz.bind ?_
    rw [h.agrees.reduced, h.full] at r10
    have hvr : frontView s c f = { frontView s c f with refresh := c.refresh } := by
      have : (frontView s c f).refresh = c.refresh := by
        show (if keyLike f.type c.showFrame then 255 else c.refresh) = _; rw [hk]; rfl
      rw [← this]
    rw [hvr]
    have := r10.bind (g := fun e => (pure { frontView s c f with refresh := c.refresh, noEndUpdate := e } : P Hdr.Front)) (Reads.pure _)
    rw [List.append_nil] at this
    exact this
  · obtain ⟨g1, g2, g3, g4, g5, g6, g7⟩ := fullSizeAfter_fields c5 f5
    exact ⟨g4, g5, g6, g3, g1, g7⟩

/-- What a user relies on: the header of an intra frame is what a decoder reads. -/
def C91_full : Prop := ∀ (s : Hdr.SeqInfo) (c : HCtx) (f : HFrame), IntraOk s c f → ∀ old,
  ∃ n r c' f', idLenOf c old = some n ∧ frontOf c f n 0 = some (r, c', f') ∧ Writes (some r) (Hdr.front s) (frontView s c f)

/-- **C91, partial.** Intra-only frames and hidden key frames are read back up to tile info: type, times, ids, screen content
and motion vector precision, buffer removal, refreshed references and sizes. Missing: shown key frames
(`C91_shown_key_panics`), super-resolved key frames with screen content tools (`C91_intrabc_never`), and buffer removal times
when an operating point that the frame belongs to has no decoder model (`C91_removal_iff`). -/
theorem C91_front_partial (s : Hdr.SeqInfo) (c : HCtx) (f : HFrame) (h : IntraOk s c f) (hk : keyLike f.type c.showFrame = false)
    (hrem : ∀ d, f.dmi = some d → d.removalPresent = true → ∀ o ∈ s.ops, Hdr.inLayers s o.1 = true → o.2 = true)
    (hbc : f.type = .key → frameSct c f > 0 → (sizeOf c f).coded = f.width) (old : Nat) :
    ∃ n r c' f', idLenOf c old = some n ∧ frontOf c f n 0 = some (r, c', f') ∧ Writes (some r) (Hdr.front s) (frontView s c f) := by
  obtain ⟨n, r, c', f', h1, h2, h3, -⟩ := front_intra s c f h hk hrem hbc old
  exact ⟨n, r, c', f', h1, h2, h3⟩

theorem half_intraOk : IntraOk halfSeq halfCtx halfFrame where
  intra := rfl
  agrees := half_agrees
  ok := half_ok 352 (by decide)
  lists := ⟨rfl, rfl, rfl, rfl, rfl, rfl⟩
  full := rfl
  noHints := ⟨rfl, rfl⟩
  noOverride := rfl
  width := rfl
  height := rfl
  ids := by decide

example : ∃ n r c' f', idLenOf halfCtx 0 = some n ∧ frontOf halfCtx halfFrame n 0 = some (r, c', f') ∧
    Writes (some r) (Hdr.front halfSeq) (frontView halfSeq halfCtx halfFrame) :=
  C91_front_partial halfSeq halfCtx halfFrame half_intraOk rfl (by intro d hd; cases hd) (by decide) 0

theorem reset_none (c : HCtx) (f : HFrame) (hl : c.orderHints.length = 7) (hk : f.type = .key) (hs : c.showFrame = true) :
    resetAfter c f = none := by
  unfold resetAfter; rw [if_pos ⟨hk, hs⟩, if_pos (by omega)]

/-- A shown key frame never gets a header: clearing the order hints runs past the end of the array, whatever the options. -/
theorem C91_shown_key_panics (c : HCtx) (f : HFrame) (hl : c.orderHints.length = 7) (hk : f.type = .key)
    (hs : c.showFrame = true) (n hb : Nat) : frontOf c f n hb = none := by
  have h1 : ∀ b, (openingBits c f = some b → frontStart c f n = none) := by
    intro b hb'
    unfold frontStart
    rw [hb']
    have h2 : resetAfter (openingAfter c f).1 (openingAfter c f).2 = none := by
      unfold openingAfter
      by_cases hr : c.reduced = true
      · rw [if_pos hr]; exact reset_none _ _ hl rfl rfl
      · rw [if_neg hr]; exact reset_none _ _ hl hk hs
    simp only [Option.bind_eq_bind, Option.bind_some]
    rw [h2]; rfl
  have h3 : frontStart c f n = none := by
    cases hb' : openingBits c f with
    | none => unfold frontStart; rw [hb']; rfl
    | some b => exact h1 b hb'
  unfold frontOf; rw [h3]; rfl

/-- Neither does a reduced still picture, whatever its frame. -/
theorem C91_still_picture_panics (c : HCtx) (f : HFrame) (hl : c.orderHints.length = 7) (hr : c.reduced = true)
    (n hb : Nat) : frontOf c f n hb = none := by
  have h2 : resetAfter (openingAfter c f).1 (openingAfter c f).2 = none := by
    unfold openingAfter
    rw [if_pos hr]
    exact reset_none _ _ hl rfl rfl
  have h3 : frontStart c f n = none := by
    unfold frontStart openingBits
    rw [if_pos hr, cat_nil]
    simp only [Option.bind_eq_bind, Option.bind_some]
    rw [h2]; rfl
  unfold frontOf; rw [h3]; rfl

/-- A super-resolved key frame with screen content tools carries one bit more than a decoder reads. -/
theorem C91_intrabc_never (s : Hdr.SeqInfo) (c : HCtx) (f : HFrame) (h : Agrees s c f) (ho : FrontOk c f)
    (hov : c.sizeOverride = false) (hw : s.maxWidth = f.width) (hh : s.maxHeight = f.height) (hk : f.type = .key)
    (hs : f.sct > 0) (hc : (sizeOf c f).coded ≠ f.width) :
    ∀ v, ¬ Writes (sizesBits c f) (Hdr.intra s false f.sct) v := by
  rintro v ⟨e, h1, h2⟩
  obtain ⟨e8, b8, r8⟩ := writes_fullSize s c f h ho hov hw hh
  obtain ⟨g1, g2, g3, g4, -⟩ := fullSizeAfter_fields c f
  have he : sizesBits c f = some (raw (e8 ++ [f.intrabc])) := by
    unfold sizesBits intrabcBits
    rw [hk, if_pos (show intraType .key = true from rfl)]
    dsimp only
    rw [g1, g2, g3, hk, if_pos rfl, if_pos hs, b8, cat_cons, cat_single, raw_append]
    rfl
  rw [he] at h1
  obtain rfl := raw_inj (Option.some.inj h1)
  have h3 := h2 []
  have h4 : Hdr.intra s false f.sct (e8 ++ [f.intrabc] ++ []) = some ((sizeOf c f, false), [f.intrabc]) := by
    rw [List.append_nil]
    unfold Hdr.intra
    rw [Reads.step r8, if_neg (fun x => hc x.2)]
    rfl
  rw [h4] at h3
  simp at h3

example : (sizeOf halfCtx { halfFrame with type := .key, sct := 1 }).coded ≠ 352 := by decide

/-- A shown key frame without options. -/
theorem plain_key_ok : IntraOk plainSeq HCtx.new (HFrame.new .key 352 288) where
  intra := rfl
  agrees := by constructor <;> first | rfl | decide
  ok := by
    constructor
    · decide
    · intro d hd; cases hd
    all_goals decide
  lists := HCtx.new_ok
  full := rfl
  noHints := ⟨rfl, rfl⟩
  noOverride := rfl
  width := rfl
  height := rfl
  ids := by decide

/-- **C91** is false. -/
theorem C91_negation : ¬ C91_full := by
  intro h
  obtain ⟨n, r, c', f', -, h2, -⟩ := h plainSeq HCtx.new (HFrame.new .key 352 288) plain_key_ok 0
  rw [C91_shown_key_panics _ _ rfl rfl rfl] at h2
  exact absurd h2 (by simp)

/-- Requests of the caller that no header carries: high precision motion vectors, reference motion vectors and intra block
copy are cleared before they are written. -/
theorem C91_requests_cleared (c : HCtx) (f : HFrame) : (refreshAfter c f).2.highPrec = false ∧
    (refreshAfter c f).2.useRefMvs = false ∧ (refreshAfter c f).2.intrabc = false := ⟨rfl, rfl, rfl⟩

/-! ## C93: inter frames -/

/-- Values of the reference list. -/
structure RefsOk (c : HCtx) (f : HFrame) : Prop where
  idx : f.refIdx.length = 7 ∧ ∀ i ∈ f.refIdx, i < 8
  delta : f.deltaId.length = 7 ∧ ∀ d ∈ f.deltaId, 1 ≤ d ∧ d ≤ 2 ^ c.deltaLen
  short : f.lastIdx < 8 ∧ f.goldIdx < 8

/-- The references as a decoder should read them. -/
def refView (c : HCtx) (f : HFrame) (short : Bool) (i : Nat) : Option Nat × Option Nat :=
  (if short then none else some (f.refIdx.getD i 0), if c.idsPresent then some (f.deltaId.getD i 0) else none)

theorem writes_ref (s : Hdr.SeqInfo) (c : HCtx) (f : HFrame) (h : Agrees s c f) (ho : RefsOk c f) (i : Nat) (hi : i < 7) :
    Writes (refBits c f i) (Hdr.ref s f.shortSig) (refView c f f.shortSig i) := by
  unfold refBits Hdr.ref refView
  have key : ∀ o : Option Nat, Writes (cat [if c.idsPresent then (do
        let d ← f.deltaId[i]?
        let d ← usub d 1
        pushN d (c.deltaLen % 256)) else cat []])
      (do
        let d ← (match s.ids with
          | some (n, _) => do
            let v ← P.f n
            pure (some (v + 1))
          | none => pure none)
        pure (o, d)) (o, if c.idsPresent then some (f.deltaId.getD i 0) else none) := by
    intro o
    rw [h.ids]
    cases hp : c.idsPresent with
    | false => exact Writes.skip (Writes.pure _)
    | true =>
      have hl := h.idLens hp
      have hlt : i < f.deltaId.length := by rw [ho.delta.1]; exact hi
      obtain ⟨h1, h2⟩ := ho.delta.2 _ (List.getElem_mem hlt)
      have hg : f.deltaId.getD i 0 = f.deltaId[i] := by simp [List.getD, List.getElem?_eq_getElem hlt]
      simp only [if_true, List.getElem?_eq_getElem hlt, Option.bind_eq_bind, Option.bind_some, hg]
      rw [usub_eq _ _ h1]
      simp only [Option.bind_some]
      rw [Nat.mod_eq_of_lt (by omega)]
      have := Writes.last (Writes.map (fun d => (o, d)) (Writes.map (fun v => some (v + 1))
        (writes_f c.deltaLen (f.deltaId[i] - 1) (by omega) (by omega))))
      rwa [show f.deltaId[i] - 1 + 1 = f.deltaId[i] by omega] at this
  cases hs : f.shortSig with
  | true =>
    simp only [Bool.not_true, P.opt, Bool.false_eq_true, if_false, if_true, pure_bind]
    exact Writes.skip (key none)
  | false =>
    have hlt : i < f.refIdx.length := by rw [ho.idx.1]; exact hi
    simp only [Bool.not_false, P.opt, Bool.false_eq_true, if_false, if_true]
    refine Writes.cons (v := some (f.refIdx.getD i 0)) (Writes.map some ?_) (key _)
    unfold pushAt
    simp only [List.getElem?_eq_getElem hlt, List.getD, Option.getD_some, Option.bind_eq_bind, Option.bind_some]
    exact writes_f 3 _ (by decide) (ho.idx.2 _ (List.getElem_mem hlt))

/-- What a user relies on: an inter frame gets a header. -/
def C93_full : Prop := ∀ (c : HCtx) (f : HFrame), c.Ok → f.type = .inter → c.reduced = false → RefsOk c f →
  ∀ n hb, (frontOf c f n hb).isSome

/-- **C93, partial.** The reference list of an inter frame is read back, with and without short signalling and frame ids.
Missing: the rest of the header (`C93_never`). -/
theorem C93_refs_partial (s : Hdr.SeqInfo) (c : HCtx) (f : HFrame) (h : Agrees s c f) (ho : RefsOk c f) :
    Writes (refsBits c f) (do
      let sh ← Hdr.short s
      let refs ← P.many 7 (Hdr.ref s sh.isSome)
      pure (sh, refs))
      (if c.enableOrderHint && f.shortSig then some (f.lastIdx, f.goldIdx) else none,
        (List.range 7).map (refView c f (c.enableOrderHint && f.shortSig))) := by
  unfold refsBits Hdr.short
  rw [h.hint]
  have key : ∀ (b : Bool) (o : Option (Nat × Nat)), o.isSome = b → Writes (cat [cat ((List.range 7).map (refBits c { f with shortSig := b }))])
      (do
        let refs ← P.many 7 (Hdr.ref s o.isSome)
        pure (o, refs)) (o, (List.range 7).map (refView c f b)) := by
    intro b o hb
    rw [hb]
    refine Writes.last (Writes.map (fun r => (o, r)) ?_)
    have h1 : ∀ i, i < 7 → Writes (refBits c { f with shortSig := b } i) (Hdr.ref s b) (refView c f b i) := fun i hi =>
      writes_ref s c { f with shortSig := b } ⟨h.reduced, h.model, h.equal, h.ids, h.idLens, h.sct, h.intMv, h.hint, h.ops,
        h.temporal, h.spatial, h.superres, h.refMvs, h.layers⟩ ⟨ho.idx, ho.delta, ho.short⟩ i hi
    have := writes_manyIdx (refBits c { f with shortSig := b }) (Hdr.ref s b) (refView c f b) 7 0 (fun i _ hi => h1 i (by omega))
    rw [List.range_eq_range']
    exact this
  cases hh : c.enableOrderHint with
  | false =>
    simp only [Bool.false_and, Bool.false_eq_true, if_false, pure_bind]
    exact Writes.skip (key false none rfl)
  | true =>
    simp only [Bool.true_and, if_true]
    refine Writes.cons (v := if f.shortSig then some (f.lastIdx, f.goldIdx) else none) ?_ (key f.shortSig _ (by cases f.shortSig <;> rfl))
    unfold P.flagged
    refine Writes.cons (writes_flag _) ?_
    cases f.shortSig with
    | false => exact Writes.skip (Writes.pure _)
    | true =>
      simp only [if_true, P.opt]
      exact Writes.last (Writes.map some (Writes.cons (writes_f 3 _ (by decide) ho.short.1)
        (Writes.last (Writes.map (fun g => (f.lastIdx, g)) (writes_f 3 _ (by decide) ho.short.2)))))

theorem hints_fail (f : HFrame) : ∀ (l : List Nat) (c : HCtx), c.orderHints.length = 7 → 6 ∈ l →
    l.foldlM (init := c) (fun c i => do
      let j ← f.refIdx[i]?
      let h ← c.refHint[j]?
      if 1 + i < c.orderHints.length then some { c with orderHints := c.orderHints.set (1 + i) h } else none) = none
  | [], _, _, h => absurd h (by simp)
  | i :: l, c, hl, h => by
    rw [List.foldlM_cons]
    cases h1 : f.refIdx[i]? with
    | none => rfl
    | some j =>
      cases h2 : c.refHint[j]? with
      | none => simp [h2]
      | some g =>
        simp only [h2, Option.bind_eq_bind, Option.bind_some]
        by_cases hi : 1 + i < c.orderHints.length
        · rw [if_pos hi]
          simp only [Option.bind_some]
          have h6 : i ≠ 6 := by omega
          have : 6 ∈ l := by
            rcases List.mem_cons.1 h with h | h
            · exact absurd h.symm h6
            · exact h
          exact hints_fail f l _ (by simpa using hl) this
        · rw [if_neg hi]; rfl

theorem idAfter_keeps (c : HCtx) (n : Nat) (c' : HCtx) (h : idAfter c n = some c') :
    c'.orderHints = c.orderHints ∧ c'.isIntra = c.isIntra := by
  unfold idAfter at h
  split at h
  · simp only [Option.bind_eq_bind] at h
    obtain ⟨v, -, h⟩ := Option.bind_eq_some_iff.1 h
    simp only [Option.some.injEq] at h
    rw [← h]; exact ⟨rfl, rfl⟩
  · simp only [Option.some.injEq] at h
    rw [← h]; exact ⟨rfl, rfl⟩

/-- No inter frame and no switch frame ever gets a header: the order hint of the last reference lies outside its array. -/
theorem C93_never (c : HCtx) (f : HFrame) (hl : c.orderHints.length = 7) (hr : c.reduced = false)
    (ht : f.type = .inter ∨ f.type = .switch) (n hb : Nat) : frontOf c f n hb = none := by
  have hit : intraType f.type = false := by rcases ht with h | h <;> rw [h] <;> rfl
  have hend : ∀ (c' : HCtx) (f' : HFrame), c'.orderHints.length = 7 → c'.isIntra = false → intraType f'.type = false → frontEnd c' f' = none := by
    intro c' f' h1 h2 h3
    have h4 : hintsAfter (sizesAfter c' f').1 (sizesAfter c' f').2 = none := by
      have h5 : (sizesAfter c' f').1.orderHints.length = 7 ∧ (sizesAfter c' f').1.isIntra = false := by
        unfold sizesAfter interSizeAfter
        rw [if_neg (by rw [h3]; simp)]
        split <;> exact ⟨h1, h2⟩
      unfold hintsAfter
      rw [if_neg (by rw [h5.2]; simp)]
      exact hints_fail _ _ _ h5.1 (by decide)
    unfold frontEnd
    cases sizesBits c' f' with
    | none => rfl
    | some b =>
      simp only [Option.bind_eq_bind, Option.bind_some]
      rw [h4]; rfl
  have hstart : ∀ a c' f', frontStart c f n = some (a, c', f') →
      c'.orderHints.length = 7 ∧ c'.isIntra = false ∧ f'.type = f.type := by
    intro a c' f' h
    have ho : openingAfter c f = ({ c with seen := true, isIntra := false, showable := if c.showFrame then false else c.showable },
        { f with errRes := if keyLike f.type c.showFrame then false else f.errRes }) := by
      unfold openingAfter; rw [if_neg (by simp [hr]), hit]
    have hk : ¬ (f.type = .key ∧ c.showFrame = true) := by rintro ⟨h1, -⟩; rw [h1] at hit; exact absurd hit (by decide)
    have hrs : resetAfter (openingAfter c f).1 (openingAfter c f).2 = some (openingAfter c f).1 := by
      rw [ho]; unfold resetAfter; exact if_neg hk
    unfold frontStart at h
    simp only [Option.bind_eq_bind] at h
    obtain ⟨b1, -, h⟩ := Option.bind_eq_some_iff.1 h
    rw [hrs] at h
    simp only [Option.bind_some] at h
    obtain ⟨b2, -, h⟩ := Option.bind_eq_some_iff.1 h
    obtain ⟨b3, -, h⟩ := Option.bind_eq_some_iff.1 h
    obtain ⟨c3, hc3, h⟩ := Option.bind_eq_some_iff.1 h
    simp only [Option.some.injEq, Prod.mk.injEq] at h
    obtain ⟨-, rfl, rfl⟩ := h
    have : c3.orderHints.length = 7 ∧ c3.isIntra = false := by
      obtain ⟨h1, h2⟩ := idAfter_keeps _ _ _ hc3
      rw [h1, h2, ho]; exact ⟨hl, rfl⟩
    refine ⟨this.1, this.2, ?_⟩
    rw [ho]; rfl
  have hmid : ∀ (c1 : HCtx) (f1 : HFrame) b c' f', frontMiddle c1 f1 hb = some (b, c', f') →
      c'.orderHints = c1.orderHints ∧ c'.isIntra = c1.isIntra ∧ f'.type = f1.type := by
    intro c1 f1 b c' f' h
    unfold frontMiddle at h
    simp only [Option.bind_eq_bind] at h
    obtain ⟨b1, -, h⟩ := Option.bind_eq_some_iff.1 h
    obtain ⟨b2, -, h⟩ := Option.bind_eq_some_iff.1 h
    obtain ⟨b3, -, h⟩ := Option.bind_eq_some_iff.1 h
    obtain ⟨b4, -, h⟩ := Option.bind_eq_some_iff.1 h
    simp only [Option.some.injEq, Prod.mk.injEq] at h
    have h2 := h.2
    have e1 : c' = (refreshAfter (setOverride c1 f1) (setPrimary (setOverride c1 f1) f1)).1 := by rw [h2]
    have e2 : f' = (refreshAfter (setOverride c1 f1) (setPrimary (setOverride c1 f1) f1)).2 := by rw [h2]
    rw [e1, e2]; exact ⟨rfl, rfl, rfl⟩
  unfold frontOf
  cases h1 : frontStart c f n with
  | none => rfl
  | some x =>
    obtain ⟨a, c1, f1⟩ := x
    obtain ⟨i1, i2, i3⟩ := hstart a c1 f1 h1
    simp only [Option.bind_eq_bind, Option.bind_some]
    cases h2 : frontMiddle c1 f1 hb with
    | none => rfl
    | some y =>
      obtain ⟨b, c2, f2⟩ := y
      obtain ⟨j1, j2, j3⟩ := hmid c1 f1 b c2 f2 h2
      simp only [Option.bind_some]
      rw [hend c2 f2 (by rw [j1, i1]) (by rw [j2, i2]) (by rw [j3, i3, hit])]
      rfl

/-- An inter frame with seven references. -/
def interSample : HFrame := { HFrame.new .inter 352 288 with refIdx := [0, 1, 2, 3, 4, 5, 7], deltaId := [1, 2, 3, 4, 5, 6, 16] }

theorem interSample_ok : RefsOk { HCtx.new with idsPresent := true, additionalLen := 3, deltaLen := 4 } interSample := by
  constructor <;> decide

/-- **C93** is false. -/
theorem C93_negation : ¬ C93_full := by
  intro h
  have := h { HCtx.new with idsPresent := true, additionalLen := 3, deltaLen := 4 } interSample ⟨rfl, rfl, rfl, rfl, rfl, rfl⟩ rfl rfl
    interSample_ok 7 0
  rw [C93_never _ _ rfl rfl (Or.inl rfl)] at this
  exact absurd this (by decide)

end Av1
