import Verif.Spec.FrameFront
import Verif.Model.FrameFront
import Verif.Lemmas.SeqHeader
import Verif.Lemmas.FrameHeader

/-! # Reading back the sections of the frame header up to tile info -/

namespace Av1

/-- A decoder has read the sequence header the encoder works with. -/
structure Agrees (s : Hdr.SeqInfo) (c : HCtx) (f : HFrame) : Prop where
  reduced : s.reduced = c.reduced
  model : s.model = f.dmi.map fun d => (d.removalLen, d.presentationLen)
  equal : s.equalInterval = c.equalInterval
  ids : s.ids = if c.idsPresent then some (c.deltaLen, c.additionalLen + c.deltaLen) else none
  idLens : c.idsPresent = true → 2 ≤ c.deltaLen ∧ 1 ≤ c.additionalLen ∧ c.additionalLen + c.deltaLen ≤ 16
  sct : s.forceSct = c.forceSct
  intMv : s.forceIntMv = c.forceIntMv
  hint : s.enableOrderHint = c.enableOrderHint
  ops : s.ops.map Prod.fst = c.opIdcs
  temporal : s.temporalId = c.temporalId
  spatial : s.spatialId = c.spatialId
  superres : s.superres = c.enableSuperres
  refMvs : s.refMvs = c.enableRefMvs
  layers : c.temporalId < 8 ∧ c.spatialId < 4

/-- Values in the ranges of their AV1 fields. -/
structure FrontOk (c : HCtx) (f : HFrame) : Prop where
  show_ : c.showIdx < 8
  time : ∀ d, f.dmi = some d → 1 ≤ d.presentationLen ∧ d.presentationLen ≤ 32 ∧ 1 ≤ d.removalLen ∧ d.removalLen ≤ 32 ∧
    d.removal < 2 ^ d.removalLen ∧ ∃ t, f.pointInfo = some t ∧ t < 2 ^ d.presentationLen
  display : c.idsPresent = true → ∃ d, f.displayId = some d ∧ d < 2 ^ (c.additionalLen + c.deltaLen)
  id : c.idsPresent = true → c.currentId < 2 ^ (c.additionalLen + c.deltaLen)
  sct : f.sct < 2
  intMv : f.intMv < 2
  primary : f.primary < 8
  refresh : c.refresh < 256
  denom : f.useSuperres = true → 9 ≤ c.superresDenom ∧ c.superresDenom ≤ 16
  render : 1 ≤ f.renderWidth ∧ f.renderWidth ≤ 2 ^ 16 ∧ 1 ≤ f.renderHeight ∧ f.renderHeight ≤ 2 ^ 16

/-- The presentation time a decoder should read. -/
def timeOf (c : HCtx) (f : HFrame) : Option Nat := if f.dmi.isSome && !c.equalInterval then f.pointInfo else none

theorem writes_point (s : Hdr.SeqInfo) (c : HCtx) (f : HFrame) (h : Agrees s c f) (ho : FrontOk c f) :
    Writes (pointInfoBits c f) (Hdr.point s) (timeOf c f) := by
  have hm := h.model
  have he := h.equal
  unfold pointInfoBits Hdr.point timeOf
  cases hd : f.dmi with
  | none =>
    rw [hd] at hm; simp only [Option.map_none] at hm
    rw [hm]; exact Writes.pure _
  | some d =>
    rw [hd] at hm; simp only [Option.map_some] at hm
    obtain ⟨-, h2, -, -, -, t, ht, hlt⟩ := ho.time d hd
    rw [hm]
    rw [he]
    cases hq : c.equalInterval with
    | true => exact Writes.pure _
    | false =>
      simp only [Option.isSome_some, Bool.true_and, Bool.not_false, if_true, Bool.false_eq_true, if_false, ht,
        Nat.mod_eq_of_lt (show d.presentationLen < 256 by omega)]
      exact Writes.map some (writes_f _ t h2 hlt)

/-- The identifier length the code computes is AV1's. -/
theorem idLenOf_eq (s : Hdr.SeqInfo) (c : HCtx) (f : HFrame) (h : Agrees s c f) (hi : c.idsPresent = true) (old : Nat) :
    idLenOf c old = some (c.additionalLen + c.deltaLen) := by
  obtain ⟨h1, h2, h3⟩ := h.idLens hi
  unfold idLenOf
  rw [if_pos hi, usub_eq _ _ h2, usub_eq _ _ h1]
  simp only [Option.bind_eq_bind, Option.bind_some]
  congr 1; omega

theorem writes_existing (s : Hdr.SeqInfo) (c : HCtx) (f : HFrame) (h : Agrees s c f) (ho : FrontOk c f) :
    Writes (existingBits c f (c.additionalLen + c.deltaLen)) (Hdr.existing s)
      ⟨c.showIdx, timeOf c f, if c.idsPresent then f.displayId else none⟩ := by
  unfold existingBits Hdr.existing
  refine Writes.cons (writes_f 3 _ (by decide) ho.show_) (Writes.cons (writes_point s c f h ho) ?_)
  rw [h.ids]
  cases hi : c.idsPresent with
  | false =>
    simp only [Bool.false_eq_true, if_false]
    exact Writes.skip (Writes.pure _)
  | true =>
    obtain ⟨d, hd, hlt⟩ := ho.display hi
    have := h.idLens hi
    simp only [if_true, hd, Option.bind_eq_bind, Option.bind_some]
    rw [Nat.mod_eq_of_lt (by omega)]
    exact Writes.last (Writes.map (fun d => (⟨c.showIdx, timeOf c f, d⟩ : Hdr.Existing))
      (Writes.map some (writes_f _ d (by omega) hlt)))

theorem code_lt (t : FrameType) : t.code < 2 ^ 2 := by cases t <;> decide

theorem writes_opening (s : Hdr.SeqInfo) (c : HCtx) (f : HFrame) (h : Agrees s c f) (ho : FrontOk c f) :
    Writes (openingBits c f) (Hdr.opening s)
      (if c.reduced then ⟨0, true, none, false, true⟩ else
        ⟨f.type.code, c.showFrame, if c.showFrame then timeOf c f else none,
          if c.showFrame then f.type.code != 0 else c.showable, keyLike f.type c.showFrame || f.errRes⟩) := by
  unfold openingBits Hdr.opening
  rw [h.reduced]
  cases hr : c.reduced with
  | true => exact Writes.pure _
  | false =>
    simp only [Bool.false_eq_true, if_false]
    refine Writes.cons (writes_f 2 _ (by decide) (code_lt _)) (Writes.cons (writes_flag _) ?_)
    have hk : (f.type.code == 3 || (f.type.code == 0 && c.showFrame)) = keyLike f.type c.showFrame := by
      cases f.type <;> rfl
    rw [hk]
    have key : ∀ (sh : Bool) (tm : Option Nat), Writes (cat [if keyLike f.type c.showFrame then cat [] else pushB f.errRes])
        (do
          let e ← (if keyLike f.type c.showFrame then pure true else P.flag)
          pure (⟨f.type.code, c.showFrame, tm, sh, e⟩ : Hdr.Opening))
        ⟨f.type.code, c.showFrame, tm, sh, keyLike f.type c.showFrame || f.errRes⟩ := by
      intro sh tm
      cases hkk : keyLike f.type c.showFrame with
      | true => exact Writes.skip (Writes.pure _)
      | false => exact Writes.last (Writes.map _ (writes_flag _))
    cases hs : c.showFrame with
    | true =>
      rw [hs] at key
      simp only [if_true]
      exact Writes.cons (writes_point s c f h ho) (Writes.skip (key _ _))
    | false =>
      rw [hs] at key
      simp only [Bool.false_eq_true, if_false, pure_bind]
      exact Writes.skip (Writes.cons (writes_flag _) (key _ _))

/-- `force_integer_mv` as a decoder reads it. -/
def intMvOf (c : HCtx) (f : HFrame) : Nat :=
  if frameSct c f > 0 then (if c.forceIntMv = 2 then f.intMv else c.forceIntMv) else 0

theorem writes_frontTools (s : Hdr.SeqInfo) (c : HCtx) (f : HFrame) (h : Agrees s c f) (ho : FrontOk c f) (intra : Bool) :
    Writes (toolsBits c f) (Hdr.tools s intra) (c.disableCdfUpdate, frameSct c f, if intra then 1 else intMvOf c f) := by
  unfold toolsBits Hdr.tools intMvOf
  rw [h.sct, h.intMv]
  refine Writes.cons (writes_flag _) ?_
  have key : ∀ n, Writes (cat [if n > 0 then (if c.forceIntMv = 2 then pushU f.intMv else cat []) else cat []])
      (do
        let mv ← (if n > 0 then (if c.forceIntMv = 2 then P.f 1 else pure c.forceIntMv) else pure 0)
        pure (c.disableCdfUpdate, n, if intra then 1 else mv))
      (c.disableCdfUpdate, n, if intra then 1 else if n > 0 then (if c.forceIntMv = 2 then f.intMv else c.forceIntMv) else 0) := by
    intro n
    by_cases hn : n > 0
    · simp only [if_pos hn]
      by_cases hm : c.forceIntMv = 2
      · simp only [if_pos hm]
        exact Writes.last (Writes.map (fun mv => (c.disableCdfUpdate, n, if intra then 1 else mv)) (writes_f1 _ ho.intMv))
      · simp only [if_neg hm]
        exact Writes.skip (Writes.pure _)
    · simp only [if_neg hn]
      exact Writes.skip (Writes.pure _)
  have hf : frameSct c f = if c.forceSct = 2 then f.sct else c.forceSct := rfl
  rw [hf]
  by_cases hs : c.forceSct = 2
  · simp only [if_pos hs]
    exact Writes.cons (writes_f1 _ ho.sct) (key _)
  · simp only [if_neg hs]
    exact Writes.skip (key _)

theorem writes_id (s : Hdr.SeqInfo) (c : HCtx) (f : HFrame) (h : Agrees s c f) (ho : FrontOk c f) :
    Writes (idBits c (c.additionalLen + c.deltaLen)) (Hdr.frameId s) (if c.idsPresent then some c.currentId else none) := by
  unfold idBits Hdr.frameId
  rw [h.ids]
  cases hi : c.idsPresent with
  | false => exact Writes.pure _
  | true =>
    have := h.idLens hi
    simp only [if_true]
    rw [Nat.mod_eq_of_lt (by omega)]
    exact Writes.map some (writes_f _ _ (by omega) (ho.id hi))

theorem shift_odd (idc n : Nat) : ((idc >>> n) % 2 = 1) ↔ idc.testBit n = true := by
  rw [Nat.testBit_eq_decide_div_mod_eq, decide_eq_true_eq, Nat.shiftRight_eq_div_pow]

/-- Buffer removal times; AV1 has one only for operating points with a decoder model, the code for all that the frame belongs to. -/
theorem writes_removal (s : Hdr.SeqInfo) (c : HCtx) (f : HFrame) (h : Agrees s c f) (ho : FrontOk c f)
    (hall : ∀ d, f.dmi = some d → d.removalPresent = true → ∀ o ∈ s.ops, Hdr.inLayers s o.1 = true → o.2 = true) :
    Writes (removalBits c f) (Hdr.removal s) (f.dmi.bind fun d => if d.removalPresent then
      some (c.opIdcs.map fun idc => if Hdr.inLayers s idc then some d.removal else none) else none) := by
  unfold removalBits Hdr.removal
  rw [h.model]
  cases hd : f.dmi with
  | none => exact Writes.pure _
  | some d =>
    obtain ⟨-, -, h3, h4, h5, -⟩ := ho.time d hd
    simp only [Option.map_some, Option.bind_some]
    refine Writes.cons (writes_flag _) ?_
    unfold P.opt
    cases hp : d.removalPresent with
    | false =>
      simp only [Bool.false_eq_true, if_false]; exact Writes.skip (Writes.pure _)
    | true =>
      simp only [if_true]
      refine Writes.last (Writes.map some ?_)
      have hall' := hall d hd hp
      rw [← h.ops]
      clear hall
      generalize s.ops = ops at hall'
      induction ops with
      | nil => exact Writes.pure _
      | cons o ops ih =>
        obtain ⟨idc, pr⟩ := o
        have hpr : Hdr.inLayers s idc = true → pr = true := hall' (idc, pr) (by simp)
        have ih := ih (fun o ho => hall' o (by simp [ho]))
        simp only [List.map_cons, Hdr.removalTimes]
        refine Writes.cons (v := if Hdr.inLayers s idc then some d.removal else none) ?_
          (Writes.map (fun ts => (if Hdr.inLayers s idc then some d.removal else none) :: ts) ih)
        have hl := h.layers
        unfold removalBit
        rw [if_neg (by omega)]
        have hin : (idc = 0 ∨ ((idc >>> c.temporalId) % 2 = 1 ∧ (idc >>> (c.spatialId + 8)) % 2 = 1)) ↔
            Hdr.inLayers s idc = true := by
          simp [Hdr.inLayers, shift_odd, h.temporal, h.spatial]
        unfold P.opt
        by_cases hq : Hdr.inLayers s idc = true
        · rw [if_pos (hin.2 hq), if_pos (by rw [hpr hq, hq]; rfl), if_pos hq, Nat.mod_eq_of_lt (show d.removalLen < 256 by omega)]
          exact Writes.map some (writes_f _ _ h4 h5)
        · rw [if_neg (fun x => hq (hin.1 x)), if_neg (by rw [Bool.not_eq_true] at hq; rw [hq]; simp), if_neg hq]
          exact Writes.pure _

theorem writes_superres (s : Hdr.SeqInfo) (c : HCtx) (f : HFrame) (h : Agrees s c f) (ho : FrontOk c f) :
    Writes (superresBits c f) (Hdr.superres s) (denomAfter c f) := by
  unfold superresBits Hdr.superres denomAfter superresOn
  rw [h.superres]
  cases he : c.enableSuperres with
  | false =>
    simp only [Bool.false_and, Bool.false_eq_true, if_false]
    exact Writes.skip (Writes.skip (Writes.pure _))
  | true =>
    simp only [Bool.true_and, if_true]
    refine Writes.cons (writes_flag _) ?_
    cases hu : f.useSuperres with
    | false => exact Writes.skip (Writes.pure _)
    | true =>
      obtain ⟨h1, h2⟩ := ho.denom hu
      simp only [if_true]
      rw [usub_eq _ _ h1]
      simp only [Option.bind_eq_bind, Option.bind_some]
      have := Writes.last (Writes.map (fun d => d + 9) (writes_f 3 (c.superresDenom - 9) (by decide) (by omega)))
      rwa [show c.superresDenom - 9 + 9 = c.superresDenom by omega] at this

theorem writes_render (f : HFrame) (up : Nat) (hr : 1 ≤ f.renderWidth ∧ f.renderWidth ≤ 2 ^ 16 ∧ 1 ≤ f.renderHeight ∧
    f.renderHeight ≤ 2 ^ 16) :
    Writes (renderBits f) (Hdr.renderSize up f.height)
      (if renderDiffers f then (f.renderWidth, f.renderHeight) else (up, f.height)) := by
  obtain ⟨h1, h2, h3, h4⟩ := hr
  unfold renderBits Hdr.renderSize
  refine Writes.cons (writes_flag _) ?_
  cases renderDiffers f with
  | false => exact Writes.skip (Writes.pure _)
  | true =>
    simp only [if_true]
    rw [usub_eq _ _ h1, usub_eq _ _ h3]
    simp only [Option.bind_eq_bind, Option.bind_some]
    have h5 := Writes.cons (xs := [pushN (f.renderHeight - 1) 16]) (g := fun w => do
        let h ← P.f 16
        pure (w + 1, h + 1)) (writes_f 16 (f.renderWidth - 1) (by decide) (by omega))
      (Writes.last (Writes.map (fun h => (f.renderWidth - 1 + 1, h + 1)) (writes_f 16 (f.renderHeight - 1) (by decide) (by omega))))
    rw [show f.renderWidth - 1 + 1 = f.renderWidth by omega, show f.renderHeight - 1 + 1 = f.renderHeight by omega] at h5
    exact Writes.last h5

/-- The render size a decoder ends up with. -/
def renderOf (c : HCtx) (f : HFrame) : Nat × Nat :=
  if renderDiffers (superresAfter c f).2 then (f.renderWidth, f.renderHeight) else (f.width, f.height)

/-- The sizes a decoder reads when the frame has the size of the sequence. -/
def sizeOf (c : HCtx) (f : HFrame) : Hdr.Size :=
  ⟨f.width, f.height, denomAfter c f, (renderOf c f).1, (renderOf c f).2⟩

theorem writes_fullSize (s : Hdr.SeqInfo) (c : HCtx) (f : HFrame) (h : Agrees s c f) (ho : FrontOk c f)
    (hov : c.sizeOverride = false) (hw : s.maxWidth = f.width) (hh : s.maxHeight = f.height) :
    Writes (fullSizeBits c f) (Hdr.size s false) (sizeOf c f) := by
  unfold fullSizeBits Hdr.size sizeBits Hdr.frameSize
  rw [hov, hw, hh]
  simp only [Bool.false_eq_true, if_false]
  have h2 := Writes.cons (xs := [renderBits (superresAfter c f).2]) (g := fun d => do
      let (rw, rh) ← Hdr.renderSize f.width f.height
      pure (⟨f.width, f.height, d, rw, rh⟩ : Hdr.Size)) (writes_superres s c f h ho)
    (Writes.last (Writes.map (fun p : Nat × Nat => (⟨f.width, f.height, denomAfter c f, p.1, p.2⟩ : Hdr.Size))
      (writes_render (superresAfter c f).2 f.width ho.render)))
  exact Writes.skip h2

end Av1
