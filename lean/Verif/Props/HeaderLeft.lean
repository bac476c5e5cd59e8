import Verif.Model.HeaderLeft
import Verif.Spec.HeaderLeft
import Verif.Props.FrameParams
import Verif.Props.FrameFilters
import Verif.Props.FrameState
import Verif.Props.FrameWhole
import Verif.Props.Restoration

/-!
# What the header leaves for the tiles: C134, C135
-/

namespace Av1

/-! ## C134: the tiles work with the decoder's settings -/

/-- The quantizer feature in force for a segment. -/
def altQ (w : Whole) (i : Nat) : Option Int := segFeature (segAfter w.seg (decide (w.f.primary = 7))) i 0

/-- Every segment's matrix levels are those a decoder derives from the quantizer section it reads. -/
def LevelsRight (w : Whole) (st : HeaderLeft) : Prop := ∀ i < 8, ∀ plane < 3, ∃ level v,
  (st.qmLevel[plane]?.bind (·[i]?)) = some level ∧
    Writes (encodeQuant w.quant w.planes w.sep) (Hdr.quant w.planes w.sep) v ∧ Hdr.IsQmLevel (altQ w i) v plane level

/-- Every segment's lossless flag is AV1's. -/
def FlagsRight (w : Whole) (st : HeaderLeft) : Prop := ∀ i < 8, ∃ b, st.losslessArray[i]? = some b ∧
  (b = true ↔ Hdr.LosslessSegment (altQ w i) (quantAfter w.quant w.planes w.sep).baseQIdx
    [(quantAfter w.quant w.planes w.sep).yDc, (quantAfter w.quant w.planes w.sep).uAc,
     (quantAfter w.quant w.planes w.sep).uDc, (quantAfter w.quant w.planes w.sep).vAc,
     (quantAfter w.quant w.planes w.sep).vDc])

/-- **C134**, full claim: after a header the lossless flags, and with quantizer matrices the levels, are those of the decoder. -/
def C134_full : Prop := ∀ (w : Whole) (old st : HeaderLeft), w.quant.Ok → headerLeft w old = some st →
  FlagsRight w st ∧ (w.quant.usingQm = true → LevelsRight w st)

theorem quantAfter_base (q : Quant) (planes : Nat) (sep : Bool) :
    (quantAfter q planes sep).baseQIdx = q.baseQIdx ∧ (quantAfter q planes sep).usingQm = q.usingQm := by
  unfold quantAfter
  by_cases hp : planes > 1 <;> cases hd : diffAfter q sep <;> cases hu : q.usingQm <;> cases sep <;> simp [hp, hu, hd]

/-- The flag of a segment. -/
def flagOf (w : Whole) (i : Nat) : Bool :=
  decide (getQIndex true i (segAfter w.seg (decide (w.f.primary = 7))) w.quant.baseQIdx w.currentQ
    (deltaQAfter w.deltas w.quant.baseQIdx).qPresent = 0) &&
  decide (∀ d ∈ [(quantAfter w.quant w.planes w.sep).yDc, (quantAfter w.quant w.planes w.sep).uAc,
     (quantAfter w.quant w.planes w.sep).uDc, (quantAfter w.quant w.planes w.sep).vAc,
     (quantAfter w.quant w.planes w.sep).vDc], d = 0)

theorem losslessArray_eq (w : Whole) :
    losslessArray (segAfter w.seg (decide (w.f.primary = 7))) (quantAfter w.quant w.planes w.sep) w.currentQ
      (deltaQAfter w.deltas w.quant.baseQIdx).qPresent = (List.range 8).map (flagOf w) := by
  unfold losslessArray
  refine List.map_congr_left fun i _ => ?_
  unfold flagOf
  rw [(quantAfter_base _ _ _).1, Bool.eq_iff_iff]
  simp only [Bool.and_eq_true, decide_eq_true_eq, List.mem_cons, List.not_mem_nil, or_false, forall_eq_or_imp, forall_eq]
  tauto

theorem headerLeft_fields {w : Whole} {old st : HeaderLeft} (h : headerLeft w old = some st) :
    st.losslessArray = (List.range 8).map (flagOf w) ∧
      st.qmLevel = qmLevelAfter old.qmLevel ((List.range 8).map (flagOf w)) (quantAfter w.quant w.planes w.sep) := by
  unfold headerLeft at h
  simp only [losslessArray_eq, Option.bind_eq_bind, Option.bind_eq_some_iff, Option.some.injEq] at h
  obtain ⟨types, _, rfl⟩ := h
  exact ⟨rfl, rfl⟩

/-- AV1's condition, for one segment. -/
def Lossless (w : Whole) (i : Nat) : Prop := Hdr.LosslessSegment (altQ w i) w.quant.baseQIdx
    [(quantAfter w.quant w.planes w.sep).yDc, (quantAfter w.quant w.planes w.sep).uAc,
     (quantAfter w.quant w.planes w.sep).uDc, (quantAfter w.quant w.planes w.sep).vAc,
     (quantAfter w.quant w.planes w.sep).vDc]

theorem flagsRight_iff {w : Whole} {old st : HeaderLeft} (h : headerLeft w old = some st) :
    FlagsRight w st ↔ ∀ i < 8, (flagOf w i = true ↔ Lossless w i) := by
  unfold FlagsRight Lossless
  rw [(headerLeft_fields h).1, (quantAfter_base _ _ _).1]
  refine forall₂_congr fun i hi => ?_
  simp [hi]

theorem levels_at {w : Whole} {old st : HeaderLeft} (h : headerLeft w old = some st) (hq : w.quant.usingQm = true) {i plane : Nat}
    (hi : i < 8) (hp : plane < 3) : (st.qmLevel[plane]?.bind (·[i]?)) = some (if flagOf w i then 15 else
      Hdr.ofPlane ((quantAfter w.quant w.planes w.sep).qmY, (quantAfter w.quant w.planes w.sep).qmU,
        (quantAfter w.quant w.planes w.sep).qmV) plane) := by
  rw [(headerLeft_fields h).2]
  unfold qmLevelAfter
  rw [(quantAfter_base _ _ _).2, if_pos hq]
  have : plane = 0 ∨ plane = 1 ∨ plane = 2 := by omega
  rcases this with rfl | rfl | rfl <;> simp [hi, Hdr.ofPlane]

theorem level_right {w : Whole} {old st : HeaderLeft} (hok : w.quant.Ok) (h : headerLeft w old = some st)
    (hq : w.quant.usingQm = true) {i plane : Nat} (hi : i < 8) (hp : plane < 3) :
    (∃ level v, (st.qmLevel[plane]?.bind (·[i]?)) = some level ∧
      Writes (encodeQuant w.quant w.planes w.sep) (Hdr.quant w.planes w.sep) v ∧ Hdr.IsQmLevel (altQ w i) v plane level) ↔
    ((flagOf w i = true ↔ Lossless w i) ∨
      Hdr.ofPlane ((quantAfter w.quant w.planes w.sep).qmY, (quantAfter w.quant w.planes w.sep).qmU,
        (quantAfter w.quant w.planes w.sep).qmV) plane = 15) := by
  have hw := C78_quant_read_back w.quant w.planes w.sep hok
  have hqm : (quantAfter w.quant w.planes w.sep).view.qm = some ((quantAfter w.quant w.planes w.sep).qmY,
      (quantAfter w.quant w.planes w.sep).qmU, (quantAfter w.quant w.planes w.sep).qmV) := by
    show (if (quantAfter w.quant w.planes w.sep).usingQm = true then _ else _) = _
    rw [(quantAfter_base _ _ _).2, if_pos hq]
  rw [levels_at h hq hi hp]
  have key : ∀ level, Hdr.IsQmLevel (altQ w i) (quantAfter w.quant w.planes w.sep).view plane level ↔
      ((Lossless w i → level = 15) ∧ (¬ Lossless w i → level = Hdr.ofPlane ((quantAfter w.quant w.planes w.sep).qmY,
        (quantAfter w.quant w.planes w.sep).qmU, (quantAfter w.quant w.planes w.sep).qmV) plane)) := by
    intro level
    unfold Hdr.IsQmLevel Lossless
    rw [hqm]
    have hb : (quantAfter w.quant w.planes w.sep).view.baseQIdx = w.quant.baseQIdx := (quantAfter_base _ _ _).1
    rw [hb]
    refine and_congr Iff.rfl (imp_congr Iff.rfl ?_)
    constructor
    · rintro ⟨qm, e, r⟩
      obtain rfl := Option.some.inj e
      exact r
    · intro r
      exact ⟨_, rfl, r⟩
  generalize Hdr.ofPlane ((quantAfter w.quant w.planes w.sep).qmY, (quantAfter w.quant w.planes w.sep).qmU,
    (quantAfter w.quant w.planes w.sep).qmV) plane = m at key ⊢
  constructor
  · rintro ⟨level, v, e, hv, hl⟩
    obtain rfl := hv.unique hw
    obtain rfl := Option.some.inj e
    rw [key] at hl
    cases hf : flagOf w i <;> rw [hf] at hl <;> by_cases hL : Lossless w i
    · right; have := hl.1 hL; simpa using this
    · left; simp [hL]
    · left; simp [hL]
    · right; have := hl.2 hL; simpa using this.symm
  · intro hx
    refine ⟨_, _, rfl, hw, (key _).2 ?_⟩
    rcases hx with hx | hx
    · cases hf : flagOf w i <;> rw [hf] at hx <;> simp at hx <;> simp [hx]
    · subst hx
      simp

/-- The levels are right exactly if the lossless flags are, or if no plane has a matrix anyway. -/
theorem C134_levels_iff (w : Whole) (old st : HeaderLeft) (hok : w.quant.Ok) (h : headerLeft w old = some st)
    (hq : w.quant.usingQm = true) : LevelsRight w st ↔ (FlagsRight w st ∨
      ((quantAfter w.quant w.planes w.sep).qmY = 15 ∧ (quantAfter w.quant w.planes w.sep).qmU = 15 ∧
        (quantAfter w.quant w.planes w.sep).qmV = 15)) := by
  rw [flagsRight_iff h]
  unfold LevelsRight
  constructor
  · intro hr
    by_cases hf : ∀ i < 8, (flagOf w i = true ↔ Lossless w i)
    · exact Or.inl hf
    · right
      push Not at hf
      obtain ⟨i, hi, hne⟩ := hf
      have hn : ¬ (flagOf w i = true ↔ Lossless w i) := by tauto
      have := fun plane hp => ((level_right hok h hq hi hp).1 (hr i hi plane hp)).resolve_left hn
      exact ⟨this 0 (by decide), this 1 (by decide), this 2 (by decide)⟩
  · intro hr i hi plane hp
    refine (level_right hok h hq hi hp).2 ?_
    rcases hr with hr | ⟨h0, h1, h2⟩
    · exact Or.inl (hr i hi)
    · right
      rw [h0, h1, h2]
      unfold Hdr.ofPlane
      split
      · rfl
      · split <;> rfl

/-- **C134, partial.** Right if every segment has its own quantizer or the context's quantizer is the frame's. Missing: other
frames, see `C134_fresh_wrong`. -/
theorem C134_left_partial (w : Whole) (old st : HeaderLeft) (hok : w.quant.Ok) (h : headerLeft w old = some st)
    (hc : w.currentQ = w.quant.baseQIdx ∨ ∀ i < 8, (altQ w i).isSome = true) :
    FlagsRight w st ∧ (w.quant.usingQm = true → LevelsRight w st) := by
  have hf : FlagsRight w st := by
    rw [flagsRight_iff h]
    intro i hi
    unfold flagOf Lossless Hdr.LosslessSegment
    rw [Bool.and_eq_true, decide_eq_true_eq, decide_eq_true_eq]
    refine and_congr ?_ Iff.rfl
    unfold getQIndex
    show (match altQ w i with | some data => _ | none => _) = 0 ↔ _
    cases hs : altQ w i with
    | some d =>
      simp only [Bool.not_true, Bool.false_and, Bool.false_eq_true, if_false]
      rw [clip3_eq]
      unfold Hdr.clip
      omega
    | none =>
      rcases hc with hc | hc
      · simp only [if_true, hc]; omega
      · have := hc i hi
        rw [hs] at this; cases this
  exact ⟨hf, fun hq => (C134_levels_iff w old st hok h hq).2 (Or.inl hf)⟩

/-- A new context, no segmentation, no offsets: every segment counts as lossless, has no matrix, and the blocks may only use 4x4
transforms, whatever the quantizer and the levels of the frame are. -/
theorem C134_fresh_wrong (w : Whole) (old st : HeaderLeft) (h : headerLeft w old = some st) (hc : w.currentQ = 0)
    (hs : w.seg.enabled = false) (hd : w.quant.yDc = 0 ∧ w.quant.uDc = 0 ∧ w.quant.uAc = 0 ∧ w.quant.vDc = 0 ∧ w.quant.vAc = 0)
    (hb : 0 < w.quant.baseQIdx) :
    st.losslessArray = List.replicate 8 true ∧ st.codedLossless = true ∧ st.txMode = K.ONLY_4X4 ∧
      (w.quant.usingQm = true → st.qmLevel = List.replicate 3 (List.replicate 8 15)) ∧ ¬ FlagsRight w st := by
  have hseg : (segAfter w.seg (decide (w.f.primary = 7))).enabled = false := by
    unfold segAfter
    simp [hs]
  have halt : ∀ i, altQ w i = none := fun i => by unfold altQ segFeature; rw [hseg]; rfl
  have hz := (quantAfter_zero w.quant w.planes w.sep hd).2
  have hfl : ∀ i, flagOf w i = true := by
    intro i
    unfold flagOf
    rw [Bool.and_eq_true, decide_eq_true_eq, decide_eq_true_eq]
    refine ⟨?_, hz⟩
    unfold getQIndex
    show (match altQ w i with | some data => _ | none => _) = 0
    rw [halt]
    exact hc
  have harr : (List.range 8).map (flagOf w) = List.replicate 8 true := by
    rw [List.map_congr_left (g := fun _ => true) (fun i _ => hfl i)]
    rfl
  obtain ⟨f1, f2⟩ := headerLeft_fields h
  rw [harr] at f1 f2
  have f3 : st.codedLossless = true ∧ st.txMode = K.ONLY_4X4 := by
    unfold headerLeft at h
    simp only [losslessArray_eq, harr, Option.bind_eq_bind, Option.bind_eq_some_iff, Option.some.injEq] at h
    obtain ⟨types, _, rfl⟩ := h
    exact ⟨rfl, rfl⟩
  refine ⟨f1, f3.1, f3.2, fun hq => ?_, ?_⟩
  · rw [f2]
    unfold qmLevelAfter
    rw [(quantAfter_base _ _ _).2, if_pos hq]
    rfl
  · rw [flagsRight_iff h]
    intro hall
    have := ((hall 0 (by decide)).1 (hfl 0)).1
    rw [halt] at this
    simp only at this
    omega

/-- The transform mode left is the one a decoder with the same view of losslessness reads. -/
theorem C134_tx_mode (w : Whole) (old st : HeaderLeft) (h : headerLeft w old = some st) : ∃ m,
    Writes (encodeTxMode st.codedLossless w.txSelect) (Hdr.txMode st.codedLossless) m ∧ st.txMode = m.code ∧
      (st.codedLossless = true ↔ ∀ i < 8, st.losslessArray[i]? = some true) ∧
      (st.allLossless = true ↔ st.codedLossless = true ∧ w.f.width = w.c.upscaledWidth) := by
  refine ⟨_, C82_tx_mode _ _, ?_⟩
  unfold headerLeft at h
  simp only [losslessArray_eq, Option.bind_eq_bind, Option.bind_eq_some_iff, Option.some.injEq] at h
  obtain ⟨types, _, rfl⟩ := h
  refine ⟨?_, ?_, ?_⟩
  · unfold txModeAfter
    simp only
    cases ((List.range 8).map (flagOf w)).all id <;> cases w.txSelect <;> rfl
  · simp only [List.all_map, List.all_eq_true, List.mem_range, Function.comp, id]
    refine forall₂_congr fun i hi => ?_
    simp [hi]
  · simp only [Bool.and_eq_true, decide_eq_true_eq]

/-- A frame with quantizer matrices and quantizer index 100, coded with a new context. -/
def matrixWhole : Whole := { losslessWhole with
  quant := { losslessWhole.quant with baseQIdx := 100, usingQm := true, qmY := 3, qmU := 4, qmV := 4 } }

theorem matrixWhole_ok : matrixWhole.quant.Ok := by constructor <;> decide

example : (headerLeft matrixWhole HeaderLeft.new).isSome = true := by decide +kernel

/-- **C134** is false. -/
theorem C134_negation : ¬ C134_full := by
  intro h
  obtain ⟨st, hst⟩ : ∃ st, headerLeft matrixWhole HeaderLeft.new = some st :=
    Option.isSome_iff_exists.1 (by decide +kernel)
  exact (C134_fresh_wrong _ _ _ hst rfl rfl ⟨rfl, rfl, rfl, rfl, rfl⟩ (by decide)).2.2.2.2 (h _ _ _ matrixWhole_ok hst).1

/-- Both conditions of `C134_left_partial` occur. -/
example : (headerLeft { matrixWhole with currentQ := 100 } HeaderLeft.new).map (·.qmLevel) =
    some [List.replicate 8 3, List.replicate 8 4, List.replicate 8 4] := by decide +kernel
example : (headerLeft { matrixWhole with
    seg := ⟨true, true, false, true, List.replicate 8 [some (-100), none, none, none, none, none, none]⟩ } HeaderLeft.new).map
    (·.qmLevel) = some (List.replicate 3 (List.replicate 8 15)) := by decide +kernel

/-! ### Restoration types -/

theorem lrTypesLoop_at {lrType t : Nat} (ht : K.remap_lr_type[lrType]? = some t) : ∀ (is ts : List Nat), (∀ i ∈ is, i < ts.length) →
    ∃ out, lrTypesLoop lrType is ts = some out ∧ out.length = ts.length ∧
      ∀ p, out[p]? = if p ∈ is then some t else ts[p]? := by
  intro is
  induction is with
  | nil => intro ts _; exact ⟨ts, rfl, rfl, fun p => by simp⟩
  | cons i is ih =>
    intro ts h
    have hi : i < ts.length := h i (by simp)
    obtain ⟨out, e, l, a⟩ := ih (ts.set i t) (fun j hj => by rw [List.length_set]; exact h j (by simp [hj]))
    refine ⟨out, ?_, by rw [l, List.length_set], fun p => ?_⟩
    · rw [lrTypesLoop, ht, List.getElem?_eq_getElem hi]
      exact e
    · rw [a p]
      by_cases hp : p ∈ is
      · simp [hp]
      · by_cases hpi : p = i
        · subst hpi; simp [hp, hi]
        · have : i ≠ p := fun h => hpi h.symm
          simp [hp, hpi, List.getElem?_set_ne this]

/-- Restoration is off, as the code sees it. -/
def lrOff (w : Whole) (st : HeaderLeft) : Bool := st.allLossless || w.f.intrabc || w.enableRestoration

theorem headerLeft_types {w : Whole} {old st : HeaderLeft} (h : headerLeft w old = some st) :
    lrTypesAfter old.lrTypes w.lr (lrOff w st) w.planes = some st.lrTypes ∧
      st.usesLr = (!lrOff w st && ((st.lrTypes.take w.planes).map fun t => decide (t ≠ K.RESTORE_NONE)).any id) ∧
      st.usesChromaLr = (if lrOff w st then old.usesChromaLr else
        (((st.lrTypes.take w.planes).map fun t => decide (t ≠ K.RESTORE_NONE)).drop 1).any id) := by
  unfold headerLeft at h
  simp only [Option.bind_eq_bind, Option.bind_eq_some_iff, Option.some.injEq] at h
  obtain ⟨types, h1, rfl⟩ := h
  exact ⟨h1, rfl, rfl⟩

/-- **C134**: no history of headers since the context was made panics here, and after each of them (also before the first) everything
the tiles look up is there: a flag for each segment, a level for each plane and segment, a restoration type for each plane. -/
theorem C134_history (ws : List Whole) (hw : ∀ w ∈ ws, w.lr.lrType < 4 ∧ w.planes ≤ 3) :
    ∃ st, ws.foldlM (fun old w => headerLeft w old) HeaderLeft.new = some st ∧ ∀ plane < 3, ∀ seg < 8,
      (∃ b, st.losslessArray[seg]? = some b) ∧ (∃ row m, st.qmLevel[plane]? = some row ∧ row[seg]? = some m) ∧
        ∃ t, st.lrTypes[plane]? = some t := by
  have key : ∀ (ws : List Whole) (old : HeaderLeft), (∀ w ∈ ws, w.lr.lrType < 4 ∧ w.planes ≤ 3) → old.losslessArray.length = 8 →
      (old.qmLevel.length = 3 ∧ ∀ row ∈ old.qmLevel, row.length = 8) → old.lrTypes.length = 3 →
      ∃ st, ws.foldlM (fun old w => headerLeft w old) old = some st ∧ st.losslessArray.length = 8 ∧
        (st.qmLevel.length = 3 ∧ ∀ row ∈ st.qmLevel, row.length = 8) ∧ st.lrTypes.length = 3 := by
    intro ws
    induction ws with
    | nil => intro old _ h1 h2 h3; exact ⟨old, rfl, h1, h2, h3⟩
    | cons w ws ih =>
      intro old hw h1 h2 h3
      obtain ⟨hl, hp⟩ := hw w List.mem_cons_self
      have ht : ∃ t, K.remap_lr_type[w.lr.lrType]? = some t := by
        generalize w.lr.lrType = n at hl
        interval_cases n <;> exact ⟨_, rfl⟩
      obtain ⟨t, ht⟩ := ht
      obtain ⟨out, e1, e2, -⟩ := lrTypesLoop_at ht (List.range w.planes) old.lrTypes (fun i hi => by rw [List.mem_range] at hi; omega)
      have htypes : ∀ off, ∃ types, lrTypesAfter old.lrTypes w.lr off w.planes = some types ∧ types.length = 3 := by
        intro off
        unfold lrTypesAfter
        cases off with
        | true => exact ⟨_, rfl, rfl⟩
        | false => exact ⟨out, e1, by rw [e2, h3]⟩
      have hst : ∃ st, headerLeft w old = some st ∧ st.losslessArray.length = 8 ∧
          (st.qmLevel.length = 3 ∧ ∀ row ∈ st.qmLevel, row.length = 8) ∧ st.lrTypes.length = 3 := by
        unfold headerLeft
        simp only [losslessArray_eq]
        obtain ⟨types, g1, g2⟩ := htypes (((List.range 8).map (flagOf w)).all id && decide (w.f.width = w.c.upscaledWidth) || w.f.intrabc ||
          w.enableRestoration)
        rw [g1]
        refine ⟨_, rfl, by simp, ?_, g2⟩
        unfold qmLevelAfter
        split
        · simp
        · exact h2
      obtain ⟨st, g1, g2, g3, g4⟩ := hst
      rw [List.foldlM_cons, g1]
      exact ih st (fun w hw' => hw w (List.mem_cons_of_mem _ hw')) g2 g3 g4
  obtain ⟨st, h, h1, h2, h3⟩ := key ws HeaderLeft.new hw rfl (by decide) rfl
  refine ⟨st, h, fun plane hp seg hs => ⟨⟨_, List.getElem?_eq_getElem (by omega)⟩, ?_, ⟨_, List.getElem?_eq_getElem (by omega)⟩⟩⟩
  have hrow := List.getElem?_eq_getElem (l := st.qmLevel) (i := plane) (by omega)
  exact ⟨_, _, hrow, List.getElem?_eq_getElem (by rw [h2.2 _ (List.mem_of_getElem? hrow)]; exact hs)⟩

/-- Frames without quantizer matrices leave the levels of the last frame that had them, and level 0 if there was none. -/
theorem C134_levels_kept (ws : List Whole) (hw : ∀ w ∈ ws, w.quant.usingQm = false) (old st : HeaderLeft)
    (h : ws.foldlM (fun old w => headerLeft w old) old = some st) : st.qmLevel = old.qmLevel ∧
      (old = .new → ∀ plane < 3, ∀ seg < 8, st.qmLevel[plane]?.bind (·[seg]?) = some 0) := by
  have key : st.qmLevel = old.qmLevel := by
    induction ws generalizing old with
    | nil => simp only [List.foldlM_nil, Option.pure_def, Option.some.injEq] at h; rw [h]
    | cons w ws ih =>
      rw [List.foldlM_cons] at h
      obtain ⟨m, h1, h2⟩ := Option.bind_eq_some_iff.1 h
      rw [ih (fun v hv => hw v (List.mem_cons_of_mem _ hv)) m h2]
      unfold headerLeft at h1
      simp only [Option.bind_eq_bind, Option.bind_eq_some_iff, Option.some.injEq] at h1
      obtain ⟨_, -, rfl⟩ := h1
      have hu := hw w List.mem_cons_self
      have hq : (quantAfter w.quant w.planes w.sep).usingQm = false := by
        rw [← hu]
        unfold quantAfter
        simp only []
        repeat' split
        all_goals rfl
      unfold qmLevelAfter
      simp only [hq, hu, Bool.false_eq_true, if_false]
  refine ⟨key, ?_⟩
  rintro rfl
  rw [key]
  decide

/-- **C134** for loop restoration: if it is off every plane has the type none; otherwise the planes of the frame have the type a
decoder reads from the restoration section, and restoration counts as used exactly if that is not none. -/
theorem C134_types (w : Whole) (old st : HeaderLeft) (h : headerLeft w old = some st) (ht : w.lr.lrType < 4)
    (hp : w.planes = 1 ∨ w.planes = 3) (hold : old.lrTypes.length = 3) :
    st.lrTypes.length = 3 ∧
    (lrOff w st = true → st.lrTypes = [0, 0, 0] ∧ st.usesLr = false ∧ st.usesChromaLr = old.usesChromaLr) ∧
    (lrOff w st = false →
      (∀ p < w.planes, st.lrTypes[p]? = ((w.lr.view w.planes w.sub).1[p]?).map Hdr.Restoration.code) ∧
      (∀ p, w.planes ≤ p → st.lrTypes[p]? = old.lrTypes[p]?) ∧
      (st.usesLr = true ↔ w.lr.lrType ≠ 0) ∧ (st.usesChromaLr = true ↔ w.lr.lrType ≠ 0 ∧ w.planes = 3)) := by
  obtain ⟨h1, h2, h3⟩ := headerLeft_types h
  cases ho : lrOff w st with
  | true =>
    rw [ho] at h1 h2 h3
    have he : st.lrTypes = [0, 0, 0] := (Option.some.inj h1).symm
    exact ⟨by rw [he]; rfl, fun _ => ⟨he, h2, h3⟩, fun hc => by cases hc⟩
  | false =>
    rw [ho] at h1 h2 h3
    have hr : K.remap_lr_type[w.lr.lrType]? = some (Hdr.remap w.lr.lrType).code := by
      have : w.lr.lrType = 0 ∨ w.lr.lrType = 1 ∨ w.lr.lrType = 2 ∨ w.lr.lrType = 3 := by omega
      rcases this with e | e | e | e <;> rw [e] <;> rfl
    have hz : (Hdr.remap w.lr.lrType).code ≠ 0 ↔ w.lr.lrType ≠ 0 := by
      have : w.lr.lrType = 0 ∨ w.lr.lrType = 1 ∨ w.lr.lrType = 2 ∨ w.lr.lrType = 3 := by omega
      rcases this with e | e | e | e <;> rw [e] <;> decide
    obtain ⟨out, e, l, a⟩ := lrTypesLoop_at hr (List.range w.planes) old.lrTypes
      (fun i hi => by have := List.mem_range.1 hi; omega)
    have he : st.lrTypes = out := by
      have : some out = some st.lrTypes := e.symm.trans h1
      exact (Option.some.inj this).symm
    rw [he] at h2 h3 ⊢
    have htake : out.take w.planes = List.replicate w.planes (Hdr.remap w.lr.lrType).code := by
      refine List.ext_getElem? fun p => ?_
      rw [List.getElem?_take, a p]
      by_cases hpp : p < w.planes <;> simp [hpp]
    rw [htake] at h2 h3
    refine ⟨by rw [l, hold], fun hc => (by cases hc), fun _ => ⟨fun p hpp => ?_, fun p hpp => ?_, ?_, ?_⟩⟩
    · rw [a p]
      simp [hpp, Lr.view]
    · rw [a p]
      simp [Nat.not_lt.2 hpp]
    · rw [h2, ← hz]
      generalize (Hdr.remap w.lr.lrType).code = n
      rcases hp with hp | hp <;> rw [hp] <;> by_cases hn : n = 0 <;> simp [List.replicate, K.RESTORE_NONE, hn]
    · rw [h3, ← hz]
      generalize (Hdr.remap w.lr.lrType).code = n
      rcases hp with hp | hp <;> rw [hp] <;> by_cases hn : n = 0 <;> simp [List.replicate, K.RESTORE_NONE, hn]

/-- A frame with restoration. -/
def restWhole : Whole := { matrixWhole with
  currentQ := 100, enableRestoration := false, lr := ⟨2, 1, 0, 1, [0, 0, 0]⟩ }

example : (headerLeft restWhole HeaderLeft.new).map (fun st => (lrOff restWhole st, st.lrTypes)) = some (false, [1, 1, 1]) := by
  decide +kernel

/-! ## C135: a frame with loop restoration can be coded -/

/-- What `encode_lr` finds after the header of `w`. -/
structure AfterHeader (w : Whole) (st : HeaderLeft) (e : LrEnv) : Prop where
  intrabc : e.allowIntrabc = w.f.intrabc
  planes : e.planes = w.planes
  types : e.types = st.lrTypes
  sizes : e.sizes = (lrAfter w.lr (lrOff w st) w.planes w.tile.use128 w.sub).size

/-- **C135**, full claim: after the header of a frame with loop restoration the units of every superblock are determined. -/
def C135_full : Prop := ∀ (w : Whole) (old st : HeaderLeft) (e : LrEnv), headerLeft w old = some st → AfterHeader w st e →
  w.lr.Ok w.tile.use128 → w.lr.lrType ≠ 0 → w.planes = 3 → lrOff w st = false → w.lr.size.length = 3 → old.lrTypes.length = 3 →
  ∀ plane < 3, ∀ bw bh r c, (unitRange e plane bw bh r c).isSome = true

/-- The units of a superblock are determined exactly if the unit size is there and not 0. -/
theorem C135_iff (e : LrEnv) (plane bw bh r c : Nat) :
    (unitRange e plane bw bh r c).isSome = true ↔ ∃ unit, e.sizes[plane]? = some unit ∧ unit ≠ 0 := by
  unfold unitRange
  cases hu : e.sizes[plane]? with
  | none => simp
  | some unit =>
    by_cases h0 : unit = 0
    · simp [h0, countUnits]
    · simp [h0, countUnits]

theorem lrAfter_size (w : Whole) (st : HeaderLeft) (hl : w.lr.Ok w.tile.use128) (h0 : w.lr.lrType ≠ 0) (hp : w.planes = 3)
    (ho : lrOff w st = false) :
    (lrAfter w.lr (lrOff w st) w.planes w.tile.use128 w.sub).size = [2 ^ (6 + w.lr.unitShift),
      w.lr.size.getD 1 0 / 2 ^ (if w.sub then w.lr.uvShift else 0), w.lr.size.getD 2 0 / 2 ^ (if w.sub then w.lr.uvShift else 0)] := by
  have h1 := lrSizeAfter_eq w.lr w.tile.use128 w.sub hl h0
  unfold lrAfter
  rw [ho, hp, remap_ne _ hl.type h0, if_neg (by decide)]
  exact h1

/-- **C135, partial.** Luma always; chroma exactly if the sizes of earlier frames survive the shift. Missing: see
`C135_never`. -/
theorem C135_units_partial (w : Whole) (st : HeaderLeft) (e : LrEnv) (he : AfterHeader w st e) (hl : w.lr.Ok w.tile.use128)
    (h0 : w.lr.lrType ≠ 0) (hp : w.planes = 3) (ho : lrOff w st = false) (bw bh r c : Nat) :
    (unitRange e 0 bw bh r c).isSome = true ∧ ∀ plane, plane = 1 ∨ plane = 2 → ((unitRange e plane bw bh r c).isSome = true ↔
      2 ^ (if w.sub then w.lr.uvShift else 0) ≤ w.lr.size.getD plane 0) := by
  have hs := lrAfter_size w st hl h0 hp ho
  rw [← he.sizes] at hs
  refine ⟨?_, ?_⟩
  · rw [C135_iff, hs]
    exact ⟨_, rfl, (Nat.pow_pos (by decide)).ne'⟩
  · intro plane hpl
    rw [C135_iff, hs]
    have hpos : 0 < 2 ^ (if w.sub then w.lr.uvShift else 0) := Nat.pow_pos (by decide)
    have hd : ∀ n : Nat, n / 2 ^ (if w.sub then w.lr.uvShift else 0) ≠ 0 ↔ 2 ^ (if w.sub then w.lr.uvShift else 0) ≤ n := by
      intro n
      rw [ne_eq, Nat.div_eq_zero_iff]
      omega
    rcases hpl with rfl | rfl
    · simp only [List.getElem?_cons_succ, List.getElem?_cons_zero, Option.some.injEq, exists_eq_left']
      exact hd _
    · simp only [List.getElem?_cons_succ, List.getElem?_cons_zero, Option.some.injEq, exists_eq_left']
      exact hd _

/-- The restoration sections of a history of headers: parameters set by the caller, whether restoration is off, planes,
superblock size and subsampling.  Only the sizes are carried from one to the next. -/
def lrHistory : List (Lr × Bool × Nat × Bool × Bool) → List Nat → List Nat
  | [], sizes => sizes
  | (l, off, planes, use128, sub) :: hs, sizes => lrHistory hs (lrAfter { l with size := sizes } off planes use128 sub).size

/-- However many headers were written since the context was made, the chroma sizes are 0. -/
theorem lrHistory_zero : ∀ (hs : List (Lr × Bool × Nat × Bool × Bool)) (sizes : List Nat),
    sizes.getD 1 0 = 0 → sizes.getD 2 0 = 0 → (lrHistory hs sizes).getD 1 0 = 0 ∧ (lrHistory hs sizes).getD 2 0 = 0 := by
  intro hs
  induction hs with
  | nil => intro sizes h1 h2; exact ⟨h1, h2⟩
  | cons x hs ih =>
    intro sizes h1 h2
    obtain ⟨l, off, planes, use128, sub⟩ := x
    rw [lrHistory]
    refine ih _ ?_ ?_ <;>
    · unfold lrAfter lrSizeAfter
      split
      · assumption
      · simp only [List.getD_cons_succ, List.getD_cons_zero, h1, h2, Nat.zero_shiftRight]

/-- After any history of headers of a new context, a header of three planes with restoration on makes every call of `encode_lr`
panic: the first chroma plane divides by its unit size, 0. -/
theorem C135_never (hs : List (Lr × Bool × Nat × Bool × Bool)) (w : Whole) (old st : HeaderLeft) (e : LrEnv)
    (h : headerLeft w old = some st) (he : AfterHeader w st e) (hl : w.lr.Ok w.tile.use128) (h0 : w.lr.lrType ≠ 0)
    (hp : w.planes = 3) (ho : lrOff w st = false) (hold : old.lrTypes.length = 3) (hsz : w.lr.size = lrHistory hs [0, 0, 0])
    (r c bsize : Nat) (sbs : List (List (List (List (List LrUnit))))) (s : LrState) : encodeLr e r c bsize sbs s = none := by
  obtain ⟨z1, z2⟩ := lrHistory_zero hs [0, 0, 0] rfl rfl
  rw [← hsz] at z1 z2
  obtain ⟨t1, _, t2⟩ := C134_types w old st h hl.type (Or.inr hp) hold
  obtain ⟨t3, _⟩ := t2 ho
  have hty : ∃ t, e.types[1]? = some t ∧ t ≠ 0 := by
    rw [he.types, t3 1 (by omega)]
    refine ⟨(Hdr.remap w.lr.lrType).code, by simp [Lr.view, hp], ?_⟩
    have := hl.type
    have : w.lr.lrType = 0 ∨ w.lr.lrType = 1 ∨ w.lr.lrType = 2 ∨ w.lr.lrType = 3 := by omega
    rcases this with e | e | e | e <;> rw [e] <;> first | exact absurd e h0 | decide
  obtain ⟨t, ht, htn⟩ := hty
  have hnone : ∀ bw bh, unitRange e 1 bw bh r c = none := by
    intro bw bh
    have := ((C135_units_partial w st e he hl h0 hp ho bw bh r c).2 1 (Or.inl rfl))
    rw [z1] at this
    have hpos : 0 < 2 ^ (if w.sub then w.lr.uvShift else 0) := Nat.pow_pos (by decide)
    cases hx : unitRange e 1 bw bh r c with
    | none => rfl
    | some g =>
      rw [hx] at this
      have := this.1 rfl
      omega
  have hib : e.allowIntrabc = false := by
    rw [he.intrabc]
    unfold lrOff at ho
    cases hx : w.f.intrabc <;> simp_all
  unfold encodeLr
  rw [hib, he.planes, hp]
  simp only [Bool.false_eq_true, if_false, Option.bind_eq_bind, Option.bind_eq_none_iff]
  intro bw _ bh _ n _ row _ us _
  show lrPlanes e bw bh r c us [0, 1, 2] s = none
  rw [lrPlanes]
  simp only [Option.bind_eq_bind, Option.bind_eq_none_iff]
  intro t0 _ x _
  have : lrPlanes e bw bh r c us [1, 2] x.2 = none := by
    rw [lrPlanes, ht]
    simp only [Option.bind_eq_bind, Option.bind_some, K.RESTORE_NONE, if_neg htn, hnone, Option.bind_none]
  rw [this]
  intro y hy
  cases hy

/-- **C135** is false. -/
theorem C135_negation : ¬ C135_full := by
  intro h
  obtain ⟨st, hst⟩ : ∃ st, headerLeft restWhole HeaderLeft.new = some st :=
    Option.isSome_iff_exists.1 (by decide +kernel)
  have ho : lrOff restWhole st = false := by
    have : (headerLeft restWhole HeaderLeft.new).map (lrOff restWhole) = some false := by decide +kernel
    rw [hst] at this
    exact Option.some.inj this
  have he : AfterHeader restWhole st ⟨restWhole.f.intrabc, false, 3, st.lrTypes,
      (lrAfter restWhole.lr (lrOff restWhole st) 3 restWhole.tile.use128 restWhole.sub).size, false, false, 64, 64, false, 8⟩ :=
    ⟨rfl, rfl, rfl, rfl⟩
  have hl : restWhole.lr.Ok restWhole.tile.use128 := by constructor <;> decide
  have := h restWhole HeaderLeft.new st _ hst he hl (by decide) rfl ho rfl rfl 1 (by decide) 16 16 0 0
  have h2 := ((C135_units_partial restWhole st _ he hl (by decide) rfl ho 16 16 0 0).2 1 (Or.inl rfl)).1 this
  exact absurd h2 (by decide)

end Av1
