import Verif.Lemmas.HeaderAgain

/-! # A header that is written leaves a state -/

namespace Av1

theorem back_leaves {w w' : Whole} {b : Raw} (h : backBits w w'.c w'.f = some b)
    (hw : w' = { w with c := w'.c, f := w'.f, idLen := w'.idLen, tileNum := w'.tileNum }) : ∃ w1, backAfter w' = some w1 := by
  obtain ⟨bt, ht⟩ := cat_mem h (x := encodeTileInfo { w.tile with width := w'.f.width, height := w'.f.height }) (by simp)
  obtain ⟨bm, hm⟩ := cat_mem h (x := modeBits w w'.c w'.f) (by simp)
  obtain ⟨bg, hg⟩ := cat_mem h (x := encodeGrain w.grain
    ⟨w'.c.showFrame || w'.c.showable, decide (w'.f.type = .inter), w.mono, w.sub, w.grainRefs⟩) (by simp)
  obtain ⟨t', ht⟩ := tileAfter_some _ _ ht
  obtain ⟨g', hg⟩ := grainAfter_some _ _ _ hg
  obtain ⟨a, ha⟩ : ∃ a, skipAllowed w w'.c w'.f = some a := by
    unfold modeBits at hm
    simp only [Option.bind_eq_bind] at hm
    obtain ⟨_, -, hm⟩ := Option.bind_eq_some_iff.1 hm
    obtain ⟨a, ha, -⟩ := Option.bind_eq_some_iff.1 hm
    exact ⟨a, ha⟩
  have h1 : tileAfter { w'.tile with width := w'.f.width, height := w'.f.height } = some t' := by rw [hw]; exact ht
  have h2 : skipAllowed w' w'.c w'.f = some a := by
    rw [hw]
    exact ha
  have h3 : grainAfter w'.grain ⟨w'.c.showFrame || w'.c.showable, decide (w'.f.type = .inter), w'.mono, w'.sub, w'.grainRefs⟩ =
      some g' := by rw [hw]; exact hg
  unfold backAfter
  simp only [h1, h2, h3, Option.bind_eq_bind, Option.bind_some]
  exact ⟨_, rfl⟩

theorem lrTypesLoop_some {lrType t : Nat} (ht : K.remap_lr_type[lrType]? = some t) : ∀ (is ts : List Nat), (∀ i ∈ is, i < ts.length) →
    ∃ out, lrTypesLoop lrType is ts = some out ∧ out.length = ts.length
  | [], ts, _ => ⟨ts, rfl, rfl⟩
  | i :: is, ts, h => by
    have hi : i < ts.length := h i (by simp)
    obtain ⟨out, e, l⟩ := lrTypesLoop_some ht is (ts.set i t) (fun j hj => by rw [List.length_set]; exact h j (by simp [hj]))
    refine ⟨out, ?_, by rw [l, List.length_set]⟩
    rw [lrTypesLoop, ht, List.getElem?_eq_getElem hi]
    exact e

theorem back_left {w w' : Whole} {b : Raw} (h : backBits w w'.c w'.f = some b)
    (hw : w' = { w with c := w'.c, f := w'.f, idLen := w'.idLen, tileNum := w'.tileNum }) (old : HeaderLeft)
    (hold : old.lrTypes.length = 3) : ∃ st, headerLeft w' old = some st ∧ st.lrTypes.length = 3 := by
  have hl : losslessArray (segAfter w'.seg (decide (w'.f.primary = 7))) (quantAfter w'.quant w'.planes w'.sep) w'.currentQ
      (deltaQAfter w'.deltas w'.quant.baseQIdx).qPresent = losslessArray (segAfter w.seg (decide (w'.f.primary = 7)))
      (quantAfter w.quant w.planes w.sep) w.currentQ (deltaQAfter w.deltas w.quant.baseQIdx).qPresent := by rw [hw]
  have hr : w'.lr = w.lr ∧ w'.planes = w.planes ∧ w'.enableRestoration = w.enableRestoration := by rw [hw]; exact ⟨rfl, rfl, rfl⟩
  obtain ⟨bl, hbl⟩ := cat_mem h (x := encodeLrParams w.lr (codedLossless (segAfter w.seg (decide (w'.f.primary = 7)))
    (quantAfter w.quant w.planes w.sep) w.currentQ (deltaQAfter w.deltas w.quant.baseQIdx).qPresent &&
    decide (w'.f.width = w'.c.upscaledWidth) || w'.f.intrabc || w.enableRestoration) w.planes w.tile.use128 w.sub) (by simp)
  have ht : ∃ types, lrTypesAfter old.lrTypes w'.lr ((losslessArray (segAfter w'.seg (decide (w'.f.primary = 7)))
      (quantAfter w'.quant w'.planes w'.sep) w'.currentQ (deltaQAfter w'.deltas w'.quant.baseQIdx).qPresent).all id &&
      decide (w'.f.width = w'.c.upscaledWidth) || w'.f.intrabc || w'.enableRestoration) w'.planes = some types ∧ types.length = 3 := by
    rw [hl, hr.1, hr.2.1, hr.2.2]
    change encodeLrParams w.lr ((losslessArray _ _ _ _).all id && _ || _ || _) _ _ _ = _ at hbl
    generalize ((losslessArray (segAfter w.seg (decide (w'.f.primary = 7))) (quantAfter w.quant w.planes w.sep) w.currentQ
      (deltaQAfter w.deltas w.quant.baseQIdx).qPresent).all id && decide (w'.f.width = w'.c.upscaledWidth) || w'.f.intrabc ||
      w.enableRestoration) = off at hbl ⊢
    unfold lrTypesAfter
    cases off with
    | true => exact ⟨_, rfl, rfl⟩
    | false =>
      unfold encodeLrParams at hbl
      simp only [Bool.false_eq_true, if_false, Option.bind_eq_bind] at hbl ⊢
      by_cases h0 : w.planes = 0
      · rw [h0]; exact ⟨_, rfl, hold⟩
      by_cases h3 : w.planes > 3
      · simp [h0, h3] at hbl
      rw [if_neg h0] at hbl
      obtain ⟨t, ht, -⟩ := Option.bind_eq_some_iff.1 hbl
      obtain ⟨out, e, l⟩ := lrTypesLoop_some ht (List.range w.planes) old.lrTypes
        (fun i hi => by rw [List.mem_range] at hi; omega)
      exact ⟨out, e, by rw [l, hold]⟩
  obtain ⟨types, ht, hlen⟩ := ht
  unfold headerLeft
  simp only [ht, Option.bind_eq_bind, Option.bind_some]
  exact ⟨_, rfl, hlen⟩

theorem backAfter_c {w w' : Whole} (h : backAfter w = some w') : w'.c = w.c ∧ w'.tileNum = w.tileNum := by
  unfold backAfter at h
  simp only [Option.bind_eq_bind] at h
  obtain ⟨t, _, h⟩ := Option.bind_eq_some_iff.1 h
  obtain ⟨s, _, h⟩ := Option.bind_eq_some_iff.1 h
  obtain ⟨g, _, h⟩ := Option.bind_eq_some_iff.1 h
  rw [← Option.some.inj h]
  exact ⟨rfl, rfl⟩

theorem wholeAfter_front {w w' : Whole} (h : wholeAfter w = some w') :
    ∃ w0, frameHeaderAfter w = some w0 ∧ w'.c = w0.c ∧ w'.tileNum = w0.tileNum := by
  unfold wholeAfter at h
  simp only [Option.bind_eq_bind] at h
  obtain ⟨w0, h0, h⟩ := Option.bind_eq_some_iff.1 h
  refine ⟨w0, h0, ?_⟩
  split at h
  · rw [← Option.some.inj h]; exact ⟨rfl, rfl⟩
  · exact backAfter_c h

/-- Whenever the elements of a header can be written, what it leaves is defined. -/
theorem header_leaves {w : Whole} {b : Raw} (h : frameHeaderBits w = some b) (old : HeaderLeft) (hold : old.lrTypes.length = 3) :
    ∃ w' st, wholeAfter w = some w' ∧ leftAfter w old = some st ∧ st.lrTypes.length = 3 := by
  unfold frameHeaderBits at h
  unfold wholeAfter leftAfter frameHeaderAfter
  cases hs : w.c.seen with
  | true => exact ⟨w, old, by simp, by simp, hold⟩
  | false =>
    simp only [hs, Bool.false_eq_true, if_false, Option.bind_eq_bind, Bool.false_or] at h ⊢
    obtain ⟨n, h1, h⟩ := Option.bind_eq_some_iff.1 h
    simp only [h1, Option.bind_some]
    split at h
    · rename_i hc
      obtain ⟨x, hx, h⟩ := Option.bind_eq_some_iff.1 h
      simp only [if_pos hc, hx, Option.bind_some]
      exact ⟨_, _, rfl, rfl, hold⟩
    · rename_i hc
      obtain ⟨b0, -, h⟩ := Option.bind_eq_some_iff.1 h
      obtain ⟨⟨b1, c, f⟩, hf, h⟩ := Option.bind_eq_some_iff.1 h
      obtain ⟨b2, hb, h⟩ := Option.bind_eq_some_iff.1 h
      simp only [if_neg hc, hf, Option.bind_some]
      have hb' : backBits w { c with seen := !c.showExisting } f = some b2 := by
        exact hb
      obtain ⟨w1, h1⟩ := back_leaves (w := w) (w' := { w with
        c := { c with seen := !c.showExisting }, f := f, idLen := n, tileNum := if c.showExisting then w.tileNum else 0 }) hb' rfl
      obtain ⟨st, h2, h3⟩ := back_left (w := w) (w' := { w with
        c := { c with seen := !c.showExisting }, f := f, idLen := n, tileNum := if c.showExisting then w.tileNum else 0 }) hb' rfl
        old hold
      exact ⟨w1, st, h1, h2, h3⟩

end Av1
