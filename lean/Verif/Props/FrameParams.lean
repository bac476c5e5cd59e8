import Mathlib.Tactic.IntervalCases
import Verif.Lemmas.FrameHeader
import Mathlib.Data.List.Induction

/-!
# Quantizer, segmentation and delta parameters of a frame: C78–C82
-/

namespace Av1

/-! ## C78: quantization parameters -/

/-- Everything fits its field. -/
structure Quant.Ok (q : Quant) : Prop where
  base : q.baseQIdx < 256
  y : -64 ≤ q.yDc ∧ q.yDc < 64
  u : -64 ≤ q.uDc ∧ q.uDc < 64
  ua : -64 ≤ q.uAc ∧ q.uAc < 64
  v : -64 ≤ q.vDc ∧ q.vDc < 64
  va : -64 ≤ q.vAc ∧ q.vAc < 64
  qy : q.qmY < 16
  qu : q.qmU < 16
  qv : q.qmV < 16

/-- The parameters in the decoder's terms. -/
def Quant.view (q : Quant) : Hdr.Quant :=
  ⟨q.baseQIdx, q.yDc, q.uDc, q.uAc, q.vDc, q.vAc, if q.usingQm then some (q.qmY, q.qmU, q.qmV) else none⟩

theorem writes_deltaQ (d : Int) (h : -64 ≤ d ∧ d < 64) : Writes (encodeDeltaQ d) Hdr.deltaQ d := by
  unfold encodeDeltaQ Hdr.deltaQ
  by_cases h0 : d = 0
  · rw [if_neg (by simpa using h0), h0]
    have := Writes.cons (xs := []) (writes_flag false) (g := fun b => if b then P.su 7 else pure 0) (w := (0 : Int))
      (by rw [if_neg (by decide)]; exact Writes.pure 0)
    rwa [cat_single] at this
  · rw [if_pos h0]
    refine Writes.cons (writes_flag true) ?_
    rw [if_pos rfl]
    exact Writes.last (writes_su d 7 (by decide) (by decide) (by norm_num; omega) (by norm_num; omega))

theorem writes_qm (q : Quant) (sep : Bool) (h : q.Ok) :
    Writes (encodeQm q sep) (P.flagged (Hdr.qmLevels sep))
      (if q.usingQm then some (q.qmY, q.qmU, if sep then q.qmV else q.qmU) else none) := by
  unfold encodeQm
  have := writes_flagged (x := if q.usingQm then cat [pushN q.qmY 4, pushN q.qmU 4, if sep then pushN q.qmV 4 else cat []]
      else cat []) (p := Hdr.qmLevels sep)
    (if q.usingQm then some (q.qmY, q.qmU, if sep then q.qmV else q.qmU) else none) ?_ ?_
  · cases hq : q.usingQm <;> simpa [hq] using this
  · intro v hv
    cases hq : q.usingQm with
    | false => rw [hq] at hv; cases hv
    | true =>
      rw [hq] at hv
      obtain rfl := Option.some.inj hv
      rw [if_pos rfl]
      unfold Hdr.qmLevels
      refine Writes.cons (writes_f 4 _ (by decide) h.qy) (Writes.cons (writes_f 4 _ (by decide) h.qu) ?_)
      cases sep with
      | true => exact Writes.map (fun v => (q.qmY, q.qmU, v)) (Writes.last (writes_f 4 _ (by decide) h.qv))
      | false => exact Writes.skip (Writes.pure _)
  · intro hv
    cases hq : q.usingQm with
    | false => rfl
    | true => rw [hq] at hv; cases hv

/-- **C78.** For every plane count and colour configuration a decoder reads exactly the parameters the encoder holds after
the section: offsets, quantizer matrices, and the copies made for planes that are not coded. -/
theorem C78_quant_read_back (q : Quant) (planes : Nat) (sep : Bool) (h : q.Ok) :
    Writes (encodeQuant q planes sep) (Hdr.quant planes sep) (quantAfter q planes sep).view := by
  have hv : (quantAfter q planes sep).view = ⟨q.baseQIdx, q.yDc,
      if planes > 1 then q.uDc else 0, if planes > 1 then q.uAc else 0,
      if planes > 1 then (if diffAfter q sep then q.vDc else q.uDc) else 0,
      if planes > 1 then (if diffAfter q sep then q.vAc else q.uAc) else 0,
      if q.usingQm then some (q.qmY, q.qmU, if sep then q.qmV else q.qmU) else none⟩ := by
    unfold quantAfter Quant.view
    by_cases hp : planes > 1 <;> cases hd : diffAfter q sep <;> cases hu : q.usingQm <;> cases sep <;>
      simp [hp, hu, hd]
  rw [hv]
  unfold encodeQuant Hdr.quant
  refine Writes.cons (writes_f 8 _ (by decide) h.base) (Writes.cons (writes_deltaQ _ h.y) ?_)
  refine Writes.cons (v := (if planes > 1 then q.uDc else 0, if planes > 1 then q.uAc else 0,
      if planes > 1 then (if diffAfter q sep then q.vDc else q.uDc) else 0,
      if planes > 1 then (if diffAfter q sep then q.vAc else q.uAc) else 0)) ?_ ?_
  · unfold encodeChromaQ Hdr.chromaQ
    by_cases hp : planes > 1
    · simp only [if_pos hp]
      have rest : ∀ d : Bool, Writes (cat [encodeDeltaQ q.uDc, encodeDeltaQ q.uAc,
          if d then cat [encodeDeltaQ q.vDc, encodeDeltaQ q.vAc] else cat []])
          (do
            let uDc ← Hdr.deltaQ
            let uAc ← Hdr.deltaQ
            if d then do
              let vDc ← Hdr.deltaQ
              let vAc ← Hdr.deltaQ
              pure (uDc, uAc, vDc, vAc)
            else pure (uDc, uAc, uDc, uAc))
          (q.uDc, q.uAc, if d then q.vDc else q.uDc, if d then q.vAc else q.uAc) := by
        intro d
        refine Writes.cons (writes_deltaQ _ h.u) (Writes.cons (writes_deltaQ _ h.ua) ?_)
        cases d with
        | true =>
          simp only [if_true]
          exact Writes.last (Writes.cons (writes_deltaQ _ h.v)
            (Writes.map (fun v => (q.uDc, q.uAc, q.vDc, v)) (Writes.last (writes_deltaQ _ h.va))))
        | false => exact Writes.skip (Writes.pure _)
      cases sep with
      | true => exact Writes.cons (writes_flag q.diffUvDelta) (rest q.diffUvDelta)
      | false => exact Writes.skip (rest false)
    · simp only [if_neg hp]
      exact Writes.pure _
  · exact Writes.map _ (Writes.last (writes_qm q sep h))

example : Quant.Ok ⟨100, -64, 63, 1, -2, 0, true, true, 15, 7, 3⟩ := by constructor <;> decide

/-- An offset outside the range: the value read back is another one. -/
theorem C78_range_is_needed : ¬ Writes (encodeDeltaQ 64) Hdr.deltaQ 64 := by
  rintro ⟨e, he, hr⟩
  have h1 : encodeDeltaQ 64 = some (raw [true, false, false, false, false, false, false, false]) := by decide +kernel
  rw [h1] at he
  obtain rfl := raw_inj (Option.some.inj he)
  exact absurd (hr []) (by decide)

/-! ## C79: segmentation parameters -/

/-- A feature value AV1 allows: `j` is the feature, 5 the reference frame, 6 and 7 carry no value. -/
def FeatureOk (j : Nat) : Option Int → Prop
  | none => True
  | some v => if j ≤ 4 then -(Hdr.featMax j : Int) ≤ v ∧ v ≤ Hdr.featMax j else 0 ≤ v ∧ v ≤ Hdr.featMax j

/-- Segmentation parameters a caller may set. -/
structure Seg.Ok (s : Seg) : Prop where
  segments : s.features.length = 8
  count : ∀ seg ∈ s.features, seg.length = 7
  value : ∀ seg ∈ s.features, ∀ j v, seg[j]? = some v → FeatureOk j v

/-- The parameters in the decoder's terms; `pad` features AV1 has beyond the encoder's. -/
def Seg.view (s : Seg) (pad : List (Option Int)) (primaryNone : Bool) : Option Hdr.Seg :=
  if s.enabled then
    some (if primaryNone then ⟨true, false, some (s.features.map (· ++ pad))⟩
      else ⟨s.updateMap, s.updateMap && s.temporalUpdate,
        if s.updateData then some (s.features.map (· ++ pad)) else none⟩)
  else none

/-- What a user relies on: a decoder reads the features that were set. -/
def C79_full : Prop := ∀ (s : Seg) (primaryNone : Bool), s.Ok →
  Writes (encodeSeg s primaryNone) (Hdr.segmentation 8 primaryNone) (s.view [none] primaryNone)

theorem feature_ok_bits (j : Nat) (hj : j ≤ 4) : K.segmentation_feature_bits[j]? = some (Hdr.featBits j) ∧
    K.segmentation_feature_signed[j]? = some true ∧ Hdr.featSigned j = true ∧ 1 ≤ Hdr.featBits j ∧
    Hdr.featBits j ≤ 8 ∧ (Hdr.featMax j : Int) < 2 ^ Hdr.featBits j := by
  have : j = 0 ∨ j = 1 ∨ j = 2 ∨ j = 3 ∨ j = 4 := by omega
  rcases this with rfl | rfl | rfl | rfl | rfl <;> decide

theorem clip_id {lo hi v : Int} (h1 : lo ≤ v) (h2 : v ≤ hi) : Hdr.clip lo hi v = v := by
  unfold Hdr.clip; omega

/-- A feature with a value the code can write. -/
theorem writes_feature (j : Nat) (v : Option Int) (h : FeatureOk j v)
    (hr : ∀ x, v = some x → j ≤ 4 ∨ (j = 5 ∧ x ≤ 3)) : Writes (encodeFeature j v) (Hdr.feature j) v := by
  cases v with
  | none =>
    have := writes_flagged (x := cat []) (p := if Hdr.featSigned j then do
        let v ← P.su (1 + Hdr.featBits j)
        pure (Hdr.clip (-(Hdr.featMax j : Int)) (Hdr.featMax j) v)
      else do
        let v ← P.f (Hdr.featBits j)
        pure (Hdr.clip 0 (Hdr.featMax j) v)) none (by intro _ h; cases h) (by intro _; rfl)
    have e : cat [pushB false, cat []] = pushB false := by decide
    rw [show (none : Option Int).isSome = false from rfl, e] at this
    exact this
  | some x =>
    rcases hr x rfl with hj | ⟨rfl, hx⟩
    · obtain ⟨h1, h2, h3, h4, h5, h6⟩ := feature_ok_bits j hj
      have e : encodeFeature j (some x) = cat [pushB true, pushSu x (1 + Hdr.featBits j)] := by
        simp only [encodeFeature, h1, h2]; rfl
      rw [e]
      simp only [FeatureOk, if_pos hj] at h
      refine writes_flagged (some x) ?_ (by intro h; cases h)
      intro v hv
      obtain rfl := Option.some.inj hv
      rw [if_pos h3]
      have hw := writes_su x (1 + Hdr.featBits j) (by omega) (by omega)
        (by rw [Nat.add_sub_cancel_left]; omega) (by rw [Nat.add_sub_cancel_left]; omega)
      have := Writes.map (Hdr.clip (-(Hdr.featMax j : Int)) (Hdr.featMax j)) hw
      rwa [clip_id h.1 h.2] at this
    · simp only [FeatureOk, if_neg (show ¬ 5 ≤ 4 by decide)] at h
      have e : encodeFeature 5 (some x) = cat [pushB true, pushSu x 3] := rfl
      rw [e]
      refine writes_flagged (some x) ?_ (by intro h; cases h)
      intro v hv
      obtain rfl := Option.some.inj hv
      have : x = 0 ∨ x = 1 ∨ x = 2 ∨ x = 3 := by omega
      rw [if_neg (by decide)]
      obtain ⟨n, rfl⟩ : ∃ n : Nat, x = n := ⟨x.toNat, by omega⟩
      have hn : n ≤ 3 := by omega
      have e2 : pushSu (n : Int) 3 = some (raw (toBits 3 n)) := by
        rw [pushSu, encodeSu_eq n 3 (by omega) (by omega) (by norm_num) (by norm_num; omega)]
        have : ((n : Int) % 2 ^ 3).toNat = n := by omega
        rw [this]; rfl
      have := Writes.map (fun v : Nat => Hdr.clip 0 (Hdr.featMax 5) (v : Int))
        (⟨_, e2, reads_f 3 n (by omega)⟩ : Writes (pushSu (n : Int) 3) (P.f 3) n)
      rw [clip_id (by omega) h.2] at this
      exact this

theorem writes_features : ∀ (l : List (Option Int)) (j : Nat),
    (∀ i v, l[i]? = some v → FeatureOk (i + j) v ∧ ∀ x, v = some x → i + j ≤ 4 ∨ (i + j = 5 ∧ x ≤ 3)) →
    Writes (cat (l.mapIdx fun i => encodeFeature (i + j))) (Hdr.features l.length j) l
  | [], _, _ => Writes.pure []
  | v :: l, j, h => by
    rw [List.mapIdx_cons]
    have h0 := h 0 v rfl
    rw [Nat.zero_add] at h0 ⊢
    refine Writes.cons (writes_feature j v h0.1 h0.2) ?_
    have ih := writes_features l (j + 1) (fun i w hi => by
      have := h (i + 1) w (by simpa using hi)
      rwa [show i + 1 + j = i + (j + 1) by omega] at this)
    have := Writes.map (v :: ·) ih
    rwa [show (fun i => encodeFeature (i + (j + 1))) = fun i => encodeFeature (i + 1 + j) by
      funext i; rw [show i + (j + 1) = i + 1 + j by omega]] at this

/-- **C79, partial.** What the code writes is right for a decoder with seven features: the skip feature unused and
reference frames at most 3. Missing: the eighth feature, for which see `C79_iff`; skip; reference frames 4 to 7. -/
theorem C79_seven_partial (s : Seg) (primaryNone : Bool) (h : s.Ok)
    (hs : ∀ seg ∈ s.features, seg[6]? = some none)
    (hr : ∀ seg ∈ s.features, ∀ x, seg[5]? = some (some x) → x ≤ 3) :
    Writes (encodeSeg s primaryNone) (Hdr.segmentation 7 primaryNone) (s.view [] primaryNone) := by
  have hfeat : Writes (cat (s.features.map fun seg => cat (seg.mapIdx encodeFeature)))
      (P.many 8 (Hdr.features 7 0)) s.features := by
    have := writes_many (fun seg => cat (seg.mapIdx encodeFeature)) (Hdr.features 7 0) s.features ?_
    · rwa [h.segments] at this
    · intro seg hseg
      have := writes_features seg 0 ?_
      · rwa [h.count seg hseg] at this
      · intro i v hi
        refine ⟨h.value seg hseg i v hi, ?_⟩
        rintro x rfl
        have hlt : i < 7 := by
          have := (List.getElem?_eq_some_iff.1 hi).1
          rwa [h.count seg hseg] at this
        by_cases h6 : i = 6
        · subst h6
          rw [hs seg hseg] at hi; simp at hi
        · by_cases h5 : i = 5
          · subst h5
            exact Or.inr ⟨rfl, hr seg hseg x hi⟩
          · left; omega
  have happ : s.features.map (· ++ ([] : List (Option Int))) = s.features := by simp
  unfold encodeSeg Seg.view Hdr.segmentation
  rw [happ]
  have := writes_flagged (x := if s.enabled then
      cat [
        if primaryNone then cat [] else
          cat [pushB s.updateMap, if s.updateMap then pushB s.temporalUpdate else cat [], pushB s.updateData],
        if (segFlags s primaryNone).updateData then
          cat (s.features.map fun seg => cat (seg.mapIdx encodeFeature))
        else cat []]
    else cat []) (p := do
      let fl ← Hdr.segFlags primaryNone
      let d ← P.opt fl.2.2 (P.many 8 (Hdr.features 7 0))
      pure (⟨fl.1, fl.2.1, d⟩ : Hdr.Seg))
    (if s.enabled then
    some (if primaryNone then (⟨true, false, some s.features⟩ : Hdr.Seg)
      else ⟨s.updateMap, s.updateMap && s.temporalUpdate, if s.updateData then some s.features else none⟩)
  else none) ?_ ?_
  · cases he : s.enabled <;> rw [he] at this <;> exact this
  · intro v hv
    cases he : s.enabled with
    | false => rw [he] at hv; cases hv
    | true =>
      rw [he] at hv
      obtain rfl := Option.some.inj hv
      rw [if_pos rfl]
      cases primaryNone with
      | true =>
        refine Writes.skip ?_
        simp only [segFlags, if_true]
        exact Writes.last (Writes.map (fun d => (⟨true, false, d⟩ : Hdr.Seg)) (Writes.map some hfeat))
      | false =>
        refine Writes.cons (v := (s.updateMap, s.updateMap && s.temporalUpdate, s.updateData)) ?_ ?_
        · simp only [Bool.false_eq_true, if_false, Hdr.segFlags]
          refine Writes.cons (writes_flag _) ?_
          have ht : Writes (if s.updateMap then pushB s.temporalUpdate else cat [])
              (if s.updateMap then P.flag else pure false) (s.updateMap && s.temporalUpdate) := by
            cases s.updateMap with
            | true => exact writes_flag _
            | false => exact Writes.pure _
          exact Writes.cons ht (Writes.map (fun d => (s.updateMap, s.updateMap && s.temporalUpdate, d))
            (Writes.last (writes_flag _)))
        · simp only [segFlags, Bool.false_eq_true, if_false]
          refine Writes.map (fun d => (⟨s.updateMap, s.updateMap && s.temporalUpdate, d⟩ : Hdr.Seg)) (Writes.last ?_)
          cases hu : s.updateData with
          | true => exact Writes.map some hfeat
          | false => exact Writes.pure none
  · intro hv
    cases he : s.enabled with
    | false => rfl
    | true => rw [he] at hv; cases hv

def segSample : Seg := ⟨true, true, false, true,
  [some (-255), none, some 63, none, none, some 3, none] :: List.replicate 7 (List.replicate 7 none)⟩

example : segSample.Ok ∧ (∀ seg ∈ segSample.features, seg[6]? = some none) ∧
    ∀ seg ∈ segSample.features, ∀ x, seg[5]? = some (some x) → x ≤ 3 := by
  have hm : ∀ seg ∈ segSample.features, seg = [some (-255), none, some 63, none, none, some 3, none] ∨
      seg = List.replicate 7 none := by
    intro seg h
    simp only [segSample, List.mem_cons, List.mem_replicate] at h
    tauto
  refine ⟨⟨rfl, ?_, ?_⟩, ?_, ?_⟩
  · intro seg h; rcases hm seg h with rfl | rfl <;> rfl
  · intro seg h j v hj
    rcases hm seg h with rfl | rfl
    · match j with
      | 0 | 1 | 2 | 3 | 4 | 5 | 6 => simp at hj; subst hj; simp [FeatureOk, Hdr.featMax]
      | j + 7 => simp at hj
    · obtain ⟨h1, h2⟩ := List.getElem?_eq_some_iff.1 hj
      rw [List.getElem_replicate] at h2
      subst h2; trivial
  · intro seg h; rcases hm seg h with rfl | rfl <;> rfl
  · intro seg h x hx; rcases hm seg h with rfl | rfl <;> simp_all <;> omega

/-- The skip feature cannot be written at all. -/
theorem C79_skip_panics (s : Seg) (primaryNone : Bool) (he : s.enabled = true)
    (hu : primaryNone = true ∨ s.updateData = true)
    (h : ∃ seg ∈ s.features, ∃ x, seg[6]? = some (some x)) : encodeSeg s primaryNone = none := by
  obtain ⟨seg, hseg, x, hx⟩ := h
  have hud : (segFlags s primaryNone).updateData = true := by
    unfold segFlags
    rcases hu with rfl | hu
    · rfl
    · cases primaryNone <;> simp [hu]
  have h1 : cat (seg.mapIdx encodeFeature) = none := by
    apply cat_none
    rw [List.mem_mapIdx]
    obtain ⟨hlt, hget⟩ := List.getElem?_eq_some_iff.1 hx
    exact ⟨6, hlt, by rw [hget]; rfl⟩
  have h2 : cat (s.features.map fun seg => cat (seg.mapIdx encodeFeature)) = none :=
    cat_none (List.mem_map.2 ⟨seg, hseg, h1⟩)
  unfold encodeSeg
  rw [if_pos he, if_pos hud, h2]
  exact cat_none (by simp [cat_none])

/-- A reference frame from 4 on: the decoder reads another one. -/
theorem C79_reference_wrong (x : Int) (h : 4 ≤ x ∧ x ≤ 7) : Writes (encodeFeature 5 (some x)) (Hdr.feature 5) (some (x - 4)) := by
  have hf : ∀ n : Nat, n < 4 → Writes (pushSu ((n : Int) + 4) 3) (P.f 3) n := by
    intro n hn
    refine ⟨toBits 3 n, ?_, reads_f 3 n (by omega)⟩
    have : n = 0 ∨ n = 1 ∨ n = 2 ∨ n = 3 := by omega
    rcases this with rfl | rfl | rfl | rfl <;> decide
  obtain ⟨n, rfl⟩ : ∃ n : Nat, x = n + 4 := ⟨(x - 4).toNat, by omega⟩
  have e : encodeFeature 5 (some ((n : Int) + 4)) = cat [pushB true, pushSu ((n : Int) + 4) 3] := rfl
  rw [e, show (n : Int) + 4 - 4 = n by omega]
  refine writes_flagged (some (n : Int)) ?_ (by intro h; cases h)
  intro v hv
  obtain rfl := Option.some.inj hv
  rw [if_neg (by decide)]
  have := Writes.map (fun v : Nat => Hdr.clip 0 (Hdr.featMax 5) (v : Int)) (hf n (by omega))
  rw [clip_id (by omega) (show (n : Int) ≤ (Hdr.featMax 5 : Nat) by simp [Hdr.featMax]; omega)] at this
  exact this

/-- Features off in all segments: no decoder reads the section, whatever it would take it for. -/
theorem C79_empty_never (s : Seg) (primaryNone : Bool) (he : s.enabled = true)
    (hu : primaryNone = true ∨ s.updateData = true) (h : s.features = List.replicate 8 (List.replicate 7 none))
    (v : Option Hdr.Seg) : ¬ Writes (encodeSeg s primaryNone) (Hdr.segmentation 8 primaryNone) v := by
  rintro ⟨e, he', hr⟩
  obtain ⟨en, um, tu, ud, fs⟩ := s
  simp only at he hu h
  subst he h
  have := hr []
  rw [List.append_nil] at this
  cases primaryNone with
  | true =>
    have h1 : ∀ um tu ud, encodeSeg ⟨true, um, tu, ud, List.replicate 8 (List.replicate 7 none)⟩ true =
        some (raw (true :: List.replicate 56 false)) := by decide +kernel
    rw [h1] at he'
    obtain rfl := raw_inj (Option.some.inj he')
    have h2 : Hdr.segmentation 8 true (true :: List.replicate 56 false) = none := by decide +kernel
    rw [h2] at this; cases this
  | false =>
    simp at hu; subst hu
    cases um
    · have h1 : ∀ tu, encodeSeg ⟨true, false, tu, true, List.replicate 8 (List.replicate 7 none)⟩ false =
          some (raw (true :: false :: true :: List.replicate 56 false)) := by decide +kernel
      rw [h1] at he'
      obtain rfl := raw_inj (Option.some.inj he')
      have h2 : Hdr.segmentation 8 false (true :: false :: true :: List.replicate 56 false) = none := by decide +kernel
      rw [h2] at this; cases this
    · have h1 : encodeSeg ⟨true, true, tu, true, List.replicate 8 (List.replicate 7 none)⟩ false =
          some (raw (true :: true :: tu :: true :: List.replicate 56 false)) := by
        cases tu <;> decide +kernel
      rw [h1] at he'
      obtain rfl := raw_inj (Option.some.inj he')
      have h2 : Hdr.segmentation 8 false (true :: true :: tu :: true :: List.replicate 56 false) = none := by
        cases tu <;> decide +kernel
      rw [h2] at this; cases this

theorem C79_negation : ¬ C79_full := by
  intro h
  refine C79_empty_never ⟨true, true, false, true, List.replicate 8 (List.replicate 7 none)⟩ true rfl (Or.inl rfl) rfl _
    (h _ true ⟨rfl, ?_, ?_⟩)
  · intro seg hs
    rw [List.eq_of_mem_replicate hs]; rfl
  · intro seg hs j v hj
    rw [List.eq_of_mem_replicate hs] at hj
    obtain ⟨h1, h2⟩ := List.getElem?_eq_some_iff.1 hj
    rw [List.getElem_replicate] at h2
    subst h2; trivial

/-! ## C80: the features in force -/

/-- `seg_id_pre_skip` as AV1 defines it: some segment has a feature from the reference frame on. -/
def PreSkip (f : List (List (Option Int))) : Prop := ∃ seg ∈ f, ∃ j, 5 ≤ j ∧ ∃ x, seg[j]? = some (some x)

/-- `last_active_seg_id`: the last segment with a feature, 0 if there is none. -/
def LastActive (f : List (List (Option Int))) (n : Nat) : Prop :=
  ((∃ seg, f[n]? = some seg ∧ ∃ x, some x ∈ seg) ∨ (n = 0 ∧ ∀ seg ∈ f, ∀ x, some x ∉ seg)) ∧
    ∀ m seg x, n < m → f[m]? = some seg → some x ∉ seg

/-- What a user relies on: the features in force after the header are those the decoder got. -/
def C80_full : Prop := ∀ (s : Seg) (primaryNone : Bool), s.Ok → s.enabled = true →
  (segAfter s primaryNone).features = s.features ∧
  (segIdPreSkip (segAfter s primaryNone).features = true ↔ PreSkip s.features) ∧
  LastActive s.features (lastActiveSegId (segAfter s primaryNone).features)

theorem segIdPreSkip_iff (f : List (List (Option Int))) : segIdPreSkip f = true ↔ PreSkip f := by
  simp only [segIdPreSkip, PreSkip, List.any_eq_true]
  refine exists_congr fun seg => and_congr_right fun _ => ?_
  constructor
  · rintro ⟨v, hv, hs⟩
    obtain ⟨i, hi, rfl⟩ := List.mem_iff_getElem.1 hv
    obtain ⟨x, hx⟩ := Option.isSome_iff_exists.1 hs
    refine ⟨5 + i, by omega, x, ?_⟩
    rw [List.getElem_drop] at hx
    rw [List.getElem?_eq_getElem (by simp at hi; omega), hx]
  · rintro ⟨j, hj, x, hx⟩
    refine ⟨some x, ?_, rfl⟩
    obtain ⟨i, rfl⟩ : ∃ i, j = 5 + i := ⟨j - 5, by omega⟩
    rw [← List.getElem?_drop] at hx
    exact List.mem_of_getElem? hx

theorem any_isSome (seg : List (Option Int)) : seg.any Option.isSome = true ↔ ∃ x, some x ∈ seg := by
  rw [List.any_eq_true]
  constructor
  · rintro ⟨v, hv, hs⟩
    obtain ⟨x, rfl⟩ := Option.isSome_iff_exists.1 hs
    exact ⟨x, hv⟩
  · rintro ⟨x, hx⟩; exact ⟨_, hx, rfl⟩

theorem lastActive_append (l : List (List (Option Int))) (seg : List (Option Int)) :
    lastActiveSegId (l ++ [seg]) = if seg.any Option.isSome then l.length else lastActiveSegId l := by
  unfold lastActiveSegId
  rw [List.zipIdx_append, List.filter_append, List.foldl_append]
  cases h : seg.any Option.isSome <;> simp [h]

theorem lastActive_spec (f : List (List (Option Int))) : LastActive f (lastActiveSegId f) := by
  induction f using List.reverseRecOn with
  | nil => exact ⟨Or.inr ⟨rfl, by simp⟩, by simp⟩
  | append_singleton l seg ih =>
    rw [lastActive_append]
    by_cases h : seg.any Option.isSome = true
    · rw [if_pos h]
      refine ⟨Or.inl ⟨seg, by simp, (any_isSome seg).1 h⟩, ?_⟩
      intro m sg x hm hs
      rw [List.getElem?_eq_none (by simp; omega)] at hs
      cases hs
    · rw [if_neg h]
      have hno : ∀ x, some x ∉ seg := fun x hx => h ((any_isSome seg).2 ⟨x, hx⟩)
      obtain ⟨h1, h2⟩ := ih
      refine ⟨?_, ?_⟩
      · rcases h1 with ⟨sg, hs, hx⟩ | ⟨h0, hall⟩
        · left
          refine ⟨sg, ?_, hx⟩
          rw [List.getElem?_append_left (List.getElem?_eq_some_iff.1 hs).1, hs]
        · right
          refine ⟨h0, ?_⟩
          intro sg hsg x hx
          rcases List.mem_append.1 hsg with h | h
          · exact hall sg h x hx
          · rw [List.mem_singleton.1 h] at hx; exact hno x hx
      · intro m sg x hm hs
        by_cases hl : m < l.length
        · rw [List.getElem?_append_left hl] at hs
          exact h2 m sg x hm hs
        · by_cases he : m = l.length
          · subst he
            simp at hs; subst hs; exact hno x
          · rw [List.getElem?_eq_none (by simp; omega)] at hs
            cases hs

/-- **C80, partial.** The summary of the features held is right, and the features are those of the caller when no data is
sent. Missing: headers that send data, see `C80_all_active`. -/
theorem C80_kept_partial (s : Seg) (h : s.enabled = true) (hu : s.updateData = false) :
    (segAfter s false).features = s.features ∧
    (segIdPreSkip (segAfter s false).features = true ↔ PreSkip s.features) ∧
    LastActive s.features (lastActiveSegId (segAfter s false).features) := by
  have e : (segAfter s false).features = s.features := by
    simp [segAfter, h, segFlags, hu]
  rw [e]
  exact ⟨rfl, segIdPreSkip_iff _, lastActive_spec _⟩

example : ∃ s : Seg, s.Ok ∧ s.enabled = true ∧ s.updateData = false := by
  refine ⟨⟨true, false, false, false, List.replicate 8 (List.replicate 7 none)⟩, ⟨rfl, ?_, ?_⟩, rfl, rfl⟩
  · intro seg hs; rw [List.eq_of_mem_replicate hs]; rfl
  · intro seg hs j v hj
    rw [List.eq_of_mem_replicate hs] at hj
    obtain ⟨h1, h2⟩ := List.getElem?_eq_some_iff.1 hj
    rw [List.getElem_replicate] at h2
    subst h2; trivial

/-- Segmentation off: no feature is in force. -/
theorem C80_off_partial (s : Seg) (primaryNone : Bool) (h : s.enabled = false) :
    (∀ seg ∈ (segAfter s primaryNone).features, ∀ x, some x ∉ seg) ∧
    segIdPreSkip (segAfter s primaryNone).features = false ∧ lastActiveSegId (segAfter s primaryNone).features = 0 := by
  have hall : ∀ seg ∈ (segAfter s primaryNone).features, ∀ x, some x ∉ seg := by
    intro seg hs x hx
    simp only [segAfter, h, Bool.false_eq_true, if_false, List.mem_map] at hs
    obtain ⟨sg, _, rfl⟩ := hs
    simp at hx
  refine ⟨hall, ?_, ?_⟩
  · rw [Bool.eq_false_iff]
    intro hp
    obtain ⟨seg, hs, j, _, x, hx⟩ := (segIdPreSkip_iff _).1 hp
    exact hall seg hs x (List.mem_of_getElem? hx)
  · rcases (lastActive_spec (segAfter s primaryNone).features).1 with ⟨seg, hs, x, hx⟩ | ⟨h0, _⟩
    · exact absurd hx (hall seg (List.mem_of_getElem? hs) x)
    · exact h0

/-- Every header that sends data leaves every feature of every segment in force, whatever was set: the segment id is always
read before skip, and segment 7 is always the last one. -/
theorem C80_all_active (s : Seg) (primaryNone : Bool) (h : s.Ok) (he : s.enabled = true)
    (hu : primaryNone = true ∨ s.updateData = true) :
    (∀ seg ∈ (segAfter s primaryNone).features, none ∉ seg) ∧
    segIdPreSkip (segAfter s primaryNone).features = true ∧ lastActiveSegId (segAfter s primaryNone).features = 7 := by
  have hud : (segFlags s primaryNone).updateData = true := by
    unfold segFlags
    rcases hu with rfl | hu
    · rfl
    · cases primaryNone <;> simp [hu]
  have hfs : (segFlags s primaryNone).features = s.features := by unfold segFlags; split <;> rfl
  have e : (segAfter s primaryNone).features = s.features.map fun seg => seg.mapIdx featureAfter := by
    simp only [segAfter, he, if_true, hud, hfs]
  have hsome : ∀ j v, ∃ x, featureAfter j v = some x := by
    intro j v; cases v <;> exact ⟨_, rfl⟩
  have hlast : ∃ seg, s.features[7]? = some seg := ⟨_, List.getElem?_eq_getElem (by rw [h.segments]; decide)⟩
  obtain ⟨sg, hsg⟩ := hlast
  have hlen := h.count sg (List.mem_of_getElem? hsg)
  have hget : ∀ j, j < 7 → ∃ x, (sg.mapIdx featureAfter)[j]? = some (some x) := by
    intro j hj
    obtain ⟨x, hx⟩ := hsome j sg[j]
    exact ⟨x, by rw [List.getElem?_mapIdx, List.getElem?_eq_getElem (by omega), Option.map_some, hx]⟩
  rw [e]
  have h7 : (s.features.map fun seg => seg.mapIdx featureAfter)[7]? = some (sg.mapIdx featureAfter) := by
    rw [List.getElem?_map, hsg]; rfl
  refine ⟨?_, ?_, ?_⟩
  · intro seg hs hn
    obtain ⟨s0, _, rfl⟩ := List.mem_map.1 hs
    obtain ⟨i, hi, hx⟩ := List.mem_mapIdx.1 hn
    obtain ⟨x, hx2⟩ := hsome i s0[i]
    rw [hx2] at hx; cases hx
  · rw [segIdPreSkip_iff]
    obtain ⟨x, hx⟩ := hget 5 (by decide)
    exact ⟨_, List.mem_of_getElem? h7, 5, le_refl _, x, hx⟩
  · obtain ⟨h1, h2⟩ := lastActive_spec (s.features.map fun seg => seg.mapIdx featureAfter)
    generalize hn : lastActiveSegId (s.features.map fun seg => seg.mapIdx featureAfter) = n at *
    obtain ⟨x, hx⟩ := hget 0 (by decide)
    by_contra hne
    rcases Nat.lt_or_ge n 7 with hlt | hge
    · exact h2 7 _ x hlt h7 (List.mem_of_getElem? hx)
    · rcases h1 with ⟨seg, hs, _⟩ | ⟨h0, _⟩
      · have := (List.getElem?_eq_some_iff.1 hs).1
        rw [List.length_map, h.segments] at this
        omega
      · omega

/-- The update flags held after the header are those that the decoder reads or infers; only a temporal update without a new
map is kept by the encoder where the decoder has none. -/
theorem C80_flags (s : Seg) (primaryNone : Bool) (h : s.enabled = true) :
    let a := segAfter s primaryNone
    Writes (if primaryNone then cat [] else
        cat [pushB s.updateMap, if s.updateMap then pushB s.temporalUpdate else cat [], pushB s.updateData])
      (Hdr.segFlags primaryNone) (a.updateMap, a.updateMap && a.temporalUpdate, a.updateData) := by
  have e : (segAfter s primaryNone).updateMap = (primaryNone || s.updateMap) ∧
      (segAfter s primaryNone).temporalUpdate = (!primaryNone && s.temporalUpdate) ∧
      (segAfter s primaryNone).updateData = (primaryNone || s.updateData) := by
    unfold segAfter segFlags
    cases primaryNone <;> simp [h] <;> cases hd : s.updateData <;> simp [hd]
  dsimp only
  rw [e.1, e.2.1, e.2.2]
  cases primaryNone with
  | true => exact Writes.pure _
  | false =>
    simp only [Bool.false_eq_true, if_false, Hdr.segFlags, Bool.false_or, Bool.not_false, Bool.true_and]
    refine Writes.cons (writes_flag s.updateMap) ?_
    cases s.updateMap with
    | true =>
      exact Writes.cons (writes_flag s.temporalUpdate) (Writes.map (fun d => (true, s.temporalUpdate, d)) (Writes.last (writes_flag _)))
    | false => exact Writes.skip (Writes.map (fun d => (false, false, d)) (Writes.last (writes_flag _)))

/-- The range of each feature in AV1. -/
def featureRange : Nat → Int × Int
  | 0 => (-255, 255) | 1 => (-63, 63) | 2 => (-63, 63) | 3 => (-63, 63) | 4 => (-63, 63) | 5 => (0, 7) | _ => (0, 0)

/-- The value held after a header that sends data, for each feature of each segment: zero if it was not set, otherwise the
value of AV1's range that is nearest to the one set. -/
theorem C80_values (s : Seg) (primaryNone : Bool) (he : s.enabled = true)
    (hu : primaryNone = true ∨ s.updateData = true) (i : Nat) (seg : List (Option Int)) (hi : s.features[i]? = some seg)
    (hlen : seg.length = 7) (j : Nat) (v : Option Int) (hj : seg[j]? = some v) : ∃ seg' x, (segAfter s primaryNone).features[i]? = some seg' ∧
      seg'[j]? = some (some x) ∧ (v = none → x = 0) ∧
      ∀ fv, v = some fv → (featureRange j).1 ≤ x ∧ x ≤ (featureRange j).2 ∧
        ∀ y, (featureRange j).1 ≤ y → y ≤ (featureRange j).2 → |fv - x| ≤ |fv - y| := by
  have hud : (segFlags s primaryNone).updateData = true := by
    unfold segFlags
    rcases hu with rfl | hu
    · rfl
    · cases primaryNone <;> simp [hu]
  have hfs : (segFlags s primaryNone).features = s.features := by unfold segFlags; split <;> rfl
  have e : (segAfter s primaryNone).features = s.features.map fun seg => seg.mapIdx featureAfter := by
    simp only [segAfter, he, if_true, hud, hfs]
  have hj7 : j < 7 := by rw [← hlen]; exact (List.getElem?_eq_some_iff.1 hj).1
  have hx : ∃ x, featureAfter j v = some x := by cases v <;> exact ⟨_, rfl⟩
  obtain ⟨x, hx⟩ := hx
  refine ⟨seg.mapIdx featureAfter, x, by rw [e, List.getElem?_map, hi]; rfl, by rw [List.getElem?_mapIdx, hj, Option.map_some, hx], ?_, ?_⟩
  · rintro rfl
    injection hx with hx; exact hx.symm
  · rintro fv rfl
    injection hx with hx
    have key : ∀ a b : Int, a ≤ b → x = clip3 a b fv → a ≤ x ∧ x ≤ b ∧ ∀ y, a ≤ y → y ≤ b → |fv - x| ≤ |fv - y| := by
      intro a b hab hc
      unfold clip3 at hc
      refine ⟨?_, ?_, fun y h1 h2 => ?_⟩
      · split_ifs at hc <;> omega
      · split_ifs at hc <;> omega
      · rcases abs_cases (fv - x) with ⟨e1, _⟩ | ⟨e1, _⟩ <;> rcases abs_cases (fv - y) with ⟨e2, _⟩ | ⟨e2, _⟩ <;> rw [e1, e2] <;>
          split_ifs at hc <;> omega
    interval_cases j <;> exact key _ _ (by decide) hx.symm

/-- The lowest value that can be written is one below the range; an unset feature and one that is in range. -/
example : (segAfter ⟨true, true, false, true, List.replicate 8 [some (-256), none, some 5, none, none, some 7, none]⟩ true).features[3]? =
    some [some (-255), some 0, some 5, some 0, some 0, some 7, some 0] := by decide

theorem C80_negation : ¬ C80_full := by
  intro h
  have hok : (⟨true, true, false, true, List.replicate 8 (List.replicate 7 none)⟩ : Seg).Ok := by
    refine ⟨rfl, ?_, ?_⟩
    · intro seg hs; rw [List.eq_of_mem_replicate hs]; rfl
    · intro seg hs j v hj
      rw [List.eq_of_mem_replicate hs] at hj
      obtain ⟨h1, h2⟩ := List.getElem?_eq_some_iff.1 hj
      rw [List.getElem_replicate] at h2
      subst h2; trivial
  have h1 := (h _ true hok rfl).1
  exact absurd h1 (by decide)

/-- **C80**, the exact condition: with segmentation on, the features in force after the header are those set if and only if no
data is sent, or every feature of every segment is set and in AV1's range. -/
theorem C80_iff (s : Seg) (primaryNone : Bool) (h : s.Ok) (he : s.enabled = true) :
    (segAfter s primaryNone).features = s.features ↔
      (primaryNone = false ∧ s.updateData = false) ∨
      ∀ seg ∈ s.features, ∀ j v, seg[j]? = some v → ∃ x, v = some x ∧ (featureRange j).1 ≤ x ∧ x ≤ (featureRange j).2 := by
  by_cases hu : primaryNone = false ∧ s.updateData = false
  · obtain ⟨rfl, hu⟩ := hu
    exact iff_of_true (C80_kept_partial s he hu).1 (Or.inl ⟨rfl, hu⟩)
  have hu' : primaryNone = true ∨ s.updateData = true := by
    cases primaryNone <;> cases hh : s.updateData <;> simp_all
  rw [or_iff_right hu]
  constructor
  · intro e seg hs j v hj
    obtain ⟨i, hi, rfl⟩ := List.getElem_of_mem hs
    have hi' : s.features[i]? = some s.features[i] := List.getElem?_eq_getElem hi
    obtain ⟨seg', x, h1, h2, h3, h4⟩ := C80_values s primaryNone he hu' i _ hi' (h.count _ hs) j v hj
    rw [e, hi'] at h1
    cases h1
    rw [hj] at h2
    cases h2
    have := h4 x rfl
    exact ⟨x, rfl, this.1, this.2.1⟩
  · intro hall
    have e : (segAfter s primaryNone).features = s.features.map fun seg => seg.mapIdx featureAfter := by
      have hud : (segFlags s primaryNone).updateData = true := by
        unfold segFlags
        rcases hu' with rfl | hu'
        · rfl
        · cases primaryNone <;> simp [hu']
      have hfs : (segFlags s primaryNone).features = s.features := by unfold segFlags; split <;> rfl
      simp only [segAfter, he, if_true, hud, hfs]
    have hl : (segAfter s primaryNone).features.length = s.features.length := by rw [e, List.length_map]
    apply List.ext_getElem?
    intro i
    rcases Nat.lt_or_ge i s.features.length with hi | hi
    · have hi' : s.features[i]? = some s.features[i] := List.getElem?_eq_getElem hi
      have hmem := List.mem_of_getElem? hi'
      have hcount := h.count _ hmem
      have hz : ∃ seg', (segAfter s primaryNone).features[i]? = some seg' := ⟨_, List.getElem?_eq_getElem (by omega)⟩
      obtain ⟨seg', hseg'⟩ := hz
      rw [hseg', hi']
      congr 1
      have hlen' : seg'.length = 7 := by
        rw [e, List.getElem?_map, hi'] at hseg'
        injection hseg' with hseg'
        rw [← hseg', List.length_mapIdx, hcount]
      apply List.ext_getElem?
      intro j
      rcases Nat.lt_or_ge j 7 with hj | hj
      · have hj' : s.features[i][j]? = some s.features[i][j] := List.getElem?_eq_getElem (by omega)
        obtain ⟨x, hx, l1, l2⟩ := hall _ hmem j _ hj'
        obtain ⟨seg'', y, h1, h2, _, h4⟩ := C80_values s primaryNone he hu' i _ hi' hcount j _ hj'
        rw [hseg'] at h1; cases h1
        rw [h2, hj', hx]
        have := (h4 x hx).2.2 x l1 l2
        simp only [sub_self, abs_zero, abs_nonpos_iff] at this
        congr 2
        omega
      · rw [List.getElem?_eq_none (by omega), List.getElem?_eq_none (by omega)]
    · rw [List.getElem?_eq_none (by omega), List.getElem?_eq_none (by omega)]


/-- Everything set and in range: kept.  A feature that is not set: not kept. -/
example : (segAfter ⟨true, true, false, true, List.replicate 8 [some (-5), some 1, some 5, some 0, some 0, some 7, some 0]⟩ true).features =
      List.replicate 8 [some (-5), some 1, some 5, some 0, some 0, some 7, some 0] ∧
    (segAfter ⟨true, true, false, true, List.replicate 8 [some (-5), some 1, none, some 0, some 0, some 7, some 0]⟩ true).features ≠
      List.replicate 8 [some (-5), some 1, none, some 0, some 0, some 7, some 0] := by decide

/-! ## C81: delta quantizer and delta loop filter parameters -/

/-- What a user relies on: a decoder reads the parameters that were set, and the encoder holds the same after the header. -/
def C81_full : Prop := ∀ (d : Deltas) (base : Nat) (intrabc : Bool), d.qRes < 4 → d.lfRes < 4 →
  Writes (encodeDeltaQParams d base) (Hdr.deltaQParams base)
    (decide (base > 0) && d.qPresent, if base > 0 ∧ d.qPresent then d.qRes else 0) ∧
  (let a := deltaQAfter d base
   let b := deltaLfAfter a intrabc
   Writes (encodeDeltaLfParams a intrabc) (Hdr.deltaLfParams a.qPresent intrabc) (b.lfPresent, b.lfRes, b.lfMulti))

/-- **C81, quantizer, partial.** Right whenever no resolution is sent. Missing: `C81_res_never`. -/
theorem C81_q_partial (d : Deltas) (base : Nat) (h : base = 0 ∨ d.qPresent = false) :
    Writes (encodeDeltaQParams d base) (Hdr.deltaQParams base) (false, 0) := by
  unfold encodeDeltaQParams Hdr.deltaQParams qPresentAfter
  by_cases hb : base > 0
  · have hp : d.qPresent = false := by rcases h with h | h; · omega
                                       · exact h
    simp only [if_pos hb, hp]
    exact Writes.cons (writes_flag false) (Writes.last (Writes.pure _))
  · simp only [if_neg hb]
    exact Writes.skip (Writes.last (Writes.pure _))

/-- A resolution is one element where the decoder reads two bits: it never reads the section, whatever the value. -/
theorem C81_res_never (d : Deltas) (base : Nat) (hb : base > 0) (hp : d.qPresent = true) (v : Bool × Nat) :
    ¬ Writes (encodeDeltaQParams d base) (Hdr.deltaQParams base) v := by
  rintro ⟨e, he, hr⟩
  have e1 : encodeDeltaQParams d base = cat [pushB true, pushU d.qRes] := by
    simp only [encodeDeltaQParams, qPresentAfter, if_pos hb, hp, if_true]
  have h3 : cat [pushB true, pushU d.qRes] = some [1, d.qRes % 256] := rfl
  rw [h3] at e1
  rw [e1] at he
  have hlen : e.length = 2 := by
    have := congrArg List.length (Option.some.inj he)
    simpa [raw] using this.symm
  match e, hlen with
  | [a, b], _ =>
    have ha : a = true := by
      have := Option.some.inj he
      cases a
      · simp [raw] at this
      · rfl
    subst ha
    have := hr []
    rw [List.append_nil] at this
    unfold Hdr.deltaQParams at this
    rw [if_pos hb] at this
    have h4 : (P.flag >>= fun p => if p then (do let r ← P.f 2; pure (true, r)) else pure (false, 0) : P (Bool × Nat))
        [true, b] = none := by cases b <;> rfl
    rw [h4] at this
    cases this

/-- What the encoder holds after the quantizer deltas is what AV1 has there. -/
theorem C81_q_after (d : Deltas) (base : Nat) :
    (deltaQAfter d base).qPresent = (decide (base > 0) && d.qPresent) ∧
    (deltaQAfter d base).qRes = if base > 0 ∧ d.qPresent = true then d.qRes else 0 := by
  unfold deltaQAfter qPresentAfter
  by_cases hb : base > 0 <;> cases hd : d.qPresent <;> simp [hb]

/-- **C81, loop filter, partial.** Right whenever quantizer deltas are present. Missing: without them the encoder keeps the
loop filter deltas the caller set (`C81_stale`). -/
theorem C81_lf_partial (a : Deltas) (intrabc : Bool) (hp : a.qPresent = true) (h : a.lfRes < 4) :
    Writes (encodeDeltaLfParams a intrabc) (Hdr.deltaLfParams a.qPresent intrabc)
      ((deltaLfAfter a intrabc).lfPresent, (deltaLfAfter a intrabc).lfRes, (deltaLfAfter a intrabc).lfMulti) := by
  unfold encodeDeltaLfParams Hdr.deltaLfParams deltaLfAfter lfPresentAfter
  simp only [hp, if_true]
  have hsec : ∀ p : Bool, Writes (cat [if p then cat [pushN a.lfRes 2, pushB a.lfMulti] else cat []])
      (if p then (do
        let r ← P.f 2
        let m ← P.flag
        pure (true, r, m)) else pure (false, 0, false)) (p, if p then a.lfRes else 0, p && a.lfMulti) := by
    intro p
    apply Writes.last
    cases p with
    | true =>
      exact Writes.cons (writes_f 2 _ (by decide) h) (Writes.map (fun m => (true, a.lfRes, m)) (Writes.last (writes_flag _)))
    | false => exact Writes.pure _
  cases intrabc with
  | true => exact Writes.skip (hsec false)
  | false => exact Writes.cons (writes_flag a.lfPresent) (hsec a.lfPresent)

/-- Without quantizer deltas the decoder reads nothing and has no loop filter deltas; the encoder keeps what was set. -/
theorem C81_stale (a : Deltas) (intrabc : Bool) (hp : a.qPresent = false) :
    Writes (encodeDeltaLfParams a intrabc) (Hdr.deltaLfParams a.qPresent intrabc) (false, 0, false) ∧
    deltaLfAfter a intrabc = a := by
  unfold encodeDeltaLfParams Hdr.deltaLfParams deltaLfAfter
  simp only [hp, Bool.false_eq_true, if_false]
  exact ⟨Writes.pure _, trivial⟩

theorem C81_negation : ¬ C81_full := fun h =>
  C81_res_never ⟨true, 0, false, 0, false⟩ 1 (by decide) rfl _ (h ⟨true, 0, false, 0, false⟩ 1 false (by decide) (by decide)).1

/-! ## C82: lossless -/

/-- What a user relies on: a frame is coded lossless exactly if AV1 takes it for lossless. -/
def C82_full : Prop := ∀ (s : Seg) (q : Quant) (current : Nat) (p : Bool),
  codedLossless s q current p = true ↔
    ∀ i < 8, Hdr.LosslessSegment (segFeature s i 0) q.baseQIdx [q.yDc, q.uAc, q.uDc, q.vAc, q.vDc]

theorem lossless_iff (s : Seg) (q : Quant) (current : Nat) (p : Bool) : codedLossless s q current p = true ↔
    ∀ i < 8, getQIndex true i s q.baseQIdx current p = 0 ∧ ∀ d ∈ [q.yDc, q.uAc, q.uDc, q.vAc, q.vDc], d = 0 := by
  simp only [codedLossless, losslessArray, List.all_map, List.all_eq_true, List.mem_range, Function.comp, id,
    Bool.and_eq_true, decide_eq_true_eq, List.mem_cons, List.not_mem_nil, or_false, forall_eq_or_imp, forall_eq]
  refine forall₂_congr fun i _ => ?_
  tauto

theorem clip3_eq (v : Int) : clip3 0 255 v = Hdr.clip 0 255 v := by
  unfold clip3 Hdr.clip
  split
  · omega
  · split <;> omega

/-- **C82, partial.** Right if every segment has its own quantizer — in particular right after a header that sends
segmentation data — or if the context's quantizer is the frame's. Missing: `C82_fresh_wrong`. -/
theorem C82_lossless_partial (s : Seg) (q : Quant) (current : Nat) (p : Bool)
    (h : current = q.baseQIdx ∨ ∀ i < 8, (segFeature s i 0).isSome = true) :
    codedLossless s q current p = true ↔
      ∀ i < 8, Hdr.LosslessSegment (segFeature s i 0) q.baseQIdx [q.yDc, q.uAc, q.uDc, q.vAc, q.vDc] := by
  rw [lossless_iff]
  refine forall₂_congr fun i hi => ?_
  unfold Hdr.LosslessSegment
  refine and_congr ?_ Iff.rfl
  unfold getQIndex
  cases hs : segFeature s i 0 with
  | some d =>
    simp only [Bool.not_true, Bool.false_and, Bool.false_eq_true, if_false]
    rw [clip3_eq]
    unfold Hdr.clip
    omega
  | none =>
    rcases h with h | h
    · simp only [if_true, h]; omega
    · have := h i hi
      rw [hs] at this; cases this

example : ∃ (s : Seg) (q : Quant), (∀ i < 8, (segFeature s i 0).isSome = true) ∧ codedLossless s q 77 false = true := by
  refine ⟨⟨true, true, false, true, List.replicate 8 [some (-9), none, none, none, none, none, none]⟩,
    ⟨9, 0, 0, 0, 0, 0, false, false, 0, 0, 0⟩, ?_, ?_⟩ <;> decide

/-- AV1 `get_qidx`: the quantizer of a segment, with or without the quantizer deltas of the blocks. -/
def specQIndex (ignore : Bool) (feature : Option Int) (base current : Nat) (p : Bool) : Int :=
  let q : Int := if !ignore && p then current else base
  match feature with
  | some d => min 255 (max 0 (q + d))
  | none => q

/-- The quantizer of a segment against AV1: right for segments with their own quantizer; for the others the two cases are
mixed up, which shows unless the values are the same or neither deltas are ignored nor present. -/
theorem C82_qindex_iff (ignore : Bool) (i : Nat) (s : Seg) (base current : Nat) (p : Bool) :
    (getQIndex ignore i s base current p : Int) = specQIndex ignore (segFeature s i 0) base current p ↔
      ((segFeature s i 0).isSome = true ∨ current = base ∨ (ignore = false ∧ p = false)) := by
  unfold getQIndex specQIndex
  cases hs : segFeature s i 0 with
  | some d =>
    simp only [Option.isSome_some, true_or, iff_true]
    rw [clip3_eq]
    unfold Hdr.clip
    split <;> omega
  | none =>
    cases ignore <;> cases p <;> simp <;> omega

/-- A fresh context, no segmentation, no offsets: the frame is coded as lossless whatever its quantizer is. -/
theorem C82_fresh_wrong (s : Seg) (q : Quant) (p : Bool) (hs : s.enabled = false)
    (hq : ∀ d ∈ [q.yDc, q.uAc, q.uDc, q.vAc, q.vDc], d = 0) : codedLossless s q 0 p = true := by
  rw [lossless_iff]
  intro i _
  refine ⟨?_, hq⟩
  simp [getQIndex, segFeature, hs]

theorem C82_negation : ¬ C82_full := by
  intro h
  have h1 := (h ⟨false, false, false, false, []⟩ ⟨100, 0, 0, 0, 0, 0, false, false, 0, 0, 0⟩ 0 false).1
    (C82_fresh_wrong _ _ _ rfl (by decide)) 0 (by decide)
  exact absurd h1.1 (by simp [segFeature])

/-- The transform mode is read back, given the same view of losslessness. -/
theorem C82_tx_mode (lossless select : Bool) : Writes (encodeTxMode lossless select) (Hdr.txMode lossless)
    (if lossless then .only4x4 else if select then .select else .largest) := by
  unfold encodeTxMode Hdr.txMode
  cases lossless with
  | true => exact Writes.pure _
  | false => exact Writes.map (fun b => if b then Hdr.TxMode.select else .largest) (writes_flag select)

end Av1
