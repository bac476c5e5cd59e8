import Verif.Lemmas.Quantizer
import Verif.Props.Geometry

/-! # C124, C125: quantizer matrices and quantizer lookup tables -/

namespace Av1

/-! ## C124: quantizer matrices -/

/-- The weight AV1 applies to the coefficient in row `row` and column `col` of a transform: entry `row * width + col` of the
part of the table that begins at the transform's offset, where only the first 32 rows and columns are coded. -/
def weight (level plane tx row col : Nat) : Option Nat := do
  let d ← txDims[tx]?
  let off ← K.qm_offset[tx]?
  if row < min 32 d.2 ∧ col < min 32 d.1 then K.qmatrix level plane (off + (row * min 32 d.1 + col)) else none

/-- Every level and plane has a packed matrix. -/
theorem qm_here (level plane : Nat) (hl : level < 16) (hp : plane < 2) :
    ∃ l n, K.qm_packed[level]? = some l ∧ l[plane]? = some n := by
  have h : (K.qm_packed.all fun l => l.length == 2) = true := by decide +kernel
  have hlen : K.qm_packed.length = 16 := rfl
  have h1 : K.qm_packed[level]? = some (K.qm_packed[level]'(by omega)) := List.getElem?_eq_getElem _
  have h2 := List.all_eq_true.1 h _ (List.mem_of_getElem? h1)
  have h3 : (K.qm_packed[level]'(by omega)).length = 2 := by simpa using h2
  exact ⟨_, _, h1, List.getElem?_eq_getElem (by omega)⟩

/-- Every transform's part lies in the table. -/
theorem qm_fits : ∀ (t : Nat) (d : Nat × Nat), txDims[t]? = some d →
    ∃ off, K.qm_offset[t]? = some off ∧ off + min 32 d.1 * min 32 d.2 ≤ 3344 := by
  apply forall_tx
  have h : ∀ t : Fin 19, (match K.qm_offset[(t : Nat)]? with
    | some off => decide (off + min 32 (txDims[(t : Nat)]'(t.2)).1 * min 32 (txDims[(t : Nat)]'(t.2)).2 ≤ 3344)
    | none => false) = true := by decide +kernel
  intro t
  have := h t
  cases ho : K.qm_offset[(t : Nat)]? with
  | none => rw [ho] at this; cases this
  | some off => rw [ho] at this; exact ⟨off, rfl, by simpa using this⟩

/-- A weight is a byte of the packed matrix. -/
theorem weight_eq (level plane tx row col n off : Nat) (l : List Nat) (d : Nat × Nat) (hd : txDims[tx]? = some d)
    (hl : K.qm_packed[level]? = some l) (hn : l[plane]? = some n) (ho : K.qm_offset[tx]? = some off)
    (hoff : off + min 32 d.1 * min 32 d.2 ≤ 3344) :
    weight level plane tx row col =
      if row < min 32 d.2 ∧ col < min 32 d.1 then some (qmByte n (off + (row * min 32 d.1 + col))) else none := by
  have e : weight level plane tx row col = if row < min 32 d.2 ∧ col < min 32 d.1 then
      K.qmatrix level plane (off + (row * min 32 d.1 + col)) else none := by
    simp only [weight, hd, ho, Option.bind_eq_bind, Option.bind_some]
  rw [e]
  by_cases hc : row < min 32 d.2 ∧ col < min 32 d.1
  · rw [if_pos hc, if_pos hc]
    have h1 : row * min 32 d.1 + col < min 32 d.1 * min 32 d.2 := by
      have h2 : (row + 1) * min 32 d.1 ≤ min 32 d.2 * min 32 d.1 := Nat.mul_le_mul_right _ hc.1
      rw [Nat.add_mul, Nat.one_mul, Nat.mul_comm (min 32 d.2)] at h2
      have := hc.2
      omega
    simp only [K.qmatrix, hl, hn, Option.bind_eq_bind, Option.bind_some]
    rw [if_pos (by unfold K.QM_TOTAL_SIZE; omega)]
    rfl
  · rw [if_neg hc, if_neg hc]

/-- **C124.** Every coefficient of every transform has a weight at every level, in the range 30 to 242 around the neutral
weight 32. -/
theorem C124_present (level plane tx row col : Nat) (d : Nat × Nat) (hl : level < 16) (hp : plane < 2)
    (hd : txDims[tx]? = some d) (hr : row < min 32 d.2) (hc : col < min 32 d.1) :
    ∃ v, weight level plane tx row col = some v ∧ 30 ≤ v ∧ v ≤ 242 := by
  obtain ⟨l, n, h1, h2⟩ := qm_here level plane hl hp
  obtain ⟨off, ho, hoff⟩ := qm_fits tx d hd
  rw [weight_eq level plane tx row col n off l d hd h1 h2 ho hoff, if_pos ⟨hr, hc⟩]
  have h3 := List.all_eq_true.1 (List.all_eq_true.1 (List.all_eq_true.1 qm_range _ (List.mem_of_getElem? h1)) _
    (List.mem_of_getElem? h2)) (off + (row * min 32 d.1 + col)) (List.mem_range.2 (by
      have h2 : (row + 1) * min 32 d.1 ≤ min 32 d.2 * min 32 d.1 := Nat.mul_le_mul_right _ hr
      rw [Nat.add_mul, Nat.one_mul, Nat.mul_comm (min 32 d.2)] at h2
      omega))
  rw [Bool.and_eq_true, decide_eq_true_iff, decide_eq_true_iff] at h3
  exact ⟨_, rfl, h3.1, by omega⟩

/-- **C124.** Outside the coded area there are no weights, and no levels or planes beyond these. -/
theorem C124_absent (level plane tx row col : Nat) (h : 16 ≤ level ∨ 2 ≤ plane ∨ 19 ≤ tx) :
    weight level plane tx row col = none := by
  have hlen : K.qm_packed.length = 16 := rfl
  have hall : (K.qm_packed.all fun l => l.length == 2) = true := by decide +kernel
  unfold weight
  cases hd : txDims[tx]? with
  | none => rfl
  | some d =>
    have htx : tx < 19 := (List.getElem?_eq_some_iff.1 hd).1
    cases ho : K.qm_offset[tx]? with
    | none => rfl
    | some off =>
      simp only [Option.bind_eq_bind, Option.bind_some]
      split
      · unfold K.qmatrix
        cases hl : K.qm_packed[level]? with
        | none => rfl
        | some l =>
          have h1 : l.length = 2 := by simpa using List.all_eq_true.1 hall _ (List.mem_of_getElem? hl)
          have h2 := (List.getElem?_eq_some_iff.1 hl).1
          have h3 : l[plane]? = none := List.getElem?_eq_none (by omega)
          simp only [Option.bind_eq_bind, Option.bind_some, h3, Option.bind_none]
      · rfl

/-- **C124.** A transform and the one with width and height exchanged have the same weights, transposed; the matrix of a
square transform is symmetric. -/
theorem C124_transpose (level plane t t' row col : Nat) (w h : Nat) (hl : level < 16) (hp : plane < 2)
    (ht : txDims[t]? = some (w, h)) (ht' : txDims[t']? = some (h, w)) :
    weight level plane t row col = weight level plane t' col row := by
  obtain ⟨l, n, h1, h2⟩ := qm_here level plane hl hp
  obtain ⟨off, ho, hoff⟩ := qm_fits t _ ht
  obtain ⟨off', ho', hoff'⟩ := qm_fits t' _ ht'
  rw [weight_eq level plane t row col n off l _ ht h1 h2 ho hoff,
    weight_eq level plane t' col row n off' l _ ht' h1 h2 ho' hoff']
  by_cases hc : row < min 32 h ∧ col < min 32 w
  · rw [if_pos hc, if_pos hc.symm]
    have hmem : (off, off', min 32 w, min 32 h) ∈ qmParts ∨ (off', off, min 32 h, min 32 w) ∈ qmParts := by
      have key : ∀ a b : Fin 19, (txDims.getD a (0, 0)).1 = (txDims.getD b (0, 0)).2 →
          (txDims.getD a (0, 0)).2 = (txDims.getD b (0, 0)).1 →
          (K.qm_offset.getD a 0, K.qm_offset.getD b 0, min 32 (txDims.getD a (0, 0)).1,
            min 32 (txDims.getD a (0, 0)).2) ∈ qmParts ∨
          (K.qm_offset.getD b 0, K.qm_offset.getD a 0, min 32 (txDims.getD a (0, 0)).2,
            min 32 (txDims.getD a (0, 0)).1) ∈ qmParts := by decide +kernel
      have i : t < 19 := (List.getElem?_eq_some_iff.1 ht).1
      have j : t' < 19 := (List.getElem?_eq_some_iff.1 ht').1
      have hi : txDims.getD t (0, 0) = (w, h) := by rw [List.getD_eq_getElem?_getD, ht]; rfl
      have hj : txDims.getD t' (0, 0) = (h, w) := by rw [List.getD_eq_getElem?_getD, ht']; rfl
      have k := key ⟨t, i⟩ ⟨t', j⟩ (by simp only [hi, hj]) (by simp only [hi, hj])
      simpa only [hi, List.getD_eq_getElem?_getD, ho, ho', Option.getD_some] using k
    have hall := List.all_eq_true.1 (List.all_eq_true.1 qm_transposed _ (List.mem_of_getElem? h1)) _
      (List.mem_of_getElem? h2)
    have hT : transposedAt n off off' (min 32 w) (min 32 h) = true := by
      rcases hmem with hm | hm
      · exact List.all_eq_true.1 hall _ hm
      · exact transposedAt_swap (List.all_eq_true.1 hall _ hm)
    simp only [transposedAt, List.all_eq_true, List.mem_range, beq_iff_eq] at hT
    rw [hT row hc.1 col hc.2]
  · rw [if_neg hc, if_neg (fun h => hc h.symm)]

/-- **C124.** Level 15 is neutral. -/
theorem C124_flat (plane tx row col v : Nat) (hv : weight 15 plane tx row col = some v) : v = 32 := by
  have hp : plane < 2 := by
    by_contra hp
    rw [C124_absent 15 plane tx row col (Or.inr (Or.inl (by omega)))] at hv
    cases hv
  obtain ⟨l, n, h1, h2⟩ := qm_here 15 plane (by decide) hp
  cases hd : txDims[tx]? with
  | none => rw [weight, hd] at hv; cases hv
  | some d =>
    obtain ⟨off, ho, hoff⟩ := qm_fits tx d hd
    rw [weight_eq 15 plane tx row col n off l d hd h1 h2 ho hoff] at hv
    by_cases hc : row < min 32 d.2 ∧ col < min 32 d.1
    · rw [if_pos hc] at hv
      have h3 := qm_flat
      rw [h1] at h3
      have h4 := List.all_eq_true.1 (List.all_eq_true.1 h3 _ (List.mem_of_getElem? h2))
        (off + (row * min 32 d.1 + col)) (List.mem_range.2 (by
          have h2 : (row + 1) * min 32 d.1 ≤ min 32 d.2 * min 32 d.1 := Nat.mul_le_mul_right _ hc.1
          rw [Nat.add_mul, Nat.one_mul, Nat.mul_comm (min 32 d.2)] at h2
          have := hc.2
          omega))
      rw [← Option.some.inj hv]
      simpa using h4
    · rw [if_neg hc] at hv; cases hv

/-- **C124.** The parts of two transforms are the same if their coded areas have the same shape, and share no entry
otherwise. -/
theorem C124_parts (t t' : Nat) (d d' : Nat × Nat) (ht : txDims[t]? = some d) (ht' : txDims[t']? = some d') :
    ∃ off off', K.qm_offset[t]? = some off ∧ K.qm_offset[t']? = some off' ∧
      if min 32 d.1 = min 32 d'.1 ∧ min 32 d.2 = min 32 d'.2 then off = off'
      else off + min 32 d.1 * min 32 d.2 ≤ off' ∨ off' + min 32 d'.1 * min 32 d'.2 ≤ off := by
  obtain ⟨off, ho, _⟩ := qm_fits t _ ht
  obtain ⟨off', ho', _⟩ := qm_fits t' _ ht'
  refine ⟨off, off', ho, ho', ?_⟩
  have key : ∀ a b : Fin 19, (if min 32 (txDims.getD a (0, 0)).1 = min 32 (txDims.getD b (0, 0)).1 ∧
        min 32 (txDims.getD a (0, 0)).2 = min 32 (txDims.getD b (0, 0)).2 then
        decide (K.qm_offset.getD a 0 = K.qm_offset.getD b 0)
      else decide (K.qm_offset.getD a 0 + min 32 (txDims.getD a (0, 0)).1 * min 32 (txDims.getD a (0, 0)).2 ≤
          K.qm_offset.getD b 0 ∨
        K.qm_offset.getD b 0 + min 32 (txDims.getD b (0, 0)).1 * min 32 (txDims.getD b (0, 0)).2 ≤
          K.qm_offset.getD a 0)) = true := by decide +kernel
  have i : t < 19 := (List.getElem?_eq_some_iff.1 ht).1
  have j : t' < 19 := (List.getElem?_eq_some_iff.1 ht').1
  have hi : txDims.getD t (0, 0) = d := by rw [List.getD_eq_getElem?_getD, ht]; rfl
  have hj : txDims.getD t' (0, 0) = d' := by rw [List.getD_eq_getElem?_getD, ht']; rfl
  have k := key ⟨t, i⟩ ⟨t', j⟩
  simp only [hi, hj, List.getD_eq_getElem?_getD, ho, ho', Option.getD_some] at k
  split
  · rename_i hc
    rw [if_pos hc] at k
    simpa using k
  · rename_i hc
    rw [if_neg hc] at k
    simpa using k

/-- **C124.** Every entry of the table belongs to some transform. -/
theorem C124_no_gap (i : Nat) (hi : i < 3344) : ∃ (t : Nat) (d : Nat × Nat) (off : Nat), txDims[t]? = some d ∧ K.qm_offset[t]? = some off ∧
    off ≤ i ∧ i < off + min 32 d.1 * min 32 d.2 := by
  have h : ((List.range 3344).all fun i => (List.range 19).any fun t => match txDims[t]?, K.qm_offset[t]? with
    | some d, some off => decide (off ≤ i) && decide (i < off + min 32 d.1 * min 32 d.2)
    | _, _ => false) = true := by decide +kernel
  have h1 := List.all_eq_true.1 h i (List.mem_range.2 hi)
  obtain ⟨t, _, h2⟩ := List.any_eq_true.1 h1
  cases hd : txDims[t]? with
  | none => simp [hd] at h2
  | some d =>
    cases ho : K.qm_offset[t]? with
    | none => simp [hd, ho] at h2
    | some off =>
      simp only [hd, ho, Bool.and_eq_true, decide_eq_true_iff] at h2
      exact ⟨t, d, off, hd, ho, h2⟩

/-- A 16x8 transform at level 3, row 2, column 5, and its transpose. -/
example : txDims[8]? = some (16, 8) ∧ txDims[7]? = some (8, 16) ∧ weight 3 0 8 2 5 = weight 3 0 7 5 2 ∧
    (weight 3 0 8 2 5).isSome = true := by decide +kernel

/-! ## C125: quantizer lookup -/

/-- Table of 256 entries per bit depth, from index 0 the same for all and growing with the index and the bit depth. -/
structure StepTable (t : List (List Nat)) : Prop where
  depths : t.length = 3
  lengths : ∀ r ∈ t, r.length = 256
  first : ∀ r ∈ t, r[0]? = some 4
  grows : ∀ (r : List Nat), r ∈ t → ∀ (i j a b : Nat), i ≤ j → r[i]? = some a → r[j]? = some b → a ≤ b
  deeper : ∀ (k m : Nat) (r s : List Nat), k ≤ m → t[k]? = some r → t[m]? = some s →
    ∀ (i a b : Nat), r[i]? = some a → s[i]? = some b → a ≤ b

def StepTable.check (t : List (List Nat)) : Bool :=
  t.length == 3 && t.all (fun r => r.length == 256 && r[0]? == some 4) &&
  t.all (fun r => (r.zip r.tail).all fun p => decide (p.1 ≤ p.2)) &&
  (t.zip t.tail).all (fun p => (p.1.zip p.2).all fun q => decide (q.1 ≤ q.2))

/-- Neighbours in order, everything in order. -/
theorem grows_of_steps (r : List Nat) (h : (r.zip r.tail).all (fun p => decide (p.1 ≤ p.2)) = true) (i j a b : Nat) (hij : i ≤ j)
    (ha : r[i]? = some a) (hb : r[j]? = some b) : a ≤ b := by
  induction j, hij using Nat.le_induction generalizing b with
  | base => rw [ha] at hb; exact le_of_eq (Option.some.inj hb)
  | succ j hj ih =>
    have hl := (List.getElem?_eq_some_iff.1 hb).1
    have h1 : r[j]? = some (r[j]'(by omega)) := List.getElem?_eq_getElem _
    have h2 : (r.zip r.tail)[j]? = some (r[j]'(by omega), b) := by
      rw [List.getElem?_zip_eq_some]
      exact ⟨h1, by rw [List.getElem?_tail]; exact hb⟩
    have h3 := List.all_eq_true.1 h _ (List.mem_of_getElem? h2)
    have h4 := ih _ h1
    have h5 : r[j]'(by omega) ≤ b := by simpa using h3
    omega

theorem StepTable.of_check (t : List (List Nat)) (h : StepTable.check t = true) : StepTable t := by
  simp only [StepTable.check, Bool.and_eq_true, beq_iff_eq] at h
  obtain ⟨⟨⟨h1, h2⟩, h3⟩, h4⟩ := h
  have hr : ∀ r ∈ t, r.length = 256 ∧ r[0]? = some 4 := fun r hr => by
    simpa using List.all_eq_true.1 h2 r hr
  refine ⟨h1, fun r m => (hr r m).1, fun r m => (hr r m).2,
    fun r m i j a b => grows_of_steps r (List.all_eq_true.1 h3 r m) i j a b, ?_⟩
  intro k m r s hkm hk hm i
  induction m, hkm using Nat.le_induction generalizing s with
  | base => intro a b ha hb; rw [hk] at hm; cases hm; rw [ha] at hb; exact le_of_eq (Option.some.inj hb)
  | succ m hkm ih =>
    intro a b ha hb
    have hl := (List.getElem?_eq_some_iff.1 hm).1
    have e1 : t[m]? = some (t[m]'(by omega)) := List.getElem?_eq_getElem _
    have e2 : (t.zip t.tail)[m]? = some (t[m]'(by omega), s) := by
      rw [List.getElem?_zip_eq_some]
      exact ⟨e1, by rw [List.getElem?_tail]; exact hm⟩
    have l1 := (hr _ (List.mem_of_getElem? e1)).1
    have l2 := (hr _ (List.mem_of_getElem? hm)).1
    have hi : i < s.length := (List.getElem?_eq_some_iff.1 hb).1
    have e3 : (t[m]'(by omega))[i]? = some ((t[m]'(by omega))[i]'(by omega)) := List.getElem?_eq_getElem _
    have e4 : ((t[m]'(by omega)).zip s)[i]? = some ((t[m]'(by omega))[i]'(by omega), b) := by
      rw [List.getElem?_zip_eq_some]; exact ⟨e3, hb⟩
    have h5 := List.all_eq_true.1 (List.all_eq_true.1 h4 _ (List.mem_of_getElem? e2)) _ (List.mem_of_getElem? e4)
    have h6 := ih _ e1 a _ ha e3
    have h7 : (t[m]'(by omega))[i]'(by omega) ≤ b := by simpa using h5
    omega

/-- **C125.** The DC table. -/
theorem C125_dc : StepTable K.dc_q_lookup := StepTable.of_check _ (by decide +kernel)

/-- **C125.** The AC table. -/
theorem C125_ac : StepTable K.ac_q_lookup := StepTable.of_check _ (by decide +kernel)

/-- **C125.** The AC quantizer is never finer than the DC quantizer of the same index. -/
theorem C125_dc_le_ac (k i a b : Nat) (r s : List Nat) (hr : K.dc_q_lookup[k]? = some r) (hs : K.ac_q_lookup[k]? = some s)
    (ha : r[i]? = some a) (hb : s[i]? = some b) : a ≤ b := by
  have h : ((K.dc_q_lookup.zip K.ac_q_lookup).all fun p => (p.1.zip p.2).all fun q => decide (q.1 ≤ q.2)) = true := by
    decide +kernel
  have h1 : (K.dc_q_lookup.zip K.ac_q_lookup)[k]? = some (r, s) := List.getElem?_zip_eq_some.2 ⟨hr, hs⟩
  have h2 : (r.zip s)[i]? = some (a, b) := List.getElem?_zip_eq_some.2 ⟨ha, hb⟩
  simpa using List.all_eq_true.1 (List.all_eq_true.1 h _ (List.mem_of_getElem? h1)) _ (List.mem_of_getElem? h2)

/-- **C125.** All AC steps differ, so that an index is determined by its AC quantizer. -/
theorem C125_ac_injective (k i j a : Nat) (r : List Nat) (hr : K.ac_q_lookup[k]? = some r) (hi : r[i]? = some a)
    (hj : r[j]? = some a) : i = j := by
  have h : (K.ac_q_lookup.all fun r => decide r.Nodup) = true := by decide +kernel
  have h1 : r.Nodup := by simpa using List.all_eq_true.1 h _ (List.mem_of_getElem? hr)
  have := (List.getElem?_eq_some_iff.1 hi).1
  exact (List.getElem?_inj (by assumption) h1).1 (hi.trans hj.symm)

/-- **C125.** The same index means nearly the same step at every bit depth: two more bits multiply it by four, up to 38 less and
4 more. -/
theorem C125_scale (t : List (List Nat)) (ht : t = K.dc_q_lookup ∨ t = K.ac_q_lookup) (k i a b : Nat) (r s : List Nat)
    (hr : t[k]? = some r) (hs : t[k + 1]? = some s) (ha : r[i]? = some a) (hb : s[i]? = some b) :
    b ≤ 4 * a + 4 ∧ 4 * a ≤ b + 38 := by
  have h : (t.zip t.tail).all (fun p => (p.1.zip p.2).all fun q => decide (q.2 ≤ 4 * q.1 + 4 ∧ 4 * q.1 ≤ q.2 + 38)) = true := by
    rcases ht with rfl | rfl <;> decide +kernel
  have h1 : (t.zip t.tail)[k]? = some (r, s) := List.getElem?_zip_eq_some.2 ⟨hr, by rw [List.getElem?_tail]; exact hs⟩
  have h2 : (r.zip s)[i]? = some (a, b) := List.getElem?_zip_eq_some.2 ⟨ha, hb⟩
  simpa using List.all_eq_true.1 (List.all_eq_true.1 h _ (List.mem_of_getElem? h1)) _ (List.mem_of_getElem? h2)

/-- **C125.** The next index makes the step at most half as large again, and from index 20 on at most a fifteenth and one. -/
theorem C125_fine (t : List (List Nat)) (ht : t = K.dc_q_lookup ∨ t = K.ac_q_lookup) (i a b : Nat) (r : List Nat) (hr : r ∈ t)
    (hi : 1 ≤ i) (ha : r[i]? = some a) (hb : r[i + 1]? = some b) :
    2 * b ≤ 3 * a ∧ (20 ≤ i → 15 * b ≤ 16 * a + 15) := by
  have h : t.all (fun r => ((List.range 256).zip (r.zip r.tail)).all fun q =>
      decide (1 ≤ q.1 → 2 * q.2.2 ≤ 3 * q.2.1 ∧ (20 ≤ q.1 → 15 * q.2.2 ≤ 16 * q.2.1 + 15))) = true := by
    rcases ht with rfl | rfl <;> decide +kernel
  have hlen : r.length = 256 := by
    rcases ht with rfl | rfl
    · exact C125_dc.lengths r hr
    · exact C125_ac.lengths r hr
  have hlt := (List.getElem?_eq_some_iff.1 ha).1
  have h2 : ((List.range 256).zip (r.zip r.tail))[i]? = some (i, a, b) :=
    List.getElem?_zip_eq_some.2 ⟨List.getElem?_range (by omega),
      List.getElem?_zip_eq_some.2 ⟨ha, by rw [List.getElem?_tail]; exact hb⟩⟩
  have h3 := List.all_eq_true.1 (List.all_eq_true.1 h _ hr) _ (List.mem_of_getElem? h2)
  exact of_decide_eq_true h3 hi

/-- Index 100 at 10 bits. -/
example : (K.dc_q_lookup[1]?.getD [])[100]? = some 369 ∧ (K.ac_q_lookup[1]?.getD [])[100]? = some 441 := by decide +kernel

end Av1
