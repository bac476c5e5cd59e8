import Verif.Props.Quantizer

/-! # C124, continued: how the quantizer matrices of different transforms and levels are related -/

namespace Av1

/-- The transform whose matrix the others of its shape are taken from: 32x32, 16x32 or 32x16. -/
def qmBase (w h : Nat) : Nat := if w = h then 3 else if w < h then 9 else 10

/-- Every `f`th position, beginning in the middle of the first `f`. -/
def qmPick (f i : Nat) : Nat := i * f + (f / 2 - 1)

/-- The part at `a`, `w` wide and `h` high, against the part at `b`, `w * x` wide and `h * y` high. -/
def sampledAt (n a b w h x y : Nat) : Bool :=
  (List.range h).all fun r => (List.range w).all fun c =>
    qmByte n (a + (r * w + c)) == qmByte n (b + (qmPick y r * (w * x) + qmPick x c))

/-- The parts with offset, offset of the base, width, height, and the two factors. -/
def qmSamples : List (Nat × Nat × Nat × Nat × Nat × Nat) :=
  [(0, 336, 4, 4, 8, 8), (16, 336, 8, 8, 4, 4), (80, 336, 16, 16, 2, 2), (336, 336, 32, 32, 1, 1),
   (1360, 1680, 4, 8, 4, 4), (1392, 2192, 8, 4, 4, 4), (1424, 1680, 8, 16, 2, 2), (1552, 2192, 16, 8, 2, 2),
   (1680, 1680, 16, 32, 1, 1), (2192, 2192, 32, 16, 1, 1), (2704, 1680, 4, 16, 4, 2), (2768, 2192, 16, 4, 2, 4),
   (2832, 1680, 8, 32, 2, 1), (3088, 2192, 32, 8, 1, 2)]

theorem qm_sampled : (K.qm_packed.all fun l => l.all fun n => qmSamples.all fun p =>
    sampledAt n p.1 p.2.1 p.2.2.1 p.2.2.2.1 p.2.2.2.2.1 p.2.2.2.2.2) = true := by decide +kernel

/-- **C124.** There are only two matrices for each level and plane, one for square and one for other transforms: the matrix of
every transform consists of every `x`th column and `y`th row of the one for 32x32, 16x32 or 32x16, taken from the middle. -/
theorem C124_sampled (level plane t row col w h W H : Nat) (hl : level < 16) (hp : plane < 2) (ht : txDims[t]? = some (w, h))
    (hb : txDims[qmBase (min 32 w) (min 32 h)]? = some (W, H)) (hr : row < min 32 h) (hc : col < min 32 w) :
    weight level plane t row col =
      weight level plane (qmBase (min 32 w) (min 32 h)) (qmPick (H / min 32 h) row) (qmPick (W / min 32 w) col) := by
  obtain ⟨l, n, h1, h2⟩ := qm_here level plane hl hp
  obtain ⟨off, ho, hoff⟩ := qm_fits t _ ht
  obtain ⟨off', ho', hoff'⟩ := qm_fits _ _ hb
  rw [weight_eq level plane t row col n off l _ ht h1 h2 ho hoff,
    weight_eq level plane _ _ _ n off' l _ hb h1 h2 ho' hoff', if_pos ⟨hr, hc⟩]
  have key : ∀ a : Fin 19, ∀ b : Fin 19, (b : Nat) = qmBase (min 32 (txDims.getD a (0, 0)).1) (min 32 (txDims.getD a (0, 0)).2) →
      let d := txDims.getD a (0, 0)
      let e := txDims.getD b (0, 0)
      (K.qm_offset.getD a 0, K.qm_offset.getD b 0, min 32 d.1, min 32 d.2, e.1 / min 32 d.1, e.2 / min 32 d.2) ∈ qmSamples ∧
      min 32 e.1 = min 32 d.1 * (e.1 / min 32 d.1) ∧ min 32 e.2 = min 32 d.2 * (e.2 / min 32 d.2) ∧
      1 ≤ e.1 / min 32 d.1 ∧ 1 ≤ e.2 / min 32 d.2 := by decide +kernel
  have i : t < 19 := (List.getElem?_eq_some_iff.1 ht).1
  have j : qmBase (min 32 w) (min 32 h) < 19 := (List.getElem?_eq_some_iff.1 hb).1
  have hi : txDims.getD t (0, 0) = (w, h) := by rw [List.getD_eq_getElem?_getD, ht]; rfl
  have hj : txDims.getD (qmBase (min 32 w) (min 32 h)) (0, 0) = (W, H) := by rw [List.getD_eq_getElem?_getD, hb]; rfl
  have k := key ⟨t, i⟩ ⟨_, j⟩ (by simp only [hi])
  simp only [hi, hj] at k
  obtain ⟨km, kw, kh, kx, ky⟩ := k
  rw [show K.qm_offset.getD t 0 = off by rw [List.getD_eq_getElem?_getD, ho]; rfl,
    show K.qm_offset.getD (qmBase (min 32 w) (min 32 h)) 0 = off' by rw [List.getD_eq_getElem?_getD, ho']; rfl] at km
  generalize W / min 32 w = x at *
  generalize H / min 32 h = y at *
  have pick : ∀ f i m, 1 ≤ f → i < m → qmPick f i < m * f := by
    intro f i m hf hi
    have : (i + 1) * f ≤ m * f := Nat.mul_le_mul_right _ hi
    rw [Nat.add_mul, Nat.one_mul] at this
    unfold qmPick
    omega
  have hs := List.all_eq_true.1 (List.all_eq_true.1 (List.all_eq_true.1 qm_sampled _ (List.mem_of_getElem? h1)) _
    (List.mem_of_getElem? h2)) _ km
  simp only [sampledAt, List.all_eq_true, List.mem_range, beq_iff_eq] at hs
  rw [if_pos ⟨by dsimp only; rw [kh]; exact pick _ _ _ ky hr, by dsimp only; rw [kw]; exact pick _ _ _ kx hc⟩]
  dsimp only
  rw [kw, hs row hr col hc]

/-- Second row and third column of the 8x8 matrix, from row 5 and column 9 of the 32x32 one. -/
example : qmBase 8 8 = 3 ∧ qmPick 4 1 = 5 ∧ qmPick 4 2 = 9 ∧ weight 0 0 1 1 2 = some 40 ∧ weight 0 0 3 5 9 = some 40 := by
  decide +kernel

theorem qm_levels : ((K.qm_packed.zip K.qm_packed.tail).all fun p => (p.1.zip p.2).all fun q =>
    (List.range 3344).all fun i => decide (qmByte q.2 i ≤ qmByte q.1 i + 2) && decide (qmByte q.1 i ≤ qmByte q.2 i + 29)) = true := by
  decide +kernel

/-- **C124.** The next level flattens every weight by at most 29 and makes none larger by more than 2. -/
theorem C124_levels (level plane tx row col a b : Nat) (ha : weight level plane tx row col = some a)
    (hb : weight (level + 1) plane tx row col = some b) : b ≤ a + 2 ∧ a ≤ b + 29 := by
  have hl : level + 1 < 16 := by
    by_contra hn
    rw [C124_absent _ plane tx row col (Or.inl (by omega))] at hb
    cases hb
  have hp : plane < 2 := by
    by_contra hn
    rw [C124_absent _ plane tx row col (Or.inr (Or.inl (by omega)))] at hb
    cases hb
  cases hd : txDims[tx]? with
  | none => rw [weight, hd] at ha; cases ha
  | some d =>
    obtain ⟨l, n, h1, h2⟩ := qm_here level plane (by omega) hp
    obtain ⟨l', n', h1', h2'⟩ := qm_here (level + 1) plane hl hp
    obtain ⟨off, ho, hoff⟩ := qm_fits tx d hd
    rw [weight_eq level plane tx row col n off l d hd h1 h2 ho hoff] at ha
    rw [weight_eq (level + 1) plane tx row col n' off l' d hd h1' h2' ho hoff] at hb
    by_cases hc : row < min 32 d.2 ∧ col < min 32 d.1
    · rw [if_pos hc] at ha hb
      have hi : off + (row * min 32 d.1 + col) < 3344 := by
        have h2 : (row + 1) * min 32 d.1 ≤ min 32 d.2 * min 32 d.1 := Nat.mul_le_mul_right _ hc.1
        rw [Nat.add_mul, Nat.one_mul, Nat.mul_comm (min 32 d.2)] at h2
        have := hc.2
        omega
      have hz : (K.qm_packed.zip K.qm_packed.tail)[level]? = some (l, l') := by
        rw [List.getElem?_zip_eq_some]
        exact ⟨h1, by rw [List.getElem?_tail]; exact h1'⟩
      have hz' : (l.zip l')[plane]? = some (n, n') := by
        rw [List.getElem?_zip_eq_some]
        exact ⟨h2, h2'⟩
      have h3 := List.all_eq_true.1 (List.all_eq_true.1 (List.all_eq_true.1 qm_levels _ (List.mem_of_getElem? hz)) _
        (List.mem_of_getElem? hz')) _ (List.mem_range.2 hi)
      rw [Bool.and_eq_true, decide_eq_true_iff, decide_eq_true_iff] at h3
      rw [← Option.some.inj ha, ← Option.some.inj hb]
      exact h3
    · rw [if_neg hc] at ha; cases ha

end Av1
