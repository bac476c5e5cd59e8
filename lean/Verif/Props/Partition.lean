import Verif.Props.Geometry

/-! # C55: exactly which partitions tile the square -/

namespace Av1

/-- When the parts of partition type `p` of a square of width `w` at `(r, c)` are in their places: the three misplaced types
never, except `VERT_4` where the last strip is outside the frame; those of a 16×16 square only where just one row or column
of units is in the frame. -/
def WellPlaced (p w r c miRows miCols : Nat) : Prop :=
  if w = 16 then
    p = 0 ∨ (p = 1 ∧ miRows ≤ r + 1) ∨ (p = 2 ∧ miCols ≤ c + 1) ∨ (p = 3 ∧ miRows ≤ r + 1 ∧ miCols ≤ c + 1)
  else p ≠ 5 ∧ p ≠ 7 ∧ (p = 9 → miCols ≤ c + 3 * (w / 16))

theorem partsOf_eq {p bs r c miRows miCols : Nat} {parts : List Part} (h : partsOf p bs r c miRows miCols = some parts)
    {half sub split : Nat} (h1 : halfBlock bs = some half) (h2 : subSize p bs = some sub) (h3 : subSize 3 bs = some split)
    (hp : p < 10) : parts =
      if p = 0 then [⟨r, c, bs, false⟩]
      else if p = 1 then [⟨r, c, sub, false⟩] ++ if r + half < miRows then [⟨r + half, c, sub, false⟩] else []
      else if p = 2 then [⟨r, c, sub, false⟩] ++ if c + half < miCols then [⟨r, c + half, sub, false⟩] else []
      else if p = 3 then
        [⟨r, c, sub, true⟩, ⟨r, c + half, sub, true⟩, ⟨r + half, c, sub, true⟩, ⟨r + half, c + half, sub, true⟩]
      else if p = 4 then [⟨r, c, split, false⟩, ⟨r, c + half, split, false⟩, ⟨r + half, c, sub, false⟩]
      else if p = 5 then [⟨r, c, sub, false⟩, ⟨r + half, c, split, false⟩, ⟨r, c + half, split, false⟩]
      else if p = 6 then [⟨r, c, split, false⟩, ⟨r + half, c, split, false⟩, ⟨r, c + half, sub, false⟩]
      else if p = 7 then [⟨r, c, sub, false⟩, ⟨r, c + half, split, false⟩, ⟨r + half, c, split, false⟩]
      else if p = 8 then
        [⟨r, c, sub, false⟩, ⟨r + half / 2, c, sub, false⟩, ⟨r + half / 2 * 2, c, sub, false⟩] ++
          if r + half / 2 * 3 < miRows then [⟨r + half / 2 * 3, c, sub, false⟩] else []
      else [⟨r, c, sub, false⟩, ⟨r, c + half / 2, sub, false⟩, ⟨r, c + half / 2 * 2, sub, false⟩] ++
          if c + half / 2 * 3 < miCols then [⟨r + half / 2 * 3, c, sub, false⟩] else [] := by
  unfold partsOf at h
  simp only [h1, h2, K.PARTITION_SPLIT, h3, Option.bind_eq_bind, Option.bind_some, K.PARTITION_NONE,
    K.PARTITION_HORZ, K.PARTITION_VERT, K.PARTITION_HORZ_A, K.PARTITION_HORZ_B, K.PARTITION_VERT_A, K.PARTITION_VERT_B,
    K.PARTITION_HORZ_4, K.PARTITION_VERT_4, Nat.shiftRight_eq_div_pow, decide_eq_true_eq] at h
  interval_cases p <;>
    (simp only [Nat.reduceEqDiff, if_false, if_true, OfNat.ofNat_ne_zero, OfNat.ofNat_ne_one, one_ne_zero,
        reduceCtorEq, Nat.mul_zero, Nat.mul_one, Nat.add_zero, pow_one] at h ⊢
     injection h with h
     exact h.symm)

/-- **C55**, exactly: at every position of every frame, the parts of an allowed partition tile the square if and only if they
are well placed. -/
theorem C55_iff (p bs w r c miRows miCols : Nat) (parts : List Part) (hbs : blockDims[bs]? = some (w, w))
    (hp : p < 10) (hhas : hasPartition p w w = true) (hr : r < miRows) (hc : c < miCols)
    (hallow : allowedPart p bs r c miRows miCols = some true) (hparts : partsOf p bs r c miRows miCols = some parts) :
    Tiles (w / 4) r c miRows miCols parts ↔ WellPlaced p w r c miRows miCols := by
  by_cases hgood : goodPart p = true ∧ (bs = K.BLOCK_16X16 → p = 0)
  · refine ⟨fun _ => ?_, fun _ => C55_tiling_partial p bs w r c miRows miCols parts hbs hp hhas hgood.1 hgood.2 hallow hparts⟩
    unfold WellPlaced
    by_cases hw : w = 16
    · have : bs = 6 := by
        have key : ∀ bs d, blockDims[bs]? = some d → d.1 = 16 → d.2 = 16 → bs = 6 := forall_rows (by decide +kernel)
        exact key bs _ hbs hw hw
      rw [if_pos hw]
      exact Or.inl (hgood.2 this)
    · rw [if_neg hw]
      have := hgood.1
      simp [goodPart, K.PARTITION_HORZ_B, K.PARTITION_VERT_B, K.PARTITION_VERT_4] at this
      exact ⟨this.1.1, this.1.2, fun h => absurd h this.2⟩
  · have hsq : (bs = 3 ∧ w = 8) ∨ (bs = 6 ∧ w = 16) ∨ (bs = 9 ∧ w = 32) ∨ (bs = 12 ∧ w = 64) ∨ (bs = 15 ∧ w = 128) := by
      have key : ∀ bs d, blockDims[bs]? = some d → d.1 = d.2 → bs = 0 ∨ (bs = 3 ∧ d.1 = 8) ∨ (bs = 6 ∧ d.1 = 16) ∨
        (bs = 9 ∧ d.1 = 32) ∨ (bs = 12 ∧ d.1 = 64) ∨ (bs = 15 ∧ d.1 = 128) := forall_rows (by decide +kernel)
      rcases key bs _ hbs rfl with rfl | h
      · exfalso
        injection hbs with h; injection h with h; subst h
        simp [hasPartition] at hhas
        obtain ⟨rfl, -⟩ := hhas
        exact hgood ⟨rfl, fun _ => rfl⟩
      · exact h
    have hall : ∀ half, halfBlock bs = some half → p = 3 ∨ (r + half < miRows ∧ c + half < miCols) ∨
        (p = 1 ∧ c + half < miCols) ∨ (p = 2 ∧ r + half < miRows) := by
      intro half hh
      have hge : ¬ bs < K.BLOCK_8X8 := by
        have : K.BLOCK_8X8 = 3 := rfl
        omega
      unfold allowedPart at hallow
      rw [hh] at hallow
      simp only [Option.bind_eq_bind, Option.bind_some] at hallow
      rw [if_neg hge] at hallow
      by_cases a : r + half < miRows <;> by_cases b : c + half < miCols <;>
        simp [a, b, K.PARTITION_SPLIT, K.PARTITION_VERT, K.PARTITION_HORZ] at hallow <;> omega
    have hbad : bs = 6 ∨ p = 5 ∨ p = 7 ∨ p = 9 := by
      by_contra hn
      apply hgood
      refine ⟨?_, fun h => absurd (Or.inl h) hn⟩
      have : p ≠ 5 ∧ p ≠ 7 ∧ p ≠ 9 := by omega
      simp [goodPart, K.PARTITION_HORZ_B, K.PARTITION_VERT_B, K.PARTITION_VERT_4, this]
    have hp0 : p ≠ 0 := fun h => hgood ⟨by rw [h]; rfl, fun _ => h⟩
    have dd : blockDims[0]? = some (4, 4) ∧ blockDims[1]? = some (4, 8) ∧ blockDims[2]? = some (8, 4) ∧ blockDims[3]? = some (8, 8) ∧
        blockDims[4]? = some (8, 16) ∧ blockDims[5]? = some (16, 8) ∧ blockDims[6]? = some (16, 16) ∧
        blockDims[7]? = some (16, 32) ∧ blockDims[8]? = some (32, 16) ∧ blockDims[9]? = some (32, 32) ∧
        blockDims[10]? = some (32, 64) ∧ blockDims[11]? = some (64, 32) ∧ blockDims[12]? = some (64, 64) ∧
        blockDims[13]? = some (64, 128) ∧ blockDims[14]? = some (128, 64) ∧ blockDims[16]? = some (4, 16) ∧
        blockDims[17]? = some (16, 4) ∧ blockDims[18]? = some (8, 32) ∧ blockDims[20]? = some (16, 64) := by decide +kernel
    obtain ⟨d0, d1, d2, d3, d4, d5, d6, d7, d8, d9, d10, d11, d12, d13, d14, d16, d17, d18, d20⟩ := dd
    clear hgood hallow hbs
    rcases hsq with ⟨rfl, rfl⟩ | ⟨rfl, rfl⟩ | ⟨rfl, rfl⟩ | ⟨rfl, rfl⟩ | ⟨rfl, rfl⟩ <;> interval_cases p <;>
      first
      | omega
      | exact absurd hhas (by decide)
      | (have hq := partsOf_eq hparts rfl rfl rfl (by decide)
         have hal := hall _ rfl
         clear hall hparts hhas hp hbad hp0
         simp only [Nat.reduceEqDiff, if_false, if_true, OfNat.ofNat_ne_zero, OfNat.ofNat_ne_one, one_ne_zero,
           reduceCtorEq] at hq
         subst hq
         unfold WellPlaced
         simp only [Nat.reduceEqDiff, if_false, if_true, false_or, or_false, false_and, true_and, not_true, ne_eq,
           not_false_iff, OfNat.ofNat_ne_zero, OfNat.ofNat_ne_one, one_ne_zero, false_implies, and_true, and_false,
           true_implies, reduceCtorEq] at hal ⊢
         simp only [Nat.shiftRight_eq_div_pow, Nat.reducePow, Nat.reduceDiv, Nat.reduceMul, Nat.add_zero, List.cons_append, List.nil_append] at hal ⊢)
    · refine iff_of_false (fun H => ?_) not_false
      have t := H (r + 1) (c + 1) hal.1 hal.2
      simp only [covers, d0, d1, d2, d3, d4, d5, d6, d7, d8, d9, d10, d11, d12, d13, d14, d16, d17, d18, d20, Nat.reduceDiv, Nat.add_zero] at t
      split_ifs at t <;> omega
    · refine iff_of_false (fun H => ?_) not_false
      have t := H (r + 1) (c + 1) hal.1 hal.2
      simp only [covers, d0, d1, d2, d3, d4, d5, d6, d7, d8, d9, d10, d11, d12, d13, d14, d16, d17, d18, d20, Nat.reduceDiv, Nat.add_zero] at t
      split_ifs at t <;> omega
    · constructor
      · intro H
        by_contra hn
        have t := H (r + 1) c (by omega) hc
        rw [if_pos (by omega)] at t
        simp only [covers, d0, d1, d2, d3, d4, d5, d6, d7, d8, d9, d10, d11, d12, d13, d14, d16, d17, d18, d20, Nat.reduceDiv, Nat.add_zero] at t
        split_ifs at t <;> omega
      · intro hle
        rw [if_neg (by omega)]
        intro y x hy hx
        simp only [covers, d0, d1, d2, d3, d4, d5, d6, d7, d8, d9, d10, d11, d12, d13, d14, d16, d17, d18, d20, Nat.reduceDiv, Nat.add_zero]
        split_ifs <;> omega
    · constructor
      · intro H
        by_contra hn
        have t := H r (c + 1) hr (by omega)
        rw [if_pos (by omega)] at t
        simp only [covers, d0, d1, d2, d3, d4, d5, d6, d7, d8, d9, d10, d11, d12, d13, d14, d16, d17, d18, d20, Nat.reduceDiv, Nat.add_zero] at t
        split_ifs at t <;> omega
      · intro hle
        rw [if_neg (by omega)]
        intro y x hy hx
        simp only [covers, d0, d1, d2, d3, d4, d5, d6, d7, d8, d9, d10, d11, d12, d13, d14, d16, d17, d18, d20, Nat.reduceDiv, Nat.add_zero]
        split_ifs <;> omega
    · constructor
      · intro H
        by_contra hn
        by_cases ha : r + 1 < miRows
        · have t := H (r + 1) c ha hc
          simp only [covers, d0, d1, d2, d3, d4, d5, d6, d7, d8, d9, d10, d11, d12, d13, d14, d16, d17, d18, d20, Nat.reduceDiv, Nat.add_zero] at t
          split_ifs at t <;> omega
        · have t := H r (c + 1) hr (by omega)
          simp only [covers, d0, d1, d2, d3, d4, d5, d6, d7, d8, d9, d10, d11, d12, d13, d14, d16, d17, d18, d20, Nat.reduceDiv, Nat.add_zero] at t
          split_ifs at t <;> omega
      · intro hle y x hy hx
        simp only [covers, d0, d1, d2, d3, d4, d5, d6, d7, d8, d9, d10, d11, d12, d13, d14, d16, d17, d18, d20, Nat.reduceDiv, Nat.add_zero]
        split_ifs <;> omega
    · refine iff_of_false (fun H => ?_) not_false
      have t := H (r) (c + 1) hr hal.2
      simp only [covers, d0, d1, d2, d3, d4, d5, d6, d7, d8, d9, d10, d11, d12, d13, d14, d16, d17, d18, d20, Nat.reduceDiv, Nat.add_zero] at t
      split_ifs at t <;> omega
    · refine iff_of_false (fun H => ?_) not_false
      have t := H (r + 1) (c) hal.1 hc
      simp only [covers, d0, d1, d2, d3, d4, d5, d6, d7, d8, d9, d10, d11, d12, d13, d14, d16, d17, d18, d20, Nat.reduceDiv, Nat.add_zero] at t
      split_ifs at t <;> omega
    · refine iff_of_false (fun H => ?_) not_false
      have t := H (r + 1) (c) hal.1 hc
      simp only [covers, d0, d1, d2, d3, d4, d5, d6, d7, d8, d9, d10, d11, d12, d13, d14, d16, d17, d18, d20, Nat.reduceDiv, Nat.add_zero] at t
      split_ifs at t <;> omega
    · refine iff_of_false (fun H => ?_) not_false
      have t := H (r) (c + 1) hr hal.2
      simp only [covers, d0, d1, d2, d3, d4, d5, d6, d7, d8, d9, d10, d11, d12, d13, d14, d16, d17, d18, d20, Nat.reduceDiv, Nat.add_zero] at t
      split_ifs at t <;> omega
    · refine iff_of_false (fun H => ?_) not_false
      have t := H r c hr hc
      rw [if_pos hr] at t
      simp only [covers, d0, d1, d2, d3, d4, d5, d6, d7, d8, d9, d10, d11, d12, d13, d14, d16, d17, d18, d20, Nat.reduceDiv, Nat.add_zero] at t
      split_ifs at t <;> omega
    · refine iff_of_false (fun H => ?_) not_false
      have t := H r c hr hc
      rw [if_pos hc] at t
      simp only [covers, d0, d1, d2, d3, d4, d5, d6, d7, d8, d9, d10, d11, d12, d13, d14, d16, d17, d18, d20, Nat.reduceDiv, Nat.add_zero] at t
      split_ifs at t <;> omega
    · refine iff_of_false (fun H => ?_) not_false
      have t := H (r + 4) (c + 4) hal.1 hal.2
      simp only [covers, d0, d1, d2, d3, d4, d5, d6, d7, d8, d9, d10, d11, d12, d13, d14, d16, d17, d18, d20, Nat.reduceDiv, Nat.add_zero] at t
      split_ifs at t <;> omega
    · refine iff_of_false (fun H => ?_) not_false
      have t := H (r + 4) (c + 4) hal.1 hal.2
      simp only [covers, d0, d1, d2, d3, d4, d5, d6, d7, d8, d9, d10, d11, d12, d13, d14, d16, d17, d18, d20, Nat.reduceDiv, Nat.add_zero] at t
      split_ifs at t <;> omega
    · constructor
      · intro H
        by_contra hn
        have t := H r (c + 6) hr (by omega)
        rw [if_pos (by omega)] at t
        simp only [covers, d0, d1, d2, d3, d4, d5, d6, d7, d8, d9, d10, d11, d12, d13, d14, d16, d17, d18, d20, Nat.reduceDiv, Nat.add_zero] at t
        split_ifs at t <;> omega
      · intro hle
        rw [if_neg (by omega)]
        intro y x hy hx
        simp only [covers, d0, d1, d2, d3, d4, d5, d6, d7, d8, d9, d10, d11, d12, d13, d14, d16, d17, d18, d20, Nat.reduceDiv, Nat.add_zero]
        split_ifs <;> omega
    · refine iff_of_false (fun H => ?_) not_false
      have t := H (r + 8) (c + 8) hal.1 hal.2
      simp only [covers, d0, d1, d2, d3, d4, d5, d6, d7, d8, d9, d10, d11, d12, d13, d14, d16, d17, d18, d20, Nat.reduceDiv, Nat.add_zero] at t
      split_ifs at t <;> omega
    · refine iff_of_false (fun H => ?_) not_false
      have t := H (r + 8) (c + 8) hal.1 hal.2
      simp only [covers, d0, d1, d2, d3, d4, d5, d6, d7, d8, d9, d10, d11, d12, d13, d14, d16, d17, d18, d20, Nat.reduceDiv, Nat.add_zero] at t
      split_ifs at t <;> omega
    · constructor
      · intro H
        by_contra hn
        have t := H r (c + 12) hr (by omega)
        rw [if_pos (by omega)] at t
        simp only [covers, d0, d1, d2, d3, d4, d5, d6, d7, d8, d9, d10, d11, d12, d13, d14, d16, d17, d18, d20, Nat.reduceDiv, Nat.add_zero] at t
        split_ifs at t <;> omega
      · intro hle
        rw [if_neg (by omega)]
        intro y x hy hx
        simp only [covers, d0, d1, d2, d3, d4, d5, d6, d7, d8, d9, d10, d11, d12, d13, d14, d16, d17, d18, d20, Nat.reduceDiv, Nat.add_zero]
        split_ifs <;> omega
    · refine iff_of_false (fun H => ?_) not_false
      have t := H (r + 16) (c + 16) hal.1 hal.2
      simp only [covers, d0, d1, d2, d3, d4, d5, d6, d7, d8, d9, d10, d11, d12, d13, d14, d16, d17, d18, d20, Nat.reduceDiv, Nat.add_zero] at t
      split_ifs at t <;> omega
    · refine iff_of_false (fun H => ?_) not_false
      have t := H (r + 16) (c + 16) hal.1 hal.2
      simp only [covers, d0, d1, d2, d3, d4, d5, d6, d7, d8, d9, d10, d11, d12, d13, d14, d16, d17, d18, d20, Nat.reduceDiv, Nat.add_zero] at t
      split_ifs at t <;> omega

/-- The last strip of `VERT_4` in and out of the frame, and a 16×16 square with one row in the frame. -/
example : ¬ WellPlaced K.PARTITION_VERT_4 32 0 8 40 50 ∧ WellPlaced K.PARTITION_VERT_4 32 0 8 40 14 ∧
    allowedPart K.PARTITION_VERT_4 K.BLOCK_32X32 0 8 40 14 = some true ∧ hasPartition K.PARTITION_VERT_4 32 32 = true ∧
    WellPlaced K.PARTITION_HORZ 16 8 0 9 50 ∧ allowedPart K.PARTITION_HORZ K.BLOCK_16X16 8 0 9 50 = some true := by
  unfold WellPlaced
  decide

end Av1
