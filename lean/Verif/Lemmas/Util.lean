import Verif.Model.Util
import Mathlib.Tactic.Linarith
import Mathlib.Tactic.Ring

namespace Av1

theorem log2_shift (n k : Nat) (h : 0 < n >>> k) : n.log2 = (n >>> k).log2 + k := by
  rw [Nat.shiftRight_eq_div_pow] at *
  have hn : n ≠ 0 := by rintro rfl; simp at h
  have hm : n / 2 ^ k ≠ 0 := by omega
  have h1 := Nat.log2_self_le hm
  have h2 := @Nat.lt_log2_self (n / 2 ^ k)
  rw [Nat.log2_eq_iff hn]
  generalize (n / 2 ^ k).log2 = r at *
  have hp : 0 < 2 ^ k := by positivity
  constructor
  · calc 2 ^ (r + k) = 2 ^ r * 2 ^ k := pow_add ..
      _ ≤ n / 2 ^ k * 2 ^ k := Nat.mul_le_mul_right _ h1
      _ ≤ n := Nat.div_mul_le_self ..
  · have : n < (n / 2 ^ k + 1) * 2 ^ k := by
      have := Nat.lt_div_mul_add hp (a := n)
      linarith
    calc n < (n / 2 ^ k + 1) * 2 ^ k := this
      _ ≤ 2 ^ (r + 1) * 2 ^ k := Nat.mul_le_mul_right _ h2
      _ = 2 ^ (r + k + 1) := by rw [← pow_add]; congr 1; omega

/-- What a halving step guarantees. -/
theorem msbStep_spec (k n b B : Nat) (hB : n < 2 ^ B) (hk : k ≤ B) (hle : B - k ≤ k) :
    (msbStep k (n, b)).1 < 2 ^ k ∧
    (msbStep k (n, b)).1.log2 + (msbStep k (n, b)).2 = n.log2 + b ∧
    ((msbStep k (n, b)).1 = 0 → n = 0) := by
  unfold msbStep
  simp only
  split
  · rename_i h
    refine ⟨?_, ?_, ?_⟩
    · rw [Nat.shiftRight_eq_div_pow, Nat.div_lt_iff_lt_mul (by positivity), ← pow_add]
      exact lt_of_lt_of_le hB (Nat.pow_le_pow_right (by decide) (by omega))
    · simp only [log2_shift n k h]; omega
    · intro h0; simp only at h0; omega
  · rename_i h
    rw [Nat.shiftRight_eq_div_pow] at h
    refine ⟨?_, rfl, fun h => h⟩
    simp only
    have : n / 2 ^ k = 0 := Nat.eq_zero_of_not_pos h
    rw [Nat.div_eq_zero_iff] at this
    rcases this with h | h
    · exact absurd h (by positivity)
    · exact h

theorem lut16_log2 : ∀ i < 16, lut16[i]? = some i.log2 := by decide
theorem lut32_log2 : ∀ i < 32, lut32[i]? = some i.log2 := by decide
theorem lut64_log2 : ∀ i < 64, lut64[i]? = some i.log2 := by decide

theorem msb16_eq (n : Nat) (h : n < 65536) : msb16 n = some n.log2 := by
  unfold msb16
  obtain ⟨a1, a2, -⟩ := msbStep_spec 8 n 0 16 h (by decide) (by decide)
  obtain ⟨b1, b2, -⟩ := msbStep_spec 4 (msbStep 8 (n, 0)).1 (msbStep 8 (n, 0)).2 8 a1 (by decide) (by decide)
  simp only [Prod.mk.eta] at b1 b2
  simp only
  rw [lut16_log2 _ b1]
  simp; omega

theorem msb32_eq (n : Nat) (h : n < 2 ^ 32) : msb32 n = some n.log2 := by
  unfold msb32
  obtain ⟨a1, a2, -⟩ := msbStep_spec 16 n 0 32 h (by decide) (by decide)
  obtain ⟨b1, b2, -⟩ := msbStep_spec 8 (msbStep 16 (n, 0)).1 (msbStep 16 (n, 0)).2 16 a1 (by decide) (by decide)
  simp only [Prod.mk.eta] at b1 b2
  obtain ⟨c1, c2, -⟩ := msbStep_spec 4 (msbStep 8 (msbStep 16 (n, 0))).1 (msbStep 8 (msbStep 16 (n, 0))).2 8 b1
    (by decide) (by decide)
  simp only [Prod.mk.eta] at c1 c2
  simp only
  rw [lut32_log2 _ (by omega)]
  simp; omega

theorem msb64_eq (n : Nat) (h : n < 2 ^ 64) : msb64 n = some n.log2 := by
  unfold msb64
  obtain ⟨z1, z2, -⟩ := msbStep_spec 32 n 0 64 h (by decide) (by decide)
  obtain ⟨a1, a2, -⟩ := msbStep_spec 16 (msbStep 32 (n, 0)).1 (msbStep 32 (n, 0)).2 32 z1 (by decide) (by decide)
  simp only [Prod.mk.eta] at a1 a2
  obtain ⟨b1, b2, -⟩ := msbStep_spec 8 (msbStep 16 (msbStep 32 (n, 0))).1 (msbStep 16 (msbStep 32 (n, 0))).2 16 a1
    (by decide) (by decide)
  simp only [Prod.mk.eta] at b1 b2
  obtain ⟨c1, c2, -⟩ := msbStep_spec 4 (msbStep 8 (msbStep 16 (msbStep 32 (n, 0)))).1
    (msbStep 8 (msbStep 16 (msbStep 32 (n, 0)))).2 8 b1 (by decide) (by decide)
  simp only [Prod.mk.eta] at c1 c2
  simp only
  rw [lut64_log2 _ (by omega)]
  simp; omega

theorem floorLog2Loop_eq (t s : Nat) : floorLog2Loop t s = if t = 0 then s else s + t.log2 + 1 := by
  induction t using Nat.strongRecOn generalizing s with
  | ind t ih =>
    unfold floorLog2Loop
    by_cases h : t = 0
    · simp [h]
    · have e : t >>> 1 = t / 2 := by simp [Nat.shiftRight_eq_div_pow]
      simp only [ne_eq, h, not_false_eq_true, ↓reduceDIte, ↓reduceIte]
      rw [e, ih _ (by omega)]
      by_cases h2 : t / 2 = 0
      · have : t = 1 := by omega
        subst this; simp; decide
      · simp only [h2, ↓reduceIte]
        have := log2_shift t 1 (by rw [e]; omega)
        rw [e] at this; omega

theorem floorLog2_eq (x : Nat) : floorLog2 x = if x = 0 then none else some x.log2 := by
  unfold floorLog2
  rw [floorLog2Loop_eq]
  split <;> simp

end Av1
