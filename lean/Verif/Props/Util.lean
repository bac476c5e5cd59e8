import Verif.Lemmas.Util
import Verif.Lemmas.Cdf

/-! # C18, C19: integer helpers -/

namespace Av1

/-- Specification of floor(log2), with the value 0 at 0. -/
def IsLog2 (n r : Nat) : Prop := (n = 0 ∧ r = 0) ∨ (2 ^ r ≤ n ∧ n < 2 ^ (r + 1))

theorem isLog2_log2 (n : Nat) : IsLog2 n n.log2 := by
  by_cases h : n = 0
  · left; subst h; exact ⟨rfl, by decide⟩
  · right; exact ⟨Nat.log2_self_le h, Nat.lt_log2_self⟩

/-- The specification determines the result. -/
theorem isLog2_unique {n r s : Nat} (h1 : IsLog2 n r) (h2 : IsLog2 n s) : r = s := by
  rcases h1 with ⟨h, rfl⟩ | ⟨a, b⟩ <;> rcases h2 with ⟨h', rfl⟩ | ⟨a', b'⟩
  · rfl
  · have : 0 < 2 ^ s := by positivity
    omega
  · have : 0 < 2 ^ r := by positivity
    omega
  · have h1 : r < s + 1 := (Nat.pow_lt_pow_iff_right (by decide : 1 < 2)).1 (lt_of_le_of_lt a b')
    have h2 : s < r + 1 := (Nat.pow_lt_pow_iff_right (by decide : 1 < 2)).1 (lt_of_le_of_lt a' b)
    omega

/-- **C18**, 16-bit: no table overrun, floor(log2). -/
theorem C18_msb16 (n : Nat) (h : n < 2 ^ 16) : ∃ r, msb16 n = some r ∧ IsLog2 n r :=
  ⟨_, msb16_eq n (by omega), isLog2_log2 n⟩

/-- **C18**, 32-bit. -/
theorem C18_msb32 (n : Nat) (h : n < 2 ^ 32) : ∃ r, msb32 n = some r ∧ IsLog2 n r :=
  ⟨_, msb32_eq n h, isLog2_log2 n⟩

/-- **C18**, 64-bit. -/
theorem C18_msb64 (n : Nat) (h : n < 2 ^ 64) : ∃ r, msb64 n = some r ∧ IsLog2 n r :=
  ⟨_, msb64_eq n h, isLog2_log2 n⟩

example : msb64 (2 ^ 63 + 5) = some 63 := by decide

/-- **C19**, Round2 rounds `x / 2^n` to the nearest integer, halves upwards: the result `r` is the only integer with
`r - 1/2 ≤ x / 2^n < r + 1/2`. -/
theorem C19_round2 (x : Int) (n : Nat) (r : Int) :
    round2 x n = r ↔ (2 * r - 1) * 2 ^ n ≤ 2 * x ∧ 2 * x < (2 * r + 1) * 2 ^ n := by
  unfold round2
  cases n with
  | zero => simp; omega
  | succ m =>
    rw [if_neg (by omega), shr_def, Nat.add_sub_cancel, Nat.shiftLeft_eq, Nat.one_mul, pow_succ]
    push_cast
    have hp : (0 : Int) < 2 ^ m := by positivity
    generalize (2 : Int) ^ m = p at *
    rw [Int.ediv_eq_iff_of_pos (by omega)]
    constructor
    · rintro ⟨h1, h2⟩; constructor <;> nlinarith
    · rintro ⟨h1, h2⟩; constructor <;> nlinarith

/-- **C19**, full claim for the signed variant. -/
def C19_signed_full : Prop := ∀ (x : Int) (n : Nat), round2Signed (-x) n = -round2Signed x n

/-- **C19** is false for the signed variant: the negative branch forgets to negate its result. -/
theorem C19_signed_negation : ¬ C19_signed_full := by
  intro h
  exact absurd (h 4 1) (by decide)

/-- **C19**, what the signed variant really computes: the rounding of the absolute value, for either sign; so it is
right exactly for non-negative arguments (and those rounding to 0). -/
theorem C19_signed_partial (x : Int) (n : Nat) :
    round2Signed x n = round2 |x| n ∧ (0 ≤ x → round2Signed x n = round2 x n) ∧
      (x < 0 → (round2Signed x n = -round2 |x| n ↔ round2 |x| n = 0)) := by
  have h1 : round2Signed x n = round2 |x| n := by
    unfold round2Signed
    by_cases h : 0 ≤ x
    · rw [if_pos h, abs_of_nonneg h]
    · rw [if_neg h, abs_of_neg (by omega)]
  refine ⟨h1, fun h => by rw [h1, abs_of_nonneg h], fun _ => ?_⟩
  rw [h1]; omega

/-- **C19**, floor-log2 of a positive number, and the panic at 0. -/
theorem C19_floorLog2 (n : Nat) : (n = 0 → floorLog2 n = none) ∧
    (0 < n → ∃ r, floorLog2 n = some r ∧ 2 ^ r ≤ n ∧ n < 2 ^ (r + 1)) := by
  constructor
  · rintro rfl; rw [floorLog2_eq]; rfl
  · intro h
    exact ⟨n.log2, by rw [floorLog2_eq, if_neg (by omega)], Nat.log2_self_le (by omega), Nat.lt_log2_self⟩

end Av1
