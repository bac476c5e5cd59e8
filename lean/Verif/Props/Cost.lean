import Verif.Lemmas.Cost
import Mathlib.Analysis.SpecialFunctions.Log.Base

/-!
# C129: the length of a session's output

What compression means for the range coder: the number of bits written is the information in the coded symbols (each at the
probability its table gave it at the time), plus a fixed cost per session and a small relative loss per symbol.
-/

namespace Av1

/-- Both bounds without logarithms.  `ps` are the probabilities in units of 1/32768. -/
theorem C129_length {bank : Bank} (hb : BankOk bank) {ops : List Op} (ho : OpsOk bank ops) (c : BoolCoder) :
    ∃ c' bits bank' ps, encodeSession c bank ops = some (c', bits, bank') ∧ opsProbs bank ops = some (ps, bank') ∧
      (∀ p ∈ ps, 1 ≤ p ∧ p ≤ 32768) ∧
      2 ^ bits.length * (ps.map fun p => 128 * (p - 1)).prod ≤ 2 ^ 24 * (129 * 32768) ^ ps.length ∧
      2 ^ 15 * 32768 ^ ps.length ≤ 2 ^ bits.length * (ps.map fun p => p + 256).prod := by
  obtain ⟨c', bits, bank', ps, h1, h2, h3, -, h5, h6⟩ := session_cost hb ho c
  exact ⟨c', bits, bank', ps, h1, h2, h3, h5, h6⟩

/-- However unlikely the symbols, none costs more than 15 bits. -/
theorem C129_worst_case {bank : Bank} (hb : BankOk bank) {ops : List Op} (ho : OpsOk bank ops) {c c' : BoolCoder}
    {bits : Bits} {bank' : Bank} (h : encodeSession c bank ops = some (c', bits, bank')) {ps : List Int}
    (hp : opsProbs bank ops = some (ps, bank')) : bits.length ≤ 23 + 15 * ps.length := by
  obtain ⟨c1, bits1, bank1, ps1, h1, h2, -, h4, -⟩ := session_cost hb ho c
  rw [h] at h1
  rw [hp] at h2
  simp only [Option.some.injEq, Prod.mk.injEq] at h1 h2
  obtain ⟨-, rfl, rfl⟩ := h1
  obtain ⟨rfl, -⟩ := h2
  exact h4

theorem logb_prod {α : Type} (f : α → ℝ) : ∀ (l : List α), (∀ x ∈ l, 0 < f x) →
    0 < (l.map f).prod ∧ Real.logb 2 (l.map f).prod = (l.map fun x => Real.logb 2 (f x)).sum
  | [], _ => by simp
  | x :: l, h => by
    obtain ⟨h1, h2⟩ := logb_prod f l (fun y hy => h y (by simp [hy]))
    have h0 := h x (by simp)
    refine ⟨by simp only [List.map_cons, List.prod_cons]; positivity, ?_⟩
    simp only [List.map_cons, List.prod_cons, List.sum_cons]
    rw [Real.logb_mul h0.ne' h1.ne', h2]

/-- In bits: at most 24 more than the sum over the symbols of `log2 (32768 / (p - 1))` and `log2 (129 / 128)`. -/
theorem C129_bits {bank : Bank} (hb : BankOk bank) {ops : List Op} (ho : OpsOk bank ops) {c c' : BoolCoder}
    {bits : Bits} {bank' : Bank} (h : encodeSession c bank ops = some (c', bits, bank')) {ps : List Int}
    (hp : opsProbs bank ops = some (ps, bank')) (h2 : ∀ p ∈ ps, 2 ≤ p) :
    (bits.length : ℝ) ≤
      24 + (ps.map fun p : Int => Real.logb 2 (32768 / ((p : ℝ) - 1)) + Real.logb 2 (129 / 128)).sum := by
  obtain ⟨c1, bits1, bank1, ps1, g1, g2, -, g4, -⟩ := C129_length hb ho c
  rw [h] at g1
  rw [hp] at g2
  simp only [Option.some.injEq, Prod.mk.injEq] at g1 g2
  obtain ⟨-, rfl, rfl⟩ := g1
  obtain ⟨rfl, -⟩ := g2
  have hpos : ∀ p ∈ ps, (0 : ℝ) < (p : ℝ) - 1 := by
    intro p hp
    have : (2 : ℝ) ≤ (p : ℝ) := by exact_mod_cast h2 p hp
    linarith
  have g5 : (2 : ℝ) ^ bits.length * (ps.map fun p : Int => 128 * ((p : ℝ) - 1)).prod ≤
      2 ^ 24 * (129 * 32768) ^ ps.length := by
    have e : ((ps.map fun p => 128 * (p - 1)).prod : Int) = ((ps.map fun p : Int => 128 * ((p : ℝ) - 1)).prod : ℝ) := by
      rw [Int.cast_list_prod, List.map_map]
      congr 1
      apply List.map_congr_left
      intro p _
      simp
    rw [← e]
    exact_mod_cast g4
  obtain ⟨q1, q2⟩ := logb_prod (fun p : Int => 128 * ((p : ℝ) - 1)) ps (fun p hp => by
    have := hpos p hp
    positivity)
  have g6 := Real.logb_le_logb_of_le (b := 2) (by norm_num) (by positivity) g5
  rw [Real.logb_mul (by positivity) q1.ne', Real.logb_mul (by positivity) (by positivity), Real.logb_pow, Real.logb_pow,
    Real.logb_pow, Real.logb_self_eq_one (by norm_num), q2] at g6
  have g7 : (ps.map fun p : Int => Real.logb 2 (32768 / ((p : ℝ) - 1)) + Real.logb 2 (129 / 128)).sum =
      ps.length * Real.logb 2 (129 * 32768) - (ps.map fun p : Int => Real.logb 2 (128 * ((p : ℝ) - 1))).sum := by
    clear h hp h2 g4 g5 g6 q1 q2
    induction ps with
    | nil => simp
    | cons p ps ih =>
      have hp := hpos p (by simp)
      simp only [List.map_cons, List.sum_cons, List.length_cons]
      rw [ih (fun x hx => hpos x (by simp [hx]))]
      rw [Real.logb_div (by norm_num) hp.ne', Real.logb_div (by norm_num) (by norm_num),
        Real.logb_mul (by norm_num) hp.ne', Real.logb_mul (by norm_num) (by norm_num)]
      push_cast
      ring
  rw [g7]
  push_cast at g6
  linarith

/-- And at least 15 more than the sum of `log2 (32768 / (p + 256))`: the coder cannot beat its tables. -/
theorem C129_bits_least {bank : Bank} (hb : BankOk bank) {ops : List Op} (ho : OpsOk bank ops) {c c' : BoolCoder}
    {bits : Bits} {bank' : Bank} (h : encodeSession c bank ops = some (c', bits, bank')) {ps : List Int}
    (hp : opsProbs bank ops = some (ps, bank')) :
    15 + (ps.map fun p : Int => Real.logb 2 (32768 / ((p : ℝ) + 256))).sum ≤ (bits.length : ℝ) := by
  obtain ⟨c1, bits1, bank1, ps1, g1, g2, g3, -, g4⟩ := C129_length hb ho c
  rw [h] at g1
  rw [hp] at g2
  simp only [Option.some.injEq, Prod.mk.injEq] at g1 g2
  obtain ⟨-, rfl, rfl⟩ := g1
  obtain ⟨rfl, -⟩ := g2
  have hpos : ∀ p ∈ ps, (0 : ℝ) < (p : ℝ) + 256 := by
    intro p hp
    have : (1 : ℝ) ≤ (p : ℝ) := by exact_mod_cast (g3 p hp).1
    linarith
  have g5 : (2 : ℝ) ^ 15 * 32768 ^ ps.length ≤ 2 ^ bits.length * (ps.map fun p : Int => ((p : ℝ) + 256)).prod := by
    have e : ((ps.map fun p => p + 256).prod : Int) = ((ps.map fun p : Int => ((p : ℝ) + 256)).prod : ℝ) := by
      rw [Int.cast_list_prod, List.map_map]
      congr 1
      apply List.map_congr_left
      intro p _
      simp
    rw [← e]
    exact_mod_cast g4
  obtain ⟨q1, q2⟩ := logb_prod (fun p : Int => (p : ℝ) + 256) ps hpos
  have g6 := Real.logb_le_logb_of_le (b := 2) (by norm_num) (by positivity) g5
  rw [Real.logb_mul (by positivity) (by positivity), Real.logb_mul (by positivity) q1.ne', Real.logb_pow, Real.logb_pow,
    Real.logb_pow, Real.logb_self_eq_one (by norm_num), q2] at g6
  have g7 : (ps.map fun p : Int => Real.logb 2 (32768 / ((p : ℝ) + 256))).sum =
      ps.length * Real.logb 2 32768 - (ps.map fun p : Int => Real.logb 2 ((p : ℝ) + 256)).sum := by
    clear h hp g3 g4 g5 g6 q1 q2
    induction ps with
    | nil => simp
    | cons p ps ih =>
      have hp := hpos p (by simp)
      simp only [List.map_cons, List.sum_cons, List.length_cons]
      rw [ih (fun x hx => hpos x (by simp [hx]))]
      rw [Real.logb_div (by norm_num) hp.ne']
      push_cast
      ring
  rw [g7]
  push_cast at g6
  linarith

/-- A session with a likely and an unlikely symbol, a flag, two flags on one table and a literal. -/
example : opsProbs [[30000, 32768, 0]] [.sym 0 0, .sym 0 1, .prob 200 true, .probs 64 [false, false], .lit 3 5] =
    some ([30000, 2682, 7168, 8192, 8959, 16384, 16384, 16384], [[29147, 32768, 2]]) := by decide +kernel

end Av1
