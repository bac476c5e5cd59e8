import Mathlib.Analysis.SpecialFunctions.Trigonometric.Basic
import Mathlib.Tactic.Linarith
import Mathlib.Tactic.Ring
import Mathlib.Tactic.Positivity
import Verif.Model.ReconTables

/-! # C127: the cosine table -/

namespace Av1

open Real

/-- Scale of the enclosures. -/
def cosScale : Int := 2 ^ 200

/-- `l ≤ cosScale * x ≤ h`. -/
def Encloses (p : Int × Int) (x : ℝ) : Prop := (p.1 : ℝ) ≤ cosScale * x ∧ (cosScale : ℝ) * x ≤ p.2

theorem cosScale_pos : (0 : ℝ) < cosScale := by
  have : (0 : Int) < cosScale := by decide +kernel
  exact_mod_cast this

/-- Enclosure of the cosine of half an angle. -/
theorem encloses_half (y : ℝ) (hy : 0 ≤ y) (hy2 : y ≤ π / 2) (p : Int × Int) (l : Int) (hp : Encloses p (cos (2 * y)))
    (hl0 : 0 ≤ l) (hl : 2 * l ^ 2 ≤ (cosScale + p.1) * cosScale) (hh : (cosScale + p.2) * cosScale ≤ 2 * (l + 1) ^ 2) :
    Encloses (l, l + 1) (cos y) := by
  have hc : 0 ≤ cos y := cos_nonneg_of_mem_Icc ⟨by linarith [pi_pos], hy2⟩
  have hS := cosScale_pos
  have hsq : 2 * (cosScale * cos y) ^ 2 = (cosScale + cosScale * cos (2 * y)) * cosScale := by
    have := cos_sq y
    calc 2 * ((cosScale : ℝ) * cos y) ^ 2 = 2 * (cosScale : ℝ) ^ 2 * cos y ^ 2 := by ring
      _ = _ := by rw [this]; ring
  have hl' : 2 * (l : ℝ) ^ 2 ≤ (cosScale + p.1) * cosScale := by exact_mod_cast hl
  have hh' : ((cosScale : ℝ) + p.2) * cosScale ≤ 2 * ((l : ℝ) + 1) ^ 2 := by exact_mod_cast hh
  have hl0' : (0 : ℝ) ≤ l := by exact_mod_cast hl0
  have hnn : 0 ≤ (cosScale : ℝ) * cos y := by positivity
  constructor
  · show (l : ℝ) ≤ _
    have h1 : (l : ℝ) ^ 2 ≤ (cosScale * cos y) ^ 2 := by
      have := mul_le_mul_of_nonneg_right (add_le_add_left hp.1 (cosScale : ℝ)) hS.le
      nlinarith [hp.1]
    exact (pow_le_pow_iff_left₀ hl0' hnn (by decide)).1 h1
  · show _ ≤ ((l + 1 : Int) : ℝ)
    push_cast
    have h1 : (cosScale * cos y) ^ 2 ≤ ((l : ℝ) + 1) ^ 2 := by
      nlinarith [hp.2]
    exact (pow_le_pow_iff_left₀ hnn (by linarith) (by decide)).1 h1

/-- Square roots, found outside and checked here. -/
def cosHalves : List Int :=
  [1136276788042180458070828951474823657989790988021617205464301,
   1484617169104597362508404989727444738672447253984905074947547,
   1576061180329172519219201999333412283084218269191704159117745,
   1599200198355037860141153301684593256896725087632561785890738,
   1605002417009105697844512262135738324009004898295262856153943,
   1606454064563701312210477842552474082733953539593544966025967]

theorem encloses_step : Encloses (cosHalves[5]!, cosHalves[5]! + 1) (cos (π / 128)) := by
  have hpi := pi_pos
  have h0 : Encloses (0, 0) (cos (2 * (π / 4))) := by
    rw [show 2 * (π / 4) = π / 2 by ring, cos_pi_div_two]
    simp [Encloses]
  have h1 := encloses_half (π / 4) (by positivity) (by linarith) _ cosHalves[0]! h0 (by decide +kernel) (by decide +kernel)
    (by decide +kernel)
  have h2 := encloses_half (π / 8) (by positivity) (by linarith) (cosHalves[0]!, cosHalves[0]! + 1) cosHalves[1]!
    (by rw [show 2 * (π / 8) = π / 4 by ring]; exact h1) (by decide +kernel) (by decide +kernel) (by decide +kernel)
  have h3 := encloses_half (π / 16) (by positivity) (by linarith) (cosHalves[1]!, cosHalves[1]! + 1) cosHalves[2]!
    (by rw [show 2 * (π / 16) = π / 8 by ring]; exact h2) (by decide +kernel) (by decide +kernel) (by decide +kernel)
  have h4 := encloses_half (π / 32) (by positivity) (by linarith) (cosHalves[2]!, cosHalves[2]! + 1) cosHalves[3]!
    (by rw [show 2 * (π / 32) = π / 16 by ring]; exact h3) (by decide +kernel) (by decide +kernel) (by decide +kernel)
  have h5 := encloses_half (π / 64) (by positivity) (by linarith) (cosHalves[3]!, cosHalves[3]! + 1) cosHalves[4]!
    (by rw [show 2 * (π / 64) = π / 32 by ring]; exact h4) (by decide +kernel) (by decide +kernel) (by decide +kernel)
  exact encloses_half (π / 128) (by positivity) (by linarith) (cosHalves[4]!, cosHalves[4]! + 1) cosHalves[5]!
    (by rw [show 2 * (π / 128) = π / 64 by ring]; exact h5) (by decide +kernel) (by decide +kernel) (by decide +kernel)

/-- `cos ((i + 2) x) = 2 cos x cos ((i + 1) x) - cos (i x)` on enclosures. -/
def cosNext (p q : Int × Int) : Int × Int :=
  (2 * cosHalves[5]! * q.1 / cosScale - p.2, 2 * (cosHalves[5]! + 1) * q.2 / cosScale + 1 - p.1)

/-- Enclosures of `cos (i π / 128)` and its successor. -/
def cosEnc : Nat → (Int × Int) × (Int × Int)
  | 0 => ((cosScale, cosScale), (cosHalves[5]!, cosHalves[5]! + 1))
  | i + 1 => ((cosEnc i).2, cosNext (cosEnc i).1 (cosEnc i).2)

theorem encloses_next (x : ℝ) (p q : Int × Int) (i : Nat) (hx : Encloses (cosHalves[5]!, cosHalves[5]! + 1) (cos x))
    (hp : Encloses p (cos (i * x))) (hq : Encloses q (cos ((i + 1 : Nat) * x))) (hq0 : 0 ≤ q.1) :
    Encloses (cosNext p q) (cos ((i + 2 : Nat) * x)) := by
  have hS := cosScale_pos
  have hSi : (0 : Int) < cosScale := by decide +kernel
  generalize hc : cosHalves[5]! = c at hx
  have hc0 : (0 : ℝ) ≤ c := by
    have : (0 : Int) ≤ cosHalves[5]! := by decide +kernel
    rw [hc] at this
    exact_mod_cast this
  have hrec : cos ((i + 2 : Nat) * x) = 2 * cos x * cos ((i + 1 : Nat) * x) - cos (i * x) := by
    have h1 := cos_add_cos (((i + 2 : Nat) : ℝ) * x) (i * x)
    have e1 : (((i + 2 : Nat) : ℝ) * x + i * x) / 2 = ((i + 1 : Nat) : ℝ) * x := by push_cast; ring
    have e2 : (((i + 2 : Nat) : ℝ) * x - i * x) / 2 = x := by push_cast; ring
    rw [e1, e2] at h1
    linarith
  obtain ⟨hx1, hx2⟩ := hx
  obtain ⟨hp1, hp2⟩ := hp
  obtain ⟨hq1, hq2⟩ := hq
  have hq0' : (0 : ℝ) ≤ q.1 := by exact_mod_cast hq0
  simp only at hx1 hx2
  push_cast at hx2
  rw [hrec]
  generalize cos x = X at *
  generalize cos ((i + 1 : Nat) * x) = Y at *
  generalize cos ((i : ℝ) * x) = Z at *
  unfold cosNext Encloses
  rw [hc]
  have key : (cosScale : ℝ) * (2 * X * Y - Z) = 2 * (cosScale * X) * (cosScale * Y) / cosScale - cosScale * Z := by
    field_simp
  rw [key]
  have hlow : (c : ℝ) * q.1 ≤ (cosScale * X) * (cosScale * Y) :=
    mul_le_mul hx1 hq1 hq0' (by linarith)
  have hhigh : (cosScale * X) * (cosScale * Y) ≤ ((c : ℝ) + 1) * q.2 :=
    mul_le_mul hx2 hq2 (by linarith) (by linarith)
  constructor
  · push_cast
    have h1 : ((2 * c * q.1 / cosScale : Int) : ℝ) ≤ 2 * (c * q.1) / cosScale := by
      rw [le_div_iff₀ hS]
      have := Int.ediv_mul_le (2 * c * q.1) hSi.ne'
      have h2 : ((2 * c * q.1 / cosScale * cosScale : Int) : ℝ) ≤ ((2 * c * q.1 : Int) : ℝ) := by exact_mod_cast this
      push_cast at h2
      linarith
    have h2 : 2 * ((c : ℝ) * q.1) / cosScale ≤ 2 * (cosScale * X) * (cosScale * Y) / cosScale := by
      apply div_le_div_of_nonneg_right _ hS.le
      linarith
    linarith
  · push_cast
    have h1 : 2 * (((c : ℝ) + 1) * q.2) / cosScale ≤ ((2 * (c + 1) * q.2 / cosScale : Int) : ℝ) + 1 := by
      rw [div_le_iff₀ hS]
      have := Int.lt_ediv_add_one_mul_self (2 * (c + 1) * q.2) hSi
      have h2 : ((2 * (c + 1) * q.2 : Int) : ℝ) < (((2 * (c + 1) * q.2 / cosScale + 1) * cosScale : Int) : ℝ) := by
        exact_mod_cast this
      push_cast at h2
      linarith
    have h2 : 2 * ((cosScale : ℝ) * X) * (cosScale * Y) / cosScale ≤ 2 * (((c : ℝ) + 1) * q.2) / cosScale := by
      apply div_le_div_of_nonneg_right _ hS.le
      linarith
    linarith

theorem encloses_all (i : Nat) (h : ∀ j, j < i → 0 ≤ (cosEnc j).2.1) :
    Encloses (cosEnc i).1 (cos ((i : ℝ) * (π / 128))) ∧ Encloses (cosEnc i).2 (cos (((i + 1 : Nat) : ℝ) * (π / 128))) := by
  induction i with
  | zero =>
    constructor
    · simp [cosEnc, Encloses]
    · have := encloses_step
      simpa [cosEnc] using this
  | succ i ih =>
    have ih := ih fun j hj => h j (by omega)
    refine ⟨ih.2, ?_⟩
    exact encloses_next (π / 128) _ _ i encloses_step ih.1 ih.2 (h i (by omega))

theorem cos_checked : ((List.range 65).all fun i => match K.cos128_lookup[i]? with
    | some c => decide ((2 * (c : Int) - 1) * cosScale ≤ 8192 * (cosEnc i).1.1) &&
        decide (8192 * (cosEnc i).1.2 ≤ (2 * (c : Int) + 1) * cosScale)
    | none => false) = true := by decide +kernel

/-- **C127.** Entry `i` of the cosine table is `4096 cos (i π / 128)` rounded to the nearest integer. -/
theorem C127_cos (i c : Nat) (hc : K.cos128_lookup[i]? = some c) : |(c : ℝ) - 4096 * cos ((i : ℝ) * (π / 128))| ≤ 1 / 2 := by
  have hi : i < 65 := (List.getElem?_eq_some_iff.1 hc).1
  have hpos : ((List.range 63).all fun j => decide (0 ≤ (cosEnc j).2.1)) = true := by decide +kernel
  have hpos' : ∀ j, j < 63 → 0 ≤ (cosEnc j).2.1 := fun j hj => by
    simpa using List.all_eq_true.1 hpos j (List.mem_range.2 hj)
  have h : Encloses (cosEnc i).1 (cos ((i : ℝ) * (π / 128))) := by
    cases i with
    | zero => exact (encloses_all 0 fun j hj => by omega).1
    | succ k => exact (encloses_all k fun j hj => hpos' j (by omega)).2
  have h2 := List.all_eq_true.1 cos_checked i (List.mem_range.2 hi)
  rw [hc] at h2
  simp only [Bool.and_eq_true, decide_eq_true_iff] at h2
  have hS := cosScale_pos
  have h3 : (2 * (c : ℝ) - 1) * cosScale ≤ 8192 * (cosEnc i).1.1 := by exact_mod_cast h2.1
  have h4 : 8192 * ((cosEnc i).1.2 : ℝ) ≤ (2 * (c : ℝ) + 1) * cosScale := by exact_mod_cast h2.2
  obtain ⟨h5, h6⟩ := h
  rw [abs_le]
  generalize cos ((i : ℝ) * (π / 128)) = X at *
  constructor
  · have : (cosScale : ℝ) * (8192 * X) ≤ cosScale * (2 * c + 1) := by nlinarith
    have := le_of_mul_le_mul_left this hS
    linarith
  · have : (cosScale : ℝ) * (2 * c - 1) ≤ cosScale * (8192 * X) := by nlinarith
    have := le_of_mul_le_mul_left this hS
    linarith

theorem C127_cos_length : K.cos128_lookup.length = 65 := by decide +kernel

end Av1
