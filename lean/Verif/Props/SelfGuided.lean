import Mathlib.Tactic.IntervalCases
import Mathlib.Tactic.Linarith
import Mathlib.Tactic.Ring
import Verif.Props.Restoration

/-! # C148: the sets of the self-guided restoration filter

No code of the crate applies the filter; `sgr_params` (constants.rs 1002–1007) is what an implementation would read and what
`lrSgr` (tile_encoder.rs 296–315) reads to decide which coefficients are coded.  AV1 describes a pass by a radius `r` and a
strength `e`; decoders work with the multiplier below. -/

namespace Av1

/-- Samples in the window of a pass. -/
def sgrWindow (r : Nat) : Nat := (2 * r + 1) ^ 2

/-- `2^20 / (n² e)`, rounded: what a decoder multiplies a variance with. -/
def sgrMultiplier (r e : Nat) : Nat := (2 ^ 20 + sgrWindow r ^ 2 * e / 2) / (sgrWindow r ^ 2 * e)

/-- Radius and multiplier of both passes as decoders tabulate them, `none` for a pass that is left out. -/
def av1SelfGuided : List (Option (Nat × Nat) × Option (Nat × Nat)) := [
  (some (2, 140), some (1, 3236)), (some (2, 112), some (1, 2158)), (some (2, 93), some (1, 1618)),
  (some (2, 80), some (1, 1438)), (some (2, 70), some (1, 1295)), (some (2, 58), some (1, 1177)),
  (some (2, 47), some (1, 1079)), (some (2, 37), some (1, 996)), (some (2, 30), some (1, 925)),
  (some (2, 25), some (1, 863)), (none, some (1, 2589)), (none, some (1, 1618)), (none, some (1, 1177)),
  (none, some (1, 925)), (some (2, 56), none), (some (2, 22), none)]

/-- A pass of a set: radius 0 stands for no pass. -/
def sgrPass (r e : Nat) : Option (Nat × Nat) := if r = 0 then none else some (r, sgrMultiplier r e)

/-- **C148.** Every set has AV1's radii and multipliers, and there are no other sets. -/
theorem C148_sets (set : Nat) : (K.sgr_params[set]?.bind fun p => match p with
    | [r0, e0, r1, e1] => some (sgrPass r0 e0, sgrPass r1 e1)
    | _ => none) = av1SelfGuided[set]? := by
  by_cases h : set < 16
  · have key : ∀ i : Fin 16, (K.sgr_params[(i : Nat)]?.bind fun p => match p with
      | [r0, e0, r1, e1] => some (sgrPass r0 e0, sgrPass r1 e1)
      | _ => none) = av1SelfGuided[(i : Nat)]? := by decide +kernel
    exact key ⟨set, h⟩
  · rw [List.getElem?_eq_none (by simp only [K.sgr_params, List.length_cons, List.length_nil]; omega),
      List.getElem?_eq_none (by simp only [av1SelfGuided, List.length_cons, List.length_nil]; omega)]
    rfl

example : K.sgr_params[15]? = some [2, 75, 0, 0] ∧ sgrPass 2 75 = some (2, 22) := by decide

/-- Every set has a pass, the coarse one comes first, and a pass that is left out has no strength. -/
theorem C148_passes (p : List Nat) (hp : p ∈ K.sgr_params) : ∃ r0 e0 r1 e1, p = [r0, e0, r1, e1] ∧
    (r0 = 0 ∨ r0 = 2) ∧ (r1 = 0 ∨ r1 = 1) ∧ ¬ (r0 = 0 ∧ r1 = 0) ∧ (r0 = 0 ↔ e0 = 0) ∧ (r1 = 0 ↔ e1 = 0) := by
  have h : (K.sgr_params.all fun p => match p with
    | [r0, e0, r1, e1] => decide ((r0 = 0 ∨ r0 = 2) ∧ (r1 = 0 ∨ r1 = 1) ∧ ¬ (r0 = 0 ∧ r1 = 0) ∧ (r0 = 0 ↔ e0 = 0) ∧ (r1 = 0 ↔ e1 = 0))
    | _ => false) = true := by decide +kernel
  have := List.all_eq_true.1 h p hp
  split at this
  · exact ⟨_, _, _, _, rfl, of_decide_eq_true this⟩
  · cases this

/-- Of two sets with the same passes the later one smooths more strongly in each. -/
theorem C148_stronger (i j : Nat) (r0 e0 f0 r1 e1 f1 : Nat) (hij : i < j)
    (hi : K.sgr_params[i]? = some [r0, e0, r1, e1]) (hj : K.sgr_params[j]? = some [r0, f0, r1, f1]) :
    (r0 ≠ 0 → e0 < f0) ∧ (r1 ≠ 0 → e1 < f1) := by
  have l1 : j < 16 := by
    have := (List.getElem?_eq_some_iff.1 hj).1
    simpa [K.sgr_params] using this
  have key : ∀ i j : Fin 16, i < j → (match K.sgr_params[(i : Nat)]?, K.sgr_params[(j : Nat)]? with
    | some [r0, e0, r1, e1], some [s0, f0, s1, f1] => decide (r0 = s0 → r1 = s1 → (r0 ≠ 0 → e0 < f0) ∧ (r1 ≠ 0 → e1 < f1))
    | _, _ => false) = true := by decide +kernel
  have := key ⟨i, by omega⟩ ⟨j, l1⟩ (by simpa using hij)
  rw [hi, hj] at this
  exact of_decide_eq_true this rfl rfl

theorem sgrCoef_coded {plane ur uc i r : Nat} {u : LrUnit} {s s' : LrState} {ops : List LrOp}
    (h : lrSgrCoef plane ur uc i r u s = some (ops, s')) : if r = 0 then ops = [] else
      ∃ mn mx v l rf, K.sgrproj_xqd_min[i]? = some mn ∧ K.sgrproj_xqd_max[i]? = some mx ∧ u.sgr[i]? = some v ∧
        s.refSgr[plane]? = some l ∧ l[i]? = some rf ∧ lrSigned v mn (mx + 1) 4 rf = some ops := by
  simp only [lrSgrCoef, Option.bind_eq_bind, Option.bind_eq_some_iff, Option.some.injEq, Prod.mk.injEq, Prod.exists] at h
  obtain ⟨mn, h1, mx, h2, l, h3, o, v, h4, x, -, y, -, rfl, -⟩ := h
  by_cases hr : r = 0
  · subst hr
    rw [if_pos rfl]
    rw [if_neg (by omega)] at h4
    split at h4
    · obtain ⟨r, -, e⟩ := Option.bind_eq_some_iff.1 h4
      simp only [Option.some.injEq, Prod.mk.injEq] at e
      exact e.1.symm
    · simp only [Option.some.injEq, Prod.mk.injEq] at h4
      exact h4.1.symm
  · rw [if_neg hr]
    rw [if_pos (by omega)] at h4
    simp only [Option.bind_eq_some_iff, Option.some.injEq, Prod.mk.injEq] at h4
    obtain ⟨v', e1, rf, e2, o', e3, rfl, rfl⟩ := h4
    exact ⟨mn, mx, v', l, rf, h1, h2, e1, h3, e2, e3⟩

/-- The number of a set is coded in four bits, and behind it a coefficient for exactly the passes AV1 gives that set. -/
theorem C148_coded (plane ur uc : Nat) (u : LrUnit) (s s' : LrState) (ops : List LrOp)
    (h : lrSgr plane ur uc u s = some (ops, s')) :
    ∃ q a b, av1SelfGuided[u.sgrSet]? = some q ∧ ops = .lit u.sgrSet 4 :: (a ++ b) ∧
      (if q.1 = none then a = [] else ∃ v l r, u.sgr[0]? = some v ∧ s.refSgr[plane]? = some l ∧ l[0]? = some r ∧
        lrSigned v (-96) 32 4 r = some a) ∧
      (if q.2 = none then b = [] else ∃ v l r, u.sgr[1]? = some v ∧ s.refSgr[plane]? = some l ∧ l[1]? = some r ∧
        lrSigned v (-32) 96 4 r = some b) := by
  simp only [lrSgr, Option.bind_eq_bind, Option.bind_eq_some_iff, Option.some.injEq, Prod.mk.injEq, Prod.exists] at h
  obtain ⟨m, -, p, h2, r0, h3, r1, h4, a, s2, h5, b, s3, h6, rfl, -⟩ := h
  obtain ⟨r0', e0, r1', e1, rfl, -⟩ := C148_passes p (List.mem_of_getElem? h2)
  have hq := C148_sets u.sgrSet
  rw [h2, Option.bind_some] at hq
  obtain rfl : r0' = r0 := by simpa using h3
  obtain rfl : r1' = r1 := by simpa using h4
  have none_iff : ∀ r e, sgrPass r e = none ↔ r = 0 := fun r e => by unfold sgrPass; split <;> simp_all
  refine ⟨_, a, b, hq.symm, rfl, ?_, ?_⟩
  · have := sgrCoef_coded h5
    simp only [none_iff]
    split at this
    · rw [if_pos ‹_›]; exact this
    · rw [if_neg ‹_›]
      obtain ⟨mn, mx, v, l, rf, x1, x2, x3, x5, x6, x4⟩ := this
      cases x1; cases x2
      exact ⟨v, l, rf, x3, x5, x6, x4⟩
  · have := sgrCoef_coded h6
    simp only [none_iff]
    split at this
    · rw [if_pos ‹_›]; exact this
    · rw [if_neg ‹_›]
      obtain ⟨mn, mx, v, l, rf, x1, x2, x3, x5, x6, x4⟩ := this
      cases x1; cases x2
      obtain ⟨l0, w, y1, y2, -⟩ := lrSgrCoef_ref h5
      rw [y2, Option.some.injEq] at x5
      subst x5
      rw [List.getElem?_set_ne (by decide)] at x6
      exact ⟨v, l0, rf, x3, y1, x6, x4⟩

example : (lrSgr 0 0 0 (sgrUnit (-80)) sgrState).isSome ∧ av1SelfGuided[(sgrUnit (-80)).sgrSet]? = some (some (2, 56), none) := by
  decide +kernel

/-! ## The products fit 32 bits -/

/-- Sum and sum of squares of the samples of a window. -/
def boxSum (xs : List Nat) : Nat := xs.sum
def boxSquares (xs : List Nat) : Nat := (xs.map fun x => x * x).sum

theorem boxSquares_le (xs : List Nat) (m : Nat) (h : ∀ x ∈ xs, x ≤ m) : boxSquares xs ≤ m * boxSum xs := by
  induction xs with
  | nil => simp [boxSquares, boxSum]
  | cons x xs ih =>
    have := ih fun y hy => h y (List.mem_cons_of_mem _ hy)
    have hx := h x List.mem_cons_self
    simp only [boxSquares, boxSum, List.map_cons, List.sum_cons] at this ⊢
    nlinarith

/-- `n` times the sum of squares less the square of the sum: `n²` times the variance. -/
def scaledVariance (xs : List Nat) : Nat := xs.length * boxSquares xs - boxSum xs ^ 2

theorem scaledVariance_le (xs : List Nat) (m : Nat) (h : ∀ x ∈ xs, x ≤ m) : 4 * scaledVariance xs ≤ (xs.length * m) ^ 2 := by
  have h1 := boxSquares_le xs m h
  have h2 : xs.length * boxSquares xs ≤ xs.length * m * boxSum xs := by
    calc xs.length * boxSquares xs ≤ xs.length * (m * boxSum xs) := Nat.mul_le_mul_left _ h1
      _ = _ := by ring
  unfold scaledVariance
  generalize xs.length * m = c at *
  generalize boxSum xs = s at *
  generalize xs.length * boxSquares xs = q at *
  by_cases hq : q ≤ s ^ 2
  · rw [Nat.sub_eq_zero_of_le hq]; omega
  · have h3 : 4 * (q - s ^ 2) + 4 * s ^ 2 = 4 * q := by omega
    have h4 : 4 * (c * s) ≤ c ^ 2 + 4 * s ^ 2 := by
      have : (0 : Int) ≤ ((c : Int) - 2 * s) ^ 2 := by positivity
      have h5 : (4 * (c * s) : Int) ≤ c ^ 2 + 4 * s ^ 2 := by nlinarith
      exact_mod_cast h5
    omega

/-- Whatever the samples (eight bits, as the filter reduces them to), the product of their variance and the multiplier of
any pass of any set, with the rounding term, fits 32 bits. -/
theorem C148_fits (p : List Nat) (hp : p ∈ K.sgr_params) (r0 e0 r1 e1 : Nat) (he : p = [r0, e0, r1, e1])
    (r e : Nat) (hre : (r, e) = (r0, e0) ∨ (r, e) = (r1, e1)) (hr : r ≠ 0) (xs : List Nat) (hl : xs.length = sgrWindow r)
    (hx : ∀ x ∈ xs, x < 2 ^ 8) : scaledVariance xs * sgrMultiplier r e + 2 ^ 19 < 2 ^ 32 := by
  have h := scaledVariance_le xs 255 fun x h => by have := hx x h; omega
  rw [hl] at h
  have key : (K.sgr_params.all fun p => match p with
    | [r0, e0, r1, e1] => decide ((sgrWindow r0 * 255) ^ 2 * (if r0 = 0 then 0 else sgrMultiplier r0 e0) + 4 * 2 ^ 19 < 4 * 2 ^ 32 ∧
        (sgrWindow r1 * 255) ^ 2 * (if r1 = 0 then 0 else sgrMultiplier r1 e1) + 4 * 2 ^ 19 < 4 * 2 ^ 32)
    | _ => false) = true := by decide +kernel
  have := List.all_eq_true.1 key p hp
  subst he
  have := of_decide_eq_true this
  have fin : (sgrWindow r * 255) ^ 2 * sgrMultiplier r e + 4 * 2 ^ 19 < 4 * 2 ^ 32 := by
    rcases hre with h | h <;> simp only [Prod.mk.injEq] at h <;> obtain ⟨rfl, rfl⟩ := h
    · rw [if_neg hr] at this; exact this.1
    · rw [if_neg hr] at this; exact this.2
  have h2 : 4 * scaledVariance xs * sgrMultiplier r e ≤ (sgrWindow r * 255) ^ 2 * sgrMultiplier r e := Nat.mul_le_mul_right _ h
  have h3 : 4 * scaledVariance xs * sgrMultiplier r e = 4 * (scaledVariance xs * sgrMultiplier r e) := by ring
  omega

/-- A window for which little is left: four black and five white samples under the strongest multiplier. -/
example : scaledVariance ([0, 0, 0, 0] ++ List.replicate 5 255) * sgrMultiplier 1 4 + 2 ^ 19 = 4208942288 ∧
    ([0, 0, 0, 0] ++ List.replicate 5 255).length = sgrWindow 1 ∧ [2, 12, 1, 4] ∈ K.sgr_params := by decide +kernel

end Av1
