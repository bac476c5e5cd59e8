import Verif.Model.Common
import Mathlib.Tactic.Linarith
import Mathlib.Tactic.Ring
import Mathlib.Tactic.Positivity

/-! # C37, C42, C47: order-hint distance, segment id mapping, motion vectors -/

namespace Av1

/-! ## C37 -/

/-- Specification: `d` is the signed distance from `b` to `a` on a circle of `2^bits` points. -/
def WrapDist (a b : Nat) (bits : Nat) (d : Int) : Prop :=
  (∃ k : Int, d = (a : Int) - b + k * 2 ^ bits) ∧ -2 ^ (bits - 1) ≤ d ∧ d < 2 ^ (bits - 1)

/-- The specification determines the distance. -/
theorem wrapDist_unique {a b bits : Nat} (hb : 0 < bits) {d e : Int} (h1 : WrapDist a b bits d)
    (h2 : WrapDist a b bits e) : d = e := by
  obtain ⟨⟨k, hk⟩, l1, u1⟩ := h1
  obtain ⟨⟨m, hm⟩, l2, u2⟩ := h2
  obtain ⟨n, rfl⟩ : ∃ n, bits = n + 1 := ⟨bits - 1, by omega⟩
  simp only [Nat.add_sub_cancel] at *
  rw [pow_succ] at hk hm
  have hp : (0 : Int) < 2 ^ n := by positivity
  generalize (2 : Int) ^ n = p at *
  have h : d - e = (k - m) * (p * 2) := by rw [hk, hm]; ring
  have h0 : k - m = 0 := by
    rcases lt_trichotomy (k - m) 0 with h' | h' | h'
    · nlinarith
    · exact h'
    · nlinarith
  rw [h0] at h; omega

/-- **C37**. For every width from 1 to 63 the result is the signed wrap-around distance; it is antisymmetric except
when the two hints are exactly half a circle apart; and it is 0 when order hints are off. -/
theorem C37_relative_dist (a b bits : Nat) (hb : 0 < bits) (hb' : bits < 64) :
    (∃ d, getRelativeDist a b true bits = some d ∧ WrapDist a b bits d ∧
      (d ≠ -2 ^ (bits - 1) → getRelativeDist b a true bits = some (-d)) ∧
      (d = -2 ^ (bits - 1) → getRelativeDist b a true bits = some d)) ∧
    getRelativeDist a b false bits = some 0 := by
  have key : ∀ a b : Nat, ∃ d, getRelativeDist a b true bits = some d ∧ WrapDist a b bits d := by
    intro a b
    refine ⟨_, by unfold getRelativeDist; simp only [Bool.not_true]; rw [if_neg (by decide), if_neg (by omega)], ?_⟩
    obtain ⟨n, rfl⟩ : ∃ n, bits = n + 1 := ⟨bits - 1, by omega⟩
    simp only [Nat.add_sub_cancel]
    unfold lowBits bitAt WrapDist
    simp only [Nat.add_sub_cancel]
    rw [pow_succ]
    have hp : (0 : Int) < 2 ^ n := by positivity
    generalize (2 : Int) ^ n = p at *
    generalize (a : Int) - b = x
    have h1 := Int.emod_nonneg x (by omega : p ≠ 0)
    have h2 := Int.emod_lt_of_pos x hp
    have h3 := Int.emod_add_mul_ediv x p
    have h4 := Int.emod_add_mul_ediv (x / p) 2
    have h5 : x / p % 2 = 0 ∨ x / p % 2 = 1 := by omega
    refine ⟨⟨-(x / p / 2) - x / p % 2, ?_⟩, ?_, ?_⟩
    · rw [show x % p = x - p * (x / p) by omega]
      have : x / p = x / p % 2 + 2 * (x / p / 2) := h4.symm
      generalize x / p / 2 = q at *
      generalize x / p % 2 = r at *
      rw [this]; ring
    · rcases h5 with h | h <;> rw [h] <;> omega
    · rcases h5 with h | h <;> rw [h] <;> omega
  obtain ⟨d, h1, h2⟩ := key a b
  obtain ⟨e, h3, h4⟩ := key b a
  refine ⟨⟨d, h1, h2, ?_, ?_⟩, rfl⟩
  · intro hne
    rw [h3]
    congr 1
    refine wrapDist_unique hb h4 ⟨?_, ?_, ?_⟩
    · obtain ⟨k, hk⟩ := h2.1
      exact ⟨-k, by rw [hk]; ring⟩
    · have := h2.2.2; omega
    · have := h2.2.1; omega
  · intro he
    rw [h3]
    congr 1
    obtain ⟨n, rfl⟩ : ∃ n, bits = n + 1 := ⟨bits - 1, by omega⟩
    refine wrapDist_unique hb h4 ⟨?_, h2.2⟩
    obtain ⟨k, hk⟩ := h2.1
    refine ⟨-k - 1, ?_⟩
    rw [Nat.add_sub_cancel] at he
    have : (a : Int) - b = d - k * 2 ^ (n + 1) := by omega
    have e2 : (b : Int) - a = -d + k * 2 ^ (n + 1) := by omega
    rw [e2, pow_succ]
    generalize (2 : Int) ^ n = p at *
    rw [he]; ring

/-- Outside these widths the code panics (`order_hint_bits - 1` at 0, `m - 1` at 64): a sequence with order hints
enabled but zero order-hint bits cannot be processed. -/
theorem C37_panics (a b bits : Nat) (h : bits = 0 ∨ 64 ≤ bits) : getRelativeDist a b true bits = none := by
  unfold getRelativeDist
  simp only [Bool.not_true]
  rw [if_neg (by decide), if_pos h]

example : getRelativeDist 1 250 true 8 = some 7 ∧ getRelativeDist 250 1 true 8 = some (-7) ∧
    getRelativeDist 128 0 true 8 = some (-128) ∧ getRelativeDist 0 128 true 8 = some (-128) := by decide

/-! ## C42 -/

/-- AV1 5.11.9 `neg_deinterleave`: what a decoder computes from the coded index. -/
def negDeinterleave (diff rf mx : Nat) : Int :=
  if rf = 0 then diff
  else if (rf : Int) ≥ mx - 1 then mx - diff - 1
  else if 2 * rf < mx then
    if diff ≤ 2 * rf then
      if diff % 2 = 1 then rf + (diff + 1) / 2 else rf - diff / 2
    else diff
  else
    if (diff : Int) ≤ 2 * (mx - rf - 1) then
      if diff % 2 = 1 then rf + (diff + 1) / 2 else rf - diff / 2
    else mx - (diff + 1)

/-- **C42**, full claim: every id below the maximum is mapped, without a panic, to an index below the maximum from
which the decoder recovers the id. -/
def C42_full : Prop := ∀ v rf mx : Nat, v < mx → rf < mx →
  ∃ d, negInterleave v rf mx = some d ∧ d < mx ∧ negDeinterleave d rf mx = v

theorem usub_some {a b c : Nat} : usub a b = some c ↔ b ≤ a ∧ c = a - b := by
  unfold usub; split <;> simp_all [eq_comm]

/-- Exactly when the mapping does not panic: the prediction must be 0 or at least the maximum minus one.  For every
prediction strictly between, both `v - rf` and `rf - v` are formed, so only `v = rf` passes, and then `0 - 1`
underflows. -/
theorem C42_defined_iff (v rf mx : Nat) (hv : v < mx) : (negInterleave v rf mx).isSome ↔ rf = 0 ∨ mx - 1 ≤ rf := by
  unfold negInterleave
  by_cases h0 : rf = 0
  · simp [h0]
  · simp only [h0, if_false, false_or]
    have e1 : usub mx 1 = some (mx - 1) := usub_some.2 ⟨by omega, rfl⟩
    rw [e1]
    simp only [Option.bind_eq_bind, Option.bind_some]
    by_cases h1 : mx - 1 ≤ rf
    · rw [if_pos h1]
      have : usub (mx - 1) v = some (mx - 1 - v) := usub_some.2 ⟨by omega, rfl⟩
      simp [this, h1]
    · rw [if_neg h1]
      simp only [h1, iff_false, Bool.not_eq_true, Option.isSome_eq_false_iff, Option.isNone_iff_eq_none]
      have key : ∀ {β : Type} (f : Nat → Nat → Option β), ((usub v rf).bind fun d0 => (usub (d0 <<< 1) 1).bind fun d1 =>
          (usub rf v).bind fun e => f d1 e) = none := by
        intro β f
        unfold usub
        by_cases a : rf ≤ v
        · rw [if_pos a]
          simp only [Option.bind_some]
          by_cases b : rf = v
          · subst b; simp
          · rw [if_neg (by omega : ¬ v ≤ rf)]
            cases (if 1 ≤ (v - rf) <<< 1 then some ((v - rf) <<< 1 - 1) else none) <;> simp
        · rw [if_neg a]; rfl
      split
      · exact key _
      · exact key _

/-- **C42** is false: with 8 segments and prediction 3, coding segment 5 panics. -/
theorem C42_negation : ¬ C42_full := by
  intro h
  obtain ⟨d, h1, _⟩ := h 5 3 8 (by decide) (by decide)
  have := (C42_defined_iff 5 3 8 (by decide)).1 (by rw [h1]; rfl)
  omega

/-- **C42**, the part that holds: for prediction 0 or the largest id the mapping is defined, stays below the maximum,
is inverted by the decoder and is therefore injective.  Missing: all other predictions (the code panics). -/
theorem C42_segment_map_partial (v rf mx : Nat) (hv : v < mx) (hr : rf = 0 ∨ mx - 1 ≤ rf) :
    ∃ d, negInterleave v rf mx = some d ∧ d < mx ∧ negDeinterleave d rf mx = v := by
  unfold negInterleave negDeinterleave
  by_cases h0 : rf = 0
  · exact ⟨v, by simp [h0], hv, by simp [h0]⟩
  · have h1 : mx - 1 ≤ rf := hr.resolve_left h0
    have e1 : usub mx 1 = some (mx - 1) := usub_some.2 ⟨by omega, rfl⟩
    have e2 : usub (mx - 1) v = some (mx - 1 - v) := usub_some.2 ⟨by omega, rfl⟩
    refine ⟨mx - 1 - v, ?_, by omega, ?_⟩
    · simp only [h0, if_false, e1, Option.bind_eq_bind, Option.bind_some]
      rw [if_pos h1, e2]
    · rw [if_neg h0, if_pos (by omega)]; omega

example : negInterleave 5 0 8 = some 5 ∧ negInterleave 5 7 8 = some 2 ∧ negInterleave 5 3 8 = none := by decide

/-! ## C47 -/

/-- Specification of rounding to a multiple of `g`, nearest first, ties towards zero. -/
def NearestMultiple (g v r : Int) : Prop :=
  g ∣ r ∧ 2 * |r - v| ≤ g ∧ (2 * |r - v| = g → |r| ≤ |v|)

/-- Specification (AV1 7.10.2.3): unchanged when high-precision vectors are allowed; multiples of 8 when integer
vectors are forced; otherwise even values, towards zero. -/
def LowersPrecision (force hp : Bool) (v r : Int) : Prop :=
  if hp then r = v
  else if force then NearestMultiple 8 v r
  else NearestMultiple 2 v r

/-- **C47**, full claim about lowering. -/
def C47_full : Prop := ∀ (force hp : Bool) (v : Int), LowersPrecision force hp v (lowerMvPrecision force v)

/-- **C47** is false: the code never looks at `allow_high_precision_mv`, so an odd vector loses its last bit although
high precision is allowed (and it is on by default). -/
theorem C47_negation : ¬ C47_full := by
  intro h
  have := h false true 5
  simp [LowersPrecision, lowerMvPrecision] at this

/-- **C47**, the part that holds: without high precision the result is the nearest value of the required granularity,
ties towards zero, and lowering again changes nothing; with even (or 8-multiple) values nothing changes at all.
Missing: the high-precision case. -/
theorem C47_lower_partial (force : Bool) (v : Int) :
    LowersPrecision force false v (lowerMvPrecision force v) ∧
    lowerMvPrecision force (lowerMvPrecision force v) = lowerMvPrecision force v ∧
    lowerMvPrecision force (-v) = -lowerMvPrecision force v := by
  have e : ∀ x : Int, x >>> 3 = x / 8 := fun x => by rw [Int.shiftRight_eq_div_pow]; norm_num
  have e' : ∀ x : Int, x <<< 3 = x * 8 := fun x => by rw [Int.shiftLeft_eq]; norm_num
  have ab : ∀ x : Int, absM x = |x| := fun x => by
    unfold absM; split
    · rw [abs_of_nonneg (by omega)]
    · rw [abs_of_neg (by omega)]
  cases force
  · simp only [lowerMvPrecision, LowersPrecision, NearestMultiple, Bool.false_eq_true, if_false]
    refine ⟨⟨?_, ?_, ?_⟩, ?_, ?_⟩
    · split
      · split <;> omega
      · omega
    · split
      · split <;> simp
      · simp
    · intro _
      rcases abs_cases v with ⟨h1, h2⟩ | ⟨h1, h2⟩ <;> split <;> try split
      all_goals rw [h1]
      all_goals first | omega | (rw [abs_le]; omega)
    · by_cases h : v % 2 = 0
      · simp [h]
      · rw [if_pos h]
        by_cases hv : v > 0
        · rw [if_pos hv, if_neg (by omega)]
        · rw [if_neg hv, if_neg (by omega)]
    · by_cases h : v % 2 = 0
      · have h' : ¬ (-v % 2 ≠ 0) := by omega
        have h'' : ¬ (v % 2 ≠ 0) := by omega
        rw [if_neg h', if_neg h'']
      · have h' : -v % 2 ≠ 0 := by omega
        rw [if_pos h', if_pos h]
        by_cases hv : v > 0
        · have hv' : ¬ (-v > 0) := by omega
          rw [if_pos hv, if_neg hv']; omega
        · have hv' : -v > 0 := by omega
          rw [if_neg hv, if_pos hv']; omega
  · simp only [lowerMvPrecision, LowersPrecision, NearestMultiple, Bool.false_eq_true, if_true, if_false, e, e', ab]
    refine ⟨⟨?_, ?_, ?_⟩, ?_, ?_⟩
    · split <;> omega
    · rcases abs_cases v with ⟨h1, h2⟩ | ⟨h1, h2⟩ <;> split <;>
        rcases abs_cases (_ - v) with ⟨h3, h4⟩ | ⟨h3, h4⟩ <;> rw [h3] <;> omega
    · rcases abs_cases v with ⟨h1, h2⟩ | ⟨h1, h2⟩ <;> split <;>
        rcases abs_cases (_ - v) with ⟨h3, h4⟩ | ⟨h3, h4⟩ <;> rw [h3] <;> intro h5 <;> rw [abs_le] <;> omega
    · rcases abs_cases v with ⟨h1, h2⟩ | ⟨h1, h2⟩
      · by_cases hv : v > 0
        · rw [if_pos hv]
          rw [abs_of_nonneg (by omega : 0 ≤ (|v| + 3) / 8 * 8)]
          split <;> omega
        · rw [if_neg hv, abs_of_nonpos (by omega : -((|v| + 3) / 8 * 8) ≤ 0)]
          split <;> omega
      · have hv : ¬ v > 0 := by omega
        rw [if_neg hv, abs_of_nonpos (by omega : -((|v| + 3) / 8 * 8) ≤ 0)]
        split <;> omega
    · rw [abs_neg]; split <;> split <;> first | omega | skip
      have : v = 0 := by omega
      subst this; decide

/-- **C47**, vectors: subtraction undoes addition and addition undoes subtraction whenever the first step does not
overflow, and an operation overflows exactly when a component of the exact result leaves the `isize` range. -/
theorem C47_add_sub (a b : Mv) (ha : isizeOk a.x ∧ isizeOk a.y) :
    (∀ c, Mv.add a b = some c → Mv.sub c b = some a) ∧ (∀ c, Mv.sub a b = some c → Mv.add c b = some a) ∧
    ((Mv.add a b).isSome ↔ isizeOk (a.x + b.x) ∧ isizeOk (a.y + b.y)) ∧
    ((Mv.sub a b).isSome ↔ isizeOk (a.x - b.x) ∧ isizeOk (a.y - b.y)) := by
  obtain ⟨ax, ay⟩ := a
  obtain ⟨bx, by_⟩ := b
  simp only at ha
  have hs : ∀ v w : Int, isize v = some w ↔ isizeOk v = true ∧ w = v := by
    intro v w; unfold isize
    generalize isizeOk v = b
    cases b
    · simp
    · simp [eq_comm]
  refine ⟨?_, ?_, ?_, ?_⟩
  · intro c h
    simp only [Mv.add, Option.bind_eq_bind, Option.bind_eq_some_iff, hs] at h
    obtain ⟨x, ⟨_, rfl⟩, y, ⟨_, rfl⟩, hc⟩ := h
    injection hc with hc
    subst hc
    simp [Mv.sub, isize, ha]
  · intro c h
    simp only [Mv.sub, Option.bind_eq_bind, Option.bind_eq_some_iff, hs] at h
    obtain ⟨x, ⟨_, rfl⟩, y, ⟨_, rfl⟩, hc⟩ := h
    injection hc with hc
    subst hc
    simp [Mv.add, isize, ha]
  · simp only [Mv.add, isize]
    by_cases h1 : isizeOk (ax + bx) = true <;> by_cases h2 : isizeOk (ay + by_) = true <;> simp [h1, h2]
  · simp only [Mv.sub, isize]
    by_cases h1 : isizeOk (ax - bx) = true <;> by_cases h2 : isizeOk (ay - by_) = true <;> simp [h1, h2]

/-- The result of an addition or subtraction is the exact one, and there is one exactly if both components fit a 64-bit
two's-complement integer. -/
theorem C47_overflow (a b c : Mv) :
    (Mv.add a b = some c ↔ c = ⟨a.x + b.x, a.y + b.y⟩ ∧ -9223372036854775808 ≤ c.x ∧ c.x ≤ 9223372036854775807 ∧
      -9223372036854775808 ≤ c.y ∧ c.y ≤ 9223372036854775807) ∧
    (Mv.sub a b = some c ↔ c = ⟨a.x - b.x, a.y - b.y⟩ ∧ -9223372036854775808 ≤ c.x ∧ c.x ≤ 9223372036854775807 ∧
      -9223372036854775808 ≤ c.y ∧ c.y ≤ 9223372036854775807) := by
  obtain ⟨ax, ay⟩ := a
  obtain ⟨bx, by_⟩ := b
  obtain ⟨cx, cy⟩ := c
  have hs : ∀ v w : Int, isize v = some w ↔ w = v ∧ -9223372036854775808 ≤ w ∧ w ≤ 9223372036854775807 := by
    intro v w; unfold isize isizeOk
    by_cases h : (-2 ^ 63 ≤ v ∧ v < 2 ^ 63)
    · simp only [decide_eq_true h, if_true, Option.some.injEq]; omega
    · simp only [decide_eq_false h, Bool.false_eq_true, if_false, reduceCtorEq, false_iff]; omega
  constructor
  · simp only [Mv.add, Option.bind_eq_bind, Option.bind_eq_some_iff, hs, Option.some.injEq, Mv.mk.injEq]
    constructor
    · rintro ⟨x, ⟨rfl, h1, h2⟩, y, ⟨rfl, h3, h4⟩, rfl, rfl⟩; exact ⟨⟨rfl, rfl⟩, h1, h2, h3, h4⟩
    · rintro ⟨⟨rfl, rfl⟩, h1, h2, h3, h4⟩; exact ⟨_, ⟨rfl, h1, h2⟩, _, ⟨rfl, h3, h4⟩, rfl, rfl⟩
  · simp only [Mv.sub, Option.bind_eq_bind, Option.bind_eq_some_iff, hs, Option.some.injEq, Mv.mk.injEq]
    constructor
    · rintro ⟨x, ⟨rfl, h1, h2⟩, y, ⟨rfl, h3, h4⟩, rfl, rfl⟩; exact ⟨⟨rfl, rfl⟩, h1, h2, h3, h4⟩
    · rintro ⟨⟨rfl, rfl⟩, h1, h2, h3, h4⟩; exact ⟨_, ⟨rfl, h1, h2⟩, _, ⟨rfl, h3, h4⟩, rfl, rfl⟩

example : Mv.add ⟨5, -3⟩ ⟨1, 2⟩ = some ⟨6, -1⟩ ∧ Mv.add ⟨2 ^ 63 - 1, 0⟩ ⟨1, 0⟩ = none ∧
    lowerMvPrecision true 5 = 8 ∧ lowerMvPrecision true (-4) = 0 ∧ lowerMvPrecision false (-5) = -4 := by decide

/-- **C47**, the exact condition of lowering: it is right if and only if high precision is not allowed or the value has no
precision to lose. -/
theorem C47_lower_iff (force hp : Bool) (v : Int) :
    LowersPrecision force hp v (lowerMvPrecision force v) ↔ (hp = true → (if force then 8 else 2) ∣ v) := by
  have base := (C47_lower_partial force v).1
  cases hp with
  | false => simpa using base
  | true =>
    simp only [LowersPrecision, if_true, true_imp_iff, Bool.false_eq_true, if_false, NearestMultiple] at base ⊢
    constructor
    · intro e
      rw [e] at base
      cases force
      · exact base.1
      · exact base.1
    · intro hd
      cases force with
      | false =>
        simp only [Bool.false_eq_true, if_false] at hd
        simp only [lowerMvPrecision, Bool.false_eq_true, if_false]
        rw [if_neg (by omega)]
      | true =>
        simp only [if_true] at base hd
        obtain ⟨⟨a, ha⟩, h2, h3⟩ := base
        obtain ⟨b, hb⟩ := hd
        rw [ha, hb] at h2 h3 ⊢
        rcases abs_cases (8 * a - 8 * b) with ⟨e1, _⟩ | ⟨e1, _⟩ <;> omega

example : ¬ LowersPrecision false true 5 (lowerMvPrecision false 5) ∧ LowersPrecision true true 16 (lowerMvPrecision true 16) := by
  rw [C47_lower_iff, C47_lower_iff]; decide

end Av1
