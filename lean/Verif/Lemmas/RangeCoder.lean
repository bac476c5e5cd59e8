import Verif.Lemmas.Cdf

/-!
# Range coder: intervals, carries, renormalisation
-/

namespace Av1

/-! ## Intervals -/

theorem bound_def (R c : Int) : bound R c = (R / 256 * (32768 - c)) / 128 := by
  unfold bound; rw [shr_def, shr_def]; norm_num

theorem bound_last (R : Int) : bound R 32768 = 0 := by
  rw [bound_def]; norm_num

theorem bound_lt {R c c' : Int} (hR : 32768 ≤ R) (h : c < c') : bound R c' < bound R c := by
  rw [bound_def, bound_def]
  have hq : 128 ≤ R / 256 := by omega
  generalize R / 256 = q at *
  have h1 : q * (32768 - c') + 128 ≤ q * (32768 - c) := by nlinarith
  omega

theorem bound_le {R c c' : Int} (hR : 32768 ≤ R) (h : c ≤ c') : bound R c' ≤ bound R c := by
  rcases eq_or_lt_of_le h with rfl | h
  · exact le_refl _
  · exact le_of_lt (bound_lt hR h)

theorem bound_lt_range {R c : Int} (hR : 32768 ≤ R) (h : 0 < c) : bound R c < R := by
  rw [bound_def]
  have hq : 128 ≤ R / 256 := by omega
  have hq2 : R / 256 * 256 ≤ R := by omega
  generalize R / 256 = q at *
  have h1 : q * (32768 - c) < q * 32768 := by nlinarith
  omega

theorem bound_nonneg {R c : Int} (hR : 32768 ≤ R) (h : c ≤ 32768) : 0 ≤ bound R c := by
  rw [← bound_last R]; exact bound_le hR h

/-- Left and right interval ends for symbol `s`, walking the table from `prev`. -/
def ivl (R : Int) : Int → List Int → Nat → Int × Int
  | prev, [], _ => (prev, 0)
  | prev, c :: _, 0 => (prev, bound R c)
  | _, c :: rest, s + 1 => ivl R (bound R c) rest s

theorem ivl_get (R : Int) : ∀ (prev : Int) (l : List Int) (s : Nat) (hs : s < l.length),
    ivl R prev l s = (if _h : s = 0 then prev else bound R (l[s - 1]'(by omega)), bound R l[s])
  | _, [], s, hs => by simp at hs
  | prev, c :: rest, 0, _ => by simp [ivl]
  | prev, c :: rest, s + 1, hs => by
    simp only [List.length_cons, Nat.add_lt_add_iff_right] at hs
    simp only [ivl]
    rw [ivl_get R _ rest s hs]
    cases s <;> simp

theorem inc_lt_last : ∀ (body : List Int) (p M : Int), Inc p body M → p < M
  | [], _, _, h => h
  | c :: rest, p, M, h => lt_trans h.1 (inc_lt_last rest c M h.2)

/-- Interval facts for a valid table. -/
theorem ivl_spec {R : Int} (hR : 32768 ≤ R) (cnt : Int) :
    ∀ (body : List Int) (p prev : Int) (s : Nat), Inc p body 32768 → s ≤ body.length →
      (∀ c, p < c → bound R c < prev) →
      0 ≤ (ivl R prev (body ++ [32768, cnt]) s).2 ∧
      (ivl R prev (body ++ [32768, cnt]) s).2 < (ivl R prev (body ++ [32768, cnt]) s).1 ∧
      (ivl R prev (body ++ [32768, cnt]) s).1 ≤ prev
  | [], p, prev, s, h, hs, hp => by
    simp only [List.length_nil, Nat.le_zero_eq] at hs
    subst hs
    have := hp _ h
    simp only [List.nil_append, ivl, bound_last] at *
    omega
  | c :: rest, p, prev, 0, h, hs, hp => by
    simp only [List.cons_append, ivl]
    exact ⟨bound_nonneg hR (le_of_lt (inc_lt_last _ _ _ h.2)), hp _ h.1, le_refl _⟩
  | c :: rest, p, prev, s + 1, h, hs, hp => by
    simp only [List.cons_append, ivl]
    have := ivl_spec hR cnt rest c (bound R c) s h.2 (by simpa using hs) (fun c' hc' => bound_lt hR hc')
    have := hp _ h.1
    omega

/-- The decoder's search finds the symbol whose interval holds the value. -/
theorem decLoop_spec {R : Int} (hR : 32768 ≤ R) (cnt v : Int) :
    ∀ (body : List Int) (p prev : Int) (s k : Nat), Inc p body 32768 → s ≤ body.length →
      (ivl R prev (body ++ [32768, cnt]) s).2 ≤ v → v < (ivl R prev (body ++ [32768, cnt]) s).1 →
      decLoop v R k prev (body ++ [32768, cnt]) =
        some (k + s, (ivl R prev (body ++ [32768, cnt]) s).1, (ivl R prev (body ++ [32768, cnt]) s).2)
  | [], p, prev, s, k, h, hs, h1, h2 => by
    simp only [List.length_nil, Nat.le_zero_eq] at hs
    subst hs
    simp only [List.nil_append, ivl] at h1 h2 ⊢
    simp only [decLoop]
    rw [if_neg (by omega)]; simp
  | c :: rest, p, prev, 0, k, h, hs, h1, h2 => by
    simp only [List.cons_append, ivl] at h1 h2 ⊢
    simp only [decLoop]
    rw [if_neg (by omega)]; simp
  | c :: rest, p, prev, s + 1, k, h, hs, h1, h2 => by
    simp only [List.cons_append, ivl] at h1 h2 ⊢
    simp only [decLoop]
    have hle := (ivl_spec hR cnt rest c (bound R c) s h.2 (by simpa using hs)
      (fun c' hc' => bound_lt hR hc')).2.2
    rw [if_pos (by omega), decLoop_spec hR cnt v rest c (bound R c) s (k + 1) h.2 (by simpa using hs) h1 h2]
    congr 2; omega

theorem encInterval_eq (c : BoolCoder) (cdf : List Int) (s : Nat) (hs : s < cdf.length) :
    encInterval c cdf s = some { c with
      value := c.value + (c.range - (ivl c.range c.range cdf s).1)
      range := (ivl c.range c.range cdf s).1 - (ivl c.range c.range cdf s).2 } := by
  rw [ivl_get _ _ _ _ hs]
  unfold encInterval
  have h0 : ¬ ((s : Int) < 0) := by omega
  simp only [h0, if_false, Int.toNat_natCast, List.getElem?_eq_getElem hs, Option.bind_eq_bind, Option.bind_some]
  by_cases hz : s = 0
  · subst hz; simp
  · have h1 : (s : Int) > 0 := by omega
    have h2 : ((s : Int) - 1).toNat = s - 1 := by omega
    have h3 : s - 1 < cdf.length := by omega
    have h4 : ¬ ((s : Int) = 0) := by omega
    simp only [h1, if_true, h2, List.getElem?_eq_getElem h3, Option.map_some, Option.bind_some, h4, if_false, hz,
      dite_false]
    rfl

/-! ## Encoder invariant -/

/-- Bits not yet emitted because a carry may still change them. -/
def pend (c : BoolCoder) : Bits := (if c.lastZero then [false] else []) ++ List.replicate c.zeroCount.toNat true

/-- The lower end of the current interval as one unbounded number: emitted bits, pending bits, value register. -/
def low (O : Bits) (c : BoolCoder) : Int := num (O ++ pend c) * 65536 + c.value

/-- Invariant of the encoder inside a session that has emitted `O` and shifted `n` times.
`vmax` is `65536` between symbols and `131072 - range + 1` before the carry step. -/
structure EncInv (O : Bits) (c : BoolCoder) (n : Nat) : Prop where
  v0 : 0 ≤ c.value
  vr : c.value + c.range < 131072
  r0 : 0 < c.range
  r1 : c.range < 65536
  z0 : 0 ≤ c.zeroCount
  fst : c.first = true →
    O = [] ∧ c.lastZero = false ∧ c.zeroCount = 0 ∧ n = 0 ∧ c.value + c.range ≤ 32768
  nfst : c.first = false → O.length + (pend c).length + 1 = n ∧
    low O c + c.range ≤ (num O + 1) * 2 ^ ((pend c).length + 16)

theorem pend_length (c : BoolCoder) : (pend c).length = c.lastZero.toNat + c.zeroCount.toNat := by
  unfold pend; cases c.lastZero <;> simp [Nat.add_comm]

theorem num_pend (c : BoolCoder) : num (pend c) + 1 = 2 ^ c.zeroCount.toNat := by
  unfold pend
  have := num_replicate_true c.zeroCount.toNat
  cases c.lastZero <;> simp [num_cons, this]

theorem low_eq (O : Bits) (c : BoolCoder) :
    low O c = ((num O : Int) * 2 ^ (pend c).length + 2 ^ c.zeroCount.toNat - 1) * 65536 + c.value := by
  unfold low
  rw [num_append]
  have := num_pend c
  have h : (num (pend c) : Int) = 2 ^ c.zeroCount.toNat - 1 := by
    have : ((num (pend c) + 1 : Nat) : Int) = ((2 ^ c.zeroCount.toNat : Nat) : Int) := by rw [this]
    push_cast at this; omega
  push_cast
  rw [h]; ring

/-- Carry propagation keeps the number and restores `value < 65536`. -/
theorem encCarry_spec {O : Bits} {c : BoolCoder} {n : Nat} (h : EncInv O c n) :
    EncInv (O ++ (encCarry c).2) (encCarry c).1 n ∧ (encCarry c).1.value < 65536 ∧
    low (O ++ (encCarry c).2) (encCarry c).1 = low O c ∧ (encCarry c).1.range = c.range ∧
    (encCarry c).1.bitCount = c.bitCount + (encCarry c).2.length := by
  unfold encCarry
  by_cases hv : c.value ≥ 65536
  · rw [if_pos hv]
    have hf : c.first = false := by
      cases hf : c.first with
      | false => rfl
      | true => have := h.fst hf; have := h.r0; omega
    obtain ⟨hn, hb⟩ := h.nfst hf
    have hlow := low_eq O c
    have hr0 := h.r0
    have hvr := h.vr
    have hz0 := h.z0
    -- a carry is only possible when the pending bits start with a zero
    have hlz : c.lastZero = true := by
      by_contra hlz
      simp only [Bool.not_eq_true] at hlz
      rw [hlow, pend_length, hlz] at hb
      simp only [Bool.toNat_false, Nat.zero_add, pow_add] at hb
      have : (0 : Int) < 2 ^ c.zeroCount.toNat := by positivity
      have e16 : (2 : Int) ^ 16 = 65536 := by norm_num
      rw [e16] at hb
      nlinarith
    by_cases hz : c.zeroCount > 0
    · rw [if_pos hz]
      simp only
      -- run of ones: emit 1 0^(k-1), keep a pending 0
      obtain ⟨k, hk⟩ : ∃ k : Nat, c.zeroCount = (k : Int) + 1 := ⟨(c.zeroCount - 1).toNat, by omega⟩
      have hk1 : (c.zeroCount - 1).toNat = k := by omega
      have hk2 : c.zeroCount.toNat = k + 1 := by omega
      have hpl : (pend c).length = k + 2 := by rw [pend_length, hlz, hk2]; simp; omega
      set c' : BoolCoder := { c with value := c.value - 65536, zeroCount := 0, lastZero := true,
                                     bitCount := c.bitCount + 1 + (c.zeroCount - 1).toNat } with hc'
      have hp' : pend c' = [false] := by simp [pend, hc']
      rw [hk1]
      have hnum : num (O ++ true :: List.replicate k false) = num O * 2 ^ (k + 1) + 2 ^ k := by
        rw [num_append, num_cons, num_replicate_false]; simp
      have hlow' : low (O ++ true :: List.replicate k false) c' = low O c := by
        rw [hlow, low_eq, hp', hnum, hpl, hk2]
        simp only [hc']
        push_cast
        simp only [List.length_singleton, pow_succ, Int.toNat_zero, pow_zero]
        ring
      refine ⟨⟨by (try simp only [hc']); omega, by (try simp only [hc']); omega, hr0, h.r1, by simp [hc'], by simp [hc', hf], ?_⟩,
        by (try simp only [hc']); have := h.r1; omega, hlow', by first | trivial | rfl, ?_⟩
      · intro _
        refine ⟨?_, ?_⟩
        · rw [hp']; rw [hpl] at hn; simp; omega
        · rw [low_eq, hp']
          simp only [hc']
          simp only [List.length_singleton, Int.toNat_zero, pow_zero]
          norm_num
          linarith
      · simp [hc', hk1]; omega
    · rw [if_neg hz]
      simp only
      have hzz : c.zeroCount = 0 := by omega
      have hpl : (pend c).length = 1 := by rw [pend_length, hlz, hzz]; simp
      set c' : BoolCoder := { c with value := c.value - 65536, zeroCount := 1, lastZero := false } with hc'
      have hp' : pend c' = [true] := by simp [pend, hc']
      have hlow' : low O c' = low O c := by
        rw [hlow, low_eq, hp', hpl, hzz]
        simp only [hc']
        norm_num
        ring
      rw [List.append_nil]
      refine ⟨⟨by (try simp only [hc']); omega, by (try simp only [hc']); omega, hr0, h.r1, by simp [hc'], by simp [hc', hf], ?_⟩,
        by (try simp only [hc']); have := h.r1; omega, hlow', by first | trivial | rfl, by first | trivial | simp [hc']⟩
      intro _
      refine ⟨?_, ?_⟩
      · rw [hp']; rw [hpl] at hn; simpa using hn
      · rw [hlow', hp']; rw [hpl] at hb; exact hb
  · rw [if_neg hv]
    simp only [List.append_nil]
    exact ⟨h, by omega, by trivial, by trivial, by trivial⟩

/-- One renormalisation step doubles the number and the range. -/
theorem renormStep_spec {O : Bits} {c : BoolCoder} {n : Nat} (h : EncInv O c n) (hv : c.value < 65536)
    (hr : c.range < 32768) :
    EncInv (O ++ (renormStep c).2) (renormStep c).1 (n + 1) ∧ (renormStep c).1.value < 65536 ∧
    low (O ++ (renormStep c).2) (renormStep c).1 = 2 * low O c ∧ (renormStep c).1.range = 2 * c.range ∧
    (renormStep c).1.bitCount = c.bitCount + (renormStep c).2.length := by
  have hv0 := h.v0
  have hr0 := h.r0
  have hz0 := h.z0
  have e1 : c.value <<< 1 = c.value * 2 := by rw [shl_def]; norm_num
  have e2 : c.range <<< 1 = c.range * 2 := by rw [shl_def]; norm_num
  have e3 : c.value >>> 15 = c.value / 32768 := by rw [shr_def]; norm_num
  cases hf : c.first with
  | true =>
    obtain ⟨hO, hlz, hzc, hn, hvr⟩ := h.fst hf
    subst hO
    have hstep : renormStep c =
        ({ c with first := false, value := c.value * 2 % 65536, range := c.range * 2 }, []) := by
      simp [renormStep, hf, e1, e2]
    rw [hstep]
    simp only [List.append_nil, List.length_nil]
    set c' : BoolCoder := { c with first := false, value := c.value * 2 % 65536, range := c.range * 2 } with hc'
    have hp : pend c = [] := by simp [pend, hlz, hzc]
    have hp' : pend c' = [] := by simp [pend, hc', hlz, hzc]
    have hm : c.value * 2 % 65536 = c.value * 2 := by omega
    have hlow' : low [] c' = 2 * low [] c := by
      unfold low; rw [hp, hp']; simp only [hc', hm]; simp; ring
    refine ⟨⟨by (try simp only [hc']); omega, by (try simp only [hc']); omega, by (try simp only [hc']); omega,
      by (try simp only [hc']); omega, by (try simp only [hc']); omega, by simp [hc'], ?_⟩, by (try simp only [hc']); omega, hlow',
      by (try simp only [hc']); ring, by first | trivial | simp [hc']⟩
    intro _
    refine ⟨by rw [hp', hn]; simp, ?_⟩
    unfold low; rw [hp']; simp only [hc', hm]; simp; omega
  | false =>
    obtain ⟨hn, hb⟩ := h.nfst hf
    by_cases hbit : c.value / 32768 % 2 = 0
    · have hstep : renormStep c =
          ({ c with first := false, value := c.value * 2 % 65536, range := c.range * 2, zeroCount := 0,
                    lastZero := true, bitCount := c.bitCount + (pend c).length }, pend c) := by
        simp [renormStep, hf, e1, e2, e3, hbit, pend]
      rw [hstep]
      have hlt : c.value < 32768 := by omega
      have hm : c.value * 2 % 65536 = c.value * 2 := by omega
      simp only
      set c' : BoolCoder := { c with first := false, value := c.value * 2 % 65536, range := c.range * 2, zeroCount := 0, lastZero := true, bitCount := c.bitCount + (pend c).length } with hc'
      have hp' : pend c' = [false] := by simp [pend, hc']
      have hlow' : low (O ++ pend c) c' = 2 * low O c := by
        unfold low; rw [hp', num_snoc]; simp only [hc', hm]; push_cast; simp; ring
      refine ⟨⟨by (try simp only [hc']); omega, by (try simp only [hc']); omega, by (try simp only [hc']); omega,
        by (try simp only [hc']); omega, by simp [hc'], by simp [hc'], ?_⟩, by (try simp only [hc']); omega, hlow',
        by (try simp only [hc']); ring, by first | trivial | rfl⟩
      intro _
      refine ⟨by rw [hp']; simp; omega, ?_⟩
      unfold low; rw [hp', num_snoc]; simp only [hc', hm]
      push_cast
      simp only [List.length_singleton]
      norm_num
      linarith
    · have hstep : renormStep c =
          ({ c with first := false, value := c.value * 2 % 65536, range := c.range * 2,
                    zeroCount := c.zeroCount + 1 }, []) := by
        simp [renormStep, hf, e1, e2, e3, hbit]
      rw [hstep]
      simp only [List.append_nil, List.length_nil]
      have hge : 32768 ≤ c.value := by omega
      have hm : c.value * 2 % 65536 = c.value * 2 - 65536 := by omega
      set c' : BoolCoder := { c with first := false, value := c.value * 2 % 65536, range := c.range * 2, zeroCount := c.zeroCount + 1 } with hc'
      have hp' : pend c' = pend c ++ [true] := by
        simp only [pend, hc']
        rw [show (c.zeroCount + 1).toNat = c.zeroCount.toNat + 1 by omega, List.replicate_succ', List.append_assoc]
      have hlow' : low O c' = 2 * low O c := by
        unfold low; rw [hp', ← List.append_assoc, num_snoc]; simp only [hc', hm]; push_cast; simp; ring
      refine ⟨⟨by (try simp only [hc']); omega, by (try simp only [hc']); omega, by (try simp only [hc']); omega,
        by (try simp only [hc']); omega, by (try simp only [hc']); omega, by simp [hc'], ?_⟩, by (try simp only [hc']); omega, hlow',
        by (try simp only [hc']); ring, by first | trivial | simp [hc']⟩
      intro _
      refine ⟨by rw [hp']; simp; omega, ?_⟩
      rw [hlow', hp']
      simp only [List.length_append, List.length_singleton, hc']
      rw [show (pend c).length + 1 + 16 = (pend c).length + 16 + 1 by omega, pow_succ]
      linarith

/-- The renormalisation loop: terminates within `fuel` steps when `32768 ≤ range · 2^fuel`. -/
theorem renorm_spec : ∀ (fuel : Nat) {O : Bits} {c : BoolCoder} {n : Nat}, EncInv O c n → c.value < 65536 →
    32768 ≤ c.range * 2 ^ fuel →
    ∃ c' e k, renorm fuel c = some (c', e) ∧ k ≤ fuel ∧ EncInv (O ++ e) c' (n + k) ∧ c'.value < 65536 ∧
      low (O ++ e) c' = low O c * 2 ^ k ∧ c'.range = c.range * 2 ^ k ∧ 32768 ≤ c'.range ∧
      c'.bitCount = c.bitCount + e.length
  | 0, O, c, n, h, hv, hr => by
    have hr' : ¬ c.range < 32768 := by simpa using hr
    refine ⟨c, [], 0, ?_, by omega, by simpa using h, hv, by simp, by simp, by omega, by simp⟩
    simp [renorm, hr']
  | fuel + 1, O, c, n, h, hv, hr => by
    by_cases hlt : c.range < 32768
    · obtain ⟨h1, h2, h3, h4, h5⟩ := renormStep_spec h hv hlt
      obtain ⟨c', e, k, g1, g2, g3, g4, g5, g6, g7, g8⟩ := renorm_spec fuel h1 h2 (by
        rw [h4]; rw [pow_succ] at hr; linarith)
      refine ⟨c', (renormStep c).2 ++ e, k + 1, ?_, by omega, ?_, g4, ?_, ?_, g7, ?_⟩
      · simp [renorm, hlt, g1]
      · rw [← List.append_assoc]; rw [show n + (k + 1) = n + 1 + k by omega]; exact g3
      · rw [← List.append_assoc, g5, h3, pow_succ]; ring
      · rw [g6, h4, pow_succ]; ring
      · rw [g8, h5, List.length_append]; omega
    · refine ⟨c, [], 0, ?_, by omega, by simpa using h, hv, by simp, by simp, by omega, by simp⟩
      simp [renorm, hlt]

end Av1
