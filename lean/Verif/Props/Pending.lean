import Verif.Props.RangeCoder

/-! # Bits the coder holds back: C05 (counter), C139 -/

namespace Av1

/-- A carry may or may not still come: the end of the 16 bits lies inside the interval. -/
structure Straddles (c : BoolCoder) : Prop where
  first : c.first = false
  v0 : 0 ≤ c.value
  v1 : c.value < 65536
  top : 65536 < c.value + c.range
  r0 : 32768 ≤ c.range
  r1 : c.range ≤ 65535
  z0 : 0 ≤ c.zeroCount

theorem renorm_silent : ∀ (fuel : Nat) (c : BoolCoder), c.first = false → 0 ≤ c.value → c.value < 65536 → 65536 < c.value + c.range →
    c.range ≤ 65535 → 0 ≤ c.zeroCount → 32768 ≤ c.range * 2 ^ fuel →
    ∃ c', renorm fuel c = some (c', []) ∧ Straddles c' ∧
      ((c.range < 32768 ∧ c.zeroCount < c'.zeroCount) ∨ (32768 ≤ c.range ∧ c' = c))
  | fuel, c, hf, h0, h1, h2, h3, h4, h5 => by
    by_cases hr : c.range < 32768
    · cases fuel with
      | zero => simp only [pow_zero, mul_one] at h5; omega
      | succ fuel =>
        have hb : ¬ (c.value >>> 15) % 2 = 0 := by
          rw [Int.shiftRight_eq_div_pow]
          omega
        have e1 : (c.value <<< 1) % 65536 = 2 * c.value - 65536 := by
          rw [shl_def]; norm_num; omega
        have e2 : c.range <<< 1 = 2 * c.range := by rw [shl_def]; norm_num; omega
        have hs : renormStep c = ({ c with first := false, value := 2 * c.value - 65536, range := 2 * c.range,
                                           zeroCount := c.zeroCount + 1 }, []) := by
          unfold renormStep
          rw [if_neg (by simp [hf]), if_neg hb]
          simp only [e1, e2]
        generalize hd : ({ c with first := false, value := 2 * c.value - 65536, range := 2 * c.range,
                                  zeroCount := c.zeroCount + 1 } : BoolCoder) = d at hs
        have d1 : d.first = false := by rw [← hd]
        have d2 : d.value = 2 * c.value - 65536 := by rw [← hd]
        have d3 : d.range = 2 * c.range := by rw [← hd]
        have d4 : d.zeroCount = c.zeroCount + 1 := by rw [← hd]
        obtain ⟨c', g1, g2, g3⟩ := renorm_silent fuel d d1 (by omega) (by omega) (by omega) (by omega) (by omega)
          (by rw [d3]; rw [pow_succ] at h5; linarith)
        refine ⟨c', ?_, g2, Or.inl ⟨hr, ?_⟩⟩
        · simp only [renorm, if_pos hr, hs, g1, Option.bind_eq_bind, Option.bind_some, List.append_nil]
        · rcases g3 with ⟨-, g3⟩ | ⟨-, g3⟩
          · omega
          · rw [g3]; omega
    · refine ⟨c, ?_, ⟨hf, h0, h1, h2, by omega, h3, h4⟩, Or.inr ⟨by omega, rfl⟩⟩
      cases fuel <;> simp only [renorm, if_neg hr]

/-- Coding with a table of two entries, as far as the registers go. -/
theorem prob_silent (c : BoolCoder) (h : Straddles c) (p : Int) (hp : p = 128 ∨ p = 64) (m : Int)
    (hm : m = c.range / 256 * (if p = 128 then 128 else 192)) (b : Bool)
    (hb : if b then c.value + c.range - m < 65536 else 65536 < c.value + c.range - m) :
    ∃ c' t, encodeSymbol c (probCdf p) b.toNat = some (c', [], t) ∧ Straddles c' ∧
      (c.zeroCount < c'.zeroCount ∨ c'.zeroCount = c.zeroCount ∧ c'.range < c.range) := by
  have h0 := h.v0
  have h1 := h.v1
  have h2 := h.top
  have h3 := h.r0
  have h4 := h.r1
  have h5 := h.z0
  have e0 : c.range >>> 8 = c.range / 256 := by rw [Int.shiftRight_eq_div_pow]; rfl
  have em : ((c.range >>> 8) * (32768 - ((p <<< 15) + 256 - p) >>> 8)) >>> 7 = m := by
    rw [e0, hm]
    rcases hp with rfl | rfl
    · show (c.range / 256 * 16384) >>> 7 = _
      rw [Int.shiftRight_eq_div_pow, if_pos rfl]; omega
    · show (c.range / 256 * 24576) >>> 7 = _
      rw [Int.shiftRight_eq_div_pow, if_neg (by decide)]; omega
  have e7 : ((c.range >>> 8) * (32768 - 1 <<< 15)) >>> 7 = 0 := by
    show ((c.range >>> 8) * 0) >>> 7 = 0
    rw [mul_zero]; rfl
  have hmb : 16384 ≤ m ∧ m ≤ 48960 ∧ m < c.range := by
    rw [hm]; split <;> omega
  have ha : ∃ t, adapt (probCdf p) b.toNat = some t := by
    rcases hp with rfl | rfl <;> cases b <;> exact ⟨_, rfl⟩
  obtain ⟨t, ha⟩ := ha
  cases b with
  | true =>
    have hi : encInterval c (probCdf p) ((true.toNat : Nat) : Int) = some { c with value := c.value + (c.range - m), range := m } := by
      have : encInterval c (probCdf p) ((true.toNat : Nat) : Int) =
          some { c with value := c.value + (c.range - ((c.range >>> 8) * (32768 - ((p <<< 15) + 256 - p) >>> 8)) >>> 7),
                        range := ((c.range >>> 8) * (32768 - ((p <<< 15) + 256 - p) >>> 8)) >>> 7 -
                          ((c.range >>> 8) * (32768 - 1 <<< 15)) >>> 7 } := rfl
      rw [this, em, e7, sub_zero]
    rw [if_pos rfl] at hb
    have hcar : encCarry { c with value := c.value + (c.range - m), range := m } =
        ({ c with value := c.value + (c.range - m), range := m }, []) := by
      unfold encCarry
      rw [if_neg (by show ¬ c.value + (c.range - m) ≥ 65536; omega)]
    obtain ⟨c', g1, g2, g3⟩ := renorm_silent 15 { c with value := c.value + (c.range - m), range := m } h.first
      (by show 0 ≤ c.value + (c.range - m); omega) (by show c.value + (c.range - m) < 65536; omega)
      (by show 65536 < c.value + (c.range - m) + m; omega) (by show m ≤ 65535; omega) h5
      (by show 32768 ≤ m * 2 ^ 15; omega)
    refine ⟨c', t, ?_, g2, ?_⟩
    · unfold encodeSymbol encodeSymbolFuel
      simp only [hi, hcar, g1, ha, Option.bind_eq_bind, Option.bind_some, List.append_nil]
    · rcases g3 with ⟨-, g3⟩ | ⟨-, g3⟩
      · exact Or.inl g3
      · right; rw [g3]; exact ⟨rfl, hmb.2.2⟩
  | false =>
    have hi : encInterval c (probCdf p) ((false.toNat : Nat) : Int) = some { c with value := c.value, range := c.range - m } := by
      have : encInterval c (probCdf p) ((false.toNat : Nat) : Int) =
          some { c with value := c.value + (c.range - c.range),
                        range := c.range - ((c.range >>> 8) * (32768 - ((p <<< 15) + 256 - p) >>> 8)) >>> 7 } := rfl
      rw [this, em, sub_self, add_zero]
    rw [if_neg (by simp)] at hb
    have hcar : encCarry { c with value := c.value, range := c.range - m } =
        ({ c with value := c.value, range := c.range - m }, []) := by
      unfold encCarry
      rw [if_neg (by show ¬ c.value ≥ 65536; omega)]
    obtain ⟨c', g1, g2, g3⟩ := renorm_silent 15 { c with value := c.value, range := c.range - m } h.first
      h0 h1 (by show 65536 < c.value + (c.range - m); omega) (by show c.range - m ≤ 65535; omega) h5
      (by show 32768 ≤ (c.range - m) * 2 ^ 15; omega)
    refine ⟨c', t, ?_, g2, ?_⟩
    · unfold encodeSymbol encodeSymbolFuel
      simp only [hi, hcar, g1, ha, Option.bind_eq_bind, Option.bind_some, List.append_nil]
    · rcases g3 with ⟨-, g3⟩ | ⟨-, g3⟩
      · exact Or.inl g3
      · right; rw [g3]; exact ⟨rfl, by show c.range - m < c.range; omega⟩

/-- From such a state some bit is coded without a bit coming out. -/
theorem step_silent (c : BoolCoder) (h : Straddles c) : ∃ p b c', (p = 128 ∨ p = 64) ∧
    encodeOp c [] (.prob p b) = some (c', [], []) ∧ Straddles c' ∧
      (c.zeroCount < c'.zeroCount ∨ c'.zeroCount = c.zeroCount ∧ c'.range < c.range) := by
  have key : ∀ (p : Nat) (b : Bool), (p = 128 ∨ p = 64) → (∃ c' t, encodeSymbol c (probCdf p) b.toNat = some (c', [], t) ∧ Straddles c' ∧
      (c.zeroCount < c'.zeroCount ∨ c'.zeroCount = c.zeroCount ∧ c'.range < c.range)) → ∃ p b c', (p = 128 ∨ p = 64) ∧
      encodeOp c [] (.prob p b) = some (c', [], []) ∧ Straddles c' ∧
        (c.zeroCount < c'.zeroCount ∨ c'.zeroCount = c.zeroCount ∧ c'.range < c.range) := by
    intro p b hp hx
    obtain ⟨c', t, g1, g2, g3⟩ := hx
    refine ⟨p, b, c', hp, ?_, g2, g3⟩
    simp only [encodeOp, encodeSymbolp, g1, Option.bind_eq_bind, Option.bind_some]
  have h3 := h.r0
  rcases lt_trichotomy (c.value + c.range - c.range / 256 * 128) 65536 with hx | hx | hx
  · exact key 128 true (Or.inl rfl) (prob_silent c h 128 (Or.inl rfl) _ rfl true (by simpa using hx))
  · refine key 64 true (Or.inr rfl) (prob_silent c h 64 (Or.inr rfl) _ rfl true ?_)
    rw [if_pos rfl, if_neg (by decide)]
    omega
  · exact key 128 false (Or.inl rfl) (prob_silent c h 128 (Or.inl rfl) _ rfl false (by simpa using hx))

/-- Calls that code single bits with probability 128 or 64 of 256. -/
def Halves (ops : List Op) : Prop := ∀ o ∈ ops, ∃ p b, o = .prob p b ∧ (p = 128 ∨ p = 64)

theorem run_silent (c : BoolCoder) (h : Straddles c) : ∀ n : Nat, ∃ ops c', ops.length = n ∧ Halves ops ∧
    encodeOps c [] ops = some (c', [], []) ∧ Straddles c' := by
  intro n
  induction n generalizing c with
  | zero => exact ⟨[], c, rfl, by simp [Halves], rfl, h⟩
  | succ n ih =>
    obtain ⟨p, b, c1, hp, h1, h2, -⟩ := step_silent c h
    obtain ⟨ops, c', h3, h4, h5, h6⟩ := ih c1 h2
    refine ⟨.prob p b :: ops, c', by simp [h3], ?_, ?_, h6⟩
    · intro o ho
      rcases List.mem_cons.1 ho with rfl | ho
      · exact ⟨p, b, rfl, hp⟩
      · exact h4 o ho
    · simp only [encodeOps, h1, h5, Option.bind_eq_bind, Option.bind_some, List.append_nil]

theorem more_pending : ∀ (n : Nat) (c : BoolCoder), c.range.toNat ≤ n → Straddles c → ∃ ops c', Halves ops ∧
    encodeOps c [] ops = some (c', [], []) ∧ Straddles c' ∧ c.zeroCount < c'.zeroCount
  | n, c, hn, h => by
    obtain ⟨p, b, c1, hp, h1, h2, h3⟩ := step_silent c h
    rcases h3 with h3 | ⟨h3, h4⟩
    · refine ⟨[.prob p b], c1, ?_, ?_, h2, h3⟩
      · intro o ho
        rw [List.mem_singleton.1 ho]; exact ⟨p, b, rfl, hp⟩
      · simp only [encodeOps, h1, Option.bind_eq_bind, Option.bind_some, List.append_nil]
    · cases n with
      | zero => have := h.r0; omega
      | succ n =>
        have := h.r0
        have := h2.r0
        obtain ⟨ops, c', g1, g2, g3, g4⟩ := more_pending n c1 (by omega) h2
        refine ⟨.prob p b :: ops, c', ?_, ?_, g3, by omega⟩
        · intro o ho
          rcases List.mem_cons.1 ho with rfl | ho
          · exact ⟨p, b, rfl, hp⟩
          · exact g1 o ho
        · simp only [encodeOps, h1, g2, Option.bind_eq_bind, Option.bind_some, List.append_nil]

theorem pending_unbounded (c : BoolCoder) (h : Straddles c) : ∀ n : Nat, ∃ ops c', Halves ops ∧
    encodeOps c [] ops = some (c', [], []) ∧ Straddles c' ∧ (n : Int) ≤ c'.zeroCount := by
  intro n
  induction n generalizing c with
  | zero => exact ⟨[], c, by simp [Halves], rfl, h, h.z0⟩
  | succ n ih =>
    obtain ⟨ops1, c1, h1, h2, h3, h4⟩ := ih c h
    obtain ⟨ops2, c2, g1, g2, g3, g4⟩ := more_pending _ c1 le_rfl h3
    refine ⟨ops1 ++ ops2, c2, ?_, ?_, g3, by push_cast; omega⟩
    · intro o ho
      rcases List.mem_append.1 ho with ho | ho
      · exact h1 o ho
      · exact g1 o ho
    · rw [encodeOps_append, h2]
      simp only [g2, Option.bind_eq_bind, Option.bind_some, List.append_nil]

/-- Three bits lead a new session there. -/
theorem start_silent (c : BoolCoder) : ∃ c1 e, encodeOps (initEncoder c) [] [.prob 128 false, .prob 64 true, .prob 128 false] =
    some (c1, e, []) ∧ Straddles c1 :=
  ⟨{ initEncoder c with value := 32768, range := 49152, lastZero := true, first := false, bitCount := c.bitCount + 1 }, [false], rfl,
    ⟨rfl, by show (0 : Int) ≤ 32768; decide, by show (32768 : Int) < 65536; decide, by show (65536 : Int) < 32768 + 49152; decide,
      by show (32768 : Int) ≤ 49152; decide, by show (49152 : Int) ≤ 65535; decide, le_refl (0 : Int)⟩⟩

theorem Halves.ok {ops : List Op} (h : Halves ops) : OpsOk [] ops := by
  intro o ho
  obtain ⟨p, b, rfl, hp⟩ := h o ho
  show p < 256
  omega

theorem ops_reachable : ∀ (ops : List Op) (k : Nat) (c c' : BoolCoder) (e : Bits), ReachableIn k c → Halves ops →
    encodeOps c [] ops = some (c', e, []) → ∃ k', ReachableIn k' c'
  | [], k, c, c', e, h, _, he => by
    simp only [encodeOps, Option.some.injEq, Prod.mk.injEq] at he
    exact ⟨k, he.1 ▸ h⟩
  | o :: ops, k, c, c', e, h, ho, he => by
    obtain ⟨p, b, rfl, hp⟩ := ho o List.mem_cons_self
    simp only [encodeOps, encodeOp, encodeSymbolp, Option.bind_eq_bind, Option.bind_eq_some_iff] at he
    obtain ⟨⟨c1, e1, k1⟩, ⟨⟨c1', e1'⟩, ⟨⟨c2, e2, t⟩, h1, h2⟩, h3⟩, ⟨c3, e3, k3⟩, h4, h5⟩ := he
    simp only [Option.some.injEq, Prod.mk.injEq] at h2 h3 h5
    obtain ⟨rfl, rfl⟩ := h2
    obtain ⟨rfl, rfl, rfl⟩ := h3
    obtain ⟨rfl, -, rfl⟩ := h5
    have hr : ReachableIn (k + 1) c2 := .step h (probCdf_valid (p := p) (by omega)) (by cases b <;> simp [symbols, probCdf]) h1
    exact ops_reachable ops (k + 1) c2 c3 e3 hr (fun x hx => ho x (List.mem_cons_of_mem _ hx)) h4

/-! ## C05: the counter of pending bits -/

/-- **C05**, full claim: from every reachable state a symbol is coded within fifteen renormalisation steps, all registers stay in
range and the counter stays inside its 32 bits. -/
def C05_full : Prop := ∀ (k : Nat) (c : BoolCoder), ReachableIn k c → ∀ (cdf : List Int), ValidCdf cdf → ∀ s, s < symbols cdf →
  ∃ c' e cdf', encodeSymbolFuel 15 c cdf s = some (c', e, cdf') ∧ 32768 ≤ c'.range ∧ c'.range ≤ 65535 ∧ 0 ≤ c'.value ∧
    c'.value ≤ 65535 ∧ FitsI32 c.zeroCount ∧ FitsI32 c'.zeroCount

/-- The counter has no bound: sessions reach any value. -/
theorem C05_counter_unbounded (n : Nat) : ∃ k c, ReachableIn k c ∧ (n : Int) ≤ c.zeroCount := by
  obtain ⟨c1, e, h1, h2⟩ := start_silent .new
  obtain ⟨k1, hk⟩ := ops_reachable _ 0 _ c1 e (.init .new) (by
    intro o ho
    simp only [List.mem_cons, List.not_mem_nil, or_false] at ho
    rcases ho with rfl | rfl | rfl
    · exact ⟨128, false, rfl, Or.inl rfl⟩
    · exact ⟨64, true, rfl, Or.inr rfl⟩
    · exact ⟨128, false, rfl, Or.inl rfl⟩) h1
  obtain ⟨ops, c2, g1, g2, -, g4⟩ := pending_unbounded c1 h2 n
  obtain ⟨k2, hk2⟩ := ops_reachable ops k1 c1 c2 [] hk g1 g2
  exact ⟨k2, c2, hk2, g4⟩

/-- **C05** is false for very long sessions. -/
theorem C05_negation : ¬ C05_full := by
  intro h
  obtain ⟨k, c, h1, h2⟩ := C05_counter_unbounded (2 ^ 31)
  obtain ⟨_, _, _, -, -, -, -, -, hf, -⟩ := h k c h1 (probCdf 128) (probCdf_valid (p := 128) (by decide)) 0 (by decide)
  have := hf.2
  push_cast at h2
  omega

/-! ## C139: bits come out -/

/-- **C139**, full claim: there is a number of calls after which a session, wherever it stands, has put out at least one more bit (calls
that code one bit of at least one sixth of a bit of information). -/
def C139_full : Prop := ∃ D, ∀ (c : BoolCoder) (a b : List Op) (c1 c2 : BoolCoder) (x y : Bits), Halves a → Halves b → D ≤ b.length →
  encodeOps (initEncoder c) [] a = some (c1, x, []) → encodeOps c1 [] b = some (c2, y, []) → y ≠ []

/-- **C139** is false from any coder: after three calls a session can go on for any number of calls without a bit coming out. -/
theorem C139_silent (c : BoolCoder) (n : Nat) : ∃ a b c1 c2 x, Halves a ∧ Halves b ∧ a.length = 3 ∧ b.length = n ∧
    encodeOps (initEncoder c) [] a = some (c1, x, []) ∧ encodeOps c1 [] b = some (c2, [], []) := by
  obtain ⟨c1, e, h1, h2⟩ := start_silent c
  obtain ⟨ops, c2, g1, g2, g3, -⟩ := run_silent c1 h2 n
  refine ⟨_, ops, c1, c2, e, ?_, g2, rfl, g1, h1, g3⟩
  intro o ho
  simp only [List.mem_cons, List.not_mem_nil, or_false] at ho
  rcases ho with rfl | rfl | rfl
  · exact ⟨128, false, rfl, Or.inl rfl⟩
  · exact ⟨64, true, rfl, Or.inr rfl⟩
  · exact ⟨128, false, rfl, Or.inl rfl⟩

/-- **C139**, what holds: bits that came out are final.  What the calls so far have put out begins the bits of every session that starts
with them. Missing: a bound on what is held back. -/
theorem C139_final_partial (bank : Bank) (hb : BankOk bank) (a b : List Op) (ho : OpsOk bank (a ++ b)) (c : BoolCoder) :
    ∃ c1 x bank1, encodeOps (initEncoder c) bank a = some (c1, x, bank1) ∧
      ∃ c2 bits bank2, encodeSession c bank (a ++ b) = some (c2, bits, bank2) ∧ x <+: bits := by
  obtain ⟨c2, bits, bank2, h, -⟩ := C08_mixed_round_trip bank hb (a ++ b) ho c
  have h' := h
  simp only [encodeSession, encodeOps_append, Option.bind_eq_bind, Option.bind_eq_some_iff] at h'
  obtain ⟨y, ⟨x, hx, z, hz, hy⟩, h2⟩ := h'
  refine ⟨x.1, x.2.1, x.2.2, hx, c2, bits, bank2, h, ?_⟩
  simp only [Option.some.injEq] at hy
  subst hy
  simp only [Option.some.injEq, Prod.mk.injEq] at h2
  rw [← h2.2.1, List.append_assoc]
  exact List.prefix_append _ _

/-- **C139** is false. -/
theorem C139_negation : ¬ C139_full := by
  rintro ⟨D, h⟩
  obtain ⟨a, b, c1, c2, x, h1, h2, -, h4, h5, h6⟩ := C139_silent .new D
  exact h .new a b c1 c2 x [] h1 h2 (by omega) h5 h6 rfl

end Av1
