import Verif.Lemmas.RangeCoder

/-!
# Range coder: decoder step and the simulation predicate
-/

namespace Av1

theorem popBits_append : ∀ (I rest : Bits) (acc : Nat),
    popBits I.length acc (I ++ rest) = some (acc * 2 ^ I.length + num I, rest)
  | [], rest, acc => by simp [popBits]
  | b :: I, rest, acc => by
    simp only [List.length_cons, List.cons_append, popBits]
    rw [popBits_append I rest, num_cons, Nat.shiftLeft_eq]
    congr 2; ring

theorem popBits_none : ∀ (n acc : Nat) (l : Bits), l.length < n → popBits n acc l = none
  | 0, _, _, h => by omega
  | n + 1, _, [], _ => rfl
  | n + 1, acc, b :: l, h => by
    simp only [popBits]
    exact popBits_none n _ l (by simpa using h)

theorem nat_xor_ones (k v d : Nat) (hd : d < 2 ^ k) :
    d ^^^ (2 ^ k * v + (2 ^ k - 1)) = 2 ^ k * v + (2 ^ k - (d + 1)) := by
  apply Nat.eq_of_testBit_eq
  intro i
  have hp : 0 < 2 ^ k := by positivity
  rw [Nat.testBit_xor, Nat.testBit_two_pow_mul_add _ (by omega), Nat.testBit_two_pow_mul_add _ (by omega)]
  by_cases hi : i < k
  · simp only [hi, if_true]
    rw [Nat.testBit_two_pow_sub_succ hd, Nat.testBit_two_pow_sub_one]
    simp [hi]
  · simp only [hi, if_false]
    rw [Nat.testBit_lt_two_pow (lt_of_lt_of_le hd (Nat.pow_le_pow_right (by decide) (by omega)))]
    simp

theorem xor32_nat (a b : Nat) (ha : a < 2 ^ 31) (hb : b < 2 ^ 31) : xor32 a b = ((a ^^^ b : Nat) : Int) := by
  unfold xor32
  have h : a ^^^ b < 2 ^ 31 := Nat.xor_lt_two_pow ha hb
  rw [BitVec.ofInt_natCast, BitVec.ofInt_natCast, ← BitVec.ofNat_xor, BitVec.toInt_eq_toNat_of_lt]
  · rw [BitVec.toNat_ofNat, Nat.mod_eq_of_lt (by omega)]
  · rw [BitVec.toNat_ofNat, Nat.mod_eq_of_lt (by omega)]; omega

theorem xor32_comm (a b : Int) : xor32 a b = xor32 b a := by
  unfold xor32; rw [BitVec.xor_comm]

/-- Shifting new bits into the decoder's (inverted) value register. -/
theorem xor32_shift (k d : Nat) (v : Int) (hd : d < 2 ^ k) (hv : 0 ≤ v) (hlt : (v + 1) * 2 ^ k ≤ 2 ^ 31) :
    xor32 d ((v + 1) * 2 ^ k - 1) = (v + 1) * 2 ^ k - 1 - d := by
  obtain ⟨u, rfl⟩ := Int.eq_ofNat_of_zero_le hv
  have hp : 0 < 2 ^ k := by positivity
  have hlt' : (u + 1) * 2 ^ k ≤ 2 ^ 31 := by exact_mod_cast hlt
  have e : ((Int.ofNat u : Int) + 1) * 2 ^ k - 1 = ((2 ^ k * u + (2 ^ k - 1) : Nat) : Int) := by
    have : ((2 ^ k - 1 : Nat) : Int) = 2 ^ k - 1 := by
      rw [Nat.cast_sub (by omega)]; push_cast; ring
    push_cast [this]; simp; ring
  have hm : (u + 1) * 2 ^ k = 2 ^ k * u + 2 ^ k := by ring
  change xor32 (d : Int) ((Int.ofNat u + 1) * 2 ^ k - 1) = (Int.ofNat u + 1) * 2 ^ k - 1 - (d : Int)
  rw [e, xor32_nat _ _ (by
      have h2 : 2 ^ k ≤ (u + 1) * 2 ^ k := Nat.le_mul_of_pos_left _ (by omega)
      omega) (by omega), nat_xor_ones k u d hd]
  omega

theorem log2_bounds {r : Nat} (h : r ≠ 0) (hlt : r < 65536) :
    r.log2 ≤ 15 ∧ 32768 ≤ r * 2 ^ (15 - r.log2) ∧ r * 2 ^ (15 - r.log2) < 65536 := by
  have h1 := Nat.log2_self_le h
  have h2 := @Nat.lt_log2_self r
  have h3 : r.log2 < 16 := (Nat.log2_lt h).2 (by omega)
  have e : 2 ^ r.log2 * 2 ^ (15 - r.log2) = 32768 := by
    rw [← pow_add, show r.log2 + (15 - r.log2) = 15 by omega]; norm_num
  have e2 : 2 ^ (r.log2 + 1) * 2 ^ (15 - r.log2) = 65536 := by
    rw [← pow_add, show r.log2 + 1 + (15 - r.log2) = 16 by omega]; norm_num
  have hp : 0 < 2 ^ (15 - r.log2) := by positivity
  refine ⟨by omega, ?_, ?_⟩
  · calc 32768 = 2 ^ r.log2 * 2 ^ (15 - r.log2) := e.symm
      _ ≤ _ := Nat.mul_le_mul_right _ h1
  · calc r * 2 ^ (15 - r.log2) < 2 ^ (r.log2 + 1) * 2 ^ (15 - r.log2) := Nat.mul_lt_mul_of_pos_right h2 hp
      _ = _ := e2

/-- The number of shifts that brings `r` into `[32768, 65536)` is unique. -/
theorem shift_unique {r a b : Nat} (ha1 : 32768 ≤ r * 2 ^ a) (ha2 : r * 2 ^ a < 65536) (hb1 : 32768 ≤ r * 2 ^ b)
    (hb2 : r * 2 ^ b < 65536) : a = b := by
  rcases Nat.lt_trichotomy a b with h | h | h
  · exfalso
    have : r * 2 ^ (a + 1) ≤ r * 2 ^ b := Nat.mul_le_mul_left _ (Nat.pow_le_pow_right (by decide) h)
    rw [pow_succ, ← Nat.mul_assoc] at this; omega
  · exact h
  · exfalso
    have : r * 2 ^ (b + 1) ≤ r * 2 ^ a := Nat.mul_le_mul_left _ (Nat.pow_le_pow_right (by decide) h)
    rw [pow_succ, ← Nat.mul_assoc] at this; omega

/-- One decoder step, given that the value lies in the interval of symbol `s`. -/
theorem decodeSymbol_spec {cdf : List Int} (hc : ValidCdf cdf) {d : BoolCoder} {s k : Nat} (hs : s < symbols cdf)
    (hR : 32768 ≤ d.range) (hR2 : d.range < 65536)
    (h1 : (ivl d.range d.range cdf s).2 ≤ d.value) (h2 : d.value < (ivl d.range d.range cdf s).1)
    (hk1 : 32768 ≤ ((ivl d.range d.range cdf s).1 - (ivl d.range d.range cdf s).2) * 2 ^ k)
    (hk2 : ((ivl d.range d.range cdf s).1 - (ivl d.range d.range cdf s).2) * 2 ^ k < 65536)
    (I rest : Bits) (hI : I.length = k) :
    ∃ cdf', adapt cdf s = some cdf' ∧
    decodeSymbol d (I ++ rest) cdf = some (s, { d with
      value := (d.value - (ivl d.range d.range cdf s).2 + 1) * 2 ^ k - 1 - num I
      range := ((ivl d.range d.range cdf s).1 - (ivl d.range d.range cdf s).2) * 2 ^ k
      maxBits := d.maxBits - k - k }, rest, cdf') := by
  obtain ⟨cdf', had, -, -⟩ := adapt_valid hc s
  refine ⟨cdf', had, ?_⟩
  obtain ⟨body, cnt, rfl, hinc, h0, h32, hlen⟩ := hc
  have hs' : s ≤ body.length := by simp [symbols] at hs; omega
  have hiv := ivl_spec hR cnt body 0 d.range s hinc hs' (fun c hc => bound_lt_range hR hc)
  have hdl := decLoop_spec hR cnt d.value body 0 d.range s 0 hinc hs' h1 h2
  generalize ivl d.range d.range (body ++ [32768, cnt]) s = iv at *
  obtain ⟨left, right⟩ := iv
  simp only at *
  unfold decodeSymbol
  rw [hdl]
  simp only [Option.bind_eq_bind, Option.bind_some, Nat.zero_add]
  obtain ⟨r, hr⟩ : ∃ r : Nat, left - right = r := ⟨(left - right).toNat, by omega⟩
  have hr0 : r ≠ 0 := by omega
  have hr1 : r < 65536 := by omega
  have hm : ((left - right) % 65536).toNat = r := by omega
  have hlog := log2_bounds hr0 hr1
  have hk : 15 - r.log2 = k := by
    rw [hr] at hk1 hk2
    exact shift_unique hlog.2.1 hlog.2.2 (by exact_mod_cast hk1) (by exact_mod_cast hk2)
  rw [hm, msb16_eq r hr1]
  simp only [Option.bind_some, hk]
  have hpop := popBits_append I rest 0
  rw [hI] at hpop
  rw [hpop]
  simp only [Option.bind_some, had, shl_def, Nat.zero_mul, Nat.zero_add]
  have hp : (0 : Int) < 2 ^ k := by positivity
  have hx := xor32_shift k (num I) (d.value - right) (by rw [← hI]; exact num_lt I) (by omega) (by
    have : (d.value - right + 1) * 2 ^ k ≤ (left - right) * 2 ^ k := by
      apply mul_le_mul_of_nonneg_right _ (le_of_lt hp); omega
    have e : (2 : Int) ^ 31 = 2147483648 := by norm_num
    omega)
  rw [hx]

/-! ## Simulation -/

/-- `Sim e d r`: from every encoder state inside a session, running the encoder action `e` succeeds, narrows the
interval, and running the decoder action `d` on any code inside the narrowed interval returns `r`, consumes exactly
the bits belonging to the shifts of `e`, and re-establishes the decoder relation. -/
def Sim {β : Type} (e : BoolCoder → Option (BoolCoder × Bits))
    (d : BoolCoder → Bits → Option (β × BoolCoder × Bits)) (r : β) : Prop :=
  ∀ (O : Bits) (c : BoolCoder) (n : Nat), EncInv O c n → c.value < 65536 → 32768 ≤ c.range →
    ∃ c' em k, e c = some (c', em) ∧ EncInv (O ++ em) c' (n + k) ∧ c'.value < 65536 ∧ 32768 ≤ c'.range ∧
      c'.bitCount = c.bitCount + em.length ∧ c'.maxBits = c.maxBits ∧ c'.leb128Bytes = c.leb128Bytes ∧
      low O c * 2 ^ k ≤ low (O ++ em) c' ∧
      low (O ++ em) c' + c'.range ≤ (low O c + c.range) * 2 ^ k ∧
      ∀ (X : Nat) (I rest : Bits) (dc : BoolCoder), I.length = k → num I = X % 2 ^ k →
        low (O ++ em) c' ≤ X → (X : Int) < low (O ++ em) c' + c'.range →
        dc.range = c.range → dc.value = c.range - 1 - (X / 2 ^ k - low O c) →
        ∃ dc', d dc (I ++ rest) = some (r, dc', rest) ∧ dc'.range = c'.range ∧
          dc'.value = c'.range - 1 - (X - low (O ++ em) c') ∧ dc'.maxBits = dc.maxBits - 2 * k

theorem renorm_frame : ∀ (fuel : Nat) (c c' : BoolCoder) (e : Bits), renorm fuel c = some (c', e) →
    c'.maxBits = c.maxBits ∧ c'.leb128Bytes = c.leb128Bytes
  | 0, c, c', e, h => by
    simp only [renorm] at h
    split at h
    · simp at h
    · simp at h; rw [← h.1]; exact ⟨rfl, rfl⟩
  | fuel + 1, c, c', e, h => by
    simp only [renorm] at h
    split at h
    · simp only [Option.bind_eq_bind, Option.bind_eq_some_iff, Option.some.injEq, Prod.mk.injEq] at h
      obtain ⟨⟨c1, e1⟩, h1, h2, -⟩ := h
      subst h2
      have := renorm_frame fuel _ _ _ h1
      rw [this.1, this.2]
      unfold renormStep
      simp only
      split
      · exact ⟨rfl, rfl⟩
      · split <;> exact ⟨rfl, rfl⟩
    · simp at h; rw [← h.1]; exact ⟨rfl, rfl⟩

theorem encCarry_frame (c : BoolCoder) : (encCarry c).1.maxBits = c.maxBits ∧
    (encCarry c).1.leb128Bytes = c.leb128Bytes := by
  unfold encCarry; split
  · split <;> exact ⟨rfl, rfl⟩
  · exact ⟨rfl, rfl⟩

/-- What one encoder step does. -/
theorem encodeSymbol_spec {cdf : List Int} (hc : ValidCdf cdf) {s : Nat} (hs : s < symbols cdf) {O : Bits}
    {c : BoolCoder} {n : Nat} (h : EncInv O c n) (hv : c.value < 65536) (hR : 32768 ≤ c.range) :
    ∃ c' em k cdf', encodeSymbol c cdf s = some (c', em, cdf') ∧ adapt cdf s = some cdf' ∧ k ≤ 15 ∧
      EncInv (O ++ em) c' (n + k) ∧ c'.value < 65536 ∧ 32768 ≤ c'.range ∧
      c'.bitCount = c.bitCount + em.length ∧ c'.maxBits = c.maxBits ∧ c'.leb128Bytes = c.leb128Bytes ∧
      low (O ++ em) c' = (low O c + (c.range - (ivl c.range c.range cdf s).1)) * 2 ^ k ∧
      c'.range = ((ivl c.range c.range cdf s).1 - (ivl c.range c.range cdf s).2) * 2 ^ k ∧
      0 ≤ (ivl c.range c.range cdf s).2 ∧
      (ivl c.range c.range cdf s).2 < (ivl c.range c.range cdf s).1 ∧
      (ivl c.range c.range cdf s).1 ≤ c.range := by
  obtain ⟨cdf', had, -, -⟩ := adapt_valid hc s
  have hslen : s < cdf.length := by unfold symbols at hs; omega
  have hei := encInterval_eq c cdf s hslen
  have hiv : 0 ≤ (ivl c.range c.range cdf s).2 ∧ (ivl c.range c.range cdf s).2 < (ivl c.range c.range cdf s).1 ∧
      (ivl c.range c.range cdf s).1 ≤ c.range := by
    obtain ⟨body, cnt, rfl, hinc, h0, h32, hlen⟩ := hc
    have hs' : s ≤ body.length := by simp [symbols] at hs; omega
    exact ivl_spec hR cnt body 0 c.range s hinc hs' (fun c hc => bound_lt_range hR hc)
  generalize ivl c.range c.range cdf s = iv at *
  obtain ⟨left, right⟩ := iv
  simp only at *
  set c1 : BoolCoder := { c with value := c.value + (c.range - left), range := left - right } with hc1
  have hv0 := h.v0
  have hvr := h.vr
  have hr1 := h.r1
  have hpend : pend c1 = pend c := rfl
  have hlow1 : low O c1 = low O c + (c.range - left) := by
    unfold low; rw [hpend]; simp only [hc1]; ring
  have h1 : EncInv O c1 n := by
    refine ⟨by simp only [hc1]; omega, by simp only [hc1]; omega, by simp only [hc1]; omega, by simp only [hc1]; omega,
      h.z0, ?_, ?_⟩
    · intro hf
      obtain ⟨a, b, c', d, e⟩ := h.fst hf
      exact ⟨a, b, c', d, by simp only [hc1]; omega⟩
    · intro hf
      obtain ⟨a, b⟩ := h.nfst hf
      refine ⟨a, ?_⟩
      rw [hlow1, hpend]
      simp only [hc1]
      omega
  obtain ⟨g1, g2, g3, g4, g5⟩ := encCarry_spec h1
  obtain ⟨c', e, k, f1, f2, f3, f4, f5, f6, f7, f8⟩ := renorm_spec 15 g1 g2 (by
    rw [g4]; simp only [hc1]; omega)
  have fr := renorm_frame _ _ _ _ f1
  have fc := encCarry_frame c1
  refine ⟨c', (encCarry c1).2 ++ e, k, cdf', ?_, had, f2, ?_, f4, f7, ?_, ?_, ?_, ?_, ?_, hiv.1, hiv.2.1, hiv.2.2⟩
  · unfold encodeSymbol encodeSymbolFuel
    rw [hei]
    simp only [Option.bind_eq_bind, Option.bind_some]
    rw [f1]
    simp [had]
  · rw [← List.append_assoc]; exact f3
  · rw [f8, g5, List.length_append]; simp only [hc1]; omega
  · rw [fr.1, fc.1]
  · rw [fr.2, fc.2]
  · rw [← List.append_assoc, f5, g3, hlow1]
  · rw [f6, g4]

/-- The encoder and decoder of one adaptive symbol simulate each other. -/
theorem sim_symbol {cdf : List Int} (hc : ValidCdf cdf) {s : Nat} (hs : s < symbols cdf) :
    ∃ cdf', adapt cdf s = some cdf' ∧ ValidCdf cdf' ∧ cdf'.length = cdf.length ∧
    Sim (fun c => (encodeSymbol c cdf s).bind (fun (c', e, t) => if t = cdf' then some (c', e) else none))
      (fun d i => (decodeSymbol d i cdf).bind (fun (s', d', rest, t) =>
        if t = cdf' then some (s', d', rest) else none)) s := by
  obtain ⟨cdf', had, hval, hlen⟩ := adapt_valid hc s
  refine ⟨cdf', had, hval, hlen, ?_⟩
  intro O c n h hv hR
  obtain ⟨c', em, k, t, a1, a2, a3, a4, a5, a6, a7, a7b, a7c, a8, a9, a10, a11, a12⟩ := encodeSymbol_spec hc hs h hv hR
  have ht : t = cdf' := by rw [had] at a2; exact (Option.some.inj a2).symm
  subst ht
  have hp : (0 : Int) < 2 ^ k := by positivity
  refine ⟨c', em, k, by simp [a1], a4, a5, a6, a7, a7b, a7c, ?_, ?_, ?_⟩
  · rw [a8]; apply mul_le_mul_of_nonneg_right _ (le_of_lt hp); omega
  · rw [a8, a9, ← add_mul]; apply mul_le_mul_of_nonneg_right _ (le_of_lt hp); omega
  · intro X I rest dc hI hnum hX1 hX2 hdr hdv
    rw [a8] at hX1 hX2
    rw [a9, ← add_mul] at hX2
    have hr1 := h.r1
    have hq1 : low O c + (c.range - (ivl c.range c.range cdf s).1) ≤ X / 2 ^ k := by
      rw [Int.le_ediv_iff_mul_le hp]; exact hX1
    have hq2 : (X : Int) / 2 ^ k < low O c + (c.range - (ivl c.range c.range cdf s).1) +
        ((ivl c.range c.range cdf s).1 - (ivl c.range c.range cdf s).2) := by
      rw [Int.ediv_lt_iff_lt_mul hp]; exact hX2
    have hk1 := a6
    have hk2 := a4.r1
    rw [a9] at hk1 hk2
    rw [← hdr] at hq1 hq2 hk1 hk2
    obtain ⟨t', b1, b2⟩ := decodeSymbol_spec hc (d := dc) hs (by omega) (by omega) (by rw [hdv, ← hdr]; omega)
      (by rw [hdv, ← hdr]; omega) hk1 hk2 I rest hI
    have ht' : t' = t := by rw [had] at b1; exact (Option.some.inj b1).symm
    subst ht'
    refine ⟨_, by simp only [b2, Option.bind_some, if_true]; rfl, ?_, ?_, ?_⟩
    · simp only [a9, hdr]
    · simp only
      rw [a8, a9, hdv, hdr]
      have hdm : (X : Int) = X / 2 ^ k * 2 ^ k + num I := by
        rw [hnum]
        push_cast
        have := Int.ediv_mul_add_emod (X : Int) (2 ^ k)
        omega
      generalize (X : Int) / 2 ^ k = q at *
      rw [hdm]; ring
    · simp only; omega

/-- Sequential composition of simulations. -/
theorem Sim.seq {β γ : Type} {e1 e2 : BoolCoder → Option (BoolCoder × Bits)}
    {d1 : BoolCoder → Bits → Option (β × BoolCoder × Bits)} {d2 : BoolCoder → Bits → Option (γ × BoolCoder × Bits)}
    {r1 : β} {r2 : γ} (h1 : Sim e1 d1 r1) (h2 : Sim e2 d2 r2) :
    Sim (fun c => (e1 c).bind fun (c1, em1) => (e2 c1).bind fun (c2, em2) => some (c2, em1 ++ em2))
      (fun d i => (d1 d i).bind fun (x, d', i') => (d2 d' i').bind fun (y, d'', i'') => some ((x, y), d'', i''))
      (r1, r2) := by
  intro O c n h hv hR
  obtain ⟨c1, em1, k1, a1, a2, a3, a4, a5, a5b, a5c, a6, a7, a8⟩ := h1 O c n h hv hR
  obtain ⟨c2, em2, k2, b1, b2, b3, b4, b5, b5b, b5c, b6, b7, b8⟩ := h2 (O ++ em1) c1 (n + k1) a2 a3 a4
  have hp1 : (0 : Int) < 2 ^ k1 := by positivity
  have hp2 : (0 : Int) < 2 ^ k2 := by positivity
  refine ⟨c2, em1 ++ em2, k1 + k2, by simp [a1, b1], ?_, b3, b4, ?_, ?_, ?_, ?_, ?_, ?_⟩
  · rw [← List.append_assoc, ← Nat.add_assoc]; exact b2
  · rw [b5, a5, List.length_append]; omega
  · rw [b5b, a5b]
  · rw [b5c, a5c]
  · rw [← List.append_assoc]
    calc low O c * 2 ^ (k1 + k2) = low O c * 2 ^ k1 * 2 ^ k2 := by rw [pow_add]; ring
      _ ≤ low (O ++ em1) c1 * 2 ^ k2 := mul_le_mul_of_nonneg_right a6 (le_of_lt hp2)
      _ ≤ _ := b6
  · rw [← List.append_assoc]
    calc _ ≤ (low (O ++ em1) c1 + c1.range) * 2 ^ k2 := b7
      _ ≤ (low O c + c.range) * 2 ^ k1 * 2 ^ k2 := mul_le_mul_of_nonneg_right a7 (le_of_lt hp2)
      _ = _ := by rw [pow_add]; ring
  · intro X I rest dc hI hnum hX1 hX2 hdr hdv
    rw [← List.append_assoc] at hX1 hX2
    -- split the input
    obtain ⟨I1, I2, rfl, hI1, hI2⟩ : ∃ I1 I2, I = I1 ++ I2 ∧ I1.length = k1 ∧ I2.length = k2 :=
      ⟨I.take k1, I.drop k1, by simp, by simp; omega, by simp; omega⟩
    rw [num_append, hI2] at hnum
    have hlt2 := num_lt I2
    rw [hI2] at hlt2
    have hn2 : num I2 = X % 2 ^ k2 := by
      have := congrArg (· % 2 ^ k2) hnum
      simp only [Nat.mul_add_mod', Nat.mod_eq_of_lt hlt2] at this
      rw [this, pow_add, Nat.mod_mod_of_dvd _ (Dvd.intro_left _ rfl)]
    have hn1 : num I1 = (X / 2 ^ k2) % 2 ^ k1 := by
      have := congrArg (· / 2 ^ k2) hnum
      rw [Nat.mul_comm, Nat.mul_add_div (by positivity), Nat.div_eq_of_lt hlt2, Nat.add_zero] at this
      rw [this, show k1 + k2 = k2 + k1 by omega, pow_add, Nat.mod_mul_right_div_self]
    -- first action sees X / 2^k2
    have hy1 : low (O ++ em1) c1 ≤ ((X / 2 ^ k2 : Nat) : Int) := by
      push_cast
      rw [Int.le_ediv_iff_mul_le hp2]
      exact le_trans b6 hX1
    have hy2 : ((X / 2 ^ k2 : Nat) : Int) < low (O ++ em1) c1 + c1.range := by
      push_cast
      rw [Int.ediv_lt_iff_lt_mul hp2]
      exact lt_of_lt_of_le hX2 b7
    obtain ⟨dc1, p1, p2, p3, p4⟩ := a8 (X / 2 ^ k2) I1 (I2 ++ rest) dc hI1 hn1 hy1 hy2 hdr (by
      rw [hdv]
      push_cast
      rw [Int.ediv_ediv_of_nonneg (le_of_lt hp2), show k1 + k2 = k2 + k1 by omega, pow_add])
    obtain ⟨dc2, q1, q2, q3, q4⟩ := b8 X I2 rest dc1 hI2 hn2 hX1 hX2 p2 (by rw [p3]; push_cast; rfl)
    refine ⟨dc2, ?_, q2, ?_, ?_⟩
    · simp only [List.append_assoc, p1, Option.bind_some, q1]
    · rw [q3, List.append_assoc]
    · rw [q4, p4]; push_cast; ring

/-- Doing nothing simulates doing nothing. -/
theorem Sim.skip : Sim (fun c => some (c, [])) (fun d i => some ((), d, i)) () := by
  intro O c n h hv hR
  refine ⟨c, [], 0, rfl, by simpa using h, hv, hR, by simp, rfl, rfl, by simp, by simp, ?_⟩
  intro X I rest dc hI hnum hX1 hX2 hdr hdv
  have : I = [] := by simpa using hI
  subst this
  refine ⟨dc, rfl, hdr, ?_, by simp⟩
  rw [hdv]; simp

/-- Change of presentation. -/
theorem Sim.congr {β γ : Type} {e e' : BoolCoder → Option (BoolCoder × Bits)}
    {d : BoolCoder → Bits → Option (β × BoolCoder × Bits)} {d' : BoolCoder → Bits → Option (γ × BoolCoder × Bits)}
    {r : β} {r' : γ} (h : Sim e d r) (he : ∀ c c' em, e c = some (c', em) → e' c = some (c', em))
    (hd : ∀ dc dc' i i', d dc i = some (r, dc', i') → d' dc i = some (r', dc', i')) : Sim e' d' r' := by
  intro O c n hI hv hR
  obtain ⟨c', em, k, a1, a2, a3, a4, a5, a5b, a5c, a6, a7, a8⟩ := h O c n hI hv hR
  refine ⟨c', em, k, he _ _ _ a1, a2, a3, a4, a5, a5b, a5c, a6, a7, ?_⟩
  intro X I rest dc h1 h2 h3 h4 h5 h6
  obtain ⟨dc', b1, b2, b3, b4⟩ := a8 X I rest dc h1 h2 h3 h4 h5 h6
  exact ⟨dc', hd _ _ _ _ b1, b2, b3, b4⟩

end Av1
