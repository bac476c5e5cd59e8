import Verif.Spec.Av1Symbols
import Verif.Lemmas.Session
import Verif.Props.DefaultTables
import Verif.Lemmas.Reach
import Mathlib.Data.List.GetD

/-!
# C130: does an AV1 decoder read the symbols?

C01 – C10 say that the decoder of this program reads back what its encoder wrote.  `Spec/Av1Symbols.lean` is the symbol
decoder of AV1.  It differs in the place where an interval is cut (`EC_PROB_SHIFT`, `EC_MIN_PROB`: declared in
constants.rs 448–449, used nowhere) and in how tables adapt, so the output is not AV1.
-/

namespace Av1

/-- What an AV1 encoder must achieve: the AV1 decoder reads every literal and every run of symbols as it was given. -/
def C130_full : Prop :=
  (∀ n v c c' bits bank, n ≤ 64 → v < 2 ^ n → encodeSession c [] [.lit n v] = some (c', bits, bank) →
    (Sym.literal n 0 (Sym.start bits)).map Prod.fst = some v) ∧
  (∀ cdf l c c' bits bank, ValidCdf cdf → (∀ s ∈ l, s < symbols cdf) →
    encodeSession c [cdf] (l.map fun s => Op.sym 0 s) = some (c', bits, bank) →
    Sym.symbols l.length (Sym.start bits) cdf = some l)

/-! ## A literal on its own is written plainly -/

theorem literal_low : ∀ (n v : Nat) (O : Bits) (c : BoolCoder) (m : Nat), n ≤ 64 → EncInv O c m → c.value < 65536 →
    c.range = 32768 → ∃ c' em, encodeLiteral c v n = some (c', em) ∧ EncInv (O ++ em) c' (m + n) ∧ c'.value < 65536 ∧
      c'.range = 32768 ∧ low (O ++ em) c' = low O c * 2 ^ n + (v % 2 ^ n : Nat) * 32768
  | 0, v, O, c, m, _, h, hv, hR => by
    exact ⟨c, [], rfl, by simpa using h, hv, hR, by simp [Nat.mod_one]⟩
  | n + 1, v, O, c, m, hn, h, hv, hR => by
    have hb : (v >>> n) &&& 1 = (v.testBit n).toNat := by
      rw [Nat.testBit, Nat.and_comm]
      have := Nat.mod_two_eq_zero_or_one (v >>> n)
      rw [Nat.one_and_eq_mod_two]
      rcases this with h | h <;> simp [h]
    obtain ⟨c1, e1, k, t, a1, -, -, a4, a5, a6, -, -, -, a8, a9, -⟩ :=
      encodeSymbol_spec (probCdf_valid (p := 128) (by decide)) (s := (v.testBit n).toNat)
        (by rw [probCdf_symbols]; cases v.testBit n <;> simp) h hv (by omega)
    have hiv : ivl c.range c.range (probCdf ((128 : Nat) : Int)) (v.testBit n).toNat =
        if v.testBit n then (16384, 0) else (32768, 16384) := by
      rw [hR]; cases v.testBit n <;> decide
    rw [hiv] at a8 a9
    rw [hR] at a8
    have hr := a4.r1
    have hk : k = 1 ∧ c1.range = 32768 := by
      have a9' : c1.range = 16384 * 2 ^ k := by
        rw [a9]; cases v.testBit n <;> simp
      match k, a9' with
      | 0, e => omega
      | 1, e => exact ⟨rfl, by omega⟩
      | k + 2, e =>
        have : (1 : Int) ≤ 2 ^ k := one_le_pow₀ (by norm_num)
        rw [pow_add] at e
        omega
    obtain ⟨rfl, hr1⟩ := hk
    obtain ⟨c2, e2, b1, b2, b3, b4, b5⟩ := literal_low n v (O ++ e1) c1 (m + 1) (by omega) a4 a5 hr1
    refine ⟨c2, e1 ++ e2, ?_, ?_, b3, b4, ?_⟩
    · have hn' : ¬ n ≥ 64 := by omega
      push_cast at a1
      simp [encodeLiteral, hn', hb, encodeSymbolp, a1, b1]
    · rw [← List.append_assoc]
      have : m + (n + 1) = m + 1 + n := by omega
      rw [this]; exact b2
    · rw [← List.append_assoc, b5, a8]
      have h1 := num_toBits (n + 1) v
      rw [toBits, num_cons, num_toBits, length_toBits] at h1
      rw [← h1]
      cases v.testBit n <;> simp [pow_succ] <;> ring

/-- **C130**: a session of one literal writes the literal's bits and then only zeros. -/
theorem C130_literal_plain {n v : Nat} (hn : n ≤ 64) (hv : v < 2 ^ n) (c : BoolCoder) :
    ∃ c' m, encodeSession c [] [.lit n v] = some (c', toBits n v ++ List.replicate (15 + m) false, []) ∧ m ≤ 8 := by
  obtain ⟨c1, em, a1, a2, a3, a4, a5⟩ := literal_low n v [] (initEncoder c) 0 hn (initEncoder_inv c)
    (by simp [initEncoder]) rfl
  rw [List.nil_append, Nat.zero_add] at *
  obtain ⟨B, extra, b1, b2, b3, b4, b5⟩ := exit_spec a2 a3 (by omega)
  have hB : B = toBits n v ++ List.replicate 15 false := by
    apply num_inj
    · simp [b2]
    · have : (num B : Int) = (v * 32768 : Nat) := by
        rw [b3, a5, Nat.mod_eq_of_lt hv]
        have : low [] (initEncoder c) = 0 := by simp [low, pend, initEncoder]
        rw [this]; push_cast; ring
      have h2 : num B = v * 32768 := by exact_mod_cast this
      rw [h2, num_append, num_toBits, num_replicate_false, Nat.mod_eq_of_lt hv]
      simp
  have hE : extra = List.replicate extra.length false := by
    rw [List.eq_replicate_iff]; exact ⟨rfl, b5⟩
  refine ⟨(exitEncoder c1).1, extra.length, ?_, b4⟩
  have : em ++ (exitEncoder c1).2 = toBits n v ++ List.replicate (15 + extra.length) false := by
    rw [b1, hB, List.append_assoc, ← List.replicate_append_replicate, ← hE]
  rw [← this]
  simp [encodeSession, encodeOps, encodeOp, a1]

/-! ## What AV1 reads there -/

theorem sym_read {n : Nat} {l : Bits} (h : n ≤ l.length) : Sym.read n l = (num (l.take n), l.drop n) := by
  simp [Sym.read, Nat.sub_eq_zero_of_le h]

theorem sym_literal_lt : ∀ (n x : Nat) (st : Sym.St) (y : Nat) (st' : Sym.St),
    Sym.literal n x st = some (y, st') → y < (x + 1) * 2 ^ n
  | 0, x, st, y, st', h => by simp [Sym.literal] at h; omega
  | n + 1, x, st, y, st', h => by
    simp only [Sym.literal, Option.bind_eq_bind, Option.bind_eq_some_iff] at h
    obtain ⟨⟨b, st1⟩, h1, h2⟩ := h
    have := sym_literal_lt n _ _ _ _ h2
    simp only at this
    have hb : b < 2 := by
      simp only [Sym.bool, Sym.symbol, Option.bind_eq_bind, Option.bind_eq_some_iff] at h1
      obtain ⟨⟨s, p, q⟩, g1, g2⟩ := h1
      simp only [Option.some.injEq, Prod.mk.injEq] at g2
      obtain ⟨rfl, -⟩ := g2
      simp only [List.dropLast, Sym.search] at g1
      split at g1
      · split at g1
        · simp at g1
        · simp at g1; omega
      · simp at g1; omega
    have h3 : (2 * x + b + 1) * 2 ^ n ≤ (2 * x + 2) * 2 ^ n := Nat.mul_le_mul_right _ (by omega)
    rw [pow_succ]
    have : (2 * x + 2) * 2 ^ n = (x + 1) * (2 ^ n * 2) := by ring
    omega

/-- The first two bits that AV1 reads from a stream. -/
theorem sym_two {l : Bits} (h17 : 17 ≤ l.length) (hlo : 32768 ≤ num (l.take 17)) (hhi : num (l.take 17) < 32876) (n : Nat) :
    ∃ st, Sym.literal (n + 2) 0 (Sym.start l) = Sym.literal n 0 st := by
  obtain ⟨a, b, ha, hb, hl⟩ : ∃ a b, a.length = 15 ∧ b.length = 2 ∧ l.take 17 = a ++ b :=
    ⟨l.take 15, (l.drop 15).take 2, by simp; omega, by simp; omega, by
      rw [show (17 : Nat) = 15 + 2 from rfl, List.take_add]⟩
  have hsplit : l = a ++ (b ++ l.drop 17) := by
    rw [← List.append_assoc, ← hl, List.take_append_drop]
  rw [hl, num_append, hb] at hlo hhi
  have hb4 := num_lt b
  rw [hb] at hb4
  generalize l.drop 17 = r at hsplit
  subst hsplit
  have ha' : 8192 ≤ num a ∧ num a ≤ 8219 := by omega
  have s1 : Sym.start (a ++ (b ++ r)) = { value := 32767 - num a, range := 32768, input := b ++ r } := by
    unfold Sym.start
    rw [sym_read (by simp [ha])]
    have t1 : (a ++ (b ++ r)).take 15 = a := by rw [← ha, List.take_left]
    have t2 : (a ++ (b ++ r)).drop 15 = b ++ r := by rw [← ha, List.drop_left]
    rw [t1, t2]
    rfl
  have c1 : Sym.cut 32768 (2 ^ 14) 1 = 16388 := by decide
  have s2 : Sym.bool { value := 32767 - num a, range := 32768, input := b ++ r } =
      some (0, { value := 65519 - (num a * 4 + num b), range := 65520, input := r }) := by
    have hlt : ¬ 32767 - num a < 16388 := by omega
    simp only [Sym.bool, Sym.symbol, List.dropLast, Sym.search, List.length_singleton, c1, hlt, if_false,
      Option.bind_eq_bind, Option.bind_some]
    have hlog : Nat.log2 (32768 - 16388) = 13 := by decide
    rw [hlog, sym_read (by simp [hb])]
    have t1 : (b ++ r).take (15 - 13) = b := by rw [show 15 - 13 = b.length from hb.symm, List.take_left]
    have t2 : (b ++ r).drop (15 - 13) = r := by rw [show 15 - 13 = b.length from hb.symm, List.drop_left]
    rw [t1, t2]
    have e1 : (32767 - num a - 16388 + 1) * 2 ^ (15 - 13) - 1 - num b = 65519 - (num a * 4 + num b) := by
      norm_num; omega
    rw [e1]
    rfl
  have c2 : Sym.cut 65520 (2 ^ 14) 1 = 32644 := by decide
  have s3 : ∃ st, Sym.bool { value := 65519 - (num a * 4 + num b), range := 65520, input := r } = some (0, st) := by
    have hlt : ¬ 65519 - (num a * 4 + num b) < 32644 := by omega
    simp only [Sym.bool, Sym.symbol, List.dropLast, Sym.search, List.length_singleton, c2, hlt, if_false,
      Option.bind_eq_bind, Option.bind_some]
    exact ⟨_, rfl⟩
  obtain ⟨st, s3⟩ := s3
  refine ⟨st, ?_⟩
  rw [s1]
  simp [Sym.literal, s2, s3]

/-- **C130**: in every width from 2 to 64 bits there are literals (those that begin 01 and go on with few and late ones) that
AV1 reads as something smaller, because the second bit is read as 0. -/
theorem C130_literal_wrong {n v : Nat} (h2 : 2 ≤ n) (hn : n ≤ 64) (hlo : 2 ^ (n - 2) ≤ v)
    (hhi : v * 2 ^ 15 / 2 ^ (n - 2) < 32876) {c c' : BoolCoder} {bits : Bits} {bank : Bank}
    (h : encodeSession c [] [.lit n v] = some (c', bits, bank)) {x : Nat} {st : Sym.St}
    (hx : Sym.literal n 0 (Sym.start bits) = some (x, st)) : x < 2 ^ (n - 2) := by
  obtain ⟨m, rfl⟩ : ∃ m, n = m + 2 := ⟨n - 2, by omega⟩
  simp only [Nat.add_sub_cancel] at *
  have hp : 0 < 2 ^ m := by positivity
  have hv : v < 2 ^ (m + 2) := by
    rw [Nat.div_lt_iff_lt_mul hp] at hhi
    rw [pow_add]; omega
  obtain ⟨c1, k, g, -⟩ := C130_literal_plain hn hv c
  rw [h] at g
  simp only [Option.some.injEq, Prod.mk.injEq] at g
  obtain ⟨-, rfl, -⟩ := g
  have hnum : num ((toBits (m + 2) v ++ List.replicate (15 + k) false).take 17) = v * 2 ^ 15 / 2 ^ m := by
    have e : toBits (m + 2) v ++ List.replicate (15 + k) false =
        (toBits (m + 2) v ++ List.replicate 15 false) ++ List.replicate k false := by
      rw [← List.replicate_append_replicate, List.append_assoc]
    rw [e, List.take_append_of_le_length (by simp)]
    have hT := num_append ((toBits (m + 2) v ++ List.replicate 15 false).take 17)
      ((toBits (m + 2) v ++ List.replicate 15 false).drop 17)
    rw [List.take_append_drop, num_append, num_toBits, num_replicate_false, Nat.mod_eq_of_lt hv] at hT
    have hl := num_lt ((toBits (m + 2) v ++ List.replicate 15 false).drop 17)
    have hd : ((toBits (m + 2) v ++ List.replicate 15 false).drop 17).length = m := by simp
    rw [hd] at hT hl
    simp only [List.length_replicate, Nat.add_zero] at hT
    rw [hT, Nat.add_comm (_ * 2 ^ m), Nat.add_mul_div_right _ _ hp, Nat.div_eq_of_lt hl, Nat.zero_add]
  obtain ⟨st1, hst⟩ := sym_two (l := toBits (m + 2) v ++ List.replicate (15 + k) false) (by simp; omega)
    (by rw [hnum, Nat.le_div_iff_mul_le hp]; omega) (by rw [hnum]; exact hhi) m
  rw [hst] at hx
  have := sym_literal_lt _ _ _ _ _ hx
  simpa using this

theorem C130_negation : ¬ C130_full := by
  intro h
  obtain ⟨c1, m, g, -⟩ := C130_literal_plain (n := 8) (v := 64) (by decide) (by decide) BoolCoder.new
  have h1 := h.1 8 64 _ _ _ _ (by decide) (by decide) g
  simp only [Option.map_eq_some_iff] at h1
  obtain ⟨⟨x, st⟩, h2, h3⟩ := h1
  have := C130_literal_wrong (n := 8) (v := 64) (by decide) (by decide) (by decide) (by decide) g h2
  simp only at h3
  omega

/-- For every width there is such a literal: a one in the second place. -/
theorem C130_every_width {n : Nat} (h2 : 2 ≤ n) (hn : n ≤ 64) (c : BoolCoder) :
    ∃ v c' bits bank, v < 2 ^ n ∧ encodeSession c [] [.lit n v] = some (c', bits, bank) ∧
      (Sym.literal n 0 (Sym.start bits)).map Prod.fst ≠ some v := by
  have hv : 2 ^ (n - 2) < 2 ^ n := Nat.pow_lt_pow_right (by decide) (by omega)
  obtain ⟨c1, m, g, -⟩ := C130_literal_plain hn hv c
  refine ⟨2 ^ (n - 2), _, _, _, hv, g, ?_⟩
  intro h
  simp only [Option.map_eq_some_iff] at h
  obtain ⟨⟨x, st⟩, h3, h4⟩ := h
  have := C130_literal_wrong h2 hn (le_refl _)
    (by rw [Nat.mul_comm, Nat.mul_div_cancel _ (by positivity)]; decide) g h3
  simp only at h4
  omega

/-- The literal 64 in eight bits: AV1 reads 63.  With tables it is the same: one unlikely symbol is read as the likely one. -/
example : ((encodeSession BoolCoder.new [] [.lit 8 64]).bind fun (_, bits, _) =>
    (Sym.literal 8 0 (Sym.start bits)).map Prod.fst) = some 63 := by decide +kernel
example : ((encodeSession BoolCoder.new [[30000, 32768, 0]] [.sym 0 1]).bind fun (_, bits, _) =>
    Sym.symbols 1 (Sym.start bits) [30000, 32768, 0]) = some [0] := by decide +kernel

/-! ## One symbol: exactly which are read -/

/-- The share of the interval left to symbol `s` and those after it, in units of 1/32768. -/
def shareFrom (cdf : List Int) : Nat → Int
  | 0 => 32768
  | s + 1 => 32768 - cdf.getD s 0

/-- AV1 finds the first symbol whose cut is not above the value. -/
theorem sym_search_iff (st : Sym.St) : ∀ (l : List Int) (i prev s : Nat),
    (∃ p q, Sym.search st i prev l = some (i + s, p, q)) ↔
      s < l.length ∧ (∀ j < s, st.value < Sym.cut st.range (l.getD j 0) (l.length - 1 - j)) ∧
        Sym.cut st.range (l.getD s 0) (l.length - 1 - s) ≤ st.value
  | [], i, prev, s => by simp [Sym.search]
  | c :: l, i, prev, 0 => by
    simp only [Sym.search]
    split
    · rename_i hlt
      constructor
      · rintro ⟨p, q, h⟩
        exfalso
        have : ∀ (l : List Int) (i prev : Nat) (r : Nat × Nat × Nat), Sym.search st i prev l = some r → i ≤ r.1 := by
          intro l
          induction l with
          | nil => intro i prev r h; simp [Sym.search] at h
          | cons c l ih =>
            intro i prev r h
            simp only [Sym.search] at h
            split at h
            · have := ih _ _ _ h; omega
            · simp at h; subst h; exact le_refl _
        have := this _ _ _ _ h
        simp only at this
        omega
      · intro h
        have := h.2.2
        simp at this
        omega
    · rename_i hlt
      constructor
      · intro _
        refine ⟨by simp, by omega, by simpa using hlt⟩
      · intro _; exact ⟨_, _, rfl⟩
  | c :: l, i, prev, s + 1 => by
    simp only [Sym.search]
    split
    · rename_i hlt
      have ih := sym_search_iff st l (i + 1) (Sym.cut st.range c l.length) s
      rw [show i + 1 + s = i + (s + 1) by omega] at ih
      rw [ih]
      simp only [List.length_cons, Nat.add_lt_add_iff_right, List.getD_cons_succ]
      have e : ∀ j, l.length + 1 - 1 - (j + 1) = l.length - 1 - j := fun j => by omega
      rw [e]
      constructor
      · rintro ⟨a, b, d⟩
        refine ⟨a, ?_, d⟩
        rintro (_ | j) hj
        · simpa using hlt
        · rw [List.getD_cons_succ, e]; exact b j (by omega)
      · rintro ⟨a, b, d⟩
        refine ⟨a, fun j hj => ?_, d⟩
        have := b (j + 1) (by omega)
        rwa [List.getD_cons_succ, e] at this
    · rename_i hlt
      constructor
      · rintro ⟨p, q, h⟩
        simp at h
      · rintro ⟨-, b, -⟩
        have := b 0 (by omega)
        simp at this
        omega

theorem inc_getD_mono : ∀ (body : List Int) (p M : Int), Inc p body M → ∀ i j, i ≤ j → j < body.length →
    body.getD i 0 ≤ body.getD j 0
  | [], _, _, _, i, j, _, hj => by simp at hj
  | c :: l, p, M, h, i, j, hij, hj => by
    simp only [List.length_cons] at hj
    match i, j, hij, hj with
    | 0, 0, _, _ => exact le_refl _
    | 0, j + 1, _, hj =>
      have hm : (l.getD j 0) ∈ l := by
        rw [List.getD_eq_getElem _ _ (by omega)]; exact List.getElem_mem _
      have := (inc_mem l c M _ h.2 hm).1
      simp only [List.getD_cons_zero, List.getD_cons_succ]
      omega
    | i + 1, j + 1, hij, hj =>
      simp only [List.getD_cons_succ]
      exact inc_getD_mono l c M h.2 i j (by omega) (by omega)

theorem cut_full (c : Int) (b : Nat) (hc : c ≤ 32768) : (Sym.cut 32768 c b : Int) = (32768 - c) / 64 * 64 + 4 * b := by
  obtain ⟨f, hf⟩ : ∃ f : Nat, 32768 - c = f := ⟨(32768 - c).toNat, by omega⟩
  have e2 : ((2 : Int) ^ 15 - c).toNat = f := by norm_num; omega
  simp only [Sym.cut, Sym.probShift, Sym.minProb, e2, hf]
  norm_num
  omega

/-- What a session of one symbol puts in front: the start of the symbol's interval. -/
theorem one_symbol_value {cdf : List Int} (hc : ValidCdf cdf) {s : Nat} (hs : s < symbols cdf) {c c' : BoolCoder} {bits : Bits}
    {bank : Bank} (h : encodeSession c [cdf] [.sym 0 s] = some (c', bits, bank)) :
    ((Sym.start bits).value : Int) = shareFrom cdf s - 1 ∧ (Sym.start bits).range = 32768 := by
  obtain ⟨c1, em, k, t, a1, -, -, a4, a5, a6, -, -, -, a8, a9, g1, g2, g3⟩ :=
    encodeSymbol_spec hc hs (initEncoder_inv c) (by simp [initEncoder]) (by simp [initEncoder])
  rw [List.nil_append] at a4 a8
  obtain ⟨B, extra, b1, b2, b3, b4, b5⟩ := exit_spec a4 a5 a6
  have hb : bits = B ++ extra := by
    rw [← b1]
    simp [encodeSession, encodeOps, encodeOp, a1] at h
    exact h.2.1.symm
  have hleft : (ivl (initEncoder c).range (initEncoder c).range cdf s).1 = shareFrom cdf s := by
    have hr : (initEncoder c).range = 32768 := rfl
    rw [hr, ivl_get _ _ _ _ (by unfold symbols at hs; omega)]
    cases s with
    | zero => simp [shareFrom]
    | succ s =>
      have hl : s < cdf.length := by unfold symbols at hs; omega
      simp only [shareFrom, Nat.add_sub_cancel]
      rw [List.getD_eq_getElem _ _ hl]
      simp [bound_def]
  rw [hleft] at a8 g2 g3
  have hlow : low [] (initEncoder c) = 0 := by simp [low, pend, initEncoder]
  have hr : (initEncoder c).range = 32768 := rfl
  rw [hlow, hr, zero_add] at a8
  rw [hr] at g3
  have h15 : num (bits.take 15) = (32768 - shareFrom cdf s).toNat := by
    rw [hb, List.take_append_of_le_length (by omega)]
    have hT := num_append (B.take 15) (B.drop 15)
    have hl := num_lt (B.drop 15)
    have hd : (B.drop 15).length = k := by simp; omega
    rw [List.take_append_drop] at hT
    rw [hd] at hT hl
    obtain ⟨f, hf⟩ : ∃ f : Nat, 32768 - shareFrom cdf s = f := ⟨(32768 - shareFrom cdf s).toNat, by omega⟩
    rw [hf] at a8 ⊢
    have hB : num B = f * 2 ^ k := by
      have : (num B : Int) = (f * 2 ^ k : Nat) := by rw [b3, a8]; push_cast; rfl
      exact_mod_cast this
    have hp : 0 < 2 ^ k := by positivity
    have := congrArg (· / 2 ^ k) (hT.symm.trans hB)
    rw [Nat.add_comm, Nat.add_mul_div_right _ _ hp, Nat.div_eq_of_lt hl, Nat.zero_add, Nat.mul_div_cancel _ hp] at this
    simp [this]
  unfold Sym.start
  rw [sym_read (by rw [hb]; simp; omega)]
  refine ⟨?_, rfl⟩
  simp only [h15]
  omega

/-- **C130**: exactly which single symbols AV1 reads: the share from the symbol on must not lie too far above a multiple of 64,
and the interval must reach below the cut. -/
theorem C130_symbol_iff {cdf : List Int} (hc : ValidCdf cdf) {s : Nat} (hs : s < symbols cdf) {c c' : BoolCoder} {bits : Bits}
    {bank : Bank} (h : encodeSession c [cdf] [.sym 0 s] = some (c', bits, bank)) :
    Sym.symbols 1 (Sym.start bits) cdf = some [s] ↔
      shareFrom cdf s % 64 ≤ 4 * ((symbols cdf : Int) - s) ∧
      shareFrom cdf (s + 1) / 64 * 64 + 4 * ((symbols cdf : Int) - s - 1) < shareFrom cdf s := by
  obtain ⟨hv, hr⟩ := one_symbol_value hc hs h
  generalize Sym.start bits = st at *
  have h1 : Sym.symbols 1 st cdf = some [s] ↔ ∃ p q, Sym.search st 0 st.range cdf.dropLast = some (0 + s, p, q) := by
    simp only [Sym.symbols, Sym.symbol, Option.bind_eq_bind, Nat.zero_add]
    cases hq : Sym.search st 0 st.range cdf.dropLast with
    | none => simp
    | some r => obtain ⟨a, b, d⟩ := r; simp
  rw [h1, sym_search_iff]
  obtain ⟨body, cnt, rfl, hinc, -⟩ := hc
  have hd : (body ++ [32768, cnt]).dropLast = body ++ [32768] := by
    rw [show body ++ [32768, cnt] = (body ++ [32768]) ++ [cnt] by simp, List.dropLast_concat]
  have hsy : symbols (body ++ [32768, cnt]) = body.length + 1 := by simp [symbols]
  rw [hsy] at hs
  rw [hd, hsy, hr]
  have hlen : (body ++ [(32768 : Int)]).length = body.length + 1 := by simp
  rw [hlen]
  have hg : ∀ j, j < body.length + 1 → (body ++ [(32768 : Int), cnt]).getD j 0 = (body ++ [(32768 : Int)]).getD j 0 := by
    intro j hj
    rw [show body ++ [32768, cnt] = (body ++ [32768]) ++ [cnt] by simp, List.getD_append _ _ _ _ (by simpa using hj)]
  have hle : ∀ j, j < body.length + 1 → (body ++ [(32768 : Int)]).getD j 0 ≤ 32768 := by
    intro j hj
    by_cases hj' : j < body.length
    · rw [List.getD_append _ _ _ _ hj', List.getD_eq_getElem _ _ hj']
      exact le_of_lt (inc_mem _ _ _ _ hinc (List.getElem_mem _)).2
    · obtain rfl : j = body.length := by omega
      simp
  have hmono : ∀ i j, i ≤ j → j < body.length + 1 → (body ++ [(32768 : Int)]).getD i 0 ≤ (body ++ [(32768 : Int)]).getD j 0 := by
    intro i j hij hj
    by_cases hj' : j < body.length
    · rw [List.getD_append _ _ _ _ hj', List.getD_append _ _ _ _ (by omega)]
      exact inc_getD_mono _ _ _ hinc i j hij hj'
    · obtain rfl : j = body.length := by omega
      have : (body ++ [(32768 : Int)]).getD body.length 0 = 32768 := by simp
      rw [this]; exact hle i (by omega)
  have e1 : shareFrom (body ++ [32768, cnt]) (s + 1) = 32768 - (body ++ [(32768 : Int)]).getD s 0 := by
    simp only [shareFrom, hg s hs]
  rw [e1]
  have ec := cut_full ((body ++ [(32768 : Int)]).getD s 0) (body.length + 1 - 1 - s) (hle s hs)
  have hsub : ((body.length + 1 - 1 - s : Nat) : Int) = (body.length : Int) - s := by omega
  rw [hsub] at ec
  have h2 : (∀ j < s, st.value < Sym.cut 32768 ((body ++ [(32768 : Int)]).getD j 0) (body.length + 1 - 1 - j)) ↔
      shareFrom (body ++ [32768, cnt]) s % 64 ≤ 4 * ((body.length + 1 : Nat) - (s : Int)) := by
    cases s with
    | zero => simp [shareFrom]; omega
    | succ s =>
      have e3 : shareFrom (body ++ [32768, cnt]) (s + 1) = 32768 - (body ++ [(32768 : Int)]).getD s 0 := by
        simp only [shareFrom, hg s (by omega)]
      rw [e3] at hv ⊢
      have ed := cut_full ((body ++ [(32768 : Int)]).getD s 0) (body.length + 1 - 1 - s) (hle s (by omega))
      constructor
      · intro hj
        have := hj s (by omega)
        generalize (body ++ [(32768 : Int)]).getD s 0 = x at *
        omega
      · intro hx j hj
        have ej := cut_full ((body ++ [(32768 : Int)]).getD j 0) (body.length + 1 - 1 - j) (hle j (by omega))
        have hm := hmono j s (by omega) (by omega)
        generalize (body ++ [(32768 : Int)]).getD s 0 = x at *
        generalize (body ++ [(32768 : Int)]).getD j 0 = y at *
        omega
  rw [h2]
  constructor
  · rintro ⟨-, a, b⟩
    refine ⟨a, ?_⟩
    push_cast
    omega
  · rintro ⟨a, b⟩
    push_cast at a b
    exact ⟨hs, by push_cast; exact a, by omega⟩

/-- Symbol 1 of this table is read as 0, symbol 0 as itself; in the second table a narrow symbol is read as the next one. -/
example : ¬ (shareFrom [30000, 32768, 0] 1 % 64 ≤ 4 * ((symbols [30000, 32768, 0] : Int) - 1)) ∧
    shareFrom [30000, 32768, 0] 0 % 64 ≤ 4 * ((symbols [30000, 32768, 0] : Int) - 0) ∧ ValidCdf [30000, 32768, 0] :=
  ⟨by decide, by decide, [30000], 0, rfl, by decide⟩
example : ((encodeSession BoolCoder.new [[16383, 16384, 32768, 0]] [.sym 0 1]).bind fun (_, bits, _) =>
    Sym.symbols 1 (Sym.start bits) [16383, 16384, 32768, 0]) = some [2] := by decide +kernel

/-- The first symbol of a table of at most 16 symbols (as all of AV1's) is read. -/
theorem C130_first_symbol_partial {cdf : List Int} (hc : ValidCdf cdf) (h16 : symbols cdf ≤ 16) {c c' : BoolCoder} {bits : Bits}
    {bank : Bank} (h : encodeSession c [cdf] [.sym 0 0] = some (c', bits, bank)) :
    Sym.symbols 1 (Sym.start bits) cdf = some [0] := by
  have hs : 0 < symbols cdf := by
    obtain ⟨body, cnt, rfl, -⟩ := hc
    simp [symbols]
  rw [C130_symbol_iff hc hs h]
  have h1 : 1 ≤ cdf.getD 0 0 := by
    obtain ⟨body, cnt, rfl, hinc, -⟩ := hc
    cases body with
    | nil => simp
    | cons x l => have := hinc.1; simp; omega
  simp only [shareFrom, Nat.zero_add]
  generalize cdf.getD 0 0 = x at *
  constructor <;> push_cast <;> omega

/-- Of the 17345 symbols of the 4648 built-in tables AV1 reads 9470 if they stand alone in a session; 1570 tables are free of
symbols that it misreads. -/
theorem C130_default_alone :
    (defaultBank.map fun cdf => ((List.range (symbols cdf)).filter fun s =>
      decide (shareFrom cdf s % 64 ≤ 4 * ((symbols cdf : Int) - s) ∧
        shareFrom cdf (s + 1) / 64 * 64 + 4 * ((symbols cdf : Int) - s - 1) < shareFrom cdf s)).length).sum = 9470 ∧
    (defaultBank.map symbols).sum = 17345 ∧ defaultBank.length = 4648 ∧
    (defaultBank.filter fun cdf => (List.range (symbols cdf)).all fun s =>
      decide (shareFrom cdf s % 64 ≤ 4 * ((symbols cdf : Int) - s) ∧
        shareFrom cdf (s + 1) / 64 * 64 + 4 * ((symbols cdf : Int) - s - 1) < shareFrom cdf s)).length = 1570 := by
  decide +kernel

/-! ## Runs of zeros -/

/-- Coding only first symbols never moves the low end of the interval. -/
theorem zeros_low : ∀ (n : Nat) (cdf : List Int) (O : Bits) (c : BoolCoder) (m : Nat), ValidCdf cdf → EncInv O c m →
    c.value < 65536 → 32768 ≤ c.range → low O c = 0 →
    ∃ c' em bank k, encodeOps c [cdf] (List.replicate n (.sym 0 0)) = some (c', em, bank) ∧ EncInv (O ++ em) c' k ∧
      c'.value < 65536 ∧ 32768 ≤ c'.range ∧ low (O ++ em) c' = 0 := by
  intro n
  induction n with
  | zero =>
    intro cdf O c m _ h hv hR hl
    exact ⟨c, [], [cdf], m, rfl, by simpa using h, hv, hR, by simpa using hl⟩
  | succ n ih =>
    intro cdf O c m hc h hv hR hl
    have hs : 0 < symbols cdf := by
      obtain ⟨body, cnt, rfl, -⟩ := hc
      simp [symbols]
    obtain ⟨c1, e1, k, t, a1, ad, -, a4, a5, a6, -, -, -, a8, -⟩ := encodeSymbol_spec hc hs h hv hR
    obtain ⟨t', ad', hv', -⟩ := adapt_valid hc ((0 : Nat) : Int)
    obtain rfl : t = t' := by rw [ad] at ad'; exact Option.some.inj ad'
    have hleft : (ivl c.range c.range cdf 0).1 = c.range := by
      rw [ivl_get _ _ _ _ (by unfold symbols at hs; omega)]
      simp
    have hl1 : low (O ++ e1) c1 = 0 := by rw [a8, hleft, hl]; simp
    obtain ⟨c2, e2, bank, k2, b1, b2, b3, b4, b5⟩ := ih t (O ++ e1) c1 (m + k) hv' a4 a5 a6 hl1
    refine ⟨c2, e1 ++ e2, bank, k2, ?_, by rw [← List.append_assoc]; exact b2, b3, b4,
      by rw [← List.append_assoc]; exact b5⟩
    push_cast at a1
    simp [List.replicate_succ, encodeOps, encodeOp, a1, b1]

theorem zeros_bits {n : Nat} {cdf : List Int} (hc : ValidCdf cdf) {c c' : BoolCoder} {bits : Bits} {bank : Bank}
    (h : encodeSession c [cdf] (List.replicate n (.sym 0 0)) = some (c', bits, bank)) :
    ∃ k, bits = List.replicate (15 + k) false := by
  obtain ⟨c1, em, bk, k, a1, a2, a3, a4, a5⟩ := zeros_low n cdf [] (initEncoder c) 0 hc (initEncoder_inv c)
    (by simp [initEncoder]) (by simp [initEncoder]) (by simp [low, pend, initEncoder])
  rw [List.nil_append] at a2 a5
  obtain ⟨B, extra, b1, b2, b3, b4, b5⟩ := exit_spec a2 a3 a4
  have hB : B = List.replicate (k + 15) false := by
    apply num_inj
    · simp [b2]
    · rw [num_replicate_false]
      have : (num B : Int) = 0 := by rw [b3, a5]
      exact_mod_cast this
  have hE : extra = List.replicate extra.length false := by
    rw [List.eq_replicate_iff]; exact ⟨rfl, b5⟩
  refine ⟨k + extra.length, ?_⟩
  simp [encodeSession, a1] at h
  rw [← h.2.1, b1, hB, hE]
  simp only [List.length_replicate, List.replicate_append_replicate]
  congr 1
  omega

theorem sym_read_zeros (n L : Nat) : Sym.read n (List.replicate L false) = (0, List.replicate (L - n) false) := by
  simp [Sym.read, List.take_replicate, num_replicate_false]

/-- Where only zeros follow AV1 reads first symbols for ever. -/
theorem sym_zeros : ∀ (n R L : Nat) (x : Int) (rest : List Int), 32768 ≤ R → R < 65536 → 1 ≤ x → x ≤ 32768 → rest ≠ [] →
    rest.length ≤ 16 →
    Sym.symbols n { value := R - 1, range := R, input := List.replicate L false } (x :: rest) = some (List.replicate n 0)
  | 0, _, _, _, _, _, _, _, _, _, _ => rfl
  | n + 1, R, L, x, rest, h1, h2, hx, hx', hr, h16 => by
    obtain ⟨f, hf⟩ : ∃ f : Nat, 32768 - x = f := ⟨(32768 - x).toNat, by omega⟩
    have e2 : ((2 : Int) ^ 15 - x).toNat = f := by norm_num; omega
    have hd : (x :: rest).dropLast = x :: rest.dropLast := by
      cases rest with
      | nil => exact absurd rfl hr
      | cons => rfl
    have hcut : ∃ q, Sym.cut R x rest.dropLast.length = q ∧ q < R := by
      refine ⟨_, rfl, ?_⟩
      simp only [Sym.cut, Sym.probShift, Sym.minProb, e2, List.length_dropLast]
      have hq : R / 2 ^ 8 * (f / 2 ^ 6) ≤ R / 2 ^ 8 * 511 := Nat.mul_le_mul_left _ (by norm_num; omega)
      have hR : R / 2 ^ 8 = R / 256 := by norm_num
      rw [hR] at *
      generalize R / 256 * (f / 2 ^ 6) = y at *
      have : (2 : Nat) ^ (7 - 6) = 2 := rfl
      rw [this]
      omega
    obtain ⟨q, hq, hqR⟩ := hcut
    have hlt : ¬ R - 1 < q := by omega
    have hlog : Nat.log2 (R - q) ≤ 15 := by
      have : Nat.log2 (R - q) < 16 := by rw [Nat.log2_lt (by omega)]; norm_num; omega
      omega
    have hlo := Nat.log2_self_le (n := R - q) (by omega)
    have hhi := Nat.lt_log2_self (n := R - q)
    have hpow : 2 ^ Nat.log2 (R - q) * 2 ^ (15 - Nat.log2 (R - q)) = 32768 := by
      rw [← pow_add, Nat.add_sub_cancel' hlog]; norm_num
    simp only [Sym.symbols, Sym.symbol, hd, Sym.search, hq, hlt, if_false, Option.bind_eq_bind, Option.bind_some,
      sym_read_zeros, Nat.sub_zero]
    have ev : R - 1 - q + 1 = R - q := by omega
    rw [ev]
    have hR1 : 32768 ≤ (R - q) * 2 ^ (15 - Nat.log2 (R - q)) := by
      rw [← hpow]; exact Nat.mul_le_mul_right _ hlo
    have hR2 : (R - q) * 2 ^ (15 - Nat.log2 (R - q)) < 65536 := by
      calc _ < 2 ^ (Nat.log2 (R - q) + 1) * 2 ^ (15 - Nat.log2 (R - q)) :=
            Nat.mul_lt_mul_of_pos_right hhi (by positivity)
        _ = 65536 := by rw [pow_succ, Nat.mul_right_comm, hpow]
    have had : ∃ x' rest', Sym.adapt (x :: rest) 0 = x' :: rest' ∧ 1 ≤ x' ∧ x' ≤ 32768 ∧ rest' ≠ [] ∧ rest'.length ≤ 16 := by
      match rest, hr, h16 with
      | [a], _, _ => exact ⟨_, _, rfl, by norm_num, by norm_num, by simp, by simp⟩
      | a :: b :: l, _, h16 =>
        have hm : 1 ≤ Sym.move (Sym.rate (l.length + 2) ((x :: a :: b :: l).getD (l.length + 2) 0)) 0 0 x ∧
            Sym.move (Sym.rate (l.length + 2) ((x :: a :: b :: l).getD (l.length + 2) 0)) 0 0 x ≤ 32768 := by
          generalize Sym.rate _ _ = r
          have ep : (2 : Int) ^ 15 - x = f := by omega
          simp only [Sym.move, Nat.lt_irrefl, if_false, ep]
          have hp : (0 : Int) < 2 ^ r := by positivity
          have d0 : 0 ≤ (f : Int) / 2 ^ r := Int.ediv_nonneg (by omega) hp.le
          have d1 : (f : Int) / 2 ^ r ≤ f := Int.ediv_le_self _ (by omega)
          omega
        have hlen : (Sym.adapt (x :: a :: b :: l) 0).tail.length = l.length + 2 := by
          simp [Sym.adapt]; omega
        refine ⟨_, (Sym.adapt (x :: a :: b :: l) 0).tail, ?_, hm.1, hm.2, ?_, ?_⟩
        · simp only [Sym.adapt, List.length_cons, Nat.add_sub_cancel, List.take_succ_cons, List.mapIdx_cons, List.cons_append,
            List.tail_cons]
        · intro h0; rw [h0] at hlen; simp at hlen
        · rw [hlen]; simp at h16; omega
    obtain ⟨x', rest', g0, g1, g2, g3, g4⟩ := had
    rw [g0, sym_zeros n _ _ x' rest' hR1 hR2 g1 g2 g3 g4]
    rfl

/-- **C130**: a run of first symbols is read, however long it is and however the tables adapt. -/
theorem C130_zeros_partial {n : Nat} {cdf : List Int} (hc : ValidCdf cdf) (h16 : symbols cdf ≤ 16) {c c' : BoolCoder}
    {bits : Bits} {bank : Bank} (h : encodeSession c [cdf] (List.replicate n (.sym 0 0)) = some (c', bits, bank)) :
    Sym.symbols n (Sym.start bits) cdf = some (List.replicate n 0) := by
  obtain ⟨k, rfl⟩ := zeros_bits hc h
  have hst : Sym.start (List.replicate (15 + k) false) =
      { value := 32768 - 1, range := 32768, input := List.replicate k false } := by
    unfold Sym.start
    rw [sym_read_zeros, Nat.add_sub_cancel_left]
    rfl
  rw [hst]
  obtain ⟨body, cnt, rfl, hinc, -⟩ := hc
  simp only [symbols, List.length_append, List.length_cons, List.length_nil] at h16
  cases body with
  | nil => exact sym_zeros n 32768 k 32768 [cnt] (by norm_num) (by norm_num) (by norm_num) (by norm_num) (by simp) (by simp)
  | cons x l =>
    have hx := inc_lt_last _ _ _ hinc.2
    exact sym_zeros n 32768 k x (l ++ [32768, cnt]) (by norm_num) (by norm_num) (by have := hinc.1; omega) (by omega)
      (by simp) (by simp at h16 ⊢; omega)

/-- Three first symbols; with another symbol among them AV1 goes wrong. -/
example : ((encodeSession BoolCoder.new [[30000, 32768, 0]] [.sym 0 0, .sym 0 0, .sym 0 0]).bind fun (_, bits, _) =>
    Sym.symbols 3 (Sym.start bits) [30000, 32768, 0]) = some [0, 0, 0] := by decide +kernel
example : ((encodeSession BoolCoder.new [[30000, 32768, 0]] [.sym 0 0, .sym 0 1, .sym 0 0]).bind fun (_, bits, _) =>
    Sym.symbols 3 (Sym.start bits) [30000, 32768, 0]) ≠ some [0, 1, 0] := by decide +kernel

/-! ## Where the two coders part -/

/-- The interval of a literal bit is cut four units apart at every range. -/
theorem C130_cut_literal (R : Nat) : (Sym.cut R (2 ^ 14) 1 : Int) = bound R (2 ^ 14) + 4 := by
  rw [bound_def]
  simp only [Sym.cut, Sym.probShift, Sym.minProb]
  norm_num
  omega

/-- In general AV1 rounds the entry down to a multiple of 64 and keeps four units for each symbol still to come. -/
theorem C130_cut (R : Nat) {c : Int} (h0 : 0 ≤ c) (h : c ≤ 32768) (below : Nat) :
    (Sym.cut R c below : Int) = bound R (32768 - (32768 - c) / 64 * 64) + 4 * below := by
  rw [bound_def]
  obtain ⟨f, hf⟩ : ∃ f : Nat, 32768 - c = f := ⟨(32768 - c).toNat, by omega⟩
  have hc : c = 32768 - f := by omega
  subst hc
  have e : (32768 : Int) - (32768 - (32768 - (32768 - (f : Int))) / 64 * 64) = ((f / 64 * 64 : Nat) : Int) := by
    push_cast; omega
  rw [e]
  have e2 : ((2 : Int) ^ 15 - (32768 - f)).toNat = f := by norm_num
  simp only [Sym.cut, Sym.probShift, Sym.minProb, e2]
  have e3 : R / 2 ^ 8 * (f / 2 ^ 6) / 2 ^ (7 - 6) = R / 256 * (f / 64 * 64) / 128 := by
    rw [show (2 : Nat) ^ 8 = 256 from rfl, show (2 : Nat) ^ 6 = 64 from rfl, show (2 : Nat) ^ (7 - 6) = 2 from rfl,
      ← Nat.mul_assoc, show (128 : Nat) = 2 * 64 from rfl, Nat.mul_comm 2 64,
      ← Nat.div_div_eq_div_mul (R / 256 * (f / 64) * 64) 64 2, Nat.mul_div_cancel _ (by decide)]
  rw [e3]
  push_cast
  ring

/-- The rates of adaptation agree exactly for tables of fewer than eight symbols that have been used more than 15 times. -/
theorem C130_rate_iff {cdf : List Int} (h : ValidCdf cdf) (h2 : 2 ≤ symbols cdf) {cnt : Int}
    (hc : cdf.getLast? = some cnt) :
    adaptRate cdf = some (Sym.rate (symbols cdf) cnt) ↔ cnt > 15 ∧ symbols cdf < 8 := by
  obtain ⟨body, cnt', rfl, -, h0, h32, hlen⟩ := h
  obtain rfl : cnt' = cnt := by simpa using hc
  have hs : symbols (body ++ [32768, cnt']) = body.length + 1 := by simp [symbols]
  rw [hs] at *
  have hr : adaptRate (body ++ [32768, cnt']) = some (rateOf body.length cnt') := by
    have e : (body ++ [32768, cnt']).length - 1 = body.length + 1 := by simp
    unfold adaptRate
    simp only [e]
    rw [Nat.mod_eq_of_lt (by omega), msb16_eq _ (by omega)]
    simp [rateOf]
  rw [hr, Option.some.injEq]
  unfold rateOf Sym.rate
  have hl : (body.length + 1).log2 < 3 ↔ body.length + 1 < 8 := by
    rw [Nat.log2_lt (by omega)]
  generalize (body.length + 1).log2 = g at *
  split <;> split <;> omega

/-- No built-in table adapts as in AV1, whichever of its symbols is coded. -/
theorem C130_no_default_table : ∀ cdf ∈ defaultBank, ∀ s < symbols cdf, adapt cdf s ≠ some (Sym.adapt cdf s) := by
  have h : Default.families.all (fun f => f.cdfs.all fun cdf => (List.range (symbols cdf)).all fun s =>
      decide (adapt cdf (s : Nat) ≠ some (Sym.adapt cdf s))) = true := by decide +kernel
  intro cdf hc s hs
  simp only [defaultBank, List.mem_flatMap] at hc
  obtain ⟨f, hf, hc⟩ := hc
  have := List.all_eq_true.1 (List.all_eq_true.1 (List.all_eq_true.1 h f hf) cdf hc) s (by simpa using hs)
  simpa using this

/-- One table, adapted by each. -/
example : adapt [16384, 32768, 0] 1 = some [15873, 32768, 1] ∧ Sym.adapt [16384, 32768, 0] 1 = [15360, 32768, 1] := by
  decide +kernel

/-! ## What agrees -/

/-- Both decoders start alike. -/
theorem C130_start_partial {l : Bits} (h : 15 ≤ l.length) (d : BoolCoder) (sz : Nat) :
    ∃ d' rest, initDecoder d l sz = some (d', rest) ∧ d'.value = (Sym.start l).value ∧ d'.range = (Sym.start l).range ∧
      rest = (Sym.start l).input := by
  have h1 : popBits 15 0 l = some (num (l.take 15), l.drop 15) := by
    have hl : (l.take 15).length = 15 := by simp; omega
    have := popBits_append (l.take 15) (l.drop 15) 0
    rw [hl, List.take_append_drop] at this
    simpa using this
  have hb := num_lt (l.take 15)
  have hl : (l.take 15).length = 15 := by simp; omega
  rw [hl] at hb
  refine ⟨_, _, by unfold initDecoder; rw [h1]; rfl, ?_, ?_, ?_⟩
  · simp only [Sym.start, sym_read h]
    have hx := xor32_shift 15 (num (l.take 15)) 0 hb (by omega) (by norm_num)
    rw [xor32_comm] at hx
    have e1 : (((1 <<< 15 : Nat) : Int)) = (0 + 1) * 2 ^ 15 := by decide
    rw [e1, hx]
    norm_num
    omega
  · rfl
  · simp only [Sym.start, sym_read h]

/-- A single literal bit is read correctly. -/
theorem C130_one_bit_partial (b : Bool) (c : BoolCoder) :
    ∃ c' bits, encodeSession c [] [.lit 1 b.toNat] = some (c', bits, []) ∧
      (Sym.literal 1 0 (Sym.start bits)).map Prod.fst = some b.toNat := by
  obtain ⟨c1, m, g, hm⟩ := C130_literal_plain (n := 1) (v := b.toNat) (by decide) (by cases b <;> decide) c
  refine ⟨c1, _, g, ?_⟩
  clear g
  have : ∀ m < 9, ∀ b : Bool, (Sym.literal 1 0 (Sym.start (toBits 1 b.toNat ++ List.replicate (15 + m) false))).map
      Prod.fst = some b.toNat := by decide +kernel
  exact this m (by omega) b

end Av1
