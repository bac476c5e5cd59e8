import Verif.Spec.Cost
import Verif.Lemmas.Session
import Mathlib.Algebra.BigOperators.Group.List.Basic
import Mathlib.Algebra.Order.BigOperators.GroupWithZero.List

/-! # How much each coded symbol narrows the interval -/

namespace Av1

/-- What a symbol of probability `p` leaves at least, against `129 * 32768`. -/
def least (ps : List Int) : Int := (ps.map fun p => 128 * (p - 1)).prod

/-- What it leaves at most, against `32768`. -/
def most (ps : List Int) : Int := (ps.map fun p => p + 256).prod

@[simp] theorem least_nil : least [] = 1 := rfl
@[simp] theorem most_nil : most [] = 1 := rfl
theorem least_append (a b : List Int) : least (a ++ b) = least a * least b := by simp [least]
theorem most_append (a b : List Int) : most (a ++ b) = most a * most b := by simp [most]

theorem least_nonneg {ps : List Int} (h : ∀ p ∈ ps, 1 ≤ p ∧ p ≤ 32768) : 0 ≤ least ps := by
  refine List.prod_nonneg ?_
  intro x hx
  simp only [List.mem_map] at hx
  obtain ⟨p, hp, rfl⟩ := hx
  have := h p hp
  omega

theorem most_nonneg {ps : List Int} (h : ∀ p ∈ ps, 1 ≤ p ∧ p ≤ 32768) : 0 ≤ most ps := by
  refine List.prod_nonneg ?_
  intro x hx
  simp only [List.mem_map] at hx
  obtain ⟨p, hp, rfl⟩ := hx
  have := h p hp
  omega

theorem prob_range {cdf : List Int} (hc : ValidCdf cdf) {s : Nat} (hs : s < symbols cdf) :
    1 ≤ prob cdf s ∧ prob cdf s ≤ 32768 := by
  obtain ⟨body, cnt, rfl, hinc, -, -, -⟩ := hc
  have hs' : s ≤ body.length := by simp [symbols] at hs; omega
  have key : ∀ (body : List Int) (p : Int) (s : Nat), Inc p body 32768 → s ≤ body.length →
      p < (body ++ [32768, cnt]).getD s 0 ∧ (body ++ [32768, cnt]).getD s 0 ≤ 32768 ∧
      (∀ k, s = k + 1 → (body ++ [32768, cnt]).getD k 0 < (body ++ [32768, cnt]).getD s 0 ∧
        p < (body ++ [32768, cnt]).getD k 0) := by
    intro body
    induction body with
    | nil =>
      intro p s h hs
      simp only [List.length_nil, Nat.le_zero_eq] at hs
      subst hs
      simp only [Inc] at h
      simp [h]
    | cons c rest ih =>
      intro p s h hs
      cases s with
      | zero =>
        have := inc_lt_last _ _ _ h.2
        simp [h.1]; omega
      | succ s =>
        obtain ⟨h1, h2, h3⟩ := ih c s h.2 (by simpa using hs)
        have hp := h.1
        simp only [List.cons_append, List.getD_cons_succ]
        refine ⟨by omega, h2, ?_⟩
        intro k hk
        obtain rfl : s = k := by omega
        cases s with
        | zero => simp only [List.getD_cons_zero]; exact ⟨h1, hp⟩
        | succ j =>
          obtain ⟨g1, g2⟩ := h3 j rfl
          simp only [List.getD_cons_succ]
          exact ⟨g1, by omega⟩
  obtain ⟨h1, h2, h3⟩ := key body 0 s hinc hs'
  unfold prob
  cases s with
  | zero => simp only [if_true]; omega
  | succ k =>
    obtain ⟨g1, g2⟩ := h3 k rfl
    simp only [Nat.add_eq_zero_iff, one_ne_zero, and_false, if_false, Nat.add_sub_cancel]
    omega

/-- The arithmetic of one step, for a symbol that is not the first. -/
theorem width_inner {R a b : Int} (hR : 32768 ≤ R) (hab : a < b) :
    R * (128 * (b - a - 1)) ≤ (bound R a - bound R b) * (129 * 32768) ∧
    (bound R a - bound R b) * 32768 ≤ R * (b - a + 256) := by
  rw [bound_def, bound_def]
  have hq : 128 ≤ R / 256 := by omega
  have hq1 : R / 256 * 256 ≤ R := by omega
  have hq2 : R ≤ R / 256 * 258 := by omega
  generalize R / 256 = q at *
  have e : q * (32768 - a) = q * (32768 - b) + q * (b - a) := by ring
  have hp : q * (b - a) = q * (b - a - 1) + q := by ring
  constructor
  · have h1 : q * (b - a - 1) ≤ 128 * (q * (32768 - a) / 128 - q * (32768 - b) / 128) := by omega
    have h2 : R * (b - a - 1) ≤ q * 258 * (b - a - 1) := mul_le_mul_of_nonneg_right hq2 (by omega)
    nlinarith
  · have h1 : 128 * (q * (32768 - a) / 128 - q * (32768 - b) / 128) ≤ q * (b - a) + 127 := by omega
    have h2 : q * 256 * (b - a) ≤ R * (b - a) := mul_le_mul_of_nonneg_right hq1 (by omega)
    nlinarith

/-- The first symbol gets what rounding leaves over. -/
theorem width_first {R b : Int} (hR : 32768 ≤ R) (hb : 1 ≤ b) :
    R * (128 * (b - 1)) ≤ (R - bound R b) * (129 * 32768) ∧ (R - bound R b) * 32768 ≤ R * (b + 256) := by
  rw [bound_def]
  have hq : 128 ≤ R / 256 := by omega
  have hq1 : R / 256 * 256 ≤ R := by omega
  have hq2 : R ≤ R / 256 * 258 := by omega
  have hq3 : R ≤ R / 256 * 256 + 255 := by omega
  generalize R / 256 = q at *
  have e : q * (32768 - b) = q * 32768 - q * b := by ring
  constructor
  · have h1 : q * b ≤ 128 * (R - q * (32768 - b) / 128) := by omega
    have h2 : R * (b - 1) ≤ q * 258 * (b - 1) := mul_le_mul_of_nonneg_right hq2 (by omega)
    nlinarith
  · have h1 : 128 * (R - q * (32768 - b) / 128) ≤ q * b + 32767 := by omega
    have h2 : q * 256 * b ≤ R * b := mul_le_mul_of_nonneg_right hq1 (by omega)
    nlinarith

theorem width {cdf : List Int} (hc : ValidCdf cdf) {s : Nat} (hs : s < symbols cdf) {R : Int} (hR : 32768 ≤ R) :
    R * (128 * (prob cdf s - 1)) ≤ ((ivl R R cdf s).1 - (ivl R R cdf s).2) * (129 * 32768) ∧
    ((ivl R R cdf s).1 - (ivl R R cdf s).2) * 32768 ≤ R * (prob cdf s + 256) := by
  have hslen : s < cdf.length := by unfold symbols at hs; omega
  have hpr := prob_range hc hs
  rw [ivl_get _ _ _ _ hslen]
  unfold prob at *
  have e1 : cdf.getD s 0 = cdf[s] := by simp [hslen]
  rw [e1] at hpr ⊢
  by_cases hz : s = 0
  · subst hz
    simp only [if_true, dite_true, sub_zero] at *
    exact width_first hR hpr.1
  · simp only [hz, if_false, dite_false] at *
    have e2 : cdf.getD (s - 1) 0 = cdf[s - 1] := by
      have : s - 1 < cdf.length := by omega
      simp [this]
    rw [e2] at hpr ⊢
    exact width_inner hR (by omega)

/-- An encoder action that codes symbols of probabilities `ps`. -/
def Cost (e : BoolCoder → Option (BoolCoder × Bits)) (ps : List Int) : Prop :=
  (∀ p ∈ ps, 1 ≤ p ∧ p ≤ 32768) ∧
  ∀ (O : Bits) (c : BoolCoder) (n : Nat), EncInv O c n → c.value < 65536 → 32768 ≤ c.range →
    ∃ c' em k, e c = some (c', em) ∧ EncInv (O ++ em) c' (n + k) ∧ c'.value < 65536 ∧ 32768 ≤ c'.range ∧
      k ≤ 15 * ps.length ∧
      c.range * 2 ^ k * least ps ≤ c'.range * (129 * 32768) ^ ps.length ∧
      c'.range * 32768 ^ ps.length ≤ c.range * 2 ^ k * most ps

theorem Cost.congr {e e' : BoolCoder → Option (BoolCoder × Bits)} {ps : List Int} (h : Cost e ps)
    (hh : ∀ c c' em, e c = some (c', em) → e' c = some (c', em)) : Cost e' ps := by
  refine ⟨h.1, ?_⟩
  intro O c n h1 h2 h3
  obtain ⟨c', em, k, a, b⟩ := h.2 O c n h1 h2 h3
  exact ⟨c', em, k, hh _ _ _ a, b⟩

theorem Cost.skip : Cost (fun c => some (c, [])) [] := by
  refine ⟨by simp, ?_⟩
  intro O c n h1 h2 h3
  exact ⟨c, [], 0, rfl, by simpa using h1, h2, h3, by simp, by simp, by simp⟩

theorem Cost.seq {e1 e2 : BoolCoder → Option (BoolCoder × Bits)} {p1 p2 : List Int} (h1 : Cost e1 p1)
    (h2 : Cost e2 p2) :
    Cost (fun c => (e1 c).bind fun (c1, em1) => (e2 c1).bind fun (c2, em2) => some (c2, em1 ++ em2)) (p1 ++ p2) := by
  refine ⟨?_, ?_⟩
  · intro p hp
    rcases List.mem_append.1 hp with h | h
    · exact h1.1 p h
    · exact h2.1 p h
  intro O c n hi hv hR
  obtain ⟨c1, em1, k1, a1, a2, a3, a4, a5, a6, a7⟩ := h1.2 O c n hi hv hR
  obtain ⟨c2, em2, k2, b1, b2, b3, b4, b5, b6, b7⟩ := h2.2 (O ++ em1) c1 (n + k1) a2 a3 a4
  refine ⟨c2, em1 ++ em2, k1 + k2, by simp [a1, b1], by rw [← List.append_assoc, ← Nat.add_assoc]; exact b2, b3, b4,
    by rw [List.length_append]; omega, ?_, ?_⟩
  · have hl := least_nonneg h2.1
    calc c.range * 2 ^ (k1 + k2) * least (p1 ++ p2)
        = (c.range * 2 ^ k1 * least p1) * (2 ^ k2 * least p2) := by rw [least_append, pow_add]; ring
      _ ≤ (c1.range * (129 * 32768) ^ p1.length) * (2 ^ k2 * least p2) :=
          mul_le_mul_of_nonneg_right a6 (by positivity)
      _ = (c1.range * 2 ^ k2 * least p2) * (129 * 32768) ^ p1.length := by ring
      _ ≤ (c2.range * (129 * 32768) ^ p2.length) * (129 * 32768) ^ p1.length :=
          mul_le_mul_of_nonneg_right b6 (by positivity)
      _ = _ := by rw [List.length_append, pow_add]; ring
  · have hl := most_nonneg h2.1
    calc c2.range * 32768 ^ (p1 ++ p2).length
        = (c2.range * 32768 ^ p2.length) * 32768 ^ p1.length := by rw [List.length_append, pow_add]; ring
      _ ≤ (c1.range * 2 ^ k2 * most p2) * 32768 ^ p1.length := mul_le_mul_of_nonneg_right b7 (by positivity)
      _ = (c1.range * 32768 ^ p1.length) * (2 ^ k2 * most p2) := by ring
      _ ≤ (c.range * 2 ^ k1 * most p1) * (2 ^ k2 * most p2) := mul_le_mul_of_nonneg_right a7 (by positivity)
      _ = _ := by rw [most_append, pow_add]; ring

theorem cost_symbol {cdf : List Int} (hc : ValidCdf cdf) {s : Nat} (hs : s < symbols cdf) :
    ∃ cdf', adapt cdf s = some cdf' ∧ ValidCdf cdf' ∧ cdf'.length = cdf.length ∧
      Cost (fun c => (encodeSymbol c cdf s).bind (fun (c', e, t) => if t = cdf' then some (c', e) else none))
        [prob cdf s] := by
  obtain ⟨cdf', had, hval, hlen⟩ := adapt_valid hc s
  refine ⟨cdf', had, hval, hlen, ?_, ?_⟩
  · intro p hp
    rw [List.mem_singleton] at hp
    subst hp
    exact prob_range hc hs
  intro O c n h hv hR
  obtain ⟨c', em, k, t, a1, a2, a3, a4, a5, a6, a7, a7b, a7c, a8, a9, -⟩ := encodeSymbol_spec hc hs h hv hR
  have ht : t = cdf' := by rw [had] at a2; exact (Option.some.inj a2).symm
  subst ht
  obtain ⟨w1, w2⟩ := width hc hs hR
  have hp : (0 : Int) ≤ 2 ^ k := by positivity
  refine ⟨c', em, k, by simp [a1], a4, a5, a6, by simpa using a3, ?_, ?_⟩
  · have := mul_le_mul_of_nonneg_right w1 hp
    simp only [least, List.map_cons, List.map_nil, List.prod_singleton, List.length_singleton, pow_one]
    rw [a9]
    linarith
  · have := mul_le_mul_of_nonneg_right w2 hp
    simp only [most, List.map_cons, List.map_nil, List.prod_singleton, List.length_singleton, pow_one]
    rw [a9]
    linarith

theorem cost_symbolp {p : Nat} (hp : p < 256) (b : Bool) :
    Cost (fun c => encodeSymbolp c b.toNat p) [prob (probCdf p) b.toNat] := by
  obtain ⟨cdf', -, -, -, h⟩ := cost_symbol (probCdf_valid hp) (s := b.toNat)
    (by rw [probCdf_symbols]; cases b <;> simp)
  refine h.congr ?_
  intro c c' em he
  simp only [Option.bind_eq_some_iff] at he
  obtain ⟨⟨c1, e1, t⟩, h1, h2⟩ := he
  split at h2 <;> simp at h2
  simp [encodeSymbolp, h1, h2]

theorem cost_symbols : ∀ (bs : List Bool) (cdf : List Int), ValidCdf cdf → symbols cdf = 2 →
    ∃ ps, runProbs cdf (bs.map Bool.toNat) = some ps ∧ ps.length = bs.length ∧
      Cost (fun c => encodeSymbolsGo c cdf (bs.map Bool.toNat)) ps
  | [], cdf, _, _ => by
    refine ⟨[], rfl, rfl, Cost.skip.congr ?_⟩
    intro c c' em h; simpa [encodeSymbolsGo] using h
  | b :: bs, cdf, hv, hs => by
    obtain ⟨cdf', had, hv', hl, h⟩ := cost_symbol hv (s := b.toNat) (by rw [hs]; cases b <;> simp)
    obtain ⟨ps, hps, hlen, ih⟩ := cost_symbols bs cdf' hv' (by unfold symbols at *; omega)
    refine ⟨prob cdf b.toNat :: ps, by simp [runProbs, had, hps], by simp [hlen], (h.seq ih).congr ?_⟩
    intro c c' em he
    simp only [Option.bind_eq_some_iff] at he
    obtain ⟨⟨c1, e1⟩, ⟨⟨c0, e0, t⟩, h1, h2⟩, ⟨c2, e2⟩, h3, h4⟩ := he
    split at h2
    · rename_i ht
      simp only [Option.some.injEq, Prod.mk.injEq] at h2 h4
      obtain ⟨rfl, rfl⟩ := h2
      obtain ⟨rfl, rfl⟩ := h4
      simp only at ht
      subst ht
      simp only at h3
      simp [encodeSymbolsGo, h1, h3]
    · simp at h2

theorem cost_literal : ∀ (n v : Nat), n ≤ 64 → Cost (fun c => encodeLiteral c v n) (List.replicate n 16384)
  | 0, v, _ => by
    refine Cost.skip.congr ?_
    intro c c' em h; simpa [encodeLiteral] using h
  | n + 1, v, hn => by
    have hb : (v >>> n) &&& 1 = (v.testBit n).toNat := by
      rw [Nat.testBit, Nat.and_comm]
      have := Nat.mod_two_eq_zero_or_one (v >>> n)
      rw [Nat.one_and_eq_mod_two]
      rcases this with h | h <;> simp [h]
    have h := cost_symbolp (p := 128) (by decide) (v.testBit n)
    have hpr : prob (probCdf ((128 : Nat) : Int)) (v.testBit n).toNat = 16384 := by
      cases v.testBit n <;> decide
    rw [hpr] at h
    have ih := cost_literal n v (by omega)
    refine (h.seq ih).congr ?_
    intro c c' em he
    simp only [Option.bind_eq_some_iff] at he
    obtain ⟨⟨c1, e1⟩, h1, ⟨c2, e2⟩, h3, h4⟩ := he
    simp only [Option.some.injEq, Prod.mk.injEq] at h4
    obtain ⟨rfl, rfl⟩ := h4
    have hn' : ¬ n ≥ 64 := by omega
    simp only at h3
    push_cast at h1
    simp [encodeLiteral, hn', hb, h1, h3]

theorem cost_op {bank : Bank} (hb : BankOk bank) {op : Op} (ho : OpOk bank op) :
    ∃ ps bank', opProbs bank op = some (ps, bank') ∧ BankOk bank' ∧ SameShape bank bank' ∧
      Cost (encTo bank' fun c => encodeOp c bank op) ps := by
  cases op with
  | sym t s =>
    obtain ⟨cdf, h1, h2⟩ := ho
    have hmem : cdf ∈ bank := List.mem_of_getElem? h1
    obtain ⟨cdf', had, hv, hl, hs⟩ := cost_symbol (hb cdf hmem) h2
    refine ⟨[prob cdf s], bank.set t cdf', by simp [opProbs, h1, had], ?_, ?_, hs.congr ?_⟩
    · intro x hx
      rcases List.mem_or_eq_of_mem_set hx with h | h
      · exact hb x h
      · rw [h]; exact hv
    · unfold SameShape
      rw [List.map_set, hl]
      apply List.ext_getElem?
      intro i
      rw [List.getElem?_set]
      split
      · rename_i hti
        rw [← hti, List.getElem?_map, h1]
        have : t < bank.length := by
          by_contra hh
          rw [List.getElem?_eq_none (by omega)] at h1
          simp at h1
        simp [this]
      · rfl
    · intro c c' em he
      rw [encTo_some]
      simp only [Option.bind_eq_some_iff] at he
      obtain ⟨⟨c1, e1, u⟩, g1, g2⟩ := he
      split at g2 <;> simp at g2
      rename_i hu
      simp only at hu
      simp [encodeOp, h1, g1, g2, hu]
  | prob p b =>
    refine ⟨_, bank, rfl, hb, rfl, (cost_symbolp ho b).congr ?_⟩
    intro c c' em he; rw [encTo_some]; simp [encodeOp, he]
  | probs p bs =>
    obtain ⟨ps, h1, -, h2⟩ := cost_symbols bs _ (probCdf_valid ho) (probCdf_symbols _)
    refine ⟨ps, bank, by simp [opProbs, h1], hb, rfl, h2.congr ?_⟩
    intro c c' em he; rw [encTo_some]; simp [encodeOp, encodeSymbols, he]
  | lit n v =>
    obtain ⟨hn, hv⟩ := ho
    refine ⟨_, bank, rfl, hb, rfl, (cost_literal n v hn).congr ?_⟩
    intro c c' em he; rw [encTo_some]; simp [encodeOp, he]

theorem cost_ops : ∀ (ops : List Op) (bank : Bank), BankOk bank → OpsOk bank ops →
    ∃ ps bank', opsProbs bank ops = some (ps, bank') ∧ BankOk bank' ∧ SameShape bank bank' ∧
      Cost (encTo bank' fun c => encodeOps c bank ops) ps
  | [], bank, hb, _ => by
    refine ⟨[], bank, rfl, hb, rfl, Cost.skip.congr ?_⟩
    intro c c' em h; rw [encTo_some]; simp [encodeOps] at *; exact h
  | op :: ops, bank, hb, ho => by
    obtain ⟨p1, bank1, e1, hb1, hs1, h1⟩ := cost_op hb (ho op (by simp))
    obtain ⟨p2, bank2, e2, hb2, hs2, h2⟩ := cost_ops ops bank1 hb1 (fun o hmem => (ho o (by simp [hmem])).mono hs1)
    refine ⟨p1 ++ p2, bank2, by simp [opsProbs, e1, e2], hb2, hs1.trans hs2, (h1.seq h2).congr ?_⟩
    intro c c' em he
    simp only [Option.bind_eq_some_iff] at he
    obtain ⟨⟨c1, e1⟩, g1, ⟨c2, e2⟩, g2, g3⟩ := he
    simp only at g2 g3
    rw [encTo_some] at g1 g2 ⊢
    simp only [Option.some.injEq, Prod.mk.injEq] at g3
    simp [encodeOps, g1, g2, g3]

/-- The cost of a whole session. -/
theorem session_cost {bank : Bank} (hb : BankOk bank) {ops : List Op} (ho : OpsOk bank ops) (c : BoolCoder) :
    ∃ c' bits bank' ps, encodeSession c bank ops = some (c', bits, bank') ∧ opsProbs bank ops = some (ps, bank') ∧
      (∀ p ∈ ps, 1 ≤ p ∧ p ≤ 32768) ∧ bits.length ≤ 23 + 15 * ps.length ∧
      2 ^ bits.length * least ps ≤ 2 ^ 24 * (129 * 32768) ^ ps.length ∧
      2 ^ 15 * 32768 ^ ps.length ≤ 2 ^ bits.length * most ps := by
  obtain ⟨ps, bank', hps, hb', hs', hcost⟩ := cost_ops ops bank hb ho
  obtain ⟨c1, em, k, a1, a2, a3, a4, a5, a6, a7⟩ := hcost.2 [] (initEncoder c) 0 (initEncoder_inv c)
    (by simp [initEncoder]) (le_of_eq rfl)
  rw [List.nil_append, Nat.zero_add] at *
  obtain ⟨B, extra, b1, b2, b3, b4, b5⟩ := exit_spec a2 a3 a4
  rw [encTo_some] at a1
  have hlen : (em ++ (exitEncoder c1).2).length = k + 15 + extra.length := by rw [b1, List.length_append, b2]
  have hr0 : (initEncoder c).range = 32768 := rfl
  have hr1 := a2.r1
  rw [hr0] at a6 a7
  have hl := least_nonneg hcost.1
  have hm := most_nonneg hcost.1
  refine ⟨(exitEncoder c1).1, em ++ (exitEncoder c1).2, bank', ps, by simp [encodeSession, a1], hps, hcost.1,
    by omega, ?_, ?_⟩
  · rw [hlen]
    have h2 : (2 : Int) ^ (k + 15 + extra.length) ≤ 2 ^ (k + 23) := pow_le_pow_right₀ (by norm_num) (by omega)
    have h3 : c1.range * (129 * 32768) ^ ps.length ≤ 65536 * (129 * 32768) ^ ps.length :=
      mul_le_mul_of_nonneg_right (by omega) (by positivity)
    have h4 : (2 : Int) ^ (k + 15 + extra.length) * least ps ≤ 2 ^ (k + 23) * least ps :=
      mul_le_mul_of_nonneg_right h2 hl
    have h5 : (2 : Int) ^ (k + 23) = 256 * (32768 * 2 ^ k) := by rw [pow_add]; norm_num; ring
    rw [h5] at h4
    nlinarith
  · rw [hlen]
    have h2 : (2 : Int) ^ (k + 15) ≤ 2 ^ (k + 15 + extra.length) := pow_le_pow_right₀ (by norm_num) (by omega)
    have h3 : (32768 : Int) * 32768 ^ ps.length ≤ c1.range * 32768 ^ ps.length :=
      mul_le_mul_of_nonneg_right a4 (by positivity)
    have h4 : (2 : Int) ^ (k + 15) * most ps ≤ 2 ^ (k + 15 + extra.length) * most ps := mul_le_mul_of_nonneg_right h2 hm
    have h5 : (2 : Int) ^ (k + 15) = 32768 * 2 ^ k := by rw [pow_add]; norm_num; ring
    rw [h5] at h4
    have h6 : (2 : Int) ^ 15 = 32768 := by norm_num
    rw [h6]
    linarith

end Av1
