import Verif.Lemmas.Learn
import Verif.Props.Cost
import Verif.Props.DefaultTables
import Mathlib.Algebra.Order.Ring.Pow
import Mathlib.Algebra.BigOperators.Group.Finset.Basic
import Mathlib.Algebra.Order.BigOperators.Group.Finset

/-!
# C133: the tables learn what is coded

Coding a symbol makes it more likely, and nothing is ever forgotten so far that it cannot be coded cheaply again.  If every
table always meets the same symbol, the cost of a session is a small fixed amount per symbol plus a one-time price for each
table, which is at most `32 N` times the cost of the first symbol.
-/

namespace Av1

/-- One coded symbol.  `N` is the number of symbols of the table. -/
theorem C133_learns {cdf cdf' : List Int} (hv : ValidCdf cdf) {s : Nat} (hs : s < symbols cdf) (h : adapt cdf s = some cdf') :
    -- the symbol does not become less likely, unless it was close to certain
    min (prob cdf s) (32801 - 64 * (symbols cdf : Int)) ≤ prob cdf' s ∧
    -- it becomes more likely while it is not close to certain
    (prob cdf s < 32802 - 96 * (symbols cdf : Int) → prob cdf s < prob cdf' s) ∧
    -- no other symbol becomes more likely, except that each keeps a least share
    ∀ j < symbols cdf, j ≠ s →
      prob cdf' j ≤ max (prob cdf j) (if j + 1 = symbols cdf then 31 + 32 * (symbols cdf : Int) else 32) := by
  refine ⟨?_, ?_, ?_⟩
  · obtain ⟨cnt, -, -, h1, h2⟩ := prob_coded hv hs h
    have hd := diff_ge (symbols cdf) cnt (by omega)
    have hpos : (0 : Int) < 2 ^ rateOf (symbols cdf - 1) cnt := by positivity
    generalize (2 : Int) ^ rateOf (symbols cdf - 1) cnt = w at *
    generalize diffOf (symbols cdf - 1) cnt = d at *
    by_cases hc : prob cdf s ≤ d + 32
    · have := h1 hc
      have := Int.ediv_nonneg (a := d + 32 - prob cdf s) (b := w) (by omega) (by omega)
      omega
    · have := h2 (by omega)
      omega
  · intro hp
    have := (prob_step hv hs le_rfl h).2 hp
    by_contra hc
    have : (32 * (symbols cdf : Int)) * (prob cdf' s - prob cdf s) ≤ 0 := mul_nonpos_of_nonneg_of_nonpos (by omega) (by omega)
    omega
  · intro j hj hjs
    obtain ⟨cnt, -, -, h1⟩ := prob_other hv hs hj hjs h
    have hd := diff_ge (symbols cdf) cnt (by omega)
    refine h1.trans (max_le_max le_rfl ?_)
    split <;> omega

/-- Whatever is coded, no symbol's probability falls below 32, or below what it was at the start. -/
theorem C133_floor : ∀ (hist : List Nat) {cdf cdf' : List Int}, ValidCdf cdf → (∀ s ∈ hist, s < symbols cdf) →
    hist.foldlM (fun (c : List Int) (s : Nat) => adapt c s) cdf = some cdf' → ∀ j < symbols cdf, min (prob cdf j) 32 ≤ prob cdf' j
  | [], cdf, cdf', _, _, h, j, _ => by
    simp only [List.foldlM_nil, Option.pure_def, Option.some.injEq] at h
    subst h
    omega
  | s :: hist, cdf, cdf', hv, hs, h, j, hj => by
    obtain ⟨cdf1, h1, h2, h3⟩ := adapt_valid hv (s : Int)
    rw [List.foldlM_cons, h1] at h
    have hsym : symbols cdf1 = symbols cdf := by simp [symbols, h3]
    have g1 := prob_floor hv (hs s (by simp)) hj h1
    have g2 := C133_floor hist h2 (fun x hx => by rw [hsym]; exact hs x (by simp [hx])) h j (by rw [hsym]; exact hj)
    omega

/-! ## Predictable sessions -/

/-- What a symbol of probability `p` costs more than one of probability `M`, for the upper bound of `C129_bits`. -/
noncomputable def excess (M : Int) (p : Int) : ℝ := Real.logb 2 (((M : ℝ) - 1) / (((min p M : Int) : ℝ) - 1))

theorem excess_nonneg {M p : Int} (hp : 2 ≤ p) (hM : 2 ≤ M) : 0 ≤ excess M p := by
  unfold excess
  apply Real.logb_nonneg (by norm_num)
  have h1 : (2 : ℝ) ≤ ((min p M : Int) : ℝ) := by exact_mod_cast le_min hp hM
  have h2 : ((min p M : Int) : ℝ) ≤ M := by exact_mod_cast min_le_right p M
  rw [le_div_iff₀ (by linarith)]
  linarith

theorem excess_le {M p : Int} (hp : 2 ≤ p) (hp2 : p ≤ 32768) (hM : 2 ≤ M) (hM2 : M ≤ 32769) :
    excess M p ≤ Real.logb 2 (32768 / ((p : ℝ) - 1)) := by
  have h1 : (2 : ℝ) ≤ p := by exact_mod_cast hp
  have h2 : (2 : ℝ) ≤ M := by exact_mod_cast hM
  have h3 : (M : ℝ) ≤ 32769 := by exact_mod_cast hM2
  have h4 : (p : ℝ) ≤ 32768 := by exact_mod_cast hp2
  unfold excess
  rcases le_total p M with h | h
  · rw [min_eq_left h]
    apply Real.logb_le_logb_of_le (by norm_num) (div_pos (by linarith) (by linarith))
    exact div_le_div_of_nonneg_right (by linarith) (by linarith)
  · rw [min_eq_right h, div_self (by linarith), Real.logb_one]
    apply Real.logb_nonneg (by norm_num)
    rw [le_div_iff₀ (by linarith)]
    linarith

theorem cost_le_excess {M p : Int} (hp : 2 ≤ p) (hM : 2 ≤ M) :
    Real.logb 2 (32768 / ((p : ℝ) - 1)) ≤ Real.logb 2 (32768 / ((M : ℝ) - 1)) + excess M p := by
  have h1 : (2 : ℝ) ≤ ((min p M : Int) : ℝ) := by exact_mod_cast le_min hp hM
  have h2 : ((min p M : Int) : ℝ) ≤ p := by exact_mod_cast min_le_left p M
  have h3 : (2 : ℝ) ≤ M := by exact_mod_cast hM
  unfold excess
  rw [← Real.logb_mul (by apply ne_of_gt; apply div_pos <;> linarith) (by apply ne_of_gt; apply div_pos <;> linarith),
    div_mul_div_cancel₀ (by linarith)]
  apply Real.logb_le_logb_of_le (by norm_num) (div_pos (by norm_num) (by linarith))
  exact div_le_div_of_nonneg_left (by norm_num) (by linarith) (by linarith)

/-- Each coding pays for itself: `K` times the fall of the excess is at least the excess. -/
theorem excess_step {M p p' : Int} {K : Nat} (hK : 1 ≤ K) (hp : 2 ≤ p) (hM : 2 ≤ M) (h1 : M ≤ p → M ≤ p')
    (h2 : p < M → M - p ≤ K * (p' - p)) : excess M p + K * excess M p' ≤ K * excess M p := by
  unfold excess
  rcases le_or_gt M p with h | h
  · rw [min_eq_right h, min_eq_right (h1 h), div_self, Real.logb_one]
    · simp
    · have : (2 : ℝ) ≤ M := by exact_mod_cast hM
      linarith
  · have hgap := h2 h
    rw [min_eq_left h.le]
    have hK' : (1 : Int) ≤ K := by exact_mod_cast hK
    have hq : M - p ≤ K * (min p' M - p) ∧ p ≤ min p' M := by
      rcases le_total p' M with hh | hh
      · rw [min_eq_left hh]
        refine ⟨hgap, ?_⟩
        by_contra hc
        have : (K : Int) * (p' - p) ≤ 0 := mul_nonpos_of_nonneg_of_nonpos (by omega) (by omega)
        omega
      · rw [min_eq_right hh]
        refine ⟨?_, h.le⟩
        nlinarith
    generalize min p' M = q at hq
    obtain ⟨hq1, hq2⟩ := hq
    have r1 : (2 : ℝ) ≤ p := by exact_mod_cast hp
    have r2 : (p : ℝ) ≤ q := by exact_mod_cast hq2
    have r3 : (M : ℝ) - p ≤ K * ((q : ℝ) - p) := by exact_mod_cast hq1
    have r4 : (2 : ℝ) ≤ M := by exact_mod_cast hM
    have hp1 : (0 : ℝ) < (p : ℝ) - 1 := by linarith
    have hq1' : (0 : ℝ) < (q : ℝ) - 1 := by linarith
    have hm1 : (0 : ℝ) < (M : ℝ) - 1 := by linarith
    have bern : ((M : ℝ) - 1) / (p - 1) ≤ (((q : ℝ) - 1) / (p - 1)) ^ K := by
      have e : ((q : ℝ) - 1) / (p - 1) = 1 + (q - p) / (p - 1) := by field_simp; ring
      have hb := one_add_mul_le_pow (a := ((q : ℝ) - p) / (p - 1))
        (by have : 0 ≤ ((q : ℝ) - p) / (p - 1) := div_nonneg (by linarith) (by linarith)
            linarith) K
      rw [e]
      refine le_trans ?_ hb
      rw [div_le_iff₀ hp1, add_mul, mul_assoc, div_mul_cancel₀ _ hp1.ne']
      linarith
    have hl := Real.logb_le_logb_of_le (b := 2) (by norm_num) (div_pos hm1 hp1) bern
    rw [Real.logb_pow, Real.logb_div hm1.ne' hp1.ne', Real.logb_div hq1'.ne' hp1.ne'] at hl
    rw [Real.logb_div hm1.ne' hp1.ne', Real.logb_div hm1.ne' hq1'.ne']
    linarith

/-- The tables `T` are ready for a session in which table `t` always meets the symbol `f t`. -/
def Ready (N : Nat) (f : Nat → Nat) (T : Finset Nat) (bank : Bank) : Prop :=
  ∀ t ∈ T, ∃ cdf, bank[t]? = some cdf ∧ f t < symbols cdf ∧ symbols cdf ≤ N ∧ 2 ≤ prob cdf (f t)

theorem learn_ops {N : Nat} (h341 : N ≤ 341) (f : Nat → Nat) (T : Finset Nat) :
    ∀ (ops : List Op) (bank : Bank), BankOk bank → (∀ op ∈ ops, ∃ t ∈ T, op = .sym t (f t)) → Ready N f T bank →
      ∃ ps bank', opsProbs bank ops = some (ps, bank') ∧ ps.length = ops.length ∧ (∀ p ∈ ps, 2 ≤ p) ∧
        (ps.map fun p : Int => Real.logb 2 (32768 / ((p : ℝ) - 1))).sum ≤
          ops.length * Real.logb 2 (32768 / (((32802 - 96 * N : Int) : ℝ) - 1)) +
            ∑ t ∈ T, ((32 * N : Nat) : ℝ) * excess (32802 - 96 * N) (prob (bank.getD t []) (f t))
  | [], bank, _, _, hr => by
    refine ⟨[], bank, rfl, rfl, by simp, ?_⟩
    simp only [List.map_nil, List.sum_nil, List.length_nil, Nat.cast_zero, zero_mul, zero_add]
    apply Finset.sum_nonneg
    intro t ht
    obtain ⟨cdf, h1, -, -, h4⟩ := hr t ht
    apply mul_nonneg (by positivity)
    rw [List.getD_eq_getElem?_getD, h1]
    exact excess_nonneg h4 (by omega)
  | op :: ops, bank, hb, ho, hr => by
    obtain ⟨t, ht, rfl⟩ := ho op (by simp)
    obtain ⟨cdf, h1, h2, h3, h4⟩ := hr t ht
    have hv := hb cdf (List.mem_of_getElem? h1)
    obtain ⟨cdf1, a1, a2, a3⟩ := adapt_valid hv ((f t : Nat) : Int)
    have hsym : symbols cdf1 = symbols cdf := by simp [symbols, a3]
    obtain ⟨s1, s2⟩ := prob_step hv h2 h3 a1
    have hfl := prob_floor hv h2 h2 a1
    have hlt : t < bank.length := by
      by_contra hc
      rw [List.getElem?_eq_none (by omega)] at h1
      cases h1
    have hr' : Ready N f T (bank.set t cdf1) := by
      intro t' ht'
      by_cases htt : t' = t
      · subst htt
        exact ⟨cdf1, by simp [hlt], by omega, by omega, by omega⟩
      · rw [List.getElem?_set_ne (fun h => htt h.symm)]
        exact hr t' ht'
    obtain ⟨ps, bank', b1, b2, b3, b4⟩ := learn_ops h341 f T ops (bank.set t cdf1)
      (by
        intro c hc
        rcases List.mem_or_eq_of_mem_set hc with h | h
        · exact hb c h
        · rw [h]; exact a2)
      (fun op hop => ho op (by simp [hop])) hr'
    refine ⟨prob cdf (f t) :: ps, bank', ?_, by simp [b2], ?_, ?_⟩
    · simp only [opsProbs, opProbs, h1, a1, b1, Option.bind_eq_bind, Option.bind_some, List.singleton_append]
    · intro p hp
      rcases List.mem_cons.1 hp with rfl | hp
      · exact h4
      · exact b3 p hp
    · have hM : (2 : Int) ≤ 32802 - 96 * N := by omega
      have hstep := excess_step (M := 32802 - 96 * N) (K := 32 * N) (by omega) h4 hM s1 (by push_cast; exact s2)
      have hcost := cost_le_excess h4 hM
      have e0 : bank.getD t [] = cdf := by rw [List.getD_eq_getElem?_getD, h1]; rfl
      have e1 : (bank.set t cdf1).getD t [] = cdf1 := by rw [List.getD_eq_getElem?_getD]; simp [hlt]
      have e2 : ∀ t' ∈ T.erase t, (bank.set t cdf1).getD t' [] = bank.getD t' [] := by
        intro t' ht'
        rw [List.getD_eq_getElem?_getD, List.getD_eq_getElem?_getD,
          List.getElem?_set_ne (fun h => (Finset.ne_of_mem_erase ht') h.symm)]
      rw [← Finset.add_sum_erase T _ ht] at b4 ⊢
      have e3 : ∑ x ∈ T.erase t, ((32 * N : Nat) : ℝ) * excess (32802 - 96 * N) (prob ((bank.set t cdf1).getD x []) (f x)) =
          ∑ x ∈ T.erase t, ((32 * N : Nat) : ℝ) * excess (32802 - 96 * N) (prob (bank.getD x []) (f x)) :=
        Finset.sum_congr rfl (fun x hx => by rw [e2 x hx])
      rw [e3, e1] at b4
      rw [e0, List.map_cons, List.sum_cons, List.length_cons]
      push_cast at b4 hstep hcost ⊢
      linarith

/-- A session in which every table always meets the same symbol. `T` are the tables in use and `N` is at least the number
of symbols of each. -/
theorem C133_predictable {N : Nat} (hN : N ≤ 341) {f : Nat → Nat} {T : Finset Nat} {bank : Bank} (hb : BankOk bank)
    (hr : Ready N f T bank) {ops : List Op} (ho : ∀ op ∈ ops, ∃ t ∈ T, op = .sym t (f t)) (c : BoolCoder) :
    ∃ c' bits bank', encodeSession c bank ops = some (c', bits, bank') ∧
      (bits.length : ℝ) ≤ 24 + ops.length * (Real.logb 2 (32768 / (32801 - 96 * N)) + Real.logb 2 (129 / 128)) +
        32 * N * ∑ t ∈ T, Real.logb 2 (32768 / ((prob (bank.getD t []) (f t) : ℝ) - 1)) := by
  have hok : OpsOk bank ops := by
    intro op hop
    obtain ⟨t, ht, rfl⟩ := ho op hop
    obtain ⟨cdf, h1, h2, -, -⟩ := hr t ht
    exact ⟨cdf, h1, h2⟩
  obtain ⟨c', bits, bank', ps0, h1, h2, -⟩ := C129_length hb hok c
  obtain ⟨ps, bank1, b1, b2, b3, b4⟩ := learn_ops hN f T ops bank hb ho hr
  rw [h2] at b1
  obtain ⟨rfl, rfl⟩ := Prod.mk.inj (Option.some.inj b1)
  refine ⟨c', bits, bank', h1, ?_⟩
  have hbits := C129_bits hb hok h1 h2 b3
  have hsum : (ps0.map fun p : Int => Real.logb 2 (32768 / ((p : ℝ) - 1)) + Real.logb 2 (129 / 128)).sum =
      (ps0.map fun p : Int => Real.logb 2 (32768 / ((p : ℝ) - 1))).sum + ps0.length * Real.logb 2 (129 / 128) := by
    clear hbits b3 b4 b2 b1 h2
    induction ps0 with
    | nil => simp
    | cons p ps ih => simp only [List.map_cons, List.sum_cons, List.length_cons, ih]; push_cast; ring
  rw [hsum, b2] at hbits
  have hex : ∑ t ∈ T, ((32 * N : Nat) : ℝ) * excess (32802 - 96 * N) (prob (bank.getD t []) (f t)) ≤
      32 * N * ∑ t ∈ T, Real.logb 2 (32768 / ((prob (bank.getD t []) (f t) : ℝ) - 1)) := by
    rw [Finset.mul_sum]
    apply Finset.sum_le_sum
    intro t ht
    obtain ⟨cdf, g1, g2, g3, g4⟩ := hr t ht
    have hv := hb cdf (List.mem_of_getElem? g1)
    rw [List.getD_eq_getElem?_getD, g1]
    push_cast
    apply mul_le_mul_of_nonneg_left _ (by positivity)
    exact excess_le g4 (prob_range hv g2).2 (by omega) (by omega)
  have e : (((32802 - 96 * N : Int) : ℝ) - 1) = 32801 - 96 * N := by push_cast; ring
  rw [e] at b4
  linarith

theorem logb_le_inv {x : ℝ} (hx : 0 < x) {k : Nat} (hk : 0 < k) (h : x ^ k ≤ 2) : Real.logb 2 x ≤ 1 / k := by
  have := Real.logb_le_logb_of_le (b := 2) (by norm_num) (by positivity) h
  rw [Real.logb_pow, Real.logb_self_eq_one (by norm_num)] at this
  rw [le_div_iff₀ (by exact_mod_cast hk)]
  linarith

/-- Flags (tables of two symbols): at most 1/54 of a bit each once learnt. -/
theorem C133_flags {f : Nat → Nat} {T : Finset Nat} {bank : Bank} (hb : BankOk bank)
    (hr : Ready 2 f T bank) {ops : List Op} (ho : ∀ op ∈ ops, ∃ t ∈ T, op = .sym t (f t)) (c : BoolCoder) :
    ∃ c' bits bank', encodeSession c bank ops = some (c', bits, bank') ∧
      (bits.length : ℝ) ≤ 24 + ops.length / 54 +
        64 * ∑ t ∈ T, Real.logb 2 (32768 / ((prob (bank.getD t []) (f t) : ℝ) - 1)) := by
  obtain ⟨c', bits, bank', h1, h2⟩ := C133_predictable (by norm_num) hb hr ho c
  refine ⟨c', bits, bank', h1, ?_⟩
  have h3 : Real.logb 2 (32768 / (32801 - 96 * ((2 : Nat) : ℝ))) + Real.logb 2 (129 / 128) ≤ 1 / (54 : Nat) := by
    rw [← Real.logb_mul (by norm_num) (by norm_num)]
    exact logb_le_inv (by norm_num) (by norm_num) (by norm_num)
  have h4 := mul_le_mul_of_nonneg_left h3 (Nat.cast_nonneg (α := ℝ) ops.length)
  push_cast at h2 h4
  linarith

/-- Tables of up to 16 symbols, which are all there are: at most 1/12 of a bit each once learnt. -/
theorem C133_symbols {f : Nat → Nat} {T : Finset Nat} {bank : Bank} (hb : BankOk bank)
    (hr : Ready 16 f T bank) {ops : List Op} (ho : ∀ op ∈ ops, ∃ t ∈ T, op = .sym t (f t)) (c : BoolCoder) :
    ∃ c' bits bank', encodeSession c bank ops = some (c', bits, bank') ∧
      (bits.length : ℝ) ≤ 24 + ops.length / 12 +
        512 * ∑ t ∈ T, Real.logb 2 (32768 / ((prob (bank.getD t []) (f t) : ℝ) - 1)) := by
  obtain ⟨c', bits, bank', h1, h2⟩ := C133_predictable (by norm_num) hb hr ho c
  refine ⟨c', bits, bank', h1, ?_⟩
  have h3 : Real.logb 2 (32768 / (32801 - 96 * ((16 : Nat) : ℝ))) + Real.logb 2 (129 / 128) ≤ 1 / (12 : Nat) := by
    rw [← Real.logb_mul (by norm_num) (by norm_num)]
    exact logb_le_inv (by norm_num) (by norm_num) (by norm_num)
  have h4 := mul_le_mul_of_nonneg_left h3 (Nat.cast_nonneg (α := ℝ) ops.length)
  push_cast at h2 h4
  linarith

/-- The default tables have at most 16 symbols. -/
theorem C133_default_size : ∀ cdf ∈ defaultBank, symbols cdf ≤ 16 := by
  have h : (Default.families.all fun f => f.tables.all fun t => decide (t.length ≤ 17)) = true := by decide +kernel
  intro cdf hc
  obtain ⟨f, hf, hm⟩ := List.mem_flatMap.1 hc
  simp only [Family.cdfs, List.mem_map] at hm
  obtain ⟨t, ht, rfl⟩ := hm
  have := List.all_eq_true.1 (List.all_eq_true.1 h f hf) t ht
  simp only [decide_eq_true_eq] at this
  simp [symbols]
  omega

theorem default_gaps : (Default.families.all fun f => f.tables.all fun t => (List.range (t.length - 1)).all fun s =>
    Nat.ble ((if s = 0 then 0 else t.getD (s - 1) 0) + 2) (t.getD s 0) || (s == 10 && Default.mv_class.tables.contains t)) = true := by
  decide +kernel

theorem getD_ofNat (t : List Nat) (i : Nat) : (t.map Int.ofNat).getD i 0 = ((t.getD i 0 : Nat) : Int) := by
  rw [List.getD_eq_getElem?_getD, List.getD_eq_getElem?_getD, List.getElem?_map]
  cases t[i]? <;> rfl

/-- Of all symbols of all default tables only the largest class of motion vector difference is too unlikely for the bound. -/
theorem C133_default_ready {s : Nat} {cdf : List Int} (hc : cdf ∈ defaultBank) (hs : s < symbols cdf) :
    2 ≤ prob cdf s ∨ (s = 10 ∧ cdf ∈ Default.mv_class.cdfs) := by
  obtain ⟨f, hf, hm⟩ := List.mem_flatMap.1 hc
  simp only [Family.cdfs, List.mem_map] at hm
  obtain ⟨t, ht, rfl⟩ := hm
  have h := List.all_eq_true.1 (List.all_eq_true.1 (List.all_eq_true.1 default_gaps f hf) t ht) s
    (by simpa [symbols] using hs)
  rcases Bool.or_eq_true_iff.1 h with h | h
  · left
    have h := Nat.le_of_ble_eq_true h
    unfold prob
    rw [getD_ofNat, getD_ofNat]
    split at h <;> rename_i hz
    · rw [if_pos hz]; omega
    · rw [if_neg hz]; omega
  · right
    simp only [Bool.and_eq_true, beq_iff_eq, List.contains_iff_mem] at h
    exact ⟨h.1, List.mem_map.2 ⟨t, h.2, rfl⟩⟩

/-- A table of four symbols that meets the symbol 2 again and again. -/
example : Ready 4 (fun _ => 2) {0} [[8192, 16384, 24576, 32768, 0]] := by
  intro t ht
  simp only [Finset.mem_singleton] at ht
  subst ht
  exact ⟨_, rfl, by decide, by decide, by decide⟩

/-- What it learns: after 1, 100 and 1000 symbols. -/
example : ([1, 100, 1000].map fun n => ((List.replicate n (2 : Int)).foldlM adapt [8192, 16384, 24576, 32768, 0]).map
    (prob · 2)) = [some 8575, some 23997, some 32545] := by decide +kernel

end Av1
