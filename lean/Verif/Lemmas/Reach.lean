import Verif.Lemmas.Session
import Verif.Spec.Reach

namespace Av1

theorem reachable_inv {k : Nat} {c : BoolCoder} (h : ReachableIn k c) :
    ∃ O n, EncInv O c n ∧ n ≤ 15 * k ∧ c.value < 65536 ∧ 32768 ≤ c.range := by
  induction h with
  | init c => exact ⟨[], 0, initEncoder_inv c, by omega, by simp [initEncoder], le_of_eq rfl⟩
  | step _ hv hs he ih =>
    obtain ⟨O, n, h1, h2, h3, h4⟩ := ih
    obtain ⟨c1, em, j, t, a1, a2, a3, a4, a5, a6, -⟩ := encodeSymbol_spec hv hs h1 h3 h4
    rw [he] at a1
    simp only [Option.some.injEq, Prod.mk.injEq] at a1
    obtain ⟨rfl, rfl, rfl⟩ := a1
    exact ⟨_, _, a4, by omega, a5, a6⟩

theorem zeroCount_le {O : Bits} {c : BoolCoder} {n : Nat} (h : EncInv O c n) : c.zeroCount ≤ n := by
  cases hf : c.first with
  | true => obtain ⟨-, -, h3, -⟩ := h.fst hf; omega
  | false =>
    obtain ⟨h1, -⟩ := h.nfst hf
    rw [pend_length] at h1
    have := h.z0
    omega

theorem inc_mem : ∀ (body : List Int) (p M x : Int), Inc p body M → x ∈ body → p < x ∧ x < M
  | [], _, _, _, _, h => by simp at h
  | c :: rest, p, M, x, h, hx => by
    rcases List.mem_cons.1 hx with rfl | hx
    · exact ⟨h.1, inc_lt_last rest x M h.2⟩
    · have := inc_mem rest c M x h.2 hx
      have := h.1
      omega

theorem valid_entries {cdf : List Int} (hv : ValidCdf cdf) (i : Nat) (hi : i < symbols cdf) :
    0 ≤ cdf[i]'(by unfold symbols at hi; omega) ∧ cdf[i]'(by unfold symbols at hi; omega) ≤ 32768 := by
  obtain ⟨body, cnt, rfl, hinc, h0, h32, hlen⟩ := hv
  have hi' : i ≤ body.length := by simp [symbols] at hi; omega
  rcases Nat.lt_or_eq_of_le hi' with h | h
  · rw [List.getElem_append_left h]
    have := inc_mem body 0 32768 _ hinc (List.getElem_mem h)
    omega
  · subst h
    simp

theorem encInterval_inv {O : Bits} {c : BoolCoder} {n : Nat} (h : EncInv O c n) {left right : Int} (h0 : 0 ≤ right)
    (h1 : right < left) (h2 : left ≤ c.range) :
    EncInv O { c with value := c.value + (c.range - left), range := left - right } n := by
  set c1 : BoolCoder := { c with value := c.value + (c.range - left), range := left - right } with hc1
  have hv0 := h.v0
  have hvr := h.vr
  have hr1 := h.r1
  have hpend : pend c1 = pend c := rfl
  have hlow1 : low O c1 = low O c + (c.range - left) := by
    unfold low; rw [hpend]; simp only [hc1]; ring
  refine ⟨by simp only [hc1]; omega, by simp only [hc1]; omega, by simp only [hc1]; omega, by simp only [hc1]; omega,
    h.z0, ?_, ?_⟩
  · intro hf
    obtain ⟨a, b, c', d, e⟩ := h.fst hf
    exact ⟨a, b, c', d, by simp only [hc1]; omega⟩
  · intro hf
    obtain ⟨a, b⟩ := h.nfst hf
    refine ⟨a, ?_⟩
    rw [hlow1, hpend]
    simp only [hc1]
    omega

theorem encCarry_range (c : BoolCoder) : (encCarry c).1.range = c.range := by
  unfold encCarry; split
  · split <;> rfl
  · rfl

theorem renormStep_range (c : BoolCoder) : (renormStep c).1.range = 2 * c.range := by
  unfold renormStep
  simp only [shl_def]
  split
  · simp; ring
  · split <;> simp <;> ring

theorem renorm_zero : ∀ (fuel : Nat) (c : BoolCoder), c.range = 0 → renorm fuel c = none
  | 0, c, h => by simp [renorm, h]
  | fuel + 1, c, h => by
    have := renorm_zero fuel (renormStep c).1 (by rw [renormStep_range, h]; rfl)
    simp [renorm, h, this]

theorem renormTrace_fits : ∀ (fuel : Nat) {O : Bits} {c : BoolCoder} {n : Nat}, EncInv O c n → c.value < 65536 →
    ∀ x ∈ renormTrace fuel c, 0 ≤ x ∧ x < 131072 + n + fuel
  | 0, _, _, _, _, _, x, hx => by simp [renormTrace] at hx
  | fuel + 1, O, c, n, h, hv, x, hx => by
    unfold renormTrace at hx
    split at hx
    · rename_i hr
      have h0 := h.v0
      have h1 := h.r0
      have h2 := zeroCount_le h
      have h3 := h.z0
      rw [List.mem_append] at hx
      rcases hx with hx | hx
      · simp only [shl_def, List.mem_cons, List.not_mem_nil, or_false] at hx
        rcases hx with rfl | rfl | rfl <;> push_cast <;> omega
      · obtain ⟨g1, g2, -⟩ := renormStep_spec h hv hr
        have := renormTrace_fits fuel g1 g2 x hx
        push_cast at *
        omega
    · simp at hx

theorem shr_bounds {x B : Int} (r : Nat) (h1 : -B ≤ x) (h2 : x ≤ B) : -B ≤ x >>> r ∧ x >>> r ≤ B := by
  rw [shr_def]
  have hp : (0 : Int) < 2 ^ r := by positivity
  have hp1 : (1 : Int) ≤ 2 ^ r := by omega
  constructor
  · rw [Int.le_ediv_iff_mul_le hp]; nlinarith
  · apply Int.ediv_le_of_le_mul hp; nlinarith

theorem adaptTrace_fits (rate : Nat) (diff symbol : Int) (hd0 : 0 ≤ diff) (hd : diff ≤ 32768) :
    ∀ (l : List Int) (i tmp : Int), (∀ x ∈ l, 0 ≤ x ∧ x ≤ 32768) → 0 ≤ tmp →
      tmp + 32800 * l.length ≤ 2 ^ 26 →
      ∀ x ∈ adaptTrace rate diff symbol i tmp l, -2 ^ 28 ≤ x ∧ x ≤ 2 ^ 28
  | [], _, _, _, _, _, x, hx => by simp [adaptTrace] at hx
  | c :: rest, i, tmp, hl, h0, hb, x, hx => by
    have hc := hl c (by simp)
    simp only [List.length_cons] at hb
    push_cast at hb
    unfold adaptTrace at hx
    set t := tmp + (if i = symbol then diff else 0) with ht
    have ht0 : 0 ≤ t ∧ t ≤ tmp + 32768 := by rw [ht]; split <;> constructor <;> omega
    have hs := shr_bounds (x := c - t) (B := 2 ^ 27) rate (by omega) (by omega)
    simp only [List.mem_append] at hx
    rcases hx with hx | hx
    · simp only [List.mem_cons, List.not_mem_nil, or_false] at hx
      generalize (c - t) >>> rate = u at *
      rcases hx with rfl | rfl | rfl | rfl | rfl <;> omega
    · exact adaptTrace_fits rate diff symbol hd0 hd rest _ _ (fun y hy => hl y (by simp [hy])) (by omega) (by omega) x hx

theorem adapt_fits {cdf : List Int} (hv : ValidCdf cdf) (s : Int) :
    ∃ rate cnt, adaptRate cdf = some rate ∧ cdf[cdf.length - 1]? = some cnt ∧ FitsI32 (cnt + 1) ∧ rate < 31 ∧
      FitsI32 ((cdf.length - 1 : Nat) * 32) ∧
      ∀ x ∈ adaptTrace rate (((32768 - (((cdf.length - 1 : Nat) : Int) <<< 5)) >>> rate) <<< rate) s 0 32
        (cdf.take (cdf.length - 1 - 1)), FitsI32 x := by
  obtain ⟨body, cnt, rfl, hinc, h0, h32, hlen⟩ := hv
  have hl : (body ++ [(32768 : Int), cnt]).length - 1 = body.length + 1 := by simp
  have hget : (body ++ [(32768 : Int), cnt])[body.length + 1]? = some cnt := by
    rw [List.getElem?_append_right (by omega)]; simp
  have hrate : adaptRate (body ++ [(32768 : Int), cnt]) = some (rateOf body.length cnt) := by
    unfold adaptRate
    rw [hl]
    simp only [hget, Option.bind_eq_bind, Option.bind_some]
    rw [Nat.mod_eq_of_lt (by omega), msb16_eq _ (by omega)]
    rfl
  have hd : ((32768 - (((body.length + 1 : Nat) : Int) <<< 5)) >>> (rateOf body.length cnt)) <<< (rateOf body.length cnt)
      = diffOf body.length cnt := by
    unfold diffOf
    rw [shr_def, shl_def, shl_def]
    norm_num
  have hlog : (body.length + 1).log2 < 11 := (Nat.log2_lt (by omega)).2 (by omega)
  refine ⟨_, cnt, hrate, by rw [hl]; exact hget, by unfold FitsI32; omega, by unfold rateOf; split <;> omega, ?_, ?_⟩
  · rw [hl]; unfold FitsI32; push_cast; omega
  · rw [hl, hd]
    simp only [Nat.add_sub_cancel, List.take_left']
    intro x hx
    have h1 := diffOf_nonneg body.length cnt hlen
    have h2 := diffOf_le body.length cnt
    have := adaptTrace_fits _ _ s h1 (by push_cast at h2; omega) body 0 32
      (fun y hy => by have := inc_mem body 0 32768 y hinc hy; omega) (by omega) (by omega) x hx
    unfold FitsI32
    omega

end Av1
