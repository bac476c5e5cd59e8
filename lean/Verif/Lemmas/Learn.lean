import Verif.Lemmas.Cdf
import Verif.Spec.Cost
import Mathlib.Tactic.Linarith

/-! # How one coded symbol changes the probabilities of its table -/

namespace Av1

theorem adaptGo_get (rate : Nat) (diff sym : Int) : ∀ (body : List Int) (i tmp : Int) (k : Nat),
    (adaptGo rate diff sym i tmp body)[k]? =
      body[k]?.map fun c => move rate c (tmp + 32 * k + if i ≤ sym ∧ sym ≤ i + k then diff else 0)
  | [], _, _, _ => by simp [adaptGo]
  | c :: rest, i, tmp, 0 => by
    simp only [adaptGo, List.getElem?_cons_zero, Option.map_some, move]
    congr 4
    by_cases h : i = sym
    · simp [h]
    · rw [if_neg h, if_neg (by omega)]; simp
  | c :: rest, i, tmp, k + 1 => by
    simp only [adaptGo, List.getElem?_cons_succ]
    rw [adaptGo_get rate diff sym rest (i + 1) _ k]
    congr 1
    funext x
    congr 1
    by_cases h : i = sym
    · rw [if_pos h, if_neg (by omega), if_pos (by push_cast; omega)]; push_cast; omega
    · rw [if_neg h]
      by_cases h2 : i + 1 ≤ sym ∧ sym ≤ i + 1 + k
      · rw [if_pos h2, if_pos (by push_cast; omega)]; push_cast; omega
      · rw [if_neg h2, if_neg (by push_cast; omega)]; push_cast; omega

/-- The target of the bound above symbol `i` when symbol `s` has been coded. -/
def target (d : Int) (s i : Nat) : Int := 32 * ((i : Int) + 1) + if s ≤ i then d else 0

theorem adapt_get {body : List Int} {cnt : Int} {s : Nat} {cdf' : List Int} (hb : body.length < 1024)
    (h : adapt (body ++ [32768, cnt]) s = some cdf') (i : Nat) :
    cdf'.getD i 0 = if i < body.length then move (rateOf body.length cnt) ((body ++ [32768, cnt]).getD i 0)
        (target (diffOf body.length cnt) s i)
      else ([32768, cnt + (if cnt < 32 then 1 else 0)] : List Int).getD (i - body.length) 0 := by
  rw [adapt_eq body cnt s hb] at h
  have h := Option.some.inj h
  subst h
  rw [List.getD_eq_getElem?_getD]
  by_cases hi : i < body.length
  · rw [if_pos hi, List.getElem?_append_left (by rw [length_adaptGo]; exact hi), adaptGo_get, List.getD_eq_getElem?_getD,
      List.getElem?_append_left hi, List.getElem?_eq_getElem hi]
    simp only [Option.map_some, Option.getD_some, target]
    congr 1
    by_cases hs : s ≤ i
    · rw [if_pos (by omega), if_pos hs]; ring
    · rw [if_neg (by omega), if_neg hs]; ring
  · rw [if_neg hi, List.getElem?_append_right (by rw [length_adaptGo]; omega), length_adaptGo, List.getD_eq_getElem?_getD]

theorem getD_last (body : List Int) (cnt : Int) : (body ++ [32768, cnt]).getD body.length 0 = 32768 := by
  rw [List.getD_eq_getElem?_getD, List.getElem?_append_right (Nat.le_refl _)]
  simp

theorem div_add_le (x y : Int) (k : Nat) : x / 2 ^ k + y / 2 ^ k ≤ (x + y) / 2 ^ k := by
  have hp : (0 : Int) < 2 ^ k := by positivity
  rw [Int.le_ediv_iff_mul_le hp, add_mul]
  exact add_le_add (Int.ediv_mul_le _ (by omega)) (Int.ediv_mul_le _ (by omega))

/-- The coded symbol: it gains a fraction of what it lacks of the saturation `D`, and does not fall below `D`. -/
theorem prob_coded {cdf cdf' : List Int} (hv : ValidCdf cdf) {s : Nat} (hs : s < symbols cdf) (h : adapt cdf s = some cdf') :
    ∃ cnt, 0 ≤ cnt ∧ cnt ≤ 32 ∧
      let r := rateOf (symbols cdf - 1) cnt
      let D := diffOf (symbols cdf - 1) cnt + 32
      (prob cdf s ≤ D → prob cdf s + (D - prob cdf s) / 2 ^ r ≤ prob cdf' s) ∧ (D ≤ prob cdf s → D ≤ prob cdf' s) := by
  obtain ⟨body, cnt, rfl, hinc, h0, h32, hlen⟩ := hv
  refine ⟨cnt, h0, h32, ?_⟩
  have hsym : symbols (body ++ [32768, cnt]) - 1 = body.length := by simp [symbols]
  have hs' : s < body.length + 1 := by simpa [symbols] using hs
  rw [hsym]
  intro r D
  have hD : D ≤ 32768 - 32 * (body.length : Int) := by
    have := diffOf_le body.length cnt
    push_cast at this
    show diffOf body.length cnt + 32 ≤ _
    omega
  have hd0 := diffOf_nonneg body.length cnt hlen
  have e := adapt_get hlen h
  have hr : (1 : Int) ≤ 2 ^ r := one_le_pow₀ (by norm_num)
  -- the two bounds of the symbol
  have up : cdf'.getD s 0 = if s < body.length then move r ((body ++ [32768, cnt]).getD s 0) (32 * ((s : Int) + 1) + diffOf body.length cnt)
      else 32768 := by
    rw [e s]
    split
    · simp [target, r]
    · have : s = body.length := by omega
      subst this
      simp
  have old : ¬ s < body.length → (body ++ [32768, cnt]).getD s 0 = 32768 := by
    intro hn
    have : s = body.length := by omega
    subst this
    exact getD_last body cnt
  have low : (if s = 0 then (0 : Int) else cdf'.getD (s - 1) 0) =
      if s = 0 then 0 else move r ((body ++ [32768, cnt]).getD (s - 1) 0) (32 * (s : Int)) := by
    split
    · rfl
    · rename_i hn
      rw [e (s - 1), if_pos (by omega)]
      unfold target
      rw [if_neg (by omega)]
      congr 1
      push_cast [Nat.cast_sub (show 1 ≤ s by omega)]
      ring
  unfold prob
  rw [up, low]
  generalize hcs : (body ++ [32768, cnt]).getD s 0 = cs at old ⊢
  generalize hcl : (body ++ [32768, cnt]).getD (s - 1) 0 = cl
  unfold move
  simp only [shr_def]
  have hDd : D = diffOf body.length cnt + 32 := rfl
  clear up low e h
  generalize diffOf body.length cnt = d at hDd hd0 ⊢
  clear_value D r
  have key1 : ∀ x y : Int, x ≤ y → x / 2 ^ r ≤ y / 2 ^ r := fun x y hxy => div_mono r hxy
  by_cases hlast : s < body.length
  · rw [if_pos hlast]
    by_cases hz : s = 0
    · rw [if_pos hz, if_pos hz, hz]
      simp only [Nat.cast_zero, zero_add, mul_one, sub_zero]
      constructor
      · intro hp
        have := div_add_le (cs - (32 + d)) (D - cs) r
        rw [hDd] at this ⊢
        rw [show cs - (32 + d) + (d + 32 - cs) = 0 by ring] at this
        simp only [Int.zero_ediv] at this
        omega
      · intro hp
        have := div_sub_le r (x := 0) (y := cs - (32 + d)) (by omega)
        simp only [Int.zero_ediv] at this
        omega
    · rw [if_neg hz, if_neg hz]
      constructor
      · intro hp
        have := div_add_le (cs - (32 * ((s : Int) + 1) + d)) (D - (cs - cl)) r
        rw [show cs - (32 * ((s : Int) + 1) + d) + (D - (cs - cl)) = cl - 32 * s by rw [hDd]; ring] at this
        omega
      · intro hp
        have := div_sub_le r (x := cl - 32 * s) (y := cs - (32 * ((s : Int) + 1) + d)) (by omega)
        omega
  · rw [if_neg hlast, old hlast]
    have hsb : s = body.length := by omega
    by_cases hz : s = 0
    · rw [if_pos hz, if_pos hz]
      constructor
      · intro hp
        have : D - (32768 - 0) ≤ 0 := by omega
        have := key1 _ _ this
        simp only [Int.zero_ediv] at this
        omega
      · intro hp; omega
    · rw [if_neg hz, if_neg hz]
      constructor
      · intro hp
        have := key1 (D - (32768 - cl)) (cl - 32 * s) (by rw [hsb]; omega)
        omega
      · intro hp
        by_cases hc : cl - 32 * s ≤ 0
        · have := div_sub_le r (x := cl - 32 * s) (y := 0) hc
          simp only [Int.zero_ediv] at this
          rw [hsb] at this ⊢
          omega
        · have := Int.ediv_nonneg (a := cl - 32 * s) (b := 2 ^ r) (by omega) (by omega)
          omega

/-- Every other symbol: it does not grow beyond what it had, or the least the targets leave. -/
theorem prob_other {cdf cdf' : List Int} (hv : ValidCdf cdf) {s j : Nat} (hs : s < symbols cdf) (hj : j < symbols cdf) (hsj : j ≠ s)
    (h : adapt cdf s = some cdf') :
    ∃ cnt, 0 ≤ cnt ∧ cnt ≤ 32 ∧
      prob cdf' j ≤ max (prob cdf j) (if j + 1 = symbols cdf then
        32768 - 32 * ((symbols cdf : Int) - 1) - diffOf (symbols cdf - 1) cnt else 32) := by
  obtain ⟨body, cnt, rfl, hinc, h0, h32, hlen⟩ := hv
  refine ⟨cnt, h0, h32, ?_⟩
  have hsym : symbols (body ++ [32768, cnt]) = body.length + 1 := by simp [symbols]
  rw [hsym] at hs hj ⊢
  rw [Nat.add_sub_cancel]
  have hd0 := diffOf_nonneg body.length cnt hlen
  have e := adapt_get hlen h
  generalize rateOf body.length cnt = r at e
  generalize diffOf body.length cnt = d at e hd0 ⊢
  have hpos : (0 : Int) < 2 ^ r := by positivity
  have old : ¬ j < body.length → (body ++ [32768, cnt]).getD j 0 = 32768 := by
    intro hn
    have : j = body.length := by omega
    subst this
    exact getD_last body cnt
  have up : cdf'.getD j 0 = if j < body.length then move r ((body ++ [32768, cnt]).getD j 0) (target d s j) else 32768 := by
    rw [e j]
    split
    · rfl
    · have : j = body.length := by omega
      subst this
      simp
  have low : (if j = 0 then (0 : Int) else cdf'.getD (j - 1) 0) =
      if j = 0 then 0 else move r ((body ++ [32768, cnt]).getD (j - 1) 0) (target d s (j - 1)) := by
    split
    · rfl
    · rw [e (j - 1), if_pos (by omega)]
  unfold prob
  rw [up, low]
  generalize (body ++ [32768, cnt]).getD j 0 = cj at old ⊢
  generalize (body ++ [32768, cnt]).getD (j - 1) 0 = cl
  unfold move
  simp only [shr_def]
  by_cases hlast : j < body.length
  · rw [if_pos hlast, if_neg (show ¬ j + 1 = body.length + 1 by omega)]
    by_cases hz : j = 0
    · have ht : target d s j = 32 := by unfold target; rw [if_neg (by omega), hz]; simp
      rw [if_pos hz, if_pos hz, ht]
      by_cases hc : cj ≤ 32
      · have := div_sub_le r (x := cj - 32) (y := 0) (by omega)
        simp only [Int.zero_ediv] at this
        omega
      · have := Int.ediv_nonneg (a := cj - 32) (b := 2 ^ r) (by omega) (by omega)
        omega
    · have ht : target d s j = target d s (j - 1) + 32 := by
        unfold target
        have : ((j - 1 : Nat) : Int) = j - 1 := by omega
        rw [this]
        by_cases hh : s ≤ j
        · rw [if_pos hh, if_pos (by omega)]; ring
        · rw [if_neg hh, if_neg (by omega)]; ring
      rw [if_neg hz, if_neg hz, ht]
      generalize target d s (j - 1) = t
      by_cases hc : cj - cl ≤ 32
      · have := div_sub_le r (x := cj - (t + 32)) (y := cl - t) (by omega)
        omega
      · have := div_mono r (x := cl - t) (y := cj - (t + 32)) (by omega)
        omega
  · rw [if_neg hlast, old hlast, if_pos (show j + 1 = body.length + 1 by omega)]
    have hjb : j = body.length := by omega
    have hz : j ≠ 0 := by omega
    rw [if_neg hz, if_neg hz]
    have ht : target d s (j - 1) = 32 * j + d := by
      unfold target
      have : ((j - 1 : Nat) : Int) = j - 1 := by omega
      rw [this, if_pos (by omega)]; ring
    rw [ht]
    by_cases hc : cl - (32 * j + d) ≤ 0
    · have := div_mono r hc
      simp only [Int.zero_ediv] at this
      have : 32768 - (cl - (cl - (32 * j + d)) / 2 ^ r) ≤ 32768 - cl := by omega
      omega
    · have := div_sub_le r (x := 0) (y := cl - (32 * j + d)) (by omega)
      simp only [Int.zero_ediv] at this
      rw [hjb] at this ⊢
      push_cast
      omega

theorem rate_le (N : Nat) (cnt : Int) (hN : 1 ≤ N) : (2 : Int) ^ rateOf (N - 1) cnt ≤ 32 * N := by
  unfold rateOf
  rw [show N - 1 + 1 = N by omega]
  have h1 : 2 ^ N.log2 ≤ N := Nat.log2_self_le (by omega)
  have h2 : (2 : Int) ^ N.log2 ≤ N := by exact_mod_cast h1
  rw [pow_add]
  split
  · norm_num; omega
  · norm_num; omega

theorem diff_ge (N : Nat) (cnt : Int) (hN : 1 ≤ N) : 32769 - 64 * (N : Int) ≤ diffOf (N - 1) cnt := by
  unfold diffOf
  have h := rate_le N cnt hN
  rw [show N - 1 + 1 = N by omega]
  have hp : (0 : Int) < 2 ^ rateOf (N - 1) cnt := by positivity
  have h1 := Int.emod_lt_of_pos (32768 - (N : Int) * 32) hp
  have h2 := Int.emod_add_mul_ediv (32768 - (N : Int) * 32) (2 ^ rateOf (N - 1) cnt)
  have h3 := mul_comm ((32768 - (N : Int) * 32) / 2 ^ rateOf (N - 1) cnt) (2 ^ rateOf (N - 1) cnt)
  omega

/-- No symbol falls below 32, or below what it had. -/
theorem prob_floor {cdf cdf' : List Int} (hv : ValidCdf cdf) {s j : Nat} (hs : s < symbols cdf) (hj : j < symbols cdf)
    (h : adapt cdf s = some cdf') : min (prob cdf j) 32 ≤ prob cdf' j := by
  by_cases hsj : j = s
  · subst hsj
    obtain ⟨cnt, -, -, h1, h2⟩ := prob_coded hv hs h
    obtain ⟨body, cnt0, rfl, -, -, -, hlen⟩ := hv
    have hd0 := diffOf_nonneg body.length cnt hlen
    have hb : symbols (body ++ [32768, cnt0]) - 1 = body.length := by simp [symbols]
    rw [hb] at h1 h2
    generalize diffOf body.length cnt = d at *
    have hpos : (0 : Int) < 2 ^ rateOf body.length cnt := by positivity
    generalize (2 : Int) ^ rateOf body.length cnt = w at *
    by_cases hc : prob (body ++ [32768, cnt0]) j ≤ d + 32
    · have := h1 hc
      have := Int.ediv_nonneg (a := d + 32 - prob (body ++ [32768, cnt0]) j) (b := w) (by omega) (by omega)
      omega
    · have := h2 (by omega)
      omega
  obtain ⟨body, cnt, rfl, hinc, h0, h32, hlen⟩ := hv
  have hsym : symbols (body ++ [32768, cnt]) = body.length + 1 := by simp [symbols]
  rw [hsym] at hs hj
  have hd0 := diffOf_nonneg body.length cnt hlen
  have hd1 := diffOf_le body.length cnt
  have e := adapt_get hlen h
  generalize rateOf body.length cnt = r at e
  generalize diffOf body.length cnt = d at e hd0 hd1
  have hpos : (0 : Int) < 2 ^ r := by positivity
  have old : ¬ j < body.length → (body ++ [32768, cnt]).getD j 0 = 32768 := by
    intro hn
    have : j = body.length := by omega
    subst this
    exact getD_last body cnt
  have up : cdf'.getD j 0 = if j < body.length then move r ((body ++ [32768, cnt]).getD j 0) (target d s j) else 32768 := by
    rw [e j]
    split
    · rfl
    · have : j = body.length := by omega
      subst this
      simp
  have low : (if j = 0 then (0 : Int) else cdf'.getD (j - 1) 0) =
      if j = 0 then 0 else move r ((body ++ [32768, cnt]).getD (j - 1) 0) (target d s (j - 1)) := by
    split
    · rfl
    · rw [e (j - 1), if_pos (by omega)]
  unfold prob
  rw [up, low]
  generalize (body ++ [32768, cnt]).getD j 0 = cj at old ⊢
  generalize (body ++ [32768, cnt]).getD (j - 1) 0 = cl
  unfold move
  simp only [shr_def]
  by_cases hlast : j < body.length
  · rw [if_pos hlast]
    by_cases hz : j = 0
    · have ht : target d s j = 32 := by unfold target; rw [if_neg (by omega), hz]; simp
      rw [if_pos hz, if_pos hz, ht]
      by_cases hc : cj ≤ 32
      · have := div_mono r (x := cj - 32) (y := 0) (by omega)
        simp only [Int.zero_ediv] at this
        omega
      · have := div_sub_le r (x := 0) (y := cj - 32) (by omega)
        simp only [Int.zero_ediv] at this
        omega
    · have ht : target d s j = target d s (j - 1) + 32 := by
        unfold target
        have : ((j - 1 : Nat) : Int) = j - 1 := by omega
        rw [this]
        by_cases hh : s ≤ j
        · rw [if_pos hh, if_pos (by omega)]; ring
        · rw [if_neg hh, if_neg (by omega)]; ring
      rw [if_neg hz, if_neg hz, ht]
      generalize target d s (j - 1) = t
      by_cases hc : cj - cl ≤ 32
      · have := div_mono r (x := cj - (t + 32)) (y := cl - t) (by omega)
        omega
      · have := div_sub_le r (x := cl - t) (y := cj - (t + 32)) (by omega)
        omega
  · rw [if_neg hlast, old hlast]
    have hjb : j = body.length := by omega
    have hz : j ≠ 0 := by omega
    rw [if_neg hz, if_neg hz]
    have ht : target d s (j - 1) = 32 * j + d := by
      unfold target
      have : ((j - 1 : Nat) : Int) = j - 1 := by omega
      rw [this, if_pos (by omega)]; ring
    rw [ht]
    have hj2 : 32 * (j : Int) + d ≤ 32768 - 32 := by rw [hjb]; push_cast at hd1; omega
    by_cases hc : cl - (32 * j + d) ≤ 0
    · have := div_sub_le r hc
      simp only [Int.zero_ediv] at this
      omega
    · have := Int.ediv_nonneg (a := cl - (32 * j + d)) (b := 2 ^ r) (by omega) (by omega)
      omega

/-- The coded symbol, with bounds that do not depend on the table's counter and are the same for all tables of at most `N`
symbols. -/
theorem prob_step {cdf cdf' : List Int} (hv : ValidCdf cdf) {s N : Nat} (hs : s < symbols cdf) (hN : symbols cdf ≤ N)
    (h : adapt cdf s = some cdf') :
    (32802 - 96 * (N : Int) ≤ prob cdf s → 32802 - 96 * (N : Int) ≤ prob cdf' s) ∧
    (prob cdf s < 32802 - 96 * (N : Int) →
      32802 - 96 * (N : Int) - prob cdf s ≤ 32 * N * (prob cdf' s - prob cdf s)) := by
  obtain ⟨cnt, -, -, h1, h2⟩ := prob_coded hv hs h
  have hr := rate_le (symbols cdf) cnt (by omega)
  have hd := diff_ge (symbols cdf) cnt (by omega)
  have hpos : (0 : Int) < 2 ^ rateOf (symbols cdf - 1) cnt := by positivity
  generalize (2 : Int) ^ rateOf (symbols cdf - 1) cnt = w at *
  generalize diffOf (symbols cdf - 1) cnt = d at *
  generalize prob cdf s = p at *
  generalize prob cdf' s = p' at *
  have hN' : (symbols cdf : Int) ≤ N := by exact_mod_cast hN
  have h1N : (1 : Int) ≤ N := by omega
  constructor
  · intro hp
    by_cases hc : p ≤ d + 32
    · have := h1 hc
      have := Int.ediv_nonneg (a := d + 32 - p) (b := w) (by omega) (by omega)
      omega
    · have := h2 (by omega)
      omega
  · intro hp
    have := h1 (by omega)
    have h3 : (d + 32 - p) < (p' - p + 1) * w := by
      have := Int.lt_ediv_add_one_mul_self (d + 32 - p) hpos
      have : ((d + 32 - p) / w + 1) * w ≤ (p' - p + 1) * w := mul_le_mul_of_nonneg_right (by omega) (by omega)
      omega
    have h4 : (p' - p + 1) * w ≤ (p' - p + 1) * (32 * N) := by
      refine mul_le_mul_of_nonneg_left (by omega) ?_
      have := Int.ediv_nonneg (a := d + 32 - p) (b := w) (by omega) (by omega)
      omega
    nlinarith

end Av1
