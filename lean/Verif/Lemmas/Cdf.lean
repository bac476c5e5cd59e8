import Verif.Spec.Cdf
import Verif.Model.BoolCoder
import Verif.Lemmas.Util

namespace Av1

/-- One table entry moved towards target `t`. -/
def move (rate : Nat) (c t : Int) : Int := c - ((c - t) >>> rate)

theorem shr_def (x : Int) (k : Nat) : x >>> k = x / 2 ^ k := by
  rw [Int.shiftRight_eq_div_pow]; norm_cast

theorem shl_def (x : Int) (k : Nat) : x <<< k = x * 2 ^ k := by
  rw [Int.shiftLeft_eq]

theorem div_mono {x y : Int} (k : Nat) (h : x ≤ y) : x / 2 ^ k ≤ y / 2 ^ k :=
  Int.ediv_le_ediv (by positivity) h

theorem div_sub_le {x y : Int} (k : Nat) (h : x ≤ y) : y / 2 ^ k - x / 2 ^ k ≤ y - x := by
  have hp : (0 : Int) < 2 ^ k := by positivity
  have h1 : (1 : Int) ≤ 2 ^ k := by omega
  have : y / 2 ^ k ≤ x / 2 ^ k + (y - x) := by
    have e : y ≤ x + (y - x) * 2 ^ k := by nlinarith
    calc y / 2 ^ k ≤ (x + (y - x) * 2 ^ k) / 2 ^ k := div_mono k e
      _ = x / 2 ^ k + (y - x) := by rw [Int.add_mul_ediv_right _ _ (by omega)]
  omega

theorem move_lt {rate : Nat} {a b ta tb : Int} (hab : a < b) (ht : ta < tb) :
    move rate a ta < move rate b tb := by
  unfold move
  rw [shr_def, shr_def]
  by_cases h : a - ta ≤ b - tb
  · have := div_sub_le rate h; omega
  · have := div_mono rate (le_of_lt (not_le.mp h)); omega

theorem move_pos {rate : Nat} {c t : Int} (hc : 0 < c) (ht : 0 < t) : 0 < move rate c t := by
  have := move_lt (rate := rate) hc ht
  simpa [move] using this

theorem move_le {rate : Nat} {c t M : Int} (hc : c < M) (ht : t < M) : move rate c t < M := by
  have := move_lt (rate := rate) hc ht
  simpa [move] using this

/-- Adaptation preserves strict monotonicity. -/
theorem adaptGo_inc (rate : Nat) (diff sym M : Int) (hd : 0 ≤ diff) :
    ∀ (body : List Int) (i tmp a ta : Int), Inc a body M → ta < M → ta < tmp →
      tmp + (if i ≤ sym then diff else 0) + 32 * body.length ≤ M →
      Inc (move rate a ta) (adaptGo rate diff sym i tmp body) M
  | [], i, tmp, a, ta, h, hM, _, _ => by
    simp only [Inc, adaptGo] at *
    exact move_le h hM
  | c :: rest, i, tmp, a, ta, h, hM, ht, hb => by
    simp only [Inc, adaptGo, List.length_cons, Nat.cast_add, Nat.cast_one] at *
    obtain ⟨hac, hrest⟩ := h
    refine ⟨?_, ?_⟩
    · apply move_lt hac; split <;> omega
    · refine adaptGo_inc rate diff sym M hd rest (i + 1) _ c _ hrest ?_ ?_ ?_
      · split at hb <;> split <;> omega
      · split <;> omega
      · split at hb <;> split <;> split <;> omega

theorem length_adaptGo (rate : Nat) (diff sym : Int) :
    ∀ (body : List Int) (i tmp : Int), (adaptGo rate diff sym i tmp body).length = body.length
  | [], _, _ => rfl
  | _ :: rest, i, tmp => by simp [adaptGo, length_adaptGo rate diff sym rest]

/-- The rate used by a table with `k+1` symbols and counter `cnt`. -/
def rateOf (k : Nat) (cnt : Int) : Nat := 4 + (if cnt > 31 then 1 else 0) + (k + 1).log2

/-- The offset towards the coded symbol. -/
def diffOf (k : Nat) (cnt : Int) : Int :=
  ((32768 - ((k + 1 : Nat) : Int) * 32) / 2 ^ (rateOf k cnt)) * 2 ^ (rateOf k cnt)

theorem adapt_eq (body : List Int) (cnt sym : Int) (hb : body.length < 1024) :
    adapt (body ++ [32768, cnt]) sym =
      some (adaptGo (rateOf body.length cnt) (diffOf body.length cnt) sym 0 32 body ++
        [32768, cnt + (if cnt < 32 then 1 else 0)]) := by
  have hlen : (body ++ [(32768 : Int), cnt]).length - 1 = body.length + 1 := by simp
  have hget : (body ++ [(32768 : Int), cnt])[body.length + 1]? = some cnt := by
    rw [List.getElem?_append_right (by omega)]; simp
  unfold adapt adaptRate
  rw [hlen]
  simp only [hget, Option.bind_eq_bind, Option.bind_some]
  rw [Nat.mod_eq_of_lt (by omega), msb16_eq _ (by omega)]
  simp only [Option.bind_some, Nat.add_sub_cancel, List.take_left', List.drop_left']
  have hd : ((32768 - (((body.length + 1 : Nat) : Int) <<< 5)) >>> (rateOf body.length cnt)) <<< (rateOf body.length cnt)
      = diffOf body.length cnt := by
    unfold diffOf
    rw [shr_def, shl_def, shl_def]
    norm_num
  rw [← hd, List.set_append_right _ _ (by rw [length_adaptGo]; omega), length_adaptGo]
  simp only [Nat.add_sub_cancel_left, List.set_cons_succ, List.set_cons_zero]
  rfl

theorem diffOf_nonneg (k : Nat) (cnt : Int) (h : k < 1024) : 0 ≤ diffOf k cnt := by
  unfold diffOf
  apply mul_nonneg _ (by positivity)
  apply Int.ediv_nonneg _ (by positivity)
  push_cast; omega

theorem diffOf_le (k : Nat) (cnt : Int) : diffOf k cnt ≤ 32768 - ((k + 1 : Nat) : Int) * 32 := by
  unfold diffOf
  exact Int.ediv_mul_le _ (by positivity)

/-- Adaptation succeeds on a valid table and gives a valid table of the same size. -/
theorem adapt_valid {cdf : List Int} (h : ValidCdf cdf) (sym : Int) :
    ∃ cdf', adapt cdf sym = some cdf' ∧ ValidCdf cdf' ∧ cdf'.length = cdf.length := by
  obtain ⟨body, cnt, rfl, hinc, h0, h32, hlen⟩ := h
  refine ⟨_, adapt_eq body cnt sym hlen, ?_, ?_⟩
  · refine ⟨_, _, rfl, ?_, ?_, ?_, ?_⟩
    · have hd := diffOf_nonneg body.length cnt hlen
      have hd2 := diffOf_le body.length cnt
      push_cast at hd2
      have := adaptGo_inc (rateOf body.length cnt) _ sym 32768 hd body 0 32 0 0 hinc (by omega) (by omega)
        (by split <;> omega)
      simpa [move] using this
    · split <;> omega
    · split <;> omega
    · rw [length_adaptGo]; exact hlen
  · simp [length_adaptGo]

end Av1
