import Mathlib.Tactic.IntervalCases
import Verif.Props.Geometry
import Mathlib.Tactic.Linarith
import Mathlib.Tactic.Ring
import Verif.Model.ReconTables

/-! # C126–C128: interpolation filters, division table, blending weights -/

namespace Av1

/-! ## C126: interpolation filters -/

/-- Eight-tap filtering of eight neighbouring samples, rounded, as in AV1's prediction, warping and superresolution. -/
def filtered (taps samples : List Int) : Int := ((List.zipWith (· * ·) taps samples).sum + 64) / 128

/-- Sum before rounding. -/
def tapSum (taps samples : List Int) : Int := (List.zipWith (· * ·) taps samples).sum

theorem tapSum_const (taps : List Int) (v : Int) : tapSum taps (List.replicate taps.length v) = taps.sum * v := by
  unfold tapSum
  induction taps with
  | nil => simp
  | cons t ts ih => simp only [List.length_cons, List.replicate_succ, List.zipWith_cons_cons, List.sum_cons, ih]; ring

theorem tapSum_reverse (a b : List Int) (h : a.length = b.length) : tapSum a.reverse b.reverse = tapSum a b := by
  unfold tapSum
  rw [← List.reverse_zipWith h]
  exact List.sum_reverse _

/-- Weight of the positive and of the negative taps. -/
def posTaps (taps : List Int) : Int := (taps.map fun t => max t 0).sum
def negTaps (taps : List Int) : Int := (taps.map fun t => max (-t) 0).sum

theorem tapSum_bounds (taps samples : List Int) (m : Int) (hm : 0 ≤ m) (hl : taps.length = samples.length)
    (hs : ∀ x ∈ samples, 0 ≤ x ∧ x ≤ m) : -(negTaps taps * m) ≤ tapSum taps samples ∧ tapSum taps samples ≤ posTaps taps * m := by
  induction taps generalizing samples with
  | nil => simp [tapSum, negTaps, posTaps]
  | cons t ts ih =>
    cases samples with
    | nil => simp at hl
    | cons x xs =>
      have ih := ih xs (by simpa using hl) fun y hy => hs y (List.mem_cons_of_mem _ hy)
      have hx := hs x List.mem_cons_self
      simp only [tapSum, negTaps, posTaps, List.zipWith_cons_cons, List.sum_cons, List.map_cons] at ih ⊢
      have h1 : t * x ≤ max t 0 * m := by
        rcases le_total t 0 with ht | ht
        · rw [max_eq_right ht]; nlinarith
        · rw [max_eq_left ht]; nlinarith
      have h2 : -(max (-t) 0 * m) ≤ t * x := by
        rcases le_total t 0 with ht | ht
        · rw [max_eq_left (by omega)]; nlinarith
        · rw [max_eq_right (by omega)]; nlinarith
      constructor <;> nlinarith

/-- Rows of the three kinds of filters. -/
def interpRows : List (List Int) := K.subpel_filters.flatten ++ K.warped_filters ++ K.upscale_filter

/-- **C126.** Every filter has eight taps and leaves a constant signal as it is. -/
theorem C126_constant (taps : List Int) (h : taps ∈ interpRows) (v : Int) :
    taps.length = 8 ∧ filtered taps (List.replicate 8 v) = v := by
  have hall : (interpRows.all fun r => r.length == 8 && r.sum == 128) = true := by decide +kernel
  have h1 := List.all_eq_true.1 hall taps h
  rw [Bool.and_eq_true, beq_iff_eq, beq_iff_eq] at h1
  have h2 := tapSum_const taps v
  rw [h1.1, h1.2] at h2
  refine ⟨h1.1, ?_⟩
  unfold filtered
  unfold tapSum at h2
  rw [h2]
  omega

/-- **C126.** Before rounding, samples from 0 to `m` give at least `-56 m` and at most `184 m`. -/
theorem C126_range (taps : List Int) (h : taps ∈ interpRows) (samples : List Int) (m : Int) (hm : 0 ≤ m)
    (hl : samples.length = 8) (hs : ∀ x ∈ samples, 0 ≤ x ∧ x ≤ m) :
    -(56 * m) ≤ tapSum taps samples ∧ tapSum taps samples ≤ 184 * m := by
  have hall : (interpRows.all fun r => r.length == 8 && decide (negTaps r ≤ 56) && decide (posTaps r ≤ 184)) = true := by
    decide +kernel
  have h1 := List.all_eq_true.1 hall taps h
  simp only [Bool.and_eq_true, beq_iff_eq, decide_eq_true_iff] at h1
  have h2 := tapSum_bounds taps samples m hm (h1.1.1.trans hl.symm) hs
  constructor <;> nlinarith [h1.1.2, h1.2, h2.1, h2.2]

/-- Position 0 copies the sample: the fourth of the eight. -/
theorem C126_copy (samples : List Int) (hl : samples.length = 8) (f : List (List Int)) (hf : f ∈ K.subpel_filters ++ [K.upscale_filter])
    (taps : List Int) (ht : f[0]? = some taps) : some (filtered taps samples) = samples[3]? := by
  have hall : ((K.subpel_filters ++ [K.upscale_filter]).all fun f => f[0]? == some [0, 0, 0, 128, 0, 0, 0, 0]) = true := by
    decide +kernel
  have h1 := List.all_eq_true.1 hall f hf
  rw [beq_iff_eq, ht] at h1
  obtain rfl := Option.some.inj h1
  match samples, hl with
  | [a, b, c, d, e, f', g, h], _ =>
    simp only [filtered, List.zipWith_cons_cons, List.zipWith_nil_right, List.sum_cons, List.sum_nil]
    simp only [List.getElem?_cons_succ, List.getElem?_cons_zero, Option.some.injEq]
    omega

/-- Rows `k` and `n - k` are mirror images, except for row 0. -/
def mirrored (n : Nat) (f : List (List Int)) : Bool :=
  f.length == n && (List.range n).all fun k => k == 0 || f[k]?.map List.reverse == f[n - k]?

theorem mirror_rows {n : Nat} {f : List (List Int)} (h : mirrored n f = true) (k : Nat) (h0 : 0 < k) (hk : k < n) (a b : List Int)
    (ha : f[k]? = some a) (hb : f[n - k]? = some b) : b = a.reverse := by
  rw [mirrored, Bool.and_eq_true] at h
  have h2 := List.all_eq_true.1 h.2 k (List.mem_range.2 hk)
  rw [Bool.or_eq_true, beq_iff_eq, beq_iff_eq, ha, hb] at h2
  rcases h2 with h2 | h2
  · omega
  · exact (Option.some.inj h2).symm

/-- **C126.** Interpolating a mirrored signal at the mirrored position gives the same value: sub-pixel filters (16
positions). -/
theorem C126_subpel_mirror (f : List (List Int)) (hf : f ∈ K.subpel_filters) (k : Nat) (h0 : 0 < k) (hk : k < 16)
    (samples : List Int) (hl : samples.length = 8) :
    ∃ a b, f[k]? = some a ∧ f[16 - k]? = some b ∧ filtered a samples = filtered b samples.reverse := by
  have hall : (K.subpel_filters.all fun f => mirrored 16 f && f.all fun r => r.length == 8) = true := by decide +kernel
  have h1 := List.all_eq_true.1 hall f hf
  rw [Bool.and_eq_true] at h1
  have hlen : f.length = 16 := by
    have := h1.1; rw [mirrored, Bool.and_eq_true, beq_iff_eq] at this; exact this.1
  have e1 : f[k]? = some f[k] := List.getElem?_eq_getElem _
  have e2 : f[16 - k]? = some f[16 - k] := List.getElem?_eq_getElem _
  refine ⟨_, _, e1, e2, ?_⟩
  rw [mirror_rows h1.1 k h0 hk _ _ e1 e2]
  have h3 : f[k].length = 8 := by simpa using List.all_eq_true.1 h1.2 _ (List.mem_of_getElem? e1)
  have h4 := tapSum_reverse f[k] samples (h3.trans hl.symm)
  unfold tapSum at h4
  unfold filtered
  rw [h4]

/-- **C126.** The same for superresolution (64 positions). -/
theorem C126_upscale_mirror (k : Nat) (h0 : 0 < k) (hk : k < 64) (samples : List Int) (hl : samples.length = 8) :
    ∃ a b, K.upscale_filter[k]? = some a ∧ K.upscale_filter[64 - k]? = some b ∧
      filtered a samples = filtered b samples.reverse := by
  have h1 : mirrored 64 K.upscale_filter = true := by decide +kernel
  have hlen : K.upscale_filter.length = 64 := by decide +kernel
  have e1 : K.upscale_filter[k]? = some (K.upscale_filter[k]'(by omega)) := List.getElem?_eq_getElem _
  have e2 : K.upscale_filter[64 - k]? = some (K.upscale_filter[64 - k]'(by omega)) := List.getElem?_eq_getElem _
  refine ⟨_, _, e1, e2, ?_⟩
  rw [mirror_rows h1 k h0 hk _ _ e1 e2]
  have h3 := (C126_constant _ (show K.upscale_filter[k]'(by omega) ∈ interpRows from
    List.mem_append_right _ (List.mem_of_getElem? e1)) 0).1
  have h4 := tapSum_reverse (K.upscale_filter[k]'(by omega)) samples (h3.trans hl.symm)
  unfold tapSum at h4
  unfold filtered
  rw [h4]

/-- **C126.** The same for warping: 193 rows, mirrored about row 96, except for the first and last. -/
theorem C126_warp_mirror (k : Nat) (h0 : 0 < k) (hk : k < 192) (samples : List Int) (hl : samples.length = 8) :
    ∃ a b, K.warped_filters[k]? = some a ∧ K.warped_filters[192 - k]? = some b ∧
      filtered a samples = filtered b samples.reverse := by
  have h1 : ((List.range 192).all fun k => k == 0 || K.warped_filters[k]?.map List.reverse == K.warped_filters[192 - k]?) = true := by
    decide +kernel
  have hlen : K.warped_filters.length = 193 := by decide +kernel
  have e1 : K.warped_filters[k]? = some (K.warped_filters[k]'(by omega)) := List.getElem?_eq_getElem _
  have e2 : K.warped_filters[192 - k]? = some (K.warped_filters[192 - k]'(by omega)) := List.getElem?_eq_getElem _
  refine ⟨_, _, e1, e2, ?_⟩
  have h2 := List.all_eq_true.1 h1 k (List.mem_range.2 hk)
  rw [Bool.or_eq_true, beq_iff_eq, beq_iff_eq, e1, e2] at h2
  rcases h2 with h2 | h2
  · omega
  have h2 := Option.some.inj h2
  rw [← h2]
  have h3 := (C126_constant _ (show K.warped_filters[k]'(by omega) ∈ interpRows from
    List.mem_append_left _ (List.mem_append_right _ (List.mem_of_getElem? e1))) 0).1
  have h4 := tapSum_reverse (K.warped_filters[k]'(by omega)) samples (h3.trans hl.symm)
  unfold tapSum at h4
  unfold filtered
  rw [h4]

/-- A filter with negative taps on an edge. -/
example : [-2, 2, -6, 126, 8, -2, 2, 0] ∈ interpRows ∧ filtered [-2, 2, -6, 126, 8, -2, 2, 0] [0, 0, 0, 0, 255, 255, 255, 255] = 16 := by
  decide +kernel

/-! ## C127: division table -/

/-- **C127.** Entry `i` is `2^22 / (256 + i)` rounded to the nearest integer, for `i` from 0 to 256. -/
theorem C127_div (i : Nat) (hi : i ≤ 256) : ∃ v, K.div_lut[i]? = some v ∧
    2 * |(v : Int) * (256 + (i : Int)) - 2 ^ 22| ≤ 256 + (i : Int) := by
  have h : ((List.range 257).all fun i => match K.div_lut[i]? with
    | some v => decide (2 * ((v : Int) * (256 + (i : Int)) - 2 ^ 22) ≤ 256 + (i : Int)) &&
        decide (-(256 + (i : Int)) ≤ 2 * ((v : Int) * (256 + (i : Int)) - 2 ^ 22))
    | none => false) = true := by decide +kernel
  have h1 := List.all_eq_true.1 h i (List.mem_range.2 (by omega))
  cases hv : K.div_lut[i]? with
  | none => rw [hv] at h1; cases h1
  | some v =>
    rw [hv] at h1
    simp only [Bool.and_eq_true, decide_eq_true_iff] at h1
    refine ⟨v, rfl, ?_⟩
    rcases abs_cases ((v : Int) * (256 + (i : Int)) - 2 ^ 22) with ⟨h, _⟩ | ⟨h, _⟩ <;> rw [h] <;> omega

theorem C127_div_length : K.div_lut.length = 257 := by decide +kernel

/-! ## C128: blending weights -/

/-- The overlapped-block masks by length. -/
def obmcMasks : List (List Nat) :=
  [K.obmc_mask_1, K.obmc_mask_2, K.obmc_mask_4, K.obmc_mask_8, K.obmc_mask_16, K.obmc_mask_32]

/-- In order. -/
def ascending : List Nat → Bool
  | a :: b :: l => decide (a ≤ b) && ascending (b :: l)
  | _ => true

theorem ascending_get : ∀ (l : List Nat), ascending l = true → ∀ (i j a b : Nat), i ≤ j → l[i]? = some a → l[j]? = some b → a ≤ b
  | [], _, i, j, a, b, _, ha, _ => by simp at ha
  | [x], _, i, j, a, b, hij, ha, hb => by
    have hj : j = 0 := by have := (List.getElem?_eq_some_iff.1 hb).1; simp at this; omega
    obtain rfl := hj
    obtain rfl : i = 0 := by omega
    rw [ha] at hb
    exact le_of_eq (Option.some.inj hb)
  | x :: y :: l, h, i, j, a, b, hij, ha, hb => by
    rw [ascending, Bool.and_eq_true, decide_eq_true_iff] at h
    have ih := ascending_get (y :: l) h.2
    cases j with
    | zero =>
      obtain rfl : i = 0 := by omega
      rw [ha] at hb; exact le_of_eq (Option.some.inj hb)
    | succ j =>
      rw [List.getElem?_cons_succ] at hb
      cases i with
      | succ i => rw [List.getElem?_cons_succ] at ha; exact ih i j a b (by omega) ha hb
      | zero =>
        obtain rfl : x = a := by simpa using ha
        have h2 := ih 0 j y b (by omega) (by simp) hb
        omega

/-- **C128.** The overlap mask of length `2^k` has that many weights; they never decrease, the block's own prediction never
weighs less than half, and at the far end only it counts. -/
theorem C128_obmc (k : Nat) (m : List Nat) (hm : obmcMasks[k]? = some m) : m.length = 2 ^ k ∧ m.getLast? = some 64 ∧
    (∀ w ∈ m, 32 ≤ w ∧ w ≤ 64) ∧ ∀ (i j a b : Nat), i ≤ j → m[i]? = some a → m[j]? = some b → a ≤ b := by
  have h : ((List.range 6).all fun k => match obmcMasks[k]? with
    | some m => m.length == 2 ^ k && m.getLast? == some 64 && m.all (fun w => decide (32 ≤ w ∧ w ≤ 64)) && ascending m
    | none => false) = true := by decide +kernel
  have hk : k < 6 := (List.getElem?_eq_some_iff.1 hm).1
  have h1 := List.all_eq_true.1 h k (List.mem_range.2 hk)
  rw [hm] at h1
  simp only [Bool.and_eq_true, beq_iff_eq] at h1
  obtain ⟨⟨⟨h1, h2⟩, h3⟩, h4⟩ := h1
  exact ⟨h1, h2, fun w hw => by simpa using List.all_eq_true.1 h3 w hw, ascending_get m h4⟩

/-- **C128.** Wedge masters: mirroring exchanges the two predictions, with the even table against the odd one. -/
theorem C128_wedge (i : Nat) (hi : i < 64) :
    (∃ a b, K.wedge_master_oblique_odd[i]? = some a ∧ K.wedge_master_oblique_even[63 - i]? = some b ∧ a + b = 64) ∧
    ∃ a b, K.wedge_master_vertical[i]? = some a ∧ K.wedge_master_vertical[63 - i]? = some b ∧ a + b = 64 := by
  have h : ∀ i : Fin 64, (match K.wedge_master_oblique_odd[(i : Nat)]?, K.wedge_master_oblique_even[63 - (i : Nat)]?,
      K.wedge_master_vertical[(i : Nat)]?, K.wedge_master_vertical[63 - (i : Nat)]? with
    | some a, some b, some c, some d => a + b == 64 && c + d == 64
    | _, _, _, _ => false) = true := by decide +kernel
  have h1 := h ⟨i, hi⟩
  simp only at h1
  split at h1
  · rename_i a b c d e1 e2 e3 e4
    rw [Bool.and_eq_true, beq_iff_eq, beq_iff_eq] at h1
    exact ⟨⟨a, b, e1, e2, h1.1⟩, c, d, e3, e4, h1.2⟩
  · cases h1

/-- **C128.** The wedge masters never decrease. -/
theorem C128_wedge_grows (m : List Nat)
    (hm : m ∈ [K.wedge_master_oblique_odd, K.wedge_master_oblique_even, K.wedge_master_vertical]) :
    m.length = 64 ∧ ∀ (i j a b : Nat), i ≤ j → m[i]? = some a → m[j]? = some b → a ≤ b := by
  have h : ([K.wedge_master_oblique_odd, K.wedge_master_oblique_even, K.wedge_master_vertical].all fun m =>
    m.length == 64 && ascending m) = true := by decide +kernel
  have h1 := List.all_eq_true.1 h m hm
  rw [Bool.and_eq_true, beq_iff_eq] at h1
  exact ⟨h1.1, ascending_get m h1.2⟩

/-- **C128.** The weight of the intra part of an inter-intra block never grows with the distance from the edge, and stays
between 1 and 60 of 64. -/
theorem C128_interintra : K.ii_weights_1d.length = 128 ∧ (∀ w ∈ K.ii_weights_1d, 1 ≤ w ∧ w ≤ 60) ∧
    ∀ (i j a b : Nat), i ≤ j → K.ii_weights_1d[i]? = some a → K.ii_weights_1d[j]? = some b → b ≤ a := by
  have h : (K.ii_weights_1d.all (fun w => decide (1 ≤ w ∧ w ≤ 60)) && ascending K.ii_weights_1d.reverse) = true := by
    decide +kernel
  have hl : K.ii_weights_1d.length = 128 := by decide +kernel
  rw [Bool.and_eq_true] at h
  refine ⟨hl, fun w hw => by simpa using List.all_eq_true.1 h.1 w hw, fun i j a b hij ha hb => ?_⟩
  have hj : j < 128 := hl ▸ (List.getElem?_eq_some_iff.1 hb).1
  refine ascending_get _ h.2 (127 - j) (127 - i) b a (by omega) ?_ ?_
  · rw [List.getElem?_reverse (by omega), hl, show 128 - 1 - (127 - j) = j by omega]; exact hb
  · rw [List.getElem?_reverse (by omega), hl, show 128 - 1 - (127 - i) = i by omega]; exact ha

/-- **C128.** Distance weights of two predictions add up to 16, the nearer one weighing more. -/
theorem C128_distance (p : List Nat) (hp : p ∈ K.quant_dist_lookup) : ∃ a b, p = [a, b] ∧ a + b = 16 ∧ b < a := by
  have h : (K.quant_dist_lookup.all fun p => match p with
    | [a, b] => a + b == 16 && decide (b < a)
    | _ => false) = true := by decide +kernel
  have h1 := List.all_eq_true.1 h p hp
  match p with
  | [a, b] =>
    rw [Bool.and_eq_true, beq_iff_eq, decide_eq_true_iff] at h1
    exact ⟨a, b, rfl, h1.1, h1.2⟩
  | [] => cases h1
  | [_] => cases h1
  | _ :: _ :: _ :: _ => cases h1

/-- **C128.** CDEF direction `k + 4` is direction `k` turned by a right angle. -/
theorem C128_cdef_turn (k tap : Nat) (hk : k < 4) (ht : tap < 2) : ∃ (p q : List (List Int)) (y x : Int),
    K.cdef_direction[k]? = some p ∧ K.cdef_direction[k + 4]? = some q ∧ p[tap]? = some [y, x] ∧ q[tap]? = some [x, -y] := by
  have h : ∀ (k : Fin 4) (tap : Fin 2), (match K.cdef_direction[(k : Nat)]?, K.cdef_direction[(k : Nat) + 4]? with
    | some p, some q => (match p[(tap : Nat)]? with
      | some [y, x] => q[(tap : Nat)]? == some [x, -y]
      | _ => false)
    | _, _ => false) = true := by decide +kernel
  have h1 := h ⟨k, hk⟩ ⟨tap, ht⟩
  simp only at h1
  split at h1
  · rename_i p q e1 e2
    split at h1
    · rename_i y x e3
      exact ⟨p, q, y, x, e1, e2, e3, by simpa using h1⟩
    · cases h1
  · cases h1

/-- **C128.** The distance ratio up to which the `i`th pair of weights is used lies above the ratio of that pair and below the
ratio of the next one. -/
theorem C128_thresholds (i : Nat) (hi : i < 4) : ∃ a b n d : Nat, K.quant_dist_lookup[i]? = some [a, b] ∧
    K.quant_dist_weight[i]? = some [d, n] ∧ 0 < b ∧ 0 < d ∧ a * d < n * b ∧
    ∀ a' b' : Nat, K.quant_dist_lookup[i + 1]? = some [a', b'] → n * b' < a' * d := by
  interval_cases i <;>
    exact ⟨_, _, _, _, rfl, rfl, by decide, by decide, by decide, fun a' b' h => by
      first
      | (have := Option.some.inj h; simp only [List.cons.injEq, and_true] at this; obtain ⟨rfl, rfl⟩ := this; decide)
      | cases h⟩

/-- Direction `k` mirrored along the diagonal. -/
def mirrorDir (k : Nat) : Nat := (8 - k) % 8

/-- **C128.** Mirroring exchanges rows and columns of the directions, up to sign. -/
theorem C128_cdef_mirror (k tap : Nat) (hk : k < 8) (ht : tap < 2) : ∃ (p q : List (List Int)) (y x : Int),
    K.cdef_direction[k]? = some p ∧ K.cdef_direction[mirrorDir k]? = some q ∧ p[tap]? = some [y, x] ∧
      (q[tap]? = some [x, y] ∨ q[tap]? = some [-x, -y]) := by
  interval_cases k <;> interval_cases tap <;> exact ⟨_, _, _, _, rfl, rfl, rfl, by decide⟩

/-- **C128.** The direction of chroma: the luma direction where both or neither direction is halved, and in the two other cases
mirror images of each other; eight directions each. -/
theorem C128_cdef_chroma (k : Nat) (hk : k < 8) :
    (∃ p, K.cdef_uv_dir[0]? = some p ∧ p.length = 2 ∧ ∃ q, p[0]? = some q ∧ q[k]? = some k) ∧
    (∃ p, K.cdef_uv_dir[1]? = some p ∧ p.length = 2 ∧ ∃ q, p[1]? = some q ∧ q[k]? = some k) ∧
    ∃ p q r s d, K.cdef_uv_dir[0]? = some p ∧ p[1]? = some q ∧ K.cdef_uv_dir[1]? = some r ∧ r[0]? = some s ∧
      q[k]? = some d ∧ d < 8 ∧ s[mirrorDir k]? = some (mirrorDir d) := by
  interval_cases k <;>
    exact ⟨⟨_, rfl, rfl, _, rfl, rfl⟩, ⟨_, rfl, rfl, _, rfl, rfl⟩, _, _, _, _, _, rfl, rfl, rfl, rfl, rfl, by decide, rfl⟩

/-- **C128.** The primary taps add up to 6 and the secondary ones to 3 whatever the strength, and do not grow with the distance. -/
theorem C128_cdef_taps : K.cdef_pri_taps.length = 2 ∧ K.cdef_sec_taps.length = 2 ∧
    (∀ t ∈ K.cdef_pri_taps, ∃ a b, t = [a, b] ∧ a + b = 6 ∧ b ≤ a) ∧
    ∀ t ∈ K.cdef_sec_taps, ∃ a b, t = [a, b] ∧ a + b = 3 ∧ b ≤ a := by
  refine ⟨rfl, rfl, ?_, ?_⟩ <;> intro t ht <;> simp only [K.cdef_pri_taps, K.cdef_sec_taps, List.mem_cons, List.not_mem_nil, or_false] at ht <;>
    rcases ht with rfl | rfl <;> exact ⟨_, _, rfl, rfl, by decide⟩

/-- **C56**: the shift between rows and columns of an inverse transform compensates the gain of the row transform, half a bit
of each of the two logarithms less than two, up to 2 bits (1 bit for the two-to-one sizes, which are scaled by √½ first). -/
theorem C56_row_shift (t : Nat) (d : Nat × Nat) (hd : txDims[t]? = some d) : K.transform_row_shift[t]? =
    some (if (d.1.log2 + d.2.log2) % 2 = 0 then min 2 ((d.1.log2 + d.2.log2) / 2 - 2)
      else min 1 ((d.1.log2 + d.2.log2) / 2 - 2)) :=
  forall_tx (P := fun t d => K.transform_row_shift[t]? =
    some (if (d.1.log2 + d.2.log2) % 2 = 0 then min 2 ((d.1.log2 + d.2.log2) / 2 - 2)
      else min 1 ((d.1.log2 + d.2.log2) / 2 - 2))) (by decide +kernel) t d hd

example : K.obmc_mask_4 = [39, 50, 59, 64] ∧ obmcMasks[2]? = some K.obmc_mask_4 := by decide

end Av1
