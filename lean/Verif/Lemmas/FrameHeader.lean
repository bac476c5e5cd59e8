import Verif.Spec.FrameLayout
import Verif.Model.FrameHeader
import Verif.Lemmas.Parser
import Verif.Lemmas.Util

namespace Av1

/-! ## Signed and non-symmetric fields -/

theorem reads_su (v : Int) (n : Nat) (h1 : 1 ≤ n) (hlo : -2 ^ (n - 1) ≤ v) (hhi : v < 2 ^ (n - 1)) :
    Reads (P.su n) (toBits n (v % 2 ^ n).toNat) v := by
  obtain ⟨m, rfl⟩ : ∃ m, n = m + 1 := ⟨n - 1, by omega⟩
  simp only [Nat.add_sub_cancel] at *
  have hp : (0 : Int) < 2 ^ m := by positivity
  have h3 : ((2 ^ m : Nat) : Int) = 2 ^ m := by push_cast; rfl
  have h4 : ((2 ^ (m + 1) : Nat) : Int) = 2 * 2 ^ m := by push_cast; ring
  have h5 : (2 : Int) ^ (m + 1) = 2 * 2 ^ m := by ring
  have hb : (v % 2 ^ (m + 1)).toNat < 2 ^ (m + 1) := by
    have := Int.emod_lt_of_pos v (show (0 : Int) < 2 ^ (m + 1) by positivity)
    have h0 := Int.emod_nonneg v (show (2 : Int) ^ (m + 1) ≠ 0 by positivity)
    omega
  have := (reads_f (m + 1) _ hb).bind
    (g := fun x : Nat => (pure (if 2 ^ (m + 1 - 1) ≤ x then (x : Int) - 2 ^ (m + 1) else x) : P Int)) (Reads.pure _)
  rw [List.append_nil] at this
  have key : (if 2 ^ (m + 1 - 1) ≤ (v % 2 ^ (m + 1)).toNat then (((v % 2 ^ (m + 1)).toNat : Nat) : Int) - 2 ^ (m + 1)
      else ((v % 2 ^ (m + 1)).toNat : Nat)) = v := by
    simp only [Nat.add_sub_cancel, h5]
    by_cases hv : v < 0
    · have e2 : v % (2 * 2 ^ m) = v + 2 * 2 ^ m := by
        rw [← Int.add_emod_right, Int.emod_eq_of_lt (by omega) (by omega)]
      rw [e2, if_pos (by omega)]; omega
    · have e2 : v % (2 * 2 ^ m) = v := Int.emod_eq_of_lt (by omega) (by omega)
      rw [e2, if_neg (by omega)]; omega
  rw [key] at this
  exact this

theorem writes_su (v : Int) (n : Nat) (h1 : 1 ≤ n) (h2 : n ≤ 62) (hlo : -2 ^ (n - 1) ≤ v) (hhi : v < 2 ^ (n - 1)) :
    Writes (pushSu v n) (P.su n) v :=
  ⟨_, by rw [pushSu, encodeSu_eq v n h1 h2 hlo hhi]; rfl, reads_su v n h1 hlo hhi⟩

theorem reads_ns (v n : Nat) (h1 : 1 ≤ n) (hv : v < n) : Reads (P.ns n) (nsBits v n) v := by
  have hn := log2_ns n (by omega)
  have hp2 : 2 ^ (n.log2 + 1) = 2 * 2 ^ n.log2 := by rw [pow_succ]; ring
  unfold P.ns nsBits
  simp only
  by_cases hm : v < 2 ^ (n.log2 + 1) - n
  · rw [if_pos hm]
    have := (reads_f n.log2 v (by omega)).bind (g := fun v => if v < 2 ^ (n.log2 + 1) - n then pure v else do
      let b ← P.f 1
      pure (2 * v - (2 ^ (n.log2 + 1) - n) + b)) (b := []) (w := v) (by rw [if_pos hm]; exact Reads.pure v)
    rwa [List.append_nil] at this
  · rw [if_neg hm, toBits_succ]
    generalize hx : v + (2 ^ (n.log2 + 1) - n) = x
    have hlast : [x.testBit 0] = toBits 1 x := by simp [toBits]
    rw [hlast]
    refine (reads_f n.log2 (x / 2) (by omega)).bind ?_
    rw [if_neg (by omega)]
    have h1 : Reads (P.f 1) (toBits 1 x) (x % 2) := by
      have := reads_f 1 (x % 2) (by omega)
      rwa [toBits_congr (b := x) (by omega)] at this
    have := h1.bind (g := fun b => (pure (2 * (x / 2) - (2 ^ (n.log2 + 1) - n) + b) : P Nat)) (Reads.pure _)
    rw [List.append_nil] at this
    rwa [show 2 * (x / 2) - (2 ^ (n.log2 + 1) - n) + x % 2 = v by omega] at this

theorem writes_ns (v n : Nat) (h1 : 1 ≤ n) (h2 : n < 2 ^ 63) (hv : v < n) : Writes (pushNs v n) (P.ns n) v :=
  ⟨_, by rw [pushNs, encodeNs_eq v n h1 h2 hv]; rfl, reads_ns v n h1 hv⟩

/-- A flag and what it announces. -/
theorem writes_flagged {α : Type} {x : Option Raw} {p : P α} (o : Option α) (h : ∀ v, o = some v → Writes x p v)
    (h0 : o = none → x = cat []) : Writes (cat [pushB o.isSome, x]) (P.flagged p) o :=
  Writes.cons (writes_flag _) (Writes.last (writes_opt o h h0))

/-- Nothing written, nothing read. -/
theorem writes_none {α : Type} (v : α) : Writes (cat []) (pure v : P α) v := Writes.pure v

/-- A reader that fails fails in front of any other. -/
theorem bind_fails {α β : Type} {p : P α} {g : α → P β} {s : Bits} (h : p s = none) : (p >>= g) s = none := by
  show (p s >>= fun x => g x.1 x.2) = none
  rw [h]; rfl

theorem Reads.step {α β : Type} {p : P α} {g : α → P β} {e s : Bits} {v : α} (h : Reads p e v) :
    (p >>= g) (e ++ s) = g v s := by
  show (p (e ++ s) >>= fun x => g x.1 x.2) = _
  rw [h]; rfl

/-! ## Tile layout -/

theorem tileLog2Go_spec (blk target : Nat) : ∀ (fuel k : Nat), target ≤ blk * 2 ^ (k + fuel - 1) → 1 ≤ fuel →
    (∀ j < k, blk * 2 ^ j < target) → ∃ r, tileLog2Go blk target fuel k = some r ∧ Hdr.IsTileLog2 blk target r
  | 0, _, _, h, _ => absurd h (by omega)
  | fuel + 1, k, h, _, hk => by
    unfold tileLog2Go
    rw [Nat.shiftLeft_eq]
    by_cases hlt : blk * 2 ^ k < target
    · rw [if_pos hlt]
      cases fuel with
      | zero => simp at h; omega
      | succ fuel =>
        refine tileLog2Go_spec blk target (fuel + 1) (k + 1) (by rwa [show k + 1 + (fuel + 1) - 1 = k + (fuel + 1 + 1) - 1 by omega]) (by omega) ?_
        intro j hj
        rcases Nat.lt_succ_iff_lt_or_eq.1 hj with h | rfl
        · exact hk j h
        · exact hlt
    · rw [if_neg hlt]
      exact ⟨k, rfl, by omega, hk⟩

theorem tileLog2_spec (blk target : Nat) (h1 : 1 ≤ blk) (h2 : target ≤ 2 ^ 63) :
    ∃ r, tileLog2 blk target = some r ∧ Hdr.IsTileLog2 blk target r := by
  refine tileLog2Go_spec blk target 64 0 ?_ (by omega) (by intro j hj; omega)
  calc target ≤ 1 * 2 ^ 63 := by omega
    _ ≤ blk * 2 ^ (0 + 64 - 1) := Nat.mul_le_mul_right _ h1

theorem startsGo_eq (total width : Nat) (hw : 1 ≤ width) : ∀ (fuel start : Nat), total ≤ start + fuel →
    startsGo total width fuel start =
      (List.range ((total - start + width - 1) / width)).map fun i => start + i * width
  | 0, start, h => by
    have : (total - start + width - 1) / width = 0 := by rw [Nat.div_eq_zero_iff]; omega
    rw [this]; rfl
  | fuel + 1, start, h => by
    unfold startsGo
    by_cases hs : start < total
    · rw [if_pos hs, startsGo_eq total width hw fuel (start + width) (by omega)]
      have : (total - start + width - 1) / width = (total - (start + width) + width - 1) / width + 1 := by
        by_cases hb : start + width ≤ total
        · rw [show total - start + width - 1 = (total - (start + width) + width - 1) + width by omega,
            Nat.add_div_right _ (by omega)]
        · rw [show total - (start + width) + width - 1 = width - 1 by omega,
            Nat.div_eq_of_lt (show width - 1 < width by omega)]
          apply Nat.div_eq_of_lt_le <;> omega
      rw [this, List.range_succ_eq_map, List.map_cons, List.map_map]
      simp only [Nat.zero_mul, Nat.add_zero]
      congr 1
      apply List.map_congr_left
      intro i _
      simp only [Function.comp, Nat.succ_mul]
      ring
    · rw [if_neg hs]
      have : (total - start + width - 1) / width = 0 := by rw [Nat.div_eq_zero_iff]; omega
      rw [this]; rfl

end Av1
