import Verif.Spec.GlobalMotion
import Verif.Model.GlobalMotion
import Verif.Lemmas.FrameHeader
import Verif.Props.Codes
import Mathlib.Tactic.IntervalCases

/-! # C41, C86, C87: subexponential codes, global motion parameters, global motion vectors -/

namespace Av1

/-! ## C41 -/

theorem subexp_writes (n v : Nat) (hv : v < n) (hn : n < 2 ^ 32) : ∀ (fuel i mk : Nat), mk ≤ v →
    mk = (if i = 0 then 0 else 2 ^ (i + 2)) → 30 ≤ fuel + i →
    Writes (subexpGo n v fuel i mk) (Hdr.subexpGo n fuel i mk) v
  | 0, i, mk, h1, h2, h3 => by
    exfalso
    rw [if_neg (by omega)] at h2
    have : (2 : Nat) ^ 32 ≤ 2 ^ (i + 2) := Nat.pow_le_pow_right (by decide) (by omega)
    omega
  | fuel + 1, i, mk, h1, h2, h3 => by
    have hb : (if i > 0 then 3 + i - 1 else 3) = (if i = 0 then 3 else i + 2) := by split <;> split <;> omega
    unfold subexpGo Hdr.subexpGo
    simp only [hb, Nat.shiftLeft_eq, Nat.one_mul]
    generalize hB : (if i = 0 then 3 else i + 2) = b at *
    have ha : 0 < 2 ^ b := by positivity
    by_cases hlast : n ≤ mk + 3 * 2 ^ b
    · rw [if_pos hlast, if_pos hlast, usub, if_pos h1, usub, if_pos (by omega)]
      have := Writes.map (· + mk) (writes_ns (v - mk) (n - mk) (by omega) (by omega) (by omega))
      rw [show v - mk + mk = v by omega] at this
      exact this
    · rw [if_neg hlast, if_neg hlast]
      have hb32 : b ≤ 32 := by
        by_contra hb
        have : (2 : Nat) ^ 32 ≤ 2 ^ b := Nat.pow_le_pow_right (by decide) (by omega)
        omega
      by_cases hless : v ≤ mk + 2 ^ b - 1
      · rw [if_pos hless, usub, if_pos h1]
        refine Writes.cons (writes_bit 0 (by decide)) ?_
        have := Writes.map (· + mk) (Writes.last (writes_f b (v - mk) hb32 (by omega)))
        rw [show v - mk + mk = v by omega] at this
        exact this
      · rw [if_neg hless]
        refine Writes.cons (writes_bit 1 (by decide)) (Writes.last ?_)
        refine subexp_writes n v hv hn fuel (i + 1) (mk + 2 ^ b) (by omega) ?_ (by omega)
        rw [if_neg (by omega), h2, ← hB]
        split
        · next h => subst h; rfl
        · ring

/-- **C41**, the code itself: a number below `n` is read back. -/
theorem C41_subexp (n v : Nat) (hv : v < n) (hn : n < 2 ^ 32) : Writes (encodeSubexp v n) (Hdr.subexp n) v :=
  subexp_writes n v hv hn 64 0 0 (by omega) rfl (by omega)

example : encodeSubexp 30 513 = some [1, 1, 0, 1, 1, 1, 0] := by decide

/-- **C41**, full claim. -/
def C41_full : Prop := ∀ low high r v : Int, low ≤ v → v < high → low ≤ r → r < high → high - low < 2 ^ 32 →
  Writes (encodeSignedSubexp v low high r) (Hdr.signedSubexp low high r) v

theorem unRecenter_lt (r x n : Nat) (hr : 2 * r ≤ n) (hx : x < n) : Hdr.unRecenter r x ≤ n := by
  unfold Hdr.unRecenter; split <;> [skip; split] <;> omega

theorem inverseRecenter_eq (r v : Nat) (hr : 2 * r < 2 ^ 64) : inverseRecenter r v = some (Hdr.unRecenter r v) := by
  unfold inverseRecenter Hdr.unRecenter
  rw [if_neg (by omega)]
  by_cases h : v > 2 * r
  · rw [if_pos h, if_pos h]
  · rw [if_neg h, if_neg h]
    simp only [Nat.shiftRight_eq_div_pow, pow_one]
    by_cases h2 : v % 2 = 1
    · rw [if_pos (by omega), if_pos h2, usub, if_pos (by omega)]
    · rw [if_neg (by omega), if_neg h2]

theorem asUsize_eq (v : Int) (h0 : 0 ≤ v) (h1 : v < 2 ^ 64) : asUsize v = v.toNat := by
  unfold asUsize; rw [Int.emod_eq_of_lt h0 h1]

/-- The values which recentering twice leaves alone: those farther from the bottom than twice the reference, and at
most four others. -/
def Involuted (r x : Nat) : Prop :=
  2 * r ≤ x ∨ (∃ k, r = 5 * k + 1 ∧ (x = 2 * k ∨ x = 6 * k + 1)) ∨ ∃ k, r = 3 * k + 2 ∧ x = 2 * k + 1

theorem involuted_iff (r x : Nat) : Hdr.unRecenter r (Hdr.unRecenter r x) = x ↔ Involuted r x := by
  have key : Hdr.unRecenter r (Hdr.unRecenter r x) = x ↔
      (2 * r ≤ x ∨ (2 * r = 5 * x + 2 ∧ x % 2 = 0) ∨ (6 * r = 5 * x + 1 ∧ x % 2 = 1) ∨ (2 * r = 3 * x + 1 ∧ x % 2 = 1)) := by
    unfold Hdr.unRecenter
    by_cases h : x > 2 * r
    · rw [if_pos h, if_pos h]; omega
    · rw [if_neg h]
      by_cases h2 : x % 2 = 1
      · rw [if_pos h2]; split <;> [skip; split] <;> omega
      · rw [if_neg h2]; split <;> [skip; split] <;> omega
  rw [key]
  constructor
  · rintro (h | h | h | h)
    · exact .inl h
    · exact .inr (.inl ⟨x / 2, by omega, by omega⟩)
    · exact .inr (.inl ⟨(x - 1) / 6, by omega, by omega⟩)
    · exact .inr (.inr ⟨(x - 1) / 2, by omega, by omega⟩)
  · rintro (h | ⟨k, h1, h2 | h2⟩ | ⟨k, h1, h2⟩) <;> omega

/-- **C41**, reference in the lower half of the range: what an AV1 decoder finds is the value recentered twice. -/
theorem C41_lower_half (low high r v : Int) (h1 : low ≤ v) (h2 : v < high) (h3 : low ≤ r)
    (h4 : 2 * (r - low) ≤ high - low) (h5 : high - low < 2 ^ 32) :
    Writes (encodeSignedSubexp v low high r) (Hdr.signedSubexp low high r)
      (low + Hdr.unRecenter (r - low).toNat (Hdr.unRecenter (r - low).toNat (v - low).toNat)) := by
  unfold encodeSignedSubexp encodeUnsignedSubexp Hdr.signedSubexp Hdr.unsignedSubexp
  rw [asUsize_eq _ (by omega) (by omega), asUsize_eq _ (by omega) (by omega), asUsize_eq _ (by omega) (by omega)]
  generalize hx : (v - low).toNat = x
  generalize hn : (high - low).toNat = n
  generalize hq : (r - low).toNat = q
  rw [Nat.shiftLeft_eq, pow_one, Nat.mod_eq_of_lt (by omega), if_pos (by omega),
    inverseRecenter_eq _ _ (by omega)]
  have hlt : Hdr.unRecenter q x < n := by
    unfold Hdr.unRecenter; split <;> [skip; split] <;> omega
  have := Writes.map (fun x : Nat => (x : Int) + low) (Writes.map
    (fun v => if 2 * q ≤ n then Hdr.unRecenter q v else n - 1 - Hdr.unRecenter (n - 1 - q) v)
    (C41_subexp n _ hlt (by omega)))
  simp only [if_pos (show 2 * q ≤ n by omega)] at this
  rw [Int.add_comm] at this
  simp only [if_pos (show 2 * q ≤ n by omega)]
  exact this

example : (-256 : Int) ≤ 3 ∧ (3 : Int) < 257 ∧ 2 * ((0 : Int) - -256) < 257 - -256 := by decide

/-- **C41, partial.** With the reference in the lower half of the range, exactly the values of `Involuted` are read
back.  Missing: the others, and references in the upper half (for those see `C41_unchanged_wrong` and `C41_top_panics`). -/
theorem C41_lower_iff_partial (low high r v : Int) (h1 : low ≤ v) (h2 : v < high) (h3 : low ≤ r)
    (h4 : 2 * (r - low) ≤ high - low) (h5 : high - low < 2 ^ 32) :
    Writes (encodeSignedSubexp v low high r) (Hdr.signedSubexp low high r) v ↔
      Involuted (r - low).toNat (v - low).toNat := by
  have hw := C41_lower_half low high r v h1 h2 h3 h4 h5
  rw [← involuted_iff]
  constructor
  · intro h
    have := hw.unique h
    omega
  · intro h
    rw [h] at hw
    rwa [show low + ((v - low).toNat : Int) = v by omega] at hw

example : Involuted 256 512 ∧ ¬ Involuted 256 256 := by
  constructor
  · exact .inl (by decide)
  · rw [← involuted_iff]; decide

theorem unchanged_lower (low high r : Int) (h3 : low + 2 ≤ r) (h4 : 2 * (r - low) ≤ high - low)
    (h5 : high - low < 2 ^ 32) :
    ¬ Writes (encodeSignedSubexp r low high r) (Hdr.signedSubexp low high r) r := by
  rw [C41_lower_iff_partial low high r r (by omega) (by omega) (by omega) h4 h5]
  rintro (h | ⟨k, h1, h2 | h2⟩ | ⟨k, h1, h2⟩) <;> omega

theorem num_zero_all : ∀ e : Bits, num e = 0 → true ∉ e := by
  intro e
  induction e with
  | nil => intro _; simp
  | cons b e ih =>
    intro h
    rw [num_cons] at h
    have hp : 0 < 2 ^ e.length := by positivity
    cases b with
    | true => simp at h
    | false => simp at h ⊢; exact ih h

theorem f_all {n v : Nat} {e : Bits} (h : P.f n e = some (v, [])) : e.length = n ∧ num e = v := by
  unfold P.f at h
  split at h
  · cases h
  · rename_i hl
    simp only [Option.some.injEq, Prod.mk.injEq] at h
    have : e.length ≤ n := by
      by_contra hh
      have := congrArg List.length h.2
      simp at this
      omega
    rw [List.take_of_length_le this] at h
    exact ⟨by omega, h.1⟩

/-- Zero is read from zeros only. -/
theorem subexp_zero (n : Nat) (hn : 2 ≤ n) (e : Bits) (h : Hdr.subexp n e = some (0, [])) : e ≠ [] ∧ true ∉ e := by
  have mono : ∀ fuel i mk (s : Bits) x, Hdr.subexpGo n fuel i mk s = some x → mk ≤ x.1 := by
    intro fuel
    induction fuel with
    | zero => intro i mk s x h; cases h
    | succ fuel ih =>
      intro i mk s x h
      unfold Hdr.subexpGo at h
      simp only at h
      generalize (if i = 0 then 3 else i + 2) = b2 at h
      split at h
      · rw [P_bind] at h
        obtain ⟨y, -, h⟩ := Option.bind_eq_some_iff.1 h
        rw [P_pure] at h
        rw [← Option.some.inj h]; simp
      · rw [P_bind] at h
        obtain ⟨⟨m, y⟩, -, h⟩ := Option.bind_eq_some_iff.1 h
        split at h
        · have := ih _ _ _ _ h; omega
        · rw [P_bind] at h
          obtain ⟨y, -, h⟩ := Option.bind_eq_some_iff.1 h
          rw [P_pure] at h
          rw [← Option.some.inj h]; simp
  unfold Hdr.subexp Hdr.subexpGo at h
  simp only [if_true, Nat.zero_add, Nat.sub_zero] at h
  by_cases hl : n ≤ 3 * 2 ^ 3
  · rw [if_pos hl, P_bind] at h
    obtain ⟨⟨v, s⟩, h1, h3⟩ := Option.bind_eq_some_iff.1 h
    unfold P.ns at h1
    simp only [P_bind] at h1
    obtain ⟨⟨v', s'⟩, h1, h2⟩ := Option.bind_eq_some_iff.1 h1
    have hlog : 1 ≤ Nat.log2 n := (Nat.le_log2 (by omega)).2 (by simpa using hn)
    have hlt : n < 2 ^ (Nat.log2 n + 1) := Nat.lt_log2_self
    rw [P_pure] at h3
    simp only [Option.some.injEq, Prod.mk.injEq, Nat.add_zero] at h3
    obtain ⟨rfl, rfl⟩ := h3
    split at h2
    · rw [P_pure] at h2
      simp only [Option.some.injEq, Prod.mk.injEq] at h2
      obtain ⟨rfl, rfl⟩ := h2
      obtain ⟨l, hv⟩ := f_all h1
      refine ⟨?_, num_zero_all e (by omega)⟩
      rintro rfl
      simp at l; omega
    · exfalso
      rw [P_bind] at h2
      obtain ⟨⟨b, s⟩, -, h2⟩ := Option.bind_eq_some_iff.1 h2
      rw [P_pure] at h2
      simp only [Option.some.injEq, Prod.mk.injEq] at h2
      simp only at *
      omega
  · rw [if_neg hl, P_bind] at h
    cases e with
    | nil => cases h
    | cons b e =>
      refine ⟨by simp, ?_⟩
      rw [show P.flag (b :: e) = some (b, e) from rfl, Option.bind_some] at h
      cases b with
      | true =>
        exfalso
        have := mono _ _ _ _ _ h
        simp at this
      | false =>
        simp only [Bool.false_eq_true, if_false] at h
        rw [P_bind] at h
        obtain ⟨⟨v, s⟩, h1, h2⟩ := Option.bind_eq_some_iff.1 h
        rw [P_pure] at h2
        simp only [Option.some.injEq, Prod.mk.injEq] at h2
        obtain ⟨h2, rfl⟩ := h2
        obtain ⟨l, hv⟩ := f_all h1
        have := num_zero_all e (by omega)
        simpa using this

/-- What the code writes for a parameter equal to its reference, in the upper half, is empty or has a one in it. -/
theorem upper_one (q : Nat) (h1 : 1 ≤ q) (e : Bits) (h : encodeSubexp (Hdr.unRecenter q q) q = some (raw e)) :
    e = [] ∨ true ∈ e := by
  by_cases hq : q ≤ 24
  · have key : ∀ q < 25, 1 ≤ q → ∀ x ∈ encodeSubexp (Hdr.unRecenter q q) q, x = [] ∨ 1 ∈ x := by decide +kernel
    have := key q (by omega) h1 _ h
    rcases this with h | h
    · left; cases e with | nil => rfl | cons => cases h
    · right
      simp only [raw, List.mem_map] at h
      obtain ⟨b, hb, hb1⟩ := h
      cases b with
      | true => exact hb
      | false => cases hb1
  · right
    unfold encodeSubexp subexpGo at h
    simp only [gt_iff_lt, Nat.lt_irrefl, if_false, Nat.zero_add] at h
    rw [if_neg (by simpa using hq)] at h
    have ht : 8 ≤ Hdr.unRecenter q q := by unfold Hdr.unRecenter; split <;> [skip; split] <;> omega
    rw [if_neg (by simpa using by omega)] at h
    obtain ⟨x, hx⟩ : ∃ x, raw e = 1 :: x := by
      simp only [cat, Option.bind_eq_bind] at h
      rw [show pushU 1 = some [1] from rfl, Option.bind_some] at h
      obtain ⟨y, -, h⟩ := Option.bind_eq_some_iff.1 h
      exact ⟨y, (Option.some.inj h).symm⟩
    cases e with
    | nil => cases hx
    | cons b e =>
      cases b with
      | true => simp
      | false => simp [raw] at hx
/-- Reference in the upper half: a parameter equal to its reference is not read back there either. -/
theorem unchanged_upper (low high r : Int) (h2 : r < high) (h4 : high - low < 2 * (r - low)) (h5 : high - low < 2 ^ 32) :
    ¬ Writes (encodeSignedSubexp r low high r) (Hdr.signedSubexp low high r) r := by
  rintro ⟨e, he, hr⟩
  have h0 := hr []
  rw [List.append_nil] at h0
  unfold Hdr.signedSubexp Hdr.unsignedSubexp at h0
  unfold encodeSignedSubexp encodeUnsignedSubexp at he
  rw [asUsize_eq _ (by omega) (by omega), asUsize_eq _ (by omega) (by omega)] at he
  generalize hn : (high - low).toNat = n at *
  generalize hx : (r - low).toNat = x at *
  rw [Nat.shiftLeft_eq, pow_one, Nat.mod_eq_of_lt (by omega), if_neg (by omega), usub, if_pos (by omega)] at he
  simp only [Option.bind_eq_bind, Option.bind_some] at he
  rw [usub, if_pos (by omega), Option.bind_some, Option.bind_some, inverseRecenter_eq _ _ (by omega), Option.bind_some] at he
  generalize hq : n - 1 - x = q at *
  rw [P_bind, P_bind] at h0
  obtain ⟨⟨z, s⟩, h1, h0⟩ := Option.bind_eq_some_iff.1 h0
  obtain ⟨⟨d, s'⟩, h3, h1⟩ := Option.bind_eq_some_iff.1 h1
  rw [P_pure, Option.some.injEq, Prod.mk.injEq] at h0 h1
  obtain ⟨h0, rfl⟩ := h0
  obtain ⟨h1, rfl⟩ := h1
  simp only [if_neg (show ¬ 2 * x ≤ n by omega)] at h1
  have hz : z = x := by simp only at h0; omega
  by_cases q0 : q = 0
  · subst q0
    unfold encodeSubexp subexpGo at he
    simp only [Nat.zero_le, if_true] at he
    rw [show Hdr.unRecenter 0 0 = 0 from rfl] at he
    simp only [usub, Nat.le_refl, if_true, Option.bind_eq_bind, Option.bind_some, pushNs] at he
    rw [C16_ns_zero] at he
    cases he
  · have hd : d = 0 := by
      unfold Hdr.unRecenter at h1
      split at h1 <;> [skip; split at h1] <;> omega
    subst hd
    obtain ⟨k1, k2⟩ := subexp_zero n (by omega) e h3
    rcases upper_one q (by omega) e he with h | h
    · exact k1 h
    · exact k2 h

/-- A parameter equal to its reference is never read back, except next to the bottom of the range. -/
theorem C41_unchanged_wrong (low high r : Int) (h3 : low + 2 ≤ r) (h2 : r < high) (h5 : high - low < 2 ^ 32) :
    ¬ Writes (encodeSignedSubexp r low high r) (Hdr.signedSubexp low high r) r := by
  by_cases h4 : 2 * (r - low) ≤ high - low
  · exact unchanged_lower low high r h3 h4 h5
  · exact unchanged_upper low high r h2 (by omega) h5

/-- **C41** is false: the parameter 0 coded relative to 0 in the range of a translation. -/
theorem C41_negation : ¬ C41_full := fun h =>
  C41_unchanged_wrong (-256) 257 0 (by decide) (by decide) (by decide)
    (h (-256) 257 0 0 (by decide) (by decide) (by decide) (by decide) (by decide))

/-- A reference at the top of the range always panics: the code passes the distance to the top as the size of the
range, which is 0. -/
theorem C41_top_panics (low high v : Int) (h1 : low ≤ v) (h2 : v < high) (h3 : 2 < high - low) (h5 : high - low < 2 ^ 32) :
    encodeSignedSubexp v low high (high - 1) = none := by
  unfold encodeSignedSubexp encodeUnsignedSubexp
  rw [asUsize_eq _ (by omega) (by omega), asUsize_eq _ (by omega) (by omega), asUsize_eq _ (by omega) (by omega)]
  generalize hx : (v - low).toNat = x
  generalize hn : (high - low).toNat = n
  generalize hq : (high - 1 - low).toNat = q
  rw [Nat.shiftLeft_eq, pow_one, Nat.mod_eq_of_lt (by omega), if_neg (by omega), usub, if_pos (by omega)]
  simp only [Option.bind_eq_bind, Option.bind_some]
  rw [usub, if_pos (by omega), Option.bind_some, usub, if_pos (by omega), Option.bind_some,
    inverseRecenter_eq _ _ (by omega), Option.bind_some, show n - 1 - q = 0 by omega]
  unfold encodeSubexp subexpGo
  simp only [Nat.lt_irrefl, if_false, gt_iff_lt]
  rw [if_pos (by omega)]
  simp only [usub, Nat.zero_le, if_true, Nat.sub_zero, Option.bind_eq_bind, Option.bind_some, pushNs]
  rw [C16_ns_zero]; rfl

/-! ## C86 -/

/-- Eight references as in a context that has just been created; nothing ever assigns `prev_gm_params`. -/
def freshPrev : List (List Int) := List.replicate 8 (List.replicate 6 0)

structure Gm.Ok (g : Gm) : Prop where
  flags : g.flags.length = 8
  params : g.params.length = 8
  prev : g.prev = freshPrev

/-- What the caller asked for: type and parameters of the seven references. -/
def Gm.asked (g : Gm) : List (Nat × List Int) := (List.range' 1 7).map fun rf =>
  let t := (g.flags.getD rf ⟨false, false, false⟩).typ
  (t, if t = 0 then [0, 0, 2 ^ 16, 0, 0, 2 ^ 16] else g.params.getD rf [])

/-- **C86**, full claim. -/
def C86_full : Prop := ∀ (g : Gm) (intra hp : Bool), g.Ok →
  Writes (encodeGlobalMotion g intra hp) (Hdr.globalMotion intra hp fun rf => g.prev.getD rf [])
    (if intra then List.replicate 7 (0, [0, 0, 2 ^ 16, 0, 0, 2 ^ 16]) else g.asked)

/-- **C86, partial.** Intra frames carry nothing and are read as identity. Missing: all other frames. -/
theorem C86_intra_partial (g : Gm) (hp : Bool) :
    Writes (encodeGlobalMotion g true hp) (Hdr.globalMotion true hp fun rf => g.prev.getD rf [])
      (List.replicate 7 (0, [0, 0, 2 ^ 16, 0, 0, 2 ^ 16])) := Writes.pure _

/-- The bits do not depend on the parameters of the context, nor do the parameters left behind for the references 1 to
6: motion parameters cannot be transmitted at all. -/
theorem C86_independent (g : Gm) (params : List (List Int)) (intra hp : Bool) (hl : params.length = g.params.length) :
    encodeGlobalMotion { g with params := params } intra hp = encodeGlobalMotion g intra hp ∧
    ∀ rf, 1 ≤ rf → rf ≤ 6 → (gmAfter { g with params := params } intra).params[rf]? = (gmAfter g intra).params[rf]? := by
  refine ⟨rfl, ?_⟩
  intro rf h1 h2
  simp only [gmAfter, List.getElem?_mapIdx, h1, h2, and_self, if_true]
  by_cases h : rf < params.length
  · rw [List.getElem?_eq_getElem h, List.getElem?_eq_getElem (hl ▸ h)]; rfl
  · rw [List.getElem?_eq_none (by omega), List.getElem?_eq_none (by omega)]

/-- What an AV1 decoder finds for a reference of type identity or translation: every translation is 48 samples. -/
def foundRef (t : Nat) : Nat × List Int :=
  if t = 1 then (1, [3145728, 3145728, 2 ^ 16, 0, 0, 2 ^ 16]) else (0, [0, 0, 2 ^ 16, 0, 0, 2 ^ 16])

theorem translation_writes (idx : Nat) (hi : idx < 2) (hp : Bool) :
    Writes (encodeGlobalParam 1 idx hp gmIdentity (List.replicate 6 0)) (Hdr.globalParam 1 idx hp 0) 3145728 := by
  have h01 : idx = 0 ∨ idx = 1 := by omega
  cases hp with
  | true =>
    have := Writes.map (fun v : Int => v * 2 ^ 13 + 0)
      (C41_lower_half (-512) 513 0 0 (by decide) (by decide) (by decide) (by decide) (by decide))
    rcases h01 with rfl | rfl <;> exact this
  | false =>
    have := Writes.map (fun v : Int => v * 2 ^ 14 + 0)
      (C41_lower_half (-256) 257 0 0 (by decide) (by decide) (by decide) (by decide) (by decide))
    rcases h01 with rfl | rfl <;> exact this

theorem warp_panics (f : GmFlags) (hp : Bool) (h : 2 ≤ f.typ) : encodeGlobalRef f hp (List.replicate 6 0) = none := by
  obtain ⟨a, b, c⟩ := f
  cases a <;> cases b <;> cases c <;> cases hp <;> first | (exfalso; revert h; decide) | decide +kernel

theorem ref_writes (f : GmFlags) (hp : Bool) (h : f.typ ≤ 1) :
    Writes (encodeGlobalRef f hp (List.replicate 6 0)) (Hdr.gmRef hp (List.replicate 6 0)) (foundRef f.typ) := by
  obtain ⟨a, b, c⟩ := f
  cases a with
  | false =>
    refine ⟨[false], rfl, ?_⟩
    intro rest; rfl
  | true =>
    cases b with
    | true => cases c <;> exact absurd h (by decide)
    | false =>
      cases c with
      | false => exact absurd h (by decide)
      | true =>
        unfold encodeGlobalRef Hdr.gmRef
        have ht : Writes (cat [pushB true, cat [pushB false, pushB true]]) Hdr.gmType 1 :=
          ⟨[true, false, true], rfl, fun _ => rfl⟩
        have hpar := Writes.cons (g := fun p0 => (do
            let p1 ← Hdr.globalParam 1 1 hp 0
            pure [p0, p1] : P (List Int))) (translation_writes 0 (by decide) hp)
          (Writes.map (fun p1 => [(3145728 : Int), p1]) (Writes.last (translation_writes 1 (by decide) hp)))
        have e : cat [pushB true, cat [pushB false, pushB true], cat [], cat
            [encodeGlobalParam 1 0 hp gmIdentity (List.replicate 6 0), encodeGlobalParam 1 1 hp gmIdentity (List.replicate 6 0)]] =
          cat [cat [pushB true, cat [pushB false, pushB true]], cat [], cat
            [encodeGlobalParam 1 0 hp gmIdentity (List.replicate 6 0), encodeGlobalParam 1 1 hp gmIdentity (List.replicate 6 0)]] := by
          simp only [cat_cons, cat_nil, pushB, Option.bind_some]
          cases encodeGlobalParam 1 0 hp gmIdentity (List.replicate 6 0) <;>
            cases encodeGlobalParam 1 1 hp gmIdentity (List.replicate 6 0) <;> rfl
        show Writes (cat [pushB true, cat [pushB false, pushB true], cat [], cat
            [encodeGlobalParam 1 0 hp gmIdentity (List.replicate 6 0), encodeGlobalParam 1 1 hp gmIdentity (List.replicate 6 0)]]) _ _
        rw [e]
        refine Writes.cons ht ?_
        refine Writes.skip ?_
        exact Writes.map (fun b => ((1 : Nat), b ++ [(2 : Int) ^ 16, 0, 0, 2 ^ 16])) (Writes.last hpar)

theorem writes_gmRefs (hp : Bool) (prev : Nat → List Int) (enc : Nat → Option Raw) (v : Nat → Nat × List Int) :
    ∀ (n s : Nat), (∀ i, s ≤ i → i < s + n → Writes (enc i) (Hdr.gmRef hp (prev i)) (v i)) →
      Writes (cat ((List.range' s n).map enc)) (Hdr.gmRefs hp prev n s) ((List.range' s n).map v)
  | 0, _, _ => Writes.pure []
  | n + 1, s, h => by
    have ih := writes_gmRefs hp prev enc v n (s + 1) (fun i h1 h2 => h i (by omega) (by omega))
    rw [List.range'_succ]
    exact Writes.cons (h s (by omega) (by omega)) (Writes.map (v s :: ·) ih)

theorem gmRefs_more (hp : Bool) (prev : Nat → List Int) : ∀ (n s : Nat) (e : Bits) (v : List (Nat × List Int)),
    Hdr.gmRefs hp prev n s e = some (v, []) → Hdr.gmRefs hp prev (n + 1) s e = none
  | 0, s, e, v, h => by
    cases h
    rfl
  | n + 1, s, e, v, h => by
    have h : (Hdr.gmRef hp (prev s) e >>= fun x => (Hdr.gmRefs hp prev n (s + 1) x.2 >>= fun y =>
      some (x.1 :: y.1, y.2))) = some (v, []) := h
    show (Hdr.gmRef hp (prev s) e >>= fun x => (Hdr.gmRefs hp prev (n + 1) (s + 1) x.2 >>= fun y =>
      some (x.1 :: y.1, y.2))) = none
    cases hr : Hdr.gmRef hp (prev s) e with
    | none => rfl
    | some x =>
      rw [hr] at h
      cases hq : Hdr.gmRefs hp prev n (s + 1) x.2 with
      | none => simp [hq] at h
      | some y =>
        simp only [hq, Option.bind_eq_bind, Option.bind_some, Option.some.injEq, Prod.mk.injEq] at h
        have := gmRefs_more hp prev n (s + 1) x.2 y.1 (by rw [hq, ← h.2])
        simp [this]

/-- Only identity and translation get that far; a decoder of six references reads them, every translation as 48 samples
right and down. -/
theorem C86_six (g : Gm) (hp : Bool) (h : g.Ok) 
    (ht : ∀ i, 1 ≤ i → i ≤ 6 → (g.flags.getD i ⟨false, false, false⟩).typ ≤ 1) :
    Writes (encodeGlobalMotion g false hp) (Hdr.gmRefs hp (fun rf => g.prev.getD rf []) 6 1)
      ((List.range' 1 6).map fun rf => foundRef (g.flags.getD rf ⟨false, false, false⟩).typ) := by
  have hl := h.flags
  unfold encodeGlobalMotion
  rw [if_neg (by decide)]
  refine writes_gmRefs hp _ _ _ 6 1 ?_
  intro i h1 h2
  have hti := ht i h1 (by omega)
  have hf : i < g.flags.length := by omega
  have hp1 : freshPrev[i]? = some (List.replicate 6 0) := by
    rw [freshPrev, List.getElem?_replicate, if_pos (by omega)]
  have hp2 : g.prev.getD i [] = List.replicate 6 0 := by
    rw [h.prev, List.getD_eq_getElem?_getD, hp1]; rfl
  rw [List.getD_eq_getElem?_getD, List.getElem?_eq_getElem hf] at hti
  simp only [hp2]
  rw [List.getElem?_eq_getElem hf, h.prev, hp1, List.getD_eq_getElem?_getD, List.getElem?_eq_getElem hf]
  exact ref_writes _ hp hti

def gmSample : Gm := ⟨[⟨false, false, false⟩, ⟨true, false, true⟩, ⟨false, false, false⟩, ⟨false, false, false⟩,
  ⟨true, false, true⟩, ⟨false, false, false⟩, ⟨false, false, false⟩, ⟨false, false, false⟩], List.replicate 8 0,
  List.replicate 8 gmIdentity, freshPrev⟩

example : gmSample.Ok ∧ ∀ i, 1 ≤ i → i ≤ 6 → (gmSample.flags.getD i ⟨false, false, false⟩).typ ≤ 1 :=
  ⟨⟨rfl, rfl, rfl⟩, by intro i _ h; interval_cases i <;> decide⟩

/-- A rotation, zoom or affine model of any reference but the last panics. -/
theorem C86_warp_panics (g : Gm) (hp : Bool) (h : g.Ok) (i : Nat) (h1 : 1 ≤ i) (h2 : i ≤ 6) (f : GmFlags)
    (hf : g.flags[i]? = some f) (ht : 2 ≤ f.typ) : encodeGlobalMotion g false hp = none := by
  unfold encodeGlobalMotion
  refine cat_none (List.mem_map.2 ⟨i, by simp; omega, ?_⟩)
  have hp1 : freshPrev[i]? = some (List.replicate 6 0) := by
    rw [freshPrev, List.getElem?_replicate, if_pos (by omega)]
  rw [hf, h.prev, hp1]
  exact warp_panics f hp ht

/-- **C86**, strong negation: an AV1 decoder can never read the global motion parameters of an inter frame, because
those of `ALTREF_FRAME` are missing. -/
theorem C86_never (g : Gm) (hp : Bool) (h : g.Ok) (v : List (Nat × List Int)) :
    ¬ Writes (encodeGlobalMotion g false hp) (Hdr.globalMotion false hp fun rf => g.prev.getD rf []) v := by
  intro hw
  by_cases hall : ∀ i, 1 ≤ i → i ≤ 6 → (g.flags.getD i ⟨false, false, false⟩).typ ≤ 1
  · have h6 := C86_six g hp h hall
    obtain ⟨e, he, hr⟩ := hw
    obtain ⟨e', he', hr'⟩ := h6
    rw [he] at he'
    obtain rfl := raw_inj (Option.some.inj he')
    have h0 := hr' []
    have h1 := hr []
    rw [List.append_nil] at h0 h1
    have h2 := gmRefs_more hp _ 6 1 e _ h0
    rw [show Hdr.globalMotion false hp (fun rf => g.prev.getD rf []) = Hdr.gmRefs hp (fun rf => g.prev.getD rf []) 7 1 from rfl,
      h2] at h1
    cases h1
  · push Not at hall
    obtain ⟨i, h1, h2, h3⟩ := hall
    have hf : i < g.flags.length := by rw [h.flags]; omega
    rw [List.getD_eq_getElem?_getD, List.getElem?_eq_getElem hf] at h3
    obtain ⟨e, he, _⟩ := hw
    rw [C86_warp_panics g hp h i h1 h2 _ (List.getElem?_eq_getElem hf) h3] at he
    cases he

/-- **C86** is false. -/
theorem C86_negation : ¬ C86_full := fun h =>
  C86_never gmSample true ⟨rfl, rfl, rfl⟩ _ (h gmSample false true ⟨rfl, rfl, rfl⟩)

/-! ## C87 -/

theorem lower_eq (force : Bool) (v : Int) : lowerMvPrecision force v = Hdr.lower false force v := by
  have e : ∀ x : Int, x >>> 3 = x / 8 := fun x => by rw [Int.shiftRight_eq_div_pow]; norm_num
  have e' : ∀ x : Int, x <<< 3 = x * 8 := fun x => by rw [Int.shiftLeft_eq]; norm_num
  cases force
  · simp only [lowerMvPrecision, Hdr.lower, Bool.false_eq_true, if_false]
    split <;> split <;> first | omega | rfl
  · simp only [lowerMvPrecision, Hdr.lower, Bool.false_eq_true, if_false, if_true, e, e', absM]
    split <;> split <;> omega

/-- The model of a reference as the specification takes it. -/
def Gm.model (g : Gm) (ref : Nat) : Option (Nat × List Int) :=
  if ref = 0 then none else some (g.types.getD ref 0, g.params.getD ref [])

/-- The context has a type and six parameters for each reference. -/
structure Gm.Ctx (g : Gm) : Prop where
  types : g.types.length = 8
  params : g.params.length = 8
  six : ∀ p ∈ g.params, p.length = 6

/-- **C87**, full claim, for the two ways to take the components of `MotionVector` as row and column. -/
def C87_full (order : Mv → Int × Int) : Prop :=
  ∀ (g : Gm) (ref miRow miCol bw bh : Nat) (hp force : Bool), g.Ctx → ref < 8 →
    (setupGlobalMv g ref miRow miCol bw bh hp force).map order =
      some (Hdr.globalMv (g.model ref) miRow miCol bw bh hp force)

def gmWarp (t : Nat) : Gm := ⟨[], List.replicate 8 t, List.replicate 8 [16384, 0, 2 ^ 16, 0, 0, 2 ^ 16], []⟩

theorem gmWarp_ctx (t : Nat) : (gmWarp t).Ctx := ⟨by simp [gmWarp], by simp [gmWarp], by simp [gmWarp]⟩

/-- **C87** is false either way: warps put the column first, translations the row. -/
theorem C87_negation : ¬ C87_full (fun m => (m.x, m.y)) ∧ ¬ C87_full (fun m => (m.y, m.x)) := by
  constructor
  · intro h
    have := h (gmWarp 3) 1 0 0 8 8 false false (gmWarp_ctx 3) (by decide)
    revert this; decide
  · intro h
    have := h (gmWarp 1) 1 0 0 8 8 false false (gmWarp_ctx 1) (by decide)
    revert this; decide

/-- **C87, partial.** Intra and identity: the zero vector. -/
theorem C87_identity_partial (g : Gm) (ref miRow miCol bw bh : Nat) (hp force : Bool) (h : g.Ctx) (hr : ref < 8)
    (ht : ref = 0 ∨ g.types.getD ref 0 = 0) :
    setupGlobalMv g ref miRow miCol bw bh hp force = some ⟨0, 0⟩ ∧
    Hdr.globalMv (g.model ref) miRow miCol bw bh hp force = (0, 0) := by
  have hlt : ref < g.types.length := by rw [h.types]; exact hr
  have hl0 : lowerMvPrecision force 0 = 0 := by cases force <;> rfl
  have hs0 : Hdr.lower hp force 0 = 0 := by cases force <;> cases hp <;> rfl
  unfold setupGlobalMv Hdr.globalMv Gm.model
  rcases ht with rfl | ht
  · simp [hl0, hs0]
  · rw [List.getD_eq_getElem?_getD, List.getElem?_eq_getElem hlt, Option.getD_some] at ht
    by_cases h0 : ref = 0
    · simp [h0, hl0, hs0]
    · have : ¬ ((ref : Int) < 0) := by omega
      simp [h0, this, List.getElem?_eq_getElem hlt, ht, hl0, hs0]

theorem setup_eq (g : Gm) (ref miRow miCol bw bh : Nat) (hp force : Bool) (h : g.Ctx) (hr : ref < 8)
    (h0 : ref ≠ 0) (t : Nat) (p : List Int) (ht : g.types.getD ref 0 = t) (hP : g.params.getD ref [] = p) (t0 : t ≠ 0) :
    setupGlobalMv g ref miRow miCol bw bh hp force =
      let x : Int := miCol * 4 + bw / 2 - 1
      let y : Int := miRow * 4 + bh / 2 - 1
      let xc := (p.getD 2 0 - 2 ^ 16) * x + p.getD 3 0 * y + p.getD 0 0
      let yc := p.getD 4 0 * x + (p.getD 5 0 - 2 ^ 16) * y + p.getD 1 0
      let mv : Mv := if t = 1 then ⟨p.getD 0 0 / 2 ^ 13, p.getD 1 0 / 2 ^ 13⟩
        else if hp then ⟨round2Signed xc 13, round2Signed yc 13⟩
        else ⟨round2Signed xc 14 * 2, round2Signed yc 14 * 2⟩
      some ⟨Hdr.lower false force mv.x, Hdr.lower false force mv.y⟩ := by
  have hlt : ref < g.types.length := by rw [h.types]; exact hr
  have hlp : ref < g.params.length := by rw [h.params]; exact hr
  have hT : g.types[ref]? = some t := by
    rw [List.getD_eq_getElem?_getD, List.getElem?_eq_getElem hlt] at ht
    rw [List.getElem?_eq_getElem hlt, ← ht]; rfl
  have hQ : g.params[ref]? = some p := by
    rw [List.getD_eq_getElem?_getD, List.getElem?_eq_getElem hlp] at hP
    rw [List.getElem?_eq_getElem hlp, ← hP]; rfl
  have h6 : p.length = 6 := h.six p (List.mem_of_getElem? hQ)
  have hn : ¬ ((ref : Int) < 0) := by omega
  have hn' : (ref : Int) ≠ 0 := by omega
  have a : ∀ i < 6, p[i]? = some (p.getD i 0) := fun i hi => by
    rw [List.getD_eq_getElem?_getD, List.getElem?_eq_getElem (by omega)]; rfl
  have e : ∀ x : Int, x >>> (16 - 3) = x / 2 ^ 13 := fun x => by rw [Int.shiftRight_eq_div_pow]; norm_num
  unfold setupGlobalMv
  rw [if_pos hn', if_neg hn, Int.toNat_natCast, hT]
  simp only [Option.bind_eq_bind, Option.bind_some]
  rw [if_neg (by omega), hQ]
  simp only [Option.bind_some, a 0 (by decide), a 1 (by decide), a 2 (by decide), a 3 (by decide), a 4 (by decide),
    a 5 (by decide), e, lower_eq]
  by_cases h1 : t = 1
  · simp only [if_pos h1, Option.bind_some]
  · simp only [if_neg h1]
    cases hp <;> rfl

/-- **C87, partial.** Translations without high precision: right if `x` is the row. -/
theorem C87_translation_partial (g : Gm) (ref miRow miCol bw bh : Nat) (force : Bool) (h : g.Ctx) (hr : ref < 8)
    (h0 : ref ≠ 0) (ht : g.types.getD ref 0 = 1) :
    (setupGlobalMv g ref miRow miCol bw bh false force).map (fun m => (m.x, m.y)) =
      some (Hdr.globalMv (g.model ref) miRow miCol bw bh false force) := by
  rw [setup_eq g ref miRow miCol bw bh false force h hr h0 1 _ ht rfl (by decide)]
  unfold Hdr.globalMv Gm.model
  rw [if_neg h0, ht]
  rfl

example : (gmWarp 1).Ctx ∧ (gmWarp 1).types.getD 4 0 = 1 := ⟨gmWarp_ctx 1, rfl⟩

theorem round2Signed_nonneg (x : Int) (n : Nat) (hn : 1 ≤ n) (h : 0 ≤ x) : round2Signed x n = Hdr.roundSigned x n := by
  unfold round2Signed round2 Hdr.roundSigned
  rw [if_pos h, if_pos h, if_neg (by omega), Int.shiftRight_eq_div_pow, Nat.shiftLeft_eq]
  push_cast
  rw [one_mul]

/-- **C87, partial.** Other models without high precision, as long as both displacements are not negative: right if `y`
is the row.  Missing: negative displacements (`Round2Signed!` loses the sign), high precision (C47). -/
theorem C87_warp_partial (g : Gm) (ref miRow miCol bw bh : Nat) (force : Bool) (h : g.Ctx) (hr : ref < 8)
    (h0 : ref ≠ 0) (ht : 2 ≤ g.types.getD ref 0) (p : List Int) (hp : g.params.getD ref [] = p)
    (hx : 0 ≤ (p.getD 2 0 - 2 ^ 16) * ((miCol : Int) * 4 + bw / 2 - 1) + p.getD 3 0 * ((miRow : Int) * 4 + bh / 2 - 1) + p.getD 0 0)
    (hy : 0 ≤ p.getD 4 0 * ((miCol : Int) * 4 + bw / 2 - 1) + (p.getD 5 0 - 2 ^ 16) * ((miRow : Int) * 4 + bh / 2 - 1) + p.getD 1 0) :
    (setupGlobalMv g ref miRow miCol bw bh false force).map (fun m => (m.y, m.x)) =
      some (Hdr.globalMv (g.model ref) miRow miCol bw bh false force) := by
  rw [setup_eq g ref miRow miCol bw bh false force h hr h0 _ p rfl hp (by omega)]
  unfold Hdr.globalMv Gm.model
  rw [if_neg h0, hp]
  simp only [Option.map_some, if_neg (show ¬ g.types.getD ref 0 = 0 by omega),
    if_neg (show ¬ g.types.getD ref 0 = 1 by omega), Bool.false_eq_true, if_false, round2Signed_nonneg _ 14 (by decide) hx,
    round2Signed_nonneg _ 14 (by decide) hy]

example : (gmWarp 3).Ctx ∧ 2 ≤ (gmWarp 3).types.getD 1 0 ∧ (gmWarp 3).params.getD 1 [] = [16384, 0, 2 ^ 16, 0, 0, 2 ^ 16] :=
  ⟨gmWarp_ctx 3, by decide, rfl⟩

theorem round2Signed_abs (x : Int) (n : Nat) (hn : 1 ≤ n) : round2Signed x n = |Hdr.roundSigned x n| := by
  have h2 : (0 : Int) < 2 ^ n := by positivity
  have h3 : (0 : Int) < 2 ^ (n - 1) := by positivity
  unfold round2Signed round2 Hdr.roundSigned
  by_cases h : 0 ≤ x
  · have hq : 0 ≤ (x + 2 ^ (n - 1)) / 2 ^ n := Int.ediv_nonneg (by omega) h2.le
    rw [if_pos h, if_pos h, if_neg (by omega), Int.shiftRight_eq_div_pow, Nat.shiftLeft_eq, abs_of_nonneg hq]
    push_cast
    rw [one_mul]
  · have hq : 0 ≤ (-x + 2 ^ (n - 1)) / 2 ^ n := Int.ediv_nonneg (by omega) h2.le
    rw [if_neg h, if_neg h, if_neg (by omega), Int.shiftRight_eq_div_pow, Nat.shiftLeft_eq, abs_neg, abs_of_nonneg hq]
    push_cast
    rw [one_mul]

theorem lower_abs (force : Bool) (v : Int) : Hdr.lower false force |v| = |Hdr.lower false force v| := by
  cases force
  · simp only [Hdr.lower, Bool.false_eq_true, if_false]
    rcases abs_cases v with ⟨h1, h2⟩ | ⟨h1, h2⟩ <;> rw [h1] <;> by_cases e : v % 2 = 0
    · rw [if_pos e, abs_of_nonneg h2]
    · rw [if_neg e, if_pos (by omega), abs_of_nonneg (by omega)]
    · rw [if_pos (by omega), if_pos e, abs_of_nonpos (by omega)]
    · rw [if_neg (by omega), if_pos (by omega), if_neg e, if_neg (by omega), abs_of_nonpos (by omega)]; omega
  · simp only [Hdr.lower, Bool.false_eq_true, if_false, if_true, Int.natAbs_abs]
    rcases abs_cases v with ⟨h1, h2⟩ | ⟨h1, h2⟩ <;> rw [h1]
    · by_cases e : v > 0
      · rw [if_pos e, abs_of_nonneg (by omega)]
      · have : v = 0 := by omega
        subst this; decide
    · rw [if_pos (by omega), if_neg (by omega), abs_of_nonpos (by omega), neg_neg]

/-- What becomes of the other models, always: both components lose their sign, and the vector its high precision. -/
theorem C87_warp_abs (g : Gm) (ref miRow miCol bw bh : Nat) (hp force : Bool) (h : g.Ctx) (hr : ref < 8)
    (h0 : ref ≠ 0) (ht : 2 ≤ g.types.getD ref 0) (row col : Int)
    (hv : Hdr.globalMv (g.model ref) miRow miCol bw bh hp force = (row, col)) :
    (setupGlobalMv g ref miRow miCol bw bh hp force).map (fun m => (m.y, m.x)) =
      some (if hp then (Hdr.lower false force |row|, Hdr.lower false force |col|) else (|row|, |col|)) := by
  rw [setup_eq g ref miRow miCol bw bh hp force h hr h0 _ _ rfl rfl (by omega)]
  unfold Hdr.globalMv Gm.model at hv
  rw [if_neg h0] at hv
  simp only [if_neg (show ¬ g.types.getD ref 0 = 0 by omega), if_neg (show ¬ g.types.getD ref 0 = 1 by omega)] at hv
  simp only [Option.map_some, if_neg (show ¬ g.types.getD ref 0 = 1 by omega)]
  cases hp
  · simp only [Bool.false_eq_true, if_false, Prod.mk.injEq] at hv ⊢
    have two : ∀ a : Int, |a| * 2 = |a * 2| := fun a => by rcases abs_cases a with h | h <;> rcases abs_cases (a * 2) with h' | h' <;> omega
    rw [← hv.1, ← hv.2, round2Signed_abs _ 14 (by decide), round2Signed_abs _ 14 (by decide), two, two,
      lower_abs, lower_abs]
  · simp only [if_true, Prod.mk.injEq] at hv ⊢
    rw [← hv.1, ← hv.2, round2Signed_abs _ 13 (by decide), round2Signed_abs _ 13 (by decide)]
    rfl

/-- So without high precision the vector is right exactly if neither component is negative. -/
theorem C87_warp_iff (g : Gm) (ref miRow miCol bw bh : Nat) (force : Bool) (h : g.Ctx) (hr : ref < 8)
    (h0 : ref ≠ 0) (ht : 2 ≤ g.types.getD ref 0) :
    (setupGlobalMv g ref miRow miCol bw bh false force).map (fun m => (m.y, m.x)) =
      some (Hdr.globalMv (g.model ref) miRow miCol bw bh false force) ↔
    0 ≤ (Hdr.globalMv (g.model ref) miRow miCol bw bh false force).1 ∧
      0 ≤ (Hdr.globalMv (g.model ref) miRow miCol bw bh false force).2 := by
  generalize hv : Hdr.globalMv (g.model ref) miRow miCol bw bh false force = v
  rw [C87_warp_abs g ref miRow miCol bw bh false force h hr h0 ht v.1 v.2 hv]
  simp only [Bool.false_eq_true, if_false, Option.some.injEq, Prod.ext_iff, abs_eq_self]

example : (gmWarp 3).Ctx ∧ 2 ≤ (gmWarp 3).types.getD 1 0 ∧
    Hdr.globalMv (some (3, [-16384, 0, 2 ^ 16, 0, 0, 2 ^ 16])) 4 4 16 16 false false = (0, -2) := ⟨gmWarp_ctx 3, by decide, by decide⟩

/-- The two ends of a stream disagree about every translation: for a reference of that type the encoder takes the zero
vector after the header of the frame, a decoder that could read the header would take 48 samples. -/
theorem C87_translation_desync (g : Gm) (ref miRow miCol bw bh : Nat) (hp force : Bool) (h : g.Ctx) (h1 : 1 ≤ ref)
    (h2 : ref ≤ 6) (ht : (g.flags.getD ref ⟨false, false, false⟩).typ = 1) :
    setupGlobalMv (gmAfter g false) ref miRow miCol bw bh hp force = some ⟨0, 0⟩ ∧
    Hdr.globalMv (some (foundRef 1)) miRow miCol bw bh hp force = (384, 384) := by
  have hlt : ref < g.types.length := by rw [h.types]; omega
  have hlp : ref < g.params.length := by rw [h.params]; omega
  have hc : (gmAfter g false).Ctx := by
    refine ⟨by simp [gmAfter, h.types], by simp [gmAfter, h.params], ?_⟩
    intro p hp
    obtain ⟨i, hi, rfl⟩ := List.mem_mapIdx.1 hp
    split
    · have : ∀ t, (gmParamsAfter t gmIdentity).length = 6 := by intro t; unfold gmParamsAfter; split <;> rfl
      exact this _
    · exact h.six _ (List.getElem_mem hi)
  constructor
  · rw [setup_eq (gmAfter g false) ref miRow miCol bw bh hp force hc (by omega) (by omega) 1 gmIdentity ?_ ?_ (by decide)]
    · show some (⟨Hdr.lower false force (0 / 2 ^ 13), Hdr.lower false force (0 / 2 ^ 13)⟩ : Mv) = some ⟨0, 0⟩
      cases force <;> decide
    · rw [List.getD_eq_getElem?_getD]
      simp only [gmAfter, List.getElem?_mapIdx, List.getElem?_eq_getElem hlt, Option.map_some, Option.getD_some,
        h1, h2, and_self, if_true, Bool.false_eq_true, if_false]
      exact ht
    · rw [List.getD_eq_getElem?_getD]
      simp only [gmAfter, List.getElem?_mapIdx, List.getElem?_eq_getElem hlp, Option.map_some, Option.getD_some,
        h1, h2, and_self, if_true, Bool.false_eq_true, if_false, ht]
      rfl
  · show (Hdr.lower hp force (3145728 / 2 ^ 13), Hdr.lower hp force (3145728 / 2 ^ 13)) = (384, 384)
    cases hp <;> cases force <;> decide

end Av1
