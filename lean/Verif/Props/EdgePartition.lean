import Verif.Spec.PartFlag
import Verif.Props.Tree

/-! # C131: the partition type is determined by the symbol, also at the edges of the frame -/

namespace Av1

section
variable {σ ω β : Type}

/-- **C131**, the symbol, in part: for every square of 4 to 128 pixels at its natural place in a frame of whole 16 pixel units and every
partition type allowed there, the symbol written (or its absence) tells the type.  Missing: other frames (`C131_half_wrong`). -/
theorem C131_symbol_partial (k p r c mR mC half : Nat) (hk : k ≤ 5) (hr : 2 ^ k ∣ r) (hc : 2 ^ k ∣ c) (hR : 4 ∣ mR) (hC : 4 ∣ mC)
    (hhalf : halfBlock (3 * k) = some half) (hok : allowedPart p (3 * k) r c mR mC = some true) :
    Dec.partFrom (2 ^ k) r c mR mC (partSym p (3 * k) (decide (r + half < mR)) (decide (c + half < mC))) = some p := by
  cases k with
  | zero =>
    have h0 : p = 0 := by
      unfold allowedPart at hok
      rw [hhalf] at hok
      simpa [K.BLOCK_8X8, K.PARTITION_NONE] using hok
    subst h0
    rfl
  | succ k =>
    obtain ⟨h1, e1, er⟩ := half_spec k r mR hk hr hR
    obtain ⟨h2, e2, ec⟩ := half_spec k c mC hk hc hC
    rw [hhalf] at e1 e2
    cases e1
    cases e2
    have hbs : ¬ 3 * (k + 1) < K.BLOCK_8X8 := by
      show ¬ 3 * (k + 1) < 3
      omega
    have hn : ¬ 2 ^ (k + 1) < 2 := by
      have := Nat.one_le_two_pow (n := k)
      rw [pow_succ]; omega
    unfold allowedPart at hok
    rw [hhalf] at hok
    simp only [Option.bind_eq_bind, Option.bind_some] at hok
    rw [if_neg hbs] at hok
    unfold partSym Dec.partFrom
    rw [if_neg hbs, if_neg hn]
    simp only [← er, ← ec]
    by_cases a : r + half < mR <;> by_cases b : c + half < mC <;>
      simp only [a, b, decide_true, decide_false, Bool.and_self, Bool.and_true, Bool.and_false, Bool.false_eq_true, if_true, if_false, Option.some.injEq,
        Bool.or_eq_true, beq_iff_eq, K.PARTITION_SPLIT, K.PARTITION_HORZ, K.PARTITION_VERT] at hok ⊢
    · rcases hok with rfl | rfl <;> rfl
    · rcases hok with rfl | rfl <;> rfl
    · exact hok.symm

/-- **C131**, full claim for the symbol: the same in every frame (whose dimensions are even numbers of units). -/
def C131_full : Prop := ∀ (k p r c mR mC half : Nat), k ≤ 5 → 2 ^ k ∣ r → 2 ^ k ∣ c → 2 ∣ mR → 2 ∣ mC → r < mR → c < mC →
  halfBlock (3 * k) = some half → allowedPart p (3 * k) r c mR mC = some true →
    Dec.partFrom (2 ^ k) r c mR mC (partSym p (3 * k) (decide (r + half < mR)) (decide (c + half < mC))) = some p

/-- The half of a 16x16 square is taken to be one unit: if the frame ends in the middle of the square, the encoder writes the
partition symbol of a square inside the frame where a decoder reads a flag, whatever the type. -/
theorem C131_half_wrong (p r c mC half : Nat) (hc : c + 1 < mC) (hh : halfBlock K.BLOCK_16X16 = some half) :
    Dec.partFrom 4 r c (r + 2) mC (partSym p K.BLOCK_16X16 (decide (r + half < r + 2)) (decide (c + half < mC))) = none := by
  have h1 : halfBlock K.BLOCK_16X16 = some 1 := rfl
  rw [h1] at hh
  cases hh
  have a : r + 1 < r + 2 := by omega
  unfold Dec.partFrom partSym
  rw [if_neg (by decide), if_neg (by decide)]
  by_cases e : c + 4 / 2 < mC <;> simp [a, hc, e]

theorem C131_negation : ¬ C131_full := by
  intro h
  exact absurd (h 2 0 0 0 2 4 1 (by decide) (by decide) (by decide) (by decide) (by decide) (by decide) (by decide) rfl (by decide))
    (by decide)

/-- **C131**, the exact condition, for every square, every position and every frame: the symbol tells the type unless the square
is 16×16 and the frame ends in its middle. -/
theorem C131_iff (k p r c mR mC half : Nat) (hk : k ≤ 5) (hhalf : halfBlock (3 * k) = some half)
    (hok : allowedPart p (3 * k) r c mR mC = some true) :
    Dec.partFrom (2 ^ k) r c mR mC (partSym p (3 * k) (decide (r + half < mR)) (decide (c + half < mC))) = some p ↔
      ¬ (k = 2 ∧ (mR = r + 2 ∨ mC = c + 2)) := by
  by_cases h2 : k = 2
  · subst h2
    have h1 : halfBlock (3 * 2) = some 1 := rfl
    rw [h1] at hhalf
    cases hhalf
    unfold allowedPart at hok
    simp only [h1, Option.bind_eq_bind, Option.bind_some] at hok
    rw [if_neg (by decide)] at hok
    unfold partSym Dec.partFrom
    rw [if_neg (by decide), if_neg (by decide)]
    have e1 : r + 1 < mR ↔ r + 2 ^ 2 / 2 < mR ∨ mR = r + 2 := by norm_num; omega
    have e2 : c + 1 < mC ↔ c + 2 ^ 2 / 2 < mC ∨ mC = c + 2 := by norm_num; omega
    have n1 : r + 2 ^ 2 / 2 < mR → ¬ mR = r + 2 := by norm_num; omega
    have n2 : c + 2 ^ 2 / 2 < mC → ¬ mC = c + 2 := by norm_num; omega
    simp only [e1, e2] at hok ⊢
    by_cases a : r + 2 ^ 2 / 2 < mR <;> by_cases b : c + 2 ^ 2 / 2 < mC <;> by_cases a' : mR = r + 2 <;> by_cases b' : mC = c + 2 <;>
      first
      | exact absurd a' (n1 a)
      | exact absurd b' (n2 b)
      | (simp only [a, b, a', b', or_false, or_true, or_self, decide_true, decide_false, Bool.and_self, Bool.and_true, Bool.and_false,
          Bool.false_eq_true, if_true, if_false, Option.some.injEq, Bool.or_eq_true, beq_iff_eq, K.PARTITION_SPLIT, K.PARTITION_HORZ,
          K.PARTITION_VERT] at hok ⊢
         try (rcases hok with rfl | rfl) <;> simp)
  · have hhalf' : k ≠ 0 → half = 2 ^ k / 2 := by
      intro h0
      interval_cases k <;> first | exact absurd rfl h0 | exact absurd rfl h2 | (cases hhalf; rfl)
    refine iff_of_true ?_ (fun h => h2 h.1)
    cases k with
    | zero =>
      have h0 : p = 0 := by
        unfold allowedPart at hok
        rw [hhalf] at hok
        simpa [K.BLOCK_8X8, K.PARTITION_NONE] using hok
      subst h0
      rfl
    | succ k =>
      have hh := hhalf' (by omega)
      have hbs : ¬ 3 * (k + 1) < K.BLOCK_8X8 := by
        show ¬ 3 * (k + 1) < 3
        omega
      have hn : ¬ 2 ^ (k + 1) < 2 := by
        have := Nat.one_le_two_pow (n := k)
        rw [pow_succ]; omega
      unfold allowedPart at hok
      rw [hhalf] at hok
      simp only [Option.bind_eq_bind, Option.bind_some] at hok
      rw [if_neg hbs] at hok
      unfold partSym Dec.partFrom
      rw [if_neg hbs, if_neg hn]
      simp only [← hh]
      by_cases a : r + half < mR <;> by_cases b : c + half < mC <;>
        simp only [a, b, decide_true, decide_false, Bool.and_self, Bool.and_true, Bool.and_false, Bool.false_eq_true, if_true, if_false, Option.some.injEq,
          Bool.or_eq_true, beq_iff_eq, K.PARTITION_SPLIT, K.PARTITION_HORZ, K.PARTITION_VERT] at hok ⊢
      · rcases hok with rfl | rfl <;> rfl
      · rcases hok with rfl | rfl <;> rfl
      · exact hok.symm

/-- A frame 24 pixels high: 8×8 and 32×32 squares at its edge are right, the 16×16 square is not. -/
example : Dec.partFrom 4 4 0 6 8 (partSym 3 6 (decide (4 + 1 < 6)) (decide (0 + 1 < 8))) ≠ some 3 ∧
    Dec.partFrom 8 0 0 6 8 (partSym 3 9 (decide (0 + 4 < 6)) (decide (0 + 4 < 8))) = some 3 := by decide

theorem tryPart_part {E : Enc σ ω β} {rec} {mR mC r c p : Nat} {s : σ} {w : ω} {t : PTree β} {x : Ran σ ω β}
    (h : tryPart E rec mR mC r c p s w t = some x) : ∃ half s1 b0, halfBlock t.bsize = some half ∧
      encSym E s w (partSym p t.bsize (decide (r + half < mR)) (decide (c + half < mC))) = some (s1, b0) ∧
      b0 <+: x.2.2.2 ∧ x.2.2.1.part = p := by
  simp only [tryPart, Option.bind_eq_bind, Option.bind_eq_some_iff] at h
  obtain ⟨half, hh, ⟨s1, b0⟩, hs, qs, -, h⟩ := h
  refine ⟨half, s1, b0, hh, hs, ?_⟩
  split at h
  · simp only [Option.bind_eq_some_iff] at h
    obtain ⟨⟨s2, w2, t2, b1⟩, h2, h⟩ := h
    cases h
    simp only [encBlock, Option.bind_eq_bind, Option.bind_eq_some_iff] at h2
    obtain ⟨_, -, _, -, ⟨s3, w3, i3, b3⟩, -, h2⟩ := h2
    cases h2
    exact ⟨List.prefix_append _ _, rfl⟩
  · simp only [Option.bind_eq_some_iff] at h
    obtain ⟨⟨s2, w2, ts, b1⟩, h2, h⟩ := h
    cases h
    exact ⟨List.prefix_append _ _, rfl⟩

/-- **C131**: whatever the candidates, the coding of symbols and the coding of blocks are, the bits of a square that comes out
of the search begin with a symbol (or without one) that tells a decoder the partition type of the square, unless the frame
ends in the middle of a 16×16 square.  Partial: with the candidates of the
code no search finishes (`C39_never`), and the tables of the two flags are wrong (C64). -/
theorem C131_search_partial (E : Enc σ ω β) (cands : Nat → Nat → Nat → List Nat) (mR mC fuel k r c : Nat) (s s' : σ) (w w' : ω)
    (t t' : PTree β) (bits : Bits) (hk : k ≤ 5) (hm : ¬ (k = 2 ∧ (mR = r + 2 ∨ mC = c + 2)))
    (hin : r < mR ∧ c < mC) (hsome : (firstAllowed cands mR mC r c (3 * k)).isSome) (ht : t.bsize = 3 * k)
    (h : partSearch E cands mR mC fuel s w r c t = some (s', w', t', bits)) :
    ∃ y s1 b0, encSym E s (E.enter w r c) y = some (s1, b0) ∧ b0 <+: bits ∧
      Dec.partFrom (2 ^ k) r c mR mC y = some t'.part := by
  cases fuel with
  | zero => cases h
  | succ f =>
    have hout : ¬ (r ≥ mR ∨ c ≥ mC) := by omega
    unfold partSearch at h
    rw [if_neg hout] at h
    simp only [Option.bind_eq_bind, Option.bind_eq_some_iff] at h
    obtain ⟨half, hhalf, ⟨w1, best⟩, hall, h⟩ := h
    simp only [Option.some.injEq, Prod.mk.injEq] at h
    obtain ⟨rfl, rfl, rfl, rfl⟩ := h
    have hfirst := tryAll_first s (E.enter w r c) t ⟨2 ^ 64 - 1, s, t, []⟩ (by norm_num) _ _ hall
    rw [ht] at hfirst
    obtain ⟨p, hp⟩ := Option.isSome_iff_exists.1 hsome
    have hp' := hp
    unfold firstAllowed at hp'
    rw [hp'] at hfirst
    obtain ⟨s1, w2, t1, b1, htry, hbest⟩ := hfirst
    have hok : allowedPart p (3 * k) r c mR mC = some true := by simpa using List.find?_some hp'
    simp only at hbest
    subst hbest
    obtain ⟨half', s2, b0, hh', hs, hpre, hpart⟩ := tryPart_part htry
    rw [ht] at hh' hs
    refine ⟨_, s2, b0, hs, hpre, ?_⟩
    simp only at hpart
    simp only
    rw [hpart]
    exact (C131_iff k p r c mR mC half' hk hh' hok).2 hm

/-- Not vacuous: a 64x64 square at the bottom of a frame of 40 rows by 32 columns (in units), coded by an encoder that writes one
bit for each symbol and nothing for a block: the search with the candidates HORZ, SPLIT gives HORZ and the flag 0; with the
candidate SPLIT alone it gives the flag 1.  The frame's right edge gives the other flag. -/
def flagEnc : Enc Unit Unit Unit where
  enter w _ _ := w
  symbol s _ y := some (s, match y with | .part _ _ => [true, true] | .horz _ b => [false, b] | .vert _ b => [true, b])
  block s w _ _ _ i := some (s, w, i, [])
  fresh := ()

def flagRun (cands : List Nat) (mR mC r c : Nat) : Option (Nat × Bits) :=
  (partSearch flagEnc (fun _ _ bs => if bs = 0 then [0] else if bs = 12 then cands else [0, 3]) mR mC 6 () () r c
    (.new () 12)).map fun x => (x.2.2.1.part, x.2.2.2)

example : flagRun [1, 3] 40 32 32 0 = some (1, [false, false]) ∧ (flagRun [3] 40 32 32 0).map Prod.fst = some 3 ∧
    ((flagRun [3] 40 32 32 0).map fun x => x.2.take 2) = some [false, true] ∧
    flagRun [2, 3] 32 40 0 32 = some (2, [true, false]) := by decide

end

end Av1
