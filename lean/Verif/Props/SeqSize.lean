import Verif.Props.SeqHeader

/-! # C29 for every size: the size an AV1 reader finds is never the right one -/

namespace Av1

/-- The value of the `n` bits from position `p` on, with zeros behind the end. -/
def window (s : Bits) (p : Nat) : Nat → Nat
  | 0 => 0
  | n + 1 => 2 * window s p n + (s.getD (p + n) false).toNat

theorem window_eq (s : Bits) (p n : Nat) (h : p + n ≤ s.length) : num ((s.drop p).take n) = window s p n := by
  induction n with
  | zero => simp [window]
  | succ n ih =>
    have hg : (s.drop p)[n]? = some s[p + n] := by rw [List.getElem?_drop, List.getElem?_eq_getElem]
    rw [List.take_add_one, hg, Option.toList_some, num_snoc, ih (by omega), window, List.getD_eq_getElem]

theorem window_zero (s : Bits) (p n : Nat) (h : ∀ i, p ≤ i → i < p + n → s.getD i false = false) : window s p n = 0 := by
  induction n with
  | zero => rfl
  | succ n ih => rw [window, ih fun i h1 h2 => h i h1 (by omega), h (p + n) (by omega) (by omega)]; rfl

/-- A window with at most one 1 in it. -/
theorem window_single (s : Bits) (p n q : Nat) (h : ∀ i, p ≤ i → i < p + n → i ≠ q → s.getD i false = false) :
    window s p n = 0 ∨ ∃ j, window s p n = 2 ^ j := by
  induction n with
  | zero => exact .inl rfl
  | succ n ih =>
    by_cases hq : p + n = q
    · have h0 : window s p n = 0 := window_zero s p n fun i h1 h2 => h i h1 (by omega) (by omega)
      rw [window, h0]
      cases s.getD (p + n) false
      · exact .inl rfl
      · exact .inr ⟨0, rfl⟩
    · rw [window, h (p + n) (by omega) (by omega) hq]
      rcases ih fun i h1 h2 h3 => h i h1 (by omega) h3 with h0 | ⟨j, hj⟩
      · left; rw [h0]; rfl
      · right; exact ⟨j + 1, by rw [hj, pow_succ]; simp; ring⟩

theorem window_one (s : Bits) (p : Nat) : window s p 1 ≤ 1 := by
  simp only [window]
  cases s.getD (p + 0) false <;> simp

/-- A field read at position `p`. -/
theorem f_window {s r : Bits} {p n v : Nat} (h : P.f n (s.drop p) = some (v, r)) :
    v = window s p n ∧ r = s.drop (p + n) := by
  unfold P.f at h
  split at h
  · cases h
  · rename_i hl
    rw [List.length_drop] at hl
    simp only [Option.some.injEq, Prod.mk.injEq, List.drop_drop] at h
    by_cases hn : n = 0
    · subst hn
      exact ⟨by rw [← h.1]; simp [window], h.2.symm⟩
    · exact ⟨by rw [← h.1, window_eq s p n (by omega)], h.2.symm⟩

/-- The size fields at position `p`. -/
theorem sizeFields_window {s r : Bits} {p w h : Nat} (hs : Syntax.sizeFields (s.drop p) = some ((w, h), r)) :
    w = window s (p + 8) (window s p 4 + 1) + 1 ∧
    h = window s (p + 8 + (window s p 4 + 1)) (window s (p + 4) 4 + 1) + 1 := by
  unfold Syntax.sizeFields at hs
  rw [P_bind] at hs
  obtain ⟨⟨wb, r1⟩, h1, hs⟩ := Option.bind_eq_some_iff.1 hs
  obtain ⟨e1, e1'⟩ := f_window h1
  rw [P_bind] at hs
  obtain ⟨⟨hb, r2⟩, h2, hs⟩ := Option.bind_eq_some_iff.1 hs
  dsimp only at h2 hs
  rw [e1'] at h2
  obtain ⟨e2, e2'⟩ := f_window h2
  rw [P_bind] at hs
  obtain ⟨⟨a, r3⟩, h3, hs⟩ := Option.bind_eq_some_iff.1 hs
  dsimp only at h3 hs
  rw [e2', e1] at h3
  obtain ⟨e3, e3'⟩ := f_window h3
  rw [P_bind] at hs
  obtain ⟨⟨b, r4⟩, h4, hs⟩ := Option.bind_eq_some_iff.1 hs
  dsimp only at h4 hs
  rw [e3', e2] at h4
  obtain ⟨e4, -⟩ := f_window h4
  change some ((a + 1, b + 1), r4) = _ at hs
  simp only [Option.some.injEq, Prod.mk.injEq] at hs
  rw [← hs.1.1, ← hs.1.2, e3, e4]
  exact ⟨rfl, rfl⟩

/-- One operating point without decoder model and initial display delay takes 17 or 18 bits. -/
def opSkip : P Unit := do
  let _ ← P.f 12
  let level ← P.f 5
  let _ ← (if level > 7 then P.f 1 else pure 0)

theorem opSkip_window {s r : Bits} {p : Nat} {u : Unit} (h : opSkip (s.drop p) = some (u, r)) :
    r = s.drop (p + 17) ∨ r = s.drop (p + 18) := by
  unfold opSkip at h
  rw [P_bind] at h
  obtain ⟨⟨a, r1⟩, h1, h⟩ := Option.bind_eq_some_iff.1 h
  obtain ⟨-, e1⟩ := f_window h1
  rw [P_bind] at h
  obtain ⟨⟨l, r2⟩, h2, h⟩ := Option.bind_eq_some_iff.1 h
  dsimp only at h2 h
  rw [e1] at h2
  obtain ⟨-, e2⟩ := f_window h2
  rw [P_bind] at h
  obtain ⟨⟨t, r3⟩, h3, h⟩ := Option.bind_eq_some_iff.1 h
  dsimp only at h3 h
  change some ((), r3) = _ at h
  simp only [Option.some.injEq, Prod.mk.injEq] at h
  rw [← h.2]
  by_cases hl : l > 7
  · rw [if_pos hl, e2] at h3
    exact .inr (f_window h3).2
  · rw [if_neg hl, e2] at h3
    change some (0, s.drop (p + 12 + 5)) = _ at h3
    simp only [Option.some.injEq, Prod.mk.injEq] at h3
    exact .inl h3.2.symm

theorem many_opSkip {s : Bits} : ∀ (n p : Nat) {r : Bits} {x : List Unit}, P.many n opSkip (s.drop p) = some (x, r) →
    ∃ p', r = s.drop p' ∧ p + 17 * n ≤ p' ∧ p' ≤ p + 18 * n
  | 0, p, r, x, h => by
    change some ([], s.drop p) = _ at h
    simp only [Option.some.injEq, Prod.mk.injEq] at h
    exact ⟨p, h.2.symm, by omega, by omega⟩
  | n + 1, p, r, x, h => by
    rw [P.many, P_bind] at h
    obtain ⟨⟨u, r1⟩, h1, h⟩ := Option.bind_eq_some_iff.1 h
    rw [P_bind] at h
    obtain ⟨⟨us, r2⟩, h2, h⟩ := Option.bind_eq_some_iff.1 h
    dsimp only at h2 h
    change some (u :: us, r2) = _ at h
    simp only [Option.some.injEq, Prod.mk.injEq] at h
    rcases opSkip_window h1 with e | e <;> rw [e] at h2 <;> obtain ⟨p', a, b, c⟩ := many_opSkip n _ h2 <;>
      exact ⟨p', by rw [← h.2, a], by omega, by omega⟩

/-- Where an AV1 reader looks for the size when the first seven bits are 0. -/
theorem sequenceSize_window {s r : Bits} {w h : Nat}
    (hz : s = List.replicate 7 false ++ s.drop 7)
    (hs : Syntax.sequenceSize s = some ((w, h), r)) : ∃ p, 12 + 17 * (window s 7 5 + 1) ≤ p ∧
      p ≤ 12 + 18 * (window s 7 5 + 1) ∧ w = window s (p + 8) (window s p 4 + 1) + 1 ∧
      h = window s (p + 8 + (window s p 4 + 1)) (window s (p + 4) 4 + 1) + 1 := by
  have hs' : ((P.f 5 >>= fun cnt => P.many (cnt + 1) opSkip >>= fun _ => Syntax.sizeFields : P (Nat × Nat)) (s.drop 7))
      = some ((w, h), r) := by
    rw [hz] at hs
    exact hs
  rw [P_bind] at hs'
  obtain ⟨⟨cnt, r1⟩, h1, hs'⟩ := Option.bind_eq_some_iff.1 hs'
  obtain ⟨e1, e1'⟩ := f_window h1
  rw [P_bind] at hs'
  obtain ⟨⟨x, r2⟩, h2, hs'⟩ := Option.bind_eq_some_iff.1 hs'
  dsimp only at h2 hs'
  rw [e1', e1] at h2
  obtain ⟨p, e2, a, b⟩ := many_opSkip _ _ h2
  rw [e2] at hs'
  exact ⟨p, a, b, sizeFields_window hs'⟩

/-- What stands behind the size in every header `main` writes. -/
def seqTail : Bits := toBits 24 0x400020

/-- The parts behind the size. -/
def headerBack (w h : Nat) : List (Option Raw) :=
  [encodeFrameId (SeqHeader.new w h) SeqCtx.new, encodeTools (SeqHeader.new w h) SeqCtx.new, pushB SeqCtx.new.superres,
    pushB SeqCtx.new.cdef, pushB SeqCtx.new.restoration, encodeColor (SeqHeader.new w h) SeqCtx.new,
    encodeTiming (SeqHeader.new w h) SeqCtx.new, encodeOpModels (SeqHeader.new w h) SeqCtx.new, pushB SeqCtx.new.filmGrain]

/-- The header of a run: ten zeros, the two lengths, the size, and constants. -/
theorem runHeader_bits (w h : Nat) (hw : 3 ≤ w) (hw2 : w < 2 ^ 16) (hh : 3 ≤ h) (hh2 : h < 2 ^ 16) :
    runHeader w h = some (raw (List.replicate 10 false ++ (toBits 4 ((w - 1).log2 - 1) ++ (toBits 4 ((h - 1).log2 - 1) ++
      (toBits w.log2 (w - 1) ++ (toBits h.log2 (h - 1) ++ seqTail)))))) := by
  have l16 : ∀ w : Nat, 3 ≤ w → w < 2 ^ 16 → w.log2 - 1 + 1 ≤ 32 := by
    intro w h h2
    have := (Nat.log2_lt (n := w) (k := 16) (by omega)).2 h2
    omega
  have l1 : ∀ w : Nat, 3 ≤ w → w.log2 - 1 + 1 = w.log2 := by
    intro w h
    have : 1 ≤ w.log2 := (Nat.le_log2 (by omega)).2 (by omega)
    omega
  have hsz : encodeSize (SeqHeader.new w h) = some (raw (toBits 4 ((w - 1).log2 - 1) ++ (toBits 4 ((h - 1).log2 - 1) ++
      (toBits w.log2 (w - 1) ++ toBits h.log2 (h - 1))))) := by
    unfold encodeSize
    rw [show (SeqHeader.new w h).width = w from rfl, show (SeqHeader.new w h).height = h from rfl,
      show (SeqHeader.new w h).maxWidth = w from rfl, show (SeqHeader.new w h).maxHeight = h from rfl,
      usub_eq w 1 (by omega), usub_eq h 1 (by omega), msbMinus1_eq w (by omega) hw2, msbMinus1_eq h (by omega) hh2]
    simp only [Option.bind_eq_bind, Option.bind_some, msbMinus1_eq (w - 1) (by omega) (by omega),
      msbMinus1_eq (h - 1) (by omega) (by omega)]
    rw [pushN_eq _ 4 (by norm_num), pushN_eq _ 4 (by norm_num), pushN_eq _ _ (l16 _ hw hw2), pushN_eq _ _ (l16 _ hh hh2),
      l1 w hw, l1 h hh]
    simp [cat_cons, cat_nil, raw_append]
  have hfront : cat [pushN 0 3, pushB false, pushB false, encodeOps' (SeqHeader.new w h) SeqCtx.new] =
      some (raw (List.replicate 10 false)) := by
    change cat [pushN 0 3, pushB false, pushB false, encodeOps' (SeqHeader.new 0 0) SeqCtx.new] = _
    decide +kernel
  have hback : cat (headerBack w h) = some (raw seqTail) := by
    change cat (headerBack 0 0) = _
    decide +kernel
  change cat ([pushN 0 3, pushB false, pushB false, encodeOps' (SeqHeader.new w h) SeqCtx.new] ++
    encodeSize (SeqHeader.new w h) :: headerBack w h) = _
  rw [cat_append, hfront, cat_cons, hsz, hback]
  simp only [Option.bind_some, raw_append, List.append_assoc]

/-- The bits of the size field of the height, when the height is one more than a power of two. -/
theorem toBits_pow (n : Nat) : toBits n (2 ^ n) = List.replicate n false := by
  apply num_inj
  · simp
  · rw [num_toBits, num_replicate_false, Nat.mod_self]

theorem getD_append_replicate (s : Bits) (k i : Nat) : (s ++ List.replicate k false).getD i false = s.getD i false := by
  by_cases h : i < s.length
  · rw [List.getD_append _ _ _ _ h]
  · rw [List.getD_append_right _ _ _ _ (by omega), List.getD_eq_default _ _ (by omega : s.length ≤ i)]
    by_cases h2 : i - s.length < k
    · rw [List.getD_eq_getElem _ _ (by simpa using h2)]; simp
    · rw [List.getD_eq_default _ _ (by simpa using h2)]

/-- Behind the size there are two ones. -/
theorem seqHeader_tail (u : Bits) (k i : Nat) (h : u.length ≤ i) (h1 : i ≠ u.length + 1) (h2 : i ≠ u.length + 18) :
    (u ++ seqTail ++ List.replicate k false).getD i false = false := by
  rw [getD_append_replicate, List.getD_append_right _ _ _ _ h]
  by_cases h3 : i - u.length < 24
  · have : ∀ j < 24, j ≠ 1 → j ≠ 18 → seqTail.getD j false = false := by decide +kernel
    exact this _ h3 (by omega) (by omega)
  · rw [List.getD_eq_default]
    have : seqTail.length = 24 := by decide
    omega

theorem getD_zeros (u v : Bits) (n i : Nat) (h : u.length ≤ i) (h1 : i < u.length + n) :
    (u ++ List.replicate n false ++ v).getD i false = false := by
  rw [List.getD_append _ _ _ _ (by simpa using h1), List.getD_append_right _ _ _ _ h,
    List.getD_eq_getElem _ _ (by simp; omega)]
  simp

/-- The number of operating points an AV1 reader finds comes from the length of the width. -/
theorem seqHeader_count (a : Nat) (ha : a < 16) (v : Bits) :
    window (List.replicate 10 false ++ (toBits 4 a ++ v)) 7 5 = a / 4 := by
  rw [← window_eq _ _ _ (by simp; omega)]
  have : ∀ a < 16, ∃ b c d e, toBits 4 a = [b, c, d, e] ∧ num [false, false, false, b, c] = a / 4 := by
    intro a ha
    refine ⟨a.testBit 3, a.testBit 2, a.testBit 1, a.testBit 0, rfl, ?_⟩
    revert a
    decide
  obtain ⟨b, c, d, e, hb, hn⟩ := this a ha
  rw [hb]
  exact hn

/-- **C29**, for every size: an AV1 reader that gets a header the code has written, followed by any number of zero bits or by
nothing, does not find the size in it; it fails or finds another one. -/
theorem C29_every_size (w h : Nat) (hw : 3 ≤ w) (hw2 : w ≤ 8191) (hh : 3 ≤ h) (hh2 : h ≤ 8191) :
    ∃ e, runHeader w h = some (raw e) ∧
      ∀ k, (Syntax.sequenceSize (e ++ List.replicate k false)).map (·.1) ≠ some (w, h) := by
  refine ⟨_, runHeader_bits w h hw (by omega) hh (by omega), ?_⟩
  intro k hk
  obtain ⟨⟨x, r⟩, hs, hx⟩ := Option.map_eq_some_iff.1 hk
  subst hx
  -- the sizes of the fields
  have lw : ∀ x, 3 ≤ x → x ≤ 8191 → 1 ≤ x.log2 ∧ x.log2 ≤ 12 ∧ 2 ^ x.log2 ≤ x ∧ x < 2 ^ (x.log2 + 1) := by
    intro x h1 h2
    have a := (Nat.log2_lt (n := x) (k := 13) (by omega)).2 (by omega)
    have b : 1 ≤ x.log2 := (Nat.le_log2 (by omega)).2 (by omega)
    exact ⟨b, by omega, Nat.log2_self_le (by omega), Nat.lt_log2_self⟩
  obtain ⟨nw1, nw2, pw1, pw2⟩ := lw w hw hw2
  obtain ⟨nh1, nh2, ph1, ph2⟩ := lw h hh hh2
  obtain ⟨aw, aw'⟩ : 2 ^ ((w - 1).log2 - 1 + 1) ≤ w - 1 ∧ w - 1 < 2 ^ ((w - 1).log2 - 1 + 2) := by
    have := log2_pred_pos w hw
    rw [show (w - 1).log2 - 1 + 1 = (w - 1).log2 by omega, show (w - 1).log2 - 1 + 2 = (w - 1).log2 + 1 by omega]
    exact ⟨Nat.log2_self_le (by omega), Nat.lt_log2_self⟩
  have al : (w - 1).log2 - 1 < 12 := by
    have := (Nat.log2_lt (n := w - 1) (k := 13) (by omega)).2 (by omega)
    omega
  generalize (w - 1).log2 - 1 = a at *
  generalize (h - 1).log2 - 1 = b at *
  generalize w.log2 = n at *
  generalize h.log2 = m at *
  set s := (List.replicate 10 false ++ (toBits 4 a ++ (toBits 4 b ++ (toBits n (w - 1) ++ (toBits m (h - 1) ++ seqTail))))) ++
    List.replicate k false with hsd
  -- the bits that matter
  have ones : ∀ i, 18 + n + m ≤ i → i ≠ 19 + n + m → i ≠ 36 + n + m → s.getD i false = false := by
    intro i h1 h2 h3
    have := seqHeader_tail (List.replicate 10 false ++ (toBits 4 a ++ (toBits 4 b ++ (toBits n (w - 1) ++ toBits m (h - 1))))) k i
      (by simp; omega) (by simp; omega) (by simp; omega)
    simpa only [hsd, List.append_assoc] using this
  have hcnt : window s 7 5 = a / 4 := by
    rw [hsd, List.append_assoc, List.append_assoc]
    exact seqHeader_count a (by omega) _
  obtain ⟨p, p1, p2, rw', rh'⟩ := sequenceSize_window (by rw [hsd]; simp [List.replicate_succ]) hs
  rw [hcnt] at p1 p2
  -- when the length of the width is read as 0 the width is at most 2, likewise the height
  have small : window s p 4 ≠ 0 := by
    intro h0
    rw [h0, Nat.zero_add] at rw'
    have := window_one s (p + 8)
    omega
  have small' : window s (p + 4) 4 ≠ 0 := by
    intro h0
    rw [h0, Nat.zero_add] at rh'
    have := window_one s (p + 8 + (window s p 4 + 1))
    omega
  have exp : ∀ x y, 2 ^ x < 2 ^ y → x < y := fun x y h => (Nat.pow_lt_pow_iff_right (by norm_num)).1 h
  by_cases a8 : 8 ≤ a
  · -- three operating points: the reader is behind the last 1
    exact small (window_zero _ _ _ fun i h1 h2 => ones i (by omega) (by omega) (by omega))
  by_cases a4 : 4 ≤ a
  · -- two operating points: at most one 1 is left, in the length of the width
    have : 2 ^ (a + 2) ≤ 2 ^ 9 := Nat.pow_le_pow_right (by norm_num) (by omega)
    have n9 : n < 10 := exp _ _ (by omega)
    have hq : p ≤ 36 + n + m ∧ 36 + n + m < p + 4 := by
      by_contra hq
      exact small (window_zero _ _ _ fun i h1 h2 => ones i (by omega) (by omega) (by omega))
    exact small' (window_zero _ _ _ fun i h1 h2 => ones i (by omega) (by omega) (by omega))
  -- one operating point
  have : 2 ^ (a + 2) ≤ 2 ^ 5 := Nat.pow_le_pow_right (by norm_num) (by omega)
  have n5 : n < 6 := exp _ _ (by omega)
  by_cases nm : n + m ≤ 9
  · exact small (window_zero _ _ _ fun i h1 h2 => ones i (by omega) (by omega) (by omega))
  -- the height is read from bits with a single 1, so the height written is a power of two, all zeros
  have hm : h - 1 = 2 ^ m := by
    rcases window_single s (p + 8 + (window s p 4 + 1)) (window s (p + 4) 4 + 1) (36 + n + m)
      (fun i h1 h2 h3 => ones i (by omega) (by omega) h3) with h0 | ⟨j, hj⟩
    · omega
    · rw [hj] at rh'
      have p2 : 2 ^ (m + 1) = 2 * 2 ^ m := by ring
      have : 2 ^ 5 ≤ 2 ^ m := Nat.pow_le_pow_right (by norm_num) (by omega)
      have j1 : j < m + 1 := exp _ _ (by omega)
      have j2 : m < j + 1 := exp _ _ (by rw [pow_succ]; omega)
      rw [show j = m by omega] at rh'
      omega
  have zeros : ∀ i, 18 + n ≤ i → i ≠ 19 + n + m → i ≠ 36 + n + m → s.getD i false = false := by
    intro i h1 h2 h3
    by_cases h4 : i < 18 + n + m
    · have := getD_zeros (List.replicate 10 false ++ (toBits 4 a ++ (toBits 4 b ++ toBits n (w - 1)))) (seqTail ++ List.replicate k false)
        m i (by simp; omega) (by simp; omega)
      rw [← toBits_pow m, ← hm] at this
      simpa only [hsd, List.append_assoc] using this
    · exact ones i (by omega) h2 h3
  by_cases ht : 19 + n + m < p + 4
  · exact small' (window_zero _ _ _ fun i h1 h2 => zeros i (by omega) (by omega) (by omega))
  · exact small (window_zero _ _ _ fun i h1 h2 => zeros i (by omega) (by omega) (by omega))

/-- For 1920x1080 the reader finds 1x1, and for 3x3 it finds 1x2. -/
example : (∃ e, runHeader 1920 1080 = some (raw e) ∧
      (Syntax.sequenceSize (e ++ List.replicate 20 false)).map (·.1) = some (1, 1)) ∧
    ∃ e, runHeader 3 3 = some (raw e) ∧ (Syntax.sequenceSize (e ++ List.replicate 20 false)).map (·.1) = some (1, 2) :=
  ⟨⟨_, runHeader_bits 1920 1080 (by decide) (by decide) (by decide) (by decide), by decide +kernel⟩,
    ⟨_, runHeader_bits 3 3 (by decide) (by decide) (by decide) (by decide), by decide +kernel⟩⟩

end Av1
