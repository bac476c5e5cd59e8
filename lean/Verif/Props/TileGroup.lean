import Verif.Model.Tile
import Verif.Props.Tiles
import Verif.Props.Util
import Mathlib.Data.Nat.Prime.Basic

/-! # C104, C105: tile groups -/

namespace Av1

namespace Hdr

open P

/-- `tile_group_obu` of the AV1 specification (5.11.1) up to `byte_alignment`: the first and the last tile.  `lc`, `lr` are
`TileColsLog2`, `TileRowsLog2`. -/
def tileGroup (cols rows lc lr : Nat) : P (Nat × Nat) := do
  let present ← if cols * rows > 1 then flag else pure false
  if cols * rows = 1 ∨ present = false then pure (0, cols * rows - 1)
  else do
    let s ← f (lc + lr)
    let e ← f (lc + lr)
    pure (s, e)

/-- `le(n)` (4.10.4): `n` bytes, the least significant first. -/
def le : Nat → P Nat
  | 0 => pure 0
  | n + 1 => do
    let low ← f 8
    let high ← le n
    pure (low + 256 * high)

end Hdr

/-- `k` is the logarithm of `n`, rounded up (`tile_log2(1, n)`, the value AV1 has for `n` tiles of given widths). -/
def CeilLog2 (n k : Nat) : Prop := n ≤ 2 ^ k ∧ ∀ j < k, 2 ^ j < n

/-- The group written: elements without the alignment, read back as `v`; the alignment is zeros up to the next byte. -/
def GroupReads (x : Option (Raw × Nat × Nat)) (p : P (Nat × Nat)) (v : Nat × Nat) : Prop :=
  ∃ e k, x = some (raw (e ++ List.replicate k false), v.1, v.2) ∧ Reads p e v ∧ k < 8 ∧ (e.length + k) % 8 = 0

/-- **C104**, full claim: a decoder reads the tiles of a group back, for every layout AV1 allows. -/
def C104_full : Prop := ∀ cols rows lc lr groups s e, 0 < cols → 0 < rows → cols ≤ 64 → rows ≤ 64 → CeilLog2 cols lc →
  CeilLog2 rows lr → 0 < groups → s ≤ e → e < cols * rows → (cols * rows = 1 → s = 0 ∧ e = 0) →
  GroupReads (tileGroupHeader cols rows groups s e) (Hdr.tileGroup cols rows lc lr) (s, e)

theorem header_reads {cols rows groups s e : Nat} {p : P (Nat × Nat)} {v : Nat × Nat} {b : Bits}
    (h : tileGroupHead cols rows groups s e = some (raw b, v.1, v.2)) (hr : Reads p b v) :
    GroupReads (tileGroupHeader cols rows groups s e) p v := by
  refine ⟨b, (8 - b.length % 8) % 8, ?_, hr, by omega, by omega⟩
  simp only [tileGroupHeader, h, Option.bind_eq_bind, Option.bind_some]
  rw [pushBitsAlign, raw_append]
  have : (raw b).length = b.length := by simp [raw]
  rw [this]

/-- **C104**, part: one group for all tiles (no `tile_groups`) is read back as all tiles, for every layout. -/
theorem C104_all_partial (cols rows lc lr s e : Nat) (hc : 0 < cols) (hr : 0 < rows) :
    GroupReads (tileGroupHeader cols rows 0 s e) (Hdr.tileGroup cols rows lc lr) (0, cols * rows - 1) := by
  have hpos : 0 < cols * rows := Nat.mul_pos hc hr
  have hu : usub (cols * rows) 1 = some (cols * rows - 1) := by rw [usub, if_pos (by omega)]
  by_cases h1 : cols * rows = 1
  · apply header_reads (b := [])
    · unfold tileGroupHead
      simp only [h1]
      rfl
    · intro rest
      simp only [Hdr.tileGroup, h1]
      rfl
  · apply header_reads (b := [false])
    · unfold tileGroupHead
      dsimp only
      simp only [if_pos (show cols * rows > 1 by omega), hu, or_true, if_true, eq_self_iff_true]
      rfl
    · intro rest
      unfold Hdr.tileGroup
      rw [if_pos (by omega)]
      show (if cols * rows = 1 ∨ false = false then _ else _ : P _) _ = _
      rw [if_pos (Or.inr rfl)]
      rfl

/-- **C104**, part: layouts with powers of two; the range of tiles is read back. -/
theorem C104_pow2_partial (lc lr groups s e : Nat) (h1 : lc ≤ 6) (h2 : lr ≤ 6) (hg : 0 < groups) (h : s ≤ e)
    (he : e < 2 ^ lc * 2 ^ lr) :
    GroupReads (tileGroupHeader (2 ^ lc) (2 ^ lr) groups s e) (Hdr.tileGroup (2 ^ lc) (2 ^ lr) lc lr) (s, e) := by
  by_cases hn : 2 ^ lc * 2 ^ lr = 1
  · have hs : s = 0 ∧ e = 0 := by omega
    obtain ⟨rfl, rfl⟩ := hs
    apply header_reads (b := [])
    · unfold tileGroupHead
      simp only [hn]
      rfl
    · intro rest
      simp only [Hdr.tileGroup, hn]
      rfl
  · have hpos : 0 < 2 ^ lc * 2 ^ lr := by positivity
    have hpow : 2 ^ (lc + lr) = 2 ^ lc * 2 ^ lr := Nat.pow_add ..
    apply header_reads (b := [true] ++ (toBits (lc + lr) s ++ toBits (lc + lr) e))
    · have hif : ¬ (2 ^ lc * 2 ^ lr = 1 ∨ groups = 0) := by omega
      simp only [tileGroupHead, if_pos (show 2 ^ lc * 2 ^ lr > 1 by omega), if_neg hif, startsLog2_pow lc h1,
        startsLog2_pow lr h2]
      simp only [Option.bind_eq_bind, Option.bind_some, pushN_eq _ _ (show lc + lr ≤ 32 by omega)]
      simp [cat_cons, cat_nil, raw_append, pushB, raw, hg]
    · have r1 : Reads (Hdr.tileGroup (2 ^ lc) (2 ^ lr) lc lr)
          ([true] ++ (toBits (lc + lr) s ++ (toBits (lc + lr) e ++ []))) (s, e) := by
        unfold Hdr.tileGroup
        rw [if_pos (show 2 ^ lc * 2 ^ lr > 1 by omega)]
        refine Reads.bind (v := true) (reads_flag true) ?_
        dsimp only
        rw [if_neg (by simp [hn])]
        refine Reads.bind (v := s) (reads_f _ _ (by omega)) ?_
        refine Reads.bind (v := e) (reads_f _ _ (by omega)) ?_
        intro rest
        rfl
      simpa using r1

example : GroupReads (tileGroupHeader 2 2 1 1 2) (Hdr.tileGroup 2 2 1 1) (1, 2) :=
  C104_pow2_partial 1 1 1 1 2 (by decide) (by decide) (by decide) (by decide) (by decide)

/-- Bits read for a range. -/
theorem tileGroup_consumes {cols rows lc lr : Nat} (hn : 1 < cols * rows) {b rest : Bits} {v : Nat × Nat}
    (h : Hdr.tileGroup cols rows lc lr (true :: b) = some (v, rest)) : b.length = rest.length + 2 * (lc + lr) := by
  unfold Hdr.tileGroup at h
  rw [if_pos hn] at h
  change (if cols * rows = 1 ∨ true = false then _ else _ : P _) b = _ at h
  rw [if_neg (by rintro (h1 | h1); · omega
                 · cases h1)] at h
  change ((P.f (lc + lr) b) >>= fun x => ((P.f (lc + lr) x.2) >>= fun y => some ((x.1, y.1), y.2))) = _ at h
  simp only [Option.bind_eq_bind, Option.bind_eq_some_iff, P.f] at h
  obtain ⟨x, hx, y, hy, hz⟩ := h
  split at hx
  · cases hx
  · cases hx
    split at hy
    · cases hy
    · cases hy
      cases hz
      simp only [List.length_drop] at *
      omega

/-- Shifting a pair of truncated numbers apart changes it unless both are zero. -/
theorem widen_ne (d K s e : Nat) (hK : 0 < K) (hs : s < 2 ^ (d + K)) (he : e < 2 ^ (d + K))
    (h : (s % 2 ^ d * 2 ^ d + e % 2 ^ d) * 2 ^ (2 * K) = s * 2 ^ (d + K) + e) : s = 0 ∧ e = 0 := by
  rw [Nat.two_mul, Nat.pow_add] at h
  rw [Nat.pow_add] at h hs he
  have hB : 2 ≤ 2 ^ K := by
    calc 2 = 2 ^ 1 := rfl
      _ ≤ 2 ^ K := Nat.pow_le_pow_right (by decide) hK
  have hBodd : (2 ^ K - 1) % 2 = 1 := by
    obtain ⟨m, rfl⟩ : ∃ m, K = m + 1 := ⟨K - 1, by omega⟩
    rw [Nat.pow_succ] at hB ⊢
    omega
  have hA : 0 < 2 ^ d := by positivity
  have hcop : ∀ m, m % 2 = 1 → Nat.Coprime (2 ^ d) m := by
    intro m hm
    exact Nat.Coprime.pow_left d ((Nat.coprime_two_left).2 (Nat.odd_iff.2 hm))
  have es := Nat.div_add_mod s (2 ^ d)
  have ee := Nat.div_add_mod e (2 ^ d)
  have ls := Nat.mod_lt s hA
  have le := Nat.mod_lt e hA
  have lb : e / 2 ^ d < 2 ^ K := Nat.div_lt_of_lt_mul he
  generalize s % 2 ^ d = s0 at *
  generalize e % 2 ^ d = e0 at *
  generalize s / 2 ^ d = a at *
  generalize e / 2 ^ d = b at *
  generalize 2 ^ d = A at *
  generalize 2 ^ K = B at *
  subst es
  subst ee
  obtain ⟨M, rfl⟩ : ∃ M, B = M + 1 := ⟨B - 1, by omega⟩
  simp only [Nat.add_sub_cancel] at hBodd
  -- the second number has no low part
  have h0 : e0 = 0 := by
    have hd : A ∣ e0 * (M * (M + 2)) := by
      have : A * (s0 * ((M + 1) * (M + 1))) + e0 * (M * (M + 2)) = A * ((A * a + s0) * (M + 1) + b) := by
        nlinarith [h]
      have h2 : A ∣ A * (s0 * ((M + 1) * (M + 1))) + e0 * (M * (M + 2)) := this ▸ Nat.dvd_mul_right ..
      exact (Nat.dvd_add_right (Nat.dvd_mul_right ..)).1 h2
    have hodd : (M * (M + 2)) % 2 = 1 := by
      rw [Nat.mul_mod, Nat.add_mod, hBodd]
    exact Nat.eq_zero_of_dvd_of_lt ((hcop _ hodd).dvd_of_dvd_mul_right hd) le
  subst h0
  have h1 : s0 * ((M + 1) * (M + 1)) = (A * a + s0) * (M + 1) + b := by
    apply Nat.eq_of_mul_eq_mul_left hA
    nlinarith [h]
  have hb : b = 0 := by
    have hd : (M + 1) ∣ b := by
      have : (M + 1) ∣ (A * a + s0) * (M + 1) + b := h1 ▸ Dvd.intro_left (s0 * (M + 1)) (by ring)
      exact (Nat.dvd_add_right (Nat.dvd_mul_left ..)).1 this
    exact Nat.eq_zero_of_dvd_of_lt hd lb
  subst hb
  have h2 : s0 * M = A * a := by
    have : s0 * (M + 1) = A * a + s0 := by
      apply Nat.eq_of_mul_eq_mul_right (show 0 < M + 1 by omega)
      nlinarith [h1]
    nlinarith [this]
  have hs0 : s0 = 0 := by
    have hd : A ∣ s0 * M := h2 ▸ Nat.dvd_mul_right ..
    exact Nat.eq_zero_of_dvd_of_lt ((hcop _ hBodd).dvd_of_dvd_mul_right hd) ls
  subst hs0
  have : A * a = 0 := by omega
  simp [this]

/-- The bits read for a range spell both numbers. -/
theorem tileGroup_value {cols rows lc lr : Nat} (hn : 1 < cols * rows) {b : Bits} {v : Nat × Nat}
    (h : Hdr.tileGroup cols rows lc lr (true :: b) = some (v, [])) :
    b.length = 2 * (lc + lr) ∧ num b = v.1 * 2 ^ (lc + lr) + v.2 ∧ v.1 < 2 ^ (lc + lr) ∧ v.2 < 2 ^ (lc + lr) := by
  have hl := tileGroup_consumes hn h
  unfold Hdr.tileGroup at h
  rw [if_pos hn] at h
  change (if cols * rows = 1 ∨ true = false then _ else _ : P _) b = _ at h
  rw [if_neg (by rintro (h1 | h1); · omega
                 · cases h1)] at h
  change ((P.f (lc + lr) b) >>= fun x => ((P.f (lc + lr) x.2) >>= fun y => some ((x.1, y.1), y.2))) = _ at h
  simp only [Option.bind_eq_bind, Option.bind_eq_some_iff, P.f] at h
  obtain ⟨x, hx, y, hy, hz⟩ := h
  simp only [List.length_nil, Nat.zero_add] at hl
  have hd : (b.drop (lc + lr)).length = lc + lr := by rw [List.length_drop]; omega
  have ht : (b.take (lc + lr)).length = lc + lr := by rw [List.length_take]; omega
  rw [if_neg (by omega)] at hx
  cases hx
  dsimp only at hy hz
  rw [if_neg (by omega)] at hy
  cases hy
  have htake : (b.drop (lc + lr)).take (lc + lr) = b.drop (lc + lr) := List.take_of_length_le (by omega)
  simp only [htake, Option.some.injEq, Prod.mk.injEq] at hz
  obtain ⟨rfl, -⟩ := hz
  refine ⟨hl, ?_, ?_, ?_⟩
  · have := num_append (b.take (lc + lr)) (b.drop (lc + lr))
    rw [List.take_append_drop, hd] at this
    exact this
  · have := num_lt (b.take (lc + lr))
    rwa [ht] at this
  · have := num_lt (b.drop (lc + lr))
    rwa [hd] at this

/-- The logarithm rounded down. -/
def FloorLog2 (n k : Nat) : Prop := 2 ^ k ≤ n ∧ n < 2 ^ (k + 1)

theorem FloorLog2.unique {n a b : Nat} (ha : FloorLog2 n a) (hb : FloorLog2 n b) : a = b := by
  rcases Nat.lt_trichotomy a b with h | h | h
  · have := Nat.pow_le_pow_right (n := 2) (by decide) (show a + 1 ≤ b by omega)
    have := ha.2; have := hb.1; omega
  · exact h
  · have := Nat.pow_le_pow_right (n := 2) (by decide) (show b + 1 ≤ a by omega)
    have := hb.2; have := ha.1; omega

theorem startsLog2_floor {n d : Nat} (h0 : 0 < n) (h64 : n ≤ 64) (h : FloorLog2 n d) : startsLog2 n = some d ∧ d ≤ 6 := by
  have key : ∀ n : Fin 65, 0 < (n : Nat) → ∃ d ∈ startsLog2 n, 2 ^ d ≤ (n : Nat) ∧ (n : Nat) < 2 ^ (d + 1) ∧ d ≤ 6 := by
    decide +kernel
  obtain ⟨d', hd, h1, h2, h6⟩ := key ⟨n, by omega⟩ h0
  have := FloorLog2.unique h ⟨h1, h2⟩
  subst this
  exact ⟨hd, h6⟩

theorem floor_le_ceil {n d k : Nat} (hd : FloorLog2 n d) (hk : CeilLog2 n k) : d ≤ k ∧ (d = k → n = 2 ^ k) := by
  have hdk : d ≤ k := by
    by_contra hlt
    have : 2 ^ k < 2 ^ d := Nat.pow_lt_pow_right (by decide) (by omega)
    have := hk.1
    have := hd.1
    omega
  refine ⟨hdk, ?_⟩
  rintro rfl
  have := hk.1
  have := hd.1
  omega

/-- The logarithms of a layout whose columns or rows are not a power of two, and the elements written for a range of tiles. -/
theorem narrow_head {cols rows lc lr dc dr groups s e : Nat} (hcols : 0 < cols) (hrows : 0 < rows) (hc : cols ≤ 64) (hr : rows ≤ 64)
    (h1 : CeilLog2 cols lc) (h2 : CeilLog2 rows lr) (f1 : FloorLog2 cols dc) (f2 : FloorLog2 rows dr) (hg : 0 < groups)
    (hp : ¬ (cols = 2 ^ lc ∧ rows = 2 ^ lr)) : dc + dr < lc + lr ∧ 1 < cols * rows ∧
      tileGroupHead cols rows groups s e = some (raw ([true] ++ (toBits (dc + dr) s ++ toBits (dc + dr) e)), s, e) := by
  obtain ⟨ec, c6⟩ := startsLog2_floor hcols hc f1
  obtain ⟨er, r6⟩ := startsLog2_floor hrows hr f2
  obtain ⟨kc, pc⟩ := floor_le_ceil f1 h1
  obtain ⟨kr, pr⟩ := floor_le_ceil f2 h2
  have hlt : dc + dr < lc + lr := by
    by_contra hge
    exact hp ⟨pc (by omega), pr (by omega)⟩
  have hn : 1 < cols * rows := by
    rcases Nat.lt_or_ge 1 cols with h | h
    · exact lt_of_lt_of_le h (Nat.le_mul_of_pos_right _ hrows)
    · have e1 : cols = 1 := by omega
      subst e1
      rcases Nat.lt_or_ge 1 rows with h' | h'
      · simpa using h'
      · have e2 : rows = 1 := by omega
        subst e2
        have : lc = 0 := by
          by_contra hne
          have := h1.2 0 (by omega)
          simp at this
        have : lr = 0 := by
          by_contra hne
          have := h2.2 0 (by omega)
          simp at this
        omega
  refine ⟨hlt, hn, ?_⟩
  have hif : ¬ (cols * rows = 1 ∨ groups = 0) := by omega
  simp only [tileGroupHead, if_pos hn, if_neg hif, ec, er]
  simp only [Option.bind_eq_bind, Option.bind_some, pushN_eq _ _ (show dc + dr ≤ 32 by omega)]
  simp [cat_cons, cat_nil, raw_append, pushB, raw, hg]

/-- What a group of such a layout that is read back must be. -/
theorem narrow_group {cols rows lc lr dc dr groups s e : Nat} (hcols : 0 < cols) (hrows : 0 < rows) (hc : cols ≤ 64) (hr : rows ≤ 64)
    (h1 : CeilLog2 cols lc) (h2 : CeilLog2 rows lr) (f1 : FloorLog2 cols dc) (f2 : FloorLog2 rows dr) (hg : 0 < groups)
    (hp : ¬ (cols = 2 ^ lc ∧ rows = 2 ^ lr))
    (hread : GroupReads (tileGroupHeader cols rows groups s e) (Hdr.tileGroup cols rows lc lr) (s, e)) :
    s = 0 ∧ e = 0 ∧ (1 + 2 * (dc + dr) + 7) / 8 = (1 + 2 * (lc + lr) + 7) / 8 := by
  obtain ⟨hlt, hn, hhead⟩ := narrow_head (s := s) (e := e) hcols hrows hc hr h1 h2 f1 f2 hg hp
  obtain ⟨b, k, hx, hread, hk, hmod⟩ := hread
  simp only [tileGroupHeader, hhead, Option.bind_eq_bind, Option.bind_some, Option.some.injEq, Prod.mk.injEq, pushBitsAlign,
    ← raw_append] at hx
  have hb := raw_inj hx.1
  -- lengths: what is read of `b` is more than the elements written, less than a byte of padding
  have hr0 := hread []
  rw [List.append_nil] at hr0
  have hlen : (raw ([true] ++ (toBits (dc + dr) s ++ toBits (dc + dr) e))).length = 1 + 2 * (dc + dr) := by
    simp [raw]; omega
  cases b with
  | nil =>
    unfold Hdr.tileGroup at hr0
    rw [if_pos hn] at hr0
    cases hr0
  | cons x b =>
    have hx0 : x = true := by
      have := congrArg List.head? hb
      simpa using this.symm
    subst hx0
    obtain ⟨hbl, hbn, hs, he⟩ := tileGroup_value hn hr0
    rw [hlen] at hb
    have hb' : toBits (dc + dr) s ++ toBits (dc + dr) e ++ List.replicate ((8 - (1 + 2 * (dc + dr)) % 8) % 8) false =
        b ++ List.replicate k false := by
      simpa using hb
    have hl := congrArg List.length hb'
    have hnum := congrArg num hb'
    simp only [List.length_append, List.length_replicate, length_toBits, num_append, num_replicate_false, num_toBits,
      Nat.add_zero] at hl hnum
    obtain ⟨K, hK⟩ : ∃ K, lc + lr = dc + dr + K := ⟨lc + lr - (dc + dr), by omega⟩
    rw [hK] at hbl hbn hs he
    have hpad : (8 - (1 + 2 * (dc + dr)) % 8) % 8 = 2 * K + k := by omega
    rw [hpad, Nat.pow_add 2 (2 * K) k, ← Nat.mul_assoc, hbn] at hnum
    obtain ⟨z1, z2⟩ := widen_ne (dc + dr) K s e (by omega) hs he (Nat.eq_of_mul_eq_mul_right (show 0 < 2 ^ k by positivity) hnum)
    refine ⟨z1, z2, ?_⟩
    rw [List.length_cons, hbl] at hmod
    omega

/-- **C104**, the claim fails whenever the number of columns or rows is not a power of two: the code takes logarithms rounded
down, so that it writes fewer bits than a decoder reads; the only group that is read back is the one of tile 0 alone, whose
bits are all zero. -/
theorem C104_wrong (cols rows lc lr groups s e : Nat) (hcols : 0 < cols) (hrows : 0 < rows) (hc : cols ≤ 64) (hr : rows ≤ 64)
    (h1 : CeilLog2 cols lc) (h2 : CeilLog2 rows lr) (hg : 0 < groups) (hp : ¬ (cols = 2 ^ lc ∧ rows = 2 ^ lr))
    (hread : GroupReads (tileGroupHeader cols rows groups s e) (Hdr.tileGroup cols rows lc lr) (s, e)) : s = 0 ∧ e = 0 := by
  have floor : ∀ n, 0 < n → ∃ d, FloorLog2 n d := fun n hn => ⟨Nat.log 2 n, Nat.pow_log_le_self 2 (by omega),
    Nat.lt_pow_succ_log_self (by decide) n⟩
  obtain ⟨dc, f1⟩ := floor cols hcols
  obtain ⟨dr, f2⟩ := floor rows hrows
  have := narrow_group hcols hrows hc hr h1 h2 f1 f2 hg hp hread
  exact ⟨this.1, this.2.1⟩

/-- **C104**, the exact condition: a range of tiles is read back if and only if columns and rows are powers of two, or the range is
tile 0 alone and the bits missing are made up for by the zeros that fill the last byte. -/
theorem C104_iff (cols rows lc lr dc dr groups s e : Nat) (hcols : 0 < cols) (hrows : 0 < rows) (hc : cols ≤ 64) (hr : rows ≤ 64)
    (h1 : CeilLog2 cols lc) (h2 : CeilLog2 rows lr) (f1 : FloorLog2 cols dc) (f2 : FloorLog2 rows dr) (hg : 0 < groups)
    (h : s ≤ e) (he : e < cols * rows) :
    GroupReads (tileGroupHeader cols rows groups s e) (Hdr.tileGroup cols rows lc lr) (s, e) ↔
      (cols = 2 ^ lc ∧ rows = 2 ^ lr) ∨
      (s = 0 ∧ e = 0 ∧ (1 + 2 * (dc + dr) + 7) / 8 = (1 + 2 * (lc + lr) + 7) / 8) := by
  constructor
  · intro hread
    by_cases hp : cols = 2 ^ lc ∧ rows = 2 ^ lr
    · exact Or.inl hp
    · exact Or.inr (narrow_group hcols hrows hc hr h1 h2 f1 f2 hg hp hread)
  · intro hor
    by_cases hp : cols = 2 ^ lc ∧ rows = 2 ^ lr
    · obtain ⟨rfl, rfl⟩ := hp
      have six : ∀ k, 2 ^ k ≤ 64 → k ≤ 6 := by
        intro k hk
        by_contra hlt
        have := Nat.pow_le_pow_right (n := 2) (by decide) (show 7 ≤ k by omega)
        omega
      exact C104_pow2_partial lc lr groups s e (six _ hc) (six _ hr) hg h he
    · obtain ⟨rfl, rfl, hb⟩ := hor.resolve_left hp
      obtain ⟨hlt, hn, hhead⟩ := narrow_head (s := 0) (e := 0) hcols hrows hc hr h1 h2 f1 f2 hg hp
      have zeros : ∀ n, toBits n 0 = List.replicate n false := by
        intro n
        induction n with
        | zero => rfl
        | succ n ih => rw [toBits, ih, Nat.zero_testBit]; rfl
      refine ⟨true :: List.replicate (2 * (lc + lr)) false, (8 - (1 + 2 * (lc + lr)) % 8) % 8, ?_, ?_, by omega, ?_⟩
      · simp only [tileGroupHeader, hhead, Option.bind_eq_bind, Option.bind_some, Option.some.injEq, Prod.mk.injEq, pushBitsAlign,
          ← raw_append, and_true]
        congr 1
        have hlen : (raw ([true] ++ (toBits (dc + dr) 0 ++ toBits (dc + dr) 0))).length = 1 + 2 * (dc + dr) := by
          simp [raw]; omega
        rw [hlen, zeros]
        simp only [List.cons_append, List.nil_append, List.replicate_append_replicate]
        have : dc + dr + (dc + dr) + (8 - (1 + 2 * (dc + dr)) % 8) % 8 =
            2 * (lc + lr) + (8 - (1 + 2 * (lc + lr)) % 8) % 8 := by omega
        rw [this]
      · have r1 : Reads (Hdr.tileGroup cols rows lc lr)
            ([true] ++ (toBits (lc + lr) 0 ++ (toBits (lc + lr) 0 ++ []))) (0, 0) := by
          unfold Hdr.tileGroup
          rw [if_pos hn]
          refine Reads.bind (v := true) (reads_flag true) ?_
          dsimp only
          rw [if_neg (by rintro (h1 | h1); · omega
                         · cases h1)]
          refine Reads.bind (v := 0) (reads_f _ _ (by positivity)) ?_
          refine Reads.bind (v := 0) (reads_f _ _ (by positivity)) ?_
          intro rest
          rfl
        rw [zeros, List.append_nil, List.replicate_append_replicate, ← Nat.two_mul] at r1
        exact r1
      · simp only [List.length_cons, List.length_replicate]
        omega

/-- Three columns: tile 0 alone is read back by luck.  Five by five: it is not. -/
example : GroupReads (tileGroupHeader 3 1 1 0 0) (Hdr.tileGroup 3 1 2 0) (0, 0) ∧
    ¬ GroupReads (tileGroupHeader 5 3 1 0 0) (Hdr.tileGroup 5 3 3 2) (0, 0) :=
  ⟨(C104_iff 3 1 2 0 1 0 1 0 0 (by decide) (by decide) (by decide) (by decide) ⟨by decide, by decide⟩ ⟨by decide, by decide⟩
      ⟨by decide, by decide⟩ ⟨by decide, by decide⟩ (by decide) (by decide) (by decide)).2 (by decide),
   fun h => absurd ((C104_iff 5 3 3 2 2 1 1 0 0 (by decide) (by decide) (by decide) (by decide) ⟨by decide, by decide⟩ ⟨by decide, by decide⟩
      ⟨by decide, by decide⟩ ⟨by decide, by decide⟩ (by decide) (by decide) (by decide)).1 h) (by decide)⟩

theorem C104_negation : ¬ C104_full := by
  intro h
  have hc : CeilLog2 3 2 := ⟨by decide, by decide⟩
  have hr : CeilLog2 1 0 := ⟨by decide, by decide⟩
  have := C104_wrong 3 1 2 0 1 0 2 (by decide) (by decide) (by decide) (by decide) hc hr (by decide) (by decide)
    (h 3 1 2 0 1 0 2 (by decide) (by decide) (by decide) (by decide) hc hr (by decide) (by decide) (by decide) (by decide))
  omega

/-! ## C105: the tiles of a group -/

/-- **C105**, full claim: if every tile can be encoded, the group is written, and it ends with the bits of its last tile. -/
def C105_full : Prop := ∀ (τ : Type) (tile : Bool → Nat → τ → Option (τ × Bits)) (cols rows groups s e sizeBytes : Nat) (x : τ),
  0 < cols → 0 < rows → cols ≤ 64 → rows ≤ 64 → s ≤ e → e < cols * rows → 0 < sizeBytes → sizeBytes ≤ 4 →
  (∀ b n x, ∃ y d, tile b n x = some (y, d) ∧ d ≠ []) →
  ∃ out y seen front last z, encodeTileGroup tile cols rows groups s e sizeBytes x = some (out, y, seen) ∧
    out = front ++ raw last ∧ tile true (if cols * rows = 1 ∨ groups = 0 then cols * rows - 1 else e) z = some (y, last)

/-- **C105**, the claim fails for the tile encoder of the code: the group holds the context while it calls `encode_tile`,
which borrows it again.  Every group with a tile panics. -/
theorem C105_panics {σ ω β : Type} (E : TileEnc σ ω β) (use128 : Bool) (miRows miCols fuel cols rows groups s e sizeBytes : Nat)
    (rowStarts colStarts : List Nat) (x : σ × ω) (hc : 0 < cols) (hr : 0 < rows) (h : s ≤ e) :
    encodeTileGroup (fun b n x => (encodeTile E b use128 miRows miCols fuel n cols rows rowStarts colStarts x.1 x.2).map
      fun y => ((y.1, y.2.1), y.2.2)) cols rows groups s e sizeBytes x = none := by
  have hpos : 0 < cols * rows := Nat.mul_pos hc hr
  have hloop : ∀ (a z : Nat) (ns : List Nat) x, tileLoop (fun b n x => (encodeTile E b use128 miRows miCols fuel n cols rows
      rowStarts colStarts x.1 x.2).map fun y => ((y.1, y.2.1), y.2.2)) sizeBytes z (a :: ns) x = none := by
    intro a z ns x
    simp only [tileLoop, encodeTile]
    rfl
  unfold encodeTileGroup
  cases hh : tileGroupHeader cols rows groups s e with
  | none => rfl
  | some y =>
    obtain ⟨b, s', e'⟩ := y
    have hse : s' ≤ e' := by
      simp only [tileGroupHeader, tileGroupHead, Option.bind_eq_bind, Option.bind_eq_some_iff] at hh
      obtain ⟨⟨b1, s1, e1⟩, ⟨b0, -, hh⟩, h2⟩ := hh
      cases h2
      split at hh
      · simp only [Option.bind_eq_some_iff] at hh
        obtain ⟨e2, -, hh⟩ := hh
        cases hh
        exact Nat.zero_le _
      · simp only [Option.bind_eq_some_iff] at hh
        obtain ⟨_, -, _, -, _, -, hh⟩ := hh
        cases hh
        exact h
    simp only [Option.bind_eq_bind, Option.bind_some]
    obtain ⟨m, hm⟩ : ∃ m, e' + 1 - s' = m + 1 := ⟨e' - s', by omega⟩
    rw [hm, List.range'_succ, hloop]
    rfl

theorem tileLoop_lengths {τ : Type} (t1 t2 : Bool → Nat → τ → Option (τ × Bits)) (sizeBytes z : Nat)
    (h : ∀ b n x, (t1 b n x).map (fun y => (y.1, y.2.length)) = (t2 b n x).map fun y => (y.1, y.2.length)) :
    ∀ (ns : List Nat) (x : τ), tileLoop t1 sizeBytes z ns x = tileLoop t2 sizeBytes z ns x := by
  intro ns
  induction ns with
  | nil => intro x; rfl
  | cons n ns ih =>
    intro x
    have hn := h true n x
    simp only [tileLoop]
    cases h1 : t1 true n x with
    | none =>
      rw [h1] at hn
      cases h2 : t2 true n x with
      | none => rfl
      | some y => rw [h2] at hn; cases hn
    | some y =>
      rw [h1] at hn
      cases h2 : t2 true n x with
      | none => rw [h2] at hn; cases hn
      | some w =>
        rw [h2] at hn
        obtain ⟨y1, y2⟩ := y
        obtain ⟨w1, w2⟩ := w
        simp only [Option.map_some, Option.some.injEq, Prod.mk.injEq] at hn
        obtain ⟨rfl, hl⟩ := hn
        simp only [Option.bind_eq_bind, Option.bind_some, hl, ih]

/-- **C105**, the tile data never reaches the group: whatever encodes the tiles, only the lengths matter. -/
theorem C105_dropped {τ : Type} (t1 t2 : Bool → Nat → τ → Option (τ × Bits)) (cols rows groups s e sizeBytes : Nat) (x : τ)
    (h : ∀ b n x, (t1 b n x).map (fun y => (y.1, y.2.length)) = (t2 b n x).map fun y => (y.1, y.2.length)) :
    encodeTileGroup t1 cols rows groups s e sizeBytes x = encodeTileGroup t2 cols rows groups s e sizeBytes x := by
  unfold encodeTileGroup
  simp only [tileLoop_lengths t1 t2 sizeBytes _ h]

/-- A frame with one tile whose encoder writes eight ones: the group is empty. -/
theorem C105_negation : ¬ C105_full := by
  intro h
  obtain ⟨out, y, seen, front, last, z, h1, h2, h3⟩ := h Unit (fun _ _ x => some (x, List.replicate 8 true)) 1 1 1 0 0 1 ()
    (by decide) (by decide) (by decide) (by decide) (by decide) (by decide) (by decide) (by decide)
    (fun _ _ x => ⟨x, _, rfl, by decide⟩)
  have : encodeTileGroup (fun _ _ x => some (x, List.replicate 8 true)) 1 1 1 0 0 1 () = some ([], (), true) := by
    decide +kernel
  rw [this] at h1
  simp only [Option.some.injEq, Prod.mk.injEq] at h1 h3
  rw [← h1.1, ← h3.2] at h2
  have := congrArg List.length h2
  simp [raw] at this

/-- **C105**, what is right about the sizes: with two tiles, the first of `n` bytes, the group is its header and the size of
the first tile minus one in the given number of bytes, least significant first. -/
theorem C105_size_partial {τ : Type} (tile : Bool → Nat → τ → Option (τ × Bits)) (groups sizeBytes k : Nat) (x y z : τ)
    (d0 d1 : Bits) (hg : 0 < groups) (h0 : tile true 0 x = some (y, d0)) (h1 : tile true 1 y = some (z, d1))
    (hl : (d0.length + 7) / 8 = k + 1) : encodeTileGroup tile 2 1 groups 0 1 sizeBytes x =
      (encodeLe k sizeBytes).map fun b => (raw ([true, false, true, false, false, false, false, false] ++ b), z, true) := by
  have hh : tileGroupHeader 2 1 groups 0 1 = some (raw [true, false, true, false, false, false, false, false], 0, 1) := by
    have hif : ¬ (2 * 1 = 1 ∨ groups = 0) := by omega
    have e1 : startsLog2 2 = some 1 := by decide
    have e2 : startsLog2 1 = some 0 := by decide
    simp only [tileGroupHeader, tileGroupHead, if_neg hif, e1, e2, Option.bind_eq_bind, Option.bind_some]
    rw [if_pos (by decide), decide_eq_true (show groups > 0 from hg)]
    decide +kernel
  unfold encodeTileGroup
  rw [hh]
  simp only [Option.bind_eq_bind, Option.bind_some, show List.range' 0 (1 + 1 - 0) = [0, 1] from rfl, tileLoop, h0, h1, hl,
    show usub (k + 1) 1 = some k by simp [usub], show usub (2 * 1) 1 = some 1 from rfl, List.append_nil]
  cases encodeLe k sizeBytes with
  | none => rfl
  | some b =>
    show some _ = some (raw ([true, false, true, false, false, false, false, false] ++ b), z, true)
    simp only [raw_append, List.append_nil, decide_true]

theorem reads_le (v : Nat) : ∀ (n i : Nat), v / 2 ^ (8 * i) < 256 ^ n → Reads (Hdr.le n) (leBits v i n) (v / 2 ^ (8 * i))
  | 0, i, h => by
    rw [pow_zero, Nat.lt_one_iff] at h
    rw [h]
    exact Reads.pure 0
  | n + 1, i, h => by
    have e : v / 2 ^ (8 * (i + 1)) = v / 2 ^ (8 * i) / 256 := by
      rw [Nat.div_div_eq_div_mul, show 8 * (i + 1) = 8 * i + 8 by ring, pow_add, show (2 : Nat) ^ 8 = 256 from rfl]
    have hlow : toBits 8 (v / 2 ^ (8 * i)) = toBits 8 (v / 2 ^ (8 * i) % 256) := toBits_congr (by norm_num)
    have hlt : v / 2 ^ (8 * (i + 1)) < 256 ^ n := by
      rw [e]
      rw [pow_succ] at h
      exact Nat.div_lt_of_lt_mul (by rw [Nat.mul_comm 256]; exact h)
    have ih := reads_le v n (i + 1) hlt
    rw [leBits, hlow]
    unfold Hdr.le
    refine Reads.bind (reads_f 8 _ (Nat.mod_lt _ (by norm_num))) ?_
    rw [← List.append_nil (leBits v (i + 1) n)]
    refine Reads.bind ih ?_
    rw [e, show v / 2 ^ (8 * i) % 256 + 256 * (v / 2 ^ (8 * i) / 256) = v / 2 ^ (8 * i) from Nat.mod_add_div _ _]
    exact Reads.pure _

theorem tileLoop_eq {τ : Type} (tile : Bool → Nat → τ → Option (τ × Bits)) (sizeBytes e : Nat) (st : Nat → τ) (d : Nat → Bits)
    (hb : sizeBytes ≤ 8) : ∀ (k s : Nat), s + k = e → (∀ n, s ≤ n → n ≤ e → tile true n (st n) = some (st (n + 1), d n)) →
    (∀ n, s ≤ n → n < e → 1 ≤ (d n).length ∧ ((d n).length + 7) / 8 ≤ 256 ^ sizeBytes) →
    ∃ t, tileLoop tile sizeBytes e (List.range' s (k + 1)) (st s) = some (st (e + 1), t) ∧
      Reads (P.many k (Hdr.le sizeBytes)) t ((List.range' s k).map fun n => ((d n).length + 7) / 8 - 1)
  | 0, s, h, ht, _ => by
    have hs : s = e := by omega
    subst hs
    refine ⟨[], ?_, Reads.pure _⟩
    simp only [List.range'_succ, List.range'_zero, tileLoop, ht s le_rfl le_rfl, Option.bind_eq_bind, Option.bind_some, if_true,
      List.append_nil]
  | k + 1, s, h, ht, hd => by
    obtain ⟨t, h1, h2⟩ := tileLoop_eq tile sizeBytes e st d hb k (s + 1) (by omega) (fun n a b => ht n (by omega) b)
      (fun n a b => hd n (by omega) b)
    have hs := hd s le_rfl (by omega)
    have hu : usub (((d s).length + 7) / 8) 1 = some (((d s).length + 7) / 8 - 1) := by rw [usub, if_pos (by omega)]
    have hr := reads_le (((d s).length + 7) / 8 - 1) sizeBytes 0 (by rw [Nat.mul_zero, pow_zero, Nat.div_one]; omega)
    rw [Nat.mul_zero, pow_zero, Nat.div_one] at hr
    refine ⟨leBits (((d s).length + 7) / 8 - 1) 0 sizeBytes ++ t, ?_, ?_⟩
    · rw [List.range'_succ]
      simp only [tileLoop, ht s le_rfl (by omega), Option.bind_eq_bind, Option.bind_some, if_neg (show ¬ s = e by omega), hu, encodeLe,
        encodeLeGo_eq _ sizeBytes 0 (by omega), h1]
    · rw [List.range'_succ, List.map_cons]
      refine Reads.bind hr ?_
      rw [← List.append_nil t]
      exact Reads.bind h2 (Reads.pure _)

/-- **C105**, what is right about the sizes, for every group: after its header come, for each tile but the last, the number of bytes
of its data minus one, which a decoder reads back. Missing: the data. -/
theorem C105_sizes_partial {τ : Type} (tile : Bool → Nat → τ → Option (τ × Bits)) (cols rows groups tgStart tgEnd sizeBytes s e : Nat)
    (b : Raw) (hh : tileGroupHeader cols rows groups tgStart tgEnd = some (b, s, e)) (hse : s ≤ e) (hn : 0 < cols * rows)
    (hb : sizeBytes ≤ 8) (st : Nat → τ) (d : Nat → Bits)
    (ht : ∀ n, s ≤ n → n ≤ e → tile true n (st n) = some (st (n + 1), d n))
    (hd : ∀ n, s ≤ n → n < e → 1 ≤ (d n).length ∧ ((d n).length + 7) / 8 ≤ 256 ^ sizeBytes) :
    ∃ t, encodeTileGroup tile cols rows groups tgStart tgEnd sizeBytes (st s) =
        some (b ++ raw t, st (e + 1), decide (e = cols * rows - 1)) ∧
      Reads (P.many (e - s) (Hdr.le sizeBytes)) t ((List.range' s (e - s)).map fun n => ((d n).length + 7) / 8 - 1) := by
  obtain ⟨t, h1, h2⟩ := tileLoop_eq tile sizeBytes e st d hb (e - s) s (by omega) ht hd
  refine ⟨t, ?_, h2⟩
  unfold encodeTileGroup
  rw [hh]
  simp only [Option.bind_eq_bind, Option.bind_some, show e + 1 - s = e - s + 1 by omega, h1,
    show usub (cols * rows) 1 = some (cols * rows - 1) by rw [usub, if_pos (by omega)]]

/-- A tile without data that is not the last one of its group: the size underflows. -/
theorem C105_empty_panics {τ : Type} (tile : Bool → Nat → τ → Option (τ × Bits)) (cols rows groups tgStart tgEnd sizeBytes s e : Nat)
    (b : Raw) (hh : tileGroupHeader cols rows groups tgStart tgEnd = some (b, s, e)) (hse : s < e) (x : τ)
    (ht : ∀ y d, tile true s x = some (y, d) → d = []) :
    encodeTileGroup tile cols rows groups tgStart tgEnd sizeBytes x = none := by
  unfold encodeTileGroup
  rw [hh]
  simp only [Option.bind_eq_bind, Option.bind_some, show e + 1 - s = e - s + 1 by omega, List.range'_succ, tileLoop]
  cases h : tile true s x with
  | none => rfl
  | some r =>
    obtain ⟨y, d⟩ := r
    have := ht y d h
    subst this
    simp only [Option.bind_some, if_neg (show ¬ s = e by omega)]
    rfl

/-- Three tiles of 1, 2 and 3 bytes in a group of their own. -/
example : ∃ (tile : Bool → Nat → Unit → Option (Unit × Bits)) (d : Nat → Bits), (∀ n x, tile true n x = some ((), d n)) ∧
    (d 0).length = 8 ∧ (d 1).length = 16 ∧
    (tileGroupHeader 4 1 1 0 2).map (fun x => x.2) = some (0, 2) :=
  ⟨fun _ n _ => some ((), List.replicate (8 * (n + 1)) true), fun n => List.replicate (8 * (n + 1)) true, fun _ _ => rfl,
    by decide, by decide, by decide⟩

end Av1
