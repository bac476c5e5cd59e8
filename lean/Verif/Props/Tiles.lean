import Verif.Lemmas.FrameHeader
import Mathlib.Data.List.Pairwise

/-!
# Tiles: C40, C76, C77
-/

namespace Av1

/-! ## C40: the uniform tile layout covers the frame -/

/-- Consecutive boundaries `s[i] ≤ x < s[i+1]`. -/
def InTile (s : List Nat) (x i : Nat) : Prop := ∃ a b, s[i]? = some a ∧ s[i + 1]? = some b ∧ a ≤ x ∧ x < b

theorem miSize_pos (n : Nat) (h : 1 ≤ n) : 2 ≤ miSize n := by
  unfold miSize
  rw [Nat.shiftRight_eq_div_pow]
  omega

theorem sbCount_bounds (u : Bool) (mi : Nat) (h : 1 ≤ mi) :
    1 ≤ sbCount u mi ∧ mi ≤ sbCount u mi * 2 ^ sbShift u ∧ (sbCount u mi - 1) * 2 ^ sbShift u < mi := by
  cases u <;> simp [sbCount, sbShift, Nat.shiftRight_eq_div_pow] <;> omega

theorem tileWidth_bounds (total k : Nat) (h : 1 ≤ total) :
    1 ≤ tileWidth total k ∧ total ≤ tileWidth total k * 2 ^ k ∧ (tileWidth total k - 1) * 2 ^ k < total := by
  unfold tileWidth
  rw [Nat.shiftRight_eq_div_pow, Nat.shiftLeft_eq, Nat.one_mul]
  have hp : 0 < 2 ^ k := by positivity
  generalize 2 ^ k = p at *
  have h1 := Nat.div_add_mod (total + p - 1) p
  have h2 := Nat.mod_lt (total + p - 1) hp
  generalize hq : (total + p - 1) / p = q at *
  have hq1 : 1 ≤ q := by
    rcases Nat.eq_zero_or_pos q with h0 | h0
    · subst h0; omega
    · exact h0
  obtain ⟨r, rfl⟩ : ∃ r, q = r + 1 := ⟨q - 1, by omega⟩
  have e : p * (r + 1) = p * r + p := by ring
  refine ⟨by omega, ?_, ?_⟩
  · rw [Nat.mul_comm, e]; omega
  · rw [Nat.add_sub_cancel, Nat.mul_comm]; omega

/-- Number of tiles: as many as are needed at the common width. -/
def tileCount (total k : Nat) : Nat := (total + tileWidth total k - 1) / tileWidth total k

theorem tileCount_bounds (total k : Nat) (h : 1 ≤ total) :
    1 ≤ tileCount total k ∧ total ≤ tileCount total k * tileWidth total k ∧
      (tileCount total k - 1) * tileWidth total k < total := by
  have hw := (tileWidth_bounds total k h).1
  unfold tileCount
  generalize tileWidth total k = w at *
  have h1 := Nat.div_add_mod (total + w - 1) w
  have h2 := Nat.mod_lt (total + w - 1) (show 0 < w by omega)
  generalize (total + w - 1) / w = q at *
  have hq1 : 1 ≤ q := by
    rcases Nat.eq_zero_or_pos q with h0 | h0
    · subst h0; omega
    · exact h0
  obtain ⟨r, rfl⟩ : ∃ r, q = r + 1 := ⟨q - 1, by omega⟩
  have e : w * (r + 1) = w * r + w := by ring
  refine ⟨by omega, ?_, ?_⟩
  · rw [Nat.mul_comm, e]; omega
  · rw [Nat.add_sub_cancel, Nat.mul_comm]; omega

theorem uniformStarts_eq (total k shift mi : Nat) (h : 1 ≤ total) :
    uniformStarts total k shift mi =
      (List.range (tileCount total k)).map (fun i => i * tileWidth total k * 2 ^ shift) ++ [mi] := by
  unfold uniformStarts
  rw [startsGo_eq total _ (tileWidth_bounds total k h).1 total 0 (by omega)]
  simp only [Nat.sub_zero, List.map_map, tileCount]
  congr 1
  apply List.map_congr_left
  intro i _
  simp [Nat.shiftLeft_eq]

theorem starts_get (total k shift mi i : Nat) (h : 1 ≤ total) (hi : i < tileCount total k) :
    (uniformStarts total k shift mi)[i]? = some (i * tileWidth total k * 2 ^ shift) := by
  rw [uniformStarts_eq _ _ _ _ h, List.getElem?_append_left (by simpa using hi)]
  simp [hi]

theorem starts_last (total k shift mi : Nat) (h : 1 ≤ total) :
    (uniformStarts total k shift mi)[tileCount total k]? = some mi := by
  rw [uniformStarts_eq _ _ _ _ h, List.getElem?_append_right (by simp)]
  simp

theorem starts_length (total k shift mi : Nat) (h : 1 ≤ total) :
    (uniformStarts total k shift mi).length = tileCount total k + 1 := by
  rw [uniformStarts_eq _ _ _ _ h]; simp

/-- **C40.** For every frame width (or height), superblock size and requested `log2` of the tile count: the boundaries
start at 0 and end at the frame, strictly increase, every 4x4 column of the frame is in exactly one tile, all tiles but
the last have the same width of `ceil(superblocks / 2^k)` superblocks, the last is not wider, and there are at most `2^k`. -/
theorem C40_uniform_layout (samples k : Nat) (use128 : Bool) (h : 1 ≤ samples) :
    let mi := miSize samples
    let total := sbCount use128 mi
    let s := uniformStarts total k (sbShift use128) mi
    s.head? = some 0 ∧ s.getLast? = some mi ∧ s.Pairwise (· < ·) ∧
      (∀ x < mi, ∃! i, InTile s x i) ∧
      (∀ i a b, i + 2 < s.length → s[i]? = some a → s[i + 1]? = some b →
        b = a + (total + 2 ^ k - 1) / 2 ^ k * 2 ^ sbShift use128) ∧
      (∀ a, s[s.length - 2]? = some a → mi ≤ a + (total + 2 ^ k - 1) / 2 ^ k * 2 ^ sbShift use128) ∧
      2 ≤ s.length ∧ s.length ≤ 2 ^ k + 1 := by
  intro mi total s
  have hmi : 2 ≤ mi := miSize_pos samples h
  obtain ⟨ht, hlo, hhi⟩ := sbCount_bounds use128 mi (by omega)
  change 1 ≤ total at ht
  change mi ≤ total * _ at hlo
  change (total - 1) * _ < mi at hhi
  obtain ⟨hn1, hn2, hn3⟩ := tileCount_bounds total k ht
  obtain ⟨hw1, hw2, hw3⟩ := tileWidth_bounds total k ht
  have hwk : (total + 2 ^ k - 1) / 2 ^ k = tileWidth total k := by
    rw [tileWidth, Nat.shiftRight_eq_div_pow, Nat.shiftLeft_eq, Nat.one_mul]
  have hget : ∀ i, i < tileCount total k → s[i]? = some (i * tileWidth total k * 2 ^ sbShift use128) :=
    fun i hi => starts_get total k _ mi i ht hi
  have hlast : s[tileCount total k]? = some mi := starts_last total k _ mi ht
  have hlen : s.length = tileCount total k + 1 := starts_length total k _ mi ht
  have hcount : tileCount total k ≤ 2 ^ k := by
    by_contra hc
    push Not at hc
    have : 2 ^ k * tileWidth total k ≤ (tileCount total k - 1) * tileWidth total k :=
      Nat.mul_le_mul_right _ (by omega)
    rw [Nat.mul_comm] at this
    omega
  have hs : s = (List.range (tileCount total k)).map (fun i => i * tileWidth total k * 2 ^ sbShift use128) ++ [mi] :=
    uniformStarts_eq total k _ mi ht
  rw [hwk]
  generalize hW : tileWidth total k = W at *
  generalize hN : tileCount total k = N at *
  generalize hP : 2 ^ sbShift use128 = p at *
  have hp : 0 < p := by rw [← hP]; positivity
  have hWp : 0 < W * p := Nat.mul_pos (by omega) hp
  have below : ∀ i, i < N → i * W * p < mi := by
    intro i hi
    have h1 : i * W ≤ (N - 1) * W := Nat.mul_le_mul_right _ (by omega)
    have h2 : i * W * p ≤ (total - 1) * p := Nat.mul_le_mul_right _ (by omega)
    omega
  have above : mi ≤ N * W * p := le_trans hlo (Nat.mul_le_mul_right _ hn2)
  refine ⟨?_, ?_, ?_, ?_, ?_, ?_, by omega, by omega⟩
  · rw [List.head?_eq_getElem?, hget 0 (by omega)]; simp
  · rw [List.getLast?_eq_getElem?, hlen, Nat.add_sub_cancel, hlast]
  · rw [hs, List.pairwise_append]
    refine ⟨?_, by simp, ?_⟩
    · rw [List.pairwise_map]
      refine List.Pairwise.imp ?_ List.pairwise_lt_range
      intro a b hab
      exact Nat.mul_lt_mul_of_pos_right (Nat.mul_lt_mul_of_pos_right hab (by omega)) hp
    · intro a ha b hb
      simp only [List.mem_map, List.mem_range] at ha
      obtain ⟨i, hi, rfl⟩ := ha
      rw [List.mem_singleton] at hb
      subst hb
      exact below i hi
  · intro x hx
    have hq : x / (W * p) < N := by
      rw [Nat.div_lt_iff_lt_mul hWp, ← Nat.mul_assoc]; omega
    have hd := Nat.div_add_mod x (W * p)
    have hm := Nat.mod_lt x hWp
    have e1 : W * p * (x / (W * p)) = x / (W * p) * W * p := by ring
    have e2 : ∀ j, (j + 1) * W * p = j * W * p + W * p := by intro j; ring
    refine ⟨x / (W * p), ?_, ?_⟩
    · by_cases hl : x / (W * p) + 1 < N
      · exact ⟨_, _, hget _ hq, hget _ hl, by omega, by rw [e2]; omega⟩
      · exact ⟨_, _, hget _ hq, by rw [show x / (W * p) + 1 = N by omega]; exact hlast, by omega, hx⟩
    · rintro j ⟨a, b, ha, hb, h1, h2⟩
      have hj : j + 1 < s.length := (List.getElem?_eq_some_iff.1 hb).1
      rw [hget j (by omega)] at ha
      obtain rfl := Option.some.inj ha
      have hb' : b ≤ (j + 1) * W * p := by
        by_cases hl : j + 1 < N
        · rw [hget _ hl] at hb; exact le_of_eq (Option.some.inj hb).symm
        · rw [show j + 1 = N by omega, hlast] at hb
          rw [show j + 1 = N by omega, ← Option.some.inj hb]; exact above
      symm
      rw [Nat.mul_assoc] at h1 hb'
      apply Nat.div_eq_of_lt_le h1
      omega
  · intro i a b hi ha hb
    rw [hget i (by omega)] at ha
    rw [hget (i + 1) (by omega)] at hb
    obtain rfl := Option.some.inj ha
    obtain rfl := Option.some.inj hb
    ring
  · intro a ha
    rw [hlen, show N + 1 - 2 = N - 1 by omega, hget (N - 1) (by omega)] at ha
    obtain rfl := Option.some.inj ha
    have : (N - 1) * W * p + W * p = N * W * p := by
      obtain ⟨m, rfl⟩ : ∃ m, N = m + 1 := ⟨N - 1, by omega⟩
      rw [Nat.add_sub_cancel]; ring
    omega

/-- 1920 samples, 64-superblocks, `k = 2`: four tiles of 8, 8, 8 and 6 superblocks. -/
example : uniformStarts (sbCount false (miSize 1920)) 2 4 (miSize 1920) = [0, 128, 256, 384, 480] := by decide +kernel

/-! ## C76: a decoder reads tile info back -/

theorem isTileLog2_unique {b t x y : Nat} (hx : Hdr.IsTileLog2 b t x) (hy : Hdr.IsTileLog2 b t y) : x = y := by
  rcases Nat.lt_trichotomy x y with h | h | h
  · have := hy.2 x h; have := hx.1; omega
  · exact h
  · have := hx.2 y h; have := hy.1; omega

/-- The limits the code computes are those of the specification. -/
theorem tileLimits_eq (l : Hdr.TileLimits) (miCols miRows : Nat) (use128 : Bool) (h : l.For miCols miRows use128)
    (h1 : miCols ≤ 2 ^ 30) (h2 : miRows ≤ 2 ^ 30) :
    tileLimits use128 (sbCount use128 miCols) (sbCount use128 miRows) =
      some (l.minCols, l.maxCols, l.maxRows, l.minTiles) := by
  have hc : sbCount use128 miCols = l.sbCols := by
    rw [h.sbCols]; cases use128 <;> simp [sbCount, Nat.shiftRight_eq_div_pow]
  have hr : sbCount use128 miRows = l.sbRows := by
    rw [h.sbRows]; cases use128 <;> simp [sbCount, Nat.shiftRight_eq_div_pow]
  have bc : l.sbCols ≤ 2 ^ 30 := by rw [h.sbCols]; split <;> omega
  have br : l.sbRows ≤ 2 ^ 30 := by rw [h.sbRows]; split <;> omega
  have key : ∀ b t x, 1 ≤ b → t ≤ 2 ^ 63 → Hdr.IsTileLog2 b t x → tileLog2 b t = some x := by
    intro b t x hb ht hx
    obtain ⟨r, hr, hs⟩ := tileLog2_spec b t hb ht
    rw [hr, isTileLog2_unique hs hx]
  have hmw : 4096 >>> (sbShift use128 + 2) = l.maxWidth := by rw [h.maxWidth]; cases use128 <;> rfl
  have hma : (4096 * 2304) >>> (2 * (sbShift use128 + 2)) = if use128 then 576 else 2304 := by cases use128 <;> rfl
  have hmw1 : 1 ≤ l.maxWidth := by rw [h.maxWidth]; split <;> omega
  obtain ⟨a, ha, hma2⟩ := h.minTiles
  have harea : l.sbRows * l.sbCols ≤ 2 ^ 63 := le_trans (Nat.mul_le_mul br bc) (by norm_num)
  unfold tileLimits
  simp only [hc, hr, hmw, hma]
  rw [key _ _ _ hmw1 (by omega) h.minCols, key _ _ _ (le_refl 1) (by omega) h.maxCols,
    key _ _ _ (le_refl 1) (by omega) h.maxRows, key _ _ _ (by split <;> omega) harea ha, hma2]
  rfl

/-- The caller's request fits: powers of two many rows and columns within the limits, an update tile that exists, room in
the start vectors. -/
structure TileIn.Ok (t : TileIn) (l : Hdr.TileLimits) (c r : Nat) : Prop where
  lim : l.For (miSize t.width) (miSize t.height) t.use128
  width : 1 ≤ t.width ∧ t.width ≤ 2 ^ 16
  height : 1 ≤ t.height ∧ t.height ≤ 2 ^ 16
  cols : t.cols = 2 ^ c
  rows : t.rows = 2 ^ r
  minC : l.minCols ≤ c
  maxC : c ≤ l.maxCols
  minR : l.minTiles - c ≤ r
  maxR : r ≤ l.maxRows
  small : c ≤ 6 ∧ r ≤ 6
  update : t.contextUpdateTileId < 2 ^ (r + c)
  bytes : 1 ≤ t.tileSizeBytes ∧ t.tileSizeBytes ≤ 4
  roomC : l.sbCols + 1 ≤ t.miColStarts.length
  roomR : l.sbRows + 1 ≤ t.miRowStarts.length

/-- What the decoder should find. -/
def tileView (t : TileIn) (c r : Nat) : Nat × Nat × Option (Nat × Nat) :=
  (c, r, if c > 0 ∨ r > 0 then some (t.contextUpdateTileId, t.tileSizeBytes) else none)

def C76_full : Prop := ∀ t l c r, t.Ok l c r → t.uniform = true → Writes (encodeTileInfo t) (Hdr.tileInfo l) (tileView t c r)

/-- A 64x64 frame in one tile. -/
def oneTile : TileIn := ⟨64, 64, false, true, 1, 1, 0, 1, [0, 0], [0, 0]⟩
def oneLim : Hdr.TileLimits := ⟨1, 1, 64, 0, 0, 0, 0⟩

theorem isTileLog2_zero (b t : Nat) (h : t ≤ b) : Hdr.IsTileLog2 b t 0 := ⟨by omega, by intro j hj; omega⟩

theorem oneTile_ok : oneTile.Ok oneLim 0 0 where
  lim := ⟨rfl, rfl, rfl, isTileLog2_zero _ _ (by decide), isTileLog2_zero _ _ (by decide), isTileLog2_zero _ _ (by decide),
    ⟨0, isTileLog2_zero _ _ (by decide), rfl⟩⟩
  width := by decide
  height := by decide
  cols := rfl
  rows := rfl
  minC := by decide
  maxC := by decide
  minR := by decide
  maxR := by decide
  small := by decide
  update := by decide
  bytes := by decide
  roomC := by decide
  roomR := by decide

/-- **C76, violated.**  Already for one tile: the code closes each count with a 0 that a decoder does not read when the
count is at its maximum. -/
theorem C76_negation : ¬ C76_full := by
  intro h
  obtain ⟨e, he, hr⟩ := h oneTile oneLim 0 0 oneTile_ok rfl
  have h1 : encodeTileInfo oneTile = some (raw [true, false, false]) := by decide +kernel
  rw [h1] at he
  obtain rfl := raw_inj (Option.some.inj he)
  exact absurd (hr []) (by decide)

/-! ### Where it holds -/

theorem raw_replicate (n : Nat) : raw (List.replicate n true) = List.replicate n 1 := by simp [raw]

theorem reads_incr (hi : Nat) : ∀ (n fuel x : Nat), n < fuel → x + n < hi →
    Reads (Hdr.incr hi fuel x) (List.replicate n true ++ [false]) (x + n)
  | 0, fuel + 1, x, _, h => by
    intro rest
    simp [Hdr.incr, show x < hi by omega, P.flag, bind, StateT.bind, pure, StateT.pure]
  | n + 1, fuel + 1, x, hf, h => by
    intro rest
    have ih := reads_incr hi n fuel (x + 1) (by omega) (by omega) rest
    rw [List.replicate_succ]
    simp only [Hdr.incr, if_pos (show x < hi by omega), List.cons_append]
    show (Hdr.incr hi fuel (x + 1)) (List.replicate n true ++ [false] ++ rest) = _
    rw [ih]; congr 2; omega

theorem writes_incr (hi n x : Nat) (h : x + n < hi) :
    Writes (cat [pushOnes n, pushU 0]) (Hdr.incr hi hi x) (x + n) :=
  ⟨_, by rw [cat_cons, cat_single, pushOnes, pushU]; simp [raw], reads_incr hi n hi x (by omega) h⟩

theorem startsLog2_pow (c : Nat) (h : c ≤ 6) : startsLog2 (2 ^ c) = some c := by
  have : ∀ c ≤ 6, startsLog2 (2 ^ c) = some c := by decide +kernel
  exact this c h

theorem assignAll_some (vec xs : List Nat) (h : xs.length ≤ vec.length) :
    assignAll vec xs = some (xs ++ vec.drop xs.length) := by rw [assignAll, if_pos h]

theorem assignAll_none (vec xs : List Nat) (h : vec.length < xs.length) : assignAll vec xs = none := by
  rw [assignAll, if_neg (by omega)]

theorem tileCount_le (total k : Nat) (h : 1 ≤ total) : tileCount total k ≤ total := by
  have h1 := (tileCount_bounds total k h).2.2
  have h2 := (tileWidth_bounds total k h).1
  have : tileCount total k - 1 ≤ (tileCount total k - 1) * tileWidth total k := Nat.le_mul_of_pos_right _ (by omega)
  omega

theorem writes_tail (t : TileIn) (c r : Nat) (hc : startsLog2 t.cols = some c) (hr : startsLog2 t.rows = some r)
    (hs : c ≤ 6 ∧ r ≤ 6) (hu : t.contextUpdateTileId < 2 ^ (r + c)) (hb : 1 ≤ t.tileSizeBytes ∧ t.tileSizeBytes ≤ 4) :
    Writes (encodeTileTail t) (Hdr.tileTail c r)
      (if c > 0 ∨ r > 0 then some (t.contextUpdateTileId, t.tileSizeBytes) else none) := by
  unfold encodeTileTail Hdr.tileTail
  rw [hc, hr]
  simp only [Option.bind_eq_bind, Option.bind_some]
  by_cases h : c > 0 ∨ r > 0
  · rw [if_pos h, if_pos h, usub, if_pos hb.1]
    simp only [Option.bind_some, P.opt, h, decide_true, if_true]
    refine Writes.map some ?_
    refine Writes.cons (writes_f (r + c) _ (by omega) hu) ?_
    have := Writes.map (fun n => (t.contextUpdateTileId, n + 1)) (Writes.last (writes_f 2 (t.tileSizeBytes - 1) (by omega) (by omega)))
    rwa [show t.tileSizeBytes - 1 + 1 = t.tileSizeBytes by omega] at this
  · rw [if_neg h, if_neg h]
    simp only [P.opt, h, decide_false]
    exact Writes.pure none

/-- **C76, part.**  Below the maximum number of rows and columns, and with no more columns than the minimum number of
tiles, tile info is read back. -/
theorem C76_uniform_partial (t : TileIn) (l : Hdr.TileLimits) (c r : Nat) (h : t.Ok l c r) (hu : t.uniform = true)
    (hc : c < l.maxCols) (hr : r < l.maxRows) (hm : c ≤ l.minTiles) :
    Writes (encodeTileInfo t) (Hdr.tileInfo l) (tileView t c r) := by
  have hw : miSize t.width ≤ 2 ^ 30 := by
    have := h.width; unfold miSize; rw [Nat.shiftRight_eq_div_pow]; omega
  have hh : miSize t.height ≤ 2 ^ 30 := by
    have := h.height; unfold miSize; rw [Nat.shiftRight_eq_div_pow]; omega
  have hlim := tileLimits_eq l _ _ _ h.lim hw hh
  have hlc : startsLog2 t.cols = some c := by rw [h.cols]; exact startsLog2_pow c h.small.1
  have hlr : startsLog2 t.rows = some r := by rw [h.rows]; exact startsLog2_pow r h.small.2
  have hsc : sbCount t.use128 (miSize t.width) = l.sbCols := by
    rw [h.lim.sbCols]; cases t.use128 <;> simp [sbCount, Nat.shiftRight_eq_div_pow]
  have hsr : sbCount t.use128 (miSize t.height) = l.sbRows := by
    rw [h.lim.sbRows]; cases t.use128 <;> simp [sbCount, Nat.shiftRight_eq_div_pow]
  have pc := (sbCount_bounds t.use128 (miSize t.width) (by have := miSize_pos t.width h.width.1; omega)).1
  have pr := (sbCount_bounds t.use128 (miSize t.height) (by have := miSize_pos t.height h.height.1; omega)).1
  have ec := assignAll_some t.miColStarts (uniformStarts l.sbCols c (sbShift t.use128) (miSize t.width)) (by
    rw [starts_length _ _ _ _ (by omega)]
    have := tileCount_le l.sbCols c (by omega)
    have := h.roomC; omega)
  have er := assignAll_some t.miRowStarts (uniformStarts l.sbRows r (sbShift t.use128) (miSize t.height)) (by
    rw [starts_length _ _ _ _ (by omega)]
    have := tileCount_le l.sbRows r (by omega)
    have := h.roomR; omega)
  rw [hsc, hsr] at hlim
  unfold encodeTileInfo encodeUniform Hdr.tileInfo tileView
  simp only [hlim, hu, hlc, hlr, hsc, hsr, Option.bind_eq_bind, Option.bind_some, if_true, ec, er,
    usub, if_pos h.minC, if_pos hm, if_pos h.minR]
  have hbits : cat [pushOnes (c - l.minCols), pushU 0, pushOnes (r - (l.minTiles - c)), pushU 0] =
      some (List.replicate (c - l.minCols) 1 ++ (0 :: (List.replicate (r - (l.minTiles - c)) 1 ++ [0]))) := by
    simp [cat_cons, cat_nil, pushOnes, pushU]
  rw [hbits]
  simp only [Option.bind_some]
  refine Writes.cons (writes_flag true) ?_
  rw [if_pos rfl]
  refine Writes.cons (v := (c, r)) ?_ ?_
  · have h1 := writes_incr l.maxCols (c - l.minCols) l.minCols (by have := h.minC; omega)
    have h2 := writes_incr l.maxRows (r - (l.minTiles - c)) (l.minTiles - c) (by have := h.minR; omega)
    rw [show l.minCols + (c - l.minCols) = c by have := h.minC; omega] at h1
    rw [show l.minTiles - c + (r - (l.minTiles - c)) = r by have := h.minR; omega] at h2
    have := Writes.cons h1 (g := fun c => do
      let r ← Hdr.incr l.maxRows l.maxRows (l.minTiles - c)
      pure (c, r)) (Writes.map (fun r => (c, r)) (Writes.last h2))
    have e : cat [cat [pushOnes (c - l.minCols), pushU 0], cat [pushOnes (r - (l.minTiles - c)), pushU 0]] =
        some (List.replicate (c - l.minCols) 1 ++ (0 :: (List.replicate (r - (l.minTiles - c)) 1 ++ [0]))) := by
      simp [cat_cons, cat_nil, pushOnes, pushU]
    rw [e] at this
    exact this
  · exact Writes.map (fun x => (c, r, x)) (Writes.last (writes_tail t c r hlc hlr h.small h.update h.bytes))

/-- A 4160x4096 frame has 65 by 64 superblocks, so at least two tiles; two columns and four rows fit. -/
def bigTile : TileIn :=
  ⟨4160, 4096, false, true, 2, 4, 5, 4, List.replicate 66 0, List.replicate 65 0⟩
def bigLim : Hdr.TileLimits := ⟨65, 64, 64, 1, 6, 6, 1⟩

instance (b t k : Nat) : Decidable (Hdr.IsTileLog2 b t k) := by unfold Hdr.IsTileLog2; infer_instance

example : bigTile.Ok bigLim 1 2 where
  lim := ⟨rfl, rfl, rfl, by decide, by decide, by decide, ⟨1, by decide, rfl⟩⟩
  width := by decide
  height := by decide
  cols := rfl
  rows := rfl
  minC := by decide
  maxC := by decide
  minR := by decide
  maxR := by decide
  small := by decide
  update := by decide
  bytes := by decide
  roomC := by decide
  roomR := by decide

/-- More columns than the minimum number of tiles: `min_log2_tiles - tile_cols_log2()` underflows. -/
theorem C76_columns_panic (t : TileIn) (l : Hdr.TileLimits) (c : Nat)
    (hl : l.For (miSize t.width) (miSize t.height) t.use128) (hw : t.width ≤ 2 ^ 16) (hh : t.height ≤ 2 ^ 16)
    (hu : t.uniform = true) (hc : startsLog2 t.cols = some c) (hm : l.minTiles < c) : encodeTileInfo t = none := by
  have hw' : miSize t.width ≤ 2 ^ 30 := by unfold miSize; rw [Nat.shiftRight_eq_div_pow]; omega
  have hh' : miSize t.height ≤ 2 ^ 30 := by unfold miSize; rw [Nat.shiftRight_eq_div_pow]; omega
  have hlim := tileLimits_eq l _ _ _ hl hw' hh'
  have : encodeUniform t = none := by
    unfold encodeUniform
    simp only [hlim, hc, Option.bind_eq_bind, Option.bind_some]
    rw [usub, usub, if_neg (show ¬ c ≤ l.minTiles by omega)]
    split
    · simp only [Option.bind_some]
      cases assignAll t.miColStarts _ <;> rfl
    · rfl
  unfold encodeTileInfo
  simp only [hu, if_true, this, hlim]
  rfl

/-! ### Exactly when -/

theorem incr_length (hi : Nat) : ∀ (fuel x : Nat) (s s' : Bits) (y : Nat), hi ≤ x + fuel → Hdr.incr hi fuel x s = some (y, s') →
    x ≤ y ∧ s.length = s'.length + (y - x) + (if y < hi then 1 else 0)
  | 0, x, s, s', y, hf, h => by
    simp [Hdr.incr, pure, StateT.pure] at h
    obtain ⟨rfl, rfl⟩ := h
    simp; omega
  | fuel + 1, x, s, s', y, hf, h => by
    simp only [Hdr.incr] at h
    split at h
    · rename_i hlt
      cases s with
      | nil => simp [P.flag, bind, StateT.bind] at h
      | cons b s =>
        cases b with
        | true =>
          have := incr_length hi fuel (x + 1) s s' y (by omega) h
          simp only [List.length_cons]
          omega
        | false =>
          simp [P.flag, bind, StateT.bind, pure, StateT.pure] at h
          obtain ⟨rfl, rfl⟩ := h
          simp [hlt]
    · rename_i hlt
      simp [pure, StateT.pure] at h
      obtain ⟨rfl, rfl⟩ := h
      simp; omega

theorem f_length {n : Nat} {s s' : Bits} {v : Nat} (h : P.f n s = some (v, s')) : s.length = s'.length + n := by
  unfold P.f at h
  split at h
  · cases h
  · simp only [Option.some.injEq, Prod.mk.injEq] at h
    rw [← h.2]; simp; omega

theorem tileTail_length {c r : Nat} {s s' : Bits} {v : Option (Nat × Nat)} (h : Hdr.tileTail c r s = some (v, s')) :
    s.length = s'.length + if c > 0 ∨ r > 0 then r + c + 2 else 0 := by
  unfold Hdr.tileTail P.opt at h
  by_cases hc : c > 0 ∨ r > 0
  · simp only [hc, decide_true, if_true, bind, StateT.bind, pure, StateT.pure, Option.bind_eq_some_iff] at h ⊢
    obtain ⟨⟨a, s1⟩, ⟨⟨b, s2⟩, h1, ⟨d, s3⟩, h2, h3⟩, h4⟩ := h
    have e1 := f_length h1
    have e2 := f_length h2
    simp only [Option.some.injEq, Prod.mk.injEq] at h3 h4
    have : s3 = s' := by rw [h3.2, h4.2]
    subst this
    simp only at e1 e2
    omega
  · simp only [hc, decide_false, Bool.false_eq_true, if_false, pure, StateT.pure, Option.some.injEq, Prod.mk.injEq] at h ⊢
    rw [h.2]; rfl

/-- **C76**, exactly: uniform spacing is read back if and only if both counts are below their maximum and there are no more
columns than the minimum number of tiles. -/
theorem C76_uniform_iff (t : TileIn) (l : Hdr.TileLimits) (c r : Nat) (h : t.Ok l c r) (hu : t.uniform = true) :
    Writes (encodeTileInfo t) (Hdr.tileInfo l) (tileView t c r) ↔ c < l.maxCols ∧ r < l.maxRows ∧ c ≤ l.minTiles := by
  have hlc : startsLog2 t.cols = some c := by rw [h.cols]; exact startsLog2_pow c h.small.1
  have hlr : startsLog2 t.rows = some r := by rw [h.rows]; exact startsLog2_pow r h.small.2
  refine ⟨?_, fun ⟨h1, h2, h3⟩ => C76_uniform_partial t l c r h hu h1 h2 h3⟩
  intro hw'
  have hm : c ≤ l.minTiles := by
    by_contra hm
    obtain ⟨e, he, -⟩ := hw'
    rw [C76_columns_panic t l c h.lim h.width.2 h.height.2 hu hlc (by omega)] at he
    cases he
  have hw : miSize t.width ≤ 2 ^ 30 := by
    have := h.width; unfold miSize; rw [Nat.shiftRight_eq_div_pow]; omega
  have hh : miSize t.height ≤ 2 ^ 30 := by
    have := h.height; unfold miSize; rw [Nat.shiftRight_eq_div_pow]; omega
  have hlim := tileLimits_eq l _ _ _ h.lim hw hh
  have hsc : sbCount t.use128 (miSize t.width) = l.sbCols := by
    rw [h.lim.sbCols]; cases t.use128 <;> simp [sbCount, Nat.shiftRight_eq_div_pow]
  have hsr : sbCount t.use128 (miSize t.height) = l.sbRows := by
    rw [h.lim.sbRows]; cases t.use128 <;> simp [sbCount, Nat.shiftRight_eq_div_pow]
  have pc := (sbCount_bounds t.use128 (miSize t.width) (by have := miSize_pos t.width h.width.1; omega)).1
  have pr := (sbCount_bounds t.use128 (miSize t.height) (by have := miSize_pos t.height h.height.1; omega)).1
  have ec := assignAll_some t.miColStarts (uniformStarts l.sbCols c (sbShift t.use128) (miSize t.width)) (by
    rw [starts_length _ _ _ _ (by omega)]
    have := tileCount_le l.sbCols c (by omega)
    have := h.roomC; omega)
  have er := assignAll_some t.miRowStarts (uniformStarts l.sbRows r (sbShift t.use128) (miSize t.height)) (by
    rw [starts_length _ _ _ _ (by omega)]
    have := tileCount_le l.sbRows r (by omega)
    have := h.roomR; omega)
  rw [hsc, hsr] at hlim
  obtain ⟨te, hte, rte⟩ := writes_tail t c r hlc hlr h.small h.update h.bytes
  have hlen : ∃ y, encodeTileInfo t = some (1 :: y) ∧
      y.length = (c - l.minCols) + 1 + ((r - (l.minTiles - c)) + 1) + te.length := by
    unfold encodeTileInfo encodeUniform
    simp only [hlim, hu, hlc, hlr, hsc, hsr, Option.bind_eq_bind, Option.bind_some, if_true, ec, er,
      usub, if_pos h.minC, if_pos hm, if_pos h.minR, hte]
    have hbits : cat [pushOnes (c - l.minCols), pushU 0, pushOnes (r - (l.minTiles - c)), pushU 0] =
        some (List.replicate (c - l.minCols) 1 ++ (0 :: (List.replicate (r - (l.minTiles - c)) 1 ++ [0]))) := by
      simp [cat_cons, cat_nil, pushOnes, pushU]
    rw [hbits]
    simp only [cat_cons, cat_nil, pushB, Option.bind_some]
    refine ⟨_, rfl, ?_⟩
    simp [raw]
    omega
  obtain ⟨y, hy, hyl⟩ := hlen
  obtain ⟨e, he, re⟩ := hw'
  rw [hy, Option.some.injEq] at he
  have htl := tileTail_length (rte [])
  simp only [List.append_nil, List.length_nil, Nat.zero_add] at htl
  cases e with
  | nil => simp [raw] at he
  | cons b e =>
    have hb : b = true ∧ y = raw e := by
      simp only [raw, List.map_cons, List.cons.injEq] at he
      refine ⟨?_, he.2⟩
      cases b
      · simp at he
      · rfl
    obtain ⟨rfl, rfl⟩ := hb
    have hel : e.length = (c - l.minCols) + 1 + ((r - (l.minTiles - c)) + 1) + te.length := by
      rw [← hyl]; simp [raw]
    have hr := re []
    rw [List.append_nil] at hr
    unfold Hdr.tileInfo Hdr.uniform tileView at hr
    simp only [P.flag, bind, StateT.bind, pure, StateT.pure, Option.bind_eq_some_iff, Option.bind_some, if_true] at hr
    obtain ⟨⟨⟨c1, r1⟩, s2⟩, ⟨⟨c2, s3⟩, g1, ⟨r2, s4⟩, g2, g3⟩, ⟨v, s5⟩, g4, g5⟩ := hr
    simp only [Option.some.injEq, Prod.mk.injEq] at g3 g5
    simp only at g2 g4
    obtain ⟨⟨rfl, rfl⟩, rfl⟩ := g3
    obtain ⟨⟨rfl, rfl, -⟩, rfl⟩ := g5
    have l1 := incr_length _ _ _ _ _ _ (by omega) g1
    have l2 := incr_length _ _ _ _ _ _ (by omega) g2
    have l3 := tileTail_length g4
    rw [List.length_nil] at l3
    have hx := h.maxC
    have hx' := h.maxR
    refine ⟨?_, ?_, hm⟩
    · by_contra hn
      rw [if_neg hn] at l1
      split at l2 <;> omega
    · by_contra hn
      rw [if_neg hn] at l2
      split at l1 <;> omega

/-- Such a case at the limit: the frame of one superblock, where the closing zeros are never read. -/
example : oneTile.Ok oneLim 0 0 ∧ ¬ 0 < oneLim.maxCols := ⟨oneTile_ok, by decide⟩

/-- Two columns of a 128x64 frame. -/
example : encodeTileInfo ⟨128, 64, false, true, 2, 1, 0, 1, [0, 0, 0], [0, 0]⟩ = none := by decide +kernel

/-- `mi_col_starts` is created empty (encoder.rs 134) and only ever assigned by index: uniform spacing always panics. -/
theorem C76_uniform_panics (t : TileIn) (hu : t.uniform = true) (he : t.miColStarts = []) : encodeTileInfo t = none := by
  have : encodeUniform t = none := by
    unfold encodeUniform
    rw [he]
    have : ∀ k, assignAll [] (uniformStarts (sbCount t.use128 (miSize t.width)) k (sbShift t.use128) (miSize t.width)) = none := by
      intro k; apply assignAll_none; simp [uniformStarts]
    simp only [this]
    cases tileLimits t.use128 (sbCount t.use128 (miSize t.width)) (sbCount t.use128 (miSize t.height)) with
    | none => rfl
    | some x =>
      simp only [Option.bind_eq_bind, Option.bind_some]
      cases startsLog2 t.cols with
      | none => rfl
      | some c =>
        simp only [Option.bind_some]
        cases usub c x.1 <;> rfl
  unfold encodeTileInfo
  simp only [hu, if_true, this]
  cases tileLimits t.use128 (sbCount t.use128 (miSize t.width)) (sbCount t.use128 (miSize t.height)) <;> rfl

/-- Without uniform spacing (the default) only the flag is written: right for a frame of one superblock. -/
theorem C76_nonuniform_one_partial (t : TileIn) (l : Hdr.TileLimits) (hu : t.uniform = false)
    (hl : l.For (miSize t.width) (miSize t.height) t.use128) (hw : t.width ≤ 2 ^ 16) (hh : t.height ≤ 2 ^ 16)
    (h1 : l.sbCols = 1) (h2 : l.sbRows = 1) (hc : t.cols = 1) (hr : t.rows = 1) :
    Writes (encodeTileInfo t) (Hdr.tileInfo l) (0, 0, none) := by
  have hw' : miSize t.width ≤ 2 ^ 30 := by unfold miSize; rw [Nat.shiftRight_eq_div_pow]; omega
  have hh' : miSize t.height ≤ 2 ^ 30 := by unfold miSize; rw [Nat.shiftRight_eq_div_pow]; omega
  have hlim := tileLimits_eq l _ _ _ hl hw' hh'
  refine ⟨[false], ?_, ?_⟩
  · unfold encodeTileInfo encodeTileTail
    simp only [hlim, hu, hc, hr]
    rfl
  · have hns : Reads (P.ns 1) [] 0 := by
      have := reads_ns 0 1 (by decide) (by decide)
      rwa [show nsBits 0 1 = [] by decide +kernel] at this
    have hs : ∀ m, 1 ≤ m → Reads (Hdr.sizes m 1 1 0) [] [1] := by
      intro m hm
      have e : min (1 - 0) m = 1 := by omega
      simp only [Hdr.sizes, Nat.zero_lt_one, if_true, e]
      refine Reads.bind (a := []) (b := []) hns ?_
      exact Reads.bind (a := []) (b := []) (v := []) (Reads.pure []) (Reads.pure [1])
    have hmw1 : 1 ≤ l.maxWidth := by rw [hl.maxWidth]; split <;> omega
    refine Reads.bind (a := [false]) (b := []) (reads_flag false) ?_
    rw [if_neg (by decide)]
    refine Reads.bind (a := []) (b := []) (v := (0, 0)) ?_ ?_
    · unfold Hdr.nonUniform
      rw [h1, h2]
      refine Reads.bind (a := []) (b := []) (hs _ hmw1) ?_
      refine Reads.bind (a := []) (b := []) (hs _ (by omega)) ?_
      have : Nat.clog 2 (List.length [1]) = 0 := by simp
      rw [this]
      exact Reads.pure _
    · exact Reads.bind (a := []) (b := []) (v := none) (Reads.pure none) (Reads.pure _)

/-- … and wrong for every frame that is wider: the decoder expects tile sizes. -/
theorem C76_nonuniform_wrong (t : TileIn) (l : Hdr.TileLimits) (hu : t.uniform = false)
    (hl : l.For (miSize t.width) (miSize t.height) t.use128) (hw : t.width ≤ 2 ^ 16) (hh : t.height ≤ 2 ^ 16)
    (h1 : 2 ≤ l.sbCols) (hc : t.cols = 1) (hr : t.rows = 1) :
    encodeTileInfo t = some [0] ∧ ¬ ∃ v, Writes (encodeTileInfo t) (Hdr.tileInfo l) v := by
  have hw' : miSize t.width ≤ 2 ^ 30 := by unfold miSize; rw [Nat.shiftRight_eq_div_pow]; omega
  have hh' : miSize t.height ≤ 2 ^ 30 := by unfold miSize; rw [Nat.shiftRight_eq_div_pow]; omega
  have hlim := tileLimits_eq l _ _ _ hl hw' hh'
  have he : encodeTileInfo t = some (raw [false]) := by
    unfold encodeTileInfo encodeTileTail
    simp only [hlim, hu, hc, hr]
    rfl
  refine ⟨he, ?_⟩
  rintro ⟨v, e, he', hr⟩
  rw [he] at he'
  obtain rfl := raw_inj (Option.some.inj he')
  have := hr []
  have hmw : 2 ≤ min (l.sbCols - 0) l.maxWidth := by
    have : 32 ≤ l.maxWidth := by rw [hl.maxWidth]; split <;> omega
    omega
  have hns : ∀ n, 2 ≤ n → P.ns n ([] : Bits) = none := by
    intro n hn
    have : 1 ≤ n.log2 := (Nat.le_log2 (by omega)).2 (by omega)
    simp [P.ns, P.f, bind, StateT.bind, this, show 0 < n.log2 by omega]
  have hsz : Hdr.sizes l.maxWidth l.sbCols l.sbCols 0 ([] : Bits) = none := by
    obtain ⟨k, hk⟩ : ∃ k, l.sbCols = k + 1 := ⟨l.sbCols - 1, by omega⟩
    rw [hk] at hmw ⊢
    simp only [Hdr.sizes, Nat.zero_lt_succ, if_true, bind, StateT.bind, hns _ hmw, Option.bind_none]
  simp only [Hdr.tileInfo, Hdr.nonUniform, bind, StateT.bind, P.flag, List.cons_append, List.nil_append,
    Option.bind_some, List.append_nil] at this
  rw [if_neg (by decide)] at this
  have hbind : ∀ {α β : Type} (p : P α) (g : α → P β) (s : Bits), p s = none → StateT.bind p g s = none := by
    intro α β p g s h
    show (p s).bind _ = none
    rw [h]; rfl
  rw [hbind _ _ _ hsz] at this
  cases this

/-! ## C77: tile numbers -/

/-- **C77, violated.**  AV1 numbers tiles in raster order: tile `n` is at row `n / cols`, column `n % cols`. -/
def C77_full : Prop := ∀ cols rows n, 1 ≤ cols → 1 ≤ rows → n < cols * rows →
  tilePosition n cols rows = (n / cols, n % cols)

theorem C77_negation : ¬ C77_full := fun h => absurd (h 2 2 1 (by decide) (by decide) (by decide)) (by decide)

/-- Right for all tiles only if there is one. -/
theorem C77_exact_partial (cols rows : Nat) (hc : 1 ≤ cols) (hr : 1 ≤ rows) :
    (∀ n < cols * rows, tilePosition n cols rows = (n / cols, n % cols)) ↔ cols = 1 ∧ rows = 1 := by
  constructor
  · intro h
    by_cases h1 : 1 < cols * rows
    · exfalso
      have h2 := h 1 h1
      simp only [tilePosition, Prod.mk.injEq] at h2
      by_cases hc1 : cols = 1
      · subst hc1; simp at h2
      · rw [Nat.div_eq_of_lt (show 1 < cols by omega), Nat.mod_eq_of_lt (show 1 < cols by omega)] at h2
        omega
    · have : cols ≤ cols * rows := Nat.le_mul_of_pos_right _ hr
      have : rows ≤ cols * rows := Nat.le_mul_of_pos_left _ hc
      omega
  · rintro ⟨rfl, rfl⟩ n hn
    simp only [tilePosition]
    have : n = 0 := by omega
    subst this; rfl

/-- With as many columns as rows the row is right and the column is the row again: only the diagonal is visited. -/
theorem C77_square (cols n : Nat) : tilePosition n cols cols = (n / cols, n / cols) := rfl

/-- Otherwise the last tile is outside the frame. -/
theorem C77_outside (cols rows : Nat) (hc : 1 ≤ cols) (hr : 1 ≤ rows) (hne : cols ≠ rows) :
    rows ≤ (tilePosition (cols * rows - 1) cols rows).1 ∨ cols ≤ (tilePosition (cols * rows - 1) cols rows).2 := by
  have e1 : (cols * rows - 1) / rows = cols - 1 := by
    obtain ⟨c, rfl⟩ : ∃ c, cols = c + 1 := ⟨cols - 1, by omega⟩
    rw [Nat.div_eq_iff (by omega), Nat.add_mul]
    have : c * rows = c * rows := rfl
    simp only [Nat.add_sub_cancel]
    constructor
    · omega
    · omega
  have e2 : (cols * rows - 1) / cols = rows - 1 := by
    obtain ⟨c, rfl⟩ : ∃ c, rows = c + 1 := ⟨rows - 1, by omega⟩
    rw [Nat.div_eq_iff (by omega), Nat.mul_comm cols (c + 1), Nat.add_mul]
    simp only [Nat.add_sub_cancel]
    constructor
    · omega
    · omega
  simp only [tilePosition, e1, e2]
  omega

/-- In a 2x2 layout tiles 0 and 1 are the same rectangle and two rectangles are never visited. -/
example : (List.range 4).map (fun n => tilePosition n 2 2) = [(0, 0), (0, 0), (1, 1), (1, 1)] := by decide

/-- The number of tiles of the tile group (obu_encoder.rs 1410) against the number laid out: not the same unless it is a
power of two that divides well. -/
def C77_count_full : Prop := ∀ t x, t.uniform = true → encodeUniform t = some x →
  t.cols = tileCount (sbCount t.use128 (miSize t.width)) ((startsLog2 t.cols).getD 0)

theorem C77_count_negation : ¬ C77_count_full := by
  intro h
  have h1 : (encodeUniform ⟨4160, 64, false, true, 3, 1, 0, 1, [0, 0, 0, 0], [0, 0]⟩).isSome := by decide +kernel
  obtain ⟨x, hx⟩ := Option.isSome_iff_exists.1 h1
  exact absurd (h _ x rfl hx) (by decide +kernel)

end Av1
