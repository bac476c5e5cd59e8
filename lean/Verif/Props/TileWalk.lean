import Verif.Model.Tile
import Verif.Props.Search
import Verif.Props.Geometry

/-! # C100–C103: which tile, which superblocks, and where chroma is coded -/

namespace Av1

/-! ## C100: the area of a tile -/

/-- Specification: tiles are numbered in raster order (AV1 5.11.1: `tileRow = TileNum / TileCols`,
`tileCol = TileNum % TileCols`). -/
def rasterArea (n cols : Nat) (rowStarts colStarts : List Nat) : Option TileArea := do
  let rs ← rowStarts[n / cols]?
  let re ← rowStarts[n / cols + 1]?
  let cs ← colStarts[n % cols]?
  let ce ← colStarts[n % cols + 1]?
  some ⟨rs, re, cs, ce⟩

/-- A layout of `rows` × `cols` tiles: start positions and the end, increasing. -/
structure Layout (rows cols : Nat) (rowStarts colStarts : List Nat) : Prop where
  rowLen : rowStarts.length = rows + 1
  colLen : colStarts.length = cols + 1
  rowInc : rowStarts.Pairwise (· < ·)
  colInc : colStarts.Pairwise (· < ·)

/-- **C100**, full claim: tile `n` covers the area at its place in raster order. -/
def C100_full : Prop := ∀ rows cols rowStarts colStarts n, Layout rows cols rowStarts colStarts → n < cols * rows →
  tileArea n cols rows rowStarts colStarts = rasterArea n cols rowStarts colStarts

theorem pairwise_inj {l : List Nat} (h : l.Pairwise (· < ·)) {i j : Nat} (hi : i < l.length) (hj : j < l.length)
    (e : l[i] = l[j]) : i = j := by
  rcases Nat.lt_trichotomy i j with h1 | h1 | h1
  · exact absurd e (Nat.ne_of_lt (List.pairwise_iff_getElem.1 h i j hi hj h1))
  · exact h1
  · exact absurd e.symm (Nat.ne_of_lt (List.pairwise_iff_getElem.1 h j i hj hi h1))

/-- **C100**, exactly when it holds: `n / cols` is used as the column and `n / rows` as the row, so tile `n` is right iff these
happen to be its column and row.  In particular tile 0 is right. -/
theorem C100_exact_partial (rows cols : Nat) (rowStarts colStarts : List Nat) (n : Nat)
    (h : Layout rows cols rowStarts colStarts) (hn : n < cols * rows) :
    tileArea n cols rows rowStarts colStarts = rasterArea n cols rowStarts colStarts ↔
      n / rows = n / cols ∧ n / cols = n % cols := by
  have hc : 0 < cols := Nat.pos_of_ne_zero (by rintro rfl; simp at hn)
  have hr : 0 < rows := Nat.pos_of_ne_zero (by rintro rfl; simp at hn)
  have h1 : n / cols < rows := Nat.div_lt_of_lt_mul hn
  have h2 : n % cols < cols := Nat.mod_lt _ hc
  have r0 : n / cols < rowStarts.length := by rw [h.rowLen]; omega
  have r1 : n / cols + 1 < rowStarts.length := by rw [h.rowLen]; omega
  have c0 : n % cols < colStarts.length := by rw [h.colLen]; omega
  have c1 : n % cols + 1 < colStarts.length := by rw [h.colLen]; omega
  have hz : ¬ (cols = 0 ∨ rows = 0) := by omega
  have hraster : rasterArea n cols rowStarts colStarts =
      some ⟨rowStarts[n / cols], rowStarts[n / cols + 1], colStarts[n % cols], colStarts[n % cols + 1]⟩ := by
    simp [rasterArea, List.getElem?_eq_getElem r0, List.getElem?_eq_getElem r1, List.getElem?_eq_getElem c0,
      List.getElem?_eq_getElem c1]
  constructor
  · intro e
    rw [hraster] at e
    simp only [tileArea, if_neg hz, Option.bind_eq_bind, Option.bind_eq_some_iff, pure_bind] at e
    obtain ⟨rs, e1, re, e2, cs, e3, ce, e4, e5⟩ := e
    simp only [Option.some.injEq, TileArea.mk.injEq] at e5
    obtain ⟨rfl, rfl, rfl, rfl⟩ := e5
    obtain ⟨k1, e1⟩ := List.getElem?_eq_some_iff.1 e1
    obtain ⟨k3, e3⟩ := List.getElem?_eq_some_iff.1 e3
    exact ⟨pairwise_inj h.rowInc k1 r0 e1, pairwise_inj h.colInc k3 c0 e3⟩
  · rintro ⟨e1, e2⟩
    rw [tileArea, if_neg hz, e1]
    unfold rasterArea
    rw [← e2]

/-- **C100**, the claim fails for every layout of more than one tile: one of the tiles is not where it should be. -/
theorem C100_wrong (rows cols : Nat) (rowStarts colStarts : List Nat) (h : Layout rows cols rowStarts colStarts)
    (hn : 1 < cols * rows) : ∃ n < cols * rows,
      tileArea n cols rows rowStarts colStarts ≠ rasterArea n cols rowStarts colStarts := by
  have hc : 0 < cols := Nat.pos_of_ne_zero (by rintro rfl; simp at hn)
  have hr : 0 < rows := Nat.pos_of_ne_zero (by rintro rfl; simp at hn)
  by_cases hc1 : cols = 1
  · -- one column: the second tile of the column is taken to be in the second column
    subst hc1
    refine ⟨1, hn, fun e => ?_⟩
    have := (C100_exact_partial rows 1 _ _ 1 h hn).1 e
    simp at this
  · refine ⟨1, hn, fun e => ?_⟩
    have := ((C100_exact_partial rows cols _ _ 1 h hn).1 e).2
    rw [Nat.div_eq_of_lt (by omega), Nat.mod_eq_of_lt (by omega)] at this
    omega

/-- **C100**: with different numbers of rows and columns the last tile is outside the arrays of starts. -/
theorem C100_last_panics (rows cols : Nat) (rowStarts colStarts : List Nat) (h : Layout rows cols rowStarts colStarts)
    (hr : 0 < rows) (hc : 0 < cols) (hne : rows ≠ cols) :
    tileArea (cols * rows - 1) cols rows rowStarts colStarts = none := by
  have hz : ¬ (cols = 0 ∨ rows = 0) := by omega
  have e1 : (cols * rows - 1) / cols = rows - 1 := by
    obtain ⟨k, rfl⟩ : ∃ k, rows = k + 1 := ⟨rows - 1, by omega⟩
    have : cols * (k + 1) - 1 = cols - 1 + cols * k := by rw [Nat.mul_add, Nat.mul_one]; omega
    rw [this, Nat.add_mul_div_left _ _ hc, Nat.div_eq_of_lt (by omega)]
    simp
  have e2 : (cols * rows - 1) / rows = cols - 1 := by
    obtain ⟨k, rfl⟩ : ∃ k, cols = k + 1 := ⟨cols - 1, by omega⟩
    have : (k + 1) * rows - 1 = rows - 1 + rows * k := by rw [Nat.add_mul, Nat.one_mul, Nat.mul_comm]; omega
    rw [this, Nat.add_mul_div_left _ _ hr, Nat.div_eq_of_lt (by omega)]
    simp
  simp only [tileArea, if_neg hz, e1, e2, Option.bind_eq_bind, pure_bind]
  rcases Nat.lt_or_ge rows cols with hlt | hge
  · have : rowStarts[cols - 1 + 1]? = none := by
      rw [List.getElem?_eq_none_iff, h.rowLen]; omega
    rw [this]
    cases rowStarts[cols - 1]? <;> rfl
  · have : colStarts[rows - 1 + 1]? = none := by
      rw [List.getElem?_eq_none_iff, h.colLen]; omega
    rw [this]
    cases rowStarts[cols - 1]? <;> cases rowStarts[cols - 1 + 1]? <;> cases colStarts[rows - 1]? <;> rfl

theorem layout_2x1 : Layout 1 2 [0, 16] [0, 16, 32] := ⟨rfl, rfl, by decide, by decide⟩

theorem C100_negation : ¬ C100_full := by
  intro h
  obtain ⟨n, hn, e⟩ := C100_wrong 1 2 _ _ layout_2x1 (by decide)
  exact e (h 1 2 _ _ n layout_2x1 hn)

example : tileArea 0 2 1 [0, 16] [0, 16, 32] = some ⟨0, 16, 0, 16⟩ := by decide

/-! ## C101: the superblocks of a tile -/

/-- Specification: the positions of the superblocks of an area, `step` apart, in raster order. -/
def superblocks (a : TileArea) (step : Nat) : List (Nat × Nat) :=
  (List.range ((a.rowEnd - a.rowStart + step - 1) / step)).flatMap fun i =>
    (List.range ((a.colEnd - a.colStart + step - 1) / step)).map fun j => (a.rowStart + i * step, a.colStart + j * step)

/-- Positions `start`, `start + step`, … below `stop`. -/
theorem steps_succ {start stop step : Nat} (hs : 0 < step) (h : start < stop) :
    (List.range ((stop - start + step - 1) / step)).map (fun j => start + j * step) =
      start :: (List.range ((stop - (start + step) + step - 1) / step)).map (fun j => start + step + j * step) := by
  have e : (stop - start + step - 1) / step = (stop - (start + step) + step - 1) / step + 1 := by
    by_cases h2 : start + step ≤ stop
    · have : stop - start + step - 1 = stop - (start + step) + step - 1 + step := by omega
      rw [this, Nat.add_div_right _ hs]
    · have h3 : stop - (start + step) = 0 := by omega
      rw [h3, show (0 + step - 1) / step = 0 from Nat.div_eq_of_lt (by omega)]
      apply Nat.div_eq_of_lt_le
      · omega
      · omega
  rw [e, List.range_succ_eq_map, List.map_cons, List.map_map]
  simp only [Nat.zero_mul, Nat.add_zero]
  congr 1
  apply List.map_congr_left
  intro j _
  simp only [Function.comp_apply, Nat.succ_eq_add_one, Nat.add_mul, Nat.one_mul]
  omega

theorem steps_nil {start stop step : Nat} (hs : 0 < step) (h : ¬ start < stop) :
    (stop - start + step - 1) / step = 0 := by
  apply Nat.div_eq_of_lt
  omega

theorem walkCols_eq {τ : Type} (f : τ → Nat → Nat → Option τ) (step stop r : Nat) (hs : 0 < step) :
    ∀ (fuel c : Nat) (x : τ), stop - c < fuel →
      walkCols f step stop r fuel c x =
        ((List.range ((stop - c + step - 1) / step)).map fun j => c + j * step).foldlM (fun x c => f x r c) x := by
  intro fuel
  induction fuel with
  | zero => intro c x h; omega
  | succ n ih =>
    intro c x h
    unfold walkCols
    by_cases hc : c < stop
    · rw [if_pos hc, steps_succ hs hc, List.foldlM_cons]
      show _ = (f x r c).bind _
      congr 1
      funext y
      exact ih (c + step) y (by omega)
    · rw [if_neg hc, steps_nil hs hc]
      rfl

theorem walkRows_eq {τ : Type} (f : τ → Nat → Nat → Option τ) (step : Nat) (a : TileArea) (hs : 0 < step) :
    ∀ (fuel r : Nat) (x : τ), a.rowEnd - r < fuel →
      walkRows f step a fuel r x =
        (((List.range ((a.rowEnd - r + step - 1) / step)).map fun i => r + i * step).flatMap fun r =>
          (List.range ((a.colEnd - a.colStart + step - 1) / step)).map fun j => (r, a.colStart + j * step)).foldlM
            (fun x p => f x p.1 p.2) x := by
  intro fuel
  induction fuel with
  | zero => intro r x h; omega
  | succ n ih =>
    intro r x h
    unfold walkRows
    by_cases hr : r < a.rowEnd
    · rw [if_pos hr, steps_succ hs hr, List.flatMap_cons, List.foldlM_append, walkCols_eq f step a.colEnd r hs _ _ _ (by omega)]
      have e : ∀ (l : List Nat) (x : τ), (l.map fun j => (r, a.colStart + j * step)).foldlM (fun x p => f x p.1 p.2) x =
          (l.map fun j => a.colStart + j * step).foldlM (fun x c => f x r c) x := by
        intro l
        induction l with
        | nil => intro x; rfl
        | cons j l ihl =>
          intro x
          simp only [List.map_cons, List.foldlM_cons]
          show (f x r _).bind _ = (f x r _).bind _
          congr 1
          funext y
          exact ihl y
      rw [← e]
      show Option.bind _ _ = Option.bind _ _
      congr 1
      funext y
      exact ih (r + step) y (by omega)
    · rw [if_neg hr, steps_nil hs hr]
      rfl

/-- **C101**: the loops of `encode_tile` call the superblock encoder on exactly the superblocks of the tile in raster order,
threading the state, and panic iff one of the calls does. -/
theorem C101_raster {τ : Type} (f : τ → Nat → Nat → Option τ) (step : Nat) (a : TileArea) (x : τ) (hs : 0 < step) :
    tileWalk f step a x = (superblocks a step).foldlM (fun x p => f x p.1 p.2) x := by
  unfold tileWalk superblocks
  rw [walkRows_eq f step a hs _ _ _ (by omega), List.flatMap_map]

theorem mem_superblocks {a : TileArea} {step : Nat} (hs : 0 < step) {p : Nat × Nat} :
    p ∈ superblocks a step ↔ (∃ i, p.1 = a.rowStart + i * step ∧ p.1 < a.rowEnd) ∧
      ∃ j, p.2 = a.colStart + j * step ∧ p.2 < a.colEnd := by
  have key : ∀ s e i, i < (e - s + step - 1) / step ↔ s + i * step < e := by
    intro s e i
    rw [Nat.lt_iff_add_one_le, Nat.le_div_iff_mul_le hs, Nat.add_mul, Nat.one_mul]
    have := Nat.zero_le (i * step)
    omega
  simp only [superblocks, List.mem_flatMap, List.mem_range, List.mem_map, key]
  constructor
  · rintro ⟨i, hi, j, hj, rfl⟩
    exact ⟨⟨i, rfl, hi⟩, ⟨j, rfl, hj⟩⟩
  · rintro ⟨⟨i, hi, hi'⟩, ⟨j, hj, hj'⟩⟩
    exact ⟨i, by omega, j, by omega, by rw [← hi, ← hj]⟩

/-- **C101**: every 4×4 position of the tile belongs to exactly one of the superblocks called. -/
theorem C101_cover (a : TileArea) (step : Nat) (hs : 0 < step) (y x : Nat) (hy : a.rowStart ≤ y ∧ y < a.rowEnd)
    (hx : a.colStart ≤ x ∧ x < a.colEnd) :
    ∃! p, p ∈ superblocks a step ∧ (p.1 ≤ y ∧ y < p.1 + step) ∧ p.2 ≤ x ∧ x < p.2 + step := by
  have ey := Nat.div_add_mod (y - a.rowStart) step
  have ex := Nat.div_add_mod (x - a.colStart) step
  have ly := Nat.mod_lt (y - a.rowStart) hs
  have lx := Nat.mod_lt (x - a.colStart) hs
  rw [Nat.mul_comm] at ey ex
  refine ⟨(a.rowStart + (y - a.rowStart) / step * step, a.colStart + (x - a.colStart) / step * step), ?_, ?_⟩
  · refine ⟨(mem_superblocks hs).2 ⟨⟨_, rfl, ?_⟩, ⟨_, rfl, ?_⟩⟩, ?_⟩ <;> dsimp only <;> omega
  · rintro ⟨p, q⟩ ⟨hm, ⟨h1, h2⟩, h3, h4⟩
    obtain ⟨⟨i, rfl, -⟩, ⟨j, rfl, -⟩⟩ := (mem_superblocks hs).1 hm
    dsimp only at h1 h2 h3 h4
    have hi : (y - a.rowStart) / step = i :=
      Nat.div_eq_of_lt_le (by omega) (by rw [Nat.add_mul, Nat.one_mul]; omega)
    have hj : (x - a.colStart) / step = j :=
      Nat.div_eq_of_lt_le (by omega) (by rw [Nat.add_mul, Nat.one_mul]; omega)
    rw [hi, hj]

/-- **C101**: no superblock is called twice; rows from top to bottom, each from left to right. -/
theorem C101_order (a : TileArea) (step : Nat) (hs : 0 < step) :
    (superblocks a step).Pairwise fun p q => p.1 < q.1 ∨ (p.1 = q.1 ∧ p.2 < q.2) := by
  unfold superblocks
  rw [List.pairwise_flatMap]
  refine ⟨?_, ?_⟩
  · intro i _
    rw [List.pairwise_map]
    refine List.Pairwise.imp ?_ List.pairwise_lt_range
    intro j k h
    right
    exact ⟨rfl, Nat.add_lt_add_left (Nat.mul_lt_mul_of_pos_right h hs) _⟩
  · refine List.Pairwise.imp ?_ List.pairwise_lt_range
    intro i k h p hp q hq
    obtain ⟨j, -, rfl⟩ := List.mem_map.1 hp
    obtain ⟨l, -, rfl⟩ := List.mem_map.1 hq
    left
    exact Nat.add_lt_add_left (Nat.mul_lt_mul_of_pos_right h hs) _

example : superblocks ⟨16, 50, 32, 64⟩ 16 = [(16, 32), (16, 48), (32, 32), (32, 48), (48, 32), (48, 48)] := by decide

/-! ## C102: no tile can be encoded -/

/-- **C102**, full claim: a tile of the frame is encoded whenever its parts can be: the preparation, the restoration units and
the blocks. -/
def C102_full : Prop := ∀ (σ ω β : Type) (E : TileEnc σ ω β) (use128 : Bool) (miRows miCols n cols rows : Nat)
  (rowStarts colStarts : List Nat) (s : σ) (w : ω), (∀ w, (E.start w).isSome) → (∀ w r c, (E.prepare w r c).isSome) →
  (∀ s w r c b, (E.lr s w r c b).isSome) → (∀ s w y, (E.symbol s w y).isSome) → (∀ s w r c b i, (E.block s w r c b i).isSome) →
  Layout rows cols rowStarts colStarts → n < cols * rows → miRows % 2 = 0 → miCols % 2 = 0 →
  (encodeTile E false use128 miRows miCols 6 n cols rows rowStarts colStarts s w).isSome

/-- **C102**, the claim fails for every tile: whatever the parts do, a tile that starts inside the frame panics (its first
superblock runs into `C39_never`). -/
theorem C102_never {σ ω β : Type} (E : TileEnc σ ω β) (borrowed use128 : Bool) (miRows miCols fuel n cols rows : Nat)
    (rowStarts colStarts : List Nat) (s : σ) (w : ω) (a : TileArea)
    (ha : tileArea n cols rows rowStarts colStarts = some a) (h1 : a.rowStart < a.rowEnd) (h2 : a.colStart < a.colEnd)
    (h3 : a.rowStart < miRows) (h4 : a.colStart < miCols) (h5 : a.rowStart % 2 = 0) (h6 : a.colStart % 2 = 0)
    (hR : miRows % 2 = 0) (hC : miCols % 2 = 0) :
    encodeTile E borrowed use128 miRows miCols fuel n cols rows rowStarts colStarts s w = none := by
  unfold encodeTile
  cases borrowed with
  | true => rfl
  | false =>
    have hsb : ∀ x, encodeSb E use128 miRows miCols fuel x a.rowStart a.colStart = none := by
      intro x
      unfold encodeSb
      cases E.prepare x.2.1 a.rowStart a.colStart with
      | none => rfl
      | some w1 =>
        simp only [Option.bind_eq_bind, Option.bind_some]
        cases E.lr x.1 w1 a.rowStart a.colStart (sbSize use128) with
        | none => rfl
        | some y =>
          obtain ⟨s1, w2, b1⟩ := y
          simp only [Option.bind_some]
          rw [C39_never E.toEnc miRows miCols hR hC fuel _ _ s1 w2 (.new E.fresh (sbSize use128))
            (by cases use128 <;> simp [PTree.new, PTree.bsize, sbSize]) (by omega) (by omega) (by omega) (by omega)]
          rfl
    obtain ⟨step, hstep, hpos⟩ : ∃ step, K.num_4x4_blocks_wide[sbSize use128]? = some step ∧ 0 < step := by
      cases use128
      · exact ⟨16, by decide, by decide⟩
      · exact ⟨32, by decide, by decide⟩
    simp only [Bool.false_eq_true, if_false, ha, hstep, Option.bind_eq_bind, Option.bind_some, pure_bind]
    cases E.start w with
    | none => rfl
    | some w1 =>
      simp only [Option.bind_some]
      unfold tileWalk walkRows
      rw [if_pos h1]
      unfold walkCols
      rw [if_pos h2, hsb]
      rfl

/-- Parts that always succeed. -/
def easyTile : TileEnc Unit Unit Unit where
  enter w _ _ := w
  symbol s _ _ := some (s, [])
  block s w _ _ _ i := some (s, w, i, [])
  fresh := ()
  start w := some w
  prepare w _ _ := some w
  lr s w _ _ _ := some (s, w, [])

theorem C102_negation : ¬ C102_full := by
  intro h
  have := h Unit Unit Unit easyTile false 16 16 0 1 1 [0, 16] [0, 16] () () (fun _ => rfl) (fun _ _ _ => rfl)
    (fun _ _ _ _ _ => rfl) (fun _ _ _ => rfl) (fun _ _ _ _ _ _ => rfl) ⟨rfl, rfl, by decide, by decide⟩ (by decide) rfl rfl
  rw [C102_never easyTile false false 16 16 6 0 1 1 [0, 16] [0, 16] () () ⟨0, 16, 0, 16⟩ (by decide) (by decide) (by decide)
    (by decide) (by decide) rfl rfl rfl rfl] at this
  cases this

/-- **C102**, for the frames `Frame::new` makes it already fails at `cdef_idx`, which is `[[]]`. -/
theorem C102_cdef_panics (use128 : Bool) (r c : Nat) : clearCdef use128 r c [[]] = none := by
  unfold clearCdef setCdef
  cases r with
  | zero => rfl
  | succ r => rfl

/-- Specification: the cells of `cdef_idx` that belong to a superblock at `(r, c)`, one per 64×64 block (AV1 `clear_cdef`). -/
def CdefCell (use128 : Bool) (r c y x : Nat) : Prop :=
  (y = r ∨ use128 = true ∧ y = r + 16) ∧ (x = c ∨ use128 = true ∧ x = c + 16)

/-- A cell of a grid. -/
def gridAt (m : List (List Int)) (y x : Nat) : Option Int := (m[y]?).bind (·[x]?)

theorem setCdef_spec (m : List (List Int)) (r c : Nat) (h : ∃ v, gridAt m r c = some v) :
    ∃ m', setCdef m r c = some m' ∧ (∀ y x, gridAt m' y x = if y = r ∧ x = c then some (-1) else gridAt m y x) := by
  obtain ⟨v, h⟩ := h
  unfold gridAt at h
  cases hr : m[r]? with
  | none => rw [hr] at h; cases h
  | some row =>
    rw [hr, Option.bind_some] at h
    refine ⟨m.set r (row.set c (-1)), by simp [setCdef, hr, h], ?_⟩
    intro y x
    have hl : r < m.length := (List.getElem?_eq_some_iff.1 hr).1
    have hc : c < row.length := (List.getElem?_eq_some_iff.1 h).1
    unfold gridAt
    by_cases hy : y = r
    · subst hy
      rw [List.getElem?_set_self hl, hr, Option.bind_some, Option.bind_some]
      by_cases hx : x = c
      · subst hx; simp [hc]
      · simp [hx, Ne.symm hx]
    · rw [List.getElem?_set_ne (Ne.symm hy)]
      simp [hy]

/-- **C102**, the part that works, on a grid that has the cells: exactly the cells of the superblock become −1. -/
theorem C102_cdef_partial (use128 : Bool) (r c : Nat) (m : List (List Int))
    (h : ∀ y x, CdefCell use128 r c y x → ∃ v, gridAt m y x = some v) :
    ∃ m', clearCdef use128 r c m = some m' ∧ (∀ y x, CdefCell use128 r c y x → gridAt m' y x = some (-1)) ∧
      (∀ y x, ¬ CdefCell use128 r c y x → gridAt m' y x = gridAt m y x) := by
  obtain ⟨m1, e1, k1⟩ := setCdef_spec m r c (h r c ⟨.inl rfl, .inl rfl⟩)
  cases use128 with
  | false =>
    refine ⟨m1, by simp [clearCdef, e1], ?_, ?_⟩
    · rintro y x ⟨hy | ⟨hy, -⟩, hx | ⟨hx, -⟩⟩ <;> first | contradiction | skip
      rw [k1, if_pos ⟨hy, hx⟩]
    · intro y x hn
      rw [k1, if_neg fun hh => hn ⟨.inl hh.1, .inl hh.2⟩]
  | true =>
    obtain ⟨m2, e2, k2⟩ := setCdef_spec m1 r (c + 16) (by
      rw [k1, if_neg (by omega)]; exact h _ _ ⟨.inl rfl, .inr ⟨rfl, rfl⟩⟩)
    obtain ⟨m3, e3, k3⟩ := setCdef_spec m2 (r + 16) c (by
      rw [k2, if_neg (by omega), k1, if_neg (by omega)]; exact h _ _ ⟨.inr ⟨rfl, rfl⟩, .inl rfl⟩)
    obtain ⟨m4, e4, k4⟩ := setCdef_spec m3 (r + 16) (c + 16) (by
      rw [k3, if_neg (by omega), k2, if_neg (by omega), k1, if_neg (by omega)]
      exact h _ _ ⟨.inr ⟨rfl, rfl⟩, .inr ⟨rfl, rfl⟩⟩)
    refine ⟨m4, by simp [clearCdef, e1, e2, e3, e4], ?_, ?_⟩
    · intro y x hc
      simp only [CdefCell, true_and] at hc
      rw [k4, k3, k2, k1]
      repeat' split
      all_goals first | rfl | (exfalso; omega)
    · intro y x hc
      simp only [CdefCell, true_and] at hc
      rw [k4, if_neg (by omega), k3, if_neg (by omega), k2, if_neg (by omega), k1, if_neg (by omega)]

/-- Such a grid: 32 × 32 cells hold the four of the superblock at the origin. -/
example : ∀ y x, CdefCell true 0 0 y x → ∃ v, gridAt (List.replicate 32 (List.replicate 32 3)) y x = some v := by
  rintro y x ⟨rfl | ⟨-, rfl⟩, rfl | ⟨-, rfl⟩⟩ <;> exact ⟨3, rfl⟩

/-- For blocks of 128 it also fails on a grid of the size AV1 needs, when the superblock reaches over its edge: AV1 clears
cells that do not exist in the frame, the code indexes them. -/
theorem C102_cdef_edge (r c : Nat) (m : List (List Int)) (h : m.length ≤ r + 16 ∨ ∀ row ∈ m, row.length ≤ c + 16) :
    clearCdef true r c m = none := by
  have s1 : ∀ {m m' : List (List Int)} {r c : Nat}, setCdef m r c = some m' → m'.length = m.length ∧
      ∀ k : Nat, (∀ row ∈ m, row.length ≤ k) → ∀ row ∈ m', row.length ≤ k := by
    intro m m' r c hs
    unfold setCdef at hs
    simp only [Option.bind_eq_bind] at hs
    obtain ⟨row, hr, hs⟩ := Option.bind_eq_some_iff.1 hs
    obtain ⟨v, -, hs⟩ := Option.bind_eq_some_iff.1 hs
    obtain rfl := Option.some.inj hs
    refine ⟨by simp, fun k hk x hx => ?_⟩
    rcases List.mem_or_eq_of_mem_set hx with hx | rfl
    · exact hk _ hx
    · rw [List.length_set]; exact hk _ (List.mem_of_getElem? hr)
  have s2 : ∀ (m : List (List Int)) (r c : Nat), (m.length ≤ r ∨ ∀ row ∈ m, row.length ≤ c) → setCdef m r c = none := by
    intro m r c hm
    unfold setCdef
    cases hr : m[r]? with
    | none => rfl
    | some row =>
      have hl : r < m.length := (List.getElem?_eq_some_iff.1 hr).1
      rcases hm with hm | hm
      · omega
      · have := hm _ (List.mem_of_getElem? hr)
        simp [List.getElem?_eq_none this]
  unfold clearCdef
  simp only [Option.bind_eq_bind, if_true]
  cases e1 : setCdef m r c with
  | none => rfl
  | some m1 =>
    obtain ⟨l1, w1⟩ := s1 e1
    rw [Option.bind_some]
    cases e2 : setCdef m1 r (c + 16) with
    | none => rfl
    | some m2 =>
      obtain ⟨l2, w2⟩ := s1 e2
      rw [Option.bind_some]
      cases e3 : setCdef m2 (r + 16) c with
      | none => rfl
      | some m3 =>
        obtain ⟨l3, w3⟩ := s1 e3
        rw [Option.bind_some]
        refine s2 _ _ _ ?_
        rcases h with h | h
        · left; omega
        · right; exact w3 _ (w2 _ (w1 _ h))

example : clearCdef true 0 0 (List.replicate 16 (List.replicate 32 0)) = none := by
  exact C102_cdef_edge 0 0 _ (.inl (by simp))

/-! ## What a tile resets -/

/-- **C102**, the part that works: at the start of a tile the quantizer index is that of the frame, the loop filter deltas are
zero, and the references of the restoration filters of the planes in use are AV1's defaults (`Sgrproj_Xqd_Mid`,
`Wiener_Taps_Mid`), whatever was there before. -/
theorem C102_reset_partial (baseQ planes : Nat) (s : TileState) (h1 : planes ≤ s.refSgr.length)
    (h2 : planes ≤ s.refWiener.length) : ∃ s', startTile baseQ planes s = some s' ∧ s'.currentQ = baseQ ∧
      s'.deltaLf = List.replicate 4 0 ∧ (∀ p < planes, s'.refSgr[p]? = some [-32, 31]) ∧
      (∀ p < planes, s'.refWiener[p]? = some [[3, -7, 15], [3, -7, 15]]) := by
  have key : ∀ {α : Type} (v : α) (n : Nat) (l : List α), n ≤ l.length →
      ∃ l', resetFirst v n l = some l' ∧ ∀ p < n, l'[p]? = some v := by
    intro α v n
    induction n with
    | zero => intro l _; exact ⟨l, rfl, by simp⟩
    | succ n ih =>
      intro l hl
      cases l with
      | nil => simp at hl
      | cons x l =>
        obtain ⟨l', e, hl'⟩ := ih l (by simpa using hl)
        refine ⟨v :: l', by simp [resetFirst, e], ?_⟩
        intro p hp
        cases p with
        | zero => rfl
        | succ p => exact hl' p (by omega)
  obtain ⟨l1, e1, k1⟩ := key K.sgrproj_xqd_mid planes s.refSgr h1
  obtain ⟨l2, e2, k2⟩ := key [K.wiener_taps_mid, K.wiener_taps_mid] planes s.refWiener h2
  refine ⟨⟨baseQ, [0, 0, 0, 0], l1, l2⟩, ?_, rfl, rfl, k1, k2⟩
  simp [startTile, e1, e2]

/-! ## C103: chroma of a block -/

/-- Specification: a block of `h4` × `w4` 4×4 units at `(r, c)` codes chroma iff there is chroma and the block holds the last
luma unit of some chroma unit, i.e. an odd row (column) where rows (columns) are halved. -/
def CodesChroma (planes : Nat) (ssx ssy : Bool) (r c h4 w4 : Nat) : Prop :=
  1 < planes ∧ (ssy = true → ∃ y, r ≤ y ∧ y < r + h4 ∧ y % 2 = 1) ∧ (ssx = true → ∃ x, c ≤ x ∧ x < c + w4 ∧ x % 2 = 1)

theorem odd_in (r h : Nat) (hh : 0 < h) : (∃ y, r ≤ y ∧ y < r + h ∧ y % 2 = 1) ↔ ¬ (h = 1 ∧ r % 2 = 0) := by
  constructor
  · rintro ⟨y, h1, h2, h3⟩ ⟨h4, h5⟩
    omega
  · intro hn
    by_cases hr : r % 2 = 1
    · exact ⟨r, by omega, by omega, hr⟩
    · exact ⟨r + 1, by omega, by omega, by omega⟩

theorem and_one_eq (r : Nat) : r &&& 1 = r % 2 := Nat.and_one_is_mod r

/-- **C103**: `encode_block` codes chroma exactly for the blocks that AV1 codes it for. -/
theorem C103_chroma (a : TileArea) (planes : Nat) (ssx ssy : Bool) (r c bs : Nat) (d : Nat × Nat)
    (hd : blockDims[bs]? = some d) : ∃ h, blockHead a planes ssx ssy r c bs = some h ∧
      (h.hasChroma = true ↔ CodesChroma planes ssx ssy r c (d.2 / 4) (d.1 / 4)) := by
  have hrows : ∀ (bs : Nat) (d : Nat × Nat), blockDims[bs]? = some d → ∃ w h, K.num_4x4_blocks_wide[bs]? = some w ∧
      K.num_4x4_blocks_high[bs]? = some h ∧ h = d.2 / 4 ∧ (w = 1 ↔ d.1 / 4 = 1) ∧ 0 < d.1 / 4 ∧ 0 < d.2 / 4 := by
    intro bs d hd
    have hw : ∀ bs : Fin 22, ∃ w ∈ K.num_4x4_blocks_wide[(bs : Nat)]?, ∃ h ∈ K.num_4x4_blocks_high[(bs : Nat)]?,
        h = (blockDims[(bs : Nat)]'bs.2).2 / 4 ∧ (w = 1 ↔ (blockDims[(bs : Nat)]'bs.2).1 / 4 = 1) ∧
        0 < (blockDims[(bs : Nat)]'bs.2).1 / 4 ∧ 0 < (blockDims[(bs : Nat)]'bs.2).2 / 4 := by decide +kernel
    obtain ⟨hl, rfl⟩ := List.getElem?_eq_some_iff.1 hd
    obtain ⟨w, h1, h, h2, h3⟩ := hw ⟨bs, hl⟩
    exact ⟨w, h, h1, h2, h3⟩
  obtain ⟨w, h, e1, e2, e3, e4, e5, e6⟩ := hrows bs d hd
  refine ⟨_, by simp only [blockHead, e1, e2, Option.bind_eq_bind, Option.bind_some]; rfl, ?_⟩
  dsimp only
  unfold CodesChroma
  rw [odd_in r _ e6, odd_in c _ e5, and_one_eq, and_one_eq, ← e3, ← e4]
  by_cases p : 1 < planes <;> cases ssx <;> cases ssy <;> by_cases h1 : h = 1 <;> by_cases w1 : w = 1 <;>
    by_cases r2 : r % 2 = 0 <;> by_cases c2 : c % 2 = 0 <;> simp [p, h1, w1, r2, c2]

/-- Where the chroma of a block starts, in luma units: sub-8 blocks share the chroma of the 8×8 they end. -/
def chromaStart (ss : Bool) (x : Nat) : Nat := if ss then x / 2 * 2 else x

/-- The position is in the tile. -/
def InArea (a : TileArea) (r c : Int) : Prop := (a.rowStart ≤ r ∧ r < a.rowEnd) ∧ a.colStart ≤ c ∧ c < a.colEnd

theorem inArea_iff (a : TileArea) (r c : Int) : a.inside r c = true ↔ InArea a r c := by
  unfold TileArea.inside InArea
  simp only [Bool.and_eq_true, decide_eq_true_iff]
  omega

/-- **C103**: availability of the neighbours.  Luma: the row above and the column to the left are in the tile.  Chroma: the
same for the row above and the column left of where the chroma starts.  Blocks of more than one unit start at even
positions. -/
theorem C103_avail (a : TileArea) (planes : Nat) (ssx ssy : Bool) (r c bs : Nat) (d : Nat × Nat)
    (hd : blockDims[bs]? = some d) (hr : 4 < d.2 → r % 2 = 0) (hc : 4 < d.1 → c % 2 = 0) :
    ∃ h, blockHead a planes ssx ssy r c bs = some h ∧
      (h.availU = true ↔ InArea a ((r : Int) - 1) c) ∧ (h.availL = true ↔ InArea a r ((c : Int) - 1)) ∧
      (h.availUChroma = true ↔ h.hasChroma = true ∧ InArea a ((chromaStart ssy r : Int) - 1) c) ∧
      (h.availLChroma = true ↔ h.hasChroma = true ∧ InArea a r ((chromaStart ssx c : Int) - 1)) := by
  simp only [← inArea_iff]
  have hw : ∀ bs : Fin 22, ∃ w ∈ K.num_4x4_blocks_wide[(bs : Nat)]?, ∃ h ∈ K.num_4x4_blocks_high[(bs : Nat)]?,
      (h = 1 ↔ ¬ 4 < (blockDims[(bs : Nat)]'bs.2).2) ∧ (w = 1 ↔ ¬ 4 < (blockDims[(bs : Nat)]'bs.2).1) := by decide +kernel
  obtain ⟨hl, rfl⟩ := List.getElem?_eq_some_iff.1 hd
  obtain ⟨w, e1, h, e2, e3, e4⟩ := hw ⟨bs, hl⟩
  dsimp only at e1 e2 e3 e4
  have e1' : K.num_4x4_blocks_wide[bs]? = some w := e1
  have e2' : K.num_4x4_blocks_high[bs]? = some h := e2
  refine ⟨_, by simp only [blockHead, e1', e2', Option.bind_eq_bind, Option.bind_some]; rfl, Iff.rfl, Iff.rfl, ?_, ?_⟩
  · dsimp only
    rw [and_one_eq, and_one_eq]
    by_cases h1 : h = 1
    · cases ssy
      · simp [h1, chromaStart]
      · by_cases r2 : r % 2 = 0
        · simp [h1, r2]
        · have : ((chromaStart true r : Nat) : Int) - 1 = (r : Int) - 2 := by simp only [chromaStart, if_true]; omega
          simp [h1, r2, this]
    · have hr' := hr (by by_contra hn; exact h1 (e3.2 hn))
      have : chromaStart ssy r = r := by cases ssy <;> simp only [chromaStart, if_true] <;> first | rfl | omega
      simp [h1, this]
  · dsimp only
    rw [and_one_eq, and_one_eq]
    by_cases h1 : w = 1
    · cases ssx
      · simp [h1, chromaStart]
      · by_cases r2 : c % 2 = 0
        · simp [h1, r2]
        · have : ((chromaStart true c : Nat) : Int) - 1 = (c : Int) - 2 := by simp only [chromaStart, if_true]; omega
          simp [h1, r2, this]
    · have hr' := hc (by by_contra hn; exact h1 (e4.2 hn))
      have : chromaStart ssx c = c := by cases ssx <;> simp only [chromaStart, if_true] <;> first | rfl | omega
      simp [h1, this]

/-- A 4×4 block at an odd position of a 4:2:0 frame: it has chroma, the luma above is in the tile, the chroma above is not. -/
example : blockHead ⟨0, 16, 0, 16⟩ 3 true true 1 1 K.BLOCK_4X4 = some ⟨true, true, true, false, false⟩ := by decide

/-- **C103**: of the blocks of an 8×8 square in a frame with both directions halved exactly the one that holds the last luma
unit codes chroma. -/
theorem C103_once (a : TileArea) (planes : Nat) (r c bs y x : Nat) (d : Nat × Nat) (h : BlockHead) (hp : 1 < planes)
    (hd : blockDims[bs]? = some d) (hh : blockHead a planes true true (2 * y + r) (2 * x + c) bs = some h)
    (h1 : r + d.2 / 4 ≤ 2) (h2 : c + d.1 / 4 ≤ 2) :
    h.hasChroma = true ↔ (r ≤ 1 ∧ 1 < r + d.2 / 4) ∧ c ≤ 1 ∧ 1 < c + d.1 / 4 := by
  obtain ⟨h', e, hc⟩ := C103_chroma a planes true true (2 * y + r) (2 * x + c) bs d hd
  rw [hh] at e
  cases e
  rw [hc]
  unfold CodesChroma
  constructor
  · rintro ⟨-, hy, hx⟩
    obtain ⟨y', a1, a2, a3⟩ := hy rfl
    obtain ⟨x', b1, b2, b3⟩ := hx rfl
    omega
  · rintro ⟨⟨a1, a2⟩, b1, b2⟩
    exact ⟨hp, fun _ => ⟨2 * y + 1, by omega, by omega, by omega⟩, fun _ => ⟨2 * x + 1, by omega, by omega, by omega⟩⟩

end Av1
