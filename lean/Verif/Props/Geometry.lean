import Verif.Model.Partition
import Mathlib.Tactic.IntervalCases

/-! # C45, C46, C55, C56, C57: block and transform geometry -/

namespace Av1

/-! ## C45 -/

/-- Specification: the dimensions in the names `BLOCK_WxH`, in the order of the enumeration. -/
def blockDims : List (Nat × Nat) :=
  [(4, 4), (4, 8), (8, 4), (8, 8), (8, 16), (16, 8), (16, 16), (16, 32), (32, 16), (32, 32), (32, 64), (64, 32),
   (64, 64), (64, 128), (128, 64), (128, 128), (4, 16), (16, 4), (8, 32), (32, 8), (16, 64), (64, 16)]

/-- Specification: the part a partition type cuts from a `w`×`h` square (the odd one out of the `_A`/`_B` types). -/
def partDims (p w h : Nat) : Nat × Nat :=
  match p with
  | 0 => (w, h)
  | 1 | 4 | 5 => (w, h / 2)
  | 2 | 6 | 7 => (w / 2, h)
  | 3 => (w / 2, h / 2)
  | 8 => (w, h / 4)
  | _ => (w / 4, h)

/-- Specification: which partition types a block size has (AV1 6.10.4): only squares are partitioned, 4×4 only as a
whole, and the four-way strips need 16, 32 or 64. -/
def hasPartition (p w h : Nat) : Bool := w == h && (p == 0 || decide (8 ≤ w)) && (p < 8 || (16 ≤ w && w ≤ 64))

/-- Tables agree with the name of the block size `bs` of dimensions `d`. -/
def SizeRowOk (bs : Nat) (d : Nat × Nat) : Prop :=
  K.block_width[bs]? = some d.1 ∧ K.block_height[bs]? = some d.2

def Log2RowOk (unit bs : Nat) (d : Nat × Nat) : Prop :=
  (K.mi_width_log2[bs]?.map fun k => unit * 2 ^ k) = some d.1 ∧ (K.mi_height_log2[bs]?.map fun k => unit * 2 ^ k) = some d.2

def WideRowOk (bs : Nat) (d : Nat × Nat) : Prop := (K.num_4x4_blocks_wide[bs]?.map (4 * ·)) = some d.1

def HighRowOk (bs : Nat) (d : Nat × Nat) : Prop := (K.num_4x4_blocks_high[bs]?.map (4 * ·)) = some d.2

def SubRowOk (bs : Nat) (d : Nat × Nat) : Prop :=
  ∀ p < 10, if hasPartition p d.1 d.2 then (subSize p bs).bind (blockDims[·]?) = some (partDims p d.1 d.2)
    else subSize p bs = some K.BLOCK_INVALID

instance (bs d) : Decidable (SizeRowOk bs d) := by unfold SizeRowOk; infer_instance
instance (u bs d) : Decidable (Log2RowOk u bs d) := by unfold Log2RowOk; infer_instance
instance (bs d) : Decidable (WideRowOk bs d) := by unfold WideRowOk; infer_instance
instance (bs d) : Decidable (HighRowOk bs d) := by unfold HighRowOk; infer_instance
instance (bs d) : Decidable (SubRowOk bs d) := by unfold SubRowOk; infer_instance

/-- **C45**, full claim: for every block size, the width, height, 4×4 counts, their logarithms (`mi_*_log2`, in 4×4
units as AV1 defines `Mi_Width_Log2`) and all partition sub-sizes are what the names say. -/
def C45_full : Prop := ∀ bs d, blockDims[bs]? = some d →
  SizeRowOk bs d ∧ Log2RowOk 4 bs d ∧ WideRowOk bs d ∧ HighRowOk bs d ∧ SubRowOk bs d

theorem forall_rows {P : Nat → Nat × Nat → Prop} (h : ∀ bs : Fin 22, P bs (blockDims[(bs : Nat)]'(bs.2))) :
    ∀ bs d, blockDims[bs]? = some d → P bs d := by
  intro bs d hd
  obtain ⟨hl, rfl⟩ := List.getElem?_eq_some_iff.1 hd
  exact h ⟨bs, hl⟩

/-- **C45** is false in two ways: three rows of `num_4x4_blocks_wide` are 3 instead of 4 (all and only the sizes
16×8, 16×16, 16×32), and both `mi_*_log2` tables count pixels, not 4×4 units, in every row. -/
theorem C45_negation : ¬ C45_full ∧
    (∀ bs d, blockDims[bs]? = some d → (¬ WideRowOk bs d ↔ bs = K.BLOCK_16X8 ∨ bs = K.BLOCK_16X16 ∨ bs = K.BLOCK_16X32)) ∧
    (∀ bs d, blockDims[bs]? = some d → ¬ Log2RowOk 4 bs d) := by
  refine ⟨?_, forall_rows (by decide +kernel), forall_rows (by decide +kernel)⟩
  intro h
  exact absurd (h 0 (4, 4) rfl).2.1 (by decide +kernel)

/-- **C45**, what holds: sizes, heights in 4×4 units and partition sub-sizes in every row; widths in 4×4 units in every
row but those three; logarithms as logarithms of pixel sizes.  Missing: see `C45_negation`. -/
theorem C45_tables_partial : ∀ bs d, blockDims[bs]? = some d →
    SizeRowOk bs d ∧ Log2RowOk 1 bs d ∧ HighRowOk bs d ∧ SubRowOk bs d ∧
    (bs ≠ K.BLOCK_16X8 → bs ≠ K.BLOCK_16X16 → bs ≠ K.BLOCK_16X32 → WideRowOk bs d) :=
  forall_rows (by decide +kernel)

example : blockDims[12]? = some (64, 64) ∧ subSize K.PARTITION_VERT_4 12 = some K.BLOCK_16X64 := by decide

/-! ## C46 -/

theorem getMi_newMis {α} (w h row col : Nat) : (getMi (newMis α w h) row col).isSome ↔ row < h / 4 ∧ col < w / 4 := by
  unfold getMi newMis
  rw [List.getElem?_replicate]
  by_cases hr : row < h / 4
  · simp [hr, List.getElem?_replicate]
  · simp [hr]

/-- **C46**, full claim: no lookup at, above or left of a position inside the frame leaves the map. -/
def C46_full : Prop := ∀ (α : Type) (w h row col : Nat), row < miDim h → col < miDim w →
  (getMi (newMis α w h) row col).isSome ∧ (getAboveMi (newMis α w h) row col).isSome ∧
  (getLeftMi (newMis α w h) row col).isSome

/-- **C46**, exact: a frame of positive size has all lookups inside the map iff both dimensions are multiples of 8. -/
theorem C46_lookup_iff (α : Type) (w h : Nat) (hw : 0 < w) (hh : 0 < h) :
    (∀ row col, row < miDim h → col < miDim w →
      (getMi (newMis α w h) row col).isSome ∧ (getAboveMi (newMis α w h) row col).isSome ∧
      (getLeftMi (newMis α w h) row col).isSome) ↔ 8 ∣ w ∧ 8 ∣ h := by
  have e : ∀ n, miDim n = 2 * ((n + 7) / 8) := fun n => by unfold miDim; rw [Nat.shiftRight_eq_div_pow]
  simp only [e]
  constructor
  · intro H
    have := (H (2 * ((h + 7) / 8) - 1) (2 * ((w + 7) / 8) - 1) (by omega) (by omega)).1
    rw [getMi_newMis] at this
    omega
  · rintro ⟨h1, h2⟩ row col hr hc
    refine ⟨(getMi_newMis ..).2 (by omega), ?_, ?_⟩
    · unfold getAboveMi; split
      · rfl
      · exact (getMi_newMis ..).2 (by omega)
    · unfold getLeftMi; split
      · rfl
      · exact (getMi_newMis ..).2 (by omega)

/-- **C46** is false: in a frame of 180×100 the last row of 4×4 units is outside the map. -/
theorem C46_negation : ¬ C46_full := by
  intro H
  have := (C46_lookup_iff Unit 180 100 (by decide) (by decide)).1 fun row col hr hc => H Unit 180 100 row col hr hc
  omega

/-- **C46**, the part that holds: frames whose dimensions are multiples of 8.  Missing: every other size. -/
theorem C46_lookup_partial (α : Type) (w h : Nat) (hw : 8 ∣ w) (hh : 8 ∣ h) (row col : Nat) (hr : row < miDim h)
    (hc : col < miDim w) : (getMi (newMis α w h) row col).isSome ∧ (getAboveMi (newMis α w h) row col).isSome ∧
      (getLeftMi (newMis α w h) row col).isSome := by
  have e : ∀ n, miDim n = 2 * ((n + 7) / 8) := fun n => by unfold miDim; rw [Nat.shiftRight_eq_div_pow]
  have hr' := hr; have hc' := hc
  rw [e] at hr' hc'
  exact (C46_lookup_iff α w h (by omega) (by omega)).2 ⟨hw, hh⟩ row col hr hc

example : 43 < miDim 176 ∧ 35 < miDim 144 ∧ (8 ∣ 176) ∧ (8 ∣ 144) := by decide

/-- Inside the map the lookups return the block at the position, directly above it and directly left of it, and no block
beyond the top or left border.  The map is given by the function `f` of the position. -/
theorem C46_neighbours (α : Type) (f : Nat → Nat → Option α) (rows cols row col : Nat) (hr : row < rows) (hc : col < cols) :
    let mis := (List.range rows).map fun r => (List.range cols).map fun c => f r c
    getMi mis row col = some (f row col) ∧
    (getAboveMi mis row col = some (match row with | 0 => none | r + 1 => f r col)) ∧
    (getLeftMi mis row col = some (match col with | 0 => none | c + 1 => f row c)) := by
  have g : ∀ r c, r < rows → c < cols →
      getMi ((List.range rows).map fun r => (List.range cols).map fun c => f r c) r c = some (f r c) := by
    intro r c h1 h2
    simp [getMi, h1, h2]
  refine ⟨g _ _ hr hc, ?_, ?_⟩
  · unfold getAboveMi
    cases row with
    | zero => rfl
    | succ r => exact g r col (by omega) hc
  · unfold getLeftMi
    cases col with
    | zero => rfl
    | succ c => exact g row c hr (by omega)

example : let mis := (List.range 2).map fun r => (List.range 2).map fun c => some (10 * r + c)
    getAboveMi mis 1 1 = some (some 1) ∧ getLeftMi mis 1 1 = some (some 10) := by decide

/-! ## C55: the parts of a partition tile the square -/

/-- Specification: number of parts whose rectangle contains the 4×4 unit `(y, x)`. -/
def covers (y x : Nat) : List Part → Nat
  | [] => 0
  | q :: qs =>
    (match blockDims[q.bsize]? with
      | some (w, h) => if q.row ≤ y ∧ y < q.row + h / 4 ∧ q.col ≤ x ∧ x < q.col + w / 4 then 1 else 0
      | none => 0) + covers y x qs

/-- Specification: inside the frame, every 4×4 unit of the square of dimension `n` (in 4×4 units) at `(r, c)` is in
exactly one part, every other unit in none. -/
def Tiles (n r c miRows miCols : Nat) (parts : List Part) : Prop :=
  ∀ y x, y < miRows → x < miCols →
    covers y x parts = if r ≤ y ∧ y < r + n ∧ c ≤ x ∧ x < c + n then 1 else 0

/-- **C55**, full claim: for every square block, every partition type the block has and the search allows, at every
position of every frame, the parts tile the square. -/
def C55_full : Prop := ∀ p bs w r c miRows miCols parts, blockDims[bs]? = some (w, w) → p < 10 →
  hasPartition p w w = true → allowedPart p bs r c miRows miCols = some true →
  partsOf p bs r c miRows miCols = some parts → Tiles (w / 4) r c miRows miCols parts

/-- **C55** fails for the partition types `HORZ_B`, `VERT_B`, `VERT_4` (a part is put in the wrong place) and for every
proper partition of a 16×16 block (the offset of the second half is 1 instead of 2). -/
theorem C55_negation : ¬ C55_full ∧
    (∀ p ∈ [K.PARTITION_HORZ_B, K.PARTITION_VERT_B, K.PARTITION_VERT_4], ∃ parts,
      partsOf p K.BLOCK_32X32 0 0 8 8 = some parts ∧ ¬ Tiles 8 0 0 8 8 parts) ∧
    (∀ p, 0 < p → p < 10 → ∃ parts,
      partsOf p K.BLOCK_16X16 0 0 4 4 = some parts ∧ ¬ Tiles 4 0 0 4 4 parts) := by
  have h32 : ∀ p ∈ [K.PARTITION_HORZ_B, K.PARTITION_VERT_B, K.PARTITION_VERT_4], ∃ parts,
      partsOf p K.BLOCK_32X32 0 0 8 8 = some parts ∧ ¬ Tiles 8 0 0 8 8 parts := by
    intro p hp
    simp only [List.mem_cons, List.not_mem_nil, or_false] at hp
    rcases hp with rfl | rfl | rfl
    · exact ⟨_, rfl, fun h => absurd (h 7 7 (by decide) (by decide)) (by decide +kernel)⟩
    · exact ⟨_, rfl, fun h => absurd (h 7 7 (by decide) (by decide)) (by decide +kernel)⟩
    · exact ⟨_, rfl, fun h => absurd (h 0 7 (by decide) (by decide)) (by decide +kernel)⟩
  refine ⟨?_, h32, ?_⟩
  · intro H
    obtain ⟨parts, h1, h2⟩ := h32 K.PARTITION_HORZ_B (by decide)
    exact h2 (H K.PARTITION_HORZ_B K.BLOCK_32X32 32 0 0 8 8 parts (by decide) (by decide) (by decide) (by decide) h1)
  · intro p h0 h1
    interval_cases p
    · exact ⟨_, rfl, fun h => absurd (h 3 0 (by decide) (by decide)) (by decide +kernel)⟩
    · exact ⟨_, rfl, fun h => absurd (h 0 3 (by decide) (by decide)) (by decide +kernel)⟩
    · exact ⟨_, rfl, fun h => absurd (h 3 0 (by decide) (by decide)) (by decide +kernel)⟩
    · exact ⟨_, rfl, fun h => absurd (h 3 0 (by decide) (by decide)) (by decide +kernel)⟩
    · exact ⟨_, rfl, fun h => absurd (h 3 0 (by decide) (by decide)) (by decide +kernel)⟩
    · exact ⟨_, rfl, fun h => absurd (h 0 3 (by decide) (by decide)) (by decide +kernel)⟩
    · exact ⟨_, rfl, fun h => absurd (h 0 3 (by decide) (by decide)) (by decide +kernel)⟩
    · exact ⟨_, rfl, fun h => absurd (h 1 0 (by decide) (by decide)) (by decide +kernel)⟩
    · exact ⟨_, rfl, fun h => absurd (h 0 1 (by decide) (by decide)) (by decide +kernel)⟩

/-- Partition types whose parts are placed as they should be. -/
def goodPart (p : Nat) : Bool := p != K.PARTITION_HORZ_B && p != K.PARTITION_VERT_B && p != K.PARTITION_VERT_4

theorem covers_cons (y x w h : Nat) (q : Part) (qs : List Part) (hd : blockDims[q.bsize]? = some (w, h)) :
    covers y x (q :: qs) =
      (if q.row ≤ y ∧ y < q.row + h / 4 ∧ q.col ≤ x ∧ x < q.col + w / 4 then 1 else 0) + covers y x qs := by
  rw [covers, hd]

/-- Geometry of one square, with `half` and the two sizes given as numbers. -/
theorem tiles_of (p r c miRows miCols half sub split w : Nat) (parts : List Part) (bs : Nat) (hw : 2 * half = w / 4)
    (hbs : blockDims[bs]? = some (w, w)) (hp : p < 10) (hg : goodPart p = true)
    (hsub : blockDims[sub]? = some (partDims p w w)) (hsplit : blockDims[split]? = some (w / 2, w / 2))
    (h4 : p = 8 → 4 * (half / 2) = w / 4) (hw8 : 8 ∣ w)
    (h16 : p = 8 → 16 ∣ w)
    (hallow : p ≠ 3 → ((r + half < miRows) ∧ (c + half < miCols)) ∨ (p = 1 ∧ c + half < miCols) ∨
      (p = 2 ∧ r + half < miRows))
    (hparts : parts =
      if p = 0 then [⟨r, c, bs, false⟩]
      else if p = 1 then [⟨r, c, sub, false⟩] ++ if r + half < miRows then [⟨r + half, c, sub, false⟩] else []
      else if p = 2 then [⟨r, c, sub, false⟩] ++ if c + half < miCols then [⟨r, c + half, sub, false⟩] else []
      else if p = 3 then
        [⟨r, c, sub, true⟩, ⟨r, c + half, sub, true⟩, ⟨r + half, c, sub, true⟩, ⟨r + half, c + half, sub, true⟩]
      else if p = 4 then [⟨r, c, split, false⟩, ⟨r, c + half, split, false⟩, ⟨r + half, c, sub, false⟩]
      else if p = 6 then [⟨r, c, split, false⟩, ⟨r + half, c, split, false⟩, ⟨r, c + half, sub, false⟩]
      else [⟨r + half / 2 * 0, c, sub, false⟩, ⟨r + half / 2 * 1, c, sub, false⟩, ⟨r + half / 2 * 2, c, sub, false⟩] ++
        if r + half / 2 * 3 < miRows then [⟨r + half / 2 * 3, c, sub, false⟩] else []) :
    Tiles (w / 4) r c miRows miCols parts := by
  intro y x hy hx
  have hnil : covers y x [] = 0 := rfl
  have hp' : p = 0 ∨ p = 1 ∨ p = 2 ∨ p = 3 ∨ p = 4 ∨ p = 6 ∨ p = 8 := by
    revert hp hg; clear * -
    intro hp hg
    interval_cases p <;> first | omega | (exact absurd hg (by decide))
  rcases hp' with rfl | rfl | rfl | rfl | rfl | rfl | rfl
  · rw [hparts, if_pos rfl, covers_cons y x w w _ _ hbs, hnil]; rfl
  all_goals
    simp only [partDims] at hsub
    simp only [Nat.reduceEqDiff, if_false, if_true, reduceCtorEq, OfNat.ofNat_ne_zero, OfNat.ofNat_ne_one,
      one_ne_zero] at hparts
    rw [hparts]
  · split
    · rw [List.singleton_append, covers_cons y x _ _ _ _ hsub, covers_cons y x _ _ _ _ hsub, hnil]
      simp only
      split_ifs <;> omega
    · rw [List.append_nil, covers_cons y x _ _ _ _ hsub, hnil]
      simp only
      split_ifs <;> omega
  · split
    · rw [List.singleton_append, covers_cons y x _ _ _ _ hsub, covers_cons y x _ _ _ _ hsub, hnil]
      simp only
      split_ifs <;> omega
    · rw [List.append_nil, covers_cons y x _ _ _ _ hsub, hnil]
      simp only
      split_ifs <;> omega
  · rw [covers_cons y x _ _ _ _ hsub, covers_cons y x _ _ _ _ hsub, covers_cons y x _ _ _ _ hsub,
      covers_cons y x _ _ _ _ hsub, hnil]
    simp only
    split_ifs <;> omega
  · rw [covers_cons y x _ _ _ _ hsplit, covers_cons y x _ _ _ _ hsplit, covers_cons y x _ _ _ _ hsub, hnil]
    simp only
    split_ifs <;> omega
  · rw [covers_cons y x _ _ _ _ hsplit, covers_cons y x _ _ _ _ hsplit, covers_cons y x _ _ _ _ hsub, hnil]
    simp only
    split_ifs <;> omega
  · have h4' := h4 rfl
    have h16' := h16 rfl
    split
    · rw [List.cons_append, List.cons_append, List.cons_append, List.nil_append, covers_cons y x _ _ _ _ hsub,
        covers_cons y x _ _ _ _ hsub, covers_cons y x _ _ _ _ hsub, covers_cons y x _ _ _ _ hsub, hnil]
      simp only
      split_ifs <;> omega
    · rw [List.append_nil, covers_cons y x _ _ _ _ hsub, covers_cons y x _ _ _ _ hsub, covers_cons y x _ _ _ _ hsub, hnil]
      simp only
      split_ifs <;> omega

/-- **C55**, the part that holds: every partition type other than the three misplaced ones, on every square block other
than 16×16 (which only works unpartitioned), at every position of every frame, including blocks that stick out of the
frame.  Missing: see `C55_negation`. -/
theorem C55_tiling_partial (p bs w r c miRows miCols : Nat) (parts : List Part) (hbs : blockDims[bs]? = some (w, w))
    (hp : p < 10) (hhas : hasPartition p w w = true) (hg : goodPart p = true) (h16 : bs = K.BLOCK_16X16 → p = 0)
    (hallow : allowedPart p bs r c miRows miCols = some true) (hparts : partsOf p bs r c miRows miCols = some parts) :
    Tiles (w / 4) r c miRows miCols parts := by
  have hrow := C45_tables_partial bs _ hbs
  by_cases h0 : p = 0
  · subst h0
    have : parts = [⟨r, c, bs, false⟩] := by
      unfold partsOf at hparts
      simp only [Option.bind_eq_bind, Option.bind_eq_some_iff] at hparts
      obtain ⟨_, _, _, _, _, _, h⟩ := hparts
      rw [if_pos (show 0 = K.PARTITION_NONE from rfl)] at h
      injection h with h; exact h.symm
    rw [this]
    intro y x _ _
    rw [covers_cons y x w w _ _ hbs]; rfl
  have hne : bs ≠ 6 := fun h => h0 (h16 h)
  have hsq : bs = 3 ∨ bs = 9 ∨ bs = 12 ∨ bs = 15 := by
    have key : ∀ bs d, blockDims[bs]? = some d → bs ≠ 6 → d.1 = d.2 → 8 ≤ d.1 → bs = 3 ∨ bs = 9 ∨ bs = 12 ∨ bs = 15 :=
      forall_rows (by decide +kernel)
    refine key bs _ hbs hne rfl ?_
    simp [hasPartition, h0] at hhas
    exact hhas.1
  have hw4 : w = 4 * (w / 4) ∧ 2 * (w / 4 / 2) = w / 4 := by
    rcases hsq with rfl | rfl | rfl | rfl <;> · injection hbs with h; injection h with h; subst h; decide
  have hhalf : halfBlock bs = some (w / 4 / 2) := by
    rcases hsq with rfl | rfl | rfl | rfl <;> · injection hbs with h; injection h with h; subst h; rfl
  have hsplit : ∃ split, subSize 3 bs = some split ∧ blockDims[split]? = some (w / 2, w / 2) := by
    rcases hsq with rfl | rfl | rfl | rfl <;> · injection hbs with h; injection h with h; subst h; exact ⟨_, rfl, rfl⟩
  obtain ⟨split, hs1, hs2⟩ := hsplit
  have hsub := hrow.2.2.2.1 p hp
  rw [if_pos hhas, Option.bind_eq_some_iff] at hsub
  obtain ⟨sub, hs3, hs4⟩ := hsub
  have hge : bs ≥ 3 := by omega
  refine tiles_of p r c miRows miCols (w / 4 / 2) sub split w parts bs hw4.2 hbs hp hg hs4 hs2 ?_ ?_ ?_ ?_ ?_
  · rintro rfl
    simp [hasPartition] at hhas
    rcases hsq with rfl | rfl | rfl | rfl <;> · injection hbs with h; injection h with h; subst h; first | decide | omega
  · rcases hsq with rfl | rfl | rfl | rfl <;> · injection hbs with h; injection h with h; subst h; decide
  · rintro rfl
    simp [hasPartition] at hhas
    rcases hsq with rfl | rfl | rfl | rfl <;> · injection hbs with h; injection h with h; subst h; first | decide | omega
  · intro h3
    unfold allowedPart at hallow
    rw [hhalf] at hallow
    simp only [Option.bind_eq_bind, Option.bind_some] at hallow
    rw [if_neg (show ¬ bs < K.BLOCK_8X8 from Nat.not_lt.2 hge)] at hallow
    by_cases a : r + w / 4 / 2 < miRows <;> by_cases b : c + w / 4 / 2 < miCols
    · exact Or.inl ⟨a, b⟩
    · simp [a, b, K.PARTITION_SPLIT, K.PARTITION_VERT, h3] at hallow
      exact Or.inr (Or.inr ⟨hallow, a⟩)
    · simp [a, b, K.PARTITION_SPLIT, K.PARTITION_HORZ, h3] at hallow
      exact Or.inr (Or.inl ⟨hallow, b⟩)
    · simp [a, b, K.PARTITION_SPLIT, h3] at hallow
  · unfold partsOf at hparts
    simp only [hhalf, hs3, K.PARTITION_SPLIT, hs1, Option.bind_eq_bind, Option.bind_some, K.PARTITION_NONE,
      K.PARTITION_HORZ, K.PARTITION_VERT, K.PARTITION_HORZ_A, K.PARTITION_HORZ_B, K.PARTITION_VERT_A, K.PARTITION_VERT_B,
      K.PARTITION_HORZ_4, K.PARTITION_VERT_4, Nat.shiftRight_eq_div_pow, decide_eq_true_eq] at hparts
    revert hg hparts
    clear * - hp
    intro hg hparts
    interval_cases p <;> first
      | exact absurd hg (by decide)
      | (simp only [Nat.reduceEqDiff, if_false, if_true, OfNat.ofNat_ne_zero, OfNat.ofNat_ne_one, one_ne_zero,
          reduceCtorEq] at hparts ⊢
         injection hparts with h
         exact h.symm)

example : ∃ parts, partsOf K.PARTITION_HORZ_A K.BLOCK_64X64 16 32 40 50 = some parts ∧ parts.length = 3 ∧
    allowedPart K.PARTITION_HORZ_A K.BLOCK_64X64 16 32 40 50 = some true ∧ hasPartition 4 64 64 = true ∧
    goodPart K.PARTITION_HORZ_A = true := ⟨_, rfl, by decide⟩

/-! ## C56: transform size tables -/

/-- Specification: the dimensions in the names `TX_WxH`, in the order of the enumeration. -/
def txDims : List (Nat × Nat) :=
  [(4, 4), (8, 8), (16, 16), (32, 32), (64, 64), (4, 8), (8, 4), (8, 16), (16, 8), (16, 32), (32, 16), (32, 64),
   (64, 32), (4, 16), (16, 4), (8, 32), (32, 8), (16, 64), (64, 16)]

theorem forall_tx {P : Nat → Nat × Nat → Prop} (h : ∀ t : Fin 19, P t (txDims[(t : Nat)]'(t.2))) :
    ∀ t d, txDims[t]? = some d → P t d := by
  intro bs d hd
  obtain ⟨hl, rfl⟩ := List.getElem?_eq_some_iff.1 hd
  exact h ⟨bs, hl⟩

/-- **C56**. For every transform size the width, height, logarithm, enclosed and enclosing square and clamped-to-32
tables are what its name says, and searching by dimensions finds it. -/
theorem C56_tx_tables : ∀ t d, txDims[t]? = some d →
    K.tx_width[t]? = some d.1 ∧ K.tx_height[t]? = some d.2 ∧
    K.tx_width_log2[t]?.map (2 ^ ·) = some d.1 ∧ K.tx_height_log2[t]?.map (2 ^ ·) = some d.2 ∧
    (K.tx_size_sqr[t]?.bind (txDims[·]?)) = some (min d.1 d.2, min d.1 d.2) ∧
    (K.tx_size_sqr_up[t]?.bind (txDims[·]?)) = some (max d.1 d.2, max d.1 d.2) ∧
    (K.adjusted_tx_size[t]?.bind (txDims[·]?)) = some (min 32 d.1, min 32 d.2) ∧
    findTxSize d.1 d.2 = t :=
  forall_tx (by decide +kernel)

theorem findTxSizeFrom_spec (w h : Nat) : ∀ (ws hs : List Nat) (i : Nat), findTxSizeFrom w h i ws hs = K.TX_INVALID ∨
    ∃ j, findTxSizeFrom w h i ws hs = i + j ∧ ws[j]? = some w ∧ hs[j]? = some h
  | [], _, _ => Or.inl (by simp [findTxSizeFrom])
  | _ :: _, [], _ => Or.inl (by simp [findTxSizeFrom])
  | a :: ws, b :: hs, i => by
    rw [findTxSizeFrom]
    split
    · rename_i hab
      exact Or.inr ⟨0, rfl, by simp [hab.1], by simp [hab.2]⟩
    · rcases findTxSizeFrom_spec w h ws hs (i + 1) with e | ⟨j, e, e1, e2⟩
      · exact Or.inl e
      · exact Or.inr ⟨j + 1, by rw [e]; omega, by simpa using e1, by simpa using e2⟩

/-- **C56**, the converse: dimensions that belong to no transform size give `TX_INVALID`; dimensions are found only
under their own index. -/
theorem C56_find_only (w h : Nat) : findTxSize w h = K.TX_INVALID ∨ txDims[findTxSize w h]? = some (w, h) := by
  unfold findTxSize
  rcases findTxSizeFrom_spec w h K.tx_width K.tx_height 0 with e | ⟨j, e, e1, e2⟩
  · exact Or.inl e
  · right
    rw [e, Nat.zero_add]
    have hj : j < 19 := by
      obtain ⟨h, _⟩ := List.getElem?_eq_some_iff.1 e1
      exact h
    have := C56_tx_tables j _ (List.getElem?_eq_getElem (l := txDims) hj)
    rw [List.getElem?_eq_getElem (l := txDims) hj]
    rw [this.1] at e1
    rw [this.2.1] at e2
    injection e1 with e1; injection e2 with e2
    rw [← e1, ← e2]

example : findTxSize 16 64 = 17 ∧ findTxSize 4 64 = K.TX_INVALID := by decide

/-! ## C57: chroma block size -/

/-- **C57**. For every block size and subsampling: luma keeps the size; a chroma block has the subsampled dimensions,
at least 4, or is `BLOCK_INVALID`, exactly when one-directional subsampling would make a block four times as long
as wide or worse; with equal subsampling in both directions it is always valid. -/
theorem C57_residual_size : ∀ bs d, blockDims[bs]? = some d → ∀ ssx ssy : Bool,
    getPlaneResidualSize bs 0 ssx ssy = some bs ∧
    ∀ plane, 0 < plane → getPlaneResidualSize bs plane ssx ssy = getPlaneResidualSize bs 1 ssx ssy ∧
      if (ssx && !ssy && decide (d.1 < d.2)) || (!ssx && ssy && decide (d.2 < d.1))
      then getPlaneResidualSize bs plane ssx ssy = some K.BLOCK_INVALID
      else ((getPlaneResidualSize bs plane ssx ssy).bind (blockDims[·]?)) =
        some (max 4 (d.1 / 2 ^ ssx.toNat), max 4 (d.2 / 2 ^ ssy.toNat)) := by
  intro bs d hd ssx ssy
  have e : ∀ plane, 0 < plane → getPlaneResidualSize bs plane ssx ssy = getPlaneResidualSize bs 1 ssx ssy := by
    intro plane hp
    simp [getPlaneResidualSize, hp]
  have key : ∀ bs d, blockDims[bs]? = some d → ∀ ssx ssy : Bool,
      getPlaneResidualSize bs 0 ssx ssy = some bs ∧
      if (ssx && !ssy && decide (d.1 < d.2)) || (!ssx && ssy && decide (d.2 < d.1))
      then getPlaneResidualSize bs 1 ssx ssy = some K.BLOCK_INVALID
      else ((getPlaneResidualSize bs 1 ssx ssy).bind (blockDims[·]?)) =
        some (max 4 (d.1 / 2 ^ ssx.toNat), max 4 (d.2 / 2 ^ ssy.toNat)) := forall_rows (by decide +kernel)
  refine ⟨(key bs d hd ssx ssy).1, fun plane hp => ⟨e plane hp, ?_⟩⟩
  rw [e plane hp]
  exact (key bs d hd ssx ssy).2

example : getPlaneResidualSize K.BLOCK_16X8 1 true true = some K.BLOCK_8X4 ∧
    getPlaneResidualSize K.BLOCK_8X16 2 true false = some K.BLOCK_INVALID := by decide

end Av1
