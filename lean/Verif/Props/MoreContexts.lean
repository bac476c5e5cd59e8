import Verif.Props.Contexts

/-!
# C106 — the contexts of modes, segments, palettes and transform blocks

The same claim as C63 for the remaining elements whose context is computed by the coder.
-/

namespace Av1

/-! ## C106 -/

namespace Ref

/-- The group of a prediction mode: DC-like, vertical, horizontal, up-right diagonals, down-right diagonals. -/
def modeGroup (m : Nat) : Option Nat :=
  if m ∈ [0, 9, 12] then some 0          -- DC, SMOOTH, PAETH
  else if m ∈ [1, 10] then some 1        -- V, SMOOTH_V
  else if m ∈ [2, 11] then some 2        -- H, SMOOTH_H
  else if m ∈ [3, 8] then some 3         -- D45, D67
  else if m ∈ [4, 5, 6, 7] then some 4   -- D135, D113, D157, D203
  else none

/-- The size group: 4, 8, 16 or at least 32 pixels on the shorter side. -/
def sizeGroup (bs : Nat) : Option Nat :=
  (blockDims[bs]?).map fun d => if min d.1 d.2 = 4 then 0 else if min d.1 d.2 = 8 then 1 else if min d.1 d.2 = 16 then 2 else 3

/-- `comp_mode`: two single neighbours disagree about the direction, one single neighbour (and its direction), none. -/
def compMode (nb : Nbrs) : Nat :=
  let one := (blocks nb).filter (·.single)
  match (blocks nb).length, one with
  | 2, [a, b] => if backward a.ref0 = backward b.ref0 then 0 else 1
  | 2, [a] => if backward a.ref0 ∨ a.intra then 3 else 2
  | 2, _ => 4
  | 1, [a] => if backward a.ref0 then 1 else 0
  | 1, _ => 3
  | _, _ => 1

/-- `segment_id`: the number of coincidences among three known neighbours. -/
def segmentId (pu pl pul : Int) : Nat :=
  if 0 ≤ pul ∧ 0 ≤ pu ∧ 0 ≤ pl then 3 - [pul, pu, pl].dedup.length else 0

/-- What a neighbour adds to `comp_group_idx` (`bonus` 3) and `compound_idx` (`bonus` 1). -/
def compNbr (own : ModeInfo → Nat) (bonus : Nat) (m : ModeInfo) : Nat :=
  if m.single then (if m.ref0 = 7 then bonus else 0) else own m

/-- Distance in display order on a circle of `2^bits` positions, as a number from `-2^(bits-1)` on. -/
def dist (a b bits : Nat) : Int := Int.bmod ((a : Int) - b) (2 ^ bits)

/-- Whether two references are equally far away (0 without order hints). -/
def equallyFar (hints : List Nat) (hint : Nat) (r0 r1 : Int) (enable : Bool) (bits : Nat) : Option Bool := do
  let h0 ← hints[r0.toNat]?
  let h1 ← hints[r1.toNat]?
  some (!enable || decide ((dist h0 hint bits).natAbs = (dist h1 hint bits).natAbs))

/-- Width of the transform (or of a skipped inter block) above, 64 at the tile edge; heights on the left likewise. -/
def txSide (f : Nat × Nat → Nat) : Option ModeInfo → Option Nat
  | none => some 64
  | some m => (if m.skip && m.isInter then blockDims[m.miSize]? else txDims[m.txSize]?).map f

/-- `txfm_split` at the top left transform block of a block. -/
def txfmSplit (nb : Nbrs) (txSize bs : Nat) : Option Nat := do
  let (w, h) ← txDims[txSize]?
  let (bw, bh) ← blockDims[bs]?
  let a ← txSide Prod.fst nb.above
  let l ← txSide Prod.snd nb.left
  let size := min 64 (max bw bh)
  some ((if max w h = size then 0 else 3) + (if size = 64 then 0 else if size = 32 then 6 else if size = 16 then 12 else 18) +
    (if a < w then 1 else 0) + (if l < h then 1 else 0))

/-- 4, 8 or 16 pixels on the shorter side of a transform. -/
def sqrGroup (tx : Nat) : Option Nat :=
  (txDims[tx]?).bind fun d => if min d.1 d.2 = 4 then some 0 else if min d.1 d.2 = 8 then some 1
    else if min d.1 d.2 = 16 then some 2 else none

/-- The prediction direction: that of the recursive filter (DC, V, H, D157, DC) or of the mode. -/
def intraDir (useFilter : Bool) (fm y : Nat) : Option Nat := if useFilter then [0, 1, 2, 6, 0][fm]? else some y

/-- The table indices of the AV1 specification for the second group of elements. -/
def idx2 (nb : Nbrs) : Elem → Option (List Nat)
  | .intraFrameYMode _ a l => do
    let x ← modeGroup a
    let y ← modeGroup l
    some [x, y]
  | .yMode _ bs => (sizeGroup bs).map fun g => [g]
  | .angleDelta mode _ => if 1 ≤ mode ∧ mode ≤ 8 then some [mode - 1] else none
  | .partition _ above left _ => some [(if left then 2 else 0) + if above then 1 else 0]
  | .segmentId _ pu pl pul => some [segmentId pu pl pul]
  | .compMode _ => some [compMode nb]
  | .compGroupIdx _ => some [min 5 ((blocks nb).map (compNbr (·.compGroupIdx) 3)).sum]
  | .compoundIdx _ hints hint r0 r1 enable bits =>
    (equallyFar hints hint r0 r1 enable bits).map fun e =>
      [(if e then 3 else 0) + ((blocks nb).map (compNbr (·.compoundIdx) 1)).sum]
  | .hasPaletteY _ c => some [c, (blocks nb).countP fun m => decide (0 < m.palette[0]?.getD 0)]
  | .hasPaletteUv _ n => some [if n = 0 then 0 else 1]
  | .interintra _ bs | .interintraMode _ bs => (sizeGroup bs).bind fun g => if g = 0 then none else some [g - 1]
  | .txfmSplit true true tx bs _ => (txfmSplit nb tx bs).map fun k => [k]
  | .intraTxType _ _ tx useFilter fm y => do
    let g ← sqrGroup tx
    let dir ← intraDir useFilter fm y
    some [g, dir]
  | _ => none

end Ref

def C106_full : Prop := ∀ (e : Elem) (nb : Nbrs) (i : List Nat), nb.Valid → e.Legal nb → Ref.idx2 nb e = some i →
  ∃ s, e.select nb = some s ∧ s.idx = i

/-- The elements with the right context. -/
def Elem.ContextOk2 : Elem → Bool
  | .interintra .. | .interintraMode .. | .txfmSplit .. => false
  | .compoundIdx _ _ _ r0 r1 _ _ => decide (r0 ≠ 7 ∧ r1 ≠ 7)
  | _ => true

theorem backward_eq (r : Int) : checkBackward r = Ref.backward r := by
  unfold checkBackward Ref.backward
  have h5 : K.BWDREF_FRAME = 5 := rfl
  have h7 : K.ALTREF_FRAME = 7 := rfl
  rw [h5, h7]
  apply decide_eq_decide.2
  simp only [List.mem_cons, List.not_mem_nil, or_false]
  omega

/-- `get_relative_dist` is the distance on the circle. -/
theorem relDist_eq (a b bits : Nat) (h1 : 1 ≤ bits) (h8 : bits ≤ 8) :
    getRelativeDist a b true bits = some (Ref.dist a b bits) := by
  unfold getRelativeDist Ref.dist lowBits bitAt
  simp only [Bool.not_true, Bool.false_eq_true, if_false]
  rw [if_neg (by omega)]
  generalize (a : Int) - b = x
  congr 1
  have : bits = 1 ∨ bits = 2 ∨ bits = 3 ∨ bits = 4 ∨ bits = 5 ∨ bits = 6 ∨ bits = 7 ∨ bits = 8 := by omega
  rcases this with rfl | rfl | rfl | rfl | rfl | rfl | rfl | rfl <;> norm_num [Int.bmod] <;> split <;> omega

theorem compMode_eq (nb : Nbrs) (v : Nat) : ∃ s, Sel.compMode nb v = some s ∧ s.idx = [Ref.compMode nb] := by
  refine ⟨_, rfl, ?_⟩
  unfold Ref.compMode Ref.blocks
  simp only [backward_eq]
  rcases nb with ⟨_ | a, _ | l, cur⟩
  · rfl
  · cases hl : l.single <;> simp [hl] <;> cases Ref.backward l.ref0 <;> rfl
  · cases ha : a.single <;> simp [ha] <;> cases Ref.backward a.ref0 <;> rfl
  · cases ha : a.single <;> cases hl : l.single <;> simp [ha, hl] <;> cases Ref.backward l.ref0 <;>
      cases Ref.backward a.ref0 <;> cases a.intra <;> cases l.intra <;> rfl

theorem segmentId_eq (pu pl pul : Int) (v : Nat) : ∃ s, Sel.segmentId v pu pl pul = some s ∧ s.idx = [Ref.segmentId pu pl pul] := by
  refine ⟨_, rfl, ?_⟩
  unfold Ref.segmentId
  by_cases h : 0 ≤ pul ∧ 0 ≤ pu ∧ 0 ≤ pl
  · rw [if_pos h]
    dsimp only
    rw [if_neg (by omega)]
    by_cases h1 : pul = pu <;> by_cases h2 : pul = pl <;> by_cases h3 : pu = pl <;>
      simp_all [List.dedup_cons_of_mem, List.dedup_cons_of_notMem]
  · rw [if_neg h]
    dsimp only
    rw [if_pos (by omega)]

theorem sum_nbrs (nb : Nbrs) (f : ModeInfo → Nat) : orElse nb.above 0 f + orElse nb.left 0 f = ((Ref.blocks nb).map f).sum := by
  unfold Ref.blocks
  cases nb.above <;> cases nb.left <;> simp [orElse]

theorem C106_contexts_partial (e : Elem) (nb : Nbrs) (i : List Nat) (hv : nb.Valid) (hl : e.Legal nb)
    (he : e.ContextOk2 = true) (hi : Ref.idx2 nb e = some i) : ∃ s, e.select nb = some s ∧ s.idx = i := by
  have side : ∀ (own : ModeInfo → Nat) (bonus : Nat) (o : Option ModeInfo),
      (orElse o 0 fun mi => if !mi.single then own mi else if mi.ref0 = K.ALTREF_FRAME then bonus else 0) =
      orElse o 0 (Ref.compNbr own bonus) := by
    intro own bonus o
    cases o with
    | none => rfl
    | some m => unfold Ref.compNbr; cases hm : m.single <;> simp [orElse, hm] <;> rfl
  cases e with
  | intraFrameYMode v a l =>
    obtain ⟨-, ha, hb⟩ := hl
    have key : ∀ a < 13, Ref.modeGroup a = K.intra_mode_context[a]? := by decide
    simp only [Ref.idx2, key a ha, key l hb] at hi
    simp only [Option.bind_eq_bind, Option.bind_eq_some_iff] at hi
    obtain ⟨x, hx, y, hy, h⟩ := hi
    cases h
    exact ⟨_, by simp only [Elem.select, Sel.intraFrameYMode, hx, hy]; rfl, rfl⟩
  | yMode v bs =>
    have key : ∀ bs < 22, Ref.sizeGroup bs = K.size_group[bs]? := by decide
    simp only [Ref.idx2, key bs hl.2, Option.map_eq_some_iff] at hi
    obtain ⟨x, hx, h⟩ := hi
    cases h
    exact ⟨_, by simp only [Elem.select, Sel.yMode, hx]; rfl, rfl⟩
  | angleDelta m d =>
    simp only [Ref.idx2] at hi
    rw [if_pos ⟨hl.1, hl.2.1⟩] at hi
    cases hi
    refine ⟨⟨Default.angle_delta, [m - 1], d⟩, ?_, rfl⟩
    have : usub m K.V_PRED = some (m - 1) := by unfold usub; exact if_pos hl.1
    simp only [Elem.select, Sel.angleDelta, this]; rfl
  | partition bs a l p =>
    cases hi
    rcases hl with ⟨rfl, -⟩ | ⟨rfl | rfl | rfl, -⟩ | ⟨rfl, -⟩ <;> exact ⟨_, rfl, by cases a <;> cases l <;> rfl⟩
  | segmentId v a b c => cases hi; exact segmentId_eq a b c v
  | compMode v => cases hi; exact compMode_eq nb v
  | compGroupIdx v =>
    cases hi
    refine ⟨_, rfl, ?_⟩
    dsimp only
    rw [side, side, sum_nbrs]
  | compoundIdx v hints hint r0 r1 enable bits =>
    obtain ⟨-, hlen, h01, h07, h11, h17, hb1, hb8⟩ := hl
    simp only [Ref.idx2, Ref.equallyFar, Option.map_eq_some_iff, Option.bind_eq_bind, Option.bind_eq_some_iff] at hi
    obtain ⟨e, ⟨x, hx, y, hy, he⟩, h⟩ := hi
    cases h; cases he
    have cast : ∀ r : Int, 1 ≤ r → r ≤ 7 → Sel.asUsize r = r.toNat := by
      intro r h1 h7; unfold Sel.asUsize; rw [Int.emod_eq_of_lt (by omega) (by omega)]
    have hh0 : Sel.hintOf hints r0 = some x := by unfold Sel.hintOf; rw [cast r0 h01 h07]; exact hx
    have hh1 : Sel.hintOf hints r1 = some y := by unfold Sel.hintOf; rw [cast r1 h11 h17]; exact hy
    cases enable with
    | false =>
      refine ⟨_, by simp only [Elem.select, Sel.compoundIdx, hh0, hh1, getRelativeDist]; rfl, ?_⟩
      dsimp only
      rw [side, side, sum_nbrs]; rfl
    | true =>
      refine ⟨_, by simp only [Elem.select, Sel.compoundIdx, hh0, hh1, relDist_eq _ _ _ hb1 hb8]; rfl, ?_⟩
      dsimp only
      rw [side, side, sum_nbrs]
      simp
  | hasPaletteY v c =>
    cases hi
    have pal : ∀ o : Option ModeInfo, (∀ mi, o = some mi → mi.Valid) →
        (orElse o (some 0) fun mi => mi.palette[0]?.map fun s => if s > 0 then 1 else 0) =
        some (o.toList.countP fun m => decide (0 < m.palette[0]?.getD 0)) := by
      intro o ho
      cases o with
      | none => rfl
      | some m =>
        have hp := (ho m rfl).palette
        have : m.palette[0]? = some (m.palette[0]'(by omega)) := List.getElem?_eq_getElem _
        simp only [orElse, this, Option.map_some, Option.toList_some, List.countP_cons, List.countP_nil, Option.getD_some]
        by_cases hz : 0 < m.palette[0]'(by omega) <;> simp [hz]
    refine ⟨_, by simp only [Elem.select, Sel.hasPaletteY, pal _ hv.1, pal _ hv.2.1]; rfl, ?_⟩
    show [c, _ + _] = [c, _]
    unfold Ref.blocks
    rw [List.countP_append]
  | hasPaletteUv v n => cases hi; exact ⟨_, rfl, by cases n <;> simp⟩
  | intraTxType t set tx f m y =>
    obtain ⟨htx, hm, -⟩ := hl
    simp only [Ref.idx2, Option.bind_eq_bind, Option.bind_eq_some_iff] at hi
    obtain ⟨g, hg, dir, hdir, h⟩ := hi
    cases h
    have key : ∀ tx ∈ [0, 1, 2, 5, 6, 7, 8, 13, 14], K.tx_size_sqr[tx]? = Ref.sqrGroup tx := by decide
    have hs : K.tx_size_sqr[tx]? = some g := by rw [key tx htx]; exact hg
    have hf : K.filter_intra_mode_to_intra_dir[m]? = [0, 1, 2, 6, 0][m]? := by
      have : ∀ m < 5, K.filter_intra_mode_to_intra_dir[m]? = [0, 1, 2, 6, 0][m]? := by decide
      exact this m hm
    cases f with
    | false => cases hdir; exact ⟨_, by simp only [Elem.select, Sel.intraTxType, hs]; rfl, rfl⟩
    | true =>
      have hd : [0, 1, 2, 6, 0][m]? = some dir := hdir
      exact ⟨_, by simp only [Elem.select, Sel.intraTxType, hs, hf, hd]; rfl, rfl⟩
  | interintra => cases he
  | interintraMode => cases he
  | txfmSplit => cases he
  | _ => cases hi

/-- Inter-intra flags and modes use the row after the one of AV1 for every block they are allowed for. -/
theorem C106_interintra_never (nb : Nbrs) (v bs : Nat) (i : List Nat) (s : Sel) :
    (Ref.idx2 nb (.interintra v bs) = some i → (Elem.interintra v bs).select nb = some s → s.idx ≠ i) ∧
    (Ref.idx2 nb (.interintraMode v bs) = some i → (Elem.interintraMode v bs).select nb = some s → s.idx ≠ i) := by
  have key : ∀ bs < 22, Ref.sizeGroup bs = K.size_group[bs]? := by decide
  have main : (Ref.sizeGroup bs).bind (fun g => if g = 0 then none else some [g - 1]) = some i → ∀ ctx,
      K.size_group[bs]? = some ctx → [ctx] ≠ i := by
    intro h ctx hc
    have hb : bs < 22 := (List.getElem?_eq_some_iff.1 hc).1
    rw [key bs hb, hc, Option.bind_some] at h
    split at h
    · cases h
    · cases h
      simp only [ne_eq, List.cons.injEq, and_true]
      omega
  constructor <;> intro hi hs
  · simp only [Elem.select, Sel.interintra, Option.bind_eq_bind, Option.bind_eq_some_iff] at hs
    obtain ⟨c, hc, h⟩ := hs
    cases h
    exact main hi c hc
  · simp only [Elem.select, Sel.interintraMode, Option.bind_eq_bind, Option.bind_eq_some_iff] at hs
    obtain ⟨c, hc, h⟩ := hs
    cases h
    exact main hi c hc

/-- The context of a transform split adds the widths themselves instead of the results of comparing them: never right. -/
theorem C106_txfm_never (nb : Nbrs) (tx bs split : Nat) (i : List Nat) (s : Sel)
    (hi : Ref.idx2 nb (.txfmSplit true true tx bs split) = some i)
    (hs : (Elem.txfmSplit true true tx bs split).select nb = some s) : s.idx ≠ i := by
  simp only [Ref.idx2, Ref.txfmSplit, Option.map_eq_some_iff, Option.bind_eq_bind, Option.bind_eq_some_iff] at hi
  obtain ⟨k, ⟨⟨w, h⟩, hw, ⟨bw, bh⟩, hb, a, ha, l, hl, hk⟩, rfl⟩ := hi
  simp only [Elem.select, Sel.txfmSplit, Option.bind_eq_bind, Option.bind_eq_some_iff] at hs
  obtain ⟨ca, hca, cl, hcl, cw, hcw, ch, hch, up, hup, m, hm, h⟩ := hs
  have width : ∀ o x, Sel.txfmSide true nb.above o = some x → 4 ≤ x := by
    intro o x hx
    have b4 : ∀ y ∈ K.block_width, 4 ≤ y := by decide
    have t4 : ∀ y ∈ K.tx_width, 4 ≤ y := by decide
    unfold Sel.txfmSide at hx
    rw [if_pos rfl] at hx
    cases o with
    | none => cases hx; omega
    | some mi =>
      simp only [orElse] at hx
      split at hx
      · exact b4 x (List.mem_of_getElem? hx)
      · exact t4 x (List.mem_of_getElem? hx)
  have h1 := width _ _ hca
  have h2 := width _ _ hcl
  cases h
  simp only [ne_eq, List.cons.injEq, and_true]
  intro heq
  have hbs : bs < 22 := (List.getElem?_eq_some_iff.1 hb).1
  have key : ∀ bs < 22, (blockDims[bs]?).any (fun d => K.block_width[bs]? == some d.1 && K.block_height[bs]? == some d.2 &&
      (usub (K.TX_SIZES - 1) (findTxSize (min 64 (max d.1 d.2)) (min 64 (max d.1 d.2))) == some
        (if min 64 (max d.1 d.2) = 64 then 0 else if min 64 (max d.1 d.2) = 32 then 1 else if min 64 (max d.1 d.2) = 16 then 2
         else if min 64 (max d.1 d.2) = 8 then 3 else 4))) = true := by decide
  have kb := key bs hbs
  rw [hb, Option.any_some] at kb
  simp only [Bool.and_eq_true, beq_iff_eq] at kb
  obtain ⟨⟨k1, k2⟩, k3⟩ := kb
  rw [k1] at hcw; rw [k2] at hch
  cases hcw; cases hch
  rw [k3] at hm
  cases hm
  cases hk
  have hmx : min 64 (max bw bh) = 64 ∨ min 64 (max bw bh) = 32 ∨ min 64 (max bw bh) = 16 ∨ min 64 (max bw bh) = 8 ∨
      min 64 (max bw bh) = 4 := by
    have : ∀ d ∈ blockDims, min 64 (max d.1 d.2) = 64 ∨ min 64 (max d.1 d.2) = 32 ∨ min 64 (max d.1 d.2) = 16 ∨
      min 64 (max d.1 d.2) = 8 ∨ min 64 (max d.1 d.2) = 4 := by decide
    exact this (bw, bh) (List.mem_of_getElem? hb)
  dsimp only at heq
  rcases hmx with e | e | e | e | e <;> rw [e] at heq <;> norm_num at heq <;> split at heq <;> split at heq <;> split at heq <;> omega

/-- The first row of the inter-intra tables belongs to 8×8 blocks; the code takes the second. -/
theorem C106_negation : ¬ C106_full := by
  intro h
  obtain ⟨s, h1, h2⟩ := h (.interintra 0 3) ⟨none, none, none⟩ [0] ⟨nofun, nofun, nofun⟩ ⟨by decide, by decide⟩ rfl
  exact (C106_interintra_never _ 0 3 _ s).1 rfl h1 h2

/-- References to the same side (`is_samedir_ref_pair`). -/
theorem C106_samedir (r s : Int) (hr : r ≤ 7) (hs : s ≤ 7) : isSamedirRefPair r s = Ref.sameSide r s := by
  unfold isSamedirRefPair Ref.sameSide Ref.backward
  have h0 : K.INTRA_FRAME = 0 := rfl
  have h5 : K.BWDREF_FRAME = 5 := rfl
  rw [h0, h5]
  have d : ∀ r : Int, r ≤ 7 → decide (r ≥ 5) = decide (r ∈ [5, 6, 7]) := by
    intro r h
    apply decide_eq_decide.2
    simp only [List.mem_cons, List.not_mem_nil, or_false]
    omega
  rw [d r hr, d s hs]
  by_cases h1 : r ≤ 0
  · rw [if_pos (Or.inl h1), decide_eq_false (by omega : ¬ 0 < r)]; rfl
  · by_cases h2 : s ≤ 0
    · rw [if_pos (Or.inr h2), decide_eq_false (by omega : ¬ 0 < s), Bool.and_false]; rfl
    · rw [if_neg (by omega), decide_eq_true (by omega : 0 < r), decide_eq_true (by omega : 0 < s)]; rfl

/-! ### The exact set of wrong contexts of C63 -/

/-- `comp_ref_type` is wrong exactly if both neighbours are compound and the one above has both references on one side. -/
theorem C63_comp_ref_type_partial (nb : Nbrs) (v : Nat) (hv : nb.Valid) :
    (∃ s, (Elem.compRefType v).select nb = some s ∧ s.idx = [Ref.compRefType nb]) ↔
      ¬ ∃ a l, nb.above = some a ∧ nb.left = some l ∧ Ref.uni a = true ∧ Ref.compound l = true := by
  have hr : ∀ o, (∀ mi, o = some mi → mi.Valid) → ∀ m : ModeInfo, o = some m → m.ref0 ≤ 7 ∧ m.ref1 ≤ 7 := by
    intro o ho m hm
    have := ho m hm
    exact ⟨this.ref0.2, this.ref1.2⟩
  have sel : (∃ s, (Elem.compRefType v).select nb = some s ∧ s.idx = [Ref.compRefType nb]) ↔
      Sel.compRefTypeCtx (Sel.compSide nb.above) (Sel.compSide nb.left) = Ref.compRefType nb := by
    constructor
    · rintro ⟨s, h, h2⟩
      cases h
      exact (List.cons.inj h2).1
    · intro h
      exact ⟨_, rfl, by rw [← h]⟩
  rw [sel]
  have hc : K.BWDREF_FRAME = 5 := rfl
  rcases hn : nb with ⟨above, left, cur⟩
  subst hn
  cases above with
  | none =>
    cases left with
    | none => simp [Sel.compSide, Sel.compRefTypeCtx, Ref.compRefType, orElse]
    | some l =>
      obtain ⟨h0, h1⟩ := hr _ hv.2.1 l rfl
      simp only [Sel.compSide, Sel.compRefTypeCtx, Ref.compRefType, orElse, Ref.uni, Ref.compound, C106_samedir _ _ h0 h1]
      rcases Bool.eq_false_or_eq_true l.intra with h2 | h2 <;> rcases Bool.eq_false_or_eq_true l.single with h3 | h3 <;>
        rcases Bool.eq_false_or_eq_true (Ref.sameSide l.ref0 l.ref1) with h4 | h4 <;> simp [h2, h3, h4]
  | some a =>
    obtain ⟨a0, a1⟩ := hr _ hv.1 a rfl
    cases left with
    | none =>
      simp only [Sel.compSide, Sel.compRefTypeCtx, Ref.compRefType, orElse, Ref.uni, Ref.compound, C106_samedir _ _ a0 a1]
      rcases Bool.eq_false_or_eq_true a.intra with h2 | h2 <;> rcases Bool.eq_false_or_eq_true a.single with h3 | h3 <;>
        rcases Bool.eq_false_or_eq_true (Ref.sameSide a.ref0 a.ref1) with h4 | h4 <;> simp [h2, h3, h4]
    | some l =>
      obtain ⟨h0, h1⟩ := hr _ hv.2.1 l rfl
      simp only [Sel.compSide, Sel.compRefTypeCtx, Ref.compRefType, orElse, Ref.uni, Ref.compound, C106_samedir _ _ a0 a1,
        C106_samedir _ _ h0 h1, C106_samedir _ _ a0 h0, hc, Option.some.injEq, exists_eq_left']
      rcases Bool.eq_false_or_eq_true a.intra with h2 | h2 <;> rcases Bool.eq_false_or_eq_true a.single with h3 | h3 <;>
        rcases Bool.eq_false_or_eq_true (Ref.sameSide a.ref0 a.ref1) with h4 | h4 <;>
        rcases Bool.eq_false_or_eq_true l.intra with h5 | h5 <;> rcases Bool.eq_false_or_eq_true l.single with h6 | h6 <;>
        rcases Bool.eq_false_or_eq_true (Ref.sameSide l.ref0 l.ref1) with h7 | h7 <;> simp [h2, h3, h4, h5, h6, h7] <;> omega

/-- Width and height of the tables the code uses are those of the specification. -/
theorem dims_tables : (∀ i < 22, K.block_width[i]? = (blockDims[i]?).map Prod.fst) ∧
    (∀ i < 19, K.tx_width[i]? = (txDims[i]?).map Prod.fst ∧ K.tx_height[i]? = (txDims[i]?).map Prod.snd) := by decide

/-- `tx_depth` is wrong exactly if the left block is an inter block whose width reaches the limit and whose height does not, or
the other way round. -/
theorem C63_tx_depth_iff (nb : Nbrs) (r d v w h : Nat) (hv : nb.Valid) (hr : txDims[r]? = some (w, h)) :
    (∃ s, (Elem.txDepth r d v).select nb = some s ∧ Ref.idx nb (.txDepth r d v) = some s.idx) ↔
      ¬ ∃ l bw bh, nb.left = some l ∧ l.isInter = true ∧ blockDims[l.miSize]? = some (bw, bh) ∧ ¬ (h ≤ bw ↔ h ≤ bh) := by
  obtain ⟨t1, t2⟩ := dims_tables
  have hr19 : r < 19 := by
    by_contra hn
    rw [List.getElem?_eq_none (by show txDims.length ≤ _; have : txDims.length = 19 := rfl; omega)] at hr
    cases hr
  have bd : ∀ i < 22, ∃ p, blockDims[i]? = some p := fun i hi => ⟨_, List.getElem?_eq_getElem (by exact hi)⟩
  have td : ∀ i < 19, ∃ p, txDims[i]? = some p := fun i hi => ⟨_, List.getElem?_eq_getElem (by exact hi)⟩
  have ha : ∃ x, orElse nb.above (some 0) (fun mi => if mi.isInter then K.block_width[mi.miSize]? else K.tx_width[mi.txSize]?) = some x ∧
      (match nb.above with
        | none => some 0
        | some m => (if m.isInter then blockDims[m.miSize]? else txDims[m.txSize]?).map fun d => (decide (d.1 ≥ w)).toNat) =
      some (if nb.above = none then 0 else (decide (x ≥ w)).toNat) ∧ (nb.above = none → x = 0) := by
    cases hn : nb.above with
    | none => exact ⟨0, rfl, rfl, fun _ => rfl⟩
    | some m =>
      have vm := hv.1 m hn
      obtain ⟨p, hp⟩ := bd _ vm.size
      obtain ⟨q, hq⟩ := td _ vm.tx
      cases hi : m.isInter
      · exact ⟨q.1, by simp [orElse, hi, t2 _ vm.tx, hq], by simp [hi, hq], nofun⟩
      · exact ⟨p.1, by simp [orElse, hi, t1 _ vm.size, hp], by simp [hi, hp], nofun⟩
  have hpos : 0 < w ∧ 0 < h := by
    have : ∀ p ∈ txDims, 0 < p.1 ∧ 0 < p.2 := by decide
    exact this _ (List.mem_of_getElem? hr)
  obtain ⟨x, hx, hx2, hx0⟩ := ha
  have hx3 : (if nb.above = none then 0 else (decide (x ≥ w)).toNat) = (decide (x ≥ w)).toNat := by
    split
    · next hz => rw [hx0 hz, decide_eq_false (by omega)]; rfl
    · rfl
  rw [hx3] at hx2
  simp only [Elem.select, Sel.txDepth, Ref.idx, Ref.txDepth, hr, t2 _ hr19, Option.map_some, Option.bind_eq_bind, Option.bind_some, hx]
  generalize (decide (x ≥ w)).toNat = k at *
  have key : (∃ s, ((orElse nb.left (some 0) fun mi =>
      if mi.isInter = true then K.block_width[mi.miSize]? else K.tx_height[mi.txSize]?).bind fun lh => some
        { fam := if d = 4 then Default.tx_64x64 else if d = 3 then Default.tx_32x32 else if d = 2 then Default.tx_16x16
            else Default.tx_8x8, idx := [k + (decide (lh ≥ h)).toNat], sym := (v : Int) : Sel }) = some s ∧
        Option.map (fun k => [k]) ((match nb.left with
          | none => some 0
          | some m => Option.map (fun d : Nat × Nat => (decide (d.2 ≥ h)).toNat)
              (if m.isInter = true then blockDims[m.miSize]? else txDims[m.txSize]?)).bind fun l => some (k + l)) = some s.idx) ↔
      ¬ ∃ l bw bh, nb.left = some l ∧ l.isInter = true ∧ blockDims[l.miSize]? = some (bw, bh) ∧ ¬ (h ≤ bw ↔ h ≤ bh) := by
    cases hn : nb.left with
    | none =>
      have hz : ¬ h = 0 := by omega
      simp [orElse, hz]
    | some m =>
      have vm := hv.2.1 m hn
      obtain ⟨⟨pw, ph⟩, hp⟩ := bd _ vm.size
      obtain ⟨⟨qw, qh⟩, hq⟩ := td _ vm.tx
      cases hi : m.isInter
      · simp [orElse, hi, t2 _ vm.tx, hq]
      · simp only [orElse, hi, if_true, t1 _ vm.size, hp, Option.map_some, Option.bind_some, Option.some.injEq, exists_eq_left',
          List.cons.injEq, and_true, ge_iff_le]
        by_cases h1 : h ≤ pw <;> by_cases h2 : h ≤ ph <;> simp [h1, h2, hp, hi]
  refine Iff.trans (iff_of_eq ?_) key
  cases hz : nb.above with
  | none =>
    rw [hz] at hx2
    obtain rfl := Option.some.inj hx2
    cases nb.left <;> rfl
  | some m =>
    rw [hz] at hx2
    simp only at hx2
    simp only [hx2, Option.bind_some]
    cases nb.left <;> rfl

example : txDims[2]? = some (16, 16) ∧ blockDims[5]? = some (16, 8) ∧ ¬ (16 ≤ 16 ↔ 16 ≤ 8) := by decide

/-- The filter of a block in one direction. -/
def ownFilter (dir : Nat) (m : ModeInfo) : Nat := if dir = 0 then m.interp0 else m.interp1

/-- The neighbour's filter is not `BILINEAR` (no answer) and the code and the specification disagree on whether it counts. -/
def Misjudged (cur : ModeInfo) (dir : Nat) (m : ModeInfo) : Prop :=
  m.ref0 ≠ cur.ref0 ∧ ¬ (m.ref1 = cur.ref0 ↔ m.ref1 = cur.ref1) ∧ ownFilter dir m ≠ 3

theorem interp_right_iff (nb : Nbrs) (cur : ModeInfo) (f dir : Nat) (hd : dir < 2) (hc : nb.cur = some cur) :
    (∃ s, (Elem.interpFilter f dir).select nb = some s ∧ Ref.idx nb (.interpFilter f dir) = some s.idx) ↔
    ∃ l a, Sel.interpType cur dir nb.left = some l ∧ Sel.interpType cur dir nb.above = some a ∧
      (if l = a then l else if l = 3 then a else if a = 3 then l else 3) =
      (let l := Ref.filterOf cur dir nb.left
       let a := Ref.filterOf cur dir nb.above
       if l = a then l else if l = 3 then a else if a = 3 then l else 3) := by
  have hm : dir % 2 = dir := Nat.mod_eq_of_lt hd
  have hb : K.BILINEAR = 3 := rfl
  have hi : K.INTRA_FRAME = 0 := rfl
  simp only [Elem.select, Sel.interpFilter, Ref.idx, Ref.interpFilter, hc, Option.map_some, Option.bind_eq_bind, Option.bind_some,
    Option.some.injEq, hm, hb, hi]
  cases Sel.interpType cur dir nb.left with
  | none => simp
  | some l =>
    cases Sel.interpType cur dir nb.above with
    | none => simp
    | some a =>
      simp only [Option.bind_some, Option.some.injEq, exists_eq_left', List.cons.injEq, and_true, gt_iff_lt, Nat.add_left_cancel_iff]
      refine ⟨fun h => ⟨l, a, rfl, rfl, h.symm⟩, ?_⟩
      rintro ⟨_, _, rfl, rfl, h⟩
      exact h.symm

/-- `interp_filter` is right if no neighbour is misjudged; if one is, only if the other one counts and has the same filter; if
both are, exactly if they have one filter and one of them counts wrongly while the other is wrongly left out, or if they have two
filters and both count wrongly or both are wrongly left out. -/
theorem C63_interp_filter_iff (nb : Nbrs) (cur : ModeInfo) (f dir : Nat) (hd : dir < 2) (hc : nb.cur = some cur) :
    (∃ s, (Elem.interpFilter f dir).select nb = some s ∧ Ref.idx nb (.interpFilter f dir) = some s.idx) ↔
    (∀ l, nb.left = some l → Misjudged cur dir l →
      (∀ a, nb.above = some a → Misjudged cur dir a →
        ((l.ref1 = cur.ref0 ↔ a.ref1 = cur.ref0) ↔ ownFilter dir l ≠ ownFilter dir a)) ∧
      (¬ (∃ a, nb.above = some a ∧ Misjudged cur dir a) → Ref.filterOf cur dir nb.above = ownFilter dir l)) ∧
    (∀ a, nb.above = some a → Misjudged cur dir a →
      ¬ (∃ l, nb.left = some l ∧ Misjudged cur dir l) → Ref.filterOf cur dir nb.left = ownFilter dir a) := by
  rw [interp_right_iff nb cur f dir hd hc]
  have hit : ∀ o, ∃ x, Sel.interpType cur dir o = some x ∧ 
      ((¬ (∃ m, o = some m ∧ Misjudged cur dir m)) → x = Ref.filterOf cur dir o) ∧
      ∀ m, o = some m → Misjudged cur dir m → ownFilter dir m ≠ 3 ∧ 
        ((m.ref1 = cur.ref0 ∧ x = 3 ∧ Ref.filterOf cur dir o = ownFilter dir m) ∨ 
         (m.ref1 ≠ cur.ref0 ∧ x = ownFilter dir m ∧ Ref.filterOf cur dir o = 3)) := by
    intro o
    have hb : K.BILINEAR = 3 := rfl
    cases o with
    | none => exact ⟨3, rfl, fun _ => rfl, nofun⟩
    | some m =>
      have hi : Sel.ModeInfo.interp m dir = some (ownFilter dir m) := by
        rcases (by omega : dir = 0 ∨ dir = 1) with rfl | rfl <;> rfl
      have hw : (if dir = 0 then m.interp0 else m.interp1) = ownFilter dir m := rfl
      simp only [Sel.interpType, orElse, hi, hw, Ref.filterOf, Misjudged, hb, Option.some.injEq, exists_eq_left']
      generalize hg : ownFilter dir m = g
      by_cases h0 : m.ref0 = cur.ref0
      · exact ⟨g, by simp [h0], by simp [h0], by rintro _ rfl ⟨h, -⟩; exact absurd h0 h⟩
      · by_cases h1 : m.ref1 = cur.ref0 <;> by_cases h2 : m.ref1 = cur.ref1
        · exact ⟨g, by simp [h2], by simp [h1], by rintro _ rfl ⟨-, h, -⟩; exact absurd (iff_of_true h1 h2) h⟩
        · refine ⟨3, by simp [h0, h2], ?_, ?_⟩
          · intro h
            by_contra hn
            exact h ⟨h0, by tauto, by simpa [h1, eq_comm] using hn⟩
          · rintro _ rfl ⟨-, -, h⟩
            rw [hg] at h ⊢
            simp [h, h1]
        · refine ⟨g, by simp [h2], ?_, ?_⟩
          · intro h
            by_contra hn
            exact h ⟨h0, by tauto, by simpa [h0, h1] using hn⟩
          · rintro _ rfl ⟨-, -, h⟩
            rw [hg] at h ⊢
            simp [h, h0, h1]
        · exact ⟨3, by simp [h0, h2], by simp [h0, h1], by rintro _ rfl ⟨-, h, -⟩; exact absurd (iff_of_false h1 h2) h⟩
  obtain ⟨x, hx, x1, x2⟩ := hit nb.left
  obtain ⟨y, hy, y1, y2⟩ := hit nb.above
  simp only [hx, hy, Option.some.injEq, exists_and_left, exists_eq_left']
  by_cases hl : ∃ m, nb.left = some m ∧ Misjudged cur dir m
  · obtain ⟨l, hl1, hl2⟩ := hl
    obtain ⟨p1, p2⟩ := x2 l hl1 hl2
    have ql : ∀ P : ModeInfo → Prop, (∀ l, nb.left = some l → Misjudged cur dir l → P l) ↔ P l :=
      fun P => ⟨fun h => h l hl1 hl2, fun h k hk _ => by rw [hl1] at hk; cases hk; exact h⟩
    have nl : ¬ ¬ (∃ l, nb.left = some l ∧ Misjudged cur dir l) := not_not.2 ⟨l, hl1, hl2⟩
    rw [ql]
    by_cases ha : ∃ m, nb.above = some m ∧ Misjudged cur dir m
    · obtain ⟨a, ha1, ha2⟩ := ha
      obtain ⟨q1, q2⟩ := y2 a ha1 ha2
      have qa : ∀ P : ModeInfo → Prop, (∀ l, nb.above = some l → Misjudged cur dir l → P l) ↔ P a :=
        fun P => ⟨fun h => h a ha1 ha2, fun h k hk _ => by rw [ha1] at hk; cases hk; exact h⟩
      have na : ¬ ¬ (∃ l, nb.above = some l ∧ Misjudged cur dir l) := not_not.2 ⟨a, ha1, ha2⟩
      rw [qa, qa]
      simp only [na, nl, false_imp_iff, and_true]
      generalize Ref.filterOf cur dir nb.left = u at *
      generalize Ref.filterOf cur dir nb.above = v at *
      generalize ownFilter dir l = u' at *
      generalize ownFilter dir a = v' at *
      rcases p2 with ⟨r1, e1, e2⟩ | ⟨r1, e1, e2⟩ <;> rcases q2 with ⟨r2, e3, e4⟩ | ⟨r2, e3, e4⟩ <;>
        clear hit hx hy x1 x2 y1 y2 <;> by_cases huv : u' = v' <;> grind
    · have y3 := y1 ha
      have na : ∀ P : ModeInfo → Prop, (∀ l, nb.above = some l → Misjudged cur dir l → P l) ↔ True :=
        fun P => ⟨fun _ => trivial, fun _ k hk h => absurd ⟨k, hk, h⟩ ha⟩
      rw [na, na]
      simp only [ha, true_and, and_true, not_false_eq_true, true_imp_iff]
      generalize Ref.filterOf cur dir nb.left = u at *
      generalize Ref.filterOf cur dir nb.above = v at *
      generalize ownFilter dir l = u' at *
      subst y3
      rcases p2 with ⟨r1, e1, e2⟩ | ⟨r1, e1, e2⟩ <;>
        clear hit hx hy x1 x2 y1 y2 <;> grind
  · have x3 := x1 hl
    have nl : ∀ P : ModeInfo → Prop, (∀ l, nb.left = some l → Misjudged cur dir l → P l) ↔ True :=
      fun P => ⟨fun _ => trivial, fun _ k hk h => absurd ⟨k, hk, h⟩ hl⟩
    rw [nl]
    simp only [hl, true_and, not_false_eq_true, true_imp_iff]
    by_cases ha : ∃ m, nb.above = some m ∧ Misjudged cur dir m
    · obtain ⟨a, ha1, ha2⟩ := ha
      obtain ⟨q1, q2⟩ := y2 a ha1 ha2
      have qa : ∀ P : ModeInfo → Prop, (∀ l, nb.above = some l → Misjudged cur dir l → P l) ↔ P a :=
        fun P => ⟨fun h => h a ha1 ha2, fun h k hk _ => by rw [ha1] at hk; cases hk; exact h⟩
      rw [qa]
      generalize Ref.filterOf cur dir nb.left = u at *
      generalize Ref.filterOf cur dir nb.above = v at *
      generalize ownFilter dir a = v' at *
      subst x3
      rcases q2 with ⟨r1, e1, e2⟩ | ⟨r1, e1, e2⟩ <;>
        clear hit hx hy x1 x2 y1 y2 <;> grind
    · have y3 := y1 ha
      have na : ∀ P : ModeInfo → Prop, (∀ l, nb.above = some l → Misjudged cur dir l → P l) ↔ True :=
        fun P => ⟨fun _ => trivial, fun _ k hk h => absurd ⟨k, hk, h⟩ ha⟩
      rw [na, x3, y3]
      simp

/-- A block with one reference next to blocks with one reference: the absent second reference (-1) is taken for a shared one, so
the filter of *every* such neighbour counts. -/
theorem C63_interp_single (nb : Nbrs) (cur l : ModeInfo) (f dir : Nat) (hd : dir < 2) (hc : nb.cur = some cur)
    (h1 : cur.ref1 = -1) (h0 : 0 < cur.ref0) (hl : nb.left = some l) (hl1 : l.ref1 = -1) (ha : nb.above = none) :
    (∃ s, (Elem.interpFilter f dir).select nb = some s ∧ Ref.idx nb (.interpFilter f dir) = some s.idx) ↔
      l.ref0 = cur.ref0 ∨ ownFilter dir l = 3 := by
  rw [C63_interp_filter_iff nb cur f dir hd hc]
  have hm : Misjudged cur dir l ↔ l.ref0 ≠ cur.ref0 ∧ ownFilter dir l ≠ 3 := by
    unfold Misjudged
    rw [hl1, h1]
    constructor
    · rintro ⟨a, -, b⟩; exact ⟨a, b⟩
    · rintro ⟨a, b⟩; exact ⟨a, by simp; omega, b⟩
  have hn : Ref.filterOf cur dir nb.above = 3 := by rw [ha]; rfl
  constructor
  · rintro ⟨k, -⟩
    by_contra hh
    have hh : Misjudged cur dir l := hm.2 ⟨fun e => hh (Or.inl e), fun e => hh (Or.inr e)⟩
    have := (k l hl hh).2 (by rw [ha]; rintro ⟨_, e, -⟩; cases e)
    exact (hm.1 hh).2 (this.symm.trans hn)
  · intro k
    constructor
    · intro m h2 h3
      rw [hl] at h2
      cases h2
      have := hm.1 h3
      tauto
    · intro m h2
      rw [ha] at h2
      cases h2

example : Misjudged (sampleMi 3 true false 1 (-1)) 0 (sampleMi 3 true false 2 (-1)) := by unfold Misjudged; decide

/-! ## The context of a compound mode -/

namespace Ref

/-- AV1 `Compound_Mode_Ctx_Map`, row by row. -/
def compoundMode (refMvCtx newMvCtx : Nat) : Nat :=
  if refMvCtx < 2 then if newMvCtx = 0 then 0 else 1
  else if refMvCtx < 4 then min newMvCtx 3 + 1
  else max 4 (min newMvCtx 4 + 3)

end Ref

theorem C106_compound_mode (v r n : Nat) (hr : r < 6) :
    ∃ s, Sel.compoundMode v r n = some s ∧ s.idx = [Ref.compoundMode r n] ∧ s.sym = v := by
  have key : ∀ r < 6, ∀ k < 5, ∃ row ∈ Sel.compoundModeCtxMap[r >>> 1]?, row[k]? = some (Ref.compoundMode r k) := by decide
  have hc : Ref.compoundMode r n = Ref.compoundMode r (min n 4) := by
    unfold Ref.compoundMode
    repeat' split
    all_goals omega
  obtain ⟨row, h1, h2⟩ := key r hr (min n 4) (by omega)
  refine ⟨⟨Default.compound_mode, [Ref.compoundMode r n], v⟩, ?_, rfl, rfl⟩
  unfold Sel.compoundMode
  rw [Option.mem_def.1 h1]
  simp only [Option.bind_eq_bind, Option.bind_some]
  rw [show K.COMP_NEWMV_CTXS - 1 = 4 from rfl, h2, hc]
  rfl

/-- Outside the three rows there is no context. -/
theorem C106_compound_mode_panics (v r n : Nat) (hr : 6 ≤ r) : Sel.compoundMode v r n = none := by
  unfold Sel.compoundMode
  rw [List.getElem?_eq_none (by
    rw [Nat.shiftRight_eq_div_pow]; show 3 ≤ r / 2 ^ 1; omega)]
  rfl

example : (Sel.compoundMode 2 5 9).map (·.idx) = some [7] := by rfl

end Av1
