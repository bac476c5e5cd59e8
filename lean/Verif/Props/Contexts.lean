import Verif.Props.Elements
import Mathlib.Tactic.Positivity
import Mathlib.Tactic.NormNum

/-!
# C60, C61, C63, C64 — a decoder can follow the choice of tables
-/

namespace Av1

/-! ## C60 — the table does not depend on the value being coded -/

/-- The same call with another value to code. -/
def Elem.setValue (v : Nat) : Elem → Elem
  | .intraFrameYMode _ a l => .intraFrameYMode v a l
  | .yMode _ bs => .yMode v bs
  | .uvMode _ bs ll x y => .uvMode v bs ll x y
  | .angleDelta m _ => .angleDelta m v
  | .partition bs a l _ => .partition bs a l v
  | .txDepth r d _ => .txDepth r d v
  | .txfmSplit r c t bs _ => .txfmSplit r c t bs v
  | .segmentId _ a b c => .segmentId v a b c
  | .segIdPredicted _ => .segIdPredicted v
  | .newMv _ c => .newMv v c
  | .zeroMv _ c => .zeroMv v c
  | .refMv _ c => .refMv v c
  | .drlMode _ i s => .drlMode v i s
  | .isInter _ => .isInter (v != 0)
  | .useFilterIntra _ bs => .useFilterIntra v bs
  | .filterIntraMode _ => .filterIntraMode v
  | .compMode _ => .compMode v
  | .skipMode _ => .skipMode v
  | .skip _ => .skip v
  | .compRef _ => .compRef v
  | .compRefP1 _ => .compRefP1 v
  | .compRefP2 _ => .compRefP2 v
  | .compBwdref _ => .compBwdref v
  | .compBwdrefP1 _ => .compBwdrefP1 v
  | .singleRefP1 _ => .singleRefP1 v
  | .singleRefP2 _ => .singleRefP2 v
  | .singleRefP3 _ => .singleRefP3 v
  | .singleRefP4 _ => .singleRefP4 v
  | .singleRefP5 _ => .singleRefP5 v
  | .singleRefP6 _ => .singleRefP6 v
  | .compoundMode _ r n => .compoundMode v r n
  | .interpFilter _ d => .interpFilter v d
  | .motionMode _ bs => .motionMode v bs
  | .mvJoint _ c => .mvJoint v c
  | .mvSign _ c k => .mvSign v c k
  | .mvClass _ c k => .mvClass v c k
  | .mvClass0Bit _ c k => .mvClass0Bit v c k
  | .mvClass0Fr _ b c k => .mvClass0Fr v b c k
  | .mvClass0Hp _ c k => .mvClass0Hp v c k
  | .mvFr _ c k => .mvFr v c k
  | .mvHp _ c k => .mvHp v c k
  | .mvBit _ i c k => .mvBit v i c k
  | .allZero t _ p tx c bs => .allZero t v p tx c bs
  | .eobPt e k _ p => .eobPt e k v p
  | .eobExtra _ c p t => .eobExtra v c p t
  | .coeffBase e _ c p k s q => .coeffBase e v c p k s q
  | .coeffBaseEob e _ c p k s q => .coeffBaseEob e v c p k s q
  | .dcSign t p pl => .dcSign t p pl
  | .coeffBr e _ c p pos q => .coeffBr e v c p pos q
  | .hasPaletteY _ c => .hasPaletteY v c
  | .hasPaletteUv _ s => .hasPaletteUv v s
  | .paletteSizeY _ c => .paletteSizeY v c
  | .paletteSizeUv _ c => .paletteSizeUv v c
  | .paletteColorY _ h s => .paletteColorY v h s
  | .paletteColorUv _ h s => .paletteColorUv v h s
  | .deltaQAbs _ => .deltaQAbs v
  | .deltaLfAbs _ m i => .deltaLfAbs v m i
  | .intraTxType _ s x f m y => .intraTxType v s x f m y
  | .interTxType _ x s => .interTxType v x s
  | .compRefType _ => .compRefType v
  | .uniCompRef _ => .uniCompRef v
  | .uniCompRefP1 _ => .uniCompRefP1 v
  | .uniCompRefP2 _ => .uniCompRefP2 v
  | .compGroupIdx _ => .compGroupIdx v
  | .compoundIdx _ a b c d e f => .compoundIdx v a b c d e f
  | .compoundType _ bs => .compoundType v bs
  | .interintra _ bs => .interintra v bs
  | .interintraMode _ bs => .interintraMode v bs
  | .wedgeIndex _ bs => .wedgeIndex v bs
  | .wedgeInterintra _ bs => .wedgeInterintra v bs
  | .useObmc _ bs => .useObmc v bs
  | .cflSigns _ => .cflSigns v
  | .cflAlphaU _ s => .cflAlphaU v s
  | .cflAlphaV _ s => .cflAlphaV v s
  | .useWiener _ => .useWiener v
  | .useSgrproj _ => .useSgrproj v
  | .restorationType _ => .restorationType v

/-- The table chosen by a call, without the symbol. -/
def Elem.table (e : Elem) (nb : Nbrs) : Option (Family × List Nat) := (e.select nb).map fun s => (s.fam, s.idx)

/-- A decoder has to choose the table before it knows the value: replacing the value by another one must not change the
choice. -/
def C60_full : Prop := ∀ (e : Elem) (nb : Nbrs) (v w : Nat), (e.setValue v).table nb = (e.setValue w).table nb

/-- `encode_uv_mode` uses the value as row of its table. -/
theorem C60_negation : ¬ C60_full := by
  intro h
  have := congrArg (Option.map Prod.snd) (h (.uvMode 0 3 false true true) ⟨none, none, none⟩ 0 1)
  revert this; decide

/-- Every other element keeps its table. -/
theorem C60_value_free_partial (e : Elem) (nb : Nbrs) (v w : Nat) (he : ∀ a b c d f, e ≠ .uvMode a b c d f) :
    (e.setValue v).table nb = (e.setValue w).table nb := by
  cases e with
  | uvMode a b c d f => exact absurd rfl (he a b c d f)
  | paletteColorY a hash size =>
    simp only [Elem.table, Elem.setValue, Elem.select, Sel.paletteColorY, Option.bind_eq_bind, Option.map_bind,
      Function.comp_def, apply_ite (Option.map _), Option.map_some, Option.map_none]
  | paletteColorUv a hash size =>
    simp only [Elem.table, Elem.setValue, Elem.select, Sel.paletteColorUv, Option.bind_eq_bind, Option.map_bind,
      Function.comp_def, apply_ite (Option.map _), Option.map_some, Option.map_none]
  | intraTxType t s x f m y =>
    cases f <;> simp only [Elem.table, Elem.setValue, Elem.select, Sel.intraTxType, Option.bind_eq_bind, Option.map_bind,
      Function.comp_def, if_true, if_false, Bool.false_eq_true, Option.map_some]
  | allZero t a p tx c bs =>
    simp only [Elem.table, Elem.setValue, Elem.select, Sel.allZero, Option.bind_eq_bind, Option.map_bind, Function.comp_def,
      Option.map_some]
  | deltaLfAbs a m i =>
    simp only [Elem.table, Elem.setValue, Elem.select, Sel.deltaLfAbs]; split <;> rfl
  | cflAlphaU a s =>
    simp only [Elem.table, Elem.setValue, Elem.select, Sel.cflAlphaU]; split <;> rfl
  | cflAlphaV a s =>
    simp only [Elem.table, Elem.setValue, Elem.select, Sel.cflAlphaV]
    split
    · simp only [Option.bind_eq_bind, Option.map_bind, Function.comp_def, Option.map_some]
    · rfl
  | intraFrameYMode a b c =>
    simp only [Elem.table, Elem.setValue, Elem.select, Sel.intraFrameYMode, Option.bind_eq_bind, Option.map_bind, Function.comp_def,
      Option.map_some]
  | yMode a b =>
    simp only [Elem.table, Elem.setValue, Elem.select, Sel.yMode, Option.bind_eq_bind, Option.map_bind, Function.comp_def,
      Option.map_some]
  | angleDelta a b =>
    simp only [Elem.table, Elem.setValue, Elem.select, Sel.angleDelta, Option.bind_eq_bind, Option.map_bind, Function.comp_def,
      Option.map_some]
  | partition a b c d =>
    simp only [Elem.table, Elem.setValue, Elem.select, Sel.partition, Option.bind_eq_bind, Option.map_bind, Function.comp_def,
      Option.map_some]
  | txDepth a b c =>
    simp only [Elem.table, Elem.setValue, Elem.select, Sel.txDepth, Option.bind_eq_bind, Option.map_bind, Function.comp_def,
      Option.map_some]
  | txfmSplit a b c d f =>
    simp only [Elem.table, Elem.setValue, Elem.select, Sel.txfmSplit, Option.bind_eq_bind, Option.map_bind, Function.comp_def,
      Option.map_some]
  | drlMode a b c =>
    simp only [Elem.table, Elem.setValue, Elem.select, Sel.drlMode, Option.bind_eq_bind, Option.map_bind, Function.comp_def,
      Option.map_some]
  | compoundMode a b c =>
    simp only [Elem.table, Elem.setValue, Elem.select, Sel.compoundMode, Option.bind_eq_bind, Option.map_bind, Function.comp_def,
      Option.map_some]
  | interpFilter a b =>
    simp only [Elem.table, Elem.setValue, Elem.select, Sel.interpFilter, Option.bind_eq_bind, Option.map_bind, Function.comp_def,
      Option.map_some]
  | eobPt a b c d =>
    simp only [Elem.table, Elem.setValue, Elem.select, Sel.eobPt, Option.bind_eq_bind, Option.map_bind, Function.comp_def,
      Option.map_some]
  | coeffBase a b c d f g h =>
    simp only [Elem.table, Elem.setValue, Elem.select, Sel.coeffBase, Option.bind_eq_bind, Option.map_bind, Function.comp_def,
      Option.map_some]
  | coeffBaseEob a b c d f g h =>
    simp only [Elem.table, Elem.setValue, Elem.select, Sel.coeffBaseEob, Option.bind_eq_bind, Option.map_bind, Function.comp_def,
      Option.map_some]
  | coeffBr a b c d f g =>
    simp only [Elem.table, Elem.setValue, Elem.select, Sel.coeffBr, Option.bind_eq_bind, Option.map_bind, Function.comp_def,
      Option.map_some]
  | hasPaletteY a b =>
    simp only [Elem.table, Elem.setValue, Elem.select, Sel.hasPaletteY, Option.bind_eq_bind, Option.map_bind, Function.comp_def,
      Option.map_some]
  | interTxType a b c =>
    simp only [Elem.table, Elem.setValue, Elem.select, Sel.interTxType, Option.bind_eq_bind, Option.map_bind, Function.comp_def,
      Option.map_some]
  | compoundIdx a b c d f g h =>
    simp only [Elem.table, Elem.setValue, Elem.select, Sel.compoundIdx, Option.bind_eq_bind, Option.map_bind, Function.comp_def,
      Option.map_some]
  | interintra a b =>
    simp only [Elem.table, Elem.setValue, Elem.select, Sel.interintra, Option.bind_eq_bind, Option.map_bind, Function.comp_def,
      Option.map_some]
  | interintraMode a b =>
    simp only [Elem.table, Elem.setValue, Elem.select, Sel.interintraMode, Option.bind_eq_bind, Option.map_bind, Function.comp_def,
      Option.map_some]
  | _ => rfl

/-! ## C61 — partitions use the tables of their block size -/

/-- The family of the AV1 specification for a square block of `w` pixels. -/
def av1PartitionFam (w : Nat) : Family :=
  if w = 8 then Default.partition_w8 else if w = 16 then Default.partition_w16 else if w = 32 then Default.partition_w32
  else if w = 64 then Default.partition_w64 else Default.partition_w128

def C61_full : Prop := ∀ bs w above left p s, blockDims[bs]? = some (w, w) → 8 ≤ w →
  Sel.partition bs above left p = some s → s.fam.name = (av1PartitionFam w).name

/-- `mi_width_log2` counts pixels, the comparison expects units of 4 pixels: 8×8 uses the 32×32 tables, 16×16 the 64×64 tables,
32×32 and 64×64 the 128×128 tables. -/
theorem C61_wrong : ∀ above left p,
    (Sel.partition 3 above left p).map (·.fam.name) = some "partition_w32" ∧
    (Sel.partition 6 above left p).map (·.fam.name) = some "partition_w64" ∧
    (Sel.partition 9 above left p).map (·.fam.name) = some "partition_w128" ∧
    (Sel.partition 12 above left p).map (·.fam.name) = some "partition_w128" :=
  fun _ _ _ => ⟨rfl, rfl, rfl, rfl⟩

theorem C61_negation : ¬ C61_full := by
  intro h
  have := h 3 8 false false 0 _ rfl (by decide) rfl
  revert this; decide

/-- Only 128×128 is right. -/
theorem C61_128_partial (above left : Bool) (p : Nat) : ∃ s, Sel.partition 15 above left p = some s ∧
    blockDims[15]? = some (128, 128) ∧ s.fam.name = (av1PartitionFam 128).name := ⟨_, rfl, rfl, rfl⟩

/-! ## C64 — the split flag at the frame edge -/

/-- At the right and bottom edge a block is either split or cut in two; the flag must be coded with a two-symbol table. -/
def C64_full : Prop := ∀ (bs w ctx : Nat) (cdf : List Int), blockDims[bs]? = some (w, w) → 8 ≤ w →
  ((K.mi_width_log2[bs]?).bind fun bsl => (Sel.partitionFam bsl).cdfs[ctx]?) = some cdf →
  (∃ h, splitOrHorzCdf cdf bs = some h ∧ ValidCdf h) ∧ (∃ v, splitOrVertCdf cdf bs = some v ∧ ValidCdf v)

/-- With the default tables neither flag can be coded, for any block size and context: `1<<15 - psum` shifts by a negative
amount, or the table has no `PARTITION_VERT_4`. -/
theorem C64_never (bs w ctx : Nat) (cdf : List Int) (hb : blockDims[bs]? = some (w, w)) (hw : 8 ≤ w)
    (hc : ((K.mi_width_log2[bs]?).bind fun bsl => (Sel.partitionFam bsl).cdfs[ctx]?) = some cdf) :
    splitOrHorzCdf cdf bs = none ∧ splitOrVertCdf cdf bs = none := by
  have key := forall_rows (P := fun bs d => d.1 = d.2 → 8 ≤ d.1 →
    ((K.mi_width_log2[bs]?).any fun bsl => (Sel.partitionFam bsl).cdfs.all fun cdf =>
      splitOrHorzCdf cdf bs == none && splitOrVertCdf cdf bs == none) = true) (by decide +kernel)
  have h := key bs (w, w) hb rfl hw
  cases hm : K.mi_width_log2[bs]? with
  | none => rw [hm] at hc; cases hc
  | some bsl =>
    rw [hm] at hc h
    simp only [Option.any_some, List.all_eq_true, Bool.and_eq_true, beq_iff_eq] at h
    exact h cdf (List.mem_of_getElem? hc)

theorem C64_negation : ¬ C64_full := by
  intro h
  have hc : ((K.mi_width_log2[15]?).bind fun bsl => (Sel.partitionFam bsl).cdfs[0]?) =
      some (Default.partition_w128.cdfs[0]'(by decide +kernel)) := by
    show (Default.partition_w128.cdfs)[0]? = _
    exact List.getElem?_eq_getElem _
  obtain ⟨⟨x, hx, -⟩, -⟩ := h 15 128 0 _ rfl (by decide) hc
  rw [(C64_never 15 128 0 _ rfl (by decide) hc).1] at hx
  cases hx

/-- What the code does when it does not panic: a table with sum at most 15 gives a well-formed two-symbol table. -/
theorem C64_small_partial (cdf h : List Int) (bs : Nat) (hh : splitOrHorzCdf cdf bs = some h ∨ splitOrVertCdf cdf bs = some h) :
    ∃ k : Nat, k < 32 ∧ h = [shl1 k, 2 ^ 15, 0] ∧ (ValidCdf h ↔ k < 15) := by
  have val : ∀ k : Nat, ValidCdf [shl1 k, 2 ^ 15, 0] ↔ k < 15 := by
    intro k
    unfold shl1
    have h2 : (32768 : Int) = 2 ^ 15 := by norm_num
    constructor
    · rintro ⟨body, cnt, he, hinc, -⟩
      rcases body with _ | ⟨x, _ | ⟨y, body⟩⟩
      · simp at he
      · simp only [List.cons_append, List.nil_append, List.cons.injEq] at he
        obtain ⟨rfl, -⟩ := he
        have hpos := hinc.1
        split at hpos
        · norm_num at hpos
        rename_i h31
        have hlt : (2 : Int) ^ k < 2 ^ 15 := by
          have := hinc.2
          rw [if_neg h31] at this
          rw [← h2]; exact this
        exact (pow_lt_pow_iff_right₀ (by norm_num : (1 : Int) < 2)).1 hlt
      · have := congrArg List.length he; simp at this
    · intro hk
      have h31 : ¬ k = 31 := by omega
      rw [if_neg h31]
      refine ⟨[2 ^ k], 0, by rw [h2]; rfl, ⟨by positivity, ?_⟩, by decide, by decide, by simp⟩
      show (2 : Int) ^ k < 32768
      rw [h2]
      exact pow_lt_pow_right₀ (by norm_num) hk
  have fin : ∀ psum : Int, (if 0 ≤ 15 - psum ∧ 15 - psum < 32 then some [shl1 (15 - psum).toNat, 2 ^ 15, 0] else none) = some h →
      ∃ k : Nat, k < 32 ∧ h = [shl1 k, 2 ^ 15, 0] ∧ (ValidCdf h ↔ k < 15) := by
    intro psum hp
    split at hp
    · rename_i hc
      cases hp
      exact ⟨(15 - psum).toNat, by omega, rfl, val _⟩
    · cases hp
  rcases hh with hh | hh
  · simp only [splitOrHorzCdf, Option.bind_eq_bind, Option.bind_eq_some_iff] at hh
    obtain ⟨_, -, _, -, hh⟩ := hh
    split at hh
    · simp only [Option.bind_eq_some_iff] at hh
      obtain ⟨_, -, _, -, _, -, hh⟩ := hh
      exact fin _ hh
    · simp only [Option.bind_some] at hh
      exact fin _ hh
  · simp only [splitOrVertCdf, Option.bind_eq_bind, Option.bind_eq_some_iff] at hh
    obtain ⟨_, -, _, -, _, -, _, -, _, -, hh⟩ := hh
    split at hh
    · simp only [Option.bind_eq_some_iff] at hh
      obtain ⟨_, -, hh⟩ := hh
      exact fin _ hh
    · exact fin _ hh

/-- The mass that a partition table gives to some partitions (the tables hold running sums). -/
def partMass (cdf : List Int) (ps : List Nat) : Int := (ps.map fun p => cdf[p]?.getD 0 - cdf[p - 1]?.getD 0).sum

/-- The partitions that AV1 adds up for `split_or_horz`: VERT, SPLIT, HORZ_A, VERT_A, VERT_B, and VERT_4 below 128. -/
def splitOrHorzParts (bs : Nat) : List Nat := [2, 3, 4, 6, 7] ++ if bs = 15 then [] else [9]

/-- The sum behind each flag when the table is long enough.  `encode_split_or_vert` uses AV1's sum for the *other* flag,
`encode_split_or_horz` adds `PARTITION_VERT` five times; and the sum is the exponent instead of being subtracted. -/
theorem C64_mass (cdf : List Int) (bs : Nat) (hl : 10 ≤ cdf.length) :
    (∀ t, splitOrVertCdf cdf bs = some t → t = [shl1 (15 - partMass cdf (splitOrHorzParts bs)).toNat, 2 ^ 15, 0]) ∧
    ∀ t, splitOrHorzCdf cdf bs = some t →
      t = [shl1 (15 - partMass cdf ([2, 2, 2, 2, 2] ++ if bs = 15 then [] else [9])).toNat, 2 ^ 15, 0] := by
  have hs : ∀ p < 10, ∃ a, cdf[p]? = some a := fun p hp => ⟨_, List.getElem?_eq_getElem (by omega)⟩
  obtain ⟨a1, h1⟩ := hs 1 (by omega)
  obtain ⟨a2, h2⟩ := hs 2 (by omega)
  obtain ⟨a3, h3⟩ := hs 3 (by omega)
  obtain ⟨a4, h4⟩ := hs 4 (by omega)
  obtain ⟨a5, h5⟩ := hs 5 (by omega)
  obtain ⟨a6, h6⟩ := hs 6 (by omega)
  obtain ⟨a7, h7⟩ := hs 7 (by omega)
  obtain ⟨a8, h8⟩ := hs 8 (by omega)
  obtain ⟨a9, h9⟩ := hs 9 (by omega)
  have k128 : K.BLOCK_128X128 = 15 := rfl
  have kn : K.PARTITION_VERT = 2 ∧ K.PARTITION_SPLIT = 3 ∧ K.PARTITION_HORZ_A = 4 ∧ K.PARTITION_VERT_A = 6 ∧
    K.PARTITION_VERT_B = 7 ∧ K.PARTITION_VERT_4 = 9 := by decide
  obtain ⟨k2, k3, k4, k6, k7, k9⟩ := kn
  constructor
  · intro t ht
    unfold splitOrVertCdf at ht
    rw [k2, k3, k4, k6, k7, k9, k128] at ht
    simp only [Option.bind_eq_bind, Nat.reduceSub, h1, h2, h3, h4, h5, h6, h7, h8, h9, Option.bind_some, Option.map_some] at ht
    unfold partMass splitOrHorzParts
    by_cases hb : bs = 15
    · simp only [hb, ne_eq, not_true_eq_false, if_false, Option.bind_some, if_true] at ht ⊢
      split at ht
      · cases ht
        simp only [List.append_nil, List.map_cons, List.map_nil, List.sum_cons, List.sum_nil, Nat.reduceSub,
          h1, h2, h3, h4, h5, h6, h7, h8, h9, Option.getD_some]
        congr 3; ring
      · cases ht
    · simp only [hb, ne_eq, not_false_eq_true, if_true, Option.bind_some, if_false] at ht ⊢
      split at ht
      · cases ht
        simp only [List.cons_append, List.nil_append, List.map_cons, List.map_nil, List.sum_cons, List.sum_nil, Nat.reduceSub,
          h1, h2, h3, h4, h5, h6, h7, h8, h9, Option.getD_some]
        congr 3; ring
      · cases ht
  · intro t ht
    unfold splitOrHorzCdf at ht
    rw [k2, k9, k128] at ht
    simp only [Option.bind_eq_bind, Nat.reduceSub, h1, h2, h8, h9, Option.bind_some] at ht
    unfold partMass
    by_cases hb : bs = 15
    · simp only [hb, ne_eq, not_true_eq_false, if_false, Option.bind_some, if_true] at ht ⊢
      split at ht
      · cases ht
        simp only [List.append_nil, List.map_cons, List.map_nil, List.sum_cons, List.sum_nil, Nat.reduceSub,
          h1, h2, h3, h4, h5, h6, h7, h8, h9, Option.getD_some]
        congr 3; ring
      · cases ht
    · simp only [hb, ne_eq, not_false_eq_true, if_true, Option.bind_some, if_false] at ht ⊢
      split at ht
      · cases ht
        simp only [List.cons_append, List.nil_append, List.map_cons, List.map_nil, List.sum_cons, List.sum_nil, Nat.reduceSub,
          h1, h2, h3, h4, h5, h6, h7, h8, h9, Option.getD_some]
        congr 3; ring
      · cases ht

/-- A table with little mass on those partitions: both flags get a table. -/
example : splitOrVertCdf [1, 2, 3, 4, 5, 6, 7, 8, 9, 10, 32768, 0] 12 = some [512, 32768, 0] ∧
    splitOrHorzCdf [1, 2, 3, 4, 5, 6, 7, 8, 9, 10, 32768, 0] 12 = some [512, 32768, 0] := by decide

/-! ## C63 — contexts are those of the AV1 specification -/

namespace Ref

/-- The available neighbours. -/
def blocks (nb : Nbrs) : List ModeInfo := nb.above.toList ++ nb.left.toList

/-- The reference slots of the available neighbours. -/
def slots (nb : Nbrs) : List Int := (blocks nb).flatMap fun m => [m.ref0, m.ref1]

/-- 0, 1, 2 as fewer, equally many or more slots refer to the first group than to the second. -/
def cmp (nb : Nbrs) (g0 g1 : List Int) : Nat :=
  match compare ((slots nb).countP (· ∈ g0)) ((slots nb).countP (· ∈ g1)) with
  | .lt => 0
  | .eq => 1
  | .gt => 2

/-- A reference that points forward in time is one of 5, 6, 7. -/
def backward (r : Int) : Bool := r ∈ [5, 6, 7]

/-- Whether two references point to the same side; intra and missing references to none. -/
def sameSide (r s : Int) : Bool := decide (0 < r) && decide (0 < s) && (backward r == backward s)

def compound (m : ModeInfo) : Bool := !m.intra && !m.single
def uni (m : ModeInfo) : Bool := compound m && sameSide m.ref0 m.ref1

/-- `comp_ref_type`. -/
def compRefType (nb : Nbrs) : Nat :=
  match nb.above, nb.left with
  | some a, some l =>
    if a.intra || l.intra then
      if compound a then 1 + 2 * (uni a).toNat else if compound l then 1 + 2 * (uni l).toNat else 2
    else
      let same := (sameSide a.ref0 l.ref0).toNat
      match compound a, compound l with
      | false, false => 1 + 2 * same
      | false, true => if uni l then 3 + same else 1
      | true, false => if uni a then 3 + same else 1
      | true, true =>
        match uni a, uni l with
        | false, false => 0
        | true, true => 3 + (decide (a.ref0 = 5) == decide (l.ref0 = 5)).toNat
        | _, _ => 2
  | some m, none | none, some m => if compound m then 4 * (uni m).toNat else 2
  | none, none => 2

/-- Filter of a neighbour that shares the block's first reference, 3 otherwise. -/
def filterOf (cur : ModeInfo) (dir : Nat) : Option ModeInfo → Nat
  | some m => if m.ref0 = cur.ref0 ∨ m.ref1 = cur.ref0 then (if dir = 0 then m.interp0 else m.interp1) else 3
  | none => 3

/-- `interp_filter`. -/
def interpFilter (nb : Nbrs) (cur : ModeInfo) (dir : Nat) : Nat :=
  let l := filterOf cur dir nb.left
  let a := filterOf cur dir nb.above
  (dir * 2 + (decide (0 < cur.ref1)).toNat) * 4 +
    if l = a then l else if l = 3 then a else if a = 3 then l else 3

/-- `tx_depth`: is the transform (or the inter block) above at least as wide, the one on the left at least as high? -/
def txDepth (nb : Nbrs) (maxRect : Nat) : Option Nat := do
  let (w, h) ← txDims[maxRect]?
  let side (m : Option ModeInfo) (f : Nat × Nat → Nat) (limit : Nat) : Option Nat :=
    match m with
    | none => some 0
    | some m => (if m.isInter then blockDims[m.miSize]? else txDims[m.txSize]?).map fun d => (decide (f d ≥ limit)).toNat
  let a ← side nb.above Prod.fst w
  let l ← side nb.left Prod.snd h
  some (a + l)

/-- The table indices of the AV1 specification for the elements whose context is a function of the neighbours or of the
signs; `none` for the others. -/
def idx (nb : Nbrs) : Elem → Option (List Nat)
  | .segIdPredicted _ => some [((blocks nb).map (·.segIdPredicted)).sum]
  | .skipMode _ => some [((blocks nb).map (·.skipMode)).sum]
  | .skip _ => some [(blocks nb).countP (·.skip)]
  | .isInter _ =>
    let n := (blocks nb).countP (·.intra)
    some [if (blocks nb).length = 2 then (if n = 2 then 3 else n) else 2 * n]
  | .compRef _ => some [cmp nb [1, 2] [3, 4], 0]
  | .compRefP1 _ => some [cmp nb [1] [2], 1]
  | .compRefP2 _ => some [cmp nb [3] [4], 2]
  | .compBwdref _ => some [cmp nb [5, 6] [7], 0]
  | .compBwdrefP1 _ => some [cmp nb [5] [6], 1]
  | .singleRefP1 _ => some [cmp nb [1, 2, 3, 4] [5, 6, 7], 0]
  | .singleRefP2 _ => some [cmp nb [5, 6] [7], 1]
  | .singleRefP3 _ => some [cmp nb [1, 2] [3, 4], 2]
  | .singleRefP4 _ => some [cmp nb [1] [2], 3]
  | .singleRefP5 _ => some [cmp nb [3] [4], 4]
  | .singleRefP6 _ => some [cmp nb [5] [6], 5]
  | .uniCompRef _ => some [cmp nb [1, 2, 3, 4] [5, 6, 7], 0]
  | .uniCompRefP1 _ => some [cmp nb [2] [3, 4], 1]
  | .uniCompRefP2 _ => some [cmp nb [3] [4], 2]
  | .compRefType _ => some [compRefType nb]
  | .interpFilter _ dir => nb.cur.map fun cur => [interpFilter nb cur dir]
  | .txDepth maxRect _ _ => (txDepth nb maxRect).map fun k => [k]
  | .cflAlphaU _ signs => some [((signs + 1) / 3 - 1) * 3 + (signs + 1) % 3]
  | .cflAlphaV _ signs => some [((signs + 1) % 3 - 1) * 3 + (signs + 1) / 3]
  | _ => none

end Ref

def C63_full : Prop := ∀ (e : Elem) (nb : Nbrs) (i : List Nat), nb.Valid → e.Legal nb → Ref.idx nb e = some i →
  ∃ s, e.select nb = some s ∧ s.idx = i

/-- The elements whose context is the specified one for all neighbours. -/
def Elem.ContextOk : Elem → Bool
  | .compRefType _ | .interpFilter .. | .txDepth .. | .cflAlphaU .. | .cflAlphaV .. => false
  | _ => true

theorem countRefs_slots (nb : Nbrs) (r : Int) : Sel.countRefs nb r = (Ref.slots nb).count r := by
  have one : ∀ o : Option ModeInfo, orElse o 0 (fun mi => (decide (mi.ref0 = r)).toNat + (decide (mi.ref1 = r)).toNat) =
      (o.toList.flatMap fun m => [m.ref0, m.ref1]).count r := by
    intro o
    cases o with
    | none => rfl
    | some m =>
      simp only [orElse, Option.toList_some, List.flatMap_cons, List.flatMap_nil, List.append_nil, List.count_cons, List.count_nil,
        beq_iff_eq]
      by_cases h1 : m.ref0 = r <;> by_cases h2 : m.ref1 = r <;> simp [h1, h2]
  unfold Sel.countRefs Ref.slots Ref.blocks
  rw [one, one, List.flatMap_append, List.count_append]

theorem sum_counts (l : List Int) : ∀ g : List Int, g.Nodup → (g.map fun r => l.count r).sum = l.countP (· ∈ g)
  | [], _ => by simp
  | r :: g, h => by
    rw [List.nodup_cons] at h
    rw [List.map_cons, List.sum_cons, sum_counts l g h.2]
    induction l with
    | nil => rfl
    | cons x l ih =>
      rw [List.count_cons, List.countP_cons, List.countP_cons, ← Nat.add_assoc] at *
      by_cases hx : x = r
      · subst hx
        have hn : ¬ (x ∈ g) := h.1
        simp only [beq_self_eq_true, if_true, hn, decide_false, Bool.false_eq_true, if_false, List.mem_cons, true_or, decide_true]
        simp only [List.mem_cons] at ih
        omega
      · have : (x == r) = false := by simpa using hx
        simp only [this, Bool.false_eq_true, if_false, List.mem_cons, hx, false_or, decide_eq_true_eq]
        simp only [List.mem_cons] at ih
        omega

theorem refCtx_cmp (nb : Nbrs) (g0 g1 : List Int) (h0 : g0.Nodup) (h1 : g1.Nodup) :
    Sel.refCtx nb g0 g1 = Ref.cmp nb g0 g1 := by
  have e : ∀ g : List Int, g.map (Sel.countRefs nb) = g.map fun r => (Ref.slots nb).count r :=
    fun g => List.map_congr_left fun r _ => countRefs_slots nb r
  unfold Sel.refCtx Ref.cmp refCountCtx
  rw [e, e, sum_counts _ _ h0, sum_counts _ _ h1]
  generalize (Ref.slots nb).countP (· ∈ g0) = a
  generalize (Ref.slots nb).countP (· ∈ g1) = b
  rcases Nat.lt_trichotomy a b with h | h | h
  · rw [if_pos h, Nat.compare_eq_lt.2 h]
  · subst h; simp
  · rw [if_neg (by omega), if_neg (by omega), Nat.compare_eq_gt.2 h]

theorem C63_contexts_partial (e : Elem) (nb : Nbrs) (i : List Nat) (he : e.ContextOk = true) (hi : Ref.idx nb e = some i) :
    ∃ s, e.select nb = some s ∧ s.idx = i := by
  have sum2 : ∀ (f : ModeInfo → Nat), orElse nb.above 0 f + orElse nb.left 0 f = ((Ref.blocks nb).map f).sum := by
    intro f
    unfold Ref.blocks
    cases nb.above <;> cases nb.left <;> simp [orElse]
  cases e with
  | segIdPredicted v => cases hi; exact ⟨_, rfl, by rw [← sum2, Nat.add_comm]⟩
  | skipMode v => cases hi; exact ⟨_, rfl, by rw [← sum2]⟩
  | skip v =>
    cases hi
    refine ⟨_, rfl, ?_⟩
    show [orElse nb.above 0 (·.skip.toNat) + orElse nb.left 0 (·.skip.toNat)] = _
    unfold Ref.blocks
    cases nb.above with
    | none =>
      cases nb.left with
      | none => rfl
      | some l => cases hl : l.skip <;> simp [orElse, hl]
    | some a =>
      cases nb.left with
      | none => cases ha : a.skip <;> simp [orElse, ha]
      | some l => cases ha : a.skip <;> cases hl : l.skip <;> simp [orElse, ha, hl]
  | isInter v =>
    cases hi
    refine ⟨_, rfl, ?_⟩
    unfold Ref.blocks
    cases nb.above with
    | none =>
      cases nb.left with
      | none => rfl
      | some l => cases hl : l.intra <;> simp [hl]
    | some a =>
      cases nb.left with
      | none => cases ha : a.intra <;> simp [ha]
      | some l => cases ha : a.intra <;> cases hl : l.intra <;> simp [ha, hl]
  | compRefType => cases he
  | interpFilter => cases he
  | txDepth => cases he
  | cflAlphaU => cases he
  | cflAlphaV => cases he
  | _ =>
    first
    | (cases hi; done)
    | (cases hi; exact ⟨_, rfl, by rw [← refCtx_cmp _ _ _ (by decide) (by decide)]; rfl⟩)

/-- Five contexts differ from the specification.  Chroma-from-luma is off by one for *every* sign combination. -/
theorem C63_cfl_never (nb : Nbrs) (v signs : Nat) (h8 : signs < 8) (i : List Nat) :
    (Ref.idx nb (.cflAlphaU v signs) = some i → (signs + 1) / 3 ≠ 0 → ∀ s, (Elem.cflAlphaU v signs).select nb = some s → s.idx ≠ i) ∧
    (Ref.idx nb (.cflAlphaV v signs) = some i → (signs + 1) % 3 ≠ 0 → ∀ s, (Elem.cflAlphaV v signs).select nb = some s → s.idx ≠ i) := by
  constructor
  · intro hi h3 s hs
    cases hi
    have h2 : signs ≥ 2 := by omega
    simp only [Elem.select, Sel.cflAlphaU] at hs
    rw [if_pos h2] at hs
    cases hs
    simp only [ne_eq, List.cons.injEq, and_true]
    omega
  · intro hi h3 s hs
    cases hi
    have h2 : signs % 3 < 2 := by omega
    simp only [Elem.select, Sel.cflAlphaV] at hs
    rw [if_pos h2] at hs
    simp only [Option.bind_eq_bind, Option.bind_eq_some_iff] at hs
    obtain ⟨k, hk, hs⟩ := hs
    unfold usub at hk
    split at hk
    · cases hk; cases hs
      simp only [ne_eq, List.cons.injEq, and_true]
      omega
    · cases hk

/-- A block for the counterexamples. -/
def sampleMi (size : Nat) (single intra : Bool) (r0 r1 : Int) : ModeInfo :=
  ⟨size, 0, 0, !intra, false, intra, single, 0, 0, r0, r1, 1, 2, [0, 0, 0], [0, 0, 0], [0, 0, 0], 0, 0, 0⟩

theorem C63_negation : ¬ C63_full ∧
    -- left neighbour 16×8 inter: its width 16 is compared with the height limit 16
    (let nb : Nbrs := ⟨none, some (sampleMi 5 true false 1 (-1)), none⟩
     ((Elem.txDepth 2 2 0).select nb).map (·.idx) = some [1] ∧ Ref.idx nb (.txDepth 2 2 0) = some [0]) ∧
    -- two blocks with both references on one side
    (let nb : Nbrs := ⟨some (sampleMi 3 false false 1 2), some (sampleMi 3 false false 1 2), none⟩
     ((Elem.compRefType 0).select nb).map (·.idx) = some [2] ∧ Ref.idx nb (.compRefType 0) = some [4]) ∧
    -- the left block's second reference is the current block's first one
    (let nb : Nbrs := ⟨none, some (sampleMi 3 false false 2 1), some (sampleMi 3 true false 1 (-1))⟩
     ((Elem.interpFilter 0 0).select nb).map (·.idx) = some [3] ∧ Ref.idx nb (.interpFilter 0 0) = some [1]) := by
  refine ⟨fun h => ?_, by decide, by decide, by decide⟩
  obtain ⟨s, h1, h2⟩ := h (.cflAlphaU 0 3) ⟨none, none, none⟩ [2 - 1] ⟨nofun, nofun, nofun⟩ ⟨by decide, by decide, by decide⟩ rfl
  exact (C63_cfl_never _ 0 3 (by decide) [1]).1 rfl (by decide) s h1 h2

/-- **C60**, exactly: the mode of a chroma block is the one element whose table depends on the value, and there every value has
its own. -/
theorem C60_iff (e : Elem) (nb : Nbrs) (v w : Nat) (hs : (e.select nb).isSome) :
    (e.setValue v).table nb = (e.setValue w).table nb ↔ v = w ∨ ∀ a b c d f, e ≠ .uvMode a b c d f := by
  by_cases he : ∀ a b c d f, e ≠ .uvMode a b c d f
  · exact ⟨fun _ => .inr he, fun _ => C60_value_free_partial e nb v w he⟩
  · constructor
    · intro h
      left
      simp only [not_forall, ne_eq, not_not] at he
      obtain ⟨a, b, c, d, f, rfl⟩ := he
      simp only [Elem.select, Sel.uvMode, Option.bind_eq_bind] at hs
      cases hc : Sel.cflTables b c d f with
      | none => rw [hc] at hs; simp at hs
      | some k => simpa [Elem.table, Elem.setValue, Elem.select, Sel.uvMode, hc] using h
    · rintro (rfl | h)
      · rfl
      · exact absurd h he

/-- **C61**, the exact condition: the table of the partition symbol is the right one for 128×128 alone. -/
theorem C61_iff (bs w : Nat) (above left : Bool) (p : Nat) (s : Sel) (hd : blockDims[bs]? = some (w, w)) (hw : 8 ≤ w)
    (hs : Sel.partition bs above left p = some s) : s.fam.name = (av1PartitionFam w).name ↔ w = 128 := by
  have hb : bs < 22 := (List.getElem?_eq_some_iff.1 hd).1
  have key : ∀ bs : Fin 22, ∀ d, blockDims[(bs : Nat)]? = some d → d.1 = d.2 → 8 ≤ d.1 →
      (bs : Nat) = 3 ∧ d.1 = 8 ∨ (bs : Nat) = 6 ∧ d.1 = 16 ∨ (bs : Nat) = 9 ∧ d.1 = 32 ∨ (bs : Nat) = 12 ∧ d.1 = 64 ∨
        (bs : Nat) = 15 ∧ d.1 = 128 := by decide +kernel
  have h := C61_wrong above left p
  rcases key ⟨bs, hb⟩ (w, w) hd rfl hw with ⟨e1, e2⟩ | ⟨e1, e2⟩ | ⟨e1, e2⟩ | ⟨e1, e2⟩ | ⟨e1, e2⟩ <;>
    dsimp only at e1 e2 <;> subst e1 <;> subst e2
  · have := h.1; rw [hs] at this; injection this with this; beta_reduce at this; rw [this]; decide
  · have := h.2.1; rw [hs] at this; injection this with this; beta_reduce at this; rw [this]; decide
  · have := h.2.2.1; rw [hs] at this; injection this with this; beta_reduce at this; rw [this]; decide
  · have := h.2.2.2; rw [hs] at this; injection this with this; beta_reduce at this; rw [this]; decide
  · obtain ⟨s', h1, _, h3⟩ := C61_128_partial above left p
    rw [hs] at h1; cases h1
    exact iff_of_true h3 rfl

end Av1
