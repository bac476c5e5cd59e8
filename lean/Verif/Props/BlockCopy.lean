import Verif.Props.BlockInfo

/-! # C118 — intra block copy and joint types

A vector of AV1 is a pair (row, column).  The code's vectors have components `x` and `y`; which is which shows only in what
the code does with them. -/

namespace Av1

/-! ### Specification (AV1 5.11.26, 6.10.25) -/

/-- Prediction of an intra block copy vector from the first two candidates, (row, column) in 1/8 samples. -/
def Ref.copyPred (v0 v1 : Int × Int) (miRow rowStart sb4 : Int) : Int × Int :=
  if v0 ≠ (0, 0) then v0
  else if v1 ≠ (0, 0) then v1
  else if miRow - sb4 < rowStart then (0, -(sb4 * 4 + 256) * 8)
  else (-(sb4 * 4 * 8), 0)

/-- Joint type of a difference (row, column): 1 if only the column, 2 if only the row, 3 if both differ. -/
def Ref.joint (d : Int × Int) : Nat := (if d.2 ≠ 0 then 1 else 0) + (if d.1 ≠ 0 then 2 else 0)

/-- (row, column) of a vector when `x` is the row, or when it is the column. -/
def Mv.rc (swap : Bool) (m : Mv) : Int × Int := if swap then (m.y, m.x) else (m.x, m.y)

/-- Height of a superblock in units of 4. -/
def sbHigh (use128 : Bool) : Nat := if use128 then 32 else 16

/-! ### Theorems -/

/-- C118 in full, for one reading of the components: intra block copy predictions exist and are AV1's, and so are the joint
types. -/
def C118_full (swap : Bool) : Prop :=
  (∀ (a : AssignEnv) (p0 p1 : Mv × Mv), a.refs[0]? = some p0 → a.refs[1]? = some p1 → a.rowStart ≤ a.miRow →
    ∃ m, intrabcPred a = some m ∧
      m.rc swap = Ref.copyPred (p0.1.rc swap) (p1.1.rc swap) a.miRow a.rowStart (sbHigh a.use128)) ∧
  ∀ d : Mv, mvJointOf d = Ref.joint (d.rc swap)

theorem rc_zero (m : Mv) : m.rc swap = (0, 0) ↔ m = ⟨0, 0⟩ := by
  unfold Mv.rc
  cases m
  cases swap <;> simp [and_comm]

/-- With `x` as the row, every prediction that is computed is AV1's. -/
theorem C118_row_partial (a : AssignEnv) (p0 p1 : Mv × Mv) (m : Mv) (h0 : a.refs[0]? = some p0) (h1 : a.refs[1]? = some p1)
    (h : intrabcPred a = some m) :
    m.rc false = Ref.copyPred (p0.1.rc false) (p1.1.rc false) a.miRow a.rowStart (sbHigh a.use128) := by
  unfold intrabcPred at h
  rw [h0, h1] at h
  simp only [Option.bind_eq_bind, Option.map_some, Option.bind_some] at h
  unfold Ref.copyPred
  simp only [ne_eq, rc_zero]
  by_cases e0 : p0.1 = ⟨0, 0⟩
  · rw [if_neg (not_not.2 e0)] at h
    rw [if_neg (not_not.2 e0)]
    by_cases e1 : p1.1 = ⟨0, 0⟩
    · rw [if_neg (not_not.2 e1)] at h
      rw [if_neg (not_not.2 e1)]
      have hsb : K.num_4x4_blocks_high[if a.use128 = true then K.BLOCK_128X128 else K.BLOCK_64X64]? = some (sbHigh a.use128) := by
        cases a.use128 <;> rfl
      rw [hsb, Option.bind_some] at h
      obtain ⟨top, ht, h⟩ := Option.bind_eq_some_iff.1 h
      have htop : (top : Int) = a.miRow - sbHigh a.use128 := by
        unfold usub at ht
        split at ht
        · cases ht; omega
        · cases ht
      split at h
      next hlt =>
        cases h
        rw [if_pos (by omega)]
        show ((0 : Int), _) = _
        congr 1
      next hlt =>
        cases h
        rw [if_neg (by omega)]
        show (_, (0 : Int)) = _
        congr 1
    · rw [if_pos e1] at h
      rw [if_pos e1]
      cases h; rfl
  · rw [if_pos e0] at h
    rw [if_pos e0]
    cases h; rfl

/-- Exactly when a prediction is computed: not in the first superblock row unless a candidate is there. -/
theorem C118_defined_iff (a : AssignEnv) (p0 p1 : Mv × Mv) (h0 : a.refs[0]? = some p0) (h1 : a.refs[1]? = some p1) :
    (intrabcPred a).isSome ↔ p0.1 ≠ ⟨0, 0⟩ ∨ p1.1 ≠ ⟨0, 0⟩ ∨ sbHigh a.use128 ≤ a.miRow := by
  unfold intrabcPred
  rw [h0, h1]
  simp only [Option.bind_eq_bind, Option.map_some, Option.bind_some]
  by_cases e0 : p0.1 = ⟨0, 0⟩
  · rw [if_neg (not_not.2 e0)]
    by_cases e1 : p1.1 = ⟨0, 0⟩
    · rw [if_neg (not_not.2 e1)]
      have hsb : K.num_4x4_blocks_high[if a.use128 = true then K.BLOCK_128X128 else K.BLOCK_64X64]? = some (sbHigh a.use128) := by
        cases a.use128 <;> rfl
      rw [hsb, Option.bind_some]
      unfold usub
      by_cases hle : sbHigh a.use128 ≤ a.miRow
      · rw [if_pos hle, Option.bind_some]
        simp only [hle, or_true, iff_true]
        split <;> rfl
      · rw [if_neg hle]
        simp [e0, e1, hle]
    · rw [if_pos e1]; simp [e1]
  · rw [if_pos e0]; simp [e0]

/-- With `x` as the column, every joint type is AV1's. -/
theorem C118_joint_partial (d : Mv) : mvJointOf d = Ref.joint (d.rc true) := by
  unfold mvJointOf Ref.joint Mv.rc
  by_cases h1 : d.x = 0 <;> by_cases h2 : d.y = 0 <;> simp [h1, h2, K.MV_JOINT_ZERO, K.MV_JOINT_HZVNZ,
            K.MV_JOINT_HNZVZ, K.MV_JOINT_HNZVNZ]

/-- With `x` as the row, it is wrong exactly when one component differs and the other does not. -/
theorem C118_joint_wrong (d : Mv) : mvJointOf d = Ref.joint (d.rc false) ↔ (d.x = 0 ↔ d.y = 0) := by
  unfold mvJointOf Ref.joint Mv.rc
  by_cases h1 : d.x = 0 <;> by_cases h2 : d.y = 0 <;> simp [h1, h2, K.MV_JOINT_ZERO, K.MV_JOINT_HZVNZ,
            K.MV_JOINT_HNZVZ, K.MV_JOINT_HNZVNZ]

/-- With `x` as the column, every prediction that is computed without a candidate points the wrong way. -/
theorem C118_column_wrong (a : AssignEnv) (p0 p1 : Mv × Mv) (m : Mv) (h0 : a.refs[0]? = some p0) (h1 : a.refs[1]? = some p1)
    (z0 : p0.1 = ⟨0, 0⟩) (z1 : p1.1 = ⟨0, 0⟩) (h : intrabcPred a = some m) :
    m.rc true ≠ Ref.copyPred (p0.1.rc true) (p1.1.rc true) a.miRow a.rowStart (sbHigh a.use128) := by
  have hr := C118_row_partial a p0 p1 m h0 h1 h
  unfold Ref.copyPred at hr ⊢
  simp only [ne_eq, rc_zero, z0, z1, not_true_eq_false, if_false] at hr ⊢
  unfold Mv.rc at hr ⊢
  simp only [Bool.false_eq_true, if_false, if_true] at hr ⊢
  have hs : sbHigh a.use128 = 32 ∨ sbHigh a.use128 = 16 := by cases a.use128 <;> simp [sbHigh]
  split at hr
  next hlt =>
    rw [if_pos hlt]
    simp only [Prod.mk.injEq] at hr ⊢
    omega
  next hlt =>
    rw [if_neg hlt]
    simp only [Prod.mk.injEq] at hr ⊢
    omega

/-- A block in the second superblock row. -/
def copyEnv : AssignEnv := ⟨0, 0, 0, List.replicate 8 (⟨0, 0⟩, ⟨0, 0⟩), (⟨0, 0⟩, ⟨0, 0⟩), false, 20, 0⟩

example : intrabcPred copyEnv = some ⟨-512, 0⟩ ∧ intrabcPred { copyEnv with rowStart := 16 } = some ⟨0, -2560⟩ ∧
    intrabcPred { copyEnv with miRow := 4 } = none := by decide

theorem C118_negation (swap : Bool) : ¬ C118_full swap := by
  rintro ⟨h1, h2⟩
  cases swap with
  | false => exact absurd ((C118_joint_wrong ⟨1, 0⟩).1 (h2 ⟨1, 0⟩)) (by decide)
  | true =>
    obtain ⟨m, hm, hx⟩ := h1 copyEnv _ _ rfl rfl (by decide)
    exact C118_column_wrong copyEnv _ _ m rfl rfl rfl rfl hm hx

/-- The deltas of a superblock are written exactly when they are due and the block is not a skipped whole superblock. -/
theorem C74_deltas_due (e : ModeEnv) (b : Blk) (st st' : ModeState) (es : List Syn) (h : deltaQPart e b st = some (es, st')) :
    es ≠ [] ↔ st.readDeltas = true ∧ ¬ (blockDims[b.bsize]? = some (if e.use128 then (128, 128) else (64, 64)) ∧ b.skip = true) := by
  have hsize : blockDims[b.bsize]? = some (if e.use128 then (128, 128) else (64, 64)) ↔
      b.bsize = if e.use128 then K.BLOCK_128X128 else K.BLOCK_64X64 := by
    by_cases hb : b.bsize < 22
    · have : ∀ (x : Fin 22) (u : Bool), blockDims[(x : Nat)]? = some (if u then (128, 128) else (64, 64)) ↔
          (x : Nat) = if u then K.BLOCK_128X128 else K.BLOCK_64X64 := by decide +kernel
      exact this ⟨b.bsize, hb⟩ e.use128
    · rw [List.getElem?_eq_none (by show 22 ≤ b.bsize; omega)]
      have : ¬ b.bsize = if e.use128 then K.BLOCK_128X128 else K.BLOCK_64X64 := by
        cases e.use128 <;> simp [K.BLOCK_128X128, K.BLOCK_64X64] <;> omega
      simp [this]
  rw [hsize]
  unfold deltaQPart at h
  have hd : e.deltasFor b st = true ↔
      (st.readDeltas = true ∧ ¬ (b.bsize = (if e.use128 then K.BLOCK_128X128 else K.BLOCK_64X64) ∧ b.skip = true)) := by
    unfold ModeEnv.deltasFor
    simp only [Bool.and_eq_true, Bool.not_eq_true', Bool.and_eq_false_iff, decide_eq_false_iff_not]
    constructor
    · rintro ⟨h1, h2⟩
      refine ⟨h2, ?_⟩
      rintro ⟨h3, h4⟩
      rcases h1 with h1 | h1
      · exact h1 h3
      · rw [h4] at h1; cases h1
    · rintro ⟨h1, h2⟩
      refine ⟨?_, h1⟩
      by_cases h3 : b.bsize = if e.use128 then K.BLOCK_128X128 else K.BLOCK_64X64
      · right
        cases hk : b.skip with
        | false => rfl
        | true => exact absurd ⟨h3, hk⟩ h2
      · exact Or.inl h3
  rw [← hd]
  by_cases hx : e.deltasFor b st = true
  · rw [if_pos hx] at h
    simp only [Option.bind_eq_bind] at h
    obtain ⟨d0, -, h⟩ := Option.bind_eq_some_iff.1 h
    obtain ⟨d, -, h⟩ := Option.bind_eq_some_iff.1 h
    obtain ⟨q, hq, h⟩ := Option.bind_eq_some_iff.1 h
    cases h
    simp only [hx, iff_true]
    unfold deltaQSyn deltaSyn at hq
    intro h0
    subst h0
    repeat' split at hq
    all_goals simp at hq
  · rw [if_neg hx] at h
    cases h
    simp [hx]

end Av1
