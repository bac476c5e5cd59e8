import Verif.Props.ModeInfo

/-!
# Mode info of whole blocks: motion vectors (C71), CDEF index (C72, C75), conformance (C73), deltas once (C74)
-/

namespace Av1

/-! ## C71 — motion vectors -/

/-- The elements of a vector difference in AV1. -/
def isMvElem : Elem → Bool
  | .mvJoint _ _ | .mvSign _ _ _ | .mvClass _ _ _ | .mvClass0Bit _ _ _ | .mvClass0Fr _ _ _ _ | .mvClass0Hp _ _ _
  | .mvFr _ _ _ | .mvHp _ _ _ | .mvBit _ _ _ _ => true
  | _ => false

/-- C71 in full: blocks that differ only in a freely chosen motion vector are written differently. -/
def C71_full : Prop :=
  ∀ (a : AssignEnv) (b : Blk) (pred : Mv × Mv) (m m' : Mv) (es : List Elem) (p p' : Mv × Mv) (b1 b2 : Blk), a.yMode = 17 →
    b.useIntrabc = false →
    assignMv a false { b with mvs := (m, b.mvs.2) } pred = some (es, p, b1) →
    assignMv a false { b with mvs := (m', b.mvs.2) } pred = some (es, p', b2) → m = m'

/-- A single new vector: the prediction, then the joint type of the difference. -/
theorem assignMv_new (a : AssignEnv) (b : Blk) (pred : Mv × Mv) (m : Mv) (hy : a.yMode = 17) (hb : b.useIntrabc = false) :
    assignMv a false { b with mvs := (m, b.mvs.2) } pred =
      (predMv a false { b with mvs := (m, b.mvs.2), compoundMode := 17 } pred).bind fun q => (m.sub q.1).bind fun d =>
        some ([.mvJoint (mvJointOf d) 0], q, { b with mvs := (m, b.mvs.2), compoundMode := 17 }) := by
  unfold assignMv assignStep
  simp only [hb, Bool.false_eq_true, if_false, hy]
  have : getMode 17 false = 17 := by decide
  rw [this]
  simp only [Option.bind_eq_bind, Option.bind_assoc]
  generalize predMv a false _ pred = q
  cases q with
  | none => rfl
  | some q =>
    simp only [Option.bind_some, show (17 = K.NEWMV) = True from by simp [K.NEWMV], if_true]
    cases m.sub q.1 <;> rfl

/-- What is written for a vector depends only on which components differ from the prediction. -/
theorem C71_only_joint (a : AssignEnv) (b : Blk) (pred : Mv × Mv) (m : Mv) (es : List Elem) (p : Mv × Mv) (b1 : Blk)
    (hy : a.yMode = 17) (hb : b.useIntrabc = false)
    (h : assignMv a false { b with mvs := (m, b.mvs.2) } pred = some (es, p, b1)) :
    ∃ j, es = [.mvJoint j 0] ∧ (j = 0 ↔ m.x = p.1.x ∧ m.y = p.1.y) ∧ b1.mvs.1 = m ∧
      ∀ m' : Mv, (m'.x = p.1.x ↔ m.x = p.1.x) → (m'.y = p.1.y ↔ m.y = p.1.y) → m'.sub p.1 ≠ none →
        ∃ b2, assignMv a false { b with mvs := (m', b.mvs.2) } pred = some (es, p, b2) := by
  have key := fun m => assignMv_new a b pred m hy hb
  have hpred : ∀ m m' : Mv, predMv a false { b with mvs := (m, b.mvs.2), compoundMode := 17 } pred =
      predMv a false { b with mvs := (m', b.mvs.2), compoundMode := 17 } pred := fun _ _ => rfl
  rw [key] at h
  cases hq : predMv a false { b with mvs := (m, b.mvs.2), compoundMode := 17 } pred with
  | none => rw [hq] at h; cases h
  | some q =>
    rw [hq, Option.bind_some] at h
    cases hd : m.sub q.1 with
    | none => rw [hd] at h; cases h
    | some d =>
      rw [hd, Option.bind_some] at h
      simp only [Option.some.injEq, Prod.mk.injEq] at h
      obtain ⟨rfl, rfl, rfl⟩ := h
      have hsub : ∀ {m d : Mv}, m.sub q.1 = some d → d.x = m.x - q.1.x ∧ d.y = m.y - q.1.y := by
        intro m d h
        unfold Mv.sub isize at h
        simp only [Option.bind_eq_bind] at h
        split at h
        · simp only [Option.bind_some] at h
          split at h
          · simp only [Option.bind_some, Option.some.injEq] at h
            rw [← h]; exact ⟨rfl, rfl⟩
          · cases h
        · cases h
      obtain ⟨hx, hy'⟩ := hsub hd
      refine ⟨mvJointOf d, rfl, ?_, rfl, ?_⟩
      · have : mvJointOf d = 0 ↔ d.x = 0 ∧ d.y = 0 := by
          unfold mvJointOf
          by_cases h1 : d.x = 0 <;> by_cases h2 : d.y = 0 <;> simp [h1, h2, K.MV_JOINT_ZERO, K.MV_JOINT_HZVNZ,
            K.MV_JOINT_HNZVZ, K.MV_JOINT_HNZVNZ]
        rw [this]
        constructor <;> rintro ⟨_, _⟩ <;> constructor <;> omega
      · intro m' e1 e2 hne
        rw [key, hpred m' m, hq, Option.bind_some]
        cases hd' : m'.sub q.1 with
        | none => exact absurd hd' hne
        | some d' =>
          obtain ⟨hx', hy''⟩ := hsub hd'
          have : mvJointOf d' = mvJointOf d := by
            unfold mvJointOf
            have z1 : d'.x = 0 ↔ d.x = 0 := by omega
            have z2 : d'.y = 0 ↔ d.y = 0 := by omega
            simp only [z1, z2]
          exact ⟨_, by rw [Option.bind_some, this]⟩

theorem C71_negation : ¬ C71_full := by
  intro h
  have := h ⟨17, 0, 0, [(⟨0, 0⟩, ⟨0, 0⟩)], (⟨0, 0⟩, ⟨0, 0⟩), false, 0, 0⟩ { bsize := 3 } (⟨0, 0⟩, ⟨0, 0⟩) ⟨1, 1⟩ ⟨2, 5⟩
    [.mvJoint 3 0] _ _ _ _ rfl rfl rfl rfl
  cases this

/-- A single new vector can be told from another by what is written exactly when they differ from the prediction in different
components: the joint type is 1 for a difference in `x` plus 2 for one in `y`, and there is nothing else. -/
theorem C71_told_iff (a : AssignEnv) (b : Blk) (pred : Mv × Mv) (m m' : Mv) (es es' : List Elem) (p p' : Mv × Mv) (b1 b2 : Blk)
    (hy : a.yMode = 17) (hb : b.useIntrabc = false)
    (h : assignMv a false { b with mvs := (m, b.mvs.2) } pred = some (es, p, b1))
    (h' : assignMv a false { b with mvs := (m', b.mvs.2) } pred = some (es', p', b2)) :
    p = p' ∧ es = [.mvJoint ((if m.x = p.1.x then 0 else 1) + (if m.y = p.1.y then 0 else 2)) 0] ∧
      (es = es' ↔ (m.x = p.1.x ↔ m'.x = p.1.x) ∧ (m.y = p.1.y ↔ m'.y = p.1.y)) := by
  have key : ∀ (m : Mv) (es : List Elem) (p : Mv × Mv) (b1 : Blk),
      assignMv a false { b with mvs := (m, b.mvs.2) } pred = some (es, p, b1) →
      predMv a false { b with compoundMode := 17 } pred = some p ∧
        es = [.mvJoint ((if m.x = p.1.x then 0 else 1) + (if m.y = p.1.y then 0 else 2)) 0] := by
    intro m es p b1 h
    rw [assignMv_new a b pred m hy hb] at h
    have hp : predMv a false { b with mvs := (m, b.mvs.2), compoundMode := 17 } pred =
        predMv a false { b with compoundMode := 17 } pred := rfl
    rw [hp] at h
    cases hq : predMv a false { b with compoundMode := 17 } pred with
    | none => rw [hq] at h; cases h
    | some q =>
      rw [hq, Option.bind_some] at h
      cases hd : m.sub q.1 with
      | none => rw [hd] at h; cases h
      | some d =>
        rw [hd] at h
        simp only [Option.bind_some, Option.some.injEq, Prod.mk.injEq] at h
        obtain ⟨rfl, rfl, rfl⟩ := h
        refine ⟨rfl, ?_⟩
        have hs : d.x = m.x - q.1.x ∧ d.y = m.y - q.1.y := by
          unfold Mv.sub isize at hd
          simp only [Option.bind_eq_bind] at hd
          split at hd
          · simp only [Option.bind_some] at hd
            split at hd
            · simp only [Option.bind_some, Option.some.injEq] at hd
              rw [← hd]; exact ⟨rfl, rfl⟩
            · cases hd
          · cases hd
        have z1 : d.x = 0 ↔ m.x = q.1.x := by omega
        have z2 : d.y = 0 ↔ m.y = q.1.y := by omega
        unfold mvJointOf
        by_cases h1 : m.x = q.1.x <;> by_cases h2 : m.y = q.1.y <;> simp [z1, z2, h1, h2, K.MV_JOINT_ZERO,
          K.MV_JOINT_HZVNZ, K.MV_JOINT_HNZVZ, K.MV_JOINT_HNZVNZ]
  obtain ⟨q1, e1⟩ := key m es p b1 h
  obtain ⟨q2, e2⟩ := key m' es' p' b2 h'
  have hpp : p = p' := by rw [q1] at q2; exact Option.some.inj q2
  subst hpp
  refine ⟨rfl, e1, ?_⟩
  rw [e1, e2]
  by_cases h1 : m.x = p.1.x <;> by_cases h2 : m.y = p.1.y <;> by_cases h3 : m'.x = p.1.x <;> by_cases h4 : m'.y = p.1.y <;>
    simp [h1, h2, h3, h4]

/-- Two vectors with the same components changed are written alike; with other components changed they are not. -/
example : ∃ p p' p'' b1 b2 b3,
    let a : AssignEnv := ⟨17, 0, 0, [(⟨0, 0⟩, ⟨0, 0⟩)], (⟨0, 0⟩, ⟨0, 0⟩), false, 0, 0⟩
    let b : Blk := { bsize := 3 }
    assignMv a false { b with mvs := (⟨1, 0⟩, b.mvs.2) } (⟨0, 0⟩, ⟨0, 0⟩) = some ([.mvJoint 1 0], p, b1) ∧
    assignMv a false { b with mvs := (⟨-7, 0⟩, b.mvs.2) } (⟨0, 0⟩, ⟨0, 0⟩) = some ([.mvJoint 1 0], p', b2) ∧
    assignMv a false { b with mvs := (⟨0, 4⟩, b.mvs.2) } (⟨0, 0⟩, ⟨0, 0⟩) = some ([.mvJoint 2 0], p'', b3) :=
  ⟨_, _, _, _, _, _, rfl, rfl, rfl⟩

/-- AV1's vector of a component whose mode takes it from the candidates. -/
def av1Predicted (mode found idx : Nat) (refs : List (Mv × Mv)) (glob : Mv) (second : Bool) : Option Mv :=
  if mode = 16 then some glob
  else (refs[if mode = 14 ∨ (mode = 17 ∧ found ≤ 1) then 0 else idx]?).map fun p => if second then p.2 else p.1

/-- AV1's split of a compound mode into the modes of its components. -/
def av1Modes : Nat → Nat × Nat
  | 18 => (14, 14) | 19 => (15, 15) | 20 => (14, 17) | 21 => (17, 14) | 22 => (15, 17) | 23 => (17, 15) | 24 => (16, 16)
  | 25 => (17, 17) | y => (y, y)

theorem getMode_eq : ∀ y, 14 ≤ y → y ≤ 25 → getMode y false = (av1Modes y).1 ∧ (18 ≤ y → getMode y true = (av1Modes y).2) := by
  intro y h1 h2
  have : ∀ y ∈ List.range' 14 12, getMode y false = (av1Modes y).1 ∧ (18 ≤ y → getMode y true = (av1Modes y).2) := by decide
  exact this y (by rw [List.mem_range'_1]; omega)

/-- C71, what holds: modes that take the vector from the candidates write nothing, and give the block the vector AV1 gives
it. -/
theorem C71_predicted_partial (a : AssignEnv) (b : Blk) (pred : Mv × Mv) (hy : a.yMode = 14 ∨ a.yMode = 15 ∨ a.yMode = 16)
    (hb : b.useIntrabc = false) :
    match av1Predicted a.yMode a.found a.refMvIdx a.refs a.globalMvs.1 false with
    | none => assignMv a false b pred = none
    | some v => ∃ p b', assignMv a false b pred = some ([], p, b') ∧ b'.mvs = (v, b.mvs.2) := by
  have hm : getMode a.yMode false = a.yMode := by
    rcases hy with h | h | h <;> rw [h] <;> rfl
  have hn : ¬ a.yMode = K.NEWMV := by rcases hy with h | h | h <;> rw [h] <;> decide
  have e1 : assignMv a false b pred = (predMv a false { b with compoundMode := a.yMode } pred).bind fun q =>
      some ([], q, { b with compoundMode := a.yMode, mvs := (q.1, b.mvs.2) }) := by
    unfold assignMv assignStep
    simp only [hb, Bool.false_eq_true, if_false, hm, Option.bind_eq_bind, Option.bind_assoc, hn, Option.bind_some]
    rfl
  rw [e1]
  unfold predMv av1Predicted
  simp only [hb, Bool.false_eq_true, if_false]
  by_cases h16 : a.yMode = 16
  · rw [if_pos h16, if_pos (show a.yMode = K.GLOBALMV from h16)]
    exact ⟨_, _, rfl, rfl⟩
  · rw [if_neg h16, if_neg (show ¬ a.yMode = K.GLOBALMV from h16)]
    have hpos : (if (a.yMode = K.NEWMV ∧ a.found ≤ 1) ∨ a.yMode = K.NEARESTMV then 0 else a.refMvIdx) =
        if a.yMode = 14 ∨ (a.yMode = 17 ∧ a.found ≤ 1) then 0 else a.refMvIdx := by
      have : ((a.yMode = K.NEWMV ∧ a.found ≤ 1) ∨ a.yMode = K.NEARESTMV) ↔ (a.yMode = 14 ∨ (a.yMode = 17 ∧ a.found ≤ 1)) := by
        show ((a.yMode = 17 ∧ a.found ≤ 1) ∨ a.yMode = 14) ↔ _
        exact Or.comm
      simp only [this]
    rw [hpos]
    cases a.refs[if a.yMode = 14 ∨ (a.yMode = 17 ∧ a.found ≤ 1) then 0 else a.refMvIdx]? with
    | none => rfl
    | some q => exact ⟨_, _, rfl, rfl⟩

example : assignMv ⟨15, 2, 1, [(⟨0, 0⟩, ⟨0, 0⟩), (⟨8, 4⟩, ⟨0, 0⟩)], (⟨0, 0⟩, ⟨0, 0⟩), false, 0, 0⟩ false { bsize := 3 }
    (⟨0, 0⟩, ⟨0, 0⟩) = some ([], (⟨8, 4⟩, ⟨0, 0⟩), { bsize := 3, compoundMode := 15, mvs := (⟨8, 4⟩, ⟨0, 0⟩) }) := by rfl

/-- A round that takes or predicts a vector, with AV1's prediction. -/
theorem assignStep_eq (a : AssignEnv) (second : Bool) (b : Blk) (pred : Mv × Mv) (v : Mv) (hb : b.useIntrabc = false)
    (hp : av1Predicted (getMode a.yMode second) a.found a.refMvIdx a.refs (if second then a.globalMvs.2 else a.globalMvs.1)
      second = some v) :
    assignStep a second b pred =
      let p := if second then (pred.1, v) else (v, pred.2)
      if getMode a.yMode second = 17 then (b.mvs.1.sub p.1).bind fun d =>
        some ([.mvJoint (mvJointOf d) 0], p, { b with compoundMode := getMode a.yMode second })
      else some ([], p, { b with compoundMode := getMode a.yMode second,
                                 mvs := if second then (b.mvs.1, v) else (v, b.mvs.2) }) := by
  have e1 : predMv a second { b with compoundMode := getMode a.yMode second } pred =
      some (if second then (pred.1, v) else (v, pred.2)) := by
    unfold predMv
    unfold av1Predicted at hp
    simp only [hb, Bool.false_eq_true, if_false]
    by_cases h16 : getMode a.yMode second = 16
    · rw [if_pos h16] at hp
      rw [if_pos (show getMode a.yMode second = K.GLOBALMV from h16), ← Option.some.inj hp]
      cases second <;> rfl
    · rw [if_neg h16] at hp
      rw [if_neg (show ¬ getMode a.yMode second = K.GLOBALMV from h16)]
      have : ((getMode a.yMode second = K.NEWMV ∧ a.found ≤ 1) ∨ getMode a.yMode second = K.NEARESTMV) ↔
          (getMode a.yMode second = 14 ∨ (getMode a.yMode second = 17 ∧ a.found ≤ 1)) := by
        show ((getMode a.yMode second = 17 ∧ a.found ≤ 1) ∨ getMode a.yMode second = 14) ↔ _
        exact Or.comm
      simp only [this]
      obtain ⟨q, hq, rfl⟩ := Option.map_eq_some_iff.1 hp
      rw [hq]
      cases second <;> rfl
  simp only [hb] at e1
  unfold assignStep
  simp only [hb, Bool.false_eq_true, if_false, e1, Option.bind_eq_bind, Option.bind_some]
  by_cases h17 : getMode a.yMode second = 17
  · rw [if_pos (show getMode a.yMode second = K.NEWMV from h17), if_pos h17]
  · rw [if_neg (show ¬ getMode a.yMode second = K.NEWMV from h17), if_neg h17]
    cases second <;> rfl

theorem Mv.sub_self_eq (v : Mv) : v.sub v = some ⟨0, 0⟩ := by
  have : isizeOk 0 = true := by decide
  simp [Mv.sub, isize, this]

/-- **C71** for two references: each vector that a mode takes from the candidates is AV1's, and the others stay as they were.
What is written tells nothing of the second vector: for each new vector there is the joint type of the difference of the
*first* (zero when the first is predicted). -/
theorem C71_compound_partial (a : AssignEnv) (b : Blk) (pred : Mv × Mv) (v0 v1 d : Mv) (h18 : 18 ≤ a.yMode)
    (h25 : a.yMode ≤ 25) (hb : b.useIntrabc = false)
    (h0 : av1Predicted (av1Modes a.yMode).1 a.found a.refMvIdx a.refs a.globalMvs.1 false = some v0)
    (h1 : av1Predicted (av1Modes a.yMode).2 a.found a.refMvIdx a.refs a.globalMvs.2 true = some v1)
    (hd : (if (av1Modes a.yMode).1 = 17 then b.mvs.1 else v0).sub v0 = some d) :
    ∃ b', assignMv a true b pred =
        some ((if (av1Modes a.yMode).1 = 17 then [.mvJoint (mvJointOf d) 0] else []) ++
          (if (av1Modes a.yMode).2 = 17 then [.mvJoint (mvJointOf d) 0] else []), (v0, v1), b') ∧
      b'.mvs = (if (av1Modes a.yMode).1 = 17 then b.mvs.1 else v0, if (av1Modes a.yMode).2 = 17 then b.mvs.2 else v1) := by
  obtain ⟨m0, m1⟩ := getMode_eq a.yMode (by omega) h25
  have m1 := m1 h18
  have s0 := assignStep_eq a false b pred v0 hb (by rw [m0]; exact h0)
  simp only [m0, Bool.false_eq_true, if_false] at s0
  unfold assignMv
  simp only [if_true, Option.bind_eq_bind]
  by_cases n0 : (av1Modes a.yMode).1 = 17
  · rw [if_pos n0] at hd s0
    rw [s0, hd, Option.bind_some, Option.bind_some]
    have s1 := assignStep_eq a true { b with compoundMode := (av1Modes a.yMode).1 } (v0, pred.2) v1 hb (by rw [m1]; exact h1)
    simp only [m1, if_true] at s1
    rw [s1]
    by_cases n1 : (av1Modes a.yMode).2 = 17
    · rw [if_pos n1, hd]
      simp only [Option.bind_some, if_pos n0, if_pos n1]
      exact ⟨_, rfl, rfl⟩
    · rw [if_neg n1]
      simp only [Option.bind_some, if_pos n0, if_neg n1, List.append_nil]
      exact ⟨_, rfl, rfl⟩
  · rw [if_neg n0] at hd s0
    rw [s0, Option.bind_some]
    have s1 := assignStep_eq a true { b with compoundMode := (av1Modes a.yMode).1, mvs := (v0, b.mvs.2) } (v0, pred.2) v1 hb
      (by rw [m1]; exact h1)
    simp only [m1, if_true] at s1
    rw [s1]
    by_cases n1 : (av1Modes a.yMode).2 = 17
    · rw [if_pos n1, hd]
      simp only [Option.bind_some, if_neg n0, if_pos n1, List.nil_append]
      exact ⟨_, rfl, rfl⟩
    · rw [if_neg n1]
      simp only [Option.bind_some, if_neg n0, if_neg n1, List.append_nil]
      exact ⟨_, rfl, rfl⟩

/-- A new second vector beside a predicted first one (NEAREST_NEWMV, NEAR_NEWMV) always has joint type "no difference", so
that a decoder takes the prediction for it, whatever it is. -/
theorem C71_second_lost (a : AssignEnv) (b : Blk) (pred : Mv × Mv) (v0 v1 : Mv) (hy : a.yMode = 20 ∨ a.yMode = 22)
    (hb : b.useIntrabc = false)
    (h0 : av1Predicted (av1Modes a.yMode).1 a.found a.refMvIdx a.refs a.globalMvs.1 false = some v0)
    (h1 : av1Predicted 17 a.found a.refMvIdx a.refs a.globalMvs.2 true = some v1) :
    ∃ b', assignMv a true b pred = some ([.mvJoint 0 0], (v0, v1), b') ∧ b'.mvs = (v0, b.mvs.2) := by
  have e : (av1Modes a.yMode).1 ≠ 17 ∧ (av1Modes a.yMode).2 = 17 := by rcases hy with h | h <;> rw [h] <;> decide
  obtain ⟨b', r1, r2⟩ := C71_compound_partial a b pred v0 v1 ⟨0, 0⟩ (by omega) (by omega) hb h0 (by rw [e.2]; exact h1)
    (by rw [if_neg e.1]; exact Mv.sub_self_eq v0)
  rw [if_neg e.1, if_pos e.2] at r1 r2
  exact ⟨b', r1, r2⟩

/-- NEAREST_NEWMV with second vector (7, 9) and prediction (4, 6): the difference (3, 3) is not told. -/
example : assignMv ⟨20, 2, 0, [(⟨1, 2⟩, ⟨4, 6⟩), (⟨8, 4⟩, ⟨0, 0⟩)], (⟨0, 0⟩, ⟨0, 0⟩), false, 0, 0⟩ true
    { bsize := 3, mvs := (⟨0, 0⟩, ⟨7, 9⟩) } (⟨0, 0⟩, ⟨0, 0⟩) =
    some ([.mvJoint 0 0], (⟨1, 2⟩, ⟨4, 6⟩), { bsize := 3, compoundMode := 17, mvs := (⟨1, 2⟩, ⟨7, 9⟩) }) := by rfl

/-! ## C72 — CDEF index -/

def cell (g : List (List Int)) (i j : Nat) : Option Int := (g[i]?).bind (·[j]?)

theorem setGrid_cell (g g' : List (List Int)) (i j : Nat) (v : Int) (h : setGrid g i j v = some g') (a b : Nat) :
    cell g' a b = if (a, b) = (i, j) then some v else cell g a b := by
  unfold setGrid at h
  cases hr : g[i]? with
  | none => simp [hr] at h
  | some row =>
    cases hc : row[j]? with
    | none => simp [hr, hc] at h
    | some c =>
      simp only [hr, hc, Option.bind_eq_bind, Option.bind_some, Option.some.injEq] at h
      subst h
      have hi : i < g.length := (List.getElem?_eq_some_iff.1 hr).1
      have hj : j < row.length := (List.getElem?_eq_some_iff.1 hc).1
      unfold cell
      rw [List.getElem?_set]
      by_cases ha : i = a
      · subst ha
        rw [if_pos rfl, if_pos hi, Option.bind_some, List.getElem?_set, hr, Option.bind_some]
        by_cases hb : j = b
        · subst hb; simp [hj]
        · rw [if_neg hb, if_neg (by simp; omega)]
      · rw [if_neg ha, if_neg (by simp; omega)]

theorem setGrids_cell (v : Int) (cells : List (Nat × Nat)) : ∀ (g g' : List (List Int)),
    cells.foldlM (fun g p => setGrid g p.1 p.2 v) g = some g' → ∀ a b, cell g' a b =
      if (a, b) ∈ cells then some v else cell g a b := by
  induction cells with
  | nil => intro g g' h a b; cases h; simp
  | cons p cells ih =>
    intro g g' h a b
    rw [List.foldlM_cons] at h
    cases hs : setGrid g p.1 p.2 v with
    | none => rw [hs] at h; cases h
    | some g1 =>
      rw [hs] at h
      rw [ih g1 g' h a b, setGrid_cell g g1 p.1 p.2 v hs a b]
      by_cases h1 : (a, b) ∈ cells
      · simp [h1]
      · by_cases h2 : (a, b) = p
        · simp [h1, h2]
        · rw [if_neg h1, if_neg h2, if_neg (by simp [h1, h2])]

theorem mem_steps (n k i : Nat) : i ∈ steps n k ↔ i < n ∧ i % k = 0 := by
  unfold steps; simp

/-- AV1 `read_cdef`: the cells that take the index of a block at (`miRow`, `miCol`) of `w` × `h` luma samples. -/
def av1CdefCell (miRow miCol w h i j : Nat) : Prop :=
  ∃ y x, i = miRow / 16 * 16 + 16 * y ∧ j = miCol / 16 * 16 + 16 * x ∧ 16 * y < h / 4 ∧ 16 * x < w / 4

/-- C72 in full: the index is recorded for the 64×64 areas of the block, and no others change. -/
def C72_full : Prop :=
  ∀ (bits miRow miCol : Nat) (b : Blk) (g g' : List (List Int)) (es : List Syn) (w h : Nat), blockDims[b.bsize]? = some (w, h) →
    cell g (miRow / 16 * 16) (miCol / 16 * 16) = some (-1) → cdefSyn bits miRow miCol b g = some (es, g') →
    ∀ i j, (av1CdefCell miRow miCol w h i j → cell g' i j = some b.cdefIdx) ∧
      (¬ av1CdefCell miRow miCol w h i j → cell g' i j = cell g i j)

theorem cdefSyn_cells (bits miRow miCol : Nat) (b : Blk) (g g' : List (List Int)) (es : List Syn)
    (hm : cell g (miRow / 16 * 16) (miCol / 16 * 16) = some (-1)) (hs : cdefSyn bits miRow miCol b g = some (es, g')) :
    ∃ w4 h4, K.num_4x4_blocks_wide[b.bsize]? = some w4 ∧ K.num_4x4_blocks_high[b.bsize]? = some h4 ∧
      es = [.lit (b.cdefIdx % 2 ^ 64).toNat bits] ∧
      ∀ i j, cell g' i j = if (i % 16 = 0 ∧ i < miRow / 16 * 16 + h4) ∧ (j % 16 = 0 ∧ j < miCol / 16 * 16 + w4) then
        some b.cdefIdx else cell g i j := by
  unfold cdefSyn at hs
  have h64 : K.num_4x4_blocks_wide[K.BLOCK_64X64]? = some 16 := by decide
  rw [h64] at hs
  simp only [Option.bind_eq_bind, Option.bind_some] at hs
  unfold cell at hm
  cases hr : g[miRow / 16 * 16]? with
  | none => rw [hr] at hm; cases hm
  | some row =>
    rw [hr, Option.bind_some] at hm
    simp only [hr, hm, Option.bind_some, if_true] at hs
    cases hw : K.num_4x4_blocks_wide[b.bsize]? with
    | none => rw [hw] at hs; cases hs
    | some w4 =>
      cases hh : K.num_4x4_blocks_high[b.bsize]? with
      | none => rw [hw, hh] at hs; cases hs
      | some h4 =>
        rw [hw, hh] at hs
        simp only [Option.bind_some] at hs
        refine ⟨w4, h4, rfl, rfl, ?_⟩
        generalize hcells : ((steps (miRow / 16 * 16 + h4) 16).flatMap fun i =>
          (steps (miCol / 16 * 16 + w4) 16).map fun j => (i, j)) = cells at hs
        cases hf : cells.foldlM (fun g p => setGrid g p.1 p.2 b.cdefIdx) g with
        | none => rw [hf] at hs; cases hs
        | some g1 =>
          rw [hf, Option.bind_some] at hs
          simp only [Option.some.injEq, Prod.mk.injEq] at hs
          obtain ⟨rfl, rfl⟩ := hs
          refine ⟨rfl, fun i j => ?_⟩
          rw [setGrids_cell b.cdefIdx cells g g1 hf i j]
          have : (i, j) ∈ cells ↔ (i % 16 = 0 ∧ i < miRow / 16 * 16 + h4) ∧ (j % 16 = 0 ∧ j < miCol / 16 * 16 + w4) := by
            rw [← hcells]
            simp only [List.mem_flatMap, List.mem_map, mem_steps, Prod.mk.injEq]
            constructor
            · rintro ⟨a, ⟨h1, h2⟩, c, ⟨h3, h4⟩, rfl, rfl⟩
              exact ⟨⟨h2, h1⟩, h4, h3⟩
            · rintro ⟨⟨h1, h2⟩, h3, h4⟩
              exact ⟨i, ⟨h2, h1⟩, j, ⟨h4, h3⟩, rfl, rfl⟩
          simp only [this]

/-- Sizes at which the table of widths is right (C45: it is wrong for blocks 16 wide) or at least rounds to the same number of
64-columns. -/
theorem cdef_dims : ∀ bs < 22, ∀ wh ∈ blockDims[bs]?, ∀ a ∈ K.num_4x4_blocks_wide[bs]?, ∀ c ∈ K.num_4x4_blocks_high[bs]?,
    c = wh.2 / 4 ∧ (a = wh.1 / 4 ∨ (a = 3 ∧ wh.1 = 16)) := by decide

/-- C72, what holds: the block's own areas get the index, the index is the literal written, and of the other cells only
areas above or to the left of the block's corner change. -/
theorem C72_own_partial (bits miRow miCol : Nat) (b : Blk) (g g' : List (List Int)) (es : List Syn) (w h : Nat)
    (hd : blockDims[b.bsize]? = some (w, h)) (hm : cell g (miRow / 16 * 16) (miCol / 16 * 16) = some (-1))
    (hs : cdefSyn bits miRow miCol b g = some (es, g')) (i j : Nat) :
    es = [.lit (b.cdefIdx % 2 ^ 64).toNat bits] ∧ (av1CdefCell miRow miCol w h i j → cell g' i j = some b.cdefIdx) ∧
    (miRow / 16 * 16 ≤ i → miCol / 16 * 16 ≤ j → ¬ av1CdefCell miRow miCol w h i j → cell g' i j = cell g i j) ∧
    (miRow / 16 * 16 + h / 4 ≤ i ∨ miCol / 16 * 16 + w / 4 ≤ j → cell g' i j = cell g i j) := by
  obtain ⟨w4, h4, hw, hh, he, hc⟩ := cdefSyn_cells bits miRow miCol b g g' es hm hs
  have hb : b.bsize < 22 := by
    by_contra hn
    rw [List.getElem?_eq_none (by show blockDims.length ≤ _; have : blockDims.length = 22 := rfl; omega)] at hd
    cases hd
  obtain ⟨e1, e2⟩ := cdef_dims b.bsize hb (w, h) hd w4 hw h4 hh
  dsimp only at e1 e2
  refine ⟨he, ?_, ?_, ?_⟩
  · rintro ⟨y, x, rfl, rfl, hy, hx⟩
    rw [hc, if_pos]
    refine ⟨⟨by omega, by omega⟩, by omega, ?_⟩
    rcases e2 with e2 | ⟨e2, e3⟩ <;> omega
  · intro hi hj hn
    rw [hc, if_neg]
    rintro ⟨⟨p1, p2⟩, p3, p4⟩
    refine hn ⟨(i - miRow / 16 * 16) / 16, (j - miCol / 16 * 16) / 16, ?_, ?_, ?_, ?_⟩ <;>
      rcases e2 with e2 | ⟨e2, e3⟩ <;> omega
  · intro ho
    rw [hc, if_neg]
    rintro ⟨⟨p1, p2⟩, p3, p4⟩
    rcases e2 with e2 | ⟨e2, e3⟩ <;> omega

/-- The second 64×64 superblock of a row changes the index of the first. -/
theorem C72_negation : ¬ C72_full := by
  intro h
  have h1 : cdefSyn 2 0 16 { bsize := 12, cdefIdx := 3 } [2 :: List.replicate 15 0 ++ [-1]] =
      some ([.lit 3 2], [3 :: List.replicate 15 0 ++ [3]]) := by rfl
  have := (h 2 0 16 { bsize := 12, cdefIdx := 3 } _ _ _ 64 64 rfl rfl h1 0 0).2 (by
    rintro ⟨y, x, h1, h2, h3, h4⟩
    omega)
  cases this

/-- Every such block with a corner away from the frame's overwrites the index at (0, 0). -/
theorem C72_wrong (bits miRow miCol : Nat) (b : Blk) (g g' : List (List Int)) (es : List Syn) (hb : b.bsize < 22)
    (hm : cell g (miRow / 16 * 16) (miCol / 16 * 16) = some (-1)) (hs : cdefSyn bits miRow miCol b g = some (es, g')) :
    cell g' 0 0 = some b.cdefIdx := by
  obtain ⟨w4, h4, hw, hh, he, hc⟩ := cdefSyn_cells bits miRow miCol b g g' es hm hs
  have pos : ∀ bs < 22, ∀ a ∈ K.num_4x4_blocks_wide[bs]?, ∀ c ∈ K.num_4x4_blocks_high[bs]?, 0 < a ∧ 0 < c := by decide
  obtain ⟨p1, p2⟩ := pos b.bsize hb w4 hw h4 hh
  rw [hc, if_pos (by omega)]

/-- **C72**, exactly: the indices are AV1's afterwards iff all areas that the code overwrites beside the block's own had the
block's index before. -/
theorem C72_iff (bits miRow miCol : Nat) (b : Blk) (g g' : List (List Int)) (es : List Syn) (w h : Nat)
    (hd : blockDims[b.bsize]? = some (w, h)) (hm : cell g (miRow / 16 * 16) (miCol / 16 * 16) = some (-1))
    (hs : cdefSyn bits miRow miCol b g = some (es, g')) :
    (∀ i j, (av1CdefCell miRow miCol w h i j → cell g' i j = some b.cdefIdx) ∧
      (¬ av1CdefCell miRow miCol w h i j → cell g' i j = cell g i j)) ↔
    ∀ i j, i % 16 = 0 → j % 16 = 0 → i < miRow / 16 * 16 + h / 4 → j < miCol / 16 * 16 + w / 4 →
      (i < miRow / 16 * 16 ∨ j < miCol / 16 * 16) → cell g i j = some b.cdefIdx := by
  obtain ⟨w4, h4, hw, hh, he, hc⟩ := cdefSyn_cells bits miRow miCol b g g' es hm hs
  have hb : b.bsize < 22 := by
    by_contra hn
    rw [List.getElem?_eq_none (by show blockDims.length ≤ _; have : blockDims.length = 22 := rfl; omega)] at hd
    cases hd
  obtain ⟨e1, e2⟩ := cdef_dims b.bsize hb (w, h) hd w4 hw h4 hh
  dsimp only at e1 e2
  constructor
  · intro H i j hi hj hi2 hj2 ho
    have hn : ¬ av1CdefCell miRow miCol w h i j := by
      rintro ⟨y, x, rfl, rfl, hy, hx⟩; omega
    rw [← (H i j).2 hn, hc, if_pos]
    refine ⟨⟨hi, by omega⟩, hj, ?_⟩
    rcases e2 with e2 | ⟨e2, e3⟩ <;> omega
  · intro H i j
    obtain ⟨-, p1, p2, p3⟩ := C72_own_partial bits miRow miCol b g g' es w h hd hm hs i j
    refine ⟨p1, fun hn => ?_⟩
    by_cases ho : miRow / 16 * 16 ≤ i ∧ miCol / 16 * 16 ≤ j
    · exact p2 ho.1 ho.2 hn
    · rw [hc]
      split
      · rename_i hin
        rw [H i j hin.1.1 hin.2.1 (by omega) (by rcases e2 with e2 | ⟨e2, e3⟩ <;> omega) (by omega)]
      · rfl

/-! ## C75 — when the CDEF index is written -/

/-- AV1 `read_cdef`: is an index read for the block? -/
def av1CdefCoded (skip codedLossless enableCdef allowIntrabc : Bool) (cur : Int) : Bool :=
  !skip && !codedLossless && enableCdef && !allowIntrabc && decide (cur = -1)

/-- C75 in full: the index is written exactly when the decoder reads it. -/
def C75_full : Prop :=
  ∀ (e : ModeEnv) (b : Blk) (st st' : ModeState) (es : List Syn) (cur : Int),
    cell st.cdefIdx (e.miRow / 16 * 16) (e.miCol / 16 * 16) = some cur → cdefPart e b st = some (es, st') →
    (es ≠ [] ↔ av1CdefCoded b.skip e.codedLossless e.enableCdef e.allowIntrabc cur = true)

/-- The encoder's condition: the block's skip flag is not part of it. -/
theorem C75_condition (e : ModeEnv) (b : Blk) (st st' : ModeState) (es : List Syn) (cur : Int)
    (hc : cell st.cdefIdx (e.miRow / 16 * 16) (e.miCol / 16 * 16) = some cur) (h : cdefPart e b st = some (es, st')) :
    (es ≠ [] ↔ av1CdefCoded false e.codedLossless e.enableCdef e.allowIntrabc cur = true) ∧ es.length ≤ 1 := by
  unfold cdefPart at h
  unfold av1CdefCoded
  by_cases ho : (e.codedLossless || !e.enableCdef || e.allowIntrabc) = true
  · rw [if_pos ho] at h
    cases h
    simp only [ne_eq, not_true_eq_false, false_iff, List.length_nil, Nat.zero_le, and_true]
    revert ho
    cases e.codedLossless <;> cases e.enableCdef <;> cases e.allowIntrabc <;> simp
  · rw [if_neg ho] at h
    have hrest : (!false && !e.codedLossless && e.enableCdef && !e.allowIntrabc) = true := by
      revert ho
      cases e.codedLossless <;> cases e.enableCdef <;> cases e.allowIntrabc <;> simp
    rw [hrest]
    cases hs : cdefSyn e.cdefBits e.miRow e.miCol b st.cdefIdx with
    | none => rw [hs] at h; cases h
    | some p =>
      rw [hs] at h
      simp only [Option.map_some, Option.some.injEq, Prod.mk.injEq] at h
      obtain ⟨rfl, -⟩ := h
      by_cases hm : cur = -1
      · subst hm
        obtain ⟨_, _, _, _, he, _⟩ := cdefSyn_cells e.cdefBits e.miRow e.miCol b st.cdefIdx p.2 p.1 hc hs
        rw [he]
        simp
      · unfold cdefSyn at hs
        have h64 : K.num_4x4_blocks_wide[K.BLOCK_64X64]? = some 16 := by decide
        rw [h64] at hs
        simp only [Option.bind_eq_bind, Option.bind_some] at hs
        unfold cell at hc
        cases hr : st.cdefIdx[e.miRow / 16 * 16]? with
        | none => rw [hr] at hc; cases hc
        | some row =>
          rw [hr, Option.bind_some] at hc
          simp only [hr, hc, Option.bind_some, hm, if_false, Option.some.injEq] at hs
          rw [← hs]
          simp [hm]

/-- C75 for blocks with a residual. -/
theorem C75_coded_partial (e : ModeEnv) (b : Blk) (st st' : ModeState) (es : List Syn) (cur : Int) (hb : b.skip = false)
    (hc : cell st.cdefIdx (e.miRow / 16 * 16) (e.miCol / 16 * 16) = some cur) (h : cdefPart e b st = some (es, st')) :
    es ≠ [] ↔ av1CdefCoded b.skip e.codedLossless e.enableCdef e.allowIntrabc cur = true := by
  rw [hb]
  exact (C75_condition e b st st' es cur hc h).1

/-- A skipped block whose area has no index yet gets one in the stream that no decoder reads. -/
theorem C75_wrong (e : ModeEnv) (b : Blk) (st st' : ModeState) (es : List Syn) (hb : b.skip = true) (h1 : e.codedLossless = false)
    (h2 : e.enableCdef = true) (h3 : e.allowIntrabc = false)
    (hc : cell st.cdefIdx (e.miRow / 16 * 16) (e.miCol / 16 * 16) = some (-1)) (h : cdefPart e b st = some (es, st')) :
    es ≠ [] ∧ av1CdefCoded b.skip e.codedLossless e.enableCdef e.allowIntrabc (-1) = false := by
  refine ⟨(C75_condition e b st st' es _ hc h).1.2 (by rw [h1, h2, h3]; rfl), by rw [hb]; rfl⟩

/-- **C75**, exactly: the encoder and the decoder disagree about a block iff it is skipped, CDEF is in use, and its area has no
index yet. -/
theorem C75_iff (e : ModeEnv) (b : Blk) (st st' : ModeState) (es : List Syn) (cur : Int)
    (hc : cell st.cdefIdx (e.miRow / 16 * 16) (e.miCol / 16 * 16) = some cur) (h : cdefPart e b st = some (es, st')) :
    (es ≠ [] ↔ av1CdefCoded b.skip e.codedLossless e.enableCdef e.allowIntrabc cur = true) ↔
      ¬ (b.skip = true ∧ e.codedLossless = false ∧ e.enableCdef = true ∧ e.allowIntrabc = false ∧ cur = -1) := by
  rw [(C75_condition e b st st' es cur hc h).1]
  unfold av1CdefCoded
  cases b.skip <;> cases e.codedLossless <;> cases e.enableCdef <;> cases e.allowIntrabc <;> simp

theorem C75_negation : ¬ C75_full := by
  intro h
  have h1 : cdefPart { plainEnv with enableCdef := true } { bsize := 3, skip := true } plainState =
      some ([.lit 0 0], { plainState with cdefIdx := [[0]] }) := by rfl
  have := (h _ _ plainState _ _ (-1) rfl h1).1 (by simp)
  cases this

/-! ## C74 — deltas once per superblock -/

/-- The magnitude of a quantizer delta. -/
def Syn.isDeltaQ : Syn → Bool
  | .elem (.deltaQAbs _) => true
  | _ => false

/-- The magnitude of a loop filter delta. -/
def Syn.isDeltaLf : Syn → Bool
  | .elem (.deltaLfAbs _ _ _) => true
  | _ => false

/-- The magnitude symbol of a luma or chroma prediction mode. -/
def Syn.isIntraMode : Syn → Bool
  | .elem (.intraFrameYMode _ _ _) | .elem (.yMode _ _) | .elem (.uvMode _ _ _ _ _) => true
  | _ => false

/-- Elements that are neither deltas nor intra modes. -/
def Syn.plain (s : Syn) : Bool := !s.isDeltaQ && !s.isDeltaLf && !s.isIntraMode

theorem bind_pair {α β γ} {o : Option (α × β)} {f : α × β → Option γ} {r : γ} (h : o.bind f = some r) :
    ∃ a b, o = some (a, b) ∧ f (a, b) = some r := by
  cases o with
  | none => cases h
  | some p => exact ⟨p.1, p.2, rfl, h⟩

theorem plain_append {a b : List Syn} (ha : ∀ s ∈ a, s.plain = true) (hb : ∀ s ∈ b, s.plain = true) :
    ∀ s ∈ a ++ b, s.plain = true := by
  intro s hs
  rcases List.mem_append.1 hs with h | h
  · exact ha s h
  · exact hb s h

theorem segPart_plain (e : ModeEnv) (b b' : Blk) (es : List Syn) (h : segPart e b = some (es, b')) :
    ∀ s ∈ es, s.plain = true := by
  unfold segPart at h
  simp only [Option.bind_eq_bind] at h
  obtain ⟨es1, b1, h1, h2⟩ := bind_pair h
  have hes : es1 = es := by
    cases hl : e.losslessArray[b1.segId]? with
    | none => rw [hl] at h2; cases h2
    | some _ => rw [hl] at h2; cases h2; rfl
  subst hes
  unfold segCore at h1
  split at h1
  · cases hn : e.segNbrs with
    | none => simp [hn] at h1
    | some t =>
      obtain ⟨pu, pl, pul⟩ := t
      simp only [hn, Option.bind_eq_bind, Option.bind_some] at h1
      obtain ⟨el, id, h3, h4⟩ := bind_pair h1
      simp only [Option.some.injEq, Prod.mk.injEq] at h4
      rw [← h4.1]
      unfold segmentIdSyn at h3
      simp only [Bool.false_eq_true, if_false, Option.bind_eq_bind] at h3
      cases hv : negInterleave b.segId (segPred pu pl pul).toNat (e.lastActive + 1) with
      | none => rw [hv] at h3; cases h3
      | some v =>
        rw [hv] at h3
        cases h3
        simp [Syn.plain, Syn.isDeltaQ, Syn.isDeltaLf, Syn.isIntraMode]
  · cases h1
    simp

theorem skipPart_plain (e : ModeEnv) (b b' : Blk) (es : List Syn) (h : skipPart e b = some (es, b')) :
    ∀ s ∈ es, s.plain = true := by
  unfold skipPart at h
  cases ha : e.skipBySegment b.segId with
  | none => simp [ha] at h
  | some a =>
    simp only [ha, Option.bind_eq_bind, Option.bind_some] at h
    split at h <;> cases h <;> simp [Syn.plain, Syn.isDeltaQ, Syn.isDeltaLf, Syn.isIntraMode]

theorem headPart_plain (e : ModeEnv) (b b' : Blk) (es : List Syn) (h : headPart e b = some (es, b')) :
    ∀ s ∈ es, s.plain = true := by
  unfold headPart at h
  simp only [Option.bind_eq_bind] at h
  split at h
  all_goals
    obtain ⟨s1, b1, h1, h2⟩ := bind_pair h
    obtain ⟨s2, b2, h3, h4⟩ := bind_pair h2
    cases h4
  · exact plain_append (segPart_plain e b b1 s1 h1) (skipPart_plain e b1 _ s2 h3)
  · exact plain_append (skipPart_plain e b b1 s1 h1) (segPart_plain e b1 _ s2 h3)

theorem isInterPart_plain (e : ModeEnv) (b b' : Blk) (es : List Syn) (h : isInterPart e b = some (es, b')) :
    ∀ s ∈ es, s.plain = true := by
  unfold isInterPart at h
  cases h1 : e.segActive b.segId K.SEG_LVL_REF_FRAME with
  | none => simp [h1] at h
  | some r =>
    simp only [h1, Option.bind_eq_bind, Option.bind_some] at h
    split at h
    · cases h2 : (e.feature[b.segId]?).bind (·[K.SEG_LVL_REF_FRAME]?) with
      | none => rw [h2] at h; cases h
      | some v =>
        rw [h2] at h
        cases v with
        | none => cases h
        | some v => cases h; simp
    · cases h2 : e.segActive b.segId K.SEG_LVL_GLOBALMV with
      | none => rw [h2] at h; cases h
      | some g =>
        rw [h2, Option.bind_some] at h
        split at h <;> cases h <;> simp [Syn.plain, Syn.isDeltaQ, Syn.isDeltaLf, Syn.isIntraMode]

/-- Elements of the inter part. -/
def Elem.interPlain : Elem → Bool
  | .deltaQAbs _ | .deltaLfAbs _ _ _ | .intraFrameYMode _ _ _ | .yMode _ _ | .uvMode _ _ _ _ _ => false
  | _ => true

theorem interPlain_plain (es : List Elem) (h : ∀ x ∈ es, x.interPlain = true) : ∀ s ∈ es.map Syn.elem, s.plain = true := by
  intro s hs
  obtain ⟨x, hx, rfl⟩ := List.mem_map.1 hs
  have := h x hx
  cases x <;> first | rfl | cases this

theorem refFramesSyn_plain (sel : Bool) (b b' : Blk) (es : List Elem) (h : refFramesSyn sel b = some (es, b')) :
    ∀ x ∈ es, x.interPlain = true := by
  have hs : ∀ r, ∀ x ∈ singleRefSyn r, x.interPlain = true := by
    intro r x hx
    unfold singleRefSyn at hx
    simp only [List.mem_cons] at hx
    rcases hx with rfl | hx
    · rfl
    split at hx
    · simp only [List.mem_cons] at hx
      rcases hx with rfl | hx
      · rfl
      · split at hx
        · rw [List.mem_singleton] at hx; subst hx; rfl
        · cases hx
    · simp only [List.mem_cons] at hx
      rcases hx with rfl | hx
      · rfl
      · split at hx <;> rw [List.mem_singleton] at hx <;> subst hx <;> rfl
  have hu : ∀ r r', ∀ x ∈ uniRefSyn r r', x.interPlain = true := by
    intro r r' x hx
    unfold uniRefSyn at hx
    simp only [List.mem_cons] at hx
    rcases hx with rfl | hx
    · rfl
    split at hx
    · rw [List.mem_singleton] at hx; subst hx; rfl
    · cases hx
  have hb : ∀ r r', ∀ x ∈ bidirRefSyn r r', x.interPlain = true := by
    intro r r' x hx
    unfold bidirRefSyn at hx
    simp only [List.mem_cons] at hx
    rcases hx with rfl | rfl | rfl | hx
    · rfl
    · split <;> rfl
    · rfl
    split at hx
    · rw [List.mem_singleton] at hx; subst hx; rfl
    · cases hx
  unfold refFramesSyn at h
  cases hw : K.num_4x4_blocks_wide[b.bsize]? with
  | none => simp [hw] at h
  | some w =>
    cases hh : K.num_4x4_blocks_high[b.bsize]? with
    | none => simp [hw, hh] at h
    | some hgt =>
      simp only [hw, hh, Option.bind_eq_bind, Option.bind_some] at h
      have hhead : ∀ (c v : Bool), ∀ x ∈ (if c = true then [Elem.compMode v.toNat] else []), x.interPlain = true := by
        intro c v x hx
        split at hx
        · rw [List.mem_singleton] at hx; subst hx; rfl
        · cases hx
      generalize (sel && decide (min w hgt ≥ 2)) = c at h
      generalize (if c = true then b else { b with comp := false }) = b1 at h
      by_cases hcomp : b1.comp = true
      · rw [if_pos hcomp] at h
        cases h
        intro x hx
        rcases List.mem_append.1 hx with hx | hx
        · exact hhead _ _ x hx
        · rcases List.mem_cons.1 hx with rfl | hx
          · rfl
          · split at hx
            · exact hb _ _ x hx
            · exact hu _ _ x hx
      · rw [if_neg hcomp] at h
        cases h
        intro x hx
        rcases List.mem_append.1 hx with hx | hx
        · exact hhead _ _ x hx
        · exact hs _ x hx

theorem refsPart_plain (e : ModeEnv) (b b' : Blk) (es : List Syn) (h : refsPart e b = some (es, b')) :
    ∀ s ∈ es, s.plain = true := by
  unfold refsPart at h
  cases h1 : e.segActive b.segId K.SEG_LVL_REF_FRAME with
  | none => simp [h1] at h
  | some r =>
    simp only [h1, Option.bind_eq_bind, Option.bind_some] at h
    split at h
    · cases h2 : (e.feature[b.segId]?).bind (·[K.SEG_LVL_REF_FRAME]?) with
      | none => rw [h2] at h; cases h
      | some v =>
        rw [h2] at h
        cases v with
        | none => cases h
        | some v =>
          simp only [Option.bind_some] at h
          split at h
          · cases h; simp
          · cases h
    · cases h2 : e.skipOrGlobal b.segId with
      | none => rw [h2] at h; cases h
      | some g =>
        rw [h2, Option.bind_some] at h
        split at h
        · cases h; simp
        · cases h3 : refFramesSyn e.referenceSelect b with
          | none => rw [h3] at h; cases h
          | some p =>
            rw [h3] at h
            cases h
            exact interPlain_plain _ (refFramesSyn_plain _ _ _ _ h3)

theorem interModeSyn_plain (c : Bool) (b : Blk) (nc zc rc y y' : Nat) (es : List Elem)
    (h : interModeSyn c b nc zc rc y = some (es, y')) : ∀ x ∈ es, x.interPlain = true := by
  unfold interModeSyn at h
  split at h
  · cases hu : usub b.compoundMode K.NEAREST_NEARESTMV with
    | none => rw [hu] at h; cases h
    | some m => rw [hu] at h; cases h; simp [Elem.interPlain]
  · split at h
    · cases h; simp [Elem.interPlain]
    · split at h <;> cases h <;> simp [Elem.interPlain]

theorem drlSyn_plain (y found idx : Nat) (drl stack : List Nat) (es : List Elem) (h : drlSyn y found drl stack = some (es, idx)) :
    ∀ x ∈ es, x.interPlain = true := by
  have key : ∀ (is : List Nat) (r : Nat) es r', drlLoop found drl stack is r = some (es, r') → ∀ x ∈ es, x.interPlain = true := by
    intro is
    induction is with
    | nil => intro r es r' h; cases h; simp
    | cons i is ih =>
      intro r es r' h
      unfold drlLoop at h
      split at h
      · cases hv : drl[i]? with
        | none => rw [hv] at h; cases h
        | some v =>
          simp only [hv, Option.bind_eq_bind, Option.bind_some] at h
          split at h
          · cases h; simp [Elem.interPlain]
          · obtain ⟨es1, r1, h1, h2⟩ := bind_pair h
            cases h2
            intro x hx
            rcases List.mem_cons.1 hx with rfl | hx
            · rfl
            · exact ih _ _ _ h1 x hx
      · exact ih _ _ _ h
  unfold drlSyn at h
  split at h
  · exact key _ _ _ _ h
  · split at h
    · exact key _ _ _ _ h
    · cases h; simp

theorem assignMv_plain (a : AssignEnv) (c : Bool) (b b' : Blk) (pred pred' : Mv × Mv) (es : List Elem)
    (h : assignMv a c b pred = some (es, pred', b')) : ∀ x ∈ es, x.interPlain = true := by
  have key : ∀ second (b b' : Blk) pred pred' es, assignStep a second b pred = some (es, pred', b') →
      ∀ x ∈ es, x.interPlain = true := by
    intro second b b' pred pred' es h
    unfold assignStep at h
    simp only [Option.bind_eq_bind] at h
    generalize (if b.useIntrabc = true then K.NEWMV else getMode a.yMode second) = cm at h
    obtain ⟨q1, q2, hq, h⟩ := bind_pair h
    by_cases hcm : cm = K.NEWMV
    · rw [if_pos hcm] at h
      obtain ⟨d, hd, h⟩ := Option.bind_eq_some_iff.1 h
      cases h; simp [Elem.interPlain]
    · rw [if_neg hcm] at h
      cases h; simp
  unfold assignMv at h
  simp only [Option.bind_eq_bind] at h
  obtain ⟨e0, p0, h0, h⟩ := bind_pair h
  split at h
  · obtain ⟨e1, p1, h1, h⟩ := bind_pair h
    cases h
    intro x hx
    rcases List.mem_append.1 hx with hx | hx
    · exact key _ _ _ _ _ _ h0 x hx
    · exact key _ _ _ _ _ _ h1 x hx
  · cases h
    exact key _ _ _ _ _ _ h0

theorem interPart_plain (e : ModeEnv) (find : Blk → Option FoundMvs) (b b' : Blk) (st st' : ModeState) (es : List Syn)
    (h : interPart e find b st = some (es, b', st')) :
    (∀ s ∈ es, s.plain = true) ∧ st'.readDeltas = st.readDeltas := by
  unfold interPart at h
  split at h
  · simp only [Option.bind_eq_bind] at h
    obtain ⟨e1, b1, h1, h⟩ := bind_pair h
    obtain ⟨m, hm, h⟩ := Option.bind_eq_some_iff.1 h
    obtain ⟨ms, p, h2, h⟩ := bind_pair h
    cases h
    unfold modePart at h2
    simp only [Option.bind_eq_bind] at h2
    obtain ⟨g, hg, h2⟩ := Option.bind_eq_some_iff.1 h2
    obtain ⟨es3, y, h3, h2⟩ := bind_pair h2
    obtain ⟨ds, idx, h4, h2⟩ := bind_pair h2
    obtain ⟨mse, q, h5, h2⟩ := bind_pair h2
    cases h2
    refine ⟨plain_append (refsPart_plain _ _ _ _ h1) (interPlain_plain _ ?_), rfl⟩
    intro x hx
    rcases List.mem_append.1 hx with hx | hx
    · rcases List.mem_append.1 hx with hx | hx
      · unfold modeOr at h3
        split at h3
        · cases h3; cases hx
        · exact interModeSyn_plain _ _ _ _ _ _ _ _ h3 x hx
      · exact drlSyn_plain _ _ _ _ _ _ h4 x hx
    · exact assignMv_plain _ _ _ _ _ _ _ h5 x hx
  · cases h
    exact ⟨by simp, rfl⟩

theorem cdefPart_plain (e : ModeEnv) (b : Blk) (st st' : ModeState) (es : List Syn) (h : cdefPart e b st = some (es, st')) :
    (∀ s ∈ es, s.plain = true) ∧ st'.readDeltas = st.readDeltas := by
  unfold cdefPart at h
  split at h
  · cases h; exact ⟨by simp, rfl⟩
  · cases hs : cdefSyn e.cdefBits e.miRow e.miCol b st.cdefIdx with
    | none => rw [hs] at h; cases h
    | some p =>
      rw [hs] at h
      cases h
      refine ⟨?_, rfl⟩
      unfold cdefSyn at hs
      simp only [Option.bind_eq_bind] at hs
      obtain ⟨_, _, hs⟩ := Option.bind_eq_some_iff.1 hs
      obtain ⟨_, _, hs⟩ := Option.bind_eq_some_iff.1 hs
      obtain ⟨_, _, hs⟩ := Option.bind_eq_some_iff.1 hs
      split at hs
      · obtain ⟨_, _, hs⟩ := Option.bind_eq_some_iff.1 hs
        obtain ⟨_, _, hs⟩ := Option.bind_eq_some_iff.1 hs
        obtain ⟨_, _, hs⟩ := Option.bind_eq_some_iff.1 hs
        cases hs
        simp [Syn.plain, Syn.isDeltaQ, Syn.isDeltaLf, Syn.isIntraMode]
      · cases hs; simp

/-- One magnitude per delta. -/
theorem deltaSyn_shape (small : Nat → Elem) (lim dec : Nat) (d : Int) (es : List Syn) (h : deltaSyn small lim dec d = some es) :
    ∃ v rest, es = .elem (small v) :: rest ∧ ∀ s ∈ rest, ∃ x n, s = .lit x n := by
  unfold deltaSyn at h
  split at h
  · unfold deltaAbsSyn at h
    split at h
    · cases h
      refine ⟨_, _, rfl, ?_⟩
      intro s hs
      rcases List.mem_singleton.1 hs with rfl
      exact ⟨_, _, rfl⟩
    · cases he : deltaEscape (absM d).toNat dec with
      | none => rw [he] at h; cases h
      | some l =>
        rw [he] at h
        cases h
        refine ⟨_, _, rfl, ?_⟩
        have hl : ∀ s ∈ l, ∃ x n, s = .lit x n := by
          unfold deltaEscape at he
          simp only [Option.bind_eq_bind] at he
          obtain ⟨_, _, he⟩ := Option.bind_eq_some_iff.1 he
          obtain ⟨_, _, he⟩ := Option.bind_eq_some_iff.1 he
          obtain ⟨_, _, he⟩ := Option.bind_eq_some_iff.1 he
          obtain ⟨_, _, he⟩ := Option.bind_eq_some_iff.1 he
          cases he
          intro s hs
          simp only [List.mem_cons, List.not_mem_nil, or_false] at hs
          rcases hs with rfl | rfl <;> exact ⟨_, _, rfl⟩
        intro s hs
        rcases List.mem_append.1 hs with hs | hs
        · exact hl s hs
        · rcases List.mem_singleton.1 hs with rfl
          exact ⟨_, _, rfl⟩
  · cases h
    exact ⟨_, _, rfl, by simp⟩

/-- Numbers of magnitudes among elements. -/
def countQ (l : List Syn) : Nat := l.countP Syn.isDeltaQ
def countLf (l : List Syn) : Nat := l.countP Syn.isDeltaLf

theorem countP_lits (p : Syn → Bool) (hp : ∀ x n, p (.lit x n) = false) (l : List Syn) (h : ∀ s ∈ l, ∃ x n, s = .lit x n) :
    l.countP p = 0 := by
  rw [List.countP_eq_zero]
  intro s hs
  obtain ⟨x, n, rfl⟩ := h s hs
  rw [hp]; simp

theorem count_plain (l : List Syn) (h : ∀ s ∈ l, s.plain = true) : countQ l = 0 ∧ countLf l = 0 := by
  unfold countQ countLf
  rw [List.countP_eq_zero, List.countP_eq_zero]
  constructor
  all_goals
    intro s hs
    have := h s hs
    unfold Syn.plain at this
    revert this
    cases s.isDeltaQ <;> cases s.isDeltaLf <;> simp

theorem deltaLfLoop_count (multi : Bool) (res : Nat) (target : List Int) : ∀ n i cur es cur',
    deltaLfLoop multi res target n i cur = some (es, cur') → countQ es = 0 ∧ countLf es = n ∧ ∀ s ∈ es, s.isIntraMode = false := by
  intro n
  induction n with
  | zero => intro i cur es cur' h; cases h; simp [countQ, countLf]
  | succ n ih =>
    intro i cur es cur' h
    unfold deltaLfLoop at h
    simp only [Option.bind_eq_bind] at h
    obtain ⟨t, _, h⟩ := Option.bind_eq_some_iff.1 h
    obtain ⟨c, _, h⟩ := Option.bind_eq_some_iff.1 h
    obtain ⟨z, _, h⟩ := Option.bind_eq_some_iff.1 h
    obtain ⟨d, _, h⟩ := Option.bind_eq_some_iff.1 h
    obtain ⟨s, hs, h⟩ := Option.bind_eq_some_iff.1 h
    obtain ⟨r, cc, hr, h⟩ := bind_pair h
    cases h
    obtain ⟨v, tl, rfl, htl⟩ := deltaSyn_shape _ _ _ _ _ hs
    obtain ⟨q1, q2, q3⟩ := ih _ _ _ _ hr
    unfold countQ countLf at *
    refine ⟨?_, ?_, ?_⟩
    · rw [List.countP_append, q1, List.countP_cons, countP_lits Syn.isDeltaQ (fun _ _ => rfl) tl htl]; rfl
    · rw [List.countP_append, q2, List.countP_cons, countP_lits Syn.isDeltaLf (fun _ _ => rfl) tl htl]
      show 0 + 1 + n = n + 1
      omega
    · intro s hs
      rcases List.mem_append.1 hs with hs | hs
      · rcases List.mem_cons.1 hs with rfl | hs
        · rfl
        · obtain ⟨_, _, rfl⟩ := htl s hs; rfl
      · exact q3 s hs

/-- Number of loop filter deltas AV1 reads with the deltas of a block. -/
def av1LfCount (present multi : Bool) (planes : Nat) : Nat := if present then (if multi then (if planes > 1 then 4 else 2) else 1) else 0

/-- What a block of an intra frame writes: exactly AV1's number of deltas, and no intra mode. -/
theorem modeInfo_counts (e : ModeEnv) (find : Blk → Option FoundMvs) (b b' : Blk) (st st' : ModeState) (es : List Syn)
    (hi : e.frameIsIntra = true) (h : modeInfo e find b st = some (es, b', st')) :
    st'.readDeltas = false ∧ (∀ s ∈ es, s.isIntraMode = false) ∧
    (st.readDeltas = false → countQ es = 0 ∧ countLf es = 0) ∧
    (countQ es = 0 ∧ countLf es = 0 ∨ countQ es = 1 ∧ countLf es = av1LfCount e.deltaLfPresent e.deltaLfMulti e.numPlanes) := by
  unfold modeInfo at h
  rw [if_pos hi] at h
  simp only [Option.bind_eq_bind] at h
  obtain ⟨s1, b1, h1, h⟩ := bind_pair h
  obtain ⟨s2, st2, h2, h⟩ := bind_pair h
  obtain ⟨s3, b3, h3, h⟩ := bind_pair h
  obtain ⟨s4, p4, h4, h⟩ := bind_pair h
  obtain ⟨b4, st4⟩ := p4
  cases h
  unfold deltasPart at h2
  simp only [Option.bind_eq_bind] at h2
  obtain ⟨t1, sa, k1, h2⟩ := bind_pair h2
  obtain ⟨t2, sb, k2, h2⟩ := bind_pair h2
  obtain ⟨t3, sc, k3, h2⟩ := bind_pair h2
  cases h2
  have p1 := headPart_plain _ _ _ _ h1
  have p3 := isInterPart_plain _ _ _ _ h3
  obtain ⟨p4, r4⟩ := interPart_plain _ _ _ _ _ _ _ h4
  obtain ⟨q1, r1⟩ := cdefPart_plain _ _ _ _ _ k1
  have c1 := count_plain _ p1
  have c3 := count_plain _ p3
  have c4 := count_plain _ p4
  have c5 := count_plain _ q1
  have im : ∀ l : List Syn, (∀ s ∈ l, s.plain = true) → ∀ s ∈ l, s.isIntraMode = false := by
    intro l hl s hs
    have := hl s hs
    unfold Syn.plain at this
    revert this
    cases s.isDeltaQ <;> cases s.isDeltaLf <;> simp
  have d2 : (e.deltasFor b1 sa = true → countQ t2 = 1 ∧ countLf t2 = 0) ∧ (e.deltasFor b1 sa = false → t2 = []) ∧
      (∀ s ∈ t2, s.isIntraMode = false) ∧ e.deltasFor b1 sb = e.deltasFor b1 sa := by
    unfold deltaQPart at k2
    split at k2
    · next hd =>
      simp only [Option.bind_eq_bind] at k2
      obtain ⟨_, _, k2⟩ := Option.bind_eq_some_iff.1 k2
      obtain ⟨_, _, k2⟩ := Option.bind_eq_some_iff.1 k2
      obtain ⟨l, hl, k2⟩ := Option.bind_eq_some_iff.1 k2
      cases k2
      obtain ⟨v, tl, rfl, htl⟩ := deltaSyn_shape _ _ _ _ _ hl
      refine ⟨fun _ => ⟨?_, ?_⟩, fun hf => (by rw [hd] at hf; cases hf), ?_, rfl⟩
      · unfold countQ
        rw [List.countP_cons, countP_lits Syn.isDeltaQ (fun _ _ => rfl) tl htl]; rfl
      · unfold countLf
        rw [List.countP_cons, countP_lits Syn.isDeltaLf (fun _ _ => rfl) tl htl]; rfl
      · intro s hs
        rcases List.mem_cons.1 hs with rfl | hs
        · rfl
        · obtain ⟨_, _, rfl⟩ := htl s hs; rfl
    · next hd =>
      cases k2
      exact ⟨fun hf => absurd hf hd, fun _ => rfl, by simp, rfl⟩
  obtain ⟨d2a, d2b, d2c, d2d⟩ := d2
  have d3 : (e.deltasFor b1 sa = true → countQ t3 = 0 ∧ countLf t3 = av1LfCount e.deltaLfPresent e.deltaLfMulti e.numPlanes) ∧
      (e.deltasFor b1 sa = false → t3 = []) ∧ (∀ s ∈ t3, s.isIntraMode = false) := by
    unfold deltaLfPart at k3
    rw [d2d] at k3
    cases hda : e.deltasFor b1 sa with
    | false =>
      rw [hda] at k3
      cases k3
      exact ⟨fun h => by simp at h, fun _ => rfl, by simp⟩
    | true =>
      rw [hda] at k3
      cases hp : e.deltaLfPresent with
      | false =>
        rw [hp] at k3
        cases k3
        exact ⟨fun _ => ⟨rfl, rfl⟩, fun h => by simp at h, by simp⟩
      | true =>
        rw [hp] at k3
        simp only [Bool.and_self, if_true, Option.bind_eq_bind] at k3
        obtain ⟨l, cc, hl, k3⟩ := bind_pair k3
        cases k3
        obtain ⟨z1, z2, z3⟩ := deltaLfLoop_count _ _ _ _ _ _ _ _ hl
        exact ⟨fun _ => ⟨z1, by rw [z2]; rfl⟩, fun h => by simp at h, z3⟩
  obtain ⟨d3a, d3b, d3c⟩ := d3
  have happ : ∀ a b, countQ (a ++ b) = countQ a + countQ b ∧ countLf (a ++ b) = countLf a + countLf b :=
    fun a b => ⟨List.countP_append, List.countP_append⟩
  have total : countQ (s1 ++ (t1 ++ t2 ++ t3) ++ s3 ++ s4) = countQ t2 + countQ t3 ∧
      countLf (s1 ++ (t1 ++ t2 ++ t3) ++ s3 ++ s4) = countLf t2 + countLf t3 := by
    simp only [happ, c1.1, c1.2, c3.1, c3.2, c4.1, c4.2, c5.1, c5.2]
    constructor <;> omega
  have hfalse : e.deltasFor b1 sa = false → countQ (s1 ++ (t1 ++ t2 ++ t3) ++ s3 ++ s4) = 0 ∧
      countLf (s1 ++ (t1 ++ t2 ++ t3) ++ s3 ++ s4) = 0 := by
    intro hf
    rw [total.1, total.2, d2b hf, d3b hf]
    exact ⟨rfl, rfl⟩
  refine ⟨r4, ?_, ?_, ?_⟩
  · intro s hs
    simp only [List.mem_append] at hs
    rcases hs with ((hs | ((hs | hs) | hs)) | hs) | hs
    · exact im _ p1 s hs
    · exact im _ q1 s hs
    · exact d2c s hs
    · exact d3c s hs
    · exact im _ p3 s hs
    · exact im _ p4 s hs
  · intro hr
    apply hfalse
    unfold ModeEnv.deltasFor
    rw [r1, hr, Bool.and_false]
  · cases hd : e.deltasFor b1 sa with
    | false => exact Or.inl (hfalse hd)
    | true =>
      right
      rw [total.1, total.2, (d2a hd).1, (d2a hd).2, (d3a hd).1, (d3a hd).2]
      exact ⟨rfl, by omega⟩

/-- The blocks of a superblock, each with its environment and candidate search. -/
def runBlocks : List (ModeEnv × (Blk → Option FoundMvs) × Blk) → ModeState → Option (List (List Syn) × ModeState)
  | [], st => some ([], st)
  | (e, find, b) :: l, st => do
    let (es, _, st) ← modeInfo e find b st
    let (rest, st) ← runBlocks l st
    some (es :: rest, st)

theorem runBlocks_none (l : List (ModeEnv × (Blk → Option FoundMvs) × Blk)) : ∀ (st st' : ModeState) (out : List (List Syn)),
    (∀ x ∈ l, x.1.frameIsIntra = true) → st.readDeltas = false → runBlocks l st = some (out, st') →
    ∀ es ∈ out, countQ es = 0 ∧ countLf es = 0 := by
  induction l with
  | nil => intro st st' out _ _ h; cases h; simp
  | cons x l ih =>
    obtain ⟨e, find, b⟩ := x
    intro st st' out hi hr h
    unfold runBlocks at h
    simp only [Option.bind_eq_bind] at h
    obtain ⟨es, p, h1, h⟩ := bind_pair h
    obtain ⟨rest, st2, h2, h⟩ := bind_pair h
    cases h
    obtain ⟨m1, -, m3, -⟩ := modeInfo_counts e find b p.1 st p.2 es (hi (e, find, b) List.mem_cons_self) h1
    intro es' hes
    rcases List.mem_cons.1 hes with rfl | hes
    · exact m3 hr
    · exact ih p.2 _ rest (fun x hx => hi x (List.mem_cons_of_mem _ hx)) m1 h2 es' hes

theorem deltas_once_intra (l : List (ModeEnv × (Blk → Option FoundMvs) × Blk)) (st st' : ModeState) (out : List (List Syn))
    (hi : ∀ x ∈ l, x.1.frameIsIntra = true) (h : runBlocks l st = some (out, st')) :
    (∀ es ∈ out.tail, countQ es = 0 ∧ countLf es = 0) ∧
    (∀ es ∈ out.head?, ∀ x ∈ l.head?, countQ es = 0 ∧ countLf es = 0 ∨
      countQ es = 1 ∧ countLf es = av1LfCount x.1.deltaLfPresent x.1.deltaLfMulti x.1.numPlanes) ∧
    (st.readDeltas = false → ∀ es ∈ out, countQ es = 0 ∧ countLf es = 0) := by
  refine ⟨?_, ?_, fun hr => runBlocks_none l st st' out hi hr h⟩
  all_goals
    cases l with
    | nil => cases h; simp
    | cons x l =>
      obtain ⟨e, find, b⟩ := x
      unfold runBlocks at h
      simp only [Option.bind_eq_bind] at h
      obtain ⟨es, p, h1, h⟩ := bind_pair h
      obtain ⟨rest, st2, h2, h⟩ := bind_pair h
      cases h
      obtain ⟨m1, -, -, m4⟩ := modeInfo_counts e find b p.1 st p.2 es (hi (e, find, b) List.mem_cons_self) h1
      first
      | exact runBlocks_none l p.2 _ rest (fun x hx => hi x (List.mem_cons_of_mem _ hx)) m1 h2
      | (intro es' he x hx
         simp only [List.head?_cons, Option.mem_def, Option.some.injEq] at he hx
         subst he hx
         exact m4)

theorem runBlocks_empty (l : List (ModeEnv × (Blk → Option FoundMvs) × Blk)) : ∀ (st st' : ModeState) (out : List (List Syn)),
    (∀ x ∈ l, x.1.frameIsIntra = false) → runBlocks l st = some (out, st') → ∀ es ∈ out, es = [] := by
  induction l with
  | nil => intro st st' out _ h; cases h; simp
  | cons x l ih =>
    obtain ⟨e, find, b⟩ := x
    intro st st' out hi h
    unfold runBlocks at h
    simp only [Option.bind_eq_bind] at h
    obtain ⟨es, p, h1, h⟩ := bind_pair h
    obtain ⟨rest, st2, h2, h⟩ := bind_pair h
    cases h
    have hk : e.frameIsIntra = false := hi (e, find, b) List.mem_cons_self
    simp only [modeInfo, hk, Bool.false_eq_true, if_false, Option.some.injEq, Prod.mk.injEq] at h1
    intro es' hes
    rcases List.mem_cons.1 hes with rfl | hes
    · exact h1.1.symm
    · exact ih p.2 _ rest (fun x hx => hi x (List.mem_cons_of_mem _ hx)) h2 es' hes

/-- C74: of the blocks of a superblock, which all belong to one frame of either kind, only the first writes deltas, and if
it does then one quantizer delta and AV1's number of loop filter deltas. -/
theorem C74_deltas_once (l : List (ModeEnv × (Blk → Option FoundMvs) × Blk)) (st st' : ModeState) (out : List (List Syn))
    (k : Bool) (hk : ∀ x ∈ l, x.1.frameIsIntra = k) (h : runBlocks l st = some (out, st')) :
    (∀ es ∈ out.tail, countQ es = 0 ∧ countLf es = 0) ∧
    (∀ es ∈ out.head?, ∀ x ∈ l.head?, countQ es = 0 ∧ countLf es = 0 ∨
      countQ es = 1 ∧ countLf es = av1LfCount x.1.deltaLfPresent x.1.deltaLfMulti x.1.numPlanes) ∧
    (st.readDeltas = false → ∀ es ∈ out, countQ es = 0 ∧ countLf es = 0) := by
  cases k with
  | true => exact deltas_once_intra l st st' out hk h
  | false =>
    have he := runBlocks_empty l st st' out hk h
    have hz : ∀ es ∈ out, countQ es = 0 ∧ countLf es = 0 := by
      intro es hes
      rw [he es hes]
      exact ⟨rfl, rfl⟩
    exact ⟨fun es hes => hz es (List.mem_of_mem_tail hes), fun es hes _ _ => Or.inl (hz es (List.mem_of_mem_head? hes)),
      fun _ => hz⟩

example : (runBlocks [(plainEnv, fun _ => none, { bsize := 3, qIndex := 102 }),
    (plainEnv, fun _ => none, { bsize := 3, qIndex := 90 })] plainState).map (fun p => p.1.map countQ) = some [1, 0] := by rfl

/-! ## C73 — blocks of a frame can be decoded -/

/-- AV1 `intra_frame_mode_info` and `inter_frame_mode_info`: a block whose prediction is intra carries its luma mode. -/
def C73_full : Prop :=
  ∀ (e : ModeEnv) (find : Blk → Option FoundMvs) (b b' : Blk) (st st' : ModeState) (es : List Syn), e.segEnabled = false →
    e.allowIntrabc = false → modeInfo e find b st = some (es, b', st') → b'.isInter = false →
    ∃ s ∈ es, s.isIntraMode = true

/-- No block of any frame carries an intra mode. -/
theorem C73_never (e : ModeEnv) (find : Blk → Option FoundMvs) (b b' : Blk) (st st' : ModeState) (es : List Syn)
    (h : modeInfo e find b st = some (es, b', st')) : ∀ s ∈ es, s.isIntraMode = false := by
  cases hi : e.frameIsIntra with
  | true => exact (modeInfo_counts e find b b' st st' es hi h).2.1
  | false =>
    unfold modeInfo at h
    rw [hi] at h
    cases h
    simp

/-- The blocks of inter frames carry nothing at all, and nothing is remembered of them. -/
theorem C73_inter_frame (e : ModeEnv) (find : Blk → Option FoundMvs) (b : Blk) (st : ModeState) (h : e.frameIsIntra = false) :
    modeInfo e find b st = some ([], b, st) := by
  unfold modeInfo
  rw [h]
  rfl

theorem C73_negation : ¬ C73_full := by
  intro h
  have h1 : modeInfo plainEnv (fun _ => none) { bsize := 3 } { plainState with readDeltas := false } =
      some ([.elem (.skip 0), .elem (.isInter false)], { bsize := 3 }, { plainState with readDeltas := false }) := by rfl
  obtain ⟨s, hs, ht⟩ := h _ _ _ _ _ _ _ rfl rfl h1 rfl
  rw [C73_never _ _ _ _ _ _ _ h1 s hs] at ht
  cases ht

/-- In an intra frame without segmentation every block carries an inter flag, which AV1 does not have there. -/
theorem C73_inter_flag (e : ModeEnv) (find : Blk → Option FoundMvs) (b b' : Blk) (st st' : ModeState) (es : List Syn)
    (hi : e.frameIsIntra = true) (hs : e.segEnabled = false) (h : modeInfo e find b st = some (es, b', st')) :
    .elem (.isInter b.isInter) ∈ es := by
  unfold modeInfo at h
  rw [if_pos hi] at h
  simp only [Option.bind_eq_bind] at h
  obtain ⟨s1, b1, h1, h⟩ := bind_pair h
  obtain ⟨s2, st2, h2, h⟩ := bind_pair h
  obtain ⟨s3, b3, h3, h⟩ := bind_pair h
  obtain ⟨s4, p4, h4, h⟩ := bind_pair h
  cases h
  have hb : b1.isInter = b.isInter := by
    have hseg : ∀ (b b' : Blk) es, segPart e b = some (es, b') → b'.isInter = b.isInter := by
      intro b b' es h
      unfold segPart segCore at h
      simp only [hs, Bool.false_eq_true, if_false, Option.bind_eq_bind, Option.bind_some] at h
      obtain ⟨_, _, h⟩ := Option.bind_eq_some_iff.1 h
      cases h
      rfl
    have hskip : ∀ (b b' : Blk) es, skipPart e b = some (es, b') → b'.isInter = b.isInter := by
      intro b b' es h
      unfold skipPart at h
      simp only [Option.bind_eq_bind] at h
      obtain ⟨_, _, h⟩ := Option.bind_eq_some_iff.1 h
      split at h <;> cases h <;> rfl
    unfold headPart at h1
    simp only [Option.bind_eq_bind] at h1
    split at h1
    all_goals
      obtain ⟨_, b2, k1, h1⟩ := bind_pair h1
      obtain ⟨_, b3, k2, h1⟩ := bind_pair h1
      cases h1
    · rw [hskip _ _ _ k2, hseg _ _ _ k1]
    · rw [hseg _ _ _ k2, hskip _ _ _ k1]
  unfold isInterPart ModeEnv.segActive at h3
  simp only [hs, Bool.false_eq_true, if_false, Option.bind_eq_bind, Option.bind_some] at h3
  cases h3
  simp [hb]

/-- With segmentation, a segment that does not fix the reference makes the encoder panic: `feature_value` has no entry for
`SEG_LVL_GLOBALMV`. -/
theorem C73_segmentation_panics (e : ModeEnv) (find : Blk → Option FoundMvs) (b : Blk) (st : ModeState)
    (hi : e.frameIsIntra = true) (hs : e.segEnabled = true) (hf : ∀ row ∈ e.feature, row.length = 7 ∧ row[5]? = some none) :
    modeInfo e find b st = none := by
  cases h : modeInfo e find b st with
  | none => rfl
  | some p =>
    exfalso
    unfold modeInfo at h
    rw [if_pos hi] at h
    simp only [Option.bind_eq_bind] at h
    obtain ⟨s1, b1, h1, h⟩ := bind_pair h
    obtain ⟨s2, st2, h2, h⟩ := bind_pair h
    obtain ⟨s3, b3, h3, h⟩ := bind_pair h
    unfold isInterPart ModeEnv.segActive at h3
    simp only [hs, if_true, Option.bind_eq_bind] at h3
    cases hr : e.feature[b1.segId]? with
    | none => rw [hr] at h3; cases h3
    | some row =>
      obtain ⟨hl, h5⟩ := hf row (List.mem_of_getElem? hr)
      have h7 : row[K.SEG_LVL_GLOBALMV]? = none := List.getElem?_eq_none (by rw [hl]; decide)
      have h5' : row[K.SEG_LVL_REF_FRAME]? = some none := h5
      rw [hr] at h3
      simp only [Option.bind_some, h5', h7, Option.isSome_none, Bool.false_eq_true, if_false, Option.bind_none] at h3
      cases h3

example : (List.replicate 8 (List.replicate 7 (none : Option Int))).all (fun row => row.length = 7 ∧ row[5]? = some none) := by
  decide

end Av1
