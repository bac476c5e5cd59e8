import Verif.Model.ModeInfo
import Verif.Props.Util
import Verif.Props.Geometry
import Mathlib.Tactic.FinCases
import Mathlib.Algebra.Order.Ring.Abs

/-!
# Mode info: references (C44), deltas (C67, C68), inter modes (C69, C70), motion vectors (C71), CDEF index (C72)

The specifications are decoders written from the AV1 syntax tables; they read the sequence of elements.
-/

namespace Av1

/-! ## C44 — reference trees -/

/-- AV1 `read_ref_frames`, single reference. -/
def readSingle : List Elem → Option (Int × List Elem)
  | .singleRefP1 1 :: .singleRefP2 0 :: .singleRefP6 v :: l => some (if v = 1 then 6 else 5, l)
  | .singleRefP1 1 :: .singleRefP2 1 :: l => some (7, l)
  | .singleRefP1 0 :: .singleRefP3 1 :: .singleRefP5 v :: l => some (if v = 1 then 4 else 3, l)
  | .singleRefP1 0 :: .singleRefP3 0 :: .singleRefP4 v :: l => some (if v = 1 then 2 else 1, l)
  | _ => none

/-- AV1 `read_ref_frames`, both references from one group. -/
def readUni : List Elem → Option ((Int × Int) × List Elem)
  | .uniCompRef 1 :: l => some ((5, 7), l)
  | .uniCompRef 0 :: .uniCompRefP1 0 :: l => some ((1, 2), l)
  | .uniCompRef 0 :: .uniCompRefP1 1 :: .uniCompRefP2 v :: l => some (if v = 1 then (1, 4) else (1, 3), l)
  | _ => none

/-- AV1 `read_ref_frames`, the forward reference of a pair. -/
def readFwd : List Elem → Option (Int × List Elem)
  | .compRef 0 :: .compRefP1 v :: l => some (if v = 1 then 2 else 1, l)
  | .compRef 1 :: .compRefP2 v :: l => some (if v = 1 then 4 else 3, l)
  | _ => none

/-- AV1 `read_ref_frames`, the backward reference of a pair. -/
def readBwd : List Elem → Option (Int × List Elem)
  | .compBwdref 1 :: l => some (7, l)
  | .compBwdref 0 :: .compBwdrefP1 v :: l => some (if v = 1 then 6 else 5, l)
  | _ => none

/-- The legal choices of references. -/
inductive RefChoice where
  | single (r : Int)
  | uni (r0 r1 : Int)
  | bidir (r0 r1 : Int)
deriving DecidableEq

def RefChoice.all : List RefChoice :=
  [1, 2, 3, 4, 5, 6, 7].map .single ++ [.uni 5 7, .uni 1 2, .uni 1 3, .uni 1 4] ++
  [1, 2, 3, 4].flatMap fun r0 => [5, 6, 7].map fun r1 => .bidir r0 r1

/-- What the block carries for a choice. -/
def RefChoice.blk (bsize : Nat) : RefChoice → Blk
  | .single r => { bsize, ref0 := r, ref1 := -1, comp := false }
  | .uni r0 r1 => { bsize, ref0 := r0, ref1 := r1, comp := true, bidir := false }
  | .bidir r0 r1 => { bsize, ref0 := r0, ref1 := r1, comp := true, bidir := true }

/-- AV1 `read_ref_frames` for a block that may use two references. -/
def readRefs : List Elem → Option (RefChoice × List Elem)
  | .compMode 0 :: l => (readSingle l).map fun p => (.single p.1, p.2)
  | .compMode 1 :: .compRefType 0 :: l => (readUni l).map fun p => (.uni p.1.1 p.1.2, p.2)
  | .compMode 1 :: .compRefType 1 :: l => do
    let (r0, l) ← readFwd l
    let (r1, l) ← readBwd l
    some (.bidir r0 r1, l)
  | _ => none

def C44_full : Prop := ∀ c ∈ RefChoice.all, ∀ bsize w h, blockDims[bsize]? = some (w, h) → 8 ≤ min w h → ∀ rest,
  ∃ es b, refFramesSyn true (c.blk bsize) = some (es, b) ∧ readRefs (es ++ rest) = some (c, rest)

/-- The choices that a decoder reads back. -/
def RefChoice.Readable : RefChoice → Bool
  | .single _ => true
  | .uni r0 r1 => decide ((r0, r1) = (5, 7) ∨ (r0, r1) = (1, 2))
  | .bidir r0 r1 => decide ((r0, r1) = (3, 7) ∨ (r0, r1) = (4, 7))

/-- What is written for a choice. -/
def RefChoice.elems : RefChoice → List Elem
  | .single r => .compMode 0 :: singleRefSyn r
  | .uni r0 r1 => .compMode 1 :: .compRefType 0 :: uniRefSyn r0 r1
  | .bidir r0 r1 => .compMode 1 :: .compRefType 1 :: bidirRefSyn r0 r1

theorem refFramesSyn_two (b : Blk) (w h : Nat) (hd : blockDims[b.bsize]? = some (w, h)) (h8 : 8 ≤ min w h) :
    refFramesSyn true b = some (if b.comp then (.compMode 1 :: .compRefType b.bidir.toNat ::
        (if b.bidir then bidirRefSyn b.ref0 b.ref1 else uniRefSyn b.ref0 b.ref1), b)
      else (.compMode 0 :: singleRefSyn b.ref0, { b with ref1 := -1 })) := by
  have hb : b.bsize < 22 := by
    by_contra hn
    rw [List.getElem?_eq_none (by show blockDims.length ≤ _; have : blockDims.length = 22 := rfl; omega)] at hd
    cases hd
  have key : ∀ n < 22, ∀ wh ∈ blockDims[n]?, 8 ≤ min wh.1 wh.2 → ∃ a ∈ K.num_4x4_blocks_wide[n]?, ∃ c ∈ K.num_4x4_blocks_high[n]?, min a c ≥ 2 := by
    decide
  obtain ⟨a, ha, c, hc, h2⟩ := key b.bsize hb (w, h) hd h8
  rw [Option.mem_def] at ha hc
  unfold refFramesSyn
  simp only [ha, hc, Option.bind_eq_bind, Option.bind_some, Bool.true_and, h2, decide_true, if_true]
  cases hcomp : b.comp <;> simp [K.NONE]

theorem refFramesSyn_choice (c : RefChoice) (bsize w h : Nat) (hd : blockDims[bsize]? = some (w, h)) (h8 : 8 ≤ min w h) :
    refFramesSyn true (c.blk bsize) = some (c.elems, c.blk bsize) := by
  have bsz : (c.blk bsize).bsize = bsize := by cases c <;> rfl
  rw [refFramesSyn_two (c.blk bsize) w h (by rw [bsz]; exact hd) h8]
  cases c <;> rfl

theorem C44_readable_iff (c : RefChoice) (hc : c ∈ RefChoice.all) (bsize w h : Nat) (hd : blockDims[bsize]? = some (w, h))
    (h8 : 8 ≤ min w h) (rest : List Elem) :
    ∃ es b, refFramesSyn true (c.blk bsize) = some (es, b) ∧
      (readRefs (es ++ rest) = some (c, rest) ↔ c.Readable = true) := by
  have hu : ∀ p, readUni (.uniCompRef 0 :: .uniCompRefP1 1 :: rest) ≠ some (p, rest) := by
    intro p hp
    cases rest with
    | nil => cases hp
    | cons x l =>
      cases x <;> cases hp
  have hb : ∀ r, readBwd (.compBwdref 0 :: rest) ≠ some (r, rest) := by
    intro p hp
    cases rest with
    | nil => cases hp
    | cons x l =>
      cases x <;> cases hp
  refine ⟨c.elems, _, refFramesSyn_choice c bsize w h hd h8, ?_⟩
  have hu' : ∀ p : Int × Int, (readUni (.uniCompRef 0 :: .uniCompRefP1 1 :: rest)).map (fun p => (RefChoice.uni p.1.1 p.1.2, p.2)) ≠
      some (.uni p.1 p.2, rest) := by
    intro p hp
    rw [Option.map_eq_some_iff] at hp
    obtain ⟨⟨q, l⟩, h1, h2⟩ := hp
    simp only [Prod.mk.injEq] at h2
    obtain ⟨-, rfl⟩ := h2
    exact hu q h1
  have hb' : ∀ r r0 r1 : Int, ((readBwd (.compBwdref 0 :: rest)).bind fun x => some (RefChoice.bidir r x.1, x.2)) ≠
      some (.bidir r0 r1, rest) := by
    intro r r0 r1 hp
    rw [Option.bind_eq_some_iff] at hp
    obtain ⟨⟨q, l⟩, h1, h2⟩ := hp
    simp only [Option.some.injEq, Prod.mk.injEq] at h2
    obtain ⟨-, rfl⟩ := h2
    exact hb q h1
  fin_cases hc
  all_goals first
    | exact iff_of_true rfl rfl
    | exact iff_of_false (hu' (1, 3)) (by decide)
    | exact iff_of_false (hu' (1, 4)) (by decide)
    | exact iff_of_false (hb' 3 _ _) (by decide)
    | exact iff_of_false (hb' 4 _ _) (by decide)
    | (refine iff_of_false (fun hp => ?_) (by decide); cases hp; done)
    | (refine iff_of_false (fun hp => ?_) (by decide)
       exact absurd (congrArg (Option.map fun p => p.2.length) hp) (by
        show some (rest.length + 1) ≠ some rest.length
        simp))

/-- Single references, and four of the sixteen compound ones, are read back. -/
theorem C44_read_back_partial (c : RefChoice) (hc : c ∈ RefChoice.all) (hr : c.Readable = true) (bsize w h : Nat)
    (hd : blockDims[bsize]? = some (w, h)) (h8 : 8 ≤ min w h) (rest : List Elem) :
    ∃ es b, refFramesSyn true (c.blk bsize) = some (es, b) ∧ readRefs (es ++ rest) = some (c, rest) := by
  obtain ⟨es, b, h1, h2⟩ := C44_readable_iff c hc bsize w h hd h8 rest
  exact ⟨es, b, h1, h2.2 hr⟩

/-- A block too small for two references, or a frame without them, writes the single tree alone; it is read back whatever
`comp_mode` said. -/
theorem C44_single_partial (b : Blk) (refSel : Bool) (w h : Nat) (hd : blockDims[b.bsize]? = some (w, h))
    (hs : refSel = false ∨ min w h < 8) (hr : b.ref0 ∈ ([1, 2, 3, 4, 5, 6, 7] : List Int)) (rest : List Elem) :
    ∃ es b', refFramesSyn refSel b = some (es, b') ∧ b'.ref1 = -1 ∧ readSingle (es ++ rest) = some (b.ref0, rest) := by
  have hb : b.bsize < 22 := by
    by_contra hn
    rw [List.getElem?_eq_none (by show blockDims.length ≤ _; have : blockDims.length = 22 := rfl; omega)] at hd
    cases hd
  have key : ∀ n < 22, ∀ wh ∈ blockDims[n]?, ∃ a ∈ K.num_4x4_blocks_wide[n]?, ∃ c ∈ K.num_4x4_blocks_high[n]?,
      min wh.1 wh.2 < 8 → ¬ min a c ≥ 2 := by decide
  obtain ⟨a, ha, c, hc, h2⟩ := key b.bsize hb (w, h) hd
  rw [Option.mem_def] at ha hc
  have hcoded : (refSel && decide (min a c ≥ 2)) = false := by
    rcases hs with rfl | hs
    · rfl
    · rw [decide_eq_false (h2 hs), Bool.and_false]
  refine ⟨singleRefSyn b.ref0, { b with comp := false, ref1 := -1 }, ?_, rfl, ?_⟩
  · unfold refFramesSyn
    simp only [ha, hc, Option.bind_eq_bind, Option.bind_some, hcoded, Bool.false_eq_true, if_false, List.nil_append]
    rfl
  · revert hr
    generalize b.ref0 = r
    intro hr
    fin_cases hr <;> rfl

/-- The forward reference of a pair is always right: what goes wrong is the backward one. -/
theorem C44_forward (r0 r1 : Int) (h0 : r0 ∈ ([1, 2, 3, 4] : List Int)) (h1 : r1 ∈ ([5, 6, 7] : List Int)) (rest : List Elem) :
    ∃ l, readFwd (bidirRefSyn r0 r1 ++ rest) = some (r0, .compBwdref (if r1 = 7 then 1 else 0) :: l) := by
  simp only [List.mem_cons, List.not_mem_nil, or_false] at h0 h1
  rcases h0 with rfl | rfl | rfl | rfl <;> rcases h1 with rfl | rfl | rfl <;> exact ⟨_, rfl⟩

/-- Of a pair from one group at most the last element is missing: with `uni_comp_ref_p2` behind them, the elements of
(LAST, LAST3) and (LAST, GOLDEN) are read back as that pair. -/
theorem C44_uni (r1 : Int) (h1 : r1 = 3 ∨ r1 = 4) (bsize w h : Nat) (hd : blockDims[bsize]? = some (w, h))
    (h8 : 8 ≤ min w h) (rest : List Elem) : ∃ es b, refFramesSyn true ((RefChoice.uni 1 r1).blk bsize) = some (es, b) ∧
      readRefs (es ++ .uniCompRefP2 (if r1 = 4 then 1 else 0) :: rest) = some (.uni 1 r1, rest) := by
  refine ⟨_, _, refFramesSyn_choice (.uni 1 r1) bsize w h hd h8, ?_⟩
  rcases h1 with rfl | rfl <;> rfl

example : refFramesSyn true ((RefChoice.uni 1 4).blk 3) =
    some ([.compMode 1, .compRefType 0, .uniCompRef 0, .uniCompRefP1 1], (RefChoice.uni 1 4).blk 3) := by rfl

/-- Different references can be written alike: `uni_comp_ref_p2` is missing, and so is `comp_bwdref_p1` after LAST3/GOLDEN. -/
theorem C44_ambiguous : (RefChoice.uni 1 3).elems = (RefChoice.uni 1 4).elems ∧
    (RefChoice.bidir 3 5).elems = (RefChoice.bidir 3 6).elems ∧ (RefChoice.bidir 4 5).elems = (RefChoice.bidir 4 6).elems :=
  ⟨rfl, rfl, rfl⟩

theorem C44_negation : ¬ C44_full := by
  intro h
  obtain ⟨es, b, h1, h2⟩ := h (.uni 1 3) (by decide) 3 8 8 rfl (by decide) []
  obtain ⟨es', b', h3, h4⟩ := C44_readable_iff (.uni 1 3) (by decide) 3 8 8 rfl (by decide) []
  rw [h1] at h3
  cases h3
  exact absurd (h4.1 h2) (by decide)

/-! ## C67, C68 — quantizer and loop filter deltas -/

/-- A literal of `n` bits gives the decoder the low `n` bits of what was passed (C08). -/
def takeLit (n : Nat) : List Syn → Option (Nat × List Syn)
  | .lit v m :: l => if m = n then some (v % 2 ^ n, l) else none
  | _ => none

theorem takeLit_self (v n : Nat) (l : List Syn) : takeLit n (.lit v n :: l) = some (v % 2 ^ n, l) := by
  simp only [takeLit, if_true]

/-- AV1 `read_delta_qindex`/`read_delta_lf`: the reduced delta. `isAbs` recognises the magnitude symbol. -/
def readDelta (isAbs : Elem → Option Nat) : List Syn → Option (Int × List Syn)
  | .elem e :: l => do
    let small ← isAbs e
    if small = 0 then some (0, l)
    else if small = 3 then
      let (k, l) ← takeLit 3 l
      let (v, l) ← takeLit (k + 1) l
      let (s, l) ← takeLit 1 l
      let abs := v + 2 ^ (k + 1) + 1
      some (if s = 1 then -(abs : Int) else abs, l)
    else
      let (s, l) ← takeLit 1 l
      some (if s = 1 then -(small : Int) else small, l)
  | _ => none

def isQAbs : Elem → Option Nat
  | .deltaQAbs v => some v
  | _ => none

def isLfAbs (multi i : Nat) : Elem → Option Nat
  | .deltaLfAbs v m j => if m = multi ∧ j = i then some v else none
  | _ => none

/-- What the escape code of a magnitude `2h + t + 1` (`h` a power of two, `t < 2h`) becomes at the decoder. -/
theorem deltaEscape_eq (k t dec : Nat) (ht : t < 2 ^ (k + 1)) (hk : k < 8) (hd : dec ≤ 1) :
    deltaEscape (2 ^ (k + 1) + t + 1) dec = some [.lit k 3, .lit (2 ^ k + t - dec) (k + 1)] := by
  have h256 : 2 ^ (k + 1) ≤ 2 ^ 8 := Nat.pow_le_pow_right (by omega) (by omega)
  have hlog : Nat.log2 (2 ^ (k + 1) + t) = k + 1 := by
    rw [Nat.log2_eq_iff (by positivity)]
    constructor
    · omega
    · rw [Nat.pow_succ 2 (k + 1)]; omega
  have h1 : 1 ≤ 2 ^ k := Nat.one_le_two_pow
  have hs : 2 ^ (k + 1) = 2 ^ k * 2 := Nat.pow_succ 2 k
  have hm : msb16 (2 ^ (k + 1) + t) = some (k + 1) := by rw [msb16_eq _ (by omega), hlog]
  unfold deltaEscape
  rw [Nat.add_sub_cancel, Nat.mod_eq_of_lt (by omega), hm]
  have u1 : usub (k + 1) 1 = some k := by unfold usub; rw [if_pos (by omega)]; rfl
  have u2 : usub (2 ^ (k + 1) + t) (2 ^ k) = some (2 ^ k + t) := by
    unfold usub; rw [if_pos (by omega)]; congr 1; omega
  have u3 : usub (2 ^ k + t) dec = some (2 ^ k + t - dec) := by unfold usub; rw [if_pos (by omega)]
  simp only [Option.bind_eq_bind, Option.bind_some, u1, u2, u3]

/-- Every magnitude from 3 to 512 has that form. -/
theorem delta_form (n : Nat) (h3 : 3 ≤ n) (h : n ≤ 512) : ∃ k t, k < 8 ∧ t < 2 ^ (k + 1) ∧ n = 2 ^ (k + 1) + t + 1 := by
  have h0 : n - 1 ≠ 0 := by omega
  have hl : 1 ≤ Nat.log2 (n - 1) := (Nat.le_log2 h0).2 (by omega)
  have hu : Nat.log2 (n - 1) < 9 := (Nat.log2_lt h0).2 (by omega)
  have a1 := Nat.log2_self_le h0
  have a2 := Nat.lt_log2_self (n := n - 1)
  refine ⟨Nat.log2 (n - 1) - 1, n - 1 - 2 ^ Nat.log2 (n - 1), by omega, ?_, ?_⟩
  · rw [Nat.sub_add_cancel hl]
    rw [Nat.pow_succ] at a2
    omega
  · rw [Nat.sub_add_cancel hl]; omega

/-- What the decoder makes of a delta. -/
theorem readDelta_deltaSyn (isAbs : Elem → Option Nat) (small : Nat → Elem) (hs : ∀ v, isAbs (small v) = some v) (dec : Nat)
    (hdec : dec ≤ 1) (d : Int) (hd : |d| ≤ 512) (rest : List Syn) :
    ∃ syn x, deltaSyn small 3 dec d = some syn ∧ readDelta isAbs (syn ++ rest) = some (x, rest) ∧
      (x = d ↔ |d| < 3 + 2 * dec) := by
  have hab : absM d = |d| := by
    unfold absM; split
    · rw [abs_of_nonneg (by omega)]
    · rw [abs_of_neg (by omega)]
  unfold deltaSyn
  by_cases h0 : d = 0
  · subst h0
    refine ⟨[.elem (small 0)], 0, by rw [if_neg (by simp)], ?_, ?_⟩
    · simp only [List.cons_append, List.nil_append, readDelta, hs, Option.bind_eq_bind, Option.bind_some, if_true]
    · simp; omega
  · rw [if_pos h0, hab]
    have hsign : ∀ l, takeLit 1 (Syn.lit (decide (d < 0)).toNat 1 :: l) = some ((decide (d < 0)).toNat, l) := by
      intro l
      rw [takeLit_self]
      cases decide (d < 0) <;> rfl
    have hm1 : (decide (d < 0)).toNat % 2 ^ 1 = (decide (d < 0)).toNat := by cases decide (d < 0) <;> rfl
    have hval : ∀ n : Nat, (if (decide (d < 0)).toNat = 1 then -(n : Int) else n) = d ↔ (n : Int) = |d| := by
      intro n
      by_cases hneg : d < 0
      · rw [decide_eq_true hneg, abs_of_neg hneg]
        simp only [Bool.toNat_true, if_true]
        omega
      · rw [decide_eq_false hneg, abs_of_nonneg (by omega)]
        simp
    by_cases h3 : |d| < 3
    · have hn : |d|.toNat < 3 := by omega
      unfold deltaAbsSyn
      rw [if_pos hn]
      refine ⟨_, if (decide (d < 0)).toNat = 1 then -((|d|.toNat : Nat) : Int) else ((|d|.toNat : Nat) : Int), rfl, ?_, ?_⟩
      · have hpos : 0 < |d| := abs_pos.2 h0
        simp only [List.cons_append, List.nil_append, readDelta, hs, Option.bind_eq_bind, Option.bind_some, hsign]
        rw [if_neg (by omega), if_neg (by omega)]
      · rw [hval]
        constructor
        · intro _; omega
        · intro _; exact Int.toNat_of_nonneg (abs_nonneg d)
    · have hn : ¬ |d|.toNat < 3 := by omega
      obtain ⟨k, t, hk, ht, hform⟩ := delta_form |d|.toNat (by omega) (by omega)
      unfold deltaAbsSyn
      rw [if_neg hn, hform, deltaEscape_eq k t dec ht hk hdec]
      have hk3 : k % 2 ^ 3 = k := Nat.mod_eq_of_lt (by omega)
      refine ⟨_, if (decide (d < 0)).toNat = 1 then -(((2 ^ k + t - dec) % 2 ^ (k + 1) + 2 ^ (k + 1) + 1 : Nat) : Int)
        else (((2 ^ k + t - dec) % 2 ^ (k + 1) + 2 ^ (k + 1) + 1 : Nat) : Int), rfl, ?_, ?_⟩
      · simp only [List.cons_append, List.nil_append, readDelta, hs, Option.bind_eq_bind, Option.bind_some]
        rw [if_neg (by omega)]
        simp only [takeLit_self, if_true, Option.bind_some, hk3, hm1]
      · rw [hval]
        have hcast : (((2 ^ k + t - dec) % 2 ^ (k + 1) + 2 ^ (k + 1) + 1 : Nat) : Int) = |d| ↔
            (2 ^ k + t - dec) % 2 ^ (k + 1) = t := by
          have : |d| = ((2 ^ (k + 1) + t + 1 : Nat) : Int) := by rw [← hform]; omega
          rw [this]
          constructor
          · intro h
            have := Int.ofNat.inj h
            omega
          · intro h; rw [h]; congr 1; omega
        rw [hcast]
        have h1 : 1 ≤ 2 ^ k := Nat.one_le_two_pow
        have hpow : 2 ^ (k + 1) = 2 * 2 ^ k := by rw [Nat.pow_succ]; omega
        have hform' : |d| = ((2 ^ (k + 1) + t + 1 : Nat) : Int) := by rw [← hform]; omega
        have hmod : (2 ^ k + t - dec) % 2 ^ (k + 1) = if 2 ^ k + t - dec < 2 ^ (k + 1) then 2 ^ k + t - dec
            else 2 ^ k + t - dec - 2 ^ (k + 1) := by
          split
          · rw [Nat.mod_eq_of_lt ‹_›]
          · rw [Nat.mod_eq_sub_mod (by omega), Nat.mod_eq_of_lt (by omega)]
        rw [hmod]
        rcases Nat.eq_zero_or_pos k with rfl | hk0
        · simp only [Nat.pow_zero, Nat.zero_add, Nat.pow_one] at *
          rcases Nat.eq_zero_or_pos dec with rfl | hdp
          · constructor
            · intro h; split at h <;> omega
            · intro h; omega
          · have : dec = 1 := by omega
            subst this
            constructor
            · intro h; omega
            · intro h; split <;> omega
        · have h2 : 2 ≤ 2 ^ k := by
            calc 2 = 2 ^ 1 := rfl
              _ ≤ 2 ^ k := Nat.pow_le_pow_right (by omega) hk0
          constructor
          · intro h; split at h <;> omega
          · intro h; omega

/-- AV1 `read_delta_qindex`: the new quantizer index. -/
def readQIndex (cur res : Nat) (l : List Syn) : Option (Int × List Syn) :=
  (readDelta isQAbs l).map fun p => (if p.1 = 0 then (cur : Int) else max 1 (min 255 (cur + p.1 * 2 ^ res)), p.2)

/-- C67 in full: the decoder arrives at the quantizer index of the block. -/
def C67_full : Prop :=
  ∀ (e : ModeEnv) (b : Blk) (st st' : ModeState) (syn rest : List Syn), e.deltaQRes ≤ 3 → 1 ≤ b.qIndex → b.qIndex ≤ 255 →
    1 ≤ st.currentQ → st.currentQ ≤ 255 → e.deltasFor b st = true → deltaQPart e b st = some (syn, st') →
    readQIndex st.currentQ e.deltaQRes (syn ++ rest) = some ((b.qIndex : Int), rest)

/-- The encoder never fails on legal indices, and remembers the index of the block. -/
theorem deltaQPart_eq (e : ModeEnv) (b : Blk) (st : ModeState) (hr : e.deltaQRes ≤ 3) (hq : b.qIndex ≤ 255)
    (hc : st.currentQ ≤ 255) (hd : e.deltasFor b st = true) :
    deltaQPart e b st = (deltaQSyn (((b.qIndex : Int) - st.currentQ) / 2 ^ e.deltaQRes)).map fun es =>
      (es, { st with currentQ := b.qIndex }) := by
  have h1 : isize ((b.qIndex : Int) - st.currentQ) = some ((b.qIndex : Int) - st.currentQ) := by
    unfold isize; rw [if_pos (by unfold isizeOk; rw [decide_eq_true_iff]; constructor <;> omega)]
  have h2 : sar ((b.qIndex : Int) - st.currentQ) e.deltaQRes = some (((b.qIndex : Int) - st.currentQ) / 2 ^ e.deltaQRes) := by
    unfold sar; rw [if_pos (by omega)]
  unfold deltaQPart
  rw [if_pos hd]
  simp only [h1, Option.bind_eq_bind, Option.bind_some, h2]
  cases deltaQSyn (((b.qIndex : Int) - st.currentQ) / 2 ^ e.deltaQRes) <;> rfl

theorem abs_ediv_le (a : Int) (r : Nat) (h : |a| ≤ 255) : |a / 2 ^ r| ≤ 512 := by
  have hp : (0 : Int) < 2 ^ r := by positivity
  rw [abs_le] at h ⊢
  constructor
  · refine (Int.le_ediv_iff_mul_le hp).2 ?_
    nlinarith
  · refine le_of_lt ((Int.ediv_lt_iff_lt_mul hp).2 ?_)
    nlinarith

/-- C67, what holds: a multiple of the resolution smaller than three steps is read back. -/
theorem C67_delta_q_partial (e : ModeEnv) (b : Blk) (st : ModeState) (rest : List Syn) (hr : e.deltaQRes ≤ 3)
    (hq1 : 1 ≤ b.qIndex) (hq : b.qIndex ≤ 255) (hc1 : 1 ≤ st.currentQ) (hc : st.currentQ ≤ 255) (hd : e.deltasFor b st = true)
    (hdvd : (2 : Int) ^ e.deltaQRes ∣ b.qIndex - st.currentQ) (hsm : |(b.qIndex : Int) - st.currentQ| < 3 * 2 ^ e.deltaQRes) :
    ∃ syn, deltaQPart e b st = some (syn, { st with currentQ := b.qIndex }) ∧
      readQIndex st.currentQ e.deltaQRes (syn ++ rest) = some ((b.qIndex : Int), rest) := by
  rw [deltaQPart_eq e b st hr hq hc hd]
  have hp : (0 : Int) < 2 ^ e.deltaQRes := by positivity
  obtain ⟨d, hd'⟩ := hdvd
  have hquot : ((b.qIndex : Int) - st.currentQ) / 2 ^ e.deltaQRes = d := by
    rw [hd', Int.mul_ediv_cancel_left _ (by omega)]
  rw [hquot]
  have hd3 : |d| < 3 := by
    rw [hd', abs_mul, abs_of_pos hp, mul_comm] at hsm
    exact lt_of_mul_lt_mul_right hsm hp.le
  obtain ⟨syn, x, h1, h2, h3⟩ := readDelta_deltaSyn isQAbs .deltaQAbs (fun _ => rfl) 0 (by omega) d (by omega) rest
  have hx : x = d := h3.2 (by omega)
  refine ⟨syn, by unfold deltaQSyn; rw [show K.DELTA_Q_SMALL = 3 from rfl, h1]; rfl, ?_⟩
  unfold readQIndex
  rw [h2, hx]
  simp only [Option.map_some, Option.some.injEq, Prod.mk.injEq, and_true]
  rw [mul_comm] at hd'
  split
  · next h0 => rw [h0] at hd'; omega
  · omega

/-- Any reduced delta from 3 on is misread: the escape code subtracts half of what the decoder adds. -/
theorem C67_wrong (d : Int) (h3 : 3 ≤ |d|) (h : |d| ≤ 512) (rest : List Syn) :
    ∃ syn x, deltaQSyn d = some syn ∧ readDelta isQAbs (syn ++ rest) = some (x, rest) ∧ x ≠ d := by
  obtain ⟨syn, x, h1, h2, h4⟩ := readDelta_deltaSyn isQAbs .deltaQAbs (fun _ => rfl) 0 (by omega) d h rest
  exact ⟨syn, x, h1, h2, fun hx => by have := h4.1 hx; omega⟩

/-- What the decoder makes of a delta with a magnitude from 3 on. -/
theorem readDelta_escape (isAbs : Elem → Option Nat) (small : Nat → Elem) (hs : ∀ v, isAbs (small v) = some v) (dec : Nat)
    (hdec : dec ≤ 1) (k t : Nat) (hk : k < 8) (ht : t < 2 ^ (k + 1)) (neg : Bool) (rest : List Syn) :
    ∃ syn, deltaSyn small 3 dec (if neg then -((2 ^ (k + 1) + t + 1 : Nat) : Int) else ((2 ^ (k + 1) + t + 1 : Nat) : Int)) = some syn ∧
      readDelta isAbs (syn ++ rest) = some (if neg then -(((2 ^ k + t - dec) % 2 ^ (k + 1) + 2 ^ (k + 1) + 1 : Nat) : Int)
        else (((2 ^ k + t - dec) % 2 ^ (k + 1) + 2 ^ (k + 1) + 1 : Nat) : Int), rest) := by
  generalize hd : (if neg then -((2 ^ (k + 1) + t + 1 : Nat) : Int) else ((2 ^ (k + 1) + t + 1 : Nat) : Int)) = d
  have h2 : 2 ≤ 2 ^ (k + 1) := by
    have : 1 ≤ 2 ^ k := Nat.one_le_two_pow
    rw [Nat.pow_succ]; omega
  have habs : (absM d).toNat = 2 ^ (k + 1) + t + 1 := by
    unfold absM
    cases neg <;> simp only [Bool.false_eq_true, if_false, if_true] at hd <;> split <;> omega
  have hneg : decide (d < 0) = neg := by
    cases neg <;> simp only [Bool.false_eq_true, if_false, if_true] at hd
    · exact decide_eq_false (by omega)
    · exact decide_eq_true (by omega)
  unfold deltaSyn
  rw [if_pos (by cases neg <;> simp only [Bool.false_eq_true, if_false, if_true] at hd <;> omega), habs, hneg]
  unfold deltaAbsSyn
  rw [if_neg (by omega), deltaEscape_eq k t dec ht hk hdec]
  have hk3 : k % 2 ^ 3 = k := Nat.mod_eq_of_lt (by omega)
  have hm1 : neg.toNat % 2 ^ 1 = neg.toNat := by cases neg <;> rfl
  refine ⟨_, rfl, ?_⟩
  simp only [List.cons_append, List.nil_append, readDelta, hs, Option.bind_eq_bind, Option.bind_some]
  rw [if_neg (by omega)]
  simp only [takeLit_self, if_true, Option.bind_some, hk3, hm1]
  cases neg <;> rfl

/-- How a delta from 3 on is misread: the magnitudes from `2^(k+1) + 1` to `2^(k+2)` share a length; the decoder takes those of the
lower half for those of the upper half and the other way round. -/
theorem C67_swapped (k t : Nat) (hk : k < 8) (ht : t < 2 ^ (k + 1)) (neg : Bool) (rest : List Syn) :
    ∃ syn, deltaQSyn (if neg then -((2 ^ (k + 1) + t + 1 : Nat) : Int) else ((2 ^ (k + 1) + t + 1 : Nat) : Int)) = some syn ∧
      readDelta isQAbs (syn ++ rest) = some (
        (if neg then -1 else 1) * (if t < 2 ^ k then ((2 ^ (k + 1) + t + 1 : Nat) : Int) + 2 ^ k
          else ((2 ^ (k + 1) + t + 1 : Nat) : Int) - 2 ^ k), rest) := by
  obtain ⟨syn, h1, h2⟩ := readDelta_escape isQAbs .deltaQAbs (fun _ => rfl) 0 (by omega) k t hk ht neg rest
  refine ⟨syn, h1, ?_⟩
  rw [h2]
  congr 2
  have hp : 2 ^ (k + 1) = 2 * 2 ^ k := by rw [Nat.pow_succ]; omega
  have hc : ((2 : Int) ^ k) = ((2 ^ k : Nat) : Int) := by push_cast; rfl
  rw [hp] at ht
  rw [hc, hp]
  clear hp hc
  generalize 2 ^ k = m at *
  by_cases h : t < m
  · rw [if_pos h, Nat.sub_zero, Nat.mod_eq_of_lt (by omega)]
    cases neg <;> simp only [Bool.false_eq_true, if_false, if_true] <;> omega
  · rw [if_neg h, Nat.sub_zero, Nat.mod_eq_sub_mod (by omega), Nat.mod_eq_of_lt (by omega)]
    cases neg <;> simp only [Bool.false_eq_true, if_false, if_true] <;> omega

/-- **C67**, exactly: the decoder arrives at the index of the block if the difference is a multiple of the resolution below three
steps, or if the index is the largest or smallest one and what it hears goes at least that far. -/
theorem C67_iff (e : ModeEnv) (b : Blk) (st : ModeState) (rest : List Syn) (hr : e.deltaQRes ≤ 3)
    (hq1 : 1 ≤ b.qIndex) (hq : b.qIndex ≤ 255) (hc1 : 1 ≤ st.currentQ) (hc : st.currentQ ≤ 255) (hd : e.deltasFor b st = true) :
    ∃ syn x, deltaQPart e b st = some (syn, { st with currentQ := b.qIndex }) ∧ readDelta isQAbs (syn ++ rest) = some (x, rest) ∧
      (readQIndex st.currentQ e.deltaQRes (syn ++ rest) = some ((b.qIndex : Int), rest) ↔
        ((2 : Int) ^ e.deltaQRes ∣ b.qIndex - st.currentQ ∧ |(b.qIndex : Int) - st.currentQ| < 3 * 2 ^ e.deltaQRes) ∨
        (b.qIndex = 255 ∧ 255 ≤ st.currentQ + x * 2 ^ e.deltaQRes) ∨ (b.qIndex = 1 ∧ st.currentQ + x * 2 ^ e.deltaQRes ≤ 1)) := by
  rw [deltaQPart_eq e b st hr hq hc hd]
  have hp : (0 : Int) < 2 ^ e.deltaQRes := by positivity
  have hlim := abs_ediv_le ((b.qIndex : Int) - st.currentQ) e.deltaQRes (by rw [abs_le]; omega)
  obtain ⟨syn, x, h1, h2, h3⟩ := readDelta_deltaSyn isQAbs .deltaQAbs (fun _ => rfl) 0 (by omega)
    (((b.qIndex : Int) - st.currentQ) / 2 ^ e.deltaQRes) hlim rest
  refine ⟨syn, x, by unfold deltaQSyn; rw [show K.DELTA_Q_SMALL = 3 from rfl, h1]; rfl, h2, ?_⟩
  unfold readQIndex
  rw [h2]
  simp only [Option.map_some, Option.some.injEq, Prod.mk.injEq, and_true]
  have hsmall : ((2 : Int) ^ e.deltaQRes ∣ b.qIndex - st.currentQ ∧ |(b.qIndex : Int) - st.currentQ| < 3 * 2 ^ e.deltaQRes) ↔
      st.currentQ + x * 2 ^ e.deltaQRes = (b.qIndex : Int) := by
    constructor
    · rintro ⟨⟨d, hd'⟩, hsm⟩
      have hquot : ((b.qIndex : Int) - st.currentQ) / 2 ^ e.deltaQRes = d := by
        rw [hd', Int.mul_ediv_cancel_left _ (by omega)]
      rw [hquot] at h3
      have hd3 : |d| < 3 := by
        rw [hd', abs_mul, abs_of_pos hp, mul_comm] at hsm
        exact lt_of_mul_lt_mul_right hsm hp.le
      rw [h3.2 (by omega), mul_comm]
      omega
    · intro h
      have hd' : (b.qIndex : Int) - st.currentQ = 2 ^ e.deltaQRes * x := by rw [mul_comm]; omega
      have hquot : ((b.qIndex : Int) - st.currentQ) / 2 ^ e.deltaQRes = x := by
        rw [hd', Int.mul_ediv_cancel_left _ (by omega)]
      rw [hquot] at h3
      refine ⟨⟨x, hd'⟩, ?_⟩
      rw [hd', abs_mul, abs_of_pos hp, mul_comm]
      exact mul_lt_mul_of_pos_right (by simpa using h3.1 rfl) hp
  rw [hsmall]
  split
  · next h0 =>
    subst h0
    simp only [zero_mul, add_zero]
    omega
  · omega

/-- An environment without segmentation, for the witnesses. -/
def plainEnv : ModeEnv :=
  { frameIsIntra := true, segIdPreSkip := false, segEnabled := false, feature := List.replicate 8 (List.replicate 7 none),
    losslessArray := List.replicate 8 false, codedLossless := false, enableCdef := false, allowIntrabc := false, cdefBits := 0,
    use128 := false, deltaQRes := 0, deltaLfPresent := false, deltaLfMulti := false, deltaLfRes := 0, numPlanes := 3,
    referenceSelect := false, lastActive := 0, miRow := 0, miCol := 0, rowStart := 0, segNbrs := some (-1, -1, -1) }

def plainState : ModeState := ⟨true, 100, [0, 0, 0, 0], [[-1]], 0, (⟨0, 0⟩, ⟨0, 0⟩)⟩

/-- From 100 to 104: the decoder goes to 103. -/
theorem C67_negation : ¬ C67_full := by
  intro h
  have h1 : deltaQPart plainEnv { bsize := 12, qIndex := 104 } plainState =
      some ([.elem (.deltaQAbs 3), .lit 0 3, .lit 2 1, .lit 0 1], { plainState with currentQ := 104 }) := by rfl
  have := h plainEnv { bsize := 12, qIndex := 104 } plainState _ _ [] (by decide) (by decide) (by decide) (by decide) (by decide)
    (by decide) h1
  have h2 : readQIndex plainState.currentQ plainEnv.deltaQRes [.elem (.deltaQAbs 3), .lit 0 3, .lit 2 1, .lit 0 1] =
      some (103, []) := by rfl
  rw [List.append_nil, h2] at this
  cases this

/-- A step lost to the resolution: with resolution 8 a change by 4 is not written, yet the encoder goes on from the new index. -/
example : deltaQPart { plainEnv with deltaQRes := 3 } { bsize := 12, qIndex := 104 } plainState =
    some ([.elem (.deltaQAbs 0)], { plainState with currentQ := 104 }) := by rfl

/-- C68 in full: the decoder reads the loop filter delta. -/
def C68_full : Prop :=
  ∀ (multi : Bool) (i : Nat) (d : Int) (syn rest : List Syn), |d| ≤ 126 → deltaLfSyn multi i d = some syn →
    readDelta (isLfAbs multi.toNat i) (syn ++ rest) = some (d, rest)

/-- C68: exactly the deltas below 5 are read back. -/
theorem C68_delta_lf_iff (multi : Bool) (i : Nat) (d : Int) (hd : |d| ≤ 512) (rest : List Syn) :
    ∃ syn, deltaLfSyn multi i d = some syn ∧ (readDelta (isLfAbs multi.toNat i) (syn ++ rest) = some (d, rest) ↔ |d| < 5) := by
  obtain ⟨syn, x, h1, h2, h3⟩ := readDelta_deltaSyn (isLfAbs multi.toNat i) (.deltaLfAbs · multi.toNat i)
    (fun v => by simp [isLfAbs]) 1 (by omega) d hd rest
  refine ⟨syn, h1, ?_⟩
  rw [h2]
  simp only [Option.some.injEq, Prod.mk.injEq, and_true]
  rw [h3]
  norm_num

/-- How other deltas are misread: of the magnitudes that share a length, the lower ones are taken for `2^k - 1` more, the upper ones
for `2^k + 1` less. -/
theorem C68_misread (multi : Bool) (i k t : Nat) (hk : k < 8) (ht : t < 2 ^ (k + 1)) (neg : Bool) (rest : List Syn) :
    ∃ syn, deltaLfSyn multi i (if neg then -((2 ^ (k + 1) + t + 1 : Nat) : Int) else ((2 ^ (k + 1) + t + 1 : Nat) : Int)) = some syn ∧
      readDelta (isLfAbs multi.toNat i) (syn ++ rest) = some (
        (if neg then -1 else 1) * (if t ≤ 2 ^ k then ((2 ^ (k + 1) + t + 1 : Nat) : Int) + (2 ^ k - 1)
          else ((2 ^ (k + 1) + t + 1 : Nat) : Int) - (2 ^ k + 1)), rest) := by
  obtain ⟨syn, h1, h2⟩ := readDelta_escape (isLfAbs multi.toNat i) (.deltaLfAbs · multi.toNat i) (fun v => by simp [isLfAbs]) 1
    (by omega) k t hk ht neg rest
  refine ⟨syn, h1, ?_⟩
  rw [h2]
  congr 2
  have hp : 2 ^ (k + 1) = 2 * 2 ^ k := by rw [Nat.pow_succ]; omega
  have h1 : 1 ≤ 2 ^ k := Nat.one_le_two_pow
  have hc : ((2 : Int) ^ k) = ((2 ^ k : Nat) : Int) := by push_cast; rfl
  rw [hp] at ht
  rw [hc, hp]
  clear hp hc
  generalize 2 ^ k = m at *
  by_cases h : t ≤ m
  · rw [if_pos h, Nat.mod_eq_of_lt (by omega)]
    cases neg <;> simp only [Bool.false_eq_true, if_false, if_true] <;> omega
  · rw [if_neg h, Nat.mod_eq_sub_mod (by omega), Nat.mod_eq_of_lt (by omega)]
    cases neg <;> simp only [Bool.false_eq_true, if_false, if_true] <;> omega

theorem C68_small_partial (multi : Bool) (i : Nat) (d : Int) (hd : |d| < 5) (rest : List Syn) :
    ∃ syn, deltaLfSyn multi i d = some syn ∧ readDelta (isLfAbs multi.toNat i) (syn ++ rest) = some (d, rest) := by
  obtain ⟨syn, h1, h2⟩ := C68_delta_lf_iff multi i d (by omega) rest
  exact ⟨syn, h1, h2.2 hd⟩

theorem C68_negation : ¬ C68_full := by
  intro h
  obtain ⟨syn, h1, h2⟩ := C68_delta_lf_iff false 0 5 (by decide) []
  exact absurd (h2.1 (h false 0 5 syn [] (by decide) h1)) (by decide)

/-! ## C69 — inter modes -/

/-- AV1 `inter_block_mode_info`, the mode.  AV1's names stand for the numbers of the repository (14 = NEARESTMV,
15 = NEARMV, 16 = GLOBALMV, 17 = NEWMV, 18.. = compound modes). -/
def readInterMode : Bool → List Elem → Option (Nat × List Elem)
  | true, .compoundMode m _ _ :: l => some (18 + m, l)
  | false, .newMv 0 _ :: l => some (17, l)
  | false, .newMv 1 _ :: .zeroMv 0 _ :: l => some (16, l)
  | false, .newMv 1 _ :: .zeroMv 1 _ :: .refMv r _ :: l => some (if r = 1 then 15 else 14, l)
  | _, _ => none

/-- C69 in full: the mode the encoder goes on with is the one the decoder reads. -/
def C69_full : Prop :=
  ∀ (compound : Bool) (b : Blk) (nc zc rc y y' : Nat) (es rest : List Elem), 18 ≤ b.compoundMode → b.compoundMode ≤ 25 →
    interModeSyn compound b nc zc rc y = some (es, y') → readInterMode compound (es ++ rest) = some (y', rest)

/-- C69 for blocks with one reference. -/
theorem C69_single_partial (b : Blk) (nc zc rc y : Nat) (rest : List Elem) :
    ∃ es y', interModeSyn false b nc zc rc y = some (es, y') ∧ readInterMode false (es ++ rest) = some (y', rest) ∧
      14 ≤ y' ∧ y' ≤ 17 := by
  unfold interModeSyn
  rcases h1 : b.newMv with _ | _
  · exact ⟨_, _, rfl, rfl, by decide, by decide⟩
  rcases h2 : b.zeroMv with _ | _
  · exact ⟨_, _, rfl, rfl, by decide, by decide⟩
  rcases h3 : b.refMv with _ | _
  · exact ⟨_, _, rfl, rfl, by decide, by decide⟩
  · exact ⟨_, _, rfl, rfl, by decide, by decide⟩

/-- With two references the decoder reads the mode of the block, the encoder goes on with the one of an earlier block. -/
theorem C69_compound (b : Blk) (nc zc rc y : Nat) (rest : List Elem) (h : 18 ≤ b.compoundMode) :
    ∃ es, interModeSyn true b nc zc rc y = some (es, y) ∧ readInterMode true (es ++ rest) = some (b.compoundMode, rest) := by
  refine ⟨[.compoundMode (b.compoundMode - 18) rc nc], ?_, ?_⟩
  · unfold interModeSyn usub
    rw [if_pos rfl, if_pos (show K.NEAREST_NEARESTMV ≤ b.compoundMode from h)]
    rfl
  · show some (18 + (b.compoundMode - 18), rest) = _
    rw [Nat.add_sub_cancel' h]

theorem C69_negation : ¬ C69_full := by
  intro h
  obtain ⟨es, h1, h2⟩ := C69_compound { bsize := 3, compoundMode := 20 } 0 0 0 0 [] (by decide)
  have := h true { bsize := 3, compoundMode := 20 } 0 0 0 0 0 es [] (by decide) (by decide) h1
  rw [h2] at this
  cases this

/-- The modes a tile encoder goes through, from its initial 0. -/
inductive YReach : Nat → Prop
  | start : YReach 0
  | forced {y} : YReach y → YReach 16
  | coded {y y'} (compound : Bool) (b : Blk) (nc zc rc : Nat) (es : List Elem) :
      YReach y → interModeSyn compound b nc zc rc y = some (es, y') → YReach y'

/-- So in no execution is a compound mode the one the encoder goes on with. -/
theorem C69_compound_never (y : Nat) (hy : YReach y) (b : Blk) (nc zc rc y' : Nat) (es rest : List Elem)
    (h18 : 18 ≤ b.compoundMode) (h : interModeSyn true b nc zc rc y = some (es, y')) :
    readInterMode true (es ++ rest) ≠ some (y', rest) := by
  have hlt : y < 18 := by
    clear h
    induction hy with
    | start => decide
    | forced _ _ => decide
    | coded compound b nc zc rc es _ h ih =>
      cases compound with
      | false =>
        obtain ⟨es', y'', h1, -, -, h3⟩ := C69_single_partial b nc zc rc _ []
        rw [h] at h1
        cases h1
        omega
      | true =>
        unfold interModeSyn at h
        rw [if_pos rfl] at h
        cases hu : usub b.compoundMode K.NEAREST_NEARESTMV with
        | none => rw [hu] at h; cases h
        | some m => rw [hu] at h; cases h; exact ih
  obtain ⟨es', h1, h2⟩ := C69_compound b nc zc rc y rest h18
  rw [h] at h1
  cases h1
  rw [h2]
  intro hc
  cases hc
  omega

/-! ## C70 — choice of the candidate -/

/-- AV1's loop over `drl_mode`. -/
def readDrl (found : Nat) : List Nat → Nat → List Elem → Option (Nat × List Elem)
  | [], r, l => some (r, l)
  | i :: is, r, l =>
    if found > i + 1 then
      match l with
      | .drlMode 0 _ _ :: l => some (i, l)
      | .drlMode _ _ _ :: l => readDrl found is (i + 1) l
      | _ => none
    else readDrl found is r l

/-- AV1 `ref_mv_idx` of a mode. -/
def readRefMvIdx (y found : Nat) (l : List Elem) : Option (Nat × List Elem) :=
  if y = 17 ∨ y = 25 then readDrl found [0, 1] 0 l
  else if y = 15 ∨ y = 19 ∨ y = 22 ∨ y = 23 then readDrl found [1, 2] 1 l
  else some (0, l)

theorem readDrl_drlLoop (found : Nat) (drl stack : List Nat) (rest : List Elem) : ∀ (is : List Nat) (r : Nat),
    (∀ i ∈ is, i < drl.length) → ∃ es r', drlLoop found drl stack is r = some (es, r') ∧
      readDrl found is r (es ++ rest) = some (r', rest) := by
  intro is
  induction is with
  | nil => intro r _; exact ⟨[], r, rfl, rfl⟩
  | cons i is ih =>
    intro r hl
    have hi := hl i (by simp)
    unfold drlLoop readDrl
    by_cases hf : found > i + 1
    · simp only [hf, if_true, List.getElem?_eq_getElem hi, Option.bind_eq_bind, Option.bind_some]
      cases hv : drl[i] with
      | zero => exact ⟨[.drlMode 0 i stack], i, rfl, rfl⟩
      | succ v =>
        obtain ⟨es, r', h1, h2⟩ := ih (i + 1) fun j hj => hl j (by simp [hj])
        refine ⟨.drlMode (v + 1) i stack :: es, r', ?_, h2⟩
        rw [h1]; rfl
    · simp only [hf, if_false]
      exact ih r fun j hj => hl j (by simp [hj])

/-- C70: for every mode, list of candidates and choice, the decoder selects the candidate the encoder selects. -/
theorem C70_candidate_choice (y found : Nat) (drl stack : List Nat) (hl : 3 ≤ drl.length) (rest : List Elem) :
    ∃ es idx, drlSyn y found drl stack = some (es, idx) ∧ readRefMvIdx y found (es ++ rest) = some (idx, rest) ∧
      idx ≤ 3 := by
  have hidx : ∀ (is : List Nat) (r : Nat) es r', (∀ i ∈ is, i ≤ 2) → r ≤ 3 →
      drlLoop found drl stack is r = some (es, r') → r' ≤ 3 := by
    intro is
    induction is with
    | nil => intro r es r' _ hr h; cases h; exact hr
    | cons i is ih =>
      intro r es r' hi hr h
      have h2 := hi i (by simp)
      unfold drlLoop at h
      split at h
      · cases hv : drl[i]? with
        | none => rw [hv] at h; cases h
        | some v =>
          simp only [hv, Option.bind_eq_bind, Option.bind_some] at h
          split at h
          · cases h; omega
          · cases hd : drlLoop found drl stack is (i + 1) with
            | none => rw [hd] at h; cases h
            | some p =>
              rw [hd] at h
              simp only [Option.bind_some, Option.some.injEq, Prod.mk.injEq] at h
              have := ih (i + 1) p.1 p.2 (fun j hj => hi j (by simp [hj])) (by omega) hd
              omega
      · exact ih r es r' (fun j hj => hi j (by simp [hj])) hr h
  unfold drlSyn readRefMvIdx hasNearmv
  by_cases h1 : y = 17 ∨ y = 25
  · rw [if_pos (show y = K.NEWMV ∨ y = K.NEW_NEWMV from h1)]
    simp only [if_pos h1]
    obtain ⟨es, r, a, b⟩ := readDrl_drlLoop found drl stack rest [0, 1] 0 (by simp; omega)
    exact ⟨es, r, a, b, hidx [0, 1] 0 es r (by simp) (by omega) a⟩
  · rw [if_neg (show ¬ (y = K.NEWMV ∨ y = K.NEW_NEWMV) from h1)]
    simp only [if_neg h1]
    by_cases h2 : y = 15 ∨ y = 19 ∨ y = 22 ∨ y = 23
    · simp only [if_pos h2]
      rw [if_pos (decide_eq_true (show y = K.NEARMV ∨ y = K.NEAR_NEARMV ∨ y = K.NEAR_NEWMV ∨ y = K.NEW_NEARMV from h2))]
      obtain ⟨es, r, a, b⟩ := readDrl_drlLoop found drl stack rest [1, 2] 1 (by simp; omega)
      exact ⟨es, r, a, b, hidx [1, 2] 1 es r (by simp) (by omega) a⟩
    · simp only [if_neg h2]
      rw [if_neg (by
        rw [decide_eq_true_iff]
        exact show ¬ (y = K.NEARMV ∨ y = K.NEAR_NEARMV ∨ y = K.NEAR_NEWMV ∨ y = K.NEW_NEARMV) from h2)]
      exact ⟨[], 0, rfl, rfl, by omega⟩

example : drlSyn 17 3 [1, 0, 0] [0, 0, 0] = some ([.drlMode 1 0 [0, 0, 0], .drlMode 0 1 [0, 0, 0]], 1) := by rfl

end Av1
