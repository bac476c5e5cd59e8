import Verif.Model.Lr
import Verif.Props.Geometry
import Verif.Props.GlobalMotion
import Mathlib.Data.List.Nodup

/-! # C108 to C111: loop restoration units -/

namespace Av1

/-! ## C108: every unit is met exactly once -/

namespace Ref

/-- A dimension of a plane: halved and rounded up if the plane is subsampled. -/
def planeDim (n : Nat) (ss : Bool) : Nat := if ss then (n + 1) / 2 else n

/-- Number of restoration units along a dimension: rounded to nearest, at least one (AV1 5.11.57). -/
def unitCount (unit n : Nat) : Nat := if n + unit / 2 < unit then 1 else (n + unit / 2) / unit

/-- The coded width of a frame of upscaled width `up` (AV1 5.9.8). -/
def codedWidth (up : Nat) (superres : Bool) (denom : Nat) : Nat := if superres then (8 * up + denom / 2) / denom else up

/-- Side of a superblock in 4×4 units. -/
def sbUnits (use128 : Bool) : Nat := if use128 then 32 else 16

end Ref

/-- The frame has samples, the unit size of the plane is known and positive, the denominator is one AV1 has. -/
structure LrEnv.Ok (e : LrEnv) (plane unit : Nat) : Prop where
  height : 0 < e.frameHeight
  width : 0 < e.upscaledWidth
  size : e.sizes[plane]? = some unit
  pos : 0 < unit
  denom : e.useSuperres = true → 9 ≤ e.denom ∧ e.denom ≤ 16

theorem mem_unitList (g : UnitRange) (a b : Nat) :
    (a, b) ∈ unitList g ↔ (g.r0 ≤ a ∧ a < g.r1) ∧ (g.c0 ≤ b ∧ b < g.c1) := by
  simp only [unitList, List.mem_flatMap, List.mem_range'_1, List.mem_map, Prod.mk.injEq]
  constructor
  · rintro ⟨x, hx, y, hy, rfl, rfl⟩; omega
  · rintro ⟨h1, h2⟩; exact ⟨a, by omega, b, by omega, rfl, rfl⟩

theorem ceil_le (a u x : Nat) (hu : 0 < u) : (a + u - 1) / u ≤ x ↔ a ≤ x * u := by
  rw [← Nat.lt_succ_iff, Nat.div_lt_iff_lt_mul hu, Nat.succ_mul]; omega

theorem lt_ceil (a u x : Nat) (hu : 0 < u) : x < (a + u - 1) / u ↔ x * u < a := by
  rw [← Nat.not_le, ceil_le a u x hu]; omega

theorem countUnits_eq (unit n : Nat) (hu : 0 < unit) : countUnits unit n = some (Ref.unitCount unit n) := by
  unfold countUnits Ref.unitCount
  rw [if_neg (by omega), Nat.shiftRight_eq_div_pow, pow_one]
  congr 1
  split
  · next h => rw [Nat.div_eq_of_lt h]; rfl
  · next h =>
    have : 1 ≤ (n + unit / 2) / unit := (Nat.one_le_div_iff hu).2 (by omega)
    omega

theorem round2Nat_eq (n : Nat) (ss : Bool) : round2Nat n ss.toNat = Ref.planeDim n ss := by
  cases ss <;> simp [round2Nat, Ref.planeDim, Nat.shiftRight_eq_div_pow]

/-- Units along one dimension: unit `x` lies in the step `i` of `m·n/d` samples exactly if it starts there. -/
theorem one_step (unit n m x i : Nat) (hu : 0 < unit) (hm : 0 < n * m) :
    ((i * n) * m + unit - 1) / unit ≤ x ∧ x < ((i * n + n) * m + unit - 1) / unit ↔ i = x * unit / (n * m) := by
  rw [ceil_le _ _ _ hu, lt_ceil _ _ _ hu, eq_comm, Nat.div_eq_iff hm]
  rw [show i * n * m = i * (n * m) by ring, show (i * n + n) * m = i * (n * m) + n * m by ring]
  omega

/-- The last unit starts inside the plane. -/
theorem unit_start (unit n x : Nat) (hu : 0 < unit) (hn : 0 < n) (hx : x < Ref.unitCount unit n) :
    x * unit = 0 ∨ x * unit + unit ≤ n + unit / 2 := by
  unfold Ref.unitCount at hx
  split at hx
  · left; rw [show x = 0 by omega]; simp
  · right
    have := (Nat.le_div_iff_mul_le hu).1 (show x + 1 ≤ (n + unit / 2) / unit by omega)
    rw [Nat.add_mul] at this; omega

theorem step_inside (a n m t : Nat) (hm : 0 < n * m) (h : a < t * m) : a / (n * m) * n < t := by
  have h1 := Nat.div_mul_le_self a (n * m)
  have hm' : 0 < m := Nat.pos_of_mul_pos_left hm
  have h2 : a / (n * m) * n * m ≤ a := by rw [Nat.mul_assoc]; exact h1
  exact Nat.lt_of_mul_lt_mul_right (Nat.lt_of_le_of_lt h2 h)


/-- The grid of units of a plane. -/
def Ref.unitRows (e : LrEnv) (plane unit : Nat) : Nat :=
  Ref.unitCount unit (Ref.planeDim e.frameHeight (decide (0 < plane) && e.ssy))

def Ref.unitCols (e : LrEnv) (plane unit : Nat) : Nat :=
  Ref.unitCount unit (Ref.planeDim e.upscaledWidth (decide (0 < plane) && e.ssx))

/-- Samples of a plane per 4×4 unit of luma. -/
def miSamples (ss : Bool) : Nat := if ss then 2 else 4

theorem sub_eq (plane : Nat) (ss : Bool) : (if plane = 0 then 0 else ss.toNat) = (decide (0 < plane) && ss).toNat := by
  by_cases h : plane = 0
  · simp [h]
  · simp [h, Nat.pos_of_ne_zero h]

theorem mi_shift (ss : Bool) : K.MI_SIZE >>> ss.toNat = miSamples ss := by cases ss <;> rfl

theorem unitRange_eq (e : LrEnv) (plane unit w h r c : Nat) (hk : e.Ok plane unit) :
    let my := miSamples (decide (0 < plane) && e.ssy)
    let mx := miSamples (decide (0 < plane) && e.ssx) * (if e.useSuperres then e.denom else 1)
    let d := unit * (if e.useSuperres then 8 else 1)
    unitRange e plane w h r c = some ⟨(r * my + unit - 1) / unit, min (Ref.unitRows e plane unit) (((r + h) * my + unit - 1) / unit),
      (c * mx + d - 1) / d, min (Ref.unitCols e plane unit) (((c + w) * mx + d - 1) / d)⟩ := by
  unfold unitRange Ref.unitRows Ref.unitCols
  simp only [sub_eq, hk.size, Option.bind_eq_bind, Option.bind_some, countUnits_eq _ _ hk.pos, round2Nat_eq, mi_shift]
  cases e.useSuperres <;> simp [K.SUPERRES_NUM]

theorem row_start_inside (H unit x : Nat) (ss : Bool) (hu : 0 < unit) (hH : 0 < H)
    (hx : x < Ref.unitCount unit (Ref.planeDim H ss)) : x * unit < 2 * ((H + 7) / 8) * miSamples ss := by
  have hp : 0 < Ref.planeDim H ss := by unfold Ref.planeDim; split <;> omega
  have := unit_start unit _ x hu hp hx
  generalize x * unit = y at *
  unfold Ref.planeDim miSamples at *
  cases ss <;> simp only [Bool.false_eq_true, if_false, if_true] at * <;> omega

theorem col_start_inside (W unit x denom : Nat) (ss sr : Bool) (hu : 0 < unit) (hW : 0 < W) (hd : sr = true → 9 ≤ denom ∧ denom ≤ 16)
    (hx : x < Ref.unitCount unit (Ref.planeDim W ss)) :
    x * (unit * (if sr then 8 else 1)) < 2 * ((Ref.codedWidth W sr denom + 7) / 8) * (miSamples ss * (if sr then denom else 1)) := by
  cases sr with
  | false => simpa [Ref.codedWidth] using row_start_inside W unit x ss hu hW hx
  | true =>
    obtain ⟨h1, h2⟩ := hd rfl
    have hp : 0 < Ref.planeDim W ss := by unfold Ref.planeDim; split <;> omega
    have := unit_start unit _ x hu hp hx
    simp only [if_true, Ref.codedWidth]
    rw [← Nat.mul_assoc]
    generalize hq : (8 * W + denom / 2) / denom = q
    have hq2 : 8 * W + denom / 2 < denom * q + denom := by
      have := Nat.lt_div_mul_add (a := 8 * W + denom / 2) (b := denom) (by omega)
      rw [hq, Nat.mul_comm q] at this; exact this
    generalize hz : 2 * ((q + 7) / 8) = z
    have hz4 : q ≤ 4 * z := by omega
    have hz5 : denom * q ≤ denom * (4 * z) := Nat.mul_le_mul_left _ hz4
    have hz6 : denom * (4 * z) = 4 * (z * denom) := by ring
    generalize hy : z * denom = y at *
    have e2 : ∀ k, z * (k * denom) = k * y := fun k => by rw [← hy]; ring
    rw [e2]
    have hq1 : 0 < q := by rw [← hq]; exact Nat.div_pos (by omega) (by omega)
    have hpos : 0 < y := by rw [← hy]; exact Nat.mul_pos (by omega) (by omega)
    clear hy e2
    generalize x * unit = v at *
    generalize denom * q = dq at *
    unfold Ref.planeDim miSamples at *
    cases ss <;> simp only [Bool.false_eq_true, if_false, if_true] at * <;> omega

/-- **C108**. In every plane whose unit size is known, each restoration unit of the frame is met at exactly one superblock
inside the frame, whatever the subsampling and the superresolution scale.  (Superblock `(i, j)` starts at 4×4 unit
`(i·n, j·n)`.) -/
theorem C108_units_once (e : LrEnv) (plane unit : Nat) (hk : e.Ok plane unit) (ur uc : Nat)
    (hr : ur < Ref.unitRows e plane unit) (hc : uc < Ref.unitCols e plane unit) :
    let n := Ref.sbUnits e.use128
    ∃ i j, i * n < 2 * ((e.frameHeight + 7) / 8) ∧
      j * n < 2 * ((Ref.codedWidth e.upscaledWidth e.useSuperres e.denom + 7) / 8) ∧
      ∀ i' j', (∃ g, unitRange e plane n n (i' * n) (j' * n) = some g ∧ (ur, uc) ∈ unitList g) ↔ i' = i ∧ j' = j := by
  intro n
  have hn : 0 < n := by unfold n Ref.sbUnits; split <;> decide
  have hm : ∀ b, 0 < miSamples b := fun b => by cases b <;> decide
  have hu := hk.pos
  have hd : 0 < unit * (if e.useSuperres then 8 else 1) := by split <;> omega
  have hmx : 0 < miSamples (decide (0 < plane) && e.ssx) * (if e.useSuperres then e.denom else 1) := by
    refine Nat.mul_pos (hm _) ?_
    split
    · next h => have := hk.denom h; omega
    · decide
  have hny := Nat.mul_pos hn (hm (decide (0 < plane) && e.ssy))
  have hnx := Nat.mul_pos hn hmx
  refine ⟨ur * unit / (n * miSamples (decide (0 < plane) && e.ssy)),
    uc * (unit * (if e.useSuperres then 8 else 1)) /
      (n * (miSamples (decide (0 < plane) && e.ssx) * (if e.useSuperres then e.denom else 1))), ?_, ?_, ?_⟩
  · exact step_inside _ _ _ _ hny (row_start_inside _ _ _ _ hu hk.height hr)
  · exact step_inside _ _ _ _ hnx (col_start_inside _ _ _ _ _ _ hu hk.width hk.denom hc)
  · intro i' j'
    have e1 := one_step unit n (miSamples (decide (0 < plane) && e.ssy)) ur i' hu hny
    have e2 := one_step (unit * (if e.useSuperres then 8 else 1)) n
      (miSamples (decide (0 < plane) && e.ssx) * (if e.useSuperres then e.denom else 1)) uc j' hd hnx
    rw [← e1, ← e2]
    have := unitRange_eq e plane unit n n (i' * n) (j' * n) hk
    dsimp only at this
    rw [this]
    simp only [Option.some.injEq, exists_eq_left', mem_unitList]
    omega

/-- No superblock names a unit twice or a unit outside the grid. -/
theorem C108_units_inside (e : LrEnv) (plane unit w h r c : Nat) (hk : e.Ok plane unit) :
    ∃ g, unitRange e plane w h r c = some g ∧ (unitList g).Nodup ∧
      ∀ x ∈ unitList g, x.1 < Ref.unitRows e plane unit ∧ x.2 < Ref.unitCols e plane unit := by
  have := unitRange_eq e plane unit w h r c hk
  dsimp only at this
  refine ⟨_, this, ?_, ?_⟩
  · unfold unitList
    rw [List.nodup_flatMap]
    refine ⟨fun a _ => ?_, ?_⟩
    · exact (List.nodup_range' (step := 1)).map fun x y hxy => by simpa using hxy
    · refine (List.nodup_range' (step := 1)).imp fun {a b} hab => ?_
      simp only [Function.onFun, List.disjoint_left, List.mem_map, not_exists, not_and]
      rintro ⟨p, q⟩ ⟨x, _, hx⟩ y _ hy
      simp only [Prod.mk.injEq] at hx hy
      exact hab (by omega)
  · rintro ⟨a, b⟩ hx
    rw [mem_unitList] at hx
    dsimp only at hx ⊢
    omega

/-- A plane whose unit size was never set (size 0, see C99) cannot be coded. -/
theorem C108_zero_panics (e : LrEnv) (plane w h r c : Nat) (h0 : e.sizes[plane]? = some 0) :
    unitRange e plane w h r c = none := by
  unfold unitRange
  simp [h0, countUnits]

/-- A frame of 1000×700 with 4:2:0 chroma, superresolution 12/8, units of 64 samples in both planes. -/
def lrExample : LrEnv := ⟨false, true, 3, [2, 2, 2], [64, 64, 64], true, true, 700, 1000, true, 12⟩

example : lrExample.Ok 1 64 ∧ Ref.unitRows lrExample 1 64 = 5 ∧ Ref.unitCols lrExample 1 64 = 8 ∧
    (unitRange lrExample 1 32 32 32 64).map unitList = some [(1, 3), (1, 4)] :=
  ⟨⟨by decide, by decide, rfl, by decide, fun _ => by decide⟩, by decide, by decide, by decide⟩

/-! ## C109: coefficients -/

namespace Ref

open P

/-- The loop of `decode_subexp_bool` (AV1 5.11.58), bits read as literals. -/
def subexpBool (numSyms k : Nat) : Nat → Nat → Nat → P Nat
  | 0, _, _ => fun _ => none
  | fuel + 1, i, mk => do
    let b2 := if i = 0 then k else k + i - 1
    let a := 2 ^ b2
    if numSyms ≤ mk + 3 * a then
      let v ← ns (numSyms - mk)
      pure (v + mk)
    else
      let more ← flag
      if more then subexpBool numSyms k fuel (i + 1) (mk + a)
      else
        let v ← f b2
        pure (v + mk)

/-- `decode_unsigned_subexp_with_ref_bool`. -/
def unsignedBool (mx k r : Nat) : P Nat := do
  let v ← subexpBool mx k 64 0 0
  pure (if 2 * r ≤ mx then Hdr.unRecenter r v else mx - 1 - Hdr.unRecenter (mx - 1 - r) v)

/-- `decode_signed_subexp_with_ref_bool`. -/
def signedBool (low high : Int) (k : Nat) (r : Int) : P Int := do
  let x ← unsignedBool (high - low).toNat k (r - low).toNat
  pure (x + low)

/-- Smallest and largest coefficient of the self-guided filter (AV1 `Sgrproj_Xqd_Min`, `Sgrproj_Xqd_Max`). -/
def sgrMin (i : Nat) : Int := if i = 0 then -96 else -32
def sgrMax (i : Nat) : Int := if i = 0 then 31 else 95

end Ref

/-- The bits of a call, taken out of their coding. -/
def LrOp.bits : LrOp → Bits
  | .raw b => b
  | .lit v n => toBits n v

/-- Goes through the arithmetic coder. -/
def LrOp.Coded : LrOp → Prop
  | .raw _ => False
  | .lit _ _ => True

/-- A decoder finds `v`: all bits were coded, and reading them gives `v`. -/
def Decodes {α : Type} (x : Option (List LrOp)) (p : P α) (v : α) : Prop :=
  ∃ ops, x = some ops ∧ (∀ o ∈ ops, o.Coded) ∧ Reads p (ops.flatMap LrOp.bits) v

/-- **C109**, full claim: a coefficient of the self-guided filter is read back, whatever the previous one was. -/
def C109_full : Prop := ∀ (i : Nat) (v r : Int), i < 2 → Ref.sgrMin i ≤ v → v ≤ Ref.sgrMax i → Ref.sgrMin i ≤ r → r ≤ Ref.sgrMax i →
  Decodes (lrSigned v (Ref.sgrMin i) (Ref.sgrMax i + 1) 4 r) (Ref.signedBool (Ref.sgrMin i) (Ref.sgrMax i + 1) 4 r) v

theorem lrRecenter_eq (r v : Nat) (hr : 2 * r < 2 ^ 64) : lrRecenter r v = some (Hdr.unRecenter r v) := by
  unfold lrRecenter Hdr.unRecenter
  rw [if_neg (by omega)]
  by_cases h : v > 2 * r
  · rw [if_pos h, if_pos h]
  · rw [if_neg h, if_neg h]
    simp only [Nat.shiftRight_eq_div_pow, pow_one, Nat.and_one_is_mod]
    by_cases h2 : v % 2 = 1
    · rw [if_pos (by omega), if_pos h2, usub, if_pos (by omega)]
    · rw [if_neg (by omega), if_neg h2]

theorem lrSubexp_go (n v k : Nat) (hv : v < n) (hn : n < 2 ^ 60) : ∀ (fuel i mk : Nat), mk ≤ v →
    mk = (if i = 0 then 0 else 2 ^ (k + i - 1)) → 62 ≤ fuel + i → k ≤ 60 →
    ∃ ops, lrSubexpGo v n k fuel i mk = some ops ∧ Reads (Ref.subexpBool n k fuel i mk) (ops.flatMap LrOp.bits) v
  | 0, i, mk, h1, h2, h3, h4 => by
    exfalso
    rw [if_neg (by omega)] at h2
    have : (2 : Nat) ^ 60 ≤ 2 ^ (k + i - 1) := Nat.pow_le_pow_right (by decide) (by omega)
    omega
  | fuel + 1, i, mk, h1, h2, h3, h4 => by
    have hb : (if i > 0 then k + i - 1 else k) = (if i = 0 then k else k + i - 1) := by split <;> split <;> omega
    unfold lrSubexpGo Ref.subexpBool
    simp only [hb, Nat.shiftLeft_eq, Nat.one_mul]
    have hB' : (2 : Nat) ^ (if i = 0 then k else k + i - 1) ≤ 2 ^ 60 ∧ mk ≤ 2 ^ 60 := by
      split
      · next h => subst h; exact ⟨Nat.pow_le_pow_right (by decide) h4, by simp at h2; omega⟩
      · next h => rw [if_neg h] at h2; omega
    generalize hB : (if i = 0 then k else k + i - 1) = b at *
    have ha : 0 < 2 ^ b := by positivity
    rw [if_neg (by omega)]
    by_cases hlast : n ≤ mk + 3 * 2 ^ b
    · simp only [if_pos hlast, usub, if_pos h1, if_pos (show mk ≤ n by omega), Option.bind_eq_bind, Option.bind_some,
        encodeNs_eq (v - mk) (n - mk) (by omega) (by omega) (by omega), Option.pure_def]
      refine ⟨_, rfl, ?_⟩
      have := (reads_ns (v - mk) (n - mk) (by omega) (by omega)).bind (g := fun x => pure (x + mk)) (Reads.pure _)
      rw [show v - mk + mk = v by omega] at this
      simpa [LrOp.bits] using this
    · simp only [if_neg hlast, usub, if_pos h1, Option.bind_eq_bind, Option.bind_some, Option.pure_def]
      by_cases hless : v - mk < 2 ^ b
      · simp only [if_pos hless]
        refine ⟨_, rfl, ?_⟩
        have h2 := (reads_f b (v - mk) hless).bind (g := fun x => pure (x + mk)) (Reads.pure _)
        rw [show v - mk + mk = v by omega] at h2
        have h3 := (reads_flag false).bind (g := fun more => if more = true then Ref.subexpBool n k fuel (i + 1) (mk + 2 ^ b) else do
          let v ← P.f b
          pure (v + mk)) (by simpa using h2)
        simpa [LrOp.bits, toBits] using h3
      · simp only [if_neg hless]
        obtain ⟨ops, e1, e2⟩ := lrSubexp_go n v k hv hn fuel (i + 1) (mk + 2 ^ b) (by omega) (by
          rw [if_neg (by omega), h2, ← hB]
          split
          · next h => subst h; simp
          · next h => rw [show k + (i + 1) - 1 = (k + i - 1) + 1 by omega, pow_succ]; ring) (by omega) h4
        rw [e1]
        refine ⟨_, rfl, ?_⟩
        have h3 := (reads_flag true).bind (g := fun more => if more = true then Ref.subexpBool n k fuel (i + 1) (mk + 2 ^ b) else do
          let v ← P.f b
          pure (v + mk)) (by simpa using e2)
        simpa [LrOp.bits, toBits] using h3

/-- **C109**, the subexponential code itself: if bits pushed past the coder counted as coded, every number below `n` would be
read back. -/
theorem C109_subexp (n v k : Nat) (hv : v < n) (hn : n < 2 ^ 60) (hk : k ≤ 60) :
    ∃ ops, lrSubexp v n k = some ops ∧ Reads (Ref.subexpBool n k 64 0 0) (ops.flatMap LrOp.bits) v :=
  lrSubexp_go n v k hv hn 64 0 0 (by omega) rfl (by omega) hk

example : lrSubexp 37 128 4 = some [.lit 1 1, .lit 1 1, .raw [false, false, false, true, false, true]] := by decide +kernel

/-- With 128 values only the first 32 stay inside the coder. -/
theorem lrSubexp_coded (tv : Nat) (ops : List LrOp) (h : lrSubexp tv 128 4 = some ops) :
    (∀ o ∈ ops, o.Coded) ↔ tv < 32 := by
  have h0 : lrSubexp tv 128 4 = (if tv < 16 then some [.lit 0 1, .lit tv 4] else if tv < 32 then
      some [.lit 1 1, .lit 0 1, .lit (tv - 16) 4] else ((encodeNs (tv - 32) 96).map fun b => [.lit 1 1, .lit 1 1, .raw b])) := by
    unfold lrSubexp
    rw [lrSubexpGo]
    simp only [usub, Nat.zero_le, gt_iff_lt, Nat.lt_irrefl, if_false, if_true, Nat.shiftLeft_eq, Nat.one_mul, Nat.zero_add,
      Nat.sub_zero, Option.bind_eq_bind, Option.bind_some, Option.pure_def]
    by_cases a : tv < 16
    · simp [a]
    · simp only [Nat.reducePow, a, if_false]
      rw [lrSubexpGo]
      simp only [usub, Nat.lt_add_one, if_true, Nat.shiftLeft_eq, Nat.one_mul, gt_iff_lt, Nat.reduceAdd, Nat.reduceSub, Nat.reducePow,
        Nat.reduceMul, Nat.reduceLeDiff, ge_iff_le, if_false, Option.bind_eq_bind, Option.bind_some, if_pos (show 16 ≤ tv by omega),
        Option.pure_def]
      by_cases b : tv < 32
      · simp [b, show tv - 16 < 16 by omega]
      · simp only [b, show ¬ (tv - 16 < 16) by omega, if_false]
        rw [lrSubexpGo]
        simp only [usub, Nat.reduceLT, if_true, Nat.shiftLeft_eq, Nat.one_mul, gt_iff_lt, Nat.reduceAdd, Nat.reduceSub, Nat.reducePow,
          Nat.reduceMul, Nat.reduceLeDiff, ge_iff_le, if_false, Option.bind_eq_bind, Option.bind_some, if_pos (show 32 ≤ tv by omega),
          Option.pure_def, Nat.le_refl]
        cases encodeNs (tv - 32) 96 <;> rfl
  rw [h0] at h
  split at h
  · simp only [Option.some.injEq] at h; subst h; simp [LrOp.Coded]; omega
  · split at h
    · simp only [Option.some.injEq] at h; subst h; simp [LrOp.Coded]; omega
    · cases hx : encodeNs (tv - 32) 96 with
      | none => rw [hx] at h; cases h
      | some b => rw [hx] at h; simp only [Option.map_some, Option.some.injEq] at h; subst h; simp [LrOp.Coded]; omega

/-- With at most 64 values the first 16 of more than 48 stay inside the coder. -/
theorem lrSubexp_small (tv m : Nat) (hm : m ≤ 64) (ops : List LrOp) (h : lrSubexp tv m 4 = some ops)
    (hc : ∀ o ∈ ops, o.Coded) : 48 < m ∧ tv < 16 ∧ ops = [.lit 0 1, .lit tv 4] := by
  unfold lrSubexp at h
  rw [lrSubexpGo] at h
  simp only [usub, Nat.zero_le, gt_iff_lt, Nat.lt_irrefl, if_false, if_true, Nat.shiftLeft_eq, Nat.one_mul, Nat.zero_add,
    Nat.sub_zero, Option.bind_eq_bind, Option.bind_some, Option.pure_def, Nat.reducePow, Nat.reduceMul, ge_iff_le,
    Nat.reduceLeDiff] at h
  by_cases a : m ≤ 48
  · rw [if_pos a] at h
    cases hx : encodeNs tv m with
    | none => rw [hx] at h; cases h
    | some b =>
      rw [hx] at h
      simp only [Option.bind_some, Option.some.injEq] at h
      exact absurd (hc (.raw b) (by rw [← h]; simp)) id
  · rw [if_neg a] at h
    by_cases b : tv < 16
    · rw [if_pos b] at h
      exact ⟨by omega, b, by simpa using h.symm⟩
    · rw [if_neg b, lrSubexpGo] at h
      simp only [usub, Nat.lt_add_one, if_true, Nat.shiftLeft_eq, Nat.one_mul, gt_iff_lt, Nat.reduceAdd, Nat.reduceSub, Nat.reducePow,
        Nat.reduceMul, Nat.reduceLeDiff, ge_iff_le, if_false, Option.bind_eq_bind, Option.bind_some, if_pos (show 16 ≤ tv by omega),
        Option.pure_def, if_pos hm, if_pos (show 16 ≤ m by omega)] at h
      cases hx : encodeNs (tv - 16) (m - 16) with
      | none => rw [hx] at h; cases h
      | some b =>
        rw [hx] at h
        simp only [Option.bind_some, Option.some.injEq] at h
        exact absurd (hc (.raw b) (by rw [← h]; simp)) id

/-- **C109, partial.** Exactly which coefficients are read back: `q`, `x` are the distances of the previous and the coded
coefficient from the smallest one.  Missing: all other pairs. -/
theorem C109_sgr_iff_partial (i : Nat) (v r : Int) (hv0 : Ref.sgrMin i ≤ v) (hv1 : v ≤ Ref.sgrMax i)
    (hr0 : Ref.sgrMin i ≤ r) (hr1 : r ≤ Ref.sgrMax i) :
    Decodes (lrSigned v (Ref.sgrMin i) (Ref.sgrMax i + 1) 4 r) (Ref.signedBool (Ref.sgrMin i) (Ref.sgrMax i + 1) 4 r) v ↔
      let q := (r - Ref.sgrMin i).toNat
      let x := (v - Ref.sgrMin i).toNat
      q ≤ 64 ∧ Hdr.unRecenter q x < 32 ∧ Involuted q x := by
  have hmm : Ref.sgrMax i = Ref.sgrMin i + 127 := by unfold Ref.sgrMax Ref.sgrMin; split <;> rfl
  have hlo : -96 ≤ Ref.sgrMin i ∧ Ref.sgrMin i ≤ -32 := by unfold Ref.sgrMin; split <;> decide
  rw [hmm] at hv1 hr1 ⊢
  clear hmm
  generalize Ref.sgrMin i = low at *
  dsimp only
  have his : ∀ z : Int, 0 ≤ z → z ≤ 128 → isize z = some z := fun z h0 h1 => by
    unfold isize isizeOk; rw [if_pos (by rw [decide_eq_true_iff]; omega)]
  unfold lrSigned Ref.signedBool Ref.unsignedBool
  rw [his _ (by omega) (by omega), his _ (by omega) (by omega), his _ (by omega) (by omega)]
  simp only [Option.bind_eq_bind, Option.bind_some]
  rw [asUsize_eq _ (by omega) (by omega), asUsize_eq _ (by omega) (by omega), asUsize_eq _ (by omega) (by omega)]
  rw [show (low + 127 + 1 - low).toNat = 128 by omega]
  generalize hx : (v - low).toNat = x
  generalize hq : (r - low).toNat = q
  have hx' : v = x + low := by omega
  have hx127 : x ≤ 127 := by omega
  have hq127 : q ≤ 127 := by omega
  -- what is read from a number `t` below 128
  have hread : ∀ (t : Nat) (e : Bits), Reads (Ref.subexpBool 128 4 64 0 0) e t →
      Reads (do let x ← (do
                  let v ← Ref.subexpBool 128 4 64 0 0
                  pure (if 2 * q ≤ 128 then Hdr.unRecenter q v else 128 - 1 - Hdr.unRecenter (128 - 1 - q) v))
                pure ((x : Nat) + low : Int)) e
        (((if 2 * q ≤ 128 then Hdr.unRecenter q t else 128 - 1 - Hdr.unRecenter (128 - 1 - q) t : Nat) : Int) + low) := by
    intro t e h
    have h1 := h.bind (g := fun v => pure (if 2 * q ≤ 128 then Hdr.unRecenter q v else 128 - 1 - Hdr.unRecenter (128 - 1 - q) v))
      (Reads.pure _)
    have h2 := h1.bind (g := fun x : Nat => (pure ((x : Nat) + low : Int) : P Int)) (Reads.pure _)
    simpa using h2
  unfold lrUnsigned
  rw [Nat.shiftLeft_eq, pow_one, Nat.mod_eq_of_lt (by omega)]
  by_cases hq64 : q ≤ 64
  · rw [if_pos (by omega), lrRecenter_eq _ _ (by omega), Option.bind_eq_bind, Option.bind_some]
    have hlt : Hdr.unRecenter q x < 128 := by
      unfold Hdr.unRecenter; split <;> [skip; split] <;> omega
    obtain ⟨ops, e1, e2⟩ := C109_subexp 128 _ 4 hlt (by decide) (by decide)
    have hcoded := lrSubexp_coded _ ops e1
    have hr := hread _ _ e2
    rw [if_pos (by omega)] at hr
    constructor
    · rintro ⟨ops', h1, h2, h3⟩
      rw [e1] at h1
      cases h1
      refine ⟨hq64, hcoded.1 h2, ?_⟩
      rw [← involuted_iff]
      have := hr.unique h3
      omega
    · rintro ⟨_, h2, h3⟩
      refine ⟨ops, e1, hcoded.2 h2, ?_⟩
      rw [← involuted_iff] at h3
      rw [h3] at hr
      rw [hx']
      exact hr
  · rw [if_neg (by omega)]
    simp only [usub, if_pos (show 1 ≤ 128 by omega), Option.bind_eq_bind, Option.bind_some, Nat.reduceSub,
      if_pos hx127, if_pos hq127]
    rw [lrRecenter_eq _ _ (by omega), Option.bind_some]
    constructor
    · rintro ⟨ops, h1, h2, h3⟩
      exfalso
      obtain ⟨a1, a2, a3⟩ := lrSubexp_small _ _ (by omega) ops h1 h2
      obtain ⟨ops', e1, e2⟩ := C109_subexp 128 (Hdr.unRecenter (127 - q) (127 - x)) 4 (by omega) (by decide) (by decide)
      have e3 : ops' = [.lit 0 1, .lit (Hdr.unRecenter (127 - q) (127 - x)) 4] := by
        have : lrSubexp (Hdr.unRecenter (127 - q) (127 - x)) 128 4 =
            some [.lit 0 1, .lit (Hdr.unRecenter (127 - q) (127 - x)) 4] := by
          unfold lrSubexp
          rw [lrSubexpGo]
          simp only [usub, Nat.zero_le, gt_iff_lt, Nat.lt_irrefl, if_false, if_true, Nat.shiftLeft_eq, Nat.one_mul, Nat.zero_add,
            Nat.sub_zero, Option.bind_eq_bind, Option.bind_some, Option.pure_def, Nat.reducePow, a2]
          rfl
        rw [this] at e1
        simpa using e1.symm
      rw [e3] at e2
      rw [a3] at h3
      have hr := (hread _ _ e2).unique h3
      rw [if_neg (by omega)] at hr
      simp only [Nat.reduceSub] at hr
      have hle : Hdr.unRecenter (127 - q) (Hdr.unRecenter (127 - q) (127 - x)) ≤ 127 := by
        generalize Hdr.unRecenter (127 - q) (127 - x) = t at *
        unfold Hdr.unRecenter; split <;> [skip; split] <;> omega
      have hinv : Hdr.unRecenter (127 - q) (Hdr.unRecenter (127 - q) (127 - x)) = 127 - x := by omega
      rw [involuted_iff] at hinv
      unfold Hdr.unRecenter at a2
      rcases hinv with h | ⟨k, b1, b2 | b2⟩ | ⟨k, b1, b2⟩
      · split at a2 <;> [skip; split at a2] <;> omega
      · split at a2 <;> [skip; split at a2] <;> omega
      · split at a2 <;> [skip; split at a2] <;> omega
      · split at a2 <;> [skip; split at a2] <;> omega
    · rintro ⟨h, _⟩; exact absurd h hq64

example : Decodes (lrSigned (-76) (-96) 32 4 (-96)) (Ref.signedBool (-96) 32 4 (-96)) (-76) :=
  (C109_sgr_iff_partial 0 (-76) (-96) (by decide) (by decide) (by decide) (by decide)).2
    ⟨by decide, by decide, .inl (by decide)⟩

/-- The first coefficient of a tile is coded relative to −32, the second relative to 31: none at all is read back. -/
theorem C109_first_never (i : Nat) (hi : i < 2) (v : Int) (hv0 : Ref.sgrMin i ≤ v) (hv1 : v ≤ Ref.sgrMax i) :
    ∃ r, K.sgrproj_xqd_mid[i]? = some r ∧
      ¬ Decodes (lrSigned v (Ref.sgrMin i) (Ref.sgrMax i + 1) 4 r) (Ref.signedBool (Ref.sgrMin i) (Ref.sgrMax i + 1) 4 r) v := by
  have h01 : i = 0 ∨ i = 1 := by omega
  rcases h01 with rfl | rfl
  · refine ⟨-32, rfl, fun h => ?_⟩
    have hh := (C109_sgr_iff_partial 0 v (-32) hv0 hv1 (by decide) (by decide)).1 h
    obtain ⟨_, h2, h3⟩ := hh
    have e1 : ((-32 : Int) - Ref.sgrMin 0).toNat = 64 := by decide
    have e2 : Ref.sgrMin 0 = -96 := rfl
    have e3 : Ref.sgrMax 0 = 31 := rfl
    rw [e1] at h2 h3
    unfold Hdr.unRecenter at h2
    rcases h3 with h3 | ⟨k, b1, b2 | b2⟩ | ⟨k, b1, b2⟩
    · split at h2 <;> [skip; split at h2] <;> omega
    all_goals omega
  · refine ⟨31, rfl, fun h => ?_⟩
    have hh := (C109_sgr_iff_partial 1 v 31 hv0 hv1 (by decide) (by decide)).1 h
    obtain ⟨_, h2, h3⟩ := hh
    have e1 : ((31 : Int) - Ref.sgrMin 1).toNat = 63 := by decide
    have e2 : Ref.sgrMin 1 = -32 := rfl
    have e3 : Ref.sgrMax 1 = 95 := rfl
    rw [e1] at h2 h3
    unfold Hdr.unRecenter at h2
    rcases h3 with h3 | ⟨k, b1, b2 | b2⟩ | ⟨k, b1, b2⟩
    · split at h2 <;> [skip; split at h2] <;> omega
    all_goals omega

/-- **C109** is false. -/
theorem C109_negation : ¬ C109_full := by
  intro h
  obtain ⟨r, hr, hn⟩ := C109_first_never 0 (by decide) 0 (by decide) (by decide)
  cases hr
  exact hn (h 0 0 (-32) (by decide) (by decide) (by decide) (by decide) (by decide))

/-! ## C110: the type of a unit -/

/-- Types a unit can have in a frame of type `ft` (1 Wiener, 2 self-guided, 3 chosen per unit). -/
def Ref.unitTypes (ft : Nat) : List Nat := if ft = 3 then [0, 1, 2] else [0, ft]

/-- **C110**, full claim: what is written for a unit is coded and tells the type of the unit. -/
def C110_full : Prop := ∀ ft ∈ [1, 2, 3], (∀ u, ∀ o ∈ (unitType ft u).1, o.Coded) ∧
  ∀ u u', (unitType ft u).1 = (unitType ft u').1 → (unitType ft u).2 = (unitType ft u').2

/-- **C110, partial.** In frames of one type, one bit is written and tells whether the unit is filtered.  Missing: the bit
should go through the coder, and frames that choose the type per unit. -/
theorem C110_flag_partial (ft : Nat) (hf : ft = 1 ∨ ft = 2) (u u' : LrUnit) :
    (∃ b, (unitType ft u).1 = [.raw [b]] ∧ (unitType ft u).2 = if b then ft else 0) ∧
    (unitType ft u).2 ∈ Ref.unitTypes ft ∧
    ((unitType ft u).1 = (unitType ft u').1 → (unitType ft u).2 = (unitType ft u').2) := by
  rcases hf with rfl | rfl
  · simp only [unitType, K.RESTORE_WIENER, K.RESTORE_SGRPROJ, K.RESTORE_NONE, if_true]
    refine ⟨⟨_, rfl, rfl⟩, ?_, ?_⟩
    · cases u.useWiener <;> cases u.useSgr <;> decide
    · simp only [List.cons.injEq, LrOp.raw.injEq, and_true]; intro h; rw [h]
  · simp only [unitType, K.RESTORE_WIENER, K.RESTORE_SGRPROJ, K.RESTORE_NONE, if_true, Nat.reduceEqDiff, if_false]
    refine ⟨⟨_, rfl, rfl⟩, ?_, ?_⟩
    · cases u.useWiener <;> cases u.useSgr <;> decide
    · simp only [List.cons.injEq, LrOp.raw.injEq, and_true]; intro h; rw [h]

/-- In frames that choose the type per unit, nothing is written about it. -/
theorem C110_switchable_silent (u : LrUnit) : unitType 3 u = ([], u.ty) := rfl

/-- No flag ever goes through the coder. -/
theorem C110_flag_uncoded (ft : Nat) (u : LrUnit) : ∀ o ∈ (unitType ft u).1, ¬ o.Coded := by
  unfold unitType
  split <;> [skip; split] <;> simp [LrOp.Coded]

/-- **C110** is false. -/
theorem C110_negation : ¬ C110_full := by
  intro h
  have := (h 3 (by decide)).2 ⟨false, false, 0, 0, [], []⟩ ⟨false, false, 2, 0, [], []⟩ rfl
  exact absurd this (by decide)

/-- A unit with a Wiener filter cannot be coded: the encoder context is borrowed a second time. -/
theorem C110_wiener_panics (ft plane ur uc : Nat) (u : LrUnit) (s : LrState)
    (h : (unitType ft u).2 = 1) : lrUnit ft plane ur uc u s = none := by
  have hw : ∀ s, lrWiener true plane ur uc u s = none := by
    intro s
    have hc : ∀ pass j s, lrWienerCoef true plane ur uc pass j u s = none := by
      intro pass j s
      unfold lrWienerCoef borrowMut
      simp only [Option.bind_eq_bind, if_true, Option.bind_none]
      simp only [Option.bind_fun_none]
    unfold lrWiener lrWienerPass
    split <;> simp [lrWienerCoefs, hc]
  unfold lrUnit
  generalize hx : unitType ft u = x at h
  obtain ⟨ops, ty⟩ := x
  dsimp only at h
  subst h
  dsimp only
  cases upd3 s.lrType plane ur uc fun _ => some 1 with
  | none => rfl
  | some m => simp only [Option.bind_eq_bind, Option.bind_some, K.RESTORE_WIENER, if_true, hw]; rfl

example : (unitType 1 ⟨true, false, 0, 0, [[3, -7, 15], [3, -7, 15]], [-32, 31]⟩).2 = 1 := by decide

theorem updAt_some {α : Type} {l l' : List α} {i : Nat} {f : α → Option α} (h : updAt l i f = some l') :
    ∃ x y, l[i]? = some x ∧ f x = some y ∧ l' = l.set i y := by
  simp only [updAt, Option.bind_eq_bind, Option.bind_eq_some_iff, Option.some.injEq] at h
  obtain ⟨x, h1, y, h2, h3⟩ := h
  exact ⟨x, y, h1, h2, h3.symm⟩

/-- Entry of a map over planes, rows and columns. -/
def at3 {α : Type} (m : List (List (List α))) (p r c : Nat) : Option α := (m[p]?.bind (·[r]?)).bind (·[c]?)

theorem updAt_get {α : Type} {l l' : List α} {i : Nat} {f : α → Option α} (h : updAt l i f = some l') (j : Nat) :
    l'[j]? = if j = i then l[i]?.bind f else l[j]? := by
  obtain ⟨x, y, h1, h2, rfl⟩ := updAt_some h
  have hi : i < l.length := (List.getElem?_eq_some_iff.1 h1).1
  rw [List.getElem?_set]
  by_cases hj : j = i
  · subst hj; rw [if_pos rfl, if_pos hi, if_pos rfl, h1, Option.bind_some, h2]
  · rw [if_neg (Ne.symm hj), if_neg hj]

theorem upd3_get {α : Type} {m m' : List (List (List α))} {p r c : Nat} {f : α → Option α} (h : upd3 m p r c f = some m')
    (p' r' c' : Nat) : at3 m' p' r' c' = if p' = p ∧ r' = r ∧ c' = c then (at3 m p r c).bind f else at3 m p' r' c' := by
  obtain ⟨a, a', h1, h2, -⟩ := updAt_some h
  obtain ⟨b, b', h3, h4, -⟩ := updAt_some h2
  have g := updAt_get h p'
  unfold at3
  rw [g]
  by_cases e1 : p' = p
  · subst e1
    simp only [if_true, h1, Option.bind_some, h2, true_and]
    rw [updAt_get h2 r']
    by_cases e2 : r' = r
    · subst e2
      simp only [if_true, h3, Option.bind_some, h4, true_and]
      rw [updAt_get h4 c']
    · simp [e2]
  · simp [e1]

theorem lrSgrCoef_keeps {plane ur uc i radius : Nat} {u : LrUnit} {s s' : LrState} {ops : List LrOp}
    (h : lrSgrCoef plane ur uc i radius u s = some (ops, s')) : s'.lrType = s.lrType := by
  simp only [lrSgrCoef, Option.bind_eq_bind, Option.bind_eq_some_iff, Option.some.injEq, Prod.mk.injEq] at h
  obtain ⟨_, _, _, _, _, _, _, _, _, _, _, _, _, rfl⟩ := h
  rfl

/-! The second borrow is all that stops a Wiener unit: without it (`held = false`) the coefficients are coded and kept as they
should be. -/

/-- Range and parameter of the Wiener coefficients (AV1 `Wiener_Taps_Min`, `Wiener_Taps_Max`, `Wiener_Taps_K`). -/
def Ref.wienerTap : List (Int × Int × Nat) := [(-5, 10, 1), (-23, 8, 2), (-17, 46, 3)]

/-- Coefficient `b` of pass `a` kept for a unit. -/
def LrState.tap (s : LrState) (plane ur uc a b : Nat) : Option Int :=
  ((at3 s.wiener plane ur uc).bind (·[a]?)).bind (·[b]?)

theorem upd3_tap {s : LrState} {plane ur uc pass j : Nat} {v : Int} {w : List (List (List (List (List Int))))}
    (h : upd3 s.wiener plane ur uc (fun x => updAt x pass fun y => updAt y j fun _ => some v) = some w) (a b : Nat) :
    ((at3 w plane ur uc).bind (·[a]?)).bind (·[b]?) =
      if a = pass ∧ b = j then some v else s.tap plane ur uc a b := by
  obtain ⟨x1, y1, h1, h2, -⟩ := updAt_some h
  obtain ⟨x2, y2, h3, h4, -⟩ := updAt_some h2
  obtain ⟨x3, y3, h5, h6, -⟩ := updAt_some h4
  obtain ⟨x4, y4, h7, h8, -⟩ := updAt_some h6
  obtain ⟨x5, y5, h9, h10, -⟩ := updAt_some h8
  have e : at3 s.wiener plane ur uc = some x3 := by simp [at3, h1, h3, h5]
  rw [upd3_get h, if_pos ⟨rfl, rfl, rfl⟩, LrState.tap, e]
  simp only [Option.bind_some, h6]
  rw [updAt_get h6 a]
  by_cases ha : a = pass
  · subst ha
    simp only [if_true, h7, Option.bind_some, h8, true_and]
    rw [updAt_get h8 b]
    by_cases hb : b = j
    · subst hb; simp [h9]
    · simp [hb]
  · simp [ha]

theorem lrWienerCoef_spec {plane ur uc pass j : Nat} {u : LrUnit} {s s' : LrState} {ops : List LrOp}
    (h : lrWienerCoef false plane ur uc pass j u s = some (ops, s')) :
    ∃ v rf mn mx k, Ref.wienerTap[j]? = some (mn, mx, k) ∧ u.wiener[pass]?.bind (·[j]?) = some v ∧
      at3 s.refWiener plane pass j = some rf ∧ lrSigned v mn (mx + 1) k rf = some ops ∧
      (∀ a b, at3 s'.refWiener plane a b = if a = pass ∧ b = j then some v else at3 s.refWiener plane a b) ∧
      ∀ a b, s'.tap plane ur uc a b = if a = pass ∧ b = j then some v else s.tap plane ur uc a b := by
  simp only [lrWienerCoef, borrowMut, Option.bind_eq_bind, Option.bind_eq_some_iff, Option.some.injEq, Prod.mk.injEq] at h
  obtain ⟨mn, h1, mx, h2, k, h3, v, h4, rf, h5, o, h6, w, h7, _, _, rs, h8, rfl, rfl⟩ := h
  have h5' : at3 s.refWiener plane pass j = some rf := by
    simp only [at3, Option.bind_eq_some_iff]; exact h5
  refine ⟨v, rf, mn, mx, k.toNat, ?_, Option.bind_eq_some_iff.2 h4, h5', h6, ?_, ?_⟩
  · have hj : j < 3 := by simpa [K.wiener_taps_min] using (List.getElem?_eq_some_iff.1 h1).1
    interval_cases j <;> cases h1 <;> cases h2 <;> cases h3 <;> rfl
  · intro a b
    rw [upd3_get h8]
    by_cases hc : a = pass ∧ b = j
    · obtain ⟨rfl, rfl⟩ := hc
      simp [h5']
    · rw [if_neg (by simpa using hc), if_neg hc]
  · intro a b
    exact upd3_tap h7 a b

theorem lrWienerCoefs_spec {plane ur uc pass : Nat} {u : LrUnit} : ∀ (l : List Nat) (s s' : LrState) (ops : List LrOp),
    l.Nodup → lrWienerCoefs false plane ur uc pass u l s = some (ops, s') →
    (∃ o : List (List LrOp), ops = o.flatten ∧ List.Forall₂ (fun j x => ∃ v rf mn mx k, Ref.wienerTap[j]? = some (mn, mx, k) ∧
        u.wiener[pass]?.bind (·[j]?) = some v ∧ at3 s.refWiener plane pass j = some rf ∧
        lrSigned v mn (mx + 1) k rf = some x) l o) ∧
      (∀ a b, at3 s'.refWiener plane a b =
        if a = pass ∧ b ∈ l then u.wiener[pass]?.bind (·[b]?) else at3 s.refWiener plane a b) ∧
      ∀ a b, s'.tap plane ur uc a b = if a = pass ∧ b ∈ l then u.wiener[pass]?.bind (·[b]?) else s.tap plane ur uc a b
  | [], s, s', ops, _, h => by
    simp only [lrWienerCoefs, Option.some.injEq, Prod.mk.injEq] at h
    obtain ⟨rfl, rfl⟩ := h
    exact ⟨⟨[], rfl, .nil⟩, by simp, by simp⟩
  | j :: l, s, s', ops, hn0, h => by
    simp only [lrWienerCoefs, Option.bind_eq_bind, Option.bind_eq_some_iff, Option.some.injEq, Prod.mk.injEq,
      Prod.exists] at h
    obtain ⟨o1, s1, h1, o2, s2, h2, rfl, rfl⟩ := h
    obtain ⟨hj, hn⟩ := List.nodup_cons.1 hn0
    obtain ⟨v, rf, mn, mx, k, a1, a2, a3, a4, a5, a6⟩ := lrWienerCoef_spec h1
    obtain ⟨⟨o, e1, e2⟩, b1, b2⟩ := lrWienerCoefs_spec l s1 s2 o2 hn h2
    refine ⟨⟨o1 :: o, by simp [e1], .cons ⟨v, rf, mn, mx, k, a1, a2, a3, a4⟩ ?_⟩, ?_, ?_⟩
    · have key : ∀ j' ∈ l, at3 s1.refWiener plane pass j' = at3 s.refWiener plane pass j' := by
        intro j' hj'
        rw [a5, if_neg]
        rintro ⟨-, rfl⟩
        exact hj hj'
      clear b1 b2 h2 e1 hn hj hn0
      induction e2 with
      | nil => exact .nil
      | @cons x y l o hx hr ih =>
        obtain ⟨v, rf, mn, mx, k, c1, c2, c3, c4⟩ := hx
        exact .cons ⟨v, rf, mn, mx, k, c1, c2, by rw [← key x (by simp)]; exact c3, c4⟩
          (ih (fun j' h' => key j' (by simp [h'])))
    · intro a b
      rw [b1, a5]
      by_cases ha : a = pass
      · subst ha
        by_cases hb : b ∈ l
        · simp [hb]
        · by_cases hbj : b = j
          · subst hbj; simp [hb, a2]
          · simp [hb, hbj]
      · simp [ha]
    · intro a b
      rw [b2, a6]
      by_cases ha : a = pass
      · subst ha
        by_cases hb : b ∈ l
        · simp [hb]
        · by_cases hbj : b = j
          · subst hbj; simp [hb, a2]
          · simp [hb, hbj]
      · simp [ha]

theorem lrWienerPass_spec {plane ur uc pass : Nat} {u : LrUnit} {s s' : LrState} {ops : List LrOp}
    (h : lrWienerPass false plane ur uc pass u s = some (ops, s')) :
    (∃ o : List (List LrOp), ops = o.flatten ∧ List.Forall₂ (fun j x => ∃ v rf mn mx k, Ref.wienerTap[j]? = some (mn, mx, k) ∧
        u.wiener[pass]?.bind (·[j]?) = some v ∧ at3 s.refWiener plane pass j = some rf ∧
        lrSigned v mn (mx + 1) k rf = some x) (if plane = 0 then [0, 1, 2] else [1, 2]) o) ∧
      (∀ a b, b < 3 → at3 s'.refWiener plane a b =
        if a = pass ∧ (plane = 0 ∨ 0 < b) then u.wiener[pass]?.bind (·[b]?) else at3 s.refWiener plane a b) ∧
      ∀ a b, b < 3 → s'.tap plane ur uc a b = if a = pass then
        (if plane = 0 ∨ 0 < b then u.wiener[pass]?.bind (·[b]?) else some 0) else s.tap plane ur uc a b := by
  simp only [lrWienerPass, Option.bind_eq_bind, Option.bind_eq_some_iff] at h
  obtain ⟨w, h1, h2⟩ := h
  by_cases hp : plane = 0
  · subst hp
    simp only [gt_iff_lt, Nat.lt_irrefl, if_false, Option.some.injEq] at h1 h2
    subst h1
    obtain ⟨a1, a2, a3⟩ := lrWienerCoefs_spec _ _ _ _ (by decide) h2
    refine ⟨by simpa using a1, ?_, ?_⟩
    · intro a b hb
      rw [a2]
      have : b ∈ [0, 1, 2] := by simp; omega
      simp [this]
    · intro a b hb
      rw [a3]
      have : b ∈ [0, 1, 2] := by simp; omega
      simp [this, LrState.tap]
  · have hp' : plane > 0 := by omega
    simp only [if_pos hp'] at h1 h2
    obtain ⟨a1, a2, a3⟩ := lrWienerCoefs_spec _ _ _ _ (by decide) h2
    refine ⟨by simpa [hp] using a1, ?_, ?_⟩
    · intro a b hb
      rw [a2]
      have : b ∈ [1, 2] ↔ 0 < b := by simp; omega
      simp [this, hp]
    · intro a b hb
      rw [a3]
      have hm : b ∈ [1, 2] ↔ 0 < b := by simp; omega
      have ht := upd3_tap h1 a b
      by_cases ha : a = pass
      · subst ha
        by_cases hb0 : 0 < b
        · simp [hm, hb0]
        · have : b = 0 := by omega
          subst this
          simp only [LrState.tap, hm, hp, hb0, and_false, or_false, if_false, if_true]
          simpa using ht
      · simp only [ha, false_and, if_false] at ht ⊢
        exact ht

/-- **C110**, what the second borrow prevents.  Without it a Wiener unit codes the coefficients of both passes in order (chroma
without the first), each relative to the one kept before, keeps them for the unit and for the units that follow. -/
theorem C110_wiener_unborrowed {plane ur uc : Nat} {u : LrUnit} {s s' : LrState} {ops : List LrOp}
    (h : lrWiener false plane ur uc u s = some (ops, s')) :
    (∃ o : List (List LrOp), ops = o.flatten ∧ List.Forall₂ (fun (q : Nat × Nat) x => ∃ v rf mn mx k,
        Ref.wienerTap[q.2]? = some (mn, mx, k) ∧ u.wiener[q.1]?.bind (·[q.2]?) = some v ∧
        at3 s.refWiener plane q.1 q.2 = some rf ∧ lrSigned v mn (mx + 1) k rf = some x)
        (if plane = 0 then [(0, 0), (0, 1), (0, 2), (1, 0), (1, 1), (1, 2)] else [(0, 1), (0, 2), (1, 1), (1, 2)]) o) ∧
    (∀ a b, a < 2 → b < 3 → at3 s'.refWiener plane a b =
      if plane = 0 ∨ 0 < b then u.wiener[a]?.bind (·[b]?) else at3 s.refWiener plane a b) ∧
    ∀ a b, a < 2 → b < 3 → s'.tap plane ur uc a b =
      if plane = 0 ∨ 0 < b then u.wiener[a]?.bind (·[b]?) else some 0 := by
  simp only [lrWiener, Option.bind_eq_bind, Option.bind_eq_some_iff, Option.some.injEq, Prod.mk.injEq, Prod.exists] at h
  obtain ⟨o1, s1, h1, o2, s2, h2, rfl, rfl⟩ := h
  obtain ⟨⟨x1, e1, f1⟩, a2, a3⟩ := lrWienerPass_spec h1
  obtain ⟨⟨x2, e2, f2⟩, b2, b3⟩ := lrWienerPass_spec h2
  have hr : ∀ b, b < 3 → at3 s1.refWiener plane 1 b = at3 s.refWiener plane 1 b := by
    intro b hb; rw [a2 1 b hb]; simp
  refine ⟨⟨x1 ++ x2, by simp [e1, e2], ?_⟩, ?_, ?_⟩
  · have g1 : List.Forall₂ (fun (q : Nat × Nat) x => ∃ v rf mn mx k,
        Ref.wienerTap[q.2]? = some (mn, mx, k) ∧ u.wiener[q.1]?.bind (·[q.2]?) = some v ∧
        at3 s.refWiener plane q.1 q.2 = some rf ∧ lrSigned v mn (mx + 1) k rf = some x)
        ((if plane = 0 then [0, 1, 2] else [1, 2]).map fun j => (0, j)) x1 := by
      rw [List.forall₂_map_left_iff]; exact f1
    have g2 : List.Forall₂ (fun (q : Nat × Nat) x => ∃ v rf mn mx k,
        Ref.wienerTap[q.2]? = some (mn, mx, k) ∧ u.wiener[q.1]?.bind (·[q.2]?) = some v ∧
        at3 s.refWiener plane q.1 q.2 = some rf ∧ lrSigned v mn (mx + 1) k rf = some x)
        ((if plane = 0 then [0, 1, 2] else [1, 2]).map fun j => (1, j)) x2 := by
      rw [List.forall₂_map_left_iff]
      refine f2.imp ?_
      rintro j x ⟨v, rf, mn, mx, k, c1, c2, c3, c4⟩
      have hj : j < 3 := by simpa [Ref.wienerTap] using (List.getElem?_eq_some_iff.1 c1).1
      exact ⟨v, rf, mn, mx, k, c1, c2, by rw [← hr j hj]; exact c3, c4⟩
    have := List.rel_append g1 g2
    by_cases hp : plane = 0 <;> simpa [hp] using this
  · intro a b ha hb
    rw [b2 a b hb]
    obtain rfl | rfl : a = 0 ∨ a = 1 := by omega
    · rw [if_neg (by simp), a2 0 b hb]; simp
    · simp [hr b hb]
  · intro a b ha hb
    rw [b3 a b hb]
    obtain rfl | rfl : a = 0 ∨ a = 1 := by omega
    · rw [if_neg (by simp), a3 0 b hb]; simp
    · simp

/-- A chroma unit that can be coded when the context is free. -/
def wienerUnit : LrUnit := ⟨true, false, 1, 0, [[0, 2, 8], [9, -7, 46]], []⟩
def wienerState : LrState :=
  ⟨[], [[], [[3, -7, 15], [3, -7, 15]]], [], [], [], [[], [[[[7, 7, 7], [7, 7, 7]]]]]⟩

example : ((lrWiener false 1 0 0 wienerUnit wienerState).map fun x => x.2.wiener) =
    some [[], [[[[0, 2, 8], [0, -7, 46]]]]] := by decide +kernel
example : ((lrWiener false 1 0 0 wienerUnit wienerState).map fun x => x.2.refWiener) =
    some [[], [[3, 2, 8], [3, -7, 46]]] := by decide +kernel

/-- A coded unit leaves its type in the frame, one its frame allows if the caller's is, and no other entry changes. -/
theorem C110_stored (ft plane ur uc : Nat) (u : LrUnit) (s s' : LrState) (ops : List LrOp)
    (h : lrUnit ft plane ur uc u s = some (ops, s')) (p r c : Nat) :
    at3 s'.lrType p r c = if p = plane ∧ r = ur ∧ c = uc then (if ft = 1 then some 0 else
      some (if ft = 2 then (if u.useSgr then 2 else 0) else u.ty)) else at3 s.lrType p r c := by
  have hty : (unitType ft u).2 = if ft = 1 then (if u.useWiener then 1 else 0) else
      if ft = 2 then (if u.useSgr then 2 else 0) else u.ty := by
    unfold unitType; simp only [K.RESTORE_WIENER, K.RESTORE_SGRPROJ, K.RESTORE_NONE]; 
    by_cases h1 : ft = 1
    · simp [h1]
    · by_cases h2 : ft = 2 <;> simp [h1, h2]
  have hnw : (unitType ft u).2 ≠ 1 := fun hw => by
    rw [C110_wiener_panics ft plane ur uc u s hw] at h; cases h
  have hval : (if ft = 1 then some 0 else some (if ft = 2 then (if u.useSgr then 2 else 0) else u.ty)) =
      some (unitType ft u).2 := by
    rw [hty] at hnw ⊢
    by_cases h1 : ft = 1
    · simp only [h1, if_true] at hnw ⊢
      cases hu : u.useWiener
      · rfl
      · rw [hu] at hnw; exact absurd rfl hnw
    · simp only [h1, if_false]
  rw [hval]
  unfold lrUnit at h
  generalize unitType ft u = x at *
  obtain ⟨o, ty⟩ := x
  dsimp only at *
  cases hm : upd3 s.lrType plane ur uc fun _ => some ty with
  | none => rw [hm] at h; cases h
  | some m =>
    rw [hm] at h
    simp only [Option.bind_eq_bind, Option.bind_some, K.RESTORE_WIENER, if_neg hnw] at h
    have hs : s'.lrType = m := by
      split at h
      · simp only [Option.bind_eq_some_iff, Option.some.injEq, Prod.mk.injEq, Prod.exists] at h
        obtain ⟨o1, s1, h1, -, rfl⟩ := h
        simp only [lrSgr, Option.bind_eq_bind, Option.bind_eq_some_iff, Option.some.injEq, Prod.mk.injEq, Prod.exists] at h1
        obtain ⟨_, _, _, _, _, _, _, _, a, s2, h2, b, s3, h3, -, rfl⟩ := h1
        rw [lrSgrCoef_keeps h3, lrSgrCoef_keeps h2]
      · simp only [Option.some.injEq, Prod.mk.injEq] at h
        rw [← h.2]
    rw [hs, upd3_get hm]
    by_cases hc : p = plane ∧ r = ur ∧ c = uc
    · simp only [if_pos hc]
      obtain ⟨a, a', h1, h2, -⟩ := updAt_some hm
      obtain ⟨b, b', h3, h4, -⟩ := updAt_some h2
      obtain ⟨d, d', h5, h6, -⟩ := updAt_some h4
      simp [at3, h1, h3, h5]
    · simp only [if_neg hc]

/-- The type kept for a unit that could be coded. -/
def Ref.keptType (ft : Nat) (u : LrUnit) : Nat :=
  if ft = 1 then 0 else if ft = 2 then (if u.useSgr then 2 else 0) else u.ty

theorem lrUnits_stored {ft plane : Nat} {g : UnitRange} {us : List (List LrUnit)} : ∀ (l : List (Nat × Nat))
    (s s' : LrState) (ops : List LrOp), l.Nodup → lrUnits ft plane g us l s = some (ops, s') → ∀ p r c,
    (p = plane ∧ (r, c) ∈ l → ∃ u, us[r - g.r0]?.bind (·[c - g.c0]?) = some u ∧
      at3 s'.lrType p r c = some (Ref.keptType ft u)) ∧
    (¬ (p = plane ∧ (r, c) ∈ l) → at3 s'.lrType p r c = at3 s.lrType p r c)
  | [], s, s', ops, _, h, p, r, c => by
    simp only [lrUnits, Option.some.injEq, Prod.mk.injEq] at h
    obtain ⟨-, rfl⟩ := h
    simp
  | (ur, uc) :: l, s, s', ops, hn, h, p, r, c => by
    simp only [lrUnits, Option.bind_eq_bind, Option.bind_eq_some_iff, Option.some.injEq, Prod.mk.injEq, Prod.exists] at h
    obtain ⟨row, h1, u, h2, o1, s1, h3, o2, s2, h4, -, rfl⟩ := h
    obtain ⟨hx, hn⟩ := List.nodup_cons.1 hn
    obtain ⟨a1, a2⟩ := lrUnits_stored l s1 s2 o2 hn h4 p r c
    have b := C110_stored ft plane ur uc u s s1 o1 h3 p r c
    have hv : (if ft = 1 then some 0 else some (if ft = 2 then (if u.useSgr then 2 else 0) else u.ty)) =
        some (Ref.keptType ft u) := by unfold Ref.keptType; split <;> rfl
    rw [hv] at b
    constructor
    · rintro ⟨rfl, hm⟩
      by_cases hl : (r, c) ∈ l
      · exact a1 ⟨rfl, hl⟩
      · rcases List.mem_cons.1 hm with e | e
        · cases e
          refine ⟨u, by simp [h1, h2], ?_⟩
          rw [a2 (by simp [hl]), b, if_pos ⟨rfl, rfl, rfl⟩]
        · exact absurd e hl
    · intro hm
      rw [a2 (fun hh => hm ⟨hh.1, by simp [hh.2]⟩), b, if_neg]
      rintro ⟨rfl, rfl, rfl⟩
      exact hm ⟨rfl, by simp⟩

theorem lrPlanes_stored {e : LrEnv} {w h r c : Nat} {us : List (List (List LrUnit))} : ∀ (ps : List Nat)
    (s s' : LrState) (ops : List LrOp), ps.Nodup →
    (∀ p ∈ ps, e.types[p]? ≠ some 0 → ∃ unit, e.Ok p unit) →
    lrPlanes e w h r c us ps s = some (ops, s') → ∀ p a b,
    (∀ ty g, p ∈ ps → e.types[p]? = some ty → ty ≠ 0 → unitRange e p w h r c = some g → (a, b) ∈ unitList g →
      ∃ u, (us[p]?.bind (·[a - g.r0]?)).bind (·[b - g.c0]?) = some u ∧ at3 s'.lrType p a b = some (Ref.keptType ty u)) ∧
    ((¬ ∃ ty g, p ∈ ps ∧ e.types[p]? = some ty ∧ ty ≠ 0 ∧ unitRange e p w h r c = some g ∧ (a, b) ∈ unitList g) →
      at3 s'.lrType p a b = at3 s.lrType p a b)
  | [], s, s', ops, _, _, hh, p, a, b => by
    simp only [lrPlanes, Option.some.injEq, Prod.mk.injEq] at hh
    obtain ⟨-, rfl⟩ := hh
    simp
  | q :: ps, s, s', ops, hn, hok, hh, p, a, b => by
    simp only [lrPlanes, Option.bind_eq_bind, Option.bind_eq_some_iff, Option.some.injEq, Prod.mk.injEq, Prod.exists] at hh
    obtain ⟨ty, h1, o1, s1, h2, o2, s2, h3, -, rfl⟩ := hh
    obtain ⟨hq, hn⟩ := List.nodup_cons.1 hn
    obtain ⟨i1, i2⟩ := lrPlanes_stored ps s1 s2 o2 hn (fun p hp => hok p (by simp [hp])) h3 p a b
    have step : (∀ ty g, p = q → e.types[p]? = some ty → ty ≠ 0 → unitRange e p w h r c = some g → (a, b) ∈ unitList g →
        ∃ u, (us[p]?.bind (·[a - g.r0]?)).bind (·[b - g.c0]?) = some u ∧ at3 s1.lrType p a b = some (Ref.keptType ty u)) ∧
        ((¬ ∃ ty g, p = q ∧ e.types[p]? = some ty ∧ ty ≠ 0 ∧ unitRange e p w h r c = some g ∧ (a, b) ∈ unitList g) →
          at3 s1.lrType p a b = at3 s.lrType p a b) := by
      by_cases ht : ty = 0
      · subst ht
        simp only [K.RESTORE_NONE, if_true, Option.some.injEq, Prod.mk.injEq] at h2
        obtain ⟨-, rfl⟩ := h2
        refine ⟨?_, fun _ => rfl⟩
        rintro ty g rfl e1 e2
        rw [h1] at e1
        cases e1
        exact absurd rfl e2
      · rw [if_neg (by exact ht)] at h2
        simp only [Option.bind_eq_some_iff] at h2
        obtain ⟨g, h4, h5⟩ := h2
        obtain ⟨unit, hk⟩ := hok q (by simp) (by rw [h1]; simpa using ht)
        obtain ⟨g', k1, k2, -⟩ := C108_units_inside e q unit w h r c hk
        rw [h4] at k1
        cases k1
        by_cases hl : unitList g = []
        · rw [if_pos hl] at h5
          simp only [Option.some.injEq, Prod.mk.injEq] at h5
          obtain ⟨-, rfl⟩ := h5
          refine ⟨?_, fun _ => rfl⟩
          rintro ty g' rfl - - e3 e4
          rw [h4] at e3
          cases e3
          rw [hl] at e4
          simp at e4
        · rw [if_neg hl, Option.bind_eq_some_iff] at h5
          obtain ⟨u, h6, h7⟩ := h5
          obtain ⟨j1, j2⟩ := lrUnits_stored _ _ _ _ k2 h7 p a b
          constructor
          · rintro ty' g' rfl e1 - e3 e4
            rw [h4] at e3
            cases e3
            rw [h1] at e1
            cases e1
            obtain ⟨x, x1, x2⟩ := j1 ⟨rfl, e4⟩
            exact ⟨x, by simpa [h6] using x1, x2⟩
          · intro hne
            apply j2
            rintro ⟨rfl, hm⟩
            exact hne ⟨ty, g, rfl, h1, ht, h4, hm⟩
    constructor
    · intro ty' g' hp e1 e2 e3 e4
      by_cases hps : p ∈ ps
      · exact i1 ty' g' hps e1 e2 e3 e4
      · have hpq : p = q := by simpa [hps] using hp
        obtain ⟨u, x1, x2⟩ := step.1 ty' g' hpq e1 e2 e3 e4
        refine ⟨u, x1, ?_⟩
        rw [i2, x2]
        rintro ⟨_, _, hh, -⟩
        exact hps hh
    · intro hne
      rw [i2 (fun ⟨t, g, x1, x2⟩ => hne ⟨t, g, by simp [x1], x2⟩), step.2]
      rintro ⟨t, g, rfl, x2⟩
      exact hne ⟨t, g, by simp, x2⟩

/-- **C110** for a whole superblock: when `encode_lr` returns, exactly the units that start in the superblock (C108) have a new
type, the one the superblock's list of units holds at their place. -/
theorem C110_superblock (e : LrEnv) (r c bsize : Nat) (sbs : List (List (List (List (List LrUnit)))))
    (s s' : LrState) (ops : List LrOp) (hi : e.allowIntrabc = false)
    (hok : ∀ p < e.planes, e.types[p]? ≠ some 0 → ∃ unit, e.Ok p unit)
    (h : encodeLr e r c bsize sbs s = some (ops, s')) :
    ∃ bw bh us, K.num_4x4_blocks_wide[bsize]? = some bw ∧ K.num_4x4_blocks_high[bsize]? = some bh ∧
      sbs[r / Ref.sbUnits e.use128]?.bind (·[c / Ref.sbUnits e.use128]?) = some us ∧ ∀ p a b,
    (∀ ty g, p < e.planes → e.types[p]? = some ty → ty ≠ 0 → unitRange e p bw bh r c = some g → (a, b) ∈ unitList g →
      ∃ u, (us[p]?.bind (·[a - g.r0]?)).bind (·[b - g.c0]?) = some u ∧ at3 s'.lrType p a b = some (Ref.keptType ty u)) ∧
    ((¬ ∃ ty g, p < e.planes ∧ e.types[p]? = some ty ∧ ty ≠ 0 ∧ unitRange e p bw bh r c = some g ∧ (a, b) ∈ unitList g) →
      at3 s'.lrType p a b = at3 s.lrType p a b) := by
  have hn : K.num_4x4_blocks_wide[sbSize e.use128]? = some (Ref.sbUnits e.use128) := by cases e.use128 <;> rfl
  unfold encodeLr at h
  simp only [hi, Bool.false_eq_true, if_false, Option.bind_eq_bind, Option.bind_eq_some_iff, hn, Option.some.injEq] at h
  obtain ⟨bw, h1, bh, h2, n, rfl, row, h3, us, h4, h5⟩ := h
  refine ⟨bw, bh, us, h1, h2, by simp [h3, h4], ?_⟩
  intro p a b
  have := lrPlanes_stored (List.range e.planes) s s' ops List.nodup_range
    (fun p hp => hok p (List.mem_range.1 hp)) h5 p a b
  simpa only [List.mem_range] using this

/-- A frame of 64×64 samples, one plane with self-guided units of 64 samples, one superblock with one unit. -/
example : ((encodeLr ⟨false, false, 1, [2], [64], false, false, 64, 64, false, 8⟩ 0 0 12 [[[[[⟨false, true, 0, 14, [], [-70, 0]⟩]]]]]
    ⟨[[-96, 31]], [], [[[0]]], [[[0]]], [[[[0, 0]]]], []⟩).map fun x => x.2.lrType) = some [[[2]]] := by decide +kernel

/-- A frame without restoration writes nothing and changes nothing. -/
theorem C110_none (e : LrEnv) (r c bsize : Nat) (sbs : List (List (List (List (List LrUnit)))))
    (s : LrState) (hb : bsize < 22) (hp : e.planes ≤ 3) (ht : e.types = [0, 0, 0]) (x : List (List (List LrUnit)))
    (hs : (sbs[r / Ref.sbUnits e.use128]?.bind (·[c / Ref.sbUnits e.use128]?)) = some x) :
    encodeLr e r c bsize sbs s = some ([], s) := by
  have hn : K.num_4x4_blocks_wide[sbSize e.use128]? = some (Ref.sbUnits e.use128) := by cases e.use128 <;> rfl
  have hw : ∃ w, K.num_4x4_blocks_wide[bsize]? = some w := ⟨_, List.getElem?_eq_getElem (by simpa [K.num_4x4_blocks_wide] using hb)⟩
  have hh : ∃ w, K.num_4x4_blocks_high[bsize]? = some w := ⟨_, List.getElem?_eq_getElem (by simpa [K.num_4x4_blocks_high] using hb)⟩
  obtain ⟨w, hw⟩ := hw
  obtain ⟨h, hh⟩ := hh
  obtain ⟨row, h1, h2⟩ := Option.bind_eq_some_iff.1 hs
  have hgo : ∀ l : List Nat, (∀ p ∈ l, p < 3) → lrPlanes e w h r c x l s = some ([], s) := by
    intro l
    induction l with
    | nil => intro _; rfl
    | cons p l ih =>
      intro hl
      have hp3 : p < 3 := hl p (by simp)
      have : e.types[p]? = some 0 := by
        rw [ht]; interval_cases p <;> rfl
      rw [lrPlanes, this]
      simp only [Option.bind_eq_bind, Option.bind_some, K.RESTORE_NONE, if_true, ih fun q hq => hl q (by simp [hq])]
      rfl
  unfold encodeLr
  by_cases ha : e.allowIntrabc = true
  · simp [ha]
  · simp only [ha, if_false, Option.bind_eq_bind, hw, hh, hn, h1, h2, Option.bind_some, Bool.false_eq_true]
    exact hgo _ fun p hp' => by have := List.mem_range.1 hp'; omega

/-- With the superblocks of a new frame (one empty row) every call panics, unless intra block copy is allowed. -/
theorem C110_fresh_panics (e : LrEnv) (r c bsize : Nat) (s : LrState) :
    encodeLr e r c bsize [[]] s = if e.allowIntrabc then some ([], s) else none := by
  unfold encodeLr
  by_cases ha : e.allowIntrabc = true
  · simp [ha]
  · simp only [ha, if_false, Bool.false_eq_true]
    cases K.num_4x4_blocks_wide[bsize]? with
    | none => rfl
    | some w =>
      cases K.num_4x4_blocks_high[bsize]? with
      | none => rfl
      | some h =>
        cases K.num_4x4_blocks_wide[sbSize e.use128]? with
        | none => rfl
        | some n =>
          simp only [Option.bind_eq_bind, Option.bind_some]
          cases r / n <;> rfl

/-! ## C111: coefficients that are not coded -/

/-- **C111**, full claim: with a set whose second filter is off, the second coefficient kept for later units is the one a
decoder derives from the first (AV1 5.11.58: 128 minus it, clipped). -/
def C111_full : Prop := ∀ (plane ur uc : Nat) (u : LrUnit) (s s' : LrState) (ops : List LrOp) (v : Int),
  lrSgr plane ur uc u s = some (ops, s') → 14 ≤ u.sgrSet → u.sgr[0]? = some v → -96 ≤ v → v ≤ 31 →
  (∀ l ∈ s.refSgr, l.length = 2) →
  s'.refSgr[plane]? = some [v, max (-32) (min 95 (128 - v))]

theorem lrSgrCoef_ref {plane ur uc i radius : Nat} {u : LrUnit} {s s' : LrState} {ops : List LrOp}
    (h : lrSgrCoef plane ur uc i radius u s = some (ops, s')) : ∃ l v, s.refSgr[plane]? = some l ∧
      s'.refSgr[plane]? = some (l.set i v) ∧ (0 < radius → u.sgr[i]? = some v) ∧ (radius = 0 → i = 0 → v = 0) ∧
      (radius = 0 → i = 1 → ∃ w, l[0]? = some w ∧ v = clip3 (-32) 95 (16 - w)) := by
  simp only [lrSgrCoef, Option.bind_eq_bind, Option.bind_eq_some_iff, Option.some.injEq, Prod.mk.injEq, Prod.exists] at h
  obtain ⟨mn, h1, mx, h2, l, h3, o, v, h4, x, h5, rs, h6, -, rfl⟩ := h
  refine ⟨l, v, h3, ?_, ?_, ?_, ?_⟩
  · have := updAt_get h6 plane
    rw [if_pos rfl, h3, Option.bind_some] at this
    dsimp only
    obtain ⟨a, b, e1, e2, -⟩ := updAt_some h6
    rw [h3] at e1; cases e1
    obtain ⟨c, d, e3, e4, e5⟩ := updAt_some e2
    cases e4
    rw [this, e2, e5]
  · intro hr
    rw [if_pos hr] at h4
    simp only [Option.bind_eq_some_iff, Option.some.injEq, Prod.mk.injEq] at h4
    obtain ⟨v', e1, r, e2, o', e3, -, rfl⟩ := h4
    exact e1
  · intro hr hi
    subst hr hi
    simp only [gt_iff_lt, Nat.lt_irrefl, if_false, Nat.zero_ne_one, Option.some.injEq, Prod.mk.injEq] at h4
    exact h4.2.symm
  · intro hr hi
    subst hr hi
    simp only [gt_iff_lt, Nat.lt_irrefl, if_false, if_true, Option.bind_eq_some_iff, Option.some.injEq, Prod.mk.injEq] at h4
    obtain ⟨w, e1, -, e2⟩ := h4
    refine ⟨w, e1, ?_⟩
    rw [← e2]
    simp only [K.sgrproj_xqd_min, K.sgrproj_xqd_max, List.getElem?_cons_succ, List.getElem?_cons_zero, Option.some.injEq] at h1 h2
    subst h1 h2
    rfl

/-- What the code keeps: 16 instead of 128 minus the first coefficient. -/
theorem C111_kept (plane ur uc : Nat) (u : LrUnit) (s s' : LrState) (ops : List LrOp) (v : Int)
    (h : lrSgr plane ur uc u s = some (ops, s')) (hset : 14 ≤ u.sgrSet) (hv : u.sgr[0]? = some v)
    (hl : ∀ l ∈ s.refSgr, l.length = 2) : s'.refSgr[plane]? = some [v, max (-32) (min 95 (16 - v))] := by
  simp only [lrSgr, Option.bind_eq_bind, Option.bind_eq_some_iff, Option.some.injEq, Prod.mk.injEq, Prod.exists] at h
  obtain ⟨m, h1, p, h2, r0, h3, r1, h4, a, s2, h5, b, s3, h6, -, rfl⟩ := h
  have hlt : u.sgrSet < 16 := by
    have := (List.getElem?_eq_some_iff.1 h2).1
    simpa [K.sgr_params] using this
  have hp : r0 = 2 ∧ r1 = 0 := by
    have h01 : u.sgrSet = 14 ∨ u.sgrSet = 15 := by omega
    rcases h01 with e | e <;> rw [e] at h2 <;> cases h2 <;> cases h3 <;> cases h4 <;> exact ⟨rfl, rfl⟩
  obtain ⟨rfl, rfl⟩ := hp
  obtain ⟨l, v0, a1, a2, a3, -, -⟩ := lrSgrCoef_ref h5
  obtain ⟨l', v1, b1, b2, -, -, b3⟩ := lrSgrCoef_ref h6
  rw [a2] at b1
  cases b1
  have e0 := a3 (by decide)
  rw [hv] at e0
  cases e0
  obtain ⟨w, c1, c2⟩ := b3 rfl rfl
  have hlen := hl l (List.mem_of_getElem? a1)
  obtain ⟨x, y, rfl⟩ := List.length_eq_two.1 hlen
  simp only [List.set_cons_zero, List.getElem?_cons_zero, Option.some.injEq] at c1
  subst c1
  rw [b2, c2]
  simp only [List.set_cons_zero, List.set_cons_succ, clip3]
  congr 2
  split <;> [skip; split] <;> simp only [List.cons.injEq, and_true] <;> omega

/-- **C111, partial.** The kept coefficient is the decoder's exactly if the first one is at most −79.  Missing: −78 to 31. -/
theorem C111_derived_iff_partial (plane ur uc : Nat) (u : LrUnit) (s s' : LrState) (ops : List LrOp) (v : Int)
    (h : lrSgr plane ur uc u s = some (ops, s')) (hset : 14 ≤ u.sgrSet) (hv : u.sgr[0]? = some v) (h1 : v ≤ 31)
    (hl : ∀ l ∈ s.refSgr, l.length = 2) :
    s'.refSgr[plane]? = some [v, max (-32) (min 95 (128 - v))] ↔ v ≤ -79 := by
  rw [C111_kept plane ur uc u s s' ops v h hset hv hl]
  simp only [Option.some.injEq, List.cons.injEq, and_true, true_and]
  omega

/-- A unit with set 14 and a state in which it can be coded. -/
def sgrUnit (v : Int) : LrUnit := ⟨false, true, 0, 14, [], [v, 0]⟩
def sgrState : LrState := ⟨[[-96, 31]], [], [[[0]]], [[[0]]], [[[[0, 0]]]], []⟩

/-- **C111** is false: −70 is kept with 86. -/
theorem C111_negation : ¬ C111_full := by
  intro h
  have hx : ∃ x, lrSgr 0 0 0 (sgrUnit (-70)) sgrState = some x := Option.isSome_iff_exists.1 (by decide +kernel)
  obtain ⟨⟨ops, s'⟩, hx⟩ := hx
  have := h 0 0 0 (sgrUnit (-70)) sgrState s' ops (-70) hx (by decide) rfl (by decide) (by decide) (by decide)
  exact absurd ((C111_derived_iff_partial 0 0 0 (sgrUnit (-70)) sgrState s' ops (-70) hx (by decide) rfl (by decide) (by decide)).1 this)
    (by decide)

example : (lrSgr 0 0 0 (sgrUnit (-80)) sgrState).map (fun x => x.2.refSgr) = some [[-80, 95]] := by decide +kernel

end Av1
