import Verif.Model.MvStack
import Verif.Spec.GlobalMotion
import Verif.Props.Geometry

/-!
# AV1: where motion vector candidates come from

Written from AV1 7.10.2.2–7.10.2.9, up to and including the grid of temporal samples, and 7.10.2.11 for the order.
Vectors are lowered as in a frame without high precision.  A candidate is one vector or, for blocks with two references, a pair.
-/

namespace Av1.Cand

/-- Size in units of 4 samples. -/
def size4 (row : Bool) (bsize : Nat) : Option Nat := (blockDims[bsize]?).map fun d => (if row then d.1 else d.2) / 4

/-- `is_inside`. -/
def Inside (e : MvEnv) (r c : Int) : Prop :=
  (e.colStart : Int) ≤ c ∧ c < e.colEnd ∧ (e.rowStart : Int) ≤ r ∧ r < e.rowEnd

instance (e : MvEnv) (r c : Int) : Decidable (Inside e r c) := by unfold Inside; infer_instance

/-- A vector lowered to the precision of the frame. -/
def low (e : MvEnv) (m : Mv) : Mv := ⟨Hdr.lower false e.force m.x, Hdr.lower false e.force m.y⟩

/-- Does the reference have a model with more than a translation? -/
def warps (e : MvEnv) (ref : Int) : Bool := decide (1 < e.gmType.getD ref.toNat 0)

/-- At least 8 samples wide and high. -/
def large (bsize : Nat) : Bool :=
  match blockDims[bsize]? with
  | some (w, h) => decide (8 ≤ min w h)
  | none => false

/-- The candidates a block offers to one with the references of `e`. -/
def offers (e : MvEnv) (mi : StoredMi) : List (Mv × Option Mv) :=
  if mi.isInter then
    if e.compound then
      if mi.ref0 = e.ref0 ∧ mi.ref1 = e.ref1 then
        [(low e (if mi.yMode = 24 ∧ warps e e.ref0 then e.globalMvs.1 else mi.mvs.1),
          some (low e (if mi.yMode = 24 ∧ warps e e.ref1 then e.globalMvs.2 else mi.mvs.2)))]
      else []
    else
      (([(mi.ref0, mi.mvs.1), (mi.ref1, mi.mvs.2)] : List (Int × Mv)).filter (·.1 = e.ref0)).map fun p =>
        (low e (if (mi.yMode = 16 ∨ mi.yMode = 24) ∧ warps e e.ref0 ∧ large mi.miSize then e.globalMvs.1 else p.2), none)
  else []

/-- Modes with a new vector. -/
def isNew (y : Nat) : Bool := decide (y ∈ [17, 20, 21, 22, 23, 25])

/-- The blocks along one edge with their weights, from offset `i` (`scan_row` and `scan_col` at distance 1). -/
inductive Walk (e : MvEnv) (row : Bool) (b4 end4 : Nat) : Nat → List (StoredMi × Nat) → Prop where
  | done (i : Nat) (h : end4 ≤ i) : Walk e row b4 end4 i []
  | outside (i : Nat) (h : ¬ (if row then Inside e (e.miRow - 1) (e.miCol + i) else Inside e (e.miRow + i) (e.miCol - 1))) :
      Walk e row b4 end4 i []
  | step (i len n : Nat) (mi : StoredMi) (l : List (StoredMi × Nat)) (hi : i < end4)
      (h : if row then Inside e (e.miRow - 1) (e.miCol + i) else Inside e (e.miRow + i) (e.miCol - 1))
      (hm : (if row then e.at_ (e.miRow - 1) (e.miCol + i) else e.at_ (e.miRow + i) (e.miCol - 1)) = some mi)
      (hn : size4 row mi.miSize = some n) (hl : len = max (if 16 ≤ b4 then 4 else 0) (min b4 n))
      (rest : Walk e row b4 end4 (i + len) l) : Walk e row b4 end4 i ((mi, 2 * len) :: l)

/-- The edge of a block: its own length, cut at the frame and at 64 samples. -/
def Edge (e : MvEnv) (row : Bool) (l : List (StoredMi × Nat)) : Prop :=
  ∃ b4, size4 row e.bsize = some b4 ∧
    Walk e row b4 (min (min b4 (if row then e.miCols - e.miCol else e.miRows - e.miRow)) 16) 0 l

/-- The block at the top right corner. -/
def Corner (e : MvEnv) (l : List (StoredMi × Nat)) : Prop :=
  ∃ w h, size4 true e.bsize = some w ∧ size4 false e.bsize = some h ∧
    if max w h ≤ 16 ∧ Inside e (e.miRow - 1) (e.miCol + w) then
      ∃ mi, e.at_ (e.miRow - 1) (e.miCol + w) = some mi ∧ l = if mi.ref0 ≠ -1 then [(mi, 4)] else []
    else l = []

/-- What the blocks of a list offer, with weights. -/
def events (e : MvEnv) (l : List (StoredMi × Nat)) : List ((Mv × Option Mv) × Nat) :=
  l.flatMap fun p => (offers e p.1).map fun k => (k, p.2)

/-- Does any of them offer something? -/
def hit (e : MvEnv) (l : List (StoredMi × Nat)) : Bool := l.any fun p => decide (offers e p.1 ≠ [])

/-- How many offers come from modes with a new vector. -/
def news (e : MvEnv) (l : List (StoredMi × Nat)) : Nat :=
  (l.map fun p => if isNew p.1.yMode then (offers e p.1).length else 0).sum

/-- A motion field entry that exists. -/
def valid (m : Mv) : Prop := m.x ≠ -2 ^ 15

instance (m : Mv) : Decidable (valid m) := by unfold valid; infer_instance

/-- The motion field's candidate for the 8×8 area that contains row `r` and column `c`. -/
def sample (e : MvEnv) (r c : Nat) : Option (Mv × Option Mv) :=
  if Inside e ((2 * (r / 2) + 1 : Nat) : Int) ((2 * (c / 2) + 1 : Nat) : Int) then
    match e.field e.ref0.toNat (r / 2) (c / 2), (if e.compound then e.field e.ref1.toNat (r / 2) (c / 2) else none) with
    | some m0, some m1 => if valid m0 ∧ valid m1 then some (low e m0, some (low e m1)) else none
    | some m0, none => if valid m0 then some (low e m0, none) else none
    | none, _ => none
  else none

/-- The values of a loop from 0 in steps. -/
def strides (limit step : Nat) : List Nat := (List.range ((limit + step - 1) / step)).map (· * step)

/-- The grid of temporal samples, row by row. -/
def grid (w h : Nat) : List (Nat × Nat) :=
  (strides (min h 16) (if 16 ≤ h then 4 else 2)).flatMap fun dr =>
    (strides (min w 16) (if 16 ≤ w then 4 else 2)).map fun dc => (dr, dc)

/-- Is a vector 16 or more from another in one component? -/
def far (a b : Mv) : Bool := decide (16 ≤ |a.x - b.x| ∨ 16 ≤ |a.y - b.y|)

/-- `ZeroMvContext`. -/
def zeroCtx (e : MvEnv) : Nat :=
  if Inside e ((2 * (e.miRow / 2) + 1 : Nat) : Int) ((2 * (e.miCol / 2) + 1 : Nat) : Int) then
    match sample e e.miRow e.miCol with
    | none => 1
    | some (a, none) => (far a e.globalMvs.1).toNat
    | some (a, some b) => (far a e.globalMvs.1 || far b e.globalMvs.2).toNat
  else 0

/-- AV1's sorting process (7.10.2.11): by falling weight, entries of the same weight in the order they were found, first the
nearest ones, then the others. -/
def sorted {α : Type} (near : Nat) (l : List (α × Nat)) : List (α × Nat) :=
  (l.take near).mergeSort (fun a b => decide (b.2 ≤ a.2)) ++ (l.drop near).mergeSort (fun a b => decide (b.2 ≤ a.2))

example : (sorted 2 [('a', 642), ('b', 644), ('c', 2), ('d', 4)]).map Prod.fst = ['b', 'a', 'd', 'c'] := by
  simp [sorted, List.mergeSort, List.MergeSort.Internal.splitInTwo]

end Av1.Cand
