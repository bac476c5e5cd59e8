import Verif.Props.MoreContexts

/-!
# C107 — the contexts of transform blocks and coefficients
-/

namespace Av1

namespace Ref

/-- The set of coefficient tables AV1 loads for a quantizer index. -/
def qSet (q : Nat) : Nat := if q ≤ 20 then 0 else if q ≤ 60 then 1 else if q ≤ 120 then 2 else 3

/-- The transform class: 1 horizontal only, 2 vertical only, 0 both directions. -/
def txClass (t : Nat) : Nat := if t ∈ [11, 13, 15] then 1 else if t ∈ [10, 12, 14] then 2 else 0

/-- Positions of a transform block in 4×4 units from `x` on that are inside the plane. -/
def inPlane (x n limit : Nat) : List Nat := ((List.range n).map (x + ·)).filter (· < limit)

/-- 4×4 units of a plane (`n` luma units, subsampled or not, rounded up). -/
def planeUnits (plane n : Nat) (ss : Bool) : Nat := if plane > 0 ∧ ss then (n + 1) / 2 else n

/-- Context arrays of one plane along the top and the left: accumulated level and sign category of the DC coefficient
(1 negative, 2 positive) per 4×4 position. -/
structure Edges where
  aLevel : Nat → Nat
  lLevel : Nat → Nat
  aDc : Nat → Nat
  lDc : Nat → Nat

/-- 0, small (up to 3) or large. -/
def levelClass (l : List Nat) : Nat := if ∀ v ∈ l, v = 0 then 0 else if ∀ v ∈ l, v ≤ 3 then 1 else 2

/-- Context by the classes of the two edges. -/
def luma : Nat → Nat → Nat
  | 0, 0 => 1
  | 0, 1 | 1, 0 => 2
  | 0, _ | _, 0 => 3
  | 1, 1 => 4
  | 1, _ | _, 1 => 5
  | _, _ => 6

/-- `all_zero`: luma by the classes of the two edges, chroma by the number of edges with anything coded. -/
def allZero (E : Edges) (xs ys : List Nat) (plane w h bw bh : Nat) : Nat :=
  if plane = 0 then
    if (bw, bh) = (w, h) then 0
    else
      luma (levelClass (xs.map E.aLevel)) (levelClass (ys.map E.lLevel))
  else
    7 + (if ∀ x ∈ xs, E.aLevel x = 0 ∧ E.aDc x = 0 then 0 else 1) + (if ∀ y ∈ ys, E.lLevel y = 0 ∧ E.lDc y = 0 then 0 else 1) +
      (if w * h < bw * bh then 3 else 0)

/-- `dc_sign`: whether negative or positive neighbours prevail. -/
def dcSign (E : Edges) (xs ys : List Nat) : Nat :=
  let l := xs.map E.aDc ++ ys.map E.lDc
  match compare (l.count 1) (l.count 2) with
  | .gt => 1
  | .lt => 2
  | .eq => 0

/-- Sum of the capped magnitudes at the given offsets inside a block of `w` by `h` coefficients. -/
def magnitude (cap w h row col : Nat) (quant : List Int) (offs : List (Nat × Nat)) : Nat :=
  (((offs.map fun o => (row + o.1, col + o.2)).filter fun p => decide (p.1 < h) && decide (p.2 < w)).map fun p =>
    min ((quant[p.1 * w + p.2]?).getD 0).natAbs cap).sum

/-- `coeff_base` of the coefficient at `pos`, in a transform of `tw` by `th` of which `w` by `h` are coded. -/
def coeffBase (cls tw th w h pos : Nat) (quant : List Int) : Nat :=
  let row := pos / w
  let col := pos % w
  let offs := match cls with
    | 0 => [(0, 1), (1, 0), (1, 1), (0, 2), (2, 0)]
    | 1 => [(0, 1), (1, 0), (0, 2), (0, 3), (0, 4)]
    | _ => [(0, 1), (1, 0), (2, 0), (3, 0), (4, 0)]
  let k := min ((magnitude 3 w h row col quant offs + 1) / 2) 4
  if cls = 0 then
    if pos = 0 then 0
    else if tw < th ∧ row < 2 then k + 11
    else if th < tw ∧ col < 2 then k + 16
    else if row + col < 2 then k + 1
    else if row + col < 4 then k + 6
    else k + 21
  else k + 26 + 5 * min (if cls = 1 then col else row) 2

/-- `coeff_br`. -/
def coeffBr (cls w h pos : Nat) (quant : List Int) : Nat :=
  let row := pos / w
  let col := pos % w
  let offs := match cls with
    | 0 => [(0, 1), (1, 0), (1, 1)]
    | 1 => [(0, 1), (1, 0), (0, 2)]
    | _ => [(0, 1), (1, 0), (2, 0)]
  let k := min ((magnitude 15 w h row col quant offs + 1) / 2) 6
  if pos = 0 then k
  else if (cls = 0 ∧ row < 2 ∧ col < 2) ∨ (cls = 1 ∧ col = 0) ∨ (cls = 2 ∧ row = 0) then k + 7
  else k + 14

/-- The table indices of the AV1 specification: quantizer index `q` of the frame, context arrays `E`, luma size of the
frame in 4×4 units in the position. -/
def idx3 (q : Nat) (E : Edges) : Elem → Option (List Nat)
  | .allZero t _ plane tx c bs => do
    let d ← txDims[tx]?
    let b ← blockDims[bs]?
    let xs := inPlane t.x4 t.w4 (planeUnits plane t.miCols t.ssx)
    let ys := inPlane t.y4 t.h4 (planeUnits plane t.miRows t.ssy)
    let bw := if plane = 0 then b.1 else max 4 (b.1 / 2 ^ t.ssx.toNat)
    let bh := if plane = 0 then b.2 else max 4 (b.2 / 2 ^ t.ssy.toNat)
    some [qSet q, c, allZero E xs ys plane d.1 d.2 bw bh]
  | .dcSign t ptype plane =>
    some [qSet q, ptype, dcSign E (inPlane t.x4 t.w4 (planeUnits plane t.miCols t.ssx))
      (inPlane t.y4 t.h4 (planeUnits plane t.miRows t.ssy))]
  | .eobPt e _ _ ptype => e.txType.map fun t => [qSet q, ptype, if txClass t = 0 then 0 else 1]
  | .coeffBase e _ c ptype k scan quant => do
    let t ← e.txType
    let d ← txDims[e.txSize]?
    let pos ← scan[k]?
    some [qSet q, c, ptype, coeffBase (txClass t) d.1 d.2 (min 32 d.1) (min 32 d.2) pos quant]
  | .coeffBr e _ c ptype pos quant => do
    let t ← e.txType
    let d ← txDims[e.txSize]?
    some [qSet q, min c 3, ptype, coeffBr (txClass t) (min 32 d.1) (min 32 d.2) pos quant]
  | _ => none

end Ref

/-- The context arrays as far as the neighbours know them: the stored values are those at every position of the edge. -/
def Ref.Edges.Agree (E : Ref.Edges) (nb : Nbrs) (t : Sel.TxPos) (plane : Nat) : Prop :=
  (∀ x ∈ Ref.inPlane t.x4 t.w4 (Ref.planeUnits plane t.miCols t.ssx),
    (orElse nb.above (some 0) fun mi => mi.level[plane]?) = some (E.aLevel x) ∧
    (orElse nb.above (some 0) fun mi => mi.dc[plane]?) = some (E.aDc x)) ∧
  (∀ y ∈ Ref.inPlane t.y4 t.h4 (Ref.planeUnits plane t.miRows t.ssy),
    (orElse nb.left (some 0) fun mi => mi.level[plane]?) = some (E.lLevel y) ∧
    (orElse nb.left (some 0) fun mi => mi.dc[plane]?) = some (E.lDc y))

/-- Agreement only where the neighbours are looked up: at the first position of the edge. -/
def Ref.Edges.AgreeFirst (E : Ref.Edges) (nb : Nbrs) (t : Sel.TxPos) (plane : Nat) : Prop :=
  ((orElse nb.above (some 0) fun mi => mi.level[plane]?) = some (E.aLevel t.x4) ∧
    (orElse nb.above (some 0) fun mi => mi.dc[plane]?) = some (E.aDc t.x4)) ∧
  ((orElse nb.left (some 0) fun mi => mi.level[plane]?) = some (E.lLevel t.y4) ∧
    (orElse nb.left (some 0) fun mi => mi.dc[plane]?) = some (E.lDc t.y4))

/-- What an element needs of the context arrays. -/
def Elem.EdgesOk (P : Ref.Edges → Nbrs → Sel.TxPos → Nat → Prop) (E : Ref.Edges) (nb : Nbrs) : Elem → Prop
  | .allZero t _ plane _ _ _ | .dcSign t _ plane => P E nb t plane ∧ t.miCols % 2 = 0 ∧ t.miRows % 2 = 0
  | _ => True

def C107_full : Prop := ∀ (e : Elem) (nb : Nbrs) (q : Nat) (E : Ref.Edges) (i : List Nat), nb.Valid → e.Legal nb → q < 256 →
  e.EdgesOk Ref.Edges.AgreeFirst E nb → Ref.idx3 q E e = some i → ∃ s, e.select nb = some s ∧ s.idx = i

/-- Only magnitudes where the code forgets the absolute value. -/
def Elem.QuantOk : Elem → Prop
  | .coeffBr _ _ _ _ _ quant => ∀ x ∈ quant, 0 ≤ x ∧ x < 2 ^ 31
  | _ => True

theorem txClass_eq (t : Nat) : getTxClass t = Ref.txClass t := by
  unfold getTxClass Ref.txClass
  have h1 : K.V_DCT = 10 := rfl
  have h2 : K.V_ADST = 12 := rfl
  have h3 : K.V_FLIPADST = 14 := rfl
  have h4 : K.H_DCT = 11 := rfl
  have h5 : K.H_ADST = 13 := rfl
  have h6 : K.H_FLIPADST = 15 := rfl
  rw [h1, h2, h3, h4, h5, h6]
  simp only [List.mem_cons, List.not_mem_nil, or_false]
  by_cases ha : t = 10 ∨ t = 12 ∨ t = 14
  · rw [if_pos ha, if_neg (by omega), if_pos ha]; rfl
  · rw [if_neg ha]
    by_cases hb : t = 11 ∨ t = 13 ∨ t = 15
    · rw [if_pos hb, if_pos hb]; rfl
    · rw [if_neg hb, if_neg hb, if_neg ha]; rfl

/-- The limit of the code is the one of AV1 for even frame sizes in 4×4 units. -/
theorem limit_eq (plane n : Nat) (ss : Bool) (h : n % 2 = 0) :
    (if plane > 0 then n >>> ss.toNat else n) = Ref.planeUnits plane n ss := by
  unfold Ref.planeUnits
  by_cases hp : plane > 0
  · cases ss
    · simp [hp]
    · simp only [hp, if_true, Bool.toNat_true, and_self, Nat.shiftRight_eq_div_pow]; omega
  · simp [hp]

/-- The loop over an edge is a fold over the positions inside the plane. -/
theorem edgeLoop_eq {α} (n x mx : Nat) (f : α → α) (init : α) :
    Sel.edgeLoop n x mx f init = (Ref.inPlane x n mx).foldl (fun a _ => f a) init := by
  unfold Sel.edgeLoop Ref.inPlane
  rw [List.filter_map, List.foldl_map]
  induction n generalizing init with
  | zero => rfl
  | succ n ih =>
    rw [List.range_succ, List.foldl_append, List.filter_append, List.foldl_append, ih]
    by_cases h : x + n < mx <;> simp [h]

theorem foldl_max (v : Nat) : ∀ (l : List Nat) (k : Nat), l.foldl (fun a _ => max a v) k = if l = [] then k else max k v
  | [], k => rfl
  | x :: l, k => by
    rw [List.foldl_cons, foldl_max v l]
    by_cases h : l = []
    · simp [h]
    · simp [h]

theorem foldl_or (v : Nat) : ∀ (l : List Nat) (k : Nat), l.foldl (fun a _ => a ||| v) k = if l = [] then k else k ||| v
  | [], k => rfl
  | x :: l, k => by
    rw [List.foldl_cons, foldl_or v l]
    by_cases h : l = []
    · simp [h]
    · simp [h, Nat.or_assoc]

theorem foldl_sign (v : Nat) : ∀ (l : List Nat) (k : Int), l.foldl (fun a _ => Sel.signStep v a) k =
    k + (if v = 1 then -(l.length : Int) else if v = 2 then (l.length : Int) else 0)
  | [], k => by simp
  | x :: l, k => by
    rw [List.foldl_cons, foldl_sign v l]
    unfold Sel.signStep
    by_cases h1 : v = 1
    · subst h1; simp; omega
    · by_cases h2 : v = 2
      · subst h2; simp; omega
      · simp [h1, h2]

/-- The class of an edge all of whose levels are `v`. -/
theorem levelClass_const (l : List Nat) (f : Nat → Nat) (v : Nat) (h : ∀ x ∈ l, f x = v) :
    Ref.levelClass (l.map f) = if l = [] ∨ v = 0 then 0 else if v ≤ 3 then 1 else 2 := by
  unfold Ref.levelClass
  have e : ∀ p : Nat → Prop, (∀ w ∈ l.map f, p w) ↔ l = [] ∨ p v := by
    intro p
    constructor
    · intro hp
      cases l with
      | nil => exact Or.inl rfl
      | cons x l => right; rw [← h x List.mem_cons_self]; exact hp _ (by simp)
    · rintro (rfl | hp) w hw
      · simp at hw
      · obtain ⟨x, hx, rfl⟩ := List.mem_map.1 hw
        rw [h x hx]; exact hp
  simp only [e]
  by_cases h0 : l = [] ∨ v = 0
  · simp [h0]
  · rw [if_neg h0, if_neg h0]
    have : l ≠ [] := fun h => h0 (Or.inl h)
    simp [this]

/-- One edge of the code: the capped maximum. -/
theorem edge_top (n x mx v : Nat) : min (Sel.edgeLoop n x mx (max · v) 0) 255 =
    if Ref.inPlane x n mx = [] then 0 else min v 255 := by
  rw [edgeLoop_eq, foldl_max]
  split <;> simp

theorem edge_or (n x mx v : Nat) : Sel.edgeLoop n x mx (· ||| v) 0 = if Ref.inPlane x n mx = [] then 0 else v := by
  rw [edgeLoop_eq, foldl_or]
  split <;> simp

/-- The luma case split of the code in terms of the classes. -/
theorem luma_ctx (l m : List Nat) (v w : Nat) :
    (if (if l = [] then 0 else min v 255) = 0 ∧ (if m = [] then 0 else min w 255) = 0 then 1
     else if (if l = [] then 0 else min v 255) = 0 ∨ (if m = [] then 0 else min w 255) = 0 then
       2 + (decide (max (if l = [] then 0 else min v 255) (if m = [] then 0 else min w 255) > 3)).toNat
     else if max (if l = [] then 0 else min v 255) (if m = [] then 0 else min w 255) ≤ 3 then 4
     else if min (if l = [] then 0 else min v 255) (if m = [] then 0 else min w 255) ≤ 3 then 5
     else 6) =
    Ref.luma (if l = [] ∨ v = 0 then 0 else if v ≤ 3 then 1 else 2) (if m = [] ∨ w = 0 then 0 else if w ≤ 3 then 1 else 2) := by
  have red : ∀ (l : List Nat) (v : Nat), ∃ u, (if l = [] then 0 else min v 255) = min u 255 ∧
      (if l = [] ∨ v = 0 then 0 else if v ≤ 3 then 1 else 2) = if u = 0 then 0 else if u ≤ 3 then 1 else 2 := by
    intro l v
    by_cases h : l = []
    · exact ⟨0, by simp [h], by simp [h]⟩
    · exact ⟨v, by simp [h], by simp [h]⟩
  obtain ⟨a, ha, ha'⟩ := red l v
  obtain ⟨b, hb, hb'⟩ := red m w
  rw [ha, hb, ha', hb']
  have cls : ∀ a : Nat, a = 0 ∨ (0 < a ∧ a ≤ 3) ∨ 3 < a := by omega
  rcases cls a with rfl | ⟨h1, h2⟩ | h1 <;> rcases cls b with rfl | ⟨h3, h4⟩ | h3
  · simp [Ref.luma]
  · rw [if_neg (by omega), if_pos (by omega), decide_eq_false (by omega), if_pos rfl, if_neg (by omega : ¬ b = 0), if_pos h4]; rfl
  · rw [if_neg (by omega), if_pos (by omega), decide_eq_true (by omega), if_pos rfl, if_neg (by omega : ¬ b = 0), if_neg (by omega)]; rfl
  · rw [if_neg (by omega), if_pos (by omega), decide_eq_false (by omega), if_neg (by omega : ¬ a = 0), if_pos h2, if_pos rfl]; rfl
  · rw [if_neg (by omega), if_neg (by omega), if_pos (by omega), if_neg (by omega : ¬ a = 0), if_pos h2, if_neg (by omega : ¬ b = 0), if_pos h4]; rfl
  · rw [if_neg (by omega), if_neg (by omega), if_neg (by omega), if_pos (by omega), if_neg (by omega : ¬ a = 0), if_pos h2,
      if_neg (by omega : ¬ b = 0), if_neg (by omega)]; rfl
  · rw [if_neg (by omega), if_pos (by omega), decide_eq_true (by omega), if_neg (by omega : ¬ a = 0), if_neg (by omega : ¬ a ≤ 3), if_pos rfl]; rfl
  · rw [if_neg (by omega), if_neg (by omega), if_neg (by omega), if_pos (by omega), if_neg (by omega : ¬ a = 0), if_neg (by omega : ¬ a ≤ 3),
      if_neg (by omega : ¬ b = 0), if_pos h4]; rfl
  · rw [if_neg (by omega), if_neg (by omega), if_neg (by omega), if_neg (by omega), if_neg (by omega : ¬ a = 0), if_neg (by omega : ¬ a ≤ 3),
      if_neg (by omega : ¬ b = 0), if_neg (by omega : ¬ b ≤ 3)]; rfl

/-- The loop over the offsets of `get_coeff_base_ctx`. -/
theorem sigMag_eq (quant : List Int) (bwl height row col : Nat) (hq : 2 ^ bwl * height ≤ quant.length) :
    ∀ offs : List (Nat × Nat), Sel.sigMag quant bwl (2 ^ bwl) height row col (offs.map fun o => [o.1, o.2]) =
      some (Ref.magnitude 3 (2 ^ bwl) height row col quant offs)
  | [] => rfl
  | o :: offs => by
    have ih := sigMag_eq quant bwl height row col hq offs
    rw [List.map_cons, Sel.sigMag, ih]
    by_cases h : row + o.1 < height ∧ col + o.2 < 2 ^ bwl
    · have hlt : (row + o.1) * 2 ^ bwl + (col + o.2) < quant.length := by
        have : (row + o.1 + 1) * 2 ^ bwl ≤ height * 2 ^ bwl := Nat.mul_le_mul_right _ h.1
        rw [Nat.mul_comm height] at this
        rw [Nat.add_mul, Nat.one_mul] at this
        omega
      simp [h, Nat.shiftLeft_eq, Ref.magnitude, List.getElem?_eq_getElem hlt]
    · have : (decide (row + o.1 < height) && decide (col + o.2 < 2 ^ bwl)) = false := by
        rw [Bool.and_eq_false_iff, decide_eq_false_iff_not, decide_eq_false_iff_not]; omega
      simp [h, Ref.magnitude, this]

/-- The loop over the offsets of `encode_coeff_br`, for magnitudes. -/
theorem brMag_eq (quant : List Int) (bwl height row col : Nat) (hq : 2 ^ bwl * height ≤ quant.length)
    (hn : ∀ x ∈ quant, 0 ≤ x ∧ x < 2 ^ 31) :
    ∀ offs : List (Nat × Nat), Sel.brMag quant bwl (2 ^ bwl) height row col (offs.map fun o => [o.1, o.2]) =
      some (Ref.magnitude 15 (2 ^ bwl) height row col quant offs)
  | [] => rfl
  | o :: offs => by
    have ih := brMag_eq quant bwl height row col hq hn offs
    rw [List.map_cons, Sel.brMag, ih]
    by_cases h : row + o.1 < height ∧ col + o.2 < 2 ^ bwl
    · have hlt : (row + o.1) * 2 ^ bwl + (col + o.2) < quant.length := by
        have : (row + o.1 + 1) * 2 ^ bwl ≤ height * 2 ^ bwl := Nat.mul_le_mul_right _ h.1
        rw [Nat.mul_comm height] at this
        rw [Nat.add_mul, Nat.one_mul] at this
        omega
      have hx := hn _ (List.getElem_mem hlt)
      have hu : ∀ x : Int, 0 ≤ x ∧ x < 2 ^ 31 → Sel.asUsize x = x.natAbs := by
        intro x hx; unfold Sel.asUsize; rw [Int.emod_eq_of_lt hx.1 (by omega)]; omega
      have hc : K.COEFF_BASE_RANGE + K.NUM_BASE_LEVELS + 1 = 15 := rfl
      simp [h, Nat.shiftLeft_eq, Ref.magnitude, List.getElem?_eq_getElem hlt, hu _ hx, hc]
    · have : (decide (row + o.1 < height) && decide (col + o.2 < 2 ^ bwl)) = false := by
        rw [Bool.and_eq_false_iff, decide_eq_false_iff_not, decide_eq_false_iff_not]; omega
      simp [h, Nat.shiftLeft_eq, Ref.magnitude, this]

/-- Tables of the coded part of a transform. -/
theorem tx_rows (tx : Nat) (d : Nat × Nat) (hd : txDims[tx]? = some d) : ∃ adj bwl, K.adjusted_tx_size[tx]? = some adj ∧
    K.tx_width_log2[adj]? = some bwl ∧ 2 ^ bwl = min 32 d.1 ∧ K.tx_width[adj]? = some (min 32 d.1) ∧
    K.tx_height[adj]? = some (min 32 d.2) ∧ codedDims[tx]? = some (min 32 d.1, min 32 d.2) := by
  have key := forall_tx (P := fun tx d => ((K.adjusted_tx_size[tx]?).any fun adj => (K.tx_width_log2[adj]?).any fun bwl =>
    decide (2 ^ bwl = min 32 d.1) && (K.tx_width[adj]? == some (min 32 d.1)) && (K.tx_height[adj]? == some (min 32 d.2)) &&
    (codedDims[tx]? == some (min 32 d.1, min 32 d.2))) = true) (by decide +kernel) tx d hd
  cases ha : K.adjusted_tx_size[tx]? with
  | none => rw [ha] at key; cases key
  | some adj =>
    rw [ha, Option.any_some] at key
    cases hb : K.tx_width_log2[adj]? with
    | none => rw [hb] at key; cases key
    | some bwl =>
      rw [hb, Option.any_some] at key
      simp only [Bool.and_eq_true, decide_eq_true_eq, beq_iff_eq] at key
      exact ⟨adj, bwl, rfl, hb, key.1.1.1, key.1.1.2, key.1.2, key.2⟩

/-- `coeff_base_ctx_offset` in closed form. -/
theorem offset_table (tx : Nat) (d : Nat × Nat) (hd : txDims[tx]? = some d) (row col : Nat) (hr : row < min 32 d.2)
    (hc : col < min 32 d.1) (h0 : ¬ (row = 0 ∧ col = 0)) : ∃ a b, K.coeff_base_ctx_offset[tx]? = some a ∧
      a[min row 4]? = some b ∧ b[min col 4]? = some (if d.1 < d.2 ∧ row < 2 then 11 else if d.2 < d.1 ∧ col < 2 then 16
        else if row + col < 2 then 1 else if row + col < 4 then 6 else 21) := by
  have key := forall_tx (P := fun tx d => ((K.coeff_base_ctx_offset[tx]?).any fun a => (List.range 5).all fun r =>
    (List.range 5).all fun c => decide ((r < d.2 ∧ c < d.1 ∧ ¬ (r = 0 ∧ c = 0)) → ((a[r]?).bind fun b => b[c]?) =
      some (if d.1 < d.2 ∧ r < 2 then 11 else if d.2 < d.1 ∧ c < 2 then 16 else if r + c < 2 then 1 else if r + c < 4 then 6
        else 21))) = true) (by decide +kernel) tx d hd
  cases ha : K.coeff_base_ctx_offset[tx]? with
  | none => rw [ha] at key; cases key
  | some a =>
    rw [ha, Option.any_some, List.all_eq_true] at key
    have h := key (min row 4) (List.mem_range.2 (by omega))
    rw [List.all_eq_true] at h
    have h := of_decide_eq_true (h (min col 4) (List.mem_range.2 (by omega))) ⟨by omega, by omega, by omega⟩
    rw [Option.bind_eq_some_iff] at h
    obtain ⟨b, hb, hbc⟩ := h
    refine ⟨a, b, rfl, hb, ?_⟩
    rw [hbc]
    have e1 : (min row 4 < 2) ↔ row < 2 := by omega
    have e2 : (min col 4 < 2) ↔ col < 2 := by omega
    have e3 : (min row 4 + min col 4 < 2) ↔ row + col < 2 := by omega
    have e4 : (min row 4 + min col 4 < 4) ↔ row + col < 4 := by omega
    simp only [e1, e2, e3, e4]

theorem pos_split (pos bwl w : Nat) (hw : 2 ^ bwl = w) : pos >>> bwl = pos / w ∧ pos - ((pos >>> bwl) <<< bwl) = pos % w := by
  subst hw
  rw [Nat.shiftRight_eq_div_pow, Nat.shiftLeft_eq]
  refine ⟨rfl, ?_⟩
  have := Nat.div_add_mod pos (2 ^ bwl)
  rw [Nat.mul_comm] at this
  omega

/-- `get_coeff_base_ctx` inside a block. -/
theorem coeffBaseCtx_eq (e : Sel.TxEnv) (t : Nat) (d : Nat × Nat) (pos c : Nat) (quant : List Int) (ht : e.txType = some t)
    (hd : txDims[e.txSize]? = some d) (hq : min 32 d.1 * min 32 d.2 ≤ quant.length) (hp : pos < min 32 d.1 * min 32 d.2) :
    Sel.coeffBaseCtx e pos c false quant =
      some (Ref.coeffBase (Ref.txClass t) d.1 d.2 (min 32 d.1) (min 32 d.2) pos quant) := by
  obtain ⟨adj, bwl, h1, h2, h3, -, h5, -⟩ := tx_rows _ d hd
  have hpos : 0 < min 32 d.1 := by rw [← h3]; exact Nat.two_pow_pos _
  have hrow : pos / min 32 d.1 < min 32 d.2 := (Nat.div_lt_iff_lt_mul hpos).2 (by rw [Nat.mul_comm]; exact hp)
  have hcol : pos % min 32 d.1 < min 32 d.1 := Nat.mod_lt _ hpos
  have hz : (pos / min 32 d.1 = 0 ∧ pos % min 32 d.1 = 0) ↔ pos = 0 := by
    have := Nat.div_add_mod pos (min 32 d.1)
    constructor
    · rintro ⟨ha, hb⟩; rw [ha, hb] at this; omega
    · rintro rfl; simp
  have mag := sigMag_eq quant bwl (min 32 d.2) (pos / min 32 d.1) (pos % min 32 d.1) (by rw [h3]; exact hq)
  rw [h3] at mag
  have hs := (pos_split pos bwl _ h3).2
  rw [(pos_split pos bwl _ h3).1] at hs
  unfold Sel.coeffBaseCtx
  simp only [h1, h2, h5, ht, Option.bind_eq_bind, Option.bind_some, Bool.false_eq_true, if_false, (pos_split pos bwl _ h3).1, hs,
    txClass_eq, Nat.one_shiftLeft, h3]
  have hcls : Ref.txClass t = 0 ∨ Ref.txClass t = 1 ∨ Ref.txClass t = 2 := by
    unfold Ref.txClass; split
    · omega
    · split <;> omega
  have c2 : K.TX_CLASS_2D = 0 := rfl
  have cv : K.TX_CLASS_VERT = 2 := rfl
  have sh : ∀ n, (n + 1) >>> 1 = (n + 1) / 2 := fun n => by rw [Nat.shiftRight_eq_div_pow]
  have pos26 : ∀ k, K.coeff_base_pos_ctx_offset[min k 2]? = some (26 + 5 * min k 2) := by
    intro k
    have : ∀ m ≤ 2, K.coeff_base_pos_ctx_offset[m]? = some (26 + 5 * m) := by decide
    exact this _ (by omega)
  rcases hcls with h | h | h
  · have ho : K.sig_ref_diff_offset[0]? = some ([(0, 1), (1, 0), (1, 1), (0, 2), (2, 0)].map fun o : Nat × Nat => [o.1, o.2]) := rfl
    rw [h, ho, Option.bind_some, mag, Option.bind_some, c2, if_pos rfl, Ref.coeffBase, if_pos rfl]
    by_cases h0 : pos = 0
    · rw [if_pos (hz.2 h0), if_pos h0]
    · rw [if_neg fun hh => h0 (hz.1 hh), if_neg h0]
      obtain ⟨a, b, ha, hb, hc⟩ := offset_table _ d hd _ _ hrow hcol fun hh => h0 (hz.1 hh)
      rw [ha, Option.bind_some, hb, Option.bind_some, hc, Option.bind_some, sh]
      congr 1
      repeat' split
      all_goals rfl
  · have ho : K.sig_ref_diff_offset[1]? = some ([(0, 1), (1, 0), (0, 2), (0, 3), (0, 4)].map fun o : Nat × Nat => [o.1, o.2]) := rfl
    rw [h, ho, Option.bind_some, mag, Option.bind_some, c2, cv, if_neg (by decide), if_neg (by decide), pos26, Option.bind_some, sh]
    congr 1
    rw [Ref.coeffBase, if_neg (by decide), if_pos rfl]
    omega
  · have ho : K.sig_ref_diff_offset[2]? = some ([(0, 1), (1, 0), (2, 0), (3, 0), (4, 0)].map fun o : Nat × Nat => [o.1, o.2]) := rfl
    rw [h, ho, Option.bind_some, mag, Option.bind_some, c2, cv, if_neg (by decide), if_pos rfl, pos26, Option.bind_some, sh]
    congr 1
    rw [Ref.coeffBase, if_neg (by decide), if_neg (by decide)]
    · omega
    all_goals decide

/-- `encode_coeff_br` on magnitudes. -/
theorem coeffBr_eq (e : Sel.TxEnv) (t : Nat) (d : Nat × Nat) (v c p pos : Nat) (quant : List Int) (ht : e.txType = some t)
    (hd : txDims[e.txSize]? = some d) (hq : min 32 d.1 * min 32 d.2 ≤ quant.length) (hn : ∀ x ∈ quant, 0 ≤ x ∧ x < 2 ^ 31) :
    ∃ s, Sel.coeffBr e v c p pos quant = some s ∧
      s.idx = [0, min c 3, p, Ref.coeffBr (Ref.txClass t) (min 32 d.1) (min 32 d.2) pos quant] := by
  obtain ⟨adj, bwl, h1, h2, h3, h4, h5, -⟩ := tx_rows _ d hd
  have mag := brMag_eq quant bwl (min 32 d.2) (pos / min 32 d.1) (pos % min 32 d.1) (by rw [h3]; exact hq) hn
  rw [h3] at mag
  have hs := (pos_split pos bwl _ h3).2
  rw [(pos_split pos bwl _ h3).1] at hs
  unfold Sel.coeffBr
  simp only [h1, h2, h4, h5, ht, Option.bind_eq_bind, Option.bind_some, (pos_split pos bwl _ h3).1, hs, txClass_eq]
  have hcls : Ref.txClass t = 0 ∨ Ref.txClass t = 1 ∨ Ref.txClass t = 2 := by
    unfold Ref.txClass; split
    · omega
    · split <;> omega
  have sh : ∀ n, (n + 1) >>> 1 = (n + 1) / 2 := fun n => by rw [Nat.shiftRight_eq_div_pow]
  have ho0 : K.mag_ref_offset_with_tx_class[0]? = some ([(0, 1), (1, 0), (1, 1)].map fun o : Nat × Nat => [o.1, o.2]) := rfl
  have ho1 : K.mag_ref_offset_with_tx_class[1]? = some ([(0, 1), (1, 0), (0, 2)].map fun o : Nat × Nat => [o.1, o.2]) := rfl
  have ho2 : K.mag_ref_offset_with_tx_class[2]? = some ([(0, 1), (1, 0), (2, 0)].map fun o : Nat × Nat => [o.1, o.2]) := rfl
  have c3 : K.TX_32X32 = 3 := rfl
  rcases hcls with h | h | h
  · rw [h, ho0, Option.bind_some, mag, Option.bind_some]
    refine ⟨_, rfl, ?_⟩
    rw [c3]
    simp only [Ref.coeffBr, sh, List.cons.injEq, and_true, true_and, if_true]
    by_cases h0 : pos = 0
    · simp [h0]
    · simp [h0]
  · rw [h, ho1, Option.bind_some, mag, Option.bind_some]
    refine ⟨_, rfl, ?_⟩
    rw [c3]
    simp only [Ref.coeffBr, sh, List.cons.injEq, and_true, true_and, if_true]
    by_cases h0 : pos = 0
    · simp [h0]
    · simp [h0]
  · rw [h, ho2, Option.bind_some, mag, Option.bind_some]
    refine ⟨_, rfl, ?_⟩
    rw [c3]
    simp only [Ref.coeffBr, sh, List.cons.injEq, and_true, true_and, if_true]
    by_cases h0 : pos = 0
    · simp [h0]
    · simp [h0]

/-- The coded area of a transform in the words of `Elem.Legal`. -/
theorem coded_eq (tx : Nat) (d : Nat × Nat) (hd : txDims[tx]? = some d) : codedDims[tx]? = some (min 32 d.1, min 32 d.2) := by
  obtain ⟨-, -, -, -, -, -, -, h⟩ := tx_rows tx d hd
  exact h

/-- **C107**, what holds: for quantizer indices up to 20, magnitudes, and edges along which the neighbour's values are
everywhere the same, the tables are those of AV1. -/
theorem C107_contexts_partial (e : Elem) (nb : Nbrs) (q : Nat) (E : Ref.Edges) (i : List Nat) (hl : e.Legal nb) (hq : q ≤ 20)
    (hE : e.EdgesOk Ref.Edges.Agree E nb) (hQ : e.QuantOk) (hv : nb.Valid) (hi : Ref.idx3 q E e = some i) :
    ∃ s, e.select nb = some s ∧ s.idx = i := by
  have q0 : Ref.qSet q = 0 := if_pos hq
  cases e with
  | eobPt e k v p =>
    simp only [Ref.idx3, Option.map_eq_some_iff, q0] at hi
    obtain ⟨t, ht, rfl⟩ := hi
    obtain ⟨-, hk, -, -⟩ := hl
    have hf : ∃ f, [Default.eob_pt_16, Default.eob_pt_32, Default.eob_pt_64, Default.eob_pt_128, Default.eob_pt_256,
        Default.eob_pt_512, Default.eob_pt_1024][k]? = some f := ⟨_, List.getElem?_eq_getElem hk⟩
    obtain ⟨f, hf⟩ := hf
    refine ⟨_, by simp only [Elem.select, Sel.eobPt, ht, hf]; rfl, ?_⟩
    dsimp only
    rw [txClass_eq]; rfl
  | coeffBase e v c p k scan quant =>
    simp only [Ref.idx3, Option.bind_eq_bind, Option.bind_eq_some_iff, q0] at hi
    obtain ⟨t, ht, d, hd, pos, hp, h⟩ := hi
    cases h
    obtain ⟨-, -, -, -, -, hr⟩ := hl
    obtain ⟨hlen, hpos⟩ := hr _ _ (coded_eq _ d hd)
    have := coeffBaseCtx_eq e t d pos k quant ht hd hlen (hpos pos (List.mem_of_getElem? hp))
    exact ⟨⟨Default.coeff_base, [0, c, p, _], v⟩, by simp only [Elem.select, Sel.coeffBase, hp, this, Option.bind_eq_bind, Option.bind_some], rfl⟩
  | coeffBr e v c p pos quant =>
    simp only [Ref.idx3, Option.bind_eq_bind, Option.bind_eq_some_iff, q0] at hi
    obtain ⟨t, ht, d, hd, h⟩ := hi
    cases h
    obtain ⟨-, -, -, -, hr⟩ := hl
    exact coeffBr_eq e t d v c p pos quant ht hd (hr _ _ (coded_eq _ d hd)).1 hQ
  | dcSign t p plane =>
    obtain ⟨⟨ha, hb⟩, hc, hr⟩ := hE
    cases hi
    rw [q0]
    have hp : plane < 3 := hl.2
    have dc : ∀ o : Option ModeInfo, (∀ mi, o = some mi → mi.Valid) →
        ∃ v, (orElse o (some 0) fun mi => mi.dc[plane]?) = some v := by
      intro o ho
      cases o with
      | none => exact ⟨0, rfl⟩
      | some m => exact ⟨_, List.getElem?_eq_getElem (by rw [(ho m rfl).dc]; exact hp)⟩
    obtain ⟨x, hx⟩ := dc _ hv.1
    obtain ⟨y, hy⟩ := dc _ hv.2.1
    refine ⟨_, by simp only [Elem.select, Sel.dcSign, hx, hy]; rfl, ?_⟩
    dsimp only
    rw [hx] at ha; rw [hy] at hb
    simp only [Sel.TxPos.maxX, Sel.TxPos.maxY, limit_eq _ _ _ hc, limit_eq _ _ _ hr, edgeLoop_eq, foldl_sign]
    generalize Ref.inPlane t.x4 t.w4 (Ref.planeUnits plane t.miCols t.ssx) = xs at *
    generalize Ref.inPlane t.y4 t.h4 (Ref.planeUnits plane t.miRows t.ssy) = ys at *
    have mx : xs.map E.aDc = List.replicate xs.length x := by
      rw [List.map_congr_left (g := fun _ => x) fun z hz => (Option.some.inj (ha z hz).2).symm, List.map_const']
    have my : ys.map E.lDc = List.replicate ys.length y := by
      rw [List.map_congr_left (g := fun _ => y) fun z hz => (Option.some.inj (hb z hz).2).symm, List.map_const']
    unfold Ref.dcSign
    dsimp only
    rw [mx, my, List.count_append, List.count_append]
    simp only [List.count_replicate, beq_iff_eq]
    congr 3
    have cnt : ∀ (z n : Nat), (if z = 1 then -(n : Int) else if z = 2 then (n : Int) else 0) =
        ((if z = 2 then n else 0 : Nat) : Int) - ((if z = 1 then n else 0 : Nat) : Int) := by
      intro z n
      by_cases h1 : z = 1
      · subst h1; simp
      · by_cases h2 : z = 2
        · subst h2; simp
        · simp [h1, h2]
    rw [cnt, cnt]
    generalize (if x = 1 then xs.length else 0) = a1
    generalize (if x = 2 then xs.length else 0) = a2
    generalize (if y = 1 then ys.length else 0) = b1
    generalize (if y = 2 then ys.length else 0) = b2
    rcases Nat.lt_trichotomy (a1 + b1) (a2 + b2) with h | h | h
    · rw [Nat.compare_eq_lt.2 h, if_neg (by omega), if_pos (by omega)]
    · rw [Nat.compare_eq_eq.2 h, if_neg (by omega), if_neg (by omega)]
    · rw [Nat.compare_eq_gt.2 h, if_pos (by omega)]
  | allZero t v plane tx c bs =>
    obtain ⟨⟨ha, hb⟩, hc, hr⟩ := hE
    simp only [Ref.idx3, Option.bind_eq_bind, Option.bind_eq_some_iff, q0] at hi
    obtain ⟨d, hd, b, hbs, h⟩ := hi
    cases h
    obtain ⟨-, hp, -, -, -, r, hres, hr22⟩ := hl
    have txr := C56_tx_tables tx d hd
    have hdr : ∃ z, blockDims[r]? = some z := ⟨_, List.getElem?_eq_getElem hr22⟩
    obtain ⟨z, hz⟩ := hdr
    have hzr := (C45_tables_partial r z hz).1
    have hz' : z = (if plane = 0 then b.1 else max 4 (b.1 / 2 ^ t.ssx.toNat), if plane = 0 then b.2 else max 4 (b.2 / 2 ^ t.ssy.toNat)) := by
      have h57 := C57_residual_size bs b hbs t.ssx t.ssy
      by_cases h0 : plane = 0
      · subst h0
        rw [h57.1] at hres
        cases hres
        rw [hbs] at hz
        cases hz
        rfl
      · have h2 := (h57.2 plane (by omega)).2
        rw [if_neg h0, if_neg h0]
        split at h2
        · rw [hres] at h2
          cases h2
          exact absurd hr22 (by decide)
        · rw [hres, Option.bind_some, hz] at h2
          exact Option.some.inj h2
    have lv : ∀ (o : Option ModeInfo), (∀ mi, o = some mi → mi.Valid) →
        (∃ v, (orElse o (some 0) fun mi => mi.level[plane]?) = some v) ∧ ∃ v, (orElse o (some 0) fun mi => mi.dc[plane]?) = some v := by
      intro o ho
      cases o with
      | none => exact ⟨⟨0, rfl⟩, 0, rfl⟩
      | some m =>
        exact ⟨⟨_, List.getElem?_eq_getElem (by rw [(ho m rfl).level]; exact hp)⟩,
          _, List.getElem?_eq_getElem (by rw [(ho m rfl).dc]; exact hp)⟩
    obtain ⟨⟨la, hla⟩, da, hda⟩ := lv _ hv.1
    obtain ⟨⟨ll, hll⟩, dl, hdl⟩ := lv _ hv.2.1
    rw [hla, hda] at ha
    rw [hll, hdl] at hb
    have ctx : Sel.allZeroCtx nb t plane tx bs = some (Ref.allZero E (Ref.inPlane t.x4 t.w4 (Ref.planeUnits plane t.miCols t.ssx))
        (Ref.inPlane t.y4 t.h4 (Ref.planeUnits plane t.miRows t.ssy)) plane d.1 d.2 z.1 z.2) := by
      unfold Sel.allZeroCtx
      simp only [txr.1, txr.2.1, hres, hzr.1, hzr.2, hla, hll, hda, hdl, Option.bind_eq_bind, Option.bind_some,
        Sel.TxPos.maxX, Sel.TxPos.maxY, limit_eq _ _ _ hc, limit_eq _ _ _ hr, edge_top, edge_or, luma_ctx]
      generalize Ref.inPlane t.x4 t.w4 (Ref.planeUnits plane t.miCols t.ssx) = xs at *
      generalize Ref.inPlane t.y4 t.h4 (Ref.planeUnits plane t.miRows t.ssy) = ys at *
      unfold Ref.allZero
      by_cases h0 : plane = 0
      · rw [if_pos h0, if_pos h0, levelClass_const xs E.aLevel la fun x hx => (Option.some.inj (ha x hx).1).symm,
          levelClass_const ys E.lLevel ll fun x hx => (Option.some.inj (hb x hx).1).symm]
        congr 1
        by_cases hw : z.1 = d.1 ∧ z.2 = d.2
        · rw [if_pos hw, if_pos (by rw [hw.1, hw.2])]
        · have hw' : ¬ (z.1, z.2) = (d.1, d.2) := fun hh => hw ⟨congrArg Prod.fst hh, congrArg Prod.snd hh⟩
          rw [if_neg hw, if_neg hw']
      · rw [if_neg h0, if_neg h0]
        have any : ∀ (l : List Nat) (f g : Nat → Nat) (a b : Nat), (∀ x ∈ l, some a = some (f x) ∧ some b = some (g x)) →
            (decide ((if l = [] then 0 else a ||| b) ≠ 0)).toNat = if ∀ x ∈ l, f x = 0 ∧ g x = 0 then 0 else 1 := by
          intro l f g a b hh
          cases l with
          | nil => simp
          | cons x l =>
            have : (∀ y ∈ x :: l, f y = 0 ∧ g y = 0) ↔ a = 0 ∧ b = 0 := by
              constructor
              · intro hy
                have h1 := hh x List.mem_cons_self
                have h2 := hy x List.mem_cons_self
                exact ⟨by rw [Option.some.inj h1.1]; exact h2.1, by rw [Option.some.inj h1.2]; exact h2.2⟩
              · rintro ⟨h1, h2⟩ y hy
                have h3 := hh y hy
                exact ⟨by rw [← Option.some.inj h3.1]; exact h1, by rw [← Option.some.inj h3.2]; exact h2⟩
            rw [if_neg (List.cons_ne_nil _ _)]
            by_cases hz : a = 0 ∧ b = 0
            · rw [if_pos (this.2 hz), hz.1, hz.2]; rfl
            · have hne : (a ||| b) ≠ 0 := fun ho => hz (Nat.or_eq_zero_iff.1 ho)
              rw [if_neg fun h => hz (this.1 h), decide_eq_true hne]; rfl
        rw [any xs E.aLevel E.aDc la da ha, any ys E.lLevel E.lDc ll dl hb]
        simp only [gt_iff_lt]
        congr 1
        omega
    refine ⟨_, by simp only [Elem.select, Sel.allZero, ctx]; rfl, ?_⟩
    dsimp only
    rw [hz']
  | _ => cases hi

/-- **C107** fails for every coefficient of every frame with a quantizer index above 20: the code always takes the first of
the four sets of tables. -/
theorem C107_q_wrong (e : Elem) (nb : Nbrs) (q : Nat) (E : Ref.Edges) (i : List Nat) (s : Sel) (hq : 20 < q)
    (hi : Ref.idx3 q E e = some i) (hs : e.select nb = some s) : s.idx ≠ i := by
  have q0 : Ref.qSet q ≠ 0 := by
    unfold Ref.qSet
    rw [if_neg (by omega)]
    split
    · decide
    · split <;> decide
  have fin : ∀ a b, s.idx = 0 :: a → i = Ref.qSet q :: b → s.idx ≠ i := by
    intro a b h1 h2 h
    rw [h1, h2] at h
    exact q0 (List.cons.inj h).1.symm
  cases e with
  | eobPt e k v p =>
    simp only [Ref.idx3, Option.map_eq_some_iff] at hi
    obtain ⟨t, ht, rfl⟩ := hi
    simp only [Elem.select, Sel.eobPt, Option.bind_eq_bind, Option.bind_eq_some_iff] at hs
    obtain ⟨_, -, _, -, h⟩ := hs
    cases h
    exact fin _ _ rfl rfl
  | coeffBase e v c p k scan quant =>
    simp only [Ref.idx3, Option.bind_eq_bind, Option.bind_eq_some_iff] at hi
    obtain ⟨_, -, _, -, _, -, h⟩ := hi
    cases h
    simp only [Elem.select, Sel.coeffBase, Option.bind_eq_bind, Option.bind_eq_some_iff] at hs
    obtain ⟨_, -, _, -, h⟩ := hs
    cases h
    exact fin _ _ rfl rfl
  | coeffBr e v c p pos quant =>
    simp only [Ref.idx3, Option.bind_eq_bind, Option.bind_eq_some_iff] at hi
    obtain ⟨_, -, _, -, h⟩ := hi
    cases h
    simp only [Elem.select, Sel.coeffBr, Option.bind_eq_bind, Option.bind_eq_some_iff] at hs
    obtain ⟨_, -, _, -, _, -, _, -, _, -, _, -, _, -, h⟩ := hs
    cases h
    exact fin _ _ rfl rfl
  | dcSign t p plane =>
    cases hi
    simp only [Elem.select, Sel.dcSign, Option.bind_eq_bind, Option.bind_eq_some_iff] at hs
    obtain ⟨_, -, _, -, h⟩ := hs
    cases h
    exact fin _ _ rfl rfl
  | allZero t v plane tx c bs =>
    simp only [Ref.idx3, Option.bind_eq_bind, Option.bind_eq_some_iff] at hi
    obtain ⟨_, -, _, -, h⟩ := hi
    cases h
    simp only [Elem.select, Sel.allZero, Option.bind_eq_bind, Option.bind_eq_some_iff] at hs
    obtain ⟨_, -, h⟩ := hs
    cases h
    exact fin _ _ rfl rfl
  | _ => cases hi

def sampleTx : Sel.TxEnv := ⟨fun _ _ => some 0, false, false, 0, 0, 0, 0, false, false, false, 0, 0, 0⟩

/-- **C107**, the exact condition on the quantizer, for magnitudes and uniform edges: the tables are AV1's if and only if the
quantizer index is at most 20. -/
theorem C107_iff (e : Elem) (nb : Nbrs) (q : Nat) (E : Ref.Edges) (i : List Nat) (hl : e.Legal nb)
    (hE : e.EdgesOk Ref.Edges.Agree E nb) (hQ : e.QuantOk) (hv : nb.Valid) (hi : Ref.idx3 q E e = some i) :
    (∃ s, e.select nb = some s ∧ s.idx = i) ↔ q ≤ 20 := by
  constructor
  · rintro ⟨s, hs, h⟩
    by_contra hq
    exact C107_q_wrong e nb q E i s (by omega) hi hs h
  · intro hq
    exact C107_contexts_partial e nb q E i hl hq hE hQ hv hi

/-- Two further causes, with quantizer index 0: a negative coefficient counts as 15, and along the edge of a wide block only
the first neighbour is seen. -/
theorem C107_negation : ¬ C107_full ∧
    (let quant : List Int := 0 :: -1 :: List.replicate 14 0
     ((Elem.coeffBr sampleTx 0 0 0 0 quant).select ⟨none, none, none⟩).map (·.idx) = some [0, 0, 0, 6] ∧
     Ref.idx3 0 ⟨fun _ => 0, fun _ => 0, fun _ => 0, fun _ => 0⟩ (.coeffBr sampleTx 0 0 0 0 quant) = some [0, 0, 0, 1]) ∧
    (let t : Sel.TxPos := ⟨2, 2, 0, 4, 16, 16, false, false⟩
     ((Elem.allZero t 0 0 1 1 6).select ⟨none, none, none⟩).map (·.idx) = some [0, 1, 1] ∧
     Ref.idx3 0 ⟨fun x => if x = 1 then 2 else 0, fun _ => 0, fun _ => 0, fun _ => 0⟩ (.allZero t 0 0 1 1 6) = some [0, 1, 2]) := by
  refine ⟨fun h => ?_, by decide +kernel, by decide +kernel⟩
  have hv : Nbrs.Valid ⟨none, none, none⟩ := ⟨nofun, nofun, nofun⟩
  obtain ⟨s, h1, h2⟩ := h (.eobPt sampleTx 0 0 0) ⟨none, none, none⟩ 255 ⟨fun _ => 0, fun _ => 0, fun _ => 0, fun _ => 0⟩
    [3, 0, 0] hv ⟨⟨by decide, by decide, fun _ _ => ⟨0, rfl, by decide⟩⟩, by decide, by decide, by decide⟩ (by decide) trivial
    (by decide +kernel)
  exact C107_q_wrong _ _ 255 ⟨fun _ => 0, fun _ => 0, fun _ => 0, fun _ => 0⟩ _ s (by decide) (by decide +kernel) h1 h2

/-- A chroma block of a frame of 16 by 16 units with values on both edges meets the hypotheses of `C107_contexts_partial`. -/
example : let t : Sel.TxPos := ⟨2, 2, 0, 4, 16, 16, true, true⟩
    let m : ModeInfo := ⟨6, 1, 0, true, false, false, true, 0, 0, 1, -1, 0, 0, [0, 5, 0], [0, 1, 0], [0, 0, 0], 0, 0, 0⟩
    let E : Ref.Edges := ⟨fun _ => 5, fun _ => 0, fun _ => 1, fun _ => 0⟩
    let nb : Nbrs := ⟨some m, none, none⟩
    (Elem.allZero t 0 1 1 1 9).EdgesOk Ref.Edges.Agree E nb ∧ Ref.idx3 7 E (.allZero t 0 1 1 1 9) = some [0, 1, 11] ∧
    ((Elem.allZero t 0 1 1 1 9).select nb).map (·.idx) = some [0, 1, 11] := by
  refine ⟨⟨⟨fun x hx => ⟨rfl, rfl⟩, fun y hy => ⟨rfl, rfl⟩⟩, by decide, by decide⟩, by decide +kernel, by decide +kernel⟩

end Av1
