import Verif.Spec.OwnTable
import Verif.Props.CoeffContexts
import Verif.Props.Elements

/-!
# C145 — every syntax element has its own table
-/

namespace Av1

/-- The table is the element's own, at the given position, and the symbol is the value's number. -/
def Sel.Own (s : Sel) (e : Elem) : Prop :=
  Ref.tableName e = some s.fam.name ∧ (∀ i, Ref.args e = some i → s.idx = i) ∧ ∀ n, Ref.number e = some n → s.sym = n

def C145_full : Prop := ∀ (e : Elem) (nb : Nbrs) (s : Sel), e.Legal nb → e.select nb = some s → s.Own e

/-- The exceptions: partitions of blocks below 128×128 take the tables of another size (C61), and transform types are written
as they are stored (C62). -/
def Elem.Misplaced : Elem → Bool
  | .partition bs _ _ _ => bs != K.BLOCK_128X128
  | .intraTxType .. | .interTxType .. => true
  | _ => false

theorem cfl_eq : ∀ bs < 22, ∀ l x y : Bool, ∀ c, Sel.cflTables bs l x y = some c → Ref.cflAllowed bs l x y = some c := by
  decide +kernel

/-- The call got past its lookups. -/
local macro "unfold_binds " f:ident h:ident : tactic => `(tactic| (
  simp only [Elem.select, $f:ident, Option.bind_eq_bind] at $h:ident
  repeat (rw [Option.bind_eq_some_iff] at $h:ident; obtain ⟨_, -, $h⟩ := $h:ident)
  cases $h:ident))

/-- The name, the position and the number are as written. -/
local macro "own" : tactic => `(tactic|
  exact ⟨rfl, fun i hi => (by first | (cases hi; rfl) | cases hi), fun n hn => by cases hn; rfl⟩)

theorem C145_own_partial (e : Elem) (nb : Nbrs) (s : Sel) (hl : e.Legal nb) (hm : e.Misplaced = false)
    (hs : e.select nb = some s) : s.Own e := by
  cases e with
  | uvMode v bs l x y =>
    simp only [Elem.select, Sel.uvMode, Option.bind_eq_bind] at hs
    obtain ⟨c, hc, hs⟩ := Option.bind_eq_some_iff.1 hs
    cases hs
    have := cfl_eq bs hl.1 l x y c hc
    refine ⟨?_, nofun, fun n hn => by cases hn; rfl⟩
    simp only [Ref.tableName, this, Option.map_some]
    cases c <;> rfl
  | partition bs a l p =>
    have hb : bs = K.BLOCK_128X128 := by simpa [Elem.Misplaced] using hm
    subst hb
    cases hs
    exact ⟨rfl, nofun, fun n hn => by cases hn; rfl⟩
  | intraTxType => cases hm
  | interTxType => cases hm
  | intraFrameYMode v a l =>
    unfold_binds Sel.intraFrameYMode hs
    own
  | yMode v bs =>
    unfold_binds Sel.yMode hs
    own
  | angleDelta m v =>
    unfold_binds Sel.angleDelta hs
    own
  | txDepth r d v =>
    unfold_binds Sel.txDepth hs
    refine ⟨?_, nofun, fun n hn => by cases hn; rfl⟩
    obtain ⟨-, hd, -⟩ := hl
    have : d = 0 ∨ d = 1 ∨ d = 2 ∨ d = 3 ∨ d = 4 := by omega
    rcases this with rfl | rfl | rfl | rfl | rfl <;> rfl
  | txfmSplit =>
    unfold_binds Sel.txfmSplit hs
    own
  | drlMode v idx st =>
    simp only [Elem.select, Sel.drlMode, Option.bind_eq_bind] at hs
    obtain ⟨c, hc, hs⟩ := Option.bind_eq_some_iff.1 hs
    cases hs
    refine ⟨rfl, fun i hi => ?_, fun n hn => by cases hn; rfl⟩
    simp only [Ref.args, hc, Option.map_some, Option.some.injEq] at hi
    exact hi
  | compoundMode =>
    unfold_binds Sel.compoundMode hs
    own
  | interpFilter =>
    unfold_binds Sel.interpFilter hs
    own
  | allZero =>
    unfold_binds Sel.allZero hs
    own
  | eobPt e k v p =>
    simp only [Elem.select, Sel.eobPt, Option.bind_eq_bind] at hs
    obtain ⟨t, -, hs⟩ := Option.bind_eq_some_iff.1 hs
    obtain ⟨f, hf, hs⟩ := Option.bind_eq_some_iff.1 hs
    cases hs
    refine ⟨?_, nofun, fun n hn => by cases hn; rfl⟩
    obtain ⟨-, hk, -⟩ := hl
    have : k = 0 ∨ k = 1 ∨ k = 2 ∨ k = 3 ∨ k = 4 ∨ k = 5 ∨ k = 6 := by omega
    rcases this with rfl | rfl | rfl | rfl | rfl | rfl | rfl <;> cases hf <;> rfl
  | coeffBase =>
    unfold_binds Sel.coeffBase hs
    own
  | coeffBaseEob =>
    unfold_binds Sel.coeffBaseEob hs
    own
  | dcSign =>
    unfold_binds Sel.dcSign hs
    exact ⟨rfl, nofun, nofun⟩
  | coeffBr =>
    unfold_binds Sel.coeffBr hs
    own
  | hasPaletteY =>
    unfold_binds Sel.hasPaletteY hs
    own
  | paletteColorY v hash n =>
    obtain ⟨h2, h8, -, hh⟩ := hl
    have hn : n = 2 ∨ n = 3 ∨ n = 4 ∨ n = 5 ∨ n = 6 ∨ n = 7 ∨ n = 8 := by omega
    simp only [List.mem_cons, List.not_mem_nil, or_false] at hh
    rcases hh with rfl | rfl | rfl | rfl | rfl <;> rcases hn with rfl | rfl | rfl | rfl | rfl | rfl | rfl <;> cases hs <;> own
  | paletteColorUv v hash n =>
    obtain ⟨h2, h8, -, hh⟩ := hl
    have hn : n = 2 ∨ n = 3 ∨ n = 4 ∨ n = 5 ∨ n = 6 ∨ n = 7 ∨ n = 8 := by omega
    simp only [List.mem_cons, List.not_mem_nil, or_false] at hh
    rcases hh with rfl | rfl | rfl | rfl | rfl <;> rcases hn with rfl | rfl | rfl | rfl | rfl | rfl | rfl <;> cases hs <;> own
  | deltaLfAbs v multi i =>
    simp only [Elem.select, Sel.deltaLfAbs, Option.some.injEq] at hs
    by_cases h0 : multi = 0
    · rw [if_pos h0] at hs
      subst hs
      exact ⟨by simp only [Ref.tableName, if_pos h0]; rfl, fun i hi => by simp only [Ref.args, if_pos h0] at hi; cases hi; rfl,
        fun n hn => by cases hn; rfl⟩
    · rw [if_neg h0] at hs
      subst hs
      exact ⟨by simp only [Ref.tableName, if_neg h0]; rfl, fun i hi => by simp only [Ref.args, if_neg h0] at hi; cases hi; rfl,
        fun n hn => by cases hn; rfl⟩
  | compoundIdx =>
    unfold_binds Sel.compoundIdx hs
    own
  | interintra =>
    unfold_binds Sel.interintra hs
    own
  | interintraMode =>
    unfold_binds Sel.interintraMode hs
    own
  | cflAlphaU v k =>
    simp only [Elem.select, Sel.cflAlphaU] at hs
    split at hs
    · cases hs; own
    · cases hs
  | cflAlphaV v k =>
    simp only [Elem.select, Sel.cflAlphaV] at hs
    split at hs
    · simp only [Option.bind_eq_bind] at hs
      obtain ⟨_, -, hs⟩ := Option.bind_eq_some_iff.1 hs
      cases hs; own
    · cases hs
  | _ => cases hs; own

/-- Transform types do take their own table at the right position; only the number is wrong. -/
theorem C145_tx_type_partial (e : Elem) (nb : Nbrs) (s : Sel) (hl : e.Legal nb)
    (he : (∃ a b c d f g, e = .intraTxType a b c d f g) ∨ ∃ a b c, e = .interTxType a b c) (hs : e.select nb = some s) :
    Ref.tableName e = some s.fam.name ∧ ∀ i, Ref.args e = some i → s.idx = i := by
  rcases he with ⟨t, set, tx, f, m, y, rfl⟩ | ⟨t, tx, set, rfl⟩
  · refine ⟨?_, nofun⟩
    cases f <;> simp only [Bool.false_eq_true, if_false, if_true, Elem.select, Sel.intraTxType, Option.bind_eq_bind] at hs <;>
      obtain ⟨_, -, hs⟩ := Option.bind_eq_some_iff.1 hs <;> obtain ⟨_, -, hs⟩ := Option.bind_eq_some_iff.1 hs <;> cases hs <;>
      obtain ⟨-, -, -, ⟨rfl, -⟩ | ⟨rfl, -⟩⟩ := hl <;> rfl
  · simp only [Elem.select, Sel.interTxType, Option.bind_eq_bind] at hs
    obtain ⟨q, hq, hs⟩ := Option.bind_eq_some_iff.1 hs
    cases hs
    obtain ⟨h19, hx, hset⟩ := hl
    refine ⟨by rcases hset with ⟨rfl, -⟩ | ⟨rfl, -⟩ | ⟨rfl, -⟩ <;> rfl, fun i hi => ?_⟩
    have key : ∀ x : Fin 19, ∀ d, txDims[(x : Nat)]? = some d → K.tx_size_sqr[(x : Nat)]? = some (Nat.log2 (min d.1 d.2) - 2) := by
      decide +kernel
    obtain ⟨d, hd, rfl⟩ := Option.map_eq_some_iff.1 hi
    rw [key ⟨tx, h19⟩ d hd] at hq
    cases hq
    rfl

/-- **C145**, the exact condition. -/
theorem C145_iff (e : Elem) (nb : Nbrs) (s : Sel) (hl : e.Legal nb) (hs : e.select nb = some s) :
    s.Own e ↔ e.Misplaced = false := by
  refine ⟨fun h => ?_, fun hm => C145_own_partial e nb s hl hm hs⟩
  cases e with
  | partition bs a l p =>
    obtain ⟨hname, -, -⟩ := h
    by_contra hc
    have hc : bs ≠ K.BLOCK_128X128 := by simpa [Elem.Misplaced] using hc
    have hbs : bs = 3 ∨ bs = 6 ∨ bs = 9 ∨ bs = 12 := by
      rcases hl with ⟨h, -⟩ | ⟨h | h | h, -⟩ | ⟨h, -⟩
      · exact .inl h
      · exact .inr (.inl h)
      · exact .inr (.inr (.inl h))
      · exact .inr (.inr (.inr h))
      · exact absurd h hc
    rcases hbs with rfl | rfl | rfl | rfl <;> cases hs <;> exact absurd (Option.some.inj hname) (by dsimp only; decide)
  | intraTxType t set tx f m y =>
    obtain ⟨-, -, hnum⟩ := h
    have hsym : s.sym = t := by
      cases f <;> simp only [Bool.false_eq_true, if_false, if_true, Elem.select, Sel.intraTxType, Option.bind_eq_bind] at hs <;>
        obtain ⟨_, -, hs⟩ := Option.bind_eq_some_iff.1 hs <;> obtain ⟨_, -, hs⟩ := Option.bind_eq_some_iff.1 hs <;> cases hs <;> rfl
    rw [hsym] at hnum
    obtain ⟨-, -, -, ⟨rfl, ht⟩ | ⟨rfl, ht⟩⟩ := hl
    · have := hnum _ rfl
      have key : ∀ t ∈ TxSet.intra1.types, (t : Int) ≠ ([9, 0, 10, 11, 3, 1, 2].idxOf t : Nat) := by decide
      exact absurd this (key t ht)
    · have := hnum _ rfl
      have key : ∀ t ∈ TxSet.intra2.types, (t : Int) ≠ ([9, 0, 3, 1, 2].idxOf t : Nat) := by decide
      exact absurd this (key t ht)
  | interTxType t tx set =>
    obtain ⟨-, -, hnum⟩ := h
    unfold_binds Sel.interTxType hs
    obtain ⟨-, -, ⟨rfl, ht⟩ | ⟨rfl, ht⟩ | ⟨rfl, ht⟩⟩ := hl
    · have := hnum _ rfl
      have key : ∀ t ∈ TxSet.inter1.types, (t : Int) ≠
          ([9, 10, 11, 12, 13, 14, 15, 0, 1, 2, 4, 5, 3, 6, 7, 8].idxOf t : Nat) := by decide
      exact absurd this (key t ht)
    · have := hnum _ rfl
      have key : ∀ t ∈ TxSet.inter2.types, (t : Int) ≠ ([9, 10, 11, 0, 1, 2, 4, 5, 3, 6, 7, 8].idxOf t : Nat) := by decide
      exact absurd this (key t ht)
    · have := hnum _ rfl
      have key : ∀ t ∈ TxSet.inter3.types, (t : Int) ≠ ([9, 0].idxOf t : Nat) := by decide
      exact absurd this (key t ht)
  | _ => rfl

/-- The program violates C145: the partition of an 8×8 block is coded with the tables for 32×32. -/
theorem C145_negation : ¬ C145_full := by
  intro h
  have := (C145_iff (.partition 3 false false 0) ⟨none, none, none⟩ _ (.inl ⟨rfl, by decide⟩) rfl).1
    (h (.partition 3 false false 0) ⟨none, none, none⟩ _ (.inl ⟨rfl, by decide⟩) rfl)
  revert this; decide

/-- `ref_mv` and `new_mv` have tables of the same shape; each takes its own. -/
example : ∃ s t, (Elem.refMv 1 5).select ⟨none, none, none⟩ = some s ∧ (Elem.newMv 1 5).select ⟨none, none, none⟩ = some t ∧
    s.fam.name = "ref_mv" ∧ t.fam.name = "new_mv" ∧ s.fam.dims = t.fam.dims ∧ s.Own (.refMv 1 5) :=
  ⟨_, _, rfl, rfl, rfl, rfl, rfl, C145_own_partial (.refMv 1 5) ⟨none, none, none⟩ _ ⟨by decide, by decide⟩ rfl rfl⟩

/-- `eob_extra`: the position is AV1's exactly for the quantizer indices of the first set of coefficient tables. -/
theorem C145_eob_extra (nb : Nbrs) (q v c p k : Nat) :
    ∃ s, (Elem.eobExtra v c p k).select nb = some s ∧ (s.idx = [Ref.qSet q, c, p, k] ↔ q ≤ 20) := by
  refine ⟨_, rfl, ?_⟩
  unfold Ref.qSet
  constructor
  · intro h
    by_contra hq
    rw [if_neg hq] at h
    injection h with h
    split at h
    · cases h
    · split at h <;> cases h
  · intro h
    rw [if_pos h]

/-! ## Tables do not get in each other's way -/

theorem tablePos_inj : ∀ (dims i j : List Nat) (x y : Int), InDims i dims x → InDims j dims y →
    tablePos i dims = tablePos j dims → i = j
  | [], i, j, x, y, hi, _, _ => by cases i <;> exact hi.elim
  | [n], i, j, x, y, hi, hj, _ => by
    cases i with
    | nil =>
      cases j with
      | nil => rfl
      | cons b bs => cases bs <;> exact hj.2.elim
    | cons a as => cases as <;> exact hi.2.elim
  | d :: e :: ds, i, j, x, y, hi, hj, h => by
    cases i with
    | nil => exact hi.elim
    | cons a as =>
      cases j with
      | nil => exact hj.elim
      | cons b bs =>
        obtain ⟨hp, -⟩ := inDims_pos _ _ _ hi.2
        obtain ⟨hr, -⟩ := inDims_pos _ _ _ hj.2
        have h : a * (e :: ds).dropLast.prod + tablePos as (e :: ds) = b * (e :: ds).dropLast.prod + tablePos bs (e :: ds) := h
        have h1 : a = b := by
          have := congrArg (· / (e :: ds).dropLast.prod) h
          simpa only [Nat.mul_add_div (Nat.lt_of_le_of_lt (Nat.zero_le _) hp), Nat.mul_comm a, Nat.mul_comm b,
            Nat.div_eq_of_lt hp, Nat.div_eq_of_lt hr, Nat.add_zero] using this
        subst h1
        rw [tablePos_inj (e :: ds) as bs x y hi.2 hj.2 (Nat.add_left_cancel h)]

theorem start_le : ∀ (l : List Family), (l.map (·.name)).Nodup → ∀ f ∈ l, ∀ g ∈ l, f.name ≠ g.name → ∀ a < f.cdfs.length,
    ∀ b < g.cdfs.length, ((l.takeWhile fun x => x.name ≠ f.name).map fun x => x.cdfs.length).sum + a ≠
      ((l.takeWhile fun x => x.name ≠ g.name).map fun x => x.cdfs.length).sum + b
  | [], _, f, hf, _, _, _, _, _, _, _ => by cases hf
  | x :: l, hn, f, hf, g, hg, hne, a, ha, b, hb => by
    rw [List.map_cons, List.nodup_cons] at hn
    have head : ∀ y ∈ x :: l, x.name = y.name → y = x := by
      intro y hy hxy
      rcases List.mem_cons.1 hy with h | h
      · exact h
      · exact absurd (List.mem_map_of_mem (f := (·.name)) h) (by rw [← hxy]; exact hn.1)
    have tail : ∀ y ∈ x :: l, x.name ≠ y.name → y ∈ l := by
      intro y hy hxy
      rcases List.mem_cons.1 hy with h | h
      · exact absurd (by rw [h]) hxy
      · exact h
    by_cases hxf : x.name = f.name
    · have := head f hf hxf
      subst this
      rw [List.takeWhile_cons_of_neg (by simp), List.takeWhile_cons_of_pos (by simpa using hne)]
      simp only [List.map_nil, List.sum_nil, Nat.zero_add, List.map_cons, List.sum_cons]
      omega
    · by_cases hxg : x.name = g.name
      · have := head g hg hxg
        subst this
        rw [List.takeWhile_cons_of_pos (by simpa using hxf), List.takeWhile_cons_of_neg (by simp)]
        simp only [List.map_nil, List.sum_nil, Nat.zero_add, List.map_cons, List.sum_cons]
        omega
      · rw [List.takeWhile_cons_of_pos (by simpa using hxf), List.takeWhile_cons_of_pos (by simpa using hxg)]
        simp only [List.map_cons, List.sum_cons, Nat.add_assoc]
        intro h
        exact start_le l hn.2 f (tail f hf hxf) g (tail g hg hxg) hne a ha b hb (Nat.add_left_cancel h)

/-- **C145**: two calls use the same table of the bank only if they name the same array at the same position; so coding one
element never changes the probabilities of an element with another table. -/
theorem C145_apart (s t : Sel) (hs : s.InTable) (ht : t.InTable)
    (h : famStart s.fam + tablePos s.idx s.fam.dims = famStart t.fam + tablePos t.idx t.fam.dims) :
    s.fam = t.fam ∧ s.idx = t.idx := by
  obtain ⟨hf, hd⟩ := hs
  obtain ⟨hg, he⟩ := ht
  have hk : tablePos s.idx s.fam.dims < s.fam.cdfs.length := by
    rw [(C10_default_tables s.fam hf).1]; exact (inDims_pos _ _ _ hd).1
  have hm : tablePos t.idx t.fam.dims < t.fam.cdfs.length := by
    rw [(C10_default_tables t.fam hg).1]; exact (inDims_pos _ _ _ he).1
  by_cases hne : s.fam.name = t.fam.name
  · have hfg : s.fam = t.fam := List.inj_on_of_nodup_map names_nodup hf hg hne
    refine ⟨hfg, ?_⟩
    rw [hfg] at h hd
    exact tablePos_inj _ _ _ _ _ hd he (Nat.add_left_cancel h)
  · exact absurd h (start_le _ names_nodup _ hf _ hg hne _ hk _ hm)

theorem encodeOps_other : ∀ (ops : List Op) (k : Nat) (c c' : BoolCoder) (bank bank' : Bank) (bits : Bits),
    (∀ op ∈ ops, ∀ v, op ≠ .sym k v) → encodeOps c bank ops = some (c', bits, bank') → bank'[k]? = bank[k]?
  | [], _, _, _, _, _, _, _, h => by cases h; rfl
  | op :: ops, k, c, c', bank, bank', bits, hk, h => by
    simp only [encodeOps, Option.bind_eq_bind] at h
    obtain ⟨⟨c1, e1, b1⟩, h1, h⟩ := Option.bind_eq_some_iff.1 h
    obtain ⟨⟨c2, e2, b2⟩, h2, h⟩ := Option.bind_eq_some_iff.1 h
    cases h
    dsimp only at h2 ⊢
    rw [encodeOps_other ops k c1 c2 b1 b2 e2 (fun o ho => hk o (List.mem_cons_of_mem _ ho)) h2]
    have hop := hk op List.mem_cons_self
    cases op with
    | sym i v =>
      simp only [encodeOp, Option.bind_eq_bind] at h1
      obtain ⟨cdf, -, h1⟩ := Option.bind_eq_some_iff.1 h1
      obtain ⟨⟨c3, e3, cdf'⟩, -, h1⟩ := Option.bind_eq_some_iff.1 h1
      cases h1
      exact List.getElem?_set_ne (by rintro rfl; exact hop v rfl)
    | prob p b =>
      simp only [encodeOp, Option.bind_eq_bind] at h1
      obtain ⟨⟨c3, e3⟩, -, h1⟩ := Option.bind_eq_some_iff.1 h1
      cases h1; rfl
    | probs p bs =>
      simp only [encodeOp, Option.bind_eq_bind] at h1
      obtain ⟨⟨c3, e3⟩, -, h1⟩ := Option.bind_eq_some_iff.1 h1
      cases h1; rfl
    | lit n v =>
      simp only [encodeOp, Option.bind_eq_bind] at h1
      obtain ⟨⟨c3, e3⟩, -, h1⟩ := Option.bind_eq_some_iff.1 h1
      cases h1; rfl

/-- **C145**: however many elements are coded, a table none of them names is as before. -/
theorem C145_others (sels : List Sel) (t : Sel) (hin : ∀ s ∈ sels, s.InTable) (ht : t.InTable)
    (hne : ∀ s ∈ sels, s.fam.name ≠ t.fam.name ∨ s.idx ≠ t.idx) (c c' : BoolCoder) (bank bank' : Bank) (bits : Bits)
    (h : encodeSession c bank (sels.map Sel.op) = some (c', bits, bank')) :
    bank'[famStart t.fam + tablePos t.idx t.fam.dims]? = bank[famStart t.fam + tablePos t.idx t.fam.dims]? := by
  simp only [encodeSession, Option.bind_eq_bind] at h
  obtain ⟨⟨c1, e1, b1⟩, h1, h⟩ := Option.bind_eq_some_iff.1 h
  cases h
  refine encodeOps_other _ _ _ _ _ _ _ (fun op hop v he => ?_) h1
  obtain ⟨s, hs, rfl⟩ := List.mem_map.1 hop
  injection he with hk _
  obtain ⟨hf, hi⟩ := C145_apart s t (hin s hs) ht hk
  rcases hne s hs with h | h
  · exact h (by rw [hf])
  · exact h hi

/-- Coding `use_wiener` leaves the table of `use_sgrproj` alone. -/
example (bank bank' : Bank) (c c' : BoolCoder) (bits : Bits)
    (h : encodeSession c bank [Sel.op ⟨Default.use_wiener, [], 1⟩, Sel.op ⟨Default.use_wiener, [], 0⟩] = some (c', bits, bank')) :
    bank'[famStart Default.use_sgrproj + 0]? = bank[famStart Default.use_sgrproj + 0]? :=
  C145_others [⟨Default.use_wiener, [], (1 : Nat)⟩, ⟨Default.use_wiener, [], (0 : Nat)⟩] ⟨Default.use_sgrproj, [], (0 : Nat)⟩
    (by
      intro s hs
      simp only [List.mem_cons, List.not_mem_nil, or_false] at hs
      rcases hs with rfl | rfl
      · exact inT0 (f := Default.use_wiener) rfl (by decide)
      · exact inT0 (f := Default.use_wiener) rfl (by decide))
    (inT0 (f := Default.use_sgrproj) rfl (by decide))
    (by
      intro s hs
      simp only [List.mem_cons, List.not_mem_nil, or_false] at hs
      rcases hs with rfl | rfl <;> exact .inl (by decide)) c c' bank bank' bits h

end Av1
