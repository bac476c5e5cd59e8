import Verif.Spec.Elements
import Verif.Lemmas.SeqHeader
import Verif.Props.Geometry

/-! Ranges of the contexts. -/

namespace Av1

theorem symOk {n v : Nat} (hv : v + 1 < n) : (0 : Int) ≤ (v : Int) ∧ (v : Int) + 1 < n := ⟨by omega, by omega⟩

/-- Membership of a family in the list of all families. -/
macro "fam_mem" : tactic => `(tactic| simp only [Default.families, Default.part1, Default.part2, Default.part3,
  Default.part4, List.mem_append, List.mem_cons, true_or, or_true])

theorem inT0 {f : Family} {n v : Nat} (hd : f.dims = [n]) (hv : v + 1 < n)
    (hm : f ∈ Default.families := by fam_mem) : Sel.InTable ⟨f, [], v⟩ := by
  unfold Sel.InTable; refine ⟨hm, ?_⟩; rw [hd]; exact symOk hv

theorem inT1 {f : Family} {a n i v : Nat} (hd : f.dims = [a, n]) (hi : i < a) (hv : v + 1 < n)
    (hm : f ∈ Default.families := by fam_mem) :
    Sel.InTable ⟨f, [i], v⟩ := by
  unfold Sel.InTable; refine ⟨hm, ?_⟩; rw [hd]; exact ⟨hi, symOk hv⟩

theorem inT2 {f : Family} {a b n i j v : Nat} (hd : f.dims = [a, b, n]) (hi : i < a) (hj : j < b) (hv : v + 1 < n)
    (hm : f ∈ Default.families := by fam_mem) :
    Sel.InTable ⟨f, [i, j], v⟩ := by
  unfold Sel.InTable; refine ⟨hm, ?_⟩; rw [hd]; exact ⟨hi, hj, symOk hv⟩

theorem inT3 {f : Family} {a b c n i j k v : Nat} (hd : f.dims = [a, b, c, n]) (hi : i < a) (hj : j < b) (hk : k < c)
    (hv : v + 1 < n)
    (hm : f ∈ Default.families := by fam_mem) : Sel.InTable ⟨f, [i, j, k], v⟩ := by
  unfold Sel.InTable; refine ⟨hm, ?_⟩; rw [hd]; exact ⟨hi, hj, hk, symOk hv⟩

theorem inT4 {f : Family} {a b c d n i j k l v : Nat} (hd : f.dims = [a, b, c, d, n]) (hi : i < a) (hj : j < b)
    (hk : k < c) (hl : l < d) (hv : v + 1 < n)
    (hm : f ∈ Default.families := by fam_mem) : Sel.InTable ⟨f, [i, j, k, l], v⟩ := by
  unfold Sel.InTable; refine ⟨hm, ?_⟩; rw [hd]; exact ⟨hi, hj, hk, hl, symOk hv⟩

/-- A table lookup with a checked bound on the entries. -/
theorem lookup {l : List Nat} {n b i : Nat} (h : (l.length = n ∧ ∀ x ∈ l, x < b)) (hi : i < n) :
    ∃ x, l[i]? = some x ∧ x < b := by
  have hl : i < l.length := by omega
  exact ⟨l[i], List.getElem?_eq_getElem hl, h.2 _ (List.getElem_mem hl)⟩

theorem boolToNat_le (b : Bool) : b.toNat ≤ 1 := by cases b <;> decide

theorem refCtx_lt (nb : Nbrs) (g0 g1 : List Int) : Sel.refCtx nb g0 g1 < 3 := by
  unfold Sel.refCtx refCountCtx; split
  · omega
  · split <;> omega

theorem orElse_le {nb : Option ModeInfo} {f : ModeInfo → Nat} {b : Nat} (h : ∀ mi, nb = some mi → f mi ≤ b) :
    orElse nb 0 f ≤ b := by
  cases nb with
  | none => exact Nat.zero_le _
  | some mi => exact h mi rfl

theorem blockWidth_some {bs : Nat} (h : bs < 22) : ∃ x, K.block_width[bs]? = some x ∧ 4 ≤ x := by
  have : ∀ bs < 22, (K.block_width[bs]?).any (4 ≤ ·) = true := by decide +kernel
  have := this bs h
  cases hb : K.block_width[bs]? with
  | none => simp [hb] at this
  | some x => exact ⟨x, rfl, by simpa [hb] using this⟩

theorem blockHeight_some {bs : Nat} (h : bs < 22) : ∃ x, K.block_height[bs]? = some x ∧ 4 ≤ x := by
  have : ∀ bs < 22, (K.block_height[bs]?).any (4 ≤ ·) = true := by decide +kernel
  have := this bs h
  cases hb : K.block_height[bs]? with
  | none => simp [hb] at this
  | some x => exact ⟨x, rfl, by simpa [hb] using this⟩

theorem txWidth_some {t : Nat} (h : t < 19) : ∃ x, K.tx_width[t]? = some x ∧ 4 ≤ x := by
  have : ∀ t < 19, (K.tx_width[t]?).any (4 ≤ ·) = true := by decide +kernel
  have := this t h
  cases hb : K.tx_width[t]? with
  | none => simp [hb] at this
  | some x => exact ⟨x, rfl, by simpa [hb] using this⟩

theorem txHeight_some {t : Nat} (h : t < 19) : ∃ x, K.tx_height[t]? = some x ∧ 4 ≤ x := by
  have : ∀ t < 19, (K.tx_height[t]?).any (4 ≤ ·) = true := by decide +kernel
  have := this t h
  cases hb : K.tx_height[t]? with
  | none => simp [hb] at this
  | some x => exact ⟨x, rfl, by simpa [hb] using this⟩

theorem sizeGroup_some {bs : Nat} (h : bs < 22) : ∃ x, K.size_group[bs]? = some x ∧ x < 4 :=
  lookup (n := 22) (by decide) h

theorem residual_some {bs : Nat} (h : bs < 22) (plane : Nat) (ssx ssy : Bool) :
    ∃ r, getPlaneResidualSize bs plane ssx ssy = some r := by
  have key : ∀ bs < 22, ∀ x y : Bool, ((K.subsampled_size[bs]?).bind fun a => (a[x.toNat]?).bind fun b => b[y.toNat]?).isSome = true := by
    decide +kernel
  have hx : ∀ b : Bool, (if plane > 0 then b.toNat else 0) = (if plane > 0 then b else false).toNat := by
    intro b; split <;> rfl
  have := key bs h (if plane > 0 then ssx else false) (if plane > 0 then ssy else false)
  unfold getPlaneResidualSize
  rw [hx, hx]
  exact Option.isSome_iff_exists.mp this

theorem cflTables_some {bs : Nat} (h : bs < 22) (lossless ssx ssy : Bool) :
    ∃ b, Sel.cflTables bs lossless ssx ssy = some b := by
  unfold Sel.cflTables
  cases lossless
  · obtain ⟨w, hw, -⟩ := blockWidth_some h
    obtain ⟨k, hk, -⟩ := blockHeight_some h
    simp [hw, hk]
  · obtain ⟨r, hr⟩ := residual_some h 1 ssx ssy
    simp [hr]

/-- `compute_tx_type` on legal arguments returns a transform type. -/
theorem txType_some {e : Sel.TxEnv} (h : e.Ok) : ∃ t, e.txType = some t ∧ t < 16 := by
  have hup : ∀ t < 19, (K.tx_size_sqr_up[t]?).isSome = true := by decide
  have hset : ∀ t < 19, ∀ a b : Bool, (getTxSet t a b).any (· < 3) = true := by decide +kernel
  have hin : ∀ s < 3, ∀ t < 16, ∀ b : Bool, (txTypeOrDct s t b).any (· < 16) = true := by decide +kernel
  have hmode : ∀ u < 14, (K.mode_to_txfm[u]?).any (· < 16) = true := by decide
  have any_ex : ∀ {o : Option Nat} {b : Nat}, o.any (· < b) = true → ∃ x, o = some x ∧ x < b := by
    intro o b ho
    cases o with
    | none => simp at ho
    | some x => exact ⟨x, rfl, by simpa using ho⟩
  unfold Sel.TxEnv.txType computeTxType
  obtain ⟨up, hu⟩ := Option.isSome_iff_exists.mp (hup e.txSize h.tx)
  rw [hu]
  simp only [Option.bind_eq_bind, Option.bind_some]
  split
  · exact ⟨_, rfl, by decide⟩
  · obtain ⟨s, hs, hs3⟩ := any_ex (hset e.txSize h.tx e.isInter e.reduced)
    rw [hs]; simp only [Option.bind_some]
    split
    · obtain ⟨t, ht, ht16⟩ := h.stored e.miRow e.miCol
      rw [ht]; simp only [Option.bind_some]
      exact any_ex (hin s hs3 t ht16 _)
    · split
      · obtain ⟨t, ht, ht16⟩ := h.stored (max e.miRow (e.blockY <<< e.ssy.toNat)) (max e.miCol (e.blockX <<< e.ssx.toNat))
        rw [ht]; simp only [Option.bind_some]
        exact any_ex (hin s hs3 t ht16 _)
      · obtain ⟨t, ht, ht16⟩ := any_ex (hmode e.uvMode h.uv)
        rw [ht]; simp only [Option.bind_some]
        exact any_ex (hin s hs3 t ht16 _)

theorem getTxClass_lt (t : Nat) : getTxClass t < 3 := by
  unfold getTxClass; split
  · decide
  · split <;> decide

/-- The constants of the coefficient contexts for a transform size. -/
theorem coded_consts {t : Nat} (h : t < 19) : ∃ adj bwl w hh, K.adjusted_tx_size[t]? = some adj ∧
    K.tx_width_log2[adj]? = some bwl ∧ K.tx_width[adj]? = some w ∧ K.tx_height[adj]? = some hh ∧ w = 2 ^ bwl ∧
    codedDims[t]? = some (w, hh) := by
  have key : ∀ t < 19, ((K.adjusted_tx_size[t]?).any fun adj => (K.tx_width_log2[adj]?).any fun bwl =>
      (K.tx_width[adj]?).any fun w => (K.tx_height[adj]?).any fun hh => w == 2 ^ bwl && codedDims[t]? == some (w, hh)) = true := by
    decide +kernel
  have k := key t h
  cases h1 : K.adjusted_tx_size[t]? with
  | none => simp [h1] at k
  | some adj =>
    simp only [h1, Option.any_some] at k
    cases h2 : K.tx_width_log2[adj]? with
    | none => simp [h2] at k
    | some bwl =>
      simp only [h2, Option.any_some] at k
      cases h3 : K.tx_width[adj]? with
      | none => simp [h3] at k
      | some w =>
        simp only [h3, Option.any_some] at k
        cases h4 : K.tx_height[adj]? with
        | none => simp [h4] at k
        | some hh =>
          simp only [h4, Option.any_some, Bool.and_eq_true, beq_iff_eq] at k
          exact ⟨adj, bwl, w, hh, rfl, h2, h3, h4, k.1, k.2⟩

theorem cell_lt {r c w h : Nat} (hr : r < h) (hc : c < w) : r * w + c < w * h := by
  calc r * w + c < r * w + w := by omega
    _ = (r + 1) * w := by rw [Nat.succ_mul]
    _ ≤ h * w := Nat.mul_le_mul_right _ hr
    _ = w * h := Nat.mul_comm _ _

theorem sigMag_some (quant : List Int) (bwl h row col : Nat) (hq : 2 ^ bwl * h ≤ quant.length) :
    ∀ offs : List (List Nat), (∀ o ∈ offs, o.length = 2) → ∃ m, Sel.sigMag quant bwl (1 <<< bwl) h row col offs = some m
  | [], _ => ⟨0, rfl⟩
  | o :: os, ho => by
    obtain ⟨rest, hr⟩ := sigMag_some quant bwl h row col hq os fun x hx => ho x (List.mem_cons_of_mem _ hx)
    have h2 := ho o List.mem_cons_self
    match o, h2 with
    | [dr, dc], _ =>
      simp only [Sel.sigMag, List.getElem?_cons_zero, List.getElem?_cons_succ, Option.bind_eq_bind, Option.bind_some, hr]
      split
      · rename_i hc
        have hlt : ((row + dr) <<< bwl) + (col + dc) < quant.length := by
          rw [Nat.shiftLeft_eq]
          rw [Nat.one_shiftLeft] at hc
          have := cell_lt hc.1 hc.2
          omega
        rw [List.getElem?_eq_getElem hlt]
        exact ⟨_, rfl⟩
      · exact ⟨_, rfl⟩

theorem coeffBaseCtx_some {e : Sel.TxEnv} (h : e.Ok) (pos c : Nat) (quant : List Int)
    (hq : ∀ w hh, codedDims[e.txSize]? = some (w, hh) → w * hh ≤ quant.length) :
    ∃ k, Sel.coeffBaseCtx e pos c false quant = some k ∧ k < 42 := by
  obtain ⟨adj, bwl, w, hh, h1, h2, -, h4, hw, hcd⟩ := coded_consts h.tx
  obtain ⟨t, ht, -⟩ := txType_some h
  have hlen := hq w hh hcd
  have hoffs : ∀ c < 3, (K.sig_ref_diff_offset[c]?).any (fun l => l.all (·.length == 2)) = true := by decide +kernel
  unfold Sel.coeffBaseCtx
  simp only [h1, h2, h4, ht, Option.bind_eq_bind, Option.bind_some, Bool.false_eq_true, if_false]
  have hcls := getTxClass_lt t
  generalize getTxClass t = cls at hcls
  have ho := hoffs cls hcls
  cases hof : K.sig_ref_diff_offset[cls]? with
  | none => simp [hof] at ho
  | some offs =>
    simp only [hof, Option.any_some, List.all_eq_true, beq_iff_eq] at ho
    subst hw
    obtain ⟨m, hm⟩ := sigMag_some quant bwl hh (pos >>> bwl) (pos - (pos >>> bwl) <<< bwl) hlen offs ho
    simp only [Option.bind_some, hm]
    have hctx : min ((m + 1) >>> 1) 4 ≤ 4 := Nat.min_le_right _ _
    generalize min ((m + 1) >>> 1) 4 = ctx at hctx
    split
    · split
      · exact ⟨0, rfl, by decide⟩
      · have hoff : ∀ t < 19, ∀ r < 5, ∀ c < 5, ((K.coeff_base_ctx_offset[t]?).bind fun a => (a[r]?).bind fun b => b[c]?).any (· < 38) = true := by
          decide +kernel
        have := hoff e.txSize h.tx (min (pos >>> bwl) 4) (by omega) (min (pos - (pos >>> bwl) <<< bwl) 4) (by omega)
        cases ha : K.coeff_base_ctx_offset[e.txSize]? with
        | none => simp [ha] at this
        | some a =>
          simp only [ha, Option.bind_some] at this ⊢
          cases hb : a[min (pos >>> bwl) 4]? with
          | none => simp [hb] at this
          | some b =>
            simp only [hb, Option.bind_some] at this ⊢
            cases hc : b[min (pos - (pos >>> bwl) <<< bwl) 4]? with
            | none => simp [hc] at this
            | some o =>
              simp only [hc, Option.any_some, decide_eq_true_eq] at this
              exact ⟨_, rfl, by omega⟩
    · obtain ⟨o, ho, ho37⟩ := lookup (l := K.coeff_base_pos_ctx_offset) (n := 3) (b := 37)
        (i := min (if cls = K.TX_CLASS_VERT then pos >>> bwl else pos - (pos >>> bwl) <<< bwl) 2) (by decide) (by omega)
      rw [ho]
      exact ⟨_, rfl, by omega⟩

theorem brMag_some (quant : List Int) (bwl h row col : Nat) (hq : 2 ^ bwl * h ≤ quant.length) :
    ∀ offs : List (List Nat), (∀ o ∈ offs, o.length = 2) → ∃ m, Sel.brMag quant bwl (2 ^ bwl) h row col offs = some m
  | [], _ => ⟨0, rfl⟩
  | o :: os, ho => by
    obtain ⟨rest, hr⟩ := brMag_some quant bwl h row col hq os fun x hx => ho x (List.mem_cons_of_mem _ hx)
    have h2 := ho o List.mem_cons_self
    match o, h2 with
    | [dr, dc], _ =>
      simp only [Sel.brMag, List.getElem?_cons_zero, List.getElem?_cons_succ, Option.bind_eq_bind, Option.bind_some, hr]
      split
      · rename_i hc
        have hlt : (row + dr) * 2 ^ bwl + (col + dc) < quant.length := by
          rw [Nat.one_shiftLeft] at hc
          have := cell_lt hc.1 hc.2
          omega
        rw [List.getElem?_eq_getElem hlt]
        exact ⟨_, rfl⟩
      · exact ⟨_, rfl⟩

theorem coeffBr_some {e : Sel.TxEnv} (h : e.Ok) (v txSizeCtx ptype pos : Nat) (quant : List Int)
    (hq : ∀ w hh, codedDims[e.txSize]? = some (w, hh) → w * hh ≤ quant.length) :
    ∃ k, Sel.coeffBr e v txSizeCtx ptype pos quant =
      some ⟨Default.coeff_br, [0, min txSizeCtx K.TX_32X32, ptype, k], v⟩ ∧ k < 21 := by
  obtain ⟨adj, bwl, w, hh, h1, h2, h3, h4, hw, hcd⟩ := coded_consts h.tx
  obtain ⟨t, ht, -⟩ := txType_some h
  have hlen := hq w hh hcd
  have hoffs : ∀ c < 3, (K.mag_ref_offset_with_tx_class[c]?).any (fun l => l.all (·.length == 2)) = true := by decide +kernel
  unfold Sel.coeffBr
  simp only [h1, h2, h3, h4, ht, Option.bind_eq_bind, Option.bind_some]
  have hcls := getTxClass_lt t
  generalize getTxClass t = cls at hcls
  have ho := hoffs cls hcls
  cases hof : K.mag_ref_offset_with_tx_class[cls]? with
  | none => simp [hof] at ho
  | some offs =>
    simp only [hof, Option.any_some, List.all_eq_true, beq_iff_eq] at ho
    subst hw
    obtain ⟨m, hm⟩ := brMag_some quant bwl hh (pos >>> bwl) (pos - (pos >>> bwl) <<< bwl) hlen offs ho
    simp only [Option.bind_some, hm]
    refine ⟨_, rfl, ?_⟩
    have hctx : min ((m + 1) >>> 1) 6 ≤ 6 := Nat.min_le_right _ _
    generalize min ((m + 1) >>> 1) 6 = ctx at hctx
    split
    · omega
    · split
      · split <;> omega
      · split
        · split <;> omega
        · split <;> omega

theorem list3 {l : List Nat} (h : l.length = 3) {p : Nat} (hp : p < 3) : ∃ x, l[p]? = some x :=
  ⟨l[p]'(by omega), List.getElem?_eq_getElem (by omega)⟩

theorem orElse_list {nb : Option ModeInfo} {f : ModeInfo → List Nat} {p : Nat} (hp : p < 3)
    (h : ∀ mi, nb = some mi → (f mi).length = 3) : ∃ x, (orElse nb (some 0) fun mi => (f mi)[p]?) = some x := by
  cases nb with
  | none => exact ⟨0, rfl⟩
  | some mi => exact list3 (h mi rfl) hp

end Av1
