import Verif.Lemmas.Elements
import Verif.Props.DefaultTables

/-!
# C43 — every syntax element is coded with an existing table that has its symbol
-/

namespace Av1

/-- The property: for AV1-legal values and arguments and any valid neighbours, the call reaches `encode_symbol` with an
existing table and a symbol of that table. -/
def C43_full : Prop := ∀ (e : Elem) (nb : Nbrs), nb.Valid → e.Legal nb → ∃ s, e.select nb = some s ∧ s.InTable

/-- The legal calls that are in range.  Everything not listed is. -/
def Elem.Sound (nb : Nbrs) : Elem → Prop
  | .uvMode uv _ _ _ _ => uv < 13
  | .partition bs _ _ p => p < 8 ∨ bs = K.BLOCK_16X16
  | .txfmSplit .. => False
  | .coeffBaseEob .. => False
  | .dcSign .. => nb.above = none ∧ nb.left = none
  | .intraTxType t _ _ _ _ _ => t < 4
  | .interTxType t _ txSet => txSet = K.TX_SET_INTER_3 → t = 0
  | .compoundIdx _ _ _ r0 r1 _ _ => r0 ≠ 7 ∧ r1 ≠ 7
  | .cflAlphaU _ signs => signs ≠ 7
  | .cflAlphaV _ signs => signs ≠ 0
  | _ => True

theorem C43_tables_partial (e : Elem) (nb : Nbrs) (hnb : nb.Valid) (hl : e.Legal nb) (hs : e.Sound nb) :
    ∃ s, e.select nb = some s ∧ s.InTable := by
  obtain ⟨hA, hL, hC⟩ := hnb
  cases e with
  | intraFrameYMode y a l =>
    obtain ⟨hy, ha, hl⟩ := hl
    obtain ⟨x, hx, hx5⟩ := lookup (l := K.intra_mode_context) (n := 13) (b := 5) (by decide) ha
    obtain ⟨z, hz, hz5⟩ := lookup (l := K.intra_mode_context) (n := 13) (b := 5) (by decide) hl
    exact ⟨_, by simp only [Elem.select, Sel.intraFrameYMode, hx, hz]; rfl, inT2 rfl hx5 hz5 (by omega)⟩
  | yMode y bs =>
    obtain ⟨x, hx, hx4⟩ := sizeGroup_some hl.2
    exact ⟨_, by simp only [Elem.select, Sel.yMode, hx]; rfl, inT1 rfl hx4 (by have := hl.1; omega)⟩
  | uvMode uv bs ll ssx ssy =>
    obtain ⟨b, hb⟩ := cflTables_some hl.1 ll ssx ssy
    refine ⟨_, by simp only [Elem.select, Sel.uvMode, hb]; rfl, ?_⟩
    have hs : uv < 13 := hs
    cases b
    · exact inT1 (f := Default.uv_mode_cfl_not_allowed) rfl hs (by omega)
    · exact inT1 (f := Default.uv_mode_cfl_allowed) rfl hs (by omega)
  | angleDelta mode delta =>
    obtain ⟨h1, h8, h6⟩ := hl
    refine ⟨_, by simp only [Elem.select, Sel.angleDelta, usub]; rw [if_pos (show K.V_PRED ≤ mode from h1)]; rfl, ?_⟩
    exact inT1 rfl (by show mode - 1 < 8; omega) (by omega)
  | partition bs a l p =>
    have hctx : l.toNat * 2 + a.toNat < 4 := by cases a <;> cases l <;> decide
    have h10 : p < 10 := by rcases hl with h | h | h <;> omega
    rcases hs with h8 | rfl
    · have hbs : bs = K.BLOCK_8X8 ∨ bs = K.BLOCK_16X16 ∨ bs = K.BLOCK_32X32 ∨ bs = K.BLOCK_64X64 ∨ bs = K.BLOCK_128X128 := by
        rcases hl with h | ⟨h | h | h, -⟩ | h <;> tauto
      rcases hbs with rfl | rfl | rfl | rfl | rfl
      · exact ⟨⟨Default.partition_w32, _, p⟩, rfl, inT1 rfl hctx (by omega)⟩
      · exact ⟨⟨Default.partition_w64, _, p⟩, rfl, inT1 rfl hctx (by omega)⟩
      · exact ⟨⟨Default.partition_w128, _, p⟩, rfl, inT1 rfl hctx (by omega)⟩
      · exact ⟨⟨Default.partition_w128, _, p⟩, rfl, inT1 rfl hctx (by omega)⟩
      · exact ⟨⟨Default.partition_w128, _, p⟩, rfl, inT1 rfl hctx (by omega)⟩
    · exact ⟨⟨Default.partition_w64, _, p⟩, rfl, inT1 rfl hctx (by omega)⟩
  | txDepth maxRect maxDepth depth =>
    obtain ⟨hr, hd, hd2, hd1⟩ := hl
    obtain ⟨mw, hmw, -⟩ := txWidth_some hr
    obtain ⟨mh, hmh, -⟩ := txHeight_some hr
    have hx : ∃ x, (orElse nb.above (some 0) fun mi => if mi.isInter then K.block_width[mi.miSize]? else K.tx_width[mi.txSize]?) = some x := by
      cases hab : nb.above with
      | none => exact ⟨0, rfl⟩
      | some mi =>
        have hv := hA mi hab
        obtain ⟨x, hx, -⟩ := blockWidth_some hv.size
        obtain ⟨y, hy, -⟩ := txWidth_some hv.tx
        show ∃ z, (if mi.isInter then K.block_width[mi.miSize]? else K.tx_width[mi.txSize]?) = some z
        rw [hx, hy]; split <;> exact ⟨_, rfl⟩
    have hy : ∃ x, (orElse nb.left (some 0) fun mi => if mi.isInter then K.block_width[mi.miSize]? else K.tx_height[mi.txSize]?) = some x := by
      cases hab : nb.left with
      | none => exact ⟨0, rfl⟩
      | some mi =>
        have hv := hL mi hab
        obtain ⟨x, hx, -⟩ := blockWidth_some hv.size
        obtain ⟨y, hy, -⟩ := txHeight_some hv.tx
        show ∃ z, (if mi.isInter then K.block_width[mi.miSize]? else K.tx_height[mi.txSize]?) = some z
        rw [hx, hy]; split <;> exact ⟨_, rfl⟩
    obtain ⟨aw, haw⟩ := hx
    obtain ⟨lh, hlh⟩ := hy
    refine ⟨_, by simp only [Elem.select, Sel.txDepth, hmw, hmh, haw, hlh]; rfl, ?_⟩
    have hctx : (decide (aw ≥ mw)).toNat + (decide (lh ≥ mh)).toNat < 3 := by
      have := boolToNat_le (decide (aw ≥ mw)); have := boolToNat_le (decide (lh ≥ mh)); omega
    by_cases h4 : maxDepth = 4
    · rw [if_pos h4]; exact inT1 rfl hctx (by omega)
    rw [if_neg h4]
    by_cases h3 : maxDepth = 3
    · rw [if_pos h3]; exact inT1 rfl hctx (by omega)
    rw [if_neg h3]
    by_cases h2 : maxDepth = 2
    · rw [if_pos h2]; exact inT1 rfl hctx (by omega)
    rw [if_neg h2]; exact inT1 rfl hctx (by omega)
  | txfmSplit => exact hs.elim
  | segmentId id pu pl pul =>
    have hl : id < 8 := hl
    refine ⟨_, rfl, inT1 rfl ?_ (by omega)⟩
    show (if _ then 0 else if _ then 2 else if _ then 1 else 0) < 3
    split
    · decide
    · split
      · decide
      · split <;> decide
  | segIdPredicted v =>
    have hl : v ≤ 1 := hl
    have h1 : orElse nb.left 0 (·.segIdPredicted) ≤ 1 := orElse_le fun mi h => (hL mi h).pred
    have h2 : orElse nb.above 0 (·.segIdPredicted) ≤ 1 := orElse_le fun mi h => (hA mi h).pred
    exact ⟨_, rfl, inT1 rfl (by omega) (by omega)⟩
  | newMv v ctx => exact ⟨_, rfl, inT1 rfl hl.2 (by have := hl.1; omega)⟩
  | zeroMv v ctx => exact ⟨_, rfl, inT1 rfl hl.2 (by have := hl.1; omega)⟩
  | refMv v ctx => exact ⟨_, rfl, inT1 rfl hl.2 (by have := hl.1; omega)⟩
  | drlMode v idx stack =>
    obtain ⟨hv, hi, hst⟩ := hl
    exact ⟨_, by simp only [Elem.select, Sel.drlMode, List.getElem?_eq_getElem hi]; rfl,
      inT1 rfl (hst _ (List.getElem_mem hi)) (by omega)⟩
  | isInter v =>
    refine ⟨_, rfl, inT1 rfl ?_ (by have := boolToNat_le v; omega)⟩
    cases nb.left with
    | none =>
      cases nb.above with
      | none => decide
      | some u => have := boolToNat_le u.intra; show 2 * u.intra.toNat < 4; omega
    | some l =>
      cases nb.above with
      | none => have := boolToNat_le l.intra; show 2 * l.intra.toNat < 4; omega
      | some u =>
        show (if l.intra && u.intra then 3 else (l.intra || u.intra).toNat) < 4
        have := boolToNat_le (l.intra || u.intra)
        split <;> omega
  | useFilterIntra v bs => exact ⟨_, rfl, inT1 rfl hl.2 (by have := hl.1; omega)⟩
  | filterIntraMode v => have hl : v < 5 := hl; exact ⟨_, rfl, inT0 rfl (by omega)⟩
  | compMode v =>
    have hl : v ≤ 1 := hl
    refine ⟨_, rfl, inT1 rfl ?_ (by omega)⟩
    have key : ∀ b : Bool, b.toNat < 5 ∧ 2 + b.toNat < 5 := by decide
    cases nb.above with
    | none =>
      cases nb.left with
      | none => decide
      | some l => simp only []; split; exacts [(key _).1, by decide]
    | some u =>
      cases nb.left with
      | none => simp only []; split; exacts [(key _).1, by decide]
      | some l =>
        simp only []; split
        · exact (key _).1
        · split
          · exact (key _).2
          · split
            · exact (key _).2
            · decide
  | skipMode v =>
    have hl : v ≤ 1 := hl
    have h1 : orElse nb.left 0 (·.skipMode) ≤ 1 := orElse_le fun mi h => (hL mi h).skipMode
    have h2 : orElse nb.above 0 (·.skipMode) ≤ 1 := orElse_le fun mi h => (hA mi h).skipMode
    exact ⟨_, rfl, inT1 rfl (by omega) (by omega)⟩
  | skip v =>
    have hl : v ≤ 1 := hl
    have h1 : orElse nb.left 0 (·.skip.toNat) ≤ 1 := orElse_le fun mi _ => boolToNat_le _
    have h2 : orElse nb.above 0 (·.skip.toNat) ≤ 1 := orElse_le fun mi _ => boolToNat_le _
    exact ⟨_, rfl, inT1 rfl (by omega) (by omega)⟩
  | compRef v => have hl : v ≤ 1 := hl; exact ⟨_, rfl, inT2 rfl (refCtx_lt ..) (by decide) (by omega)⟩
  | compRefP1 v => have hl : v ≤ 1 := hl; exact ⟨_, rfl, inT2 rfl (refCtx_lt ..) (by decide) (by omega)⟩
  | compRefP2 v => have hl : v ≤ 1 := hl; exact ⟨_, rfl, inT2 rfl (refCtx_lt ..) (by decide) (by omega)⟩
  | compBwdref v => have hl : v ≤ 1 := hl; exact ⟨_, rfl, inT2 rfl (refCtx_lt ..) (by decide) (by omega)⟩
  | compBwdrefP1 v => have hl : v ≤ 1 := hl; exact ⟨_, rfl, inT2 rfl (refCtx_lt ..) (by decide) (by omega)⟩
  | singleRefP1 v => have hl : v ≤ 1 := hl; exact ⟨_, rfl, inT2 rfl (refCtx_lt ..) (by decide) (by omega)⟩
  | singleRefP2 v => have hl : v ≤ 1 := hl; exact ⟨_, rfl, inT2 rfl (refCtx_lt ..) (by decide) (by omega)⟩
  | singleRefP3 v => have hl : v ≤ 1 := hl; exact ⟨_, rfl, inT2 rfl (refCtx_lt ..) (by decide) (by omega)⟩
  | singleRefP4 v => have hl : v ≤ 1 := hl; exact ⟨_, rfl, inT2 rfl (refCtx_lt ..) (by decide) (by omega)⟩
  | singleRefP5 v => have hl : v ≤ 1 := hl; exact ⟨_, rfl, inT2 rfl (refCtx_lt ..) (by decide) (by omega)⟩
  | singleRefP6 v => have hl : v ≤ 1 := hl; exact ⟨_, rfl, inT2 rfl (refCtx_lt ..) (by decide) (by omega)⟩
  | compoundMode v r n =>
    obtain ⟨hv, hr⟩ := hl
    have key : ∀ r < 6, ∀ n < 5, ((Sel.compoundModeCtxMap[r >>> 1]?).bind fun row => row[n]?).any (· < 8) = true := by decide
    have := key r hr (min n (K.COMP_NEWMV_CTXS - 1)) (Nat.lt_of_le_of_lt (Nat.min_le_right _ _) (by decide))
    cases h1 : Sel.compoundModeCtxMap[r >>> 1]? with
    | none => simp [h1] at this
    | some row =>
      simp only [h1, Option.bind_some] at this
      cases h2 : row[min n (K.COMP_NEWMV_CTXS - 1)]? with
      | none => rw [h2] at this; simp at this
      | some x =>
        rw [h2] at this
        exact ⟨_, by simp only [Elem.select, Sel.compoundMode, h1, Option.bind_eq_bind, Option.bind_some, h2]; rfl,
          inT1 rfl (by simpa using this) (by omega)⟩
  | interpFilter f dir =>
    obtain ⟨hf, hd, hc⟩ := hl
    have hty : ∀ (cur : ModeInfo) (o : Option ModeInfo), (∀ mi, o = some mi → mi.Valid) →
        ∃ x, Sel.interpType cur dir o = some x ∧ x ≤ 3 := by
      intro cur o ho
      unfold Sel.interpType
      cases o with
      | none => exact ⟨_, rfl, by decide⟩
      | some mi =>
        have hv := ho mi rfl
        show ∃ x, (if mi.ref0 = cur.ref0 ∨ mi.ref1 = cur.ref1 then Sel.ModeInfo.interp mi dir else some K.BILINEAR) = some x ∧ x ≤ 3
        split
        · have : dir = 0 ∨ dir = 1 := by omega
          rcases this with rfl | rfl
          · exact ⟨_, rfl, hv.interp0⟩
          · exact ⟨_, rfl, hv.interp1⟩
        · exact ⟨_, rfl, by decide⟩
    cases hcur : nb.cur with
    | none => exact absurd hcur hc
    | some cur =>
      obtain ⟨l, hl, hl3⟩ := hty cur nb.left hL
      obtain ⟨a, ha, ha3⟩ := hty cur nb.above hA
      refine ⟨_, by simp only [Elem.select, Sel.interpFilter, hcur, Option.bind_eq_bind, Option.bind_some, hl, ha]; rfl, inT1 rfl ?_ (by omega)⟩
      have h1 := boolToNat_le (decide (cur.ref1 > K.INTRA_FRAME))
      have h2 : (if l = a then l else if l = K.BILINEAR then a else if a = K.BILINEAR then l else K.BILINEAR) ≤ 3 := by
        split
        · exact hl3
        · split
          · exact ha3
          · split
            · exact hl3
            · decide
      generalize (if l = a then l else if l = K.BILINEAR then a else if a = K.BILINEAR then l else K.BILINEAR) = q at h2
      omega
  | motionMode v bs => exact ⟨_, rfl, inT1 rfl hl.2 (by have := hl.1; omega)⟩
  | mvJoint v ctx => exact ⟨_, rfl, inT1 rfl hl.2 (by have := hl.1; omega)⟩
  | mvSign v ctx comp => exact ⟨_, rfl, inT2 rfl hl.2.1 hl.2.2 (by have := hl.1; omega)⟩
  | mvClass v ctx comp => exact ⟨_, rfl, inT2 rfl hl.2.1 hl.2.2 (by have := hl.1; omega)⟩
  | mvClass0Bit v ctx comp => exact ⟨_, rfl, inT2 rfl hl.2.1 hl.2.2 (by have := hl.1; omega)⟩
  | mvClass0Fr v bit ctx comp => exact ⟨_, rfl, inT3 rfl hl.2.2.1 hl.2.2.2 hl.2.1 (by have := hl.1; omega)⟩
  | mvClass0Hp v ctx comp => exact ⟨_, rfl, inT2 rfl hl.2.1 hl.2.2 (by have := hl.1; omega)⟩
  | mvFr v ctx comp => exact ⟨_, rfl, inT2 rfl hl.2.1 hl.2.2 (by have := hl.1; omega)⟩
  | mvHp v ctx comp => exact ⟨_, rfl, inT2 rfl hl.2.1 hl.2.2 (by have := hl.1; omega)⟩
  | mvBit v i ctx comp => exact ⟨_, rfl, inT3 rfl hl.2.2.1 hl.2.2.2 hl.2.1 (by have := hl.1; omega)⟩
  | allZero t v plane txSize txSizeCtx bs =>
    obtain ⟨hv, hp, ht, hc, hb, r, hr, hr22⟩ := hl
    obtain ⟨w, hw, -⟩ := txWidth_some ht
    obtain ⟨h, hh, -⟩ := txHeight_some ht
    obtain ⟨bw, hbw, -⟩ := blockWidth_some hr22
    obtain ⟨bh, hbh, -⟩ := blockHeight_some hr22
    obtain ⟨la, hla⟩ := orElse_list (f := (·.level)) hp fun mi hm => (hA mi hm).level
    obtain ⟨ll, hll⟩ := orElse_list (f := (·.level)) hp fun mi hm => (hL mi hm).level
    obtain ⟨da, hda⟩ := orElse_list (f := (·.dc)) hp fun mi hm => (hA mi hm).dc
    obtain ⟨dl, hdl⟩ := orElse_list (f := (·.dc)) hp fun mi hm => (hL mi hm).dc
    have hv' : v + 1 < 3 := by omega
    suffices hk : ∃ k, Sel.allZeroCtx nb t plane txSize bs = some k ∧ k < 13 by
      obtain ⟨k, hk, hk13⟩ := hk
      exact ⟨_, by simp only [Elem.select, Sel.allZero, hk]; rfl, inT3 rfl (by decide) hc hk13 hv'⟩
    by_cases hp0 : plane = 0
    · refine ⟨_, by simp only [Sel.allZeroCtx, hw, hh, hr, hbw, hbh, hla, hll, Option.bind_eq_bind, Option.bind_some]; rw [if_pos hp0], ?_⟩
      generalize min (Sel.edgeLoop t.w4 t.x4 (t.maxX plane) (max · la) 0) 255 = top
      generalize min (Sel.edgeLoop t.h4 t.y4 (t.maxY plane) (max · ll) 0) 255 = left
      have := boolToNat_le (decide (max top left > 3))
      split; · omega
      split; · omega
      split; · omega
      split; · omega
      split <;> omega
    · refine ⟨_, by simp only [Sel.allZeroCtx, hw, hh, hr, hbw, hbh, hla, hll, hda, hdl, Option.bind_eq_bind, Option.bind_some]; rw [if_neg hp0], ?_⟩
      generalize Sel.edgeLoop t.w4 t.x4 (t.maxX plane) (· ||| (la ||| da)) 0 = top
      generalize Sel.edgeLoop t.h4 t.y4 (t.maxY plane) (· ||| (ll ||| dl)) 0 = left
      have := boolToNat_le (decide (top ≠ 0)); have := boolToNat_le (decide (left ≠ 0))
      split <;> omega
  | eobPt e k v ptype =>
    obtain ⟨he, hk, hv, hp⟩ := hl
    obtain ⟨t, ht, -⟩ := txType_some he
    have hctx : (if getTxClass t = K.TX_CLASS_2D then 0 else 1) < 2 := by split <;> omega
    have hsel : ∀ f : Family, [Default.eob_pt_16, Default.eob_pt_32, Default.eob_pt_64, Default.eob_pt_128, Default.eob_pt_256,
        Default.eob_pt_512, Default.eob_pt_1024][k]? = some f →
        (Elem.eobPt e k v ptype).select nb = some ⟨f, [0, ptype, if getTxClass t = K.TX_CLASS_2D then 0 else 1], v⟩ := by
      intro f hf
      simp only [Elem.select, Sel.eobPt, ht, hf, Option.bind_eq_bind, Option.bind_some]
    have hk' : k = 0 ∨ k = 1 ∨ k = 2 ∨ k = 3 ∨ k = 4 ∨ k = 5 ∨ k = 6 := by omega
    rcases hk' with rfl | rfl | rfl | rfl | rfl | rfl | rfl
    all_goals exact ⟨_, hsel _ rfl, inT3 rfl (by decide) hp hctx (by omega)⟩
  | eobExtra v c p pt => exact ⟨_, rfl, inT4 rfl (by decide) hl.2.1 hl.2.2.1 (by have := hl.2.2.2; omega) (by have := hl.1; omega)⟩
  | coeffBase e v txSizeCtx ptype c scan quant =>
    obtain ⟨he, hv, hc, hp, hcs, hq⟩ := hl
    obtain ⟨k, hk, hk42⟩ := coeffBaseCtx_some he scan[c] c quant fun w h hw => (hq w h hw).1
    exact ⟨_, by simp only [Elem.select, Sel.coeffBase, List.getElem?_eq_getElem hcs, Option.bind_eq_bind, Option.bind_some, hk]; rfl,
      inT4 rfl (by decide) hc hp hk42 (by omega)⟩
  | coeffBaseEob => exact hs.elim
  | dcSign t ptype plane =>
    have hz : ∀ (n x mx : Nat), Sel.edgeLoop n x mx (Sel.signStep 0) (0 : Int) = 0 := by
      intro n x mx
      unfold Sel.edgeLoop
      induction List.range n with
      | nil => rfl
      | cons k ks ih =>
        have h0 : Sel.signStep 0 0 = 0 := rfl
        rw [List.foldl_cons, h0, ite_self]
        exact ih
    obtain ⟨ha, hl'⟩ := hs
    refine ⟨⟨Default.dc_sign, [0, ptype, 0], 0⟩, ?_, inT3 (v := 0) rfl (by decide) hl.1 (by decide) (by decide)⟩
    simp only [Elem.select, Sel.dcSign, ha, hl', orElse, Option.bind_eq_bind, Option.bind_some, hz]
    rfl
  | coeffBr e v txSizeCtx ptype pos quant =>
    obtain ⟨he, hv, hc, hp, hq⟩ := hl
    obtain ⟨k, hk, hk21⟩ := coeffBr_some he v txSizeCtx ptype pos quant fun w h hw => (hq w h hw).1
    exact ⟨_, hk, inT4 rfl (by decide) (Nat.lt_of_le_of_lt (Nat.min_le_right _ _) (by decide)) hp hk21 (by omega)⟩
  | hasPaletteY v b =>
    have hside : ∀ o : Option ModeInfo, (∀ mi, o = some mi → mi.Valid) → ∃ x, (orElse o (some 0) fun mi =>
        mi.palette[0]?.map fun s => if s > 0 then 1 else 0) = some x ∧ x ≤ 1 := by
      intro o ho
      cases o with
      | none => exact ⟨0, rfl, by decide⟩
      | some mi =>
        obtain ⟨x, hx⟩ := list3 (ho mi rfl).palette (p := 0) (by decide)
        show ∃ y, (mi.palette[0]?.map fun s => if s > 0 then 1 else 0) = some y ∧ y ≤ 1
        rw [hx]
        refine ⟨_, rfl, ?_⟩
        simp only []
        split <;> omega
    obtain ⟨x, hx, hx1⟩ := hside nb.above hA
    obtain ⟨y, hy, hy1⟩ := hside nb.left hL
    exact ⟨_, by simp only [Elem.select, Sel.hasPaletteY, hx, hy]; rfl, inT2 rfl hl.2 (by omega) (by have := hl.1; omega)⟩
  | hasPaletteUv v b =>
    have hl : v ≤ 1 := hl
    refine ⟨_, rfl, inT1 rfl ?_ (by omega)⟩
    split <;> omega
  | paletteSizeY v b => exact ⟨_, rfl, inT1 rfl hl.2 (by have := hl.1; omega)⟩
  | paletteSizeUv v b => exact ⟨_, rfl, inT1 rfl hl.2 (by have := hl.1; omega)⟩
  | paletteColorY v hash size =>
    obtain ⟨h2, h8, hv, hh⟩ := hl
    have hctx : ∃ c : Nat, c < 5 ∧ K.palette_color_context[hash]? = some (c : Int) := by
      simp only [List.mem_cons, List.not_mem_nil, or_false] at hh
      rcases hh with rfl | rfl | rfl | rfl | rfl
      exacts [⟨0, by decide, rfl⟩, ⟨4, by decide, rfl⟩, ⟨3, by decide, rfl⟩, ⟨2, by decide, rfl⟩, ⟨1, by decide, rfl⟩]
    obtain ⟨c, hc5, hc⟩ := hctx
    have hge : (c : Int) ≥ 0 := by omega
    have hsz : size = 2 ∨ size = 3 ∨ size = 4 ∨ size = 5 ∨ size = 6 ∨ size = 7 ∨ size = 8 := by omega
    rcases hsz with rfl | rfl | rfl | rfl | rfl | rfl | rfl
    all_goals
      refine ⟨_, by simp only [Elem.select, Sel.paletteColorY, hc, Option.bind_eq_bind, Option.bind_some]; rw [if_pos hge], ?_⟩
      exact inT1 rfl (by rw [Int.toNat_natCast]; exact hc5) (by omega)
  | paletteColorUv v hash size =>
    obtain ⟨h2, h8, hv, hh⟩ := hl
    have hctx : ∃ c : Nat, c < 5 ∧ K.palette_color_context[hash]? = some (c : Int) := by
      simp only [List.mem_cons, List.not_mem_nil, or_false] at hh
      rcases hh with rfl | rfl | rfl | rfl | rfl
      exacts [⟨0, by decide, rfl⟩, ⟨4, by decide, rfl⟩, ⟨3, by decide, rfl⟩, ⟨2, by decide, rfl⟩, ⟨1, by decide, rfl⟩]
    obtain ⟨c, hc5, hc⟩ := hctx
    have hge : (c : Int) ≥ 0 := by omega
    have hsz : size = 2 ∨ size = 3 ∨ size = 4 ∨ size = 5 ∨ size = 6 ∨ size = 7 ∨ size = 8 := by omega
    rcases hsz with rfl | rfl | rfl | rfl | rfl | rfl | rfl
    all_goals
      refine ⟨_, by simp only [Elem.select, Sel.paletteColorUv, hc, Option.bind_eq_bind, Option.bind_some]; rw [if_pos hge], ?_⟩
      exact inT1 rfl (by rw [Int.toNat_natCast]; exact hc5) (by omega)
  | deltaQAbs v => have hl : v < 4 := hl; exact ⟨_, rfl, inT0 rfl (by omega)⟩
  | deltaLfAbs v multi i =>
    obtain ⟨hv, hi⟩ := hl
    by_cases hm : multi = 0
    · exact ⟨_, by simp only [Elem.select, Sel.deltaLfAbs]; rw [if_pos hm], inT0 rfl (by omega)⟩
    · exact ⟨_, by simp only [Elem.select, Sel.deltaLfAbs]; rw [if_neg hm], inT1 rfl (hi hm) (by omega)⟩
  | intraTxType t txSet txSize useFilter filterMode ym =>
    obtain ⟨hsz, hfm, hym, -⟩ := hl
    have hs : t < 4 := hs
    have hsq : ∃ q, K.tx_size_sqr[txSize]? = some q ∧ q < 4 := by
      have key : ∀ x ∈ [0, 1, 2, 5, 6, 7, 8, 13, 14], (K.tx_size_sqr[x]?).any (· < 4) = true := by decide
      have := key _ hsz
      cases h : K.tx_size_sqr[txSize]? with
      | none => simp [h] at this
      | some q => exact ⟨q, rfl, by simpa [h] using this⟩
    obtain ⟨q, hq, hq4⟩ := hsq
    have hdir : ∃ d, (if useFilter then K.filter_intra_mode_to_intra_dir[filterMode]? else some ym) = some d ∧ d < 13 := by
      split
      · exact lookup (n := 5) (by decide) hfm
      · exact ⟨ym, rfl, hym⟩
    obtain ⟨d, hd, hd13⟩ := hdir
    have hsel : (Elem.intraTxType t txSet txSize useFilter filterMode ym).select nb =
        some ⟨if txSet = K.TX_SET_INTRA_1 then Default.intra_tx_type_set1 else Default.intra_tx_type_set2, [q, d], t⟩ := by
      cases useFilter
      · cases hd
        simp only [Elem.select, Sel.intraTxType, hq]; rfl
      · have hd : K.filter_intra_mode_to_intra_dir[filterMode]? = some d := hd
        simp only [Elem.select, Sel.intraTxType, hd, hq]; rfl
    refine ⟨_, hsel, ?_⟩
    by_cases h1 : txSet = K.TX_SET_INTRA_1
    · rw [if_pos h1]; exact inT2 rfl hq4 hd13 (by omega)
    · rw [if_neg h1]; exact inT2 rfl hq4 hd13 (by omega)
  | interTxType t txSize txSet =>
    obtain ⟨hsz, hno, hset⟩ := hl
    have hsq : ∃ q, K.tx_size_sqr[txSize]? = some q ∧ q < 4 := by
      have key : ∀ x < 19, x ∉ [4, 11, 12, 17, 18] → (K.tx_size_sqr[x]?).any (· < 4) = true := by decide
      have := key _ hsz hno
      cases h : K.tx_size_sqr[txSize]? with
      | none => simp [h] at this
      | some q => exact ⟨q, rfl, by simpa [h] using this⟩
    obtain ⟨q, hq, hq4⟩ := hsq
    refine ⟨_, by simp only [Elem.select, Sel.interTxType, hq]; rfl, ?_⟩
    have m1 : ∀ t ∈ TxSet.inter1.types, t < 16 := by decide
    have m2 : ∀ t ∈ TxSet.inter2.types, t < 12 := by decide
    rcases hset with ⟨rfl, ht⟩ | ⟨rfl, ht⟩ | ⟨rfl, -⟩
    · exact inT1 (f := Default.inter_tx_type_set1) rfl hq4 (by have := m1 t ht; omega)
    · exact inT1 (f := Default.inter_tx_type_set2) rfl hq4 (by have := m2 t ht; omega)
    · have : t = 0 := hs rfl
      exact inT1 (f := Default.inter_tx_type_set3) rfl hq4 (by omega)
  | compRefType v =>
    have hl : v ≤ 1 := hl
    refine ⟨_, rfl, inT1 rfl ?_ (by omega)⟩
    generalize Sel.compSide nb.above = x
    generalize Sel.compSide nb.left = y
    obtain ⟨a1, a2, a3, a4, a5⟩ := x
    obtain ⟨b1, b2, b3, b4, b5⟩ := y
    have k := boolToNat_le
    unfold Sel.compRefTypeCtx
    simp only []
    have k1 := k (isSamedirRefPair a2 b2)
    have k2 := k (a4 && isSamedirRefPair a2 a3)
    have k3 := k (b4 && isSamedirRefPair b2 b3)
    have k4 := k (decide (a2 = K.BWDREF_FRAME) == decide (b2 = K.BWDREF_FRAME))
    repeat' split
    all_goals omega
  | uniCompRef v => have hl : v ≤ 1 := hl; exact ⟨_, rfl, inT2 rfl (refCtx_lt ..) (by decide) (by omega)⟩
  | uniCompRefP1 v => have hl : v ≤ 1 := hl; exact ⟨_, rfl, inT2 rfl (refCtx_lt ..) (by decide) (by omega)⟩
  | uniCompRefP2 v => have hl : v ≤ 1 := hl; exact ⟨_, rfl, inT2 rfl (refCtx_lt ..) (by decide) (by omega)⟩
  | compGroupIdx v =>
    have hl : v ≤ 1 := hl
    exact ⟨_, rfl, inT1 rfl (Nat.lt_of_le_of_lt (Nat.min_le_left _ _) (by decide)) (by omega)⟩
  | compoundIdx v hints hint r0 r1 enable bits =>
    obtain ⟨hv, hlen, h01, h07, h11, h17, hb1, hb8⟩ := hl
    obtain ⟨hn0, hn1⟩ := hs
    have hlen : hints.length = 7 := hlen
    have hh : ∀ r : Int, 1 ≤ r → r ≤ 7 → r ≠ 7 → ∃ x, Sel.hintOf hints r = some x := by
      intro r h1 h7 hn
      have : Sel.asUsize r < hints.length := by
        unfold Sel.asUsize
        rw [Int.emod_eq_of_lt (by omega) (by omega)]; omega
      exact ⟨_, List.getElem?_eq_getElem this⟩
    have hrel : ∀ a, ∃ d, getRelativeDist a hint enable bits = some d := by
      intro a
      unfold getRelativeDist
      cases enable
      · exact ⟨0, rfl⟩
      · rw [if_neg (by decide)]
        have : ¬ (bits = 0 ∨ bits ≥ 64) := by omega
        rw [if_neg this]; exact ⟨_, rfl⟩
    obtain ⟨x, hx⟩ := hh r0 h01 h07 hn0
    obtain ⟨y, hy⟩ := hh r1 h11 h17 hn1
    obtain ⟨d, hd⟩ := hrel x
    obtain ⟨f, hf⟩ := hrel y
    refine ⟨_, by simp only [Elem.select, Sel.compoundIdx, hx, hy, hd, hf, Option.bind_eq_bind, Option.bind_some]; rfl, inT1 rfl ?_ (by omega)⟩
    have hside : ∀ o : Option ModeInfo, (∀ mi, o = some mi → mi.Valid) → (orElse o 0 fun mi => if !mi.single then mi.compoundIdx
        else if mi.ref0 = K.ALTREF_FRAME then 1 else 0) ≤ 1 := by
      intro o ho
      refine orElse_le fun mi hm => ?_
      have := (ho mi hm).cidx
      split
      · exact this
      · split <;> omega
    have h1 := hside nb.above hA
    have h2 := hside nb.left hL
    split <;> omega
  | compoundType v bs => exact ⟨_, rfl, inT1 rfl hl.2 (by have := hl.1; omega)⟩
  | interintra v bs =>
    obtain ⟨x, hx, hx4⟩ := sizeGroup_some hl.2
    exact ⟨_, by simp only [Elem.select, Sel.interintra, hx]; rfl, inT1 rfl hx4 (by have := hl.1; omega)⟩
  | interintraMode v bs =>
    obtain ⟨x, hx, hx4⟩ := sizeGroup_some hl.2
    exact ⟨_, by simp only [Elem.select, Sel.interintraMode, hx]; rfl, inT1 rfl hx4 (by have := hl.1; omega)⟩
  | wedgeIndex v bs => exact ⟨_, rfl, inT1 rfl hl.2 (by have := hl.1; omega)⟩
  | wedgeInterintra v bs => exact ⟨_, rfl, inT1 rfl hl.2 (by have := hl.1; omega)⟩
  | useObmc v bs => exact ⟨_, rfl, inT1 rfl hl.2 (by have := hl.1; omega)⟩
  | cflSigns v => have hl : v < 8 := hl; exact ⟨_, rfl, inT0 rfl (by omega)⟩
  | cflAlphaU v signs =>
    obtain ⟨hv, h8, h3⟩ := hl
    have hs : signs ≠ 7 := hs
    have h2 : signs ≥ 2 := by omega
    exact ⟨_, by simp only [Elem.select, Sel.cflAlphaU]; rw [if_pos h2], inT1 rfl (by omega) (by omega)⟩
  | cflAlphaV v signs =>
    obtain ⟨hv, h8, h3⟩ := hl
    have hs : signs ≠ 0 := hs
    have h2 : signs % 3 < 2 := by omega
    have h0 : 1 ≤ signs % 3 * 3 + signs / 3 := by omega
    exact ⟨_, by simp only [Elem.select, Sel.cflAlphaV, usub]; rw [if_pos h2, if_pos h0]; rfl, inT1 rfl (by omega) (by omega)⟩
  | useWiener v => have hl : v ≤ 1 := hl; exact ⟨_, rfl, inT0 rfl (by omega)⟩
  | useSgrproj v => have hl : v ≤ 1 := hl; exact ⟨_, rfl, inT0 rfl (by omega)⟩
  | restorationType v => have hl : v < 3 := hl; exact ⟨_, rfl, inT0 rfl (by omega)⟩

/-! ## The calls that fail -/

/-- Where a missing neighbour decides the context of `encode_txfm_split`; in this program every neighbour is missing, as
`frame.mis` is never written.  `encode_dc_sign` is excluded, it depends on the neighbours' signs. -/
def Elem.Decided (nb : Nbrs) : Elem → Prop
  | .txfmSplit _ colEdge _ _ _ => nb.above = none ∨ (nb.left = none ∧ colEdge = true)
  | .dcSign .. => False
  | _ => True

theorem inT1_inv {f : Family} {a n i v : Nat} (hd : f.dims = [a, n]) (h : Sel.InTable ⟨f, [i], v⟩) : i < a ∧ v + 1 < n := by
  have h2 : InDims [i] f.dims v := h.2
  rw [hd] at h2
  obtain ⟨h1, -, h3⟩ := h2
  exact ⟨h1, by omega⟩

theorem inT2_inv {f : Family} {a b n i j v : Nat} (hd : f.dims = [a, b, n]) (h : Sel.InTable ⟨f, [i, j], v⟩) :
    i < a ∧ j < b ∧ v + 1 < n := by
  have h2 : InDims [i, j] f.dims v := h.2
  rw [hd] at h2
  obtain ⟨h1, h3, -, h4⟩ := h2
  exact ⟨h1, h3, by omega⟩

/-- The legal calls outside `Sound` panic (or index outside the tables) without exception. -/
theorem C43_fails (e : Elem) (nb : Nbrs) (hnb : nb.Valid) (hl : e.Legal nb) (hs : ¬ e.Sound nb) (hd : e.Decided nb) :
    ¬ ∃ s, e.select nb = some s ∧ s.InTable := by
  rintro ⟨s, hsel, hin⟩
  cases e with
  | uvMode uv bs ll ssx ssy =>
    obtain ⟨hbs, h | ⟨rfl, hc⟩⟩ := hl
    · exact hs h
    · simp only [Elem.select, Sel.uvMode, hc, Option.bind_eq_bind, Option.bind_some, Option.some.injEq] at hsel
      subst hsel
      have := (inT1_inv (f := Default.uv_mode_cfl_allowed) rfl hin).1
      omega
  | partition bs a l p =>
    have hs : ¬ (p < 8 ∨ bs = K.BLOCK_16X16) := hs
    have hbs : bs = K.BLOCK_32X32 ∨ bs = K.BLOCK_64X64 := by
      rcases hl with h | ⟨h | h | h, -⟩ | h
      · exact absurd (Or.inl (by omega)) hs
      · exact absurd (Or.inr h) hs
      · exact Or.inl h
      · exact Or.inr h
      · exact absurd (Or.inl h.2) hs
    have hsel : some (⟨Default.partition_w128, [l.toNat * 2 + a.toNat], p⟩ : Sel) = some s := by
      rcases hbs with rfl | rfl <;> exact hsel
    cases hsel
    have := (inT1_inv (f := Default.partition_w128) rfl hin).2
    exact hs (Or.inl (by omega))
  | txfmSplit rowEdge colEdge txSize bs split =>
    obtain ⟨htx, hbs, -, hedge⟩ := hl
    have hside : ∀ (edge : Bool) (m o : Option ModeInfo) (x : Nat), (∀ mi, m = some mi → mi.Valid) →
        (∀ mi, o = some mi → mi.Valid) → Sel.txfmSide edge m o = some x →
        (o = none → edge = true → x = 64) := by
      intro edge m o x _ _ hx ho he
      subst ho; subst he
      cases hx; rfl
    simp only [Elem.select, Sel.txfmSplit, Option.bind_eq_bind, Option.bind_eq_some_iff] at hsel
    obtain ⟨above, ha, left, hle, w, -, h, -, up, -, k, -, hfin⟩ := hsel
    cases hfin
    have hlt := (inT1_inv (f := Default.txfm_split) rfl hin).1
    rcases hd with hd | ⟨hd, hce⟩
    · have hr : rowEdge = true := by
        cases rowEdge
        · exact absurd hd (hedge (Or.inl rfl))
        · rfl
      have := hside rowEdge _ _ above hnb.1 hnb.1 ha hd hr
      omega
    · have := hside colEdge _ _ left hnb.1 hnb.2.1 hle hd hce
      omega
  | coeffBaseEob e v c p k scan quant =>
    simp only [Elem.select, Sel.coeffBaseEob, Option.bind_eq_bind, Option.bind_eq_some_iff] at hsel
    obtain ⟨pos, -, q, hq, d, hsub, -⟩ := hsel
    have hq42 : q < K.SIG_COEF_CONTEXTS := by
      simp only [Sel.coeffBaseCtx, Option.bind_eq_bind, Option.bind_eq_some_iff, if_true] at hq
      obtain ⟨_, -, _, -, _, -, _, -, hq⟩ := hq
      split at hq
      · cases hq; decide
      · split at hq
        · cases hq; decide
        · split at hq <;> (cases hq; decide)
    unfold usub at hsub
    rw [if_neg (by omega)] at hsub
    cases hsub
  | intraTxType t txSet txSize uf fm ym =>
    have hs : ¬ t < 4 := hs
    obtain ⟨-, -, -, hset⟩ := hl
    have hsel : ∃ q d, some (⟨if txSet = K.TX_SET_INTRA_1 then Default.intra_tx_type_set1 else Default.intra_tx_type_set2, [q, d], t⟩ : Sel) = some s := by
      cases uf
      · simp only [Elem.select, Sel.intraTxType, Option.bind_eq_bind, Bool.false_eq_true, if_false, Option.bind_some,
          Option.bind_eq_some_iff] at hsel
        obtain ⟨q, -, h⟩ := hsel
        exact ⟨q, _, h⟩
      · simp only [Elem.select, Sel.intraTxType, Option.bind_eq_bind, if_true, Option.bind_eq_some_iff] at hsel
        obtain ⟨d, -, q, -, h⟩ := hsel
        exact ⟨q, d, h⟩
    obtain ⟨q, d, h⟩ := hsel
    cases h
    have key : ∀ t ∈ TxSet.intra1.types, t < 4 ∨ 9 ≤ t := by decide
    have key2 : ∀ t ∈ TxSet.intra2.types, t < 4 ∨ 9 ≤ t := by decide
    rcases hset with ⟨rfl, ht⟩ | ⟨rfl, ht⟩
    · have h1 := (inT2_inv (f := Default.intra_tx_type_set1) rfl hin).2.2
      have h2 := key t ht
      omega
    · have h1 := (inT2_inv (f := Default.intra_tx_type_set2) rfl hin).2.2
      have h2 := key2 t ht
      omega
  | interTxType t txSize txSet =>
    obtain ⟨rfl, h0⟩ : txSet = K.TX_SET_INTER_3 ∧ t ≠ 0 := by
      by_contra hc
      exact hs fun h => by_contra fun h0 => hc ⟨h, h0⟩
    obtain ⟨-, -, hset⟩ := hl
    have key : ∀ t ∈ TxSet.inter3.types, t = 0 ∨ 9 ≤ t := by decide
    have ht : t ∈ TxSet.inter3.types := by
      rcases hset with ⟨h, -⟩ | ⟨h, -⟩ | ⟨-, h⟩
      · exact absurd h (by decide)
      · exact absurd h (by decide)
      · exact h
    simp only [Elem.select, Sel.interTxType, Option.bind_eq_bind, Option.bind_eq_some_iff] at hsel
    obtain ⟨q, -, h⟩ := hsel
    cases h
    have h1 := (inT1_inv (f := Default.inter_tx_type_set3) rfl hin).2
    have h2 := key t ht
    omega
  | compoundIdx v hints hint r0 r1 enable bits =>
    obtain ⟨hv, hlen, h01, h07, h11, h17, hb1, hb8⟩ := hl
    have hlen : hints.length = 7 := hlen
    have h7 : Sel.hintOf hints 7 = none := by
      unfold Sel.hintOf
      rw [show Sel.asUsize 7 = 7 from rfl]
      exact List.getElem?_eq_none (by omega)
    simp only [Elem.select, Sel.compoundIdx, Option.bind_eq_bind, Option.bind_eq_some_iff] at hsel
    obtain ⟨x, hx, _, -, y, hy, -⟩ := hsel
    refine hs ⟨?_, ?_⟩
    · rintro rfl; rw [h7] at hx; cases hx
    · rintro rfl; rw [h7] at hy; cases hy
  | cflAlphaU v signs =>
    have h7 : signs = 7 := by_contra hs
    subst h7
    cases hsel
    have := (inT1_inv (f := Default.cfl_alpha) rfl hin).1
    omega
  | cflAlphaV v signs =>
    have h0 : signs = 0 := by_contra hs
    subst h0
    cases hsel
  | dcSign => exact hd
  | _ => exact hs trivial

/-- The program violates C43: chroma-from-luma of an 8×8 block (uv_mode 13) indexes row 13 of 13. -/
theorem C43_negation : ¬ C43_full := by
  intro h
  have hv : Nbrs.Valid ⟨none, none, none⟩ := ⟨nofun, nofun, nofun⟩
  refine C43_fails (.uvMode 13 3 false true true) ⟨none, none, none⟩ hv ?_ (show ¬ (13 < 13) by decide) trivial (h _ _ hv ?_)
  · exact ⟨by decide, Or.inr ⟨rfl, by decide⟩⟩
  · exact ⟨by decide, Or.inr ⟨rfl, by decide⟩⟩

/-! ## From tables to bits -/

/-- Row-major position of a table in its family. -/
def tablePos : List Nat → List Nat → Nat
  | i :: is, _ :: ds => i * ds.dropLast.prod + tablePos is ds
  | _, _ => 0

/-- Number of tables of the default bank before family `f`. -/
def famStart (f : Family) : Nat := ((Default.families.takeWhile fun g => g.name ≠ f.name).map fun g => g.cdfs.length).sum

/-- The range coder call an element makes, on the bank of all default tables. -/
def Sel.op (s : Sel) : Op := .sym (famStart s.fam + tablePos s.idx s.fam.dims) s.sym.toNat

theorem inDims_pos : ∀ (idx dims : List Nat) (sym : Int), InDims idx dims sym →
    tablePos idx dims < dims.dropLast.prod ∧ ∃ n, dims.getLast? = some n ∧ 0 ≤ sym ∧ sym + 1 < n
  | [], [n], sym, h => ⟨by simp [tablePos], n, rfl, h.1, h.2⟩
  | i :: is, d :: ds, sym, h => by
    have h : i < d ∧ InDims is ds sym := by
      cases ds <;> exact h
    obtain ⟨hp, n, hn, hs⟩ := inDims_pos is ds sym h.2
    have hne : ds ≠ [] := by rintro rfl; simp at hn
    refine ⟨?_, n, ?_, hs⟩
    · rw [List.dropLast_cons_of_ne_nil hne, List.prod_cons]
      show i * ds.dropLast.prod + tablePos is ds < d * ds.dropLast.prod
      calc _ < i * ds.dropLast.prod + ds.dropLast.prod := by omega
        _ = (i + 1) * ds.dropLast.prod := by rw [Nat.succ_mul]
        _ ≤ _ := Nat.mul_le_mul_right _ h.1
    · rw [List.getLast?_cons_of_ne_nil hne]; exact hn

theorem names_nodup : (Default.families.map (·.name)).Nodup := by decide +kernel

theorem bank_split : ∀ (l : List Family), (l.map (·.name)).Nodup → ∀ f ∈ l, ∀ k < f.cdfs.length,
    (l.flatMap Family.cdfs)[((l.takeWhile fun g => g.name ≠ f.name).map fun g => g.cdfs.length).sum + k]? = f.cdfs[k]?
  | [], _, f, hf, _, _ => by cases hf
  | g :: l, hn, f, hf, k, hk => by
    rw [List.map_cons, List.nodup_cons] at hn
    rw [List.flatMap_cons]
    by_cases hg : g.name = f.name
    · have : f = g := by
        rcases List.mem_cons.1 hf with h | h
        · exact h
        · exact absurd (List.mem_map_of_mem (f := (·.name)) h) (by rw [← hg]; exact hn.1)
      subst this
      rw [List.takeWhile_cons_of_neg (by simp)]
      simp only [List.map_nil, List.sum_nil, Nat.zero_add]
      exact List.getElem?_append_left hk
    · have hfl : f ∈ l := by
        rcases List.mem_cons.1 hf with h | h
        · exact absurd (by rw [h]) hg
        · exact h
      rw [List.takeWhile_cons_of_pos (by simpa using hg), List.map_cons, List.sum_cons, Nat.add_assoc,
        List.getElem?_append_right (by omega), Nat.add_sub_cancel_left]
      exact bank_split l hn.2 f hfl k hk

/-- A table in range is a legal range coder call on the default tables. -/
theorem op_ok (s : Sel) (h : s.InTable) : OpOk defaultBank s.op := by
  obtain ⟨hf, hd⟩ := h
  obtain ⟨hp, n, hn, hs0, hsn⟩ := inDims_pos _ _ _ hd
  obtain ⟨hlen, hall⟩ := C10_default_tables s.fam hf
  have hk : tablePos s.idx s.fam.dims < s.fam.cdfs.length := by rw [hlen]; exact hp
  refine ⟨s.fam.cdfs[tablePos s.idx s.fam.dims], ?_, ?_⟩
  · have := bank_split _ names_nodup s.fam hf _ hk
    rw [List.getElem?_eq_getElem hk] at this
    exact this
  · have hl := (hall _ (List.getElem_mem hk)).1
    rw [hn] at hl
    injection hl with hl
    unfold symbols
    omega

/-- **C43** with the coder: any sequence of sound calls, with whatever neighbours each of them sees, is coded without a
panic, and a decoder that makes the same table choices reads back exactly the symbols. -/
theorem C43_elements_lossless_partial (es : List (Elem × Nbrs))
    (h : ∀ p ∈ es, p.2.Valid ∧ p.1.Legal p.2 ∧ p.1.Sound p.2) (c : BoolCoder) :
    ∃ sels, es.mapM (fun p => p.1.select p.2) = some sels ∧
    ∃ c' bits bank', encodeSession c defaultBank (sels.map Sel.op) = some (c', bits, bank') ∧
      ∀ (d : BoolCoder) (sz : Nat) (rest : Bits), ∃ d' left,
        decodeSession d (bits ++ rest) sz defaultBank ((sels.map Sel.op).map Op.req) =
          some (sels.map (fun s => [s.sym.toNat]), d', left, bank') := by
  have hsel : ∀ es : List (Elem × Nbrs), (∀ p ∈ es, p.2.Valid ∧ p.1.Legal p.2 ∧ p.1.Sound p.2) →
      ∃ sels, es.mapM (fun p => p.1.select p.2) = some sels ∧ ∀ s ∈ sels, s.InTable := by
    intro es
    induction es with
    | nil => exact fun _ => ⟨[], rfl, nofun⟩
    | cons p ps ih =>
      intro hp
      obtain ⟨ss, hss, hin⟩ := ih fun q hq => hp q (List.mem_cons_of_mem _ hq)
      obtain ⟨h1, h2, h3⟩ := hp p List.mem_cons_self
      obtain ⟨s, hs, hi⟩ := C43_tables_partial p.1 p.2 h1 h2 h3
      refine ⟨s :: ss, by simp only [List.mapM_cons, hs, hss]; rfl, ?_⟩
      intro t ht
      rcases List.mem_cons.1 ht with rfl | ht
      · exact hi
      · exact hin t ht
  obtain ⟨sels, h1, h2⟩ := hsel es h
  refine ⟨sels, h1, ?_⟩
  obtain ⟨c', bits, bank', h3, h4⟩ := C10_lossless_from_defaults (sels.map Sel.op) (by
    intro op hop
    obtain ⟨s, hs, rfl⟩ := List.mem_map.1 hop
    exact op_ok s (h2 s hs)) c
  refine ⟨c', bits, bank', h3, fun d sz rest => ?_⟩
  obtain ⟨d', left, h5⟩ := h4 d sz rest
  refine ⟨d', left, ?_⟩
  rw [h5]
  congr 2
  rw [List.map_map]
  rfl

/-- A non-trivial case: an inter block above, none on the left. -/
example : let mi : ModeInfo := ⟨3, 1, 0, true, true, false, true, 1, 1, 7, -1, 2, 1, [5, 0, 0], [1, 0, 0], [0, 0, 0], 0, 1, 13⟩
    let nb : Nbrs := ⟨some mi, none, none⟩
    mi.Valid ∧ ((Elem.compGroupIdx 1).select nb).map (fun s => (s.fam.name, s.idx, s.sym)) = some ("comp_group_idx", [3], 1) ∧
    ((Elem.skip 0).select nb).map (fun s => (s.fam.name, s.idx, s.sym)) = some ("skip", [1], 0) ∧
    ((Elem.singleRefP1 1).select nb).map (fun s => (s.fam.name, s.idx, s.sym)) = some ("single_ref", [0, 0], 1) :=
  ⟨by constructor <;> decide, by decide, by decide, by decide⟩

end Av1
