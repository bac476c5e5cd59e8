import Verif.Spec.Elements
import Verif.Lemmas.Elements

/-!
# C58, C59, C62 — transform sets and transform types
-/

namespace Av1

/-- The transform set of the AV1 specification (`get_tx_set`) for a block of `w`×`h`
pixels. -/
def av1TxSet (w h : Nat) (isInter reduced : Bool) : TxSet :=
  if max w h > 32 then .dctOnly
  else if isInter then
    if reduced || max w h == 32 then .inter3 else if min w h == 16 then .inter2 else .inter1
  else if max w h == 32 then .dctOnly
  else if reduced || min w h == 16 then .intra2
  else .intra1

/-- What the program says about a transform type: `is_tx_type_in_set(get_tx_set(..), t)`. -/
def offered (txSize t : Nat) (isInter reduced : Bool) : Option Bool := do
  let s ← getTxSet txSize isInter reduced
  isTxTypeInSet s t isInter

/-! ## C58 — a transform type is offered exactly if AV1 allows it -/

def C58_full : Prop := ∀ txSize w h t isInter reduced, txDims[txSize]? = some (w, h) → t < 16 →
  offered txSize t isInter reduced = some (decide (t ∈ (av1TxSet w h isInter reduced).types))

/-- The inter sets are numbered from 0 while their table starts with the DCT-only row: a 4×4 inter block gets only the
DCT, a 16×16 one gets all types, a 32×32 one gets 12 types instead of 2. -/
theorem C58_negation : ¬ C58_full ∧ offered 0 1 true false = some false ∧ 1 ∈ (av1TxSet 4 4 true false).types ∧
    offered 2 15 true false = some true ∧ 15 ∉ (av1TxSet 16 16 true false).types ∧
    offered 3 1 true false = some true ∧ 1 ∉ (av1TxSet 32 32 true false).types := by
  refine ⟨fun h => ?_, by decide, by decide, by decide, by decide, by decide, by decide⟩
  have := h 0 4 4 1 true false rfl (by decide)
  revert this; decide

/-- Intra blocks, blocks with a 64-point side and the DCT itself are right. -/
theorem C58_sets_partial (txSize w h t : Nat) (isInter reduced : Bool) (hd : txDims[txSize]? = some (w, h)) (ht : t < 16)
    (hc : isInter = false ∨ max w h = 64 ∨ t = 0) :
    offered txSize t isInter reduced = some (decide (t ∈ (av1TxSet w h isInter reduced).types)) := by
  have key := forall_tx (P := fun tx d => ∀ t < 16, ∀ a b : Bool, (a = false ∨ max d.1 d.2 = 64 ∨ t = 0) →
    offered tx t a b = some (decide (t ∈ (av1TxSet d.1 d.2 a b).types))) (by decide +kernel)
  exact key txSize (w, h) hd t ht isInter reduced hc

/-- The set before the given one in AV1's table of inter sets (DCT only, 1, 2, 3). -/
def TxSet.before : TxSet → TxSet
  | .inter3 => .inter2
  | .inter2 => .inter1
  | .inter1 => .dctOnly
  | .dctOnly => .dctOnly
  | .intra1 => .intra1
  | .intra2 => .intra2

/-- What inter blocks get instead: the set before theirs. -/
theorem C58_inter (txSize w h t : Nat) (reduced : Bool) (hd : txDims[txSize]? = some (w, h)) (ht : t < 16) :
    offered txSize t true reduced = some (decide (t ∈ (av1TxSet w h true reduced).before.types)) := by
  have key := forall_tx (P := fun tx d => ∀ t < 16, ∀ b : Bool,
    offered tx t true b = some (decide (t ∈ (av1TxSet d.1 d.2 true b).before.types))) (by decide +kernel)
  exact key txSize (w, h) hd t ht reduced

/-- So a type is judged rightly exactly for intra blocks and where the two sets agree on it. -/
theorem C58_iff (txSize w h t : Nat) (isInter reduced : Bool) (hd : txDims[txSize]? = some (w, h)) (ht : t < 16) :
    offered txSize t isInter reduced = some (decide (t ∈ (av1TxSet w h isInter reduced).types)) ↔
      (isInter = true → (t ∈ (av1TxSet w h true reduced).before.types ↔ t ∈ (av1TxSet w h true reduced).types)) := by
  cases isInter
  · simp only [C58_sets_partial txSize w h t false reduced hd ht (Or.inl rfl), Bool.false_eq_true, false_imp_iff]
  · rw [C58_inter txSize w h t reduced hd ht]
    simp only [Option.some.injEq, decide_eq_decide, true_imp_iff]

example : (av1TxSet 16 16 true false).before = .inter1 ∧ (av1TxSet 4 4 true false).before = .dctOnly := by decide

/-! ## C59 — the transform type used for a block is one AV1 allows for it -/

def C59_full : Prop := ∀ (e : Sel.TxEnv) (w h : Nat), e.Ok → txDims[e.txSize]? = some (w, h) →
  ∃ t, e.txType = some t ∧ t ∈ (av1TxSet w h e.isInter e.reduced).types

/-- A 32×32 inter block whose stored type is ADST_DCT keeps it; AV1 has only the DCT and the identity there. -/
theorem C59_negation : ¬ C59_full := by
  intro h
  let e : Sel.TxEnv := ⟨fun _ _ => some 1, false, false, 0, 3, 0, 0, false, true, false, 0, 0, 0⟩
  obtain ⟨t, h1, h2⟩ := h e 32 32 ⟨by decide, by decide, fun _ _ => ⟨1, rfl, by decide⟩⟩ rfl
  have : e.txType = some 1 := by decide
  rw [this] at h1
  cases h1
  revert h2; decide

/-- Intra blocks, inter blocks up to 8 pixels on the short and 16 on the long side, lossless blocks and 64-point blocks
get an allowed type. -/
theorem C59_allowed_partial (e : Sel.TxEnv) (w h : Nat) (he : e.Ok) (hd : txDims[e.txSize]? = some (w, h))
    (hc : e.isInter = false ∨ e.lossless = true ∨ max w h = 64 ∨ (e.reduced = false ∧ max w h ≤ 16 ∧ min w h ≤ 8)) :
    ∃ t, e.txType = some t ∧ t ∈ (av1TxSet w h e.isInter e.reduced).types := by
  have zero : ∀ w h a b, 0 ∈ (av1TxSet w h a b).types := by
    intro w h a b
    have : ∀ s : TxSet, 0 ∈ s.types := by intro s; cases s <;> decide
    exact this _
  have step := forall_tx (P := fun tx d => ∀ t < 16, ∀ a b : Bool, (a = false ∨ (b = false ∧ max d.1 d.2 ≤ 16 ∧ min d.1 d.2 ≤ 8)) →
    ((getTxSet tx a b).bind fun s => txTypeOrDct s t a).any (fun r => decide (r ∈ (av1TxSet d.1 d.2 a b).types)) = true)
    (by decide +kernel)
  have hup := forall_tx (P := fun tx d => (K.tx_size_sqr_up[tx]?).any (fun u => decide (u > K.TX_32X32) ==
      decide (max d.1 d.2 > 32)) = true) (by decide +kernel)
  have hu := hup e.txSize (w, h) hd
  have use : ∀ t < 16, ¬ (max w h > 32) → e.lossless = false →
      ∃ r, ((getTxSet e.txSize e.isInter e.reduced).bind fun s => txTypeOrDct s t e.isInter) = some r ∧
        r ∈ (av1TxSet w h e.isInter e.reduced).types := by
    intro t ht hm hlo
    have hcond : e.isInter = false ∨ (e.reduced = false ∧ max w h ≤ 16 ∧ min w h ≤ 8) := by
      rcases hc with h | h | h | h
      · exact Or.inl h
      · rw [hlo] at h; cases h
      · omega
      · exact Or.inr h
    have := step e.txSize (w, h) hd t ht e.isInter e.reduced hcond
    cases hq : ((getTxSet e.txSize e.isInter e.reduced).bind fun s => txTypeOrDct s t e.isInter) with
    | none => rw [hq] at this; cases this
    | some r => rw [hq] at this; exact ⟨r, rfl, by simpa using this⟩
  unfold Sel.TxEnv.txType computeTxType
  cases hq : K.tx_size_sqr_up[e.txSize]? with
  | none => rw [hq] at hu; cases hu
  | some up =>
    rw [hq] at hu
    simp only [Option.any_some, beq_iff_eq, decide_eq_decide] at hu
    simp only [Option.bind_eq_bind, Option.bind_some]
    split
    · exact ⟨0, rfl, zero _ _ _ _⟩
    · rename_i hn
      simp only [Bool.or_eq_true, decide_eq_true_eq, not_or, Bool.not_eq_true] at hn
      have hm : ¬ (max w h > 32) := fun hx => hn.2 (hu.2 hx)
      have fin : ∀ o : Option Nat, (∃ t, o = some t ∧ t < 16) → ∃ r, ((getTxSet e.txSize e.isInter e.reduced).bind fun s =>
          o.bind fun t => txTypeOrDct s t e.isInter) = some r ∧ r ∈ (av1TxSet w h e.isInter e.reduced).types := by
        rintro o ⟨t, rfl, ht⟩
        exact use t ht hm hn.1
      have hmode : ∃ t, K.mode_to_txfm[e.uvMode]? = some t ∧ t < 16 := by
        have : ∀ u < 14, (K.mode_to_txfm[u]?).any (· < 16) = true := by decide
        have := this e.uvMode he.uv
        cases hx : K.mode_to_txfm[e.uvMode]? with
        | none => rw [hx] at this; cases this
        | some t => rw [hx] at this; exact ⟨t, rfl, by simpa using this⟩
      by_cases hp : e.plane = 0
      · simp only [if_pos hp]; exact fin _ (he.stored _ _)
      · simp only [if_neg hp]
        by_cases hi : e.isInter = true
        · simp only [if_pos hi]; exact fin _ (he.stored _ _)
        · simp only [if_neg hi]; exact fin _ hmode

/-- The luma type of an inter block: the stored one if it is in the set before AV1's, else the DCT. -/
theorem C59_inter_luma (e : Sel.TxEnv) (w h t : Nat) (hd : txDims[e.txSize]? = some (w, h)) (hi : e.isInter = true)
    (hl : e.lossless = false) (hp : e.plane = 0) (hs : e.at_ e.miRow e.miCol = some t) (ht : t < 16) :
    ∃ r, e.txType = some r ∧ r = (if t ∈ (av1TxSet w h true e.reduced).before.types then t else 0) ∧
      (r ∈ (av1TxSet w h true e.reduced).types ↔
        (t ∈ (av1TxSet w h true e.reduced).before.types → t ∈ (av1TxSet w h true e.reduced).types)) := by
  have zero : 0 ∈ (av1TxSet w h true e.reduced).types := by
    have : ∀ s : TxSet, 0 ∈ s.types := by intro s; cases s <;> decide
    exact this _
  have hup := forall_tx (P := fun tx d => ∀ t < 16, ∀ b : Bool,
    ((K.tx_size_sqr_up[tx]?).bind fun up => if decide (up > K.TX_32X32) then some K.DCT_DCT else
      (getTxSet tx true b).bind fun s => txTypeOrDct s t true) =
      some (if t ∈ (av1TxSet d.1 d.2 true b).before.types then t else 0)) (by decide +kernel)
  have hu := hup e.txSize (w, h) hd t ht e.reduced
  refine ⟨_, ?_, rfl, ?_⟩
  · rw [← hu]
    unfold Sel.TxEnv.txType computeTxType
    simp only [hi, hl, hp, hs, Bool.false_or, if_true, Option.bind_eq_bind, Option.bind_some]
  · split
    · next hb => simp only [hb, true_imp_iff]
    · next hb => simp only [hb, false_imp_iff, zero]

/-- The luma block whose type an inter block takes: its own, or the one under the chroma block. -/
def Sel.TxEnv.source (e : Sel.TxEnv) : Option Nat :=
  if e.plane = 0 then e.at_ e.miRow e.miCol
  else e.at_ (max e.miRow (e.blockY * 2 ^ e.ssy.toNat)) (max e.miCol (e.blockX * 2 ^ e.ssx.toNat))

/-- **C59**, exactly: a block gets a type that AV1 allows iff it is an intra block, or lossless, or the type stored for the luma
block is not one that only the set before AV1's has. -/
theorem C59_iff (e : Sel.TxEnv) (w h : Nat) (he : e.Ok) (hd : txDims[e.txSize]? = some (w, h)) :
    (∃ t, e.txType = some t ∧ t ∈ (av1TxSet w h e.isInter e.reduced).types) ↔
      e.isInter = false ∨ e.lossless = true ∨
        ∀ t, e.source = some t → t ∈ (av1TxSet w h true e.reduced).before.types → t ∈ (av1TxSet w h true e.reduced).types := by
  by_cases hi : e.isInter = true
  · by_cases hl : e.lossless = true
    · simp only [hl, true_or, or_true, iff_true]
      exact C59_allowed_partial e w h he hd (.inr (.inl hl))
    · simp only [Bool.not_eq_true] at hl
      simp only [hi, hl, Bool.true_eq_false, Bool.false_eq_true, false_or]
      obtain ⟨t, ht, ht16⟩ : ∃ t, e.source = some t ∧ t < 16 := by
        unfold Sel.TxEnv.source; split <;> exact he.stored _ _
      have e1 : e.txType = ({ e with plane := 0, at_ := fun _ _ => some t } : Sel.TxEnv).txType := by
        unfold Sel.TxEnv.source at ht
        unfold Sel.TxEnv.txType computeTxType
        simp only [hi, if_true, Option.bind_eq_bind, Option.bind_some]
        split at ht
        · rename_i hp; simp only [hp, if_true, ht, Option.bind_some]
        · rename_i hp; simp only [hp, if_false, Nat.shiftLeft_eq, ht, Option.bind_some]
      obtain ⟨r, r1, -, r3⟩ := C59_inter_luma { e with plane := 0, at_ := fun _ _ => some t } w h t hd hi hl rfl rfl ht16
      rw [e1]
      constructor
      · rintro ⟨t', h1, h2⟩ t2 h3
        rw [ht] at h3; cases h3
        rw [r1] at h1; cases h1
        exact r3.1 h2
      · intro H
        exact ⟨r, r1, r3.2 (H t ht)⟩
  · simp only [Bool.not_eq_true] at hi
    simp only [hi, true_or, iff_true]
    have := C59_allowed_partial e w h he hd (.inl hi)
    rwa [hi] at this

example : ∃ e : Sel.TxEnv, e.isInter = true ∧ e.txType = some 5 ∧ 5 ∉ (av1TxSet 32 32 true false).types ∧ txDims[e.txSize]? = some (32, 32) :=
  ⟨⟨fun _ _ => some 5, false, false, 0, 3, 0, 0, false, true, false, 0, 0, 0⟩, rfl, by decide, by decide, rfl⟩

/-! ## C62 — the coded transform type decodes to itself -/

/-- `Tx_Type_Intra_Inv_Set1` … of the AV1 specification: the type a symbol stands for. -/
def TxSet.decode : TxSet → List Nat
  | .dctOnly => [0]
  | .intra1 => [9, 0, 10, 11, 3, 1, 2]
  | .intra2 => [9, 0, 3, 1, 2]
  | .inter1 => [9, 10, 11, 12, 13, 14, 15, 0, 1, 2, 4, 5, 3, 6, 7, 8]
  | .inter2 => [9, 10, 11, 0, 1, 2, 4, 5, 3, 6, 7, 8]
  | .inter3 => [9, 0]

/-- The symbol tables of the specification are enumerations of the sets, so they can be inverted. -/
theorem decode_enumerates (s : TxSet) : s.decode.Nodup ∧ ∀ t, t ∈ s.decode ↔ t ∈ s.types := by
  have h1 : s.decode.Nodup := by cases s <;> decide
  have h2 : s.decode.Perm s.types := by cases s <;> decide
  exact ⟨h1, fun t => h2.mem_iff⟩

/-- The number the program uses for a set. -/
def TxSet.code : TxSet → Nat
  | .dctOnly => K.TX_SET_DCTONLY
  | .intra1 => K.TX_SET_INTRA_1
  | .intra2 => K.TX_SET_INTRA_2
  | .inter1 => K.TX_SET_INTER_1
  | .inter2 => K.TX_SET_INTER_2
  | .inter3 => K.TX_SET_INTER_3

/-- The symbol the program codes for type `t` of set `s` of a block of size `txSize`. -/
def codedTxSymbol (s : TxSet) (t txSize yMode : Nat) : Option Int :=
  match s with
  | .dctOnly => none
  | .intra1 | .intra2 => (Sel.intraTxType t s.code txSize false 0 yMode).map (·.sym)
  | .inter1 | .inter2 | .inter3 => (Sel.interTxType t txSize s.code).map (·.sym)

def C62_full : Prop := ∀ (s : TxSet) (t txSize yMode : Nat), s ≠ .dctOnly → t ∈ s.types → txSize < 19 → yMode < 13 →
  ∃ k : Nat, codedTxSymbol s t txSize yMode = some (k : Int) ∧ s.decode[k]? = some t

/-- The raw type is written as the symbol. -/
theorem coded_raw (s : TxSet) (t txSize yMode : Nat) (hs : s ≠ .dctOnly) (hx : txSize < 19) :
    codedTxSymbol s t txSize yMode = some (t : Int) := by
  have hq : ∀ x < 19, (K.tx_size_sqr[x]?).isSome = true := by decide
  obtain ⟨q, hq⟩ := Option.isSome_iff_exists.mp (hq txSize hx)
  cases s
  · exact absurd rfl hs
  all_goals simp [codedTxSymbol, Sel.intraTxType, Sel.interTxType, hq]

/-- No transform type of any set is read back by a decoder: the symbol written for `t` never stands for `t`. -/
theorem C62_never (s : TxSet) (t txSize yMode : Nat) (hs : s ≠ .dctOnly) (ht : t ∈ s.types) (hx : txSize < 19) :
    ∃ k : Nat, codedTxSymbol s t txSize yMode = some (k : Int) ∧ s.decode[k]? ≠ some t := by
  refine ⟨t, coded_raw s t txSize yMode hs hx, ?_⟩
  have key : ∀ s : TxSet, s ≠ .dctOnly → ∀ t ∈ s.types, s.decode[t]? ≠ some t := by
    intro s; cases s <;> decide
  exact key s hs t ht

theorem C62_negation : ¬ C62_full := by
  intro h
  obtain ⟨k, h1, h2⟩ := h .intra1 0 0 0 (by decide) (by decide) (by decide) (by decide)
  rw [coded_raw _ _ _ _ (by decide) (by decide)] at h1
  injection h1 with h1
  have : k = 0 := by omega
  subst this
  revert h2; decide

/-- What remains: different types of a set give different symbols, so the information is in the stream, under a numbering
no AV1 decoder uses. -/
theorem C62_injective_partial (s : TxSet) (t u txSize yMode : Nat) (hs : s ≠ .dctOnly) (hx : txSize < 19)
    (h : codedTxSymbol s t txSize yMode = codedTxSymbol s u txSize yMode) : t = u := by
  rw [coded_raw s t _ _ hs hx, coded_raw s u _ _ hs hx] at h
  injection h with h
  omega

end Av1
