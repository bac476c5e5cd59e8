import Verif.Model.Search
import Mathlib.Tactic.IntervalCases

/-! # C39: the partition search -/

namespace Av1

section
variable {σ ω β : Type}

/-- Specification: the first candidate that may be used at a position. -/
def firstAllowed (cands : Nat → Nat → Nat → List Nat) (miRows miCols r c bs : Nat) : Option Nat :=
  (cands r c bs).find? fun p => allowedPart p bs r c miRows miCols == some true

/-- Specification: encoding without a search, the partition type of every square being known beforehand. -/
def withoutSearch (E : Enc σ ω β) (choice : Nat → Nat → Nat → Option Nat) (miRows miCols : Nat) :=
  partSearch E (fun r c bs => (choice r c bs).toList) miRows miCols

/-- The candidates never start with a split where the square reaches into the frame on both sides of a middle line. -/
def SplitLate (cands : Nat → Nat → Nat → List Nat) (miRows miCols : Nat) : Prop :=
  ∀ r c bs half, r < miRows → c < miCols → halfBlock bs = some half →
    firstAllowed cands miRows miCols r c bs = some K.PARTITION_SPLIT → miRows ≤ r + half ∧ miCols ≤ c + half

/-- **C39**, full claim: encoding a square with the search of the code writes the bits, and leaves the coder, the tables
and the tree, of an encoder that knew the partition types, and in particular it finishes when that encoder does. -/
def C39_full : Prop := ∀ (σ ω β : Type) (E : Enc σ ω β) (miRows miCols fuel r c : Nat) (s : σ) (w : ω) (t : PTree β),
  6 ≤ fuel → t.bsize ∈ [K.BLOCK_8X8, K.BLOCK_16X16, K.BLOCK_32X32, K.BLOCK_64X64, K.BLOCK_128X128] →
  r % 2 = 0 → c % 2 = 0 → miRows % 2 = 0 → miCols % 2 = 0 →
  ∀ s' w' t' b,
    withoutSearch E (firstAllowed (fun _ _ _ => codeCands) miRows miCols) miRows miCols fuel s w r c t = some (s', w', t', b) →
    ∃ w'', partSearch E (fun _ _ _ => codeCands) miRows miCols fuel s w r c t = some (s', w'', t', b)

theorem encBlock_bsize {E : Enc σ ω β} {s : σ} {w : ω} {r c : Nat} {t : PTree β} {x : Ran σ ω β}
    (h : encBlock E s w r c t = some x) : x.2.2.1.bsize = t.bsize := by
  obtain ⟨bs, p, i, ps⟩ := t
  simp only [encBlock, Option.bind_eq_bind, Option.bind_eq_some_iff] at h
  obtain ⟨_, -, _, -, ⟨s1, w1, i1, b1⟩, -, h⟩ := h
  cases h
  rfl

theorem tryPart_bsize {E : Enc σ ω β} {rec} {mR mC r c p : Nat} {s : σ} {w : ω} {t : PTree β} {x : Ran σ ω β}
    (h : tryPart E rec mR mC r c p s w t = some x) : x.2.2.1.bsize = t.bsize := by
  simp only [tryPart, Option.bind_eq_bind, Option.bind_eq_some_iff] at h
  obtain ⟨half, -, ⟨s1, b0⟩, -, qs, -, h⟩ := h
  split at h
  · simp only [Option.bind_eq_some_iff] at h
    obtain ⟨⟨s2, w2, t2, b1⟩, h2, h⟩ := h
    cases h
    have := encBlock_bsize h2
    exact this
  · simp only [Option.bind_eq_some_iff] at h
    obtain ⟨⟨s2, w2, ts, b1⟩, h2, h⟩ := h
    cases h
    rfl

/-- A candidate that panics makes the loop panic, wherever it stands. -/
theorem tryAll_panics {E : Enc σ ω β} {rec} {mR mC r c p bs : Nat} (hok : allowedPart p bs r c mR mC = some true)
    (hp : ∀ s w t, t.bsize = bs → tryPart E rec mR mC r c p s w t = none) :
    ∀ (ps : List Nat) (s : σ) (w : ω) (t : PTree β) (best : Best σ β), p ∈ ps → t.bsize = bs →
      tryAll E rec mR mC r c ps s w t best = none := by
  intro ps
  induction ps with
  | nil => intro s w t best h; cases h
  | cons q ps ih =>
    intro s w t best hm ht
    by_cases hq : q = p
    · subst hq
      simp [tryAll, ht, hok, hp s w t ht]
    · have hm' : p ∈ ps := by
        rcases List.mem_cons.1 hm with h | h
        · exact absurd h.symm hq
        · exact h
      unfold tryAll
      cases ha : allowedPart q t.bsize r c mR mC with
      | none => rfl
      | some ok =>
        cases ok with
        | false => simpa using ih s w t best hm' ht
        | true =>
          cases hx : tryPart E rec mR mC r c q s w t with
          | none => simp
          | some x =>
            obtain ⟨s1, w1, t1, b1⟩ := x
            simpa using ih s1 w1 t1 _ hm' ((tryPart_bsize hx).trans ht)

/-- Once a candidate has cost 0, it stays. -/
theorem tryAll_kept {E : Enc σ ω β} {rec} {mR mC r c : Nat} :
    ∀ (ps : List Nat) (s : σ) (w : ω) (t : PTree β) (best : Best σ β), best.cost = 0 →
      ∀ x, tryAll E rec mR mC r c ps s w t best = some x → x.2 = best := by
  intro ps
  induction ps with
  | nil => intro s w t best _ x h; cases h; rfl
  | cons q ps ih =>
    intro s w t best hb x h
    unfold tryAll at h
    cases ha : allowedPart q t.bsize r c mR mC with
    | none => rw [ha] at h; cases h
    | some ok =>
      rw [ha] at h
      cases ok with
      | false => exact ih s w t best hb x (by simpa using h)
      | true =>
        cases hx : tryPart E rec mR mC r c q s w t with
        | none => simp [hx] at h
        | some y =>
          obtain ⟨s1, w1, t1, b1⟩ := y
          exact ih s1 w1 t1 best hb x (by simpa [hx, hb] using h)

/-- The loop keeps the first allowed candidate, encoded from the state before the loop. -/
theorem tryAll_first {E : Enc σ ω β} {rec} {mR mC r c : Nat} (s : σ) (w : ω) (t : PTree β) (best : Best σ β)
    (hb : 0 < best.cost) : ∀ (ps : List Nat) x, tryAll E rec mR mC r c ps s w t best = some x →
      match ps.find? fun p => allowedPart p t.bsize r c mR mC == some true with
      | none => x = (w, best)
      | some p => ∃ s1 w1 t1 b1, tryPart E rec mR mC r c p s w t = some (s1, w1, t1, b1) ∧ x.2 = ⟨0, s1, t1, b1⟩ := by
  intro ps
  induction ps with
  | nil => intro x h; cases h; rfl
  | cons q ps ih =>
    intro x h
    unfold tryAll at h
    cases ha : allowedPart q t.bsize r c mR mC with
    | none => rw [ha] at h; cases h
    | some ok =>
      rw [ha] at h
      cases ok with
      | false =>
        rw [List.find?_cons_of_neg (by simp [ha])]
        exact ih x (by simpa using h)
      | true =>
        rw [List.find?_cons_of_pos (by simp [ha])]
        cases hx : tryPart E rec mR mC r c q s w t with
        | none => simp [hx] at h
        | some y =>
          obtain ⟨s1, w1, t1, b1⟩ := y
          refine ⟨s1, w1, t1, b1, hx, ?_⟩
          rw [tryAll_kept ps s1 w1 t1 ⟨0, s1, t1, b1⟩ rfl x (by simpa [hx, hb] using h)]

/-- Out of the frame nothing happens. -/
theorem partSearch_out {E : Enc σ ω β} {cands} {mR mC f : Nat} {s : σ} {w : ω} {r c : Nat} {t : PTree β}
    (h : mR ≤ r ∨ mC ≤ c) : partSearch E cands mR mC (f + 1) s w r c t = some (s, w, t, []) := by
  unfold partSearch
  rw [if_pos h]

/-- Parts that are blocks do not use the recursion. -/
theorem encParts_blocks {E : Enc σ ω β} {rec rec'} : ∀ (qs : List Part), (∀ q ∈ qs, q.square = false) → ∀ (s : σ) (w : ω),
    encParts E rec qs s w = encParts E rec' qs s w := by
  intro qs
  induction qs with
  | nil => intro _ s w; rfl
  | cons q qs ih =>
    intro h s w
    simp only [encParts, h q (by simp), if_neg (Bool.false_ne_true)]
    congr 1
    funext x
    obtain ⟨s1, w1, t, b1⟩ := x
    simp only [ih (fun q hq => h q (List.mem_cons_of_mem _ hq)) s1 w1]

theorem partsOf_blocks {p bs r c mR mC : Nat} {qs : List Part} (h : partsOf p bs r c mR mC = some qs)
    (hp : p ≠ K.PARTITION_SPLIT) : ∀ q ∈ qs, q.square = false := by
  simp only [partsOf, Option.bind_eq_bind, Option.bind_eq_some_iff] at h
  obtain ⟨half, -, sub, -, split, -, h⟩ := h
  have key : ∀ (l : List Part), some l = some qs → (∀ q ∈ l, q.square = false) → ∀ q ∈ qs, q.square = false := by
    intro l hl h2; cases hl; exact h2
  repeat' split at h
  all_goals first
    | exact absurd (by assumption) hp
    | exact key _ h (by simp)
    | cases h

theorem partsOf_split {bs r c mR mC : Nat} {qs : List Part} (h : partsOf K.PARTITION_SPLIT bs r c mR mC = some qs) :
    ∃ half sub, halfBlock bs = some half ∧ subSize K.PARTITION_SPLIT bs = some sub ∧
      qs = [⟨r, c, sub, true⟩, ⟨r, c + half, sub, true⟩, ⟨r + half, c, sub, true⟩, ⟨r + half, c + half, sub, true⟩] := by
  simp only [partsOf, Option.bind_eq_bind, Option.bind_eq_some_iff] at h
  obtain ⟨half, h1, sub, h2, split, -, h⟩ := h
  refine ⟨half, sub, h1, h2, ?_⟩
  simpa [K.PARTITION_SPLIT, K.PARTITION_NONE, K.PARTITION_HORZ, K.PARTITION_VERT, eq_comm] using h

/-- **C39** for the searches that finish: whatever the candidates are (as long as no split comes first where more than one
quarter lies in the frame), the bits, the coder with its tables and the tree after the search are those of encoding only
the first allowed candidate at every square, from the same state.  Missing: the state outside the coder is not restored
(`C39_state_left`), and with the candidates of the code no search finishes (`C39_never`). -/
theorem C39_first_partial (E : Enc σ ω β) (cands : Nat → Nat → Nat → List Nat) (miRows miCols : Nat)
    (hlate : SplitLate cands miRows miCols) : ∀ (fuel r c : Nat) (s : σ) (w : ω) (t : PTree β) s' w' t' b,
    partSearch E cands miRows miCols fuel s w r c t = some (s', w', t', b) →
    ∃ w'', withoutSearch E (firstAllowed cands miRows miCols) miRows miCols fuel s w r c t = some (s', w'', t', b) := by
  intro fuel
  induction fuel with
  | zero => intro r c s w t s' w' t' b h; cases h
  | succ f ih =>
    intro r c s w t s' w' t' b h
    by_cases hout : miRows ≤ r ∨ miCols ≤ c
    · rw [partSearch_out hout] at h
      cases h
      exact ⟨w, partSearch_out hout⟩
    have hin : ¬ (r ≥ miRows ∨ c ≥ miCols) := hout
    push Not at hout
    unfold partSearch at h
    rw [if_neg hin] at h
    simp only [Option.bind_eq_bind, Option.bind_eq_some_iff] at h
    obtain ⟨half, hhalf, ⟨w1, best⟩, hall, h⟩ := h
    simp only [Option.some.injEq, Prod.mk.injEq] at h
    obtain ⟨rfl, rfl, rfl, rfl⟩ := h
    have hfirst := tryAll_first s (E.enter w r c) t ⟨2 ^ 64 - 1, s, t, []⟩ (by norm_num) _ _ hall
    unfold withoutSearch partSearch
    rw [if_neg hin, hhalf]
    simp only [Option.bind_eq_bind, Option.bind_some]
    cases hc : firstAllowed cands miRows miCols r c t.bsize with
    | none =>
      unfold firstAllowed at hc
      rw [hc] at hfirst
      cases hfirst
      exact ⟨_, rfl⟩
    | some p =>
      have hc' := hc
      unfold firstAllowed at hc'
      rw [hc'] at hfirst
      obtain ⟨s1, w2, t1, b1, htry, hbest⟩ := hfirst
      have hok : allowedPart p t.bsize r c miRows miCols = some true := by simpa using List.find?_some hc'
      simp only at hbest
      subst hbest
      -- the same candidate with the recursion that does not search
      have key : ∃ w3, tryPart E (withoutSearch E (firstAllowed cands miRows miCols) miRows miCols f) miRows miCols r c p s
          (E.enter w r c) t = some (s1, w3, t1, b1) := by
        simp only [tryPart, Option.bind_eq_bind, Option.bind_eq_some_iff] at htry
        obtain ⟨half', hh', ⟨s2, b0⟩, hsym, qs, hqs, htry⟩ := htry
        rw [hhalf] at hh'
        cases hh'
        simp only [tryPart, hhalf, hsym, hqs, Option.bind_eq_bind, Option.bind_some]
        by_cases hp0 : p = K.PARTITION_NONE
        · rw [if_pos hp0] at htry ⊢
          exact ⟨w2, by simpa using htry⟩
        rw [if_neg hp0] at htry ⊢
        by_cases hp3 : p = K.PARTITION_SPLIT
        · subst hp3
          obtain ⟨hr, hcc⟩ := hlate r c t.bsize half hout.1 hout.2 hhalf hc
          obtain ⟨half', sub, hh', -, rfl⟩ := partsOf_split hqs
          rw [hhalf] at hh'
          cases hh'
          cases f with
          | zero =>
            simp [encParts, partSearch] at htry
          | succ f =>
            simp only [encParts, if_true, partSearch_out (Or.inr hcc), partSearch_out (Or.inl hr), Option.bind_some,
              Option.bind_eq_bind, Option.bind_eq_some_iff] at htry
            obtain ⟨⟨s3, w3, ts, b3⟩, ⟨⟨s4, w4, t4, b4⟩, hrec, hx⟩, hfin⟩ := htry
            cases hx
            cases hfin
            obtain ⟨w5, h5⟩ := ih _ _ _ _ _ _ _ _ _ hrec
            refine ⟨w5, ?_⟩
            simp only [encParts, if_true, h5, Option.bind_some, Option.bind_eq_bind]
            unfold withoutSearch
            simp only [partSearch_out (Or.inr hcc), partSearch_out (Or.inl hr), Option.bind_some]
        · rw [encParts_blocks qs (partsOf_blocks hqs hp3) s2 (E.enter w r c)
            (rec' := withoutSearch E (firstAllowed cands miRows miCols) miRows miCols f)] at htry
          exact ⟨w2, by simpa using htry⟩
      obtain ⟨w3, hkey⟩ := key
      refine ⟨w3, ?_⟩
      simp only [Option.toList_some, tryAll, hok, Option.bind_eq_bind, Option.bind_some, if_true]
      unfold withoutSearch at hkey
      rw [hkey]
      simp

/-! ## With the candidates of the code -/

theorem tryPart_split_panics {E : Enc σ ω β} {rec} {mR mC r c bs sub : Nat}
    (hsub : subSize K.PARTITION_SPLIT bs = some sub)
    (hrec : ∀ s w t, t.bsize = sub → rec s w r c t = none) :
    ∀ s w t, t.bsize = bs → tryPart E rec mR mC r c K.PARTITION_SPLIT s w t = none := by
  intro s w t ht
  by_contra hne
  obtain ⟨x, hx⟩ := Option.ne_none_iff_exists'.1 hne
  simp only [tryPart, Option.bind_eq_bind, Option.bind_eq_some_iff] at hx
  obtain ⟨half, -, ⟨s2, b0⟩, -, qs, hqs, hx⟩ := hx
  obtain ⟨half', sub', -, hs', rfl⟩ := partsOf_split hqs
  rw [ht, hsub] at hs'
  cases hs'
  rw [if_neg (by decide)] at hx
  simp [encParts, hrec _ _ (PTree.new E.fresh sub) rfl] at hx

theorem tryPart_strip_panics {E : Enc σ ω β} {rec} {mR mC r c : Nat} :
    ∀ s w t, t.bsize = K.BLOCK_8X8 → tryPart E rec mR mC r c K.PARTITION_HORZ_4 s w t = none := by
  intro s w t ht
  by_contra hne
  obtain ⟨x, hx⟩ := Option.ne_none_iff_exists'.1 hne
  simp only [tryPart, Option.bind_eq_bind, Option.bind_eq_some_iff] at hx
  obtain ⟨half, -, ⟨s2, b0⟩, -, qs, hqs, hx⟩ := hx
  rw [if_neg (by decide)] at hx
  rw [ht] at hqs
  simp only [partsOf, Option.bind_eq_bind, Option.bind_eq_some_iff] at hqs
  obtain ⟨half', -, sub, hsub, split, -, hqs⟩ := hqs
  have hs : sub = 22 := by
    have : subSize K.PARTITION_HORZ_4 K.BLOCK_8X8 = some 22 := by decide
    rw [this] at hsub
    cases hsub
    rfl
  subst hs
  rw [if_neg (by decide), if_neg (by decide), if_neg (by decide), if_neg (by decide), if_neg (by decide),
    if_neg (by decide), if_neg (by decide), if_neg (by decide), if_pos trivial] at hqs
  cases hqs
  have h22 : K.num_4x4_blocks_wide[(22 : Nat)]? = none := by decide
  simp [encParts, encBlock, PTree.new, h22] at hx

theorem allowed_split (bs half r c mR mC : Nat) (hb : K.BLOCK_8X8 ≤ bs) (hh : halfBlock bs = some half) :
    allowedPart K.PARTITION_SPLIT bs r c mR mC = some true := by
  simp only [allowedPart, hh, Option.bind_eq_bind, Option.bind_some]
  rw [if_neg (by omega)]
  by_cases h1 : r + half < mR <;> by_cases h2 : c + half < mC <;> simp [h1, h2]

/-- **C39**, the claim fails for every square of the frame, whatever the coder, the blocks and the state are: the search
reaches an 8×8 square, tries four strips on it, and `encode_block` indexes the size tables with `BLOCK_INVALID`.  Since a
superblock is such a square, no superblock can be encoded. -/
theorem C39_never (E : Enc σ ω β) (miRows miCols : Nat) (hR : miRows % 2 = 0) (hC : miCols % 2 = 0) :
    ∀ (fuel r c : Nat) (s : σ) (w : ω) (t : PTree β),
      t.bsize ∈ [K.BLOCK_8X8, K.BLOCK_16X16, K.BLOCK_32X32, K.BLOCK_64X64, K.BLOCK_128X128] →
      r % 2 = 0 → c % 2 = 0 → r < miRows → c < miCols →
      partSearch E (fun _ _ _ => codeCands) miRows miCols fuel s w r c t = none := by
  intro fuel
  induction fuel with
  | zero => intros; rfl
  | succ f ih =>
    intro r c s w t ht hr hc hrm hcm
    unfold partSearch
    rw [if_neg (by omega)]
    have split : ∀ bs sub half, subSize K.PARTITION_SPLIT bs = some sub → halfBlock bs = some half → K.BLOCK_8X8 ≤ bs →
        sub ∈ [K.BLOCK_8X8, K.BLOCK_16X16, K.BLOCK_32X32, K.BLOCK_64X64, K.BLOCK_128X128] → t.bsize = bs →
        tryAll E (partSearch E (fun _ _ _ => codeCands) miRows miCols f) miRows miCols r c codeCands s (E.enter w r c) t
          ⟨2 ^ 64 - 1, s, t, []⟩ = none := by
      intro bs sub half h1 h2 h3 h4 h5
      refine tryAll_panics (allowed_split bs half r c miRows miCols h3 h2) (tryPart_split_panics h1 ?_) _ _ _ _ _
        (by decide) h5
      intro s w t ht'
      exact ih r c s w t (by rw [ht']; exact h4) hr hc hrm hcm
    have key : tryAll E (partSearch E (fun _ _ _ => codeCands) miRows miCols f) miRows miCols r c codeCands s
        (E.enter w r c) t ⟨2 ^ 64 - 1, s, t, []⟩ = none := by
      simp only [List.mem_cons, List.not_mem_nil, or_false] at ht
      rcases ht with ht | ht | ht | ht | ht
      · refine tryAll_panics (p := K.PARTITION_HORZ_4) ?_ tryPart_strip_panics _ _ _ _ _ (by decide) ht
        have hh : halfBlock K.BLOCK_8X8 = some 1 := by decide
        simp only [allowedPart, hh, Option.bind_eq_bind, Option.bind_some]
        rw [if_neg (by decide), if_pos (by simp; omega)]
      · exact split K.BLOCK_16X16 K.BLOCK_8X8 1 (by decide) (by decide) (by decide) (by decide) ht
      · exact split K.BLOCK_32X32 K.BLOCK_16X16 4 (by decide) (by decide) (by decide) (by decide) ht
      · exact split K.BLOCK_64X64 K.BLOCK_32X32 8 (by decide) (by decide) (by decide) (by decide) ht
      · exact split K.BLOCK_128X128 K.BLOCK_64X64 16 (by decide) (by decide) (by decide) (by decide) ht
    cases halfBlock t.bsize with
    | none => rfl
    | some h =>
      simp only [Option.bind_eq_bind, Option.bind_some]
      rw [key]
      rfl

end

/-! ## Examples and counterexamples -/

/-- An encoder whose blocks count themselves outside the coder and write the parity of the count. -/
def parityEnc : Enc Nat Nat Unit where
  enter w _ _ := w
  symbol s _ _ := some (s + 1, [true])
  block s w _ _ _ i := some (s + 1, w + 1, i, [decide (w % 2 = 1)])
  fresh := ()

/-- Results without the tree. -/
def outcome {σ ω β : Type} (x : Option (Ran σ ω β)) : Option (σ × ω × Bits) := x.map fun y => (y.1, y.2.1, y.2.2.2)

theorem splitLate_basic (miRows miCols : Nat) (more : List Nat) :
    SplitLate (fun _ _ _ => K.PARTITION_NONE :: K.PARTITION_HORZ :: K.PARTITION_VERT :: K.PARTITION_SPLIT :: more)
      miRows miCols := by
  intro r c bs half hr hc hh h
  unfold firstAllowed at h
  by_cases hb : bs < K.BLOCK_8X8
  · rw [List.find?_cons_of_pos (by simp [allowedPart, hh, hb])] at h
    cases h
  by_cases h1 : r + half < miRows <;> by_cases h2 : c + half < miCols
  · rw [List.find?_cons_of_pos (by simp [allowedPart, hh, hb, h1, h2])] at h
    cases h
  · have h0 : (allowedPart K.PARTITION_NONE bs r c miRows miCols == some true) = false := by
      simp [allowedPart, hh, hb, h1, h2, K.PARTITION_NONE, K.PARTITION_SPLIT, K.PARTITION_VERT]
    have h0' : (allowedPart K.PARTITION_HORZ bs r c miRows miCols == some true) = false := by
      simp [allowedPart, hh, hb, h1, h2, K.PARTITION_HORZ, K.PARTITION_SPLIT, K.PARTITION_VERT]
    have h3 : (allowedPart K.PARTITION_VERT bs r c miRows miCols == some true) = true := by
      simp [allowedPart, hh, hb, h1, h2]
    simp only [List.find?_cons, h0, h0', h3] at h
    cases h
  · have h0 : (allowedPart K.PARTITION_NONE bs r c miRows miCols == some true) = false := by
      simp [allowedPart, hh, hb, h1, h2, K.PARTITION_NONE, K.PARTITION_SPLIT, K.PARTITION_HORZ]
    have h3 : (allowedPart K.PARTITION_HORZ bs r c miRows miCols == some true) = true := by
      simp [allowedPart, hh, hb, h1, h2]
    simp only [List.find?_cons, h0, h3] at h
    cases h
  · exact ⟨by omega, by omega⟩

/-- The searches of `C39_first_partial` exist: the four basic types, on a 64×64 superblock whose lower half is outside
the frame: one symbol and one 64×32 block are kept. -/
example : outcome (partSearch parityEnc (fun _ _ _ => [0, 1, 2, 3]) 8 16 6 0 0 0 0 (.new () K.BLOCK_64X64)) =
    some (2, 339, [true, false]) := by decide +kernel

/-- The state outside the coder is not that of the chosen partition: after the search 339 blocks have been counted
instead of one. -/
theorem C39_state_left : ∃ (E : Enc Nat Nat Unit) (w' w'' : Nat) (s' : Nat) (b : Bits),
    outcome (partSearch E (fun _ _ _ => [0, 1, 2, 3]) 8 16 6 0 0 0 0 (.new () K.BLOCK_64X64)) = some (s', w', b) ∧
    outcome (withoutSearch E (firstAllowed (fun _ _ _ => [0, 1, 2, 3]) 8 16) 8 16 6 0 0 0 0 (.new () K.BLOCK_64X64)) =
      some (s', w'', b) ∧ w' ≠ w'' :=
  ⟨parityEnc, 339, 1, 2, [true, false], by decide +kernel, by decide +kernel, by decide⟩

/-- The condition on splits is needed: with the split tried first, rejected candidates of one quarter change the bits of
the next. -/
theorem C39_split_first : ∃ (E : Enc Nat Nat Unit) (cands : Nat → Nat → Nat → List Nat) (x y : Nat × Nat × Bits),
    outcome (partSearch E cands 8 8 6 0 0 0 0 (.new () K.BLOCK_32X32)) = some x ∧
    outcome (withoutSearch E (firstAllowed cands 8 8) 8 8 6 0 0 0 0 (.new () K.BLOCK_32X32)) = some y ∧ x.2.2 ≠ y.2.2 :=
  ⟨parityEnc, fun _ _ bs => if bs = K.BLOCK_32X32 then [K.PARTITION_SPLIT] else [K.PARTITION_NONE, K.PARTITION_HORZ_A],
    (9, 16, [true, true, false, true, false, true, false, true, false]),
    (9, 4, [true, true, false, true, true, true, false, true, true]), by decide +kernel, by decide +kernel, by decide⟩

theorem C39_negation : ¬ C39_full := by
  intro h
  obtain ⟨x, hx⟩ : ∃ x, withoutSearch parityEnc (firstAllowed (fun _ _ _ => codeCands) 16 16) 16 16 6 0 0 0 0
      (.new () K.BLOCK_64X64) = some x := by
    apply Option.isSome_iff_exists.1
    decide +kernel
  obtain ⟨s', w', t', b⟩ := x
  obtain ⟨w'', h2⟩ := h Nat Nat Unit parityEnc 16 16 6 0 0 0 0 (.new () K.BLOCK_64X64) (by decide) (by decide) rfl rfl rfl rfl
    s' w' t' b hx
  rw [C39_never parityEnc 16 16 rfl rfl 6 0 0 0 0 _ (by decide) rfl rfl (by decide) (by decide)] at h2
  cases h2

end Av1
