import Verif.Props.Partition
import Verif.Props.Search
import Verif.Props.TileWalk

/-! # C136: every part of the picture is coded once -/

namespace Av1

section
variable {σ ω β : Type}

/-- The same encoder, which also notes for which rectangles `encode_block` is called. -/
def Enc.logged (E : Enc σ ω β) : Enc σ (ω × List Part) β where
  enter w r c := (E.enter w.1 r c, w.2)
  symbol s w y := E.symbol s w.1 y
  block s w r c bs i := (E.block s w.1 r c bs i).map fun x => (x.1, (x.2.1, w.2 ++ [⟨r, c, bs, false⟩]), x.2.2)
  fresh := E.fresh

/-- The types chosen are types of AV1 for squares of their size, allowed at their place, in the frame. -/
def Chosen (choice : Nat → Nat → Nat → Option Nat) (miRows miCols : Nat) : Prop :=
  ∀ r c bs w, r < miRows → c < miCols → blockDims[bs]? = some (w, w) → ∃ p, choice r c bs = some p ∧ p < 10 ∧
    hasPartition p w w = true ∧ allowedPart p bs r c miRows miCols = some true

/-- Their parts are put in their places. -/
def Placed (choice : Nat → Nat → Nat → Option Nat) (miRows miCols : Nat) : Prop :=
  ∀ r c bs w p, r < miRows → c < miCols → blockDims[bs]? = some (w, w) → choice r c bs = some p →
    WellPlaced p w r c miRows miCols

/-- **C136**, full claim: whatever the partition types of the squares are, the blocks coded for a square cover each 4×4 unit of it
that is in the frame once, and no other unit of the frame. -/
def C136_full : Prop := ∀ (σ ω β : Type) (E : Enc σ ω β) (choice : Nat → Nat → Nat → Option Nat) (miRows miCols fuel r c n : Nat)
    (s s' : σ) (w w' : ω) (t t' : PTree β) (b : Bits) (calls : List Part), Chosen choice miRows miCols →
  blockDims[t.bsize]? = some (n, n) →
  withoutSearch E.logged choice miRows miCols fuel s (w, []) r c t = some (s', (w', calls), t', b) →
  Tiles (n / 4) r c miRows miCols calls

theorem covers_append (y x : Nat) (a b : List Part) : covers y x (a ++ b) = covers y x a + covers y x b := by
  induction a with
  | nil => simp [covers]
  | cons q qs ih => rw [List.cons_append, covers, covers, ih, Nat.add_assoc]

/-- A part that is a block. -/
def Part.asBlock (q : Part) : Part := { q with square := false }

theorem covers_asBlock (y x : Nat) : ∀ l : List Part, covers y x (l.map Part.asBlock) = covers y x l
  | [] => rfl
  | q :: qs => by rw [List.map_cons, covers, covers, covers_asBlock y x qs]; rfl

theorem encBlock_logged {E : Enc σ ω β} {s : σ} {w : ω} {L : List Part} {r c : Nat} {t : PTree β} {x : Ran σ (ω × List Part) β}
    (h : encBlock E.logged s (w, L) r c t = some x) : x.2.1.2 = L ++ [⟨r, c, t.bsize, false⟩] := by
  obtain ⟨bs, p, i, ps⟩ := t
  simp only [encBlock, Option.bind_eq_bind, Option.bind_eq_some_iff] at h
  obtain ⟨_, -, _, -, ⟨s1, w1, i1, b1⟩, h1, h⟩ := h
  cases h
  simp only [Enc.logged, Option.map_eq_some_iff] at h1
  obtain ⟨y, -, h1⟩ := h1
  have := congrArg (fun z => z.2.1.2) h1
  exact this.symm

/-- What a list of parts codes, if each sub-square is tiled. -/
theorem encParts_logged {E : Enc σ ω β} {mR mC : Nat}
    {rec : σ → ω × List Part → Nat → Nat → PTree β → Option (Ran σ (ω × List Part) β)}
    (hrec : ∀ s w L r c t x n, blockDims[t.bsize]? = some (n, n) → rec s (w, L) r c t = some x →
      ∃ M, x.2.1.2 = L ++ M ∧ Tiles (n / 4) r c mR mC M) :
    ∀ (qs : List Part), (∀ q ∈ qs, q.square = true → ∃ n, blockDims[q.bsize]? = some (n, n)) → ∀ (s : σ) (w : ω) (L : List Part) x,
      encParts E.logged rec qs s (w, L) = some x →
      ∃ M, x.2.1.2 = L ++ M ∧ ∀ y z, y < mR → z < mC → covers y z M = covers y z qs := by
  intro qs
  induction qs with
  | nil => intro _ s w L x h; cases h; exact ⟨[], by simp, fun _ _ _ _ => rfl⟩
  | cons q qs ih =>
    intro hsq s w L x h
    have : ∃ s1 w1 L1 t1 b1 s2 w2 ts b2, (if q.square = true then rec s (w, L) q.row q.col (.new E.fresh q.bsize)
        else encBlock E.logged s (w, L) q.row q.col (.new E.fresh q.bsize)) = some (s1, (w1, L1), t1, b1) ∧
        encParts E.logged rec qs s1 (w1, L1) = some (s2, w2, ts, b2) ∧ x = (s2, w2, t1 :: ts, b1 ++ b2) := by
      cases hq : q.square <;>
        (simp only [encParts, hq, if_true, Bool.false_eq_true, if_false, Option.bind_eq_bind, Option.bind_eq_some_iff] at h
         obtain ⟨⟨s1, ⟨w1, L1⟩, t1, b1⟩, h1, ⟨s2, w2, ts, b2⟩, h2, h⟩ := h
         cases h
         exact ⟨s1, w1, L1, t1, b1, s2, w2, ts, b2, h1, h2, rfl⟩)
    obtain ⟨s1, w1, L1, t1, b1, s2, w2, ts, b2, h1, h2, rfl⟩ := this
    obtain ⟨M2, e2, c2⟩ := ih (fun q hq => hsq q (List.mem_cons_of_mem _ hq)) s1 w1 L1 _ h2
    simp only at e2
    have : ∃ M1, L1 = L ++ M1 ∧ ∀ y z, y < mR → z < mC → covers y z M1 = covers y z [q] := by
      cases hq : q.square with
      | true =>
        rw [hq, if_pos rfl] at h1
        obtain ⟨n, hn⟩ := hsq q List.mem_cons_self hq
        obtain ⟨M1, e1, c1⟩ := hrec s w L q.row q.col (.new E.fresh q.bsize) _ n hn h1
        refine ⟨M1, e1, fun y z hy hz => ?_⟩
        rw [c1 y z hy hz, covers, hn]
        simp [covers]
      | false =>
        rw [hq, if_neg (by decide)] at h1
        have := encBlock_logged h1
        exact ⟨_, this, fun y z _ _ => by simp [covers, PTree.new, PTree.bsize]⟩
    obtain ⟨M1, rfl, c1⟩ := this
    refine ⟨M1 ++ M2, by rw [e2, List.append_assoc], fun y z hy hz => ?_⟩
    rw [covers_append, c1 y z hy hz, c2 y z hy hz, ← covers_append]
    rfl

/-- The four quarters of a square are squares. -/
theorem quarters_square {bs n : Nat} (hn : blockDims[bs]? = some (n, n)) {sub : Nat} (h : subSize K.PARTITION_SPLIT bs = some sub)
    (h8 : hasPartition 3 n n = true) : ∃ m, blockDims[sub]? = some (m, m) := by
  have key : ∀ bs d, blockDims[bs]? = some d → d.1 = d.2 → hasPartition 3 d.1 d.2 = true →
      ((subSize K.PARTITION_SPLIT bs).bind fun s => blockDims[s]?) = some (d.1 / 2, d.1 / 2) := forall_rows (by decide +kernel)
  have := key bs _ hn rfl h8
  rw [h, Option.bind_some] at this
  exact ⟨_, this⟩

theorem cover_square (E : Enc σ ω β) {choice : Nat → Nat → Nat → Option Nat} {mR mC : Nat} (hch : Chosen choice mR mC)
    (hpl : Placed choice mR mC) : ∀ (fuel : Nat) (s : σ) (w : ω) (L : List Part) (r c : Nat) (t : PTree β) x n,
      blockDims[t.bsize]? = some (n, n) → withoutSearch E.logged choice mR mC fuel s (w, L) r c t = some x →
      ∃ M, x.2.1.2 = L ++ M ∧ Tiles (n / 4) r c mR mC M := by
  intro fuel
  induction fuel with
  | zero => intro s w L r c t x n _ h; cases h
  | succ f ih =>
    intro s w L r c t x n hn h
    by_cases hout : mR ≤ r ∨ mC ≤ c
    · unfold withoutSearch at h
      rw [partSearch_out hout] at h
      cases h
      refine ⟨[], by simp, fun y z hy hz => ?_⟩
      rw [if_neg (by omega)]
      rfl
    push Not at hout
    obtain ⟨p, hp, hp10, hhas, hok⟩ := hch r c t.bsize n hout.1 hout.2 hn
    have hwp := hpl r c t.bsize n p hout.1 hout.2 hn hp
    unfold withoutSearch partSearch at h
    rw [if_neg (by omega)] at h
    simp only [Option.bind_eq_bind, Option.bind_eq_some_iff, hp, Option.toList_some] at h
    obtain ⟨half, hhalf, ⟨w1, best⟩, hall, h⟩ := h
    cases h
    unfold tryAll at hall
    rw [hok] at hall
    simp only [Option.bind_eq_bind, Option.bind_some, if_true, Option.bind_eq_some_iff, tryAll, Option.some.injEq] at hall
    obtain ⟨⟨s1, w2, t1, b1⟩, htry, hall⟩ := hall
    cases hall
    simp only [tryPart, Option.bind_eq_bind, Option.bind_eq_some_iff] at htry
    obtain ⟨half', hh', ⟨s2, b0⟩, -, qs, hqs, htry⟩ := htry
    have htiles := (C55_iff p t.bsize n r c mR mC qs hn hp10 hhas hout.1 hout.2 hok hqs).2 hwp
    simp only [Enc.logged] at htry
    split at htry
    · rename_i h0
      simp only [Option.bind_eq_some_iff] at htry
      obtain ⟨⟨s3, ⟨w3, L3⟩, t3, b3⟩, h3, htry⟩ := htry
      cases htry
      have e := encBlock_logged h3
      refine ⟨_, e, ?_⟩
      have : qs = [⟨r, c, t.bsize, false⟩] := by
        subst h0
        simp only [partsOf, Option.bind_eq_bind, Option.bind_eq_some_iff, if_true] at hqs
        obtain ⟨_, -, _, -, _, -, hqs⟩ := hqs
        injection hqs with hqs
        exact hqs.symm
      rw [this] at htiles
      exact htiles
    · simp only [Option.bind_eq_some_iff] at htry
      obtain ⟨⟨s3, ⟨w3, L3⟩, ts, b3⟩, h3, htry⟩ := htry
      cases htry
      have hsq : ∀ q ∈ qs, q.square = true → ∃ n, blockDims[q.bsize]? = some (n, n) := by
        intro q hq hs
        by_cases h3' : p = K.PARTITION_SPLIT
        · subst h3'
          obtain ⟨hf, sub, -, hsub, rfl⟩ := partsOf_split hqs
          have := quarters_square hn hsub hhas
          simp only [List.mem_cons, List.not_mem_nil, or_false] at hq
          rcases hq with rfl | rfl | rfl | rfl <;> exact this
        · rw [partsOf_blocks hqs h3' q hq] at hs
          cases hs
      obtain ⟨M, e, hM⟩ := encParts_logged (E := E) (fun s w L r c t x n a b => ih s w L r c t x n a b) qs hsq _ _ _ _ h3
      refine ⟨M, e, fun y z hy hz => ?_⟩
      rw [hM y z hy hz]
      exact htiles y z hy hz

/-- **C136**, the part that holds: if the parts of all squares are put in their places (`WellPlaced`, which C55 shows to be the exact
condition for one square), the blocks coded for a square cover each 4×4 unit of it that is in the frame once, and no other unit
of the frame.  Missing: the misplaced types. -/
theorem C136_square_partial (E : Enc σ ω β) (choice : Nat → Nat → Nat → Option Nat) (miRows miCols fuel r c n : Nat)
    (s s' : σ) (w w' : ω) (t t' : PTree β) (b : Bits) (calls : List Part) (hch : Chosen choice miRows miCols)
    (hpl : Placed choice miRows miCols) (hn : blockDims[t.bsize]? = some (n, n))
    (h : withoutSearch E.logged choice miRows miCols fuel s (w, []) r c t = some (s', (w', calls), t', b)) :
    Tiles (n / 4) r c miRows miCols calls := by
  obtain ⟨M, e, hM⟩ := cover_square E hch hpl fuel s w [] r c t _ n hn h
  simp only [List.nil_append] at e
  rw [e]
  exact hM

/-- Without the notes. -/
def forget (x : Ran σ (ω × List Part) β) : Ran σ ω β := (x.1, x.2.1.1, x.2.2)

theorem encBlock_forget (E : Enc σ ω β) (s : σ) (w : ω × List Part) (r c : Nat) (t : PTree β) :
    (encBlock E.logged s w r c t).map forget = encBlock E s w.1 r c t := by
  obtain ⟨bs, p, i, ps⟩ := t
  simp only [encBlock, Enc.logged, Option.bind_eq_bind]
  cases K.num_4x4_blocks_wide[bs]? with
  | none => rfl
  | some a =>
    cases K.num_4x4_blocks_high[bs]? with
    | none => rfl
    | some b => cases E.block s w.1 r c bs i <;> rfl

theorem encParts_forget (E : Enc σ ω β) {rec rec'} (h : ∀ s w r c t, (rec s w r c t).map forget = rec' s w.1 r c t) :
    ∀ (qs : List Part) (s : σ) (w : ω × List Part), (encParts E.logged rec qs s w).map (fun x => (x.1, x.2.1.1, x.2.2)) =
      encParts E rec' qs s w.1 := by
  intro qs
  induction qs with
  | nil => intro s w; rfl
  | cons q qs ih =>
    intro s w
    have key : ∀ (x : Option (Ran σ (ω × List Part) β)) (x' : Option (Ran σ ω β)), x.map forget = x' →
        ((x.bind fun y => (encParts E.logged rec qs y.1 y.2.1).bind fun z => some (z.1, z.2.1, y.2.2.1 :: z.2.2.1, y.2.2.2 ++ z.2.2.2)).map
          fun x => (x.1, x.2.1.1, x.2.2)) =
        x'.bind fun y => (encParts E rec' qs y.1 y.2.1).bind fun z => some (z.1, z.2.1, y.2.2.1 :: z.2.2.1, y.2.2.2 ++ z.2.2.2) := by
      rintro x x' rfl
      cases x with
      | none => rfl
      | some y =>
        simp only [Option.bind_some, Option.map_some, forget, ← ih]
        cases encParts E.logged rec qs y.1 y.2.1 <;> rfl
    cases hq : q.square with
    | true => simpa [encParts, hq, Enc.logged] using key _ _ (h s w q.row q.col (.new E.fresh q.bsize))
    | false => simpa [encParts, hq, Enc.logged] using key _ _ (encBlock_forget E s w q.row q.col (.new E.fresh q.bsize))

theorem tryPart_forget (E : Enc σ ω β) {rec rec'} (h : ∀ s w r c t, (rec s w r c t).map forget = rec' s w.1 r c t)
    (mR mC r c p : Nat) (s : σ) (w : ω × List Part) (t : PTree β) :
    (tryPart E.logged rec mR mC r c p s w t).map forget = tryPart E rec' mR mC r c p s w.1 t := by
  unfold tryPart
  simp only [Option.bind_eq_bind]
  cases halfBlock t.bsize with
  | none => rfl
  | some half =>
    simp only [Option.bind_some]
    have e : ∀ y, encSym E.logged s w y = encSym E s w.1 y := by intro y; cases y <;> rfl
    rw [e]
    cases encSym E s w.1 (partSym p t.bsize (decide (r + half < mR)) (decide (c + half < mC))) with
    | none => rfl
    | some s1 =>
      simp only [Option.bind_some]
      cases partsOf p t.bsize r c mR mC with
      | none => rfl
      | some qs =>
        simp only [Option.bind_some]
        split
        · rw [← encBlock_forget]
          cases encBlock E.logged s1.1 w r c (.node t.bsize p t.info t.parts) <;> rfl
        · rw [← encParts_forget E h]
          cases encParts E.logged rec qs s1.1 w <;> rfl

theorem tryAll_forget (E : Enc σ ω β) {rec rec'} (h : ∀ s w r c t, (rec s w r c t).map forget = rec' s w.1 r c t)
    (mR mC r c : Nat) : ∀ (ps : List Nat) (s : σ) (w : ω × List Part) (t : PTree β) (best : Best σ β),
    (tryAll E.logged rec mR mC r c ps s w t best).map (fun x => (x.1.1, x.2)) = tryAll E rec' mR mC r c ps s w.1 t best := by
  intro ps
  induction ps with
  | nil => intro s w t best; rfl
  | cons p ps ih =>
    intro s w t best
    unfold tryAll
    cases allowedPart p t.bsize r c mR mC with
    | none => rfl
    | some ok =>
      cases ok with
      | false => exact ih s w t best
      | true =>
        simp only [Option.bind_eq_bind, Option.bind_some, if_true]
        rw [← tryPart_forget E h]
        cases tryPart E.logged rec mR mC r c p s w t with
        | none => rfl
        | some y => exact ih y.1 y.2.1 y.2.2.1 _

/-- The notes change nothing: the encoder that keeps them does what the encoder without them does. -/
theorem C136_same (E : Enc σ ω β) (cands : Nat → Nat → Nat → List Nat) (miRows miCols : Nat) : ∀ (fuel : Nat) (s : σ)
    (w : ω × List Part) (r c : Nat) (t : PTree β),
    (partSearch E.logged cands miRows miCols fuel s w r c t).map forget = partSearch E cands miRows miCols fuel s w.1 r c t := by
  intro fuel
  induction fuel with
  | zero => intros; rfl
  | succ f ih =>
    intro s w r c t
    unfold partSearch
    split
    · rfl
    · simp only [Option.bind_eq_bind]
      cases halfBlock t.bsize with
      | none => rfl
      | some half =>
        simp only [Option.bind_some]
        rw [show E.enter w.1 r c = (E.logged.enter w r c).1 from rfl, ← tryAll_forget E ih miRows miCols r c (cands r c t.bsize) s (E.logged.enter w r c) t]
        cases tryAll E.logged (partSearch E.logged cands miRows miCols f) miRows miCols r c (cands r c t.bsize) s (E.logged.enter w r c) t
          ⟨2 ^ 64 - 1, s, t, []⟩ <;> rfl

/-- The candidates of the code, or any list that starts with the four basic types. -/
def basicFirst (more : List Nat) : Nat → Nat → Nat → List Nat := fun _ _ _ => 0 :: 1 :: 2 :: 3 :: more

theorem basic_first (more : List Nat) (mR mC r c bs w : Nat) (hbs : blockDims[bs]? = some (w, w)) :
    ∃ p half, firstAllowed (basicFirst more) mR mC r c bs = some p ∧ allowedPart p bs r c mR mC = some true ∧
      halfBlock bs = some half ∧ (p = 0 ∨ (8 ≤ w ∧ ((p = 1 ∧ mR ≤ r + half) ∨ (p = 2 ∧ mC ≤ c + half) ∨ (p = 3 ∧ mR ≤ r + half ∧ mC ≤ c + half)))) := by
  have hsq : bs = 0 ∨ (3 ≤ bs ∧ 8 ≤ w) := by
    have key : ∀ bs d, blockDims[bs]? = some d → d.1 = d.2 → bs = 0 ∨ (3 ≤ bs ∧ 8 ≤ d.1) := forall_rows (by decide +kernel)
    exact key bs _ hbs rfl
  have hh : ∃ half, halfBlock bs = some half := by
    have key : ∀ bs d, blockDims[bs]? = some d → (halfBlock bs).isSome = true := forall_rows (by decide +kernel)
    exact Option.isSome_iff_exists.1 (key bs _ hbs)
  obtain ⟨half, hh⟩ := hh
  have e : ∀ p, allowedPart p bs r c mR mC = some (if bs < 3 then (p == 0) else
      if decide (r + half < mR) && decide (c + half < mC) then true else if decide (c + half < mC) then (p == 3 || p == 1)
      else if decide (r + half < mR) then (p == 3 || p == 2) else (p == 3)) := by
    intro p
    unfold allowedPart
    rw [hh]
    simp only [Option.bind_eq_bind, Option.bind_some, K.BLOCK_8X8, K.PARTITION_NONE, K.PARTITION_SPLIT, K.PARTITION_HORZ, K.PARTITION_VERT]
    by_cases hb : bs < 3 <;> by_cases a : r + half < mR <;> by_cases b : c + half < mC <;> simp [hb, a, b]
  have pick : ∀ p, p ∈ [0, 1, 2, 3] → (∀ q, q < p → allowedPart q bs r c mR mC = some false) → allowedPart p bs r c mR mC = some true →
      firstAllowed (basicFirst more) mR mC r c bs = some p := by
    intro p hp hlt hok
    simp only [List.mem_cons, List.not_mem_nil, or_false] at hp
    unfold firstAllowed basicFirst
    rcases hp with rfl | rfl | rfl | rfl
    · simp [hok]
    · simp [hok, hlt 0 (by decide)]
    · simp [hok, hlt 0 (by decide), hlt 1 (by decide)]
    · simp [hok, hlt 0 (by decide), hlt 1 (by decide), hlt 2 (by decide)]
  rcases hsq with rfl | ⟨h3, h8⟩
  · exact ⟨0, half, pick 0 (by decide) (by omega) (by rw [e]; rfl), by rw [e]; rfl, hh, .inl rfl⟩
  · have hb : ¬ bs < 3 := by omega
    by_cases a : r + half < mR <;> by_cases b : c + half < mC
    · have ok : allowedPart 0 bs r c mR mC = some true := by rw [e]; simp [hb, a, b]
      exact ⟨0, half, pick 0 (by decide) (by omega) ok, ok, hh, .inl rfl⟩
    · have ok : allowedPart 2 bs r c mR mC = some true := by rw [e]; simp [hb, a, b]
      refine ⟨2, half, pick 2 (by decide) ?_ ok, ok, hh, .inr ⟨h8, .inr (.inl ⟨rfl, by omega⟩)⟩⟩
      intro q hq
      rw [e]
      interval_cases q <;> simp [hb, a, b]
    · have ok : allowedPart 1 bs r c mR mC = some true := by rw [e]; simp [hb, a, b]
      refine ⟨1, half, pick 1 (by decide) ?_ ok, ok, hh, .inr ⟨h8, .inl ⟨rfl, by omega⟩⟩⟩
      intro q hq
      rw [e]
      interval_cases q <;> simp [hb, a, b]
    · have ok : allowedPart 3 bs r c mR mC = some true := by rw [e]; simp [hb, a, b]
      refine ⟨3, half, pick 3 (by decide) ?_ ok, ok, hh, .inr ⟨h8, .inr (.inr ⟨rfl, by omega, by omega⟩)⟩⟩
      intro q hq
      rw [e]
      interval_cases q <;> simp [hb, a, b]

theorem chosen_basic (more : List Nat) (mR mC : Nat) : Chosen (firstAllowed (basicFirst more) mR mC) mR mC := by
  intro r c bs w _ _ hbs
  obtain ⟨p, half, h1, h2, -, h3⟩ := basic_first more mR mC r c bs w hbs
  have : p < 10 ∧ hasPartition p w w = true := by
    rcases h3 with rfl | ⟨h8, h⟩
    · simp [hasPartition]
    · rcases h with ⟨rfl, -⟩ | ⟨rfl, -⟩ | ⟨rfl, -, -⟩ <;> simp [hasPartition, h8]
  exact ⟨p, h1, this.1, this.2, h2⟩

theorem placed_basic (more : List Nat) (mR mC : Nat) : Placed (firstAllowed (basicFirst more) mR mC) mR mC := by
  intro r c bs w p _ _ hbs hp
  obtain ⟨p', half, h1, h2, hh, h3⟩ := basic_first more mR mC r c bs w hbs
  rw [hp] at h1
  cases h1
  unfold WellPlaced
  have key : ∀ bs d, blockDims[bs]? = some d → d.1 = 16 → d.2 = 16 → halfBlock bs = some 1 := forall_rows (by decide +kernel)
  split
  · rename_i hw
    have := key bs _ hbs hw hw
    rw [hh] at this
    cases this
    omega
  · omega

/-- **C136**, with the order of candidates of the code: if the first allowed type is taken for every square, as the constant cost of
the code does (C39), each unit in the frame is coded once, in every frame and at every place, also at the edges. -/
theorem C136_first (E : Enc σ ω β) (more : List Nat) (miRows miCols fuel r c n : Nat)
    (s s' : σ) (w w' : ω) (t t' : PTree β) (b : Bits) (calls : List Part) (hn : blockDims[t.bsize]? = some (n, n))
    (h : withoutSearch E.logged (firstAllowed (basicFirst more) miRows miCols) miRows miCols fuel s (w, []) r c t =
      some (s', (w', calls), t', b)) : Tiles (n / 4) r c miRows miCols calls :=
  C136_square_partial E _ miRows miCols fuel r c n s s' w w' t t' b calls (chosen_basic more miRows miCols)
    (placed_basic more miRows miCols) hn h

/-- The list of the code is such a list. -/
theorem C136_code_list : (fun _ _ _ => codeCands) = basicFirst [4, 5, 6, 7, 8, 9] := rfl

/-- A search that finishes leaves the bits, the coder and the tree of coding such blocks. -/
theorem C136_search (E : Enc σ ω β) (more : List Nat) (miRows miCols fuel r c n : Nat) (s s' : σ) (w : ω) (w' : ω × List Part)
    (t t' : PTree β) (b : Bits) (hn : blockDims[t.bsize]? = some (n, n))
    (h : partSearch E.logged (basicFirst more) miRows miCols fuel s (w, []) r c t = some (s', w', t', b)) :
    ∃ w'' calls, withoutSearch E.logged (firstAllowed (basicFirst more) miRows miCols) miRows miCols fuel s (w, []) r c t =
      some (s', (w'', calls), t', b) ∧ Tiles (n / 4) r c miRows miCols calls := by
  obtain ⟨⟨w'', calls⟩, h'⟩ := C39_first_partial E.logged (basicFirst more) miRows miCols (splitLate_basic miRows miCols more)
    fuel r c s (w, []) t s' w' t' b h
  exact ⟨w'', calls, h', C136_first E more miRows miCols fuel r c n s s' w w'' t t' b calls hn h'⟩

/-- A superblock of a tile with partition types known beforehand; `prepare` is what comes before its blocks (clearing of CDEF
indices, loop restoration units). -/
def coverSb (E : Enc σ ω β) (prepare : σ → ω → Nat → Nat → Option (σ × ω × Bits)) (choice : Nat → Nat → Nat → Option Nat)
    (miRows miCols k fuel : Nat) (x : σ × (ω × List Part) × Bits) (r c : Nat) : Option (σ × (ω × List Part) × Bits) := do
  let (s1, w1, b1) ← prepare x.1 x.2.1.1 r c
  let (s2, w2, _, b2) ← withoutSearch E.logged choice miRows miCols fuel s1 (w1, x.2.1.2) r c (.new E.fresh (3 * k))
  some (s2, w2, x.2.2 ++ b1 ++ b2)

theorem countP_unique {α : Type} (P : α → Bool) : ∀ (l : List α), l.Nodup → (∃! p, p ∈ l ∧ P p = true) → l.countP P = 1
  | [], _, ⟨p, ⟨hp, _⟩, _⟩ => by cases hp
  | a :: l, hn, h => by
    rw [List.nodup_cons] at hn
    obtain ⟨p, ⟨hp, hP⟩, hu⟩ := h
    by_cases ha : P a = true
    · rw [List.countP_cons_of_pos ha, List.countP_eq_zero.2]
      intro b hb hPb
      have h1 := hu a ⟨List.mem_cons_self, ha⟩
      have h2 := hu b ⟨List.mem_cons_of_mem _ hb, hPb⟩
      rw [h1, ← h2] at hn
      exact hn.1 hb
    · rw [List.countP_cons_of_neg ha]
      refine countP_unique P l hn.2 ⟨p, ⟨?_, hP⟩, fun q hq => hu q ⟨List.mem_cons_of_mem _ hq.1, hq.2⟩⟩
      rcases List.mem_cons.1 hp with rfl | h
      · exact absurd hP ha
      · exact h

/-- **C136**, a tile: the blocks coded for the superblocks of a tile cover each unit of the tile that is in the frame once. -/
theorem C136_tile_partial (E : Enc σ ω β) (prepare : σ → ω → Nat → Nat → Option (σ × ω × Bits))
    (choice : Nat → Nat → Nat → Option Nat) (miRows miCols k fuel : Nat) (hk : k ≤ 5) (hch : Chosen choice miRows miCols)
    (hpl : Placed choice miRows miCols) (a : TileArea) (s s' : σ) (w w' : ω) (bits : Bits) (calls : List Part)
    (h : tileWalk (coverSb E prepare choice miRows miCols k fuel) (2 ^ k) a (s, (w, []), []) = some (s', (w', calls), bits))
    (y x : Nat) (hy : a.rowStart ≤ y ∧ y < a.rowEnd) (hx : a.colStart ≤ x ∧ x < a.colEnd) (hin : y < miRows ∧ x < miCols) :
    covers y x calls = 1 := by
  have hs : 0 < 2 ^ k := by positivity
  rw [C101_raster _ _ _ _ hs] at h
  have hd : blockDims[3 * k]? = some (4 * 2 ^ k, 4 * 2 ^ k) := by interval_cases k <;> decide
  have key : ∀ (l : List (Nat × Nat)) (z z' : σ × (ω × List Part) × Bits),
      l.foldlM (fun x p => coverSb E prepare choice miRows miCols k fuel x p.1 p.2) z = some z' →
      covers y x z'.2.1.2 = covers y x z.2.1.2 +
        l.countP fun p => decide ((p.1 ≤ y ∧ y < p.1 + 2 ^ k) ∧ p.2 ≤ x ∧ x < p.2 + 2 ^ k) := by
    intro l
    induction l with
    | nil => intro z z' h; cases h; rfl
    | cons p l ih =>
      intro z z' h
      simp only [List.foldlM_cons, Option.bind_eq_bind, Option.bind_eq_some_iff] at h
      obtain ⟨z1, h1, h⟩ := h
      rw [ih z1 z' h]
      unfold coverSb at h1
      simp only [Option.bind_eq_bind, Option.bind_eq_some_iff] at h1
      obtain ⟨⟨s1, w1, b1⟩, -, ⟨s2, w2, t2, b2⟩, h2, h1⟩ := h1
      cases h1
      obtain ⟨M, e, hM⟩ := cover_square E hch hpl fuel s1 w1 z.2.1.2 p.1 p.2 (.new E.fresh (3 * k)) _ _ hd h2
      simp only at e ⊢
      rw [e, covers_append, hM y x hin.1 hin.2, show 4 * 2 ^ k / 4 = 2 ^ k by omega, List.countP_cons, Nat.add_assoc, Nat.add_comm (List.countP _ _)]
      congr 2
      simp only [decide_eq_true_eq, and_assoc]
  have hc := key _ _ _ h
  simp only at hc
  rw [hc, countP_unique]
  · rfl
  · refine List.Pairwise.imp ?_ (C101_order a _ hs)
    rintro p q h rfl
    omega
  · obtain ⟨p, hp, hu⟩ := C101_cover a _ hs y x hy hx
    exact ⟨p, by simpa using hp, fun q hq => hu q (by simpa using hq)⟩

end

/-- An encoder that takes `HORZ_B` for 32×32 squares and codes nothing. -/
theorem C136_negation : ¬ C136_full := by
  intro h
  have hch : Chosen (fun r c bs => if bs = 9 ∧ r + 4 < 8 ∧ c + 4 < 8 then some 5 else firstAllowed (basicFirst []) 8 8 r c bs) 8 8 := by
    intro r c bs w hr hc hbs
    by_cases hb : bs = 9 ∧ r + 4 < 8 ∧ c + 4 < 8
    · obtain ⟨rfl, h1, h2⟩ := hb
      cases hbs
      refine ⟨5, if_pos ⟨rfl, h1, h2⟩, by decide, by decide, ?_⟩
      show (if decide (r + 4 < 8) && decide (c + 4 < 8) then some true else _) = some true
      rw [if_pos (by simp [h1, h2])]
    · simp only [if_neg hb]
      exact chosen_basic [] 8 8 r c bs w hr hc hbs
  let E : Enc Unit Unit Unit := ⟨fun w _ _ => w, fun s _ _ => some (s, []), fun s w _ _ _ i => some (s, w, i, []), ()⟩
  have := h Unit Unit Unit E _ 8 8 1 0 0 32 () () () () (.new () 9) (.node 9 5 () [.new () 8, .new () 6, .new () 6]) []
    [⟨0, 0, 8, false⟩, ⟨4, 0, 6, false⟩, ⟨0, 4, 6, false⟩] hch rfl rfl 7 7 (by decide) (by decide)
  exact absurd this (by decide)

/-- Not vacuous: a tile that is a frame of 23 by 21 units, with the order of the code: four superblocks, four blocks (64×64, 32×64,
64×32 and 32×32); and a corner of the frame where the square is split down to a single unit. -/
example : (tileWalk (coverSb (⟨fun w _ _ => w, fun s _ _ => some (s, []), fun s w _ _ _ i => some (s, w, i, []), ()⟩ : Enc Unit Unit Unit)
    (fun s w _ _ => some (s, w, [])) (firstAllowed (basicFirst []) 23 21) 23 21 4 6) (2 ^ 4) ⟨0, 23, 0, 21⟩ ((), ((), []), [])).map
      (fun x => x.2.1.2) =
    some [⟨0, 0, 12, false⟩, ⟨0, 16, 10, false⟩, ⟨16, 0, 11, false⟩, ⟨16, 16, 9, false⟩] ∧
    (withoutSearch (Enc.logged (⟨fun w _ _ => w, fun s _ _ => some (s, []), fun s w _ _ _ i => some (s, w, i, []), ()⟩ : Enc Unit Unit Unit))
      (firstAllowed (basicFirst []) 17 17) 17 17 6 () ((), []) 16 16 (.new () 12)).map (fun x => x.2.1.2) =
      some [⟨16, 16, 0, false⟩] := by decide +kernel

end Av1
