import Verif.Spec.Tree
import Verif.Props.Decoder
import Verif.Props.Search
import Verif.Props.TileWalk

/-!
# C122 — a square with its partitions and blocks is read back from the bits
-/

namespace Av1

/-- What an encoder does at a place, as calls of the range coder. -/
structure Coding (ω β : Type) where
  enter : ω → Nat → Nat → ω
  /-- the flags given to `encode_partition` of the coder for a block size, after `enter` -/
  sides : ω → Nat → Bool × Bool
  block : ω → Nat → Nat → Nat → β → Option (ω × β × List Op)
  fresh : β

/-- The encoder of the partition search that makes these calls on a range coder with its tables.  The flags at the frame
edge have no table (C64). -/
def Coding.enc {ω β : Type} (C : Coding ω β) : Enc (BoolCoder × Bank) ω β where
  enter := C.enter
  symbol s w y :=
    match y with
    | .part bs p => do
      let x ← Sel.partition bs (C.sides w bs).1 (C.sides w bs).2 p
      let (c, b, bank) ← encodeOps s.1 s.2 [x.op]
      some ((c, bank), b)
    | _ => none
  block s w r c bs i := do
    let (w, i, ops) ← C.block w r c bs i
    let (c, b, bank) ← encodeOps s.1 s.2 ops
    some ((c, bank), w, i, b)
  fresh := C.fresh

/-- The decoder `P` knows what the encoder knows: `known` are the blocks coded so far, `view` is what the encoder has decided
about a block, and each block alone is read back. -/
structure Coding.Fits {ω β : Type} (C : Coding ω β) (P : Dec.Places) (known : ω → List Dec.Item) (view : β → Dec.Got) : Prop where
  enter : ∀ w r c, known (C.enter w r c) = known w
  sides : ∀ w r c bs, C.sides (C.enter w r c) bs = P.sides (known w) r c bs
  block : ∀ w r c bs i w' i' ops, C.block w r c bs i = some (w', i', ops) →
    known w' = known w ++ [⟨r, c, bs, view i'⟩] ∧ OpsOk defaultBank ops ∧
      ∀ rest, (Dec.block (P.here (known w) r c bs)).hears (ops ++ rest) = some (view i', rest)

/-- Partition types that are coded with a symbol of the table and whose parts are where they should be: none but the whole block
for 16×16, no type for 4×4, and of the others `NONE`, `HORZ`, `VERT`, `SPLIT`, `HORZ_A`, `VERT_A`, only the first four for 8×8. -/
def readablePart (k p : Nat) : Bool :=
  if k = 0 ∨ k = 2 then p == 0 else if k = 1 then p < 4 else p < 5 || p == 6

/-- A choice for every square of the frame. -/
def Readable (choice : Nat → Nat → Nat → Option Nat) (miRows miCols : Nat) : Prop :=
  ∀ k r c, k ≤ 5 → 2 ^ k ∣ r → 2 ^ k ∣ c → r < miRows → c < miCols →
    ∃ p, choice r c (3 * k) = some p ∧ allowedPart p (3 * k) r c miRows miCols = some true ∧ readablePart k p = true

section
variable {ω β : Type}

/-- A stretch of coding that the decoder `x` follows. -/
def Tracks (known : ω → List Dec.Item) (x : List Dec.Item → Dec (List Dec.Item)) (s : BoolCoder × Bank) (w : ω)
    (s' : BoolCoder × Bank) (w' : ω) (bits : Bits) : Prop :=
  ∃ ops, encodeOps s.1 s.2 ops = some (s'.1, bits, s'.2) ∧ OpsOk defaultBank ops ∧
    ∀ rest, (x (known w)).hears (ops ++ rest) = some (known w', rest)

theorem opsOk_append {bank : Bank} {a b : List Op} (ha : OpsOk bank a) (hb : OpsOk bank b) : OpsOk bank (a ++ b) := by
  intro q hq
  rcases List.mem_append.1 hq with hq | hq
  · exact ha q hq
  · exact hb q hq

theorem encodeOps_append_some {c c1 c2 : BoolCoder} {bank bank1 bank2 : Bank} {a b : List Op} {x y : Bits}
    (h1 : encodeOps c bank a = some (c1, x, bank1)) (h2 : encodeOps c1 bank1 b = some (c2, y, bank2)) :
    encodeOps c bank (a ++ b) = some (c2, x ++ y, bank2) := by
  rw [encodeOps_append, h1]
  simp only [Option.bind_some, h2]

theorem Tracks.nil (known : ω → List Dec.Item) (s : BoolCoder × Bank) (w : ω) : Tracks known Dec.done s w s w [] :=
  ⟨[], rfl, nofun, fun _ => rfl⟩

theorem Tracks.bind {known : ω → List Dec.Item} {x y : List Dec.Item → Dec (List Dec.Item)} {s s1 s2 : BoolCoder × Bank}
    {w w1 w2 : ω} {b1 b2 : Bits} (h1 : Tracks known x s w s1 w1 b1) (h2 : Tracks known y s1 w1 s2 w2 b2) :
    Tracks known (fun got => x got >>= y) s w s2 w2 (b1 ++ b2) := by
  obtain ⟨o1, e1, k1, g1⟩ := h1
  obtain ⟨o2, e2, k2, g2⟩ := h2
  refine ⟨o1 ++ o2, encodeOps_append_some e1 e2, opsOk_append k1 k2, fun rest => ?_⟩
  rw [Dec.hears_bind, List.append_assoc, g1]
  exact g2 rest

/-- The parts as the specification has them: rectangles, with the number of their size. -/
def partOf (q : Nat × Nat × Nat × Nat) : Option Part :=
  (Dec.sizeNo (4 * q.2.2.1) (4 * q.2.2.2)).map fun bs => ⟨q.1, q.2.1, bs, false⟩

theorem partsOf_horz {bs h sub split : Nat} (h1 : halfBlock bs = some h) (h2 : subSize 1 bs = some sub)
    (h3 : subSize 3 bs = some split) (r c mR mC : Nat) : partsOf 1 bs r c mR mC =
      some ([⟨r, c, sub, false⟩] ++ if r + h < mR then [⟨r + h, c, sub, false⟩] else []) := by
  unfold partsOf
  rw [h1, h2, show K.PARTITION_SPLIT = 3 from rfl, h3]
  by_cases hh : r + h < mR <;> simp [hh, K.PARTITION_NONE, K.PARTITION_HORZ]

theorem partsOf_vert {bs h sub split : Nat} (h1 : halfBlock bs = some h) (h2 : subSize 2 bs = some sub)
    (h3 : subSize 3 bs = some split) (r c mR mC : Nat) : partsOf 2 bs r c mR mC =
      some ([⟨r, c, sub, false⟩] ++ if c + h < mC then [⟨r, c + h, sub, false⟩] else []) := by
  unfold partsOf
  rw [h1, h2, show K.PARTITION_SPLIT = 3 from rfl, h3]
  by_cases hh : c + h < mC <;> simp [hh, K.PARTITION_NONE, K.PARTITION_HORZ, K.PARTITION_VERT]

theorem rects_horz {n h : Nat} (h1 : n / 2 = h) {bs : Nat} (h2 : Dec.sizeNo (4 * n) (4 * h) = some bs) (r c mR mC : Nat) :
    ((Dec.rects 1 n r c mR mC).bind fun l => l.mapM partOf) =
      some ([⟨r, c, bs, false⟩] ++ if r + h < mR then [⟨r + h, c, bs, false⟩] else []) := by
  unfold Dec.rects
  rw [h1]
  by_cases hh : r + h < mR <;> simp [hh, partOf, h2]

theorem rects_vert {n h : Nat} (h1 : n / 2 = h) {bs : Nat} (h2 : Dec.sizeNo (4 * h) (4 * n) = some bs) (r c mR mC : Nat) :
    ((Dec.rects 2 n r c mR mC).bind fun l => l.mapM partOf) =
      some ([⟨r, c, bs, false⟩] ++ if c + h < mC then [⟨r, c + h, bs, false⟩] else []) := by
  unfold Dec.rects
  rw [h1]
  by_cases hh : c + h < mC <;> simp [hh, partOf, h2]

theorem parts_spec (k p r c mR mC : Nat) (hk : k ≤ 5) (hp : readablePart k p = true) (h3 : p ≠ 3) :
    partsOf p (3 * k) r c mR mC = (Dec.rects p (2 ^ k) r c mR mC).bind fun l => l.mapM partOf := by
  unfold readablePart at hp
  have hp7 : p < 7 := by
    split at hp
    · simp at hp; omega
    · split at hp <;> simp at hp <;> omega
  interval_cases k <;> interval_cases p <;> first
    | exact absurd hp (by decide)
    | exact absurd rfl h3
    | (rw [partsOf_horz rfl rfl rfl, rects_horz rfl rfl]; rfl)
    | (rw [partsOf_vert rfl rfl rfl, rects_vert rfl rfl]; rfl)
    | rfl

theorem tracks_block {C : Coding ω β} {P : Dec.Places} {known : ω → List Dec.Item} {view : β → Dec.Got} (hF : C.Fits P known view)
    {r c bs p n m : Nat} {s s' : BoolCoder × Bank} {w w' : ω} {i : β} {ps : List (PTree β)} {t' : PTree β} {bits : Bits}
    (hn : Dec.sizeNo (4 * n) (4 * m) = some bs) (h : encBlock C.enc s w r c (.node bs p i ps) = some (s', w', t', bits)) :
    Tracks known (Dec.blocksAt P [(r, c, n, m)]) s w s' w' bits := by
  simp only [encBlock, Coding.enc, Option.bind_eq_bind, Option.bind_eq_some_iff] at h
  obtain ⟨_, -, _, -, ⟨s1, w1, i1, b1⟩, ⟨⟨w2, i2, ops⟩, hb, ⟨c1, b2, bank1⟩, ho, h2⟩, h⟩ := h
  cases h2
  cases h
  obtain ⟨k1, k2, k3⟩ := hF.block _ _ _ _ _ _ _ _ hb
  refine ⟨ops, ho, k2, fun rest => ?_⟩
  show (Dec.ofOption (Dec.sizeNo (4 * n) (4 * m)) >>= fun bs => Dec.block (P.here (known w) r c bs) >>= fun g =>
    Dec.blocksAt P [] (known w ++ [⟨r, c, bs, g⟩])).hears _ = _
  rw [Dec.hears_bind, hn]
  show (Dec.block (P.here (known w) r c bs) >>= fun g => Dec.blocksAt P [] (known w ++ [⟨r, c, bs, g⟩])).hears _ = _
  rw [Dec.hears_bind, k3, k1]
  rfl

theorem blocksAt_cons (P : Dec.Places) (q : Nat × Nat × Nat × Nat) (qs : List (Nat × Nat × Nat × Nat)) (got : List Dec.Item) (ops : List Op) :
    (Dec.blocksAt P (q :: qs) got).hears ops = (Dec.blocksAt P [q] got >>= Dec.blocksAt P qs).hears ops := by
  obtain ⟨y, x, n, m⟩ := q
  simp only [Dec.blocksAt, Dec.hears_bind]
  cases (Dec.ofOption (Dec.sizeNo (4 * n) (4 * m))).hears ops with
  | none => rfl
  | some a =>
    simp only [Option.bind_some, Dec.hears_bind]
    cases (Dec.block (P.here got y x a.1)).hears a.2 with
    | none => rfl
    | some b => rfl

theorem tracks_parts {C : Coding ω β} {P : Dec.Places} {known : ω → List Dec.Item} {view : β → Dec.Got} (hF : C.Fits P known view)
    {rec : BoolCoder × Bank → ω → Nat → Nat → PTree β → Option (Ran (BoolCoder × Bank) ω β)} :
    ∀ (l : List (Nat × Nat × Nat × Nat)) (qs : List Part) (s s' : BoolCoder × Bank) (w w' : ω) (ts : List (PTree β)) (bits : Bits),
    l.mapM partOf = some qs → encParts C.enc rec qs s w = some (s', w', ts, bits) →
    Tracks known (Dec.blocksAt P l) s w s' w' bits := by
  intro l
  induction l with
  | nil =>
    intro qs s s' w w' ts bits hl h
    cases hl
    cases h
    exact .nil known s w
  | cons q l ih =>
    intro qs s s' w w' ts bits hl h
    simp only [List.mapM_cons, Option.bind_eq_bind, Option.bind_eq_some_iff] at hl
    obtain ⟨a, ha, qs', hq, hl⟩ := hl
    cases hl
    obtain ⟨y, x, n, m⟩ := q
    obtain ⟨bs, hbs, rfl⟩ := Option.map_eq_some_iff.1 ha
    simp only [encParts, Bool.false_eq_true, if_false, Option.bind_eq_bind, Option.bind_eq_some_iff] at h
    obtain ⟨⟨s1, w1, t1, b1⟩, h1, ⟨s2, w2, ts2, b2⟩, h2, h⟩ := h
    cases h
    obtain ⟨ops, e1, e2, e3⟩ := (tracks_block hF hbs h1).bind (ih _ _ _ _ _ _ _ hq h2)
    exact ⟨ops, e1, e2, fun rest => by rw [blocksAt_cons]; exact e3 rest⟩

theorem gives_partition (k p : Nat) (a l : Bool) (hk0 : 0 < k) (hk : k ≤ 5) (hp : readablePart k p = true) (x : Sel)
    (hx : Sel.partition (3 * k) a l p = some x) : OpsOk defaultBank [x.op] ∧
      ∀ rest, (Dec.elem (.partition (3 * k) a l 0) ⟨none, none, none⟩).hears (x.op :: rest) = some (p, rest) := by
  have hv : (⟨none, none, none⟩ : Nbrs).Valid := ⟨nofun, nofun, nofun⟩
  have hp' : p < 4 ∨ 3 ≤ k ∧ p < 8 := by
    unfold readablePart at hp
    split at hp
    · simp at hp; omega
    · split at hp <;> simp at hp <;> omega
  have hg : Gives ⟨none, none, none⟩ [.elem (.partition (3 * k) a l p)] (Dec.elem (.partition (3 * k) a l 0) ⟨none, none, none⟩) p := by
    refine .elem _ _ _ _ rfl nofun (fun s h => ?_) ?_ ?_
    · simp only [Elem.select, Sel.partition, Option.bind_eq_bind, Option.bind_eq_some_iff] at h
      obtain ⟨_, -, h⟩ := h
      cases h; rfl
    · show _ ∨ _ ∨ _
      interval_cases k <;> simp [K.BLOCK_8X8, K.BLOCK_16X16, K.BLOCK_32X32, K.BLOCK_64X64, K.BLOCK_128X128] <;> omega
    · unfold Elem.Sound
      interval_cases k <;> simp [K.BLOCK_8X8, K.BLOCK_16X16, K.BLOCK_32X32, K.BLOCK_64X64, K.BLOCK_128X128] <;> omega
  obtain ⟨ops, h1, h2⟩ := says_of_ok hv hg.1
  have : ops = [x.op] := by
    obtain ⟨o, os, rfl, h3, h4⟩ := says_cons h1
    rw [says_nil h4]
    simp only [synOp, Elem.select, hx, Option.map_some, Option.some.injEq] at h3
    rw [h3]
  subst this
  exact ⟨h2, fun rest => hg.2 _ rest h1⟩

theorem half_spec (k r m : Nat) (hk : k + 1 ≤ 5) (hr : 2 ^ (k + 1) ∣ r) (hm : 4 ∣ m) : ∃ half, halfBlock (3 * (k + 1)) = some half ∧
    (r + half < m ↔ r + 2 ^ (k + 1) / 2 < m) := by
  obtain ⟨a, rfl⟩ := hr
  obtain ⟨b, rfl⟩ := hm
  have hk4 : k ≤ 4 := by omega
  interval_cases k
  · exact ⟨1, rfl, Iff.rfl⟩
  · exact ⟨1, rfl, by norm_num; omega⟩
  · exact ⟨4, rfl, Iff.rfl⟩
  · exact ⟨8, rfl, Iff.rfl⟩
  · exact ⟨16, rfl, Iff.rfl⟩

/-- The partition type. -/
theorem tracks_type {C : Coding ω β} {P : Dec.Places} {known : ω → List Dec.Item} {view : β → Dec.Got} (hF : C.Fits P known view)
    (hR : 4 ∣ P.miRows) (hC : 4 ∣ P.miCols) {k r c p half : Nat} (hk : k + 1 ≤ 5) (hr : 2 ^ (k + 1) ∣ r) (hc : 2 ^ (k + 1) ∣ c)
    (hhalf : halfBlock (3 * (k + 1)) = some half)
    (hok : allowedPart p (3 * (k + 1)) r c P.miRows P.miCols = some true) (hp : readablePart (k + 1) p = true)
    {s s1 : BoolCoder × Bank} {w : ω} {b0 : Bits}
    (h : encSym C.enc s (C.enter w r c) (partSym p (3 * (k + 1)) (decide (r + half < P.miRows)) (decide (c + half < P.miCols))) =
      some (s1, b0)) :
    ∃ ops, encodeOps s.1 s.2 ops = some (s1.1, b0, s1.2) ∧ OpsOk defaultBank ops ∧
      ∀ rest, (Dec.partType P (2 ^ (k + 1)) r c (known w)).hears (ops ++ rest) = some (p, rest) := by
  obtain ⟨h1, e1, er⟩ := half_spec k r P.miRows hk hr hR
  obtain ⟨h2, e2, ec⟩ := half_spec k c P.miCols hk hc hC
  rw [hhalf] at e1 e2
  cases e1
  cases e2
  have hbs : ¬ 3 * (k + 1) < K.BLOCK_8X8 := by
    show ¬ 3 * (k + 1) < 3
    omega
  unfold partSym at h
  unfold allowedPart at hok
  rw [hhalf] at hok
  simp only [Option.bind_eq_bind, Option.bind_some] at hok
  rw [if_neg hbs] at h hok
  unfold Dec.partType
  rw [← decide_eq_decide.2 er, ← decide_eq_decide.2 ec]
  cases hrr : decide (r + half < P.miRows) with
  | true =>
    rw [hrr] at h
    cases hcc : decide (c + half < P.miCols) with
    | true =>
      rw [hcc] at h
      simp only [Bool.and_self, if_true, encSym, Coding.enc, Option.bind_eq_bind, Option.bind_eq_some_iff] at h
      obtain ⟨x, hx, ⟨c1, b1, bank1⟩, ho, h⟩ := h
      cases h
      rw [hF.sides] at hx
      obtain ⟨g1, g2⟩ := gives_partition (k + 1) p _ _ (by omega) hk hp x hx
      refine ⟨[x.op], ho, g1, fun rest => ?_⟩
      have hsz : Dec.sizeNo (4 * 2 ^ (k + 1)) (4 * 2 ^ (k + 1)) = some (3 * (k + 1)) := by
        have : k ≤ 4 := by omega
        interval_cases k <;> rfl
      simp only [hsz]
      exact g2 rest
    | false =>
      rw [hcc] at h
      simp [encSym, Coding.enc] at h
  | false =>
    rw [hrr] at h hok
    cases hcc : decide (c + half < P.miCols) with
    | true =>
      rw [hcc] at h
      simp [encSym, Coding.enc] at h
    | false =>
      rw [hcc] at h hok
      simp only [Bool.and_self, Bool.false_eq_true, if_false, encSym, Option.some.injEq, Prod.mk.injEq, beq_iff_eq] at h hok
      obtain ⟨rfl, rfl⟩ := h
      refine ⟨[], rfl, nofun, fun rest => ?_⟩
      rw [hok]; rfl

/-- **C122**, one square: whatever the encoder decides, if it finishes then it has made range coder calls from which the
decoder gets the blocks it has coded, in order, with their places and sizes. -/
theorem C122_square {C : Coding ω β} {P : Dec.Places} {known : ω → List Dec.Item} {view : β → Dec.Got} (hF : C.Fits P known view)
    {choice : Nat → Nat → Nat → Option Nat} (hc : Readable choice P.miRows P.miCols) (hR : 4 ∣ P.miRows) (hC : 4 ∣ P.miCols) :
    ∀ (k fuel r c : Nat) (s s' : BoolCoder × Bank) (w w' : ω) (t t' : PTree β) (bits : Bits), k ≤ 5 → 2 ^ k ∣ r → 2 ^ k ∣ c →
      t.bsize = 3 * k → withoutSearch C.enc choice P.miRows P.miCols fuel s w r c t = some (s', w', t', bits) →
      Tracks known (Dec.square P k r c) s w s' w' bits := by
  intro k
  induction k with
  | zero =>
    intro fuel r c s s' w w' t t' bits _ hr hcc ht h
    cases fuel with
    | zero => cases h
    | succ f =>
    unfold withoutSearch partSearch at h
    by_cases hout : P.miRows ≤ r ∨ P.miCols ≤ c
    · rw [if_pos hout] at h
      cases h
      refine ⟨[], rfl, nofun, fun rest => ?_⟩
      unfold Dec.square
      rw [if_pos hout]
      rfl
    rw [if_neg hout] at h
    have hin := hout
    push Not at hin
    obtain ⟨p, hch, hok, hp⟩ := hc 0 r c (by decide) hr hcc hin.1 hin.2
    have hp0 : p = 0 := by simpa [readablePart] using hp
    subst hp0
    obtain ⟨bs, q, i, ps⟩ := t
    cases ht
    simp only [PTree.bsize, hch, Option.toList_some, tryAll, hok, Option.bind_eq_bind, Option.bind_eq_some_iff, Option.some.injEq,
      exists_eq_left', if_true] at h
    obtain ⟨_, -, ⟨w1, best⟩, ⟨⟨s1, w2, t1, b1⟩, h1, h2⟩, h3⟩ := h
    simp only [Option.some.injEq, Prod.mk.injEq] at h2 h3
    obtain ⟨rfl, rfl⟩ := h2
    obtain ⟨rfl, rfl, rfl, rfl⟩ := h3
    simp only [tryPart, Option.bind_eq_bind, Option.bind_eq_some_iff] at h1
    obtain ⟨half, hhalf, ⟨s3, b3⟩, hsym, qs, hqs, h1⟩ := h1
    have hsym' : encSym C.enc s (C.enter w r c) none = some (s3, b3) := hsym
    cases hsym'
    rw [if_pos (show (0 : Nat) = K.PARTITION_NONE from rfl)] at h1
    obtain ⟨⟨s4, w4, t4, b4⟩, h4, h1⟩ := Option.bind_eq_some_iff.1 h1
    cases h1
    obtain ⟨ops, e1, e2, e3⟩ := tracks_block hF (n := 1) (m := 1) rfl h4
    refine ⟨ops, e1, e2, fun rest => ?_⟩
    unfold Dec.square
    rw [if_neg hout]
    rw [show C.enc.enter w r c = C.enter w r c from rfl, hF.enter] at e3
    exact e3 rest
  | succ k ih =>
    intro fuel r c s s' w w' t t' bits hk hr hcc ht h
    cases fuel with
    | zero => cases h
    | succ f =>
    unfold withoutSearch partSearch at h
    by_cases hout : P.miRows ≤ r ∨ P.miCols ≤ c
    · rw [if_pos hout] at h
      cases h
      refine ⟨[], rfl, nofun, fun rest => ?_⟩
      unfold Dec.square
      rw [if_pos hout]
      rfl
    rw [if_neg hout] at h
    have hin := hout
    push Not at hin
    obtain ⟨p, hch, hok, hp⟩ := hc (k + 1) r c hk hr hcc hin.1 hin.2
    obtain ⟨bs, q, i, ps⟩ := t
    obtain rfl : bs = 3 * (k + 1) := ht
    simp only [PTree.bsize, hch, Option.toList_some, tryAll, hok, Option.bind_eq_bind, Option.bind_eq_some_iff, Option.some.injEq,
      exists_eq_left', if_true] at h
    obtain ⟨_, -, ⟨w1, best⟩, ⟨⟨s1, w2, t1, b1⟩, h1, h2⟩, h3⟩ := h
    simp only [Option.some.injEq, Prod.mk.injEq] at h2 h3
    obtain ⟨rfl, rfl⟩ := h2
    obtain ⟨rfl, rfl, rfl, rfl⟩ := h3
    simp only [tryPart, PTree.bsize, PTree.info, PTree.parts, Option.bind_eq_bind, Option.bind_eq_some_iff] at h1
    obtain ⟨half, hhalf, ⟨s3, b3⟩, hsym, qs, hqs, h1⟩ := h1
    obtain ⟨o1, e1, e2, e3⟩ := tracks_type hF hR hC hk hr hcc hhalf hok hp hsym
    -- the parts
    have key : ∃ b4, b1 = b3 ++ b4 ∧ Tracks known (fun got => if p = 3 then
        (Dec.square P k r c got >>= fun got => Dec.square P k r (c + 2 ^ k) got >>= fun got => Dec.square P k (r + 2 ^ k) c got >>=
          fun got => Dec.square P k (r + 2 ^ k) (c + 2 ^ k) got)
        else Dec.ofOption (Dec.rects p (2 ^ (k + 1)) r c P.miRows P.miCols) >>= fun qs => Dec.blocksAt P qs got)
        s3 (C.enter w r c) s1 w2 b4 := by
      have hk4 : k ≤ 4 := by omega
      by_cases hp3 : p = 3
      · subst hp3
        have hk1 : k ≠ 1 := by rintro rfl; exact absurd hp (by decide)
        rw [if_neg (show ¬ 3 = K.PARTITION_NONE by decide)] at h1
        obtain ⟨half', sub, hh', hsub, rfl⟩ := partsOf_split hqs
        rw [hhalf] at hh'
        cases hh'
        have hs : half = 2 ^ k ∧ sub = 3 * k := by
          have e : halfBlock (3 * (k + 1)) = some (2 ^ k) ∧ subSize K.PARTITION_SPLIT (3 * (k + 1)) = some (3 * k) := by
            interval_cases k <;> first | exact ⟨rfl, rfl⟩ | exact absurd rfl hk1
          rw [hhalf, hsub] at e
          simpa using e
        obtain ⟨rfl, rfl⟩ := hs
        have d0 : 2 ^ k ∣ r := (Nat.pow_dvd_pow 2 (by omega)).trans hr
        have d1 : 2 ^ k ∣ c := (Nat.pow_dvd_pow 2 (by omega)).trans hcc
        have d2 : 2 ^ k ∣ r + 2 ^ k := dvd_add d0 dvd_rfl
        have d3 : 2 ^ k ∣ c + 2 ^ k := dvd_add d1 dvd_rfl
        simp only [encParts, if_true, Option.bind_eq_bind, Option.bind_eq_some_iff] at h1
        obtain ⟨⟨s4, w4, ts4, b4⟩, ⟨⟨sa, wa, ta, ba⟩, ha, ⟨sb, wb, tb, bb⟩, ⟨⟨sc, wc, tc, bc⟩, hc', ⟨sd, wd, td, bd⟩,
          ⟨⟨se, we, te, be⟩, he, ⟨sf, wf, tf, bf⟩, ⟨⟨sg, wg, tg, bg⟩, hg, ⟨sh, wh, th, bh⟩, hh, hi⟩, hj⟩, hl⟩, hm⟩, hn⟩ := h1
        cases hh
        cases hi
        cases hj
        cases hl
        cases hm
        cases hn
        have f1 := ih _ _ _ _ _ _ _ _ _ _ (by omega) d0 d1 rfl ha
        have f2 := ih _ _ _ _ _ _ _ _ _ _ (by omega) d0 d3 rfl hc'
        have f3 := ih _ _ _ _ _ _ _ _ _ _ (by omega) d2 d1 rfl he
        have f4 := ih _ _ _ _ _ _ _ _ _ _ (by omega) d2 d3 rfl hg
        refine ⟨_, rfl, ?_⟩
        rw [List.append_nil]
        simp only [if_true]
        exact f1.bind (f2.bind (f3.bind f4))
      · simp only [if_neg hp3]
        by_cases hp0 : p = 0
        · subst hp0
          rw [if_pos (show (0 : Nat) = K.PARTITION_NONE from rfl)] at h1
          obtain ⟨⟨s4, w4, t4, b4⟩, h4, h1⟩ := Option.bind_eq_some_iff.1 h1
          cases h1
          refine ⟨_, rfl, ?_⟩
          refine tracks_block hF (n := 2 ^ (k + 1)) (m := 2 ^ (k + 1)) ?_ h4
          interval_cases k <;> rfl
        · rw [if_neg (show ¬ p = K.PARTITION_NONE from hp0)] at h1
          obtain ⟨⟨s4, w4, t4, b4⟩, h4, h1⟩ := Option.bind_eq_some_iff.1 h1
          cases h1
          refine ⟨_, rfl, ?_⟩
          rw [parts_spec (k + 1) p r c _ _ hk hp hp3] at hqs
          obtain ⟨l, hl, hqs⟩ := Option.bind_eq_some_iff.1 hqs
          rw [hl]
          exact tracks_parts hF l _ _ _ _ _ _ _ hqs h4
    obtain ⟨b4, rfl, o2, e4, e5, e6⟩ := key
    refine ⟨o1 ++ o2, encodeOps_append_some e1 e4, opsOk_append e2 e5, fun rest => ?_⟩
    rw [hF.enter] at e6
    unfold Dec.square
    rw [if_neg hout]
    show (Dec.partType P (2 ^ (k + 1)) r c (known w) >>= fun p => _).hears _ = _
    rw [Dec.hears_bind, List.append_assoc, e3]
    exact e6 rest

/-! ### The encoder finishes -/

/-- A coder with tables as a session from the default tables may leave it. -/
def Reached (s : BoolCoder × Bank) : Prop :=
  ∃ c ops bits, OpsOk defaultBank ops ∧ encodeOps (initEncoder c) defaultBank ops = some (s.1, bits, s.2)

theorem reached_start (c : BoolCoder) : Reached (initEncoder c, defaultBank) := ⟨c, [], [], nofun, rfl⟩

theorem encodeOps_some {c : BoolCoder} {ops : List Op} (h : OpsOk defaultBank ops) :
    ∃ x, encodeOps (initEncoder c) defaultBank ops = some x := by
  obtain ⟨c', bits, bank', h1, -⟩ := C08_mixed_round_trip defaultBank defaultBank_ok ops h c
  unfold encodeSession at h1
  simp only [Option.bind_eq_bind] at h1
  obtain ⟨x, hx, -⟩ := Option.bind_eq_some_iff.1 h1
  exact ⟨x, hx⟩

theorem Reached.next {s : BoolCoder × Bank} (h : Reached s) {ops : List Op} (ho : OpsOk defaultBank ops) :
    ∃ s' bits, encodeOps s.1 s.2 ops = some (s'.1, bits, s'.2) ∧ Reached s' := by
  obtain ⟨c, o, b, h1, h2⟩ := h
  obtain ⟨x, hx⟩ := encodeOps_some (c := c) (opsOk_append h1 ho)
  have hx' := hx
  rw [encodeOps_append, h2] at hx'
  simp only [Option.bind_some] at hx'
  obtain ⟨y, hy, hx'⟩ := Option.bind_eq_some_iff.1 hx'
  cases hx'
  exact ⟨(y.1, y.2.2), y.2.1, hy, c, o ++ ops, _, opsOk_append h1 ho, hx⟩

theorem Tracks.reached {known : ω → List Dec.Item} {x : List Dec.Item → Dec (List Dec.Item)} {s s' : BoolCoder × Bank} {w w' : ω}
    {bits : Bits} (h : Tracks known x s w s' w' bits) (hs : Reached s) : Reached s' := by
  obtain ⟨ops, h1, h2, -⟩ := h
  obtain ⟨s2, b, h3, h4⟩ := hs.next h2
  rw [h1] at h3
  obtain ⟨a, b'⟩ := s'
  obtain ⟨c, d⟩ := s2
  simp only [Option.some.injEq, Prod.mk.injEq] at h3
  obtain ⟨rfl, -, rfl⟩ := h3
  exact h4

theorem block_finishes {C : Coding ω β} {P : Dec.Places} {known : ω → List Dec.Item} {view : β → Dec.Got} (hF : C.Fits P known view)
    (hT : ∀ w r c bs i, bs < 22 → (C.block w r c bs i).isSome = true) {s : BoolCoder × Bank} (hs : Reached s) (w : ω)
    (r c bs p : Nat) (i : β) (ps : List (PTree β)) (hbs : bs < 22) :
    ∃ s' w' t' bits, encBlock C.enc s w r c (.node bs p i ps) = some (s', w', t', bits) ∧ Reached s' := by
  obtain ⟨⟨w', i', ops⟩, hb⟩ := Option.isSome_iff_exists.1 (hT w r c bs i hbs)
  obtain ⟨-, k2, -⟩ := hF.block _ _ _ _ _ _ _ _ hb
  obtain ⟨s', bits, h1, h2⟩ := hs.next k2
  refine ⟨s', w', .node bs p i' ps, bits, ?_, h2⟩
  have e1 : ∃ a, K.num_4x4_blocks_wide[bs]? = some a := ⟨_, List.getElem?_eq_getElem (show bs < 22 from hbs)⟩
  have e2 : ∃ a, K.num_4x4_blocks_high[bs]? = some a := ⟨_, List.getElem?_eq_getElem (show bs < 22 from hbs)⟩
  obtain ⟨a, e1⟩ := e1
  obtain ⟨b, e2⟩ := e2
  simp only [encBlock, e1, e2, Coding.enc, hb, h1, Option.bind_eq_bind, Option.bind_some]

theorem sizeNo_lt {w h bs : Nat} (hs : Dec.sizeNo w h = some bs) : bs < 22 := by
  unfold Dec.sizeNo at hs
  rw [List.findIdx?_eq_some_iff_getElem] at hs
  exact hs.1

theorem parts_finish {C : Coding ω β} {P : Dec.Places} {known : ω → List Dec.Item} {view : β → Dec.Got} (hF : C.Fits P known view)
    (hT : ∀ w r c bs i, bs < 22 → (C.block w r c bs i).isSome = true)
    {rec : BoolCoder × Bank → ω → Nat → Nat → PTree β → Option (Ran (BoolCoder × Bank) ω β)} :
    ∀ (l : List (Nat × Nat × Nat × Nat)) (qs : List Part) (s : BoolCoder × Bank) (w : ω), Reached s → l.mapM partOf = some qs →
    ∃ s' w' ts bits, encParts C.enc rec qs s w = some (s', w', ts, bits) := by
  intro l
  induction l with
  | nil => intro qs s w _ hl; cases hl; exact ⟨_, _, _, _, rfl⟩
  | cons q l ih =>
    intro qs s w hs hl
    simp only [List.mapM_cons, Option.bind_eq_bind, Option.bind_eq_some_iff] at hl
    obtain ⟨a, ha, qs', hq, hl⟩ := hl
    cases hl
    obtain ⟨y, x, n, m⟩ := q
    obtain ⟨bs, hbs, rfl⟩ := Option.map_eq_some_iff.1 ha
    obtain ⟨s1, w1, t1, b1, h1, h2⟩ := block_finishes hF hT hs w y x bs K.PARTITION_NONE C.enc.fresh [] (sizeNo_lt hbs)
    obtain ⟨s2, w2, t2, b2, h3⟩ := ih qs' s1 w1 h2 hq
    refine ⟨s2, w2, t1 :: t2, b1 ++ b2, ?_⟩
    simp only [encParts, Bool.false_eq_true, if_false, PTree.new, h1, h3, Option.bind_eq_bind, Option.bind_some]

theorem partsOf_some (k p r c mR mC : Nat) (hk : k ≤ 5) (hp : readablePart k p = true) (h3 : p ≠ 3) :
    ∃ qs, partsOf p (3 * k) r c mR mC = some qs := by
  unfold readablePart at hp
  have hp7 : p < 7 := by
    split at hp
    · simp at hp; omega
    · split at hp <;> simp at hp <;> omega
  interval_cases k <;> interval_cases p <;> first
    | exact absurd hp (by decide)
    | exact absurd rfl h3
    | exact ⟨_, partsOf_horz rfl rfl rfl _ _ _ _⟩
    | exact ⟨_, partsOf_vert rfl rfl rfl _ _ _ _⟩
    | exact ⟨_, rfl⟩

/-- No square of up to `2 ^ K` units has one middle line inside the frame and the other outside. -/
def NoFlags (K miRows miCols : Nat) : Prop := ∀ k r c, k < K → 2 ^ (k + 1) ∣ r → 2 ^ (k + 1) ∣ c → r < miRows → c < miCols →
  (r + 2 ^ k < miRows ↔ c + 2 ^ k < miCols)

theorem sym_finishes {C : Coding ω β} {s : BoolCoder × Bank} (hs : Reached s) {w : ω} {k r c p half mR mC : Nat} (hk : k + 1 ≤ 5)
    (hr : 2 ^ (k + 1) ∣ r) (hc : 2 ^ (k + 1) ∣ c) (hR : 4 ∣ mR) (hC : 4 ∣ mC) (hhalf : halfBlock (3 * (k + 1)) = some half)
    (hp : readablePart (k + 1) p = true) (hn : r + 2 ^ k < mR ↔ c + 2 ^ k < mC) :
    ∃ s1 b0, encSym C.enc s w (partSym p (3 * (k + 1)) (decide (r + half < mR)) (decide (c + half < mC))) = some (s1, b0) := by
  obtain ⟨h1, e1, er⟩ := half_spec k r mR hk hr hR
  obtain ⟨h2, e2, ec⟩ := half_spec k c mC hk hc hC
  rw [hhalf] at e1 e2
  cases e1
  cases e2
  have hpow : 2 ^ (k + 1) / 2 = 2 ^ k := by rw [pow_succ]; omega
  rw [hpow] at er ec
  have hbs : ¬ 3 * (k + 1) < K.BLOCK_8X8 := by
    show ¬ 3 * (k + 1) < 3
    omega
  unfold partSym
  rw [if_neg hbs]
  by_cases hrr : r + half < mR
  · have hcc := ec.2 (hn.1 (er.1 hrr))
    have hx : ∃ x, Sel.partition (3 * (k + 1)) (C.sides w (3 * (k + 1))).1 (C.sides w (3 * (k + 1))).2 p = some x := by
      have : k ≤ 4 := by omega
      interval_cases k <;> exact ⟨_, rfl⟩
    obtain ⟨x, hx⟩ := hx
    obtain ⟨g1, -⟩ := gives_partition (k + 1) p _ _ (by omega) hk hp x hx
    obtain ⟨s', bits, h3, -⟩ := hs.next g1
    refine ⟨s', bits, ?_⟩
    simp only [hrr, hcc, decide_true, Bool.and_self, if_true, encSym, Coding.enc, hx, h3, Option.bind_eq_bind, Option.bind_some]
  · have hcc : ¬ c + half < mC := fun h => hrr (er.2 (hn.2 (ec.1 h)))
    refine ⟨s, [], ?_⟩
    simp [hrr, hcc, encSym]

theorem tryPart_whole {σ : Type} {E : Enc σ ω β} {rec} {mR mC r c bs q half : Nat} {i : β} {ps : List (PTree β)} {s s1 s2 : σ}
    {w w2 : ω} {t2 : PTree β} {b0 b1 : Bits} {qs : List Part} (h1 : halfBlock bs = some half)
    (h2 : encSym E s w (partSym 0 bs (decide (r + half < mR)) (decide (c + half < mC))) = some (s1, b0))
    (h3 : partsOf 0 bs r c mR mC = some qs) (h4 : encBlock E s1 w r c (.node bs 0 i ps) = some (s2, w2, t2, b1)) :
    tryPart E rec mR mC r c 0 s w (.node bs q i ps) = some (s2, w2, t2, b0 ++ b1) := by
  unfold tryPart
  simp only [PTree.bsize, PTree.info, PTree.parts, h1, h2, h3, h4, Option.bind_eq_bind, Option.bind_some]
  rfl

theorem tryPart_parts {σ : Type} {E : Enc σ ω β} {rec} {mR mC r c bs q p half : Nat} {i : β} {ps ts : List (PTree β)} {s s1 s2 : σ}
    {w w2 : ω} {b0 b1 : Bits} {qs : List Part} (hp : p ≠ 0) (h1 : halfBlock bs = some half)
    (h2 : encSym E s w (partSym p bs (decide (r + half < mR)) (decide (c + half < mC))) = some (s1, b0))
    (h3 : partsOf p bs r c mR mC = some qs) (h4 : encParts E rec qs s1 w = some (s2, w2, ts, b1)) :
    tryPart E rec mR mC r c p s w (.node bs q i ps) = some (s2, w2, .node bs p i ts, b0 ++ b1) := by
  unfold tryPart
  simp only [PTree.bsize, PTree.info, h1, h2, h3, h4, Option.bind_eq_bind, Option.bind_some]
  exact if_neg hp

/-- **C122**, finishing: if every single block can be coded, so can a square. -/
theorem C122_finishes {C : Coding ω β} {P : Dec.Places} {known : ω → List Dec.Item} {view : β → Dec.Got} (hF : C.Fits P known view)
    (hT : ∀ w r c bs i, bs < 22 → (C.block w r c bs i).isSome = true)
    {choice : Nat → Nat → Nat → Option Nat} (hc : Readable choice P.miRows P.miCols) (hR : 4 ∣ P.miRows) (hC : 4 ∣ P.miCols)
    {N : Nat} (hN : NoFlags N P.miRows P.miCols) :
    ∀ (k fuel r c : Nat) (s : BoolCoder × Bank) (w : ω) (t : PTree β), k ≤ 5 → k ≤ N → k < fuel → 2 ^ k ∣ r → 2 ^ k ∣ c →
      t.bsize = 3 * k → Reached s →
      ∃ s' w' t' bits, withoutSearch C.enc choice P.miRows P.miCols fuel s w r c t = some (s', w', t', bits) := by
  intro k
  induction k with
  | zero =>
    intro fuel r c s w t _ _ hf hr hcc ht hs
    obtain ⟨f, rfl⟩ : ∃ f, fuel = f + 1 := ⟨fuel - 1, by omega⟩
    unfold withoutSearch partSearch
    by_cases hout : P.miRows ≤ r ∨ P.miCols ≤ c
    · exact ⟨_, _, _, _, if_pos hout⟩
    rw [if_neg hout]
    push Not at hout
    obtain ⟨p, hch, hok, hp⟩ := hc 0 r c (by decide) hr hcc hout.1 hout.2
    have hp0 : p = 0 := by simpa [readablePart] using hp
    subst hp0
    obtain ⟨bs, q, i, ps⟩ := t
    obtain rfl : bs = 3 * 0 := ht
    obtain ⟨s1, w1, t1, b1, h1, -⟩ := block_finishes hF hT hs (C.enter w r c) r c (3 * 0) 0 i ps (by decide)
    have hpo : ∃ qs, partsOf 0 (3 * 0) r c P.miRows P.miCols = some qs := partsOf_some 0 0 r c _ _ (by decide) hp (by decide)
    obtain ⟨qs, hqs⟩ := hpo
    have htry : tryPart C.enc (partSearch C.enc (fun r c bs => (choice r c bs).toList) P.miRows P.miCols f) P.miRows P.miCols r c 0 s
        (C.enter w r c) (.node (3 * 0) q i ps) = some (s1, w1, t1, [] ++ b1) := by
      exact tryPart_whole (half := 0) rfl rfl hqs h1
    refine ⟨s1, w1, t1, [] ++ b1, ?_⟩
    simp only [PTree.bsize, hch, Option.toList_some, tryAll, hok, Option.bind_eq_bind, Option.bind_some, if_true,
      show halfBlock (3 * 0) = some 0 from rfl, show C.enc.enter w r c = C.enter w r c from rfl, htry]
    rfl
  | succ k ih =>
    intro fuel r c s w t hk hkN hf hr hcc ht hs
    obtain ⟨f, rfl⟩ : ∃ f, fuel = f + 1 := ⟨fuel - 1, by omega⟩
    unfold withoutSearch partSearch
    by_cases hout : P.miRows ≤ r ∨ P.miCols ≤ c
    · exact ⟨_, _, _, _, if_pos hout⟩
    rw [if_neg hout]
    push Not at hout
    obtain ⟨p, hch, hok, hp⟩ := hc (k + 1) r c hk hr hcc hout.1 hout.2
    obtain ⟨bs, q, i, ps⟩ := t
    obtain rfl : bs = 3 * (k + 1) := ht
    obtain ⟨half, hhalf, -⟩ := half_spec k r P.miRows hk hr hR
    have hn := hN k r c (by omega) hr hcc hout.1 hout.2
    obtain ⟨s1, b0, hsym⟩ := sym_finishes (C := C) hs (w := C.enter w r c) hk hr hcc hR hC hhalf hp hn
    obtain ⟨o1, e1, e2, -⟩ := tracks_type hF hR hC hk hr hcc hhalf hok hp hsym
    have hs1 : Reached s1 := by
      obtain ⟨s2, b, h3, h4⟩ := hs.next e2
      rw [e1] at h3
      obtain ⟨a, b'⟩ := s1
      obtain ⟨c', d⟩ := s2
      simp only [Option.some.injEq, Prod.mk.injEq] at h3
      obtain ⟨rfl, -, rfl⟩ := h3
      exact h4
    have htry : ∃ x, tryPart C.enc (partSearch C.enc (fun r c bs => (choice r c bs).toList) P.miRows P.miCols f) P.miRows P.miCols r c p s
        (C.enter w r c) (.node (3 * (k + 1)) q i ps) = some x := by
      have hk4 : k ≤ 4 := by omega
      by_cases hp3 : p = 3
      · subst hp3
        have hk1 : k ≠ 1 := by rintro rfl; exact absurd hp (by decide)
        have e : halfBlock (3 * (k + 1)) = some (2 ^ k) ∧ partsOf 3 (3 * (k + 1)) r c P.miRows P.miCols =
            some [⟨r, c, 3 * k, true⟩, ⟨r, c + 2 ^ k, 3 * k, true⟩, ⟨r + 2 ^ k, c, 3 * k, true⟩, ⟨r + 2 ^ k, c + 2 ^ k, 3 * k, true⟩] := by
          interval_cases k <;> first | exact ⟨rfl, rfl⟩ | exact absurd rfl hk1
        have d0 : 2 ^ k ∣ r := (Nat.pow_dvd_pow 2 (by omega)).trans hr
        have d1 : 2 ^ k ∣ c := (Nat.pow_dvd_pow 2 (by omega)).trans hcc
        have d2 : 2 ^ k ∣ r + 2 ^ k := dvd_add d0 dvd_rfl
        have d3 : 2 ^ k ∣ c + 2 ^ k := dvd_add d1 dvd_rfl
        have step : ∀ (y x : Nat) (s : BoolCoder × Bank) (w : ω), 2 ^ k ∣ y → 2 ^ k ∣ x → Reached s → ∃ s' w' t' b,
            withoutSearch C.enc choice P.miRows P.miCols f s w y x (.new C.fresh (3 * k)) = some (s', w', t', b) ∧ Reached s' := by
          intro y x s w hy hx hs
          obtain ⟨s', w', t', b, h⟩ := ih f y x s w (.new C.fresh (3 * k)) (by omega) (by omega) (by omega) hy hx rfl hs
          exact ⟨s', w', t', b, h, (C122_square hF hc hR hC k f y x _ _ _ _ _ _ _ (by omega) hy hx rfl h).reached hs⟩
        obtain ⟨sa, wa, ta, ba, ha, ra⟩ := step r c s1 (C.enter w r c) d0 d1 hs1
        obtain ⟨sb, wb, tb, bb, hb, rb⟩ := step r (c + 2 ^ k) sa wa d0 d3 ra
        obtain ⟨sc, wc, tc, bc, hc', rc⟩ := step (r + 2 ^ k) c sb wb d2 d1 rb
        obtain ⟨sd, wd, td, bd, hd, rd⟩ := step (r + 2 ^ k) (c + 2 ^ k) sc wc d2 d3 rc
        unfold withoutSearch at ha hb hc' hd
        refine ⟨_, tryPart_parts (by decide) hhalf hsym e.2 (s2 := sd) (w2 := wd) (ts := [ta, tb, tc, td])
          (b1 := ba ++ (bb ++ (bc ++ (bd ++ [])))) ?_⟩
        simp only [encParts, if_true, show C.enc.fresh = C.fresh from rfl, ha, hb, hc', hd, Option.bind_eq_bind, Option.bind_some]
      · obtain ⟨qs, hqs⟩ := partsOf_some (k + 1) p r c P.miRows P.miCols hk hp hp3
        by_cases hp0 : p = 0
        · subst hp0
          obtain ⟨s2, w2, t2, b2, h2, -⟩ := block_finishes hF hT hs1 (C.enter w r c) r c (3 * (k + 1)) 0 i ps (by omega)
          exact ⟨_, tryPart_whole hhalf hsym hqs h2⟩
        · have hqs' := hqs
          rw [parts_spec (k + 1) p r c _ _ hk hp hp3] at hqs'
          obtain ⟨l, hl, hqs'⟩ := Option.bind_eq_some_iff.1 hqs'
          obtain ⟨s2, w2, t2, b2, h2⟩ := parts_finish hF hT l qs s1 (C.enter w r c) hs1 hqs'
          exact ⟨_, tryPart_parts hp0 hhalf hsym hqs h2⟩
    obtain ⟨⟨s2, w2, t2, b2⟩, htry⟩ := htry
    refine ⟨s2, w2, t2, b2, ?_⟩
    simp only [PTree.bsize, hch, Option.toList_some, tryAll, hok, Option.bind_eq_bind, Option.bind_some, if_true,
      hhalf, show C.enc.enter w r c = C.enter w r c from rfl, htry]
    rfl

/-! ### Bits -/

theorem tracks_onBits {known : ω → List Dec.Item} {x : List Dec.Item → Dec (List Dec.Item)} {c : BoolCoder} {s' : BoolCoder × Bank}
    {w w' : ω} {bits : Bits} (h : Tracks known x (initEncoder c, defaultBank) w s' w' bits) (d : BoolCoder) (sz : Nat) (rest : Bits) :
    ∃ d' left, (x (known w)).onBits d (bits ++ (exitEncoder s'.1).2 ++ rest) sz defaultBank = some (known w', d', left, s'.2) := by
  obtain ⟨ops, h1, h2, h3⟩ := h
  obtain ⟨c', b, bank', h4, h5⟩ := C120_decoder defaultBank defaultBank_ok ops h2 c
  unfold encodeSession at h4
  simp only [h1, Option.bind_eq_bind, Option.bind_some, Option.some.injEq, Prod.mk.injEq] at h4
  obtain ⟨rfl, rfl, rfl⟩ := h4
  have := h3 []
  rw [List.append_nil] at this
  exact h5 _ _ _ this d sz rest

/-- **C122**, a square from the start of a stream: the decoder gets from the bits, with the end that `exit_encoder` writes and
whatever comes behind them, all blocks the encoder has coded, and ends with its tables. -/
theorem C122_tree {C : Coding ω β} {P : Dec.Places} {known : ω → List Dec.Item} {view : β → Dec.Got} (hF : C.Fits P known view)
    {choice : Nat → Nat → Nat → Option Nat} (hc : Readable choice P.miRows P.miCols) (hR : 4 ∣ P.miRows) (hC : 4 ∣ P.miCols)
    (k fuel r c : Nat) (e : BoolCoder) (s' : BoolCoder × Bank) (w w' : ω) (t t' : PTree β) (bits : Bits) (hk : k ≤ 5) (hr : 2 ^ k ∣ r)
    (hcc : 2 ^ k ∣ c) (ht : t.bsize = 3 * k)
    (h : withoutSearch C.enc choice P.miRows P.miCols fuel (initEncoder e, defaultBank) w r c t = some (s', w', t', bits))
    (d : BoolCoder) (sz : Nat) (rest : Bits) :
    ∃ d' left, (Dec.square P k r c (known w)).onBits d (bits ++ (exitEncoder s'.1).2 ++ rest) sz defaultBank =
      some (known w', d', left, s'.2) :=
  tracks_onBits (C122_square hF hc hR hC k fuel r c _ _ _ _ _ _ _ hk hr hcc ht h) d sz rest

/-- Squares at given positions, one after the other. -/
def Dec.squares (P : Dec.Places) (k : Nat) : List (Nat × Nat) → List Dec.Item → Dec (List Dec.Item)
  | [], got => .done got
  | p :: ps, got => do
    let got ← Dec.square P k p.1 p.2 got
    Dec.squares P k ps got

/-- A superblock, with what comes before its blocks. -/
def codeSb (C : Coding ω β) (prepare : ω → Nat → Nat → Option ω) (choice : Nat → Nat → Nat → Option Nat) (miRows miCols k fuel : Nat)
    (x : (BoolCoder × Bank) × ω × Bits) (r c : Nat) : Option ((BoolCoder × Bank) × ω × Bits) := do
  let w ← prepare x.2.1 r c
  let (s2, w2, _, b2) ← withoutSearch C.enc choice miRows miCols fuel x.1 w r c (.new C.fresh (3 * k))
  some (s2, w2, x.2.2 ++ b2)

theorem tracks_squares {C : Coding ω β} {P : Dec.Places} {known : ω → List Dec.Item} {view : β → Dec.Got} (hF : C.Fits P known view)
    {choice : Nat → Nat → Nat → Option Nat} (hc : Readable choice P.miRows P.miCols) (hR : 4 ∣ P.miRows) (hC : 4 ∣ P.miCols)
    {prepare : ω → Nat → Nat → Option ω} (hp : ∀ w r c w', prepare w r c = some w' → known w' = known w) (k fuel : Nat) (hk : k ≤ 5) :
    ∀ (l : List (Nat × Nat)) (x x' : (BoolCoder × Bank) × ω × Bits), (∀ p ∈ l, 2 ^ k ∣ p.1 ∧ 2 ^ k ∣ p.2) →
      l.foldlM (fun x p => codeSb C prepare choice P.miRows P.miCols k fuel x p.1 p.2) x = some x' →
      ∃ b, x'.2.2 = x.2.2 ++ b ∧ Tracks known (Dec.squares P k l) x.1 x.2.1 x'.1 x'.2.1 b := by
  intro l
  induction l with
  | nil =>
    intro x x' _ h
    cases h
    exact ⟨[], by simp, .nil known _ _⟩
  | cons p l ih =>
    intro x x' hl h
    simp only [List.foldlM_cons, Option.bind_eq_bind, Option.bind_eq_some_iff] at h
    obtain ⟨y, hy, h⟩ := h
    obtain ⟨b2, e2, f2⟩ := ih y x' (fun q hq => hl q (List.mem_cons_of_mem _ hq)) h
    unfold codeSb at hy
    simp only [Option.bind_eq_bind, Option.bind_eq_some_iff] at hy
    obtain ⟨w, hw, ⟨s1, w1, t1, b1⟩, h1, hy⟩ := hy
    cases hy
    obtain ⟨d1, d2⟩ := hl p List.mem_cons_self
    have f1 := C122_square hF hc hR hC k fuel p.1 p.2 _ _ _ _ _ _ _ hk d1 d2 rfl h1
    have f1' : Tracks known (Dec.square P k p.1 p.2) x.1 x.2.1 s1 w1 b1 := by
      obtain ⟨ops, g1, g2, g3⟩ := f1
      rw [hp _ _ _ _ hw] at g3
      exact ⟨ops, g1, g2, g3⟩
    exact ⟨b1 ++ b2, by rw [e2, List.append_assoc], f1'.bind f2⟩

theorem superblocks_dvd {a : TileArea} {k : Nat} (hr : 2 ^ k ∣ a.rowStart) (hc : 2 ^ k ∣ a.colStart) :
    ∀ p ∈ superblocks a (2 ^ k), 2 ^ k ∣ p.1 ∧ 2 ^ k ∣ p.2 := by
  intro p hp
  obtain ⟨⟨i, h1, -⟩, ⟨j, h2, -⟩⟩ := (mem_superblocks (by positivity)).1 hp
  rw [h1, h2]
  exact ⟨dvd_add hr (Dvd.intro_left _ rfl), dvd_add hc (Dvd.intro_left _ rfl)⟩

/-- **C122**, a tile: the loops of `encode_tile` over the superblocks, with the partition types known beforehand and no loop
restoration units, write bits from which the decoder gets all blocks of the tile. -/
theorem C122_tile {C : Coding ω β} {P : Dec.Places} {known : ω → List Dec.Item} {view : β → Dec.Got} (hF : C.Fits P known view)
    {choice : Nat → Nat → Nat → Option Nat} (hc : Readable choice P.miRows P.miCols) (hR : 4 ∣ P.miRows) (hC : 4 ∣ P.miCols)
    {prepare : ω → Nat → Nat → Option ω} (hp : ∀ w r c w', prepare w r c = some w' → known w' = known w) (k fuel : Nat) (hk : k ≤ 5)
    (a : TileArea) (hra : 2 ^ k ∣ a.rowStart) (hca : 2 ^ k ∣ a.colStart) (e : BoolCoder) (s' : BoolCoder × Bank) (w w' : ω) (bits : Bits)
    (h : tileWalk (codeSb C prepare choice P.miRows P.miCols k fuel) (2 ^ k) a ((initEncoder e, defaultBank), w, []) = some (s', w', bits))
    (d : BoolCoder) (sz : Nat) (rest : Bits) :
    ∃ d' left, (Dec.squares P k (superblocks a (2 ^ k)) (known w)).onBits d (bits ++ (exitEncoder s'.1).2 ++ rest) sz defaultBank =
      some (known w', d', left, s'.2) := by
  rw [C101_raster _ _ _ _ (by positivity)] at h
  obtain ⟨b, e1, f⟩ := tracks_squares hF hc hR hC hp k fuel hk _ _ _ (superblocks_dvd hra hca) h
  simp only [List.nil_append] at e1
  subst e1
  exact tracks_onBits f d sz rest

/-- **C122**, a tile can be coded if each block can. -/
theorem C122_tile_finishes {C : Coding ω β} {P : Dec.Places} {known : ω → List Dec.Item} {view : β → Dec.Got} (hF : C.Fits P known view)
    (hT : ∀ w r c bs i, bs < 22 → (C.block w r c bs i).isSome = true)
    {choice : Nat → Nat → Nat → Option Nat} (hc : Readable choice P.miRows P.miCols) (hR : 4 ∣ P.miRows) (hC : 4 ∣ P.miCols)
    {prepare : ω → Nat → Nat → Option ω} (hp : ∀ w r c, ∃ w', prepare w r c = some w') (k fuel : Nat) (hk : k ≤ 5) (hf : k < fuel)
    (hN : NoFlags k P.miRows P.miCols) (a : TileArea) (hra : 2 ^ k ∣ a.rowStart) (hca : 2 ^ k ∣ a.colStart) (e : BoolCoder) (w : ω) :
    ∃ x, tileWalk (codeSb C prepare choice P.miRows P.miCols k fuel) (2 ^ k) a ((initEncoder e, defaultBank), w, []) = some x := by
  rw [C101_raster _ _ _ _ (by positivity)]
  have hl := superblocks_dvd hra hca
  generalize superblocks a (2 ^ k) = l at hl
  have key : ∀ x : (BoolCoder × Bank) × ω × Bits, Reached x.1 →
      ∃ y, l.foldlM (fun x p => codeSb C prepare choice P.miRows P.miCols k fuel x p.1 p.2) x = some y := by
    induction l with
    | nil => intro x _; exact ⟨x, rfl⟩
    | cons p l ih =>
      intro x hx
      obtain ⟨d1, d2⟩ := hl p List.mem_cons_self
      obtain ⟨w1, hw⟩ := hp x.2.1 p.1 p.2
      obtain ⟨s2, w2, t2, b2, h2⟩ := C122_finishes hF hT hc hR hC hN k fuel p.1 p.2 x.1 w1 (.new C.fresh (3 * k)) hk le_rfl hf d1 d2 rfl hx
      have hr2 := (C122_square hF hc hR hC k fuel p.1 p.2 _ _ _ _ _ _ _ hk d1 d2 rfl h2).reached hx
      obtain ⟨y, hy⟩ := ih (fun q hq => hl q (List.mem_cons_of_mem _ hq)) (s2, w2, x.2.2 ++ b2) hr2
      refine ⟨y, ?_⟩
      simp only [List.foldlM_cons, codeSb, hw, h2, Option.bind_eq_bind, Option.bind_some]
      exact hy
  exact key _ (reached_start e)
end

/-! ### Blocks of the code -/

/-- An encoder that codes the mode info of a block, with decisions `call` that may depend on all blocks before, and the partition
types with the availability of the neighbours (`partSides`). -/
def modeCoding (a : TileArea) (P : Dec.Places) (call : List Dec.Item → Nat → Nat → Nat → Option Call) :
    Coding (List Dec.Item × Nat × Nat) Dec.Got where
  enter w r c := (w.1, r, c)
  sides w _ := partSides a w.2.1 w.2.2
  block w r c bs _ := do
    let x ← call w.1 r c bs
    let (es, b, st) ← modeInfo x.e x.find x.b x.st
    let ops ← es.mapM (synOp (P.here w.1 r c bs).nb)
    some ((w.1 ++ [⟨r, c, bs, gotOf x.e b st⟩], w.2), gotOf x.e b st, ops)
  fresh := ⟨0, false, none, 0, [], none⟩

/-- **C122**: with the mode info of the code (for the blocks of C121) the blocks are read back. -/
theorem C122_mode_info (a : TileArea) (P : Dec.Places) (call : List Dec.Item → Nat → Nat → Nat → Option Call)
    (hs : ∀ got r c bs, P.sides got r c bs = partSides a r c)
    (hc : ∀ got r c bs x, call got r c bs = some x → x.Fits (P.here got r c bs)) :
    (modeCoding a P call).Fits P (·.1) id := by
  refine ⟨fun _ _ _ => rfl, fun w r c bs => (hs _ _ _ _).symm, ?_⟩
  intro w r c bs i w' i' ops h
  simp only [modeCoding, Option.bind_eq_bind, Option.bind_eq_some_iff] at h
  obtain ⟨x, hx, ⟨es, b, st⟩, hm, ops', ho, h⟩ := h
  cases h
  have hg := gives_block x _ (hc _ _ _ _ _ hx) es b st hm
  obtain ⟨o, h1, h2⟩ := says_of_ok (hc _ _ _ _ _ hx).nb hg.1
  have : o = ops := by
    unfold Says at h1
    rw [ho] at h1
    cases h1; rfl
  subst this
  exact ⟨rfl, h2, fun rest => hg.2 _ rest h1⟩

/-- Specification: the parts of any partition type, squares for a split. -/
def av1Parts (p k r c miRows miCols : Nat) : Option (List Part) :=
  if p = 3 then
    let h := 2 ^ k / 2
    (Dec.sizeNo (4 * h) (4 * h)).map fun bs => [⟨r, c, bs, true⟩, ⟨r, c + h, bs, true⟩, ⟨r + h, c, bs, true⟩, ⟨r + h, c + h, bs, true⟩]
  else (Dec.rects p (2 ^ k) r c miRows miCols).bind fun l => l.mapM partOf

/-- **C122**, the partition types left out: each has no symbol in the table that the code takes, or parts in the wrong
place, already in a frame that contains the whole square.  (8×8 has four types in AV1.) -/
theorem C122_excluded (k p : Nat) (hk : 1 ≤ k ∧ k ≤ 5) (hp : p < 10) (hh : hasPartition p (4 * 2 ^ k) (4 * 2 ^ k) = true)
    (h4 : k = 1 → p < 4) (hr : readablePart k p = false) :
    (∀ above left s, Sel.partition (3 * k) above left p = some s → ¬ s.InTable) ∨
      partsOf p (3 * k) 0 0 (2 ^ k) (2 ^ k) ≠ av1Parts p k 0 0 (2 ^ k) (2 ^ k) := by
  obtain ⟨h1, h5⟩ := hk
  by_cases h8 : 3 ≤ k ∧ 8 ≤ p
  · left
    intro above left s hs hin
    obtain ⟨-, hin⟩ := hin
    have : k = 3 ∨ k = 4 ∨ k = 5 := by omega
    rcases this with rfl | rfl | rfl <;> cases hs <;> (obtain ⟨-, -, hin⟩ := hin; dsimp only at hin; omega)
  · right
    have h8' : k < 3 ∨ p < 8 := by omega
    have h4' : k ≠ 1 ∨ p < 4 := by omega
    clear h8 h4
    interval_cases k <;> interval_cases p <;> revert hh hr h8' h4' <;> decide +kernel

/-! ## C123 — the context of a partition type -/

/-- Specification: the flags that AV1 takes for the table of a square of `w` pixels: is there a block above that is narrower, is
there a block on the left that is lower?  `size` gives the dimensions of the block that covers a unit. -/
def av1Sides (a : TileArea) (size : Int → Int → Nat × Nat) (r c w : Nat) : Bool × Bool :=
  (a.inside ((r : Int) - 1) c && decide ((size ((r : Int) - 1) c).1 < w), a.inside r ((c : Int) - 1) && decide ((size r ((c : Int) - 1)).2 < w))

/-- **C123**, full claim: the flags are those of AV1, whatever the neighbours are. -/
def C123_full : Prop := ∀ (a : TileArea) (size : Int → Int → Nat × Nat) (r c k : Nat), k ≤ 5 →
  partSides a r c = av1Sides a size r c (4 * 2 ^ k)

/-- **C123**: the flags agree exactly if every neighbour that is available is smaller than the square. -/
theorem C123_iff (a : TileArea) (size : Int → Int → Nat × Nat) (r c w : Nat) : partSides a r c = av1Sides a size r c w ↔
    (a.inside ((r : Int) - 1) c = true → (size ((r : Int) - 1) c).1 < w) ∧
      (a.inside r ((c : Int) - 1) = true → (size r ((c : Int) - 1)).2 < w) := by
  unfold partSides av1Sides
  simp only [Prod.mk.injEq]
  cases a.inside ((r : Int) - 1) c <;> cases a.inside r ((c : Int) - 1) <;> simp [eq_comm]

theorem C123_negation : ¬ C123_full := by
  intro h
  exact absurd (h ⟨0, 32, 0, 32⟩ (fun _ _ => (64, 64)) 0 16 4 (by decide)) (by decide)

/-- **C123**, what holds: the first square of a tile has no neighbours, and AV1's flags. -/
theorem C123_first_partial (a : TileArea) (size : Int → Int → Nat × Nat) (w : Nat) :
    partSides a a.rowStart a.colStart = av1Sides a size a.rowStart a.colStart w := by
  rw [C123_iff]
  constructor <;> intro h <;> simp [TileArea.inside] at h

/-- **C123**: in a tile whose superblocks are not divided AV1 always takes the first table, the code only for the first
superblock; the tables differ. -/
theorem C123_undivided (a : TileArea) (w r c : Nat) (hr : a.rowStart ≤ r ∧ r < a.rowEnd) (hc : a.colStart ≤ c ∧ c < a.colEnd) :
    av1Sides a (fun _ _ => (w, w)) r c w = (false, false) ∧ (partSides a r c = (false, false) ↔ r = a.rowStart ∧ c = a.colStart) := by
  constructor
  · simp [av1Sides]
  · unfold partSides TileArea.inside
    simp only [Prod.mk.injEq, Bool.and_eq_false_iff, decide_eq_false_iff_not]
    omega

/-- Different flags mean different tables. -/
theorem C123_tables (bs : Nat) (x y : Bool × Bool) (p : Nat) (s t : Sel) (hb : bs ∈ [3, 6, 9, 12, 15]) (hxy : x ≠ y)
    (hs : Sel.partition bs x.1 x.2 p = some s) (ht : Sel.partition bs y.1 y.2 p = some t) :
    s.fam = t.fam ∧ s.idx ≠ t.idx ∧ ∀ i j, s.idx = [i] → t.idx = [j] → s.fam.cdfs[i]? ≠ s.fam.cdfs[j]? := by
  obtain ⟨a, b⟩ := x
  obtain ⟨c, d⟩ := y
  simp only [List.mem_cons, List.not_mem_nil, or_false] at hb
  rcases hb with rfl | rfl | rfl | rfl | rfl <;> cases hs <;> cases ht <;>
    refine ⟨rfl, ?_, fun i j hi hj => ?_⟩ <;> (try cases hi) <;> (try cases hj) <;> dsimp only <;> revert a b c d <;> decide +kernel

/-! ### Examples -/

/-- Some choice inside the frame, splits at its edges. -/
def edgeSplit (f : Nat → Nat → Nat → Nat) (miRows miCols r c bs : Nat) : Option Nat :=
  (halfBlock bs).map fun h => if bs = 0 ∨ r + h < miRows ∧ c + h < miCols then f r c bs else 3

/-- Every choice of partition types from those that are readable for the size is one of C122. -/
theorem readable_edgeSplit (f : Nat → Nat → Nat → Nat) (miRows miCols : Nat) (hR : 4 ∣ miRows) (hC : 4 ∣ miCols)
    (hf : ∀ r c k, readablePart k (f r c (3 * k)) = true) : Readable (edgeSplit f miRows miCols) miRows miCols := by
  intro k r c hk hr hc hrm hcm
  have hp := hf r c k
  have hh : ∃ h, halfBlock (3 * k) = some h ∧ (k = 2 → h = 1) := by interval_cases k <;> exact ⟨_, rfl, by decide⟩
  obtain ⟨h, hh, h2⟩ := hh
  unfold edgeSplit
  rw [hh]
  by_cases hin : 3 * k = 0 ∨ r + h < miRows ∧ c + h < miCols
  · refine ⟨f r c (3 * k), by rw [Option.map_some, if_pos hin], ?_, hp⟩
    unfold allowedPart
    rw [hh]
    rcases hin with h0 | ⟨h1, h3⟩
    · have : k = 0 := by omega
      subst this
      have : f r c (3 * 0) = 0 := by simpa [readablePart] using hp
      rw [this]; rfl
    · have hk0 : k = 0 ∨ 3 ≤ 3 * k := by omega
      rcases hk0 with rfl | hk0
      · have : f r c (3 * 0) = 0 := by simpa [readablePart] using hp
        rw [this]; rfl
      · simp [K.BLOCK_8X8, h1, h3, Nat.not_lt.2 hk0]
  · refine ⟨3, by rw [Option.map_some, if_neg hin], ?_, ?_⟩
    · have hk0 : 3 ≤ 3 * k := by omega
      unfold allowedPart
      rw [hh]
      by_cases h1 : r + h < miRows <;> by_cases h3 : c + h < miCols <;>
        simp [K.BLOCK_8X8, h1, h3, Nat.not_lt.2 hk0, K.PARTITION_SPLIT]
    · have : k ≠ 0 ∧ k ≠ 2 := by
        refine ⟨by omega, ?_⟩
        rintro rfl
        rw [h2 rfl] at hin
        obtain ⟨a, rfl⟩ := hr
        obtain ⟨b, rfl⟩ := hc
        obtain ⟨a', rfl⟩ := hR
        obtain ⟨b', rfl⟩ := hC
        omega
      unfold readablePart
      simp [this.1, this.2]

/-- Intra blocks everywhere; the decoder knows the same. -/
def plainPlaces (a : TileArea) (miRows miCols : Nat) : Dec.Places where
  miRows := miRows
  miCols := miCols
  sides _ r c _ := partSides a r c
  here _ _ _ bs := ⟨plainEnv.seg, ⟨none, none, none⟩, { quiet 100 [0, 0, 0, 0] with whole := decide (bs = 12) }, false,
    ⟨none, none, none⟩, fun _ => some sampleMvs⟩

def plainCall (_ : List Dec.Item) (_ _ bs : Nat) : Option Call :=
  some ⟨plainEnv, fun _ => some sampleMvs, { bsize := bs, newMv := true }, rowState⟩

theorem plain_fits (a : TileArea) (miRows miCols : Nat) :
    (modeCoding a (plainPlaces a miRows miCols) plainCall).Fits (plainPlaces a miRows miCols) (·.1) id := by
  have hm : sampleMvs.Ok := ⟨by decide, by decide, by decide, by decide, by decide⟩
  refine C122_mode_info a _ plainCall (fun _ _ _ _ => rfl) fun got r c bs x hx => ?_
  cases hx
  exact ⟨rfl, rfl, rfl, rfl, fun _ _ => rfl, ⟨nofun, nofun, nofun⟩, fun r m h => by cases h; exact hm,
    ⟨rfl, rfl, rfl, rfl, rfl, rfl, rfl, rfl, rfl, nofun, nofun⟩,
    show plainEnv.lastActive ≤ 7 by decide, Nat.zero_le _, Or.inl rfl, rfl, show (1 : Int) ∈ ([1, 2, 3, 4, 5, 6, 7] : List Int) by decide,
    show ∀ v ∈ List.replicate 8 0, v ≤ 1 by decide, rfl, rfl⟩

/-- A tile of 128×192 pixels in 64×64 superblocks, 64×64 and 32×32 in the form `VERT_A`, 8×8 as `HORZ`: it is coded. -/
example (e : BoolCoder) : ∃ x, tileWalk (codeSb (modeCoding ⟨0, 32, 0, 48⟩ (plainPlaces ⟨0, 32, 0, 48⟩ 32 48) plainCall)
    (fun w _ _ => some w) (edgeSplit (fun _ _ bs => if bs = 3 then 1 else if bs ≤ 6 then 0 else 6) 32 48) 32 48 4 5)
    (2 ^ 4) ⟨0, 32, 0, 48⟩ ((initEncoder e, defaultBank), ([], 0, 0), []) = some x := by
  refine C122_tile_finishes (plain_fits _ 32 48) ?_ (readable_edgeSplit _ 32 48 (by decide) (by decide) ?_) (by decide) (by decide)
    (fun w _ _ => ⟨w, rfl⟩) 4 5 (by decide) (by decide) ?_ _ (by decide) (by decide) e _
  · intro w r c bs i hbs
    interval_cases bs <;> rfl
  · intro r c k
    rcases k with _ | _ | _ | k
    · rfl
    · rfl
    · rfl
    · simp [readablePart]
      omega
  · intro k r c hk hr hc hrm hcm
    change r < 32 at hrm
    change c < 48 at hcm
    show r + _ < 32 ↔ c + _ < 48
    obtain ⟨a, rfl⟩ := hr
    obtain ⟨b, rfl⟩ := hc
    interval_cases k <;> omega

end Av1
