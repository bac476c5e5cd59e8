import Verif.Props.FrameParams

/-!
# C79 and C82, the exact conditions

The number of bits a decoder consumes for segmentation parameters is a function of what it reads; the code writes eight bits less
than a decoder needs for the parameters that were set.
-/

namespace Av1

/-- `p` consumes `c v` bits whenever it reads `v`. -/
def Takes {α : Type} (p : P α) (c : α → Nat) : Prop := ∀ s v r, p s = some (v, r) → s.length = c v + r.length

theorem Takes.reads {α : Type} {p : P α} {c : α → Nat} (h : Takes p c) {e : Bits} {v : α} (hr : Reads p e v) : e.length = c v := by
  have := h _ v [] (hr [])
  simpa using this

theorem takes_pure {α : Type} (v : α) {c : α → Nat} (h : c v = 0) : Takes (pure v : P α) c := by
  intro s w r hs
  obtain ⟨rfl, rfl⟩ := Prod.mk.inj (Option.some.inj hs)
  omega

theorem takes_bind {α β : Type} {p : P α} {g : α → P β} {c : α → Nat} {d : β → Nat} (hp : Takes p c)
    (hg : ∀ a s w r, g a s = some (w, r) → c a + s.length = d w + r.length) : Takes (p >>= g) d := by
  intro s w r hs
  change (p s).bind (fun x => g x.1 x.2) = _ at hs
  obtain ⟨⟨a, s'⟩, h1, h2⟩ := Option.bind_eq_some_iff.1 hs
  have e1 := hp _ _ _ h1
  have e2 := hg _ _ _ _ h2
  dsimp only at *
  omega

theorem takes_flag : Takes P.flag fun _ => 1 := by
  intro s v r h
  cases s with
  | nil => cases h
  | cons b s =>
    obtain ⟨rfl, rfl⟩ := Prod.mk.inj (Option.some.inj h)
    simp [Nat.add_comm]

theorem takes_f (n : Nat) : Takes (P.f n) fun _ => n := by
  intro s v r h
  unfold P.f at h
  split at h
  · cases h
  · obtain ⟨_, rfl⟩ := Prod.mk.inj (Option.some.inj h)
    rw [List.length_drop]; beta_reduce; omega

theorem takes_map {α β : Type} {p : P α} {g : α → β} {n : Nat} (h : Takes p fun _ => n) :
    Takes (do let v ← p; pure (g v)) fun _ => n := by
  refine takes_bind h ?_
  intro a s w r hs
  obtain ⟨_, rfl⟩ := Prod.mk.inj (Option.some.inj hs)
  rfl

theorem takes_flagged {α : Type} {p : P α} {c : α → Nat} (h : Takes p c) :
    Takes (P.flagged p) fun v => 1 + (v.map c).getD 0 := by
  unfold P.flagged
  refine takes_bind takes_flag ?_
  intro b s w r hs
  cases b with
  | false =>
    obtain ⟨rfl, rfl⟩ := Prod.mk.inj (Option.some.inj hs)
    simp
  | true =>
    change (p s).bind (fun x => some (some x.1, x.2)) = _ at hs
    obtain ⟨⟨a, s'⟩, h1, h2⟩ := Option.bind_eq_some_iff.1 hs
    obtain ⟨rfl, rfl⟩ := Prod.mk.inj (Option.some.inj h2)
    have := h _ _ _ h1
    simp only [Option.map_some, Option.getD_some]; omega

theorem takes_many {α : Type} {p : P α} {c : α → Nat} (h : Takes p c) : ∀ n, Takes (P.many n p) fun l => (l.map c).sum
  | 0 => takes_pure _ rfl
  | n + 1 => by
    refine takes_bind h ?_
    intro a s w r hs
    change (P.many n p s).bind (fun x => some (a :: x.1, x.2)) = _ at hs
    obtain ⟨⟨l, s'⟩, h1, h2⟩ := Option.bind_eq_some_iff.1 hs
    obtain ⟨rfl, rfl⟩ := Prod.mk.inj (Option.some.inj h2)
    have := takes_many h n _ _ _ h1
    beta_reduce at this
    simp only [List.map_cons, List.sum_cons]; omega

/-- Bits of feature `j`. -/
def featCost (j : Nat) (v : Option Int) : Nat :=
  1 + if v.isSome then Hdr.featBits j + (if Hdr.featSigned j then 1 else 0) else 0

theorem takes_feature (j : Nat) : Takes (Hdr.feature j) (featCost j) := by
  have h : Takes (if Hdr.featSigned j then do
        let v ← P.su (1 + Hdr.featBits j)
        pure (Hdr.clip (-(Hdr.featMax j : Int)) (Hdr.featMax j) v)
      else do
        let v ← P.f (Hdr.featBits j)
        pure (Hdr.clip 0 (Hdr.featMax j) v)) fun _ => Hdr.featBits j + (if Hdr.featSigned j then 1 else 0) := by
    cases Hdr.featSigned j with
    | true =>
      have := takes_map (g := Hdr.clip (-(Hdr.featMax j : Int)) (Hdr.featMax j))
        (takes_map (g := fun v : Nat => if 2 ^ (1 + Hdr.featBits j - 1) ≤ v then (v : Int) - 2 ^ (1 + Hdr.featBits j) else v)
          (takes_f (1 + Hdr.featBits j)))
      rw [Nat.add_comm] at this
      simpa only [if_true, P.su, Nat.add_comm] using this
    | false => exact takes_map (takes_f (Hdr.featBits j))
  intro s v r hs
  have := takes_flagged h s v r hs
  cases v <;> simpa [featCost] using this

/-- Bits of the features of a segment from feature `j` on. -/
def featsCost : Nat → List (Option Int) → Nat
  | _, [] => 0
  | j, v :: l => featCost j v + featsCost (j + 1) l

theorem featsCost_append : ∀ (l m : List (Option Int)) (j : Nat),
    featsCost j (l ++ m) = featsCost j l + featsCost (j + l.length) m
  | [], m, j => by simp [featsCost]
  | v :: l, m, j => by
    simp only [List.cons_append, featsCost, featsCost_append l m (j + 1), List.length_cons]
    rw [show j + 1 + l.length = j + (l.length + 1) by omega]; omega

theorem takes_features : ∀ (k j : Nat), Takes (Hdr.features k j) (featsCost j)
  | 0, _ => takes_pure _ rfl
  | k + 1, j => by
    refine takes_bind (takes_feature j) ?_
    intro a s w r hs
    change (Hdr.features k (j + 1) s).bind (fun x => some (a :: x.1, x.2)) = _ at hs
    obtain ⟨⟨l, s'⟩, h1, h2⟩ := Option.bind_eq_some_iff.1 hs
    obtain ⟨rfl, rfl⟩ := Prod.mk.inj (Option.some.inj h2)
    have := takes_features k (j + 1) _ _ _ h1
    simp only [featsCost]; omega

theorem pushLoop_length (w v : Nat) : ∀ (n : Nat) (b : Bits), pushLoop w v n = some b → b.length = n
  | 0, b, h => by cases h; rfl
  | n + 1, b, h => by
    unfold pushLoop at h
    split at h
    · cases h
    · obtain ⟨a, h1, rfl⟩ := Option.map_eq_some_iff.1 h
      simp [pushLoop_length w v n a h1]

theorem pushSu_length (v : Int) (n : Nat) (b : Raw) (h : pushSu v n = some b) : b.length = n := by
  obtain ⟨a, h1, rfl⟩ := Option.map_eq_some_iff.1 h
  simp only [raw, List.length_map]
  unfold encodeSu at h1
  by_cases hn : n = 0
  · subst hn; cases h1
  · by_cases hv : v < 0
    · by_cases h62 : n - 1 ≥ 62
      · simp [hn, hv, h62] at h1
      · simp only [if_neg hn, if_pos hv, if_neg h62] at h1
        obtain ⟨l, hl, h1⟩ := Option.bind_eq_some_iff.1 h1
        obtain rfl := Option.some.inj h1
        have := pushLoop_length _ _ _ _ hl
        simp; omega
    · simp only [if_neg hn, if_neg hv] at h1
      obtain ⟨l, hl, h1⟩ := Option.bind_eq_some_iff.1 h1
      obtain rfl := Option.some.inj h1
      have := pushLoop_length _ _ _ _ hl
      simp; omega

theorem cat_some_iff {x : Option Raw} {xs : List (Option Raw)} {b : Raw} (h : cat (x :: xs) = some b) :
    ∃ a c, x = some a ∧ cat xs = some c ∧ b = a ++ c := by
  rw [cat_cons] at h
  cases x with
  | none => cases h
  | some a =>
    cases hc : cat xs with
    | none => rw [hc] at h; cases h
    | some c => rw [hc] at h; exact ⟨a, c, rfl, rfl, (Option.some.inj h).symm⟩

theorem encodeFeature_length (j : Nat) (hj : j < 7) (v : Option Int) (b : Raw) (h : encodeFeature j v = some b) :
    b.length = featCost j v := by
  cases v with
  | none => cases h; rfl
  | some fv =>
    have hc : j = 0 ∨ j = 1 ∨ j = 2 ∨ j = 3 ∨ j = 4 ∨ j = 5 ∨ j = 6 := by omega
    have key : ∀ n, cat [pushB true, pushSu fv n] = some b → b.length = 1 + n := by
      intro n h
      obtain ⟨a, c, ha, hc, rfl⟩ := cat_some_iff h
      rw [cat_single] at hc
      cases ha
      rw [List.length_append, pushSu_length _ _ _ hc]; rfl
    rcases hc with rfl | rfl | rfl | rfl | rfl | rfl | rfl
    · exact key 9 h
    · exact key 7 h
    · exact key 7 h
    · exact key 7 h
    · exact key 7 h
    · exact key 3 h
    · exact key 0 h

theorem encodeFeatures_length : ∀ (l : List (Option Int)) (j : Nat) (b : Raw), j + l.length ≤ 7 →
    cat (l.mapIdx fun i => encodeFeature (i + j)) = some b → b.length = featsCost j l
  | [], _, b, _, h => by cases h; rfl
  | v :: l, j, b, hj, h => by
    rw [List.mapIdx_cons] at h
    obtain ⟨a, c, ha, hc, rfl⟩ := cat_some_iff h
    rw [Nat.zero_add] at ha
    rw [List.length_cons] at hj
    rw [show (fun i => encodeFeature (i + 1 + j)) = fun i => encodeFeature (i + (j + 1)) by
      funext i; rw [show i + (j + 1) = i + 1 + j by omega]] at hc
    rw [List.length_append, encodeFeature_length j (by omega) v a ha, encodeFeatures_length l (j + 1) c (by omega) hc]
    rfl

theorem encodeSegments_length : ∀ (l : List (List (Option Int))) (b : Raw), (∀ seg ∈ l, seg.length = 7) →
    cat (l.map fun seg => cat (seg.mapIdx encodeFeature)) = some b → b.length = (l.map (featsCost 0)).sum
  | [], b, _, h => by cases h; rfl
  | seg :: l, b, hl, h => by
    rw [List.map_cons] at h
    obtain ⟨a, c, ha, hc, rfl⟩ := cat_some_iff h
    rw [List.length_append, encodeSegments_length l c (fun s hs => hl s (List.mem_cons_of_mem _ hs)) hc,
      encodeFeatures_length seg 0 a (by rw [hl seg List.mem_cons_self]) ha]
    simp

theorem padded_cost (l : List (List (Option Int))) (h : ∀ seg ∈ l, seg.length = 7) :
    ((l.map (· ++ [none])).map (featsCost 0)).sum = (l.map (featsCost 0)).sum + l.length := by
  induction l with
  | nil => rfl
  | cons seg l ih =>
    have := ih fun s hs => h s (List.mem_cons_of_mem _ hs)
    simp only [List.map_cons, List.sum_cons, List.length_cons]
    rw [this, featsCost_append, h seg List.mem_cons_self]
    have e : featsCost (0 + 7) [none] = 1 := rfl
    rw [e]; omega

/-- Bits of the whole section. -/
def segCost (primaryNone : Bool) (v : Option Hdr.Seg) : Nat := 1 + (v.map fun s =>
  (if primaryNone then 0 else if s.updateMap then 3 else 2) + ((s.data.map fun d => (d.map (featsCost 0)).sum).getD 0)).getD 0

theorem takes_segFlags (primaryNone : Bool) : Takes (Hdr.segFlags primaryNone) fun v =>
    if primaryNone then 0 else if v.1 then 3 else 2 := by
  cases primaryNone with
  | true => exact takes_pure _ rfl
  | false =>
    intro s v r h
    match s with
    | [] => cases h
    | [true] | [false] => cases h
    | [true, b] => cases h
    | true :: b :: c :: s => cases h; simp; omega
    | false :: b :: s => cases h; simp; omega

theorem takes_segmentation (n : Nat) (primaryNone : Bool) : Takes (Hdr.segmentation n primaryNone) (segCost primaryNone) := by
  refine takes_flagged (c := fun s : Hdr.Seg =>
    (if primaryNone then 0 else if s.updateMap then 3 else 2) + ((s.data.map fun d => (d.map (featsCost 0)).sum).getD 0)) ?_
  refine takes_bind (takes_segFlags primaryNone) ?_
  rintro ⟨m, t, d⟩ s w r hs
  cases d with
  | false =>
    obtain ⟨rfl, rfl⟩ := Prod.mk.inj (Option.some.inj hs)
    simp
  | true =>
    have hs' : (P.many 8 (Hdr.features n 0) s).bind (fun x => some ((⟨m, t, some x.1⟩ : Hdr.Seg), x.2)) = some (w, r) := by
      rw [← hs]
      change _ = ((P.many 8 (Hdr.features n 0) s).bind fun x => some (some x.1, x.2)).bind _
      cases P.many 8 (Hdr.features n 0) s <;> rfl
    obtain ⟨⟨l, s'⟩, h1, h2⟩ := Option.bind_eq_some_iff.1 hs'
    obtain ⟨rfl, rfl⟩ := Prod.mk.inj (Option.some.inj h2)
    have := takes_many (takes_features n 0) 8 _ _ _ h1
    beta_reduce at this
    simp only [Option.map_some, Option.getD_some]; omega

/-- **C79**, the exact condition: the parameters are read back if and only if no features are sent. In all other cases, panics
included, AV1's decoder does not get the features that were set: it needs eight more bits for them. -/
theorem C79_iff (s : Seg) (primaryNone : Bool) (h : s.Ok) :
    Writes (encodeSeg s primaryNone) (Hdr.segmentation 8 primaryNone) (s.view [none] primaryNone) ↔
      s.enabled = false ∨ (primaryNone = false ∧ s.updateData = false) := by
  obtain ⟨en, um, tu, ud, fs⟩ := s
  constructor
  · rintro ⟨e, he, hr⟩
    by_contra hn
    have hen : en = true := by cases en <;> simp_all
    subst hen
    have hcost := (takes_segmentation 8 primaryNone).reads hr
    unfold encodeSeg at he
    obtain ⟨a, c, ha, hc, hb⟩ := cat_some_iff he
    cases ha
    rw [cat_single, if_pos rfl] at hc
    obtain ⟨a2, c2, ha2, hc2, rfl⟩ := cat_some_iff hc
    rw [cat_single] at hc2
    have hl : e.length = (raw e).length := by simp [raw]
    rw [hb] at hl
    have hpad := padded_cost fs h.count
    have hseg := h.segments
    simp only at hseg
    cases primaryNone with
    | true =>
      have e2 := encodeSegments_length fs c2 h.count hc2
      cases ha2
      simp [segCost, Seg.view] at hcost hl hpad
      omega
    | false =>
      have hud : ud = true := by cases ud <;> simp_all
      subst hud
      have e2 := encodeSegments_length fs c2 h.count hc2
      cases um <;> cases ha2 <;> simp [segCost, Seg.view] at hcost hl hpad <;> omega
  · intro hc
    cases en with
    | false => exact ⟨[false], rfl, fun _ => rfl⟩
    | true =>
      obtain ⟨rfl, hu⟩ : primaryNone = false ∧ ud = false := by simpa using hc
      subst hu
      cases um with
      | false => exact ⟨[true, false, false], rfl, fun _ => rfl⟩
      | true => exact ⟨[true, true, tu, false], rfl, fun _ => rfl⟩

/-- Both sides occur: the sample of C79 sends features. -/
example : segSample.enabled = true ∧ segSample.updateData = true := ⟨rfl, rfl⟩

/-- **C82**, the exact condition: the frame is taken for lossless exactly if it is one if and only if every segment has its own
quantizer, or the context's quantizer and the frame's are zero together, or there is another reason for the frame not to be
lossless: an offset, or a segment with its own quantizer above zero. -/
theorem C82_iff (s : Seg) (q : Quant) (current : Nat) (p : Bool) :
    (codedLossless s q current p = true ↔
      ∀ i < 8, Hdr.LosslessSegment (segFeature s i 0) q.baseQIdx [q.yDc, q.uAc, q.uDc, q.vAc, q.vDc]) ↔
    (∀ i < 8, (segFeature s i 0).isSome = true) ∨ (current = 0 ↔ q.baseQIdx = 0) ∨
      (∃ d ∈ [q.yDc, q.uAc, q.uDc, q.vAc, q.vDc], d ≠ 0) ∨
      (∃ i < 8, ∃ x, segFeature s i 0 = some x ∧ 0 < q.baseQIdx + x) := by
  have hsome : ∀ i x, segFeature s i 0 = some x → (getQIndex true i s q.baseQIdx current p = 0 ↔ (q.baseQIdx : Int) + x ≤ 0) := by
    intro i x hx
    unfold getQIndex
    rw [hx]
    simp only [Bool.not_true, Bool.false_and, Bool.false_eq_true, if_false]
    rw [clip3_eq]
    unfold Hdr.clip
    omega
  have hnone : ∀ i, segFeature s i 0 = none → getQIndex true i s q.baseQIdx current p = current := by
    intro i hx
    unfold getQIndex
    rw [hx]; rfl
  have hspec : ∀ i x, segFeature s i 0 = some x →
      (Hdr.LosslessSegment (segFeature s i 0) q.baseQIdx [q.yDc, q.uAc, q.uDc, q.vAc, q.vDc] ↔
        (q.baseQIdx : Int) + x ≤ 0 ∧ ∀ d ∈ [q.yDc, q.uAc, q.uDc, q.vAc, q.vDc], d = 0) := by
    intro i x hx
    rw [hx]
    unfold Hdr.LosslessSegment Hdr.clip
    refine and_congr ?_ Iff.rfl
    dsimp only
    omega
  have hspec0 : ∀ i, segFeature s i 0 = none →
      (Hdr.LosslessSegment (segFeature s i 0) q.baseQIdx [q.yDc, q.uAc, q.uDc, q.vAc, q.vDc] ↔
        q.baseQIdx = 0 ∧ ∀ d ∈ [q.yDc, q.uAc, q.uDc, q.vAc, q.vDc], d = 0) := by
    intro i hx
    rw [hx]
    unfold Hdr.LosslessSegment
    refine and_congr ?_ Iff.rfl
    dsimp only
    omega
  constructor
  · intro h
    by_contra hc
    push Not at hc
    obtain ⟨⟨i, hi, hi0⟩, h0, hd, ho⟩ := hc
    have hi0 : segFeature s i 0 = none := by simpa using hi0
    have ho' : ∀ j < 8, ∀ x, segFeature s j 0 = some x → (q.baseQIdx : Int) + x ≤ 0 := fun j hj x hx => ho j hj x hx
    by_cases hcur : current = 0
    · have hb : q.baseQIdx ≠ 0 := by
        rcases h0 with h0 | h0
        · exact h0.2
        · exact absurd hcur h0.1
      have h1 : codedLossless s q current p = true := by
        rw [lossless_iff]
        intro j hj
        refine ⟨?_, hd⟩
        cases hx : segFeature s j 0 with
        | none => rw [hnone j hx]; exact hcur
        | some x => exact (hsome j x hx).2 (ho' j hj x hx)
      exact hb ((hspec0 i hi0).1 (h.1 h1 i hi)).1
    · have hb : q.baseQIdx = 0 := by
        rcases h0 with h0 | h0
        · exact absurd h0.1 hcur
        · exact h0.2
      have h1 : ∀ j < 8, Hdr.LosslessSegment (segFeature s j 0) q.baseQIdx [q.yDc, q.uAc, q.uDc, q.vAc, q.vDc] := by
        intro j hj
        cases hx : segFeature s j 0 with
        | none => rw [← hx]; exact (hspec0 j hx).2 ⟨hb, hd⟩
        | some x => rw [← hx]; exact (hspec j x hx).2 ⟨ho' j hj x hx, hd⟩
      have h2 := h.2 h1
      rw [lossless_iff] at h2
      have h3 := (h2 i hi).1
      rw [hnone i hi0] at h3
      exact hcur h3
  · intro h
    rw [lossless_iff]
    rcases h with h | h | ⟨d, hd, hne⟩ | ⟨i, hi, x, hx, hpos⟩
    · refine forall₂_congr fun i hi => ?_
      obtain ⟨x, hx⟩ := Option.isSome_iff_exists.1 (h i hi)
      rw [hspec i x hx, hsome i x hx]
    · refine forall₂_congr fun i _ => ?_
      cases hx : segFeature s i 0 with
      | none => rw [← hx, hspec0 i hx, hnone i hx, h]
      | some x => rw [← hx, hspec i x hx, hsome i x hx]
    · constructor
      · intro h; exact absurd ((h 0 (by decide)).2 d hd) hne
      · intro h; exact absurd ((h 0 (by decide)).2 d hd) hne
    · constructor
      · intro h
        have := (hsome i x hx).1 (h i hi).1
        omega
      · intro h
        have := ((hspec i x hx).1 (h i hi)).1
        omega

end Av1
