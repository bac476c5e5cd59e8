import Verif.Lemmas.HeaderLeaves
import Verif.Model.Stream
import Verif.Props.FrameWhole
import Verif.Props.FrameState
import Verif.Props.SeqHeader
import Verif.Props.TileGroup

/-!
# C112–C114: sequences of OBUs
-/

namespace Av1

variable {φ τ : Type}

/-! ## C112: frame OBUs -/

/-- **C112**, full claim. AV1 defines a frame OBU as a frame header followed by a tile group: its payload begins with what a
frame header OBU of the same frame would carry. -/
def C112_full : Prop := ∀ (φ τ : Type) (io : FrameIO φ τ) (e e1 : EncState τ) (f : φ) (b : Raw),
  encodePayload io e (.frameHeader f) = some (b, e1) →
  ∃ t e2, encodePayload io e (.frame f) = some (b ++ t, e2)

theorem pushB_ne {b : Bool} {r : Raw} (h : pushB b = some r) : r ≠ [] := by
  obtain rfl := Option.some.inj h
  exact List.cons_ne_nil _ _

/-- Emissions with a non-empty part are not empty. -/
theorem cat_ne_nil : ∀ {xs : List (Option Raw)} {b : Raw}, cat xs = some b → (∃ x ∈ xs, ∀ r, x = some r → r ≠ []) → b ≠ []
  | [], _, _, ⟨_, h, _⟩ => absurd h (by simp)
  | x :: xs, b, hb, ⟨y, hy, hr⟩ => by
    cases x with
    | none => simp [cat_cons] at hb
    | some x =>
      cases hxs : cat xs with
      | none => simp [cat_cons, hxs] at hb
      | some t =>
        have e : b = x ++ t := by
          rw [cat_cons, hxs] at hb
          exact (Option.some.inj hb).symm
        subst e
        rcases List.mem_cons.1 hy with rfl | hy
        · simp [hr x rfl]
        · simp [cat_ne_nil hxs ⟨y, hy, hr⟩]

theorem backBits_ne {w : Whole} {c : HCtx} {f : HFrame} {b : Raw} (h : backBits w c f = some b) : b ≠ [] := by
  unfold backBits at h
  refine cat_ne_nil h ⟨_, by simp only [List.mem_cons]; exact Or.inr (Or.inl rfl), ?_⟩
  intro r hr
  unfold encodeQuant at hr
  refine cat_ne_nil hr ⟨_, List.mem_cons_self .., ?_⟩
  intro q hq hn
  subst hn
  rw [pushN_eq _ _ (by decide)] at hq
  have := congrArg List.length (Option.some.inj hq)
  simp [raw] at this

/-- A header that is written at all has bits. -/
theorem frameHeader_ne {w : Whole} {b : Raw} (hs : w.c.seen = false) (h : frameHeaderBits w = some b) : b ≠ [] := by
  unfold frameHeaderBits at h
  simp only [hs, Bool.false_eq_true, if_false, Option.bind_eq_bind] at h
  cases h1 : idLenOf w.c w.idLen with
  | none => simp [h1] at h
  | some n =>
    simp only [h1, Option.bind_some] at h
    split at h
    · cases h2 : existingAfter w.c w.f with
      | none => simp [h2] at h
      | some x =>
        simp only [h2, Option.bind_some] at h
        exact cat_ne_nil h ⟨_, List.mem_cons_self .., fun r hr => pushB_ne hr⟩
    · cases h2 : (if w.c.reduced then cat [] else pushB false) with
      | none => simp [h2] at h
      | some b0 =>
        simp only [h2, Option.bind_some] at h
        cases h3 : frontOf w.c w.f n w.hintBits with
        | none => simp [h3] at h
        | some x =>
          obtain ⟨b1, c, f⟩ := x
          simp only [h3, Option.bind_some] at h
          cases h4 : backBits w c f with
          | none => simp [h4] at h
          | some b2 =>
            simp only [h4, Option.bind_some, Option.some.injEq] at h
            subst h
            simp [backBits_ne h4]

/-- **C112**, what the code does: frame OBUs and redundant frame headers carry nothing, whatever the frame, and change
nothing. -/
theorem C112_empty_partial (io : FrameIO φ τ) (e : EncState τ) (f : φ) :
    encodePayload io e (.frame f) = some ([], e) ∧ encodePayload io e (.redundant) = some ([], e) := ⟨rfl, rfl⟩

/-- **C112** fails for every frame that has a header of its own. -/
theorem C112_never (io : FrameIO φ τ) (e e1 : EncState τ) (f : φ) (b : Raw) (hs : e.w.c.seen = false)
    (h : encodePayload io e (.frameHeader f) = some (b, e1)) :
    ¬ ∃ t e2, encodePayload io e (.frame f) = some (b ++ t, e2) := by
  rintro ⟨t, e2, h2⟩
  have hb : b ≠ [] := by
    unfold encodePayload at h
    simp only [Option.bind_eq_bind] at h
    cases h1 : frameHeaderBits (io.load f e.w) with
    | none => simp [h1] at h
    | some b1 =>
      rw [h1, Option.bind_some] at h
      obtain ⟨w1, -, h⟩ := Option.bind_eq_some_iff.1 h
      obtain ⟨l1, -, h⟩ := Option.bind_eq_some_iff.1 h
      simp only [Option.some.injEq, Prod.mk.injEq] at h
      rw [← h.1]
      exact frameHeader_ne (by rw [io.load_c]; exact hs) h1
  have := congrArg Prod.fst (Option.some.inj h2)
  simp only [List.nil_eq, List.append_eq_nil_iff] at this
  exact hb this.1

/-- Forgets the contents of frame OBUs. -/
def ObuIn.blank : ObuIn φ → ObuIn (Option φ)
  | .sequence sh => .sequence sh
  | .delimiter => .delimiter
  | .frameHeader f => .frameHeader (some f)
  | .redundant => .redundant
  | .tileGroup f => .tileGroup (some f)
  | .metadata m => .metadata m
  | .frame _ => .frame none
  | .padding n => .padding n

/-- **C112**, seen from outside: two sequences of units that differ only in the contents of their frame OBUs give the same
bytes. -/
theorem C112_indistinct (io : FrameIO φ τ) : ∀ (us vs : List (ObuIn φ)) (e : EncState τ) (w : Writer),
    us.map ObuIn.blank = vs.map ObuIn.blank → stream io e us w = stream io e vs w
  | [], [], _, _, _ => rfl
  | [], _ :: _, _, _, h => by simp at h
  | _ :: _, [], _, _, h => by simp at h
  | u :: us, v :: vs, e, w, h => by
    simp only [List.map_cons, List.cons.injEq] at h
    have hk : u.kind = v.kind ∧ encodePayload io e u = encodePayload io e v := by
      have h1 := h.1
      cases u <;> cases v <;> simp only [ObuIn.blank, ObuIn.sequence.injEq, ObuIn.frameHeader.injEq, ObuIn.tileGroup.injEq,
        ObuIn.metadata.injEq, ObuIn.padding.injEq, Option.some.injEq, reduceCtorEq] at h1 <;>
        first | (subst h1; exact ⟨rfl, rfl⟩) | exact ⟨rfl, rfl⟩
    unfold stream
    rw [hk.1, hk.2]
    simp only [Option.bind_eq_bind]
    congr 1
    funext x
    congr 1
    funext w'
    exact C112_indistinct io us vs x.2 w' h.2

/-! ### An instance -/

/-- Frames given by everything the header reads; no tiles. -/
def sampleIO : FrameIO Whole Nat where
  load f w := { f with c := w.c }
  layout _ := (1, 1, 0)
  tile _ _ _ _ _ _ := none
  load_c _ _ := rfl

def sampleState (w : Whole) : EncState Nat := ⟨SeqCtx.new, w, .new, 0, 0, 0⟩

theorem hints_keep (f : HFrame) : ∀ (l : List Nat) (c c' : HCtx),
    (l.foldlM (init := c) fun c i => do
      let j ← f.refIdx[i]?
      let h ← c.refHint[j]?
      if 1 + i < c.orderHints.length then some { c with orderHints := c.orderHints.set (1 + i) h } else none) = some c' →
    c'.showExisting = c.showExisting
  | [], c, c', h => by
    simp only [List.foldlM_nil] at h
    rw [← Option.some.inj h]
  | i :: l, c, c', h => by
    rw [List.foldlM_cons] at h
    simp only [Option.bind_eq_bind] at h
    obtain ⟨c1, h1, h⟩ := Option.bind_eq_some_iff.1 h
    obtain ⟨j, -, h1⟩ := Option.bind_eq_some_iff.1 h1
    obtain ⟨k, -, h1⟩ := Option.bind_eq_some_iff.1 h1
    split at h1
    · rw [hints_keep f l c1 c' h, ← Option.some.inj h1]
    · exact absurd h1 (by simp)

/-- The front leaves `show_existing_frame` as lines 331 and 336 do. -/
theorem frontOf_showExisting {c : HCtx} {f : HFrame} {n hb : Nat} {b : Raw} {c' : HCtx} {f' : HFrame}
    (h : frontOf c f n hb = some (b, c', f')) : c'.showExisting = (openingAfter c f).1.showExisting := by
  unfold frontOf at h
  simp only [Option.bind_eq_bind] at h
  obtain ⟨⟨a, c1, f1⟩, h1, h⟩ := Option.bind_eq_some_iff.1 h
  obtain ⟨⟨a2, c2, f2⟩, h2, h⟩ := Option.bind_eq_some_iff.1 h
  obtain ⟨⟨a3, c3, f3⟩, h3, h⟩ := Option.bind_eq_some_iff.1 h
  simp only [Option.some.injEq, Prod.mk.injEq] at h
  obtain ⟨-, rfl, -⟩ := h
  have e1 : c1.showExisting = (openingAfter c f).1.showExisting := by
    unfold frontStart at h1
    simp only [Option.bind_eq_bind] at h1
    obtain ⟨x1, -, h1⟩ := Option.bind_eq_some_iff.1 h1
    obtain ⟨x2, hr, h1⟩ := Option.bind_eq_some_iff.1 h1
    obtain ⟨x3, -, h1⟩ := Option.bind_eq_some_iff.1 h1
    obtain ⟨x4, -, h1⟩ := Option.bind_eq_some_iff.1 h1
    obtain ⟨x5, hi, h1⟩ := Option.bind_eq_some_iff.1 h1
    simp only [Option.some.injEq, Prod.mk.injEq] at h1
    rw [← h1.2.1]
    have : x5.showExisting = x2.showExisting := by
      unfold idAfter at hi
      split at hi
      · simp only [Option.bind_eq_bind] at hi
        obtain ⟨v, -, hi⟩ := Option.bind_eq_some_iff.1 hi
        rw [← Option.some.inj hi]
      · rw [← Option.some.inj hi]
    rw [this]
    unfold resetAfter at hr
    split at hr
    · split at hr
      · exact absurd hr (by simp)
      · rw [← Option.some.inj hr]
    · rw [← Option.some.inj hr]
  have e2 : c2.showExisting = c1.showExisting := by
    unfold frontMiddle at h2
    simp only [Option.bind_eq_bind] at h2
    obtain ⟨b1, -, h2⟩ := Option.bind_eq_some_iff.1 h2
    obtain ⟨b2, -, h2⟩ := Option.bind_eq_some_iff.1 h2
    obtain ⟨b3, -, h2⟩ := Option.bind_eq_some_iff.1 h2
    obtain ⟨b4, -, h2⟩ := Option.bind_eq_some_iff.1 h2
    simp only [Option.some.injEq, Prod.mk.injEq] at h2
    have e : c2 = (refreshAfter (setOverride c1 f1) (setPrimary (setOverride c1 f1) f1)).1 := by rw [h2.2]
    rw [e]; rfl
  have e3 : c3.showExisting = c2.showExisting := by
    unfold frontEnd at h3
    simp only [Option.bind_eq_bind] at h3
    obtain ⟨b1, -, h3⟩ := Option.bind_eq_some_iff.1 h3
    obtain ⟨c4, h4, h3⟩ := Option.bind_eq_some_iff.1 h3
    obtain ⟨b2, -, h3⟩ := Option.bind_eq_some_iff.1 h3
    simp only [Option.some.injEq, Prod.mk.injEq] at h3
    rw [← h3.2.1]
    have : c4.showExisting = (sizesAfter c2 f2).1.showExisting := by
      unfold hintsAfter at h4
      split at h4
      · rw [← Option.some.inj h4]
      · exact hints_keep _ _ _ _ h4
    show c4.showExisting = _
    rw [this]
    unfold sizesAfter interSizeAfter
    split
    · rfl
    · split <;> rfl
  rw [e3, e2, e1]

/-- Every frame header OBU, written or not, leaves the mark. -/
theorem frameHeaderAfter_seen {w w' : Whole} (h : frameHeaderAfter w = some w') : w'.c.seen = true := by
  unfold frameHeaderAfter at h
  cases hs : w.c.seen with
  | true =>
    rw [if_pos hs] at h
    rw [← Option.some.inj h]; exact hs
  | false =>
    simp only [hs, Bool.false_eq_true, if_false, Option.bind_eq_bind] at h
    obtain ⟨n, -, h⟩ := Option.bind_eq_some_iff.1 h
    split at h
    · obtain ⟨⟨c, f⟩, h1, h⟩ := Option.bind_eq_some_iff.1 h
      unfold existingAfter at h1
      simp only [Option.bind_eq_bind] at h1
      obtain ⟨t, -, h1⟩ := Option.bind_eq_some_iff.1 h1
      simp only [Option.some.injEq, Prod.mk.injEq] at h1
      rw [← Option.some.inj h, ← h1.1]
    · rename_i hc
      obtain ⟨⟨b, c, f⟩, h1, h⟩ := Option.bind_eq_some_iff.1 h
      have he : c.showExisting = false := by
        rw [frontOf_showExisting h1]
        unfold openingAfter
        cases hr : w.c.reduced with
        | true => rfl
        | false =>
          rw [hr] at hc
          simpa using hc
      rw [← Option.some.inj h]
      show (!c.showExisting) = true
      rw [he]; rfl

/-- **C112**, what a written header leaves: the mark, and — unless a frame is shown again — `tile_num` 0. -/
theorem C112_header_state (w w' : Whole) (hs : w.c.seen = false) (h : wholeAfter w = some w') :
    w'.c.seen = true ∧ w'.tileNum = if w.c.reduced = false ∧ w.c.showExisting = true then w.tileNum else 0 := by
  obtain ⟨w0, h, hc, ht⟩ := wholeAfter_front h
  refine ⟨by rw [hc]; exact frameHeaderAfter_seen h, ?_⟩
  rw [ht]
  unfold frameHeaderAfter at h
  simp only [hs, Bool.false_eq_true, if_false, Option.bind_eq_bind] at h
  obtain ⟨n, -, h⟩ := Option.bind_eq_some_iff.1 h
  split at h
  · rename_i hc
    obtain ⟨⟨c, f⟩, h1, h⟩ := Option.bind_eq_some_iff.1 h
    rw [← Option.some.inj h, if_pos (by simpa using hc)]
  · rename_i hc
    obtain ⟨⟨b, c, f⟩, h1, h⟩ := Option.bind_eq_some_iff.1 h
    have he : c.showExisting = false := by
      rw [frontOf_showExisting h1]
      unfold openingAfter
      cases hr : w.c.reduced with
      | true => rfl
      | false =>
        rw [hr] at hc
        simpa using hc
    rw [← Option.some.inj h, if_neg (c := w.c.reduced = false ∧ w.c.showExisting = true) (by simpa using hc)]
    show (if c.showExisting then w.tileNum else 0) = 0
    rw [he]; rfl

/-- **C112** is false. -/
theorem C112_negation : ¬ C112_full := by
  intro h
  obtain ⟨b, hb, -⟩ := losslessWhole_written
  obtain ⟨w', l', hw, hl, -⟩ := header_leaves hb .new rfl
  have e : encodePayload sampleIO (sampleState { losslessWhole with enableRestoration := true })
      (.frameHeader { losslessWhole with enableRestoration := true }) =
      some (raw b, { sampleState { losslessWhole with enableRestoration := true } with w := w', left := l' }) := by
    unfold encodePayload
    show (frameHeaderBits _).bind _ = _
    rw [show sampleIO.load { losslessWhole with enableRestoration := true }
      (sampleState { losslessWhole with enableRestoration := true }).w = { losslessWhole with enableRestoration := true } from rfl, hb]
    simp only [Option.bind_some, Option.bind_eq_bind, hw]
    rw [show leftAfter _ (sampleState { losslessWhole with enableRestoration := true }).left = some l' from hl]
    rfl
  exact C112_never _ _ _ _ _ rfl e (h _ _ _ _ _ _ _ e)

/-! ## C113: repeated frame headers -/

/-- **C113**, full claim. AV1: a frame header repeated before its frame is complete is a copy of the first one
(`frame_header_copy`). -/
def C113_full : Prop := ∀ (φ τ : Type) (io : FrameIO φ τ) (e e1 e2 : EncState τ) (f : φ) (b b2 : Raw),
  encodePayload io e (.frameHeader f) = some (b, e1) → encodePayload io e1 (.frameHeader f) = some (b2, e2) → b2 = b

theorem payloads_append (io : FrameIO φ τ) : ∀ (us vs : List (ObuIn φ)) (e : EncState τ), payloads io e (us ++ vs) =
    (payloads io e us).bind fun x => (payloads io x.2 vs).bind fun y => some (x.1 ++ y.1, y.2)
  | [], vs, e => by
    show payloads io e vs = (payloads io e vs).bind fun y => some ([] ++ y.1, y.2)
    cases payloads io e vs <;> rfl
  | u :: us, vs, e => by
    simp only [List.cons_append, payloads, Option.bind_eq_bind]
    cases encodePayload io e u with
    | none => rfl
    | some x =>
      simp only [Option.bind_some, payloads_append io us vs x.2]
      cases payloads io x.2 us with
      | none => rfl
      | some y =>
        simp only [Option.bind_some]
        cases payloads io y.2 vs <;> rfl

/-- Kinds that concern the mark. -/
def ObuIn.marks : ObuIn φ → Bool
  | .delimiter => true
  | .frameHeader _ => true
  | .tileGroup _ => true
  | _ => false

theorem seen_kept (io : FrameIO φ τ) (e e' : EncState τ) (u : ObuIn φ) (b : Raw) (hu : u.marks = false)
    (h : encodePayload io e u = some (b, e')) : e'.w.c.seen = e.w.c.seen := by
  cases u with
  | sequence sh =>
    simp only [encodePayload, Option.bind_eq_bind] at h
    obtain ⟨x, -, h⟩ := Option.bind_eq_some_iff.1 h
    simp only [Option.some.injEq, Prod.mk.injEq] at h
    rw [← h.2]; rfl
  | metadata m =>
    simp only [encodePayload, Option.bind_eq_bind] at h
    obtain ⟨x, -, h⟩ := Option.bind_eq_some_iff.1 h
    simp only [Option.some.injEq, Prod.mk.injEq] at h
    rw [← h.2]
  | padding m =>
    simp only [encodePayload, Option.bind_eq_bind] at h
    obtain ⟨x, -, h⟩ := Option.bind_eq_some_iff.1 h
    simp only [Option.some.injEq, Prod.mk.injEq] at h
    rw [← h.2]
  | redundant => simp only [encodePayload, Option.some.injEq, Prod.mk.injEq] at h; rw [← h.2]
  | frame f => simp only [encodePayload, Option.some.injEq, Prod.mk.injEq] at h; rw [← h.2]
  | delimiter => exact absurd hu (by simp [ObuIn.marks])
  | frameHeader f => exact absurd hu (by simp [ObuIn.marks])
  | tileGroup f => exact absurd hu (by simp [ObuIn.marks])

theorem seen_kept_run (io : FrameIO φ τ) : ∀ (us : List (ObuIn φ)) (e e' : EncState τ) (bs : List Raw),
    (∀ u ∈ us, u.marks = false) → payloads io e us = some (bs, e') → e'.w.c.seen = e.w.c.seen
  | [], e, e', bs, _, h => by
    simp only [payloads, Option.some.injEq, Prod.mk.injEq] at h
    rw [← h.2]
  | u :: us, e, e', bs, hu, h => by
    simp only [payloads, Option.bind_eq_bind] at h
    obtain ⟨x, hx, h⟩ := Option.bind_eq_some_iff.1 h
    obtain ⟨y, hy, h⟩ := Option.bind_eq_some_iff.1 h
    simp only [Option.some.injEq, Prod.mk.injEq] at h
    rw [← h.2, seen_kept_run io us x.2 y.2 y.1 (fun v hv => hu v (List.mem_cons_of_mem _ hv)) hy]
    exact seen_kept io e x.2 u x.1 (hu u (List.mem_cons_self ..)) hx

/-- One frame header OBU: empty exactly if the mark is set, and the mark is set afterwards. -/
theorem header_step (io : FrameIO φ τ) (e e' : EncState τ) (f : φ) (b : Raw)
    (h : encodePayload io e (.frameHeader f) = some (b, e')) : (b = [] ↔ e.w.c.seen = true) ∧ e'.w.c.seen = true := by
  simp only [encodePayload, Option.bind_eq_bind] at h
  obtain ⟨x, hx, h⟩ := Option.bind_eq_some_iff.1 h
  obtain ⟨w', hw, h⟩ := Option.bind_eq_some_iff.1 h
  obtain ⟨l', -, h⟩ := Option.bind_eq_some_iff.1 h
  simp only [Option.some.injEq, Prod.mk.injEq] at h
  obtain ⟨rfl, h2⟩ := h
  refine ⟨?_, ?_⟩
  · cases hs : e.w.c.seen with
    | true =>
      have hl : (io.load f e.w).c.seen = true := by rw [io.load_c]; exact hs
      unfold frameHeaderBits at hx
      rw [if_pos hl] at hx
      simp [← Option.some.inj hx]
    | false =>
      have hl : (io.load f e.w).c.seen = false := by rw [io.load_c]; exact hs
      simp [frameHeader_ne hl hx]
  · rw [← h2]
    show w'.c.seen = true
    obtain ⟨w0, h0, hc, -⟩ := wholeAfter_front hw
    rw [hc]
    exact frameHeaderAfter_seen h0

/-- Splits a run that ends with a frame header OBU. -/
theorem run_last (io : FrameIO φ τ) (e e' : EncState τ) (u : ObuIn φ) (mid : List (ObuIn φ)) (g : φ) (bs : List Raw)
    (h : payloads io e (u :: mid ++ [.frameHeader g]) = some (bs, e')) : ∃ b e1 ms e2 c, encodePayload io e u = some (b, e1) ∧
      payloads io e1 mid = some (ms, e2) ∧ encodePayload io e2 (.frameHeader g) = some (c, e') ∧ bs = b :: ms ++ [c] := by
  rw [List.cons_append] at h
  simp only [payloads, payloads_append, Option.bind_eq_bind] at h
  obtain ⟨⟨b, e1⟩, h1, h⟩ := Option.bind_eq_some_iff.1 h
  obtain ⟨⟨r, e3⟩, h2, h⟩ := Option.bind_eq_some_iff.1 h
  obtain ⟨⟨ms, e2⟩, h3, h2⟩ := Option.bind_eq_some_iff.1 h2
  obtain ⟨⟨cs, e4⟩, h4, h2⟩ := Option.bind_eq_some_iff.1 h2
  obtain ⟨⟨c, e5⟩, h5, h4⟩ := Option.bind_eq_some_iff.1 h4
  simp only [Option.bind_some, Option.some.injEq, Prod.mk.injEq] at h h2 h4
  obtain ⟨rfl, rfl⟩ := h
  obtain ⟨rfl, rfl⟩ := h2
  obtain ⟨rfl, rfl⟩ := h4
  exact ⟨b, e1, ms, e2, c, h1, h3, h5, by simp⟩

/-- **C113**, what the code does instead: in any run, a frame header OBU after another one, with nothing between them that
completes a frame or opens a temporal unit, is empty. -/
theorem C113_repeated_empty (io : FrameIO φ τ) (e e' : EncState τ) (f g : φ) (mid : List (ObuIn φ)) (bs : List Raw)
    (hm : ∀ u ∈ mid, u.marks = false) (h : payloads io e (.frameHeader f :: mid ++ [.frameHeader g]) = some (bs, e')) :
    bs.getLast? = some [] := by
  obtain ⟨b, e1, ms, e2, c, h1, h2, h3, rfl⟩ := run_last io e e' _ mid g bs h
  have := (header_step io e2 e' g c h3).1.2 (by rw [seen_kept_run io mid e1 e2 ms hm h2]; exact (header_step io e e1 f b h1).2)
  rw [this, List.getLast?_concat]

/-- **C113**, the part that holds: the first frame header OBU of a temporal unit is written out. -/
theorem C113_first_partial (io : FrameIO φ τ) (e e' : EncState τ) (g : φ) (mid : List (ObuIn φ)) (bs : List Raw)
    (hm : ∀ u ∈ mid, u.marks = false) (h : payloads io e (.delimiter :: mid ++ [.frameHeader g]) = some (bs, e')) :
    ∃ b, bs.getLast? = some b ∧ b ≠ [] := by
  obtain ⟨b, e1, ms, e2, c, h1, h2, h3, rfl⟩ := run_last io e e' _ mid g bs h
  refine ⟨c, List.getLast?_concat, fun hc => ?_⟩
  have := (header_step io e2 e' g c h3).1.1 hc
  rw [seen_kept_run io mid e1 e2 ms hm h2] at this
  simp only [encodePayload, Option.some.injEq, Prod.mk.injEq] at h1
  rw [← h1.2] at this
  exact absurd this (by simp [setSeen])

/-- **C113**, likewise the first one after a tile group that ends with the last tile of its frame; after any other tile group
the frame is not complete and the mark stays. -/
theorem C113_after_group_partial (io : FrameIO φ τ) (e e' : EncState τ) (f g : φ) (mid : List (ObuIn φ)) (bs : List Raw)
    (hm : ∀ u ∈ mid, u.marks = false) (h : payloads io e (.tileGroup f :: mid ++ [.frameHeader g]) = some (bs, e')) :
    ∃ b, bs.getLast? = some b ∧ (b ≠ [] ↔ e.w.c.seen = false ∨ ∃ e1 r, encodePayload io e (.tileGroup f) = some (r, e1) ∧
      e1.tgEnd + 1 = (io.layout f).1 * (io.layout f).2.1) := by
  obtain ⟨b, e1, ms, e2, c, h1, h2, h3, rfl⟩ := run_last io e e' _ mid g bs h
  refine ⟨c, List.getLast?_concat, ?_⟩
  have h4 := (header_step io e2 e' g c h3).1
  rw [seen_kept_run io mid e1 e2 ms hm h2] at h4
  have h0 := h1
  simp only [encodePayload, Option.bind_eq_bind] at h1
  obtain ⟨⟨hd, s, t⟩, i1, h1⟩ := Option.bind_eq_some_iff.1 h1
  obtain ⟨⟨tb, x, done⟩, i2, h1⟩ := Option.bind_eq_some_iff.1 h1
  simp only [Option.some.injEq, Prod.mk.injEq] at h1
  have hdone : done = decide (t + 1 = (io.layout f).1 * (io.layout f).2.1) := by
    unfold encodeTileGroup at i2
    simp only [i1, Option.bind_eq_bind, Option.bind_some] at i2
    obtain ⟨y, -, i2⟩ := Option.bind_eq_some_iff.1 i2
    obtain ⟨last, i3, i2⟩ := Option.bind_eq_some_iff.1 i2
    simp only [Option.some.injEq, Prod.mk.injEq] at i2
    rw [← i2.2.2]
    have i3 : usub ((io.layout f).1 * (io.layout f).2.1) 1 = some last := i3
    unfold usub at i3
    split at i3
    · have := Option.some.inj i3
      congr 1
      apply propext
      rename_i hle
      omega
    · exact absurd i3 (by simp)
  have e1t : e1.tgEnd = t := by rw [← h1.2]
  have e1s : e1.w.c.seen = if done then false else e.w.c.seen := by
    rw [← h1.2]
    cases done <;> rfl
  rw [ne_eq, h4, e1s]
  constructor
  · intro hn
    by_cases hd' : t + 1 = (io.layout f).1 * (io.layout f).2.1
    · exact Or.inr ⟨e1, b, h0, by rw [e1t]; exact hd'⟩
    · rw [hdone, decide_eq_false hd'] at hn
      left
      simpa using hn
  · rintro (hn | ⟨e3, r, h5, h6⟩)
    · rw [hn]; simp
    · rw [h0] at h5
      simp only [Option.some.injEq, Prod.mk.injEq] at h5
      rw [← h5.2, e1t] at h6
      rw [hdone, decide_eq_true h6]; simp

/-- A frame header is written, and written again as nothing. -/
theorem sample_twice : ∃ (b : Bits) (e1 e2 : EncState Nat), b ≠ [] ∧
    encodePayload sampleIO (sampleState { losslessWhole with enableRestoration := true })
      (.frameHeader { losslessWhole with enableRestoration := true }) = some (raw b, e1) ∧
    encodePayload sampleIO e1 (.frameHeader { losslessWhole with enableRestoration := true }) = some ([], e2) := by
  obtain ⟨b, hb, -⟩ := losslessWhole_written
  obtain ⟨w', l', hw, hleft, -⟩ := header_leaves hb .new rfl
  refine ⟨b, { sampleState { losslessWhole with enableRestoration := true } with w := w', left := l' }, ?_⟩
  have hs := (C112_header_state _ _ rfl hw).1
  have hl : (sampleIO.load { losslessWhole with enableRestoration := true } w').c.seen = true := by rw [sampleIO.load_c]; exact hs
  have h2 : ∃ e2, encodePayload sampleIO { sampleState { losslessWhole with enableRestoration := true } with w := w', left := l' }
      (.frameHeader { losslessWhole with enableRestoration := true }) = some ([], e2) := by
    unfold encodePayload
    simp only [frameHeaderBits, wholeAfter, leftAfter, frameHeaderAfter, if_pos hl, hl, Bool.true_or, Option.bind_eq_bind, Option.bind_some]
    exact ⟨_, rfl⟩
  obtain ⟨e2, h2⟩ := h2
  refine ⟨e2, ?_, ?_, h2⟩
  · rintro rfl
    exact frameHeader_ne (w := { losslessWhole with enableRestoration := true }) rfl hb rfl
  · unfold encodePayload
    show (frameHeaderBits _).bind _ = _
    rw [show sampleIO.load { losslessWhole with enableRestoration := true }
      (sampleState { losslessWhole with enableRestoration := true }).w = { losslessWhole with enableRestoration := true } from rfl, hb]
    simp only [Option.bind_some, Option.bind_eq_bind, hw]
    rw [show leftAfter _ (sampleState { losslessWhole with enableRestoration := true }).left = some l' from hleft]
    rfl

/-- **C113** is false. -/
theorem C113_negation : ¬ C113_full := by
  intro h
  obtain ⟨b, e1, e2, hb, h1, h2⟩ := sample_twice
  have := h _ _ _ _ _ _ _ _ _ h1 h2
  rw [show ([] : Raw) = raw [] from rfl] at this
  exact hb (raw_inj this).symm

/-- Non-vacuity of `C113_repeated_empty`: such a run goes through. -/
example : ∃ bs e, payloads sampleIO (sampleState { losslessWhole with enableRestoration := true })
    ([.frameHeader { losslessWhole with enableRestoration := true }, .redundant] ++
      [.frameHeader { losslessWhole with enableRestoration := true }]) = some (bs, e) ∧ bs.getLast? = some [] := by
  obtain ⟨b, e1, e2, hb, h1, h2⟩ := sample_twice
  have h : payloads sampleIO (sampleState { losslessWhole with enableRestoration := true })
    ([.frameHeader { losslessWhole with enableRestoration := true }, .redundant] ++
      [.frameHeader { losslessWhole with enableRestoration := true }]) = some ([raw b, [], []], e2) := by
    have h3 : encodePayload sampleIO e1 .redundant = some ([], e1) := rfl
    simp only [List.cons_append, List.nil_append, payloads, h1, h2, h3, Option.bind_eq_bind, Option.bind_some]
  exact ⟨_, _, h, C113_repeated_empty sampleIO _ _ _ _ [.redundant] _ (by simp [ObuIn.marks]) h⟩

/-- Non-vacuity of `C113_first_partial`. -/
example : ∃ bs e, payloads sampleIO (sampleState { losslessWhole with enableRestoration := true })
    ([.delimiter] ++ [.frameHeader { losslessWhole with enableRestoration := true }]) = some (bs, e) := by
  obtain ⟨b, e1, e2, hb, h1, h2⟩ := sample_twice
  have h3 : encodePayload sampleIO (sampleState { losslessWhole with enableRestoration := true }) .delimiter =
    some ([], sampleState { losslessWhole with enableRestoration := true }) := rfl
  simp only [List.cons_append, List.nil_append, payloads, h1, h3, Option.bind_eq_bind, Option.bind_some]
  exact ⟨_, _, rfl⟩

/-- Non-vacuity of `C113_after_group_partial`: frame header, the group of its only tile, the next frame's header, each written. -/
example : ∃ b e1 e2 r, encodePayload { sampleIO with layout := fun _ => (1, 1, 1), tile := fun _ _ _ _ _ x => some (x, [true]) }
      (sampleState { losslessWhole with enableRestoration := true })
      (.frameHeader { losslessWhole with enableRestoration := true }) = some (b, e1) ∧ e1.w.c.seen = true ∧
    encodePayload { sampleIO with layout := fun _ => (1, 1, 1), tile := fun _ _ _ _ _ x => some (x, [true]) } e1
      (.tileGroup { losslessWhole with enableRestoration := true }) = some (r, e2) ∧ e2.w.c.seen = false := by
  obtain ⟨b, e1, e2, hb, h1, h2⟩ := sample_twice
  have h3 : ∀ g, encodePayload { sampleIO with layout := fun _ => (1, 1, 1), tile := fun _ _ _ _ _ x => some (x, [true]) } e1 (.tileGroup g) =
      some ([], { e1 with tgStart := 0, tgEnd := 0, w := setSeen false e1.w }) := fun g => rfl
  exact ⟨raw b, e1, _, _, h1, (header_step sampleIO _ _ _ _ h1).2, h3 _, rfl⟩

end Av1
