import Verif.Spec.Obu
import Verif.Model.Obu
import Verif.Lemmas.Parser

/-! # C27, C31–C34: OBU header byte and metadata payloads -/

namespace Av1

/-! ## C27 -/

/-- The AV1 number of each kind. -/
def av1Type : ObuKind → Nat
  | .sequenceHeader => Syntax.typeSequenceHeader
  | .temporalDelimiter => Syntax.typeTemporalDelimiter
  | .frameHeader => Syntax.typeFrameHeader
  | .redundantFrameHeader => Syntax.typeRedundantFrameHeader
  | .tileGroup => Syntax.typeTileGroup
  | .metadata => Syntax.typeMetadata
  | .frame => Syntax.typeFrame
  | .padding => Syntax.typePadding

/-- **C27**. The header is one byte, eight times the AV1 type number; an AV1 reader finds the type and no forbidden,
extension, size or reserved bit. -/
theorem C27_header_byte (k : ObuKind) :
    ∃ e, encodeObuHeader k = some (raw e) ∧ e.length = 8 ∧ num e = 8 * av1Type k ∧
      Reads Syntax.obuHeader e (some (av1Type k)) := by
  refine ⟨toBits 8 (8 * av1Type k), ?_, length_toBits _ _, ?_, ?_⟩
  · cases k <;> decide
  · cases k <;> decide
  · cases k <;> exact fun rest => rfl

/-- **C27**. Different kinds have different header bytes. -/
theorem C27_distinct (k k' : ObuKind) (h : encodeObuHeader k = encodeObuHeader k') : k = k' := by
  revert h; cases k <;> cases k' <;> decide

/-! ## C31 -/

/-- **C31**, content light level. -/
theorem C31_content_light (a b : Nat) (ha : a < 2 ^ 16) (hb : b < 2 ^ 16) :
    Writes (encodeMetadata (.hdrCll a b)) Syntax.metadata (some (.contentLight a b)) := by
  unfold encodeMetadata Syntax.metadata
  refine Writes.cons (writes_leb 1 (by norm_num)) ?_
  simp only [if_true]
  exact Writes.cons (writes_f 16 a (by norm_num) ha) (Writes.map _ (Writes.last (writes_f 16 b (by norm_num) hb)))

theorem many_succ {α : Type} (n : Nat) (p : P α) :
    P.many (n + 1) p = do { let x ← p; let xs ← P.many n p; pure (x :: xs) } := rfl

/-- **C31**, mastering display: each primary's x and y in order red, green, blue, white point, luminances. -/
theorem C31_mastering (x0 y0 x1 y1 x2 y2 wx wy lmax lmin : Nat) (h0 : x0 < 2 ^ 16) (h1 : y0 < 2 ^ 16)
    (h2 : x1 < 2 ^ 16) (h3 : y1 < 2 ^ 16) (h4 : x2 < 2 ^ 16) (h5 : y2 < 2 ^ 16) (h6 : wx < 2 ^ 16) (h7 : wy < 2 ^ 16)
    (h8 : lmax < 2 ^ 32) (h9 : lmin < 2 ^ 32) :
    Writes (encodeMetadata (.hdrMdcv (x0, x1, x2) (y0, y1, y2) wx wy lmax lmin)) Syntax.metadata
      (some (.mastering [(x0, y0), (x1, y1), (x2, y2)] wx wy lmax lmin)) := by
  unfold encodeMetadata Syntax.metadata
  refine Writes.cons (writes_leb 2 (by norm_num)) ?_
  simp only [show ¬ (2 = 1) by decide, if_false, if_true, P.many, bind_assoc, pure_bind]
  have w16 : ∀ v, v < 2 ^ 16 → Writes (pushN v 16) (P.f 16) v := fun v hv => writes_f 16 v (by norm_num) hv
  have w32 : ∀ v, v < 2 ^ 32 → Writes (pushN v 32) (P.f 32) v := fun v hv => writes_f 32 v (by norm_num) hv
  exact Writes.cons (w16 _ h0) (Writes.cons (w16 _ h1) (Writes.cons (w16 _ h2) (Writes.cons (w16 _ h3)
    (Writes.cons (w16 _ h4) (Writes.cons (w16 _ h5) (Writes.cons (w16 _ h6) (Writes.cons (w16 _ h7)
    (Writes.cons (w32 _ h8) (Writes.cons (w32 _ h9) (Writes.pure _))))))))))

example : (203 : Nat) < 2 ^ 16 ∧ (10000000 : Nat) < 2 ^ 32 := by decide

/-! ## C34 -/

def TemporalGroup.InRange (g : TemporalGroup) : Prop :=
  g.temporalId < 8 ∧ g.temporalSwitch < 2 ∧ g.spatialSwitch < 2 ∧ g.refPicDiffs.length < 8 ∧
    ∀ d ∈ g.refPicDiffs, d < 256

/-- A structure for `n` layers: dimensions and reference ids each absent or given for every layer. -/
structure LegalStructure (n : Nat) (s : ScalStructure) : Prop where
  layers : 1 ≤ n ∧ n ≤ 4
  dims : s.dims.length = 0 ∨ s.dims.length = n
  descs : s.descs.length = 0 ∨ s.descs.length = n
  groups : s.groups.length < 256
  dimsOk : ∀ d ∈ s.dims, d.1 < 2 ^ 16 ∧ d.2 < 2 ^ 16
  descsOk : ∀ d ∈ s.descs, d < 256
  groupsOk : ∀ g ∈ s.groups, g.InRange

/-- What should be recovered. -/
def TemporalGroup.view (g : TemporalGroup) : Syntax.Group :=
  ⟨g.temporalId, decide (g.temporalSwitch = 1), decide (g.spatialSwitch = 1), g.refPicDiffs⟩

def ScalStructure.view (n : Nat) (s : ScalStructure) : Syntax.Scalability :=
  ⟨n, s.dims, s.descs, s.groups.map TemporalGroup.view⟩

/-- **C34**, full claim. -/
def C34_full : Prop := ∀ (n : Nat) (s : ScalStructure), LegalStructure n s →
  Writes (encodeMetadata (.scalability 14 (some s))) Syntax.metadata (some (.scalability 14 (some (s.view n))))

/-- **C34** is false: a structure without dimensions and without reference ids panics (0 - 1). -/
theorem C34_negation : ¬ C34_full := by
  intro h
  obtain ⟨e, he, -⟩ := h 1 ⟨[], [], []⟩ ⟨by decide, by simp, by simp, by simp, by simp, by simp, by simp⟩
  have : encodeMetadata (.scalability 14 (some ⟨[], [], []⟩)) = none := by decide
  rw [this] at he
  simp at he

theorem writes_group (g : TemporalGroup) (h : g.InRange) : Writes (encodeGroup g) Syntax.group g.view := by
  obtain ⟨h1, h2, h3, h4, h5⟩ := h
  unfold encodeGroup Syntax.group
  refine Writes.cons (writes_f 3 _ (by norm_num) h1) (Writes.cons (writes_bit _ h2) (Writes.cons (writes_bit _ h3)
    (Writes.last (Writes.cons (writes_f 3 _ (by norm_num) h4) (Writes.map _ ?_)))))
  exact writes_many (pushN · 8) (P.f 8) g.refPicDiffs (fun d hd => writes_f 8 d (by norm_num) (h5 d hd))

theorem writes_structure (n : Nat) (s : ScalStructure) (h : LegalStructure n s)
    (hne : 0 < s.dims.length ∨ 0 < s.descs.length) : Writes (encodeStructure s) Syntax.scalabilityStructure (s.view n) := by
  obtain ⟨hn, hdims, hdescs, hgroups, dimsOk, descsOk, groupsOk⟩ := h
  have hmax : (if s.dims.length > s.descs.length then s.dims.length else s.descs.length) = n := by
    split <;> omega
  have hs : usub n 1 = some (n - 1) := by rw [usub, if_pos hn.1]
  have e1 : (if decide (s.dims.length > 0) = true then n - 1 + 1 else 0) = s.dims.length := by
    by_cases h0 : s.dims.length > 0
    · simp [h0]; omega
    · simp [h0]; omega
  have e2 : (if decide (s.descs.length > 0) = true then n - 1 + 1 else 0) = s.descs.length := by
    by_cases h0 : s.descs.length > 0
    · simp [h0]; omega
    · simp [h0]; omega
  unfold encodeStructure Syntax.scalabilityStructure
  rw [hmax, hs]
  refine Writes.cons (writes_f 2 (n - 1) (by norm_num) (by omega)) (Writes.cons (writes_flag _)
    (Writes.cons (writes_flag _) (Writes.cons (writes_flag _) (Writes.cons (writes_f 3 0 (by norm_num) (by norm_num)) ?_))))
  rw [e1, e2]
  refine Writes.cons (v := s.dims) ?_ (Writes.cons (v := s.descs) ?_ (Writes.cons (v := s.groups.map TemporalGroup.view) ?_ ?_))
  · refine writes_many _ _ s.dims (fun d hd => ?_)
    exact Writes.cons (writes_f 16 d.1 (by norm_num) (dimsOk d hd).1)
      (Writes.map _ (Writes.last (writes_f 16 d.2 (by norm_num) (dimsOk d hd).2)))
  · exact writes_many (pushN · 8) (P.f 8) s.descs (fun d hd => writes_f 8 d (by norm_num) (descsOk d hd))
  · by_cases h0 : s.groups.length > 0
    · simp only [h0, decide_true, if_true]
      refine Writes.cons (writes_f 8 _ (by norm_num) hgroups) ?_
      exact writes_manyMap encodeGroup Syntax.group TemporalGroup.view s.groups (fun g hg => writes_group g (groupsOk g hg))
    · simp only [h0, decide_false, if_false]
      have : s.groups = [] := by
        cases hg : s.groups with
        | nil => rfl
        | cons a l => simp [hg] at h0
      rw [this]
      exact Writes.pure _
  · rw [show n - 1 + 1 = n by omega]
    exact Writes.pure _

/-- **C34**, what holds: any structure that gives dimensions or reference ids (or both) for its one to four layers is
recovered by an AV1 reader.  Missing: the structure with neither. -/
theorem C34_scalability_partial (n : Nat) (s : ScalStructure) (h : LegalStructure n s)
    (hne : 0 < s.dims.length ∨ 0 < s.descs.length) :
    Writes (encodeMetadata (.scalability 14 (some s))) Syntax.metadata (some (.scalability 14 (some (s.view n)))) := by
  unfold encodeMetadata Syntax.metadata
  refine Writes.cons (writes_leb 3 (by norm_num)) ?_
  simp only [show ¬ (3 = 1) by decide, show ¬ (3 = 2) by decide, if_false, if_true, scalabilitySS]
  refine Writes.cons (writes_f 8 14 (by norm_num) (by norm_num)) ?_
  have := writes_structure n s h hne
  exact Writes.map _ (Writes.last (Writes.map some this))

/-- **C34**, the exact condition: a legal structure is recovered if and only if it gives dimensions or reference ids. -/
theorem C34_iff (n : Nat) (s : ScalStructure) (h : LegalStructure n s) :
    Writes (encodeMetadata (.scalability 14 (some s))) Syntax.metadata (some (.scalability 14 (some (s.view n)))) ↔
      s.dims ≠ [] ∨ s.descs ≠ [] := by
  constructor
  · rintro ⟨e, he, -⟩
    by_contra hne
    push Not at hne
    have : encodeStructure s = none := by
      unfold encodeStructure
      rw [hne.1, hne.2]
      rfl
    simp [encodeMetadata, scalabilitySS, this, cat_cons, pushLeb, pushN] at he
  · intro hne
    apply C34_scalability_partial n s h
    rcases hne with hne | hne
    · exact Or.inl (List.length_pos_iff.2 hne)
    · exact Or.inr (List.length_pos_iff.2 hne)

example : ¬ Writes (encodeMetadata (.scalability 14 (some ⟨[], [], []⟩))) Syntax.metadata
    (some (.scalability 14 (some (ScalStructure.view 2 ⟨[], [], []⟩)))) := fun h =>
  absurd ((C34_iff 2 ⟨[], [], []⟩ ⟨by decide, by simp, by simp, by simp, by simp, by simp, by simp⟩).1 h) (by simp)

/-- **C34**, the predefined modes: only the mode number is written, and it is recovered. -/
theorem C34_predefined (mode : Nat) (st : Option ScalStructure) (h : mode < 14) :
    Writes (encodeMetadata (.scalability mode st)) Syntax.metadata (some (.scalability mode none)) := by
  unfold encodeMetadata Syntax.metadata
  refine Writes.cons (writes_leb 3 (by norm_num)) ?_
  have h14 : mode ≠ 14 := by omega
  simp only [show ¬ (3 = 1) by decide, show ¬ (3 = 2) by decide, if_false, if_true, scalabilitySS, h14]
  refine Writes.cons (writes_f 8 mode (by norm_num) (by omega)) ?_
  rw [show (mode == 14) = false by simp [h14]]
  exact Writes.map _ (Writes.last (Writes.pure none))

example : LegalStructure 2 ⟨[(640, 360), (1280, 720)], [0, 1], [⟨3, 1, 0, [1, 2]⟩, ⟨0, 0, 1, []⟩]⟩ :=
  ⟨by decide, by decide, by decide, by decide, by decide, by decide, by
    intro g hg
    simp only [List.mem_cons, List.not_mem_nil, or_false] at hg
    rcases hg with rfl | rfl <;> exact ⟨by decide, by decide, by decide, by decide, by decide⟩⟩

/-! ## C33 -/

/-- A time code whose fields are in range and where a missing field is not followed by a present one. -/
structure LegalTimecode (ct : Nat) (s m h : Option Nat) (tol tov : Nat) : Prop where
  ct_lt : ct < 32
  s_lt : ∀ v, s = some v → v < 64
  m_lt : ∀ v, m = some v → v < 64
  h_lt : ∀ v, h = some v → v < 32
  sm : m.isSome → s.isSome
  mh : h.isSome → m.isSome
  tol_lt : tol < 32
  tov_lt : tov < 2 ^ tol

/-- **C33**. Every given field of a time code is recovered (by a reader of the code's own layout, see
`C33_not_av1`). -/
theorem C33_timecode (ct : Nat) (s m h : Option Nat) (tol tov : Nat) (hl : LegalTimecode ct s m h tol tov) :
    Writes (encodeMetadata (.timecode ct s m h tol tov)) Syntax.timecodeLayout (3, ct, s, m, h, tol, tov) := by
  obtain ⟨h1, hs, hm, hh, hsm, hmh, h2, h3⟩ := hl
  have flag1 : Writes (pushU 1) P.flag true := writes_bit 1 (by decide)
  have flag0 : Writes (pushU 0) P.flag false := writes_bit 0 (by decide)
  have tail : Writes (cat [pushN tol 5, pushN tov tol]) (do
      let tol ← P.f 5
      let tov ← P.f tol
      pure (3, ct, s, m, h, tol, tov)) (3, ct, s, m, h, tol, tov) :=
    Writes.cons (writes_f 5 tol (by norm_num) h2) (Writes.map _ (Writes.last (writes_f tol tov (by omega) h3)))
  have clockOk : ∀ x : Option Raw, Writes x (P.flag >>= Syntax.clock) (s, m, h) →
      Writes (cat [x, pushN tol 5, pushN tov tol]) (do
        let full ← P.flag
        let (s, m, h) ← Syntax.clock full
        let tol ← P.f 5
        let tov ← P.f tol
        pure (3, ct, s, m, h, tol, tov)) (3, ct, s, m, h, tol, tov) := by
    intro x hx
    have := Writes.cons hx (g := fun smh => do
      let tol ← P.f 5
      let tov ← P.f tol
      pure (3, ct, smh.1, smh.2.1, smh.2.2, tol, tov)) tail
    rwa [bind_assoc] at this
  unfold encodeMetadata Syntax.timecodeLayout
  refine Writes.cons (writes_leb 3 (by norm_num)) (Writes.cons (writes_f 5 ct (by norm_num) h1) (clockOk _ ?_))
  cases s with
  | none =>
    cases m with
    | some m => simp at hsm
    | none =>
      cases h with
      | some h => simp at hmh
      | none =>
        refine Writes.cons flag0 (Writes.last ?_)
        simp only [Syntax.clock, P.flagged, P.opt, bind_assoc]
        rw [← cat_single (pushU 0)]
        exact Writes.cons flag0 (Writes.pure _)
  | some s =>
    have ws := writes_f 6 s (by norm_num) (hs s rfl)
    cases m with
    | none =>
      cases h with
      | some h => simp at hmh
      | none =>
        refine Writes.cons flag0 (Writes.last ?_)
        simp only [Syntax.clock, P.flagged, P.opt, bind_assoc]
        refine Writes.cons flag1 ?_
        simp only [if_true, bind_assoc, pure_bind, Option.isSome_some]
        refine Writes.cons ws ?_
        exact Writes.cons (xs := []) flag0 (Writes.pure _)
    | some m =>
      have wm := writes_f 6 m (by norm_num) (hm m rfl)
      cases h with
      | none =>
        refine Writes.cons flag0 (Writes.last ?_)
        simp only [Syntax.clock, P.flagged, P.opt, bind_assoc]
        refine Writes.cons flag1 ?_
        simp only [if_true, bind_assoc, pure_bind, Option.isSome_some]
        refine Writes.cons ws (Writes.last (Writes.cons flag1 ?_))
        simp only [if_true, bind_assoc, pure_bind, Option.isSome_some]
        refine Writes.cons wm ?_
        exact Writes.cons (xs := []) flag0 (Writes.pure _)
      | some h =>
        have wh := writes_f 5 h (by norm_num) (hh h rfl)
        refine Writes.cons flag1 ?_
        simp only [Syntax.clock, if_true]
        exact Writes.cons ws (Writes.cons wm (Writes.cons wh (Writes.pure _)))

example : LegalTimecode 1 (some 59) (some 12) none 5 17 :=
  ⟨by decide, by simp, by simp, by simp, by simp, by simp, by decide, by decide⟩

/-- **C33**, what is not kept: a present field after an absent one is dropped silently. -/
theorem C33_dropped (ct tol tov m h : Nat) :
    encodeMetadata (.timecode ct none (some m) (some h) tol tov) = encodeMetadata (.timecode ct none none none tol tov) :=
  rfl

/-- **C33**, an AV1 reader does not recover time codes: it sees a scalability message. -/
theorem C33_not_av1 : ¬ ∀ ct s m h tol tov, LegalTimecode ct s m h tol tov →
    ∃ full disc drop n, Writes (encodeMetadata (.timecode ct s m h tol tov)) Syntax.metadata
      (some (.timecode ct full disc drop n s m h tol tov)) := by
  intro h
  obtain ⟨full, disc, drop, n, e, he, hr⟩ := h 1 none none none 0 0
    ⟨by decide, by simp, by simp, by simp, by simp, by simp, by decide, by decide⟩
  have h0 : encodeMetadata (.timecode 1 none none none 0 0) = some (raw (toBits 20 0x3080)) := by decide
  rw [h0] at he
  obtain rfl := raw_inj (Option.some.inj he)
  have h1 := hr []
  have h2 : (Syntax.metadata (toBits 20 0x3080 ++ [])).map (·.1) = some (some (.scalability 8 none)) := by decide +kernel
  rw [h1] at h2
  simp at h2

/-! ## C32 -/

inductive MetaKind where
  | itutT35 | hdrCll | hdrMdcv | scalability | timecode
deriving Repr, DecidableEq

def Metadata.kind : Metadata → MetaKind
  | .itutT35 .. => .itutT35
  | .hdrCll .. => .hdrCll
  | .hdrMdcv .. => .hdrMdcv
  | .scalability .. => .scalability
  | .timecode .. => .timecode

/-- `metadata_type` of the AV1 specification (6.7.1). -/
def MetaKind.av1 : MetaKind → Nat
  | .hdrCll => 1
  | .hdrMdcv => 2
  | .scalability => 3
  | .itutT35 => 4
  | .timecode => 5

/-- **C32**, full claim: payloads of different kinds differ, and start with the kind's AV1 number. -/
def C32_full : Prop :=
  (∀ m m' b, encodeMetadata m = some b → encodeMetadata m' = some b → m.kind = m'.kind) ∧
  ∀ m b, encodeMetadata m = some b → ∃ e r, b = raw e ++ r ∧ Reads P.leb128 e m.kind.av1

theorem C32_collision : encodeMetadata (.timecode 1 (some 37) (some 0) (some 0) 4 0) =
    encodeMetadata (.scalability 14 (some ⟨[], [0, 64], []⟩)) := by decide +kernel

/-- **C32** is false: a time code (37 seconds past midnight) and a scalability structure have the same payload. -/
theorem C32_negation : ¬ C32_full := by
  rintro ⟨h, -⟩
  have h1 : ∃ b, encodeMetadata (.timecode 1 (some 37) (some 0) (some 0) 4 0) = some b := by
    apply Option.isSome_iff_exists.1; decide +kernel
  obtain ⟨b, hb⟩ := h1
  have := h _ (.scalability 14 (some ⟨[], [0, 64], []⟩)) b hb (C32_collision ▸ hb)
  exact absurd this (by decide)

/-- The type code written, for any contents. -/
theorem metadata_tag (m : Metadata) (b : Raw) (h : encodeMetadata m = some b) :
    ∃ r, b = raw (toBits 8 (if m.kind = .timecode then 3 else m.kind.av1)) ++ r := by
  have leb : ∀ k, k < 128 → pushLeb k = some (raw (toBits 8 k)) := by
    intro k hk; revert k; decide +kernel
  have key : ∀ k xs, k < 128 → cat (pushLeb k :: xs) = some b → ∃ r, b = raw (toBits 8 k) ++ r := by
    intro k xs hk hc
    rw [cat_cons, leb k hk] at hc
    cases hx : cat xs with
    | none => simp [hx] at hc
    | some r => simp [hx] at hc; exact ⟨r, hc.symm⟩
  cases m with
  | itutT35 cc p => exact key 4 _ (by decide) h
  | hdrCll a b => exact key 1 _ (by decide) h
  | hdrMdcv x y wx wy lx ln => exact key 2 _ (by decide) h
  | scalability mode st => exact key 3 _ (by decide) h
  | timecode ct s m h' tol tov => exact key 3 _ (by decide) h

/-- **C32**, what holds: every kind but the time code starts with its AV1 number, and kinds are distinguishable unless
one is a time code and the other a scalability message. -/
theorem C32_kinds_partial (m m' : Metadata) (b : Raw) (h : encodeMetadata m = some b) (h' : encodeMetadata m' = some b) :
    m.kind = m'.kind ∨ (m.kind = .timecode ∧ m'.kind = .scalability) ∨ (m.kind = .scalability ∧ m'.kind = .timecode) := by
  obtain ⟨r, hr⟩ := metadata_tag m b h
  obtain ⟨r', hr'⟩ := metadata_tag m' b h'
  rw [hr] at hr'
  have hraw := (List.append_inj hr' (by simp [raw])).1
  have hn := congrArg num (raw_inj hraw)
  rw [num_toBits, num_toBits] at hn
  revert hn
  generalize m.kind = k
  generalize m'.kind = k'
  cases k <;> cases k' <;> decide

theorem C32_type_code_partial (m : Metadata) (b : Raw) (h : encodeMetadata m = some b) (hk : m.kind ≠ .timecode) :
    ∃ e r, b = raw e ++ r ∧ Reads P.leb128 e m.kind.av1 := by
  obtain ⟨r, hr⟩ := metadata_tag m b h
  rw [if_neg hk] at hr
  refine ⟨_, r, hr, ?_⟩
  have hlt : m.kind.av1 < 128 := by cases m.kind <;> decide
  have hb : toBits 8 m.kind.av1 = lebBits (lebBytes m.kind.av1) m.kind.av1 := by
    have e1 : lebBytes m.kind.av1 = 1 := by rw [lebBytes, if_pos hlt]
    rw [e1]; cases m.kind <;> decide
  rw [hb]
  exact reads_leb _ _ 8 (lebBytes_pos _) (lebBits_fits _ (by omega)).1 (lebBits_fits _ (by omega)).2

/-- A bit string whose output begins another one is a prefix. -/
theorem raw_prefix {e t : Bits} {a : Raw} (h : raw t = raw e ++ a) : e ++ t.drop e.length = t := by
  have : t.take e.length = e := by
    apply raw_inj
    rw [raw, raw, List.map_take]
    have h2 : List.map Bool.toNat t = List.map Bool.toNat e ++ a := h
    rw [h2, List.take_left' (by simp)]
  calc e ++ t.drop e.length = t.take e.length ++ t.drop e.length := by rw [this]
    _ = t := List.take_append_drop _ _

/-- **C32**, exactly: a payload starts with the AV1 number of its kind if and only if it is no time code. -/
theorem C32_type_code_iff (m : Metadata) (b : Raw) (h : encodeMetadata m = some b) :
    (∃ e r, b = raw e ++ r ∧ Reads P.leb128 e m.kind.av1) ↔ m.kind ≠ .timecode := by
  refine ⟨?_, C32_type_code_partial m b h⟩
  rintro ⟨e, r, hb, hr⟩ hk
  obtain ⟨r', hb'⟩ := metadata_tag m b h
  rw [if_pos hk] at hb'
  rw [hk] at hr
  have three : ∀ y, P.leb128 (toBits 8 3 ++ y) = some (3, y) := fun y => rfl
  have : ∃ x y, e ++ x = toBits 8 3 ++ y := by
    rcases List.append_eq_append_iff.1 (hb.symm.trans hb') with ⟨a, h1, -⟩ | ⟨a, h1, -⟩
    · exact ⟨_, [], (raw_prefix h1).trans (List.append_nil _).symm⟩
    · exact ⟨[], _, (List.append_nil _).trans (raw_prefix h1).symm⟩
  obtain ⟨x, y, hxy⟩ := this
  have := hr x
  rw [hxy, three] at this
  simp [MetaKind.av1] at this

/-! ## C49 -/

/-- **C49**, full claim: ITU-T T.35 metadata with different payload bytes has different bits. -/
def C49_full : Prop := ∀ cc cc' p p' b, cc < 2 ^ 16 → cc' < 2 ^ 16 →
  encodeMetadata (.itutT35 cc p) = some b → encodeMetadata (.itutT35 cc' p') = some b → cc = cc' ∧ p = p'

/-- **C49** is false: the payload is never written. -/
theorem C49_negation : ¬ C49_full := fun h =>
  absurd (h 181 181 [1] [2] _ (by decide) (by decide) rfl rfl).2 (by decide)

/-- **C49**, what holds: a country code of one byte is recovered, with the (always zero) extension byte of code 255. -/
theorem C49_t35_partial (cc : Nat) (p : List Nat) (h : cc < 256) :
    Writes (encodeMetadata (.itutT35 cc p)) Syntax.metadata
      (some (.t35 cc (if cc = 255 then some 0 else none))) := by
  unfold encodeMetadata Syntax.metadata
  refine Writes.cons (writes_leb 4 (by norm_num)) ?_
  simp only [show ¬ (4 = 1) by decide, show ¬ (4 = 2) by decide, show ¬ (4 = 3) by decide, if_false, if_true]
  refine Writes.cons (writes_f 8 cc (by norm_num) h) ?_
  by_cases h255 : cc = 255
  · subst h255
    exact Writes.map _ (Writes.last (Writes.map some (writes_f 8 0 (by norm_num) (by norm_num))))
  · rw [show (cc == 0xFF) = false by simp [h255], if_neg h255, if_neg h255]
    exact Writes.map _ (Writes.last (Writes.pure none))

/-- **C49**, exactly what the bits tell: two messages have the same bits if and only if their country codes agree in the low byte
and on being 255; the payload never matters. -/
theorem C49_iff (cc cc' : Nat) (p p' : List Nat) :
    encodeMetadata (.itutT35 cc p) = encodeMetadata (.itutT35 cc' p') ↔ cc % 256 = cc' % 256 ∧ (cc = 255 ↔ cc' = 255) := by
  have leb : pushLeb 4 = some (raw (toBits 8 4)) := by decide
  have enc : ∀ c q, encodeMetadata (.itutT35 c q) =
      some (raw (toBits 8 4 ++ (toBits 8 c ++ if c = 255 then toBits 8 0 else []))) := by
    intro c q
    simp only [encodeMetadata, leb, pushN_eq _ 8 (by decide : 8 ≤ 32), cat_cons, cat_nil]
    split <;> simp [raw]
  rw [enc, enc, Option.some.injEq]
  constructor
  · intro h
    have h := List.append_cancel_left (raw_inj h)
    have hl := List.append_inj_left h (by simp)
    have hr := List.append_inj_right h (by simp)
    refine ⟨?_, ?_⟩
    · have := congrArg num hl
      simpa [num_toBits] using this
    · by_cases h1 : cc = 255 <;> by_cases h2 : cc' = 255 <;> simp [h1, h2, toBits] at hr ⊢
  · rintro ⟨h1, h2⟩
    rw [toBits_congr (n := 8) (a := cc) (b := cc') h1]
    by_cases h3 : cc = 255
    · rw [if_pos h3, if_pos (h2.1 h3)]
    · rw [if_neg h3, if_neg (fun h => h3 (h2.2 h))]

example : encodeMetadata (.itutT35 181 [1, 2, 3]) = encodeMetadata (.itutT35 437 []) ∧
    encodeMetadata (.itutT35 255 []) ≠ encodeMetadata (.itutT35 511 []) := by
  rw [C49_iff, ne_eq, C49_iff]; decide

end Av1
