import Verif.Model.Encoder
import Verif.Props.Stream
import Verif.Props.TileWalk

/-! # Whole runs of the encoder: C137, C138 -/

namespace Av1

variable {σ ω β π : Type}

/-! ## C137: a picture can be encoded -/

/-- Units that carry the data of a picture: frames and tile groups (AV1, types 6 and 4). -/
def ObuIn.data {φ : Type} (u : ObuIn φ) : Prop := u.kind = .frame ∨ u.kind = .tileGroup

/-- A run that wrote some data of a picture. -/
def Carries {φ : Type} (us : List (ObuIn φ)) (bs : List Raw) : Prop := ∃ x ∈ us.zip bs, x.1.data ∧ x.2 ≠ []

/-- **C137**, full claim: for every frame with an area some sequence of calls on a new encoder, with some way to encode the blocks,
writes data of a picture. -/
def C137_full : Prop := ∀ (p : CodeFrame Unit), 0 < p.g.f.width → 0 < p.g.f.height →
  ∃ (σ ω β : Type) (E : CodeFrame Unit → Whole → HeaderLeft → TileEnc σ ω β) (fuel : Nat) (x : σ × ω) (us : List (ObuIn (CodeFrame Unit)))
    (bs : List Raw) (e : EncState (σ × ω)), payloads (codeIO E fuel) (.new x) us = some (bs, e) ∧ Carries us bs

/-- A group whose tiles cannot be encoded while the context is held. -/
theorem group_none {τ : Type} (tile : Bool → Nat → τ → Option (τ × Bits)) (ht : ∀ n x, tile true n x = none)
    (cols rows groups s e sizeBytes : Nat) (x : τ) (h : s ≤ e) : encodeTileGroup tile cols rows groups s e sizeBytes x = none := by
  unfold encodeTileGroup
  cases hh : tileGroupHeader cols rows groups s e with
  | none => rfl
  | some y =>
    obtain ⟨b, s', e'⟩ := y
    have hse : s' ≤ e' := by
      simp only [tileGroupHeader, tileGroupHead, Option.bind_eq_bind, Option.bind_eq_some_iff] at hh
      obtain ⟨⟨b1, s1, e1⟩, ⟨b0, -, hh⟩, h2⟩ := hh
      cases h2
      split at hh
      · simp only [Option.bind_eq_some_iff] at hh
        obtain ⟨e2, -, hh⟩ := hh
        cases hh
        exact Nat.zero_le _
      · simp only [Option.bind_eq_some_iff] at hh
        obtain ⟨_, -, _, -, _, -, hh⟩ := hh
        cases hh
        exact h
    simp only [Option.bind_eq_bind, Option.bind_some]
    obtain ⟨m, hm⟩ : ∃ m, e' + 1 - s' = m + 1 := ⟨e' - s', by omega⟩
    rw [hm, List.range'_succ]
    simp only [tileLoop, ht, Option.bind_eq_bind, Option.bind_none]

theorem group_payload (E : CodeFrame π → Whole → HeaderLeft → TileEnc σ ω β) (fuel : Nat) (e : EncState (σ × ω)) (p : CodeFrame π)
    (h : e.tgStart ≤ e.tgEnd) : encodePayload (codeIO E fuel) e (.tileGroup p) = none := by
  simp only [encodePayload, Option.bind_eq_bind, Option.bind_eq_none_iff]
  intro hd _
  rw [group_none _ (fun n x => rfl) _ _ _ _ _ _ _ h]
  intro y hy
  cases hy

/-- No other unit touches the bounds of the group. -/
theorem bounds_kept {φ τ : Type} (io : FrameIO φ τ) (e e' : EncState τ) (u : ObuIn φ) (b : Raw) (hu : u.kind ≠ .tileGroup)
    (h : encodePayload io e u = some (b, e')) : e'.tgStart = e.tgStart ∧ e'.tgEnd = e.tgEnd := by
  cases u with
  | tileGroup f => exact absurd rfl hu
  | delimiter => simp only [encodePayload, Option.some.injEq, Prod.mk.injEq] at h; rw [← h.2]; exact ⟨rfl, rfl⟩
  | redundant => simp only [encodePayload, Option.some.injEq, Prod.mk.injEq] at h; rw [← h.2]; exact ⟨rfl, rfl⟩
  | frame f => simp only [encodePayload, Option.some.injEq, Prod.mk.injEq] at h; rw [← h.2]; exact ⟨rfl, rfl⟩
  | sequence sh =>
    simp only [encodePayload, Option.bind_eq_bind] at h
    obtain ⟨x, -, h⟩ := Option.bind_eq_some_iff.1 h
    simp only [Option.some.injEq, Prod.mk.injEq] at h
    rw [← h.2]; exact ⟨rfl, rfl⟩
  | metadata m =>
    simp only [encodePayload, Option.bind_eq_bind] at h
    obtain ⟨x, -, h⟩ := Option.bind_eq_some_iff.1 h
    simp only [Option.some.injEq, Prod.mk.injEq] at h
    rw [← h.2]; exact ⟨rfl, rfl⟩
  | padding n =>
    simp only [encodePayload, Option.bind_eq_bind] at h
    obtain ⟨x, -, h⟩ := Option.bind_eq_some_iff.1 h
    simp only [Option.some.injEq, Prod.mk.injEq] at h
    rw [← h.2]; exact ⟨rfl, rfl⟩
  | frameHeader f =>
    simp only [encodePayload, Option.bind_eq_bind] at h
    obtain ⟨x, -, h⟩ := Option.bind_eq_some_iff.1 h
    obtain ⟨y, -, h⟩ := Option.bind_eq_some_iff.1 h
    obtain ⟨z, -, h⟩ := Option.bind_eq_some_iff.1 h
    simp only [Option.some.injEq, Prod.mk.injEq] at h
    rw [← h.2]; exact ⟨rfl, rfl⟩

/-- **C137** fails for every run: however the blocks are encoded, whatever the frames and the other units are, a run in which a tile
group occurs panics. -/
theorem C137_never (E : CodeFrame π → Whole → HeaderLeft → TileEnc σ ω β) (fuel : Nat) :
    ∀ (us : List (ObuIn (CodeFrame π))) (e e' : EncState (σ × ω)) (bs : List Raw), e.tgStart ≤ e.tgEnd →
      payloads (codeIO E fuel) e us = some (bs, e') → ∀ u ∈ us, u.kind ≠ .tileGroup
  | [], _, _, _, _, _, u, hu => by cases hu
  | v :: us, e, e', bs, hb, h, u, hu => by
    simp only [payloads, Option.bind_eq_bind] at h
    obtain ⟨x, hx, h⟩ := Option.bind_eq_some_iff.1 h
    obtain ⟨y, hy, -⟩ := Option.bind_eq_some_iff.1 h
    have hv : v.kind ≠ .tileGroup := by
      intro hk
      cases v <;> simp only [ObuIn.kind] at hk <;> try cases hk
      rw [group_payload E fuel e _ hb] at hx
      cases hx
    rcases List.mem_cons.1 hu with rfl | hu
    · exact hv
    · have := bounds_kept _ e x.2 v x.1 hv hx
      exact C137_never E fuel us x.2 y.2 y.1 (by rw [this.1, this.2]; exact hb) hy u hu

/-- So no run of a new encoder writes any data of a picture. -/
theorem C137_nothing (E : CodeFrame π → Whole → HeaderLeft → TileEnc σ ω β) (fuel : Nat) (x : σ × ω) (us : List (ObuIn (CodeFrame π)))
    (bs : List Raw) (e : EncState (σ × ω)) (h : payloads (codeIO E fuel) (.new x) us = some (bs, e)) : ¬ Carries us bs := by
  rintro ⟨⟨u, b⟩, hm, hd, hb⟩
  rcases hd with hd | hd
  · have key : ∀ (us : List (ObuIn (CodeFrame π))) (bs : List Raw) (e e' : EncState (σ × ω)),
        payloads (codeIO E fuel) e us = some (bs, e') → (u, b) ∈ us.zip bs → b = [] := by
      intro us
      induction us with
      | nil => intro bs e e' _ hm; cases hm
      | cons v us ih =>
        intro bs e e' h hm
        simp only [payloads, Option.bind_eq_bind] at h
        obtain ⟨x, hx, h⟩ := Option.bind_eq_some_iff.1 h
        obtain ⟨y, hy, h⟩ := Option.bind_eq_some_iff.1 h
        simp only [Option.some.injEq, Prod.mk.injEq] at h
        rw [← h.1, List.zip_cons_cons, List.mem_cons] at hm
        rcases hm with hm | hm
        · simp only [Prod.mk.injEq] at hm
          rw [← hm.1] at hx
          cases u <;> simp only [ObuIn.kind] at hd <;> try cases hd
          simp only [encodePayload, Option.some.injEq] at hx
          rw [hm.2, ← hx]
        · exact ih y.1 x.2 y.2 hy hm
    exact hb (key us bs _ e h hm)
  · exact C137_never E fuel us _ e bs (Nat.le_refl 0) h u (List.of_mem_zip hm).1 hd

/-- That the context is held is not the only reason: on a free context too, each tile that starts inside the frame, at an even row
and column (all starts are multiples of 16), panics, whatever the blocks do. -/
theorem C137_tile_never (E : CodeFrame π → Whole → HeaderLeft → TileEnc σ ω β) (fuel : Nat) (p : CodeFrame π) (w : Whole)
    (l : HeaderLeft) (held : Bool) (n : Nat) (x : σ × ω) (a : TileArea)
    (ha : tileArea n p.g.tile.cols p.g.tile.rows w.tile.miRowStarts w.tile.miColStarts = some a)
    (h1 : a.rowStart < a.rowEnd) (h2 : a.colStart < a.colEnd) (h3 : a.rowStart < miSize p.g.f.height)
    (h4 : a.colStart < miSize p.g.f.width) (h5 : a.rowStart % 2 = 0) (h6 : a.colStart % 2 = 0) :
    (codeIO E fuel).tile p w l held n x = none := by
  have he : ∀ k, miSize k % 2 = 0 := fun k => by unfold miSize; omega
  simp only [codeIO]
  rw [C102_never (E p w l) held w.tile.use128 _ _ fuel n _ _ _ _ x.1 x.2 a ha h1 h2 h3 h4 h5 h6 (he _) (he _)]
  rfl

/-- The single tile of a frame of 176 by 144 meets the hypotheses. -/
example : tileArea 0 1 1 [0, 36] [0, 44] = some ⟨0, 36, 0, 44⟩ ∧ 0 < miSize 144 ∧ 0 < miSize 176 := by decide

/-- **C137** is false. -/
theorem C137_negation : ¬ C137_full := by
  intro h
  obtain ⟨σ, ω, β, E, fuel, x, us, bs, e, h1, h2⟩ := h ⟨.new .key 176 144, 1, ()⟩ (by decide) (by decide)
  exact C137_nothing E fuel x us bs e h1 h2

/-- The frame without its picture. -/
def ObuIn.forget : ObuIn (CodeFrame π) → ObuIn (Whole × Nat)
  | .sequence sh => .sequence sh
  | .delimiter => .delimiter
  | .frameHeader p => .frameHeader (p.g, p.groups)
  | .redundant => .redundant
  | .tileGroup p => .tileGroup (p.g, p.groups)
  | .metadata m => .metadata m
  | .frame p => .frame (p.g, p.groups)
  | .padding n => .padding n

/-- What is written depends neither on the picture nor on the way it is encoded: two sequences of calls that differ in nothing but
the pictures, with two block encoders, write the same bytes, or both panic. -/
theorem C137_blind {β' π' : Type} (E : CodeFrame π → Whole → HeaderLeft → TileEnc σ ω β)
    (E' : CodeFrame π' → Whole → HeaderLeft → TileEnc σ ω β') (fuel : Nat) :
    ∀ (us : List (ObuIn (CodeFrame π))) (vs : List (ObuIn (CodeFrame π'))) (e : EncState (σ × ω)) (w : Writer),
      e.tgStart ≤ e.tgEnd → us.map ObuIn.forget = vs.map ObuIn.forget → stream (codeIO E fuel) e us w = stream (codeIO E' fuel) e vs w
  | [], [], _, _, _, _ => rfl
  | [], _ :: _, _, _, _, h => by cases h
  | _ :: _, [], _, _, _, h => by cases h
  | u :: us, v :: vs, e, w, hb, h => by
    simp only [List.map_cons, List.cons.injEq] at h
    have hp : encodePayload (codeIO E fuel) e u = encodePayload (codeIO E' fuel) e v := by
      cases u <;> cases v <;> simp only [ObuIn.forget, reduceCtorEq, false_and, ObuIn.sequence.injEq, ObuIn.frameHeader.injEq,
        ObuIn.metadata.injEq, ObuIn.padding.injEq, ObuIn.tileGroup.injEq, ObuIn.frame.injEq, Prod.mk.injEq] at h
      · rw [h.1]; rfl
      · rfl
      · rename_i p q
        have : (codeIO E fuel).load p e.w = (codeIO E' fuel).load q e.w := by
          show p.load e.w = q.load e.w
          simp only [CodeFrame.load, h.1.1]
        simp only [encodePayload, this]
      · rfl
      · rw [group_payload E fuel e _ hb, group_payload E' fuel e _ hb]
      · rw [h.1]; rfl
      · rfl
      · rw [h.1]; rfl
    have hk : u.kind = v.kind := by
      have := h.1
      cases u <;> cases v <;> simp only [ObuIn.forget, reduceCtorEq] at this <;> rfl
    simp only [stream, Option.bind_eq_bind, hp, hk]
    cases hx : encodePayload (codeIO E' fuel) e v with
    | none => rfl
    | some y =>
      simp only [Option.bind_some]
      cases encodeTemporalUnit v.kind (some y.1) w with
      | none => rfl
      | some w' =>
        have hv : v.kind ≠ .tileGroup := by
          intro hk
          cases v <;> simp only [ObuIn.kind] at hk <;> try cases hk
          rw [group_payload E' fuel e _ hb] at hx
          cases hx
        have := bounds_kept _ e y.2 v y.1 hv hx
        exact C137_blind E E' fuel us vs y.2 w' (by rw [this.1, this.2]; exact hb) h.2

/-- What a unit without frame or sequence header consists of. -/
def ObuIn.own {φ : Type} : ObuIn φ → Option Raw
  | .delimiter => some []
  | .redundant => some []
  | .frame _ => some []
  | .metadata m => encodeMetadata m
  | .padding n => encodePadding n
  | _ => none

/-- **C137**, what is left: delimiters, metadata, padding, redundant headers and (empty) frame units go through in any order and
number, from any state, each with its own elements. Missing: the picture. -/
theorem C137_others_partial {φ τ : Type} (io : FrameIO φ τ) : ∀ (us : List (ObuIn φ)) (e : EncState τ),
    (∀ u ∈ us, u.own.isSome = true) → ∃ e', payloads io e us = some (us.filterMap ObuIn.own, e') ∧
      (e' = e ∨ e' = { e with w := setSeen false e.w })
  | [], e, _ => ⟨e, rfl, Or.inl rfl⟩
  | u :: us, e, h => by
    obtain ⟨b, hb⟩ := Option.isSome_iff_exists.1 (h u List.mem_cons_self)
    have h1 : ∃ e1, encodePayload io e u = some (b, e1) ∧ (e1 = e ∨ e1 = { e with w := setSeen false e.w }) := by
      cases u <;> simp only [ObuIn.own, reduceCtorEq, Option.some.injEq] at hb
      · exact ⟨_, by rw [← hb]; rfl, Or.inr rfl⟩
      · exact ⟨_, by rw [← hb]; rfl, Or.inl rfl⟩
      · exact ⟨_, by simp only [encodePayload, hb, Option.bind_eq_bind, Option.bind_some], Or.inl rfl⟩
      · exact ⟨_, by rw [← hb]; rfl, Or.inl rfl⟩
      · exact ⟨_, by simp only [encodePayload, hb, Option.bind_eq_bind, Option.bind_some], Or.inl rfl⟩
    obtain ⟨e1, h1, h2⟩ := h1
    obtain ⟨e2, h3, h4⟩ := C137_others_partial io us e1 (fun v hv => h v (List.mem_cons_of_mem _ hv))
    refine ⟨e2, ?_, ?_⟩
    · simp only [payloads, h1, h3, Option.bind_eq_bind, Option.bind_some, List.filterMap_cons, hb]
    · rcases h2 with rfl | rfl
      · exact h4
      · rcases h4 with rfl | rfl <;> exact Or.inr rfl

/-- Such a run: a delimiter, light levels and three bytes of padding. -/
example : ∀ u ∈ ([.delimiter, .metadata (.hdrCll 1000 400), .padding 3] : List (ObuIn Unit)), u.own.isSome = true := by
  intro u hu
  simp only [List.mem_cons, List.not_mem_nil, or_false] at hu
  rcases hu with rfl | rfl | rfl <;> decide +kernel

/-! ## C138: a frame as it is made -/

/-- **C138**, full claim: the header of a new frame of any type and size can be written by a new encoder. -/
def C138_full : Prop := ∀ (t : FrameType) (width height : Nat), 0 < width → 0 < height → width ≤ 2 ^ 16 → height ≤ 2 ^ 16 →
  (frameHeaderBits (.new t width height)).isSome = true

/-- A frame on which a header of its own would be written. -/
def Opens (w : Whole) : Prop := w.c.seen = false ∧ (w.c.reduced = true ∨ w.c.showExisting = false)

/-- **C138** fails for every frame whose CDEF parameters are those of `Frame::new`, whatever else the caller sets: no strengths for the
lossless case, a damping of 0 for all others. -/
theorem C138_never (w : Whole) (h : Opens w) (hc : w.cdef = (Whole.new .key 0 0).cdef) : frameHeaderBits w = none := by
  have hcd : ∀ off, encodeCdef w.cdef off w.planes = none := by
    intro off
    rw [hc]
    cases off <;> simp [Whole.new, encodeCdef, usub]
  unfold frameHeaderBits
  have h2 : ¬ (!w.c.reduced && w.c.showExisting) = true := by
    rcases h.2 with h | h <;> simp [h]
  rw [if_neg (by simp [h.1])]
  simp only [if_neg h2, Option.bind_eq_bind, Option.bind_eq_none_iff]
  intro n _ b0 _ x _ b2 hb
  exfalso
  unfold backBits at hb
  simp only [hcd] at hb
  rw [cat_none (by simp)] at hb
  cases hb

/-- In a run from a state in which the next header opens a frame, with frames whose CDEF parameters are untouched: it goes through
only without frame headers and tile groups. -/
theorem C138_runs (E : CodeFrame π → Whole → HeaderLeft → TileEnc σ ω β) (fuel : Nat) :
    ∀ (us : List (ObuIn (CodeFrame π))) (e e' : EncState (σ × ω)) (bs : List Raw), e.tgStart ≤ e.tgEnd → e.w.c.seen = false →
      e.w.c.showExisting = false → (∀ p, ObuIn.frameHeader p ∈ us → p.g.cdef = (Whole.new .key 0 0).cdef) →
      payloads (codeIO E fuel) e us = some (bs, e') → ∀ u ∈ us, u.kind ≠ .tileGroup ∧ u.kind ≠ .frameHeader
  | [], _, _, _, _, _, _, _, _, u, hu => by cases hu
  | v :: us, e, e', bs, hb, hs, he, hc, h, u, hu => by
    have hg := C137_never E fuel (v :: us) e e' bs hb h
    simp only [payloads, Option.bind_eq_bind] at h
    obtain ⟨x, hx, h⟩ := Option.bind_eq_some_iff.1 h
    obtain ⟨y, hy, -⟩ := Option.bind_eq_some_iff.1 h
    have hv : v.kind ≠ .frameHeader := by
      intro hk
      cases v <;> simp only [ObuIn.kind] at hk <;> try cases hk
      rename_i p
      have : frameHeaderBits ((codeIO E fuel).load p e.w) = none := by
        refine C138_never _ ⟨?_, ?_⟩ (hc p List.mem_cons_self)
        · rw [(codeIO E fuel).load_c]; exact hs
        · rw [(codeIO E fuel).load_c]; exact Or.inr he
      simp only [encodePayload, this, Option.bind_eq_bind, Option.bind_none] at hx
      cases hx
    rcases List.mem_cons.1 hu with rfl | hu
    · exact ⟨hg _ hu, hv⟩
    · have hk := bounds_kept _ e x.2 v x.1 (hg v List.mem_cons_self) hx
      have hst : x.2.w.c.seen = false ∧ x.2.w.c.showExisting = false := by
        cases v with
        | tileGroup f => exact absurd rfl (hg _ List.mem_cons_self)
        | frameHeader f => exact absurd rfl hv
        | delimiter => simp only [encodePayload, Option.some.injEq] at hx; rw [← hx]; exact ⟨rfl, he⟩
        | redundant => simp only [encodePayload, Option.some.injEq] at hx; rw [← hx]; exact ⟨hs, he⟩
        | frame f => simp only [encodePayload, Option.some.injEq] at hx; rw [← hx]; exact ⟨hs, he⟩
        | sequence sh =>
          simp only [encodePayload, Option.bind_eq_bind] at hx
          obtain ⟨z, -, hx⟩ := Option.bind_eq_some_iff.1 hx
          simp only [Option.some.injEq] at hx
          rw [← hx]; exact ⟨hs, he⟩
        | metadata m =>
          simp only [encodePayload, Option.bind_eq_bind] at hx
          obtain ⟨z, -, hx⟩ := Option.bind_eq_some_iff.1 hx
          simp only [Option.some.injEq] at hx
          rw [← hx]; exact ⟨hs, he⟩
        | padding m =>
          simp only [encodePayload, Option.bind_eq_bind] at hx
          obtain ⟨z, -, hx⟩ := Option.bind_eq_some_iff.1 hx
          simp only [Option.some.injEq] at hx
          rw [← hx]; exact ⟨hs, he⟩
      exact C138_runs E fuel us x.2 y.2 y.1 (by rw [hk.1, hk.2]; exact hb) hst.1 hst.2
        (fun p hp => hc p (List.mem_cons_of_mem _ hp)) hy u hu

/-- **C138** is false. -/
theorem C138_negation : ¬ C138_full := by
  intro h
  have := h .key 176 144 (by decide) (by decide) (by decide) (by decide)
  rw [C138_never (Whole.new .key 176 144) ⟨rfl, Or.inr rfl⟩ rfl] at this
  cases this

theorem tileLimits_some (use128 : Bool) (c r : Nat) (h1 : c ≤ 2 ^ 30) (h2 : r ≤ 2 ^ 30) :
    ∃ x, tileLimits use128 c r = some x := by
  have hm : r * c ≤ 2 ^ 63 := by nlinarith
  unfold tileLimits
  cases use128 with
  | true =>
    obtain ⟨k1, e1, -⟩ := tileLog2_spec (4096 >>> (sbShift true + 2)) c (by decide) (by omega)
    obtain ⟨k2, e2, -⟩ := tileLog2_spec 1 (min c 64) (by decide) (by omega)
    obtain ⟨k3, e3, -⟩ := tileLog2_spec 1 (min r 64) (by decide) (by omega)
    obtain ⟨k4, e4, -⟩ := tileLog2_spec ((4096 * 2304) >>> (2 * (sbShift true + 2))) (r * c) (by decide) hm
    simp only [e1, e2, e3, e4, Option.bind_eq_bind, Option.bind_some]
    exact ⟨_, rfl⟩
  | false =>
    obtain ⟨k1, e1, -⟩ := tileLog2_spec (4096 >>> (sbShift false + 2)) c (by decide) (by omega)
    obtain ⟨k2, e2, -⟩ := tileLog2_spec 1 (min c 64) (by decide) (by omega)
    obtain ⟨k3, e3, -⟩ := tileLog2_spec 1 (min r 64) (by decide) (by omega)
    obtain ⟨k4, e4, -⟩ := tileLog2_spec ((4096 * 2304) >>> (2 * (sbShift false + 2))) (r * c) (by decide) hm
    simp only [e1, e2, e3, e4, Option.bind_eq_bind, Option.bind_some]
    exact ⟨_, rfl⟩

/-- A new intra-only frame: everything but CDEF goes through. -/
theorem intra_header (width height : Nat) (hw : 0 < width) (hh : 0 < height) (hw2 : width ≤ 2 ^ 16) (hh2 : height ≤ 2 ^ 16)
    (k : Cdef) : (frameHeaderBits { Whole.new .intraOnly width height with cdef := k }).isSome = (encodeCdef k true 3).isSome := by
  have hok : IntraOk { plainSeq with maxWidth := width, maxHeight := height } HCtx.new (HFrame.new .intraOnly width height) :=
    { intra := rfl
      agrees := by constructor <;> first | rfl | decide
      ok := by
        constructor
        · exact (by decide : (0 : Nat) < 8)
        · intro d hd; cases hd
        · intro h; exact absurd h (by decide)
        · intro h; exact absurd h (by decide)
        · exact (by decide : (0 : Nat) < 2)
        · exact (by decide : (0 : Nat) < 2)
        · exact (by decide : (0 : Nat) < 8)
        · decide
        · intro h; cases h
        · exact ⟨hw, hw2, hh, hh2⟩
      lists := HCtx.new_ok
      full := rfl
      noHints := ⟨rfl, rfl⟩
      noOverride := rfl
      width := rfl
      height := rfl
      ids := by decide }
  obtain ⟨n, b1, c', f', h1, h2, -, i1, i2, i3, i4, i5, i6, i7, i8, i9, i10, i11⟩ :=
    front_intra _ _ _ hok rfl (by intro d hd; cases hd) (by intro h; cases h) 0
  have hcw : (sizeOf HCtx.new (HFrame.new .intraOnly width height)).coded = width := by
    show (width * 8 + 8 / 2) / 8 = width
    omega
  have hlim : ∃ x, tileLimits true (sbCount true (miSize f'.width)) (sbCount true (miSize f'.height)) = some x := by
    refine tileLimits_some _ _ _ ?_ ?_
    · rw [i6]
      rw [hcw]
      simp only [sbCount, miSize, Nat.shiftRight_eq_div_pow, if_true]
      omega
    · rw [i7]
      show sbCount true (miSize height) ≤ _
      simp only [sbCount, miSize, Nat.shiftRight_eq_div_pow, if_true]
      omega
  obtain ⟨x, hx⟩ := hlim
  have hb : ∃ g : Raw → Raw, backBits { Whole.new .intraOnly width height with cdef := k } c' f' = (encodeCdef k true 3).map g := by
    obtain ⟨m, hm⟩ : ∃ m, modeBits { Whole.new .intraOnly width height with cdef := k } c' f' = some m := by
      unfold modeBits skipAllowed
      simp only [i1, Bool.true_or, if_true]
      exact ⟨_, rfl⟩
    have ht : encodeTileInfo { (Whole.new .intraOnly width height).tile with width := f'.width, height := f'.height } =
        some [0] := by
      have h0 : startsLog2 1 = some 0 := by decide
      unfold encodeTileInfo
      simp only [Whole.new] at hx ⊢
      simp only [hx, encodeTileTail, h0]
      rfl
    have hl : codedLossless (segAfter (Whole.new .intraOnly width height).seg true)
        (quantAfter (Whole.new .intraOnly width height).quant 3 false) 0
        (deltaQAfter (Whole.new .intraOnly width height).deltas 0).qPresent = true := by
      show codedLossless (segAfter (Whole.new .key 0 0).seg true) (quantAfter (Whole.new .key 0 0).quant 3 false) 0
        (deltaQAfter (Whole.new .key 0 0).deltas 0).qPresent = true
      decide +kernel
    have hgr : encodeGrain none ⟨c'.showFrame || c'.showable, decide (f'.type = .inter), false, true, List.replicate 8 Grain.new⟩ =
        some [0] := by
      rw [i2, i3, i10]
      show encodeGrain none ⟨true, false, false, true, List.replicate 8 Grain.new⟩ = some [0]
      decide +kernel
    have e2 : encodeSeg (Whole.new .key 0 0).seg true = some [0] := by decide +kernel
    have e3 : encodeQuant (Whole.new .key 0 0).quant 3 false = some (List.replicate 12 0) := by decide +kernel
    have e4 : encodeDeltaQParams (Whole.new .key 0 0).deltas 0 = some [] := by decide +kernel
    have e5 : encodeDeltaLfParams (deltaQAfter (Whole.new .key 0 0).deltas 0) false = some [] := by decide +kernel
    have e6 : encodeLoopFilter (Whole.new .key 0 0).lf true 3 = some [] := by decide +kernel
    have e7 : encodeLrParams (Whole.new .key 0 0).lr true 3 true true = some [] := by decide +kernel
    have e8 : encodeTxMode true true = some [] := by decide +kernel
    have e9 : encodeGlobalMotion (Whole.new .key 0 0).gm true false = some [] := by decide +kernel
    refine ⟨fun c => [0] ++ (List.replicate 12 0 ++ ([0] ++ ([] ++ ([] ++ ([] ++ (c ++ ([] ++ ([] ++ (m ++ ([] ++ ([0] ++ []))))))))))), ?_⟩
    unfold backBits
    have i5' : c'.upscaledWidth = width := i5
    simp only [i1, i8, i9, i11, i6, i5', hcw] at ht ⊢
    simp only [Whole.new] at hm ht hl hgr e2 e3 e4 e5 e6 e7 e8 e9 ⊢
    simp only [decide_true, hl, Bool.true_or, Bool.and_true]
    simp only [hm, ht, hgr, e2, e3, e4, e5, e6, e7, e8, e9]
    cases encodeCdef k true 3 <;> rfl
  obtain ⟨g, hg⟩ := hb
  have hf : frameHeaderBits { Whole.new .intraOnly width height with cdef := k } =
      (encodeCdef k true 3).map fun x => [0] ++ b1 ++ g x := by
    unfold frameHeaderBits
    simp only [Whole.new] at hg ⊢
    simp only [h1, h2, hg, Option.bind_eq_bind, Option.bind_some]
    cases encodeCdef k true 3 <;> rfl
  rw [hf, Option.isSome_map]

theorem inter_header (w : Whole) (hl : w.c.orderHints.length = 7) (h : Opens w) (hr : w.c.reduced = false)
    (ht : w.f.type = .inter ∨ w.f.type = .switch) : frameHeaderBits w = none := by
  have he : w.c.showExisting = false := by
    rcases h.2 with h | h
    · rw [hr] at h; cases h
    · exact h
  unfold frameHeaderBits
  rw [h.1, he]
  simp only [Bool.false_eq_true, if_false, Bool.and_false, Option.bind_eq_bind, C93_never w.c w.f hl hr ht, Option.bind_none,
    Option.bind_fun_none]

/-- **C138, partial.** Which new frames get a header when the caller gives them CDEF parameters: the intra-only ones, of any size, if
each of the four lists of strengths has an entry.  Missing: all other frames. -/
theorem C138_new_partial (t : FrameType) (width height : Nat) (hw : 0 < width) (hh : 0 < height) (hw2 : width ≤ 2 ^ 16)
    (hh2 : height ≤ 2 ^ 16) (k : Cdef) :
    (frameHeaderBits { Whole.new t width height with cdef := k }).isSome = true ↔
      t = .intraOnly ∧ k.yPri ≠ [] ∧ k.ySec ≠ [] ∧ k.uvPri ≠ [] ∧ k.uvSec ≠ [] := by
  cases t with
  | key =>
    rw [C94_first_frame_panics _ rfl rfl rfl rfl rfl]
    simp
  | inter =>
    rw [inter_header _ rfl ⟨rfl, Or.inr rfl⟩ rfl (Or.inl rfl)]
    simp
  | switch =>
    rw [inter_header _ rfl ⟨rfl, Or.inr rfl⟩ rfl (Or.inr rfl)]
    simp
  | intraOnly =>
    rw [intra_header width height hw hh hw2 hh2 k, encodeCdef, if_pos rfl]
    split
    · next h => simp only [Option.isSome_none, Bool.false_eq_true, true_and, false_iff]; tauto
    · next h => simp only [Option.isSome_some, true_and, true_iff]; tauto

/-- Both sides occur. -/
example : (frameHeaderBits { Whole.new .intraOnly 1920 1080 with cdef := ⟨0, 0, [0], [0], [0], [0]⟩ }).isSome = true ∧
    ¬ (frameHeaderBits { Whole.new .intraOnly 1920 1080 with cdef := ⟨3, 0, [0], [0], [0], []⟩ }).isSome = true :=
  ⟨(C138_new_partial .intraOnly 1920 1080 (by decide) (by decide) (by decide) (by decide) _).2 ⟨rfl, by simp, by simp, by simp, by simp⟩,
    fun h => ((C138_new_partial .intraOnly 1920 1080 (by decide) (by decide) (by decide) (by decide) _).1 h).2.2.2.2 rfl⟩

/-- A new encoder meets the hypotheses of `C138_runs`. -/
example (x : σ × ω) : (EncState.new x).tgStart ≤ (EncState.new x).tgEnd ∧ (EncState.new x).w.c.seen = false ∧
    (EncState.new x).w.c.showExisting = false := ⟨Nat.le_refl 0, rfl, rfl⟩

end Av1
