import Verif.Lemmas.FrameHeader

/-!
# Loop filter, CDEF and loop restoration parameters of a frame: C83–C85
-/

namespace Av1

/-! ## C83: loop filter parameters -/

/-- Loop filter parameters a caller may set. -/
structure LoopFilter.Ok (l : LoopFilter) : Prop where
  levels : l.level.length = 4
  level : ∀ v ∈ l.level, v < 64
  sharpness : l.sharpness < 8
  updateRefs : l.updateRef.length = 8
  refs : l.refDeltas.length = 8
  ref : ∀ d ∈ l.refDeltas, -64 ≤ d ∧ d < 64
  updateModes : l.updateMode.length = 2
  modes : l.modeDeltas.length = 2
  mode : ∀ d ∈ l.modeDeltas, d < 64

/-- The deltas that are to be updated. -/
def updated {α : Type} (upd : List Bool) (d : List α) (f : α → Int) : List (Option Int) :=
  (upd.zip d).map fun x => if x.1 then some (f x.2) else none

/-- The parameters in the decoder's terms. -/
def LoopFilter.view (l : LoopFilter) (planes : Nat) : Hdr.LoopFilter :=
  ⟨l.level.getD 0 0, l.level.getD 1 0,
    if planes > 1 ∧ (l.level.getD 0 0 > 0 ∨ l.level.getD 1 0 > 0) then some (l.level.getD 2 0, l.level.getD 3 0) else none,
    l.sharpness,
    if l.deltaEnabled then
      some (if l.deltaUpdate then
        some (updated l.updateRef l.refDeltas id, updated l.updateMode l.modeDeltas (fun d => (d : Int)))
      else none)
    else none⟩

/-- What a user relies on: a decoder reads the parameters that were set. -/
def C83_full : Prop := ∀ (l : LoopFilter) (lossless intrabc : Bool) (planes : Nat), l.Ok →
  Writes (encodeLoopFilter l (lossless || intrabc) planes) (Hdr.loopFilterParams lossless intrabc planes)
    (if lossless || intrabc then none else some (l.view planes))

theorem writes_level (l : LoopFilter) (h : l.Ok) (i : Nat) (hi : i < 4) :
    Writes (pushLevel l i) (P.f 6) (l.level.getD i 0) := by
  have hlt : i < l.level.length := by rw [h.levels]; exact hi
  have e : pushLevel l i = pushN l.level[i] 6 := by
    simp only [pushLevel, List.getElem?_eq_getElem hlt]; rfl
  rw [e, List.getD_eq_getElem?_getD, List.getElem?_eq_getElem hlt]
  exact writes_f 6 _ (by decide) (h.level _ (List.getElem_mem hlt))

theorem writes_chroma (l : LoopFilter) (h : l.Ok) (c : Prop) [Decidable c] :
    Writes (if c then cat [pushLevel l 2, pushLevel l 3] else cat []) (P.opt (decide c) do
      let u ← P.f 6
      let v ← P.f 6
      pure (u, v)) (if c then some (l.level.getD 2 0, l.level.getD 3 0) else none) := by
  by_cases hcc : c
  · simp only [if_pos hcc, hcc, decide_true, P.opt, if_true]
    exact Writes.map some (Writes.cons (writes_level l h 2 (by decide))
      (Writes.map (fun v => (l.level.getD 2 0, v)) (Writes.last (writes_level l h 3 (by decide)))))
  · simp only [if_neg hcc, hcc, decide_false, P.opt]
    exact Writes.pure none

/-- A loop with an index. -/
theorem writes_manyIdx {β : Type} (enc : Nat → Option Raw) (p : P β) (v : Nat → β) : ∀ (n s : Nat),
    (∀ i, s ≤ i → i < s + n → Writes (enc i) p (v i)) →
    Writes (cat ((List.range' s n).map enc)) (P.many n p) ((List.range' s n).map v)
  | 0, _, _ => Writes.pure []
  | n + 1, s, h => by
    have ih := writes_manyIdx enc p v n (s + 1) (fun i h1 h2 => h i (by omega) (by omega))
    rw [List.range'_succ]
    exact Writes.cons (h s (by omega) (by omega)) (Writes.map (v s :: ·) ih)

theorem writes_flagged' {α : Type} {x : Option Raw} {p : P α} (b : Bool) (v : α) (h : b = true → Writes x p v) :
    Writes (cat [pushB b, if b then x else cat []]) (P.flagged p) (if b then some v else none) := by
  cases b with
  | true => exact Writes.cons (writes_flag true) (Writes.last (Writes.map some (h rfl)))
  | false => exact Writes.cons (writes_flag false) (Writes.last (Writes.pure none))

theorem writes_flaggedSu (u : Bool) (d : Int) (h : -64 ≤ d ∧ d < 64) :
    Writes (cat [pushB u, if u then pushSu d 7 else cat []]) (P.flagged (P.su 7)) (if u then some d else none) :=
  writes_flagged' u d fun _ => writes_su d 7 (by decide) (by decide) (by norm_num; omega) (by norm_num; omega)

theorem updated_eq {α : Type} (upd : List Bool) (d : List α) (f : α → Int) (n : Nat) (hu : upd.length = n)
    (hd : d.length = n) (v : Nat → Option Int)
    (hv : ∀ i (h1 : i < upd.length) (h2 : i < d.length), v i = if upd[i] then some (f d[i]) else none) :
    (List.range' 0 n).map v = updated upd d f := by
  apply List.ext_getElem
  · simp [updated, hu, hd]
  · intro i h1 h2
    simp only [List.length_map, List.length_range'] at h1
    simp only [List.getElem_map, List.getElem_range', updated, List.getElem_zip, Nat.zero_add, Nat.one_mul]
    rw [hv i (by omega) (by omega)]

/-- **C83, partial.** The parameters are read back if each of the two mode deltas is updated exactly if the reference
delta of the same index is. Missing: the other cases, where the code tests the flag of the reference delta
(`C83_mode_wrong`). -/
theorem C83_loop_filter_partial (l : LoopFilter) (lossless intrabc : Bool) (planes : Nat) (h : l.Ok)
    (hm : l.deltaEnabled = true → l.deltaUpdate = true → ∀ i < 2, l.updateMode[i]? = l.updateRef[i]?) :
    Writes (encodeLoopFilter l (lossless || intrabc) planes) (Hdr.loopFilterParams lossless intrabc planes)
      (if lossless || intrabc then none else some (l.view planes)) := by
  unfold encodeLoopFilter Hdr.loopFilterParams
  cases hoff : lossless || intrabc with
  | true => exact Writes.pure none
  | false =>
    simp only [Bool.false_eq_true, if_false, Bool.not_false, P.opt, if_true]
    refine Writes.map some ?_
    unfold Hdr.loopFilter LoopFilter.view
    refine Writes.cons (writes_level l h 0 (by decide)) (Writes.cons (writes_level l h 1 (by decide)) ?_)
    refine Writes.cons (writes_chroma l h _) (Writes.cons (writes_f 3 _ (by decide) h.sharpness) ?_)
    refine Writes.map _ (Writes.last ?_)
    unfold encodeLfDeltas
    refine writes_flagged' _ _ fun hen => writes_flagged' _ _ fun hup => ?_
    have hrefs := writes_manyIdx (encodeRefDelta l) (P.flagged (P.su 7))
      (fun i => if l.updateRef.getD i false then some (l.refDeltas.getD i 0) else none) 8 0 (by
        intro i _ hi
        have h1 : i < l.updateRef.length := by rw [h.updateRefs]; omega
        have h2 : i < l.refDeltas.length := by rw [h.refs]; omega
        have e : encodeRefDelta l i = cat [pushB l.updateRef[i], if l.updateRef[i] then pushSu l.refDeltas[i] 7 else cat []] := by
          simp only [encodeRefDelta, List.getElem?_eq_getElem h1, List.getElem?_eq_getElem h2]; rfl
        rw [e, List.getD_eq_getElem?_getD, List.getElem?_eq_getElem h1, List.getD_eq_getElem?_getD,
          List.getElem?_eq_getElem h2]
        exact writes_flaggedSu _ _ (h.ref _ (List.getElem_mem h2)))
    have hmodes := writes_manyIdx (encodeModeDelta l) (P.flagged (P.su 7))
      (fun i => if l.updateMode.getD i false then some (l.modeDeltas.getD i 0 : Int) else none) 2 0 (by
        intro i _ hi
        have h1 : i < l.updateMode.length := by rw [h.updateModes]; omega
        have h2 : i < l.modeDeltas.length := by rw [h.modes]; omega
        have h3 := hm hen hup i (by omega)
        have e : encodeModeDelta l i = cat [pushB l.updateMode[i], if l.updateMode[i] then pushSu (l.modeDeltas[i] : Int) 7 else cat []] := by
          simp only [encodeModeDelta, ← h3, List.getElem?_eq_getElem h1, List.getElem?_eq_getElem h2]; rfl
        rw [e, List.getD_eq_getElem?_getD, List.getElem?_eq_getElem h1, List.getD_eq_getElem?_getD,
          List.getElem?_eq_getElem h2]
        have := h.mode _ (List.getElem_mem h2)
        exact writes_flaggedSu _ _ (by omega))
    rw [updated_eq l.updateRef l.refDeltas id 8 h.updateRefs h.refs _ (by
      intro i h1 h2
      rw [List.getD_eq_getElem?_getD, List.getElem?_eq_getElem h1, List.getD_eq_getElem?_getD,
        List.getElem?_eq_getElem h2]; rfl), ← List.range_eq_range'] at hrefs
    rw [updated_eq l.updateMode l.modeDeltas (fun d => (d : Int)) 2 h.updateModes h.modes _ (by
      intro i h1 h2
      rw [List.getD_eq_getElem?_getD, List.getElem?_eq_getElem h1, List.getD_eq_getElem?_getD,
        List.getElem?_eq_getElem h2]; rfl), ← List.range_eq_range'] at hmodes
    exact Writes.cons hrefs (Writes.map (fun m => (_, m)) (Writes.last hmodes))

def lfSample : LoopFilter :=
  ⟨[10, 63, 7, 0], 5, true, true, [true, false, true, false, true, false, true, false], [1, 0, -64, 0, 63, 0, -1, -1],
    [true, false], [63, 0]⟩

theorem lfSample_ok : lfSample.Ok := by constructor <;> decide

example : ∀ i < 2, lfSample.updateMode[i]? = lfSample.updateRef[i]? := by decide

/-- Mode deltas updated alone: their flags are written, their values are not, and the decoder cannot read the section. -/
theorem C83_mode_wrong (l : LoopFilter) (planes : Nat) (h : l.Ok) (he : l.deltaEnabled = true) (hu : l.deltaUpdate = true)
    (hr : l.updateRef = List.replicate 8 false) (hm : l.updateMode = [true, true]) (v : Option Hdr.LoopFilter) :
    ¬ Writes (encodeLoopFilter l false planes) (Hdr.loopFilterParams false false planes) v := by
  rintro ⟨e, hw, hread⟩
  have hlow : encodeLfDeltas l = some (raw ([true, true] ++ List.replicate 8 false ++ [true, true])) := by
    have e1 : ∀ i < 8, encodeRefDelta l i = some [0] := by
      intro i hi
      simp only [encodeRefDelta, hr, List.getElem?_replicate, if_pos hi]; rfl
    have e2 : ∀ i < 2, encodeModeDelta l i = some [1] := by
      intro i hi
      simp only [encodeModeDelta, hr, hm, List.getElem?_replicate, if_pos (show i < 8 by omega)]
      have : i = 0 ∨ i = 1 := by omega
      rcases this with rfl | rfl <;> rfl
    have e3 : (List.range 8).map (encodeRefDelta l) = (List.range 8).map fun _ => some [0] :=
      List.map_congr_left fun i hi => e1 i (List.mem_range.1 hi)
    have e4 : (List.range 2).map (encodeModeDelta l) = (List.range 2).map fun _ => some [1] :=
      List.map_congr_left fun i hi => e2 i (List.mem_range.1 hi)
    unfold encodeLfDeltas
    rw [he, hu, e3, e4]
    decide
  have h0 := writes_level l h 0 (by decide)
  have h1 := writes_level l h 1 (by decide)
  have hchroma := writes_chroma l h (planes > 1 ∧ (l.level.getD 0 0 > 0 ∨ l.level.getD 1 0 > 0))
  have hs := writes_f 3 l.sharpness (by decide) h.sharpness
  obtain ⟨b0, w0, r0⟩ := h0
  obtain ⟨b1, w1, r1⟩ := h1
  obtain ⟨b2, w2, r2⟩ := hchroma
  obtain ⟨b3, w3, r3⟩ := hs
  have hwe : encodeLoopFilter l false planes =
      some (raw (b0 ++ (b1 ++ (b2 ++ (b3 ++ ([true, true] ++ List.replicate 8 false ++ [true, true])))))) := by
    unfold encodeLoopFilter
    simp only [Bool.false_eq_true, if_false]
    rw [w0, w1, w2, w3, hlow]
    simp only [cat_cons, cat_nil, Option.bind_some, raw_append, List.append_nil]
  rw [hwe] at hw
  obtain rfl := raw_inj (Option.some.inj hw)
  have := hread []
  rw [List.append_nil] at this
  have hdel : (P.flagged (P.flagged (do
      let r ← P.many 8 (P.flagged (P.su 7))
      let m ← P.many 2 (P.flagged (P.su 7))
      pure (r, m)))) ([true, true] ++ List.replicate 8 false ++ [true, true]) = none := by decide +kernel
  have hnone : Hdr.loopFilter planes
      (b0 ++ (b1 ++ (b2 ++ (b3 ++ ([true, true] ++ List.replicate 8 false ++ [true, true]))))) = none := by
    unfold Hdr.loopFilter
    rw [r0.step, r1.step, r2.step, r3.step]
    exact bind_fails hdel
  have h5 : Hdr.loopFilterParams false false planes
      (b0 ++ (b1 ++ (b2 ++ (b3 ++ ([true, true] ++ List.replicate 8 false ++ [true, true]))))) = none := by
    unfold Hdr.loopFilterParams P.opt
    show (Hdr.loopFilter planes _ >>= _) = none
    rw [hnone]; rfl
  rw [h5] at this
  cases this

theorem C83_negation : ¬ C83_full := by
  intro h
  have hok : (⟨[1, 1, 1, 1], 0, true, true, List.replicate 8 false, List.replicate 8 0, [true, true], [5, 9]⟩ : LoopFilter).Ok := by
    constructor <;> decide
  exact C83_mode_wrong _ 1 hok rfl rfl rfl rfl _ (h _ false false 1 hok)

/-! ### Exactly when -/

/-- The bits of the two mode deltas as the code writes them: flags `m`, deltas where the reference flags `r` are set. -/
def lfModeBits (m0 m1 r0 r1 : Bool) (d0 d1 : Nat) : Bits :=
  m0 :: ((if r0 then toBits 7 d0 else []) ++ m1 :: if r1 then toBits 7 d1 else [])

/-- The decoder fails, leaves bits, or takes the second delta for one that is not updated. -/
def modesBad (m0 m1 r0 r1 : Bool) (d0 d1 : Nat) : Bool :=
  match P.many 2 (P.flagged (P.su 7)) (lfModeBits m0 m1 r0 r1 d0 d1) with
  | none => true
  | some (v, rest) => rest ≠ [] || (m1 && v[1]? == some none)

theorem modesBad_all : ∀ m0 m1 r0 r1 : Bool, (m0 = r0 ∧ m1 = r1) ∨ (m0 = true ∧ m1 = false ∧ r0 = false ∧ r1 = true) ∨
    ((if r0 then List.range 64 else [0]).all fun d0 => (if r1 then List.range 64 else [0]).all fun d1 =>
      modesBad m0 m1 r0 r1 d0 d1) = true := by decide +kernel

theorem modes_shifted : ∀ d1 < 64, P.many 2 (P.flagged (P.su 7)) (lfModeBits true false false true 0 d1) =
    if d1 % 2 = 0 then some ([some ((d1 / 2 : Nat) : Int), none], []) else none := by decide +kernel

theorem modes_iff (m0 m1 r0 r1 : Bool) (d0 d1 : Nat) (h0 : d0 < 64) (h1 : d1 < 64)
    (h : P.many 2 (P.flagged (P.su 7)) (lfModeBits m0 m1 r0 r1 d0 d1) =
      some ([if m0 then some (d0 : Int) else none, if m1 then some (d1 : Int) else none], [])) :
    (m0 = r0 ∧ m1 = r1) ∨ (m0 = true ∧ m1 = false ∧ r0 = false ∧ r1 = true ∧ d1 = 2 * d0) := by
  rcases modesBad_all m0 m1 r0 r1 with g | ⟨rfl, rfl, rfl, rfl⟩ | g
  · exact .inl g
  · right
    have e : lfModeBits true false false true d0 d1 = lfModeBits true false false true 0 d1 := rfl
    rw [e, modes_shifted d1 h1] at h
    split at h
    · simp only [Option.some.injEq, Prod.mk.injEq, List.cons.injEq, if_true, and_true] at h
      have := h.1
      refine ⟨rfl, rfl, rfl, rfl, ?_⟩
      omega
    · cases h
  · exfalso
    have e : lfModeBits m0 m1 r0 r1 d0 d1 = lfModeBits m0 m1 r0 r1 (if r0 then d0 else 0) (if r1 then d1 else 0) := by
      cases r0 <;> cases r1 <;> rfl
    have hx := List.all_eq_true.1 (List.all_eq_true.1 g (if r0 then d0 else 0) (by cases r0 <;> simp [h0]))
      (if r1 then d1 else 0) (by cases r1 <;> simp [h1])
    unfold modesBad at hx
    rw [← e, h] at hx
    cases m1 <;> simp at hx

/-- The mode deltas as written. -/
theorem encodeModes_bits (l : LoopFilter) (h : l.Ok) {m0 m1 r0 r1 : Bool} {d0 d1 : Nat} (hm : l.updateMode = [m0, m1])
    (hd : l.modeDeltas = [d0, d1]) (hr0 : l.updateRef[0]? = some r0) (hr1 : l.updateRef[1]? = some r1) :
    cat ((List.range 2).map (encodeModeDelta l)) = some (raw (lfModeBits m0 m1 r0 r1 d0 d1)) := by
  have hd0 : d0 < 64 := h.mode _ (by rw [hd]; simp)
  have hd1 : d1 < 64 := h.mode _ (by rw [hd]; simp)
  have hsu : ∀ d < 64, pushSu ((d : Nat) : Int) 7 = some (raw (toBits 7 d)) := by decide +kernel
  have e0 : encodeModeDelta l 0 = some (raw (m0 :: if r0 then toBits 7 d0 else [])) := by
    simp only [encodeModeDelta, hm, hd, hr0, List.getElem?_cons_zero, Option.bind_eq_bind, Option.bind_some, hsu d0 hd0]
    cases m0 <;> cases r0 <;> simp [cat_cons, cat_nil, pushB, raw]
  have e1 : encodeModeDelta l 1 = some (raw (m1 :: if r1 then toBits 7 d1 else [])) := by
    simp only [encodeModeDelta, hm, hd, hr1, List.getElem?_cons_succ, List.getElem?_cons_zero, Option.bind_eq_bind,
      Option.bind_some, hsu d1 hd1]
    cases m1 <;> cases r1 <;> simp [cat_cons, cat_nil, pushB, raw]
  have er : List.range 2 = [0, 1] := rfl
  rw [er]
  simp only [List.map_cons, List.map_nil, e0, e1, cat_cons, cat_nil, Option.bind_some, lfModeBits]
  simp [raw_append, raw]

theorem reads_modes (m0 m1 : Bool) {d0 d1 : Nat} (h0 : d0 < 64) (h1 : d1 < 64) :
    Reads (P.many 2 (P.flagged (P.su 7))) (lfModeBits m0 m1 m0 m1 d0 d1)
      [if m0 then some (d0 : Int) else none, if m1 then some (d1 : Int) else none] := by
  have hsu : ∀ d < 64, pushSu ((d : Nat) : Int) 7 = some (raw (toBits 7 d)) := by decide +kernel
  have one : ∀ (m : Bool) (d : Nat), d < 64 →
      Reads (P.flagged (P.su 7)) (m :: if m then toBits 7 d else []) (if m then some (d : Int) else none) := by
    intro m d hd
    obtain ⟨e, he, re⟩ := writes_flaggedSu m d (by omega)
    have : e = (m :: if m then toBits 7 d else []) := by
      apply raw_inj
      rw [hsu d hd] at he
      apply Option.some.inj
      rw [← he]
      cases m <;> simp [cat_cons, cat_nil, pushB, raw]
    rw [← this]; exact re
  have e : lfModeBits m0 m1 m0 m1 d0 d1 =
      (m0 :: if m0 then toBits 7 d0 else []) ++ ((m1 :: if m1 then toBits 7 d1 else []) ++ ([] ++ [])) := by
    simp [lfModeBits]
  rw [e]
  have inner : Reads (P.many 1 (P.flagged (P.su 7))) ((m1 :: if m1 then toBits 7 d1 else []) ++ ([] ++ []))
      [if m1 then some (d1 : Int) else none] :=
    Reads.bind (g := fun x => P.many 0 (P.flagged (P.su 7)) >>= fun xs => pure (x :: xs)) (one m1 d1 h1)
      (Reads.bind (g := fun xs => pure ((if m1 then some (d1 : Int) else none) :: xs)) (Reads.pure []) (Reads.pure _))
  have := Reads.bind (g := fun x => P.many 1 (P.flagged (P.su 7)) >>= fun xs => pure (x :: xs)) (one m0 d0 h0)
    (Reads.bind (g := fun xs => pure ((if m0 then some (d0 : Int) else none) :: xs)) inner (Reads.pure _))
  rw [List.append_nil] at this
  exact this

theorem writes_cons_iff {α β : Type} {x : Option Raw} {xs : List (Option Raw)} {p : P α} {g : α → P β} {v : α} {w : β}
    (h1 : Writes x p v) : Writes (cat (x :: xs)) (p >>= g) w ↔ Writes (cat xs) (g v) w := by
  refine ⟨?_, Writes.cons h1⟩
  rintro ⟨e, he, re⟩
  obtain ⟨a, rfl, ra⟩ := h1
  rw [cat_cons, Option.bind_some] at he
  cases hb : cat xs with
  | none => rw [hb] at he; cases he
  | some b =>
    rw [hb, Option.bind_some, Option.some.injEq] at he
    have hsplit : e = e.take a.length ++ e.drop a.length := (List.take_append_drop _ _).symm
    have hla : a.length ≤ e.length := by
      have := congrArg List.length he
      simp [raw] at this
      omega
    rw [hsplit, raw_append] at he
    obtain ⟨h1, h2⟩ := List.append_inj he (by simp [raw, hla])
    have ha := raw_inj h1
    refine ⟨e.drop a.length, by rw [h2], fun rest => ?_⟩
    have := re rest
    rw [hsplit, ← ha, List.append_assoc, ra.step] at this
    exact this

theorem writes_map_iff {α β : Type} {x : Option Raw} {p : P α} {v : α} {g : α → β} (hg : ∀ a b, g a = g b → a = b) :
    Writes x (do let a ← p; Pure.pure (g a)) (g v) ↔ Writes x p v := by
  refine ⟨?_, Writes.map g⟩
  rintro ⟨e, he, re⟩
  refine ⟨e, he, fun rest => ?_⟩
  have : (p (e ++ rest)).bind (fun y => some (g y.1, y.2)) = some (g v, rest) := re rest
  cases hp : p (e ++ rest) with
  | none => rw [hp] at this; cases this
  | some y =>
    rw [hp] at this
    simp only [Option.bind_some, Option.some.injEq, Prod.mk.injEq] at this
    rw [← hg _ _ this.1, ← this.2]

theorem writes_flagged_iff {α : Type} {x : Option Raw} {p : P α} (b : Bool) (v : α) :
    Writes (cat [pushB b, if b then x else cat []]) (P.flagged p) (if b then some v else none) ↔ (b = true → Writes x p v) := by
  refine ⟨?_, fun h => writes_flagged' b v h⟩
  rintro h rfl
  have h2 := (writes_cons_iff (writes_flag true)).1 h
  rw [cat_single] at h2
  exact (writes_map_iff (g := some) (fun a b h => Option.some.inj h)).1 h2

/-- **C83**, exactly: the parameters are read back if the flags agree, and in one odd case in which the code writes the second
delta where the first is read and they happen to fit. -/
theorem C83_iff (l : LoopFilter) (planes : Nat) (h : l.Ok) :
    Writes (encodeLoopFilter l false planes) (Hdr.loopFilterParams false false planes) (some (l.view planes)) ↔
      (l.deltaEnabled = true → l.deltaUpdate = true → (∀ i < 2, l.updateMode[i]? = l.updateRef[i]?) ∨
        (l.updateMode = [true, false] ∧ l.updateRef.take 2 = [false, true] ∧
          l.modeDeltas.getD 1 0 = 2 * l.modeDeltas.getD 0 0)) := by
  obtain ⟨m0, m1, hm⟩ : ∃ a b, l.updateMode = [a, b] := by
    have := h.updateModes
    match hx : l.updateMode with
    | [a, b] => exact ⟨a, b, rfl⟩
    | [] | [_] | _ :: _ :: _ :: _ => rw [hx] at this; simp at this
  obtain ⟨d0, d1, hd⟩ : ∃ a b, l.modeDeltas = [a, b] := by
    have := h.modes
    match hx : l.modeDeltas with
    | [a, b] => exact ⟨a, b, rfl⟩
    | [] | [_] | _ :: _ :: _ :: _ => rw [hx] at this; simp at this
  obtain ⟨r0, r1, rr, hr⟩ : ∃ a b r, l.updateRef = a :: b :: r := by
    have := h.updateRefs
    match hx : l.updateRef with
    | a :: b :: r => exact ⟨a, b, r, rfl⟩
    | [] | [_] => rw [hx] at this; simp at this
  have hd0 : d0 < 64 := h.mode _ (by rw [hd]; simp)
  have hd1 : d1 < 64 := h.mode _ (by rw [hd]; simp)
  have hrefs := writes_manyIdx (encodeRefDelta l) (P.flagged (P.su 7))
    (fun i => if l.updateRef.getD i false then some (l.refDeltas.getD i 0) else none) 8 0 (by
      intro i _ hi
      have h1 : i < l.updateRef.length := by rw [h.updateRefs]; omega
      have h2 : i < l.refDeltas.length := by rw [h.refs]; omega
      have e : encodeRefDelta l i = cat [pushB l.updateRef[i], if l.updateRef[i] then pushSu l.refDeltas[i] 7 else cat []] := by
        simp only [encodeRefDelta, List.getElem?_eq_getElem h1, List.getElem?_eq_getElem h2]; rfl
      rw [e, List.getD_eq_getElem?_getD, List.getElem?_eq_getElem h1, List.getD_eq_getElem?_getD,
        List.getElem?_eq_getElem h2]
      exact writes_flaggedSu _ _ (h.ref _ (List.getElem_mem h2)))
  rw [updated_eq l.updateRef l.refDeltas id 8 h.updateRefs h.refs _ (by
    intro i h1 h2
    rw [List.getD_eq_getElem?_getD, List.getElem?_eq_getElem h1, List.getD_eq_getElem?_getD,
      List.getElem?_eq_getElem h2]; rfl), ← List.range_eq_range'] at hrefs
  have hmodes : Writes (cat ((List.range 2).map (encodeModeDelta l))) (P.many 2 (P.flagged (P.su 7)))
      (updated l.updateMode l.modeDeltas fun d => (d : Int)) ↔
      (m0 = r0 ∧ m1 = r1) ∨ (m0 = true ∧ m1 = false ∧ r0 = false ∧ r1 = true ∧ d1 = 2 * d0) := by
    have hu : updated l.updateMode l.modeDeltas (fun d => (d : Int)) =
        [if m0 then some (d0 : Int) else none, if m1 then some (d1 : Int) else none] := by rw [hm, hd]; rfl
    have hb := encodeModes_bits l h hm hd (r0 := r0) (r1 := r1) (by rw [hr]; rfl) (by rw [hr]; rfl)
    rw [hu, hb]
    constructor
    · rintro ⟨e, he, re⟩
      obtain rfl := raw_inj (Option.some.inj he)
      have := re []
      rw [List.append_nil] at this
      exact modes_iff m0 m1 r0 r1 d0 d1 hd0 hd1 this
    · rintro (⟨rfl, rfl⟩ | ⟨rfl, rfl, rfl, rfl, rfl⟩)
      · exact ⟨_, rfl, reads_modes m0 m1 hd0 hd1⟩
      · have e : ∀ d < 32, lfModeBits true false false true 0 (2 * d) = lfModeBits true false true false d 0 := by decide +kernel
        refine ⟨_, rfl, ?_⟩
        have := reads_modes true false hd0 (d1 := 0) (by decide)
        rw [← e d0 (by omega)] at this
        exact this
  unfold encodeLoopFilter Hdr.loopFilterParams
  simp only [Bool.false_eq_true, if_false, Bool.or_self, Bool.not_false, P.opt, if_true]
  rw [writes_map_iff (g := some) (fun a b h => Option.some.inj h)]
  unfold Hdr.loopFilter LoopFilter.view
  rw [writes_cons_iff (writes_level l h 0 (by decide)), writes_cons_iff (writes_level l h 1 (by decide)),
    writes_cons_iff (writes_chroma l h _), writes_cons_iff (writes_f 3 _ (by decide) h.sharpness), writes_map_iff,
    cat_single]
  · unfold encodeLfDeltas
    rw [writes_flagged_iff]
    refine forall_congr' fun hen => ?_
    rw [writes_flagged_iff]
    refine forall_congr' fun hup => ?_
    rw [writes_cons_iff hrefs, writes_map_iff (fun a b h => (Prod.mk.inj h).2), cat_single, hmodes]
    have e1 : (∀ i < 2, l.updateMode[i]? = l.updateRef[i]?) ↔ m0 = r0 ∧ m1 = r1 := by
      rw [hm, hr]
      constructor
      · intro g
        have g0 := g 0 (by decide)
        have g1 := g 1 (by decide)
        simp at g0 g1
        exact ⟨g0, g1⟩
      · rintro ⟨rfl, rfl⟩ i hi
        have : i = 0 ∨ i = 1 := by omega
        rcases this with rfl | rfl <;> rfl
    rw [e1, hm, hr, hd]
    simp [and_assoc]
  · intro a b h
    simp only [Hdr.LoopFilter.mk.injEq] at h
    exact h.2.2.2.2

/-- The odd case. -/
def lfOdd : LoopFilter :=
  ⟨[1, 1, 0, 0], 0, true, true, [false, true, false, false, false, false, false, false], List.replicate 8 0,
    [true, false], [5, 10]⟩

example : lfOdd.Ok ∧ lfOdd.updateMode = [true, false] ∧ lfOdd.updateRef.take 2 = [false, true] ∧
    lfOdd.modeDeltas.getD 1 0 = 2 * lfOdd.modeDeltas.getD 0 0 := ⟨by constructor <;> decide, rfl, rfl, rfl⟩


/-! ## C84: CDEF parameters -/

/-- CDEF parameters a caller may set: secondary strengths as they are coded. -/
structure Cdef.Ok (c : Cdef) : Prop where
  damping : 3 ≤ c.damping ∧ c.damping ≤ 6
  bits : c.bits ≤ 3
  yPris : c.yPri.length = 2 ^ c.bits
  ySecs : c.ySec.length = 2 ^ c.bits
  uvPris : c.uvPri.length = 2 ^ c.bits
  uvSecs : c.uvSec.length = 2 ^ c.bits
  yPri : ∀ v ∈ c.yPri, v < 16
  ySec : ∀ v ∈ c.ySec, v < 4
  uvPri : ∀ v ∈ c.uvPri, v < 16
  uvSec : ∀ v ∈ c.uvSec, v < 4

/-- Strengths a decoder applies, from a context's parameters. -/
def Cdef.applied (c : Cdef) (planes : Nat) : Nat × List ((Nat × Nat) × Option (Nat × Nat)) :=
  (c.damping, (List.range (2 ^ c.bits)).map fun i => ((c.yPri.getD i 0, c.ySec.getD i 0),
    if planes > 1 then some (c.uvPri.getD i 0, c.uvSec.getD i 0) else none))

/-- What a user relies on: a decoder reads the strengths the encoder holds after the header. -/
def C84_full : Prop := ∀ (c : Cdef) (lossless intrabc enable : Bool) (planes : Nat), c.Ok →
  Writes (encodeCdef c (lossless || intrabc) planes) (Hdr.cdefParams lossless intrabc enable planes)
    (if lossless || intrabc || !enable then none
     else some ((cdefAfter c (lossless || intrabc) planes).applied planes))

theorem writes_at (l : List Nat) (i n : Nat) (hn : n ≤ 32) (hi : i < l.length) (h : ∀ v ∈ l, v < 2 ^ n) :
    Writes (pushAt l i n) (P.f n) (l.getD i 0) := by
  have e : pushAt l i n = pushN l[i] n := by simp only [pushAt, List.getElem?_eq_getElem hi]; rfl
  rw [e, List.getD_eq_getElem?_getD, List.getElem?_eq_getElem hi]
  exact writes_f n _ hn (h _ (List.getElem_mem hi))

theorem bumpSec_getD (n i : Nat) (l : List Nat) (hi : i < n) (hl : i < l.length) :
    (bumpSec n l).getD i 0 = if l.getD i 0 = 3 then 4 else l.getD i 0 := by
  rw [List.getD_eq_getElem?_getD, List.getD_eq_getElem?_getD, bumpSec, List.getElem?_mapIdx,
    List.getElem?_eq_getElem hl]
  simp [hi]

/-- **C84, partial.** Right if CDEF is enabled, or not coded anyway. Missing: `C84_disabled_never`. -/
theorem C84_cdef_partial (c : Cdef) (lossless intrabc enable : Bool) (planes : Nat) (h : c.Ok)
    (he : enable = true ∨ (lossless || intrabc) = true) :
    Writes (encodeCdef c (lossless || intrabc) planes) (Hdr.cdefParams lossless intrabc enable planes)
      (if lossless || intrabc || !enable then none
       else some ((cdefAfter c (lossless || intrabc) planes).applied planes)) := by
  have hp : 0 < 2 ^ c.bits := by positivity
  unfold encodeCdef Hdr.cdefParams
  cases hoff : lossless || intrabc with
  | true =>
    have hne : ∀ l : List Nat, l.length = 2 ^ c.bits → l ≠ [] := by
      rintro l hl rfl; simp at hl; omega
    rw [if_pos rfl, if_neg (by
      have := hne _ h.yPris; have := hne _ h.ySecs; have := hne _ h.uvPris; have := hne _ h.uvSecs; tauto)]
    simp only [Bool.true_or, if_true, Bool.not_true]
    exact Writes.pure none
  | false =>
    have hen : enable = true := by
      rcases he with he | he
      · exact he
      · rw [hoff] at he; cases he
    subst hen
    have hd : usub c.damping 3 = some (c.damping - 3) := by rw [usub, if_pos h.damping.1]
    have hb := h.bits
    simp only [Bool.false_eq_true, if_false, Bool.not_true, Bool.or_false, Bool.not_false, P.opt, if_true, hd]
    refine Writes.map some ?_
    have goal2 : Writes (cat [pushN (c.damping - 3) 2, pushN c.bits 2,
        cat ((List.range (1 <<< c.bits)).map (encodeStrength c planes))]) (Hdr.cdef planes)
        ((cdefAfter c false planes).applied planes) := by
      unfold Hdr.cdef
      have hda := h.damping
      refine Writes.cons (writes_f 2 (c.damping - 3) (by decide) (by omega))
        (Writes.cons (writes_f 2 c.bits (by decide) (by omega)) ?_)
      have hl := writes_manyIdx (encodeStrength c planes) (Hdr.strengths planes)
        (fun i => ((c.yPri.getD i 0, if c.ySec.getD i 0 = 3 then 4 else c.ySec.getD i 0),
          if planes > 1 then some (c.uvPri.getD i 0, if c.uvSec.getD i 0 = 3 then 4 else c.uvSec.getD i 0) else none))
        (2 ^ c.bits) 0 (by
          intro i _ hi
          rw [Nat.zero_add] at hi
          have hst : ∀ (a b : List Nat), a.length = 2 ^ c.bits → b.length = 2 ^ c.bits → (∀ v ∈ a, v < 16) →
              (∀ v ∈ b, v < 4) → Writes (cat [pushAt a i 4, pushAt b i 2]) Hdr.strength
                (a.getD i 0, if b.getD i 0 = 3 then 4 else b.getD i 0) := by
            intro a b ha hb h1 h2
            unfold Hdr.strength
            refine Writes.cons (writes_at a i 4 (by decide) (by omega) h1) ?_
            refine Writes.map (fun s => (a.getD i 0, s)) (Writes.last ?_)
            exact Writes.map (fun v => if v = 3 then 4 else v) (writes_at b i 2 (by decide) (by omega) h2)
          unfold encodeStrength Hdr.strengths
          have e3 : cat [pushAt c.yPri i 4, pushAt c.ySec i 2,
              if planes > 1 then cat [pushAt c.uvPri i 4, pushAt c.uvSec i 2] else cat []] =
              cat (cat [pushAt c.yPri i 4, pushAt c.ySec i 2] ::
                [if planes > 1 then cat [pushAt c.uvPri i 4, pushAt c.uvSec i 2] else cat []]) := by
            rw [cat_cons (cat [pushAt c.yPri i 4, pushAt c.ySec i 2]), ← cat_append]; rfl
          rw [e3]
          refine Writes.cons (hst _ _ h.yPris h.ySecs h.yPri h.ySec) ?_
          refine Writes.map (fun uv => (_, uv)) (Writes.last ?_)
          by_cases hpl : planes > 1
          · simp only [if_pos hpl, hpl, decide_true, P.opt, if_true]
            exact Writes.map some (hst _ _ h.uvPris h.uvSecs h.uvPri h.uvSec)
          · simp only [if_neg hpl, hpl, decide_false, P.opt]
            exact Writes.pure none)
      have hval : (cdefAfter c false planes).applied planes = (c.damping - 3 + 3, (List.range' 0 (2 ^ c.bits)).map
          fun i => ((c.yPri.getD i 0, if c.ySec.getD i 0 = 3 then 4 else c.ySec.getD i 0),
          if planes > 1 then some (c.uvPri.getD i 0, if c.uvSec.getD i 0 = 3 then 4 else c.uvSec.getD i 0) else none)) := by
        have e4 : c.damping - 3 + 3 = c.damping := by omega
        rw [e4, ← List.range_eq_range']
        unfold Cdef.applied
        simp only [cdefAfter, Bool.false_eq_true, if_false, Prod.mk.injEq, true_and]
        apply List.map_congr_left
        intro i hi
        have hi := List.mem_range.1 hi
        have hs : 1 <<< c.bits = 2 ^ c.bits := by rw [Nat.shiftLeft_eq, Nat.one_mul]
        rw [hs, bumpSec_getD _ _ _ hi (by rw [h.ySecs]; exact hi)]
        by_cases hpl : planes > 1
        · simp only [if_pos hpl]
          rw [bumpSec_getD _ _ _ hi (by rw [h.uvSecs]; exact hi)]
        · simp only [if_neg hpl]
      rw [hval, Nat.shiftLeft_eq, Nat.one_mul, List.range_eq_range']
      exact Writes.map _ (Writes.last hl)
    simp only [Option.bind_eq_bind, Option.bind_some]
    rw [if_neg (show ¬ c.bits ≥ 64 by omega)]
    exact goal2

def cdefSample : Cdef := ⟨5, 1, [15, 0], [3, 1], [2, 9], [0, 3]⟩

theorem cdefSample_ok : cdefSample.Ok := by constructor <;> decide

/-- CDEF disabled in the sequence header: the parameters are written all the same, and no decoder reads them. -/
theorem C84_disabled_never (c : Cdef) (planes : Nat) (h : c.Ok)
    (v : Option (Nat × List ((Nat × Nat) × Option (Nat × Nat)))) :
    ¬ Writes (encodeCdef c false planes) (Hdr.cdefParams false false false planes) v := by
  rintro ⟨e, he, hr⟩
  obtain ⟨e', he', hr'⟩ := C84_cdef_partial c false false true planes h (Or.inl rfl)
  rw [show (false || false) = false from rfl] at he'
  rw [he'] at he
  obtain rfl := raw_inj (Option.some.inj he)
  have h1 := hr []
  simp only [List.append_nil, Hdr.cdefParams, P.opt] at h1
  have h2 : e' = [] := by
    have : (some (none, e') : Option (Option (Nat × List ((Nat × Nat) × Option (Nat × Nat))) × Bits)) = some (v, []) := h1
    simpa using (Prod.mk.inj (Option.some.inj this)).2
  have h3 := hr' []
  rw [h2, List.append_nil] at h3
  have h4 : Hdr.cdefParams false false true planes [] = none := rfl
  rw [h4] at h3
  cases h3

theorem C84_negation : ¬ C84_full := fun h =>
  C84_disabled_never cdefSample 3 cdefSample_ok _ (h cdefSample false false false 3 cdefSample_ok)

/-- The parameters with the largest secondary strength lost. -/
def Cdef.lost (c : Cdef) : Cdef :=
  { c with ySec := c.ySec.map (fun v => if v = 3 then 0 else v), uvSec := c.uvSec.map (fun v => if v = 3 then 0 else v) }

theorem Cdef.Ok.lost {c : Cdef} (h : c.Ok) : c.lost.Ok := by
  refine ⟨h.damping, h.bits, h.yPris, by simp [Cdef.lost, h.ySecs], h.uvPris, by simp [Cdef.lost, h.uvSecs], h.yPri, ?_,
    h.uvPri, ?_⟩
  · intro v hv
    obtain ⟨w, hw, rfl⟩ := List.mem_map.1 hv
    have := h.ySec w hw
    split <;> omega
  · intro v hv
    obtain ⟨w, hw, rfl⟩ := List.mem_map.1 hv
    have := h.uvSec w hw
    split <;> omega

theorem lost_getD (l : List Nat) (i : Nat) (hi : i < l.length) :
    (l.map fun v => if v = 3 then 0 else v).getD i 0 = if l.getD i 0 = 3 then 0 else l.getD i 0 := by
  simp [List.getD_eq_getElem?_getD, List.getElem?_eq_getElem hi]

/-- **C84**: written a second time — the same frame, another header — every secondary strength 3 is read as 0: the state now
holds 4, of which two bits are written. -/
theorem C84_again_value (c : Cdef) (planes : Nat) (h : c.Ok) :
    Writes (encodeCdef (cdefAfter c false planes) false planes) (Hdr.cdefParams false false true planes)
      (some (c.lost.applied planes)) := by
  have hs : 1 <<< c.bits = 2 ^ c.bits := by rw [Nat.shiftLeft_eq, Nat.one_mul]
  have hpush : ∀ l : List Nat, l.length = 2 ^ c.bits → (∀ v ∈ l, v < 4) → ∀ j < 2 ^ c.bits,
      pushAt (bumpSec (1 <<< c.bits) l) j 2 = pushAt (l.map fun v => if v = 3 then 0 else v) j 2 := by
    intro l hl hv j hj
    have hjl : j < l.length := by omega
    simp only [pushAt, bumpSec, List.getElem?_mapIdx, List.getElem?_map, List.getElem?_eq_getElem hjl, Option.map_some, hs, hj,
      true_and]
    have := hv _ (List.getElem_mem hjl)
    by_cases h3 : l[j] = 3
    · simp only [h3, if_true]; decide
    · simp only [h3, if_false]
  have henc : encodeCdef (cdefAfter c false planes) false planes = encodeCdef c.lost false planes := by
    have hstr : (List.range (1 <<< c.bits)).map (encodeStrength (cdefAfter c false planes) planes) =
        (List.range (1 <<< c.bits)).map (encodeStrength c.lost planes) := by
      apply List.map_congr_left
      intro j hj
      have hj := List.mem_range.1 hj
      rw [hs] at hj
      unfold encodeStrength
      simp only [cdefAfter, Bool.false_eq_true, if_false, Cdef.lost]
      rw [hpush _ h.ySecs h.ySec j hj]
      by_cases hpl : planes > 1
      · simp only [if_pos hpl]
        rw [hpush _ h.uvSecs h.uvSec j hj]
      · simp only [if_neg hpl]
    have e1 : (cdefAfter c false planes).damping = c.lost.damping := rfl
    have e2 : (cdefAfter c false planes).bits = c.bits := rfl
    have e3 : c.lost.bits = c.bits := rfl
    unfold encodeCdef
    rw [e1, e2, e3, hstr, if_neg (by decide), if_neg (by decide)]
  rw [henc]
  have hgood := C84_cdef_partial c.lost false false true planes h.lost (Or.inl rfl)
  simp only [Bool.or_self, Bool.not_true, Bool.false_eq_true, if_false] at hgood
  have hval : (cdefAfter c.lost false planes).applied planes = c.lost.applied planes := by
    unfold Cdef.applied
    have e2 : (cdefAfter c.lost false planes).bits = c.lost.bits := rfl
    have e3 : c.lost.bits = c.bits := rfl
    rw [e2, e3]
    simp only [cdefAfter, Bool.false_eq_true, if_false, Prod.mk.injEq, true_and]
    apply List.map_congr_left
    intro i hi
    have hi := List.mem_range.1 hi
    have hb : ∀ l : List Nat, l.length = 2 ^ c.bits → (bumpSec (1 <<< c.bits) (l.map fun v => if v = 3 then 0 else v)).getD i 0 =
        (l.map fun v => if v = 3 then 0 else v).getD i 0 := by
      intro l hl
      rw [hs, bumpSec_getD _ _ _ hi (by simpa [hl] using hi), lost_getD l i (by omega)]
      split <;> simp_all
    rw [e3]
    simp only [Cdef.lost]
    rw [hb _ h.ySecs]
    by_cases hpl : planes > 1
    · simp only [if_pos hpl]
      rw [hb _ h.uvSecs]
    · simp only [if_neg hpl]
  rw [← hval]
  exact hgood

/-- **C84**, exactly: a header written again is read as what the state holds if and only if no plane in use has the largest
secondary strength. -/
theorem C84_again_iff (c : Cdef) (planes : Nat) (h : c.Ok) :
    Writes (encodeCdef (cdefAfter c false planes) false planes) (Hdr.cdefParams false false true planes)
      (some ((cdefAfter c false planes).applied planes)) ↔
      3 ∉ c.ySec ∧ (planes > 1 → 3 ∉ c.uvSec) := by
  have hs : 1 <<< c.bits = 2 ^ c.bits := by rw [Nat.shiftLeft_eq, Nat.one_mul]
  have key : Writes (encodeCdef (cdefAfter c false planes) false planes) (Hdr.cdefParams false false true planes)
      (some ((cdefAfter c false planes).applied planes)) ↔ (cdefAfter c false planes).applied planes = c.lost.applied planes :=
    ⟨fun hw => Option.some.inj (hw.unique (C84_again_value c planes h)), fun e => by rw [e]; exact C84_again_value c planes h⟩
  have e2 : (cdefAfter c false planes).bits = c.bits := rfl
  have e3 : c.lost.bits = c.bits := rfl
  have e4 : (cdefAfter c false planes).ySec = bumpSec (1 <<< c.bits) c.ySec := rfl
  have hone : ∀ l : List Nat, l.length = 2 ^ c.bits → ∀ i < 2 ^ c.bits,
      ((bumpSec (1 <<< c.bits) l).getD i 0 = (l.map fun v => if v = 3 then 0 else v).getD i 0 ↔ l.getD i 0 ≠ 3) := by
    intro l hl i hi
    rw [hs, bumpSec_getD _ _ _ hi (by omega), lost_getD l i (by omega)]
    split <;> simp_all
  have hmem : ∀ l : List Nat, l.length = 2 ^ c.bits → (3 ∉ l ↔ ∀ i < 2 ^ c.bits, l.getD i 0 ≠ 3) := by
    intro l hl
    constructor
    · intro hn i hi he
      rw [List.getD_eq_getElem?_getD, List.getElem?_eq_getElem (by omega)] at he
      exact hn (by rw [← he]; exact List.getElem_mem _)
    · intro hn hm
      obtain ⟨i, hi, he⟩ := List.getElem_of_mem hm
      exact hn i (by omega) (by rw [List.getD_eq_getElem?_getD, List.getElem?_eq_getElem hi, he]; rfl)
  rw [key, hmem _ h.ySecs, hmem _ h.uvSecs]
  unfold Cdef.applied
  rw [e2, e3]
  simp only [Prod.mk.injEq]
  constructor
  · rintro ⟨-, hl⟩
    have hget : ∀ i < 2 ^ c.bits, _ := fun i hi => List.map_inj_left.1 hl i (List.mem_range.2 hi)
    refine ⟨fun i hi => ?_, fun hpl i hi => ?_⟩
    · have := (Prod.mk.inj (Prod.mk.inj (hget i hi)).1).2
      exact (hone _ h.ySecs i hi).1 this
    · have := (Prod.mk.inj (hget i hi)).2
      rw [if_pos hpl, if_pos hpl] at this
      have := (Prod.mk.inj (Option.some.inj this)).2
      simp only [cdefAfter, Bool.false_eq_true, if_false, if_pos hpl] at this
      exact (hone _ h.uvSecs i hi).1 this
  · rintro ⟨h1, h2⟩
    refine ⟨rfl, List.map_congr_left fun i hi => ?_⟩
    have hi := List.mem_range.1 hi
    have a1 := (hone _ h.ySecs i hi).2 (h1 i hi)
    rw [e4, a1]
    by_cases hpl : planes > 1
    · have a2 := (hone _ h.uvSecs i hi).2 (h2 hpl i hi)
      simp only [if_pos hpl, cdefAfter, Bool.false_eq_true, if_false, a2]
      rfl
    · simp only [if_neg hpl]
      rfl

example : ¬ (3 ∉ cdefSample.ySec) ∧ cdefSample.Ok := ⟨by decide, cdefSample_ok⟩
example : (⟨5, 1, [15, 0], [2, 1], [2, 9], [0, 3]⟩ : Cdef).Ok := by constructor <;> decide

/-! ## C85: loop restoration parameters -/

/-- Loop restoration parameters a caller may set. -/
structure Lr.Ok (l : Lr) (use128 : Bool) : Prop where
  type : l.lrType < 4
  shift : l.unitShift ≤ 2
  shift128 : use128 = true → 1 ≤ l.unitShift
  uv : l.uvShift < 2

/-- The parameters in the decoder's terms; one type for all planes. -/
def Lr.view (l : Lr) (planes : Nat) (sub : Bool) : List Hdr.Restoration × Option (Nat × Nat) :=
  (List.replicate planes (Hdr.remap l.lrType),
    if l.lrType = 0 then none
    else some (2 ^ (6 + l.unitShift), 2 ^ (6 + l.unitShift) / 2 ^ (if sub ∧ planes > 1 then l.uvShift else 0)))

/-- What a user relies on: a decoder reads the parameters that were set. -/
def C85_full : Prop := ∀ (l : Lr) (lossless intrabc enable : Bool) (planes : Nat) (use128 sub : Bool), l.Ok use128 →
  (planes = 1 ∨ planes = 3) →
  Writes (encodeLrParams l (lossless || intrabc || enable) planes use128 sub)
    (Hdr.lrParams lossless intrabc enable planes use128 sub)
    (if lossless || intrabc || !enable then none else some (l.view planes sub))

/-- **C85, partial.** Right if the frame is lossless or uses intra block copy: nothing is coded. Missing: all other frames,
see `C85_never`. -/
theorem C85_off_partial (l : Lr) (lossless intrabc enable : Bool) (planes : Nat) (use128 sub : Bool)
    (h : (lossless || intrabc) = true) :
    Writes (encodeLrParams l (lossless || intrabc || enable) planes use128 sub)
      (Hdr.lrParams lossless intrabc enable planes use128 sub) none := by
  unfold encodeLrParams Hdr.lrParams
  rw [h]
  exact Writes.pure none

/-- All other frames: the test of `enable_restoration` is the wrong way round. If it is set nothing is written where the
decoder reads; if not something is written where it reads nothing. -/
theorem C85_never (l : Lr) (enable : Bool) (planes : Nat) (use128 sub : Bool) (hp : planes = 1 ∨ planes = 3)
    (v : Option (List Hdr.Restoration × Option (Nat × Nat))) :
    ¬ Writes (encodeLrParams l (false || false || enable) planes use128 sub)
      (Hdr.lrParams false false enable planes use128 sub) v := by
  rintro ⟨e, he, hr⟩
  cases enable with
  | true =>
    have h1 : encodeLrParams l (false || false || true) planes use128 sub = some (raw []) := rfl
    rw [h1] at he
    obtain rfl := raw_inj (Option.some.inj he)
    have h2 := hr []
    have h3 : Hdr.lrParams false false true planes use128 sub ([] ++ []) = none := by
      rcases hp with rfl | rfl <;> rfl
    rw [h3] at h2
    cases h2
  | false =>
    have h2 := hr []
    rw [List.append_nil] at h2
    have h3 : e = [] := by
      have : (some (none, e) : Option (Option (List Hdr.Restoration × Option (Nat × Nat)) × Bits)) = some (v, []) := h2
      simpa using (Prod.mk.inj (Option.some.inj this)).2
    subst h3
    unfold encodeLrParams at he
    simp only [Bool.or_self, Bool.false_eq_true, if_false] at he
    rw [if_neg (by omega)] at he
    cases ht : K.remap_lr_type[l.lrType]? with
    | none => rw [ht] at he; cases he
    | some t =>
      rw [ht] at he
      have h4 : cat [cat (List.replicate planes (pushN l.lrType 2)),
          if planes > 0 ∧ t ≠ 0 then do
            let _ ← usub 2 l.unitShift
            cat [encodeUnitShift l use128, if sub ∧ planes > 1 then pushUvShift l.uvShift else cat []]
          else cat []] = some (raw []) := by
        have h5 := he
        simp only [Option.bind_eq_bind, Option.bind_some] at h5
        rw [if_neg (by omega)] at h5
        exact h5
      rw [cat_cons] at h4
      have h6 : ∃ a as, cat (List.replicate planes (pushN l.lrType 2)) = some (a :: as) := by
        rw [pushN_eq l.lrType 2 (by decide)]
        rcases hp with rfl | rfl <;>
          · simp only [List.replicate, cat_cons, cat_nil, Option.bind_some]
            exact ⟨_, _, rfl⟩
      obtain ⟨a, as, h6⟩ := h6
      rw [h6, Option.bind_some] at h4
      cases hx : cat [if planes > 0 ∧ t ≠ 0 then do
            let _ ← usub 2 l.unitShift
            cat [encodeUnitShift l use128, if sub ∧ planes > 1 then pushUvShift l.uvShift else cat []]
          else cat []] with
      | none => rw [hx] at h4; cases h4
      | some y => rw [hx] at h4; simp [raw] at h4

theorem C85_negation : ¬ C85_full := fun h =>
  C85_never ⟨1, 1, 0, 0, [0, 0, 0]⟩ true 3 false false (Or.inr rfl) _
    (h ⟨1, 1, 0, 0, [0, 0, 0]⟩ false false true 3 false false (by constructor <;> decide) (Or.inr rfl))

/-- Had the test been right, what is written would be, except for a shift of 2 in 64x64 superblocks, where the first field
is pushed as the element 2 and not as a bit. -/
theorem C85_body_partial (l : Lr) (planes : Nat) (use128 sub : Bool) (h : l.Ok use128) (hp : planes = 1 ∨ planes = 3)
    (hs : use128 = false → l.unitShift ≤ 1) :
    Writes (encodeLrParams l false planes use128 sub) (Hdr.lr planes use128 sub) (l.view planes sub) := by
  have ht := h.type
  obtain ⟨t, htt, ht0⟩ : ∃ t, K.remap_lr_type[l.lrType]? = some t ∧ (t ≠ 0 ↔ l.lrType ≠ 0) := by
    have : l.lrType = 0 ∨ l.lrType = 1 ∨ l.lrType = 2 ∨ l.lrType = 3 := by omega
    rcases this with h | h | h | h <;> rw [h] <;> exact ⟨_, rfl, by decide⟩
  have e : encodeLrParams l false planes use128 sub =
      cat [cat (List.replicate planes (pushN l.lrType 2)),
      if planes > 0 ∧ t ≠ 0 then do
        let _ ← usub 2 l.unitShift
        cat [encodeUnitShift l use128, if sub ∧ planes > 1 then pushUvShift l.uvShift else cat []]
      else cat []] := by
    unfold encodeLrParams
    simp only [Bool.false_eq_true, if_false]
    rw [if_neg (by omega), htt]
    simp only [Option.bind_eq_bind, Option.bind_some]
    rw [if_neg (by omega)]
  rw [e]
  unfold Hdr.lr
  have hm := writes_many (fun v => pushN v 2) (P.f 2) (List.replicate planes l.lrType)
    (fun v hv => by rw [List.eq_of_mem_replicate hv]; exact writes_f 2 _ (by decide) (by omega))
  rw [List.map_replicate, List.length_replicate] at hm
  refine Writes.cons hm ?_
  simp only [List.map_replicate]
  refine Writes.map (fun s => (List.replicate planes (Hdr.remap l.lrType), s)) (Writes.last ?_)
  have hnone : Hdr.remap l.lrType = .none ↔ l.lrType = 0 := by
    have : l.lrType = 0 ∨ l.lrType = 1 ∨ l.lrType = 2 ∨ l.lrType = 3 := by omega
    rcases this with h | h | h | h <;> rw [h] <;> decide
  have hany : (List.replicate planes (Hdr.remap l.lrType)).any (· ≠ .none) = decide (l.lrType ≠ 0) := by
    rcases hp with rfl | rfl <;> simp [List.replicate, hnone]
  rw [hany]
  by_cases h0 : l.lrType = 0
  · rw [if_neg (by have := ht0.1; tauto), if_pos h0]
    simp only [h0, ne_eq, not_true, decide_false, P.opt]
    exact Writes.pure none
  · rw [if_pos ⟨by omega, ht0.2 h0⟩, if_neg h0]
    simp only [h0, ne_eq, not_false_iff, decide_true, P.opt, if_true]
    refine Writes.map some ?_
    have hus : usub 2 l.unitShift = some (2 - l.unitShift) := by rw [usub, if_pos h.shift]
    rw [hus]
    show Writes (cat [encodeUnitShift l use128, if sub ∧ planes > 1 then pushUvShift l.uvShift else cat []]) _ _
    have hbit : ∀ v, v < 2 → Writes (pushU v) (P.f 1) v := by
      intro v hv
      have : v = 0 ∨ v = 1 := by omega
      rcases this with rfl | rfl
      · exact ⟨[false], rfl, reads_f 1 0 (by decide)⟩
      · exact ⟨[true], rfl, reads_f 1 1 (by decide)⟩
    have hsh := h.shift
    have hunit : Writes (encodeUnitShift l use128) (Hdr.unitShift use128) l.unitShift := by
      unfold encodeUnitShift Hdr.unitShift
      cases use128 with
      | true =>
        have := h.shift128 rfl
        rw [if_pos rfl, usub, if_pos this]
        have hb := Writes.map (· + 1) (hbit (l.unitShift - 1) (by omega))
        rw [show l.unitShift - 1 + 1 = l.unitShift by omega] at hb
        exact hb
      | false =>
        have := hs rfl
        have h01 : l.unitShift = 0 ∨ l.unitShift = 1 := by omega
        rcases h01 with h01 | h01
        · rw [h01]
          exact Writes.cons (hbit 0 (by decide)) (Writes.last (Writes.pure 0))
        · rw [h01]
          refine Writes.cons (hbit 1 (by decide)) ?_
          exact Writes.last (Writes.map (1 + ·) (hbit 0 (by decide)))
    refine Writes.cons hunit ?_
    refine Writes.map (fun uv => (2 ^ (6 + l.unitShift), 2 ^ (6 + l.unitShift) / 2 ^ uv)) (Writes.last ?_)
    have hany2 : ((List.replicate planes (Hdr.remap l.lrType)).drop 1).any (· ≠ .none) = decide (planes > 1) := by
      have hne : Hdr.remap l.lrType ≠ .none := fun hh => h0 (hnone.1 hh)
      rcases hp with rfl | rfl <;> simp [List.replicate, hne]
    simp only [ne_eq] at hany2
    simp only [hany2]
    by_cases hc : sub = true ∧ planes > 1
    · rw [if_pos hc, if_pos hc, if_pos (by simp [hc.1, hc.2])]
      have huv := h.uv
      rw [pushUvShift, if_neg (by omega)]
      exact hbit _ h.uv
    · rw [if_neg hc, if_neg hc, if_neg (by simpa using hc)]
      exact Writes.pure 0

example : (⟨2, 1, 0, 1, [64, 64, 64]⟩ : Lr).Ok false := by constructor <;> decide

/-- That exception is always wrong. -/
theorem C85_shift_never (l : Lr) (planes : Nat) (sub : Bool) (hp : planes = 1 ∨ planes = 3) (ht : l.lrType = 1 ∨ l.lrType = 2 ∨ l.lrType = 3)
    (hs : l.unitShift = 2) (v : List Hdr.Restoration × Option (Nat × Nat)) :
    ¬ Writes (encodeLrParams l false planes false sub) (Hdr.lr planes false sub) v := by
  rintro ⟨e, he, _⟩
  have h3 : 2 ∈ raw e := by
    obtain ⟨ty, us, ex, uv, sz⟩ := l
    simp only at hs ht
    subst hs
    rcases hp with rfl | rfl <;> rcases ht with rfl | rfl | rfl <;> cases sub <;> by_cases huv : 64 ≤ uv <;>
      simp [encodeLrParams, K.remap_lr_type, usub, encodeUnitShift, cat_cons, cat_nil, pushN_eq, pushU, pushUvShift, huv] at he <;>
      rw [← he] <;> simp
  unfold raw at h3
  obtain ⟨x, _, hx⟩ := List.mem_map.1 h3
  cases x <;> simp at hx

end Av1
