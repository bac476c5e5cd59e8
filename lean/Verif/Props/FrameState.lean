import Verif.Props.FrameWhole

/-!
# What a frame header leaves behind for the tiles: C98, C99, and parts of C40 and C83
-/

namespace Av1

/-! ## C98: monochrome -/

/-- `EncoderContext::num_planes` (encoder.rs 143), the count the frame header and the tiles use: set to 3 and assigned
nowhere else. The count set by the sequence header (obu_encoder.rs 201) is another field, `OBUEncoder::num_planes`. -/
def contextPlanes : Nat := 3

/-- The number of planes AV1 derives from the colour configuration. -/
def av1Planes (mono : Bool) : Nat := if mono then 1 else 3

/-- **C51** for the plane count kept by the encoder object: the one of the written colour configuration. -/
theorem C51_planes (sh : SeqHeader) (c : SeqCtx) :
    (seqAfter sh c).2.numPlanes = av1Planes (seqAfter sh c).2.color.monoChrome := by
  unfold seqAfter av1Planes
  dsimp only
  split <;> rfl

/-- **C98**, full claim: the quantizer section of a frame is read by a decoder of the same sequence. -/
def C98_full : Prop := ∀ (sh : SeqHeader) (c : SeqCtx) (q : Quant), q.Ok →
  let color := (seqAfter sh c).2.color
  ∃ v, Writes (encodeQuant q contextPlanes color.separateUvDeltaQ) (Hdr.quant (av1Planes color.monoChrome) color.separateUvDeltaQ) v

/-- **C98**, what holds: sequences with chroma. Missing: monochrome ones, see `C98_mono_never`. -/
theorem C98_color_partial (sh : SeqHeader) (c : SeqCtx) (q : Quant) (h : q.Ok)
    (hm : (seqAfter sh c).2.color.monoChrome = false) :
    let color := (seqAfter sh c).2.color
    Writes (encodeQuant q contextPlanes color.separateUvDeltaQ) (Hdr.quant (av1Planes color.monoChrome) color.separateUvDeltaQ)
      (quantAfter q 3 color.separateUvDeltaQ).view := by
  intro color
  have : av1Planes color.monoChrome = 3 := by show av1Planes (seqAfter sh c).2.color.monoChrome = 3; rw [hm]; rfl
  rw [this]
  exact C78_quant_read_back q 3 _ h

/-- A monochrome sequence has no separate chroma offsets. -/
theorem mono_sep (sh : SeqHeader) (c : SeqCtx) (hm : (seqAfter sh c).2.color.monoChrome = true) :
    (seqAfter sh c).2.color.separateUvDeltaQ = false := by
  unfold seqAfter at hm ⊢
  dsimp only at hm ⊢
  split at hm <;> split <;> simp_all

/-- The code words of a quantizer offset. -/
theorem deltaQ_bits (d : Int) (h : -64 ≤ d ∧ d < 64) : ∃ e, encodeDeltaQ d = some (raw e) ∧ Reads Hdr.deltaQ e d ∧
    (e = [false] ∨ ∃ t, e = true :: t ∧ t.length = 7) := by
  obtain ⟨e, he, hr⟩ := writes_deltaQ d h
  refine ⟨e, he, hr, ?_⟩
  unfold encodeDeltaQ at he
  split at he
  · right
    have hs : ∃ t, encodeSu d 7 = some t ∧ t.length = 7 := by
      unfold encodeSu
      simp only [pushLoop_eq 64 _ 6 (by decide), Option.bind_eq_bind]
      by_cases hd : d < 0
      · rw [if_pos hd]; exact ⟨_, rfl, by simp⟩
      · rw [if_neg hd]; exact ⟨_, rfl, by simp⟩
    obtain ⟨t, ht, hl⟩ := hs
    refine ⟨t, ?_, hl⟩
    have : cat [pushB true, pushSu d 7] = some (raw (true :: t)) := by
      rw [cat_cons, cat_single, pushSu, ht]; rfl
    rw [this] at he
    exact (raw_inj (Option.some.inj he)).symm
  · left
    exact (raw_inj (a := [false]) (Option.some.inj he)).symm

/-- The decoder of a monochrome sequence never reads the quantizer section as it was written, whatever the parameters: bits
are left over for the next section. -/
theorem C98_quant_left (q : Quant) (h : q.Ok) (v : Hdr.Quant) : ¬ Writes (encodeQuant q 3 false) (Hdr.quant 1 false) v := by
  rintro ⟨e, he, hr⟩
  obtain ⟨e1, h1, r1⟩ := writes_f 8 q.baseQIdx (by decide) h.base
  obtain ⟨e2, h2, r2, -⟩ := deltaQ_bits q.yDc h.y
  obtain ⟨e3, h3, -, s3⟩ := deltaQ_bits q.uDc h.u
  obtain ⟨e4, h4, -, s4⟩ := deltaQ_bits q.uAc h.ua
  obtain ⟨e5, h5, -⟩ := writes_qm q false h
  have l4 : 1 ≤ e4.length := by rcases s4 with rfl | ⟨t, rfl, -⟩ <;> simp
  have l5 : 1 ≤ e5.length := by
    cases e5 with
    | cons b t => simp
    | nil =>
      unfold encodeQm at h5
      rw [cat_cons] at h5
      exfalso
      revert h5
      generalize cat _ = x
      cases x <;> simp [pushB, raw]
  have hee : e = e1 ++ (e2 ++ (e3 ++ (e4 ++ e5))) := by
    have : encodeQuant q 3 false = some (raw (e1 ++ (e2 ++ (e3 ++ (e4 ++ e5))))) := by
      unfold encodeQuant encodeChromaQ diffAfter
      simp only [Bool.false_eq_true, if_false, cat_cons, cat_nil, h1, h2, h3, h4, h5, Option.bind_some, raw_append,
        List.append_nil, List.nil_append, List.append_assoc, if_pos (by decide : (3 : Nat) > 1)]
    rw [this] at he
    exact (raw_inj (Option.some.inj he)).symm
  subst hee
  have := hr []
  rw [List.append_nil] at this
  unfold Hdr.quant at this
  rw [r1.step, r2.step] at this
  unfold Hdr.chromaQ at this
  rw [if_neg (by decide), pure_bind] at this
  unfold P.flagged at this
  rw [bind_assoc] at this
  rcases s3 with rfl | ⟨t, rfl, ht⟩
  · rw [(reads_flag false).step (s := e4 ++ e5)] at this
    have hl := congrArg List.length (congrArg Prod.snd (Option.some.inj this))
    change (e4 ++ e5).length = 0 at hl
    rw [List.length_append] at hl
    omega
  · rw [List.cons_append, show true :: (t ++ (e4 ++ e5)) = [true] ++ (t ++ (e4 ++ e5)) from rfl, (reads_flag true).step] at this
    have hsp : t ++ (e4 ++ e5) = (t ++ (e4 ++ e5)).take 4 ++ (((t ++ (e4 ++ e5)).drop 4).take 4 ++ (t ++ (e4 ++ e5)).drop 8) := by
      rw [show 8 = 4 + 4 from rfl, ← List.drop_drop, List.take_append_drop, List.take_append_drop]
    generalize hX : t ++ (e4 ++ e5) = X at this hsp
    have hXl : 9 ≤ X.length := by rw [← hX]; simp only [List.length_append]; omega
    have hread : ∀ (n : Nat) (l : Bits), l.length = n → Reads (P.f n) l (num l) := by
      intro n l hl rest
      unfold P.f
      rw [if_neg (by simp; omega), List.take_left' hl, List.drop_left' hl]
    have ra := hread 4 (X.take 4) (by simp; omega)
    have rb := hread 4 ((X.drop 4).take 4) (by simp; omega)
    rw [hsp] at this
    unfold P.opt Hdr.qmLevels at this
    simp only [if_true, bind_assoc, pure_bind, Bool.false_eq_true, if_false] at this
    rw [ra.step, rb.step] at this
    have hl := congrArg List.length (congrArg Prod.snd (Option.some.inj this))
    change (X.drop 8).length = 0 at hl
    rw [List.length_drop] at hl
    omega

/-- The quantizer section of a monochrome sequence is never right. -/
theorem C98_mono_never (sh : SeqHeader) (c : SeqCtx) (q : Quant) (h : q.Ok)
    (hm : (seqAfter sh c).2.color.monoChrome = true) (v : Hdr.Quant) :
    let color := (seqAfter sh c).2.color
    ¬ Writes (encodeQuant q contextPlanes color.separateUvDeltaQ)
      (Hdr.quant (av1Planes color.monoChrome) color.separateUvDeltaQ) v := by
  intro color
  show ¬ Writes (encodeQuant q contextPlanes (seqAfter sh c).2.color.separateUvDeltaQ)
      (Hdr.quant (av1Planes (seqAfter sh c).2.color.monoChrome) (seqAfter sh c).2.color.separateUvDeltaQ) v
  rw [mono_sep sh c hm, hm]
  exact C98_quant_left q h v

def monoCtx : SeqCtx := { SeqCtx.new with color := { SeqCtx.new.color with monoChrome := true } }

theorem mono_sample : (seqAfter (SeqHeader.new 64 64) monoCtx).2.color.monoChrome = true := by decide

/-- **C98** is false. -/
theorem C98_negation : ¬ C98_full := by
  intro h
  have ok : Quant.Ok ⟨100, 0, 0, 0, 0, 0, false, false, 0, 0, 0⟩ := by constructor <;> decide
  obtain ⟨v, hv⟩ := h (SeqHeader.new 64 64) monoCtx _ ok
  exact C98_mono_never _ _ _ ok mono_sample v hv

/-! ## C99: restoration unit sizes -/

/-- The unit sizes of AV1 (5.9.20): `RESTORATION_TILESIZE_MAX >> (2 - lr_unit_shift)`, chroma smaller by `lr_uv_shift`. -/
def av1UnitSizes (unitShift uv : Nat) : List Nat := [2 ^ (6 + unitShift), 2 ^ (6 + unitShift) / 2 ^ uv, 2 ^ (6 + unitShift) / 2 ^ uv]

/-- **C99**, full claim: a frame with loop restoration leaves the unit sizes of AV1 for the tiles. -/
def C99_full : Prop := ∀ (l : Lr) (use128 sub : Bool), l.Ok use128 → l.lrType ≠ 0 → l.size.length = 3 →
  lrSizeAfter l false 3 sub = av1UnitSizes l.unitShift (if sub then l.uvShift else 0)

theorem remap_ne (t : Nat) (h : t < 4) (h0 : t ≠ 0) : (K.remap_lr_type.getD t 0 == 0) = false := by
  have : t = 1 ∨ t = 2 ∨ t = 3 := by omega
  rcases this with rfl | rfl | rfl <;> rfl

theorem lrSizeAfter_eq (l : Lr) (use128 sub : Bool) (h : l.Ok use128) (h0 : l.lrType ≠ 0) :
    lrSizeAfter l false 3 sub = [2 ^ (6 + l.unitShift), l.size.getD 1 0 / 2 ^ (if sub then l.uvShift else 0),
      l.size.getD 2 0 / 2 ^ (if sub then l.uvShift else 0)] := by
  unfold lrSizeAfter
  rw [remap_ne _ h.type h0]
  simp only [Bool.false_or, Bool.or_false, Nat.shiftRight_eq_div_pow]
  rw [if_neg (by decide)]
  have h1 : (if sub = true ∧ 3 > 1 then l.uvShift else 0) = if sub then l.uvShift else 0 := by cases sub <;> simp
  rw [h1]
  have h2 : 256 / 2 ^ (2 - l.unitShift) = 2 ^ (6 + l.unitShift) := by
    have := h.shift
    have : l.unitShift = 0 ∨ l.unitShift = 1 ∨ l.unitShift = 2 := by omega
    rcases this with h | h | h <;> rw [h] <;> rfl
  rw [h2]

/-- **C99**, what holds: the luma size; and the chroma sizes if the caller has put the luma size there beforehand. Missing:
the chroma sizes are never computed from the luma size, see `C99_fresh_wrong`. -/
theorem C99_luma_partial (l : Lr) (use128 sub : Bool) (h : l.Ok use128) (h0 : l.lrType ≠ 0) :
    (lrSizeAfter l false 3 sub)[0]? = (av1UnitSizes l.unitShift (if sub then l.uvShift else 0))[0]? ∧
      (l.size.getD 1 0 = 2 ^ (6 + l.unitShift) → l.size.getD 2 0 = 2 ^ (6 + l.unitShift) →
        lrSizeAfter l false 3 sub = av1UnitSizes l.unitShift (if sub then l.uvShift else 0)) := by
  rw [lrSizeAfter_eq l use128 sub h h0]
  refine ⟨rfl, fun h1 h2 => ?_⟩
  rw [h1, h2]; rfl

/-- In a fresh context (encoder.rs 166) both chroma sizes stay 0, which is never right. -/
theorem C99_fresh_wrong (l : Lr) (use128 sub : Bool) (h : l.Ok use128) (h0 : l.lrType ≠ 0) (hs : l.size = [0, 0, 0]) :
    lrSizeAfter l false 3 sub = [2 ^ (6 + l.unitShift), 0, 0] ∧
      lrSizeAfter l false 3 sub ≠ av1UnitSizes l.unitShift (if sub then l.uvShift else 0) := by
  have he : lrSizeAfter l false 3 sub = [2 ^ (6 + l.unitShift), 0, 0] := by
    rw [lrSizeAfter_eq l use128 sub h h0, hs]; simp
  refine ⟨he, ?_⟩
  rw [he]
  unfold av1UnitSizes
  intro hx
  have h1 : 0 = 2 ^ (6 + l.unitShift) / 2 ^ (if sub then l.uvShift else 0) := by
    simpa using (List.cons.inj (List.cons.inj hx).2).1
  have h2 : 2 ^ (if sub then l.uvShift else 0) ≤ 2 ^ (6 + l.unitShift) := by
    refine Nat.pow_le_pow_right (by decide) ?_
    have := h.uv
    split <;> omega
  have := Nat.div_pos h2 (by positivity)
  omega

/-- **C99**, exactly: the sizes are AV1's if and only if the context held the luma size for both chroma planes beforehand (with
a shift, one more does no harm). -/
theorem C99_iff (l : Lr) (use128 sub : Bool) (h : l.Ok use128) (h0 : l.lrType ≠ 0) :
    lrSizeAfter l false 3 sub = av1UnitSizes l.unitShift (if sub then l.uvShift else 0) ↔
      ∀ i, (i = 1 ∨ i = 2) → 2 ^ (6 + l.unitShift) ≤ l.size.getD i 0 ∧
        l.size.getD i 0 < 2 ^ (6 + l.unitShift) + 2 ^ (if sub then l.uvShift else 0) := by
  rw [lrSizeAfter_eq l use128 sub h h0]
  have hu : (if sub then l.uvShift else 0) = 0 ∨ (if sub then l.uvShift else 0) = 1 := by
    have := h.uv
    split <;> omega
  generalize (if sub then l.uvShift else 0) = uv at *
  have key : ∀ x : Nat, x / 2 ^ uv = 2 ^ (6 + l.unitShift) / 2 ^ uv ↔
      2 ^ (6 + l.unitShift) ≤ x ∧ x < 2 ^ (6 + l.unitShift) + 2 ^ uv := by
    intro x
    rw [show (2 : Nat) ^ (6 + l.unitShift) = 2 * 2 ^ (5 + l.unitShift) by rw [← pow_succ']; congr 1; omega]
    rcases hu with rfl | rfl <;> norm_num <;> omega
  unfold av1UnitSizes
  simp only [List.cons.injEq, true_and, and_true, key]
  constructor
  · rintro ⟨h1, h2⟩ i (rfl | rfl)
    · exact h1
    · exact h2
  · intro hh
    exact ⟨hh 1 (.inl rfl), hh 2 (.inr rfl)⟩

/-- A second frame divides the chroma sizes of the first again: what was right stays right exactly without a chroma shift. -/
theorem C99_again_iff (l : Lr) (use128 sub : Bool) (h : l.Ok use128) (h0 : l.lrType ≠ 0)
    (hs : l.size = av1UnitSizes l.unitShift (if sub then l.uvShift else 0)) :
    lrSizeAfter l false 3 sub = av1UnitSizes l.unitShift (if sub then l.uvShift else 0) ↔ sub = false ∨ l.uvShift = 0 := by
  rw [C99_iff l use128 sub h h0, hs]
  have hu := h.uv
  have hp : (2 : Nat) ^ (6 + l.unitShift) = 2 * 2 ^ (5 + l.unitShift) := by rw [← pow_succ']; congr 1; omega
  have hpos : 0 < 2 ^ (5 + l.unitShift) := by positivity
  unfold av1UnitSizes
  rw [hp]
  constructor
  · intro hh
    have h1 := hh 1 (.inl rfl)
    simp only [List.getD_cons_succ, List.getD_cons_zero] at h1
    by_contra hn
    push Not at hn
    have hsub : sub = true := by cases sub <;> simp_all
    have h1u : l.uvShift = 1 := by omega
    rw [hsub, if_pos rfl, h1u] at h1
    omega
  · intro hh i hi
    have e : (if sub then l.uvShift else 0) = 0 := by
      rcases hh with rfl | hh
      · rfl
      · rw [hh]; split <;> rfl
    rw [e]
    rcases hi with rfl | rfl <;> simp

example : lrSizeAfter ⟨2, 2, 0, 1, [256, 128, 128]⟩ false 3 true = [256, 64, 64] := by decide

/-- **C99** is false. -/
theorem C99_negation : ¬ C99_full := by
  intro h
  have ok : Lr.Ok ⟨2, 1, 0, 1, [0, 0, 0]⟩ true := ⟨by decide, by decide, by decide, by decide⟩
  exact (C99_fresh_wrong _ true true ok (by decide) rfl).2 (h _ true true ok (by decide) rfl)

/-! ## C83: defaults -/

/-- The default loop filter deltas of AV1 (7.20): 1 for `INTRA_FRAME` (0); -1 for `GOLDEN_FRAME` (4), `ALTREF2_FRAME` (6) and
`ALTREF_FRAME` (7); 0 for the others. -/
def av1RefDelta (ref : Nat) : Int := if ref = 0 then 1 else if ref = 4 ∨ ref = 6 ∨ ref = 7 then -1 else 0

/-- **C83**, frames without loop filter: both levels are 0 and the deltas are AV1's defaults, whatever they were. -/
theorem C83_defaults (l : LoopFilter) (h : l.level.length = 4) :
    (loopFilterAfter l true).refDeltas = (List.range 8).map av1RefDelta ∧ (loopFilterAfter l true).modeDeltas = [0, 0] ∧
      (loopFilterAfter l true).level[0]? = some 0 ∧ (loopFilterAfter l true).level[1]? = some 0 ∧
      (loopFilterAfter l true).level.length = 4 ∧ (loopFilterAfter l true).sharpness = l.sharpness := by
  refine ⟨(by decide : ([1, 0, 0, 0, -1, 0, -1, -1] : List Int) = (List.range 8).map av1RefDelta), rfl, rfl, rfl, ?_, rfl⟩
  show (0 :: 0 :: l.level.drop 2).length = 4
  simp [h]

/-- Frames with loop filter: nothing is changed. -/
theorem C83_kept (l : LoopFilter) : loopFilterAfter l false = l := rfl

/-! ## C40: the starts kept in the context -/

theorem assignAll_prefix {vec xs out : List Nat} (h : assignAll vec xs = some out) : xs <+: out ∧ out.length = vec.length := by
  unfold assignAll at h
  split at h
  · rename_i hl
    obtain rfl := Option.some.inj h
    exact ⟨List.prefix_append _ _, by simp; omega⟩
  · cases h

/-- **C40** for the vectors kept in the context: after the tile info of uniform tiles they begin with the layout of
`C40_uniform_layout` for the numbers of tiles set in the frame, and keep their length. -/
theorem C40_kept (t t' : TileIn) (hu : t.uniform = true) (h : tileAfter t = some t') : ∃ c r,
    startsLog2 t.cols = some c ∧ startsLog2 t.rows = some r ∧
      uniformStarts (sbCount t.use128 (miSize t.width)) c (sbShift t.use128) (miSize t.width) <+: t'.miColStarts ∧
      uniformStarts (sbCount t.use128 (miSize t.height)) r (sbShift t.use128) (miSize t.height) <+: t'.miRowStarts ∧
      t'.miColStarts.length = t.miColStarts.length ∧ t'.miRowStarts.length = t.miRowStarts.length := by
  unfold tileAfter at h
  cases hc : startsLog2 t.cols with
  | none => rw [hc] at h; cases h
  | some c =>
    cases hr : startsLog2 t.rows with
    | none => rw [hc, hr] at h; cases h
    | some r =>
      rw [hc, hr] at h
      simp only [Option.bind_eq_bind, Option.bind_some] at h
      have key : ∀ t1 : TileIn, t1.uniform = true → t1.cols = t.cols → t1.rows = t.rows → t1.width = t.width → t1.height = t.height →
          t1.use128 = t.use128 → t1.miColStarts = t.miColStarts → t1.miRowStarts = t.miRowStarts →
          (if t1.uniform = true then (encodeUniform t1).bind fun x => some { t1 with miColStarts := x.2.1, miRowStarts := x.2.2 }
            else some t1) = some t' →
          uniformStarts (sbCount t.use128 (miSize t.width)) c (sbShift t.use128) (miSize t.width) <+: t'.miColStarts ∧
          uniformStarts (sbCount t.use128 (miSize t.height)) r (sbShift t.use128) (miSize t.height) <+: t'.miRowStarts ∧
          t'.miColStarts.length = t.miColStarts.length ∧ t'.miRowStarts.length = t.miRowStarts.length := by
        intro t1 k1 k2 k3 k4 k5 k6 k7 k8 k9
        rw [if_pos k1] at k9
        cases hx : encodeUniform t1 with
        | none => rw [hx] at k9; cases k9
        | some x =>
          rw [hx] at k9
          obtain rfl := Option.some.inj k9
          unfold encodeUniform at hx
          simp only [k2, k3, k4, k5, k6, k7, k8, hc, hr, Option.bind_eq_bind, Option.bind_some] at hx
          obtain ⟨lim, _, hx⟩ := Option.bind_eq_some_iff.1 hx
          obtain ⟨_, _, hx⟩ := Option.bind_eq_some_iff.1 hx
          obtain ⟨cs, hcs, hx⟩ := Option.bind_eq_some_iff.1 hx
          obtain ⟨_, _, hx⟩ := Option.bind_eq_some_iff.1 hx
          obtain ⟨_, _, hx⟩ := Option.bind_eq_some_iff.1 hx
          obtain ⟨rs, hrs, hx⟩ := Option.bind_eq_some_iff.1 hx
          obtain ⟨_, _, hx⟩ := Option.bind_eq_some_iff.1 hx
          obtain rfl := Option.some.inj hx
          exact ⟨(assignAll_prefix hcs).1, (assignAll_prefix hrs).1, (assignAll_prefix hcs).2, (assignAll_prefix hrs).2⟩
      refine ⟨c, r, rfl, rfl, ?_⟩
      by_cases hcr : c > 0 ∨ r > 0
      · rw [if_pos hcr] at h
        exact key t hu rfl rfl rfl rfl rfl rfl rfl h
      · rw [if_neg hcr] at h
        exact key { t with contextUpdateTileId := 0 } hu rfl rfl rfl rfl rfl rfl rfl h

/-- Two tiles of a frame of 65 superblocks: the vectors of the context are filled, an entry beyond the layout is stale. -/
example : tileAfter ⟨4160, 64, false, true, 2, 1, 0, 1, [9, 9, 9, 9], [9, 9]⟩ =
    some ⟨4160, 64, false, true, 2, 1, 0, 1, [0, 528, 1040, 9], [0, 16]⟩ := by decide +kernel

end Av1
