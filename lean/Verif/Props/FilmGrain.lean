import Verif.Spec.FilmGrain
import Verif.Model.FilmGrain
import Verif.Props.FrameFilters

/-! # C88: film grain parameters -/

namespace Av1

def pointsOf (n : Nat) (values scalings : List Nat) : List (Nat × Nat) :=
  (List.range' 0 n).map fun i => (values.getD i 0, scalings.getD i 0)

def coeffsOf (n : Nat) (coeffs : List Int) : List Int := (List.range' 0 n).map fun i => coeffs.getD i 0

/-- What the parameters say, for a picture with the given planes: chroma points that cannot be coded are dropped. -/
def Grain.view (g : Grain) (mono sub : Bool) : Hdr.GrainParams :=
  let fl := !mono && g.fromLuma
  let skip := mono || fl || (sub && decide (g.numY = 0))
  let ncb := if skip then 0 else g.numCb
  let ncr := if skip then 0 else g.numCr
  let luma := 2 * g.lag * (g.lag + 1)
  let chroma := if g.numY = 0 then luma else luma + 1
  { y := pointsOf g.numY g.yValue g.yScaling
    fromLuma := fl
    cb := pointsOf ncb g.cbValue g.cbScaling
    cr := pointsOf ncr g.crValue g.crScaling
    scaling := g.scaling
    lag := g.lag
    arY := if g.numY = 0 then [] else coeffsOf luma g.arY
    arCb := if fl ∨ ncb ≠ 0 then coeffsOf chroma g.arCb else []
    arCr := if fl ∨ ncr ≠ 0 then coeffsOf chroma g.arCr else []
    arShift := g.arShift
    scaleShift := g.scaleShift
    cbMult := if ncb = 0 then none else some (g.cbMult, g.cbLumaMult, g.cbOffset)
    crMult := if ncr = 0 then none else some (g.crMult, g.crLumaMult, g.crOffset)
    overlap := g.overlap
    clip := g.clip }

/-- Values in the range of their fields, as many as the counts say. -/
structure Grain.Ok (g : Grain) : Prop where
  seed : g.seed < 2 ^ 16
  ref : g.refIdx < 8
  numY : g.numY < 16
  numCb : g.numCb < 16
  numCr : g.numCr < 16
  yLen : g.numY ≤ g.yValue.length ∧ g.numY ≤ g.yScaling.length
  cbLen : g.numCb ≤ g.cbValue.length ∧ g.numCb ≤ g.cbScaling.length
  crLen : g.numCr ≤ g.crValue.length ∧ g.numCr ≤ g.crScaling.length
  values : ∀ v ∈ g.yValue ++ g.yScaling ++ g.cbValue ++ g.cbScaling ++ g.crValue ++ g.crScaling, v < 256
  scaling : 8 ≤ g.scaling ∧ g.scaling < 12
  lag : g.lag < 4
  arLen : 24 ≤ g.arY.length ∧ 25 ≤ g.arCb.length ∧ 25 ≤ g.arCr.length
  coeffs : ∀ c ∈ g.arY ++ g.arCb ++ g.arCr, -128 ≤ c ∧ c < 128
  shift : 6 ≤ g.arShift ∧ g.arShift < 10
  scale : g.scaleShift < 4
  cb : g.cbMult < 256 ∧ g.cbLumaMult < 256 ∧ g.cbOffset < 512
  cr : g.crMult < 256 ∧ g.crLumaMult < 256 ∧ g.crOffset < 512

theorem writes_points (n : Nat) (values scalings : List Nat) (hn : n < 16)
    (hl : n ≤ values.length ∧ n ≤ scalings.length) (h1 : ∀ v ∈ values, v < 256) (h2 : ∀ v ∈ scalings, v < 256) :
    Writes (cat [pushN n 4, pushPoints n values scalings]) Hdr.points (pointsOf n values scalings) := by
  refine Writes.cons (writes_f 4 n (by decide) hn) (Writes.last ?_)
  refine writes_manyIdx _ _ _ n 0 ?_
  intro i _ hi
  refine Writes.cons (writes_at values i 8 (by decide) (by omega) h1) ?_
  exact Writes.map (fun s => (values.getD i 0, s)) (Writes.last (writes_at scalings i 8 (by decide) (by omega) h2))

theorem writes_coeff (coeffs : List Int) (i : Nat) (hi : i < coeffs.length) (h : ∀ c ∈ coeffs, -128 ≤ c ∧ c < 128) :
    Writes (pushCoeff coeffs i) Hdr.coeff (coeffs.getD i 0) := by
  have hc := h _ (List.getElem_mem hi)
  unfold pushCoeff
  rw [List.getElem?_eq_getElem hi, List.getD_eq_getElem?_getD, List.getElem?_eq_getElem hi]
  generalize coeffs[i] = c at hc
  simp only [Option.bind_eq_bind, Option.bind_some, Option.getD_some]
  rw [if_neg (by omega), Int.emod_eq_of_lt (by omega) (by omega)]
  have := Writes.map (fun v : Nat => (v : Int) - 128) (writes_f 8 (c + 128).toNat (by decide) (by omega))
  rw [show (((c + 128).toNat : Nat) : Int) - 128 = c by omega] at this
  exact this

theorem writes_coeffs (n : Nat) (coeffs : List Int) (hl : n ≤ coeffs.length) (h : ∀ c ∈ coeffs, -128 ≤ c ∧ c < 128) :
    Writes (pushCoeffs n coeffs) (P.many n Hdr.coeff) (coeffsOf n coeffs) :=
  writes_manyIdx _ _ _ n 0 fun i _ hi => writes_coeff coeffs i (by omega) h

theorem pointsOf_isEmpty (n : Nat) (a b : List Nat) : (pointsOf n a b).isEmpty = decide (n = 0) := by
  cases n <;> simp [pointsOf, List.range'_succ]

theorem writes_mult (a b c : Nat) (h : a < 256 ∧ b < 256 ∧ c < 512) :
    Writes (cat [pushN a 8, pushN b 8, pushN c 9]) Hdr.mult (a, b, c) :=
  Writes.cons (writes_f 8 a (by decide) h.1) (Writes.cons (writes_f 8 b (by decide) h.2.1)
    (Writes.map (fun c => (a, b, c)) (Writes.last (writes_f 9 c (by decide) h.2.2))))

theorem cat_pair (a b : Option Raw) (xs : List (Option Raw)) : cat (a :: b :: xs) = cat (cat [a, b] :: xs) := by
  rw [show a :: b :: xs = [a, b] ++ xs from rfl, cat_append, ← cat_cons]

theorem grain_ok_values (g : Grain) (h : g.Ok) : (∀ v ∈ g.yValue, v < 256) ∧ (∀ v ∈ g.yScaling, v < 256) ∧
    (∀ v ∈ g.cbValue, v < 256) ∧ (∀ v ∈ g.cbScaling, v < 256) ∧ (∀ v ∈ g.crValue, v < 256) ∧
    (∀ v ∈ g.crScaling, v < 256) := by
  have := h.values
  simp only [List.mem_append] at this
  refine ⟨?_, ?_, ?_, ?_, ?_, ?_⟩ <;> intro v hv <;> exact this v (by simp [hv])

theorem grain_ok_coeffs (g : Grain) (h : g.Ok) : (∀ c ∈ g.arY, -128 ≤ c ∧ c < 128) ∧
    (∀ c ∈ g.arCb, -128 ≤ c ∧ c < 128) ∧ (∀ c ∈ g.arCr, -128 ≤ c ∧ c < 128) := by
  have := h.coeffs
  simp only [List.mem_append] at this
  refine ⟨?_, ?_, ?_⟩ <;> intro v hv <;> exact this v (by simp [hv])

/-- The fields from `grain_scaling` on. -/
def grainTail (fl : Bool) (y cb cr : List (Nat × Nat)) : P Hdr.GrainParams := do
  let s ← P.f 2
  let lag ← P.f 2
  let luma := 2 * lag * (lag + 1)
  let chroma := if y.isEmpty then luma else luma + 1
  let ay ← (if y.isEmpty then pure [] else P.many luma Hdr.coeff)
  let acb ← (if fl || !cb.isEmpty then P.many chroma Hdr.coeff else pure [])
  let acr ← (if fl || !cr.isEmpty then P.many chroma Hdr.coeff else pure [])
  let sh ← P.f 2
  let ss ← P.f 2
  let mcb ← P.opt (!cb.isEmpty) Hdr.mult
  let mcr ← P.opt (!cr.isEmpty) Hdr.mult
  let ov ← P.flag
  let cl ← P.flag
  pure ⟨y, fl, cb, cr, s + 8, lag, ay, acb, acr, sh + 6, ss, mcb, mcr, ov, cl⟩

theorem writes_ite {α : Type} {x : Option Raw} {p : P α} {v w : α} (c : Prop) [Decidable c] (b : Bool) (hb : b = decide c)
    (h : c → Writes x p v) : Writes (if c then x else cat []) (if b then p else pure w) (if c then v else w) := by
  by_cases hc : c
  · rw [if_pos hc, if_pos (by rw [hb]; simpa using hc), if_pos hc]; exact h hc
  · rw [if_neg hc, if_neg (by rw [hb]; simpa using hc), if_neg hc]; exact Writes.pure w

theorem writes_opt_if {α : Type} {x : Option Raw} {p : P α} {v : α} (c : Prop) [Decidable c] (b : Bool)
    (hb : b = decide c) (h : c → Writes x p v) :
    Writes (if c then x else cat []) (P.opt b p) (if c then some v else none) := by
  unfold P.opt
  exact writes_ite c b hb fun hc => Writes.map some (h hc)

theorem lag_le (l : Nat) (h : l < 4) : 2 * l * (l + 1) ≤ 24 := by
  have : l = 0 ∨ l = 1 ∨ l = 2 ∨ l = 3 := by omega
  rcases this with rfl | rfl | rfl | rfl <;> decide

theorem grainTail_writes (g : Grain) (h : g.Ok) (fl : Bool) (ncb ncr : Nat) :
    let luma := 2 * g.lag * (g.lag + 1)
    let chroma := if g.numY > 0 then luma + 1 else luma
    Writes (cat [pushN (g.scaling - 8) 2, pushN g.lag 2,
        if g.numY > 0 then pushCoeffs luma g.arY else cat [],
        if fl || decide (ncb > 0) then pushCoeffs chroma g.arCb else cat [],
        if fl || decide (ncr > 0) then pushCoeffs chroma g.arCr else cat [],
        pushN (g.arShift - 6) 2, pushN g.scaleShift 2,
        if ncb > 0 then cat [pushN g.cbMult 8, pushN g.cbLumaMult 8, pushN g.cbOffset 9] else cat [],
        if ncr > 0 then cat [pushN g.crMult 8, pushN g.crLumaMult 8, pushN g.crOffset 9] else cat [],
        pushB g.overlap, pushB g.clip])
      (grainTail fl (pointsOf g.numY g.yValue g.yScaling) (pointsOf ncb g.cbValue g.cbScaling)
        (pointsOf ncr g.crValue g.crScaling))
      ⟨pointsOf g.numY g.yValue g.yScaling, fl, pointsOf ncb g.cbValue g.cbScaling, pointsOf ncr g.crValue g.crScaling,
        g.scaling, g.lag, if g.numY > 0 then coeffsOf luma g.arY else [],
        if fl || decide (ncb > 0) then coeffsOf chroma g.arCb else [],
        if fl || decide (ncr > 0) then coeffsOf chroma g.arCr else [], g.arShift, g.scaleShift,
        if ncb > 0 then some (g.cbMult, g.cbLumaMult, g.cbOffset) else none,
        if ncr > 0 then some (g.crMult, g.crLumaMult, g.crOffset) else none, g.overlap, g.clip⟩ := by
  intro luma chroma
  obtain ⟨c1, c2, c3⟩ := grain_ok_coeffs g h
  have hl : luma ≤ 24 := lag_le g.lag h.lag
  have hc : chroma ≤ 25 := by simp only [chroma]; split <;> omega
  have hs := h.scaling
  have hsh := h.shift
  have hch : (if (pointsOf g.numY g.yValue g.yScaling).isEmpty then luma else luma + 1) = chroma := by
    rw [pointsOf_isEmpty]
    simp only [chroma]
    by_cases hy : g.numY = 0
    · simp [hy]
    · simp [hy, Nat.pos_of_ne_zero hy]
  unfold grainTail
  refine Writes.cons (writes_f 2 (g.scaling - 8) (by decide) (by omega)) ?_
  refine Writes.cons (writes_f 2 g.lag (by decide) h.lag) ?_
  have hA : Writes (if g.numY > 0 then pushCoeffs luma g.arY else cat [])
      (if (pointsOf g.numY g.yValue g.yScaling).isEmpty then pure [] else P.many luma Hdr.coeff)
      (if g.numY > 0 then coeffsOf luma g.arY else []) := by
    rw [pointsOf_isEmpty]
    by_cases hy : g.numY = 0
    · simp only [hy, decide_true, if_true, gt_iff_lt, Nat.lt_irrefl, if_false]; exact Writes.pure []
    · rw [if_pos (Nat.pos_of_ne_zero hy), if_pos (Nat.pos_of_ne_zero hy), if_neg (by simpa using hy)]
      exact writes_coeffs _ _ (by have := h.arLen; omega) c1
  refine Writes.cons hA ?_
  have hne : ∀ n a b, (!(pointsOf n a b).isEmpty) = decide (n > 0) := by
    intro n a b; rw [pointsOf_isEmpty]; cases n <;> simp
  have hB : ∀ (n : Nat) (a b : List Nat) (co : List Int), 25 ≤ co.length → (∀ c ∈ co, -128 ≤ c ∧ c < 128) →
      Writes (if fl || decide (n > 0) then pushCoeffs chroma co else cat [])
        (if fl || !(pointsOf n a b).isEmpty then P.many (if (pointsOf g.numY g.yValue g.yScaling).isEmpty then luma else luma + 1) Hdr.coeff
          else pure []) (if fl || decide (n > 0) then coeffsOf chroma co else []) := by
    intro n a b co hlen hco
    rw [hch]
    exact writes_ite _ _ (by rw [hne]; simp) fun _ => writes_coeffs _ _ (by omega) hco
  refine Writes.cons (hB ncb _ _ g.arCb h.arLen.2.1 c2) ?_
  refine Writes.cons (hB ncr _ _ g.arCr h.arLen.2.2 c3) ?_
  refine Writes.cons (writes_f 2 (g.arShift - 6) (by decide) (by omega)) ?_
  refine Writes.cons (writes_f 2 g.scaleShift (by decide) h.scale) ?_
  refine Writes.cons (writes_opt_if _ _ (hne _ _ _) fun _ => writes_mult _ _ _ h.cb) ?_
  refine Writes.cons (writes_opt_if _ _ (hne _ _ _) fun _ => writes_mult _ _ _ h.cr) ?_
  refine Writes.cons (writes_flag _) (Writes.cons (writes_flag _) ?_)
  rw [show g.scaling - 8 + 8 = g.scaling by omega, show g.arShift - 6 + 6 = g.arShift by omega]
  exact Writes.pure _

/-- The parameters are read back. -/
theorem grainBody_writes (g : Grain) (mono sub : Bool) (h : g.Ok) :
    Writes (encodeGrainBody g mono sub) (Hdr.grainParams mono sub) (g.view mono sub) := by
  obtain ⟨v1, v2, v3, v4, v5, v6⟩ := grain_ok_values g h
  have hs := h.scaling
  have hsh := h.shift
  -- the normalised parameters
  obtain ⟨fl, hfl⟩ : ∃ fl, fl = (!mono && g.fromLuma) := ⟨_, rfl⟩
  obtain ⟨skip, hskip⟩ : ∃ s, s = (mono || fl || (sub && decide (g.numY = 0))) := ⟨_, rfl⟩
  obtain ⟨ncb, hncb⟩ : ∃ n, n = if skip then 0 else g.numCb := ⟨_, rfl⟩
  obtain ⟨ncr, hncr⟩ : ∃ n, n = if skip then 0 else g.numCr := ⟨_, rfl⟩
  have hnorm : g.norm mono sub = { g with fromLuma := fl, numCb := ncb, numCr := ncr } := by
    obtain ⟨⟩ := g
    simp only [Grain.norm, Grain.noChroma] at *
    subst hncb hncr hskip hfl
    cases mono <;> simp <;> split <;> simp
  have hno : ({ g with fromLuma := fl, numCb := ncb, numCr := ncr } : Grain).noChroma mono sub = skip := by
    rw [hskip]; rfl
  unfold encodeGrainBody
  rw [hnorm]
  simp only [hno]
  rw [usub, if_pos hs.1, usub, if_pos hsh.1]
  simp only [Option.bind_eq_bind, Option.bind_some]
  have ht := grainTail_writes g h fl ncb ncr
  simp only at ht
  have hview : g.view mono sub = ⟨pointsOf g.numY g.yValue g.yScaling, fl, pointsOf ncb g.cbValue g.cbScaling,
      pointsOf ncr g.crValue g.crScaling,
        g.scaling, g.lag, if g.numY > 0 then coeffsOf (2 * g.lag * (g.lag + 1)) g.arY else [],
        if fl || decide (ncb > 0) then coeffsOf (if g.numY > 0 then 2 * g.lag * (g.lag + 1) + 1 else 2 * g.lag * (g.lag + 1)) g.arCb else [],
        if fl || decide (ncr > 0) then coeffsOf (if g.numY > 0 then 2 * g.lag * (g.lag + 1) + 1 else 2 * g.lag * (g.lag + 1)) g.arCr else [],
        g.arShift, g.scaleShift,
        if ncb > 0 then some (g.cbMult, g.cbLumaMult, g.cbOffset) else none,
        if ncr > 0 then some (g.crMult, g.crLumaMult, g.crOffset) else none, g.overlap, g.clip⟩ := by
    unfold Grain.view
    simp only [← hfl, ← hskip, ← hncb, ← hncr]
    congr 1
    · by_cases hy : g.numY = 0 <;> simp [hy, Nat.pos_of_ne_zero]
    · by_cases hy : g.numY = 0 <;> by_cases hn : ncb = 0 <;> simp [hy, hn, Nat.pos_of_ne_zero]
    · by_cases hy : g.numY = 0 <;> by_cases hn : ncr = 0 <;> simp [hy, hn, Nat.pos_of_ne_zero]
    · by_cases hn : ncb = 0 <;> simp [hn, Nat.pos_of_ne_zero]
    · by_cases hn : ncr = 0 <;> simp [hn, Nat.pos_of_ne_zero]
  rw [hview, cat_pair]
  unfold Hdr.grainParams
  refine Writes.cons (writes_points g.numY g.yValue g.yScaling h.numY h.yLen v1 v2) ?_
  have hF : Writes (if mono then cat [] else pushB fl) (if mono then pure false else P.flag) fl := by
    cases mono
    · exact writes_flag fl
    · rw [hfl]; exact Writes.pure false
  refine Writes.cons hF ?_
  have hC : Writes (if skip then cat [] else cat [pushN ncb 4, pushPoints ncb g.cbValue g.cbScaling, pushN ncr 4,
        pushPoints ncr g.crValue g.crScaling])
      (if mono || fl || (sub && (pointsOf g.numY g.yValue g.yScaling).isEmpty) then pure ([], []) else do
        let cb ← Hdr.points
        let cr ← Hdr.points
        pure (cb, cr)) (pointsOf ncb g.cbValue g.cbScaling, pointsOf ncr g.crValue g.crScaling) := by
    rw [pointsOf_isEmpty, ← hskip]
    cases hsk : skip with
    | true =>
      rw [hsk] at hncb hncr
      rw [hncb, hncr]
      exact Writes.pure _
    | false =>
      rw [hsk] at hncb hncr
      simp only [Bool.false_eq_true, if_false] at hncb hncr
      simp only [Bool.false_eq_true, if_false]
      rw [cat_pair, hncb, hncr]
      refine Writes.cons (writes_points _ _ _ h.numCb h.cbLen v3 v4) ?_
      exact Writes.map (fun cr => (_, cr)) (writes_points _ _ _ h.numCr h.crLen v5 v6)
  refine Writes.cons hC ?_
  exact ht

/-- What the encoder means to say. -/
def grainAsked (g : Option Grain) (shown inter mono sub : Bool) : Option (Nat × (Nat ⊕ Hdr.GrainParams)) :=
  match g with
  | none => none
  | some g =>
    if shown && g.apply then
      some (g.seed, if inter && !g.update then .inl g.refIdx else .inr (g.view mono sub))
    else none

/-- **C88**, full claim; the sequence header announces grain iff the context holds parameters. -/
def C88_full : Prop := ∀ (g : Option Grain) (e : GrainEnv), (∀ x, g = some x → x.Ok) → e.refs.length = 8 →
  Writes (encodeGrain g e) (Hdr.filmGrain g.isSome e.shown e.inter e.mono e.sub)
    (grainAsked g e.shown e.inter e.mono e.sub)

/-- **C88, partial.** Right for every shown or showable frame of a sequence with film grain. Missing: the others. -/
theorem C88_read_back_partial (g : Grain) (e : GrainEnv) (h : g.Ok) (hr : e.refs.length = 8) (hs : e.shown = true) :
    Writes (encodeGrain (some g) e) (Hdr.filmGrain true e.shown e.inter e.mono e.sub)
      (grainAsked (some g) e.shown e.inter e.mono e.sub) := by
  have hlt : g.refIdx < e.refs.length := by rw [hr]; exact h.ref
  unfold encodeGrain grainNow Hdr.filmGrain grainAsked
  simp only [hs, if_true, Bool.true_and]
  rw [List.getElem?_eq_getElem hlt]
  show Writes (cat _) _ _
  cases ha : g.apply with
  | false => exact Writes.cons (writes_flag false) (Writes.last (Writes.pure none))
  | true =>
    refine Writes.cons (writes_flag true) (Writes.last (Writes.map some ?_))
    unfold Hdr.grainInfo
    simp only [if_true]
    refine Writes.cons (writes_f 16 g.seed (by decide) h.seed) ?_
    cases hi : e.inter with
    | false =>
      simp only [Bool.false_eq_true, if_false, Bool.false_and, Bool.not_true]
      refine Writes.skip (Writes.last ?_)
      exact Writes.map (fun p => (g.seed, Sum.inr p)) (grainBody_writes g e.mono e.sub h)
    | true =>
      simp only [if_true, Bool.true_and]
      refine Writes.cons (writes_flag g.update) (Writes.last ?_)
      cases hu : g.update with
      | false => exact Writes.map (fun r => (g.seed, Sum.inl r)) (writes_f 3 g.refIdx (by decide) h.ref)
      | true => exact Writes.map (fun p => (g.seed, Sum.inr p)) (grainBody_writes g e.mono e.sub h)

def grainSample : Grain := { Grain.new with
  apply := true, update := true, seed := 1234, numY := 2, yValue := [0, 255], yScaling := [20, 40], numCb := 1,
  cbValue := [128], cbScaling := [32], scaling := 10, lag := 1, arY := List.replicate 24 (-3),
  arCb := List.replicate 25 5, arCr := List.replicate 25 0, arShift := 7, cbMult := 128, cbLumaMult := 192,
  cbOffset := 256 }

def grainEnvSample : GrainEnv := ⟨true, true, false, true, List.replicate 8 Grain.new⟩

theorem grainSample_ok : grainSample.Ok := by constructor <;> decide

example : grainSample.Ok ∧ grainEnvSample.refs.length = 8 ∧ grainEnvSample.shown = true := ⟨grainSample_ok, rfl, rfl⟩

/-- **C88**, strong negation: without film grain in the sequence, or in a frame that is never shown, the code writes a
bit that no decoder expects. -/
theorem C88_extra_bit_never (g : Option Grain) (e : GrainEnv) (hr : e.refs.length = 8)
    (h : g = none ∨ e.shown = false) :
    encodeGrain g e = some [0] ∧
    ∀ v, ¬ Writes (encodeGrain g e) (Hdr.filmGrain g.isSome e.shown e.inter e.mono e.sub) v := by
  have hnow : grainNow g e = Grain.new := by
    unfold grainNow
    rcases h with rfl | h
    · rfl
    · cases g <;> simp [h]
  have h0 : encodeGrain g e = some [0] := by
    have hlt : 0 < e.refs.length := by omega
    unfold encodeGrain
    simp only [hnow]
    rw [show Grain.new.refIdx = 0 from rfl, List.getElem?_eq_getElem hlt]
    rfl
  refine ⟨h0, ?_⟩
  rintro v ⟨b, hb, hread⟩
  have hp : Hdr.filmGrain g.isSome e.shown e.inter e.mono e.sub = pure none := by
    unfold Hdr.filmGrain
    rcases h with rfl | h
    · rfl
    · rw [h, Bool.and_false]; rfl
  rw [h0] at hb
  have hb' : b = [false] := raw_inj (by rw [← Option.some.inj hb]; rfl)
  have := hread []
  rw [hp, hb'] at this
  have h2 : some ((none : Option (Nat × (Nat ⊕ Hdr.GrainParams))), [false]) = some (v, []) := this
  simp at h2

example : (none : Option Grain) = none ∨ grainEnvSample.shown = false := .inl rfl

/-- **C88** is false. -/
theorem C88_negation : ¬ C88_full := fun h =>
  (C88_extra_bit_never none grainEnvSample rfl (.inl rfl)).2 _ (h none grainEnvSample (by simp) rfl)

/-- A frame that is never shown also makes the context forget its parameters; then no later frame carries grain. -/
theorem C88_forgotten (g : Option Grain) (e : GrainEnv) (hr : e.refs.length = 8) (hs : e.shown = false) (e' : GrainEnv)
    (hr' : e'.refs.length = 8) : ∃ a, grainAfter g e = some a ∧ encodeGrain (some a) e' = some [0] := by
  have hnow : grainNow g e = Grain.new := by unfold grainNow; cases g <;> simp [hs]
  have hlt : 0 < e.refs.length := by omega
  have hlt' : 0 < e'.refs.length := by omega
  refine ⟨Grain.new, ?_, ?_⟩
  · unfold grainAfter
    simp only [hnow]
    rw [show Grain.new.refIdx = 0 from rfl, List.getElem?_eq_getElem hlt]; rfl
  · unfold encodeGrain grainNow
    have : (if e'.shown then Grain.new else Grain.new) = Grain.new := by split <;> rfl
    simp only [this]
    rw [show Grain.new.refIdx = 0 from rfl, List.getElem?_eq_getElem hlt']; rfl

theorem norm_fields (g : Grain) (m s : Bool) : (g.norm m s).apply = g.apply ∧ (g.norm m s).seed = g.seed ∧
    (g.norm m s).refIdx = g.refIdx ∧ (g.norm m s).update = g.update := by
  unfold Grain.norm
  cases m <;> simp only [if_true, Bool.false_eq_true, if_false] <;> split <;> exact ⟨rfl, rfl, rfl, rfl⟩

theorem norm_norm (g : Grain) (m s : Bool) : (g.norm m s).norm m s = g.norm m s := by
  obtain ⟨⟩ := g
  simp only [Grain.norm, Grain.noChroma]
  cases m <;> simp <;> split <;> simp_all

/-- Encoding the same frame again from what the section leaves behind gives the same bits, if new parameters were
sent. -/
theorem C88_again (g : Grain) (e : GrainEnv) (hs : e.shown = true) (ha : g.apply = true)
    (hu : e.inter = false ∨ g.update = true) (a : Grain) (h : grainAfter (some g) e = some a) :
    encodeGrain (some a) e = encodeGrain (some g) e := by
  unfold grainAfter grainNow at h
  simp only [hs, if_true, Option.bind_eq_bind] at h
  cases hr : e.refs[g.refIdx]? with
  | none => rw [hr] at h; cases h
  | some r =>
    have hu' : (if e.inter then g.update else true) = true := by
      rcases hu with hu | hu <;> simp [hu]
    rw [hr] at h
    simp only [Option.bind_some, if_true, hu', Option.some.injEq] at h
    rw [if_pos ha] at h
    have hfields : a.apply = true ∧ a.seed = g.seed ∧ a.refIdx = g.refIdx ∧ a.update = true := by
      subst h
      have := norm_fields { g with update := true } e.mono e.sub
      exact ⟨this.1.trans ha, this.2⟩
    have hbody : encodeGrainBody a e.mono e.sub = encodeGrainBody g e.mono e.sub := by
      have e1 : encodeGrainBody a e.mono e.sub = encodeGrainBody { g with update := true } e.mono e.sub := by
        subst h
        unfold encodeGrainBody
        rw [norm_norm]
      rw [e1]
      obtain ⟨⟩ := g
      unfold encodeGrainBody Grain.norm Grain.noChroma
      simp only
      cases e.mono <;> simp only [Bool.true_or, Bool.false_or, if_true, Bool.false_eq_true, if_false] <;> (try rfl)
      split <;> rfl
    unfold encodeGrain grainNow
    simp only [hs, if_true, hfields, ha, hbody, hr]
    cases hi : e.inter with
    | false => rfl
    | true =>
      rcases hu with hu | hu
      · rw [hi] at hu; cases hu
      · rw [hu]

/-- **C88**, exactly when writing the frame again gives the same bits: unless it takes its parameters from a reference, or the
reference applies grain and would itself be sent as a copy of the same reference. -/
theorem C88_again_iff (g : Grain) (e : GrainEnv) (hr : e.refs.length = 8) (a : Grain) (h : grainAfter (some g) e = some a) :
    encodeGrain (some a) e = encodeGrain (some g) e ↔
      (e.shown = true → g.apply = true → e.inter = true → g.update = false →
        ∃ r, e.refs[g.refIdx]? = some r ∧ r.apply = true ∧ r.update = false ∧ r.refIdx = g.refIdx) := by
  have h0 : (e.refs[0]?).isSome := by rw [List.getElem?_eq_getElem (by omega)]; rfl
  have hnew : ∀ g', grainNow g' e = Grain.new → encodeGrain g' e = some [0] := by
    intro g' hg
    unfold encodeGrain
    simp only [hg]
    obtain ⟨r, hr0⟩ := Option.isSome_iff_exists.1 h0
    rw [show Grain.new.refIdx = 0 from rfl, hr0]
    rfl
  have hnn : grainNow (some Grain.new) e = Grain.new := by simp [grainNow]
  by_cases hs : e.shown = true
  swap
  · have hnow : ∀ x, grainNow (some x) e = Grain.new := by intro x; simp [grainNow, hs]
    rw [hnew _ (hnow _), hnew _ (hnow _)]
    simp [hs]
  by_cases ha : g.apply = true
  swap
  · have ha' : a = Grain.new := by
      unfold grainAfter grainNow at h
      simp only [hs, if_true, Option.bind_eq_bind, Option.bind_eq_some_iff] at h
      obtain ⟨r, -, h⟩ := h
      rw [if_neg ha] at h
      exact (Option.some.inj h).symm
    have hg : encodeGrain (some g) e = some [0] := by
      unfold grainAfter grainNow at h
      simp only [hs, if_true, Option.bind_eq_bind, Option.bind_eq_some_iff] at h
      obtain ⟨r, hr1, -⟩ := h
      unfold encodeGrain grainNow
      simp only [hs, if_true, hr1, ha]
      rfl
    rw [ha', hnew _ hnn, hg]
    simp [ha]
  by_cases hu : e.inter = false ∨ g.update = true
  · have := C88_again g e hs ha hu a h
    simp only [this, true_iff]
    intro _ _ h1 h2
    rcases hu with hu | hu
    · rw [hu] at h1; cases h1
    · rw [hu] at h2; cases h2
  · push Not at hu
    have hi : e.inter = true := by simpa using hu.1
    have hg : g.update = false := by simpa using hu.2
    simp only [hs, ha, hi, hg, true_implies]
    unfold grainAfter grainNow at h
    simp only [hs, if_true, Option.bind_eq_bind, Option.bind_eq_some_iff, ha, hi, hg] at h
    obtain ⟨r, hr1, h⟩ := h
    have ea : a = { r with seed := g.seed } := by simpa using h.symm
    have hidx : g.refIdx < 8 := by
      rw [← hr]; exact (List.getElem?_eq_some_iff.1 hr1).1
    have eg : encodeGrain (some g) e = some (raw ([true] ++ (toBits 16 g.seed ++ ([false] ++ toBits 3 g.refIdx)))) := by
      unfold encodeGrain grainNow
      simp only [hs, if_true, hr1, ha, hi, hg, Option.bind_eq_bind, Option.bind_some, Bool.not_false,
        pushN_eq _ 16 (by decide), pushN_eq _ 3 (by decide)]
      simp [cat_cons, cat_nil, pushB, raw]
    rw [eg]
    constructor
    · intro he
      refine ⟨r, hr1, ?_⟩
      rw [ea] at he
      unfold encodeGrain grainNow at he
      simp only [hs, if_true, hi, Option.bind_eq_bind, Option.bind_eq_some_iff] at he
      obtain ⟨q, hq, he⟩ := he
      have hq8 : r.refIdx < 8 := by rw [← hr]; exact (List.getElem?_eq_some_iff.1 hq).1
      cases hra : r.apply with
      | false =>
        rw [hra] at he
        simp [cat_cons, cat_nil, pushB, raw] at he
      | true =>
        rw [hra] at he
        simp only [if_true, pushN_eq _ 16 (show 16 ≤ 32 by decide), pushN_eq _ 3 (show 3 ≤ 32 by decide)] at he
        cases hru : r.update with
        | true =>
          exfalso
          rw [hru] at he
          simp only [Bool.not_true, Bool.false_eq_true, if_false, cat_cons, cat_nil, pushB, Option.bind_some] at he
          generalize encodeGrainBody _ e.mono e.sub = x at he
          cases x with
          | none => cases he
          | some x => simp [raw] at he
        | false =>
          rw [hru] at he
          simp only [Bool.not_false, if_true, cat_cons, cat_nil, pushB, Option.bind_some, Option.some.injEq] at he
          refine ⟨rfl, rfl, ?_⟩
          have h3 : raw (toBits 3 r.refIdx) = raw (toBits 3 g.refIdx) := by simpa [raw] using he
          have h4 := congrArg num (raw_inj h3)
          rw [num_toBits, num_toBits] at h4
          omega
    · rintro ⟨r', hr', h1, h2, h3⟩
      rw [hr1] at hr'
      obtain rfl := Option.some.inj hr'
      rw [ea]
      unfold encodeGrain grainNow
      simp only [hs, if_true, h1, h2, h3, hi, hr1, Option.bind_eq_bind, Option.bind_some, Bool.not_false,
        pushN_eq _ 16 (by decide), pushN_eq _ 3 (by decide)]
      simp [cat_cons, cat_nil, pushB, raw]

/-- A frame that copies a reference without grain: the second time it has none itself. -/
example : let g : Grain := { Grain.new with apply := true, seed := 7 }
    let e : GrainEnv := ⟨true, true, false, true, List.replicate 8 Grain.new⟩
    (grainAfter (some g) e).bind (fun a => encodeGrain (some a) e) = some [0] ∧
      (encodeGrain (some g) e).map List.length = some 21 := by decide +kernel

end Av1
