import Verif.Props.FrameFront
import Verif.Props.FrameFilters
import Verif.Props.GlobalMotion
import Verif.Props.FilmGrain

/-!
# What the sections of a frame header write and leave behind, for frames of every type

C84, C86, C88–C93.  The whole header of an inter frame panics (`C93_never`); its sections are read back one by one here.
-/

namespace Av1

/-! ## C84: CDEF switched off -/

/-- Where CDEF is not coded, what is left behind is AV1's "no filtering" (5.9.19): damping 3, one strength, all zero. -/
theorem C84_off (c : Cdef) (planes : Nat) : (cdefAfter c true planes).applied planes =
    (3, [((0, 0), if planes > 1 then some (0, 0) else none)]) := by
  have e : ∀ l : List Nat, (l.set 0 0).getD 0 0 = 0 := by intro l; cases l <;> rfl
  simp only [cdefAfter, if_true, Cdef.applied, pow_zero, List.range_one, List.map_cons, List.map_nil, e]

/-! ## C86: parameters of arbitrary models -/

/-- AV1 5.9.25: bits of the absolute value and of the fraction of a parameter. -/
def av1ParamBits (typ idx : Nat) (hp : Bool) : Nat × Nat :=
  if 2 ≤ idx then (12, 15) else if typ ≠ 1 then (12, 6) else if hp then (9, 3) else (8, 2)

/-- AV1's identity model: ones (in 16 bits of fraction) on the diagonal. -/
def av1Identity (idx : Nat) : Int := if idx = 2 ∨ idx = 5 then 65536 else 0

theorem gmBits_eq (typ idx : Nat) (hp : Bool) : gmBits typ idx hp = av1ParamBits typ idx hp := by
  unfold gmBits av1ParamBits
  by_cases h : idx < 2
  · have h' : ¬ 2 ≤ idx := by omega
    by_cases ht : typ = 1
    · cases hp <;> simp [h, h', ht]
    · simp [h, h', ht]
  · have h' : 2 ≤ idx := by omega
    simp [h, h']

/-- What a decoder finds for the parameter `v` (in units of AV1's precision, relative to the identity) coded relative to `r ≤ 0`:
the value recentered twice. -/
def foundParam (bits : Nat) (v r : Int) : Int :=
  -2 ^ bits + Hdr.unRecenter (r + 2 ^ bits).toNat (Hdr.unRecenter (r + 2 ^ bits).toNat (v + 2 ^ bits).toNat)

/-- A single parameter of any model with any previous parameter not above the identity: a decoder finds the value recentered
twice. -/
theorem C86_param (typ idx : Nat) (hp : Bool) (params prev : List Int) (hi : idx < 6) (g p v r : Int)
    (hg : params[idx]? = some g) (hpp : prev[idx]? = some p)
    (hv : g = v * 2 ^ (16 - (av1ParamBits typ idx hp).2) + av1Identity idx)
    (hr : p = r * 2 ^ (16 - (av1ParamBits typ idx hp).2) + av1Identity idx)
    (hv1 : -2 ^ (av1ParamBits typ idx hp).1 ≤ v) (hv2 : v ≤ 2 ^ (av1ParamBits typ idx hp).1)
    (hr1 : -2 ^ (av1ParamBits typ idx hp).1 ≤ r) (hr2 : r ≤ 0) :
    Writes (encodeGlobalParam typ idx hp params prev) (Hdr.globalParam typ idx hp p)
      (foundParam (av1ParamBits typ idx hp).1 v r * 2 ^ (16 - (av1ParamBits typ idx hp).2) + av1Identity idx) := by
  have hmod : (idx % 3 = 2) ↔ (idx = 2 ∨ idx = 5) := by omega
  have hspec : Hdr.globalParam typ idx hp p = (do
      let v ← Hdr.signedSubexp (-2 ^ (av1ParamBits typ idx hp).1) (2 ^ (av1ParamBits typ idx hp).1 + 1)
        (p / 2 ^ (16 - (av1ParamBits typ idx hp).2) - if idx % 3 = 2 then 2 ^ (av1ParamBits typ idx hp).2 else 0)
      pure (v * 2 ^ (16 - (av1ParamBits typ idx hp).2) + if idx % 3 = 2 then 2 ^ 16 else 0)) := by
    unfold Hdr.globalParam av1ParamBits
    by_cases h : idx < 2
    · have h' : ¬ 2 ≤ idx := by omega
      by_cases ht : typ = 1
      · cases hp <;> simp [h, h', ht]
      · simp [h, h', ht]
    · have h' : 2 ≤ idx := by omega
      simp [h, h']
  have hprec : idx % 3 = 2 → (av1ParamBits typ idx hp).2 = 15 := by
    intro h; unfold av1ParamBits; rw [if_pos (by omega)]
  have hab : (av1ParamBits typ idx hp).1 ≤ 12 := by
    unfold av1ParamBits; split <;> [skip; split <;> [skip; split]] <;> decide
  have hpb : (av1ParamBits typ idx hp).2 ≤ 15 := by
    unfold av1ParamBits; split <;> [skip; split <;> [skip; split]] <;> decide
  rw [hspec]
  unfold encodeGlobalParam
  rw [gmBits_eq]
  generalize av1ParamBits typ idx hp = w at *
  obtain ⟨a, b⟩ := w
  dsimp only at *
  have hpos : (0 : Int) < 2 ^ (16 - b) := by positivity
  have e1 : (g - if idx % 3 = 2 then 2 ^ 16 else 0) >>> (16 - b) = v := by
    rw [Int.shiftRight_eq_div_pow]
    have : (g - if idx % 3 = 2 then (2 : Int) ^ 16 else 0) = v * 2 ^ (16 - b) := by
      rw [hv]; unfold av1Identity
      by_cases h : idx % 3 = 2
      · rw [if_pos h, if_pos (hmod.1 h)]; ring
      · rw [if_neg h, if_neg (fun x => h (hmod.2 x))]; ring
    rw [this]; push_cast
    exact Int.mul_ediv_cancel _ (by omega)
  have e2 : p / 2 ^ (16 - b) - (if idx % 3 = 2 then (2 : Int) ^ b else 0) = r := by
    rw [hr]; unfold av1Identity
    by_cases h : idx % 3 = 2
    · rw [if_pos h, if_pos (hmod.1 h)]
      have hb := hprec h
      subst hb
      norm_num
      omega
    · rw [if_neg h, if_neg (fun x => h (hmod.2 x)), Int.add_zero, Int.mul_ediv_cancel _ (by omega)]; ring
  have e3 : p >>> (16 - b) = p / 2 ^ (16 - b) := by
    rw [Int.shiftRight_eq_div_pow]; push_cast; rfl
  simp only [hg, hpp, Option.bind_eq_bind, Option.bind_some, e1, e3, e2]
  have hA : (2 : Int) ^ a ≤ 4096 := by
    calc (2 : Int) ^ a ≤ 2 ^ 12 := pow_le_pow_right₀ (by decide) hab
      _ = 4096 := by norm_num
  have hA0 : (0 : Int) < 2 ^ a := by positivity
  have hx := C41_lower_half (-2 ^ a) (2 ^ a + 1) r v hv1 (by omega) hr1 (by omega) (by omega)
  have hy := Writes.map (fun v : Int => v * 2 ^ (16 - b) + if idx % 3 = 2 then 2 ^ 16 else 0) hx
  have e4 : (if idx % 3 = 2 then (2 : Int) ^ 16 else 0) = av1Identity idx := by
    unfold av1Identity
    by_cases h : idx % 3 = 2
    · rw [if_pos h, if_pos (hmod.1 h)]; norm_num
    · rw [if_neg h, if_neg (fun x => h (hmod.2 x))]
  simp only [e4, Int.sub_neg] at hy ⊢
  exact hy

/-- With AV1's own previous parameters, the identity, every model could be read, but never as the identity the encoder goes on
with: (type, the six parameters found). -/
def foundModel (t : Nat) (hp : Bool) : Nat × List Int :=
  let w (idx : Nat) : Int := foundParam (av1ParamBits t idx hp).1 0 0 * 2 ^ (16 - (av1ParamBits t idx hp).2) + av1Identity idx
  if t = 0 then (0, [0, 0, 65536, 0, 0, 65536])
  else if t = 1 then (1, [w 0, w 1, 65536, 0, 0, 65536])
  else if t = 2 then (2, [w 0, w 1, w 2, w 3, -w 3, w 2])
  else (3, [w 0, w 1, w 2, w 3, w 4, w 5])

theorem C86_identity_prev (f : GmFlags) (hp : Bool) :
    Writes (encodeGlobalRef f hp [0, 0, 65536, 0, 0, 65536]) (Hdr.gmRef hp [0, 0, 65536, 0, 0, 65536])
      (foundModel f.typ hp) := by
  have par : ∀ (t idx : Nat), idx < 6 → ∀ params : List Int, params[idx]? = some (av1Identity idx) →
      Writes (encodeGlobalParam t idx hp params [0, 0, 65536, 0, 0, 65536])
        (Hdr.globalParam t idx hp (([0, 0, 65536, 0, 0, 65536] : List Int).getD idx 0))
        (foundParam (av1ParamBits t idx hp).1 0 0 * 2 ^ (16 - (av1ParamBits t idx hp).2) + av1Identity idx) := by
    intro t idx hi params h
    have h2 : ([0, 0, 65536, 0, 0, 65536] : List Int)[idx]? = some (av1Identity idx) := by interval_cases idx <;> rfl
    have h3 : (([0, 0, 65536, 0, 0, 65536] : List Int).getD idx 0) = av1Identity idx := by interval_cases idx <;> rfl
    rw [h3]
    exact C86_param t idx hp params _ hi _ _ 0 0 h h2 (by ring) (by ring) (by simp) (by simp) (by simp) (by simp)
  have two : ∀ (t : Nat) (params : List Int), params[0]? = some 0 → params[1]? = some 0 → ∀ (rest : List Int),
      Writes (cat [cat [encodeGlobalParam t 0 hp params [0, 0, 65536, 0, 0, 65536],
        encodeGlobalParam t 1 hp params [0, 0, 65536, 0, 0, 65536]]]) (do
        let b ← (do
          let p0 ← Hdr.globalParam t 0 hp 0
          let p1 ← Hdr.globalParam t 1 hp 0
          pure [p0, p1])
        pure (t, b ++ rest))
        (t, [foundParam (av1ParamBits t 0 hp).1 0 0 * 2 ^ (16 - (av1ParamBits t 0 hp).2) + av1Identity 0,
          foundParam (av1ParamBits t 1 hp).1 0 0 * 2 ^ (16 - (av1ParamBits t 1 hp).2) + av1Identity 1] ++ rest) := by
    intro t params h0 h1 rest
    refine Writes.last (Writes.map (fun b => (t, b ++ rest)) ?_)
    refine Writes.cons (par t 0 (by decide) params h0) ?_
    exact Writes.last (Writes.map (fun p1 => [foundParam (av1ParamBits t 0 hp).1 0 0 * 2 ^ (16 - (av1ParamBits t 0 hp).2) +
      av1Identity 0, p1]) (par t 1 (by decide) params h1))
  unfold encodeGlobalRef Hdr.gmRef
  obtain ⟨a, b, c⟩ := f
  have hflat : ∀ (x y : Option Raw) (l : List (Option Raw)), cat (x :: y :: l) = cat (cat [x, y] :: l) := cat_pair
  rw [hflat]
  cases a with
  | false => exact ⟨[false], rfl, fun _ => rfl⟩
  | true =>
    cases b with
    | true =>
      refine Writes.cons (v := 2) ⟨[true, true], rfl, fun _ => rfl⟩ ?_
      refine Writes.cons (Writes.cons (par 2 2 (by decide) _ rfl) (Writes.cons (par 2 3 (by decide) _ rfl)
        (Writes.skip (Writes.pure _)))) ?_
      exact two 2 _ rfl rfl _
    | false =>
      cases c with
      | true =>
        refine Writes.cons (v := 1) ⟨[true, false, true], rfl, fun _ => rfl⟩ ?_
        refine Writes.skip ?_
        exact two 1 _ rfl rfl _
      | false =>
        refine Writes.cons (v := 3) ⟨[true, false, false], rfl, fun _ => rfl⟩ ?_
        refine Writes.cons (Writes.cons (par 3 2 (by decide) _ rfl) (Writes.cons (par 3 3 (by decide) _ rfl)
          (Writes.last (Writes.cons (par 3 4 (by decide) _ rfl) (Writes.last (Writes.map (fun p5 => [_, _, _, p5]) (par 3 5 (by decide) _ rfl))))))) ?_
        exact two 3 _ rfl rfl _

theorem C86_identity_prev_wrong (f : GmFlags) (hp : Bool) (h : f.isGlobal = true) :
    (foundModel f.typ hp).2 ≠ [0, 0, 65536, 0, 0, 65536] := by
  obtain ⟨a, b, c⟩ := f
  obtain rfl : a = true := h
  cases b <;> cases c <;> cases hp <;> decide +kernel

/-- The parameters an inter frame leaves behind for the references 1 to 6: the identity, and for a rotation or zoom the identity
with its last parameter negated, where AV1 would have copied the third. -/
theorem C86_left (g : Gm) (rf : Nat) (h1 : 1 ≤ rf) (h2 : rf ≤ 6) (hl : rf < g.params.length) :
    (gmAfter g false).params[rf]? = some (if (g.flags.getD rf ⟨false, false, false⟩).typ = 2
      then [0, 0, 65536, 0, 0, -65536] else [0, 0, 65536, 0, 0, 65536]) := by
  simp only [gmAfter, List.getElem?_mapIdx, h1, h2, and_self, if_true, List.getElem?_eq_getElem hl, Option.map_some,
    Bool.false_eq_true, if_false]
  by_cases ht : (g.flags.getD rf ⟨false, false, false⟩).typ = 2
  · rw [if_pos ht, ht]; rfl
  · rw [if_neg ht]; unfold gmParamsAfter; rw [if_neg ht]; rfl

example : (gmAfter gmSample false).params[1]? = some [0, 0, 65536, 0, 0, 65536] :=
  C86_left gmSample 1 (by decide) (by decide) (by decide)

/-! ## C88: coefficients of film grain -/

/-- A coefficient is read back exactly if it is in AV1's range, whatever its value as an `i16`. -/
theorem C88_coeff_iff (c : Int) (h : -32768 ≤ c ∧ c ≤ 32767) :
    Writes (pushCoeff [c] 0) Hdr.coeff c ↔ -128 ≤ c ∧ c < 128 := by
  constructor
  · intro hw
    by_cases hb : c + 128 > 32767
    · obtain ⟨e, he, -⟩ := hw
      simp [pushCoeff, hb] at he
    · have e : pushCoeff [c] 0 = pushN ((c + 128) % 2 ^ 8).toNat 8 := by
        simp only [pushCoeff, List.getElem?_cons_zero, Option.bind_eq_bind, Option.bind_some, if_neg hb]
        rw [pushN_eq _ 8 (by decide), pushN_eq _ 8 (by decide), toBits_congr]
        omega
      have h2 := Writes.map (fun v : Nat => (v : Int) - 128) (writes_f 8 ((c + 128) % 2 ^ 8).toNat (by decide) (by omega))
      rw [← e] at h2
      have := hw.unique h2
      omega
  · intro hc
    exact writes_coeff [c] 0 (by simp) (by simpa using hc)

example : ¬ Writes (pushCoeff [-129] 0) Hdr.coeff (-129) ∧ Writes (pushCoeff [-128] 0) Hdr.coeff (-128) :=
  ⟨by rw [C88_coeff_iff _ (by decide)]; decide, by rw [C88_coeff_iff _ (by decide)]; decide⟩

/-! ## C89: showing an existing frame -/

/-- The context after a header that shows an existing frame (AV1 5.9.2): all slots are refreshed if it is a key frame, none
otherwise; the frame takes the type of the slot. -/
theorem C89_after (c : HCtx) (f : HFrame) (h : c.Ok) (hi : c.showIdx < 8) : ∃ t, c.refType[c.showIdx]? = some t ∧
    existingAfter c f = some ({ c with seen := true, refresh := if t = .key then 2 ^ 8 - 1 else 0 }, { f with type := t }) := by
  have hlt : c.showIdx < c.refType.length := by rw [h.refType]; exact hi
  exact ⟨_, List.getElem?_eq_getElem hlt, by simp [existingAfter, List.getElem?_eq_getElem hlt]⟩

example : HCtx.new.Ok ∧ HCtx.new.showIdx < 8 := ⟨HCtx.new_ok, by decide⟩

/-! ## C90: order hints of references -/

/-- In an error resilient frame with order hints a reference stays valid exactly if the hint the frame expects in its slot is
the one the slot holds. -/
theorem C90_hints (c : HCtx) (f : HFrame) (h : c.Ok) (hf : f.refHint.length = 8) (he : f.errRes = true)
    (ho : c.enableOrderHint = true) (hi : c.isIntra = false) (i : Nat) (hlt : i < 8) :
    (refreshAfter c f).1.refValid.getD i false = (c.refValid.getD i false && decide (f.refHint.getD i 0 = c.refHint.getD i 0)) := by
  have h1 := h.refHint
  have h2 := h.refValid
  simp only [refreshAfter, hi, he, ho, Bool.not_false, Bool.true_or, Bool.and_self, if_true]
  simp only [List.getD_eq_getElem?_getD, List.getElem?_zipWith, List.getElem?_zip_eq_some, List.zip, Option.map₂]
  rw [List.getElem?_eq_getElem (by omega : i < f.refHint.length), List.getElem?_eq_getElem (by omega : i < c.refHint.length),
    List.getElem?_eq_getElem (by omega : i < c.refValid.length)]
  by_cases hq : f.refHint[i] = c.refHint[i] <;> simp [hq]

example : HCtx.new.Ok ∧ (HFrame.new .inter 352 288).refHint.length = 8 := ⟨HCtx.new_ok, by decide⟩

/-! ## C91: sections of every frame type -/

/-- Screen content tools and integer motion vectors: a decoder reads what the encoder goes on with, in intra frames and in
others. -/
theorem C91_tools (s : Hdr.SeqInfo) (c : HCtx) (f : HFrame) (h : Agrees s c f) (ho : FrontOk c f) :
    Writes (toolsBits c f) (Hdr.tools s c.isIntra) (c.disableCdfUpdate, (toolsAfter c f).sct, (toolsAfter c f).intMv) :=
  writes_frontTools s c f h ho c.isIntra

example : Agrees plainSeq HCtx.new (HFrame.new .inter 352 288) := by constructor <;> first | rfl | decide

/-- `frame_size_override_flag` (5.9.2). -/
theorem C91_override (c : HCtx) (f : HFrame) :
    Writes (overrideBits c f) (if f.type.code = 3 then pure true else if c.reduced then pure false else P.flag)
      (overrideAfter c f) := by
  unfold overrideBits overrideAfter
  by_cases h : f.type = .switch
  · rw [if_pos h, if_pos h, if_pos (by rw [h]; rfl)]; exact Writes.pure _
  · have h3 : ¬ f.type.code = 3 := by revert h; cases f.type <;> decide
    rw [if_neg h, if_neg h, if_neg h3]
    cases c.reduced
    · exact writes_flag _
    · exact Writes.pure _

/-- `order_hint` and `primary_ref_frame` (5.9.2). -/
theorem C91_primary (c : HCtx) (f : HFrame) (n : Nat) (hn : n ≤ 32) (hh : f.orderHint < 2 ^ n) (hp : f.primary < 8) :
    Writes (primaryBits c f n) (do
      let oh ← P.f n
      let pr ← (if c.isIntra || f.errRes then pure 7 else P.f 3)
      pure (oh, pr)) (f.orderHint, primaryAfter c f) := by
  unfold primaryBits primaryAfter
  rw [Nat.mod_eq_of_lt (by omega)]
  refine Writes.cons (writes_f n _ hn hh) ?_
  cases c.isIntra || f.errRes
  · exact Writes.map (fun pr => (f.orderHint, pr)) (Writes.last (writes_f 3 _ (by decide) hp))
  · exact Writes.skip (Writes.pure _)

example : Writes (primaryBits HCtx.new { HFrame.new .inter 352 288 with orderHint := 5, primary := 6 } 4) (do
    let oh ← P.f 4
    let pr ← (if HCtx.new.isIntra || false then pure 7 else P.f 3)
    pure (oh, pr)) (5, 6) :=
  C91_primary HCtx.new { HFrame.new .inter 352 288 with orderHint := 5, primary := 6 } 4 (by decide) (by decide) (by decide)

/-- Buffer removal times panic exactly on layer ids beyond the 16 bits of an operating point; all of AV1's ids are below. -/
theorem C91_removal_panics_iff (c : HCtx) (d : FrameDmi) (idc : Nat) (h : d.removalLen ≤ 32) :
    removalBit c d idc = none ↔ 16 ≤ c.temporalId ∨ 8 ≤ c.spatialId := by
  unfold removalBit
  by_cases hq : c.temporalId ≥ 16 ∨ c.spatialId + 8 ≥ 16
  · rw [if_pos hq]; simp; omega
  · rw [if_neg hq]
    constructor
    · intro hn
      exfalso
      split at hn
      · rw [pushN_eq _ _ (by omega)] at hn; exact absurd hn (by simp)
      · exact absurd hn (by simp [cat_nil])
    · intro hx; omega

/-- Bits of the buffer removal times: one time for every operating point the frame belongs to. -/
theorem removal_written (s : Hdr.SeqInfo) (c : HCtx) (f : HFrame) (h : Agrees s c f) (d : FrameDmi) (hn : d.removalLen ≤ 32) :
    ∀ l : List Nat, ∃ e, cat (l.map (removalBit c d)) = some (raw e) ∧ e.length = d.removalLen * l.countP (Hdr.inLayers s)
  | [] => ⟨[], rfl, rfl⟩
  | idc :: l => by
    obtain ⟨e, h1, h2⟩ := removal_written s c f h d hn l
    have hl := h.layers
    have hin : (idc = 0 ∨ ((idc >>> c.temporalId) % 2 = 1 ∧ (idc >>> (c.spatialId + 8)) % 2 = 1)) ↔
        Hdr.inLayers s idc = true := by
      simp [Hdr.inLayers, shift_odd, h.temporal, h.spatial]
    rw [List.map_cons, cat_cons, h1]
    unfold removalBit
    rw [if_neg (by omega)]
    by_cases hq : Hdr.inLayers s idc = true
    · rw [if_pos (hin.2 hq), Nat.mod_eq_of_lt (by omega), pushN_eq _ _ hn]
      refine ⟨toBits d.removalLen d.removal ++ e, by rw [raw_append]; rfl, ?_⟩
      rw [List.length_append, length_toBits, h2, List.countP_cons_of_pos hq, Nat.mul_add, Nat.mul_one, Nat.add_comm]
    · rw [if_neg fun x => hq (hin.1 x), List.countP_cons_of_neg hq]
      exact ⟨e, rfl, h2⟩

theorem removalField_length {n v : Nat} {b r : Bits} (h : P.f n b = some (v, r)) : b.length = r.length + n := by
  unfold P.f at h
  split at h
  · cases h
  · cases h; rw [List.length_drop]; omega

/-- Bits a decoder takes for them: one time for every operating point with a decoder model that the frame belongs to. -/
theorem removal_taken (s : Hdr.SeqInfo) (n : Nat) : ∀ (l : List (Nat × Bool)) (b r : Bits) (v : List (Option Nat)),
    Hdr.removalTimes s n l b = some (v, r) → b.length = r.length + n * l.countP fun o => o.2 && Hdr.inLayers s o.1
  | [], b, r, v, h => by cases h; rfl
  | (idc, pr) :: l, b, r, v, h => by
    unfold Hdr.removalTimes at h
    rw [P_bind] at h
    obtain ⟨⟨t, b1⟩, h1, h2⟩ := Option.bind_eq_some_iff.1 h
    rw [P_bind] at h2
    obtain ⟨⟨ts, b2⟩, h3, h4⟩ := Option.bind_eq_some_iff.1 h2
    cases h4
    have ih := removal_taken s n l b1 b2 ts h3
    unfold P.opt at h1
    by_cases hq : (pr && Hdr.inLayers s idc) = true
    · rw [if_pos hq, P_bind] at h1
      obtain ⟨⟨x, b3⟩, h5, h6⟩ := Option.bind_eq_some_iff.1 h1
      cases h6
      have := removalField_length h5
      rw [List.countP_cons_of_pos (by exact hq), Nat.mul_add, Nat.mul_one]
      dsimp only at ih ⊢
      omega
    · rw [if_neg hq] at h1
      cases h1
      rw [List.countP_cons_of_neg (by exact hq)]
      exact ih

theorem countP_sub {α : Type} (p q : α → Bool) (l : List α) (h : l.countP (fun x => q x && p x) = l.countP p) :
    ∀ x ∈ l, p x = true → q x = true := by
  have key : l.countP (fun x => q x && p x) + l.countP (fun x => !q x && p x) = l.countP p := by
    clear h
    induction l with
    | nil => rfl
    | cons x l ih =>
      simp only [List.countP_cons]
      cases q x <;> cases p x <;> simp <;> omega
  have h0 : l.countP (fun x => !q x && p x) = 0 := by omega
  intro x hx hp
  have := List.countP_eq_zero.1 h0 x hx
  cases hq : q x
  · simp [hq, hp] at this
  · rfl

/-- **C91**, buffer removal times, exactly: a decoder finds the end of them iff every operating point the frame belongs to has a
decoder model; and then it reads the times asked for (`writes_removal`).  The code writes a time for those without, too. -/
theorem C91_removal_iff (s : Hdr.SeqInfo) (c : HCtx) (f : HFrame) (h : Agrees s c f) (ho : FrontOk c f) (d : FrameDmi)
    (hd : f.dmi = some d) (hp : d.removalPresent = true) :
    (Writes (removalBits c f) (Hdr.removal s)
        (some (c.opIdcs.map fun idc => if Hdr.inLayers s idc then some d.removal else none)) ↔
      ∀ o ∈ s.ops, Hdr.inLayers s o.1 = true → o.2 = true) ∧
    ((∃ v, Writes (removalBits c f) (Hdr.removal s) v) ↔ ∀ o ∈ s.ops, Hdr.inLayers s o.1 = true → o.2 = true) := by
  obtain ⟨-, -, n1, n2, -⟩ := ho.time d hd
  have fwd : (∀ o ∈ s.ops, Hdr.inLayers s o.1 = true → o.2 = true) → Writes (removalBits c f) (Hdr.removal s)
      (some (c.opIdcs.map fun idc => if Hdr.inLayers s idc then some d.removal else none)) := fun ha => by
    have := writes_removal s c f h ho fun _ _ _ => ha
    rw [hd, Option.bind_some, if_pos hp] at this
    exact this
  have bwd : (∃ v, Writes (removalBits c f) (Hdr.removal s) v) → ∀ o ∈ s.ops, Hdr.inLayers s o.1 = true → o.2 = true := by
    rintro ⟨v, e, h1, h2⟩
    obtain ⟨e', h3, h4⟩ := removal_written s c f h d n2 c.opIdcs
    have he : e = true :: e' := by
      unfold removalBits at h1
      rw [hd] at h1
      simp only [hp, if_true] at h1
      rw [cat_cons, cat_cons, h3] at h1
      have : raw (true :: e') = raw e := by
        rw [← Option.some.injEq, ← h1]
        simp [pushB, cat_nil, raw]
      exact (raw_inj this).symm
    subst he
    have h5 := h2 []
    unfold Hdr.removal at h5
    rw [h.model, hd] at h5
    simp only [Option.map_some, P.flagged, P_bind, List.append_nil, P.flag, Option.bind_some, P.opt, if_true] at h5
    obtain ⟨⟨ts, r⟩, h6, h7⟩ := Option.bind_eq_some_iff.1 h5
    cases h7
    have h8 := removal_taken s _ _ _ _ _ h6
    rw [h4, ← h.ops, List.length_nil, Nat.zero_add, List.countP_map] at h8
    exact countP_sub _ _ _ (Nat.eq_of_mul_eq_mul_left n1 h8).symm
  exact ⟨⟨fun hw => bwd ⟨_, hw⟩, fwd⟩, bwd, fun ha => ⟨_, fwd ha⟩⟩

/-- Two operating points, the first with a decoder model.  A frame of layer 0 belongs to the first only, which is well; one that
belongs to both is not read. -/
def layerSeq (second : Nat) : Hdr.SeqInfo := { halfSeq with model := some (10, 8), ops := [(0x101, true), (second, false)] }
def layerCtx (second : Nat) : HCtx := { halfCtx with opIdcs := [0x101, second] }
def layerFrame : HFrame := { halfFrame with dmi := some ⟨true, 10, 700, 8⟩, pointInfo := some 5 }

theorem layer_agrees (second : Nat) : Agrees (layerSeq second) (layerCtx second) layerFrame := by
  constructor <;> first | rfl | exact fun h => absurd h (by decide : ¬ (false = true)) | exact ⟨(by decide : 0 < 8), (by decide : 0 < 4)⟩
theorem layer_ok (second : Nat) : FrontOk (layerCtx second) layerFrame := by
  have h := half_ok 352 (by decide)
  refine ⟨h.show_, ?_, h.display, h.id, h.sct, h.intMv, h.primary, h.refresh, h.denom, h.render⟩
  intro d hd
  cases hd
  exact ⟨by decide, by decide, by decide, by decide, by decide, 5, rfl, by decide⟩

example : Writes (removalBits (layerCtx 0x202) layerFrame) (Hdr.removal (layerSeq 0x202)) (some [some 700, none]) :=
  (C91_removal_iff _ _ _ (layer_agrees _) (layer_ok _) ⟨true, 10, 700, 8⟩ rfl rfl).1.2 (by decide)

example : ¬ ∃ v, Writes (removalBits (layerCtx 0x303) layerFrame) (Hdr.removal (layerSeq 0x303)) v :=
  fun h => absurd ((C91_removal_iff _ _ _ (layer_agrees _) (layer_ok _) ⟨true, 10, 700, 8⟩ rfl rfl).2.1 h) (by decide)

/-- `disable_frame_end_update_cdf` (5.9.2). -/
theorem C91_end (c : HCtx) : Writes (endBits c) (if c.reduced || c.disableCdfUpdate then pure true else P.flag) (endAfter c) := by
  unfold endBits endAfter
  cases c.reduced || c.disableCdfUpdate
  · exact writes_flag _
  · exact Writes.pure _

/-! ## C92: own sizes -/

/-- The bits of a size of its own, for every frame: as many as the position of the top bit of the size minus one (as a `u16`). -/
theorem C92_own_size (c : HCtx) (f : HFrame) (hov : c.sizeOverride = true) (hw : 1 ≤ f.width) (hh : 1 ≤ f.height) :
    sizeBits c f = some (raw (toBits (Nat.log2 ((f.width - 1) % 2 ^ 16)) (f.width - 1) ++
      toBits (Nat.log2 ((f.height - 1) % 2 ^ 16)) (f.height - 1))) := by
  have hb : ∀ n, Nat.log2 (n % 2 ^ 16) ≤ 32 := by
    intro n
    by_cases h0 : n % 2 ^ 16 = 0
    · rw [h0]; decide
    · have h1 := (Nat.log2_lt h0 (k := 16)).2 (Nat.mod_lt _ (by decide))
      omega
  unfold sizeBits
  rw [if_pos hov, usub_eq _ _ hw, usub_eq _ _ hh]
  simp only [Option.bind_eq_bind, Option.bind_some]
  have hm : ∀ n, n % 2 ^ 16 < 65536 := fun n => Nat.mod_lt _ (by decide)
  rw [msb16_eq _ (hm _), msb16_eq _ (hm _)]
  simp only [Option.bind_some]
  rw [pushN_eq _ _ (hb _), pushN_eq _ _ (hb _), cat_cons, cat_single, raw_append]
  rfl

example : sizeBits { HCtx.new with sizeOverride := true } (HFrame.new .key 1 65537) = some [] := by decide +kernel

/-! ## C93: the sections of an inter frame -/

/-- The size of an inter frame is read back if it has no size of its own, or takes one from a reference; that is always the
first one, whatever its size. -/
theorem C93_size (s : Hdr.SeqInfo) (c : HCtx) (f : HFrame) (h : Agrees s c f) (ho : FrontOk c f)
    (hov : c.sizeOverride = true → f.errRes = false) (hw : s.maxWidth = f.width) (hh : s.maxHeight = f.height) :
    Writes (interSizeBits c f) (Hdr.interSize s c.sizeOverride f.errRes)
      (if c.sizeOverride then .inl (0, denomAfter c f) else .inr (sizeOf c f)) := by
  unfold interSizeBits Hdr.interSize
  cases hc : c.sizeOverride with
  | false =>
    simp only [Bool.false_and, Bool.false_eq_true, if_false]
    exact Writes.map Sum.inr (writes_fullSize s c f h ho hc hw hh)
  | true =>
    simp only [hov hc, Bool.not_false, Bool.and_self, if_true]
    have h1 : Writes (pushB true) (Hdr.foundRef 7 0) (some 0) := ⟨[true], rfl, fun _ => rfl⟩
    exact Writes.cons h1 (Writes.last (Writes.map (fun d => Sum.inl (0, d)) (writes_superres s c f h ho)))

/-- The widths and the render size an inter frame goes on with. -/
theorem C93_size_after (c : HCtx) (f : HFrame) :
    (interSizeAfter c f).1.upscaledWidth = f.width ∧ (interSizeAfter c f).2.width = (sizeOf c f).coded ∧
    (interSizeAfter c f).2.height = f.height ∧ ((interSizeAfter c f).2.renderWidth, (interSizeAfter c f).2.renderHeight) =
      if c.sizeOverride && !f.errRes then (f.renderWidth, f.renderHeight) else renderOf c f := by
  unfold interSizeAfter
  by_cases hq : (c.sizeOverride && !f.errRes) = true
  · rw [if_pos hq, if_pos hq]; exact ⟨rfl, rfl, rfl, rfl⟩
  · rw [if_neg hq, if_neg hq]
    unfold fullSizeAfter renderAfter renderOf
    by_cases hd : renderDiffers (superresAfter c f).2 = true
    · rw [if_pos hd, if_pos hd]; exact ⟨rfl, rfl, rfl, rfl⟩
    · rw [if_neg hd, if_neg hd]; exact ⟨rfl, rfl, rfl, rfl⟩

/-- Everything an inter frame has of its own is read back: references, size, vector precision, interpolation filter, motion
mode, reference vectors. -/
theorem C93_inter_partial (s : Hdr.SeqInfo) (c : HCtx) (f : HFrame) (h : Agrees s c f) (ho : FrontOk c f) (hr : RefsOk c f)
    (hov : c.sizeOverride = true → f.errRes = false) (hw : s.maxWidth = f.width) (hh : s.maxHeight = f.height)
    (ht : intraType f.type = false) (hfl : f.filter < 4) :
    Writes (sizesBits c f) (Hdr.inter s c.sizeOverride f.errRes f.intMv)
      { short := if c.enableOrderHint && f.shortSig then some (f.lastIdx, f.goldIdx) else none
        refs := (List.range 7).map (refView c f (c.enableOrderHint && f.shortSig))
        size := if c.sizeOverride then .inl (0, denomAfter c f) else .inr (sizeOf c f)
        highPrec := if f.intMv > 0 then false else f.highPrec
        filter := if f.filterSwitchable then 4 else f.filter
        motionSwitchable := f.motionSwitchable
        refMvs := !f.errRes && c.enableRefMvs && f.useRefMvs } := by
  have h1 := C93_refs_partial s c f h hr
  have h2 := C93_size s c f h ho hov hw hh
  generalize (if c.enableOrderHint && f.shortSig then some (f.lastIdx, f.goldIdx) else none) = sh at h1 ⊢
  generalize (List.range 7).map (refView c f (c.enableOrderHint && f.shortSig)) = rs at h1 ⊢
  generalize (if c.sizeOverride then Sum.inl (0, denomAfter c f) else Sum.inr (sizeOf c f) : Sum (Nat × Nat) Hdr.Size) = z at h2 ⊢
  have e : Hdr.inter s c.sizeOverride f.errRes f.intMv = ((do
      let sh ← Hdr.short s
      let refs ← P.many 7 (Hdr.ref s sh.isSome)
      pure (sh, refs)) >>= fun p => Hdr.interSize s c.sizeOverride f.errRes >>= fun z => do
      let hp ← (if f.intMv > 0 then pure false else P.flag)
      let sw ← P.flag
      let fl ← (if sw then pure 4 else P.f 2)
      let mm ← P.flag
      let rm ← (if f.errRes || !s.refMvs then pure false else P.flag)
      pure (⟨p.1, p.2, z, hp, fl, mm, rm⟩ : Hdr.Inter)) := by
    simp only [Hdr.inter, bind_assoc, pure_bind]
  rw [e]
  unfold sizesBits
  rw [if_neg (by simp [ht])]
  refine Writes.cons h1 (Writes.cons h2 (Writes.last ?_))
  unfold interTailBits
  refine Writes.cons (v := if f.intMv > 0 then false else f.highPrec) ?_ (Writes.cons (writes_flag _) (Writes.cons (v := if f.filterSwitchable then 4 else f.filter) ?_
    (Writes.cons (writes_flag _) (Writes.last (Writes.map _ ?_)))))
  · by_cases hq : f.intMv > 0
    · rw [if_pos hq, if_pos hq, if_pos hq]; exact Writes.pure _
    · rw [if_neg hq, if_neg hq, if_neg hq]; exact writes_flag _
  · cases f.filterSwitchable
    · exact writes_f 2 _ (by decide) hfl
    · exact Writes.pure _
  · rw [h.refMvs]
    cases f.errRes <;> cases c.enableRefMvs
    · exact Writes.pure _
    · exact writes_flag _
    · exact Writes.pure _
    · exact Writes.pure _

end Av1
