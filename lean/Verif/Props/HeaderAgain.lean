import Verif.Lemmas.HeaderLeaves
import Verif.Props.FrameWhole

/-! # C132: encoding the header of the same frame again

An application that writes the header of a frame twice (after a temporal delimiter, say, to send the frame again) relies on
`OBU_FRAME_HEADER` leaving the frame and the context as they were, up to the flag `seen_frame_header`. -/

namespace Av1

/-- **C132**: the header of the frame that has just been coded is written with the same elements again. -/
def C132_full : Prop := ∀ (w w1 : Whole) (b : Raw), w.c.orderHints.length = 7 → w.c.seen = false → w.c.showExisting = false →
  frameHeaderBits w = some b → wholeAfter w = some w1 → frameHeaderBits (setSeen false w1) = some b

/-- What has to hold for the header to be repeated: no integer-vector flag that the first header changes, no segmentation, and
no secondary CDEF strength of 3 that is written. -/
structure Kept (w : Whole) : Prop where
  intMv : frameSct w.c w.f > 0 → w.c.forceIntMv = 2 → w.f.intMv = 1
  seg : w.seg.enabled = false
  cdef : losslessOf w (frontFrame w.c w.f) = false → w.cdef.NoThree w.planes

/-- **C132**, exactly, for frames without super-resolution: the repeated header is the first one if and only if `Kept`. -/
theorem C132_iff (w : Whole) (b : Raw) (hl : w.c.orderHints.length = 7) (hs : w.c.seen = false)
    (he : w.c.showExisting = false) (hr : superresOn w.c w.f = false) (hm : w.f.intMv < 256)
    (hf : ∃ seg ∈ w.seg.features, 6 < seg.length) (hb : frameHeaderBits w = some b) :
    ∃ w1, wholeAfter w = some w1 ∧ (frameHeaderBits (setSeen false w1) = some b ↔ Kept w) := by
  have hp := written_plain w b hs he hl hb hr
  obtain ⟨w1, n, h1, ha⟩ := header_after w b hs he hp hb
  refine ⟨w1, h1, ?_⟩
  cases hseg : w.seg.enabled with
  | true =>
    rw [header_twice_seg w w1 n he hp ha hseg hf]
    constructor
    · intro h; cases h
    intro h
    have := h.seg
    rw [hseg] at this
    cases this
  | false =>
    rw [header_twice_plain w w1 n he hp ha hseg]
    rw [header_closed w hs he hp] at hb
    obtain ⟨n', hn', hb⟩ := Option.bind_eq_some_iff.1 hb
    obtain ⟨pv, hpv, hb⟩ := Option.bind_eq_some_iff.1 hb
    have : n' = n := Option.some.inj (hn'.symm.trans ha.idLen.1)
    subst this
    obtain ⟨tb, ht⟩ := cat_mem hb (x := toolsWith w.c w.f w.f.intMv) (by simp)
    obtain ⟨cb, hc⟩ := cat_mem hb (x := encodeCdef w.cdef (losslessOf w (frontFrame w.c w.f)) w.planes) (by simp)
    have hcut := cat_two [pushB false, openingBits w.c w.f] (frontTail w.c w.f n' w.hintBits ++ backHead w (frontFrame w.c w.f))
      (backTail w (frontCtx w.c w.f 0 []) (frontFrame w.c w.f)) (toolsWith w.c w.f w.f.intMv)
      (encodeCdef w.cdef (losslessOf w (frontFrame w.c w.f)) w.planes) (toolsWith w.c w.f 1)
      (encodeCdef (cdefAfter w.cdef (losslessOf w (frontFrame w.c w.f)) w.planes) (losslessOf w (frontFrame w.c w.f)) w.planes)
      b (by simpa using hb) (tools_same w.c w.f) (by
        intro a c h1 h2
        cases hll : losslessOf w (frontFrame w.c w.f) with
        | false =>
          rw [hll] at h1 h2
          exact (cdef_differs w.cdef w.planes a h1).1 c h2
        | true =>
          rw [hll, (cdef_again w.cdef true w.planes (by simp)).1] at h2
          rw [hll] at h1
          rw [Option.some.inj (h1.symm.trans h2)])
    simp only [List.append_assoc, List.cons_append, List.nil_append] at hcut
    rw [hcut, tools_iff w.c w.f tb ht hm]
    constructor
    · rintro ⟨h2, h3⟩
      refine ⟨h2, hseg, fun hll => ?_⟩
      rw [hll] at h3 hc
      exact (cdef_differs w.cdef w.planes cb hc).2 (h3.trans hc)
    · intro hk
      exact ⟨hk.intMv, (cdef_again w.cdef _ w.planes hk.cdef).1⟩

/-- With segmentation on, a second header always panics. -/
theorem C132_segmentation_panics (w w1 : Whole) (b : Raw) (hl : w.c.orderHints.length = 7) (hs : w.c.seen = false)
    (he : w.c.showExisting = false) (hr : superresOn w.c w.f = false) (hf : ∃ seg ∈ w.seg.features, 6 < seg.length)
    (hseg : w.seg.enabled = true) (hb : frameHeaderBits w = some b) (h1 : wholeAfter w = some w1) :
    frameHeaderBits (setSeen false w1) = none := by
  have hp := written_plain w b hs he hl hb hr
  obtain ⟨w2, n, h2, ha⟩ := header_after w b hs he hp hb
  obtain rfl : w2 = w1 := Option.some.inj (h2.symm.trans h1)
  exact header_twice_seg w w2 n he hp ha hseg hf

theorem Kept.again {w w1 : Whole} {n : Nat} (hk : Kept w) (ha : After w w1 n) : Kept (setSeen false w1) := by
  obtain ⟨pv, v, hpv, hv, hc⟩ := ha.ctx
  have hf2 : (setSeen false w1).f = frontFrame w.c w.f := ha.frame
  refine ⟨fun _ _ => ?_, ?_, fun hll => ?_⟩
  · rw [hf2]; rfl
  · show w1.seg.enabled = false
    rw [ha.seg]; exact (seg_again _ hk.seg).2.1
  · have hc2 : (setSeen false w1).c = { frontCtx w.c w.f pv.1 v with seen := false } := by
      show { w1.c with seen := false } = _
      rw [hc]
    rw [hf2, hc2, frontFrame_again, lossless_twice w w1 n ha hk.seg] at hll
    show w1.cdef.NoThree w1.planes
    rw [ha.cdef, ha.same.1]
    have := (cdef_again w.cdef (losslessOf w (frontFrame w.c w.f)) w.planes hk.cdef).2 hll
    exact this

/-- **C132**, the part that holds: under `Kept` the header of the frame comes out the same however often the frame is sent.
Missing: frames with super-resolution, whose width shrinks with every header (C92), and the frames that are not `Kept`, for
which it fails (`C132_iff`).  `io` is any reading of the frame that leaves the state as the header left it. -/
theorem C132_again_partial {φ τ : Type} (io : FrameIO φ τ) (f : φ) (b : Raw) (hload : ∀ w, io.load f w = w) :
    ∀ (k : Nat) (e : EncState τ), e.left.lrTypes.length = 3 → e.w.c.orderHints.length = 7 → e.w.c.seen = false → e.w.c.showExisting = false →
      superresOn e.w.c e.w.f = false → Kept e.w → frameHeaderBits e.w = some b →
      ∃ e', payloads io e (List.replicate k [ObuIn.frameHeader f, ObuIn.delimiter]).flatten =
        some ((List.replicate k [b, []]).flatten, e')
  | 0, e, _, _, _, _, _, _, _ => ⟨e, rfl⟩
  | k + 1, e, hty, hl, hs, he, hr, hk, hb => by
    have hp := written_plain e.w b hs he hl hb hr
    obtain ⟨w1, n, h1, ha⟩ := header_after e.w b hs he hp hb
    obtain ⟨pv, v, hpv, hv, hc⟩ := ha.ctx
    have hc2 : (setSeen false w1).c = { frontCtx e.w.c e.w.f pv.1 v with seen := false } := by
      show { w1.c with seen := false } = _
      rw [hc]
    obtain ⟨_, l1, -, hleft, hty1⟩ := header_leaves hb e.left hty
    have h3 : frameHeaderBits (setSeen false w1) = some b := by
      rw [header_twice_plain e.w w1 n he hp ha hk.seg]
      rw [header_closed e.w hs he hp] at hb
      obtain ⟨n', hn', hb⟩ := Option.bind_eq_some_iff.1 hb
      obtain ⟨_, _, hb⟩ := Option.bind_eq_some_iff.1 hb
      have : n' = n := Option.some.inj (hn'.symm.trans ha.idLen.1)
      subst this
      obtain ⟨tb, ht⟩ := cat_mem hb (x := toolsWith e.w.c e.w.f e.w.f.intMv) (by simp)
      have htool : toolsWith e.w.c e.w.f 1 = toolsWith e.w.c e.w.f e.w.f.intMv := by
        unfold toolsWith
        by_cases g1 : frameSct e.w.c e.w.f > 0
        · by_cases g2 : e.w.c.forceIntMv = 2
          · rw [hk.intMv g1 g2]
          · rw [if_neg g2, if_neg g2]
        · rw [if_neg g1, if_neg g1]
      rw [htool, (cdef_again e.w.cdef _ e.w.planes hk.cdef).1]
      exact hb
    obtain ⟨e', he'⟩ := C132_again_partial io f b hload k { e with w := setSeen false w1, left := l1 } hty1
      (by show (setSeen false w1).c.orderHints.length = 7; rw [hc2]; exact hl) rfl
      (by show (setSeen false w1).c.showExisting = false; rw [hc2]; exact he)
      (by
        show superresOn (setSeen false w1).c (setSeen false w1).f = false
        rw [hc2, show (setSeen false w1).f = frontFrame e.w.c e.w.f from ha.frame]
        exact (hp.again _ _).noSuperres)
      (hk.again ha) h3
    refine ⟨e', ?_⟩
    rw [List.replicate_succ, List.replicate_succ, List.flatten_cons, List.flatten_cons]
    show (payloads io e (.frameHeader f :: .delimiter :: _)) = _
    have p1 : encodePayload io e (.frameHeader f) = some (b, { e with w := w1, left := l1 }) := by
      show ((frameHeaderBits (io.load f e.w)).bind fun b => (wholeAfter (io.load f e.w)).bind fun w' =>
        (leftAfter (io.load f e.w) e.left).bind fun l => some (b, { e with w := w', left := l })) = _
      rw [hload, hb, h1, hleft]
      rfl
    have p2 : encodePayload io { e with w := w1, left := l1 } (.delimiter : ObuIn φ) =
      some ([], { e with w := setSeen false w1, left := l1 }) := rfl
    simp only [payloads, p1, p2, Option.bind_eq_bind, Option.bind_some]
    rw [show ([] : List (ObuIn φ)).append (List.replicate k [ObuIn.frameHeader f, ObuIn.delimiter]).flatten =
      (List.replicate k [ObuIn.frameHeader f, ObuIn.delimiter]).flatten from rfl, he']
    rfl

/-- A frame that keeps everything. -/
def keepIO : FrameIO Unit Unit where
  load _ w := w
  layout _ := (1, 1, 1)
  tile _ _ _ _ _ _ := none
  load_c _ _ := rfl

/-- A lossless frame, and a lossy one with CDEF strengths 2: both kept. -/
def keptWhole : Whole := { losslessWhole with enableRestoration := true }
def lossyWhole : Whole := { keptWhole with
  quant := { keptWhole.quant with baseQIdx := 100 }
  currentQ := 100
  cdef := ⟨5, 1, [1, 2], [2, 0], [3, 4], [1, 2]⟩ }

theorem keptWhole_kept : Kept keptWhole ∧ (frameHeaderBits keptWhole).isSome := by
  refine ⟨⟨by decide, rfl, fun h => ?_⟩, by decide +kernel⟩
  exact absurd h (by decide +kernel)

theorem lossyWhole_kept : Kept lossyWhole ∧ (frameHeaderBits lossyWhole).isSome ∧
    losslessOf lossyWhole (frontFrame lossyWhole.c lossyWhole.f) = false := by
  refine ⟨⟨by decide, rfl, fun _ => ⟨?_, ?_⟩⟩, by decide +kernel, by decide +kernel⟩
  · intro i hi
    have hi : i < 2 := hi
    interval_cases i <;> decide
  · intro _ i hi
    have hi : i < 2 := hi
    interval_cases i <;> decide

example (k : Nat) : ∃ b e', payloads keepIO ⟨SeqCtx.new, lossyWhole, .new, 0, 0, ()⟩
    (List.replicate k [ObuIn.frameHeader (), ObuIn.delimiter]).flatten = some ((List.replicate k [b, []]).flatten, e') := by
  obtain ⟨b, hb⟩ := Option.isSome_iff_exists.1 lossyWhole_kept.2.1
  obtain ⟨e', h⟩ := C132_again_partial keepIO () b (fun _ => rfl) k
    ⟨SeqCtx.new, lossyWhole, .new, 0, 0, ()⟩ rfl rfl rfl rfl rfl lossyWhole_kept.1 hb
  exact ⟨b, e', h⟩

/-- The three ways to fail: a CDEF strength of 3, segmentation, vectors that need not be whole. -/
def threeWhole : Whole := { lossyWhole with cdef := ⟨5, 1, [1, 2], [3, 0], [3, 4], [1, 2]⟩ }
def segWhole : Whole := { keptWhole with seg := ⟨true, true, false, true, List.replicate 8 (List.replicate 7 none)⟩ }
def fracWhole : Whole := { keptWhole with c := { keptWhole.c with forceSct := 1, forceIntMv := 2 } }

theorem three_differs : (frameHeaderBits threeWhole).isSome ∧
    ((wholeAfter threeWhole).bind fun w => frameHeaderBits (setSeen false w)).isSome ∧
    ((wholeAfter threeWhole).bind fun w => frameHeaderBits (setSeen false w)) ≠ frameHeaderBits threeWhole := by
  decide +kernel

theorem seg_differs : (frameHeaderBits segWhole).isSome ∧ (wholeAfter segWhole).isSome ∧
    ((wholeAfter segWhole).bind fun w => frameHeaderBits (setSeen false w)) = none := by decide +kernel

theorem frac_differs : (frameHeaderBits fracWhole).isSome ∧
    ((wholeAfter fracWhole).bind fun w => frameHeaderBits (setSeen false w)).isSome ∧
    ((wholeAfter fracWhole).bind fun w => frameHeaderBits (setSeen false w)) ≠ frameHeaderBits fracWhole := by
  decide +kernel

example : ∃ b, frameHeaderBits threeWhole = some b ∧
    ∃ w1, wholeAfter threeWhole = some w1 ∧ (frameHeaderBits (setSeen false w1) = some b ↔ Kept threeWhole) := by
  obtain ⟨b, hb⟩ := Option.isSome_iff_exists.1 three_differs.1
  exact ⟨b, hb, C132_iff threeWhole b rfl rfl rfl rfl (by decide) ⟨List.replicate 7 none, by decide, by decide⟩ hb⟩

/-- **C132** is false. -/
theorem C132_negation : ¬ C132_full := by
  intro h
  obtain ⟨b, hb⟩ := Option.isSome_iff_exists.1 three_differs.1
  cases h1 : wholeAfter threeWhole with
  | none => have := three_differs.2.1; rw [h1] at this; exact absurd this (by simp)
  | some w1 =>
    have := three_differs.2.2
    rw [h1, Option.bind_some, h threeWhole w1 b rfl rfl rfl hb h1, hb] at this
    exact this rfl

end Av1
