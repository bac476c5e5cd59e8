import Verif.Props.Process
import Verif.Props.SeqSize

/-! # C147 — the output file is whole or empty -/

namespace Av1.Run

open Av1.Cli

/-- A run whose command line is accepted, whose files open and which has something to write. -/
def Starts (args : List Str) (world : World) (w h n : Nat) : Prop :=
  ∃ cfg i o, readConfig args = .ok cfg ∧ cfg.input = some i ∧ cfg.output = some o ∧ cfg.width = some w ∧ cfg.height = some h ∧
    cfg.frames = some n ∧ (i = "stdin".toList ∨ world.openIn = true) ∧ (o = "stdout".toList ∨ world.openOut = true) ∧ 0 < n

/-- The stream is short. -/
theorem expected_length (w h n : Nat) (hn : 0 < n) (h3 : 3 ≤ w) (hw : w ≤ 8191) (h3' : 3 ≤ h) (hh : h ≤ 8191) :
    ∃ out, expected w h n = some out ∧ out ≠ [] ∧ out.length ≤ 16 := by
  obtain ⟨out, e, h1, h2, h4⟩ := C36_bytes w h n hn h3 hw h3' hh
  refine ⟨out, h1, ?_, ?_⟩
  · rintro rfl
    have := congrArg List.length h4
    simp [bytesBits] at this
  · have hb := runHeader_bits w h h3 (by omega) h3' (by omega)
    rw [h2] at hb
    have he := raw_inj (Option.some.inj hb)
    have hl := congrArg List.length h4
    have l1 : w.log2 < 13 := (Nat.log2_lt (by omega)).2 (by omega)
    have l2 : h.log2 < 13 := (Nat.log2_lt (by omega)).2 (by omega)
    have hel : e.length ≤ 88 := by
      rw [he]
      have ht : seqTail.length ≤ 40 := by decide
      simp
      omega
    simp only [List.length_append, length_bytesBits, List.length_cons, List.length_nil, pad, List.length_replicate] at hl
    omega

/-- Whether the files open matters only before the first frame. -/
theorem main_open (args : List Str) (world : World) (cfg : Config) (i o : Str) (hc : readConfig args = .ok cfg)
    (ci : cfg.input = some i) (co : cfg.output = some o) (hi : i = "stdin".toList ∨ world.openIn = true)
    (ho : o = "stdout".toList ∨ world.openOut = true) :
    main args world = main args { world with openIn := true, openOut := true } := by
  obtain ⟨-, -, f, -, -, -, -, -, -, cf, -⟩ := C24_accepted_complete args cfg hc
  have hne : args.length ≠ 0 := by
    intro h0
    rw [List.length_eq_zero_iff.1 h0, readConfig_nil] at hc
    cases hc
  unfold main
  rw [if_neg hne, if_neg hne, hc]
  simp only [ci, co, cf, Bool.true_eq_false, and_false, if_false, frames_open]
  rw [if_neg (by rintro ⟨h1, h2⟩; rcases hi with h | h
                 · exact h1 h
                 · rw [h] at h2; cases h2),
    if_neg (by rintro ⟨h1, h2⟩; rcases ho with h | h
               · exact h1 h
               · rw [h] at h2; cases h2)]

/-- A run that does not get to its frames writes nothing. -/
theorem main_silent (args : List Str) (world : World) (h : ∀ w h n, ¬ Starts args world w h n) : (main args world).out = [] := by
  unfold main
  split
  · rfl
  split
  · rfl
  · rfl
  · rfl
  · rename_i cfg hc
    obtain ⟨i, o, f, w', ht', rn, rd, ci, co, cf, cw, ch, -⟩ := C24_accepted_complete args cfg hc
    simp only [ci, co, cf]
    split
    · rfl
    split
    · rfl
    · rename_i h1 h2
      rcases Nat.eq_zero_or_pos f with rfl | hf
      · rfl
      · refine absurd ⟨cfg, i, o, hc, ci, co, cw, ch, cf, ?_, ?_, hf⟩ (h w' ht' f)
        · by_cases hi : i = "stdin".toList
          · exact .inl hi
          · exact .inr (by simpa using fun h => h1 ⟨hi, h⟩)
        · by_cases hi : o = "stdout".toList
          · exact .inl hi
          · exact .inr (by simpa using fun h => h2 ⟨hi, h⟩)

theorem fileContents_nil {r : Outcome} (h : r.out = []) : fileContents r = [] := by
  unfold fileContents
  rw [h]
  cases r.ending <;> rfl

/-- Nothing that short reaches the file before the end. -/
theorem fileContents_exited {r : Outcome} (h : r.out.length ≤ 16) (he : r.ending = .exited) : fileContents r = [] := by
  unfold fileContents
  rw [he]
  exact bufSteps_small r.out ([], []) (by simp [bufCapacity]; omega)

/-- **C147**, the outcome in all cases: the file has the stream if the run starts, the sides are at least 3 and no read fails,
and is empty otherwise. -/
theorem C147_exact (args : List Str) (world : World) :
    (∀ w h n, Starts args world w h n → 3 ≤ w → 3 ≤ h → (∀ k < 3 * n, (world.read k).isSome) →
      some (fileContents (main args world)) = expected w h n) ∧
    ((¬ ∃ w h n, Starts args world w h n ∧ 3 ≤ w ∧ 3 ≤ h ∧ ∀ k < 3 * n, (world.read k).isSome) →
      fileContents (main args world) = []) := by
  constructor
  · rintro w h n ⟨cfg, i, o, hc, ci, co, cw, ch, cf, hi, ho, hn⟩ h3 h3' hr
    have hm := main_open args world cfg i o hc ci co hi ho
    obtain ⟨-, -, -, d⟩ := C36_exact args cfg w h n { world with openIn := true, openOut := true } hc cw ch cf rfl rfl
    obtain ⟨d1, d2⟩ := d hn (fun k hk => hr k (by omega)) h3 h3'
    rw [if_pos hr] at d1
    rw [← hm] at d1 d2
    rw [C53_complete_partial args world (by rw [d1]; simp), d2]
  · intro hno
    by_cases hs : ∃ w h n, Starts args world w h n
    · obtain ⟨w, h, n, hst⟩ := hs
      have hst' := hst
      obtain ⟨cfg, i, o, hc, ci, co, cw, ch, cf, hi, ho, hn⟩ := hst
      have hm := main_open args world cfg i o hc ci co hi ho
      obtain ⟨-, b, c, d⟩ := C36_exact args cfg w h n { world with openIn := true, openOut := true } hc cw ch cf rfl rfl
      rw [← hm] at b c d
      by_cases hr3 : ∀ k < 3, (world.read k).isSome
      · by_cases h3 : 3 ≤ w ∧ 3 ≤ h
        · obtain ⟨-, -, -, w', ht', -, -, -, -, -, cw', ch', -, -, wl, -, hl, -⟩ := C24_accepted_complete args cfg hc
          rw [cw] at cw'; cases cw'
          rw [ch] at ch'; cases ch'
          obtain ⟨d1, d2⟩ := d hn hr3 h3.1 h3.2
          rw [if_neg (fun hr => hno ⟨w, h, n, hst', h3.1, h3.2, hr⟩)] at d1
          obtain ⟨out, e1, -, e3⟩ := expected_length w h n hn h3.1 (by omega) h3.2 (by omega)
          rw [e1] at d2
          cases d2
          exact fileContents_exited e3 d1
        · exact fileContents_nil (c hn hr3 (by omega)).2
      · refine fileContents_nil (b hn ?_).2
        simp only [not_forall, Option.isSome_iff_ne_none, ne_eq, not_not] at hr3
        obtain ⟨k, h1, h2⟩ := hr3
        exact ⟨k, h1, h2⟩
    · exact fileContents_nil (main_silent args world fun w h n hst => hs ⟨w, h, n, hst⟩)

/-- **C147**: whatever happens, the file is empty or holds a complete stream for the configured size. -/
theorem C147_whole_or_empty (args : List Str) (world : World) :
    fileContents (main args world) = [] ∨ ∃ cfg w h, readConfig args = .ok cfg ∧ cfg.width = some w ∧ cfg.height = some h ∧
      some (fileContents (main args world)) = expected w h 1 := by
  obtain ⟨h1, h2⟩ := C147_exact args world
  by_cases hs : ∃ w h n, Starts args world w h n ∧ 3 ≤ w ∧ 3 ≤ h ∧ ∀ k < 3 * n, (world.read k).isSome
  · obtain ⟨w, h, n, hst, h3, h3', hr⟩ := hs
    right
    have he := h1 w h n hst h3 h3' hr
    obtain ⟨cfg, i, o, hc, ci, co, cw, ch, cf, hi, ho, hn⟩ := hst
    refine ⟨cfg, w, h, hc, cw, ch, he.trans ?_⟩
    rw [expected, expected, if_neg (by omega), if_neg (by omega)]
  · exact .inl (h2 hs)

/-- **C147**: exactly when there is something in the file. -/
theorem C147_iff (args : List Str) (world : World) : fileContents (main args world) ≠ [] ↔
    ∃ w h n, Starts args world w h n ∧ 3 ≤ w ∧ 3 ≤ h ∧ ∀ k < 3 * n, (world.read k).isSome := by
  obtain ⟨h1, h2⟩ := C147_exact args world
  constructor
  · intro h
    by_contra hno
    exact h (h2 hno)
  · rintro ⟨w, h, n, hst, h3, h3', hr⟩ he
    have hx := h1 w h n hst h3 h3' hr
    obtain ⟨cfg, i, o, hc, ci, co, cw, ch, cf, hi, ho, hn⟩ := hst
    obtain ⟨-, -, -, w', ht', -, -, -, -, -, cw', ch', -, -, wl, -, hl, -⟩ := C24_accepted_complete args cfg hc
    rw [cw] at cw'; cases cw'
    rw [ch] at ch'; cases ch'
    obtain ⟨out, e1, e2, -⟩ := expected_length w h n hn h3 (by omega) h3' (by omega)
    rw [he, e1] at hx
    cases hx
    exact e2 rfl

/-- A run that starts and ends early, and one that does not. -/
example : Starts args3 broken 176 144 2 ∧ fileContents (main args3 broken) = [] ∧
    fileContents (main args3 quiet) = [0, 25, 151, 143, 64, 0, 32, 24, 16, 8, 8] := by
  have hc : readConfig args3 = .ok cfg3 := by decide +kernel
  refine ⟨⟨cfg3, _, _, hc, rfl, rfl, rfl, rfl, rfl, .inl rfl, .inr rfl, by decide⟩, ?_, ?_⟩
  · decide +kernel
  · decide +kernel

end Av1.Run
