import Verif.Model.Main
import Verif.Props.Cli
import Verif.Props.Framing
import Verif.Props.SeqHeader

/-! # C36, C52–C54: a run of the program -/

namespace Av1.Run

open Av1.Cli

/-- The stream a run should produce: the sequence header unit if a frame is requested. -/
def expected (w h n : Nat) : Option (List Nat) :=
  if n = 0 then some []
  else (encodeTemporalUnit .sequenceHeader (runHeader w h) Writer.new).map Writer.out

/-- **C36**, full claim: every accepted command line whose files open produces exactly that stream and ends normally,
whatever the input holds and however its reads go. -/
def C36_full : Prop := ∀ (args : List Str) (cfg : Config) (w h n : Nat) (world : World),
  readConfig args = .ok cfg → cfg.width = some w → cfg.height = some h → cfg.frames = some n →
  world.openIn = true → world.openOut = true →
  (main args world).ending = .returned ∧ some (main args world).out = expected w h n

theorem readConfig_nil : readConfig [] = .err := by decide +kernel

/-- No read reports an error. -/
def ReadsSucceed (world : World) : Prop := ∀ i, (world.read i).isSome

theorem readPlanes_ok (world : World) (hr : ReadsSucceed world) :
    ∀ (l : List Nat) (s : St), ∃ s', readPlanes world l s = (s', true) ∧ s'.w = s.w
  | [], s => ⟨s, rfl, rfl⟩
  | n :: l, s => by
    obtain ⟨k, hk⟩ := Option.isSome_iff_exists.1 (hr s.calls)
    obtain ⟨s', h1, h2⟩ := readPlanes_ok world hr l { s with
      input := (readToVec n s.input (min k (min n s.input.length))).2.2, calls := s.calls + 1 }
    exact ⟨s', by simp only [readPlanes, readPlane, hk]; exact h1, h2⟩

/-- After the first frame nothing is written. -/
theorem frames_later (world : World) (cfg : Config) (hr : ReadsSucceed world) :
    ∀ (n fr : Nat) (s : St), 0 < fr → (frames world cfg n fr s).2 = .returned ∧ (frames world cfg n fr s).1.w = s.w
  | 0, fr, s, _ => ⟨rfl, rfl⟩
  | n + 1, fr, s, h => by
    obtain ⟨s', h1, h2⟩ := readPlanes_ok world hr planes s
    have := frames_later world cfg hr n (fr + 1) s' (by omega)
    simp only [frames, h1, if_neg (by omega : ¬ fr = 0)]
    exact ⟨this.1, this.2.trans h2⟩

/-- After the first frame nothing is written, even when a read fails. -/
theorem frames_later_w (world : World) (cfg : Config) :
    ∀ (n fr : Nat) (s : St), 0 < fr → (frames world cfg n fr s).1.w = s.w ∧ (frames world cfg n fr s).2 ≠ .panicked
  | 0, fr, s, _ => ⟨rfl, by simp [frames]⟩
  | n + 1, fr, s, h => by
    have hw : ∀ (l : List Nat) (s : St), (readPlanes world l s).1.w = s.w := by
      intro l
      induction l with
      | nil => intro s; rfl
      | cons k l ih =>
        intro s
        unfold readPlanes
        cases hp : readPlane world k s with
        | none => rfl
        | some s' =>
          simp only
          rw [ih]
          unfold readPlane at hp
          split at hp <;> simp at hp
          rw [← hp]
    have hw' := hw planes s
    unfold frames
    cases hp : readPlanes world planes s with
    | mk s' b =>
      rw [hp] at hw'
      cases b with
      | false => exact ⟨hw', by simp⟩
      | true =>
        simp only [if_neg (by omega : ¬ fr = 0)]
        have := frames_later_w world cfg n (fr + 1) s' (by omega)
        exact ⟨this.1.trans hw', this.2⟩

/-- **C36**, what holds: for sizes from 3x3 up and when no read reports an error, the run ends normally and the output is
the sequence header unit, once, if at least one frame is requested and nothing otherwise; it depends on the size and
on whether a frame is requested, not on the input.  Missing: a width or height of 1 or 2 panics (C30), a failing read
ends the run early. -/
theorem C36_output_partial (args : List Str) (cfg : Config) (w h n : Nat) (world : World)
    (hc : readConfig args = .ok cfg) (hw : cfg.width = some w) (hh : cfg.height = some h) (hn : cfg.frames = some n)
    (hi : world.openIn = true) (ho : world.openOut = true) (hr : ReadsSucceed world) (h3 : 3 ≤ w) (h3' : 3 ≤ h) :
    (main args world).ending = .returned ∧ some (main args world).out = expected w h n := by
  obtain ⟨i, o, f, w', ht', rn, rd, ci, co, cf, cw, ch, -, -, wl, -, hl, -, -⟩ := C24_accepted_complete args cfg hc
  rw [cw] at hw
  rw [ch] at hh
  rw [cf] at hn
  obtain rfl := Option.some.inj hw
  obtain rfl := Option.some.inj hh
  obtain rfl := Option.some.inj hn
  have hne : args.length ≠ 0 := by
    intro h0
    rw [List.length_eq_zero_iff.1 h0, readConfig_nil] at hc
    cases hc
  unfold main
  rw [if_neg hne, hc]
  simp only [ci, co, cf, hi, ho, Bool.true_eq_false, and_false, if_false]
  unfold expected
  cases f with
  | zero => exact ⟨rfl, rfl⟩
  | succ f =>
    obtain ⟨s', h1, h2⟩ := readPlanes_ok world hr planes ⟨world.input, 0, Writer.new⟩
    obtain ⟨e, he, -⟩ := C29_size_partial w' ht' h3 (by omega) h3' (by omega)
    have hu := C28_total .sequenceHeader e Writer.new [] holds_new
    obtain ⟨wr, hwr⟩ := Option.isSome_iff_exists.1 hu
    have hrun : encodeSeqHeader (SeqHeader.new w' ht') SeqCtx.new = some (raw e) := he
    unfold frames
    simp only [h1, if_true, cw, ch, hrun, h2, hwr, he, Nat.succ_ne_zero, if_false, Option.map_some]
    have := frames_later world cfg hr f (0 + 1) { s' with w := wr } (by omega)
    exact ⟨this.1, by rw [this.2]⟩

/-- The input does not matter. -/
theorem C36_independent (args : List Str) (cfg : Config) (w h : Nat) (world world' : World)
    (hc : readConfig args = .ok cfg) (hw : cfg.width = some w) (hh : cfg.height = some h)
    (hi : world.openIn = true) (ho : world.openOut = true) (hr : ReadsSucceed world)
    (hi' : world'.openIn = true) (ho' : world'.openOut = true) (hr' : ReadsSucceed world') (h3 : 3 ≤ w) (h3' : 3 ≤ h) :
    (main args world).out = (main args world').out := by
  obtain ⟨-, -, f, -, -, -, -, -, -, cf, -⟩ := C24_accepted_complete args cfg hc
  have a := (C36_output_partial args cfg w h f world hc hw hh cf hi ho hr h3 h3').2
  have b := (C36_output_partial args cfg w h f world' hc hw hh cf hi' ho' hr' h3 h3').2
  exact Option.some.inj (a.trans b.symm)

/-- A surrounding in which everything works and the input is empty. -/
def quiet : World := ⟨true, true, [], fun _ => some 0⟩

/-- A surrounding in which the first read after the first frame fails. -/
def broken : World := ⟨true, true, [], fun i => if i < 3 then some 0 else none⟩

def args2 : List Str := ["-i".toList, "stdin".toList, "-o".toList, "out".toList, "-s".toList, "2x144".toList]
def cfg2 : Config := ⟨some "stdin".toList, some "out".toList, some 2, some 144, some (30, 1), some 4294967295⟩

/-- **C36** is false: a size of 2x144 is accepted and panics on the first frame. -/
theorem C36_negation : ¬ C36_full := by
  intro h
  have hc : readConfig args2 = .ok cfg2 := by decide +kernel
  have := (h args2 cfg2 2 144 4294967295 quiet hc rfl rfl rfl rfl rfl).2
  have hn : runHeader 2 144 = none := by decide +kernel
  rw [expected, if_neg (by decide), hn] at this
  simp [encodeTemporalUnit, encodeObu] at this

/-- **C36**, the stream itself: the sequence header bits, completed to whole bytes, and four constant bytes. -/
theorem C36_bytes (w h n : Nat) (hn : 0 < n) (h3 : 3 ≤ w) (hw : w ≤ 8191) (h3' : 3 ≤ h) (hh : h ≤ 8191) :
    ∃ out e, expected w h n = some out ∧ runHeader w h = some (raw e) ∧
      bytesBits out = e ++ pad e.length ++ bytesBits [24, 16, 8, 8] := by
  obtain ⟨e, he, -⟩ := C29_size_partial w h h3 hw h3' hh
  obtain ⟨w', h1, h2⟩ := C28_exact_partial .sequenceHeader e Writer.new [] holds_new
  refine ⟨w'.out, e, ?_, he, ?_⟩
  · rw [expected, if_neg (by omega), he, h1]; rfl
  · have hl := h2.length
    have hi := h2.idx
    have h8 : ((e ++ pad e.length).length) % 8 = 0 := by simp [pad]; omega
    have hidx : w'.index = 0 := by
      simp only [List.nil_append, List.length_append, length_bytesBits, List.length_cons, List.length_nil] at hl h8
      omega
    have hb := h2.bits
    rw [hidx] at hb
    simp only [toBits, List.append_nil, List.nil_append] at hb
    exact hb

/-! ## C52: the banner -/

/-- What appears on standard output of a run that writes its stream there: `banner` and messages, then the stream. -/
def stdoutBytes (banner message : List Nat) (r : Outcome) : List Nat :=
  (if r.printed ≥ 1 then banner else []) ++ (if r.printed ≥ 2 then message else []) ++ r.out

/-- **C52**, full claim: with output `stdout` the standard output is exactly the stream. -/
def C52_full : Prop := ∀ (banner message : List Nat) (args : List Str) (cfg : Config) (world : World),
  banner ≠ [] → readConfig args = .ok cfg → cfg.output = some "stdout".toList →
  stdoutBytes banner message (main args world) = (main args world).out

/-- Every run prints the banner. -/
theorem C52_banner (args : List Str) (world : World) : 1 ≤ (main args world).printed := by
  unfold main
  split
  · simp
  · split <;> try simp
    split
    · split
      · simp
      · split <;> simp
    · simp

/-- **C52** is false in every single case: the version banner is printed to standard output first, so the stream on
standard output never starts where a reader expects it. -/
theorem C52_negation : ¬ C52_full ∧ ∀ (banner message : List Nat) (args : List Str) (world : World), banner ≠ [] →
    stdoutBytes banner message (main args world) ≠ (main args world).out := by
  have key : ∀ (banner message : List Nat) (args : List Str) (world : World), banner ≠ [] →
      stdoutBytes banner message (main args world) ≠ (main args world).out := by
    intro banner message args world hb he
    have h1 := C52_banner args world
    have := congrArg List.length he
    simp only [stdoutBytes, ge_iff_le, h1, if_true, List.length_append] at this
    exact hb (List.length_eq_zero_iff.1 (by omega))
  refine ⟨fun h => ?_, key⟩
  have hc : readConfig exArgs = .ok ⟨some "stdin".toList, some "stdout".toList, some 176, some 144, some (30, 1),
    some 4294967295⟩ := by decide +kernel
  exact key [65] [] exArgs quiet (by simp) (h [65] [] exArgs _ quiet (by simp) hc rfl)

/-! ## C53: output that was produced reaches the file -/

/-- **C53**, full claim: whatever the run handed to its output file is in the file afterwards. -/
def C53_full : Prop := ∀ (args : List Str) (world : World), fileContents (main args world) = (main args world).out

theorem bufSteps_length (l : List Nat) : ∀ s : List Nat × List Nat,
    (l.foldl bufStep s).1 ++ (l.foldl bufStep s).2 = s.1 ++ s.2 ++ l := by
  induction l with
  | nil => intro s; simp
  | cons b l ih =>
    intro s
    rw [List.foldl_cons, ih]
    unfold bufStep
    split <;> simp

/-- **C53**, what holds: a run that returns from `main` or panics leaves everything in the file. -/
theorem C53_complete_partial (args : List Str) (world : World) (h : (main args world).ending ≠ .exited) :
    fileContents (main args world) = (main args world).out := by
  unfold fileContents
  have := bufSteps_length (main args world).out ([], [])
  simp only [List.append_nil, List.nil_append] at this
  cases he : (main args world).ending with
  | exited => exact absurd he h
  | returned => exact this
  | panicked => exact this

/-- Few bytes stay in the buffer. -/
theorem bufSteps_small (l : List Nat) : ∀ s : List Nat × List Nat, s.2.length + l.length ≤ bufCapacity →
    (l.foldl bufStep s).1 = s.1 := by
  induction l with
  | nil => intro s _; rfl
  | cons b l ih =>
    intro s h
    simp only [List.length_cons] at h
    have hs : bufStep s b = (s.1, s.2 ++ [b]) := by
      unfold bufStep; rw [if_neg (by omega)]
    rw [List.foldl_cons, hs, ih _ (by simp; omega)]

def args3 : List Str := ["-i".toList, "stdin".toList, "-o".toList, "out".toList, "-s".toList, "176x144".toList,
  "-fr".toList, "2".toList]

def cfg3 : Config := ⟨some "stdin".toList, some "out".toList, some 176, some 144, some (30, 1), some 2⟩

/-- **C53** is false: when a read fails on the second frame, `process::exit` drops the buffered sequence header. -/
theorem C53_negation : ¬ C53_full := by
  intro h
  have hc : readConfig args3 = .ok cfg3 := by decide +kernel
  have hm : (main args3 broken).ending = .exited ∧ (main args3 broken).out = [0, 25, 151, 143, 64, 0, 32, 24, 16, 8, 8] := by
    unfold main
    rw [if_neg (by decide), hc]
    simp only [cfg3, broken]
    decide +kernel
  have h1 := h args3 broken
  unfold fileContents at h1
  rw [hm.1, hm.2] at h1
  exact absurd h1 (by decide +kernel)

/-! ## C54: frames of the configured size are read -/

/-- Every read returns what was asked for. -/
def ReadsFull (world : World) : Prop := ∀ i, ∃ k, world.read i = some k ∧ 176 * 144 ≤ k

/-- **C54**, full claim: a run of `n` frames consumes `n` frames of the configured size (one luma and two quarter-size
chroma planes) when the input has them. -/
def C54_full : Prop := ∀ (args : List Str) (cfg : Config) (w h n : Nat) (world : World),
  readConfig args = .ok cfg → cfg.width = some w → cfg.height = some h → cfg.frames = some n → 3 ≤ w → 3 ≤ h →
  world.openIn = true → world.openOut = true → ReadsFull world →
  n * (w * h + 2 * (w * h / 4)) ≤ world.input.length →
  (main args world).left = world.input.drop (n * (w * h + 2 * (w * h / 4)))

theorem readPlanes_full (world : World) (hr : ReadsFull world) (s : St) :
    ∃ c, readPlanes world planes s = ({ s with input := s.input.drop 38016, calls := c }, true) := by
  obtain ⟨k1, h1, l1⟩ := hr s.calls
  obtain ⟨k2, h2, l2⟩ := hr (s.calls + 1)
  obtain ⟨k3, h3, l3⟩ := hr (s.calls + 1 + 1)
  have drop_min : ∀ (l : List Nat) (k m : Nat), m ≤ k → l.drop (min k (min m l.length)) = l.drop m := by
    intro l k m hm
    rcases Nat.le_total m l.length with h | h
    · rw [Nat.min_eq_left h, Nat.min_eq_right hm]
    · rw [Nat.min_eq_right h, List.drop_eq_nil_of_le h]
      by_cases hk : k ≤ l.length
      · rw [Nat.min_eq_left hk, List.drop_eq_nil_of_le (by omega)]
      · rw [Nat.min_eq_right (by omega), List.drop_length]
  refine ⟨s.calls + 3, ?_⟩
  simp only [planes, readPlanes, readPlane, h1, h2, h3, readToVec]
  rw [drop_min _ _ _ (by omega), drop_min _ _ _ (by omega), drop_min _ _ _ (by omega), List.drop_drop, List.drop_drop]

theorem frames_consume (world : World) (cfg : Config) (w h : Nat) (hw : cfg.width = some w) (hh : cfg.height = some h)
    (h3 : 3 ≤ w) (hw2 : w ≤ 8191) (h3' : 3 ≤ h) (hh2 : h ≤ 8191) (hr : ReadsFull world) :
    ∀ (n fr : Nat) (s : St), (fr = 0 → s.w = Writer.new) → (frames world cfg n fr s).1.input = s.input.drop (n * 38016)
  | 0, fr, s, _ => by simp [frames]
  | n + 1, fr, s, hs => by
    obtain ⟨c, hc⟩ := readPlanes_full world hr s
    unfold frames
    simp only [hc]
    by_cases h0 : fr = 0
    · obtain ⟨e, he, -⟩ := C29_size_partial w h h3 hw2 h3' hh2
      obtain ⟨wr, hwr⟩ := Option.isSome_iff_exists.1 (C28_total .sequenceHeader e Writer.new [] holds_new)
      have hrun : encodeSeqHeader (SeqHeader.new w h) SeqCtx.new = some (raw e) := he
      simp only [h0, if_true, hw, hh, hrun, hs h0, hwr]
      rw [frames_consume world cfg w h hw hh h3 hw2 h3' hh2 hr n (0 + 1) _ (by omega)]
      rw [List.drop_drop]; congr 1; ring
    · simp only [h0, if_false]
      rw [frames_consume world cfg w h hw hh h3 hw2 h3' hh2 hr n (fr + 1) _ (by omega)]
      rw [List.drop_drop]; congr 1; ring

/-- **C54**, what happens: every frame consumes 38016 bytes, a 176x144 frame, whatever size was configured.
Missing: any other size. -/
theorem C54_fixed_partial (args : List Str) (cfg : Config) (w h n : Nat) (world : World)
    (hc : readConfig args = .ok cfg) (hw : cfg.width = some w) (hh : cfg.height = some h) (hn : cfg.frames = some n)
    (h3 : 3 ≤ w) (h3' : 3 ≤ h) (hi : world.openIn = true) (ho : world.openOut = true) (hr : ReadsFull world) :
    (main args world).left = world.input.drop (n * 38016) ∧
      (w * h = 176 * 144 → (main args world).left = world.input.drop (n * (w * h + 2 * (w * h / 4)))) := by
  obtain ⟨i, o, f, w', ht', rn, rd, ci, co, cf, cw, ch, -, -, wl, -, hl, -, -⟩ := C24_accepted_complete args cfg hc
  have hne : args.length ≠ 0 := by
    intro h0
    rw [List.length_eq_zero_iff.1 h0, readConfig_nil] at hc
    cases hc
  have hw2 : w ≤ 8191 := by rw [cw] at hw; have := Option.some.inj hw; omega
  have hh2 : h ≤ 8191 := by rw [ch] at hh; have := Option.some.inj hh; omega
  have key : (main args world).left = world.input.drop (n * 38016) := by
    unfold main
    rw [if_neg hne, hc]
    simp only [ci, co, hn, hi, ho, Bool.true_eq_false, and_false, if_false]
    exact frames_consume world cfg w h hw hh h3 hw2 h3' hh2 hr n 0 _ (fun _ => rfl)
  exact ⟨key, fun he => by rw [he]; exact key⟩

def args4 : List Str := ["-i".toList, "stdin".toList, "-o".toList, "out".toList, "-s".toList, "4x4".toList,
  "-fr".toList, "1".toList]

def cfg4 : Config := ⟨some "stdin".toList, some "out".toList, some 4, some 4, some (30, 1), some 1⟩

/-- **C54** is false: one 4x4 frame should take 24 bytes. -/
theorem C54_negation : ¬ C54_full := by
  intro h
  have hc : readConfig args4 = .ok cfg4 := by decide +kernel
  let world : World := ⟨true, true, List.replicate 25 7, fun _ => some 25344⟩
  have hf : ReadsFull world := fun i => ⟨25344, rfl, by decide⟩
  have a := h args4 cfg4 4 4 1 world hc rfl rfl rfl (by decide) (by decide) rfl rfl hf (by decide)
  have b := (C54_fixed_partial args4 cfg4 4 4 1 world hc rfl rfl rfl (by decide) (by decide) rfl rfl hf).1
  rw [a] at b
  have := congrArg List.length b
  simp [world] at this

/-- Reading the planes: all reads succeed, or the first that fails ends it. -/
theorem readPlanes_iff (world : World) : ∀ (l : List Nat) (s : St),
    ((readPlanes world l s).2 = true ↔ ∀ i < l.length, (world.read (s.calls + i)).isSome) ∧ (readPlanes world l s).1.w = s.w ∧
      ((readPlanes world l s).2 = true → (readPlanes world l s).1.calls = s.calls + l.length)
  | [], s => by simp [readPlanes]
  | n :: l, s => by
    unfold readPlanes readPlane
    cases h : world.read s.calls with
    | none =>
      simp only [List.length_cons, Bool.false_eq_true, false_iff, not_forall, false_imp_iff, and_true]
      exact ⟨0, by omega, by simp [h]⟩
    | some k =>
      obtain ⟨h1, h2, h3⟩ := readPlanes_iff world l { s with
        input := (readToVec n s.input (min k (min n s.input.length))).2.2, calls := s.calls + 1 }
      simp only at h1 h2 h3 ⊢
      refine ⟨?_, h2, fun hb => by rw [h3 hb, List.length_cons]; omega⟩
      rw [h1]
      constructor
      · intro H i hi
        cases i with
        | zero => simp [h]
        | succ i => rw [show s.calls + (i + 1) = s.calls + 1 + i by omega]; exact H i (by simpa using hi)
      · intro H i hi
        rw [show s.calls + 1 + i = s.calls + (i + 1) by omega]
        exact H (i + 1) (by simpa using hi)

/-- Frames after the first: the run returns if all their reads succeed and exits otherwise. -/
theorem frames_later_iff (world : World) (cfg : Config) : ∀ (n fr : Nat) (s : St), 0 < fr →
    (frames world cfg n fr s).1.w = s.w ∧
      (frames world cfg n fr s).2 = if ∀ i < 3 * n, (world.read (s.calls + i)).isSome then .returned else .exited
  | 0, fr, s, _ => by simp [frames]
  | n + 1, fr, s, h => by
    obtain ⟨h1, h2, h3⟩ := readPlanes_iff world planes s
    unfold frames
    cases hp : readPlanes world planes s with
    | mk s' b =>
      rw [hp] at h1 h2 h3
      simp only at h1 h2 h3
      cases b with
      | false =>
        simp only [Bool.false_eq_true, false_iff, not_forall] at h1
        obtain ⟨i, hi, hx⟩ := h1
        have hi' : i < 3 := hi
        exact ⟨h2, by rw [if_neg (fun H => hx (H i (by omega)))]⟩
      | true =>
        simp only [if_neg (by omega : ¬ fr = 0)]
        obtain ⟨i1, i2⟩ := frames_later_iff world cfg n (fr + 1) s' (by omega)
        refine ⟨i1.trans h2, ?_⟩
        rw [i2]
        have hc : s'.calls = s.calls + 3 := h3 rfl
        have h1 := h1.1 rfl
        congr 1
        rw [hc, eq_iff_iff]
        constructor
        · intro H i hi
          by_cases h : i < 3
          · exact h1 i h
          · have := H (i - 3) (by omega)
            rwa [show s.calls + 3 + (i - 3) = s.calls + i by omega] at this
        · intro H i hi
          rw [show s.calls + 3 + i = s.calls + (3 + i) by omega]
          exact H _ (by omega)

/-- **C36**, exactly: how every run with an accepted command line and open files ends and what it has written, whatever the
reads do.  Nothing is written if no frame is requested, if one of the first three reads fails, or if a side is shorter than 3;
the last panics.  Otherwise the unit is written, and later failing reads end the run early. -/
theorem C36_exact (args : List Str) (cfg : Config) (w h n : Nat) (world : World)
    (hc : readConfig args = .ok cfg) (hw : cfg.width = some w) (hh : cfg.height = some h) (hn : cfg.frames = some n)
    (hi : world.openIn = true) (ho : world.openOut = true) :
    (n = 0 → (main args world).ending = .returned ∧ (main args world).out = []) ∧
    (0 < n → (∃ i < 3, world.read i = none) → (main args world).ending = .exited ∧ (main args world).out = []) ∧
    (0 < n → (∀ i < 3, (world.read i).isSome) → (w < 3 ∨ h < 3) →
      (main args world).ending = .panicked ∧ (main args world).out = []) ∧
    (0 < n → (∀ i < 3, (world.read i).isSome) → 3 ≤ w → 3 ≤ h →
      ((main args world).ending = if ∀ i < 3 * n, (world.read i).isSome then .returned else .exited) ∧
      some (main args world).out = expected w h n) := by
  obtain ⟨i, o, f, w', ht', rn, rd, ci, co, cf, cw, ch, -, w0, wl, h0, hl, -, -⟩ := C24_accepted_complete args cfg hc
  rw [cw] at hw
  rw [ch] at hh
  rw [cf] at hn
  obtain rfl := Option.some.inj hw
  obtain rfl := Option.some.inj hh
  obtain rfl := Option.some.inj hn
  have hne : args.length ≠ 0 := by
    intro h0
    rw [List.length_eq_zero_iff.1 h0, readConfig_nil] at hc
    cases hc
  have hm : main args world = ⟨1, (frames world cfg f 0 ⟨world.input, 0, Writer.new⟩).1.w.out,
      (frames world cfg f 0 ⟨world.input, 0, Writer.new⟩).1.input, (frames world cfg f 0 ⟨world.input, 0, Writer.new⟩).2⟩ := by
    unfold main
    rw [if_neg hne, hc]
    simp only [ci, co, cf, hi, ho, Bool.true_eq_false, and_false, if_false]
  rw [hm]
  simp only
  obtain ⟨h1, h2, h3⟩ := readPlanes_iff world planes ⟨world.input, 0, Writer.new⟩
  have hl3 : planes.length = 3 := rfl
  simp only [hl3, Nat.zero_add] at h1 h2 h3
  cases f with
  | zero => simp [frames, Writer.new]
  | succ f =>
    refine ⟨by simp, ?_⟩
    simp only [Nat.succ_pos, true_imp_iff]
    unfold frames
    cases hp : readPlanes world planes ⟨world.input, 0, Writer.new⟩ with
    | mk s' b =>
      rw [hp] at h1 h2 h3
      simp only at h1 h2 h3
      cases b with
      | false =>
        have hf : ¬ ∀ i < 3, (world.read i).isSome := fun H => by simpa using h1.2 H
        refine ⟨fun _ => ⟨rfl, by rw [h2]; rfl⟩, fun H => absurd H hf, fun H => absurd H hf⟩
      | true =>
        have ht := h1.1 rfl
        simp only [if_true, cw, ch, h2]
        refine ⟨?_, ?_, ?_⟩
        · rintro ⟨i, hi, hx⟩
          have := ht i hi
          rw [hx] at this; simp at this
        · rintro - hsm
          have : encodeSeqHeader (SeqHeader.new w' ht') SeqCtx.new = none := by
            have := (C30_exact_partial w' ht' (by omega) (by omega) (by omega) (by omega)).not.2 (by omega)
            simpa [runHeader] using this
          have hu : encodeTemporalUnit .sequenceHeader none Writer.new = none := rfl
          rw [this, hu]
          exact ⟨rfl, by rw [h2]; rfl⟩
        · intro _ g1 g2
          obtain ⟨e, he, -⟩ := C29_size_partial w' ht' g1 (by omega) g2 (by omega)
          obtain ⟨wr, hwr⟩ := Option.isSome_iff_exists.1 (C28_total .sequenceHeader e Writer.new [] holds_new)
          have hrun : encodeSeqHeader (SeqHeader.new w' ht') SeqCtx.new = some (raw e) := he
          simp only [hrun, hwr]
          obtain ⟨i1, i2⟩ := frames_later_iff world cfg f (0 + 1) { s' with w := wr } (by omega)
          constructor
          · rw [i2]
            have hc : s'.calls = 3 := h3 rfl
            congr 1
            simp only [hc]
            rw [eq_iff_iff]
            constructor
            · intro H i hi
              by_cases h : i < 3
              · exact ht i h
              · have := H (i - 3) (by omega)
                rwa [show 3 + (i - 3) = i by omega] at this
            · intro H i hi
              exact H _ (by omega)
          · rw [i1, expected, if_neg (by omega), he, hwr]; rfl

/-- **C36**, the condition under which the claim holds. -/
theorem C36_iff (args : List Str) (cfg : Config) (w h n : Nat) (world : World)
    (hc : readConfig args = .ok cfg) (hw : cfg.width = some w) (hh : cfg.height = some h) (hn : cfg.frames = some n)
    (hi : world.openIn = true) (ho : world.openOut = true) :
    ((main args world).ending = .returned ∧ some (main args world).out = expected w h n) ↔
      n = 0 ∨ (3 ≤ w ∧ 3 ≤ h ∧ ∀ i < 3 * n, (world.read i).isSome) := by
  obtain ⟨a, b, c, d⟩ := C36_exact args cfg w h n world hc hw hh hn hi ho
  by_cases h0 : n = 0
  · subst h0
    obtain ⟨a1, a2⟩ := a rfl
    simp [a1, a2, expected]
  · have hp : 0 < n := by omega
    simp only [h0, false_or]
    by_cases hr : ∀ i < 3, (world.read i).isSome
    · by_cases hs : 3 ≤ w ∧ 3 ≤ h
      · obtain ⟨d1, d2⟩ := d hp hr hs.1 hs.2
        rw [d1]
        simp only [d2, and_true, hs, true_and]
        split <;> simp_all
      · obtain ⟨c1, -⟩ := c hp hr (by omega)
        rw [c1]
        simp only [reduceCtorEq, false_and, false_iff]
        exact fun H => hs ⟨H.1, H.2.1⟩
    · have hx : ∃ i < 3, world.read i = none := by
        simp only [not_forall, Option.isSome_iff_ne_none, ne_eq, not_not] at hr
        obtain ⟨i, h1, h2⟩ := hr
        exact ⟨i, h1, h2⟩
      obtain ⟨b1, -⟩ := b hp hx
      rw [b1]
      simp only [reduceCtorEq, false_and, false_iff]
      exact fun H => hr fun i hi => H.2.2 i (by omega)

/-- A byte that was just written is in the buffer. -/
theorem bufSteps_keeps (l : List Nat) (hl : l ≠ []) (s : List Nat × List Nat) : (l.foldl bufStep s).2 ≠ [] := by
  have : l = l.dropLast ++ [l.getLast hl] := (List.dropLast_concat_getLast hl).symm
  rw [this, List.foldl_append, List.foldl_cons, List.foldl_nil]
  unfold bufStep
  split <;> simp

/-- **C53**, exactly: what was written is in the file afterwards iff nothing was written or the run did not end by
`process::exit`. -/
theorem C53_iff (args : List Str) (world : World) :
    fileContents (main args world) = (main args world).out ↔
      (main args world).ending ≠ .exited ∨ (main args world).out = [] := by
  by_cases he : (main args world).ending = .exited
  · by_cases ho : (main args world).out = []
    · simp [fileContents, he, ho]
    · simp only [he, ne_eq, not_true_eq_false, ho, or_false, iff_false]
      unfold fileContents
      simp only [he]
      intro h
      have := bufSteps_length (main args world).out ([], [])
      simp only [List.append_nil, List.nil_append] at this
      have hk := bufSteps_keeps _ ho ([], [])
      rw [h] at this
      exact hk (by simpa using this)
  · simp only [ne_eq, he, not_false_eq_true, true_or, iff_true]
    exact C53_complete_partial args world he

/-- **C53** in terms of the surroundings: with an accepted command line and open files the stream is lost exactly when the three
reads of the first frame succeed and a later one fails. -/
theorem C53_lost (args : List Str) (cfg : Config) (w h n : Nat) (world : World)
    (hc : readConfig args = .ok cfg) (hw : cfg.width = some w) (hh : cfg.height = some h) (hn : cfg.frames = some n)
    (hi : world.openIn = true) (ho : world.openOut = true) :
    fileContents (main args world) ≠ (main args world).out ↔
      3 ≤ w ∧ 3 ≤ h ∧ (∀ i < 3, (world.read i).isSome) ∧ ∃ i < 3 * n, world.read i = none := by
  obtain ⟨a, b, c, d⟩ := C36_exact args cfg w h n world hc hw hh hn hi ho
  obtain ⟨-, -, f, w', ht', -, -, -, -, cf, cw, ch, -, w0, wl, h0, hl, -, -⟩ := C24_accepted_complete args cfg hc
  rw [cw] at hw
  rw [ch] at hh
  obtain rfl := Option.some.inj hw
  obtain rfl := Option.some.inj hh
  rw [ne_eq, C53_iff]
  by_cases hz : n = 0
  · subst hz
    simp [a rfl]
  · have hp : 0 < n := by omega
    by_cases hr : ∀ i < 3, (world.read i).isSome
    · by_cases hs : 3 ≤ w' ∧ 3 ≤ ht'
      · obtain ⟨d1, d2⟩ := d hp hr hs.1 hs.2
        have hout : (main args world).out ≠ [] := by
          intro h
          obtain ⟨out, e, e1, -, e3⟩ := C36_bytes w' ht' n hp hs.1 (by omega) hs.2 (by omega)
          rw [h, e1] at d2
          cases d2
          have := congrArg List.length e3
          simp [bytesBits] at this
        simp only [hout, or_false, hs, true_and, ne_eq, not_not, d1]
        split
        · rename_i H
          simp only [reduceCtorEq, false_iff, not_exists, not_and]
          intro _ i hi hx
          have := H i hi
          rw [hx] at this; simp at this
        · rename_i H
          simp only [true_iff]
          simp only [not_forall, Option.isSome_iff_ne_none, ne_eq, not_not] at H
          obtain ⟨i, h1, h2⟩ := H
          exact ⟨hr, i, h1, h2⟩
      · obtain ⟨c1, c2⟩ := c hp hr (by omega)
        simp only [c2, or_true, not_true_eq_false, false_iff]
        exact fun H => hs ⟨H.1, H.2.1⟩
    · have hx : ∃ i < 3, world.read i = none := by
        simp only [not_forall, Option.isSome_iff_ne_none, ne_eq, not_not] at hr
        obtain ⟨i, h1, h2⟩ := hr
        exact ⟨i, h1, h2⟩
      obtain ⟨b1, b2⟩ := b hp hx
      simp only [b2, or_true, not_true_eq_false, false_iff]
      exact fun H => hr H.2.2.1

/-- **C54**, exactly: what a run leaves of a longer input is right iff no frame was requested or the configured frame has as many
samples as one of 176 by 144. -/
theorem C54_iff (args : List Str) (cfg : Config) (w h n : Nat) (world : World)
    (hc : readConfig args = .ok cfg) (hw : cfg.width = some w) (hh : cfg.height = some h) (hn : cfg.frames = some n)
    (h3 : 3 ≤ w) (h3' : 3 ≤ h) (hi : world.openIn = true) (ho : world.openOut = true) (hr : ReadsFull world)
    (hl : n * (w * h + 2 * (w * h / 4)) < world.input.length) :
    (main args world).left = world.input.drop (n * (w * h + 2 * (w * h / 4))) ↔ n = 0 ∨ w * h = 176 * 144 := by
  obtain ⟨h1, h2⟩ := C54_fixed_partial args cfg w h n world hc hw hh hn h3 h3' hi ho hr
  constructor
  · intro H
    rw [h1] at H
    have := congrArg List.length H
    simp only [List.length_drop] at this
    have he : n * 38016 = n * (w * h + 2 * (w * h / 4)) := by omega
    rcases Nat.eq_zero_or_pos n with h0 | h0
    · exact .inl h0
    · right
      have := Nat.eq_of_mul_eq_mul_left h0 he
      omega
  · rintro (rfl | H)
    · rw [h1]; simp
    · exact h2 H

/-- Non-vacuity of the hypotheses of C36 and C54. -/
example : readConfig args3 = .ok cfg3 ∧ ReadsSucceed quiet := ⟨by decide +kernel, fun _ => rfl⟩

end Av1.Run
