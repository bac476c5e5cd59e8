import Verif.Props.Run

/-! # C96, C97: raw writes through the bit writer, and the exit status of a run -/

namespace Av1

/-! ## C21, C19: bit vectors and integer helpers -/

/-- **C21** for bit vectors (`push_bits_align`): the fewest zero bits that complete a byte. -/
theorem C21_vector_align (l : Bits) : (l ++ pushBitsAlign l.length).length % 8 = 0 ∧ (pushBitsAlign l.length).length < 8 ∧
    (∀ b ∈ pushBitsAlign l.length, b = false) ∧ (l.length % 8 = 0 → pushBitsAlign l.length = []) := by
  unfold pushBitsAlign
  refine ⟨?_, ?_, ?_, ?_⟩
  · simp; omega
  · simp; omega
  · intro b hb; exact List.eq_of_mem_replicate hb
  · intro h; rw [h]; rfl

example : pushBitsAlign [true, false, true].length = [false, false, false, false, false] := by decide

/-- **C19**, the comparisons: minimum, maximum, absolute value and clipping are the mathematical ones. -/
theorem C19_order (x y z : Int) : minM x y = min x y ∧ maxM x y = max x y ∧ absM x = |x| ∧
    (x ≤ y → clip3 x y z = max x (min y z)) := by
  refine ⟨?_, ?_, ?_, ?_⟩
  · unfold minM; split <;> omega
  · unfold maxM; split <;> omega
  · unfold absM
    split
    · rename_i h; rw [abs_of_nonneg h]
    · rename_i h; rw [abs_of_neg (by omega)]
  · intro h
    unfold clip3
    split
    · omega
    · split <;> omega

/-! ## C96: `BinaryWriter` as a `Write` -/

/-- **C96**, full claim: bytes written through `Write::write` come after all bits written before. -/
def C96_full : Prop := ∀ (ops : List WOp) (w : Writer) (bytes : List Nat), runW Writer.new ops = some w →
  (∀ b ∈ bytes, b < 256) → Holds (writeRaw w bytes) (specW [] ops ++ bytesBits bytes)

/-- **C96**, what holds: the bytes overtake the pending bits, so the order is right on a byte boundary. Missing: any other
position, see `C96_wrong`. -/
theorem C96_raw_partial (ops : List WOp) (w : Writer) (bytes : List Nat) (h : runW Writer.new ops = some w)
    (hb : ∀ b ∈ bytes, b < 256) :
    Holds (writeRaw w bytes) (bytesBits w.out ++ bytesBits bytes ++ toBits w.index w.buf) ∧
      ((specW [] ops).length % 8 = 0 → Holds (writeRaw w bytes) (specW [] ops ++ bytesBits bytes)) := by
  obtain ⟨w0, h1, h2⟩ := holds_run ops holds_new
  rw [h] at h1
  obtain rfl := Option.some.inj h1
  have hh : Holds (writeRaw w bytes) (bytesBits w.out ++ bytesBits bytes ++ toBits w.index w.buf) := by
    refine ⟨h2.idx, h2.buf, ?_, ?_⟩
    · intro b hm
      rcases List.mem_append.1 hm with hm | hm
      · exact h2.bytes b hm
      · exact hb b hm
    · show bytesBits (w.out ++ bytes) ++ _ = _
      rw [bytesBits_append]; rfl
  refine ⟨hh, fun h0 => ?_⟩
  have hl := h2.length
  have hi := h2.idx
  have hidx : w.index = 0 := by omega
  have hs := h2.bits
  rw [hidx] at hh hs
  simp only [toBits, List.append_nil] at hh hs
  rw [← hs]
  exact hh

/-- With `k > 0` bits pending the first pending bit appears 8 places later for every raw byte: unless the pending bits and
the bytes commute as strings, the stream is another one. -/
theorem C96_wrong (ops : List WOp) (w : Writer) (bytes : List Nat) (h : runW Writer.new ops = some w)
    (hb : ∀ b ∈ bytes, b < 256)
    (hne : bytesBits bytes ++ toBits w.index w.buf ≠ toBits w.index w.buf ++ bytesBits bytes) :
    ¬ Holds (writeRaw w bytes) (specW [] ops ++ bytesBits bytes) := by
  intro hx
  have hp := (C96_raw_partial ops w bytes h hb).1
  obtain ⟨w0, h1, h2⟩ := holds_run ops holds_new
  rw [h] at h1
  obtain rfl := Option.some.inj h1
  have := hp.bits.symm.trans hx.bits
  rw [← h2.bits, List.append_assoc, List.append_assoc] at this
  exact hne (List.append_cancel_left this)

/-- **C96**, exactly: raw bytes keep their place iff they commute with the pending bits. -/
theorem C96_iff (ops : List WOp) (w : Writer) (bytes : List Nat) (h : runW Writer.new ops = some w)
    (hb : ∀ b ∈ bytes, b < 256) :
    Holds (writeRaw w bytes) (specW [] ops ++ bytesBits bytes) ↔
      bytesBits bytes ++ toBits w.index w.buf = toBits w.index w.buf ++ bytesBits bytes := by
  constructor
  · intro hx
    by_contra hne
    exact C96_wrong ops w bytes h hb hne hx
  · intro he
    have hp := (C96_raw_partial ops w bytes h hb).1
    obtain ⟨w0, h1, h2⟩ := holds_run ops holds_new
    rw [h] at h1
    obtain rfl := Option.some.inj h1
    rw [← h2.bits, List.append_assoc, ← he, ← List.append_assoc]
    exact hp

/-- **C96** is false: the bit 1 and then the byte 0 come out as the byte 0 and then the bit 1. -/
theorem C96_negation : ¬ C96_full := by
  intro h
  exact C96_wrong [.bit true] ⟨[], 1, 1⟩ [0] rfl (by decide) (by decide) (h [.bit true] ⟨[], 1, 1⟩ [0] rfl (by decide))

end Av1

namespace Av1.Run

open Av1.Cli

/-! ## C97: exit status -/

/-- The exit status: 0 for a normal return and for `process::exit(0)` (the only argument in main.rs), 101 for a panic. -/
def status : Ending → Nat
  | .returned => 0
  | .exited => 0
  | .panicked => 101

/-- **C97**, full claim: a run that does not produce the requested stream is reported in the exit status. -/
def C97_full : Prop := ∀ (args : List Str) (world : World),
  (∀ cfg, readConfig args ≠ .ok cfg) ∨ world.openIn = false ∨ world.openOut = false ∨ ¬ ReadsSucceed world →
  status (main args world).ending ≠ 0

/-- A rejected command line: one message, no output, nothing read, status 0. -/
theorem C97_rejected (args : List Str) (world : World) (hc : readConfig args = .err) (hne : args ≠ []) :
    main args world = ⟨2, [], world.input, .exited⟩ ∧ status (main args world).ending = 0 := by
  have : main args world = ⟨2, [], world.input, .exited⟩ := by
    unfold main
    rw [if_neg (by simpa using hne), hc]
  exact ⟨this, by rw [this]; rfl⟩

/-- No arguments: only the banner, a normal return, although required options are missing. -/
theorem C97_no_arguments (world : World) : main [] world = ⟨1, [], world.input, .returned⟩ ∧ readConfig [] = .err :=
  ⟨rfl, readConfig_nil⟩

/-- A file that cannot be opened: one message, no output, nothing read, status 0. -/
theorem C97_unopened (args : List Str) (cfg : Config) (i o : Str) (world : World) (hc : readConfig args = .ok cfg)
    (hi : cfg.input = some i) (ho : cfg.output = some o)
    (hf : i ≠ "stdin".toList ∧ world.openIn = false ∨ o ≠ "stdout".toList ∧ world.openOut = false) :
    main args world = ⟨2, [], world.input, .exited⟩ ∧ status (main args world).ending = 0 := by
  obtain ⟨-, -, f, -, -, -, -, -, -, cf, -⟩ := C24_accepted_complete args cfg hc
  have hne : args.length ≠ 0 := by
    intro h0
    rw [List.length_eq_zero_iff.1 h0, readConfig_nil] at hc
    cases hc
  have : main args world = ⟨2, [], world.input, .exited⟩ := by
    unfold main
    rw [if_neg hne, hc]
    simp only [hi, ho, cf]
    by_cases h1 : i ≠ "stdin".toList ∧ world.openIn = false
    · rw [if_pos h1]
    · rw [if_neg h1, if_pos (hf.resolve_left h1)]
  exact ⟨this, by rw [this]; rfl⟩

/-- A read error in frame `k`: the run stops with status 0. -/
theorem frames_read_error (world : World) (cfg : Config) (n : Nat) (fr : Nat) (s : St)
    (h : (readPlanes world planes s).2 = false) : (frames world cfg (n + 1) fr s).2 = .exited := by
  unfold frames
  cases hr : readPlanes world planes s with
  | mk a b =>
    rw [hr] at h
    simp only at h
    subst h
    rfl

/-- An input whose first read fails: nothing is written, no message, status 0. -/
theorem C97_unread (args : List Str) (cfg : Config) (n : Nat) (world : World) (hc : readConfig args = .ok cfg)
    (hn : cfg.frames = some (n + 1)) (hi : world.openIn = true) (ho : world.openOut = true) (hr : world.read 0 = none) :
    main args world = ⟨1, [], world.input, .exited⟩ ∧ status (main args world).ending = 0 := by
  obtain ⟨i, o, f, -, -, -, -, ci, co, cf, -⟩ := C24_accepted_complete args cfg hc
  have hne : args.length ≠ 0 := by
    intro h0
    rw [List.length_eq_zero_iff.1 h0, readConfig_nil] at hc
    cases hc
  have hp : readPlanes world planes ⟨world.input, 0, Writer.new⟩ = (⟨world.input, 0, Writer.new⟩, false) := by
    simp only [planes, readPlanes, readPlane, hr]
  have : main args world = ⟨1, [], world.input, .exited⟩ := by
    unfold main
    rw [if_neg hne, hc]
    simp only [ci, co, hn, hi, ho]
    rw [if_neg (by simp), if_neg (by simp)]
    unfold frames
    rw [hp]
    rfl
  exact ⟨this, by rw [this]; rfl⟩

/-- **C97**, what holds: the status is not 0 exactly when the run panics. Missing: every failure the program itself
detects. -/
theorem C97_status_partial (args : List Str) (world : World) :
    status (main args world).ending ≠ 0 ↔ (main args world).ending = .panicked := by
  cases (main args world).ending <;> simp [status]

/-- **C97** is false. -/
theorem C97_negation : ¬ C97_full := by
  intro h
  exact h [] quiet (Or.inl (fun cfg hc => by rw [readConfig_nil] at hc; cases hc)) rfl

/-- A command line with an unknown option is such a rejected one. -/
example : readConfig ["--nope".toList, "1".toList] = .err ∧ ["--nope".toList, "1".toList] ≠ [] := by decide +kernel

theorem readPlanes_open (world : World) (a b : Bool) : ∀ (l : List Nat) (s : St),
    readPlanes { world with openIn := a, openOut := b } l s = readPlanes world l s
  | [], _ => rfl
  | x :: l, s => by
    have : readPlane { world with openIn := a, openOut := b } x s = readPlane world x s := rfl
    rw [readPlanes, readPlanes, this]
    cases readPlane world x s with
    | none => rfl
    | some s => exact readPlanes_open world a b l s

theorem frames_open (world : World) (cfg : Config) (a b : Bool) : ∀ (n fr : Nat) (s : St),
    frames { world with openIn := a, openOut := b } cfg n fr s = frames world cfg n fr s
  | 0, _, _ => rfl
  | n + 1, fr, s => by
    rw [frames, frames, readPlanes_open]
    simp only [frames_open world cfg a b n]

/-- **C97**, the exact condition: the status is not 0 if and only if the command line crashes the reader of options (`Crash`, C26), or
everything is accepted and opened, a frame is requested and read, and a side is shorter than 3.  None of these is a failure
named by the claim. -/
theorem C97_iff (args : List Str) (world : World) : status (main args world).ending ≠ 0 ↔
    Crash args ∨ ∃ cfg i o w h n, readConfig args = .ok cfg ∧ cfg.input = some i ∧ cfg.output = some o ∧ cfg.width = some w ∧
      cfg.height = some h ∧ cfg.frames = some n ∧ (i = "stdin".toList ∨ world.openIn = true) ∧
      (o = "stdout".toList ∨ world.openOut = true) ∧ 0 < n ∧ (∀ k < 3, (world.read k).isSome) ∧ (w < 3 ∨ h < 3) := by
  rw [C97_status_partial, ← C26_iff]
  by_cases hnil : args = []
  · subst hnil
    simp [readConfig_nil, (C97_no_arguments world).1]
  have hne : args.length ≠ 0 := by simpa using hnil
  cases hc : readConfig args with
  | panic => simp [main, hne, hc]
  | exit => simp [main, hne, hc]
  | err => simp [main, hne, hc]
  | ok cfg =>
    obtain ⟨i, o, f, w, h, rn, rd, ci, co, cf, cw, ch, -⟩ := C24_accepted_complete args cfg hc
    simp only [reduceCtorEq, false_or, Res.ok.injEq]
    by_cases hopen : (i = "stdin".toList ∨ world.openIn = true) ∧ (o = "stdout".toList ∨ world.openOut = true)
    · have hmain : (main args world).ending = (main args { world with openIn := true, openOut := true }).ending := by
        unfold main
        rw [if_neg hne, if_neg hne, hc]
        simp only [ci, co, cf, Bool.true_eq_false, and_false, if_false, frames_open]
        rw [if_neg (by rintro ⟨h1, h2⟩; rcases hopen.1 with h | h
                       · exact h1 h
                       · rw [h] at h2; cases h2),
          if_neg (by rintro ⟨h1, h2⟩; rcases hopen.2 with h | h
                     · exact h1 h
                     · rw [h] at h2; cases h2)]
      rw [hmain]
      obtain ⟨e1, e2, e3, e4⟩ := C36_exact args cfg w h f { world with openIn := true, openOut := true } hc cw ch cf rfl rfl
      simp only at e1 e2 e3 e4
      constructor
      · intro hp
        refine ⟨cfg, i, o, w, h, f, rfl, ci, co, cw, ch, cf, hopen.1, hopen.2, ?_⟩
        rcases Nat.eq_zero_or_pos f with h0 | h0
        · rw [(e1 h0).1] at hp; cases hp
        by_cases hr : ∃ k < 3, world.read k = none
        · rw [(e2 h0 hr).1] at hp; cases hp
        push Not at hr
        have hr' : ∀ k < 3, (world.read k).isSome := fun k hk => Option.isSome_iff_ne_none.2 (hr k hk)
        refine ⟨h0, hr', ?_⟩
        by_contra hs
        push Not at hs
        have := (e4 h0 hr' hs.1 hs.2).1
        rw [hp] at this
        split at this <;> cases this
      · rintro ⟨cfg', i', o', w', h', n', rfl, ci', co', cw', ch', cf', -, -, h0, hr, hs⟩
        rw [cw] at cw'; cases cw'
        rw [ch] at ch'; cases ch'
        rw [cf] at cf'; cases cf'
        exact (e3 h0 hr hs).1
    · constructor
      · intro hp
        have hf : i ≠ "stdin".toList ∧ world.openIn = false ∨ o ≠ "stdout".toList ∧ world.openOut = false := by
          by_contra hno
          apply hopen
          push Not at hno
          refine ⟨?_, ?_⟩
          · by_cases hi : i = "stdin".toList
            · exact Or.inl hi
            · exact Or.inr (by simpa using hno.1 hi)
          · by_cases hi : o = "stdout".toList
            · exact Or.inl hi
            · exact Or.inr (by simpa using hno.2 hi)
        rw [(C97_unopened args cfg i o world hc ci co hf).1] at hp
        cases hp
      · rintro ⟨cfg', i', o', w', h', n', rfl, ci', co', cw', ch', cf', hi, ho, -⟩
        rw [ci] at ci'; cases ci'
        rw [co] at co'; cases co'
        exact absurd ⟨hi, ho⟩ hopen


/-- Such a run: two columns, one frame that can be read. -/
example : status (main ["-i".toList, "a".toList, "-o".toList, "b".toList, "-s".toList, "2x144".toList, "-fr".toList, "1".toList]
    ⟨true, true, [], fun _ => some 0⟩).ending = 101 := by decide +kernel

end Av1.Run
