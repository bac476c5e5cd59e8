import Verif.Model.Cli
import Verif.Model.Obu

/-!
# `src/main.rs`: a run of the program

The surroundings (files, operating system) are a `World`: whether the files open, the contents of the input, and for
each read call whether it fails and how many bytes it returns otherwise.  The writes always succeed.
-/

namespace Av1.Run

open Av1.Cli

structure World where
  openIn : Bool
  openOut : Bool
  input : List Nat
  /-- call number to: error, or the number of bytes returned -/
  read : Nat → Option Nat

/-- How the process ends: `main` returns, `process::exit`, or a panic. -/
inductive Ending where
  | returned | exited | panicked
deriving Repr, DecidableEq

/-- What is observable of a run. -/
structure Outcome where
  /-- `println!` calls: the banner and at most one error message (the lines of `--help` are not counted) -/
  printed : Nat
  /-- bytes handed to the output, in order -/
  out : List Nat
  /-- input bytes not read -/
  left : List Nat
  ending : Ending
deriving Repr, DecidableEq

/-- Loop state: input left, number of read calls made, writer. -/
structure St where
  input : List Nat
  calls : Nat
  w : Writer

/-- `read_to_vec` on a plane of `len` samples (main.rs 105–107); `none` = error. -/
def readPlane (world : World) (len : Nat) (s : St) : Option St :=
  match world.read s.calls with
  | none => none
  | some k => some { s with input := (readToVec len s.input (min k (min len s.input.length))).2.2, calls := s.calls + 1 }

/-- Sizes of the planes of `Frame::new(KEY_FRAME, 176, 144)` (main.rs 104, frame.rs 254–256). -/
def planes : List Nat := [176 * 144, 176 * 144 / 4, 176 * 144 / 4]

/-- The three reads; on an error the state reached so far. -/
def readPlanes (world : World) : List Nat → St → St × Bool
  | [], s => (s, true)
  | l :: ls, s => match readPlane world l s with
    | none => (s, false)
    | some s => readPlanes world ls s

/-- The `for` loop (103–118) from frame `fr`, `n` iterations left. -/
def frames (world : World) (cfg : Config) : Nat → Nat → St → St × Ending
  | 0, _, s => (s, .returned)
  | n + 1, fr, s =>
    match readPlanes world planes s with
    | (s, false) => (s, .exited)
    | (s, true) =>
      if fr = 0 then
        match cfg.width, cfg.height with
        | some w, some h =>
          match encodeTemporalUnit .sequenceHeader (encodeSeqHeader (SeqHeader.new w h) SeqCtx.new) s.w with
          | some w => frames world cfg n (fr + 1) { s with w := w }
          | none => (s, .panicked)
        | _, _ => (s, .panicked)
      else frames world cfg n (fr + 1) s

/-- `main` (43–119).  When it panics while encoding, what the panicking call had already written is not counted; the
panics that can happen there come before any write of that call (`encode_obu` computes the whole payload first). -/
def main (args : List Str) (world : World) : Outcome :=
  if args.length = 0 then ⟨1, [], world.input, .returned⟩
  else match readConfig args with
    | .panic => ⟨1, [], world.input, .panicked⟩
    | .exit => ⟨1, [], world.input, .exited⟩
    | .err => ⟨2, [], world.input, .exited⟩
    | .ok cfg =>
      match cfg.input, cfg.output, cfg.frames with
      | some i, some o, some n =>
        if i ≠ "stdin".toList ∧ world.openIn = false then ⟨2, [], world.input, .exited⟩
        else if o ≠ "stdout".toList ∧ world.openOut = false then ⟨2, [], world.input, .exited⟩
        else
          let r := frames world cfg n 0 ⟨world.input, 0, Writer.new⟩
          ⟨1, r.1.w.out, r.1.input, r.2⟩
      | _, _, _ => ⟨1, [], world.input, .panicked⟩

/-! ## Where the bytes end up

`BinaryWriter::file` wraps the file in a `BufWriter` (binary_writer.rs 22–28) with the standard library's 8 KiB buffer:
a byte goes to the buffer, which is passed on when the next byte does not fit, and when the writer is dropped.
`process::exit` runs no destructors.  -/

def bufCapacity : Nat := 8192

/-- One-byte writes into the buffer: (in the file, in the buffer). -/
def bufStep (s : List Nat × List Nat) (b : Nat) : List Nat × List Nat :=
  if s.2.length + 1 > bufCapacity then (s.1 ++ s.2, [b]) else (s.1, s.2 ++ [b])

/-- Contents of the output file after the process is gone. -/
def fileContents (r : Outcome) : List Nat :=
  let s := r.out.foldl bufStep ([], [])
  match r.ending with
  | .exited => s.1
  | _ => s.1 ++ s.2

end Av1.Run
