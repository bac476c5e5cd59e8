import Verif.Model.Cli
import Mathlib.Data.Nat.Digits.Defs

/-!
# The meaning of a command line

Written from the help text (`src/option.rs` 84–169): settings with a long and a short name, decimal numbers, sizes `WxH`, frame
rates `N` or `N/D`.  `Line false` is what a user expects; in `Line true` a frame rate of the form `N/D` ends the command line.
-/

namespace Av1.Cli

/-- A decimal numeral and its value. -/
def Numeral (s : Str) (n : Nat) : Prop :=
  ∃ ds : List Nat, ds ≠ [] ∧ (∀ d ∈ ds, d < 10) ∧ n = Nat.ofDigits 10 ds.reverse ∧
    (s = ds.map Nat.digitChar ∨ s = '+' :: ds.map Nat.digitChar)

/-- A numeral of a number that has room in 64 bits. -/
def Number (s : Str) (n : Nat) : Prop := Numeral s n ∧ n < 2 ^ 64

/-- What a command line makes of the settings in force before it. -/
inductive Line (stop : Bool) : List Str → Config → Config → Prop
  | nil {c : Config} : Line stop [] c c
  | input {f a : Str} {rest : List Str} {c c' : Config} : f ∈ ["-i".toList, "--input".toList] →
      Line stop rest { c with input := some a } c' → Line stop (f :: a :: rest) c c'
  | output {f a : Str} {rest : List Str} {c c' : Config} : f ∈ ["-o".toList, "--output".toList] →
      Line stop rest { c with output := some a } c' → Line stop (f :: a :: rest) c c'
  | frames {f a : Str} {n : Nat} {rest : List Str} {c c' : Config} : f ∈ ["-fr".toList, "--frames".toList] → Number a n →
      Line stop rest { c with frames := some n } c' → Line stop (f :: a :: rest) c c'
  | size {f p q : Str} {w h : Nat} {rest : List Str} {c c' : Config} : f ∈ ["-s".toList, "--size".toList] → Number p w →
      Number q h → Line stop rest { c with width := some w, height := some h } c' → Line stop (f :: (p ++ 'x' :: q) :: rest) c c'
  | rate {f a : Str} {n : Nat} {rest : List Str} {c c' : Config} : f ∈ ["-r".toList, "--framerate".toList] → Number a n →
      Line stop rest { c with framerate := some (n, 1) } c' → Line stop (f :: a :: rest) c c'
  | ratio {f p q : Str} {n d : Nat} {rest : List Str} {c c' : Config} : f ∈ ["-r".toList, "--framerate".toList] → Number p n →
      Number q d → 0 < d → Line stop (if stop then [] else rest) { c with framerate := some (n / n.gcd d, d / n.gcd d) } c' →
      Line stop (f :: (p ++ '/' :: q) :: rest) c c'

/-- Settings that a run needs and accepts. -/
def Config.Usable (c : Config) : Prop :=
  c.input.isSome ∧ c.output.isSome ∧ c.frames.isSome ∧ (∃ w, c.width = some w ∧ 1 ≤ w ∧ w ≤ 8191) ∧
    (∃ h, c.height = some h ∧ 1 ≤ h ∧ h ≤ 8191) ∧ ∃ n d, c.framerate = some (n, d) ∧ 0 < n ∧ 0 < d

/-- The settings in force before the command line. -/
def Config.standard : Config := { frames := some 4294967295, framerate := some (30, 1) }

/-- An option and its argument, other than a frame rate of the form `N/D`. -/
def Setting (f a : Str) : Prop :=
  f ∈ ["-i".toList, "--input".toList, "-o".toList, "--output".toList] ∨
  f ∈ ["-fr".toList, "--frames".toList, "-r".toList, "--framerate".toList] ∧ (∃ n, Number a n) ∨
  f ∈ ["-s".toList, "--size".toList] ∧ ∃ p q w h, a = p ++ 'x' :: q ∧ Number p w ∧ Number q h

/-- Settings followed by a request for help. -/
inductive AsksHelp : List Str → Prop
  | here {f : Str} {rest : List Str} : f ∈ ["-h".toList, "--help".toList] → AsksHelp (f :: rest)
  | next {f a : Str} {rest : List Str} : Setting f a → AsksHelp rest → AsksHelp (f :: a :: rest)

/-- A frame rate of the form `N/D` stands at most at the end. -/
def RatioLast (args : List Str) : Prop :=
  ∀ (pre rest : List Str) (f a : Str), args = pre ++ f :: a :: rest → f ∈ ["-r".toList, "--framerate".toList] → '/' ∈ a → rest = []

end Av1.Cli
