import Verif.Spec.Bits

/-!
# Bit readers

The descriptors of the AV1 specification (section 4.10), written directly over `num`, independent of the code.
A reader takes a bit string and returns a value and the bits that follow.
-/

namespace Av1

abbrev P := StateT Bits Option

namespace P

/-- `f(n)`: unsigned `n`-bit field. -/
def f (n : Nat) : P Nat := fun s => if s.length < n then none else some (num (s.take n), s.drop n)

/-- `f(1)` as a boolean. -/
def flag : P Bool := fun s => match s with
  | [] => none
  | b :: s => some (b, s)

/-- `n` fields in a row. -/
def many {α : Type} : Nat → P α → P (List α)
  | 0, _ => pure []
  | n + 1, p => do
    let x ← p
    let xs ← many n p
    pure (x :: xs)

/-- `leb128()`: bytes with seven payload bits each, least significant group first, at most eight. -/
def leb128Go : Nat → P Nat
  | 0 => pure 0
  | k + 1 => do
    let more ← flag
    let low ← f 7
    if more then
      let high ← leb128Go k
      pure (low + 128 * high)
    else pure low

def leb128 : P Nat := leb128Go 8

/-- Number of zeros before the first one. -/
def zeros : P Nat := fun s => match s with
  | [] => none
  | true :: s => some (0, s)
  | false :: s => (zeros s).map fun x => (x.1 + 1, x.2)

/-- `uvlc()`. -/
def uvlc : P Nat := do
  let z ← zeros
  if z ≥ 32 then pure (2 ^ 32 - 1)
  else
    let v ← f z
    pure (v + 2 ^ z - 1)

/-- `su(n)`: signed `n`-bit field, two's complement. -/
def su (n : Nat) : P Int := do
  let v ← f n
  pure (if 2 ^ (n - 1) ≤ v then (v : Int) - 2 ^ n else v)

/-- `ns(n)`: a value below `n` in `FloorLog2(n)` or one more bits. -/
def ns (n : Nat) : P Nat := do
  let w := Nat.log2 n
  let m := 2 ^ (w + 1) - n
  let v ← f w
  if v < m then pure v
  else
    let b ← f 1
    pure (2 * v - m + b)

/-- A field that is present iff a flag says so. -/
def opt {α : Type} (present : Bool) (p : P α) : P (Option α) :=
  if present then do
    let x ← p
    pure (some x)
  else pure none

/-- A field preceded by its presence flag. -/
def flagged {α : Type} (p : P α) : P (Option α) := do
  let b ← flag
  opt b p

end P

/-- `p` reads the code word `e` as `v`, whatever follows. -/
def Reads {α : Type} (p : P α) (e : Bits) (v : α) : Prop := ∀ rest, p (e ++ rest) = some (v, rest)

/-- A reader never takes the same bits for two values. -/
theorem Reads.unique {α : Type} {p : P α} {e : Bits} {v w : α} (h1 : Reads p e v) (h2 : Reads p e w) : v = w := by
  have := (h1 []).symm.trans (h2 [])
  simpa using this

end Av1
