import Verif.Spec.Bits

/-!
# The symbol decoder of AV1

Sections 8.2.2 – 8.2.6 and 8.3.4 (AV1 specification 1.0.0 with Errata 1): start of a tile, symbols, booleans, literals and
the adaptation of tables.  Written from the specification, not from the encoder.  Past the end of its input the decoder reads
zeros.
-/

namespace Av1.Sym

/-- `SymbolValue`, `SymbolRange` and the bits not read yet. -/
structure St where
  value : Nat
  range : Nat
  input : Bits
deriving Repr, DecidableEq

/-- The next `n` bits, zeros past the end. -/
def read (n : Nat) (input : Bits) : Nat × Bits := (num (input.take n) <<< (n - input.length), input.drop n)

/-- `init_symbol`. -/
def start (input : Bits) : St :=
  let (buf, rest) := read 15 input
  { value := 2 ^ 15 - 1 - buf, range := 2 ^ 15, input := rest }

/-- `EC_PROB_SHIFT`, `EC_MIN_PROB`. -/
def probShift : Nat := 6
def minProb : Nat := 4

/-- The lower end of the interval of a symbol with table entry `c` that has `below` symbols after it. -/
def cut (range : Nat) (c : Int) (below : Nat) : Nat :=
  ((range / 2 ^ 8) * ((2 ^ 15 - c).toNat / 2 ^ probShift)) / 2 ^ (7 - probShift) + minProb * below

/-- The search for the symbol: entries still to try, the number of symbols after the first of them. -/
def search (st : St) : Nat → Nat → List Int → Option (Nat × Nat × Nat)
  | _, _, [] => none
  | symbol, prev, c :: rest =>
    let cur := cut st.range c rest.length
    if st.value < cur then search st (symbol + 1) cur rest else some (symbol, prev, cur)

/-- `read_symbol` without adaptation; the last entry of `cdf` is the counter. -/
def symbol (st : St) (cdf : List Int) : Option (Nat × St) := do
  let (s, prev, cur) ← search st 0 st.range cdf.dropLast
  let range := prev - cur
  let bits := 15 - Nat.log2 range
  let (data, rest) := read bits st.input
  some (s, { value := (st.value - cur + 1) * 2 ^ bits - 1 - data, range := range * 2 ^ bits, input := rest })

/-- The rate of adaptation of a table of `n` symbols that has been used `cnt` times. -/
def rate (n : Nat) (cnt : Int) : Nat :=
  3 + (if cnt > 15 then 1 else 0) + (if cnt > 31 then 1 else 0) + min (Nat.log2 n) 2

/-- One entry: towards 32768 from the coded symbol on, towards 0 before it. -/
def move (rate : Nat) (s i : Nat) (c : Int) : Int :=
  if i < s then c - c / 2 ^ rate else c + (2 ^ 15 - c) / 2 ^ rate

/-- The adaptation of 8.3.4 (`n` entries, the last of them 32768, then the counter). -/
def adapt (cdf : List Int) (s : Nat) : List Int :=
  let n := cdf.length - 1
  let cnt := cdf.getD n 0
  ((cdf.take (n - 1)).mapIdx fun i c => move (rate n cnt) s i c) ++
    [2 ^ 15, cnt + if cnt < 32 then 1 else 0]

/-- `read_bool`. -/
def bool (st : St) : Option (Nat × St) := symbol st [2 ^ 14, 2 ^ 15, 0]

/-- `L(n)`. -/
def literal : Nat → Nat → St → Option (Nat × St)
  | 0, x, st => some (x, st)
  | n + 1, x, st => do
    let (b, st) ← bool st
    literal n (2 * x + b) st

/-- Symbols of a table that adapts, one after the other. -/
def symbols : Nat → St → List Int → Option (List Nat)
  | 0, _, _ => some []
  | n + 1, st, cdf => do
    let (s, st) ← symbol st cdf
    let l ← symbols n st (adapt cdf s)
    some (s :: l)

end Av1.Sym
