import Verif.Spec.Bits
import Verif.Model.Util

/-!
# `src/bool_coder.rs`, lines 18–380: the range coder

Registers are `i32` in Rust and `Int` here; theorem group C05 shows the values stay inside `i32`.
Functions that push to `out_bits` return the pushed bits ("emission"); the caller appends them.
A panic is `none`.
-/

namespace Av1

/-- `struct BoolCoder` (bool_coder.rs 18–30). -/
structure BoolCoder where
  value : Int          -- bool_value
  range : Int          -- bool_range
  maxBits : Int        -- bool_max_bits
  lastZero : Bool      -- bool_value_last_zero
  zeroCount : Int      -- bool_value_zero_count
  first : Bool         -- bool_first
  bitCount : Nat       -- bit_count
  leb128Bytes : Nat    -- leb_128_bytes
deriving Repr, DecidableEq

/-- `BoolCoder::new` (34–45). -/
def BoolCoder.new : BoolCoder :=
  { value := 0, range := 0, maxBits := 0, lastZero := false, zeroCount := 0, first := true, bitCount := 0,
    leb128Bytes := 0 }

/-- `init_encoder` (134–140).  `bit_count` is not reset. -/
def initEncoder (c : BoolCoder) : BoolCoder :=
  { c with value := 0, range := 1 <<< 15, lastZero := false, zeroCount := 0, first := true }

/-- `i32` exclusive or, used in `init_decoder` (70) and `decode_symbol` (99). -/
def xor32 (a b : Int) : Int := (BitVec.ofInt 32 a ^^^ BitVec.ofInt 32 b).toInt

/-- `for _ in 0..n { if let Some(bit) = in_bits.pop_front() { v = (v<<1) + bit } else { assert!(false) } }`,
the loop used by all decoders (66–69, 93–98, 251–254, …). -/
def popBits : Nat → Nat → Bits → Option (Nat × Bits)
  | 0, acc, input => some (acc, input)
  | _ + 1, _, [] => none
  | n + 1, acc, b :: rest => popBits n ((acc <<< 1) + b.toNat) rest

/-- `init_decoder` (64–73). -/
def initDecoder (c : BoolCoder) (input : Bits) (sz : Nat) : Option (BoolCoder × Bits) := do
  let (buf, rest) ← popBits 15 0 input
  some ({ c with value := xor32 ((1 <<< 15) - 1) buf, range := 1 <<< 15, maxBits := 8 * sz - 15 }, rest)

/-- The sub-interval bound `((bool_range >> 8) * (32768 - cdf[s])) >> 7` (84–85, 144–147). -/
def bound (range c : Int) : Int := ((range >>> 8) * (32768 - c)) >>> 7

/-- The search loop of `decode_symbol` (80–86): walks the table, returns `(symbol, prev, cur)`.
Running off the end of the slice is an index panic (`none`). -/
def decLoop (value range : Int) : Nat → Int → List Int → Option (Nat × Int × Int)
  | _, _, [] => none
  | symbol, prev, c :: rest =>
    let cur := bound range c
    if value < cur then decLoop value range (symbol + 1) cur rest else some (symbol, prev, cur)

/-- Adaptation rate (103, 195): `4 + (cdf[N]>31) + msb16(N as u16)`. -/
def adaptRate (cdf : List Int) : Option Nat := do
  let N := cdf.length - 1
  let cnt ← cdf[N]?
  let m ← msb16 (N % 65536)
  some (4 + (if cnt > 31 then 1 else 0) + m)

/-- The update loop (108–112, 200–204) over the entries `cdf[i ..]` that are updated. -/
def adaptGo (rate : Nat) (diff symbol : Int) : Int → Int → List Int → List Int
  | _, _, [] => []
  | i, tmp, c :: rest =>
    let tmp := tmp + (if i = symbol then diff else 0)
    (c - ((c - tmp) >>> rate)) :: adaptGo rate diff symbol (i + 1) (tmp + 32) rest

/-- "update cdf" (102–113, identical text in 194–205): entries `0 .. N-2` move towards their target,
entry `N-1` stays, the counter `cdf[N]` grows up to 32. -/
def adapt (cdf : List Int) (symbol : Int) : Option (List Int) := do
  let N := cdf.length - 1
  let rate ← adaptRate cdf
  let cnt ← cdf[N]?
  let diff : Int := ((32768 - ((N : Int) <<< 5)) >>> rate) <<< rate
  some ((adaptGo rate diff symbol 0 32 (cdf.take (N - 1)) ++ cdf.drop (N - 1)).set N
    (cnt + (if cnt < 32 then 1 else 0)))

/-- `decode_symbol` (75–117). -/
def decodeSymbol (c : BoolCoder) (input : Bits) (cdf : List Int) :
    Option (Nat × BoolCoder × Bits × List Int) := do
  let (symbol, prev, cur) ← decLoop c.value c.range 0 c.range cdf
  let range := prev - cur
  let value := c.value - cur
  let m ← msb16 (range % 65536).toNat
  let bits := 15 - m
  let range := range <<< bits
  let (newData, rest) ← popBits bits 0 input
  let value := xor32 newData (((value + 1) <<< bits) - 1)
  let cdf' ← adapt cdf symbol
  some (symbol, { c with value := value, range := range, maxBits := c.maxBits - bits - bits }, rest, cdf')

/-- `exit_decoder` (129–132): pops `bool_max_bits` bits (silently stopping at the end of input). -/
def exitDecoder (c : BoolCoder) (input : Bits) : BoolCoder × Bits :=
  ({ c with maxBits := 0 }, input.drop c.maxBits.toNat)

/-- First part of `encode_symbol` (144–152): the new value and range registers. -/
def encInterval (c : BoolCoder) (cdf : List Int) (symbol : Int) : Option BoolCoder := do
  let cs ← if symbol < 0 then none else cdf[symbol.toNat]?
  let fl : Int ← if symbol > 0 then (cdf[(symbol - 1).toNat]?).map (32768 - ·) else some 0
  let left := if symbol = 0 then c.range else ((c.range >>> 8) * fl) >>> 7
  let right := bound c.range cs
  some { c with value := c.value + (c.range - left), range := left - right }

/-- Carry propagation (154–169). -/
def encCarry (c : BoolCoder) : BoolCoder × Bits :=
  if c.value ≥ 65536 then
    if c.zeroCount > 0 then
      ({ c with value := c.value - 65536, zeroCount := 0, lastZero := true,
                bitCount := c.bitCount + 1 + (c.zeroCount - 1).toNat },
       true :: List.replicate (c.zeroCount - 1).toNat false)
    else
      ({ c with value := c.value - 65536, zeroCount := 1, lastZero := false }, [])
  else (c, [])

/-- One iteration of the renormalisation loop (172–191). -/
def renormStep (c : BoolCoder) : BoolCoder × Bits :=
  let bit := (c.value >>> 15) % 2
  let shifted := fun (d : BoolCoder) =>
    { d with first := false, value := (d.value <<< 1) % 65536, range := d.range <<< 1 }
  if c.first then (shifted c, [])
  else if bit = 0 then
    let e := (if c.lastZero then [false] else []) ++ List.replicate c.zeroCount.toNat true
    (shifted { c with zeroCount := 0, lastZero := true, bitCount := c.bitCount + e.length }, e)
  else (shifted { c with zeroCount := c.zeroCount + 1 }, [])

/-- The renormalisation loop `while bool_range<32768` (171–192) with fuel; `none` = still running. -/
def renorm : Nat → BoolCoder → Option (BoolCoder × Bits)
  | 0, c => if c.range < 32768 then none else some (c, [])
  | fuel + 1, c =>
    if c.range < 32768 then do
      let (c', e) := renormStep c
      let (c'', e') ← renorm fuel c'
      some (c'', e ++ e')
    else some (c, [])

/-- `encode_symbol` (142–207), with the renormalisation loop cut after `fuel` iterations. -/
def encodeSymbolFuel (fuel : Nat) (c : BoolCoder) (cdf : List Int) (symbol : Int) :
    Option (BoolCoder × Bits × List Int) := do
  let c1 ← encInterval c cdf symbol
  let (c2, e1) := encCarry c1
  let (c3, e2) ← renorm fuel c2
  let cdf' ← adapt cdf symbol
  some (c3, e1 ++ e2, cdf')

/-- `encode_symbol` (142–207).  Fifteen iterations always suffice when the loop terminates at all
(`Verif.Props.C05`, `C06`), so this cut loses nothing. -/
def encodeSymbol (c : BoolCoder) (cdf : List Int) (symbol : Int) : Option (BoolCoder × Bits × List Int) :=
  encodeSymbolFuel 15 c cdf symbol

/-- `exit_encoder` (363–380). -/
def exitEncoder (c : BoolCoder) : BoolCoder × Bits :=
  let pend := (if c.lastZero then [false] else []) ++ List.replicate c.zeroCount.toNat true
  let bitCount := c.bitCount + pend.length
  let val := (List.range 16).map (fun i => decide ((c.value >>> (15 - i)) % 2 = 1))
  let padding := (8 - bitCount % 8) % 8
  ({ c with bitCount := bitCount }, pend ++ val ++ List.replicate padding false)

/-- The throw-away table `[((p << 15) + 256 - p) >> 8, 1<<15, 0]` (120, 125, 210, 215). -/
def probCdf (p : Int) : List Int := [((p <<< 15) + 256 - p) >>> 8, 1 <<< 15, 0]

/-- `encode_symbolp` (214–217). -/
def encodeSymbolp (c : BoolCoder) (bit : Nat) (p : Int) : Option (BoolCoder × Bits) := do
  let (c', e, _) ← encodeSymbol c (probCdf p) bit
  some (c', e)

/-- `decode_symbolp` (119–122). -/
def decodeSymbolp (c : BoolCoder) (input : Bits) (p : Int) : Option (Nat × BoolCoder × Bits) := do
  let (s, c', rest, _) ← decodeSymbol c input (probCdf p)
  some (s, c', rest)

/-- Loop of `encode_symbols` (209–212): one table shared (and adapted) over the whole call. -/
def encodeSymbolsGo (c : BoolCoder) (cdf : List Int) : List Nat → Option (BoolCoder × Bits)
  | [] => some (c, [])
  | b :: bs => do
    let (c1, e1, cdf1) ← encodeSymbol c cdf b
    let (c2, e2) ← encodeSymbolsGo c1 cdf1 bs
    some (c2, e1 ++ e2)

/-- `encode_symbols` (209–212). -/
def encodeSymbols (c : BoolCoder) (bits : List Nat) (p : Int) : Option (BoolCoder × Bits) :=
  encodeSymbolsGo c (probCdf p) bits

/-- Loop of `decode_symbols` (124–127). -/
def decodeSymbolsGo (c : BoolCoder) (cdf : List Int) : Nat → Bits → Option (List Nat × BoolCoder × Bits)
  | 0, input => some ([], c, input)
  | n + 1, input => do
    let (s, c1, rest, cdf1) ← decodeSymbol c input cdf
    let (ss, c2, rest2) ← decodeSymbolsGo c1 cdf1 n rest
    some (s :: ss, c2, rest2)

/-- `decode_symbols` (124–127). -/
def decodeSymbols (c : BoolCoder) (input : Bits) (n : Nat) (p : Int) : Option (List Nat × BoolCoder × Bits) :=
  decodeSymbolsGo c (probCdf p) n input

/-- `encode_literal` (220–224): bits `n-1 .. 0` of `literal`, each with p = 128.
`literal >> i` with `i ≥ 64` is an overflow panic. -/
def encodeLiteral (c : BoolCoder) (literal : Nat) : Nat → Option (BoolCoder × Bits)
  | 0 => some (c, [])
  | n + 1 => do
    if n ≥ 64 then none
    let (c1, e1) ← encodeSymbolp c ((literal >>> n) &&& 1) 128
    let (c2, e2) ← encodeLiteral c1 literal n
    some (c2, e1 ++ e2)

/-- `decode_literal` (226–230) with accumulator. -/
def decodeLiteral (c : BoolCoder) (acc : Nat) : Nat → Bits → Option (Nat × BoolCoder × Bits)
  | 0, input => some (acc, c, input)
  | n + 1, input => do
    let (s, c1, rest) ← decodeSymbolp c input 128
    decodeLiteral c1 ((acc <<< 1) + s) n rest

end Av1
