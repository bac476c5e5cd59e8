import Verif.Model.BoolCoder

/-!
# `src/bool_coder.rs`, lines 47–62 and 232–361: header codes

Encoders return the pushed bits, decoders the value and the remaining input.  `none` = panic (or, for
`decode_uvlc` on exhausted input, an endless loop).
-/

namespace Av1

/-- `for i in (0..n).rev() { out_bits.push((v>>i)&1) }` for an operand of `w` bits: shifting by `w` or more is an
overflow panic (the first, largest, shift decides). -/
def pushLoop (w v : Nat) : Nat → Option Bits
  | 0 => some []
  | n + 1 => if n ≥ w then none else (pushLoop w v n).map (decide ((v >>> n) &&& 1 = 1) :: ·)

/-- `push_bits_with_size` (51–53): `bits` is a `u32`. -/
def pushBitsWithSize (bits size : Nat) : Option Bits := pushLoop 32 bits size

/-- `push_bits_align` (58–62), given the length of the output so far. -/
def pushBitsAlign (len : Nat) : Bits := List.replicate ((8 - len % 8) % 8) false

/-- `encode_uvlc` (232–238); `val` is a `u32`, `val + 1` overflows at the maximum. -/
def encodeUvlc (val : Nat) : Option Bits := do
  if val + 1 ≥ 2 ^ 32 then none
  let v := val + 1
  let n ← msb64 v
  let low ← pushLoop 64 v n
  some (List.replicate n false ++ true :: low)

/-- First loop of `decode_uvlc` (241–249): counts zeros up to the first one; with no one left it never ends. -/
def leadingZeros : Bits → Option (Nat × Bits)
  | [] => none
  | true :: rest => some (0, rest)
  | false :: rest => (leadingZeros rest).map fun (n, r) => (n + 1, r)

/-- `decode_uvlc` (240–256). -/
def decodeUvlc (input : Bits) : Option (Nat × Bits) := do
  let (lz, rest) ← leadingZeros input
  if lz ≥ 32 then some (2 ^ 32 - 1, rest)
  else
    let (v, rest) ← popBits lz 0 rest
    some ((v + (1 <<< lz) - 1) % 2 ^ 32, rest)

/-- One byte, `for j in (0..8).rev() { push((byte>>j)&1) }` (261–263). -/
def byteBits (byte : Nat) : Bits := [7, 6, 5, 4, 3, 2, 1, 0].map fun j => decide ((byte >>> j) &&& 1 = 1)

/-- Loop of `encode_le` (258–265) from byte `i`, `n` bytes to go; `val >> (i*8)` panics from `i = 8` on. -/
def encodeLeGo (val : Nat) : Nat → Nat → Option Bits
  | _, 0 => some []
  | i, n + 1 =>
    if i * 8 ≥ 64 then none
    else (encodeLeGo val (i + 1) n).map (byteBits ((val >>> (i * 8)) &&& 0xff) ++ ·)

/-- `encode_le` (258–265). -/
def encodeLe (val n : Nat) : Option Bits := encodeLeGo val 0 n

/-- Loop of `decode_le` (267–278). -/
def decodeLeGo (t : Nat) : Nat → Nat → Bits → Option (Nat × Bits)
  | _, 0, input => some (t, input)
  | i, n + 1, input => do
    let (byte, rest) ← popBits 8 0 input
    if i * 8 ≥ 64 then none
    decodeLeGo (t + byte <<< (i * 8)) (i + 1) n rest

/-- `decode_le` (267–278). -/
def decodeLe (input : Bits) (n : Nat) : Option (Nat × Bits) := decodeLeGo 0 0 n input

/-- Loop of `encode_leb128` (283–290); ten rounds always suffice for a `u64`, `none` = fuel exhausted (never happens,
see `lebLoop_total`). -/
def lebLoop : Nat → Nat → Option Bits
  | 0, _ => none
  | fuel + 1, v => do
    let low ← pushLoop 64 v 7
    let byte := decide (v > 127) :: low
    if v >>> 7 > 0 then (lebLoop fuel (v >>> 7)).map (byte ++ ·) else some byte

/-- `encode_leb128` (280–291). -/
def encodeLeb128 (val : Nat) : Option Bits := if val < 1 <<< 56 then lebLoop 10 val else none

/-- Loop of `decode_leb128` (295–304): `i`-th byte, at most `n` more. -/
def decodeLebGo (v : Nat) : Nat → Nat → Bits → Option (Nat × Bits)
  | _, 0, input => some (v, input)
  | i, n + 1, input => do
    let (leb, rest) ← popBits 8 0 input
    let v := v ||| ((leb &&& 0x7f) <<< (i * 7))
    if leb &&& 0x80 = 0 then some (v, rest) else decodeLebGo v (i + 1) n rest

/-- `decode_leb128` (293–306). -/
def decodeLeb128 (input : Bits) : Option (Nat × Bits) := decodeLebGo 0 0 8 input

/-- `encode_su` (308–319); `val` is an `i64`, `n` a `u8`.  `n - 1` underflows at 0; in the negative branch
`2*(1<<(n-1))` overflows `i64` from `n = 63` on. -/
def encodeSu (val : Int) (n : Nat) : Option Bits := do
  if n = 0 then none
  if val < 0 then
    if n - 1 ≥ 62 then none
    let v := ((val + 2 * (1 <<< (n - 1) : Nat)) % 2 ^ 64).toNat
    let low ← pushLoop 64 v (n - 1)
    some (true :: low)
  else
    let low ← pushLoop 64 val.toNat (n - 1)
    some (false :: low)

/-- `decode_su` (321–330).  Same limits on `n`. -/
def decodeSu (input : Bits) (n : Nat) : Option (Int × Bits) := do
  let (v, rest) ← popBits n 0 input
  let v := v % 2 ^ 64
  if n = 0 ∨ n > 64 then none
  let mask := 1 <<< (n - 1)
  if v &&& mask > 0 then
    if n - 1 ≥ 62 then none
    some ((v : Int) - 2 * mask, rest)
  else some (v, rest)

/-- `encode_ns` (332–347); `u64` arithmetic.  The loop over `(1..w).rev()` pushes the bits of `v >> 1`. -/
def encodeNs (val n : Nat) : Option Bits := do
  let w ← (floorLog2 n).map (· + 1)
  if w ≥ 64 then none
  let m := (1 <<< w) - n
  if val < m then pushLoop 64 val (w - 1)
  else
    let v := val + m
    if v ≥ 2 ^ 64 then none
    let high ← pushLoop 64 (v >>> 1) (w - 1)
    some (high ++ [decide (v &&& 1 = 1)])

/-- `decode_ns` (349–361). -/
def decodeNs (input : Bits) (n : Nat) : Option (Nat × Bits) := do
  let w ← (floorLog2 n).map (· + 1)
  if w ≥ 64 then none
  let m := (1 <<< w) - n
  let (v, rest) ← popBits (w - 1) 0 input
  if v < m then some (v, rest)
  else match rest with
    | [] => none
    | b :: rest => some ((v <<< 1) - m + b.toNat, rest)

end Av1
