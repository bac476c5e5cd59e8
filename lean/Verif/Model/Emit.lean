import Verif.Model.Codes

/-!
# Emission of header bits

The functions of `bool_coder.rs` append to a `Vec<u8>` that is meant to hold bits but may hold any byte.  The model
returns the appended elements, `none` = panic.
-/

namespace Av1

/-- Elements of an `out_bits : Vec<u8>`. -/
abbrev Raw := List Nat

def raw (b : Bits) : Raw := b.map Bool.toNat

/-- Statements in sequence. -/
def cat : List (Option Raw) → Option Raw
  | [] => some []
  | x :: xs => do
    let a ← x
    let b ← cat xs
    some (a ++ b)

/-- `push_bit` (bool_coder.rs 47–49) of a `bool as u8`. -/
def pushB (b : Bool) : Option Raw := some [b.toNat]

/-- `push_bit` of an integer `as u8`. -/
def pushU (v : Nat) : Option Raw := some [v % 256]

/-- `push_bits_with_size` of a value `as u32`. -/
def pushN (v n : Nat) : Option Raw := (pushBitsWithSize (v % 2 ^ 32) n).map raw

/-- `encode_leb128`. -/
def pushLeb (v : Nat) : Option Raw := (encodeLeb128 v).map raw

/-- `encode_uvlc`. -/
def pushUvlc (v : Nat) : Option Raw := (encodeUvlc v).map raw

/-- `v - k` on an unsigned type: underflow panics. -/
def usub (v k : Nat) : Option Nat := if k ≤ v then some (v - k) else none

end Av1
