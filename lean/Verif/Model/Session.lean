import Verif.Model.BoolCoder

/-!
# Coding sessions

How the rest of the encoder (and `tests/test_bool_coder.rs`) drives `BoolCoder`: `init_encoder`, any calls of
`encode_symbol` / `encode_symbolp` / `encode_symbols` / `encode_literal`, `exit_encoder`; on the other side
`init_decoder` and the matching decode calls.  The tables live in a bank (`struct CDF` is a bank of arrays).
-/

namespace Av1

/-- One encoder call. -/
inductive Op where
  | sym (t s : Nat)                    -- `encode_symbol(s, out, &mut bank[t])`
  | prob (p : Nat) (b : Bool)          -- `encode_symbolp(b, out, p)`
  | probs (p : Nat) (bs : List Bool)   -- `encode_symbols(bs, out, p)`
  | lit (n v : Nat)                    -- `encode_literal(out, v, n)`
deriving Repr, DecidableEq

/-- One decoder call. -/
inductive Req where
  | sym (t : Nat)
  | prob (p : Nat)
  | probs (p n : Nat)
  | lit (n : Nat)
deriving Repr, DecidableEq

/-- The decoder call matching an encoder call. -/
def Op.req : Op → Req
  | .sym t _ => .sym t
  | .prob p _ => .prob p
  | .probs p bs => .probs p bs.length
  | .lit n _ => .lit n

/-- What the decoder is expected to return. -/
def Op.val : Op → List Nat
  | .sym _ s => [s]
  | .prob _ b => [b.toNat]
  | .probs _ bs => bs.map Bool.toNat
  | .lit _ v => [v]

abbrev Bank := List (List Int)

def encodeOp (c : BoolCoder) (bank : Bank) : Op → Option (BoolCoder × Bits × Bank)
  | .sym t s => do
    let cdf ← bank[t]?
    let (c', e, cdf') ← encodeSymbol c cdf s
    some (c', e, bank.set t cdf')
  | .prob p b => do
    let (c', e) ← encodeSymbolp c b.toNat p
    some (c', e, bank)
  | .probs p bs => do
    let (c', e) ← encodeSymbols c (bs.map Bool.toNat) p
    some (c', e, bank)
  | .lit n v => do
    let (c', e) ← encodeLiteral c v n
    some (c', e, bank)

def decodeOp (d : BoolCoder) (input : Bits) (bank : Bank) : Req → Option (List Nat × BoolCoder × Bits × Bank)
  | .sym t => do
    let cdf ← bank[t]?
    let (s, d', rest, cdf') ← decodeSymbol d input cdf
    some ([s], d', rest, bank.set t cdf')
  | .prob p => do
    let (s, d', rest) ← decodeSymbolp d input p
    some ([s], d', rest, bank)
  | .probs p n => do
    let (ss, d', rest) ← decodeSymbols d input n p
    some (ss, d', rest, bank)
  | .lit n => do
    let (v, d', rest) ← decodeLiteral d 0 n input
    some ([v], d', rest, bank)

def encodeOps (c : BoolCoder) (bank : Bank) : List Op → Option (BoolCoder × Bits × Bank)
  | [] => some (c, [], bank)
  | op :: ops => do
    let (c1, e1, bank1) ← encodeOp c bank op
    let (c2, e2, bank2) ← encodeOps c1 bank1 ops
    some (c2, e1 ++ e2, bank2)

def decodeOps (d : BoolCoder) (input : Bits) (bank : Bank) :
    List Req → Option (List (List Nat) × BoolCoder × Bits × Bank)
  | [] => some ([], d, input, bank)
  | r :: rs => do
    let (v, d1, rest1, bank1) ← decodeOp d input bank r
    let (vs, d2, rest2, bank2) ← decodeOps d1 rest1 bank1 rs
    some (v :: vs, d2, rest2, bank2)

/-- A whole encoding session. -/
def encodeSession (c : BoolCoder) (bank : Bank) (ops : List Op) : Option (BoolCoder × Bits × Bank) := do
  let (c1, e1, bank1) ← encodeOps (initEncoder c) bank ops
  let (c2, e2) := exitEncoder c1
  some (c2, e1 ++ e2, bank1)

/-- A decoding session up to (not including) `exit_decoder`; `sz` is the byte count given to `init_decoder`. -/
def decodeSession (d : BoolCoder) (input : Bits) (sz : Nat) (bank : Bank) (reqs : List Req) :
    Option (List (List Nat) × BoolCoder × Bits × Bank) := do
  let (d1, rest) ← initDecoder d input sz
  decodeOps d1 rest bank reqs

end Av1
