import Verif.Spec.Session

/-!
# The information in a session

Which probabilities the tables give, at the time of coding, to the symbols that are coded.  A symbol of probability `p` (in
units of 1/32768) carries `log2 (32768 / p)` bits of information.
-/

namespace Av1

/-- The probability of a symbol in a table, in units of 1/32768. -/
def prob (cdf : List Int) (s : Nat) : Int := cdf.getD s 0 - (if s = 0 then 0 else cdf.getD (s - 1) 0)

/-- Symbols coded one after the other with one table that adapts. -/
def runProbs (cdf : List Int) : List Nat → Option (List Int)
  | [] => some []
  | s :: l => do
    let cdf' ← adapt cdf s
    let ps ← runProbs cdf' l
    some (prob cdf s :: ps)

/-- The symbols of one call; the bits of a literal are all equally likely. -/
def opProbs (bank : Bank) : Op → Option (List Int × Bank)
  | .sym t s => do
    let cdf ← bank[t]?
    let cdf' ← adapt cdf s
    some ([prob cdf s], bank.set t cdf')
  | .prob p b => some ([prob (probCdf p) b.toNat], bank)
  | .probs p bs => do
    let ps ← runProbs (probCdf p) (bs.map Bool.toNat)
    some (ps, bank)
  | .lit n _ => some (List.replicate n 16384, bank)

/-- The symbols of a session, and the tables after it. -/
def opsProbs (bank : Bank) : List Op → Option (List Int × Bank)
  | [] => some ([], bank)
  | op :: ops => do
    let (ps, bank1) ← opProbs bank op
    let (qs, bank2) ← opsProbs bank1 ops
    some (ps ++ qs, bank2)

end Av1
