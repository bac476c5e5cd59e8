import Verif.Spec.Cdf
import Verif.Model.BoolCoder

/-! Reachable coder states and the list of all `i32` results computed while encoding one symbol. -/

namespace Av1

/-- States reachable inside a session after `k` symbols. -/
inductive ReachableIn : Nat → BoolCoder → Prop where
  | init (c : BoolCoder) : ReachableIn 0 (initEncoder c)
  | step {k : Nat} {c c' : BoolCoder} {cdf cdf' : List Int} {s : Nat} {e : Bits} :
      ReachableIn k c → ValidCdf cdf → s < symbols cdf → encodeSymbol c cdf s = some (c', e, cdf') →
      ReachableIn (k + 1) c'

def FitsI32 (x : Int) : Prop := -2 ^ 31 ≤ x ∧ x < 2 ^ 31

/-- Results of the interval computation (bool_coder.rs 143–155), in program order. -/
def intervalTrace (c : BoolCoder) (cs cp : Int) : List Int :=
  let fl := 32768 - cp
  let fr := 32768 - cs
  [fl, fr, (c.range >>> 8) * fl, ((c.range >>> 8) * fl) >>> 7, (c.range >>> 8) * fr, ((c.range >>> 8) * fr) >>> 7]

/-- Results of the register updates for given `left`, `right` (151–152). -/
def updateTrace (c : BoolCoder) (left right : Int) : List Int :=
  [c.range - left, c.value + (c.range - left), left - right]

/-- Results of the renormalisation loop (171–192), before masking. -/
def renormTrace : Nat → BoolCoder → List Int
  | 0, _ => []
  | fuel + 1, c =>
    if c.range < 32768 then
      [c.value <<< 1, c.range <<< 1, c.zeroCount + 1] ++ renormTrace fuel (renormStep c).1
    else []

/-- Results of the table update loop (108–112, 200–204): `tmp`, the difference, the shifted difference, the new entry,
the next `tmp`. -/
def adaptTrace (rate : Nat) (diff symbol : Int) : Int → Int → List Int → List Int
  | _, _, [] => []
  | i, tmp, c :: rest =>
    let tmp := tmp + (if i = symbol then diff else 0)
    [tmp, c - tmp, (c - tmp) >>> rate, c - ((c - tmp) >>> rate), tmp + 32] ++
      adaptTrace rate diff symbol (i + 1) (tmp + 32) rest

end Av1
