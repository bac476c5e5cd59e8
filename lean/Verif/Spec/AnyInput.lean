import Verif.Spec.Session

/-! Which requests a decoder may make, and how many bits they can take. -/

namespace Av1

/-- A request that can be answered with these tables. -/
def ReqOk (bank : Bank) : Req → Prop
  | .sym t => t < bank.length
  | .prob p => p < 256
  | .probs p _ => p < 256
  | .lit n => n ≤ 64

/-- The most bits that answering a request can take. -/
def Req.worst : Req → Nat
  | .sym _ => 15
  | .prob _ => 15
  | .probs _ n => 15 * n
  | .lit n => n

end Av1
