import Verif.Spec.Cdf
import Verif.Model.Session

/-! Which calls are legal: the preconditions of the session theorems. -/

namespace Av1

/-- Every table of the bank is well formed. -/
def BankOk (bank : Bank) : Prop := ∀ cdf ∈ bank, ValidCdf cdf

/-- An encoder call with arguments in range. -/
def OpOk (bank : Bank) : Op → Prop
  | .sym t s => ∃ cdf, bank[t]? = some cdf ∧ s < symbols cdf
  | .prob p _ => p < 256
  | .probs p _ => p < 256
  | .lit n v => n ≤ 64 ∧ v < 2 ^ n

def OpsOk (bank : Bank) (ops : List Op) : Prop := ∀ op ∈ ops, OpOk bank op

end Av1
