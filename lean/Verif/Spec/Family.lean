import Verif.Spec.Cdf

/-! Shape of a family of default tables. -/

namespace Av1

/-- One field of `struct CDF`: its declared dimensions (outermost first, the last one is the table size) and the
tables in row-major order. -/
structure Family where
  name : String
  dims : List Nat
  tables : List (List Nat)

/-- The tables as the coder sees them (`i32` entries). -/
def Family.cdfs (f : Family) : List (List Int) := f.tables.map fun t => t.map Int.ofNat

end Av1
