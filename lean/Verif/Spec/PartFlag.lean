import Verif.Model.Search

/-!
# The partition syntax at the edges of a frame (AV1 5.11.4)

What a decoder makes of the symbol it finds (if it reads one) for a square of `n` units of 4 pixels at row `r` and column `c` of
a frame of `miRows` by `miCols` units.  `none`: this is not the symbol the syntax asks for here.
-/

namespace Av1.Dec

def partFrom (n r c miRows miCols : Nat) : Option PSym → Option Nat
  | y =>
    if n < 2 then (if y = none then some 0 else none)
    else match decide (r + n / 2 < miRows), decide (c + n / 2 < miCols), y with
      | true, true, some (.part _ p) => some p
      | false, true, some (.horz _ split) => some (if split then 3 else 1)
      | true, false, some (.vert _ split) => some (if split then 3 else 2)
      | false, false, none => some 3
      | _, _, _ => none

end Av1.Dec
