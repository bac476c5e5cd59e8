import Verif.Spec.Decoder
import Verif.Props.Geometry

/-!
# A decoder for a square of blocks (AV1 5.11.4, `decode_partition`)

The decoder knows the place, reads the partition type, computes the rectangles of the parts from the dimensions, and decodes
the parts in order.  Everything that depends on the neighbours is a function of the blocks decoded so far.
-/

namespace Av1

namespace Dec

/-- A decoded block and its place, in units of 4 pixels; the size is the number of the block size. -/
structure Item where
  row : Nat
  col : Nat
  bsize : Nat
  got : Got
deriving DecidableEq

/-- What a decoder knows at a place, from the headers and the blocks it has decoded. -/
structure Places where
  miRows : Nat
  miCols : Nat
  /-- the two flags that choose the table of a partition type -/
  sides : List Item → Nat → Nat → Nat → Bool × Bool
  /-- for a block -/
  here : List Item → Nat → Nat → Nat → Here

/-- The number of the block size with the dimensions `w` and `h`. -/
def sizeNo (w h : Nat) : Option Nat := blockDims.findIdx? (· == (w, h))

/-- The rectangles (row, column, width, height) of a partition type other than a split, in coding order, for a square of `n`
units; parts that start outside the frame are left out. -/
def rects (p n r c miRows miCols : Nat) : Option (List (Nat × Nat × Nat × Nat)) :=
  let h := n / 2
  let q := n / 4
  let inRows (y : Nat) (l : List (Nat × Nat × Nat × Nat)) := if y < miRows then l else []
  let inCols (x : Nat) (l : List (Nat × Nat × Nat × Nat)) := if x < miCols then l else []
  match p with
  | 0 => some [(r, c, n, n)]
  | 1 => some ((r, c, n, h) :: inRows (r + h) [(r + h, c, n, h)])
  | 2 => some ((r, c, h, n) :: inCols (c + h) [(r, c + h, h, n)])
  | 4 => some [(r, c, h, h), (r, c + h, h, h), (r + h, c, n, h)]
  | 5 => some [(r, c, n, h), (r + h, c, h, h), (r + h, c + h, h, h)]
  | 6 => some [(r, c, h, h), (r + h, c, h, h), (r, c + h, h, n)]
  | 7 => some [(r, c, h, n), (r, c + h, h, h), (r + h, c + h, h, h)]
  | 8 => some ([(r, c, n, q), (r + q, c, n, q), (r + 2 * q, c, n, q)] ++ inRows (r + 3 * q) [(r + 3 * q, c, n, q)])
  | 9 => some ([(r, c, q, n), (r, c + q, q, n), (r, c + 2 * q, q, n)] ++ inCols (c + 3 * q) [(r, c + 3 * q, q, n)])
  | _ => none

/-- The blocks in a list of rectangles. -/
def blocksAt (P : Places) : List (Nat × Nat × Nat × Nat) → List Item → Dec (List Item)
  | [], got => .done got
  | (y, x, w, h) :: qs, got => do
    let bs ← ofOption (sizeNo (4 * w) (4 * h))
    let g ← block (P.here got y x bs)
    blocksAt P qs (got ++ [⟨y, x, bs, g⟩])

/-- The partition type of a square of `n` units, 8 pixels or more.  It is coded if both middle lines are inside the frame and it
is a split if none is; squares with one middle line inside are not read here. -/
def partType (P : Places) (n r c : Nat) (got : List Item) : Dec Nat :=
  match decide (r + n / 2 < P.miRows), decide (c + n / 2 < P.miCols) with
  | true, true => do
    let bs ← ofOption (sizeNo (4 * n) (4 * n))
    let s := P.sides got r c bs
    elem (.partition bs s.1 s.2 0) ⟨none, none, none⟩
  | false, false => .done 3
  | _, _ => .fail

/-- A square of `2 ^ k` units; the result is everything decoded so far. -/
def square (P : Places) : Nat → Nat → Nat → List Item → Dec (List Item)
  | 0, r, c, got => if P.miRows ≤ r ∨ P.miCols ≤ c then .done got else blocksAt P [(r, c, 1, 1)] got
  | k + 1, r, c, got =>
    if P.miRows ≤ r ∨ P.miCols ≤ c then .done got
    else do
      let p ← partType P (2 ^ (k + 1)) r c got
      if p = 3 then
        let got ← square P k r c got
        let got ← square P k r (c + 2 ^ k) got
        let got ← square P k (r + 2 ^ k) c got
        square P k (r + 2 ^ k) (c + 2 ^ k) got
      else
        let qs ← ofOption (rects p (2 ^ (k + 1)) r c P.miRows P.miCols)
        blocksAt P qs got

end Dec

end Av1
