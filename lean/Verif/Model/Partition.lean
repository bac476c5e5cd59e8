import Verif.Model.Common

/-!
# Partition of a square into blocks (`TileEncoder::encode_partition`, tile_encoder.rs 332–507)

Only the geometry: which blocks (or sub-squares) are coded for a partition type, where, and in which order.  The search
over partition types is in `Model/Search.lean`.
-/

namespace Av1

/-- One call made for a part: `encode_block` or, when `square`, a recursive `encode_partition`. -/
structure Part where
  row : Nat
  col : Nat
  bsize : Nat
  square : Bool
deriving Repr, DecidableEq

/-- `num4x4`, `half_block4x4`, `quarter_block4x4` (tile_encoder.rs 341–343). -/
def halfBlock (bsize : Nat) : Option Nat := do
  let n ← K.num_4x4_blocks_wide[bsize]?
  some (n >>> 1)

/-- `partition_subsize[p][bsize]` (tile_encoder.rs 389–390). -/
def subSize (p bsize : Nat) : Option Nat := do
  let row ← K.partition_subsize[p]?
  row[bsize]?

/-- The calls of the `match *partition` (tile_encoder.rs 392–492) for a square at `(r, c)`, in order. -/
def partsOf (p bsize r c miRows miCols : Nat) : Option (List Part) := do
  let half ← halfBlock bsize
  let quarter := half >>> 1
  let hasRows := decide (r + half < miRows)
  let hasCols := decide (c + half < miCols)
  let sub ← subSize p bsize
  let split ← subSize K.PARTITION_SPLIT bsize
  if p = K.PARTITION_NONE then some [⟨r, c, bsize, false⟩]
  else if p = K.PARTITION_HORZ then
    some ([⟨r, c, sub, false⟩] ++ if hasRows then [⟨r + half, c, sub, false⟩] else [])
  else if p = K.PARTITION_VERT then
    some ([⟨r, c, sub, false⟩] ++ if hasCols then [⟨r, c + half, sub, false⟩] else [])
  else if p = K.PARTITION_SPLIT then
    some [⟨r, c, sub, true⟩, ⟨r, c + half, sub, true⟩, ⟨r + half, c, sub, true⟩, ⟨r + half, c + half, sub, true⟩]
  else if p = K.PARTITION_HORZ_A then
    some [⟨r, c, split, false⟩, ⟨r, c + half, split, false⟩, ⟨r + half, c, sub, false⟩]
  else if p = K.PARTITION_HORZ_B then
    some [⟨r, c, sub, false⟩, ⟨r + half, c, split, false⟩, ⟨r, c + half, split, false⟩]
  else if p = K.PARTITION_VERT_A then
    some [⟨r, c, split, false⟩, ⟨r + half, c, split, false⟩, ⟨r, c + half, sub, false⟩]
  else if p = K.PARTITION_VERT_B then
    some [⟨r, c, sub, false⟩, ⟨r, c + half, split, false⟩, ⟨r + half, c, split, false⟩]
  else if p = K.PARTITION_HORZ_4 then
    some ([⟨r + quarter * 0, c, sub, false⟩, ⟨r + quarter * 1, c, sub, false⟩, ⟨r + quarter * 2, c, sub, false⟩] ++
      if r + quarter * 3 < miRows then [⟨r + quarter * 3, c, sub, false⟩] else [])
  else if p = K.PARTITION_VERT_4 then
    some ([⟨r, c + quarter * 0, sub, false⟩, ⟨r, c + quarter * 1, sub, false⟩, ⟨r, c + quarter * 2, sub, false⟩] ++
      if c + quarter * 3 < miCols then [⟨r + quarter * 3, c, sub, false⟩] else [])
  else none

/-- Which partition types the search tries for a square (tile_encoder.rs 352–387). -/
def allowedPart (p bsize r c miRows miCols : Nat) : Option Bool := do
  let half ← halfBlock bsize
  let hasRows := decide (r + half < miRows)
  let hasCols := decide (c + half < miCols)
  if bsize < K.BLOCK_8X8 then some (p == K.PARTITION_NONE)
  else if hasRows && hasCols then some true
  else if hasCols then some (p == K.PARTITION_SPLIT || p == K.PARTITION_HORZ)
  else if hasRows then some (p == K.PARTITION_SPLIT || p == K.PARTITION_VERT)
  else some (p == K.PARTITION_SPLIT)

end Av1
