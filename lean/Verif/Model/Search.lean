import Verif.Model.Partition
import Verif.Spec.Bits

/-!
# The partition search (`TileEncoder::encode_partition`, tile_encoder.rs 332–507)

The search tries the partition types one after the other, each time really encoding the parts, and keeps the bits, the
coder, the tables and the tree of the best one.  What it saves and restores (`self.coder`, `self.cdf`) is an abstract
state `σ`; everything else a block reads or changes (`self`'s other fields, the frame, the superblock, the encoder
context) is an abstract state `ω`, which the code neither saves nor restores.  The coding of a partition symbol and of the
inside of a block are parameters, so every statement holds for whatever they do.  `none` is a panic.
-/

namespace Av1

/-- `PartitionTree` (block.rs 20–40): size, partition type, sub-trees; `β` is the block information. -/
inductive PTree (β : Type) where
  | node (bsize part : Nat) (info : β) (parts : List (PTree β))

namespace PTree
variable {β : Type}

def bsize : PTree β → Nat | node b _ _ _ => b
def part : PTree β → Nat | node _ p _ _ => p
def info : PTree β → β | node _ _ i _ => i
def parts : PTree β → List (PTree β) | node _ _ _ ps => ps

/-- `PartitionTree::new` (block.rs 43–63). -/
def new (fresh : β) (bsize : Nat) : PTree β := node bsize K.PARTITION_NONE fresh []

end PTree

/-- The symbol written for a partition type (tile_encoder.rs 356–387): `encode_partition`, `encode_split_or_horz` and
`encode_split_or_vert` of the coder. -/
inductive PSym where
  | part (bsize p : Nat)
  | horz (bsize : Nat) (split : Bool)
  | vert (bsize : Nat) (split : Bool)
deriving Repr, DecidableEq

/-- What the search calls. -/
structure Enc (σ ω β : Type) where
  /-- `self.avail_u`, `self.avail_l` for a position (339–340). -/
  enter : ω → Nat → Nat → ω
  /-- One partition symbol: new coder and tables, bits. -/
  symbol : σ → ω → PSym → Option (σ × Bits)
  /-- `encode_block` at a row and column for a size (509–541), after its look at the size tables. -/
  block : σ → ω → Nat → Nat → Nat → β → Option (σ × ω × β × Bits)
  /-- The information in a new `PartitionTree`. -/
  fresh : β

section
variable {σ ω β : Type}

/-- `encode_block` (509–541); its first statements index the size tables (513–514), so `BLOCK_INVALID` panics. -/
def encBlock (E : Enc σ ω β) (s : σ) (w : ω) (r c : Nat) : PTree β → Option (σ × ω × PTree β × Bits)
  | .node bs p info ps => do
    let _ ← K.num_4x4_blocks_wide[bs]?
    let _ ← K.num_4x4_blocks_high[bs]?
    let (s, w, i, b) ← E.block s w r c bs info
    some (s, w, .node bs p i ps, b)

/-- Results of a call: coder and tables, the rest, the tree, the bits appended. -/
abbrev Ran (σ ω β : Type) := σ × ω × PTree β × Bits

/-- The parts of a partition, in order, each with a new tree (395–493). -/
def encParts (E : Enc σ ω β) (rec : σ → ω → Nat → Nat → PTree β → Option (Ran σ ω β)) :
    List Part → σ → ω → Option (σ × ω × List (PTree β) × Bits)
  | [], s, w => some (s, w, [], [])
  | q :: qs, s, w => do
    let (s1, w1, t, b1) ← if q.square then rec s w q.row q.col (.new E.fresh q.bsize)
      else encBlock E s w q.row q.col (.new E.fresh q.bsize)
    let (s2, w2, ts, b2) ← encParts E rec qs s1 w1
    some (s2, w2, t :: ts, b1 ++ b2)

/-- The symbol of partition type `p` (356–387), none for a forced one. -/
def partSym (p bsize : Nat) (hasRows hasCols : Bool) : Option PSym :=
  if bsize < K.BLOCK_8X8 then none
  else if hasRows && hasCols then some (.part bsize p)
  else if hasCols then some (.horz bsize (p == K.PARTITION_SPLIT))
  else if hasRows then some (.vert bsize (p == K.PARTITION_SPLIT))
  else none

/-- Write the symbol, if there is one. -/
def encSym (E : Enc σ ω β) (s : σ) (w : ω) : Option PSym → Option (σ × Bits)
  | none => some (s, [])
  | some y => E.symbol s w y

/-- One pass of the loop body for an allowed partition type (356–493). -/
def tryPart (E : Enc σ ω β) (rec : σ → ω → Nat → Nat → PTree β → Option (Ran σ ω β)) (miRows miCols r c p : Nat)
    (s : σ) (w : ω) (t : PTree β) : Option (Ran σ ω β) := do
  let half ← halfBlock t.bsize
  let (s1, b0) ← encSym E s w (partSym p t.bsize (decide (r + half < miRows)) (decide (c + half < miCols)))
  let qs ← partsOf p t.bsize r c miRows miCols
  if p = K.PARTITION_NONE then do
    let (s2, w2, t2, b1) ← encBlock E s1 w r c (.node t.bsize p t.info t.parts)
    some (s2, w2, t2, b0 ++ b1)
  else do
    let (s2, w2, ts, b1) ← encParts E rec qs s1 w
    some (s2, w2, .node t.bsize p t.info ts, b0 ++ b1)

/-- The best candidate so far (347–351). -/
structure Best (σ β : Type) where
  cost : Nat
  coder : σ
  tree : PTree β
  bits : Bits

/-- The loop over the candidates (352–502).  The coder, the tables, the other state and the tree run on from candidate to
candidate.  The cost of a candidate is 0 (495). -/
def tryAll (E : Enc σ ω β) (rec : σ → ω → Nat → Nat → PTree β → Option (Ran σ ω β)) (miRows miCols r c : Nat) :
    List Nat → σ → ω → PTree β → Best σ β → Option (ω × Best σ β)
  | [], _, w, _, best => some (w, best)
  | p :: ps, s, w, t, best => do
    let ok ← allowedPart p t.bsize r c miRows miCols
    if ok then do
      let (s1, w1, t1, b1) ← tryPart E rec miRows miCols r c p s w t
      tryAll E rec miRows miCols r c ps s1 w1 t1 (if 0 < best.cost then ⟨0, s1, t1, b1⟩ else best)
    else tryAll E rec miRows miCols r c ps s w t best

/-- `encode_partition` (332–507).  `cands` gives the candidates for a position and size (the code has one list for all).
`fuel` bounds the depth of the recursion, which is at most 6 because a split halves the size. -/
def partSearch (E : Enc σ ω β) (cands : Nat → Nat → Nat → List Nat) (miRows miCols : Nat) :
    Nat → σ → ω → Nat → Nat → PTree β → Option (Ran σ ω β)
  | 0, _, _, _, _, _ => none
  | fuel + 1, s, w, r, c, t =>
    if r ≥ miRows ∨ c ≥ miCols then some (s, w, t, [])
    else do
      let _ ← halfBlock t.bsize
      let (w1, best) ← tryAll E (partSearch E cands miRows miCols fuel) miRows miCols r c (cands r c t.bsize) s
        (E.enter w r c) t ⟨2 ^ 64 - 1, s, t, []⟩
      some (best.coder, w1, best.tree, best.bits)

/-- The candidates of the code (352–355). -/
def codeCands : List Nat :=
  [K.PARTITION_NONE, K.PARTITION_HORZ, K.PARTITION_VERT, K.PARTITION_SPLIT, K.PARTITION_HORZ_A, K.PARTITION_HORZ_B,
   K.PARTITION_VERT_A, K.PARTITION_VERT_B, K.PARTITION_HORZ_4, K.PARTITION_VERT_4]

end

end Av1
