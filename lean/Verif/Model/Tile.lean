import Verif.Model.Search
import Verif.Model.FrameHeader

/-!
# Tiles: `encode_tile`, the start of `encode_block` (tile_encoder.rs) and tile groups (obu_encoder.rs)

`none` is a panic.  `self.ectx` is a `RefCell`; a `borrow_mut` while another one is alive panics, so a function that starts
with `self.ectx.borrow_mut()` takes the flag `borrowed`.
-/

namespace Av1

/-! ## Start of `encode_block` -/

/-- `mi_row_start`, `mi_row_end`, `mi_col_start`, `mi_col_end` (tile_encoder.rs 31–34). -/
structure TileArea where
  rowStart : Nat
  rowEnd : Nat
  colStart : Nat
  colEnd : Nat
deriving Repr, DecidableEq

/-- `is_inside` (tile_encoder.rs 108–110). -/
def TileArea.inside (a : TileArea) (r c : Int) : Bool :=
  decide (c ≥ a.colStart) && decide (c < a.colEnd) && decide (r ≥ a.rowStart) && decide (r < a.rowEnd)

/-- The flags given to `encode_partition` of the coder for a square at `(r, c)` (tile_encoder.rs 339–340, 362): the neighbours are
available.  They become the context (bool_coder.rs 424–426). -/
def partSides (a : TileArea) (r c : Nat) : Bool × Bool := (a.inside ((r : Int) - 1) c, a.inside r ((c : Int) - 1))

/-- What `encode_block` computes before the mode info (509–537). -/
structure BlockHead where
  hasChroma : Bool
  availU : Bool
  availL : Bool
  availUChroma : Bool
  availLChroma : Bool
deriving Repr, DecidableEq

/-- `encode_block` up to `encode_mode_info` (509–537); `planes` is `ecx.num_planes`. -/
def blockHead (a : TileArea) (planes : Nat) (ssx ssy : Bool) (r c bsize : Nat) : Option BlockHead := do
  let bw4 ← K.num_4x4_blocks_wide[bsize]?
  let bh4 ← K.num_4x4_blocks_high[bsize]?
  let hasChroma :=
    if bh4 == 1 && ssy && (r &&& 1) == 0 then false
    else if bw4 == 1 && ssx && (c &&& 1) == 0 then false
    else decide (planes > 1)
  let u := a.inside ((r : Int) - 1) c
  let l := a.inside r ((c : Int) - 1)
  let uc := if hasChroma then (if ssy && bh4 == 1 then a.inside ((r : Int) - 2) c else u) else false
  let lc := if hasChroma then (if ssx && bw4 == 1 then a.inside r ((c : Int) - 2) else l) else false
  some ⟨hasChroma, u, l, uc, lc⟩

/-! ## `encode_tile` -/

/-- The area of tile `n` (tile_encoder.rs 116–121). -/
def tileArea (n cols rows : Nat) (rowStarts colStarts : List Nat) : Option TileArea := do
  if cols = 0 ∨ rows = 0 then none
  let col := n / cols
  let row := n / rows
  let rs ← rowStarts[row]?
  let re ← rowStarts[row + 1]?
  let cs ← colStarts[col]?
  let ce ← colStarts[col + 1]?
  some ⟨rs, re, cs, ce⟩

/-- The part of `EncoderContext` that a tile resets (122–138). -/
structure TileState where
  currentQ : Nat
  deltaLf : List Int
  refSgr : List (List Int)
  refWiener : List (List (List Int))
deriving Repr, DecidableEq

/-- Overwrite the first `n` entries, which must exist. -/
def resetFirst {α : Type} (v : α) : Nat → List α → Option (List α)
  | 0, l => some l
  | _ + 1, [] => none
  | n + 1, _ :: l => (resetFirst v n l).map (v :: ·)

/-- The reset (122–138): `delta_lf` has `FRAME_LF_COUNT` = 4 entries, the references three planes of two passes. -/
def startTile (baseQ planes : Nat) (s : TileState) : Option TileState := do
  let sgr ← resetFirst K.sgrproj_xqd_mid planes s.refSgr
  let wiener ← resetFirst [K.wiener_taps_mid, K.wiener_taps_mid] planes s.refWiener
  some ⟨baseQ, [0, 0, 0, 0], sgr, wiener⟩

/-- `sb_size` (139) and its width in 4×4 units (141). -/
def sbSize (use128 : Bool) : Nat := if use128 then K.BLOCK_128X128 else K.BLOCK_64X64

/-- `while c < end { f(r, c); c += step }` (147–170). -/
def walkCols {τ : Type} (f : τ → Nat → Nat → Option τ) (step stop r : Nat) : Nat → Nat → τ → Option τ
  | 0, _, _ => none
  | fuel + 1, c, x => if c < stop then (f x r c).bind (walkCols f step stop r fuel (c + step)) else some x

/-- `while r < end { … r += step }` (143–172). -/
def walkRows {τ : Type} (f : τ → Nat → Nat → Option τ) (step : Nat) (a : TileArea) : Nat → Nat → τ → Option τ
  | 0, _, _ => none
  | fuel + 1, r, x =>
    if r < a.rowEnd then (walkCols f step a.colEnd r (a.colEnd + 1) a.colStart x).bind (walkRows f step a fuel (r + step))
    else some x

/-- Both loops; the bounds of the loops are never reached (a step is 16 or 32). -/
def tileWalk {τ : Type} (f : τ → Nat → Nat → Option τ) (step : Nat) (a : TileArea) (x : τ) : Option τ :=
  walkRows f step a (a.rowEnd + 1) a.rowStart x

/-- `frame.cdef_idx[r][c] = -1` (153). -/
def setCdef (m : List (List Int)) (r c : Nat) : Option (List (List Int)) := do
  let row ← m[r]?
  let _ ← row[c]?
  some (m.set r (row.set c (-1)))

/-- Lines 152–159. -/
def clearCdef (use128 : Bool) (r c : Nat) (m : List (List Int)) : Option (List (List Int)) := do
  let m ← setCdef m r c
  if use128 then
    let m ← setCdef m r (c + 16)
    let m ← setCdef m (r + 16) c
    setCdef m (r + 16) (c + 16)
  else some m

/-- The other calls of `encode_tile`. -/
structure TileEnc (σ ω β : Type) extends Enc σ ω β where
  /-- Lines 115–139 for a known area. -/
  start : ω → Option ω
  /-- Lines 149–160: `read_deltas`, `cdef_idx`. -/
  prepare : ω → Nat → Nat → Option ω
  /-- `encode_lr` (164). -/
  lr : σ → ω → Nat → Nat → Nat → Option (σ × ω × Bits)

/-- One superblock (149–167); `encode_superblock` (321–330) is the partition search on a new tree. -/
def encodeSb {σ ω β : Type} (E : TileEnc σ ω β) (use128 : Bool) (miRows miCols fuel : Nat) (x : σ × ω × Bits) (r c : Nat) :
    Option (σ × ω × Bits) := do
  let w ← E.prepare x.2.1 r c
  let (s1, w1, b1) ← E.lr x.1 w r c (sbSize use128)
  let (s2, w2, _, b2) ← partSearch E.toEnc (fun _ _ _ => codeCands) miRows miCols fuel s1 w1 (r * 4 / 4) (c * 4 / 4)
    (.new E.fresh (sbSize use128))
  some (s2, w2, x.2.2 ++ b1 ++ b2)

/-- `encode_tile` (112–176). -/
def encodeTile {σ ω β : Type} (E : TileEnc σ ω β) (borrowed use128 : Bool) (miRows miCols fuel n cols rows : Nat)
    (rowStarts colStarts : List Nat) (s : σ) (w : ω) : Option (σ × ω × Bits) := do
  if borrowed then none
  let a ← tileArea n cols rows rowStarts colStarts
  let w ← E.start w
  let step ← K.num_4x4_blocks_wide[sbSize use128]?
  tileWalk (encodeSb E use128 miRows miCols fuel) step a (s, w, [])

/-! ## Tile groups -/

/-- The first part of `OBU_TILE_GROUP` (obu_encoder.rs 1410–1426): elements, `tg_start`, `tg_end`.  `groups` is
`frame.tile_groups.len()`. -/
def tileGroupHead (cols rows groups tgStart tgEnd : Nat) : Option (Raw × Nat × Nat) := do
  let num := cols * rows
  let b0 ← (if num > 1 then pushB (decide (groups > 0)) else cat [])
  if num = 1 ∨ groups = 0 then do
    let e ← usub num 1
    some (b0, 0, e)
  else do
    let lc ← startsLog2 cols
    let lr ← startsLog2 rows
    let b ← cat [pushN tgStart (lc + lr), pushN tgEnd (lc + lr)]
    some (b0 ++ b, tgStart, tgEnd)

/-- The elements of the head and the alignment (1410–1429). -/
def tileGroupHeader (cols rows groups tgStart tgEnd : Nat) : Option (Raw × Nat × Nat) := do
  let (b, s, e) ← tileGroupHead cols rows groups tgStart tgEnd
  some (b ++ raw (pushBitsAlign b.length), s, e)

/-- The loop over the tiles (1431–1444): `tile n` is `encode_tile`, called while `ecx` of line 1409 is borrowed.  Its bits are
counted and dropped; the last tile has no size. -/
def tileLoop {τ : Type} (tile : Bool → Nat → τ → Option (τ × Bits)) (sizeBytes tgEnd : Nat) :
    List Nat → τ → Option (τ × Bits)
  | [], x => some (x, [])
  | n :: ns, x => do
    let (x1, data) ← tile true n x
    let size := (data.length + 7) / 8
    let b ← (if n = tgEnd then some [] else do
      let v ← usub size 1
      encodeLe v sizeBytes)
    let (x2, bs) ← tileLoop tile sizeBytes tgEnd ns x1
    some (x2, b ++ bs)

/-- `OBU_TILE_GROUP` (1408–1452): the elements, what the tiles leave, and whether `seen_frame_header` is cleared. -/
def encodeTileGroup {τ : Type} (tile : Bool → Nat → τ → Option (τ × Bits)) (cols rows groups tgStart tgEnd sizeBytes : Nat)
    (x : τ) : Option (Raw × τ × Bool) := do
  let (b, s, e) ← tileGroupHeader cols rows groups tgStart tgEnd
  let (x, t) ← tileLoop tile sizeBytes e (List.range' s (e + 1 - s)) x
  let last ← usub (cols * rows) 1
  some (b ++ raw t, x, decide (e = last))

end Av1
