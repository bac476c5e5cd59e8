import Verif.Model.Stream

/-!
# The encoder with its own parts: new objects, and what `encode_obu_payload` takes from a frame

`Model/Stream.lean` leaves open what a frame is.  Here a frame consists of the fields the header reads and of everything else,
the picture among it.
-/

namespace Av1

/-- `Frame::new` (frame.rs 240–340), `EncoderContext::new` (encoder.rs 91–183) and `OBUEncoder::new` (obu_encoder.rs 44–57), as far
as the header needs them. -/
def Whole.new (t : FrameType) (width height : Nat) : Whole where
  c := .new
  f := .new t width height
  idLen := 0
  hintBits := 0
  ctxHintBits := 0
  tile := ⟨0, 0, true, false, 1, 1, 0, 0, [], []⟩
  quant := ⟨0, 0, 0, 0, 0, 0, false, false, 0, 0, 0⟩
  seg := ⟨false, false, false, false, List.replicate 8 (List.replicate 7 none)⟩
  deltas := ⟨false, 0, false, 0, false⟩
  currentQ := 0
  lf := ⟨[0, 0, 0, 0], 0, false, false, List.replicate 8 false, List.replicate 8 0, [false, false], [0, 0]⟩
  cdef := ⟨0, 0, [], [], [], []⟩
  lr := ⟨0, 0, 0, 0, [0, 0, 0]⟩
  enableRestoration := false
  txSelect := true
  refSelect := true
  skipPresent := true
  enableWarped := false
  allowWarped := false
  reducedTx := false
  gm := ⟨List.replicate 8 ⟨false, false, false⟩, List.replicate 8 0, List.replicate 8 (List.replicate 6 0),
    List.replicate 8 (List.replicate 6 0)⟩
  grain := none
  grainRefs := List.replicate 8 Grain.new
  planes := 3
  sep := false
  mono := false
  sub := true
  tileNum := 1

/-- A `Frame` (frame.rs 179–238): `g` holds the fields that the header reads (its other fields, those of the context, are not used),
`rest` all others. -/
structure CodeFrame (π : Type) where
  g : Whole
  /-- `tile_groups.len()` -/
  groups : Nat
  rest : π

/-- The fields of `Frame` replace those of the frame before; the fields of `EncoderContext` and `OBUEncoder` stay. -/
def CodeFrame.load {π : Type} (p : CodeFrame π) (w : Whole) : Whole :=
  { w with
    f := p.g.f
    tile := { w.tile with uniform := p.g.tile.uniform, cols := p.g.tile.cols, rows := p.g.tile.rows }
    quant := { w.quant with
      baseQIdx := p.g.quant.baseQIdx
      diffUvDelta := p.g.quant.diffUvDelta
      usingQm := p.g.quant.usingQm
      qmY := p.g.quant.qmY
      qmU := p.g.quant.qmU
      qmV := p.g.quant.qmV }
    seg := p.g.seg
    deltas := p.g.deltas
    lf := p.g.lf
    cdef := p.g.cdef
    lr := { p.g.lr with size := w.lr.size }
    txSelect := p.g.txSelect
    refSelect := p.g.refSelect
    skipPresent := p.g.skipPresent
    allowWarped := p.g.allowWarped
    reducedTx := p.g.reducedTx
    gm := { w.gm with flags := p.g.gm.flags } }

/-- The encoder's own parts: `E` is what the tile encoder does with a frame in the context that the headers left; the loops around it
are `encodeTile`.  What a tile leaves in the context (`current_q_index`, 122) is in `σ` and `ω`; it does not reach the next header
of the model, and no tile of a group is ever finished (C105). `fuel` bounds the nesting of partitions. -/
def codeIO {σ ω β π : Type} (E : CodeFrame π → Whole → HeaderLeft → TileEnc σ ω β) (fuel : Nat) : FrameIO (CodeFrame π) (σ × ω) where
  load := CodeFrame.load
  layout p := (p.g.tile.cols, p.g.tile.rows, p.groups)
  tile p w l borrowed n x := (encodeTile (E p w l) borrowed w.tile.use128 (miSize p.g.f.height) (miSize p.g.f.width)
    fuel n p.g.tile.cols p.g.tile.rows w.tile.miRowStarts w.tile.miColStarts x.1 x.2).map fun y => ((y.1, y.2.1), y.2.2)
  load_c _ _ := rfl

/-- All of `EncoderContext::new` and `OBUEncoder::new`. -/
def EncState.new {τ : Type} (x : τ) : EncState τ where
  sc := .new
  w := .new .key 0 0
  left := .new
  tgStart := 0
  tgEnd := 0
  rest := x

end Av1
