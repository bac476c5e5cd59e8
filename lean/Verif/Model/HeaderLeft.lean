import Verif.Model.FrameWhole

/-!
# What a frame header leaves in the context for the tiles (obu_encoder.rs 947–985, 1059–1109)

Besides the state of `Whole` the header writes these fields of the encoder context.  They do not influence the header's own bits;
the code of the tiles reads them (tile_encoder.rs 189, 213, 608, 629, 633).
-/

namespace Av1

/-- Fields of the encoder context (encoder.rs 63–74). -/
structure HeaderLeft where
  losslessArray : List Bool
  codedLossless : Bool
  allLossless : Bool
  /-- `seg_q_m_level`: 3 planes, 8 segments -/
  qmLevel : List (List Nat)
  /-- `frame_restoration_type`, 3 planes -/
  lrTypes : List Nat
  usesLr : Bool
  usesChromaLr : Bool
  txMode : Nat
deriving Repr, DecidableEq

/-- `EncoderContext::new` (encoder.rs 156–167). -/
def HeaderLeft.new : HeaderLeft :=
  ⟨List.replicate 8 false, false, false, List.replicate 3 (List.replicate 8 0), [0, 0, 0], false, false, K.ONLY_4X4⟩

/-- `seg_q_m_level` (973–983); `lossless` has one entry per segment. -/
def qmLevelAfter (old : List (List Nat)) (lossless : List Bool) (q : Quant) : List (List Nat) :=
  if q.usingQm then [q.qmY, q.qmU, q.qmV].map fun m => lossless.map fun b => if b then 15 else m
  else old

/-- The loop over the planes (1068–1077). -/
def lrTypesLoop (lrType : Nat) : List Nat → List Nat → Option (List Nat)
  | [], ts => some ts
  | i :: is, ts => do
    let t ← K.remap_lr_type[lrType]?
    let _ ← ts[i]?
    lrTypesLoop lrType is (ts.set i t)

/-- `frame_restoration_type` (1060–1077). -/
def lrTypesAfter (old : List Nat) (l : Lr) (off : Bool) (planes : Nat) : Option (List Nat) :=
  if off then some [K.RESTORE_NONE, K.RESTORE_NONE, K.RESTORE_NONE] else lrTypesLoop l.lrType (List.range planes) old

/-- `tx_mode` (1099–1109). -/
def txModeAfter (lossless select : Bool) : Nat :=
  if lossless then K.ONLY_4X4 else if select then K.TX_MODE_SELECT else K.TX_MODE_LARGEST

/-- The state after the header, `w` being what the front leaves (as in `backAfter`). `uses_chroma_lr` is not touched if loop
restoration is off (1060–1064). -/
def headerLeft (w : Whole) (old : HeaderLeft) : Option HeaderLeft := do
  let q := quantAfter w.quant w.planes w.sep
  let arr := losslessArray (segAfter w.seg (decide (w.f.primary = 7))) q w.currentQ
    (deltaQAfter w.deltas w.quant.baseQIdx).qPresent
  let lossless := arr.all id
  let all := lossless && decide (w.f.width = w.c.upscaledWidth)
  let off := all || w.f.intrabc || w.enableRestoration
  let types ← lrTypesAfter old.lrTypes w.lr off w.planes
  let used := (types.take w.planes).map fun t => decide (t ≠ K.RESTORE_NONE)
  some { losslessArray := arr
         codedLossless := lossless
         allLossless := all
         qmLevel := qmLevelAfter old.qmLevel arr q
         lrTypes := types
         usesLr := !off && used.any id
         usesChromaLr := if off then old.usesChromaLr else (used.drop 1).any id
         txMode := txModeAfter lossless w.txSelect }

/-- The same for a whole `OBU_FRAME_HEADER` (318–1403): nothing is touched if the header is a repetition or shows an existing
frame. -/
def leftAfter (w : Whole) (old : HeaderLeft) : Option HeaderLeft := do
  let w' ← frameHeaderAfter w
  if w.c.seen || !w.c.reduced && w.c.showExisting then some old else headerLeft w' old

end Av1
