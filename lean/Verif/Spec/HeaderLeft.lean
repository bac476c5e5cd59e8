import Verif.Spec.FrameLayout

/-!
# What a decoder derives from a frame header for the tiles (AV1 5.9.2, 5.9.20, 5.9.21)
-/

namespace Av1.Hdr

/-- Component of a triple by plane. -/
def ofPlane (t : Nat × Nat × Nat) (plane : Nat) : Nat := if plane = 0 then t.1 else if plane = 1 then t.2.1 else t.2.2

/-- `SegQMLevel[plane][segment]`, 5.9.2, for a frame with quantizer matrices: 15 (no matrix) for a lossless segment, the level of
the plane for the others. `alt` is the segment's quantizer feature. -/
def IsQmLevel (alt : Option Int) (q : Quant) (plane level : Nat) : Prop :=
  (LosslessSegment alt q.baseQIdx [q.yDc, q.uAc, q.uDc, q.vAc, q.vDc] → level = 15) ∧
    (¬ LosslessSegment alt q.baseQIdx [q.yDc, q.uAc, q.uDc, q.vAc, q.vDc] → ∃ qm, q.qm = some qm ∧ level = ofPlane qm plane)

/-- Codes of `FrameRestorationType` (6.10.15: 0 none, 1 Wiener, 2 self-guided, 3 switchable). -/
def Restoration.code : Restoration → Nat
  | .none => 0 | .wiener => 1 | .sgrproj => 2 | .switchable => 3

/-- Codes of `TxMode` (6.8.21). -/
def TxMode.code : TxMode → Nat
  | .only4x4 => 0 | .largest => 1 | .select => 2

end Av1.Hdr
