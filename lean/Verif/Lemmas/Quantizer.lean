import Verif.Model.Quantizer

/-! Kernel evaluation of the quantizer matrices. -/

namespace Av1

/-- Byte `i` of a packed matrix. -/
def qmByte (n i : Nat) : Nat := (n >>> (8 * i)) % 256

/-- Part at `a`, `w` wide and `h` high, against the part at `b`, `h` wide and `w` high. -/
def transposedAt (n a b w h : Nat) : Bool :=
  (List.range h).all fun r => (List.range w).all fun c => qmByte n (a + (r * w + c)) == qmByte n (b + (c * h + r))

theorem transposedAt_swap {n a b w h : Nat} (H : transposedAt n a b w h = true) : transposedAt n b a h w = true := by
  simp only [transposedAt, List.all_eq_true, List.mem_range, beq_iff_eq] at H ⊢
  intro r hr c hc
  exact (H c hc r hr).symm

/-- Where the parts are and how large; of a part and its transpose only one. -/
def qmParts : List (Nat × Nat × Nat × Nat) :=
  [(0, 0, 4, 4), (16, 16, 8, 8), (80, 80, 16, 16), (336, 336, 32, 32), (1360, 1392, 4, 8), (1424, 1552, 8, 16),
   (1680, 2192, 16, 32), (2704, 2768, 4, 16), (2832, 3088, 8, 32)]

theorem qm_transposed : (K.qm_packed.all fun l => l.all fun n => qmParts.all fun p =>
    transposedAt n p.1 p.2.1 p.2.2.1 p.2.2.2) = true := by decide +kernel

theorem qm_range : (K.qm_packed.all fun l => l.all fun n => (List.range 3344).all fun i =>
    decide (30 ≤ qmByte n i) && decide (qmByte n i < 243)) = true := by decide +kernel

theorem qm_flat : (K.qm_packed[15]?.getD []).all (fun n => (List.range 3344).all fun i => qmByte n i == 32) = true := by
  decide +kernel

end Av1
