import Verif.Spec.Bits

/-!
# `src/binary_writer.rs` and `src/binary_reader.rs`

The output sink is the list of bytes handed to `output.write`.  Its errors (turned into a panic by the code) and short
writes (ignored by the code) are outside the model: the sink accepts every byte.
-/

namespace Av1

/-- `struct BinaryWriter` (binary_writer.rs 7–11). -/
structure Writer where
  out : List Nat   -- bytes handed to `output`
  buf : Nat        -- u8
  index : Nat
deriving Repr, DecidableEq

/-- `BinaryWriter::standard` / `file` (14–28): nothing pending. -/
def Writer.new : Writer := { out := [], buf := 0, index := 0 }

/-- `write_bit` (30–41); `bit` is any `u8`.  `(buf<<1) + bit` overflowing `u8` is a panic. -/
def writeBit (w : Writer) (bit : Nat) : Option Writer :=
  let buf := (w.buf <<< 1) % 256 + bit
  if buf ≥ 256 then none
  else if w.index + 1 = 8 then some { out := w.out ++ [buf], buf := 0, index := 0 }
  else some { w with buf := buf, index := w.index + 1 }

/-- `write_bits` (43–47). -/
def writeBits (w : Writer) : List Nat → Option Writer
  | [] => some w
  | b :: bs => do
    let w1 ← writeBit w b
    writeBits w1 bs

/-- `byte_align` (49–54). -/
def byteAlign (w : Writer) : Option Writer :=
  let rem := if w.index > 0 then 8 - w.index else 0
  writeBits w (List.replicate rem 0)

/-- `Write::write` for the writer (57–60): goes straight to the output, past the pending bits. -/
def writeRaw (w : Writer) (bytes : List Nat) : Writer := { w with out := w.out ++ bytes }

/-- `read_to_vec` (binary_reader.rs 27–39).  `k` is what the operating system returns for this call: any number of
bytes up to the buffer size and what is left of the input.  Result: the vector, the reported count, the rest. -/
def readToVec (len : Nat) (input : List Nat) (k : Nat) : List Nat × Nat × List Nat :=
  (input.take k ++ List.replicate (len - k) 0, k, input.drop k)

/-- The counts `Read::read` may return: no more than asked for or available, and not 0 unless there is nothing to
do. -/
def ReadOk (len : Nat) (input : List Nat) (k : Nat) : Prop :=
  k ≤ len ∧ k ≤ input.length ∧ (k = 0 → len = 0 ∨ input = [])

end Av1
