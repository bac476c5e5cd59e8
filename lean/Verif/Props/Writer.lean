import Verif.Model.Writer
import Verif.Lemmas.Codes

/-! # C20–C23: bit writer and reader -/

namespace Av1

/-- The bits of a byte string, most significant first. -/
def bytesBits (l : List Nat) : Bits := l.flatMap (toBits 8)

theorem length_bytesBits (l : List Nat) : (bytesBits l).length = 8 * l.length := by
  induction l with
  | nil => rfl
  | cons b l ih => rw [bytesBits, List.flatMap_cons, List.length_append, length_toBits]; unfold bytesBits at ih; rw [ih]; simp; ring

theorem bytesBits_append (a b : List Nat) : bytesBits (a ++ b) = bytesBits a ++ bytesBits b := by
  simp [bytesBits]

/-- Byte strings are determined by their bits. -/
theorem bytesBits_inj : ∀ (a b : List Nat), (∀ x ∈ a, x < 256) → (∀ x ∈ b, x < 256) → bytesBits a = bytesBits b → a = b
  | [], [], _, _, _ => rfl
  | [], y :: b, _, _, h => by have := congrArg List.length h; simp [length_bytesBits] at this
  | x :: a, [], _, _, h => by have := congrArg List.length h; simp [length_bytesBits] at this
  | x :: a, y :: b, ha, hb, h => by
    simp only [bytesBits, List.flatMap_cons] at h
    obtain ⟨h1, h2⟩ := List.append_inj h (by simp)
    have h3 := congrArg num h1
    rw [num_toBits, num_toBits, Nat.mod_eq_of_lt (by simpa using ha x (by simp)),
      Nat.mod_eq_of_lt (by simpa using hb y (by simp))] at h3
    rw [h3, bytesBits_inj a b (fun z hz => ha z (by simp [hz])) (fun z hz => hb z (by simp [hz])) h2]

/-- One call on the writer. -/
inductive WOp where
  | bit (b : Bool)
  | bits (l : Bits)
  | align
deriving Repr, DecidableEq

/-- The code's behaviour. -/
def runW (w : Writer) : List WOp → Option Writer
  | [] => some w
  | .bit b :: ops => (writeBit w b.toNat).bind (runW · ops)
  | .bits l :: ops => (writeBits w (l.map Bool.toNat)).bind (runW · ops)
  | .align :: ops => (byteAlign w).bind (runW · ops)

/-- Specification: the bit string written so far; align appends the fewest zeros that complete a byte. -/
def specW (s : Bits) : List WOp → Bits
  | [] => s
  | .bit b :: ops => specW (s ++ [b]) ops
  | .bits l :: ops => specW (s ++ l) ops
  | .align :: ops => specW (s ++ List.replicate ((8 - s.length % 8) % 8) false) ops

/-- The writer holds exactly the bit string `s`: whole bytes in the output, the rest pending. -/
structure Holds (w : Writer) (s : Bits) : Prop where
  idx : w.index < 8
  buf : w.buf < 2 ^ w.index
  bytes : ∀ b ∈ w.out, b < 256
  bits : bytesBits w.out ++ toBits w.index w.buf = s

theorem Holds.length {w : Writer} {s : Bits} (h : Holds w s) : s.length = 8 * w.out.length + w.index := by
  rw [← h.bits, List.length_append, length_bytesBits, length_toBits]

theorem Holds.unique {w : Writer} {s t : Bits} (hs : Holds w s) (ht : Holds w t) : s = t := hs.bits.symm.trans ht.bits

theorem holds_bit {w : Writer} {s : Bits} (h : Holds w s) (b : Bool) :
    ∃ w', writeBit w b.toNat = some w' ∧ Holds w' (s ++ [b]) := by
  have h1 := h.idx
  have h2 := h.buf
  have hp : 2 ^ w.index ≤ 2 ^ 7 := Nat.pow_le_pow_right (by decide) (by omega)
  have hb : b.toNat ≤ 1 := by cases b <;> simp
  have hv : (w.buf <<< 1) % 256 + b.toNat = 2 * w.buf + b.toNat := by
    rw [Nat.shiftLeft_eq, Nat.mod_eq_of_lt (by omega)]; ring
  have hbits : toBits (w.index + 1) (2 * w.buf + b.toNat) = toBits w.index w.buf ++ [b] := by
    rw [toBits_succ]
    congr 2
    · omega
    · rw [Nat.testBit_zero]; cases b <;> simp
  unfold writeBit
  simp only [hv]
  rw [if_neg (by omega)]
  by_cases h8 : w.index + 1 = 8
  · rw [if_pos h8]
    refine ⟨_, rfl, ⟨by simp, by simp, ?_, ?_⟩⟩
    · intro x hx
      rcases List.mem_append.1 hx with hx | hx
      · exact h.bytes x hx
      · simp at hx; omega
    · rw [h8] at hbits
      simp only [bytesBits_append, toBits, List.append_nil]
      rw [show bytesBits [2 * w.buf + b.toNat] = toBits 8 (2 * w.buf + b.toNat) by simp [bytesBits], hbits,
        ← List.append_assoc, h.bits]
  · rw [if_neg h8]
    refine ⟨_, rfl, ⟨by simp only; omega, by simp only [pow_succ]; omega, h.bytes, ?_⟩⟩
    simp only
    rw [hbits, ← List.append_assoc, h.bits]

theorem holds_bits {s : Bits} : ∀ (l : Bits) {w : Writer}, Holds w s →
    ∃ w', writeBits w (l.map Bool.toNat) = some w' ∧ Holds w' (s ++ l)
  | [], w, h => ⟨w, rfl, by simpa using h⟩
  | b :: l, w, h => by
    obtain ⟨w1, h1, h2⟩ := holds_bit h b
    obtain ⟨w2, h3, h4⟩ := holds_bits l h2
    exact ⟨w2, by simp [writeBits, h1, h3], by simpa using h4⟩

theorem holds_align {w : Writer} {s : Bits} (h : Holds w s) :
    ∃ w', byteAlign w = some w' ∧ Holds w' (s ++ List.replicate ((8 - s.length % 8) % 8) false) := by
  have hl := h.length
  have h1 := h.idx
  have hrem : (if w.index > 0 then 8 - w.index else 0) = (8 - s.length % 8) % 8 := by
    split <;> omega
  unfold byteAlign
  simp only [hrem]
  have := holds_bits (List.replicate ((8 - s.length % 8) % 8) false) h
  simpa using this

theorem holds_run {s : Bits} : ∀ (ops : List WOp) {w : Writer}, Holds w s →
    ∃ w', runW w ops = some w' ∧ Holds w' (specW s ops) := by
  intro ops
  induction ops generalizing s with
  | nil => intro w h; exact ⟨w, rfl, h⟩
  | cons op ops ih =>
    intro w h
    cases op with
    | bit b =>
      obtain ⟨w1, h1, h2⟩ := holds_bit h b
      obtain ⟨w2, h3, h4⟩ := ih h2
      exact ⟨w2, by simp [runW, h1, h3], h4⟩
    | bits l =>
      obtain ⟨w1, h1, h2⟩ := holds_bits l h
      obtain ⟨w2, h3, h4⟩ := ih h2
      exact ⟨w2, by simp [runW, h1, h3], h4⟩
    | align =>
      obtain ⟨w1, h1, h2⟩ := holds_align h
      obtain ⟨w2, h3, h4⟩ := ih h2
      exact ⟨w2, by simp [runW, h1, h3], h4⟩

theorem holds_new : Holds Writer.new [] := ⟨by decide, by decide, by simp [Writer.new], by simp [Writer.new, bytesBits, toBits]⟩

/-- **C20**. After any calls, the bytes in the output followed by the pending bits spell exactly what was written. -/
theorem C20_lossless (ops : List WOp) :
    ∃ w, runW Writer.new ops = some w ∧ w.index < 8 ∧ (∀ b ∈ w.out, b < 256) ∧
      bytesBits w.out ++ toBits w.index w.buf = specW [] ops := by
  obtain ⟨w, h1, h2⟩ := holds_run ops holds_new
  exact ⟨w, h1, h2.idx, h2.bytes, h2.bits⟩

/-- **C20**, the grouping of bits into calls does not matter: same bit string, same writer state. -/
theorem C20_grouping (ops1 ops2 : List WOp) (h : specW [] ops1 = specW [] ops2) :
    runW Writer.new ops1 = runW Writer.new ops2 := by
  obtain ⟨w1, h1, g1⟩ := holds_run ops1 holds_new
  obtain ⟨w2, h2, g2⟩ := holds_run ops2 holds_new
  rw [h1, h2]
  have l1 := g1.length
  have l2 := g2.length
  have i1 := g1.idx
  have i2 := g2.idx
  rw [h] at l1 g1
  have hlen : w1.out.length = w2.out.length := by omega
  have hidx : w1.index = w2.index := by omega
  have hb := g1.bits.trans g2.bits.symm
  obtain ⟨e1, e2⟩ := List.append_inj hb (by rw [length_bytesBits, length_bytesBits, hlen])
  have e3 := bytesBits_inj _ _ g1.bytes g2.bytes e1
  have e4 := congrArg num e2
  rw [num_toBits, num_toBits, Nat.mod_eq_of_lt g1.buf, Nat.mod_eq_of_lt g2.buf] at e4
  cases w1; cases w2; simp_all

/-- A "bit" that is not 0 or 1 changes the bits before it (the writer does not check): 0 then 3 looks like 1 then 1. -/
example : writeBits Writer.new [0, 3] = some { out := [], buf := 3, index := 2 } ∧
    writeBits Writer.new [1, 1] = some { out := [], buf := 3, index := 2 } := by decide

/-- **C21**. Alignment in any reachable state: at most seven zero bits, nothing when nothing is pending, afterwards
whole bytes only, and a second alignment changes nothing. -/
theorem C21_align (ops : List WOp) (w : Writer) (h : runW Writer.new ops = some w) :
    ∃ w' k, byteAlign w = some w' ∧ k ≤ 7 ∧
      bytesBits w'.out = bytesBits w.out ++ toBits w.index w.buf ++ List.replicate k false ∧
      w'.index = 0 ∧ w'.buf = 0 ∧ (w.index = 0 → w' = w) ∧ byteAlign w' = some w' := by
  obtain ⟨w0, h1, h2⟩ := holds_run ops holds_new
  rw [h] at h1
  obtain rfl := Option.some.inj h1
  obtain ⟨w', h3, h4⟩ := holds_align h2
  have hl := h2.length
  have hl' := h4.length
  have hi := h4.idx
  have hidx : w'.index = 0 := by
    rw [List.length_append, List.length_replicate] at hl'
    omega
  have hbuf : w'.buf = 0 := by
    have := h4.buf
    rw [hidx] at this
    omega
  refine ⟨w', (8 - (specW [] ops).length % 8) % 8, h3, ?_, ?_, hidx, hbuf, ?_, ?_⟩
  · omega
  · have := h4.bits
    rw [hidx] at this
    simp only [toBits, List.append_nil] at this
    rw [this, h2.bits]
  · intro h0
    unfold byteAlign at h3
    simp [h0, writeBits] at h3
    exact h3.symm
  · unfold byteAlign
    simp [hidx, writeBits]

/-- **C22**. Writing the bits of any byte string emits exactly that byte string, with nothing pending. -/
theorem C22_inverse (bytes : List Nat) (h : ∀ b ∈ bytes, b < 256) :
    writeBits Writer.new ((bytesBits bytes).map Bool.toNat) = some { out := bytes, buf := 0, index := 0 } := by
  obtain ⟨w, h1, h2⟩ := holds_bits (bytesBits bytes) holds_new
  rw [h1]
  have hl := h2.length
  have hi := h2.idx
  rw [List.nil_append, length_bytesBits] at hl
  have hidx : w.index = 0 := by omega
  have hbuf : w.buf = 0 := by
    have := h2.buf
    rw [hidx] at this
    omega
  have hb := h2.bits
  rw [hidx] at hb
  simp only [toBits, List.append_nil, List.nil_append] at hb
  have := bytesBits_inj _ _ h2.bytes h hb
  cases w; simp_all

example : ∀ b ∈ [0, 18, 255], b < 256 := by decide

/-- **C23**, full claim: a successful read fills the whole vector from the input. -/
def C23_full : Prop := ∀ (len : Nat) (input : List Nat) (k : Nat), ReadOk len input k →
  (readToVec len input k).1 = input.take len ∧ (readToVec len input k).1.length = len

/-- **C23** is false: at the end of the input (or after a short read) success is reported and the missing samples
are 0. -/
theorem C23_negation : ¬ C23_full := by
  intro h
  have := (h 4 [7] 1 ⟨by decide, by decide, by decide⟩).1
  exact absurd this (by decide)

/-- **C23**, what holds: the vector keeps its size, its first `k` samples (`k` = the reported count) are the next
input bytes in order, the others are 0, and exactly those `k` bytes are consumed.  Missing: nothing forces
`k = len`, and `main` ignores `k`. -/
theorem C23_read_partial (len : Nat) (input : List Nat) (k : Nat) (h : ReadOk len input k) :
    (readToVec len input k).2.1 = k ∧ (readToVec len input k).1.length = len ∧
      (readToVec len input k).1.take k = input.take k ∧
      (∀ i, k ≤ i → i < len → (readToVec len input k).1[i]? = some 0) ∧
      input.take k ++ (readToVec len input k).2.2 = input ∧
      (k = len → (readToVec len input k).1 = input.take len) := by
  obtain ⟨h1, h2, -⟩ := h
  have ht : (input.take k).length = k := by simp; omega
  refine ⟨rfl, ?_, ?_, ?_, ?_, ?_⟩
  · simp [readToVec]; omega
  · simp only [readToVec]; exact List.take_left' ht
  · intro i hk hi
    simp only [readToVec]
    rw [List.getElem?_append_right (by omega), ht, List.getElem?_replicate, if_pos (by omega)]
  · simp [readToVec]
  · intro hk; subst hk; simp [readToVec]

/-- **C23**, exactly: a read that returned `k` bytes fills the vector from the input iff the input has enough bytes and those
not read are zero. -/
theorem C23_iff (len : Nat) (input : List Nat) (k : Nat) (h : ReadOk len input k) :
    ((readToVec len input k).1 = input.take len ∧ (readToVec len input k).1.length = len) ↔
      len ≤ input.length ∧ ∀ i, k ≤ i → i < len → input[i]? = some 0 := by
  obtain ⟨-, h1, h2, h3, -, -⟩ := C23_read_partial len input k h
  simp only [h1, and_true]
  constructor
  · intro he
    have hl := congrArg List.length he
    rw [h1, List.length_take] at hl
    refine ⟨by omega, fun i hk hi => ?_⟩
    have := h3 i hk hi
    rwa [he, List.getElem?_take, if_pos hi] at this
  · rintro ⟨hl, hz⟩
    apply List.ext_getElem?
    intro i
    by_cases hi : i < len
    · rw [List.getElem?_take, if_pos hi]
      by_cases hk : k ≤ i
      · rw [h3 i hk hi, hz i hk hi]
      · have := congrArg (·[i]?) h2
        simpa [List.getElem?_take, show i < k by omega] using this
    · rw [List.getElem?_eq_none (by omega), List.getElem?_eq_none (by simp; omega)]

end Av1
