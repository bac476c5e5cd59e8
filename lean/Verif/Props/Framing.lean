import Verif.Props.Writer
import Verif.Props.Metadata
import Verif.Spec.Obu

/-! # C28, C35: temporal units and padding -/

namespace Av1

namespace Syntax

open P

/-- `n` bits. -/
def take (n : Nat) : P Bits := fun s => if s.length < n then none else some (s.take n, s.drop n)

/-- `temporal_unit` (annex B) holding one frame unit with one OBU: the OBU type and its payload bits.  Every length is
in bytes; each length covers exactly what it announces. -/
def temporalUnit : P (Option Nat × Bits) := do
  let unitSize ← leb128
  let unit ← take (8 * unitSize)
  match (do
    let frameSize ← leb128
    let frame ← take (8 * frameSize)
    match (do
      let obuLength ← leb128
      let obu ← take (8 * obuLength)
      match obuHeader obu with
      | some (t, payload) => pure (t, payload)
      | none => fun _ => none : P (Option Nat × Bits)) frame with
    | some (v, []) => pure v
    | _ => fun _ => none : P (Option Nat × Bits)) unit with
  | some (v, []) => pure v
  | _ => fun _ => none

end Syntax

/-- Bits appended to the writer. -/
def Appends (w : Writer) (w' : Writer) (b : Bits) : Prop := ∀ s, Holds w s → Holds w' (s ++ b)

/-- Zeros that complete the last byte. -/
def pad (n : Nat) : Bits := List.replicate ((8 - n % 8) % 8) false

/-- **C28**, full claim: a unit appended to whole bytes is read back as its type and payload (completed to whole
bytes), whatever follows. -/
def C28_full : Prop := ∀ (k : ObuKind) (p : Bits) (w : Writer) (s : Bits), Holds w s → s.length % 8 = 0 →
  ∃ w' u, encodeTemporalUnit k (some (raw p)) w = some w' ∧ Holds w' (s ++ u) ∧
    ∀ rest, Syntax.temporalUnit (u ++ rest) = some ((some k.code, p ++ pad p.length), rest)

theorem unit_writes (k : ObuKind) (p hd a b c : Bits) (w : Writer) (s : Bits) (h : Holds w s)
    (hh : encodeObuHeader k = some (raw hd)) (h8 : hd.length = 8) (la : a.length = 8) (lb : b.length = 8)
    (ha : pushLeb 8 = some (raw a)) (hb : pushLeb 16 = some (raw b)) (hc : pushLeb 24 = some (raw c)) :
    ∃ w', encodeTemporalUnit k (some (raw p)) w = some w' ∧
      Holds w' (s ++ p ++ pad (s ++ p).length ++ (c ++ (b ++ (a ++ hd)))) := by
  obtain ⟨w1, h1, g1⟩ := holds_bits p h
  obtain ⟨w2, h2, g2⟩ := holds_align g1
  obtain ⟨w3, h3, g3⟩ := holds_bits c g2
  obtain ⟨w4, h4, g4⟩ := holds_bits (b ++ (a ++ hd)) g3
  have hraw : ∀ x : Bits, (raw x).length = x.length := fun x => by simp [raw]
  refine ⟨w4, ?_, ?_⟩
  · have e1 : (raw hd).length = 8 := by rw [hraw, h8]
    have e2 : cat [pushLeb 8, some (raw hd)] = some (raw (a ++ hd)) := by
      rw [ha, raw_append]; simp [cat_cons, cat_nil]
    have e3 : (raw (a ++ hd)).length = 16 := by rw [hraw, List.length_append, la, h8]
    have e4 : cat [pushLeb 16, some (raw (a ++ hd))] = some (raw (b ++ (a ++ hd))) := by
      rw [hb, raw_append b]; simp [cat_cons, cat_nil]
    have e5 : (raw (b ++ (a ++ hd))).length = 24 := by
      rw [hraw, List.length_append, List.length_append, la, lb, h8]
    have h1' : writeBits w (raw p) = some w1 := h1
    have h3' : writeBits w2 (raw c) = some w3 := h3
    have h4' : writeBits w3 (raw (b ++ (a ++ hd))) = some w4 := h4
    unfold encodeTemporalUnit encodeObu
    rw [hh]
    simp only [Option.bind_eq_bind, Option.bind_some, h1', h2, e1, e2, e3, e4, e5, hc, h3', h4']
  · rw [← List.append_assoc]
    exact g4

theorem encodeObuHeader_eq (k : ObuKind) : encodeObuHeader k = some (raw (toBits 8 (8 * k.code))) := by
  cases k <;> decide +kernel

/-- **C28**, exactly what is written: the payload, completed to whole bytes, and then four bytes which do not depend on
it, `24 16 8 8·type`: the lengths of the (unwritten) frames in bits.  Missing from the claim: the header comes last, the
lengths describe neither the payload nor bytes. -/
theorem C28_exact_partial (k : ObuKind) (p : Bits) (w : Writer) (s : Bits) (h : Holds w s) :
    ∃ w', encodeTemporalUnit k (some (raw p)) w = some w' ∧
      Holds w' (s ++ p ++ pad (s ++ p).length ++ bytesBits [24, 16, 8, 8 * k.code]) := by
  have := unit_writes k p _ (toBits 8 8) (toBits 8 16) (toBits 8 24) w s h (encodeObuHeader_eq k) (length_toBits _ _)
    (length_toBits _ _) (length_toBits _ _) (by decide +kernel) (by decide +kernel) (by decide +kernel)
  rwa [show bytesBits [24, 16, 8, 8 * k.code] = toBits 8 24 ++ (toBits 8 16 ++ (toBits 8 8 ++ toBits 8 (8 * k.code))) by
    simp only [bytesBits, List.flatMap_cons, List.flatMap_nil, List.append_nil]]

/-- **C28** is false: the very first unit cannot be read. -/
theorem C28_negation : ¬ C28_full := by
  intro h
  obtain ⟨w1, u, h1, g1, hr⟩ := h .temporalDelimiter [] Writer.new [] holds_new (by decide)
  obtain ⟨w2, h2, g2⟩ := C28_exact_partial .temporalDelimiter [] Writer.new [] holds_new
  rw [h1] at h2
  obtain rfl := Option.some.inj h2
  have e := g1.bits.symm.trans g2.bits
  simp only [List.nil_append] at e
  rw [e] at hr
  exact absurd (hr []) (by decide +kernel)

/-- A temporal unit never panics when its payload does not. -/
theorem C28_total (k : ObuKind) (p : Bits) (w : Writer) (s : Bits) (h : Holds w s) :
    (encodeTemporalUnit k (some (raw p)) w).isSome := by
  obtain ⟨w', h', -⟩ := C28_exact_partial k p w s h
  rw [h']; rfl

/-- Non-vacuity: the writer after some calls holds what was written (C20), here two bits. -/
example : ∃ w, writeBits Writer.new [1, 0] = some w ∧ Holds w [true, false] := holds_bits [true, false] holds_new

/-! ## C35 -/

theorem encodePadding_eq : ∀ n, encodePadding n = some (raw (List.replicate (8 * n) false))
  | 0 => rfl
  | n + 1 => by
    have ih := encodePadding_eq n
    unfold encodePadding at ih ⊢
    rw [List.replicate_succ, cat_cons, ih, show pushN 0 8 = some (raw (List.replicate 8 false)) by decide +kernel]
    simp only [Option.bind_some, ← raw_append, List.replicate_append_replicate]
    rw [show 8 + 8 * n = 8 * (n + 1) by ring]

theorem bytesBits_zeros (n : Nat) : bytesBits (List.replicate n 0) = List.replicate (8 * n) false := by
  induction n with
  | zero => rfl
  | succ n ih =>
    rw [List.replicate_succ, show (0 :: List.replicate n 0) = [0] ++ List.replicate n 0 from rfl, bytesBits_append, ih,
      show bytesBits [0] = List.replicate 8 false by decide, List.replicate_append_replicate,
      show 8 + 8 * n = 8 * (n + 1) by ring]

/-- **C35**, full claim: after whole bytes, a padding unit writes its header byte and then `n` zero bytes (and nothing
else after the header). -/
def C35_full : Prop := ∀ (n : Nat) (w : Writer) (s : Bits), Holds w s → s.length % 8 = 0 →
  ∃ w' pre, encodeTemporalUnit .padding (encodePadding n) w = some w' ∧
    Holds w' (s ++ pre ++ bytesBits (120 :: List.replicate n 0))

/-- **C35**, what holds: exactly `n` zero bytes are written — before the header byte, which ends the unit. -/
theorem C35_padding_partial (n : Nat) (w : Writer) (s : Bits) (h : Holds w s) (h8 : s.length % 8 = 0) :
    ∃ w', encodeTemporalUnit .padding (encodePadding n) w = some w' ∧
      Holds w' (s ++ bytesBits (List.replicate n 0) ++ bytesBits [24, 16, 8, 120]) := by
  rw [encodePadding_eq]
  obtain ⟨w', h1, h2⟩ := C28_exact_partial .padding (List.replicate (8 * n) false) w s h
  refine ⟨w', h1, ?_⟩
  have : pad (s ++ List.replicate (8 * n) false).length = [] := by
    unfold pad
    rw [List.length_append, List.length_replicate, show (8 - (s.length + 8 * n) % 8) % 8 = 0 by omega]; rfl
  rw [this, List.append_nil] at h2
  rw [bytesBits_zeros]
  exact h2

/-- **C35**, the exact condition: the header byte comes before the zero bytes only if there are none. -/
theorem C35_iff (n : Nat) (w : Writer) (s : Bits) (h : Holds w s) (h8 : s.length % 8 = 0) :
    (∃ w' pre, encodeTemporalUnit .padding (encodePadding n) w = some w' ∧
      Holds w' (s ++ pre ++ bytesBits (120 :: List.replicate n 0))) ↔ n = 0 := by
  obtain ⟨w1, e1, h1⟩ := C35_padding_partial n w s h h8
  constructor
  · rintro ⟨w', pre, e2, h2⟩
    rw [e1] at e2
    cases e2
    have := Holds.unique h1 h2
    by_contra h0
    obtain ⟨m, rfl⟩ : ∃ m, n = m + 1 := ⟨n - 1, by omega⟩
    have e3 : bytesBits (120 :: List.replicate (m + 1) 0) = bytesBits (120 :: List.replicate m 0) ++ bytesBits [0] := by
      rw [← bytesBits_append, List.replicate_succ', ← List.cons_append]
    have e4 : bytesBits [24, 16, 8, 120] = bytesBits [24, 16, 8] ++ bytesBits [120] := by rw [← bytesBits_append]; rfl
    rw [e3, e4, ← List.append_assoc, ← List.append_assoc] at this
    have := List.append_inj_right' this (by decide)
    exact absurd this (by decide)
  · rintro rfl
    refine ⟨w1, bytesBits [24, 16, 8], e1, ?_⟩
    have e4 : bytesBits [24, 16, 8, 120] = bytesBits [24, 16, 8] ++ bytesBits [120] := by rw [← bytesBits_append]; rfl
    rw [e4] at h1
    simpa [bytesBits] using h1

example : Holds Writer.new [] ∧ ([] : Bits).length % 8 = 0 := ⟨holds_new, rfl⟩

/-- **C35** is false: one byte of padding already ends up in front of the header. -/
theorem C35_negation : ¬ C35_full := by
  intro h
  obtain ⟨w1, pre, h1, g1⟩ := h 1 Writer.new [] holds_new (by decide)
  obtain ⟨w2, h2, g2⟩ := C35_padding_partial 1 Writer.new [] holds_new (by decide)
  rw [h1] at h2
  obtain rfl := Option.some.inj h2
  have e := g1.bits.symm.trans g2.bits
  have l := congrArg List.length e
  simp only [List.nil_append, List.length_append, length_bytesBits, List.length_cons, List.length_nil,
    List.length_replicate] at l
  have e2 := congrArg (List.drop 24) e
  rw [List.nil_append, List.drop_left' (by omega)] at e2
  exact absurd e2 (by decide +kernel)

example : (encodeTemporalUnit .padding (encodePadding 3) Writer.new).map Writer.out = some [0, 0, 0, 24, 16, 8, 120] := by
  decide +kernel

end Av1
