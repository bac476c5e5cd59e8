import Verif.Lemmas.Codes

/-! # C11–C17: header codes -/

namespace Av1

/-- **C11**. `n` bits are appended, they spell `v mod 2^n`, and the value is lost exactly when `v ≥ 2^n`. -/
theorem C11_fixed_width (v n : Nat) (h : n ≤ 32) :
    ∃ e, pushBitsWithSize v n = some e ∧ e.length = n ∧ num e = v % 2 ^ n ∧ (num e = v ↔ v < 2 ^ n) := by
  refine ⟨toBits n v, pushLoop_eq 32 v n h, length_toBits n v, num_toBits n v, ?_⟩
  rw [num_toBits]
  constructor
  · intro h'; rw [← h']; exact Nat.mod_lt _ (by positivity)
  · exact Nat.mod_eq_of_lt

/-- **C11**, the most significant bit comes first: bit `i` of the output is bit `n-1-i` of the value. -/
theorem C11_msb_first (v n i : Nat) (h : n ≤ 32) (hi : i < n) (e : Bits) (he : pushBitsWithSize v n = some e) :
    e[i]? = some (v.testBit (n - 1 - i)) := by
  have : e = toBits n v := by
    rw [pushBitsWithSize, pushLoop_eq 32 v n h] at he; exact (Option.some.inj he).symm
  subst this
  clear he h
  induction n generalizing i with
  | zero => omega
  | succ n ih =>
    cases i with
    | zero => simp [toBits]
    | succ i =>
      rw [toBits, List.getElem?_cons_succ, ih i (by omega)]
      congr 2; omega

/-- **C11**, more than 32 bits: panic. -/
theorem C11_too_wide (v n : Nat) (h : 32 < n) : pushBitsWithSize v n = none := pushLoop_none 32 v n h

example : pushBitsWithSize 5 4 = some [false, true, false, true] := by decide

/-- **C12**. uvlc: round trip with any trailing bits, odd length, panic at the maximum. -/
theorem C12_uvlc_round_trip (v : Nat) (h : v < 2 ^ 32 - 1) :
    ∃ e, encodeUvlc v = some e ∧ e.length = 2 * (v + 1).log2 + 1 ∧
      ∀ rest, decodeUvlc (e ++ rest) = some (v, rest) := by
  refine ⟨_, encodeUvlc_eq v (by omega), ?_, fun rest => decodeUvlc_spec v (by omega) rest⟩
  simp; omega

theorem C12_uvlc_max : encodeUvlc (2 ^ 32 - 1) = none := by
  unfold encodeUvlc; rw [if_pos (by norm_num)]; rfl

/-- What the decoder does on the code of the maximum value as the AV1 specification writes it (32 zeros, a one): it
returns the maximum. -/
theorem C12_uvlc_decode_max (rest : Bits) (k : Nat) (hk : 32 ≤ k) :
    decodeUvlc (List.replicate k false ++ true :: rest) = some (2 ^ 32 - 1, rest) := by
  unfold decodeUvlc
  rw [leadingZeros_spec]
  simp only [Option.bind_eq_bind, Option.bind_some]
  rw [if_pos hk]

/-- On input without any one bit the decoder never returns. -/
theorem C12_uvlc_diverges (k : Nat) : decodeUvlc (List.replicate k false) = none := by
  have : leadingZeros (List.replicate k false) = none := by
    induction k with
    | zero => rfl
    | succ k ih => rw [List.replicate_succ, leadingZeros, ih]; rfl
  unfold decodeUvlc; rw [this]; rfl

/-- **C13**. Little-endian fields of up to eight bytes. -/
theorem C13_le_round_trip (v n : Nat) (h : n ≤ 8) :
    ∃ e, encodeLe v n = some e ∧ e.length = 8 * n ∧
      ∀ rest, decodeLe (e ++ rest) n = some (v % 2 ^ (8 * n), rest) := by
  refine ⟨leBits v 0 n, encodeLeGo_eq v n 0 (by omega), length_leBits v 0 n, fun rest => ?_⟩
  have := decodeLeGo_spec v rest n 0 (by omega)
  simpa [Nat.mod_one, decodeLe] using this

/-- **C13**, the byte order: byte `i` of the field is byte `i` of the value, counted from the least significant. -/
theorem C13_le_bytes (v n i : Nat) (h : n ≤ 8) (hi : i < n) (e : Bits) (he : encodeLe v n = some e) :
    num ((e.drop (8 * i)).take 8) = v / 256 ^ i % 256 := by
  rw [encodeLe, encodeLeGo_eq v n 0 (by omega)] at he
  obtain rfl := Option.some.inj he
  have key : ∀ (n i j : Nat), i < n → num (((leBits v j n).drop (8 * i)).take 8) = v / 256 ^ (j + i) % 256 := by
    intro n
    induction n with
    | zero => intro i j hi; omega
    | succ n ih =>
      intro i j hi
      rw [leBits]
      cases i with
      | zero =>
        rw [Nat.mul_zero, List.drop_zero, List.take_left' (by simp), num_toBits, Nat.add_zero, pow_mul]
        norm_num
      | succ i =>
        rw [show 8 * (i + 1) = 8 + 8 * i by ring, ← List.drop_drop, List.drop_left' (by simp), ih i (j + 1) (by omega),
          show j + 1 + i = j + (i + 1) by ring]
  have := key n i 0 hi
  simpa using this

/-- **C13**, more than eight bytes: panic. -/
theorem C13_le_too_wide (v n : Nat) (h : 8 < n) : encodeLe v n = none :=
  encodeLeGo_none v n 0 (by omega) (by omega)

/-- **C14**. leb128: round trip, whole bytes, at most eight, and no shorter code could hold the value. -/
theorem C14_leb128_round_trip (v : Nat) (h : v < 2 ^ 56) :
    ∃ e k, encodeLeb128 v = some e ∧ e.length = 8 * k ∧ 1 ≤ k ∧ k ≤ 8 ∧ v < 2 ^ (7 * k) ∧
      (∀ j, 1 ≤ j → j < k → 2 ^ (7 * j) ≤ v) ∧ ∀ rest, decodeLeb128 (e ++ rest) = some (v, rest) := by
  have h8 : lebBytes v ≤ 8 := (lebBytes_le_iff v 8 (by decide)).2 h
  have hpos := lebBytes_pos v
  have hfit := (lebBytes_le_iff v (lebBytes v) hpos).1 (le_refl _)
  refine ⟨lebBits (lebBytes v) v, lebBytes v, ?_, length_lebBits _ _, hpos, h8, hfit, ?_, fun rest => ?_⟩
  · unfold encodeLeb128
    rw [if_pos (by rw [Nat.shiftLeft_eq, Nat.one_mul]; exact h), lebLoop_eq 10 v (by omega)]
  · intro j hj hjk
    by_contra hlt
    have := (lebBytes_le_iff v j hj).2 (by omega)
    omega
  · have := decodeLebGo_spec rest 8 (lebBytes v) 0 0 v hpos h8 (by simp) hfit
    simpa [decodeLeb128] using this

/-- **C14**, values of 57 bits and more: assertion failure. -/
theorem C14_leb128_too_big (v : Nat) (h : 2 ^ 56 ≤ v) : encodeLeb128 v = none := by
  unfold encodeLeb128; rw [if_neg (by rw [Nat.shiftLeft_eq, Nat.one_mul]; omega)]

/-- **C15**. Signed fields: the bits are the two's complement and are read back unchanged. -/
theorem C15_su_round_trip (v : Int) (n : Nat) (h1 : 1 ≤ n) (h2 : n ≤ 62) (hlo : -2 ^ (n - 1) ≤ v)
    (hhi : v < 2 ^ (n - 1)) :
    ∃ e, encodeSu v n = some e ∧ e.length = n ∧ (num e : Int) = v % 2 ^ n ∧
      ∀ rest, decodeSu (e ++ rest) n = some (v, rest) := by
  refine ⟨_, encodeSu_eq v n h1 h2 hlo hhi, length_toBits _ _, ?_, fun rest => decodeSu_spec v n h1 h2 hlo hhi rest⟩
  rw [num_toBits]
  have h0 := Int.emod_nonneg v (show (2 : Int) ^ n ≠ 0 by positivity)
  have h3 := Int.emod_lt_of_pos v (show (0 : Int) < 2 ^ n by positivity)
  have h4 : ((2 ^ n : Nat) : Int) = 2 ^ n := by push_cast; rfl
  rw [Nat.mod_eq_of_lt (by omega)]
  omega

/-- **C15**, the limit: from 63 bits on (and for 0 bits) writing a negative value panics. -/
theorem C15_su_limit (v : Int) (n : Nat) (hv : v < 0) (h : n = 0 ∨ 63 ≤ n) : encodeSu v n = none := by
  unfold encodeSu
  rcases h with h | h
  · simp [h]
  · have h1 : n ≠ 0 := by omega
    have h2 : n - 1 ≥ 62 := by omega
    simp [h1, hv, h2]

example : encodeSu (-3) 4 = some [true, true, false, true] := by decide

/-- **C16**. Non-symmetric codes: round trip; each code has `w-1` or `w` bits. -/
theorem C16_ns_round_trip (v n : Nat) (h1 : 1 ≤ n) (h2 : n < 2 ^ 63) (hv : v < n) :
    ∃ e, encodeNs v n = some e ∧ (e.length = n.log2 ∨ e.length = n.log2 + 1) ∧
      ∀ rest, decodeNs (e ++ rest) n = some (v, rest) := by
  refine ⟨nsBits v n, encodeNs_eq v n h1 h2 hv, ?_, fun rest => decodeNs_spec v n h1 h2 hv rest⟩
  unfold nsBits; split <;> simp

/-- **C16**, `n = 0` panics. -/
theorem C16_ns_zero (v : Nat) : encodeNs v 0 = none := by
  unfold encodeNs; rw [floorLog2_eq]; rfl

/-! ## C17: mixtures -/

/-- One header field with its value. -/
inductive Field where
  | fixed (n v : Nat)
  | uvlc (v : Nat)
  | le (n v : Nat)
  | leb128 (v : Nat)
  | su (n : Nat) (v : Int)
  | ns (n v : Nat)
deriving DecidableEq, Repr

/-- What the reader knows: the kind and the parameters, not the value. -/
inductive Kind where
  | fixed (n : Nat)
  | uvlc
  | le (n : Nat)
  | leb128
  | su (n : Nat)
  | ns (n : Nat)
deriving DecidableEq, Repr

def Field.kind : Field → Kind
  | .fixed n _ => .fixed n
  | .uvlc _ => .uvlc
  | .le n _ => .le n
  | .leb128 _ => .leb128
  | .su n _ => .su n
  | .ns n _ => .ns n

/-- The field's value fits its code. -/
def Field.InRange : Field → Prop
  | .fixed n v => n ≤ 32 ∧ v < 2 ^ n
  | .uvlc v => v < 2 ^ 32 - 1
  | .le n v => n ≤ 8 ∧ v < 2 ^ (8 * n)
  | .leb128 v => v < 2 ^ 56
  | .su n v => 1 ≤ n ∧ n ≤ 62 ∧ -2 ^ (n - 1) ≤ v ∧ v < 2 ^ (n - 1)
  | .ns n v => 1 ≤ n ∧ n < 2 ^ 63 ∧ v < n

def writeField : Field → Option Bits
  | .fixed n v => pushBitsWithSize v n
  | .uvlc v => encodeUvlc v
  | .le n v => encodeLe v n
  | .leb128 v => encodeLeb128 v
  | .su n v => encodeSu v n
  | .ns n v => encodeNs v n

/-- Reading one field.  There is no fixed-width reader in the code; `popBits` is the loop its decoders use. -/
def readField (input : Bits) : Kind → Option (Field × Bits)
  | .fixed n => (popBits n 0 input).map fun (v, r) => (.fixed n v, r)
  | .uvlc => (decodeUvlc input).map fun (v, r) => (.uvlc v, r)
  | .le n => (decodeLe input n).map fun (v, r) => (.le n v, r)
  | .leb128 => (decodeLeb128 input).map fun (v, r) => (.leb128 v, r)
  | .su n => (decodeSu input n).map fun (v, r) => (.su n v, r)
  | .ns n => (decodeNs input n).map fun (v, r) => (.ns n v, r)

def writeFields : List Field → Option Bits
  | [] => some []
  | f :: fs => do
    let a ← writeField f
    let b ← writeFields fs
    some (a ++ b)

def readFields (input : Bits) : List Kind → Option (List Field × Bits)
  | [] => some ([], input)
  | k :: ks => do
    let (f, r) ← readField input k
    let (fs, r) ← readFields r ks
    some (f :: fs, r)

theorem field_round_trip (f : Field) (h : f.InRange) :
    ∃ e, writeField f = some e ∧ ∀ rest, readField (e ++ rest) f.kind = some (f, rest) := by
  cases f with
  | fixed n v =>
    refine ⟨toBits n v, pushLoop_eq 32 v n h.1, fun rest => ?_⟩
    simp [readField, Field.kind, popBits_toBits, Nat.mod_eq_of_lt h.2]
  | uvlc v =>
    obtain ⟨e, h1, -, h2⟩ := C12_uvlc_round_trip v h
    exact ⟨e, h1, fun rest => by simp [readField, Field.kind, h2]⟩
  | le n v =>
    obtain ⟨e, h1, -, h2⟩ := C13_le_round_trip v n h.1
    exact ⟨e, h1, fun rest => by simp [readField, Field.kind, h2, Nat.mod_eq_of_lt h.2]⟩
  | leb128 v =>
    obtain ⟨e, k, h1, -, -, -, -, -, h2⟩ := C14_leb128_round_trip v h
    exact ⟨e, h1, fun rest => by simp [readField, Field.kind, h2]⟩
  | su n v =>
    obtain ⟨e, h1, -, -, h2⟩ := C15_su_round_trip v n h.1 h.2.1 h.2.2.1 h.2.2.2
    exact ⟨e, h1, fun rest => by simp [readField, Field.kind, h2]⟩
  | ns n v =>
    obtain ⟨e, h1, -, h2⟩ := C16_ns_round_trip v n h.1 h.2.1 h.2.2
    exact ⟨e, h1, fun rest => by simp [readField, Field.kind, h2]⟩

/-- **C17**. Any sequence of fields is read back field by field, leaving exactly the trailing bits. -/
theorem C17_mixture_round_trip (fs : List Field) (h : ∀ f ∈ fs, f.InRange) :
    ∃ e, writeFields fs = some e ∧ ∀ rest, readFields (e ++ rest) (fs.map Field.kind) = some (fs, rest) := by
  induction fs with
  | nil => exact ⟨[], rfl, fun rest => rfl⟩
  | cons f fs ih =>
    obtain ⟨a, h1, h2⟩ := field_round_trip f (h f (by simp))
    obtain ⟨b, h3, h4⟩ := ih (fun g hg => h g (by simp [hg]))
    refine ⟨a ++ b, by simp [writeFields, h1, h3], fun rest => ?_⟩
    simp [readFields, List.append_assoc, h2, h4]

/-- **C17**, prefix-freeness: a code word that begins another code word of the same kind is the same code word, for
the same value. -/
theorem C17_prefix_free (f g : Field) (hf : f.InRange) (hg : g.InRange) (hk : f.kind = g.kind) (a b : Bits)
    (ha : writeField f = some a) (hb : writeField g = some b) (hp : a <+: b) : f = g ∧ a = b := by
  obtain ⟨a', h1, h2⟩ := field_round_trip f hf
  obtain ⟨b', h3, h4⟩ := field_round_trip g hg
  rw [ha] at h1
  rw [hb] at h3
  obtain rfl := Option.some.inj h1
  obtain rfl := Option.some.inj h3
  obtain ⟨t, rfl⟩ := hp
  have h5 := h4 []
  rw [List.append_assoc, ← hk, h2] at h5
  simp only [Option.some.injEq, Prod.mk.injEq] at h5
  refine ⟨h5.1, ?_⟩
  have : t = [] := by simpa using h5.2
  rw [this, List.append_nil]

/-- Non-vacuity: six fields of six kinds. -/
example : ∀ f ∈ [Field.fixed 5 17, .uvlc 1000, .le 2 513, .leb128 300, .su 7 (-64), .ns 5 4], f.InRange := by
  simp [Field.InRange]

end Av1
