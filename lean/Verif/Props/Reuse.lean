import Verif.Props.RangeCoder

/-! # What a session writes does not depend on what the coder did before: C144

No hypothesis on tables or calls: a session that panics on one coder panics on every coder. -/

namespace Av1

/-- The coder `c` with `k` more bits counted and other values in the fields the encoder does not use. -/
def aged (k : Nat) (m : Int) (l : Nat) (c : BoolCoder) : BoolCoder :=
  { c with bitCount := k + c.bitCount, maxBits := m, leb128Bytes := l }

variable (k : Nat) (m : Int) (l : Nat)

theorem encInterval_aged (c : BoolCoder) (cdf : List Int) (s : Int) :
    encInterval (aged k m l c) cdf s = (encInterval c cdf s).map (aged k m l) := by
  unfold encInterval
  by_cases h0 : s < 0
  · simp [h0]
  · by_cases h1 : s > 0
    · cases cdf[s.toNat]? <;> cases cdf[(s - 1).toNat]? <;> simp [h0, h1, aged]
    · cases cdf[s.toNat]? <;> simp [h0, h1, aged]

theorem encCarry_aged (c : BoolCoder) :
    encCarry (aged k m l c) = (aged k m l (encCarry c).1, (encCarry c).2) := by
  have e1 : (aged k m l c).value = c.value := rfl
  by_cases h1 : c.value ≥ 65536
  · by_cases h2 : c.zeroCount > 0
    · simp [encCarry, h1, h2, aged]
      omega
    · simp [encCarry, h1, h2, aged]
  · simp [encCarry, h1, e1]

theorem renormStep_aged (c : BoolCoder) :
    renormStep (aged k m l c) = (aged k m l (renormStep c).1, (renormStep c).2) := by
  by_cases h1 : c.first = true
  · simp [renormStep, h1, aged]
  · by_cases h2 : (c.value >>> 15) % 2 = 0
    · simp [renormStep, h1, h2, aged]
      omega
    · simp [renormStep, h1, h2, aged]

theorem renorm_aged : ∀ (fuel : Nat) (c : BoolCoder),
    renorm fuel (aged k m l c) = (renorm fuel c).map fun r => (aged k m l r.1, r.2)
  | 0, c => by
    by_cases h : c.range < 32768 <;> simp [renorm, aged, h]
  | fuel + 1, c => by
    have e : (aged k m l c).range = c.range := rfl
    simp only [renorm, e, renormStep_aged]
    split
    · rw [renorm_aged fuel]
      cases renorm fuel (renormStep c).1 <;> rfl
    · rfl

theorem encodeSymbol_aged (c : BoolCoder) (cdf : List Int) (s : Int) :
    encodeSymbol (aged k m l c) cdf s = (encodeSymbol c cdf s).map fun r => (aged k m l r.1, r.2) := by
  simp only [encodeSymbol, encodeSymbolFuel, encInterval_aged]
  cases encInterval c cdf s with
  | none => rfl
  | some c1 =>
    simp only [Option.map_some, Option.bind_eq_bind, Option.bind_some, encCarry_aged, renorm_aged]
    cases renorm 15 (encCarry c1).1 with
    | none => rfl
    | some r => cases adapt cdf s <;> rfl

theorem encodeSymbolp_aged (c : BoolCoder) (b : Nat) (p : Int) :
    encodeSymbolp (aged k m l c) b p = (encodeSymbolp c b p).map fun r => (aged k m l r.1, r.2) := by
  simp only [encodeSymbolp, encodeSymbol_aged]
  cases encodeSymbol c (probCdf p) b <;> rfl

theorem encodeSymbolsGo_aged : ∀ (bs : List Nat) (c : BoolCoder) (cdf : List Int),
    encodeSymbolsGo (aged k m l c) cdf bs = (encodeSymbolsGo c cdf bs).map fun r => (aged k m l r.1, r.2)
  | [], _, _ => rfl
  | b :: bs, c, cdf => by
    simp only [encodeSymbolsGo, encodeSymbol_aged]
    cases encodeSymbol c cdf b with
    | none => rfl
    | some r =>
      simp only [Option.map_some, Option.bind_eq_bind, Option.bind_some, encodeSymbolsGo_aged bs]
      cases encodeSymbolsGo r.1 r.2.2 bs <;> rfl

theorem encodeLiteral_aged (v : Nat) : ∀ (n : Nat) (c : BoolCoder),
    encodeLiteral (aged k m l c) v n = (encodeLiteral c v n).map fun r => (aged k m l r.1, r.2)
  | 0, _ => rfl
  | n + 1, c => by
    simp only [encodeLiteral, encodeSymbolp_aged]
    by_cases h : n ≥ 64
    · simp [h]
    · simp only [h, if_false, Option.bind_eq_bind]
      cases encodeSymbolp c ((v >>> n) &&& 1) 128 with
      | none => rfl
      | some r =>
        simp only [Option.map_some, Option.bind_some, encodeLiteral_aged v n]
        cases encodeLiteral r.1 v n <;> rfl

theorem encodeOp_aged (c : BoolCoder) (bank : Bank) (op : Op) :
    encodeOp (aged k m l c) bank op = (encodeOp c bank op).map fun r => (aged k m l r.1, r.2) := by
  cases op with
  | sym t s =>
    simp only [encodeOp, encodeSymbol_aged]
    cases bank[t]? with
    | none => rfl
    | some cdf =>
      simp only [Option.bind_eq_bind, Option.bind_some]
      cases encodeSymbol c cdf s <;> rfl
  | prob p b =>
    simp only [encodeOp, encodeSymbolp_aged]
    cases encodeSymbolp c b.toNat p <;> rfl
  | probs p bs =>
    simp only [encodeOp, encodeSymbols, encodeSymbolsGo_aged]
    cases encodeSymbolsGo c (probCdf p) (bs.map Bool.toNat) <;> rfl
  | lit n v =>
    simp only [encodeOp, encodeLiteral_aged]
    cases encodeLiteral c v n <;> rfl

theorem encodeOps_aged : ∀ (ops : List Op) (c : BoolCoder) (bank : Bank),
    encodeOps (aged k m l c) bank ops = (encodeOps c bank ops).map fun r => (aged k m l r.1, r.2)
  | [], _, _ => rfl
  | op :: ops, c, bank => by
    simp only [encodeOps, encodeOp_aged]
    cases encodeOp c bank op with
    | none => rfl
    | some r =>
      simp only [Option.map_some, Option.bind_eq_bind, Option.bind_some, encodeOps_aged ops]
      cases encodeOps r.1 r.2.2 ops <;> rfl

/-- The counter of the coder grows by the number of bits written. -/
def Counts (c : BoolCoder) {α : Type} (x : Option (BoolCoder × Bits × α)) : Prop :=
  ∀ c' e a, x = some (c', e, a) → c'.bitCount = c.bitCount + e.length

theorem encCarry_count (c : BoolCoder) : (encCarry c).1.bitCount = c.bitCount + (encCarry c).2.length := by
  by_cases h1 : c.value ≥ 65536
  · by_cases h2 : c.zeroCount > 0
    · simp [encCarry, h1, h2]
      omega
    · simp [encCarry, h1, h2]
  · simp [encCarry, h1]

theorem renormStep_count (c : BoolCoder) : (renormStep c).1.bitCount = c.bitCount + (renormStep c).2.length := by
  by_cases h1 : c.first = true
  · simp [renormStep, h1]
  · by_cases h2 : (c.value >>> 15) % 2 = 0 <;> simp [renormStep, h1, h2]

theorem renorm_count : ∀ (fuel : Nat) (c c' : BoolCoder) (e : Bits), renorm fuel c = some (c', e) →
    c'.bitCount = c.bitCount + e.length
  | 0, c, c', e, h => by
    simp only [renorm] at h
    split at h
    · simp at h
    · simp only [Option.some.injEq, Prod.mk.injEq] at h
      obtain ⟨rfl, rfl⟩ := h
      rfl
  | fuel + 1, c, c', e, h => by
    simp only [renorm] at h
    split at h
    · simp only [Option.bind_eq_bind, Option.bind_eq_some_iff, Option.some.injEq, Prod.mk.injEq] at h
      obtain ⟨⟨c2, e2⟩, h1, rfl, rfl⟩ := h
      have h2 := renorm_count fuel _ _ _ h1
      have h3 := renormStep_count c
      simp only [List.length_append] at *
      omega
    · simp only [Option.some.injEq, Prod.mk.injEq] at h
      obtain ⟨rfl, rfl⟩ := h
      rfl

theorem encInterval_count {c c' : BoolCoder} {cdf : List Int} {s : Int} (h : encInterval c cdf s = some c') :
    c'.bitCount = c.bitCount := by
  unfold encInterval at h
  by_cases h0 : s < 0
  · simp [h0] at h
  · by_cases h1 : s > 0
    · simp only [h0, h1, if_false, if_true, Option.bind_eq_bind, Option.bind_eq_some_iff, Option.some.injEq] at h
      obtain ⟨_, _, _, _, rfl⟩ := h
      rfl
    · simp only [h0, h1, if_false, Option.bind_eq_bind, Option.bind_eq_some_iff, Option.some.injEq] at h
      obtain ⟨_, _, _, _, rfl⟩ := h
      rfl

theorem encodeSymbol_count (c : BoolCoder) (cdf : List Int) (s : Int) : Counts c (encodeSymbol c cdf s) := by
  intro c' e a h
  simp only [encodeSymbol, encodeSymbolFuel, Option.bind_eq_bind, Option.bind_eq_some_iff, Option.some.injEq,
    Prod.mk.injEq] at h
  obtain ⟨c1, h1, ⟨c3, e2⟩, h2, _, _, rfl, rfl, rfl⟩ := h
  have h3 := encInterval_count h1
  have h4 := encCarry_count c1
  have h5 := renorm_count _ _ _ _ h2
  simp only [List.length_append] at *
  omega

theorem encodeSymbolp_count (c c' : BoolCoder) (b : Nat) (p : Int) (e : Bits) (h : encodeSymbolp c b p = some (c', e)) :
    c'.bitCount = c.bitCount + e.length := by
  simp only [encodeSymbolp, Option.bind_eq_bind, Option.bind_eq_some_iff, Option.some.injEq, Prod.mk.injEq] at h
  obtain ⟨⟨c1, e1, a⟩, h1, rfl, rfl⟩ := h
  exact encodeSymbol_count _ _ _ _ _ _ h1

theorem encodeSymbolsGo_count : ∀ (bs : List Nat) (c c' : BoolCoder) (cdf : List Int) (e : Bits),
    encodeSymbolsGo c cdf bs = some (c', e) → c'.bitCount = c.bitCount + e.length
  | [], c, c', cdf, e, h => by
    simp only [encodeSymbolsGo, Option.some.injEq, Prod.mk.injEq] at h
    obtain ⟨rfl, rfl⟩ := h
    rfl
  | b :: bs, c, c', cdf, e, h => by
    simp only [encodeSymbolsGo, Option.bind_eq_bind, Option.bind_eq_some_iff, Option.some.injEq, Prod.mk.injEq] at h
    obtain ⟨⟨c1, e1, a⟩, h1, ⟨c2, e2⟩, h2, rfl, rfl⟩ := h
    have h3 := encodeSymbol_count _ _ _ _ _ _ h1
    have h4 := encodeSymbolsGo_count bs _ _ _ _ h2
    simp only [List.length_append] at *
    omega

theorem encodeLiteral_count (v : Nat) : ∀ (n : Nat) (c c' : BoolCoder) (e : Bits),
    encodeLiteral c v n = some (c', e) → c'.bitCount = c.bitCount + e.length
  | 0, c, c', e, h => by
    simp only [encodeLiteral, Option.some.injEq, Prod.mk.injEq] at h
    obtain ⟨rfl, rfl⟩ := h
    rfl
  | n + 1, c, c', e, h => by
    simp only [encodeLiteral] at h
    by_cases hn : n ≥ 64
    · simp [hn] at h
    · simp only [hn, if_false, Option.bind_eq_bind, Option.bind_eq_some_iff, Option.some.injEq, Prod.mk.injEq] at h
      obtain ⟨⟨c1, e1⟩, h1, ⟨c2, e2⟩, h2, rfl, rfl⟩ := h
      have h3 := encodeSymbolp_count _ _ _ _ _ h1
      have h4 := encodeLiteral_count v n _ _ _ h2
      simp only [List.length_append] at *
      omega

theorem encodeOp_count (c : BoolCoder) (bank : Bank) (op : Op) : Counts c (encodeOp c bank op) := by
  intro c' e a h
  cases op <;>
    simp only [encodeOp, encodeSymbols, Option.bind_eq_bind, Option.bind_eq_some_iff, Option.some.injEq, Prod.mk.injEq] at h
  · obtain ⟨cdf, _, ⟨c1, e1, a1⟩, h1, rfl, rfl, rfl⟩ := h
    exact encodeSymbol_count _ _ _ _ _ _ h1
  · obtain ⟨⟨c1, e1⟩, h1, rfl, rfl, rfl⟩ := h
    exact encodeSymbolp_count _ _ _ _ _ h1
  · obtain ⟨⟨c1, e1⟩, h1, rfl, rfl, rfl⟩ := h
    exact encodeSymbolsGo_count _ _ _ _ _ h1
  · obtain ⟨⟨c1, e1⟩, h1, rfl, rfl, rfl⟩ := h
    exact encodeLiteral_count _ _ _ _ _ h1

theorem encodeOps_count : ∀ (ops : List Op) (c : BoolCoder) (bank : Bank), Counts c (encodeOps c bank ops)
  | [], c, bank => by
    intro c' e a h
    simp only [encodeOps, Option.some.injEq, Prod.mk.injEq] at h
    obtain ⟨rfl, rfl, -⟩ := h
    rfl
  | op :: ops, c, bank => by
    intro c' e a h
    simp only [encodeOps, Option.bind_eq_bind, Option.bind_eq_some_iff, Option.some.injEq, Prod.mk.injEq] at h
    obtain ⟨⟨c1, e1, a1⟩, h1, ⟨c2, e2, a2⟩, h2, rfl, rfl, rfl⟩ := h
    have h3 := encodeOp_count _ _ _ _ _ _ h1
    have h4 := encodeOps_count ops _ _ _ _ _ h2
    simp only [List.length_append] at *
    omega

theorem initEncoder_aged (c : BoolCoder) :
    initEncoder c = aged c.bitCount c.maxBits c.leb128Bytes (initEncoder BoolCoder.new) := rfl

/-- The zero bits that fill up a byte of which `n` bits are taken. -/
def fill (n : Nat) : Bits := List.replicate ((8 - n % 8) % 8) false

/-- **C144**, what holds: a session with given tables and calls either panics on every coder, or writes on every coder the
same bits, followed by at most seven zeros that complete a byte for the count of the coder, and leaves the same tables.
Missing for the full claim: the number of these zeros depends on the sessions before, see `C144_negation`. -/
theorem C144_history_partial (bank : Bank) (ops : List Op) :
    (∀ c, encodeSession c bank ops = none) ∨
    ∃ (bits : Bits) (n : Nat) (bank' : Bank), bits.length = n + 16 ∧
      ∀ c, ∃ c', encodeSession c bank ops = some (c', bits ++ fill (c.bitCount + n), bank') ∧
        c'.bitCount = c.bitCount + n := by
  cases h : encodeOps (initEncoder BoolCoder.new) bank ops with
  | none =>
    left
    intro c
    simp [encodeSession, initEncoder_aged c, encodeOps_aged, h]
  | some r =>
    obtain ⟨c1, e1, bank'⟩ := r
    right
    have hlen : c1.bitCount = 0 + e1.length := encodeOps_count _ _ _ _ _ _ h
    refine ⟨e1 ++ (((if c1.lastZero then [false] else []) ++ List.replicate c1.zeroCount.toNat true) ++
      (List.range 16).map (fun i => decide ((c1.value >>> (15 - i)) % 2 = 1))),
      e1.length + ((if c1.lastZero then [false] else []) ++ List.replicate c1.zeroCount.toNat true).length, bank',
      by simp only [List.length_append, List.length_map, List.length_range]; omega, fun c => ?_⟩
    refine ⟨(exitEncoder (aged c.bitCount c.maxBits c.leb128Bytes c1)).1, ?_, ?_⟩
    · simp only [encodeSession, initEncoder_aged c, encodeOps_aged, h, Option.map_some, Option.bind_eq_bind,
        Option.bind_some, Option.some.injEq, Prod.mk.injEq, true_and, and_true]
      simp only [exitEncoder, aged, fill, hlen, List.append_assoc, zero_add, Nat.add_assoc]
    · simp only [exitEncoder, aged, hlen]
      omega

/-- The claim in full: what a session writes depends on its tables and calls only. -/
def C144_full : Prop := ∀ (bank : Bank) (ops : List Op) (c1 c2 : BoolCoder),
  (encodeSession c1 bank ops).map (·.2.1) = (encodeSession c2 bank ops).map (·.2.1)

theorem fill_inj {a b : Nat} (x : Bits) : x ++ fill a = x ++ fill b ↔ a % 8 = b % 8 := by
  constructor
  · intro h
    have h1 := congrArg List.length (List.append_cancel_left h)
    simp only [fill, List.length_replicate] at h1
    omega
  · intro h
    simp [fill, h]

/-- **C144**, the exact condition: a session that does not panic writes the same bits on two coders if and only if these
have counted the same number of bits modulo eight. -/
theorem C144_iff (bank : Bank) (ops : List Op) (c1 c2 : BoolCoder) (h : (encodeSession c1 bank ops).isSome) :
    (encodeSession c1 bank ops).map (·.2.1) = (encodeSession c2 bank ops).map (·.2.1) ↔
      c1.bitCount % 8 = c2.bitCount % 8 := by
  rcases C144_history_partial bank ops with h1 | ⟨bits, n, bank', -, h1⟩
  · rw [h1] at h
    simp at h
  · obtain ⟨d1, h2, -⟩ := h1 c1
    obtain ⟨d2, h3, -⟩ := h1 c2
    rw [h2, h3]
    simp only [Option.map_some, Option.some.injEq, fill_inj]
    omega

/-- **C144** is false: one coded bit after a session of two bits, on the same coder, against the same on a new one. -/
theorem C144_negation : ¬ C144_full := by
  intro h
  have h1 := (C144_iff [] [.lit 1 0] BoolCoder.new ((encodeSession BoolCoder.new [] [.lit 2 0]).get (by decide +kernel)).1
    (by decide +kernel)).1 (h _ _ _ _)
  revert h1
  decide +kernel

/-- Whether a session panics and the tables it leaves do not depend on the coder at all. -/
theorem C144_tables (bank : Bank) (ops : List Op) (c1 c2 : BoolCoder) :
    (encodeSession c1 bank ops).map (·.2.2) = (encodeSession c2 bank ops).map (·.2.2) := by
  rcases C144_history_partial bank ops with h1 | ⟨bits, n, bank', -, h1⟩
  · rw [h1, h1]
  · obtain ⟨d1, h2, -⟩ := h1 c1
    obtain ⟨d2, h3, -⟩ := h1 c2
    rw [h2, h3]
    rfl

/-- Any number of sessions on one coder: if one of them panics alone, the whole panics; otherwise each writes what it writes
on a new coder, up to zero bits at the end, at most seven on either side. -/
theorem C144_sequence : ∀ (ss : List (Bank × List Op)) (c : BoolCoder),
    (encodeSessions c ss = none ↔ ∃ s ∈ ss, encodeSession BoolCoder.new s.1 s.2 = none) ∧
    ∀ outs, encodeSessions c ss = some outs →
      List.Forall₂ (fun s out => ∃ c' bank' core m n, m < 8 ∧ n < 8 ∧ out = core ++ List.replicate m false ∧
        encodeSession BoolCoder.new s.1 s.2 = some (c', core ++ List.replicate n false, bank')) ss outs
  | [], c => by
    refine ⟨by simp [encodeSessions], ?_⟩
    intro outs h
    simp only [encodeSessions, Option.some.injEq] at h
    subst h
    exact List.Forall₂.nil
  | s :: ss, c => by
    rcases C144_history_partial s.1 s.2 with h1 | ⟨bits, n, bank', -, h1⟩
    · simp [encodeSessions, h1]
    · obtain ⟨c1, h2, -⟩ := h1 c
      obtain ⟨c0, h3, -⟩ := h1 BoolCoder.new
      obtain ⟨i1, i2⟩ := C144_sequence ss c1
      have e : encodeSessions c (s :: ss) = (encodeSessions c1 ss).map ((bits ++ fill (c.bitCount + n)) :: ·) := by
        simp only [encodeSessions, h2, Option.bind_eq_bind, Option.bind_some]
        cases encodeSessions c1 ss <;> rfl
      refine ⟨by simp [e, i1, h3], ?_⟩
      intro outs h
      rw [e, Option.map_eq_some_iff] at h
      obtain ⟨rest, h4, rfl⟩ := h
      exact List.Forall₂.cons ⟨c0, bank', bits, _, _, Nat.mod_lt _ (by decide), Nat.mod_lt _ (by decide), rfl, h3⟩ (i2 _ h4)

/-- Two sessions in a row; the second takes 23 bits instead of the 16 on a new coder. -/
example : (encodeSessions BoolCoder.new [([], [.lit 2 0]), ([], [.lit 1 0])]).map (·.map List.length) = some [24, 23] ∧
    (encodeSession BoolCoder.new [] [.lit 1 0]).map (·.2.1.length) = some 16 := by decide +kernel

/-- The decoder `c` inside an object whose other fields are those of `d`. -/
def worn (d c : BoolCoder) : BoolCoder := { d with value := c.value, range := c.range, maxBits := c.maxBits }

theorem decodeSymbol_worn (d c : BoolCoder) (input : Bits) (cdf : List Int) :
    decodeSymbol (worn d c) input cdf = (decodeSymbol c input cdf).map fun r => (r.1, worn d r.2.1, r.2.2) := by
  simp only [decodeSymbol, worn]
  cases decLoop c.value c.range 0 c.range cdf with
  | none => rfl
  | some r =>
    simp only [Option.bind_eq_bind, Option.bind_some]
    cases msb16 ((r.2.1 - r.2.2) % 65536).toNat with
    | none => rfl
    | some k =>
      simp only [Option.bind_some]
      cases popBits (15 - k) 0 input with
      | none => rfl
      | some q =>
        simp only [Option.bind_some]
        cases adapt cdf r.1 <;> rfl

theorem decodeSymbolp_worn (d c : BoolCoder) (input : Bits) (p : Int) :
    decodeSymbolp (worn d c) input p = (decodeSymbolp c input p).map fun r => (r.1, worn d r.2.1, r.2.2) := by
  simp only [decodeSymbolp, decodeSymbol_worn]
  cases decodeSymbol c input (probCdf p) <;> rfl

theorem decodeSymbolsGo_worn (d : BoolCoder) : ∀ (n : Nat) (c : BoolCoder) (input : Bits) (cdf : List Int),
    decodeSymbolsGo (worn d c) cdf n input = (decodeSymbolsGo c cdf n input).map fun r => (r.1, worn d r.2.1, r.2.2)
  | 0, _, _, _ => rfl
  | n + 1, c, input, cdf => by
    simp only [decodeSymbolsGo, decodeSymbol_worn]
    cases decodeSymbol c input cdf with
    | none => rfl
    | some r =>
      simp only [Option.map_some, Option.bind_eq_bind, Option.bind_some, decodeSymbolsGo_worn d n]
      cases decodeSymbolsGo r.2.1 r.2.2.2 n r.2.2.1 <;> rfl

theorem decodeLiteral_worn (d : BoolCoder) : ∀ (n acc : Nat) (c : BoolCoder) (input : Bits),
    decodeLiteral (worn d c) acc n input = (decodeLiteral c acc n input).map fun r => (r.1, worn d r.2.1, r.2.2)
  | 0, _, _, _ => rfl
  | n + 1, acc, c, input => by
    simp only [decodeLiteral, decodeSymbolp_worn]
    cases decodeSymbolp c input 128 with
    | none => rfl
    | some r =>
      simp only [Option.map_some, Option.bind_eq_bind, Option.bind_some, decodeLiteral_worn d n]

theorem decodeOp_worn (d c : BoolCoder) (input : Bits) (bank : Bank) (r : Req) :
    decodeOp (worn d c) input bank r = (decodeOp c input bank r).map fun r => (r.1, worn d r.2.1, r.2.2) := by
  cases r with
  | sym t =>
    simp only [decodeOp, decodeSymbol_worn]
    cases bank[t]? with
    | none => rfl
    | some cdf =>
      simp only [Option.bind_eq_bind, Option.bind_some]
      cases decodeSymbol c input cdf <;> rfl
  | prob p =>
    simp only [decodeOp, decodeSymbolp_worn]
    cases decodeSymbolp c input p <;> rfl
  | probs p n =>
    simp only [decodeOp, decodeSymbols, decodeSymbolsGo_worn]
    cases decodeSymbolsGo c (probCdf p) n input <;> rfl
  | lit n =>
    simp only [decodeOp, decodeLiteral_worn]
    cases decodeLiteral c 0 n input <;> rfl

theorem decodeOps_worn (d : BoolCoder) : ∀ (rs : List Req) (c : BoolCoder) (input : Bits) (bank : Bank),
    decodeOps (worn d c) input bank rs = (decodeOps c input bank rs).map fun r => (r.1, worn d r.2.1, r.2.2)
  | [], _, _, _ => rfl
  | r :: rs, c, input, bank => by
    simp only [decodeOps, decodeOp_worn]
    cases decodeOp c input bank r with
    | none => rfl
    | some q =>
      simp only [Option.map_some, Option.bind_eq_bind, Option.bind_some, decodeOps_worn d rs]
      cases decodeOps q.2.1 q.2.2.1 q.2.2.2 rs <;> rfl

/-- **C144** for the reader, in full: whether a decoding session panics on a given input, the values it returns, the input it
leaves (before and after `exit_decoder`) and the tables do not depend on what the decoder object did before. -/
theorem C144_decode (input : Bits) (sz : Nat) (bank : Bank) (reqs : List Req) (d1 d2 : BoolCoder) :
    (decodeSession d1 input sz bank reqs).map (fun r => (r.1, r.2.2, (exitDecoder r.2.1 r.2.2.1).2)) =
    (decodeSession d2 input sz bank reqs).map (fun r => (r.1, r.2.2, (exitDecoder r.2.1 r.2.2.1).2)) := by
  have key : ∀ d, (decodeSession d input sz bank reqs).map (fun r => (r.1, r.2.2, (exitDecoder r.2.1 r.2.2.1).2)) =
      (decodeSession BoolCoder.new input sz bank reqs).map (fun r => (r.1, r.2.2, (exitDecoder r.2.1 r.2.2.1).2)) := by
    intro d
    have h : initDecoder d input sz = (initDecoder BoolCoder.new input sz).map fun r => (worn d r.1, r.2) := by
      simp only [initDecoder]
      cases popBits 15 0 input <;> rfl
    simp only [decodeSession, h]
    cases initDecoder BoolCoder.new input sz with
    | none => rfl
    | some r =>
      simp only [Option.map_some, Option.bind_eq_bind, Option.bind_some, decodeOps_worn]
      cases decodeOps r.1 r.2 bank reqs <;> rfl
  rw [key d1, key d2]

/-- The reader's part is not about panics only: a session is decoded by a used decoder. -/
example : (decodeSession { BoolCoder.new with value := 77, range := 5, bitCount := 3, first := false }
    (List.replicate 16 false) 2 [] [.lit 1]).isSome := by decide +kernel

end Av1
