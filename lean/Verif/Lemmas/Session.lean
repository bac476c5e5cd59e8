import Verif.Lemmas.RangeDecode
import Verif.Spec.Session

namespace Av1

/-! ## Fixed-probability tables -/

theorem probCdf_valid {p : Nat} (hp : p < 256) : ValidCdf (probCdf p) := by
  refine ⟨[((p : Int) <<< 15 + 256 - p) >>> 8], 0, ?_, ?_, by omega, by omega, by simp⟩
  · simp [probCdf]
  · simp only [Inc]
    rw [shl_def, shr_def]
    norm_num
    omega

theorem probCdf_symbols (p : Int) : symbols (probCdf p) = 2 := rfl

theorem sim_symbolp {p : Nat} (hp : p < 256) (b : Bool) :
    Sim (fun c => encodeSymbolp c b.toNat p) (fun d i => decodeSymbolp d i p) b.toNat := by
  obtain ⟨cdf', -, -, -, h⟩ := sim_symbol (probCdf_valid hp) (s := b.toNat)
    (by rw [probCdf_symbols]; cases b <;> simp)
  refine h.congr ?_ ?_
  · intro c c' em he
    simp only [Option.bind_eq_some_iff] at he
    obtain ⟨⟨c1, e1, t⟩, h1, h2⟩ := he
    split at h2 <;> simp at h2
    simp [encodeSymbolp, h1, h2]
  · intro d d' i i' hd
    simp only [Option.bind_eq_some_iff] at hd
    obtain ⟨⟨s, d1, r1, t⟩, h1, h2⟩ := hd
    split at h2 <;> simp at h2
    simp [decodeSymbolp, h1, h2]

theorem sim_symbols : ∀ (bs : List Bool) (cdf : List Int), ValidCdf cdf → symbols cdf = 2 →
    Sim (fun c => encodeSymbolsGo c cdf (bs.map Bool.toNat)) (fun d i => decodeSymbolsGo d cdf bs.length i)
      (bs.map Bool.toNat)
  | [], cdf, _, _ => by
    refine Sim.skip.congr ?_ ?_
    · intro c c' em h; simpa [encodeSymbolsGo] using h
    · intro d d' i i' h; simpa [decodeSymbolsGo] using h
  | b :: bs, cdf, hv, hs => by
    obtain ⟨cdf', -, hv', hl, h⟩ := sim_symbol hv (s := b.toNat) (by rw [hs]; cases b <;> simp)
    have ih := sim_symbols bs cdf' hv' (by unfold symbols at *; omega)
    refine (h.seq ih).congr ?_ ?_
    · intro c c' em he
      simp only [Option.bind_eq_some_iff] at he
      obtain ⟨⟨c1, e1⟩, ⟨⟨c0, e0, t⟩, h1, h2⟩, ⟨c2, e2⟩, h3, h4⟩ := he
      split at h2
      · rename_i ht
        simp only [Option.some.injEq, Prod.mk.injEq] at h2 h4
        obtain ⟨rfl, rfl⟩ := h2
        obtain ⟨rfl, rfl⟩ := h4
        simp only at ht
        subst ht
        simp only at h3
        simp [encodeSymbolsGo, h1, h3]
      · simp at h2
    · intro d d' i i' he
      simp only [Option.bind_eq_some_iff] at he
      obtain ⟨⟨x, d1, i1⟩, ⟨⟨s0, d0, i0, t⟩, h1, h2⟩, ⟨y, d2, i2⟩, h3, h4⟩ := he
      split at h2
      · rename_i ht
        simp only [Option.some.injEq, Prod.mk.injEq] at h2 h4
        obtain ⟨rfl, rfl, rfl⟩ := h2
        obtain ⟨⟨rfl, rfl⟩, rfl, rfl⟩ := h4
        simp only at ht
        subst ht
        simp only at h3
        simp [decodeSymbolsGo, h1, h3]
      · simp at h2

theorem sim_literal : ∀ (n v acc : Nat), n ≤ 64 →
    Sim (fun c => encodeLiteral c v n) (fun d i => decodeLiteral d acc n i) (acc * 2 ^ n + v % 2 ^ n)
  | 0, v, acc, _ => by
    refine Sim.skip.congr ?_ ?_
    · intro c c' em h; simpa [encodeLiteral] using h
    · intro d d' i i' h; simpa [decodeLiteral, Nat.mod_one] using h
  | n + 1, v, acc, hn => by
    have hb : (v >>> n) &&& 1 = (v.testBit n).toNat := by
      rw [Nat.testBit, Nat.and_comm]
      have := Nat.mod_two_eq_zero_or_one (v >>> n)
      rw [Nat.one_and_eq_mod_two]
      rcases this with h | h <;> simp [h]
    have h := sim_symbolp (p := 128) (by decide) (v.testBit n)
    have ih := sim_literal n v ((acc <<< 1) + (v.testBit n).toNat) (by omega)
    have hval : ((acc <<< 1) + (v.testBit n).toNat) * 2 ^ n + v % 2 ^ n = acc * 2 ^ (n + 1) + v % 2 ^ (n + 1) := by
      have h1 := num_toBits (n + 1) v
      rw [toBits, num_cons, num_toBits, length_toBits] at h1
      rw [← h1, Nat.shiftLeft_eq, pow_succ]; ring
    rw [hval] at ih
    refine (h.seq ih).congr ?_ ?_
    · intro c c' em he
      simp only [Option.bind_eq_some_iff] at he
      obtain ⟨⟨c1, e1⟩, h1, ⟨c2, e2⟩, h3, h4⟩ := he
      simp only [Option.some.injEq, Prod.mk.injEq] at h4
      obtain ⟨rfl, rfl⟩ := h4
      have hn' : ¬ n ≥ 64 := by omega
      simp only at h3
      push_cast at h1
      simp [encodeLiteral, hn', hb, h1, h3]
    · intro d d' i i' he
      simp only [Option.bind_eq_some_iff] at he
      obtain ⟨⟨x, d1, i1⟩, h1, ⟨y, d2, i2⟩, h3, h4⟩ := he
      simp only [Option.some.injEq, Prod.mk.injEq] at h4
      obtain ⟨⟨rfl, rfl⟩, rfl, rfl⟩ := h4
      simp only at h3
      push_cast at h1
      simp [decodeLiteral, h1, h3]

/-! ## Sequences of calls -/

/-- Two banks with the same table sizes. -/
def SameShape (a b : Bank) : Prop := a.map List.length = b.map List.length

theorem OpOk.mono {a b : Bank} (h : SameShape a b) {op : Op} (ho : OpOk a op) : OpOk b op := by
  cases op with
  | sym t s =>
    obtain ⟨cdf, h1, h2⟩ := ho
    have hh : (a.map List.length)[t]? = (b.map List.length)[t]? := by rw [h]
    rw [List.getElem?_map, List.getElem?_map, h1] at hh
    simp only [Option.map_some] at hh
    cases hb : b[t]? with
    | none => rw [hb] at hh; simp at hh
    | some cdf' =>
      rw [hb] at hh; simp at hh
      exact ⟨cdf', hb, by unfold symbols at *; omega⟩
  | prob p b => exact ho
  | probs p bs => exact ho
  | lit n v => exact ho

/-- The encoder action of a list of calls, checked to end with bank `bank'`. -/
def encTo (bank' : Bank) (f : BoolCoder → Option (BoolCoder × Bits × Bank)) : BoolCoder → Option (BoolCoder × Bits) :=
  fun c => (f c).bind fun x => if x.2.2 = bank' then some (x.1, x.2.1) else none

def decTo {β : Type} (bank' : Bank) (f : BoolCoder → Bits → Option (β × BoolCoder × Bits × Bank)) :
    BoolCoder → Bits → Option (β × BoolCoder × Bits) :=
  fun d i => (f d i).bind fun x => if x.2.2.2 = bank' then some (x.1, x.2.1, x.2.2.1) else none

theorem encTo_some {bank' : Bank} {f : BoolCoder → Option (BoolCoder × Bits × Bank)} {c c' : BoolCoder} {e : Bits} :
    encTo bank' f c = some (c', e) ↔ f c = some (c', e, bank') := by
  unfold encTo
  simp only [Option.bind_eq_some_iff]
  constructor
  · rintro ⟨⟨a, b, t⟩, h1, h2⟩
    split at h2 <;> simp at h2
    rename_i ht
    simp only at ht
    rw [h1, h2.1, h2.2, ht]
  · intro h; exact ⟨_, h, by simp⟩

theorem decTo_some {β : Type} {bank' : Bank} {f : BoolCoder → Bits → Option (β × BoolCoder × Bits × Bank)}
    {d d' : BoolCoder} {i i' : Bits} {r : β} :
    decTo bank' f d i = some (r, d', i') ↔ f d i = some (r, d', i', bank') := by
  unfold decTo
  simp only [Option.bind_eq_some_iff]
  constructor
  · rintro ⟨⟨a, b, c, t⟩, h1, h2⟩
    split at h2 <;> simp at h2
    rename_i ht
    simp only at ht
    rw [h1, h2.1, h2.2.1, h2.2.2, ht]
  · intro h; exact ⟨_, h, by simp⟩

theorem sim_op {bank : Bank} (hb : BankOk bank) {op : Op} (ho : OpOk bank op) :
    ∃ bank', BankOk bank' ∧ SameShape bank bank' ∧
      Sim (encTo bank' fun c => encodeOp c bank op) (decTo bank' fun d i => decodeOp d i bank op.req) op.val := by
  cases op with
  | sym t s =>
    obtain ⟨cdf, h1, h2⟩ := ho
    have hmem : cdf ∈ bank := List.mem_of_getElem? h1
    obtain ⟨cdf', -, hv, hl, hs⟩ := sim_symbol (hb cdf hmem) h2
    refine ⟨bank.set t cdf', ?_, ?_, ?_⟩
    · intro x hx
      rcases List.mem_or_eq_of_mem_set hx with h | h
      · exact hb x h
      · rw [h]; exact hv
    · unfold SameShape
      rw [List.map_set, hl]
      apply List.ext_getElem?
      intro i
      rw [List.getElem?_set]
      split
      · rename_i hti
        rw [← hti, List.getElem?_map, h1]
        have : t < bank.length := by
          by_contra hh
          rw [List.getElem?_eq_none (by omega)] at h1
          simp at h1
        simp [this]
      · rfl
    · refine hs.congr ?_ ?_
      · intro c c' em he
        rw [encTo_some]
        simp only [Option.bind_eq_some_iff] at he
        obtain ⟨⟨c1, e1, u⟩, g1, g2⟩ := he
        split at g2 <;> simp at g2
        rename_i hu
        simp only at hu
        simp [encodeOp, h1, g1, g2, hu]
      · intro d d' i i' he
        rw [decTo_some]
        simp only [Option.bind_eq_some_iff] at he
        obtain ⟨⟨s1, d1, i1, u⟩, g1, g2⟩ := he
        split at g2 <;> simp at g2
        rename_i hu
        simp only at hu
        simp [decodeOp, Op.req, Op.val, h1, g1, g2, hu]
  | prob p b =>
    refine ⟨bank, hb, rfl, (sim_symbolp ho b).congr ?_ ?_⟩
    · intro c c' em he; rw [encTo_some]; simp [encodeOp, he]
    · intro d d' i i' he; rw [decTo_some]; simp [decodeOp, Op.req, Op.val, he]
  | probs p bs =>
    refine ⟨bank, hb, rfl, (sim_symbols bs _ (probCdf_valid ho) (probCdf_symbols _)).congr ?_ ?_⟩
    · intro c c' em he; rw [encTo_some]; simp [encodeOp, encodeSymbols, he]
    · intro d d' i i' he; rw [decTo_some]; simp [decodeOp, decodeSymbols, Op.req, Op.val, he]
  | lit n v =>
    obtain ⟨hn, hv⟩ := ho
    have := sim_literal n v 0 hn
    rw [Nat.zero_mul, Nat.zero_add, Nat.mod_eq_of_lt hv] at this
    refine ⟨bank, hb, rfl, this.congr ?_ ?_⟩
    · intro c c' em he; rw [encTo_some]; simp [encodeOp, he]
    · intro d d' i i' he; rw [decTo_some]; simp [decodeOp, Op.req, Op.val, he]

theorem sim_ops : ∀ (ops : List Op) (bank : Bank), BankOk bank → OpsOk bank ops →
    ∃ bank', BankOk bank' ∧ SameShape bank bank' ∧
      Sim (encTo bank' fun c => encodeOps c bank ops) (decTo bank' fun d i => decodeOps d i bank (ops.map Op.req))
        (ops.map Op.val)
  | [], bank, hb, _ => by
    refine ⟨bank, hb, rfl, Sim.skip.congr ?_ ?_⟩
    · intro c c' em h; rw [encTo_some]; simp [encodeOps] at *; exact h
    · intro d d' i i' h; rw [decTo_some]; simp [decodeOps] at *; exact h
  | op :: ops, bank, hb, ho => by
    obtain ⟨bank1, hb1, hs1, h1⟩ := sim_op hb (ho op (by simp))
    obtain ⟨bank2, hb2, hs2, h2⟩ := sim_ops ops bank1 hb1 (fun o hmem => (ho o (by simp [hmem])).mono hs1)
    refine ⟨bank2, hb2, hs1.trans hs2, (h1.seq h2).congr ?_ ?_⟩
    · intro c c' em he
      simp only [Option.bind_eq_some_iff] at he
      obtain ⟨⟨c1, e1⟩, g1, ⟨c2, e2⟩, g2, g3⟩ := he
      simp only at g2 g3
      rw [encTo_some] at g1 g2 ⊢
      simp only [Option.some.injEq, Prod.mk.injEq] at g3
      simp [encodeOps, g1, g2, g3]
    · intro d d' i i' he
      simp only [Option.bind_eq_some_iff] at he
      obtain ⟨⟨x, d1, i1⟩, g1, ⟨y, d2, i2⟩, g2, g3⟩ := he
      simp only at g2 g3
      rw [decTo_some] at g1 g2 ⊢
      simp only [Option.some.injEq, Prod.mk.injEq] at g3
      obtain ⟨⟨rfl, rfl⟩, rfl, rfl⟩ := g3
      simp [decodeOps, g1, g2]

/-! ## Ends of a session -/

theorem initEncoder_inv (c : BoolCoder) : EncInv [] (initEncoder c) 0 := by
  refine ⟨by simp [initEncoder], ?_, ?_, ?_, by simp [initEncoder], ?_, by simp [initEncoder]⟩ <;>
    simp [initEncoder] <;> decide

theorem exit_val_bits (v : Int) (h0 : 0 ≤ v) :
    (List.range 16).map (fun i => decide ((v >>> (15 - i)) % 2 = 1)) = toBits 16 v.toNat := by
  have key : ∀ k : Nat, decide ((v >>> k) % 2 = 1) = v.toNat.testBit k := by
    intro k
    obtain ⟨u, rfl⟩ := Int.eq_ofNat_of_zero_le h0
    rw [Nat.testBit_eq_decide_div_mod_eq, shr_def]
    simp only [Int.toNat_natCast]
    congr 1
    apply propext
    constructor
    · intro h; exact_mod_cast h
    · intro h; exact_mod_cast h
  simp only [key]
  rfl

/-- The session's bits: a code word of `n + 15` bits spelling `low`, then padding. -/
theorem exit_spec {O : Bits} {c : BoolCoder} {n : Nat} (h : EncInv O c n) (hv : c.value < 65536)
    (hR : 32768 ≤ c.range) :
    ∃ B extra, O ++ (exitEncoder c).2 = B ++ extra ∧ B.length = n + 15 ∧ (num B : Int) = low O c ∧
      (extra.length ≤ 8) ∧ (∀ b ∈ extra, b = false) := by
  have hv0 := h.v0
  have hval := exit_val_bits c.value hv0
  have hpend : (if c.lastZero then [false] else []) ++ List.replicate c.zeroCount.toNat true = pend c := rfl
  unfold exitEncoder
  simp only [hval, hpend]
  have hm : c.value.toNat % 2 ^ 16 = c.value.toNat := Nat.mod_eq_of_lt (by norm_num; omega)
  cases hf : c.first with
  | false =>
    obtain ⟨hn, -⟩ := h.nfst hf
    refine ⟨O ++ pend c ++ toBits 16 c.value.toNat, List.replicate _ false, by simp [List.append_assoc]; rfl, ?_, ?_,
      ?_, ?_⟩
    · simp; omega
    · unfold low
      rw [num_append, num_toBits, length_toBits, hm]
      push_cast
      norm_num
      omega
    · simp; omega
    · simp
  | true =>
    obtain ⟨hO, hlz, hzc, hn, hvr⟩ := h.fst hf
    have hz : c.value = 0 := by omega
    have hp : pend c = [] := by simp [pend, hlz, hzc]
    refine ⟨List.replicate 15 false, false :: List.replicate ((8 - c.bitCount % 8) % 8) false, ?_, ?_, ?_, ?_, ?_⟩
    · rw [hO, hp, hz]; simp [toBits, List.replicate]
    · simp [hn]
    · unfold low; rw [hO, hp, hz, num_replicate_false]; simp
    · simp; omega
    · simp

/-- Main session lemma. -/
theorem session_spec {bank : Bank} (hb : BankOk bank) {ops : List Op} (ho : OpsOk bank ops) (c : BoolCoder) :
    ∃ c' bits bank' extra k, encodeSession c bank ops = some (c', bits, bank') ∧ BankOk bank' ∧ SameShape bank bank' ∧
      (∀ b ∈ extra, b = false) ∧ extra.length ≤ 8 ∧ (∃ B, bits = B ++ extra ∧ B.length = 15 + k) ∧
      c'.maxBits = c.maxBits ∧ (c.bitCount + bits.length) % 8 = 0 ∧ c'.bitCount = c.bitCount + (k - 1) ∧
      ∀ (d : BoolCoder) (sz : Nat) (rest : Bits), ∃ d',
        decodeSession d (bits ++ rest) sz bank (ops.map Op.req) = some (ops.map Op.val, d', extra ++ rest, bank') ∧
        d'.maxBits = 8 * sz - 15 - 2 * k := by
  obtain ⟨bank', hb', hs', hsim⟩ := sim_ops ops bank hb ho
  obtain ⟨c1, em, k, a1, a2, a3, a4, a5, a5b, a5c, a6, a7, a8⟩ := hsim [] (initEncoder c) 0 (initEncoder_inv c)
    (by simp [initEncoder]) (le_of_eq rfl)
  rw [List.nil_append, Nat.zero_add] at *
  obtain ⟨B, extra, b1, b2, b3, b4, b5⟩ := exit_spec a2 a3 a4
  rw [encTo_some] at a1
  refine ⟨(exitEncoder c1).1, em ++ (exitEncoder c1).2, bank', extra, k, ?_, hb', hs', b5, b4, ?_, ?_, ?_, ?_, ?_⟩
  · simp [encodeSession, a1]
  · exact ⟨B, b1, by omega⟩
  · change c1.maxBits = _
    rw [a5b]; rfl
  · have e1 : (exitEncoder c1).2.length = (pend c1).length + 16 + (8 - (c1.bitCount + (pend c1).length) % 8) % 8 := by
      simp only [exitEncoder, List.length_append, List.length_map, List.length_range, List.length_replicate, pend]
    have e2 : (initEncoder c).bitCount = c.bitCount := rfl
    rw [List.length_append, e1, a5, e2]
    omega
  · change c1.bitCount + (pend c1).length = _
    have e2 : (initEncoder c).bitCount = c.bitCount := rfl
    rw [a5, e2]
    cases hf : c1.first with
    | false =>
      obtain ⟨hn, -⟩ := a2.nfst hf
      omega
    | true =>
      obtain ⟨hO, hlz, hzc, hn, -⟩ := a2.fst hf
      simp [hO, pend, hlz, hzc, hn]
  · intro d sz rest
    -- split the code word
    have hl0 : low [] (initEncoder c) = 0 := by simp [low, pend, initEncoder]
    have hr0 : (initEncoder c).range = 32768 := rfl
    have hB : B = B.take 15 ++ B.drop 15 := by simp
    have htd := num_take_drop B 15 (by omega)
    rw [b2, show k + 15 - 15 = k by omega] at htd
    have h15 : (B.take 15).length = 15 := by simp; omega
    have hnlt : num (B.take 15) < 2 ^ 15 := by have := num_lt (B.take 15); rwa [h15] at this
    have hk : (B.drop 15).length = k := by simp; omega
    have hpop := popBits_append (B.take 15) (B.drop 15 ++ (extra ++ rest)) 0
    rw [h15] at hpop
    have hinit : initDecoder d (em ++ (exitEncoder c1).2 ++ rest) sz = some ({ d with
        value := 32768 - 1 - num (B.take 15), range := 32768, maxBits := 8 * sz - 15 }, B.drop 15 ++ (extra ++ rest)) := by
      unfold initDecoder
      rw [b1, show B ++ extra ++ rest = B.take 15 ++ (B.drop 15 ++ (extra ++ rest)) by
        rw [← List.append_assoc (B.take 15), ← hB, List.append_assoc], hpop]
      simp only [Option.bind_eq_bind, Option.bind_some, Nat.zero_mul, Nat.zero_add]
      have hx := xor32_shift 15 (num (B.take 15)) 0 hnlt (by omega) (by norm_num)
      rw [xor32_comm] at hx
      have e1 : (((1 <<< 15 : Nat) : Int)) = (0 + 1) * 2 ^ 15 := by decide
      rw [e1, hx]
      norm_num
    have hr1 := a2.r0
    obtain ⟨dc', d1, d2, d3, d4⟩ := a8 (num B) (B.drop 15) (extra ++ rest)
      { d with value := 32768 - 1 - num (B.take 15), range := 32768, maxBits := 8 * sz - 15 }
      hk htd.2 (by omega) (by omega) (by rw [hr0]) (by
        simp only [hr0, hl0]
        rw [htd.1]; push_cast; ring)
    rw [decTo_some] at d1
    refine ⟨dc', ?_, by rw [d4]⟩
    simp only [decodeSession, hinit, Option.bind_eq_bind, Option.bind_some]
    exact d1

/-! ## Prefixes -/

theorem encodeOps_append (a b : List Op) : ∀ (c : BoolCoder) (bank : Bank),
    encodeOps c bank (a ++ b) = (encodeOps c bank a).bind fun x => (encodeOps x.1 x.2.2 b).bind fun y =>
      some (y.1, x.2.1 ++ y.2.1, y.2.2) := by
  induction a with
  | nil => intro c bank; cases h : encodeOps c bank b <;> simp [encodeOps, h]
  | cons op a ih =>
    intro c bank
    simp only [List.cons_append, encodeOps]
    cases encodeOp c bank op with
    | none => rfl
    | some x =>
      simp only [Option.bind_eq_bind, Option.bind_some, ih]
      cases encodeOps x.1 x.2.2 a with
      | none => rfl
      | some y =>
        simp only [Option.bind_some]
        cases encodeOps y.1 y.2.2 b with
        | none => rfl
        | some z => simp [List.append_assoc]

theorem decodeOps_append (a b : List Req) : ∀ (d : BoolCoder) (i : Bits) (bank : Bank),
    decodeOps d i bank (a ++ b) = (decodeOps d i bank a).bind fun x =>
      (decodeOps x.2.1 x.2.2.1 x.2.2.2 b).bind fun y => some (x.1 ++ y.1, y.2) := by
  induction a with
  | nil => intro d i bank; cases h : decodeOps d i bank b <;> simp [decodeOps, h]
  | cons r a ih =>
    intro d i bank
    simp only [List.cons_append, decodeOps]
    cases decodeOp d i bank r with
    | none => rfl
    | some x =>
      simp only [Option.bind_eq_bind, Option.bind_some, ih]
      cases decodeOps x.2.1 x.2.2.1 x.2.2.2 a with
      | none => rfl
      | some y =>
        simp only [Option.bind_some]
        cases decodeOps y.2.1 y.2.2.1 y.2.2.2 b with
        | none => rfl
        | some z => simp

theorem decodeOps_length : ∀ (rs : List Req) (d : BoolCoder) (i : Bits) (bank : Bank) {x},
    decodeOps d i bank rs = some x → x.1.length = rs.length
  | [], d, i, bank, x, h => by simp [decodeOps] at h; simp [← h]
  | r :: rs, d, i, bank, x, h => by
    simp only [decodeOps, Option.bind_eq_bind, Option.bind_eq_some_iff, Option.some.injEq] at h
    obtain ⟨⟨v, d1, i1, b1⟩, -, ⟨vs, d2, i2, b2⟩, h2, rfl⟩ := h
    simp [decodeOps_length rs _ _ _ h2]

theorem encodeSymbol_adapt {c : BoolCoder} {cdf : List Int} {s : Int} {x} (h : encodeSymbol c cdf s = some x) :
    adapt cdf s = some x.2.2 := by
  simp only [encodeSymbol, encodeSymbolFuel, Option.bind_eq_bind, Option.bind_eq_some_iff, Option.some.injEq] at h
  obtain ⟨c1, -, ⟨c3, e2⟩, -, t, ht, rfl⟩ := h
  exact ht

theorem decodeSymbol_adapt {d : BoolCoder} {i : Bits} {cdf : List Int} {x} (h : decodeSymbol d i cdf = some x) :
    adapt cdf x.1 = some x.2.2.2 := by
  simp only [decodeSymbol, Option.bind_eq_bind, Option.bind_eq_some_iff, Option.some.injEq] at h
  obtain ⟨⟨s, p, q⟩, -, m, -, ⟨nd, r⟩, -, t, ht, rfl⟩ := h
  exact ht

/-- The tables after a call depend only on the value coded. -/
theorem op_bank {c d : BoolCoder} {i : Bits} {bank : Bank} {op : Op} {x y} (he : encodeOp c bank op = some x)
    (hd : decodeOp d i bank op.req = some y) (hv : y.1 = op.val) : y.2.2.2 = x.2.2 := by
  cases op with
  | sym t s =>
    simp only [encodeOp, decodeOp, Op.req, Option.bind_eq_bind, Option.bind_eq_some_iff, Option.some.injEq] at he hd
    obtain ⟨cdf, h1, ⟨c1, e1, t1⟩, h2, rfl⟩ := he
    obtain ⟨cdf', h3, ⟨s1, d1, r1, t2⟩, h4, rfl⟩ := hd
    rw [h1] at h3
    obtain rfl := Option.some.inj h3
    have a1 := encodeSymbol_adapt h2
    have a2 := decodeSymbol_adapt h4
    simp only [Op.val, List.cons.injEq, and_true] at hv
    subst hv
    simp only at a1 a2
    rw [a1] at a2
    simp [Option.some.inj a2]
  | prob p b =>
    simp only [encodeOp, decodeOp, Op.req, Option.bind_eq_bind, Option.bind_eq_some_iff, Option.some.injEq] at he hd
    obtain ⟨_, -, rfl⟩ := he
    obtain ⟨_, -, rfl⟩ := hd
    rfl
  | probs p bs =>
    simp only [encodeOp, decodeOp, Op.req, Option.bind_eq_bind, Option.bind_eq_some_iff, Option.some.injEq] at he hd
    obtain ⟨_, -, rfl⟩ := he
    obtain ⟨_, -, rfl⟩ := hd
    rfl
  | lit n v =>
    simp only [encodeOp, decodeOp, Op.req, Option.bind_eq_bind, Option.bind_eq_some_iff, Option.some.injEq] at he hd
    obtain ⟨_, -, rfl⟩ := he
    obtain ⟨_, -, rfl⟩ := hd
    rfl

theorem ops_bank : ∀ (ops : List Op) {c d : BoolCoder} {i : Bits} {bank : Bank} {x y},
    encodeOps c bank ops = some x → decodeOps d i bank (ops.map Op.req) = some y → y.1 = ops.map Op.val →
    y.2.2.2 = x.2.2
  | [], c, d, i, bank, x, y, he, hd, _ => by
    simp [encodeOps, decodeOps] at he hd; simp [← he, ← hd]
  | op :: ops, c, d, i, bank, x, y, he, hd, hv => by
    simp only [encodeOps, decodeOps, List.map_cons, Option.bind_eq_bind, Option.bind_eq_some_iff,
      Option.some.injEq] at he hd
    obtain ⟨x1, h1, x2, h2, rfl⟩ := he
    obtain ⟨y1, h3, y2, h4, rfl⟩ := hd
    simp only [List.map_cons, List.cons.injEq] at hv
    have e := op_bank h1 h3 hv.1
    rw [e] at h4
    have hh := ops_bank ops h2 h4 hv.2
    exact hh

end Av1
