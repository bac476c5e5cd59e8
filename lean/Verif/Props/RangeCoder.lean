import Verif.Lemmas.Session
import Verif.Lemmas.Reach

/-!
# C01–C09, C48: the range coder

Bank = any list of probability tables; `OpsOk` = arguments in range; see `Verif/Spec`.
-/

namespace Av1

/-- A concrete bank and calls used to show that the hypotheses below can be met. -/
def exBank : Bank := [[8000, 16000, 32768, 0], [100, 32768, 32], [1, 2, 3, 4, 32768, 7]]

def exOps : List Op :=
  [.sym 0 2, .sym 1 0, .sym 2 3, .prob 128 true, .lit 5 19, .sym 2 0, .probs 0 [true, false, true], .prob 255 false,
   .sym 1 1]

theorem exBank_ok : BankOk exBank := by
  intro cdf h
  simp only [exBank, List.mem_cons, List.not_mem_nil, or_false] at h
  rcases h with rfl | rfl | rfl
  · exact ⟨[8000, 16000], 0, rfl, by decide, by decide, by decide, by decide⟩
  · exact ⟨[100], 32, rfl, by decide, by decide, by decide, by decide⟩
  · exact ⟨[1, 2, 3, 4], 7, rfl, by decide, by decide, by decide, by decide⟩

theorem exOps_ok : OpsOk exBank exOps := by
  intro op h
  simp only [exOps, List.mem_cons, List.not_mem_nil, or_false] at h
  rcases h with rfl | rfl | rfl | rfl | rfl | rfl | rfl | rfl | rfl <;> simp [OpOk, exBank, symbols]

/-- **C01**. Every sequence of adaptive symbols is decoded exactly, whatever follows the session in the input. -/
theorem C01_round_trip (bank : Bank) (hb : BankOk bank) (syms : List (Nat × Nat))
    (hs : ∀ x ∈ syms, ∃ cdf, bank[x.1]? = some cdf ∧ x.2 < symbols cdf) (c : BoolCoder) :
    ∃ c' bits bank', encodeSession c bank (syms.map fun x => .sym x.1 x.2) = some (c', bits, bank') ∧
      ∀ (d : BoolCoder) (sz : Nat) (rest : Bits), ∃ d' left bank'',
        decodeSession d (bits ++ rest) sz bank (syms.map fun x => .sym x.1) =
          some (syms.map fun x => [x.2], d', left, bank'') := by
  have ho : OpsOk bank (syms.map fun x => .sym x.1 x.2) := by
    intro op h
    obtain ⟨x, hx, rfl⟩ := List.mem_map.1 h
    exact hs x hx
  obtain ⟨c', bits, bank', extra, k, h1, -, -, -, -, -, -, -, -, h2⟩ := session_spec hb ho c
  refine ⟨c', bits, bank', h1, fun d sz rest => ?_⟩
  obtain ⟨d', h3, -⟩ := h2 d sz rest
  rw [List.map_map, List.map_map] at h3
  exact ⟨d', _, _, h3⟩

example : ∃ bits bank', encodeSession BoolCoder.new exBank [.sym 0 2, .sym 2 0, .sym 1 0] =
    some (bits, bank') ∧ bits ≠ BoolCoder.new := ⟨_, _, rfl, by decide⟩

/-- **C02**. After every symbol (every split `a ++ b` of the calls of a session) the decoder's tables equal the
encoder's. -/
theorem C02_tables_in_sync (bank : Bank) (hb : BankOk bank) (a b : List Op) (ho : OpsOk bank (a ++ b)) (c : BoolCoder) :
    ∃ c1 e1 bankA c2 bits bankAB, encodeOps (initEncoder c) bank a = some (c1, e1, bankA) ∧
      encodeSession c bank (a ++ b) = some (c2, bits, bankAB) ∧
      ∀ (d : BoolCoder) (sz : Nat) (rest : Bits), ∃ d1 left1 d2 left2,
        decodeSession d (bits ++ rest) sz bank (a.map Op.req) = some (a.map Op.val, d1, left1, bankA) ∧
        decodeSession d (bits ++ rest) sz bank ((a ++ b).map Op.req) =
          some ((a ++ b).map Op.val, d2, left2, bankAB) := by
  obtain ⟨c', bits, bank', extra, k, h1, -, -, -, -, -, -, -, -, h2⟩ := session_spec hb ho c
  have h1' := h1
  simp only [encodeSession, encodeOps_append, Option.bind_eq_bind, Option.bind_eq_some_iff, Option.some.injEq] at h1'
  obtain ⟨x, ⟨⟨c1, e1, bA⟩, g1, y, g2, g3⟩, g4⟩ := h1'
  refine ⟨c1, e1, bA, c', bits, bank', g1, h1, fun d sz rest => ?_⟩
  obtain ⟨d', h3, -⟩ := h2 d sz rest
  have h4 := h3
  simp only [decodeSession, Option.bind_eq_bind, Option.bind_eq_some_iff] at h3
  obtain ⟨⟨d0, i0⟩, k1, k2⟩ := h3
  simp only [List.map_append, decodeOps_append, Option.bind_eq_some_iff, Option.some.injEq] at k2
  obtain ⟨⟨va, da, ia, ba⟩, k3, ⟨vb, db⟩, k4, k5⟩ := k2
  simp only [Prod.mk.injEq] at k5
  have hlen := decodeOps_length _ _ _ _ k3
  simp only [List.length_map] at hlen
  have hva : va = a.map Op.val := (List.append_inj k5.1 (by simp [hlen])).1
  have hba := ops_bank a g1 k3 hva
  simp only at hba
  refine ⟨da, ia, d', _, ?_, h4⟩
  simp only [decodeSession, k1, Option.bind_eq_bind, Option.bind_some]
  rw [k3, hva, hba]

/-- **C03**. The decoder stops inside the session's own bits: what it leaves unread is a run of at most eight zero
bits of the session followed by exactly the trailing data. -/
theorem C03_reads_own_bits (bank : Bank) (hb : BankOk bank) (ops : List Op) (ho : OpsOk bank ops) (c : BoolCoder) :
    ∃ c' bits bank' unread, encodeSession c bank ops = some (c', bits, bank') ∧
      unread <:+ bits ∧ unread.length ≤ 8 ∧ (∀ b ∈ unread, b = false) ∧
      ∀ (d : BoolCoder) (sz : Nat) (rest : Bits), ∃ d',
        decodeSession d (bits ++ rest) sz bank (ops.map Op.req) =
          some (ops.map Op.val, d', unread ++ rest, bank') := by
  obtain ⟨c', bits, bank', extra, k, h1, -, -, h4, h5, h6, -, -, -, h2⟩ := session_spec hb ho c
  refine ⟨c', bits, bank', extra, h1, ?_, h5, h4, fun d sz rest => ?_⟩
  · obtain ⟨B, hB, -⟩ := h6
    exact ⟨B, hB.symm⟩
  · obtain ⟨d', h3, -⟩ := h2 d sz rest
    exact ⟨d', h3⟩

/-- **C04**. Any number of adaptation steps with any symbols keeps a table well formed (and never panics). -/
theorem C04_adaptation_well_formed (cdf : List Int) (h : ValidCdf cdf) (hist : List Int) :
    ∃ cdf', hist.foldlM adapt cdf = some cdf' ∧ ValidCdf cdf' ∧ cdf'.length = cdf.length := by
  induction hist generalizing cdf with
  | nil => exact ⟨cdf, rfl, h, rfl⟩
  | cons s hist ih =>
    obtain ⟨cdf1, h1, h2, h3⟩ := adapt_valid h s
    obtain ⟨cdf2, h4, h5, h6⟩ := ih cdf1 h2
    exact ⟨cdf2, by simp [List.foldlM_cons, h1, h4], h5, h6.trans h3⟩

/-- **C04**, at the level of the coder calls: whatever the calls, the tables stay well formed. -/
theorem C04_session_tables (bank : Bank) (hb : BankOk bank) (ops : List Op) (ho : OpsOk bank ops) (c : BoolCoder) :
    ∃ c' bits bank', encodeSession c bank ops = some (c', bits, bank') ∧ bank'.length = bank.length ∧
      ∀ cdf ∈ bank', ValidCdf cdf := by
  obtain ⟨c', bits, bank', extra, k, h1, hb', hs, -⟩ := session_spec hb ho c
  refine ⟨c', bits, bank', h1, ?_, hb'⟩
  have := congrArg List.length hs
  simpa using this.symm

/-- **C05**. Encoding from any reachable state succeeds within fifteen renormalisation steps and keeps the registers
in range. -/
theorem C05_encode_total (k : Nat) (c : BoolCoder) (h : ReachableIn k c) (cdf : List Int) (hv : ValidCdf cdf) (s : Nat)
    (hs : s < symbols cdf) :
    ∃ c' e cdf', encodeSymbolFuel 15 c cdf s = some (c', e, cdf') ∧
      32768 ≤ c'.range ∧ c'.range ≤ 65535 ∧ 0 ≤ c'.value ∧ c'.value ≤ 65535 ∧
      0 ≤ c'.zeroCount ∧ c'.zeroCount ≤ 15 * (k + 1) := by
  obtain ⟨O, n, h1, h2, h3, h4⟩ := reachable_inv h
  obtain ⟨c1, em, j, t, a1, a2, a3, a4, a5, a6, -⟩ := encodeSymbol_spec hv hs h1 h3 h4
  have hr := a4.r1
  have hz := zeroCount_le a4
  refine ⟨c1, em, t, a1, a6, by omega, a4.v0, by omega, a4.z0, ?_⟩
  push_cast at hz
  omega

/-- **C05, partial**, no 32-bit overflow: every intermediate result of the interval computation and of the renormalisation loop
fits in an `i32`, as long as the session has coded fewer than 2^27 symbols. Missing: longer sessions, in which the counter of pending
bits has no bound (`C05_counter_unbounded`). -/
theorem C05_no_overflow_partial (k : Nat) (hk : k < 2 ^ 27) (c : BoolCoder) (h : ReachableIn k c) (cdf : List Int)
    (hv : ValidCdf cdf) (s : Nat) (hs : s < symbols cdf) :
    (∀ x ∈ intervalTrace c (cdf[s]'(by unfold symbols at hs; omega)) (cdf[s - 1]'(by unfold symbols at hs; omega)),
      FitsI32 x) ∧
    ∃ c1, encInterval c cdf s = some c1 ∧ (∀ x ∈ updateTrace c (c.range - (c1.value - c.value))
        (c.range - (c1.value - c.value) - c1.range), FitsI32 x) ∧
      ∀ x ∈ renormTrace 15 (encCarry c1).1, FitsI32 x := by
  obtain ⟨O, n, h1, h2, h3, h4⟩ := reachable_inv h
  have hr1 := h1.r1
  have hv0 := h1.v0
  have hslen : s < cdf.length := by unfold symbols at hs; omega
  refine ⟨?_, ?_⟩
  · have hent : ∀ i, (hi : i < symbols cdf) → 0 ≤ cdf[i]'(by unfold symbols at hi; omega) ∧
        cdf[i]'(by unfold symbols at hi; omega) ≤ 32768 := valid_entries hv
    have e1 := hent s hs
    have e2 := hent (s - 1) (by omega)
    generalize cdf[s]'(by omega) = x at *
    generalize cdf[s - 1]'(by omega) = y at *
    have hq0 : 0 ≤ c.range / 256 := by omega
    have hq1 : c.range / 256 ≤ 255 := by omega
    intro z hz
    simp only [intervalTrace, shr_def] at hz
    norm_num at hz
    generalize c.range / 256 = q at *
    have p1 : 0 ≤ q * (32768 - y) := mul_nonneg hq0 (by omega)
    have p2 : q * (32768 - y) ≤ 255 * 32768 := by nlinarith
    have p3 : 0 ≤ q * (32768 - x) := mul_nonneg hq0 (by omega)
    have p4 : q * (32768 - x) ≤ 255 * 32768 := by nlinarith
    unfold FitsI32
    rcases hz with rfl | rfl | rfl | rfl | rfl | rfl <;> omega
  · obtain ⟨c1, em, j, t, a1, a2, a3, a4, a5, a6, a7, a7b, a7c, a8, a9, a10, a11, a12⟩ := encodeSymbol_spec hv hs h1 h3 h4
    have hei := encInterval_eq c cdf s hslen
    refine ⟨_, hei, ?_, ?_⟩
    · intro x hx
      simp only [updateTrace, List.mem_cons, List.not_mem_nil, or_false] at hx
      unfold FitsI32
      rcases hx with rfl | rfl | rfl <;> omega
    · have hI := encInterval_inv h1 a10 a11 a12
      obtain ⟨b1, b2, -, b4, -⟩ := encCarry_spec hI
      intro x hx
      have := renormTrace_fits 15 b1 b2 x hx
      unfold FitsI32
      omega

/-- **C05**, the table update: every intermediate result of the update loop fits in an `i32` as well. -/
theorem C05_adapt_no_overflow (cdf : List Int) (hv : ValidCdf cdf) (s : Int) :
    ∃ rate cnt, adaptRate cdf = some rate ∧ cdf[cdf.length - 1]? = some cnt ∧ FitsI32 (cnt + 1) ∧ rate < 31 ∧
      FitsI32 ((cdf.length - 1 : Nat) * 32) ∧
      ∀ x ∈ adaptTrace rate (((32768 - (((cdf.length - 1 : Nat) : Int) <<< 5)) >>> rate) <<< rate) s 0 32
        (cdf.take (cdf.length - 1 - 1)), FitsI32 x := by
  exact adapt_fits hv s

/-- **C06**. Two equal consecutive table entries: the renormalisation loop never ends (no number of iterations
suffices), in any coder state. -/
theorem C06_zero_probability_diverges (c : BoolCoder) (cdf : List Int) (s : Nat) (hs : s + 1 < cdf.length)
    (heq : cdf[s]'(by omega) = cdf[s + 1]) :
    ∃ c1, encInterval c cdf ((s + 1 : Nat) : Int) = some c1 ∧ ∀ fuel, renorm fuel (encCarry c1).1 = none := by
  have hei := encInterval_eq c cdf (s + 1) hs
  refine ⟨_, hei, fun fuel => ?_⟩
  apply renorm_zero
  rw [encCarry_range]
  simp only [ivl_get _ _ _ _ hs]
  simp [heq]

/-- Non-vacuity of C06: such a table exists and the encoder state is the one after `init_encoder`. -/
example : encodeSymbol (initEncoder BoolCoder.new) [100, 100, 32768, 0] 1 = none := by decide +kernel

/-- **C07**, what holds: the session's length plus the number of bits the same coder counted before is a multiple of
eight; hence a session started with a multiple of eight on the counter (a fresh coder in particular) has whole bytes.
Missing for the full claim: `init_encoder` does not reset the counter, see `C07_negation`. -/
theorem C07_whole_bytes_partial (bank : Bank) (hb : BankOk bank) (ops : List Op) (ho : OpsOk bank ops) (c : BoolCoder) :
    ∃ c' bits bank', encodeSession c bank ops = some (c', bits, bank') ∧ (c.bitCount + bits.length) % 8 = 0 ∧
      (c.bitCount % 8 = 0 → 8 ∣ bits.length) := by
  obtain ⟨c', bits, bank', extra, k, h1, -, -, -, -, -, -, h2, -⟩ := session_spec hb ho c
  exact ⟨c', bits, bank', h1, h2, fun h => by omega⟩

/-- **C07** for a fresh coder. -/
theorem C07_first_session (bank : Bank) (hb : BankOk bank) (ops : List Op) (ho : OpsOk bank ops) :
    ∃ c' bits bank', encodeSession BoolCoder.new bank ops = some (c', bits, bank') ∧ 8 ∣ bits.length := by
  obtain ⟨c', bits, bank', h1, -, h3⟩ := C07_whole_bytes_partial bank hb ops ho BoolCoder.new
  exact ⟨c', bits, bank', h1, h3 rfl⟩

/-- The full claim C07: also later sessions on the same coder have whole bytes. -/
def C07_full : Prop := ∀ (bank : Bank) (ops1 ops2 : List Op) (c1 c2 : BoolCoder) (b1 b2 : Bits) (k1 k2 : Bank),
  BankOk bank → OpsOk bank ops1 → OpsOk bank ops2 → encodeSession BoolCoder.new bank ops1 = some (c1, b1, k1) →
  encodeSession c1 bank ops2 = some (c2, b2, k2) → 8 ∣ b2.length

/-- **C07** is false: one literal bit, then two literal bits, on the same coder. -/
theorem C07_negation : ¬ C07_full := by
  intro h
  have h1 : encodeSession BoolCoder.new [] [.lit 2 0] = some ((encodeSession BoolCoder.new [] [.lit 2 0]).get (by decide +kernel)) := by
    simp
  have h2 : ∃ x, encodeSession ((encodeSession BoolCoder.new [] [.lit 2 0]).get (by decide +kernel)).1 [] [.lit 1 0] =
      some x ∧ ¬ 8 ∣ x.2.1.length := by
    refine ⟨(encodeSession ((encodeSession BoolCoder.new [] [.lit 2 0]).get (by decide +kernel)).1 [] [.lit 1 0]).get
      (by decide +kernel), by simp, by decide +kernel⟩
  obtain ⟨x, h2, h3⟩ := h2
  exact h3 (h [] [.lit 2 0] [.lit 1 0] _ _ _ _ _ _ (by intro _ h; simp at h) (by intro op h; simp at h; subst h; simp [OpOk])
    (by intro op h; simp at h; subst h; simp [OpOk]) h1 h2)

/-- **C08**. Adaptive symbols, fixed-probability bits, runs of them and literals, interleaved in any order. -/
theorem C08_mixed_round_trip (bank : Bank) (hb : BankOk bank) (ops : List Op) (ho : OpsOk bank ops) (c : BoolCoder) :
    ∃ c' bits bank', encodeSession c bank ops = some (c', bits, bank') ∧
      ∀ (d : BoolCoder) (sz : Nat) (rest : Bits), ∃ d' left,
        decodeSession d (bits ++ rest) sz bank (ops.map Op.req) = some (ops.map Op.val, d', left, bank') := by
  obtain ⟨c', bits, bank', extra, k, h1, -, -, -, -, -, -, -, -, h2⟩ := session_spec hb ho c
  refine ⟨c', bits, bank', h1, fun d sz rest => ?_⟩
  obtain ⟨d', h3, -⟩ := h2 d sz rest
  exact ⟨d', _, h3⟩

/-- The hypotheses of C02, C03, C04, C07, C08, C09 are met by a bank of three tables and nine mixed calls. -/
example : BankOk exBank ∧ OpsOk exBank exOps := ⟨exBank_ok, exOps_ok⟩

theorem op_eq_of_req_val {a b : Op} (h1 : a.req = b.req) (h2 : a.val = b.val) : a = b := by
  cases a <;> cases b <;> simp_all [Op.req, Op.val]
  · rename_i x y
    cases x <;> cases y <;> simp_all
  · exact List.map_inj_right (fun a b h => by cases a <;> cases b <;> simp_all) |>.1 h2

theorem ops_eq_of_req_val : ∀ {a b : List Op}, a.map Op.req = b.map Op.req → a.map Op.val = b.map Op.val → a = b
  | [], [], _, _ => rfl
  | [], _ :: _, h, _ => by simp at h
  | _ :: _, [], h, _ => by simp at h
  | x :: a, y :: b, h1, h2 => by
    simp only [List.map_cons, List.cons.injEq] at h1 h2
    rw [op_eq_of_req_val h1.1 h2.1, ops_eq_of_req_val h1.2 h2.2]

/-- **C09**. With the same call kinds and tables, different values give different bits; even if followed by other
data one session's bits never start another's with different values. -/
theorem C09_injective (bank : Bank) (hb : BankOk bank) (ops1 ops2 : List Op) (ho1 : OpsOk bank ops1)
    (ho2 : OpsOk bank ops2) (hreq : ops1.map Op.req = ops2.map Op.req) (c1 c2 c1' c2' : BoolCoder) (b1 b2 r1 r2 : Bits)
    (k1 k2 : Bank) (h1 : encodeSession c1 bank ops1 = some (c1', b1, k1))
    (h2 : encodeSession c2 bank ops2 = some (c2', b2, k2)) (hbits : b1 ++ r1 = b2 ++ r2) : ops1 = ops2 := by
  obtain ⟨x1, x2, x3, e1, f1⟩ := C08_mixed_round_trip bank hb ops1 ho1 c1
  obtain ⟨y1, y2, y3, e2, f2⟩ := C08_mixed_round_trip bank hb ops2 ho2 c2
  rw [h1] at e1
  rw [h2] at e2
  simp only [Option.some.injEq, Prod.mk.injEq] at e1 e2
  obtain ⟨d1, l1, g1⟩ := f1 c1 0 r1
  obtain ⟨d2, l2, g2⟩ := f2 c1 0 r2
  rw [← e1.2.1] at g1
  rw [← e2.2.1, ← hbits, ← hreq, g1] at g2
  simp only [Option.some.injEq, Prod.mk.injEq] at g2
  exact ops_eq_of_req_val hreq g2.1

/-- **C48**, what happens: after decoding a session of whole bytes, `exit_decoder` should leave exactly the trailing data.  The
bits `own` of the session that the decoder has not read are zeros; of these the last `min n own` stay in the input, `n` being the
number of bits read after the first 15 (each of them is counted twice).  So it is right exactly if nothing is left to skip or
nothing has been read after the first 15 bits.  Missing: all other sessions, see `C48_negation`. -/
theorem C48_exit_decoder_partial (bank : Bank) (hb : BankOk bank) (ops : List Op) (ho : OpsOk bank ops) :
    ∃ c' bits bank' own, encodeSession BoolCoder.new bank ops = some (c', bits, bank') ∧ 15 + own ≤ bits.length ∧ own ≤ 8 ∧
      ∀ (d : BoolCoder) (rest : Bits), ∃ v d',
        decodeSession d (bits ++ rest) (bits.length / 8) bank (ops.map Op.req) =
          some (v, d', List.replicate own false ++ rest, bank') ∧
        (exitDecoder d' (List.replicate own false ++ rest)).2 =
          List.replicate (min (bits.length - 15 - own) own) false ++ rest ∧
        ((exitDecoder d' (List.replicate own false ++ rest)).2 = rest ↔ own = 0 ∨ 15 + own = bits.length) := by
  obtain ⟨c', bits, bank', extra, k, h1, -, -, h4, h5, h6, -, h7, -, h2⟩ := session_spec hb ho BoolCoder.new
  have h7' : bits.length % 8 = 0 := by simpa [BoolCoder.new] using h7
  have hex : extra = List.replicate extra.length false := List.eq_replicate_iff.2 ⟨rfl, h4⟩
  have h6' : bits.length = 15 + k + extra.length := by
    obtain ⟨B, hB, hl⟩ := h6
    rw [hB, List.length_append, hl]
  refine ⟨c', bits, bank', extra.length, h1, by omega, by omega, ?_⟩
  intro d rest
  obtain ⟨d', h3, h8⟩ := h2 d (bits.length / 8) rest
  have hm : d'.maxBits.toNat = extra.length - k := by omega
  have hex' : (exitDecoder d' (List.replicate extra.length false ++ rest)).2 =
      List.replicate (min (bits.length - 15 - extra.length) extra.length) false ++ rest := by
    simp only [exitDecoder]
    rw [hm, List.drop_append_of_le_length (by simp), List.drop_replicate]
    congr 2
    omega
  rw [← hex] at hex' ⊢
  refine ⟨_, d', h3, hex', ?_⟩
  rw [hex']
  constructor
  · intro h
    have := congrArg List.length h
    rw [List.length_append, List.length_replicate] at this
    omega
  · intro h
    rw [show min (bits.length - 15 - extra.length) extra.length = 0 by omega]
    rfl

/-- The full claim C48. -/
def C48_full : Prop := ∀ (bank : Bank) (ops : List Op) (c' : BoolCoder) (bits : Bits) (bank' : Bank) (d d' : BoolCoder)
    (rest left : Bits) (v : List (List Nat)) (bank'' : Bank), BankOk bank → OpsOk bank ops →
  encodeSession BoolCoder.new bank ops = some (c', bits, bank') →
  decodeSession d (bits ++ rest) (bits.length / 8) bank (ops.map Op.req) = some (v, d', left, bank'') →
  (exitDecoder d' left).2 = rest

theorem C48_witness_enc : (encodeSession BoolCoder.new [] [.lit 2 0]).isSome := by decide +kernel

theorem C48_witness_dec :
    (decodeSession BoolCoder.new (((encodeSession BoolCoder.new [] [.lit 2 0]).get C48_witness_enc).2.1 ++ [])
      (((encodeSession BoolCoder.new [] [.lit 2 0]).get C48_witness_enc).2.1.length / 8) []
      ([Op.lit 2 0].map Op.req)).isSome := by
  decide +kernel

/-- **C48** is false: after a two-bit literal (24 bits in the stream) padding bits stay in the input. -/
theorem C48_negation : ¬ C48_full := by
  intro h
  have := h [] [.lit 2 0] _ _ _ _ _ _ _ _ _ (by intro _ h; simp at h) (by intro op h; simp at h; subst h; simp [OpOk])
    (Option.some_get C48_witness_enc).symm (Option.some_get C48_witness_dec).symm
  revert this
  decide +kernel

/-- Several sessions, one after the other, on the same coder object; each has its tables and its calls. -/
def encodeSessions (c : BoolCoder) : List (Bank × List Op) → Option (List Bits)
  | [] => some []
  | s :: ss => do
    let (c, bits, _) ← encodeSession c s.1 s.2
    let rest ← encodeSessions c ss
    some (bits :: rest)

/-- The number of bits a decoder takes from the session `s` coded as `bits`. -/
def bitsUsed (s : Bank × List Op) (bits : Bits) : Option Nat :=
  (decodeSession BoolCoder.new bits 0 s.1 (s.2.map Op.req)).map fun r => bits.length - r.2.2.1.length

/-- **C07** exactly, for any number of sessions on one coder: a session occupies whole bytes if and only if the bits a
decoder uses of the sessions before, counted without the 16 of the final register (15 in a session without any doubling of the
range), are whole bytes together. -/
theorem C07_iff (ss : List (Bank × List Op)) (h : ∀ s ∈ ss, BankOk s.1 ∧ OpsOk s.1 s.2) (c : BoolCoder) :
    ∃ (outs : List Bits) (used : List Nat), encodeSessions c ss = some outs ∧ outs.length = ss.length ∧ used.length = ss.length ∧
      (∀ (j : Nat) s bits u, ss[j]? = some s → outs[j]? = some bits → used[j]? = some u → bitsUsed s bits = some u ∧ 15 ≤ u) ∧
      ∀ (j : Nat) bits, outs[j]? = some bits →
        (8 ∣ bits.length ↔ 8 ∣ c.bitCount + ((used.take j).map (· - 16)).sum) := by
  induction ss generalizing c with
  | nil => exact ⟨[], [], rfl, rfl, rfl, by simp, by simp⟩
  | cons s ss ih =>
    obtain ⟨c', bits, bank', extra, k, h1, -, -, -, -, ⟨B, hB, hk⟩, -, h2, h3, h4⟩ :=
      session_spec (h s (by simp)).1 (h s (by simp)).2 c
    obtain ⟨outs, used, i1, i2, i3, i4, i5⟩ := ih (fun t ht => h t (by simp [ht])) c'
    refine ⟨bits :: outs, (15 + k) :: used, ?_, by simp [i2], by simp [i3], ?_, ?_⟩
    · simp [encodeSessions, h1, i1]
    · intro j t b u e1 e2 e3
      cases j with
      | zero =>
        simp only [List.getElem?_cons_zero, Option.some.injEq] at e1 e2 e3
        subst e1 e2 e3
        obtain ⟨d', g, -⟩ := h4 BoolCoder.new 0 []
        rw [List.append_nil] at g
        refine ⟨?_, by omega⟩
        rw [bitsUsed, g]
        simp only [Option.map_some, hB, List.append_nil, List.length_append, hk, Option.some.injEq]
        omega
      | succ j =>
        simp only [List.getElem?_cons_succ] at e1 e2 e3
        exact i4 j t b u e1 e2 e3
    · intro j b e
      cases j with
      | zero =>
        simp only [List.getElem?_cons_zero, Option.some.injEq] at e
        subst e
        simp only [List.take_zero, List.map_nil, List.sum_nil]
        omega
      | succ j =>
        simp only [List.getElem?_cons_succ] at e
        rw [i5 j b e, h3]
        simp only [List.take_succ_cons, List.map_cons, List.sum_cons]
        have : 15 + k - 16 = k - 1 := by omega
        rw [this, Nat.add_assoc]

/-- Non-trivial case: of three sessions on a new coder the second is not whole bytes and the third is. -/
example : (encodeSessions BoolCoder.new [([], [.lit 2 0]), ([], [.lit 8 3]), ([], [.lit 1 1])]).map (·.map List.length) =
    some [24, 23, 16] := by decide +kernel

end Av1
