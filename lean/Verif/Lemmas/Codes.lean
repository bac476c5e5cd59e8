import Verif.Model.Codes
import Verif.Lemmas.RangeDecode
import Mathlib.Data.Nat.Bitwise

namespace Av1

theorem shr_and_one (v n : Nat) : decide ((v >>> n) &&& 1 = 1) = v.testBit n := by
  rw [Nat.testBit_eq_decide_div_mod_eq, Nat.and_one_is_mod, Nat.shiftRight_eq_div_pow]

theorem pushLoop_eq (w v : Nat) : ∀ n, n ≤ w → pushLoop w v n = some (toBits n v)
  | 0, _ => rfl
  | n + 1, h => by
    rw [pushLoop, if_neg (by omega), pushLoop_eq w v n (by omega), shr_and_one]; rfl

theorem pushLoop_none (w v : Nat) : ∀ n, w < n → pushLoop w v n = none
  | 0, h => by omega
  | n + 1, h => by rw [pushLoop, if_pos (by omega)]

theorem popBits_toBits (n v : Nat) (rest : Bits) : popBits n 0 (toBits n v ++ rest) = some (v % 2 ^ n, rest) := by
  have := popBits_append (toBits n v) rest 0
  rw [length_toBits, num_toBits] at this
  simpa using this

theorem byteBits_eq (b : Nat) : byteBits b = toBits 8 b := by
  simp [byteBits, toBits, shr_and_one]

theorem toBits_congr {n a b : Nat} (h : a % 2 ^ n = b % 2 ^ n) : toBits n a = toBits n b := by
  apply num_inj
  · simp
  · rw [num_toBits, num_toBits, h]

theorem toBits_succ (n v : Nat) : toBits (n + 1) v = toBits n (v / 2) ++ [v.testBit 0] := by
  induction n with
  | zero => rfl
  | succ n ih =>
    rw [toBits, ih]
    conv_rhs => rw [toBits]
    rw [List.cons_append, Nat.testBit_succ]

theorem toBits_append (a b v : Nat) : toBits (a + b) v = toBits a (v / 2 ^ b) ++ toBits b v := by
  apply num_inj
  · simp
  · rw [num_append, num_toBits, num_toBits, num_toBits, length_toBits, pow_add, Nat.mul_comm (2 ^ a), Nat.mod_mul]
    ring

/-! ## uvlc -/

theorem leadingZeros_spec (n : Nat) (rest : Bits) :
    leadingZeros (List.replicate n false ++ true :: rest) = some (n, rest) := by
  induction n with
  | zero => rfl
  | succ n ih => rw [List.replicate_succ, List.cons_append, leadingZeros, ih]; rfl

theorem encodeUvlc_eq (v : Nat) (h : v + 1 < 2 ^ 32) :
    encodeUvlc v = some (List.replicate (v + 1).log2 false ++ true :: toBits (v + 1).log2 (v + 1)) := by
  have hl : (v + 1).log2 < 32 := (Nat.log2_lt (by omega)).2 h
  unfold encodeUvlc
  rw [if_neg (by omega)]
  simp only [Option.bind_eq_bind]
  rw [msb64_eq _ (by omega)]
  simp only [Option.bind_some]
  rw [pushLoop_eq _ _ _ (by omega)]
  rfl

theorem decodeUvlc_spec (v : Nat) (h : v + 1 < 2 ^ 32) (rest : Bits) :
    decodeUvlc (List.replicate (v + 1).log2 false ++ true :: toBits (v + 1).log2 (v + 1) ++ rest) = some (v, rest) := by
  have hl : (v + 1).log2 < 32 := (Nat.log2_lt (by omega)).2 h
  have h1 := Nat.log2_self_le (n := v + 1) (by omega)
  have h2 := @Nat.lt_log2_self (v + 1)
  unfold decodeUvlc
  rw [List.append_assoc, List.cons_append, leadingZeros_spec]
  simp only [Option.bind_eq_bind, Option.bind_some]
  rw [if_neg (by omega), popBits_toBits]
  simp only [Option.bind_some, Nat.shiftLeft_eq, Nat.one_mul]
  have e : (v + 1) % 2 ^ (v + 1).log2 = v + 1 - 2 ^ (v + 1).log2 := by
    rw [Nat.mod_eq_sub_mod h1, Nat.mod_eq_of_lt]
    rw [pow_succ] at h2; omega
  rw [e]
  have : v + 1 - 2 ^ (v + 1).log2 + 2 ^ (v + 1).log2 - 1 = v := by omega
  rw [this, Nat.mod_eq_of_lt (by omega)]

/-! ## little endian -/

/-- `n` little-endian bytes starting at byte `i`. -/
def leBits (val : Nat) : Nat → Nat → Bits
  | _, 0 => []
  | i, n + 1 => toBits 8 (val / 2 ^ (8 * i)) ++ leBits val (i + 1) n

theorem length_leBits (val : Nat) : ∀ i n, (leBits val i n).length = 8 * n
  | _, 0 => rfl
  | i, n + 1 => by rw [leBits, List.length_append, length_toBits, length_leBits val (i + 1) n]; ring

theorem encodeLeGo_eq (val : Nat) : ∀ (n i : Nat), i + n ≤ 8 → encodeLeGo val i n = some (leBits val i n)
  | 0, _, _ => rfl
  | n + 1, i, h => by
    rw [encodeLeGo, if_neg (by omega), encodeLeGo_eq val n (i + 1) (by omega), byteBits_eq, leBits, Option.map_some]
    congr 2
    apply toBits_congr
    rw [show (0xff : Nat) = 2 ^ 8 - 1 from rfl, Nat.and_two_pow_sub_one_eq_mod, Nat.shiftRight_eq_div_pow, Nat.mul_comm]
    simp

theorem encodeLeGo_none (val : Nat) : ∀ (n i : Nat), 8 < i + n → 0 < n → encodeLeGo val i n = none
  | 0, _, _, h => by omega
  | n + 1, i, h, _ => by
    rw [encodeLeGo]
    split
    · rfl
    · rw [encodeLeGo_none val n (i + 1) (by omega) (by omega)]; rfl

theorem decodeLeGo_spec (val : Nat) (rest : Bits) : ∀ (n i : Nat), i + n ≤ 8 →
    decodeLeGo (val % 2 ^ (8 * i)) i n (leBits val i n ++ rest) = some (val % 2 ^ (8 * (i + n)), rest)
  | 0, i, _ => by simp [decodeLeGo, leBits]
  | n + 1, i, h => by
    rw [leBits, List.append_assoc, decodeLeGo, popBits_toBits]
    simp only [Option.bind_eq_bind, Option.bind_some]
    rw [if_neg (by omega)]
    have e : val % 2 ^ (8 * i) + (val / 2 ^ (8 * i) % 2 ^ 8) <<< (i * 8) = val % 2 ^ (8 * (i + 1)) := by
      rw [Nat.shiftLeft_eq, show 8 * (i + 1) = 8 * i + 8 by ring, pow_add, Nat.mod_mul, Nat.mul_comm i 8]
      ring
    rw [e, decodeLeGo_spec val rest n (i + 1) (by omega), show i + 1 + n = i + (n + 1) by ring]

/-! ## leb128 -/

/-- Number of 7-bit groups. -/
def lebBytes (v : Nat) : Nat := if v < 128 then 1 else lebBytes (v / 128) + 1
termination_by v
decreasing_by omega

/-- leb128 code word with `k` bytes. -/
def lebBits : Nat → Nat → Bits
  | 0, _ => []
  | 1, v => false :: toBits 7 v
  | k + 2, v => true :: toBits 7 v ++ lebBits (k + 1) (v / 128)

theorem lebBytes_pos (v : Nat) : 0 < lebBytes v := by unfold lebBytes; split <;> omega

theorem length_lebBits : ∀ k v, (lebBits k v).length = 8 * k
  | 0, _ => rfl
  | 1, v => by simp [lebBits]
  | k + 2, v => by rw [lebBits, List.cons_append, List.length_cons, List.length_append, length_lebBits]; simp; ring

/-- `lebBytes` is the least number of groups that holds the value. -/
theorem lebBytes_le_iff (v : Nat) : ∀ k, 0 < k → (lebBytes v ≤ k ↔ v < 2 ^ (7 * k)) := by
  induction v using Nat.strongRecOn with
  | ind v ih =>
    intro k hk
    unfold lebBytes
    split
    · rename_i h
      refine iff_of_true (by omega) (lt_of_lt_of_le h ?_)
      calc 128 = 2 ^ 7 := rfl
        _ ≤ 2 ^ (7 * k) := Nat.pow_le_pow_right (by decide) (by omega)
    · rename_i h
      rcases k with _ | _ | k
      · omega
      · have := lebBytes_pos (v / 128)
        simp
        omega
      · have := ih (v / 128) (by omega) (k + 1) (by omega)
        rw [show (lebBytes (v / 128) + 1 ≤ k + 1 + 1) ↔ lebBytes (v / 128) ≤ k + 1 by omega, this,
          show 7 * (k + 1 + 1) = 7 * (k + 1) + 7 by ring, pow_add, Nat.div_lt_iff_lt_mul (by decide)]
        norm_num

theorem lebLoop_eq : ∀ (fuel v : Nat), lebBytes v ≤ fuel → lebLoop fuel v = some (lebBits (lebBytes v) v)
  | 0, v, h => by have := lebBytes_pos v; omega
  | fuel + 1, v, h => by
    rw [lebLoop, pushLoop_eq _ _ _ (by omega)]
    simp only [Option.bind_eq_bind, Option.bind_some]
    rw [Nat.shiftRight_eq_div_pow]
    unfold lebBytes at h ⊢
    split at h
    · rename_i hv
      rw [if_pos hv, if_neg (by norm_num; omega)]
      simp [lebBits]; omega
    · rename_i hv
      rw [if_neg hv, if_pos (by norm_num; omega), lebLoop_eq fuel _ (by norm_num; omega)]
      obtain ⟨k, hk⟩ : ∃ k, lebBytes (v / 128) = k + 1 := ⟨lebBytes (v / 128) - 1, by have := lebBytes_pos (v / 128); omega⟩
      norm_num
      rw [hk, lebBits]
      simp; omega

theorem leb_and (b : Bool) (v : Nat) (hv : v < 128) :
    (b.toNat * 128 + v) &&& 0x7f = v ∧ ((b.toNat * 128 + v) &&& 0x80 = 0 ↔ b = false) := by
  revert v
  revert b
  decide +kernel

theorem or_shift (a b i : Nat) (h : a < 2 ^ i) : a ||| (b <<< i) = a + b * 2 ^ i := by
  rw [Nat.or_comm, Nat.shiftLeft_eq, Nat.mul_comm, ← Nat.two_pow_add_eq_or_of_lt h]; ring

theorem decodeLebGo_spec (rest : Bits) : ∀ (n k acc i v : Nat), 0 < k → k ≤ n → acc < 2 ^ (7 * i) → v < 2 ^ (7 * k) →
    decodeLebGo acc i n (lebBits k v ++ rest) = some (acc + v * 2 ^ (7 * i), rest)
  | 0, k, acc, i, v, h0, hk, ha, hv => by omega
  | n + 1, 0, acc, i, v, h0, hk, ha, hv => by omega
  | n + 1, 1, acc, i, v, h0, hk, ha, hv => by
    have hv' : v < 128 := by simpa using hv
    have hp := popBits_append (false :: toBits 7 v) rest 0
    rw [num_cons, num_toBits, List.length_cons, length_toBits, Nat.mod_eq_of_lt (by simpa using hv)] at hp
    norm_num at hp
    have := leb_and false v hv'
    simp only [Bool.toNat_false, Nat.zero_mul, Nat.zero_add] at this
    rw [lebBits, decodeLebGo]
    rw [List.cons_append, hp]
    simp only [Option.bind_eq_bind, Option.bind_some]
    rw [if_pos (this.2.2 trivial), this.1, Nat.mul_comm i 7, or_shift _ _ _ ha]
  | n + 1, k + 2, acc, i, v, h0, hk, ha, hv => by
    have hp := popBits_append (true :: toBits 7 v) (lebBits (k + 1) (v / 128) ++ rest) 0
    rw [num_cons, num_toBits, List.length_cons, length_toBits] at hp
    norm_num at hp
    have hlt : v % 128 < 128 := by omega
    have := leb_and true (v % 128) hlt
    simp only [Bool.toNat_true, Nat.one_mul] at this
    rw [lebBits, decodeLebGo, List.append_assoc, List.cons_append, hp]
    simp only [Option.bind_eq_bind, Option.bind_some]
    rw [if_neg (by intro h; exact absurd (this.2.1 h) (by decide)), this.1, Nat.mul_comm i 7, or_shift _ _ _ ha,
      decodeLebGo_spec rest n (k + 1) _ (i + 1) (v / 128) (by omega) (by omega) ?_ ?_]
    · congr 2
      rw [show 7 * (i + 1) = 7 * i + 7 by ring, pow_add]
      have : v = 128 * (v / 128) + v % 128 := (Nat.div_add_mod v 128).symm
      conv_rhs => rw [this]
      norm_num; ring
    · rw [show 7 * (i + 1) = 7 * i + 7 by ring, pow_add]
      have hp : 0 < 2 ^ (7 * i) := by positivity
      nlinarith
    · rw [Nat.div_lt_iff_lt_mul (by decide)]
      calc v < 2 ^ (7 * (k + 2)) := hv
        _ = _ := by rw [show 7 * (k + 2) = 7 * (k + 1) + 7 by ring, pow_add]; norm_num

/-! ## signed -/

theorem encodeSu_eq (v : Int) (n : Nat) (h1 : 1 ≤ n) (h2 : n ≤ 62) (hlo : -2 ^ (n - 1) ≤ v) (hhi : v < 2 ^ (n - 1)) :
    encodeSu v n = some (toBits n (v % 2 ^ n).toNat) := by
  obtain ⟨m, rfl⟩ : ∃ m, n = m + 1 := ⟨n - 1, by omega⟩
  simp only [Nat.add_sub_cancel] at *
  have hp : (0 : Int) < 2 ^ m := by positivity
  have hp' : 0 < 2 ^ m := by positivity
  have hm : (2 : Int) ^ m ≤ 2 ^ 61 := by
    exact_mod_cast Nat.pow_le_pow_right (by decide) (show m ≤ 61 by omega)
  unfold encodeSu
  rw [if_neg (by omega)]
  simp only [Nat.add_sub_cancel, Option.bind_eq_bind]
  rw [pow_succ (2 : Int) m, toBits, Nat.testBit_eq_decide_div_mod_eq]
  by_cases hv : v < 0
  · rw [if_pos hv, if_neg (by omega)]
    have e1 : ((v + 2 * ((1 <<< m : Nat) : Int)) % 2 ^ 64).toNat = (v + 2 * 2 ^ m).toNat := by
      rw [Nat.shiftLeft_eq, Nat.one_mul, Int.emod_eq_of_lt]
      · push_cast; rfl
      · push_cast; omega
      · push_cast; omega
    have e2 : v % (2 ^ m * 2) = v + 2 * 2 ^ m := by
      rw [← Int.add_emod_right, Int.emod_eq_of_lt (by omega) (by omega)]; ring
    rw [e1, e2, pushLoop_eq _ _ _ (by omega)]
    simp only [Option.bind_some]
    congr 2
    obtain ⟨u, hu⟩ := Int.eq_ofNat_of_zero_le (show 0 ≤ v + 2 ^ m by omega)
    have : (v + 2 * 2 ^ m).toNat = 2 ^ m + u := by
      have h3 : ((2 ^ m : Nat) : Int) = 2 ^ m := by push_cast; rfl

      omega
    rw [this]
    have hu2 : u < 2 ^ m := by
      have h3 : ((2 ^ m : Nat) : Int) = 2 ^ m := by push_cast; rfl

      omega
    rw [Nat.add_div_left _ hp', Nat.div_eq_of_lt hu2]
    simp
  · rw [if_neg hv, pushLoop_eq _ _ _ (by omega)]
    simp only [Option.bind_some]
    have e2 : v % (2 ^ m * 2) = v := Int.emod_eq_of_lt (by omega) (by omega)
    rw [e2]
    congr 2
    have h3 : ((2 ^ m : Nat) : Int) = 2 ^ m := by push_cast; rfl
    rw [Nat.div_eq_of_lt (by omega)]
    simp

theorem decodeSu_spec (v : Int) (n : Nat) (h1 : 1 ≤ n) (h2 : n ≤ 62) (hlo : -2 ^ (n - 1) ≤ v) (hhi : v < 2 ^ (n - 1))
    (rest : Bits) : decodeSu (toBits n (v % 2 ^ n).toNat ++ rest) n = some (v, rest) := by
  obtain ⟨m, rfl⟩ : ∃ m, n = m + 1 := ⟨n - 1, by omega⟩
  simp only [Nat.add_sub_cancel] at *
  have hp : (0 : Int) < 2 ^ m := by positivity
  have hp' : 0 < 2 ^ m := by positivity
  have h3 : ((2 ^ m : Nat) : Int) = 2 ^ m := by push_cast; rfl
  have hm' : 2 ^ m ≤ 2 ^ 61 := Nat.pow_le_pow_right (by decide) (show m ≤ 61 by omega)
  unfold decodeSu
  rw [popBits_toBits]
  simp only [Nat.add_sub_cancel, Option.bind_eq_bind, Option.bind_some, Nat.shiftLeft_eq, Nat.one_mul]
  rw [if_neg (by omega)]
  have hmod : (v % 2 ^ (m + 1)).toNat % 2 ^ (m + 1) % 2 ^ 64 = (v % 2 ^ (m + 1)).toNat := by
    have hb : (v % 2 ^ (m + 1)).toNat < 2 ^ (m + 1) := by
      have := Int.emod_lt_of_pos v (show (0 : Int) < 2 ^ (m + 1) by positivity)
      have h0 := Int.emod_nonneg v (show (2 : Int) ^ (m + 1) ≠ 0 by positivity)
      have h4 : ((2 ^ (m + 1) : Nat) : Int) = 2 ^ (m + 1) := by push_cast; rfl
      omega
    rw [Nat.mod_eq_of_lt hb, Nat.mod_eq_of_lt]
    rw [pow_succ] at hb; omega
  rw [hmod]
  have hand : ∀ x, (x &&& 2 ^ m > 0) ↔ x.testBit m = true := by
    intro x
    rw [Nat.and_two_pow]
    cases x.testBit m <;> simp
  simp only [hand]
  rw [Nat.testBit_eq_decide_div_mod_eq, pow_succ (2 : Int) m]
  by_cases hv : v < 0
  · have e2 : v % (2 ^ m * 2) = v + 2 * 2 ^ m := by
      rw [← Int.add_emod_right, Int.emod_eq_of_lt (by omega) (by omega)]; ring
    rw [e2]
    have hu : (v + 2 * 2 ^ m).toNat / 2 ^ m = 1 := by
      apply Nat.div_eq_of_lt_le <;> omega
    have hm62 : ¬ 62 ≤ m := by omega
    rw [hu]
    simp [hm62]
    omega
  · have e2 : v % (2 ^ m * 2) = v := Int.emod_eq_of_lt (by omega) (by omega)
    rw [e2, Nat.div_eq_of_lt (by omega)]
    simp
    omega

/-! ## non-symmetric -/

theorem log2_ns (n : Nat) (h : 0 < n) : 2 ^ n.log2 ≤ n ∧ n < 2 ^ (n.log2 + 1) :=
  ⟨Nat.log2_self_le (by omega), Nat.lt_log2_self⟩

/-- The non-symmetric code word. -/
def nsBits (v n : Nat) : Bits :=
  if v < 2 ^ (n.log2 + 1) - n then toBits n.log2 v else toBits (n.log2 + 1) (v + (2 ^ (n.log2 + 1) - n))

theorem encodeNs_eq (v n : Nat) (h1 : 1 ≤ n) (h2 : n < 2 ^ 63) (hv : v < n) : encodeNs v n = some (nsBits v n) := by
  have hl : n.log2 < 63 := (Nat.log2_lt (by omega)).2 h2
  have hn := log2_ns n (by omega)
  have hp : 2 ^ (n.log2 + 1) ≤ 2 ^ 63 := Nat.pow_le_pow_right (by decide) (by omega)
  unfold encodeNs nsBits
  rw [floorLog2_eq, if_neg (by omega)]
  simp only [Option.map_some, Option.bind_eq_bind, Option.bind_some, Nat.shiftLeft_eq, Nat.one_mul, Nat.add_sub_cancel]
  rw [if_neg (by omega)]
  split
  · rw [pushLoop_eq _ _ _ (by omega)]
  · rw [if_neg (by omega), pushLoop_eq _ _ _ (by omega)]
    simp only [Option.bind_some]
    rw [toBits_succ, Nat.shiftRight_one]
    congr 2
    have := shr_and_one (v + (2 ^ (n.log2 + 1) - n)) 0
    simp only [Nat.shiftRight_zero] at this
    rw [this]

theorem decodeNs_spec (v n : Nat) (h1 : 1 ≤ n) (h2 : n < 2 ^ 63) (hv : v < n) (rest : Bits) :
    decodeNs (nsBits v n ++ rest) n = some (v, rest) := by
  have hl : n.log2 < 63 := (Nat.log2_lt (by omega)).2 h2
  have hn := log2_ns n (by omega)
  have hp : 2 ^ (n.log2 + 1) ≤ 2 ^ 63 := Nat.pow_le_pow_right (by decide) (by omega)
  have hp2 : 2 ^ (n.log2 + 1) = 2 * 2 ^ n.log2 := by rw [pow_succ]; ring
  unfold decodeNs nsBits
  rw [floorLog2_eq, if_neg (by omega)]
  simp only [Option.map_some, Option.bind_eq_bind, Option.bind_some, Nat.shiftLeft_eq, Nat.one_mul, Nat.add_sub_cancel]
  rw [if_neg (by omega)]
  split
  · rename_i hm
    rw [popBits_toBits, Nat.mod_eq_of_lt (by omega)]
    simp [hm]
  · rename_i hm
    rw [toBits_succ, List.append_assoc, popBits_toBits, Nat.mod_eq_of_lt (by omega)]
    simp only [Option.bind_some]
    rw [if_neg (by omega)]
    simp only [List.cons_append, List.nil_append]
    congr 2
    rw [Nat.testBit_zero]
    have := Nat.div_add_mod (v + (2 ^ (n.log2 + 1) - n)) 2
    rcases Nat.mod_two_eq_zero_or_one (v + (2 ^ (n.log2 + 1) - n)) with h | h <;> simp [h] <;> omega

end Av1
