import Verif.Props.Codes
import Verif.Lemmas.AnyInput

/-!
# C141: header codes read from any input

C11–C17 say that what is written is read back.  Here the bits are arbitrary: what is read is in range, and writing it gives
the bits that were read, except for two codes that have more than one word for a value.
-/

namespace Av1

/-- The parameters of the field are ones its code can deal with. -/
def Kind.Ok : Kind → Prop
  | .fixed n => n ≤ 32
  | .uvlc => True
  | .le n => n ≤ 8
  | .leb128 => True
  | .su n => 1 ≤ n ∧ n ≤ 62
  | .ns n => 1 ≤ n ∧ n < 2 ^ 63

/-- The code has one word per value. -/
def Kind.Unique : Kind → Prop
  | .uvlc => False
  | .leb128 => False
  | _ => True

theorem popBits_some' {n : Nat} {input : Bits} {v : Nat} {rest : Bits} (h : popBits n 0 input = some (v, rest)) :
    v < 2 ^ n ∧ input = toBits n v ++ rest := by
  obtain ⟨used, rfl, h2, h3⟩ := popBits_some n 0 input h
  rw [Nat.zero_mul, Nat.zero_add] at h3
  subst h3
  have hlt := num_lt used
  rw [h2] at hlt
  refine ⟨hlt, ?_⟩
  congr 1
  apply num_inj
  · rw [length_toBits, h2]
  · rw [num_toBits, Nat.mod_eq_of_lt hlt]

theorem popBits_isSome {n : Nat} {input : Bits} (h : n ≤ input.length) : (popBits n 0 input).isSome := by
  have hp := popBits_append (input.take n) (input.drop n) 0
  rw [List.take_append_drop, List.length_take, Nat.min_eq_left h] at hp
  rw [hp]; rfl

theorem leadingZeros_some : ∀ (input : Bits) {n : Nat} {rest : Bits}, leadingZeros input = some (n, rest) →
    input = List.replicate n false ++ true :: rest
  | [], n, rest, h => by simp [leadingZeros] at h
  | true :: input, n, rest, h => by
    simp only [leadingZeros, Option.some.injEq, Prod.mk.injEq] at h
    rw [← h.1, ← h.2]; rfl
  | false :: input, n, rest, h => by
    simp only [leadingZeros, Option.map_eq_some_iff, Prod.mk.injEq] at h
    obtain ⟨⟨m, r⟩, h1, rfl, rfl⟩ := h
    rw [leadingZeros_some input h1]; rfl

theorem decodeUvlc_some {input : Bits} {v : Nat} {rest : Bits} (h : decodeUvlc input = some (v, rest)) :
    (v < 2 ^ 32 - 1 ∧ ∃ e, encodeUvlc v = some e ∧ input = e ++ rest) ∨
    (v = 2 ^ 32 - 1 ∧ ∃ k, 32 ≤ k ∧ input = List.replicate k false ++ true :: rest) := by
  simp only [decodeUvlc, Option.bind_eq_bind, Option.bind_eq_some_iff] at h
  obtain ⟨⟨n, r⟩, h1, h2⟩ := h
  obtain rfl := leadingZeros_some input h1
  simp only at h2
  split at h2
  · rename_i hn
    simp only [Option.some.injEq, Prod.mk.injEq] at h2
    obtain ⟨rfl, rfl⟩ := h2
    exact Or.inr ⟨rfl, n, hn, rfl⟩
  · rename_i hn
    simp only [Option.bind_eq_some_iff, Option.some.injEq, Prod.mk.injEq] at h2
    obtain ⟨⟨w, r'⟩, h3, rfl, rfl⟩ := h2
    obtain ⟨hw, rfl⟩ := popBits_some' h3
    have hp : 2 ^ n ≤ 2 ^ 31 := Nat.pow_le_pow_right (by decide) (by omega)
    have hp0 : 0 < 2 ^ n := by positivity
    have hv : (w + 1 <<< n - 1) % 2 ^ 32 = w + 2 ^ n - 1 := by
      rw [Nat.shiftLeft_eq, Nat.one_mul, Nat.mod_eq_of_lt]
      norm_num at hp ⊢; omega
    simp only [hv]
    have hlt : w + 2 ^ n - 1 < 2 ^ 32 - 1 := by norm_num at hp ⊢; omega
    refine Or.inl ⟨hlt, _, encodeUvlc_eq _ (by omega), ?_⟩
    have e1 : w + 2 ^ n - 1 + 1 = w + 2 ^ n := by omega
    have hl : (w + 2 ^ n).log2 = n := by
      rw [Nat.log2_eq_iff (by omega)]
      constructor
      · omega
      · rw [pow_succ]; omega
    rw [e1, hl, List.append_assoc, List.cons_append]
    congr 3
    apply toBits_congr
    rw [Nat.add_mod_right]

theorem decodeLeGo_some : ∀ (n i t : Nat) (input : Bits) {v : Nat} {rest : Bits}, t < 2 ^ (8 * i) →
    decodeLeGo t i n input = some (v, rest) →
    v < 2 ^ (8 * (i + n)) ∧ v % 2 ^ (8 * i) = t ∧ input = leBits v i n ++ rest
  | 0, i, t, input, v, rest, ht, h => by
    simp only [decodeLeGo, Option.some.injEq, Prod.mk.injEq] at h
    obtain ⟨rfl, rfl⟩ := h
    exact ⟨by simpa using ht, Nat.mod_eq_of_lt ht, rfl⟩
  | n + 1, i, t, input, v, rest, ht, h => by
    simp only [decodeLeGo, Option.bind_eq_bind, Option.bind_eq_some_iff] at h
    obtain ⟨⟨b, r⟩, h1, h2⟩ := h
    obtain ⟨hb, rfl⟩ := popBits_some' h1
    simp only at h2
    split at h2
    · simp at h2
    · have e : 2 ^ (8 * (i + 1)) = 2 ^ (8 * i) * 2 ^ 8 := by rw [← pow_add]; rfl
      have hp : 0 < 2 ^ (8 * i) := by positivity
      rw [Nat.shiftLeft_eq, Nat.mul_comm i 8] at h2
      have ht' : t + b * 2 ^ (8 * i) < 2 ^ (8 * (i + 1)) := by
        rw [e]
        have : (b + 1) * 2 ^ (8 * i) ≤ 2 ^ 8 * 2 ^ (8 * i) := Nat.mul_le_mul_right _ hb
        rw [Nat.add_mul, Nat.one_mul] at this
        rw [Nat.mul_comm (2 ^ (8 * i))]
        omega
      obtain ⟨a1, a2, rfl⟩ := decodeLeGo_some n (i + 1) _ r ht' h2
      refine ⟨by rw [show i + (n + 1) = i + 1 + n by omega]; exact a1, ?_, ?_⟩
      · have : v % 2 ^ (8 * (i + 1)) % 2 ^ (8 * i) = v % 2 ^ (8 * i) :=
          Nat.mod_mod_of_dvd v (pow_dvd_pow 2 (by omega))
        rw [← this, a2, Nat.add_mul_mod_self_right, Nat.mod_eq_of_lt ht]
      · rw [leBits, List.append_assoc]
        congr 1
        have hd : v / 2 ^ (8 * i) % 2 ^ 8 = b := by
          rw [← Nat.mod_mul_right_div_self, ← e, a2, Nat.add_mul_div_right _ _ hp, Nat.div_eq_of_lt ht, Nat.zero_add]
        apply toBits_congr
        rw [hd, Nat.mod_eq_of_lt hb]

theorem decodeSu_some {n : Nat} (h1 : 1 ≤ n) (h2 : n ≤ 62) {input : Bits} {v : Int} {rest : Bits}
    (h : decodeSu input n = some (v, rest)) :
    -2 ^ (n - 1) ≤ v ∧ v < 2 ^ (n - 1) ∧ ∃ e, encodeSu v n = some e ∧ input = e ++ rest := by
  simp only [decodeSu, Option.bind_eq_bind, Option.bind_eq_some_iff] at h
  obtain ⟨⟨w, r⟩, h3, h4⟩ := h
  obtain ⟨hw, rfl⟩ := popBits_some' h3
  -- any value in range whose two's complement is `w` is read from these bits
  have hp : (0 : Int) < 2 ^ (n - 1) := by positivity
  have e2 : (2 : Int) ^ n = 2 * 2 ^ (n - 1) := by rw [← pow_succ', Nat.sub_add_cancel h1]
  have hwi : (w : Int) < 2 ^ n := by exact_mod_cast hw
  obtain ⟨u, hu1, hu2, hu3⟩ : ∃ u : Int, -2 ^ (n - 1) ≤ u ∧ u < 2 ^ (n - 1) ∧ u % 2 ^ n = w := by
    by_cases hc : (w : Int) < 2 ^ (n - 1)
    · exact ⟨w, by omega, hc, Int.emod_eq_of_lt (by omega) hwi⟩
    · refine ⟨w - 2 ^ n, by omega, by omega, ?_⟩
      rw [Int.sub_emod_right, Int.emod_eq_of_lt (by omega) hwi]
  have hs := decodeSu_spec u n h1 h2 hu1 hu2 r
  rw [hu3, Int.toNat_natCast] at hs
  have hd : decodeSu (toBits n w ++ r) n = some (v, rest) := by
    simp only [decodeSu, Option.bind_eq_bind, Option.bind_eq_some_iff]
    exact ⟨_, h3, h4⟩
  rw [hs] at hd
  simp only [Option.some.injEq, Prod.mk.injEq] at hd
  obtain ⟨rfl, rfl⟩ := hd
  refine ⟨hu1, hu2, _, encodeSu_eq u n h1 h2 hu1 hu2, ?_⟩
  rw [hu3, Int.toNat_natCast]

theorem decodeNs_some {n : Nat} (h1 : 1 ≤ n) (h2 : n < 2 ^ 63) {input : Bits} {v : Nat} {rest : Bits}
    (h : decodeNs input n = some (v, rest)) : v < n ∧ ∃ e, encodeNs v n = some e ∧ input = e ++ rest := by
  have hl : n.log2 < 63 := (Nat.log2_lt (by omega)).2 h2
  have hn := log2_ns n (by omega)
  have hp2 : 2 ^ (n.log2 + 1) = 2 * 2 ^ n.log2 := by rw [pow_succ]; ring
  unfold decodeNs at h
  rw [floorLog2_eq, if_neg (by omega)] at h
  simp only [Option.map_some, Option.bind_eq_bind, Option.bind_some, Nat.shiftLeft_eq, Nat.one_mul, Nat.add_sub_cancel,
    if_neg (show ¬ n.log2 + 1 ≥ 64 by omega)] at h
  simp only [Option.bind_eq_some_iff] at h
  obtain ⟨⟨w, r⟩, h3, h4⟩ := h
  obtain ⟨hw, rfl⟩ := popBits_some' h3
  simp only at h4
  split at h4
  · rename_i hm
    simp only [Option.some.injEq, Prod.mk.injEq] at h4
    obtain ⟨rfl, rfl⟩ := h4
    have hv : w < n := by omega
    refine ⟨hv, _, encodeNs_eq w n h1 h2 hv, ?_⟩
    rw [nsBits, if_pos hm]
  · rename_i hm
    cases r with
    | nil => simp at h4
    | cons b r =>
      simp only [Option.some.injEq, Prod.mk.injEq] at h4
      obtain ⟨rfl, rfl⟩ := h4
      have hb : b.toNat ≤ 1 := by cases b <;> simp
      have hv : w * 2 ^ 1 - (2 ^ (n.log2 + 1) - n) + b.toNat < n := by omega
      refine ⟨hv, _, encodeNs_eq _ n h1 h2 hv, ?_⟩
      have e : w * 2 ^ 1 - (2 ^ (n.log2 + 1) - n) + b.toNat + (2 ^ (n.log2 + 1) - n) = 2 * w + b.toNat := by omega
      rw [nsBits, if_neg (by omega), e, toBits_succ]
      have e1 : (2 * w + b.toNat) / 2 = w := by omega
      have e3 : (2 * w + b.toNat).testBit 0 = b := by
        rw [Nat.testBit_zero]
        cases b <;> simp
      rw [e1, e3, List.append_assoc]
      rfl

/-! ### leb128 -/

/-- The code word of `v` with `k` bytes all of which say that another one follows. -/
def lebOpen : Nat → Nat → Bits
  | 0, _ => []
  | k + 1, v => true :: toBits 7 v ++ lebOpen k (v / 128)

theorem length_lebOpen : ∀ k v, (lebOpen k v).length = 8 * k
  | 0, _ => rfl
  | k + 1, v => by rw [lebOpen, List.cons_append, List.length_cons, List.length_append, length_lebOpen]; simp; ring

theorem decodeLebGo_some : ∀ (n i acc : Nat) (input : Bits) {w : Nat} {rest : Bits}, acc < 2 ^ (7 * i) →
    decodeLebGo acc i n input = some (w, rest) →
    ∃ k v, k ≤ n ∧ v < 2 ^ (7 * k) ∧ w = acc + v * 2 ^ (7 * i) ∧
      ((1 ≤ k ∧ input = lebBits k v ++ rest) ∨ (k = n ∧ input = lebOpen k v ++ rest))
  | 0, i, acc, input, w, rest, ha, h => by
    simp only [decodeLebGo, Option.some.injEq, Prod.mk.injEq] at h
    obtain ⟨rfl, rfl⟩ := h
    exact ⟨0, 0, le_refl _, by simp, by simp, Or.inr ⟨rfl, rfl⟩⟩
  | n + 1, i, acc, input, w, rest, ha, h => by
    simp only [decodeLebGo, Option.bind_eq_bind, Option.bind_eq_some_iff] at h
    obtain ⟨⟨b, r⟩, h1, h2⟩ := h
    obtain ⟨hb, rfl⟩ := popBits_some' h1
    simp only at h2
    obtain ⟨t, x, hx, rfl⟩ : ∃ (t : Bool) (x : Nat), x < 128 ∧ b = t.toNat * 128 + x := by
      by_cases hc : b < 128
      · exact ⟨false, b, hc, by simp⟩
      · exact ⟨true, b - 128, by omega, by simp; omega⟩
    obtain ⟨hand, htop⟩ := leb_and t x hx
    have hor := or_shift acc x (i * 7) (by rw [Nat.mul_comm]; exact ha)
    rw [hand, hor, Nat.mul_comm i 7] at h2
    have hbits : toBits 8 (t.toNat * 128 + x) = t :: toBits 7 x := by
      apply num_inj
      · simp
      · rw [num_toBits, num_cons, num_toBits, length_toBits, Nat.mod_eq_of_lt hb,
          Nat.mod_eq_of_lt (show x < 2 ^ 7 by omega)]
        rfl
    rw [hbits]
    split at h2
    · rename_i hz
      simp only [Option.some.injEq, Prod.mk.injEq] at h2
      obtain ⟨rfl, rfl⟩ := h2
      rw [htop.1 hz]
      exact ⟨1, x, by omega, by omega, rfl, Or.inl ⟨le_refl _, rfl⟩⟩
    · rename_i hz
      have ht : t = true := by
        cases t with
        | true => rfl
        | false => exact absurd (htop.2 rfl) hz
      subst ht
      have e7 : 2 ^ (7 * (i + 1)) = 2 ^ (7 * i) * 128 := by
        rw [show 7 * (i + 1) = 7 * i + 7 by ring, pow_add]; norm_num
      have ha' : acc + x * 2 ^ (7 * i) < 2 ^ (7 * (i + 1)) := by
        have : (x + 1) * 2 ^ (7 * i) ≤ 128 * 2 ^ (7 * i) := Nat.mul_le_mul_right _ hx
        rw [Nat.add_mul, Nat.one_mul] at this
        rw [e7, Nat.mul_comm (2 ^ (7 * i))]
        omega
      obtain ⟨k, v, k1, k2, rfl, k4⟩ := decodeLebGo_some n (i + 1) _ r ha' h2
      have hdiv : (x + v * 128) / 128 = v := by omega
      have hmod : toBits 7 x = toBits 7 (x + v * 128) := by
        apply toBits_congr
        rw [show 2 ^ 7 = 128 from rfl, Nat.add_mul_mod_self_right]
      refine ⟨k + 1, x + v * 128, by omega, ?_, ?_, ?_⟩
      · have e7' : 2 ^ (7 * (k + 1)) = 2 ^ (7 * k) * 128 := by
          rw [show 7 * (k + 1) = 7 * k + 7 by ring, pow_add]; norm_num
        rw [e7']
        have : (v + 1) * 128 ≤ 2 ^ (7 * k) * 128 := Nat.mul_le_mul_right _ k2
        omega
      · rw [e7]; ring
      · rcases k4 with ⟨l1, rfl⟩ | ⟨rfl, rfl⟩
        · left
          refine ⟨by omega, ?_⟩
          obtain ⟨j, rfl⟩ : ∃ j, k = j + 1 := ⟨k - 1, by omega⟩
          rw [lebBits, hdiv, ← hmod]
          simp
        · right
          refine ⟨rfl, ?_⟩
          rw [lebOpen, hdiv, ← hmod]
          simp

/-- **C141.** Codes with one word per value: what is read from any input is a value of the right kind and in range, and
writing it gives the bits that were read. -/
theorem C141_canonical (k : Kind) (hk : k.Ok) (hu : k.Unique) (input rest : Bits) (f : Field)
    (h : readField input k = some (f, rest)) :
    f.kind = k ∧ f.InRange ∧ ∃ e, writeField f = some e ∧ input = e ++ rest := by
  cases k with
  | fixed n =>
    simp only [readField, Option.map_eq_some_iff, Prod.mk.injEq] at h
    obtain ⟨⟨v, r⟩, h1, rfl, rfl⟩ := h
    obtain ⟨h2, h3⟩ := popBits_some' h1
    exact ⟨rfl, ⟨hk, h2⟩, _, pushLoop_eq 32 v n hk, h3⟩
  | uvlc => exact hu.elim
  | le n =>
    simp only [readField, Option.map_eq_some_iff, Prod.mk.injEq] at h
    obtain ⟨⟨v, r⟩, h1, rfl, rfl⟩ := h
    obtain ⟨h2, -, h3⟩ := decodeLeGo_some n 0 0 input (by simp) h1
    rw [Nat.zero_add] at h2
    have hk' : n ≤ 8 := hk
    exact ⟨rfl, ⟨hk, h2⟩, _, encodeLeGo_eq v n 0 (by omega), h3⟩
  | leb128 => exact hu.elim
  | su n =>
    simp only [readField, Option.map_eq_some_iff, Prod.mk.injEq] at h
    obtain ⟨⟨v, r⟩, h1, rfl, rfl⟩ := h
    obtain ⟨h2, h3, e, h4, h5⟩ := decodeSu_some hk.1 hk.2 h1
    exact ⟨rfl, ⟨hk.1, hk.2, h2, h3⟩, e, h4, h5⟩
  | ns n =>
    simp only [readField, Option.map_eq_some_iff, Prod.mk.injEq] at h
    obtain ⟨⟨v, r⟩, h1, rfl, rfl⟩ := h
    obtain ⟨h2, e, h4, h5⟩ := decodeNs_some hk.1 hk.2 h1
    exact ⟨rfl, ⟨hk.1, hk.2, h2⟩, e, h4, h5⟩

/-- uvlc: the same, but for the value that cannot be written, which has a word for every number of zeros from 32 on. -/
theorem C141_uvlc (input rest : Bits) (f : Field) (h : readField input .uvlc = some (f, rest)) :
    (f.InRange ∧ f.kind = .uvlc ∧ ∃ e, writeField f = some e ∧ input = e ++ rest) ∨
    (f = .uvlc (2 ^ 32 - 1) ∧ writeField f = none ∧ ∃ k, 32 ≤ k ∧ input = List.replicate k false ++ true :: rest) := by
  simp only [readField, Option.map_eq_some_iff, Prod.mk.injEq] at h
  obtain ⟨⟨v, r⟩, h1, rfl, rfl⟩ := h
  rcases decodeUvlc_some h1 with ⟨h2, h3⟩ | ⟨rfl, h3⟩
  · exact Or.inl ⟨h2, rfl, h3⟩
  · exact Or.inr ⟨rfl, C12_uvlc_max, h3⟩

/-- leb128: the value is in range, at most eight bytes are read, and the word that is written is no longer.  It is the word
that was read iff that could not be shorter and its last byte says that it is the last. -/
theorem C141_leb128 (input rest : Bits) (f : Field) (h : readField input .leb128 = some (f, rest)) :
    ∃ v k used e, f = .leb128 v ∧ f.InRange ∧ 1 ≤ k ∧ k ≤ 8 ∧ used.length = 8 * k ∧ input = used ++ rest ∧
      v < 2 ^ (7 * k) ∧ writeField f = some e ∧ e.length ≤ used.length ∧
      (e = used ↔ (k = 1 ∨ 2 ^ (7 * (k - 1)) ≤ v) ∧ used[8 * (k - 1)]? = some false) := by
  simp only [readField, Option.map_eq_some_iff, Prod.mk.injEq] at h
  obtain ⟨⟨w, r⟩, h1, rfl, rfl⟩ := h
  obtain ⟨k, v, k1, k2, rfl, k4⟩ := decodeLebGo_some 8 0 0 input (by simp) h1
  simp only [Nat.zero_add, Nat.mul_zero, pow_zero, Nat.mul_one] at *
  have hk : 1 ≤ k := by rcases k4 with ⟨a, -⟩ | ⟨a, -⟩ <;> omega
  have hv : v < 2 ^ 56 := lt_of_lt_of_le k2 (Nat.pow_le_pow_right (by decide) (by omega))
  have he : encodeLeb128 v = some (lebBits (lebBytes v) v) := by
    unfold encodeLeb128
    rw [if_pos (by rw [Nat.shiftLeft_eq, Nat.one_mul]; exact hv)]
    exact lebLoop_eq 10 v (le_trans ((lebBytes_le_iff v 8 (by decide)).2 hv) (by decide))
  have hle : lebBytes v ≤ k := (lebBytes_le_iff v k hk).2 k2
  have hpos := lebBytes_pos v
  have short : (k = 1 ∨ 2 ^ (7 * (k - 1)) ≤ v) ↔ lebBytes v = k := by
    by_cases h : k = 1
    · exact iff_of_true (Or.inl h) (by omega)
    · have := lebBytes_le_iff v (k - 1) (by omega)
      constructor
      · rintro (h' | h')
        · exact absurd h' h
        · by_contra hne
          have := this.1 (by omega)
          omega
      · intro h'
        right
        by_contra hne
        have := this.2 (by omega)
        omega
  have lastClosed : ∀ (k v : Nat), 1 ≤ k → (lebBits k v)[8 * (k - 1)]? = some false := by
    intro k
    induction k with
    | zero => intro v h; omega
    | succ k ih =>
      intro v _
      cases k with
      | zero => rfl
      | succ k =>
        rw [lebBits, List.cons_append, show 8 * (k + 1 + 1 - 1) = 8 * (k + 1 - 1) + 7 + 1 by omega, List.getElem?_cons_succ,
          List.getElem?_append_right (by simp), length_toBits, Nat.add_sub_cancel]
        exact ih _ (by omega)
  have lastOpen : ∀ (k v : Nat), 1 ≤ k → (lebOpen k v)[8 * (k - 1)]? = some true := by
    intro k
    induction k with
    | zero => intro v h; omega
    | succ k ih =>
      intro v _
      cases k with
      | zero => rfl
      | succ k =>
        rw [lebOpen, List.cons_append, show 8 * (k + 1 + 1 - 1) = 8 * (k + 1 - 1) + 7 + 1 by omega, List.getElem?_cons_succ,
          List.getElem?_append_right (by simp), length_toBits, Nat.add_sub_cancel]
        exact ih _ (by omega)
  rcases k4 with ⟨-, rfl⟩ | ⟨rfl, rfl⟩
  · refine ⟨v, k, lebBits k v, _, rfl, hv, hk, k1, length_lebBits k v, rfl, k2, he, ?_, ?_⟩
    · rw [length_lebBits, length_lebBits]; omega
    · rw [short]
      constructor
      · intro h
        have := congrArg List.length h
        rw [length_lebBits, length_lebBits] at this
        exact ⟨by omega, lastClosed k v hk⟩
      · rintro ⟨h, -⟩; rw [h]
  · refine ⟨v, 8, lebOpen 8 v, _, rfl, hv, hk, k1, length_lebOpen 8 v, rfl, k2, he, ?_, ?_⟩
    · rw [length_lebBits, length_lebOpen]; omega
    · rw [short]
      constructor
      · intro h
        have h8 := congrArg List.length h
        rw [length_lebBits, length_lebOpen] at h8
        have := lastClosed (lebBytes v) v hpos
        rw [h, show lebBytes v = 8 by omega, lastOpen 8 v hk] at this
        simp at this
      · rintro ⟨-, h⟩
        rw [lastOpen 8 v hk] at h
        simp at h

/-- Fields one after the other: from any input the fields that are read are the only ones whose words are these bits. -/
theorem C141_fields : ∀ (ks : List Kind), (∀ k ∈ ks, k.Ok ∧ k.Unique) → ∀ (input rest : Bits) (fs : List Field),
    readFields input ks = some (fs, rest) →
    fs.map Field.kind = ks ∧ (∀ f ∈ fs, f.InRange) ∧ ∃ e, writeFields fs = some e ∧ input = e ++ rest
  | [], _, input, rest, fs, h => by
    simp only [readFields, Option.some.injEq, Prod.mk.injEq] at h
    obtain ⟨rfl, rfl⟩ := h
    exact ⟨rfl, by simp, [], rfl, rfl⟩
  | k :: ks, hk, input, rest, fs, h => by
    simp only [readFields, Option.bind_eq_bind, Option.bind_eq_some_iff, Option.some.injEq, Prod.mk.injEq] at h
    obtain ⟨⟨f, r⟩, h1, ⟨gs, r2⟩, h2, rfl, rfl⟩ := h
    obtain ⟨a1, a2, e, a3, rfl⟩ := C141_canonical k (hk k (by simp)).1 (hk k (by simp)).2 input r f h1
    obtain ⟨b1, b2, e', b3, b4⟩ := C141_fields ks (fun k h => hk k (by simp [h])) r r2 gs h2
    refine ⟨by simp [a1, b1], ?_, e ++ e', by simp [writeFields, a3, b3], by rw [b4, List.append_assoc]⟩
    intro g hg
    rcases List.mem_cons.1 hg with rfl | hg
    · exact a2
    · exact b2 g hg

/-- The most bits a field takes. -/
def Kind.most : Kind → Nat
  | .fixed n => n
  | .uvlc => 0
  | .le n => 8 * n
  | .leb128 => 64
  | .su n => n
  | .ns n => n.log2 + 1

/-- With that many bits every field but a uvlc can be read, whatever they are. -/
theorem C141_total (k : Kind) (hk : k.Ok) (hu : k ≠ .uvlc) (input : Bits) (hl : k.most ≤ input.length) :
    (readField input k).isSome := by
  cases k with
  | uvlc => exact absurd rfl hu
  | fixed n =>
    have := popBits_isSome hl
    simp only [Kind.most] at this
    simpa [readField] using this
  | le n =>
    have key : ∀ (n i t : Nat) (input : Bits), i + n ≤ 8 → 8 * n ≤ input.length → (decodeLeGo t i n input).isSome := by
      intro n
      induction n with
      | zero => intro i t input _ _; rfl
      | succ n ih =>
        intro i t input h1 h2
        obtain ⟨⟨b, r⟩, hp⟩ := Option.isSome_iff_exists.1 (popBits_isSome (n := 8) (input := input) (by omega))
        obtain ⟨-, rfl⟩ := popBits_some' hp
        rw [List.length_append, length_toBits] at h2
        simp only [decodeLeGo, hp, Option.bind_eq_bind, Option.bind_some, if_neg (show ¬ i * 8 ≥ 64 by omega)]
        exact ih _ _ _ (by omega) (by omega)
    have hk' : n ≤ 8 := hk
    simpa [readField, decodeLe] using key n 0 0 input (by omega) hl
  | leb128 =>
    have key : ∀ (n i t : Nat) (input : Bits), 8 * n ≤ input.length → (decodeLebGo t i n input).isSome := by
      intro n
      induction n with
      | zero => intro i t input _; rfl
      | succ n ih =>
        intro i t input h2
        obtain ⟨⟨b, r⟩, hp⟩ := Option.isSome_iff_exists.1 (popBits_isSome (n := 8) (input := input) (by omega))
        obtain ⟨-, rfl⟩ := popBits_some' hp
        rw [List.length_append, length_toBits] at h2
        simp only [decodeLebGo, hp, Option.bind_eq_bind, Option.bind_some]
        split
        · rfl
        · exact ih _ _ _ (by omega)
    simpa [readField, decodeLeb128] using key 8 0 0 input hl
  | su n =>
    obtain ⟨⟨b, r⟩, hp⟩ := Option.isSome_iff_exists.1 (popBits_isSome hl)
    obtain ⟨h1, h2⟩ := hk
    simp only [readField, Kind.most, decodeSu, Option.bind_eq_bind, Option.isSome_map] at hp ⊢
    rw [hp]
    simp only [Option.bind_some, if_neg (show ¬ (n = 0 ∨ n > 64) by omega), if_neg (show ¬ n - 1 ≥ 62 by omega)]
    split <;> rfl
  | ns n =>
    obtain ⟨h1, h2⟩ := hk
    have hll : n.log2 < 63 := (Nat.log2_lt (by omega)).2 h2
    have hl' : n.log2 + 1 ≤ input.length := hl
    obtain ⟨⟨b, r⟩, hp⟩ := Option.isSome_iff_exists.1 (popBits_isSome (n := n.log2) (input := input) (by omega))
    obtain ⟨-, rfl⟩ := popBits_some' hp
    rw [List.length_append, length_toBits] at hl'
    simp only [readField, Option.isSome_map]
    unfold decodeNs
    rw [floorLog2_eq, if_neg (by omega)]
    simp only [Option.map_some, Option.bind_eq_bind, Option.bind_some, Nat.add_sub_cancel, hp,
      if_neg (show ¬ n.log2 + 1 ≥ 64 by omega)]
    split
    · rfl
    · cases r with
      | nil => simp at hl'
      | cons => rfl

/-! ### Concrete cases -/

/-- Two bytes for zero: read as zero, written as one. -/
example : readField ([true] ++ List.replicate 15 false) .leb128 = some (.leb128 0, []) ∧
    writeField (.leb128 0) = some (List.replicate 8 false) := by decide +kernel

example : readFields [true, false, true, true, true, false, true] [.su 3, .ns 5, .fixed 1] =
    some ([.su 3 (-3), .ns 5 3, .fixed 1 1], []) := by
  have h : floorLog2 5 = some 2 := by rw [floorLog2_eq]; decide +kernel
  simp [readFields, readField, decodeSu, decodeNs, popBits, h]

example : ∀ k ∈ [Kind.su 3, .ns 5, .fixed 1], k.Ok ∧ k.Unique := by simp [Kind.Ok, Kind.Unique]

end Av1
