import Mathlib.Tactic.Linarith
import Mathlib.Tactic.Ring

/-!
# Bit strings and binary numerals

Independent of the code: a bit string is a list of booleans, most significant bit first, and `num` is the number it
spells.  All header and range-coder theorems are stated through `num` and `List.length`.
-/

namespace Av1

/-- A bit string.  In the Rust code this is `Vec<u8>` / `VecDeque<u8>` holding only 0 and 1. -/
abbrev Bits := List Bool

/-- The number spelled by a bit string, most significant bit first. -/
def num (l : Bits) : Nat := l.foldl (fun a b => 2 * a + b.toNat) 0

theorem foldl_num (l : Bits) (a : Nat) :
    l.foldl (fun a b => 2 * a + b.toNat) a = a * 2 ^ l.length + num l := by
  induction l generalizing a with
  | nil => simp [num]
  | cons b l ih =>
    simp only [num, List.foldl_cons, List.length_cons]
    rw [ih, ih (2 * 0 + b.toNat)]
    ring

@[simp] theorem num_nil : num [] = 0 := rfl

theorem num_cons (b : Bool) (l : Bits) : num (b :: l) = b.toNat * 2 ^ l.length + num l := by
  simp only [num, List.foldl_cons]
  rw [foldl_num]; simp [num]

theorem num_append (a b : Bits) : num (a ++ b) = num a * 2 ^ b.length + num b := by
  simp only [num, List.foldl_append]
  rw [foldl_num]; simp [num]

theorem num_snoc (a : Bits) (b : Bool) : num (a ++ [b]) = 2 * num a + b.toNat := by
  rw [num_append]; simp [num]; ring

theorem num_lt (l : Bits) : num l < 2 ^ l.length := by
  induction l with
  | nil => simp
  | cons b l ih =>
    rw [num_cons, List.length_cons, pow_succ]
    cases b <;> simp <;> omega

theorem num_inj {a b : Bits} (hl : a.length = b.length) (h : num a = num b) : a = b := by
  induction a generalizing b with
  | nil => cases b with
    | nil => rfl
    | cons => simp at hl
  | cons x a ih =>
    cases b with
    | nil => simp at hl
    | cons y b =>
      simp only [List.length_cons, Nat.add_right_cancel_iff] at hl
      rw [num_cons, num_cons, hl] at h
      have h1 := num_lt a
      have h2 := num_lt b
      rw [hl] at h1
      have hxy : x = y := by
        cases x <;> cases y <;> simp at h ⊢ <;> omega
      subst hxy
      have : num a = num b := by omega
      rw [ih hl this]

theorem num_replicate_false (k : Nat) : num (List.replicate k false) = 0 := by
  induction k with
  | zero => rfl
  | succ k ih => rw [List.replicate_succ, num_cons, ih]; simp

theorem num_replicate_true (k : Nat) : num (List.replicate k true) + 1 = 2 ^ k := by
  induction k with
  | zero => rfl
  | succ k ih => rw [List.replicate_succ, num_cons, List.length_replicate, pow_succ]; simp; omega

/-- Specification of the `n`-bit big-endian expansion of `v` (only the low `n` bits are kept). -/
def toBits : Nat → Nat → Bits
  | 0, _ => []
  | n + 1, v => v.testBit n :: toBits n v

@[simp] theorem length_toBits (n v : Nat) : (toBits n v).length = n := by
  induction n with
  | zero => rfl
  | succ n ih => simp [toBits, ih]

theorem num_toBits (n v : Nat) : num (toBits n v) = v % 2 ^ n := by
  induction n with
  | zero => simp [toBits, Nat.mod_one]
  | succ n ih =>
    rw [toBits, num_cons, ih, length_toBits, Nat.testBit_eq_decide_div_mod_eq, pow_succ, Nat.mod_mul]
    have := Nat.mod_two_eq_zero_or_one (v / 2 ^ n)
    rcases this with h | h <;> simp [h] <;> omega

theorem toBits_num (l : Bits) : toBits l.length (num l) = l := by
  apply num_inj
  · simp
  · rw [num_toBits, Nat.mod_eq_of_lt (num_lt l)]

theorem num_take_drop (l : Bits) (k : Nat) (hk : k ≤ l.length) :
    num (l.take k) = num l / 2 ^ (l.length - k) ∧ num (l.drop k) = num l % 2 ^ (l.length - k) := by
  have h := num_append (l.take k) (l.drop k)
  rw [List.take_append_drop, List.length_drop] at h
  have hlt := num_lt (l.drop k)
  rw [List.length_drop] at hlt
  constructor
  · rw [h, Nat.mul_comm, Nat.mul_add_div (by positivity), Nat.div_eq_of_lt hlt]; omega
  · rw [h, Nat.mul_comm, Nat.mul_add_mod, Nat.mod_eq_of_lt hlt]

end Av1
