import Verif.Model.DefaultCdf
import Verif.Props.RangeCoder

/-! # C10: the built-in probability tables -/

namespace Av1

/-- A table as `struct CDF` should contain it: strictly increasing from above 0 to 32768, counter 0. -/
def FreshCdf (cdf : List Int) : Prop := ∃ body, cdf = body ++ [32768, 0] ∧ Inc 0 body 32768 ∧ body ≠ []

/-- Checker used for the proof (walks the table once). -/
def freshFrom : Nat → List Nat → Bool
  | p, [m, c] => m == 32768 && c == 0 && decide (p < 32768)
  | p, x :: rest => decide (p < x) && freshFrom x rest
  | _, [] => false

theorem freshFrom_sound : ∀ (p : Nat) (l : List Nat), freshFrom p l = true →
    ∃ body, l.map Int.ofNat = body ++ [32768, 0] ∧ Inc p body 32768 ∧ body.length + 2 = l.length
  | p, [], h => by simp [freshFrom] at h
  | p, [x], h => by simp [freshFrom] at h
  | p, [m, c], h => by
    simp [freshFrom] at h
    refine ⟨[], ?_, ?_, rfl⟩
    · simp [h.1.1, h.1.2]
    · simp only [Inc]; omega
  | p, x :: y :: z :: rest, h => by
    simp only [freshFrom, Bool.and_eq_true, decide_eq_true_eq] at h
    obtain ⟨body, h1, h2, h3⟩ := freshFrom_sound x (y :: z :: rest) h.2
    refine ⟨(x : Int) :: body, ?_, ?_, ?_⟩
    · rw [List.map_cons, h1]; rfl
    · simp only [Inc]; exact ⟨by exact_mod_cast h.1, h2⟩
    · simp only [List.length_cons] at *; omega

def familyOk (f : Family) : Bool :=
  f.tables.length == f.dims.dropLast.prod &&
    f.tables.all fun t => f.dims.getLast? == some t.length && decide (3 ≤ t.length) && decide (t.length < 100) &&
      freshFrom 0 t

theorem families_ok : Default.families.all familyOk = true := by decide +kernel

/-- **C10**. Every default table of every family is well formed with counter 0, and every family has as many tables,
of the size, that its declaration says. -/
theorem C10_default_tables (f : Family) (hf : f ∈ Default.families) :
    f.cdfs.length = f.dims.dropLast.prod ∧
    ∀ cdf ∈ f.cdfs, some cdf.length = f.dims.getLast? ∧ FreshCdf cdf ∧ ValidCdf cdf := by
  have h := List.all_eq_true.1 families_ok f hf
  simp only [familyOk, Bool.and_eq_true, beq_iff_eq, List.all_eq_true, decide_eq_true_eq] at h
  refine ⟨by simp [Family.cdfs, h.1], ?_⟩
  intro cdf hc
  simp only [Family.cdfs, List.mem_map] at hc
  obtain ⟨t, ht, rfl⟩ := hc
  obtain ⟨⟨⟨h1, h2⟩, h2b⟩, h3⟩ := h.2 t ht
  obtain ⟨body, e1, e2, e3⟩ := freshFrom_sound 0 t h3
  refine ⟨?_, ⟨body, e1, e2, by intro hb; subst hb; simp at e3; omega⟩, ⟨body, 0, e1, e2, by omega, by omega, by omega⟩⟩
  rw [List.length_map, h1]

/-- The whole context of a tile: all default tables in one bank. -/
def defaultBank : Bank := Default.families.flatMap Family.cdfs

/-- 97 families, 4648 tables. -/
theorem C10_counts : Default.families.length = 97 ∧ defaultBank.length = 4648 := by
  constructor
  · rfl
  · decide +kernel

/-- **C10** used: every session started from the default tables is lossless. -/
theorem C10_lossless_from_defaults (ops : List Op) (ho : OpsOk defaultBank ops) (c : BoolCoder) :
    ∃ c' bits bank', encodeSession c defaultBank ops = some (c', bits, bank') ∧
      ∀ (d : BoolCoder) (sz : Nat) (rest : Bits), ∃ d' left,
        decodeSession d (bits ++ rest) sz defaultBank (ops.map Op.req) = some (ops.map Op.val, d', left, bank') := by
  apply C08_mixed_round_trip _ _ _ ho
  intro cdf hc
  obtain ⟨f, hf, hm⟩ := List.mem_flatMap.1 hc
  exact ((C10_default_tables f hf).2 cdf hm).2.2

end Av1
