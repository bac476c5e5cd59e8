/-!
# Well-formed probability tables

A table is a list of cumulative probabilities in units of 1/32768, strictly increasing, ending in 32768,
followed by an adaptation counter between 0 and 32.  Written independently of the coder.
-/

namespace Av1

/-- `Inc p cs M`: `p < c₀ < c₁ < … < M`. -/
def Inc : Int → List Int → Int → Prop
  | p, [], M => p < M
  | p, c :: cs, M => p < c ∧ Inc c cs M

instance : (p : Int) → (cs : List Int) → (M : Int) → Decidable (Inc p cs M)
  | p, [], M => inferInstanceAs (Decidable (p < M))
  | p, c :: cs, M =>
    have := instDecidableInc c cs M
    inferInstanceAs (Decidable (p < c ∧ Inc c cs M))

/-- A well-formed adaptive table with `body.length + 1` symbols (at most 1024). -/
def ValidCdf (cdf : List Int) : Prop :=
  ∃ body cnt, cdf = body ++ [32768, cnt] ∧ Inc 0 body 32768 ∧ 0 ≤ cnt ∧ cnt ≤ 32 ∧ body.length < 1024

/-- Number of symbols of a table. -/
def symbols (cdf : List Int) : Nat := cdf.length - 1

end Av1
