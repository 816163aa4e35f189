import Verif.Model.Examples.Options
import Mathlib.Analysis.SpecialFunctions.Pow.Real
import Mathlib.Algebra.BigOperators.Group.Finset.Basic
/-
The binomial model of option prices (Cox, Ross and Rubinstein 1979), from the textbook.
-/
namespace PackedSimd.Ex.Options

/-- Over `m` independent moves, each up with weight `p` and down with weight `q`, the weighted mean of `v (number of up moves)`. -/
def expectation {K : Type} [CommSemiring K] (m : Nat) (p q : K) (v : Nat → K) : K :=
  ∑ j ∈ Finset.range (m + 1), (m.choose j : K) * p ^ j * q ^ (m - j) * v j

/-- The textbook price of a European put with strike `x` on a stock now at `s`, after `m` periods of length `dt` in each of which the stock is
multiplied or divided by `u = e^(v √dt)`, with interest rate `r`: the mean payoff under the probability that makes the stock a fair game, discounted. -/
noncomputable def crrPut (m : Nat) (dt s x r v : ℝ) : ℝ :=
  let u := Real.exp (v * √dt)
  let p := (Real.exp (r * dt) - u⁻¹) / (u - u⁻¹)
  Real.exp (-(r * (m * dt))) * expectation m p (1 - p) fun j => max 0 (x - s * u ^ (2 * (j : ℤ) - m))

/-- Real numbers with the functions the programs name. -/
noncomputable def realFns : Fns ℝ where
  lit q := q
  abs x := |x|
  exp := Real.exp
  ln := Real.log
  sqrt := Real.sqrt
  powf := Real.rpow
  max := max
  gt x y := by classical exact decide (y < x)

end PackedSimd.Ex.Options
