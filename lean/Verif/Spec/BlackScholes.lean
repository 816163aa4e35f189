import Mathlib.MeasureTheory.Integral.Bochner.Set
import Mathlib.MeasureTheory.Measure.Lebesgue.Basic
import Mathlib.Analysis.SpecialFunctions.Gaussian.GaussianIntegral
/-
The normal distribution and the Black-Scholes model of option prices (Black and Scholes 1973), from the textbook.
-/
namespace PackedSimd.Ex.Options
open MeasureTheory Set

/-- The mean of `f` of a standard normal random number. -/
noncomputable def normalMean (f : ℝ → ℝ) : ℝ := (√(2 * Real.pi))⁻¹ * ∫ z : ℝ, f z * Real.exp (-(z ^ 2) / 2)

/-- The cumulative distribution function of the standard normal distribution. -/
noncomputable def normalCdf (x : ℝ) : ℝ := (√(2 * Real.pi))⁻¹ * ∫ z in Iic x, Real.exp (-(z ^ 2) / 2)

/-- The stock price after time `t` when it is now `s` and its logarithm moves by a normal random number `z`, with interest rate `r` and volatility
`v`, in the measure that makes the discounted stock a fair game. -/
noncomputable def stockAfter (s t r v z : ℝ) : ℝ := s * Real.exp ((r - v ^ 2 / 2) * t + v * √t * z)

/-- The Black-Scholes price of a European call with strike `x`: the discounted mean payoff. -/
noncomputable def callPrice (s x t r v : ℝ) : ℝ := Real.exp (-(r * t)) * normalMean fun z => max 0 (stockAfter s t r v z - x)

/-- The `d1` and `d2` of the textbook formula `s Φ(d1) - x e^(-rt) Φ(d2)` (`C129_formula`). -/
noncomputable def dOne (s x t r v : ℝ) : ℝ := (Real.log (s / x) + (r + v * v * (1 / 2)) * t) / (v * √t)
noncomputable def dTwo (s x t r v : ℝ) : ℝ := dOne s x t r v - v * √t

/-- `p` prices the call: it is within a millionth of the stock price and the discounted strike of the discounted mean payoff, and it does not
offer a riskless profit. -/
structure Prices (s x t r v p : ℝ) : Prop where
  near : |p - callPrice s x t r v| ≤ (s + x * Real.exp (-(r * t))) / 10 ^ 6
  nonneg : 0 ≤ p
  floor : s - x * Real.exp (-(r * t)) ≤ p
  cap : p ≤ s

end PackedSimd.Ex.Options
