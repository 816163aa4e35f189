import Mathlib.Analysis.Complex.Norm
/-
The Mandelbrot set, from the mathematics.
-/
namespace PackedSimd.Spec

/-- The Mandelbrot set: the `c` for which the iterates of 0 under `z ↦ z² + c` stay bounded. -/
def MandelbrotSet : Set ℂ := {c | ∃ B : ℝ, ∀ n, ‖(fun z => z ^ 2 + c)^[n] 0‖ ≤ B}

/-- The `n`-th iterate of `c` under `z ↦ z² + c`. -/
noncomputable def trueOrbit (c : ℂ) (n : ℕ) : ℂ := (fun z => z ^ 2 + c)^[n] c

/-- How far the orbit of `c` computed in `f64` can be from the true one: a distance `d` between two points grows to at most `2 ‖z‖ d + d²` between
their squares, and each step adds the error of its own roundings. -/
noncomputable def drift (c : ℂ) : ℕ → ℝ
  | 0 => 0
  | n + 1 => 2 * ‖trueOrbit c n‖ * drift c n + drift c n ^ 2 + 1 / 2 ^ 48

end PackedSimd.Spec
