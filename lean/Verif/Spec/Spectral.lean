import Mathlib.Data.Matrix.Mul
import Mathlib.Data.Real.Basic
import Mathlib.Order.Bounds.Defs
/-
Specification for C119: the spectral norm of a matrix, the quantity after which the example is named.
-/
namespace PackedSimd.Spec
open Matrix

/-- `s` is the greatest factor by which `M` stretches a vector: the least `s` with `‖M w‖ ≤ s ‖w‖` for all `w`. -/
def IsSpectralNorm {n : Nat} (M : Matrix (Fin n) (Fin n) ℝ) (s : ℝ) : Prop :=
  IsLeast {s | 0 ≤ s ∧ ∀ w, (M *ᵥ w) ⬝ᵥ (M *ᵥ w) ≤ s ^ 2 * (w ⬝ᵥ w)} s

end PackedSimd.Spec
