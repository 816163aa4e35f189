import Verif.Model.Examples.Matrix
import Verif.Spec.FloatReal
import Mathlib.LinearAlgebra.Matrix.Determinant.Basic
/-
What the elements of a 4x4 matrix of `f32` stand for: a matrix of real numbers.
-/
namespace PackedSimd.Spec
open Ex

/-- The matrix of real numbers stored in the array. -/
noncomputable def realMat (m : Mat F32) : Matrix (Fin 4) (Fin 4) ℝ := Matrix.of fun i j => realVal 23 m[i][j].bits

/-- Every element is a finite number `z · 2^k` with an integer `z` of at most `M` in magnitude. -/
def Grid (k : ℤ) (M : ℕ) (m : Mat F32) : Prop :=
  ∀ i j : Fin 4, IsFinite 23 m[i][j].bits ∧ ∃ z : ℤ, z.natAbs ≤ M ∧ realVal 23 m[i][j].bits = z * (2 : ℝ) ^ k

/-- Every element of `m'` is a finite number within the relative error `ε` of the element of `A` at the same place (so zeros are exact). -/
def Close (m' : Mat F32) (A : Matrix (Fin 4) (Fin 4) ℝ) (ε : ℝ) : Prop :=
  ∀ i j : Fin 4, IsFinite 23 m'[i][j].bits ∧ |realVal 23 m'[i][j].bits - A i j| ≤ ε * |A i j|

/-- The matrix of `f32` nearest to the given integers (exactly those integers up to 2^24). -/
def intMat (z : Matrix (Fin 4) (Fin 4) ℤ) : Mat F32 := Vector.ofFn fun i => Vector.ofFn fun j => F32.ofInt (z i j)

/-- The diagonal matrix with `x` in the diagonal and zeros elsewhere. -/
def diagMat (x : F32) : Mat F32 := Vector.ofFn fun i => Vector.ofFn fun j => if i = j then x else 0

end PackedSimd.Spec
