import Verif.Spec.FloatMatrix
/-
Matrices with elements of bounded size, and matrices that differ by bounded amounts.
-/
namespace PackedSimd.Spec
open Ex

/-- Every element is a finite number of magnitude at most `M`. -/
def Bounded (M : ℝ) (m : Mat F32) : Prop := ∀ i j : Fin 4, IsFinite 23 m[i][j].bits ∧ |realVal 23 m[i][j].bits| ≤ M

/-- Every element of `m'` is a finite number that differs by at most `ε` from the element of `A` at the same place. -/
def Within (m' : Mat F32) (A : Matrix (Fin 4) (Fin 4) ℝ) (ε : ℝ) : Prop :=
  ∀ i j : Fin 4, IsFinite 23 m'[i][j].bits ∧ |realVal 23 m'[i][j].bits - A i j| ≤ ε

end PackedSimd.Spec
