import Verif.Model.Examples.Triangle
import Verif.Spec.FloatReal
import Mathlib.Algebra.BigOperators.Fin
/-
Points and affine maps given by arrays of `f32`, over the real numbers.
-/
namespace PackedSimd.Spec
open Ex Ex.Tri

/-- The number stored in an `f32`. -/
noncomputable def num (x : F32) : ℝ := realVal 23 x.bits

/-- Coordinate `j` of the image of the point `v`: the first three arrays of `mat` are the images of the unit vectors, the fourth is the translation. -/
noncomputable def image (mat : Mat43 F32) (v : Vector F32 3) (j : Fin 3) : ℝ := (∑ i : Fin 3, num mat[i.castSucc][j] * num v[i]) + num mat[3][j]

/-- The same with all terms replaced by their magnitudes. -/
noncomputable def magnitude (mat : Mat43 F32) (v : Vector F32 3) (j : Fin 3) : ℝ := (∑ i : Fin 3, |num mat[i.castSucc][j] * num v[i]|) + |num mat[3][j]|

/-- All elements are numbers. -/
def FiniteMat (mat : Mat43 F32) : Prop := ∀ (i : Fin 4) (j : Fin 3), IsFinite 23 mat[i][j].bits
@[inherit_doc FiniteMat] def FiniteTri (t : Triangle F32) : Prop := ∀ i j : Fin 3, IsFinite 23 t[i][j].bits

/-- The triangle `r` is the image of `t` up to 4.001 rounding errors of the magnitudes (and underflow), vertex by vertex and coordinate by coordinate. -/
def ImageOf (mat : Mat43 F32) (t r : Triangle F32) : Prop :=
  ∀ k j : Fin 3, IsFinite 23 r[k][j].bits ∧ |num r[k][j] - image mat t[k] j| ≤ 4.001 / 2 ^ 24 * magnitude mat t[k] j + 4 / 2 ^ 150

end PackedSimd.Spec
