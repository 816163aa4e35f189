import Verif.Model.Examples.Matrix
import Verif.Lemmas.Reduce
import Verif.Lemmas.Fmt
import Mathlib.Algebra.Field.Basic
import Mathlib.Tactic.Ring
import Mathlib.Tactic.FieldSimp
/-
The matrix inverse example on literal matrices.
-/
namespace PackedSimd.Ex
open Intr

variable {α : Type}

/-- A vector of four lanes (kept folded in the proofs below). -/
def mk4 (a b c d : α) : Vec α 4 := #v[a, b, c, d]

theorem vec4_lit (v : Vector α 4) : ∃ a b c d, v = mk4 a b c d :=
  ⟨v[0], v[1], v[2], v[3], by
    unfold mk4
    ext i hi
    match i, hi with
    | 0, _ => rfl
    | 1, _ => rfl
    | 2, _ => rfl
    | 3, _ => rfl⟩

/-- The shuffles of the example are the crate's `shuffle!`. -/
theorem sh2_eq (a b : Vec α 4) (i j k l : Fin 8) : shuffle2 a b #v[i.val, j.val, k.val, l.val] = some (sh2 a b i j k l) := by
  have h : ∀ p : Fin 4, (#v[i.val, j.val, k.val, l.val])[p] < 4 + 4 := by
    intro p
    match p with
    | 0 => exact i.isLt
    | 1 => exact j.isLt
    | 2 => exact k.isLt
    | 3 => exact l.isLt
  unfold shuffle2 simdShuffle
  rw [if_pos (by decide), dif_pos h]
  congr 1
  unfold sh2
  ext p hp
  rw [Vector.getElem_ofFn, Vector.getElem_ofFn, Vector.getElem_append]
  match p, hp with
  | 0, _ => rfl
  | 1, _ => rfl
  | 2, _ => rfl
  | 3, _ => rfl

theorem sh1_eq (v : Vec α 4) (i j k l : Fin 8) : shuffle1 v #v[i.val, j.val, k.val, l.val] = some (sh1 v i j k l) := sh2_eq v v i j k l

section lit
variable (a b c d e f g h : α)

theorem sh1_1032 : sh1 (mk4 a b c d) 1 0 3 2 = mk4 b a d c := rfl
theorem sh1_2301 : sh1 (mk4 a b c d) 2 3 0 1 = mk4 c d a b := rfl
theorem sh2_0145 : sh2 (mk4 a b c d) (mk4 e f g h) 0 1 4 5 = mk4 a b e f := rfl
theorem sh2_2367 : sh2 (mk4 a b c d) (mk4 e f g h) 2 3 6 7 = mk4 c d g h := rfl
theorem sh2_0246 : sh2 (mk4 a b c d) (mk4 e f g h) 0 2 4 6 = mk4 a c e g := rfl
theorem sh2_1357 : sh2 (mk4 a b c d) (mk4 e f g h) 1 3 5 7 = mk4 b d f h := rfl
theorem zip_lit {β γ : Type} (op : α → β → γ) (a b c d : α) (e f g h : β) :
    Vector.zipWith op (mk4 a b c d) (mk4 e f g h) = mk4 (op a e) (op b f) (op c g) (op d h) := by simp [mk4]
theorem mul_lit [Mul α] : mk4 a b c d * mk4 e f g h = mk4 (a * e) (b * f) (c * g) (d * h) := zip_lit _ _ _ _ _ _ _ _ _
theorem add_lit [Add α] : mk4 a b c d + mk4 e f g h = mk4 (a + e) (b + f) (c + g) (d + h) := zip_lit _ _ _ _ _ _ _ _ _
theorem sub_lit [Sub α] : mk4 a b c d - mk4 e f g h = mk4 (a - e) (b - f) (c - g) (d - h) := zip_lit _ _ _ _ _ _ _ _ _
theorem recpre_lit [One α] [Div α] : vrecpre (mk4 a b c d) = mk4 (1 / a) (1 / b) (1 / c) (1 / d) :=
  zip_lit (· / ·) 1 1 1 1 a b c d

end lit

theorem mk4_congr {a b c d a' b' c' d' : α} (h1 : a = a') (h2 : b = b') (h3 : c = c') (h4 : d = d') : mk4 a b c d = #v[a', b', c', d'] := by
  subst h1 h2 h3 h4; rfl
theorem mk4_0 (a b c d : α) : (mk4 a b c d)[0] = a := rfl
theorem mk4_1 (a b c d : α) : (mk4 a b c d)[1] = b := rfl
theorem mk4_2 (a b c d : α) : (mk4 a b c d)[2] = c := rfl
theorem mk4_3 (a b c d : α) : (mk4 a b c d)[3] = d := rfl
theorem mk4_toList (a b c d : α) : (mk4 a b c d).toList = [a, b, c, d] := rfl

attribute [irreducible] mk4

/-- The matrix with the given rows. -/
def mat (r0 r1 r2 r3 : Vector α 4) : Mat α := #v[r0, r1, r2, r3]
theorem mat0 (r0 r1 r2 r3 : Vector α 4) : (mat r0 r1 r2 r3)[0] = r0 := rfl
theorem mat1 (r0 r1 r2 r3 : Vector α 4) : (mat r0 r1 r2 r3)[1] = r1 := rfl
theorem mat2 (r0 r1 r2 r3 : Vector α 4) : (mat r0 r1 r2 r3)[2] = r2 := rfl
theorem mat3 (r0 r1 r2 r3 : Vector α 4) : (mat r0 r1 r2 r3)[3] = r3 := rfl


/-- The determinant as the scalar program computes it (expansion along the first row). -/
def detE [Add α] [Sub α] [Mul α] [Neg α] (m00 m01 m02 m03 m10 m11 m12 m13 m20 m21 m22 m23 m30 m31 m32 m33 : α) : α :=
  m00 * (cof0 m00 m01 m02 m03 m10 m11 m12 m13 m20 m21 m22 m23 m30 m31 m32 m33)[0] +
  m01 * (cof1 m00 m01 m02 m03 m10 m11 m12 m13 m20 m21 m22 m23 m30 m31 m32 m33)[0] +
  m02 * (cof2 m00 m01 m02 m03 m10 m11 m12 m13 m20 m21 m22 m23 m30 m31 m32 m33)[0] +
  m03 * (cof3 m00 m01 m02 m03 m10 m11 m12 m13 m20 m21 m22 m23 m30 m31 m32 m33)[0]

theorem detE_eq {K : Type} [CommRing K] (m00 m01 m02 m03 m10 m11 m12 m13 m20 m21 m22 m23 m30 m31 m32 m33 : K) :
    detE m00 m01 m02 m03 m10 m11 m12 m13 m20 m21 m22 m23 m30 m31 m32 m33 =
      m00 * (m11 * m22 * m33 - m11 * m23 * m32 - m21 * m12 * m33 + m21 * m13 * m32 + m31 * m12 * m23 - m31 * m13 * m22) +
      m01 * ((-m10) * m22 * m33 + m10 * m23 * m32 + m20 * m12 * m33 - m20 * m13 * m32 - m30 * m12 * m23 + m30 * m13 * m22) +
      m02 * (m10 * m21 * m33 - m10 * m23 * m31 - m20 * m11 * m33 + m20 * m13 * m31 + m30 * m11 * m23 - m30 * m13 * m21) +
      m03 * ((-m10) * m21 * m32 + m10 * m22 * m31 + m20 * m11 * m32 - m20 * m12 * m31 - m30 * m11 * m22 + m30 * m12 * m21) := rfl

/-- The shuffle-based program computes the cofactors and the determinant (in all four lanes). -/
theorem minors_lit {K : Type} [CommRing K] (m00 m01 m02 m03 m10 m11 m12 m13 m20 m21 m22 m23 m30 m31 m32 m33 : K) :
    minorsSimd (mat (mk4 m00 m01 m02 m03) (mk4 m10 m11 m12 m13) (mk4 m20 m21 m22 m23) (mk4 m30 m31 m32 m33)) =
      let D := detE m00 m01 m02 m03 m10 m11 m12 m13 m20 m21 m22 m23 m30 m31 m32 m33
      ⟨cof0 m00 m01 m02 m03 m10 m11 m12 m13 m20 m21 m22 m23 m30 m31 m32 m33,
       cof1 m00 m01 m02 m03 m10 m11 m12 m13 m20 m21 m22 m23 m30 m31 m32 m33,
       cof2 m00 m01 m02 m03 m10 m11 m12 m13 m20 m21 m22 m23 m30 m31 m32 m33,
       cof3 m00 m01 m02 m03 m10 m11 m12 m13 m20 m21 m22 m23 m30 m31 m32 m33, #v[D, D, D, D]⟩ := by
  unfold minorsSimd
  simp only [mat0, mat1, mat2, mat3]
  simp only [sh2_0145, sh2_2367, sh2_0246, sh2_1357, sh1_1032, sh1_2301, mul_lit, add_lit, sub_lit, Minors.mk.injEq]
  unfold cof0 cof1 cof2 cof3
  refine ⟨mk4_congr ?_ ?_ ?_ ?_, mk4_congr ?_ ?_ ?_ ?_, mk4_congr ?_ ?_ ?_ ?_, mk4_congr ?_ ?_ ?_ ?_, mk4_congr ?_ ?_ ?_ ?_⟩ <;>
    (try rw [detE_eq]) <;> ring

end PackedSimd.Ex
