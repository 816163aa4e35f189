import Verif.Lemmas.Matrix
import Verif.Lemmas.Sums
import Verif.Props.MaskReduce
import Mathlib.LinearAlgebra.Matrix.Determinant.Basic
import Mathlib.LinearAlgebra.Matrix.NonsingularInverse
import Mathlib.Tactic.LinearCombination
import Mathlib.Algebra.Field.Rat
/-
C52: the 4x4 matrix inverse example.  The specification is Mathlib's matrix product and determinant.
-/
namespace PackedSimd.Props
open PackedSimd Ex Intr

variable {K : Type} [Field K]

/-- The mathematical matrix stored in the row-major array. -/
def toMatrix (m : Mat K) : Matrix (Fin 4) (Fin 4) K := Matrix.of fun i j => m[i][j]

theorem mat_lit (m : Mat K) : ∃ a b c d e f g h i j k l o p q r : K,
    m = mat (mk4 a b c d) (mk4 e f g h) (mk4 i j k l) (mk4 o p q r) := by
  obtain ⟨r0, r1, r2, r3, h⟩ := vec4_lit m
  obtain ⟨a, b, c, d, h0⟩ := vec4_lit r0
  obtain ⟨e, f, g, h', h1⟩ := vec4_lit r1
  obtain ⟨i, j, k, l, h2⟩ := vec4_lit r2
  obtain ⟨o, p, q, r, h3⟩ := vec4_lit r3
  refine ⟨a, b, c, d, e, f, g, h', i, j, k, l, o, p, q, r, ?_⟩
  rw [h, h0, h1, h2, h3]
  exact mk4_congr rfl rfl rfl rfl

section lit
variable (m00 m01 m02 m03 m10 m11 m12 m13 m20 m21 m22 m23 m30 m31 m32 m33 : K)

theorem det_lit :
    (toMatrix (mat (mk4 m00 m01 m02 m03) (mk4 m10 m11 m12 m13) (mk4 m20 m21 m22 m23) (mk4 m30 m31 m32 m33))).det =
      detE m00 m01 m02 m03 m10 m11 m12 m13 m20 m21 m22 m23 m30 m31 m32 m33 := by
  rw [detE_eq]
  have e : toMatrix (mat (mk4 m00 m01 m02 m03) (mk4 m10 m11 m12 m13) (mk4 m20 m21 m22 m23) (mk4 m30 m31 m32 m33)) =
      !![m00, m01, m02, m03; m10, m11, m12, m13; m20, m21, m22, m23; m30, m31, m32, m33] := by
    ext i j
    fin_cases i <;> fin_cases j <;> first | exact mk4_0 _ _ _ _ | exact mk4_1 _ _ _ _ | exact mk4_2 _ _ _ _ | exact mk4_3 _ _ _ _
  rw [e, Matrix.det_succ_row_zero]
  simp [Fin.sum_univ_succ, Matrix.det_succ_row_zero, Fin.succAbove, Matrix.submatrix]
  ring


/-- The rows of cofactors, each scaled. -/
def scaledCof (x : K) : Mat K :=
  #v[(cof0 m00 m01 m02 m03 m10 m11 m12 m13 m20 m21 m22 m23 m30 m31 m32 m33).map (· * x),
     (cof1 m00 m01 m02 m03 m10 m11 m12 m13 m20 m21 m22 m23 m30 m31 m32 m33).map (· * x),
     (cof2 m00 m01 m02 m03 m10 m11 m12 m13 m20 m21 m22 m23 m30 m31 m32 m33).map (· * x),
     (cof3 m00 m01 m02 m03 m10 m11 m12 m13 m20 m21 m22 m23 m30 m31 m32 m33).map (· * x)]

theorem mul_scaledCof (x : K) (hx : detE m00 m01 m02 m03 m10 m11 m12 m13 m20 m21 m22 m23 m30 m31 m32 m33 * x = 1) :
    toMatrix (mat (mk4 m00 m01 m02 m03) (mk4 m10 m11 m12 m13) (mk4 m20 m21 m22 m23) (mk4 m30 m31 m32 m33)) *
      toMatrix (scaledCof m00 m01 m02 m03 m10 m11 m12 m13 m20 m21 m22 m23 m30 m31 m32 m33 x) = 1 := by
  rw [detE_eq] at hx
  ext i j
  rw [Matrix.mul_apply, Fin.sum_univ_four]
  fin_cases i <;> fin_cases j <;>
    simp [toMatrix, scaledCof, cof0, cof1, cof2, cof3, mat, mk4_0, mk4_1, mk4_2, mk4_3] <;>
    first
    | linear_combination hx
    | ring

theorem scale_lit (v : Vector K 4) (x : K) : (v : Vec K 4) * mk4 x x x x = v.map (· * x) := by
  rw [(mk4_congr rfl rfl rfl rfl : mk4 x x x x = _)]
  ext i hi
  show (Vector.zipWith (· * ·) v #v[x, x, x, x])[i] = _
  rw [Vector.getElem_zipWith, Vector.getElem_map]
  match i, hi with
  | 0, _ => rfl
  | 1, _ => rfl
  | 2, _ => rfl
  | 3, _ => rfl

theorem newton (D : K) : 1 / D + 1 / D - D * (1 / D) * (1 / D) = 1 / D := by
  by_cases h : D = 0
  · simp [h]
  · field_simp; ring

omit m00 m01 m02 m03 m10 m11 m12 m13 m20 m21 m22 m23 m30 m31 m32 m33 in
theorem invSimd_of (t : Target) (isZero : K → Bool) (m : Mat K) (r0 r1 r2 r3 : Vector K 4) (D : K)
    (h : minorsSimd m = ⟨r0, r1, r2, r3, #v[D, D, D, D]⟩) :
    invSimd t isZero m = .ok (if isZero (4 * D) then none else
      some #v[r0.map (· * (1 / D)), r1.map (· * (1 / D)), r2.map (· * (1 / D)), r3.map (· * (1 / D))]) := by
  have h : minorsSimd m = ⟨r0, r1, r2, r3, mk4 D D D D⟩ := h.trans (by rw [(mk4_congr rfl rfl rfl rfl : mk4 D D D D = _)])
  unfold invSimd
  rw [h]
  have hsum : vsum t (⟨0, (· + ·), (· * ·)⟩ : Arith K) (mk4 D D D D) = .ok (4 * D) := by
    obtain ⟨r, h1, h2⟩ := vsum_vec t (⟨0, (· + ·), (· * ·)⟩ : Arith K) (mk4 D D D D)
    rw [h1, SumOf.eq_sum h2, mk4_toList]
    congr 1
    simp
    ring
  simp only [hsum, R_ok_bind]
  by_cases hz : isZero (4 * D) = true
  · simp only [hz, if_true]; rfl
  · simp only [hz, recpre_lit, add_lit, mul_lit, sub_lit, newton]
    simp only [scale_lit]
    rfl

theorem invSimd_lit (t : Target) (isZero : K → Bool) :
    invSimd t isZero (mat (mk4 m00 m01 m02 m03) (mk4 m10 m11 m12 m13) (mk4 m20 m21 m22 m23) (mk4 m30 m31 m32 m33)) =
      let D := detE m00 m01 m02 m03 m10 m11 m12 m13 m20 m21 m22 m23 m30 m31 m32 m33
      .ok (if isZero (4 * D) then none else
        some (scaledCof m00 m01 m02 m03 m10 m11 m12 m13 m20 m21 m22 m23 m30 m31 m32 m33 (1 / D))) :=
  invSimd_of t isZero _ _ _ _ _ _ (minors_lit ..)

omit m00 m01 m02 m03 m10 m11 m12 m13 m20 m21 m22 m23 m30 m31 m32 m33 in
theorem invScalar_of (isZero : K → Bool) (m : Mat K) (r0 r1 r2 r3 : Vector K 4) (D : K) (h : invScalarCofactors m = mat r0 r1 r2 r3)
    (hD : m[0][0] * r0[0] + m[0][1] * r1[0] + m[0][2] * r2[0] + m[0][3] * r3[0] = D) :
    invScalar isZero m = if isZero D then none else
      some #v[r0.map (· * (1 / D)), r1.map (· * (1 / D)), r2.map (· * (1 / D)), r3.map (· * (1 / D))] := by
  unfold invScalar
  rw [h]
  simp only [mat0, mat1, mat2, mat3, hD]
  congr 2
  simp [mat]

theorem invScalar_lit (isZero : K → Bool) :
    invScalar isZero (mat (mk4 m00 m01 m02 m03) (mk4 m10 m11 m12 m13) (mk4 m20 m21 m22 m23) (mk4 m30 m31 m32 m33)) =
      let D := detE m00 m01 m02 m03 m10 m11 m12 m13 m20 m21 m22 m23 m30 m31 m32 m33
      if isZero D then none else
        some (scaledCof m00 m01 m02 m03 m10 m11 m12 m13 m20 m21 m22 m23 m30 m31 m32 m33 (1 / D)) := by
  apply invScalar_of isZero
  · unfold invScalarCofactors
    simp only [mat0, mat1, mat2, mat3, mk4_0, mk4_1, mk4_2, mk4_3]
    rfl
  · simp only [mat0, mk4_0, mk4_1, mk4_2, mk4_3]
    rfl

end lit

variable [DecidableEq K]

/-- In exact arithmetic (any field in which 4 is not 0), on every target, the shuffle-based routine returns `None` for exactly the singular
matrices and otherwise the two-sided inverse. -/
theorem C52_inverse (h2 : (2 : K) ≠ 0) (t : Target) (m : Mat K) :
    ((toMatrix m).det = 0 ∧ invSimd t (fun x => decide (x = 0)) m = .ok none) ∨
    ((toMatrix m).det ≠ 0 ∧ ∃ m', invSimd t (fun x => decide (x = 0)) m = .ok (some m') ∧
      toMatrix m * toMatrix m' = 1 ∧ toMatrix m' * toMatrix m = 1) := by
  obtain ⟨a, b, c, d, e, f, g, h, i, j, k, l, o, p, q, r, rfl⟩ := mat_lit m
  rw [det_lit, invSimd_lit]
  generalize hD : detE a b c d e f g h i j k l o p q r = D
  have h4 : 4 * D = 0 ↔ D = 0 := by
    have : (4 : K) ≠ 0 := by
      have e4 : (4 : K) = 2 * 2 := by norm_num
      rw [e4]; exact mul_ne_zero h2 h2
    simp [this]
  by_cases h0 : D = 0
  · left; refine ⟨h0, ?_⟩; simp [h0]
  · right
    have hm := mul_scaledCof a b c d e f g h i j k l o p q r (1 / D) (by rw [hD]; field_simp)
    refine ⟨h0, _, ?_, hm, mul_eq_one_comm.1 hm⟩
    simp [h4, h0]

/-- The scalar routine does the same, ... -/
theorem C52_scalar (m : Mat K) :
    ((toMatrix m).det = 0 ∧ invScalar (fun x => decide (x = 0)) m = none) ∨
    ((toMatrix m).det ≠ 0 ∧ ∃ m', invScalar (fun x => decide (x = 0)) m = some m' ∧
      toMatrix m * toMatrix m' = 1 ∧ toMatrix m' * toMatrix m = 1) := by
  obtain ⟨a, b, c, d, e, f, g, h, i, j, k, l, o, p, q, r, rfl⟩ := mat_lit m
  rw [det_lit, invScalar_lit]
  generalize hD : detE a b c d e f g h i j k l o p q r = D
  by_cases h0 : D = 0
  · left; refine ⟨h0, ?_⟩; simp [h0]
  · right
    have hm := mul_scaledCof a b c d e f g h i j k l o p q r (1 / D) (by rw [hD]; field_simp)
    refine ⟨h0, _, ?_, hm, mul_eq_one_comm.1 hm⟩
    simp [h0]

/-- ... so the two example programs agree. -/
theorem C52_agree (h2 : (2 : K) ≠ 0) (t : Target) (m : Mat K) :
    invSimd t (fun x => decide (x = 0)) m = .ok (invScalar (fun x => decide (x = 0)) m) := by
  obtain ⟨a, b, c, d, e, f, g, h, i, j, k, l, o, p, q, r, rfl⟩ := mat_lit m
  rw [invSimd_lit, invScalar_lit]
  have : (4 : K) ≠ 0 := by
    have e4 : (4 : K) = 2 * 2 := by norm_num
    rw [e4]; exact mul_ne_zero h2 h2
  simp [this]

-- the repository's own test matrices (examples/matrix_inverse/src/lib.rs:30-51), over the rationals
example : invSimd x64Avx (fun x : Rat => decide (x = 0)) #v[#v[1, 1, 1, 0], #v[0, 3, 1, 2], #v[2, 3, 1, 0], #v[1, 0, 2, 1]] =
    .ok (some #v[#v[-3, -1/2, 3/2, 1], #v[1, 1/4, -1/4, -1/2], #v[3, 1/4, -5/4, -1/2], #v[-3, 0, 1, 1]]) := by decide +kernel
example : invSimd armNeon (fun x : Rat => decide (x = 0)) #v[#v[1, 2, 3, 4], #v[12, 11, 10, 9], #v[5, 6, 7, 8], #v[16, 15, 14, 13]] = .ok none := by
  decide +kernel

-- and in `f32` arithmetic (times four, to have integers; `+ 0.` turns -0 into 0)
example :
    let f := F32.ofInt
    (invSimd x64Avx F32.isZero #v[#v[f 1, f 1, f 1, f 0], #v[f 0, f 3, f 1, f 2], #v[f 2, f 3, f 1, f 0], #v[f 1, f 0, f 2, f 1]]).map
      (Option.map (Vector.map (Vector.map fun x => x * f 4 + f 0))) =
    .ok (some #v[#v[f (-12), f (-2), f 6, f 4], #v[f 4, f 1, f (-1), f (-2)], #v[f 12, f 1, f (-5), f (-2)], #v[f (-12), f 0, f 4, f 4]]) := by
  decide +kernel

end PackedSimd.Props
