import Verif.Spec.FloatMatrix
import Verif.Lemmas.MatrixCof
/-
C124: the matrix inverse example in `f32` arithmetic.  The specification is Mathlib's matrix inverse over the real numbers.
-/
namespace PackedSimd.Props
open PackedSimd Spec Ex Intr F32R

theorem mat_lit' {α : Type} (m : Mat α) : ∃ a b c d e f g h i j k l o p q r : α,
    m = mat (mk4 a b c d) (mk4 e f g h) (mk4 i j k l) (mk4 o p q r) := by
  obtain ⟨r0, r1, r2, r3, h⟩ := vec4_lit m
  obtain ⟨a, b, c, d, h0⟩ := vec4_lit r0
  obtain ⟨e, f, g, h', h1⟩ := vec4_lit r1
  obtain ⟨i, j, k, l, h2⟩ := vec4_lit r2
  obtain ⟨o, p, q, r, h3⟩ := vec4_lit r3
  refine ⟨a, b, c, d, e, f, g, h', i, j, k, l, o, p, q, r, ?_⟩
  rw [h, h0, h1, h2, h3]
  exact mk4_congr rfl rfl rfl rfl

theorem realMat_lit (x00 x01 x02 x03 x10 x11 x12 x13 x20 x21 x22 x23 x30 x31 x32 x33 : F32) :
    realMat (mat (mk4 x00 x01 x02 x03) (mk4 x10 x11 x12 x13) (mk4 x20 x21 x22 x23) (mk4 x30 x31 x32 x33)) =
      toMatrix (mat (mk4 (rv x00) (rv x01) (rv x02) (rv x03)) (mk4 (rv x10) (rv x11) (rv x12) (rv x13)) (mk4 (rv x20) (rv x21) (rv x22) (rv x23))
        (mk4 (rv x30) (rv x31) (rv x32) (rv x33))) := by
  ext i j
  fin_cases i <;> fin_cases j <;> simp [realMat, toMatrix, mat, mk4_0, mk4_1, mk4_2, mk4_3, rv]

theorem grid_isMul {k : ℤ} {M : ℕ} {m : Mat F32} (h : Grid k M m) (i j : Fin 4) : IsMul k 1 M m[i][j] (rv m[i][j]) := by
  obtain ⟨h1, z, hz, e⟩ := h i j
  exact ⟨h1, rfl, z, by rw [show rv m[i][j] = _ from e]; norm_num, hz⟩

/-- One row of the result. -/
theorem row_close {k : ℤ} (hk : |k| ≤ 24) {b : ℕ} (hb : b ≤ 2 ^ 24) {r : Vec F32 4} {r' : Vec ℝ 4} (h : VRel k 3 b r r') {y : Fin 4 → F32} {D ε : ℝ}
    (hD : (2 : ℝ) ^ (4 * k) ≤ |D| ∧ |D| ≤ 2 ^ 24 * 2 ^ (4 * k)) (hy : ∀ i, Fin' (y i) ∧ |rv (y i) - 1 / D| ≤ ε * |1 / D|) (hε : ε ≤ 1 / 4) (hε0 : 0 ≤ ε)
    (i : Fin 4) : Fin' (r[i] * y i) ∧ |rv (r[i] * y i) - r'[i] * (1 / D)| ≤ (ε + ν * (1 + ε)) * |r'[i] * (1 / D)| := by
  refine scale_ok (h i).1 (h i).2.1 (hy i).1 ?_ hε (hy i).2 hε0
  by_cases h0 : r'[i] = 0
  · exact .inl h0
  · exact .inr (ratio_size hk hD (cof_size (h i) hb h0))

theorem close_rows {a0 a1 a2 a3 : Vector F32 4} {b0 b1 b2 b3 : Vector ℝ 4} {ε : ℝ} (h0 : ∀ j : Fin 4, Fin' a0[j] ∧ |rv a0[j] - b0[j]| ≤ ε * |b0[j]|)
    (h1 : ∀ j : Fin 4, Fin' a1[j] ∧ |rv a1[j] - b1[j]| ≤ ε * |b1[j]|) (h2 : ∀ j : Fin 4, Fin' a2[j] ∧ |rv a2[j] - b2[j]| ≤ ε * |b2[j]|)
    (h3 : ∀ j : Fin 4, Fin' a3[j] ∧ |rv a3[j] - b3[j]| ≤ ε * |b3[j]|) : Close #v[a0, a1, a2, a3] (toMatrix #v[b0, b1, b2, b3]) ε := by
  intro i j
  match i with
  | 0 => exact h0 j
  | 1 => exact h1 j
  | 2 => exact h2 j
  | 3 => exact h3 j

theorem scalar_row {k : ℤ} (hk : |k| ≤ 24) {b : ℕ} (hb : b ≤ 2 ^ 24) {r : Vec F32 4} {r' : Vec ℝ 4} (h : VRel k 3 b r r') {det : F32} {D : ℝ} {c : ℕ}
    (hdet : IsMul k 4 c det D) (hc : c ≤ 2 ^ 24) (h0 : D ≠ 0) (j : Fin 4) :
    Fin' (r.map (· * (1 / det)))[j] ∧ |rv (r.map (· * (1 / det)))[j] - (r'.map (· * (1 / D)))[j]| ≤ 2.001 / 2 ^ 24 * |(r'.map (· * (1 / D)))[j]| := by
  have hc : ν + ν * (1 + ν) ≤ 2.001 / 2 ^ 24 := by unfold ν; norm_num
  obtain ⟨h1, h2⟩ := row_close hk hb h (y := fun _ => 1 / det) (det_size hk hdet ‹_› h0) (fun _ => recip_ok hk hdet ‹_› h0) (ν_le.trans (by norm_num)) ν_pos.le j
  rw [show (r.map (· * (1 / det)))[j] = r[j] * (1 / det) from Vector.getElem_map .., show (r'.map (· * (1 / D)))[j] = r'[j] * (1 / D) from Vector.getElem_map ..]
  exact ⟨h1, h2.trans (mul_le_mul_of_nonneg_right hc (abs_nonneg _))⟩

theorem newton_lane (det : Vec F32 4) (j : Fin 4) :
    (vrecpre det + vrecpre det - det * vrecpre det * vrecpre det)[j] = 1 / det[j] + 1 / det[j] - det[j] * (1 / det[j]) * (1 / det[j]) := by
  obtain ⟨a, b, c, e, rfl⟩ := vec4_lit det
  simp only [recpre_lit, add_lit, mul_lit, sub_lit]
  match j with
  | 0 => simp only [Fin.isValue, Fin.getElem_fin, Fin.val_zero, mk4_0]
  | 1 => simp only [Fin.isValue, Fin.getElem_fin, Fin.val_one, mk4_1]
  | 2 => simp only [Fin.isValue, Fin.getElem_fin, Fin.val_two, mk4_2]
  | 3 => simp only [Fin.isValue, Fin.getElem_fin, show ((3 : Fin 4) : ℕ) = 3 from rfl, mk4_3]

theorem simd_row {k : ℤ} (hk : |k| ≤ 24) {b : ℕ} (hb : b ≤ 2 ^ 24) {r : Vec F32 4} {r' : Vec ℝ 4} (h : VRel k 3 b r r') {det : Vec F32 4} {D : ℝ} {c : ℕ}
    (hdet : ∀ i : Fin 4, IsMul k 4 c det[i] D) (hc : c ≤ 2 ^ 24) (h0 : D ≠ 0) (j : Fin 4) :
    Fin' (r * (vrecpre det + vrecpre det - det * vrecpre det * vrecpre det))[j] ∧
      |rv (r * (vrecpre det + vrecpre det - det * vrecpre det * vrecpre det))[j] - (r'.map (· * (1 / D)))[j]| ≤
        4.01 / 2 ^ 24 * |(r'.map (· * (1 / D)))[j]| := by
  have hc' : 3.001 * ν + ν * (1 + 3.001 * ν) ≤ 4.01 / 2 ^ 24 := by unfold ν; norm_num
  obtain ⟨h1, h2⟩ := row_close hk hb h (y := fun i => 1 / det[i] + 1 / det[i] - det[i] * (1 / det[i]) * (1 / det[i])) (det_size hk (hdet 0) hc h0)
    (fun i => newton_ok hk (hdet i) hc h0) (by unfold ν; norm_num) (by unfold ν; norm_num) j
  rw [show (r * (vrecpre det + vrecpre det - det * vrecpre det * vrecpre det))[j] = r[j] * (vrecpre det + vrecpre det - det * vrecpre det * vrecpre det)[j] from
    Vector.getElem_zipWith .., show (r'.map (· * (1 / D)))[j] = r'[j] * (1 / D) from Vector.getElem_map .., newton_lane]
  exact ⟨h1, h2.trans (mul_le_mul_of_nonneg_right hc' (abs_nonneg _))⟩

theorem invScalar_run (isZero : F32 → Bool) (m : Mat F32) (r0 r1 r2 r3 : Vector F32 4) (D : F32) (h : invScalarCofactors m = mat r0 r1 r2 r3)
    (hD : m[0][0] * r0[0] + m[0][1] * r1[0] + m[0][2] * r2[0] + m[0][3] * r3[0] = D) :
    invScalar isZero m = if isZero D then none else
      some #v[r0.map (· * (1 / D)), r1.map (· * (1 / D)), r2.map (· * (1 / D)), r3.map (· * (1 / D))] := by
  unfold invScalar
  rw [h]
  simp only [mat0, mat1, mat2, mat3, hD]
  congr 2
  simp [mat]

/-- On matrices of multiples `z · 2^k` of a power of two, |z| ≤ 28 and |k| ≤ 24, the scalar routine returns `None` for exactly the singular
matrices, and otherwise the inverse with a relative error below 2.001 · 2^-24 in each element. -/
theorem C124_scalar_partial {k : ℤ} (hk : |k| ≤ 24) {m : Mat F32} (hm : Grid k 28 m) :
    ((realMat m).det = 0 ∧ invScalar F32.isZero m = none) ∨
    ((realMat m).det ≠ 0 ∧ ∃ m', invScalar F32.isZero m = some m' ∧ Close m' (realMat m)⁻¹ (2.001 / 2 ^ 24)) := by
  have hg := grid_isMul hm
  obtain ⟨x00, x01, x02, x03, x10, x11, x12, x13, x20, x21, x22, x23, x30, x31, x32, x33, rfl⟩ := mat_lit' m
  rw [realMat_lit, det_lit]
  have h00 := hg 0 0; have h01 := hg 0 1; have h02 := hg 0 2; have h03 := hg 0 3
  have h10 := hg 1 0; have h11 := hg 1 1; have h12 := hg 1 2; have h13 := hg 1 3
  have h20 := hg 2 0; have h21 := hg 2 1; have h22 := hg 2 2; have h23 := hg 2 3
  have h30 := hg 3 0; have h31 := hg 3 1; have h32 := hg 3 2; have h33 := hg 3 3
  simp only [Fin.isValue, Fin.getElem_fin, Fin.val_zero, Fin.val_one, Fin.val_two, show ((3 : Fin 4) : ℕ) = 3 from rfl, mat0, mat1, mat2, mat3, mk4_0, mk4_1,
    mk4_2, mk4_3] at h00 h01 h02 h03 h10 h11 h12 h13 h20 h21 h22 h23 h30 h31 h32 h33
  have c0 := cof0_rel hk (P := 21952) rfl (by norm_num) (by norm_num) h00 h01 h02 h03 h10 h11 h12 h13 h20 h21 h22 h23 h30 h31 h32 h33
  have c1 := cof1_rel hk (P := 21952) rfl (by norm_num) (by norm_num) h00 h01 h02 h03 h10 h11 h12 h13 h20 h21 h22 h23 h30 h31 h32 h33
  have c2 := cof2_rel hk (P := 21952) rfl (by norm_num) (by norm_num) h00 h01 h02 h03 h10 h11 h12 h13 h20 h21 h22 h23 h30 h31 h32 h33
  have c3 := cof3_rel hk (P := 21952) rfl (by norm_num) (by norm_num) h00 h01 h02 h03 h10 h11 h12 h13 h20 h21 h22 h23 h30 h31 h32 h33
  have hdet := (((h00.mul hk (c0 0) (by omega) (by omega)).add hk (h01.mul hk (c1 0) (by omega) (by omega)) (by omega) (by omega)).add hk
    (h02.mul hk (c2 0) (by omega) (by omega)) (by omega) (by omega)).add hk (h03.mul hk (c3 0) (by omega) (by omega)) (by omega) (by omega)
  replace hdet : IsMul k 4 (2 ^ 24) (detE x00 x01 x02 x03 x10 x11 x12 x13 x20 x21 x22 x23 x30 x31 x32 x33)
    (detE (rv x00) (rv x01) (rv x02) (rv x03) (rv x10) (rv x11) (rv x12) (rv x13) (rv x20) (rv x21) (rv x22) (rv x23) (rv x30) (rv x31) (rv x32) (rv x33)) :=
    hdet.mono (by norm_num)
  have hinv := mul_scaledCof (rv x00) (rv x01) (rv x02) (rv x03) (rv x10) (rv x11) (rv x12) (rv x13) (rv x20) (rv x21) (rv x22) (rv x23) (rv x30) (rv x31)
    (rv x32) (rv x33)
  unfold scaledCof at hinv
  rw [invScalar_run F32.isZero _ (cof0 x00 x01 x02 x03 x10 x11 x12 x13 x20 x21 x22 x23 x30 x31 x32 x33)
    (cof1 x00 x01 x02 x03 x10 x11 x12 x13 x20 x21 x22 x23 x30 x31 x32 x33)
    (cof2 x00 x01 x02 x03 x10 x11 x12 x13 x20 x21 x22 x23 x30 x31 x32 x33)
    (cof3 x00 x01 x02 x03 x10 x11 x12 x13 x20 x21 x22 x23 x30 x31 x32 x33)
    (detE x00 x01 x02 x03 x10 x11 x12 x13 x20 x21 x22 x23 x30 x31 x32 x33)
    (by
      unfold invScalarCofactors
      simp only [mat0, mat1, mat2, mat3, mk4_0, mk4_1, mk4_2, mk4_3]
      rfl)
    (by
      simp only [mat0, mk4_0, mk4_1, mk4_2, mk4_3]
      rfl)]
  generalize detE (rv x00) (rv x01) (rv x02) (rv x03) (rv x10) (rv x11) (rv x12) (rv x13) (rv x20) (rv x21) (rv x22) (rv x23) (rv x30) (rv x31) (rv x32) (rv x33) = D at hdet hinv ⊢
  generalize detE x00 x01 x02 x03 x10 x11 x12 x13 x20 x21 x22 x23 x30 x31 x32 x33 = det at hdet ⊢
  generalize cof0 (rv x00) (rv x01) (rv x02) (rv x03) (rv x10) (rv x11) (rv x12) (rv x13) (rv x20) (rv x21) (rv x22) (rv x23) (rv x30) (rv x31) (rv x32) (rv x33) = k0 at c0 hinv ⊢
  generalize cof0 x00 x01 x02 x03 x10 x11 x12 x13 x20 x21 x22 x23 x30 x31 x32 x33 = n0 at c0 ⊢
  generalize cof1 (rv x00) (rv x01) (rv x02) (rv x03) (rv x10) (rv x11) (rv x12) (rv x13) (rv x20) (rv x21) (rv x22) (rv x23) (rv x30) (rv x31) (rv x32) (rv x33) = k1 at c1 hinv ⊢
  generalize cof1 x00 x01 x02 x03 x10 x11 x12 x13 x20 x21 x22 x23 x30 x31 x32 x33 = n1 at c1 ⊢
  generalize cof2 (rv x00) (rv x01) (rv x02) (rv x03) (rv x10) (rv x11) (rv x12) (rv x13) (rv x20) (rv x21) (rv x22) (rv x23) (rv x30) (rv x31) (rv x32) (rv x33) = k2 at c2 hinv ⊢
  generalize cof2 x00 x01 x02 x03 x10 x11 x12 x13 x20 x21 x22 x23 x30 x31 x32 x33 = n2 at c2 ⊢
  generalize cof3 (rv x00) (rv x01) (rv x02) (rv x03) (rv x10) (rv x11) (rv x12) (rv x13) (rv x20) (rv x21) (rv x22) (rv x23) (rv x30) (rv x31) (rv x32) (rv x33) = k3 at c3 hinv ⊢
  generalize cof3 x00 x01 x02 x03 x10 x11 x12 x13 x20 x21 x22 x23 x30 x31 x32 x33 = n3 at c3 ⊢
  have hz : F32.isZero det = true ↔ D = 0 := by rw [isZero_iff hdet.1, hdet.2.1]
  by_cases h0 : D = 0
  · exact .inl ⟨h0, by rw [if_pos (hz.2 h0)]⟩
  · refine .inr ⟨h0, _, by rw [if_neg (fun h => h0 (hz.1 h))], ?_⟩
    rw [Matrix.inv_eq_right_inv (hinv (1 / D) (by field_simp))]
    exact close_rows (scalar_row hk (by norm_num) c0 hdet le_rfl h0) (scalar_row hk (by norm_num) c1 hdet le_rfl h0)
      (scalar_row hk (by norm_num) c2 hdet le_rfl h0) (scalar_row hk (by norm_num) c3 hdet le_rfl h0)

/-- The shuffle-based routine, on every target and |z| ≤ 20: the same, with a relative error below 4.01 · 2^-24. -/
theorem C124_simd_partial (t : Target) {k : ℤ} (hk : |k| ≤ 24) {m : Mat F32} (hm : Grid k 20 m) :
    ((realMat m).det = 0 ∧ invSimd t F32.isZero m = .ok none) ∨
    ((realMat m).det ≠ 0 ∧ ∃ m', invSimd t F32.isZero m = .ok (some m') ∧ Close m' (realMat m)⁻¹ (4.01 / 2 ^ 24)) := by
  have hg := grid_isMul hm
  obtain ⟨x00, x01, x02, x03, x10, x11, x12, x13, x20, x21, x22, x23, x30, x31, x32, x33, rfl⟩ := mat_lit' m
  rw [realMat_lit, det_lit]
  have row : ∀ {a b c e : F32}, IsMul k 1 20 a (rv a) → IsMul k 1 20 b (rv b) → IsMul k 1 20 c (rv c) → IsMul k 1 20 e (rv e) →
      VRel k 1 20 (mk4 a b c e) (mk4 (rv a) (rv b) (rv c) (rv e)) := by
    intro a b c e h0 h1 h2 h3
    rw [(mk4_congr rfl rfl rfl rfl : mk4 a b c e = _), (mk4_congr rfl rfl rfl rfl : mk4 (rv a) (rv b) (rv c) (rv e) = _)]
    exact VRel.lit h0 h1 h2 h3
  have h00 := hg 0 0; have h01 := hg 0 1; have h02 := hg 0 2; have h03 := hg 0 3
  have h10 := hg 1 0; have h11 := hg 1 1; have h12 := hg 1 2; have h13 := hg 1 3
  have h20 := hg 2 0; have h21 := hg 2 1; have h22 := hg 2 2; have h23 := hg 2 3
  have h30 := hg 3 0; have h31 := hg 3 1; have h32 := hg 3 2; have h33 := hg 3 3
  simp only [Fin.isValue, Fin.getElem_fin, Fin.val_zero, Fin.val_one, Fin.val_two, show ((3 : Fin 4) : ℕ) = 3 from rfl, mat0, mat1, mat2, mat3, mk4_0, mk4_1,
    mk4_2, mk4_3] at h00 h01 h02 h03 h10 h11 h12 h13 h20 h21 h22 h23 h30 h31 h32 h33
  have hmin := minors_rel hk (M := 20) (P := 8000) rfl (by norm_num) (by norm_num)
    (m := mat (mk4 x00 x01 x02 x03) (mk4 x10 x11 x12 x13) (mk4 x20 x21 x22 x23) (mk4 x30 x31 x32 x33))
    (m' := mat (mk4 (rv x00) (rv x01) (rv x02) (rv x03)) (mk4 (rv x10) (rv x11) (rv x12) (rv x13)) (mk4 (rv x20) (rv x21) (rv x22) (rv x23))
        (mk4 (rv x30) (rv x31) (rv x32) (rv x33)))
    (row h00 h01 h02 h03) (row h10 h11 h12 h13) (row h20 h21 h22 h23) (row h30 h31 h32 h33)
  rw [minors_lit] at hmin
  have hinv := mul_scaledCof (rv x00) (rv x01) (rv x02) (rv x03) (rv x10) (rv x11) (rv x12) (rv x13) (rv x20) (rv x21) (rv x22) (rv x23) (rv x30) (rv x31)
    (rv x32) (rv x33)
  unfold invSimd
  unfold scaledCof at hinv
  generalize minorsSimd (mat (mk4 x00 x01 x02 x03) (mk4 x10 x11 x12 x13) (mk4 x20 x21 x22 x23) (mk4 x30 x31 x32 x33)) = s at hmin ⊢
  dsimp only at hmin
  generalize detE (rv x00) (rv x01) (rv x02) (rv x03) (rv x10) (rv x11) (rv x12) (rv x13) (rv x20) (rv x21) (rv x22) (rv x23) (rv x30) (rv x31) (rv x32)
    (rv x33) = D at hmin hinv ⊢
  generalize cof0 (rv x00) (rv x01) (rv x02) (rv x03) (rv x10) (rv x11) (rv x12) (rv x13) (rv x20) (rv x21) (rv x22) (rv x23) (rv x30) (rv x31) (rv x32)
    (rv x33) = k0 at hmin hinv ⊢
  generalize cof1 (rv x00) (rv x01) (rv x02) (rv x03) (rv x10) (rv x11) (rv x12) (rv x13) (rv x20) (rv x21) (rv x22) (rv x23) (rv x30) (rv x31) (rv x32)
    (rv x33) = k1 at hmin hinv ⊢
  generalize cof2 (rv x00) (rv x01) (rv x02) (rv x03) (rv x10) (rv x11) (rv x12) (rv x13) (rv x20) (rv x21) (rv x22) (rv x23) (rv x30) (rv x31) (rv x32)
    (rv x33) = k2 at hmin hinv ⊢
  generalize cof3 (rv x00) (rv x01) (rv x02) (rv x03) (rv x10) (rv x11) (rv x12) (rv x13) (rv x20) (rv x21) (rv x22) (rv x23) (rv x30) (rv x31) (rv x32)
    (rv x33) = k3 at hmin hinv ⊢
  obtain ⟨n0, n1, n2, n3, det⟩ := s
  dsimp only at hmin ⊢
  obtain ⟨c0, c1, c2, c3, hd⟩ := hmin
  have hd' : ∀ i : Fin 4, IsMul k 4 3840000 det[i] D := by
    intro i
    match i with
    | 0 => exact hd 0
    | 1 => exact hd 1
    | 2 => exact hd 2
    | 3 => exact hd 3
  obtain ⟨s, h1, h2⟩ := vsum_vec t (⟨0, (· + ·), (· * ·)⟩ : Arith F32) det
  have hs := sum_rel hk h2 (b := 3840000) (D := D) (by
    intro x hx
    obtain ⟨i, hi, rfl⟩ := List.getElem_of_mem hx
    rw [Vector.length_toList] at hi
    simpa using hd' ⟨i, hi⟩) (by simp)
  rw [Vector.length_toList] at hs
  have hz : F32.isZero s = true ↔ D = 0 := by rw [isZero_iff hs.1, hs.2.1]; norm_num
  rw [h1]
  simp only [R_ok_bind]
  by_cases h0 : D = 0
  · exact .inl ⟨h0, by rw [if_pos (hz.2 h0)]; rfl⟩
  · refine .inr ⟨h0, _, by rw [if_neg (fun h => h0 (hz.1 h))]; rfl, ?_⟩
    rw [Matrix.inv_eq_right_inv (hinv (1 / D) (by field_simp))]
    exact close_rows (simd_row hk (by norm_num) c0 hd' (by norm_num) h0) (simd_row hk (by norm_num) c1 hd' (by norm_num) h0)
      (simd_row hk (by norm_num) c2 hd' (by norm_num) h0) (simd_row hk (by norm_num) c3 hd' (by norm_num) h0)

/-- An AArch64 target, where sums are loops. -/
def a64 : Target := { x64Avx with arch := .aarch64 }

/-! ### Integer matrices -/

theorem ofInt_ok {z : ℤ} (hz : z.natAbs ≤ 2 ^ 24) : IsFinite 23 (F32.ofInt z).bits ∧ realVal 23 (F32.ofInt z).bits = z := by
  have h : valueOf 23 (F32.ofInt z).bits = _ := fromInt_exact fmt z hz (by decide +kernel)
  refine ⟨⟨_, h⟩, ?_⟩
  rw [realVal_num h]
  push_cast
  exact mul_div_cancel_right₀ _ (by positivity)

theorem intMat_get (z : Matrix (Fin 4) (Fin 4) ℤ) (i j : Fin 4) : (intMat z)[i][j] = F32.ofInt (z i j) := by simp [intMat]

theorem intMat_real {z : Matrix (Fin 4) (Fin 4) ℤ} (hz : ∀ i j, (z i j).natAbs ≤ 2 ^ 24) : realMat (intMat z) = z.map (Int.castRingHom ℝ) := by
  ext i j
  show realVal 23 (intMat z)[i][j].bits = _
  rw [intMat_get, (ofInt_ok (hz i j)).2]
  rfl

theorem intMat_grid {z : Matrix (Fin 4) (Fin 4) ℤ} {M : ℕ} (hM : M ≤ 2 ^ 24) (hz : ∀ i j, (z i j).natAbs ≤ M) : Grid 0 M (intMat z) := by
  intro i j
  rw [intMat_get]
  obtain ⟨h1, h2⟩ := ofInt_ok ((hz i j).trans hM)
  exact ⟨h1, z i j, hz i j, by rw [h2]; simp⟩

theorem intMat_det {z : Matrix (Fin 4) (Fin 4) ℤ} (hz : ∀ i j, (z i j).natAbs ≤ 2 ^ 24) : (realMat (intMat z)).det = z.det := by
  rw [intMat_real hz]
  exact (RingHom.map_det (Int.castRingHom ℝ) z).symm

/-- For integer matrices with elements of at most 20, both routines return `None` exactly if the determinant is 0. -/
theorem C124_integers_partial (t : Target) (z : Matrix (Fin 4) (Fin 4) ℤ) (hz : ∀ i j, (z i j).natAbs ≤ 20) :
    (invScalar F32.isZero (intMat z) = none ↔ z.det = 0) ∧ (invSimd t F32.isZero (intMat z) = .ok none ↔ z.det = 0) := by
  have hd := intMat_det (z := z) fun i j => (hz i j).trans (by norm_num)
  have h1 := C124_scalar_partial (k := 0) (by norm_num) (intMat_grid (M := 28) (by norm_num) fun i j => (hz i j).trans (by norm_num))
  have h2 := C124_simd_partial t (k := 0) (by norm_num) (intMat_grid (M := 20) (by norm_num) hz)
  rw [hd] at h1 h2
  constructor
  · rcases h1 with ⟨h, e⟩ | ⟨h, m', e, -⟩
    · rw [e]; exact ⟨fun _ => by exact_mod_cast h, fun _ => rfl⟩
    · rw [e]; exact ⟨fun h' => (by cases h'), fun h' => absurd (by exact_mod_cast h') h⟩
  · rcases h2 with ⟨h, e⟩ | ⟨h, m', e, -⟩
    · rw [e]; exact ⟨fun _ => by exact_mod_cast h, fun _ => rfl⟩
    · rw [e]; exact ⟨fun h' => (by cases h'), fun h' => absurd (by exact_mod_cast h') h⟩

-- an invertible matrix with elements up to 19
example : (invSimd a64 F32.isZero (intMat !![2, 3, 5, 7; 11, 13, 17, 19; 1, 0, 2, 4; 1, 1, 2, 3])) ≠ .ok none := by
  rw [Ne, (C124_integers_partial a64 _ (by decide +kernel)).2]
  decide +kernel
example : Grid 0 20 (intMat !![2, 3, 5, 7; 11, 13, 17, 19; 1, 0, 2, 4; 1, 1, 2, 3]) := intMat_grid (by norm_num) (by decide +kernel)

/-! ### What fails beyond that -/

/-- Singular matrices of small integers (elements up to 142) are taken for invertible: the first by the shuffle-based routine only, on every target,
the second by the scalar routine only.  So the routines disagree. -/
theorem C124_singular_fails :
    (∃ z : Matrix (Fin 4) (Fin 4) ℤ, (realMat (intMat z)).det = 0 ∧ (∀ t : Target, ∃ m', invSimd t F32.isZero (intMat z) = .ok (some m')) ∧
      invScalar F32.isZero (intMat z) = none) ∧
    (∃ z : Matrix (Fin 4) (Fin 4) ℤ, (realMat (intMat z)).det = 0 ∧ (∀ t : Target, invSimd t F32.isZero (intMat z) = .ok none) ∧
      ∃ m', invScalar F32.isZero (intMat z) = some m') := by
  have key : ∀ (t : Target) (m : Mat F32), invSimd t F32.isZero m = invSimd x64Avx F32.isZero m ∨ invSimd t F32.isZero m = invSimd a64 F32.isZero m := by
    intro t m
    by_cases h : t.arch = .aarch64
    · right
      have e : ∀ v : Vec F32 4, vsum t ⟨0, (· + ·), (· * ·)⟩ v = vsum a64 ⟨0, (· + ·), (· * ·)⟩ v := by
        intro v
        unfold vsum
        rw [if_neg (by simpa using h), if_neg (by decide)]
      unfold invSimd
      simp only [e]
    · left
      have e : ∀ v : Vec F32 4, vsum t ⟨0, (· + ·), (· * ·)⟩ v = vsum x64Avx ⟨0, (· + ·), (· * ·)⟩ v := by
        intro v
        unfold vsum
        rw [if_pos h, if_pos (by decide)]
      unfold invSimd
      simp only [e]
  refine ⟨⟨!![-12, 14, 40, -33; -47, 49, 6, 29; 24, 15, -45, -54; -83, 48, 91, 50], ?_, fun t => ?_, by decide +kernel⟩,
    ⟨!![37, -51, 56, 51; 46, -41, -51, 59; 50, 50, 46, -13; 33, -142, -41, 123], ?_, fun t => ?_, ?_⟩⟩
  · rw [intMat_det (by decide +kernel)]
    exact_mod_cast (by decide +kernel : Matrix.det !![-12, 14, 40, -33; -47, 49, 6, 29; 24, 15, -45, -54; -83, 48, 91, (50 : ℤ)] = 0)
  · have h : ∀ t ∈ [x64Avx, a64], ((invSimd t F32.isZero (intMat !![-12, 14, 40, -33; -47, 49, 6, 29; 24, 15, -45, -54; -83, 48, 91, 50])).toOption.bind id).isSome
      = true := by decide +kernel
    rcases key t (intMat !![-12, 14, 40, -33; -47, 49, 6, 29; 24, 15, -45, -54; -83, 48, 91, 50]) with e | e <;> rw [e]
    · have := h x64Avx (by simp)
      cases h' : invSimd x64Avx F32.isZero (intMat !![-12, 14, 40, -33; -47, 49, 6, 29; 24, 15, -45, -54; -83, 48, 91, 50]) with
      | error _ => rw [h'] at this; simp [Except.toOption] at this
      | ok o => rw [h'] at this; cases o with
        | none => simp [Except.toOption] at this
        | some m' => exact ⟨m', rfl⟩
    · have := h a64 (by simp)
      cases h' : invSimd a64 F32.isZero (intMat !![-12, 14, 40, -33; -47, 49, 6, 29; 24, 15, -45, -54; -83, 48, 91, 50]) with
      | error _ => rw [h'] at this; simp [Except.toOption] at this
      | ok o => rw [h'] at this; cases o with
        | none => simp [Except.toOption] at this
        | some m' => exact ⟨m', rfl⟩
  · rw [intMat_det (by decide +kernel)]
    exact_mod_cast (by decide +kernel : Matrix.det !![37, -51, 56, 51; 46, -41, -51, 59; 50, 50, 46, -13; 33, -142, -41, (123 : ℤ)] = 0)
  · rcases key t (intMat !![37, -51, 56, 51; 46, -41, -51, 59; 50, 50, 46, -13; 33, -142, -41, 123]) with e | e <;> rw [e] <;> decide +kernel
  · exact Option.isSome_iff_exists.1 (by decide +kernel)

/-- Invertible matrices are taken for singular: 2^-40 times the identity (its determinant underflows), and a matrix of numbers around 1. -/
theorem C124_invertible_fails :
    (∃ x : F32, IsFinite 23 x.bits ∧ realVal 23 x.bits = 1 / 2 ^ 40 ∧ invScalar F32.isZero (diagMat x) = none ∧
      invSimd x64Avx F32.isZero (diagMat x) = .ok none ∧ invSimd a64 F32.isZero (diagMat x) = .ok none) ∧
    (∃ x y : F32, IsFinite 23 x.bits ∧ realVal 23 x.bits = 1 + 1 / 2 ^ 13 ∧ IsFinite 23 y.bits ∧ realVal 23 y.bits = 1 - 1 / 2 ^ 13 ∧
      let m : Mat F32 := #v[#v[x, 1, 0, 0], #v[1, y, 0, 0], #v[0, 0, 1, 0], #v[0, 0, 0, 1]]
      (realMat m).det = -1 / 2 ^ 26 ∧ invScalar F32.isZero m = none ∧ invSimd x64Avx F32.isZero m = .ok none ∧
      invSimd a64 F32.isZero m = .ok none) := by
  constructor
  · have h : valueOf 23 (0x2b800000#32) = .num (2 ^ 109) := by decide +kernel
    refine ⟨⟨0x2b800000#32⟩, ⟨_, h⟩, ?_, by decide +kernel, by decide +kernel, by decide +kernel⟩
    rw [realVal_num h, low_eq]
    norm_num
  · have hx : valueOf 23 (0x3f800400#32) = .num (8193 * 2 ^ 136) := by decide +kernel
    have hy : valueOf 23 (0x3f7ff800#32) = .num (8191 * 2 ^ 136) := by decide +kernel
    have ex : realVal 23 (0x3f800400#32) = 1 + 1 / 2 ^ 13 := by rw [realVal_num hx, low_eq]; norm_num
    have ey : realVal 23 (0x3f7ff800#32) = 1 - 1 / 2 ^ 13 := by rw [realVal_num hy, low_eq]; norm_num
    refine ⟨⟨0x3f800400#32⟩, ⟨0x3f7ff800#32⟩, ⟨_, hx⟩, ex, ⟨_, hy⟩, ey, ?_, by decide +kernel, by decide +kernel, by decide +kernel⟩
    rw [show (#v[#v[⟨0x3f800400#32⟩, 1, 0, 0], #v[1, ⟨0x3f7ff800#32⟩, 0, 0], #v[0, 0, 1, 0], #v[0, 0, 0, 1]] : Mat F32) =
      mat (mk4 ⟨0x3f800400#32⟩ 1 0 0) (mk4 1 ⟨0x3f7ff800#32⟩ 0 0) (mk4 0 0 1 0) (mk4 0 0 0 1) by
        unfold mat; simp only [(mk4_congr rfl rfl rfl rfl : mk4 (α := F32) _ _ _ _ = _)], realMat_lit, det_lit, detE_eq]
    rw [show rv 1 = 1 from one_ok.2, show rv 0 = 0 from zero_ok.2, show rv ⟨0x3f800400#32⟩ = _ from ex, show rv ⟨0x3f7ff800#32⟩ = _ from ey]
    norm_num

/-- 2^40 times the identity: the determinant overflows; the scalar routine returns the zero matrix as the inverse, the shuffle-based one a matrix of
NaNs. -/
theorem C124_overflow_fails : ∃ x : F32, IsFinite 23 x.bits ∧ realVal 23 x.bits = 2 ^ 40 ∧
    (∃ m', invScalar F32.isZero (diagMat x) = some m' ∧ ∀ i j : Fin 4, F32.isZero m'[i][j] = true) ∧
    (∃ m', invSimd x64Avx F32.isZero (diagMat x) = .ok (some m') ∧ ∀ i j : Fin 4, valueOf 23 m'[i][j].bits = .nan) := by
  have h : valueOf 23 (0x53800000#32) = .num (2 ^ 189) := by decide +kernel
  refine ⟨⟨0x53800000#32⟩, ⟨_, h⟩, ?_, ?_, ?_⟩
  · rw [realVal_num h, low_eq]
    norm_num
  · obtain ⟨m', e, h⟩ : ∃ m', invScalar F32.isZero (diagMat ⟨0x53800000#32⟩) = some m' ∧ (∀ i j : Fin 4, F32.isZero m'[i][j] = true) := by
      have : ((invScalar F32.isZero (diagMat ⟨0x53800000#32⟩)).map fun m' => decide (∀ i j : Fin 4, F32.isZero m'[i][j] = true)) = some true := by decide +kernel
      obtain ⟨m', e, h⟩ := Option.map_eq_some_iff.1 this
      exact ⟨m', e, of_decide_eq_true h⟩
    exact ⟨m', e, h⟩
  · have : ((invSimd x64Avx F32.isZero (diagMat ⟨0x53800000#32⟩)).map fun o => o.map fun m' => decide (∀ i j : Fin 4, valueOf 23 m'[i][j].bits = .nan)) =
      .ok (some true) := by decide +kernel
    cases h' : invSimd x64Avx F32.isZero (diagMat ⟨0x53800000#32⟩) with
    | error _ => rw [h'] at this; cases this
    | ok o =>
      rw [h'] at this
      obtain ⟨m', e, h⟩ := Option.map_eq_some_iff.1 (Except.ok.inj this)
      exact ⟨m', by rw [e], of_decide_eq_true h⟩

end PackedSimd.Props
