import Verif.Spec.MatrixNear
import Verif.Lemmas.MatrixNear
import Verif.Props.MatrixFloat
/-
C132: rounding errors of the matrix inverse example on general matrices of `f32`.  `M` is any bound of the magnitudes of the elements, between 2^-20 and
2^20; the specification is Mathlib's determinant and inverse over the real numbers.
-/
namespace PackedSimd.Props
open PackedSimd Spec Ex Intr F32R

theorem bounded_near {M : ℝ} {m : Mat F32} (h : Bounded M m) (i j : Fin 4) : Near M 1 1 0 m[i][j] (rv m[i][j]) := by
  obtain ⟨h1, h2⟩ := h i j
  refine ⟨h1, ?_, by simp⟩
  rw [Nat.cast_one, one_mul, pow_one]
  exact h2

/-- The determinant and the cofactors of the scalar routine. -/
theorem scalar_parts {M : ℝ} (hM : Size M) {m : Mat F32} (hm : Bounded M m) :
    ∃ (c0 c1 c2 c3 : Vec F32 4) (k0 k1 k2 k3 : Vec ℝ 4) (det : F32),
      VNear M 3 6 2065 c0 k0 ∧ VNear M 3 6 2065 c1 k1 ∧ VNear M 3 6 2065 c2 k2 ∧ VNear M 3 6 2065 c3 k3 ∧
      Near M 4 24 13259 det (realMat m).det ∧
      (invScalar F32.isZero m = if F32.isZero det then none else
        some #v[c0.map (· * (1 / det)), c1.map (· * (1 / det)), c2.map (· * (1 / det)), c3.map (· * (1 / det))]) ∧
      ((realMat m).det ≠ 0 → (realMat m)⁻¹ = toMatrix #v[k0.map (· * (1 / (realMat m).det)), k1.map (· * (1 / (realMat m).det)),
        k2.map (· * (1 / (realMat m).det)), k3.map (· * (1 / (realMat m).det))]) := by
  have hg := bounded_near hm
  obtain ⟨x00, x01, x02, x03, x10, x11, x12, x13, x20, x21, x22, x23, x30, x31, x32, x33, rfl⟩ := mat_lit' m
  rw [realMat_lit, det_lit]
  have h00 := hg 0 0; have h01 := hg 0 1; have h02 := hg 0 2; have h03 := hg 0 3
  have h10 := hg 1 0; have h11 := hg 1 1; have h12 := hg 1 2; have h13 := hg 1 3
  have h20 := hg 2 0; have h21 := hg 2 1; have h22 := hg 2 2; have h23 := hg 2 3
  have h30 := hg 3 0; have h31 := hg 3 1; have h32 := hg 3 2; have h33 := hg 3 3
  simp only [Fin.isValue, Fin.getElem_fin, Fin.val_zero, Fin.val_one, Fin.val_two, show ((3 : Fin 4) : ℕ) = 3 from rfl, mat0, mat1, mat2, mat3, mk4_0, mk4_1,
    mk4_2, mk4_3] at h00 h01 h02 h03 h10 h11 h12 h13 h20 h21 h22 h23 h30 h31 h32 h33
  have c0 := cof0_near hM h00 h01 h02 h03 h10 h11 h12 h13 h20 h21 h22 h23 h30 h31 h32 h33
  have c1 := cof1_near hM h00 h01 h02 h03 h10 h11 h12 h13 h20 h21 h22 h23 h30 h31 h32 h33
  have c2 := cof2_near hM h00 h01 h02 h03 h10 h11 h12 h13 h20 h21 h22 h23 h30 h31 h32 h33
  have c3 := cof3_near hM h00 h01 h02 h03 h10 h11 h12 h13 h20 h21 h22 h23 h30 h31 h32 h33
  have term : ∀ {x c : F32} {r s : ℝ}, Near M 1 1 0 x r → Near M 3 6 2065 c s → Near M 4 6 2450 (x * c) (r * s) := fun hx hc =>
    (hx.mul hM (by omega) hc (by omega) (by omega) (by omega) (by omega)).mono hM (by omega) (by omega)
  have hdet := (((term h00 (c0 0)).add hM (by omega) (term h01 (c1 0)) (by omega) (by omega)).add hM (by omega) (term h02 (c2 0)) (by omega) (by omega)).add hM
    (by omega) (term h03 (c3 0)) (by omega) (by omega)
  replace hdet : Near M 4 24 13259 (detE x00 x01 x02 x03 x10 x11 x12 x13 x20 x21 x22 x23 x30 x31 x32 x33)
    (detE (rv x00) (rv x01) (rv x02) (rv x03) (rv x10) (rv x11) (rv x12) (rv x13) (rv x20) (rv x21) (rv x22) (rv x23) (rv x30) (rv x31) (rv x32) (rv x33)) :=
    hdet.mono hM (by norm_num) (by norm_num)
  have hinv := mul_scaledCof (rv x00) (rv x01) (rv x02) (rv x03) (rv x10) (rv x11) (rv x12) (rv x13) (rv x20) (rv x21) (rv x22) (rv x23) (rv x30) (rv x31)
    (rv x32) (rv x33)
  unfold scaledCof at hinv
  refine ⟨_, _, _, _, _, _, _, _, _, c0, c1, c2, c3, hdet, invScalar_run F32.isZero _ _ _ _ _ _ (by
      unfold invScalarCofactors
      simp only [mat0, mat1, mat2, mat3, mk4_0, mk4_1, mk4_2, mk4_3]
      rfl)
    (by
      simp only [mat0, mk4_0, mk4_1, mk4_2, mk4_3]
      rfl), fun h0 => ?_⟩
  exact Matrix.inv_eq_right_inv (hinv _ (by field_simp))

theorem within_rows {a0 a1 a2 a3 : Vector F32 4} {b0 b1 b2 b3 : Vector ℝ 4} {ε : ℝ} (h0 : ∀ j : Fin 4, Fin' a0[j] ∧ |rv a0[j] - b0[j]| ≤ ε)
    (h1 : ∀ j : Fin 4, Fin' a1[j] ∧ |rv a1[j] - b1[j]| ≤ ε) (h2 : ∀ j : Fin 4, Fin' a2[j] ∧ |rv a2[j] - b2[j]| ≤ ε)
    (h3 : ∀ j : Fin 4, Fin' a3[j] ∧ |rv a3[j] - b3[j]| ≤ ε) : Within #v[a0, a1, a2, a3] (toMatrix #v[b0, b1, b2, b3]) ε := by
  intro i j
  match i with
  | 0 => exact h0 j
  | 1 => exact h1 j
  | 2 => exact h2 j
  | 3 => exact h3 j

/-- The shape of the error bounds. -/
theorem bound_shape {M D α κ : ℝ} (hM : Size M) (hα : 38.645 + 6.326 * α ≤ κ) :
    (38.645 + 6.326 * α + 1311 * (M ^ 4 / |D|)) * (M ^ 3 * (ν / |D|)) ≤ (κ * (M ^ 3 / |D|) + 1311 * (M ^ 7 / |D| ^ 2)) / 2 ^ 24 := by
  have h3 := pow_pos hM.pos 3
  have : (κ * (M ^ 3 / |D|) + 1311 * (M ^ 7 / |D| ^ 2)) / 2 ^ 24 = (κ + 1311 * (M ^ 4 / |D|)) * (M ^ 3 * (ν / |D|)) := by unfold ν; ring
  rw [this]
  refine mul_le_mul_of_nonneg_right (by linarith) (mul_nonneg h3.le (div_nonneg ν_pos.le (abs_nonneg _)))

theorem nonzero_of_near {M : ℝ} {e b : ℕ} {x : F32} {r : ℝ} (h : Near M 4 b e x r) (hr : (e / 64 : ℝ) * (ν * M ^ 4) < |r|) :
    ¬ F32.isZero x = true := by
  rw [isZero_iff h.1]
  intro h0
  have := h.2.2
  rw [h0, zero_sub, abs_neg] at this
  linarith

theorem large_det {M D : ℝ} (hM : Size M) (hD : M ^ 4 / 4096 ≤ |D|) : 262 / 2 ^ 24 * M ^ 4 < |D| := by
  refine lt_of_lt_of_le ?_ hD
  have := pow_pos hM.pos 4
  rw [div_eq_mul_one_div (M ^ 4), mul_comm (M ^ 4)]
  exact mul_lt_mul_of_pos_right (by norm_num) this

/-- If the scalar routine returns `None`, the determinant is tiny: at most 208 · 2^-24 · M⁴. -/
theorem C132_scalar_none {M : ℝ} (h1 : 1 / 2 ^ 20 ≤ M) (h2 : M ≤ 2 ^ 20) {m : Mat F32} (hm : Bounded M m) (h : invScalar F32.isZero m = none) :
    |(realMat m).det| ≤ 208 / 2 ^ 24 * M ^ 4 := by
  have hM : Size M := ⟨h1, h2⟩
  obtain ⟨c0, c1, c2, c3, k0, k1, k2, k3, det, -, -, -, -, hd, e, -⟩ := scalar_parts hM hm
  by_contra hc
  rw [not_le] at hc
  have h4 := pow_pos hM.pos 4
  rw [e, if_neg (nonzero_of_near hd (lt_of_le_of_lt ?_ hc))] at h
  · cases h
  · rw [← mul_assoc]
    refine mul_le_mul_of_nonneg_right ?_ h4.le
    unfold ν
    norm_num

/-- A matrix with elements of at most `M` and a determinant of at least M⁴ / 4096 is inverted by the scalar routine, and every element of the result is a
finite number that differs from the element of the inverse by at most (45 M³ / |det| + 1311 M⁷ / det²) · 2^-24. -/
theorem C132_scalar {M : ℝ} (h1 : 1 / 2 ^ 20 ≤ M) (h2 : M ≤ 2 ^ 20) {m : Mat F32} (hm : Bounded M m) (hD : M ^ 4 / 4096 ≤ |(realMat m).det|) :
    ∃ m', invScalar F32.isZero m = some m' ∧
      Within m' (realMat m)⁻¹ ((45 * (M ^ 3 / |(realMat m).det|) + 1311 * (M ^ 7 / |(realMat m).det| ^ 2)) / 2 ^ 24) := by
  have hM : Size M := ⟨h1, h2⟩
  obtain ⟨c0, c1, c2, c3, k0, k1, k2, k3, det, n0, n1, n2, n3, hd, e, hinv⟩ := scalar_parts hM hm
  generalize (realMat m).det = D at *
  obtain ⟨p1, p2, -, -, -⟩ := det_near hM hd hD
  obtain ⟨q0, q1, q2⟩ := det_inv_size hM hd hD
  rw [if_neg (fun hz => q0 ((isZero_iff hd.1).1 hz))] at e
  refine ⟨_, e, ?_⟩
  rw [hinv (abs_pos.1 p1)]
  obtain ⟨fy, ey⟩ := recip_gen hd.1 rfl q0 q1 q2
  have hy := inv_near (α := 1) hM hd hD zero_le_one (by rw [one_mul]; exact ey)
  have row : ∀ {c : Vec F32 4} {k : Vec ℝ 4}, VNear M 3 6 2065 c k → ∀ j : Fin 4, Fin' (c.map (· * (1 / det)))[j] ∧
      |rv (c.map (· * (1 / det)))[j] - (k.map (· * (1 / D)))[j]| ≤ (45 * (M ^ 3 / |D|) + 1311 * (M ^ 7 / |D| ^ 2)) / 2 ^ 24 := by
    intro c k hc j
    rw [show (c.map (· * (1 / det)))[j] = c[j] * (1 / det) from Vector.getElem_map .., show (k.map (· * (1 / D)))[j] = k[j] * (1 / D) from Vector.getElem_map ..]
    obtain ⟨a, b⟩ := scale_near (α := 1) hM (hc j) fy hD p2 zero_le_one (by norm_num) hy
    exact ⟨a, b.trans (bound_shape hM (by norm_num))⟩
  exact within_rows (row n0) (row n1) (row n2) (row n3)

/-- The sum of the lanes of the determinant vector. -/
theorem det_sum (t : Target) {M : ℝ} (hM : Size M) {det : Vec F32 4} {D : ℝ} (h : ∀ i : Fin 4, Near M 4 24 12875 det[i] D) :
    ∃ s, vsum t (⟨0, (· + ·), (· * ·)⟩ : Arith F32) det = .ok s ∧ Near M 4 96 66864 s (4 * D) := by
  obtain ⟨a, b, c, f, rfl⟩ := vec4_lit det
  have ha : Near M 4 24 12875 a D := by simpa [mk4_0] using h 0
  have hb : Near M 4 24 12875 b D := by simpa [mk4_1] using h 1
  have hc : Near M 4 24 12875 c D := by simpa [mk4_2] using h 2
  have hf : Near M 4 24 12875 f D := by simpa [mk4_3] using h 3
  have tail : ∀ {x : F32}, Near M 4 24 14412 x D → Near M 4 96 66864 (x + b + c + f) (4 * D) := by
    intro x hx
    have := ((hx.add hM (by omega) hb (by omega) (by omega)).add hM (by omega) hc (by omega) (by omega)).add hM (by omega) hf (by omega) (by omega)
    rw [show 4 * D = D + D + D + D by ring]
    exact this.mono hM (by omega) (by omega)
  have hz : Near M 4 0 0 (0 : F32) 0 := ⟨zero_ok.1, by simp, by simp [zero_ok.2]⟩
  by_cases ht : t.arch = .aarch64
  · refine ⟨a + b + c + f, ?_, tail (ha.mono hM (by omega) (by omega))⟩
    unfold vsum
    rw [if_neg (by simpa using ht), (mk4_congr rfl rfl rfl rfl : mk4 a b c f = _)]
    rfl
  · refine ⟨0 + a + b + c + f, ?_, tail ?_⟩
    · unfold vsum
      rw [if_pos ht, (mk4_congr rfl rfl rfl rfl : mk4 a b c f = _)]
      rfl
    · have := hz.add hM (by omega) ha (by omega) (by omega)
      rw [zero_add D] at this
      exact this.mono hM (by omega) (by omega)

/-- The determinant and the cofactors of the shuffle-based routine. -/
theorem simd_parts (t : Target) {M : ℝ} (hM : Size M) {m : Mat F32} (hm : Bounded M m) :
    ∃ (c0 c1 c2 c3 det : Vec F32 4) (k0 k1 k2 k3 : Vec ℝ 4) (s : F32),
      VNear M 3 6 2065 c0 k0 ∧ VNear M 3 6 2065 c1 k1 ∧ VNear M 3 6 2065 c2 k2 ∧ VNear M 3 6 2065 c3 k3 ∧
      (∀ i : Fin 4, Near M 4 24 12875 det[i] (realMat m).det) ∧ Near M 4 96 66864 s (4 * (realMat m).det) ∧
      (invSimd t F32.isZero m = .ok (if F32.isZero s then none else
        some #v[c0 * (vrecpre det + vrecpre det - det * vrecpre det * vrecpre det), c1 * (vrecpre det + vrecpre det - det * vrecpre det * vrecpre det),
          c2 * (vrecpre det + vrecpre det - det * vrecpre det * vrecpre det), c3 * (vrecpre det + vrecpre det - det * vrecpre det * vrecpre det)])) ∧
      ((realMat m).det ≠ 0 → (realMat m)⁻¹ = toMatrix #v[k0.map (· * (1 / (realMat m).det)), k1.map (· * (1 / (realMat m).det)),
        k2.map (· * (1 / (realMat m).det)), k3.map (· * (1 / (realMat m).det))]) := by
  have hg := bounded_near hm
  obtain ⟨x00, x01, x02, x03, x10, x11, x12, x13, x20, x21, x22, x23, x30, x31, x32, x33, rfl⟩ := mat_lit' m
  rw [realMat_lit, det_lit]
  have row : ∀ {a b c e : F32}, Near M 1 1 0 a (rv a) → Near M 1 1 0 b (rv b) → Near M 1 1 0 c (rv c) → Near M 1 1 0 e (rv e) →
      VNear M 1 1 0 (mk4 a b c e) (mk4 (rv a) (rv b) (rv c) (rv e)) := by
    intro a b c e h0 h1 h2 h3
    rw [(mk4_congr rfl rfl rfl rfl : mk4 a b c e = _), (mk4_congr rfl rfl rfl rfl : mk4 (rv a) (rv b) (rv c) (rv e) = _)]
    exact VNear.lit h0 h1 h2 h3
  have h00 := hg 0 0; have h01 := hg 0 1; have h02 := hg 0 2; have h03 := hg 0 3
  have h10 := hg 1 0; have h11 := hg 1 1; have h12 := hg 1 2; have h13 := hg 1 3
  have h20 := hg 2 0; have h21 := hg 2 1; have h22 := hg 2 2; have h23 := hg 2 3
  have h30 := hg 3 0; have h31 := hg 3 1; have h32 := hg 3 2; have h33 := hg 3 3
  simp only [Fin.isValue, Fin.getElem_fin, Fin.val_zero, Fin.val_one, Fin.val_two, show ((3 : Fin 4) : ℕ) = 3 from rfl, mat0, mat1, mat2, mat3, mk4_0, mk4_1,
    mk4_2, mk4_3] at h00 h01 h02 h03 h10 h11 h12 h13 h20 h21 h22 h23 h30 h31 h32 h33
  have hmin := minors_near hM
    (m := mat (mk4 x00 x01 x02 x03) (mk4 x10 x11 x12 x13) (mk4 x20 x21 x22 x23) (mk4 x30 x31 x32 x33))
    (m' := mat (mk4 (rv x00) (rv x01) (rv x02) (rv x03)) (mk4 (rv x10) (rv x11) (rv x12) (rv x13)) (mk4 (rv x20) (rv x21) (rv x22) (rv x23))
        (mk4 (rv x30) (rv x31) (rv x32) (rv x33)))
    (row h00 h01 h02 h03) (row h10 h11 h12 h13) (row h20 h21 h22 h23) (row h30 h31 h32 h33)
  rw [minors_lit] at hmin
  have hinv := mul_scaledCof (rv x00) (rv x01) (rv x02) (rv x03) (rv x10) (rv x11) (rv x12) (rv x13) (rv x20) (rv x21) (rv x22) (rv x23) (rv x30) (rv x31)
    (rv x32) (rv x33)
  unfold invSimd
  unfold scaledCof at hinv
  generalize minorsSimd (mat (mk4 x00 x01 x02 x03) (mk4 x10 x11 x12 x13) (mk4 x20 x21 x22 x23) (mk4 x30 x31 x32 x33)) = s at hmin ⊢
  dsimp only at hmin
  generalize detE (rv x00) (rv x01) (rv x02) (rv x03) (rv x10) (rv x11) (rv x12) (rv x13) (rv x20) (rv x21) (rv x22) (rv x23) (rv x30) (rv x31) (rv x32)
    (rv x33) = D at hmin hinv ⊢
  obtain ⟨n0, n1, n2, n3, det⟩ := s
  dsimp only at hmin ⊢
  obtain ⟨c0, c1, c2, c3, hd⟩ := hmin
  have hd' : ∀ i : Fin 4, Near M 4 24 12875 det[i] D := by
    intro i
    match i with
    | 0 => exact hd 0
    | 1 => exact hd 1
    | 2 => exact hd 2
    | 3 => exact hd 3
  obtain ⟨s, e1, e2⟩ := det_sum t hM hd'
  refine ⟨n0, n1, n2, n3, det, _, _, _, _, s, c0, c1, c2, c3, hd', e2, ?_, fun h0 => Matrix.inv_eq_right_inv (hinv _ (by field_simp))⟩
  rw [e1]
  simp only [R_ok_bind]
  by_cases hz : F32.isZero s = true
  · rw [if_pos hz, if_pos hz]; rfl
  · rw [if_neg hz, if_neg hz]; rfl

/-- If the shuffle-based routine returns `None`, the determinant is tiny: at most 262 · 2^-24 · M⁴; it never fails otherwise. -/
theorem C132_simd_none (t : Target) {M : ℝ} (h1 : 1 / 2 ^ 20 ≤ M) (h2 : M ≤ 2 ^ 20) {m : Mat F32} (hm : Bounded M m) :
    ∃ o, invSimd t F32.isZero m = .ok o ∧ (o = none → |(realMat m).det| ≤ 262 / 2 ^ 24 * M ^ 4) := by
  have hM : Size M := ⟨h1, h2⟩
  obtain ⟨c0, c1, c2, c3, det, k0, k1, k2, k3, s, -, -, -, -, -, hs, e, -⟩ := simd_parts t hM hm
  refine ⟨_, e, fun h => ?_⟩
  by_contra hc
  rw [not_le] at hc
  have h4 := pow_pos hM.pos 4
  rw [if_neg (nonzero_of_near hs ?_)] at h
  · cases h
  · rw [abs_mul, abs_of_pos (by norm_num : (0 : ℝ) < 4), ← mul_assoc]
    refine lt_of_le_of_lt ?_ (mul_lt_mul_of_pos_left hc (by norm_num))
    rw [← mul_assoc]
    refine mul_le_mul_of_nonneg_right ?_ h4.le
    unfold ν
    norm_num

/-- The shuffle-based routine, on every target: the same as `C132_scalar`, with 58 instead of 45. -/
theorem C132_simd (t : Target) {M : ℝ} (h1 : 1 / 2 ^ 20 ≤ M) (h2 : M ≤ 2 ^ 20) {m : Mat F32} (hm : Bounded M m) (hD : M ^ 4 / 4096 ≤ |(realMat m).det|) :
    ∃ m', invSimd t F32.isZero m = .ok (some m') ∧
      Within m' (realMat m)⁻¹ ((58 * (M ^ 3 / |(realMat m).det|) + 1311 * (M ^ 7 / |(realMat m).det| ^ 2)) / 2 ^ 24) := by
  have hM : Size M := ⟨h1, h2⟩
  obtain ⟨o, e', hnone⟩ := C132_simd_none t h1 h2 hm
  obtain ⟨c0, c1, c2, c3, det, k0, k1, k2, k3, s, n0, n1, n2, n3, hd, -, e, hinv⟩ := simd_parts t hM hm
  generalize (realMat m).det = D at *
  have hd' : ∀ i : Fin 4, Near M 4 24 13259 det[i] D := fun i => (hd i).mono hM le_rfl (by norm_num)
  obtain ⟨p1, p2, -, -, -⟩ := det_near hM (hd' 0) hD
  by_cases hz : F32.isZero s = true
  · rw [if_pos hz] at e
    rw [e] at e'
    exact absurd (hnone (Except.ok.inj e').symm) (not_le.2 (large_det hM hD))
  rw [if_neg hz] at e
  refine ⟨_, e, ?_⟩
  rw [hinv (abs_pos.1 p1)]
  have row : ∀ {c : Vec F32 4} {k : Vec ℝ 4}, VNear M 3 6 2065 c k → ∀ j : Fin 4,
      Fin' (c * (vrecpre det + vrecpre det - det * vrecpre det * vrecpre det))[j] ∧
      |rv (c * (vrecpre det + vrecpre det - det * vrecpre det * vrecpre det))[j] - (k.map (· * (1 / D)))[j]| ≤
        (58 * (M ^ 3 / |D|) + 1311 * (M ^ 7 / |D| ^ 2)) / 2 ^ 24 := by
    intro c k hc j
    rw [show (c * (vrecpre det + vrecpre det - det * vrecpre det * vrecpre det))[j] = c[j] * (vrecpre det + vrecpre det - det * vrecpre det * vrecpre det)[j] from
      Vector.getElem_zipWith .., show (k.map (· * (1 / D)))[j] = k[j] * (1 / D) from Vector.getElem_map .., newton_lane]
    obtain ⟨q0, q1, q2⟩ := det_inv_size hM (hd' j) hD
    obtain ⟨fy, ey⟩ := newton_gen (hd' j).1 rfl q0 q1 q2
    have hy := inv_near (α := 3.001) hM (hd' j) hD (by norm_num) ey
    obtain ⟨a, b⟩ := scale_near (α := 3.001) hM (hc j) fy hD p2 (by norm_num) (by norm_num) hy
    exact ⟨a, b.trans (bound_shape hM (by norm_num))⟩
  exact within_rows (row n0) (row n1) (row n2) (row n3)

/-- Hence the two routines agree up to the sum of the two bounds, on every target. -/
theorem C132_agree (t : Target) {M : ℝ} (h1 : 1 / 2 ^ 20 ≤ M) (h2 : M ≤ 2 ^ 20) {m : Mat F32} (hm : Bounded M m)
    (hD : M ^ 4 / 4096 ≤ |(realMat m).det|) :
    ∃ a b, invScalar F32.isZero m = some a ∧ invSimd t F32.isZero m = .ok (some b) ∧ ∀ i j : Fin 4,
      |realVal 23 a[i][j].bits - realVal 23 b[i][j].bits| ≤
        (103 * (M ^ 3 / |(realMat m).det|) + 2622 * (M ^ 7 / |(realMat m).det| ^ 2)) / 2 ^ 24 := by
  obtain ⟨a, ea, ha⟩ := C132_scalar h1 h2 hm hD
  obtain ⟨b, eb, hb⟩ := C132_simd t h1 h2 hm hD
  refine ⟨a, b, ea, eb, fun i j => ?_⟩
  have t1 := (ha i j).2
  have t2 := (hb i j).2
  rw [abs_sub_comm] at t2
  refine (abs_sub_le _ ((realMat m)⁻¹ i j) _).trans ((add_le_add t1 t2).trans (le_of_eq ?_))
  ring

/-- And the product of the matrix and the result is the identity matrix up to 4 M times the bound in every element. -/
theorem within_residual {M ε : ℝ} {m m' : Mat F32} (hm : Bounded M m) (h0 : (realMat m).det ≠ 0) (h : Within m' (realMat m)⁻¹ ε) (hM : 0 ≤ M) (i j : Fin 4) :
    |(realMat m * realMat m') i j - (1 : Matrix (Fin 4) (Fin 4) ℝ) i j| ≤ 4 * M * ε := by
  rw [← Matrix.mul_nonsing_inv (realMat m) (isUnit_iff_ne_zero.2 h0), ← Matrix.sub_apply, ← Matrix.mul_sub, Matrix.mul_apply]
  refine (Finset.abs_sum_le_sum_abs _ _).trans ?_
  have : ∀ k ∈ Finset.univ, |realMat m i k * (realMat m' - (realMat m)⁻¹) k j| ≤ M * ε := by
    intro k _
    rw [abs_mul]
    exact mul_le_mul (hm i k).2 (h k j).2 (abs_nonneg _) hM
  refine (Finset.sum_le_sum this).trans (le_of_eq ?_)
  rw [Finset.sum_const, Finset.card_univ, Fintype.card_fin, nsmul_eq_mul]
  push_cast
  ring

/-- The product of the matrix and the result of either routine is the identity matrix up to rounding. -/
theorem C132_residual (t : Target) {M : ℝ} (h1 : 1 / 2 ^ 20 ≤ M) (h2 : M ≤ 2 ^ 20) {m : Mat F32} (hm : Bounded M m)
    (hD : M ^ 4 / 4096 ≤ |(realMat m).det|) :
    ∃ a b, invScalar F32.isZero m = some a ∧ invSimd t F32.isZero m = .ok (some b) ∧ ∀ i j : Fin 4,
      |(realMat m * realMat a) i j - (1 : Matrix (Fin 4) (Fin 4) ℝ) i j| ≤
        4 * M * ((45 * (M ^ 3 / |(realMat m).det|) + 1311 * (M ^ 7 / |(realMat m).det| ^ 2)) / 2 ^ 24) ∧
      |(realMat m * realMat b) i j - (1 : Matrix (Fin 4) (Fin 4) ℝ) i j| ≤
        4 * M * ((58 * (M ^ 3 / |(realMat m).det|) + 1311 * (M ^ 7 / |(realMat m).det| ^ 2)) / 2 ^ 24) := by
  have hp : 0 < M := lt_of_lt_of_le (by norm_num) h1
  have h0 : (realMat m).det ≠ 0 := abs_pos.1 (lt_of_lt_of_le (by positivity) hD)
  obtain ⟨a, ea, ha⟩ := C132_scalar h1 h2 hm hD
  obtain ⟨b, eb, hb⟩ := C132_simd t h1 h2 hm hD
  exact ⟨a, b, ea, eb, fun i j => ⟨within_residual hm h0 ha hp.le i j, within_residual hm h0 hb hp.le i j⟩⟩

-- a matrix with elements up to 1001 (beyond C124): its inverse is computed with an absolute error of at most 2^-23
def sample : Matrix (Fin 4) (Fin 4) ℤ := !![1001, 3, 7, -5; 2, -999, 13, 4; 17, -8, 997, 11; 1, 6, -9, 1001]

theorem sample_ok : Bounded 1001 (intMat sample) ∧ (1001 : ℝ) ^ 4 / 4096 ≤ |(realMat (intMat sample)).det| ∧
    9.9 * 10 ^ 11 ≤ |(realMat (intMat sample)).det| := by
  have hz : ∀ i j, (sample i j).natAbs ≤ 1001 := by decide +kernel
  have hd : sample.det = -997905893322 := by decide +kernel
  have hdet : (realMat (intMat sample)).det = sample.det := intMat_det fun i j => (hz i j).trans (by norm_num)
  refine ⟨fun i j => ?_, ?_, ?_⟩
  · rw [intMat_get]
    obtain ⟨f, e⟩ := ofInt_ok (z := sample i j) ((hz i j).trans (by norm_num))
    refine ⟨f, ?_⟩
    rw [e, ← Int.cast_abs, ← Nat.cast_natAbs]
    exact_mod_cast hz i j
  · rw [hdet, hd]; norm_num [abs_of_neg]
  · rw [hdet, hd]; norm_num [abs_of_neg]

example : ∃ m', invSimd x64Avx F32.isZero (intMat sample) = .ok (some m') ∧ Within m' (realMat (intMat sample))⁻¹ (1 / 2 ^ 23) := by
  obtain ⟨h1, h2, h3⟩ := sample_ok
  obtain ⟨m', e, h⟩ := C132_simd x64Avx (M := 1001) (by norm_num) (by norm_num) h1 h2
  refine ⟨m', e, fun i j => ⟨(h i j).1, (h i j).2.trans ?_⟩⟩
  generalize |(realMat (intMat sample)).det| = D at h3 ⊢
  have hp : 0 < D := lt_of_lt_of_le (by norm_num) h3
  have a1 : (1001 : ℝ) ^ 3 / D ≤ 1001 ^ 3 / (9.9 * 10 ^ 11) := div_le_div_of_nonneg_left (by norm_num) (by norm_num) h3
  have a2 : (1001 : ℝ) ^ 7 / D ^ 2 ≤ 1001 ^ 7 / (9.9 * 10 ^ 11) ^ 2 :=
    div_le_div_of_nonneg_left (by norm_num) (by norm_num) (pow_le_pow_left₀ (by norm_num) h3 2)
  norm_num at a1 a2 ⊢
  linarith

end PackedSimd.Props
