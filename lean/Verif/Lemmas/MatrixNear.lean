import Verif.Spec.MatrixNear
import Verif.Lemmas.MatrixCof
/-
The matrix inverse example on general matrices: rounding errors of the cofactors and of the determinant.
-/
namespace PackedSimd.F32R
open Spec Ex

/-- `x` is finite and within `e / 64` unit roundoffs, times `M ^ d`, of `r`, which is at most `b * M ^ d`. -/
def Near (M : ℝ) (d b e : ℕ) (x : F32) (r : ℝ) : Prop := Fin' x ∧ |r| ≤ b * M ^ d ∧ |rv x - r| ≤ (e / 64 : ℝ) * (ν * M ^ d)

/-- The sizes that are treated. -/
def Size (M : ℝ) : Prop := 1 / 2 ^ 20 ≤ M ∧ M ≤ 2 ^ 20

variable {M : ℝ} {d d' b b' e e' : ℕ} {x y : F32} {r s : ℝ}

theorem Size.pos (h : Size M) : 0 < M := lt_of_lt_of_le (by norm_num) h.1

theorem Size.pow_le (h : Size M) (hd : d ≤ 4) : M ^ d ≤ 2 ^ 80 := by
  calc M ^ d ≤ (2 ^ 20) ^ d := pow_le_pow_left₀ h.pos.le h.2 d
    _ ≤ (2 ^ 20) ^ 4 := pow_le_pow_right₀ (by norm_num) hd
    _ = 2 ^ 80 := by norm_num
theorem Size.le_pow (h : Size M) (hd : d ≤ 4) : 1 / 2 ^ 80 ≤ M ^ d := by
  calc (1 : ℝ) / 2 ^ 80 = (1 / 2 ^ 20) ^ 4 := by norm_num
    _ ≤ (1 / 2 ^ 20) ^ d := pow_le_pow_of_le_one (by norm_num) (by norm_num) hd
    _ ≤ M ^ d := pow_le_pow_left₀ (by norm_num) h.1 d
theorem Size.η_le (h : Size M) (hd : d ≤ 4) : η ≤ 1 / 2 ^ 40 * (ν * M ^ d) := by
  have := mul_le_mul_of_nonneg_left (h.le_pow hd) (mul_nonneg (by norm_num : (0 : ℝ) ≤ 1 / 2 ^ 40) ν_pos.le)
  unfold η ν at *
  norm_num at this ⊢
  linarith

theorem Near.neg (h : Near M d b e x r) : Near M d b e (-x) (-r) := by
  obtain ⟨h1, h2, h3⟩ := h
  obtain ⟨h4, h5⟩ := neg_ok h1
  refine ⟨h4, by rwa [abs_neg], ?_⟩
  rw [h5, show -rv x - -r = -(rv x - r) by ring, abs_neg]
  exact h3

theorem Near.mono (hM : Size M) (h : Near M d b e x r) (hb : b ≤ b') (he : e ≤ e') : Near M d b' e' x r := by
  have h0 := pow_pos hM.pos d
  have hν := mul_pos ν_pos h0
  refine ⟨h.1, h.2.1.trans (mul_le_mul_of_nonneg_right (by exact_mod_cast hb) h0.le), h.2.2.trans (mul_le_mul_of_nonneg_right ?_ hν.le)⟩
  exact div_le_div_of_nonneg_right (by exact_mod_cast he) (by norm_num)

/-- A rounded sum. -/
theorem sum_near (hM : Size M) {a c z v w p : ℝ} (ha : |a - v| ≤ (e / 64 : ℝ) * (ν * M ^ d)) (hc : |c - w| ≤ (e' / 64 : ℝ) * (ν * M ^ d))
    (hv : |v| ≤ b * M ^ d) (hw : |w| ≤ b' * M ^ d) (he : e + e' ≤ 2 ^ 20) (hp : p = a + c) (hz : |z - p| ≤ ν * |p|) :
    |z - (v + w)| ≤ ((e + e' + 64 * (b + b') + 1 : ℕ) / 64 : ℝ) * (ν * M ^ d) := by
  have h0 := pow_pos hM.pos d
  have hν := ν_pos
  have hνM := mul_pos hν h0
  have he' : (e : ℝ) + e' ≤ 2 ^ 20 := by exact_mod_cast he
  have h1 : |p - (v + w)| ≤ ((e + e') / 64 : ℝ) * (ν * M ^ d) := by
    rw [hp, show a + c - (v + w) = (a - v) + (c - w) by ring]
    refine (abs_add_le _ _).trans ?_
    calc _ ≤ _ := add_le_add ha hc
      _ = _ := by ring
  have h2 : |p| ≤ (b + b') * M ^ d + ((e + e') / 64 : ℝ) * (ν * M ^ d) := by
    rw [show p = (p - (v + w)) + (v + w) by ring]
    refine (abs_add_le _ _).trans ?_
    have := abs_add_le v w
    linarith
  have h3 : |z - (v + w)| ≤ ν * |p| + ((e + e') / 64 : ℝ) * (ν * M ^ d) := by
    rw [show z - (v + w) = (z - p) + (p - (v + w)) by ring]
    exact (abs_add_le _ _).trans (add_le_add hz h1)
  have h4 : ν * |p| ≤ ν * ((b + b') * M ^ d + ((e + e') / 64 : ℝ) * (ν * M ^ d)) := mul_le_mul_of_nonneg_left h2 hν.le
  have h5 : ν * (((e + e') / 64 : ℝ) * (ν * M ^ d)) ≤ 1 / 64 * (ν * M ^ d) := by
    rw [← mul_assoc]
    refine mul_le_mul_of_nonneg_right ?_ hνM.le
    have : ν * (((e : ℝ) + e') / 64) ≤ ν * (2 ^ 20 / 64) := mul_le_mul_of_nonneg_left (by linarith) hν.le
    refine this.trans ?_
    unfold ν
    norm_num
  push_cast
  calc _ ≤ _ := h3
    _ ≤ ν * ((b + b') * M ^ d + ((e + e') / 64 : ℝ) * (ν * M ^ d)) + ((e + e') / 64 : ℝ) * (ν * M ^ d) := by linarith
    _ ≤ _ := by nlinarith

theorem near_lt (hM : Size M) (hd : d ≤ 4) {a c v w : ℝ} (ha : |a - v| ≤ (e / 64 : ℝ) * (ν * M ^ d)) (hc : |c - w| ≤ (e' / 64 : ℝ) * (ν * M ^ d))
    (hv : |v| ≤ b * M ^ d) (hw : |w| ≤ b' * M ^ d) (he : e + e' ≤ 2 ^ 20) (hb : b + b' ≤ 2 ^ 20) : |a| + |c| < 2 ^ 127 := by
  have h0 := pow_pos hM.pos d
  have hU := hM.pow_le hd
  have hν := ν_pos
  have hνM := mul_pos hν h0
  have he' : (e : ℝ) + e' ≤ 2 ^ 20 := by exact_mod_cast he
  have hb' : (b : ℝ) + b' ≤ 2 ^ 20 := by exact_mod_cast hb
  have h1 := abs_sub_abs_le_abs_sub a v
  have h2 := abs_sub_abs_le_abs_sub c w
  have h3 : |a| + |c| ≤ (b + b') * M ^ d + ((e + e') / 64) * (ν * M ^ d) := by linarith
  have h4 : ((b : ℝ) + b') * M ^ d ≤ 2 ^ 20 * 2 ^ 80 := mul_le_mul hb' hU h0.le (by norm_num)
  have h5 : ((e : ℝ) + e') / 64 * (ν * M ^ d) ≤ 2 ^ 20 * (1 * 2 ^ 80) :=
    mul_le_mul (by linarith) (mul_le_mul (ν_le.trans (by norm_num)) hU h0.le (by norm_num)) hνM.le (by norm_num)
  norm_num at h4 h5 ⊢
  linarith

theorem Near.add (hM : Size M) (hd : d ≤ 4) (hx : Near M d b e x r) (hy : Near M d b' e' y s) (he : e + e' ≤ 2 ^ 20) (hb : b + b' ≤ 2 ^ 20) :
    Near M d (b + b') (e + e' + 64 * (b + b') + 1) (x + y) (r + s) := by
  have hl := near_lt hM hd hx.2.2 hy.2.2 hx.2.1 hy.2.1 he hb
  obtain ⟨h1, h2⟩ := add_ok hx.1 hy.1 (lt_of_le_of_lt (abs_add_le _ _) hl)
  refine ⟨h1, ?_, sum_near hM hx.2.2 hy.2.2 hx.2.1 hy.2.1 he rfl h2⟩
  push_cast
  have := abs_add_le r s
  have := hx.2.1
  have := hy.2.1
  linarith

theorem Near.sub (hM : Size M) (hd : d ≤ 4) (hx : Near M d b e x r) (hy : Near M d b' e' y s) (he : e + e' ≤ 2 ^ 20) (hb : b + b' ≤ 2 ^ 20) :
    Near M d (b + b') (e + e' + 64 * (b + b') + 1) (x - y) (r - s) := by
  have hl := near_lt hM hd hx.2.2 hy.2.2 hx.2.1 hy.2.1 he hb
  obtain ⟨h1, h2⟩ := sub_ok hx.1 hy.1 (lt_of_le_of_lt (abs_sub _ _) hl)
  have hy2 : |-rv y - -s| ≤ (e' / 64 : ℝ) * (ν * M ^ d) := by rw [← neg_add', abs_neg, ← sub_eq_add_neg]; exact hy.2.2
  refine ⟨h1, ?_, ?_⟩
  · push_cast
    have := abs_sub r s
    have := hx.2.1
    have := hy.2.1
    linarith
  · rw [sub_eq_add_neg r s]
    exact sum_near hM hx.2.2 hy2 hx.2.1 (by rw [abs_neg]; exact hy.2.1) he (sub_eq_add_neg _ _) h2

theorem Near.mul (hM : Size M) (hd : d + d' ≤ 4) (hx : Near M d b e x r) (hy : Near M d' b' e' y s) (he : e ≤ 2 ^ 13) (he' : e' ≤ 2 ^ 13) (hb : b ≤ 2 ^ 7)
    (hb' : b' ≤ 2 ^ 7) : Near M (d + d') (b * b') (b * e' + b' * e + 64 * (b * b') + 1) (x * y) (r * s) := by
  obtain ⟨fx, rx, ex⟩ := hx
  obtain ⟨fy, ry, ey⟩ := hy
  have h0 := pow_pos hM.pos d
  have h0' := pow_pos hM.pos d'
  have hU := hM.pow_le hd
  have hη := hM.η_le hd
  have hν := ν_pos
  rw [pow_add] at hU hη
  set A := M ^ d with hA
  set B := M ^ d' with hB
  have hAB := mul_pos h0 h0'
  have c1 : (e : ℝ) ≤ 2 ^ 13 := by exact_mod_cast he
  have c2 : (e' : ℝ) ≤ 2 ^ 13 := by exact_mod_cast he'
  have c3 : (b : ℝ) ≤ 2 ^ 7 := by exact_mod_cast hb
  have c4 : (b' : ℝ) ≤ 2 ^ 7 := by exact_mod_cast hb'
  have n1 : (0 : ℝ) ≤ e := Nat.cast_nonneg _
  have n2 : (0 : ℝ) ≤ e' := Nat.cast_nonneg _
  have n3 : (0 : ℝ) ≤ b := Nat.cast_nonneg _
  have n4 : (0 : ℝ) ≤ b' := Nat.cast_nonneg _
  -- the error of the exact product of the rounded factors
  have hp : |rv x * rv y - r * s| ≤ ((b * e' + b' * e) / 64 + e * e' / 4096 * ν : ℝ) * (ν * (A * B)) := by
    rw [show rv x * rv y - r * s = r * (rv y - s) + s * (rv x - r) + (rv x - r) * (rv y - s) by ring]
    refine (abs_add_three _ _ _).trans ?_
    rw [abs_mul, abs_mul, abs_mul]
    have t1 := mul_le_mul rx ey (abs_nonneg _) (mul_nonneg n3 h0.le)
    have t2 := mul_le_mul ry ex (abs_nonneg _) (mul_nonneg n4 h0'.le)
    have t3 := mul_le_mul ex ey (abs_nonneg _) (by positivity)
    calc _ ≤ _ := add_le_add (add_le_add t1 t2) t3
      _ = _ := by ring
  have hrs : |r * s| ≤ b * b' * (A * B) := by
    rw [abs_mul]
    calc _ ≤ _ := mul_le_mul rx ry (abs_nonneg _) (mul_nonneg n3 h0.le)
      _ = _ := by ring
  have m1 : (b : ℝ) * e' ≤ 2 ^ 7 * 2 ^ 13 := mul_le_mul c3 c2 n2 (by norm_num)
  have m2 : (b' : ℝ) * e ≤ 2 ^ 7 * 2 ^ 13 := mul_le_mul c4 c1 n1 (by norm_num)
  have m3 : (e : ℝ) * e' ≤ 2 ^ 13 * 2 ^ 13 := mul_le_mul c1 c2 n2 (by norm_num)
  have m4 : (b : ℝ) * b' ≤ 2 ^ 7 * 2 ^ 7 := mul_le_mul c3 c4 n4 (by norm_num)
  have hE : ((b * e' + b' * e) / 64 + e * e' / 4096 * ν : ℝ) * ν ≤ 1 / 2 ^ 8 := by
    calc _ ≤ ((2 ^ 7 * 2 ^ 13 + 2 ^ 7 * 2 ^ 13) / 64 + 2 ^ 13 * 2 ^ 13 / 4096 * ν) * ν := by
          refine mul_le_mul_of_nonneg_right (add_le_add (by linarith) (mul_le_mul_of_nonneg_right (by linarith) hν.le)) hν.le
      _ ≤ _ := by unfold ν; norm_num
  have hpb : |rv x * rv y| ≤ (b * b' + 1 / 2 ^ 8) * (A * B) := by
    rw [show rv x * rv y = (rv x * rv y - r * s) + r * s by ring]
    refine (abs_add_le _ _).trans ?_
    have : ((b * e' + b' * e) / 64 + e * e' / 4096 * ν : ℝ) * (ν * (A * B)) ≤ 1 / 2 ^ 8 * (A * B) := by
      rw [← mul_assoc]; exact mul_le_mul_of_nonneg_right hE hAB.le
    linarith
  have hlt : |rv x * rv y| < 2 ^ 127 := by
    refine lt_of_le_of_lt hpb ?_
    calc _ ≤ ((2 ^ 7 * 2 ^ 7 + 1 / 2 ^ 8) * 2 ^ 80 : ℝ) := mul_le_mul (by linarith) hU hAB.le (by norm_num)
      _ < _ := by norm_num
  obtain ⟨h1, h2⟩ := mul_ok fx fy hlt
  rw [Near, pow_add]
  refine ⟨h1, by push_cast; exact hrs, ?_⟩
  rw [show rv (x * y) - r * s = (rv (x * y) - rv x * rv y) + (rv x * rv y - r * s) by ring]
  refine (abs_add_le _ _).trans ?_
  have h3 : ν * |rv x * rv y| ≤ (b * b' + 1 / 2 ^ 8) * (ν * (A * B)) := by
    calc _ ≤ ν * ((b * b' + 1 / 2 ^ 8) * (A * B)) := mul_le_mul_of_nonneg_left hpb hν.le
      _ = _ := by ring
  have h4 : (e * e' / 4096 * ν : ℝ) ≤ 1 / 2 ^ 8 := by
    calc _ ≤ (2 ^ 13 * 2 ^ 13 / 4096 * ν : ℝ) := mul_le_mul_of_nonneg_right (by linarith) hν.le
      _ ≤ _ := by unfold ν; norm_num
  have hνAB := mul_pos hν hAB
  push_cast
  calc _ ≤ _ := add_le_add h2 hp
    _ ≤ (b * b' + 1 / 2 ^ 8) * (ν * (A * B)) + 1 / 2 ^ 40 * (ν * (A * B)) + ((b * e' + b' * e) / 64 + e * e' / 4096 * ν : ℝ) * (ν * (A * B)) := by linarith
    _ = ((b * b' + 1 / 2 ^ 8) + 1 / 2 ^ 40 + ((b * e' + b' * e) / 64 + e * e' / 4096 * ν : ℝ)) * (ν * (A * B)) := by ring
    _ ≤ _ := by
      refine mul_le_mul_of_nonneg_right ?_ hνAB.le
      norm_num at h4 ⊢
      linarith

/-! ### Vectors -/

variable {u v w : Vec F32 4} {u' v' w' : Vec ℝ 4}

/-- Lane by lane. -/
def VNear (M : ℝ) (d b e : ℕ) (u : Vec F32 4) (v : Vec ℝ 4) : Prop := ∀ i : Fin 4, Near M d b e u[i] v[i]

theorem VNear.add (hM : Size M) (hd : d ≤ 4) (hx : VNear M d b e u u') (hy : VNear M d b' e' v v') (he : e + e' ≤ 2 ^ 20) (hb : b + b' ≤ 2 ^ 20) :
    VNear M d (b + b') (e + e' + 64 * (b + b') + 1) (u + v) (u' + v') := by
  intro i
  have e1 : (u + v)[i] = u[i] + v[i] := Vector.getElem_zipWith ..
  have e2 : (u' + v')[i] = u'[i] + v'[i] := Vector.getElem_zipWith ..
  rw [e1, e2]
  exact (hx i).add hM hd (hy i) he hb

theorem VNear.sub (hM : Size M) (hd : d ≤ 4) (hx : VNear M d b e u u') (hy : VNear M d b' e' v v') (he : e + e' ≤ 2 ^ 20) (hb : b + b' ≤ 2 ^ 20) :
    VNear M d (b + b') (e + e' + 64 * (b + b') + 1) (u - v) (u' - v') := by
  intro i
  have e1 : (u - v)[i] = u[i] - v[i] := Vector.getElem_zipWith ..
  have e2 : (u' - v')[i] = u'[i] - v'[i] := Vector.getElem_zipWith ..
  rw [e1, e2]
  exact (hx i).sub hM hd (hy i) he hb

theorem VNear.mul (hM : Size M) (hd : d + d' ≤ 4) (hx : VNear M d b e u u') (hy : VNear M d' b' e' v v') (he : e ≤ 2 ^ 13) (he' : e' ≤ 2 ^ 13) (hb : b ≤ 2 ^ 7)
    (hb' : b' ≤ 2 ^ 7) : VNear M (d + d') (b * b') (b * e' + b' * e + 64 * (b * b') + 1) (u * v) (u' * v') := by
  intro i
  have e1 : (u * v)[i] = u[i] * v[i] := Vector.getElem_zipWith ..
  have e2 : (u' * v')[i] = u'[i] * v'[i] := Vector.getElem_zipWith ..
  rw [e1, e2]
  exact (hx i).mul hM hd (hy i) he he' hb hb'

theorem VNear.mono (hM : Size M) (h : VNear M d b e u u') (hb : b ≤ b') (he : e ≤ e') : VNear M d b' e' u u' := fun i => (h i).mono hM hb he

theorem VNear.sh2 (hx : VNear M d b e u u') (hy : VNear M d b e v v') (p q r s : Fin 8) : VNear M d b e (sh2 u v p q r s) (sh2 u' v' p q r s) := by
  have at_ : ∀ j : Fin 8, Near M d b e (if h : j.val < 4 then u[j.val] else v[j.val - 4]) (if h : j.val < 4 then u'[j.val] else v'[j.val - 4]) := by
    intro j
    by_cases h : j.val < 4
    · rw [dif_pos h, dif_pos h]; exact hx ⟨j, h⟩
    · rw [dif_neg h, dif_neg h]; exact hy ⟨j.val - 4, by omega⟩
  intro i
  match i with
  | 0 => exact at_ p
  | 1 => exact at_ q
  | 2 => exact at_ r
  | 3 => exact at_ s

theorem VNear.sh1 (hx : VNear M d b e u u') (p q r s : Fin 8) : VNear M d b e (sh1 u p q r s) (sh1 u' p q r s) := hx.sh2 hx p q r s

theorem VNear.lit {a b' c f : F32} {a' b'' c' f' : ℝ} (h0 : Near M d b e a a') (h1 : Near M d b e b' b'') (h2 : Near M d b e c c') (h3 : Near M d b e f f') :
    VNear M d b e #v[a, b', c, f] #v[a', b'', c', f'] := by
  intro i
  match i with
  | 0 => exact h0
  | 1 => exact h1
  | 2 => exact h2
  | 3 => exact h3

/-- The statements of `simd::inv4x4` up to the determinant. -/
theorem minors_near (hM : Size M) {m : Mat F32} {m' : Mat ℝ}
    (h0 : VNear M 1 1 0 m[0] m'[0]) (h1 : VNear M 1 1 0 m[1] m'[1]) (h2 : VNear M 1 1 0 m[2] m'[2]) (h3 : VNear M 1 1 0 m[3] m'[3]) :
    VNear M 3 6 2065 (minorsSimd m).minor0 (minorsSimd m').minor0 ∧ VNear M 3 6 2065 (minorsSimd m).minor1 (minorsSimd m').minor1 ∧
    VNear M 3 6 2065 (minorsSimd m).minor2 (minorsSimd m').minor2 ∧ VNear M 3 6 2065 (minorsSimd m).minor3 (minorsSimd m').minor3 ∧
    VNear M 4 24 12875 (minorsSimd m).det (minorsSimd m').det := by
  have mul2 {u v : Vec F32 4} {u' v' : Vec ℝ 4} (a : VNear M 1 1 0 u u') (b : VNear M 1 1 0 v v') : VNear M 2 1 65 (u * v) (u' * v') :=
    a.mul hM (by omega) b (by omega) (by omega) (by omega) (by omega)
  have mul3 {u v : Vec F32 4} {u' v' : Vec ℝ 4} (a : VNear M 1 1 0 u u') (b : VNear M 2 1 65 v v') : VNear M 3 1 130 (u * v) (u' * v') :=
    a.mul hM (by omega) b (by omega) (by omega) (by omega) (by omega)
  have tmp1 := h0.sh2 h1 0 1 4 5
  have row1 := h2.sh2 h3 0 1 4 5
  have row0 := tmp1.sh2 row1 0 2 4 6
  replace row1 := row1.sh2 tmp1 1 3 5 7
  have tmp1 := h0.sh2 h1 2 3 6 7
  have row3 := h2.sh2 h3 2 3 6 7
  have row2 := tmp1.sh2 row3 0 2 4 6
  replace row3 := row3.sh2 tmp1 1 3 5 7
  have tmp1 := (mul2 row2 row3).sh1 1 0 3 2
  have minor0 := mul3 row1 tmp1
  have minor1 := mul3 row0 tmp1
  replace tmp1 := tmp1.sh1 2 3 0 1
  replace minor0 := (mul3 row1 tmp1).sub hM (by omega) minor0 (by omega) (by omega)
  replace minor1 := (mul3 row0 tmp1).sub hM (by omega) minor1 (by omega) (by omega)
  replace minor1 := minor1.sh1 2 3 0 1
  have tmp1 := (mul2 row1 row2).sh1 1 0 3 2
  replace minor0 := (mul3 row3 tmp1).add hM (by omega) minor0 (by omega) (by omega)
  have minor3 := mul3 row0 tmp1
  replace tmp1 := tmp1.sh1 2 3 0 1
  replace minor0 := minor0.sub hM (by omega) (mul3 row3 tmp1) (by omega) (by omega)
  replace minor3 := (mul3 row0 tmp1).sub hM (by omega) minor3 (by omega) (by omega)
  replace minor3 := minor3.sh1 2 3 0 1
  have tmp1 := (mul2 row3 (row1.sh1 2 3 0 1)).sh1 1 0 3 2
  replace row2 := row2.sh1 2 3 0 1
  replace minor0 := (mul3 row2 tmp1).add hM (by omega) minor0 (by omega) (by omega)
  have minor2 := mul3 row0 tmp1
  replace tmp1 := tmp1.sh1 2 3 0 1
  replace minor0 := minor0.sub hM (by omega) (mul3 row2 tmp1) (by omega) (by omega)
  replace minor2 := (mul3 row0 tmp1).sub hM (by omega) minor2 (by omega) (by omega)
  replace minor2 := minor2.sh1 2 3 0 1
  have tmp1 := (mul2 row0 row1).sh1 1 0 3 2
  replace minor2 := minor2.add hM (by omega) (mul3 row3 tmp1) (by omega) (by omega)
  replace minor3 := (mul3 row2 tmp1).sub hM (by omega) minor3 (by omega) (by omega)
  replace tmp1 := tmp1.sh1 2 3 0 1
  replace minor2 := (mul3 row3 tmp1).sub hM (by omega) minor2 (by omega) (by omega)
  replace minor3 := minor3.sub hM (by omega) (mul3 row2 tmp1) (by omega) (by omega)
  have tmp1 := (mul2 row0 row3).sh1 1 0 3 2
  replace minor1 := minor1.sub hM (by omega) (mul3 row2 tmp1) (by omega) (by omega)
  replace minor2 := (mul3 row1 tmp1).add hM (by omega) minor2 (by omega) (by omega)
  replace tmp1 := tmp1.sh1 2 3 0 1
  replace minor1 := (mul3 row2 tmp1).add hM (by omega) minor1 (by omega) (by omega)
  replace minor2 := minor2.sub hM (by omega) (mul3 row1 tmp1) (by omega) (by omega)
  have tmp1 := (mul2 row0 row2).sh1 1 0 3 2
  replace minor1 := (mul3 row3 tmp1).add hM (by omega) minor1 (by omega) (by omega)
  replace minor3 := minor3.sub hM (by omega) (mul3 row1 tmp1) (by omega) (by omega)
  replace tmp1 := tmp1.sh1 2 3 0 1
  replace minor1 := minor1.sub hM (by omega) (mul3 row3 tmp1) (by omega) (by omega)
  replace minor3 := (mul3 row1 tmp1).add hM (by omega) minor3 (by omega) (by omega)
  have det := row0.mul hM (by omega) (minor0.mono (b' := 6) (e' := 2065) hM (by omega) (by omega)) (by omega) (by omega) (by omega) (by omega)
  replace det := (det.sh1 2 3 0 1).add hM (by omega) det (by omega) (by omega)
  replace det := (det.sh1 1 0 3 2).add hM (by omega) det (by omega) (by omega)
  exact ⟨minor0.mono hM (by omega) (by omega), minor1.mono hM (by omega) (by omega), minor2.mono hM (by omega) (by omega),
    minor3.mono hM (by omega) (by omega), det.mono hM (by omega) (by omega)⟩

/-! ### scalar.rs -/

theorem t3n (hM : Size M) {x y z : F32} {x' y' z' : ℝ} (hx : Near M 1 1 0 x x') (hy : Near M 1 1 0 y y') (hz : Near M 1 1 0 z z') :
    Near M 3 1 130 (x * y * z) (x' * y' * z') :=
  ((hx.mul hM (by omega) hy (by omega) (by omega) (by omega) (by omega)).mul hM (by omega) hz (by omega) (by omega) (by omega) (by omega)).mono hM
    (by omega) (by omega)

section six
variable (hM : Size M) {p q r s t u : F32} {p' q' r' s' t' u' : ℝ} (h1 : Near M 3 1 130 p p') (h2 : Near M 3 1 130 q q')
    (h3 : Near M 3 1 130 r r') (h4 : Near M 3 1 130 s s') (h5 : Near M 3 1 130 t t') (h6 : Near M 3 1 130 u u')
include hM h1 h2 h3 h4 h5 h6
theorem sixAn : Near M 3 6 2065 (p - q - r + s + t - u) (p' - q' - r' + s' + t' - u') :=
  (((((h1.sub hM (by omega) h2 (by omega) (by omega)).sub hM (by omega) h3 (by omega) (by omega)).add hM (by omega) h4 (by omega) (by omega)).add hM
    (by omega) h5 (by omega) (by omega)).sub hM (by omega) h6 (by omega) (by omega)).mono hM (by omega) (by omega)
theorem sixBn : Near M 3 6 2065 (p + q + r - s - t + u) (p' + q' + r' - s' - t' + u') :=
  (((((h1.add hM (by omega) h2 (by omega) (by omega)).add hM (by omega) h3 (by omega) (by omega)).sub hM (by omega) h4 (by omega) (by omega)).sub hM
    (by omega) h5 (by omega) (by omega)).add hM (by omega) h6 (by omega) (by omega)).mono hM (by omega) (by omega)
end six

section cof
variable (hM : Size M)
  {x00 x01 x02 x03 x10 x11 x12 x13 x20 x21 x22 x23 x30 x31 x32 x33 : F32} {y00 y01 y02 y03 y10 y11 y12 y13 y20 y21 y22 y23 y30 y31 y32 y33 : ℝ}
  (h00 : Near M 1 1 0 x00 y00) (h01 : Near M 1 1 0 x01 y01) (h02 : Near M 1 1 0 x02 y02) (h03 : Near M 1 1 0 x03 y03)
  (h10 : Near M 1 1 0 x10 y10) (h11 : Near M 1 1 0 x11 y11) (h12 : Near M 1 1 0 x12 y12) (h13 : Near M 1 1 0 x13 y13)
  (h20 : Near M 1 1 0 x20 y20) (h21 : Near M 1 1 0 x21 y21) (h22 : Near M 1 1 0 x22 y22) (h23 : Near M 1 1 0 x23 y23)
  (h30 : Near M 1 1 0 x30 y30) (h31 : Near M 1 1 0 x31 y31) (h32 : Near M 1 1 0 x32 y32) (h33 : Near M 1 1 0 x33 y33)
include hM h00 h01 h02 h03 h10 h11 h12 h13 h20 h21 h22 h23 h30 h31 h32 h33

theorem cof0_near : VNear M 3 6 2065 (cof0 x00 x01 x02 x03 x10 x11 x12 x13 x20 x21 x22 x23 x30 x31 x32 x33)
    (cof0 y00 y01 y02 y03 y10 y11 y12 y13 y20 y21 y22 y23 y30 y31 y32 y33) := by
  refine VNear.lit (sixAn hM ?_ ?_ ?_ ?_ ?_ ?_) (sixBn hM ?_ ?_ ?_ ?_ ?_ ?_) (sixAn hM ?_ ?_ ?_ ?_ ?_ ?_) (sixBn hM ?_ ?_ ?_ ?_ ?_ ?_) <;>
    refine t3n hM ?_ ?_ ?_ <;> first | assumption | (refine Near.neg ?_; assumption)
theorem cof1_near : VNear M 3 6 2065 (cof1 x00 x01 x02 x03 x10 x11 x12 x13 x20 x21 x22 x23 x30 x31 x32 x33)
    (cof1 y00 y01 y02 y03 y10 y11 y12 y13 y20 y21 y22 y23 y30 y31 y32 y33) := by
  refine VNear.lit (sixBn hM ?_ ?_ ?_ ?_ ?_ ?_) (sixAn hM ?_ ?_ ?_ ?_ ?_ ?_) (sixBn hM ?_ ?_ ?_ ?_ ?_ ?_) (sixAn hM ?_ ?_ ?_ ?_ ?_ ?_) <;>
    refine t3n hM ?_ ?_ ?_ <;> first | assumption | (refine Near.neg ?_; assumption)
theorem cof2_near : VNear M 3 6 2065 (cof2 x00 x01 x02 x03 x10 x11 x12 x13 x20 x21 x22 x23 x30 x31 x32 x33)
    (cof2 y00 y01 y02 y03 y10 y11 y12 y13 y20 y21 y22 y23 y30 y31 y32 y33) := by
  refine VNear.lit (sixAn hM ?_ ?_ ?_ ?_ ?_ ?_) (sixBn hM ?_ ?_ ?_ ?_ ?_ ?_) (sixAn hM ?_ ?_ ?_ ?_ ?_ ?_) (sixBn hM ?_ ?_ ?_ ?_ ?_ ?_) <;>
    refine t3n hM ?_ ?_ ?_ <;> first | assumption | (refine Near.neg ?_; assumption)
theorem cof3_near : VNear M 3 6 2065 (cof3 x00 x01 x02 x03 x10 x11 x12 x13 x20 x21 x22 x23 x30 x31 x32 x33)
    (cof3 y00 y01 y02 y03 y10 y11 y12 y13 y20 y21 y22 y23 y30 y31 y32 y33) := by
  refine VNear.lit (sixBn hM ?_ ?_ ?_ ?_ ?_ ?_) (sixAn hM ?_ ?_ ?_ ?_ ?_ ?_) (sixBn hM ?_ ?_ ?_ ?_ ?_ ?_) (sixAn hM ?_ ?_ ?_ ?_ ?_ ?_) <;>
    refine t3n hM ?_ ?_ ?_ <;> first | assumption | (refine Near.neg ?_; assumption)

end cof

/-! ### The determinant and its inverse -/

/-- A determinant that is not small is computed with a relative error of at most 0.051. -/
theorem det_near (hM : Size M) {det : F32} {D : ℝ} (h : Near M 4 24 13259 det D) (hD : M ^ 4 / 4096 ≤ |D|) :
    0 < |D| ∧ |D| ≤ 24 * M ^ 4 ∧ 0.949 * |D| ≤ |rv det| ∧ |rv det| ≤ 25 * M ^ 4 ∧ |rv det - D| ≤ 207.2 * (ν * M ^ 4) := by
  obtain ⟨-, h1, h2⟩ := h
  have h0 := pow_pos hM.pos 4
  have hν := ν_pos
  have hνM := mul_pos hν h0
  push_cast at h1 h2
  have h3 : |rv det - D| ≤ 207.2 * (ν * M ^ 4) := h2.trans (mul_le_mul_of_nonneg_right (by norm_num) hνM.le)
  have h4 : 207.2 * (ν * M ^ 4) ≤ 0.051 * |D| := by
    have : 207.2 * (ν * M ^ 4) ≤ 0.051 * (M ^ 4 / 4096) := by
      have : 207.2 * ν ≤ 0.051 / 4096 := by unfold ν; norm_num
      nlinarith
    exact this.trans (mul_le_mul_of_nonneg_left hD (by norm_num))
  have h5 := abs_sub_abs_le_abs_sub D (rv det)
  rw [abs_sub_comm] at h5
  have h6 := abs_sub_abs_le_abs_sub (rv det) D
  have h7 : 207.2 * (ν * M ^ 4) ≤ M ^ 4 := by
    have : 207.2 * ν ≤ 1 := by unfold ν; norm_num
    nlinarith
  exact ⟨lt_of_lt_of_le (by positivity) hD, h1, by linarith, by linarith, h3⟩

theorem det_inv_size (hM : Size M) {det : F32} {D : ℝ} (h : Near M 4 24 13259 det D) (hD : M ^ 4 / 4096 ≤ |D|) :
    rv det ≠ 0 ∧ 1 / 2 ^ 120 ≤ |1 / rv det| ∧ |1 / rv det| ≤ 2 ^ 96 := by
  obtain ⟨h1, -, h2, h3, -⟩ := det_near hM h hD
  have hlo := hM.le_pow (d := 4) le_rfl
  have hhi := hM.pow_le (d := 4) le_rfl
  have h4 : 0 < |rv det| := by linarith
  rw [abs_div, abs_one]
  refine ⟨abs_pos.1 h4, one_div_le_one_div_of_le h4 (h3.trans ?_), ?_⟩
  · norm_num at hhi ⊢
    linarith
  · rw [div_le_iff₀ h4]
    have : (1 : ℝ) / 2 ^ 93 ≤ |rv det| := by
      refine le_trans ?_ h2
      refine le_trans ?_ (mul_le_mul_of_nonneg_left hD (by norm_num))
      norm_num at hlo ⊢
      linarith
    norm_num at this ⊢
    linarith

/-- An inverse of the computed determinant with a relative error of `α` unit roundoffs, as an inverse of the determinant. -/
theorem inv_near (hM : Size M) {det : F32} {D Y α : ℝ} (h : Near M 4 24 13259 det D) (hD : M ^ 4 / 4096 ≤ |D|) (hα : 0 ≤ α)
    (hY : |Y - 1 / rv det| ≤ α * ν * |1 / rv det|) : |Y - 1 / D| ≤ (1.054 * α + 218.4 * (M ^ 4 / |D|)) * (ν / |D|) := by
  obtain ⟨h1, -, h2, -, h3⟩ := det_near hM h hD
  obtain ⟨h4, -, -⟩ := det_inv_size hM h hD
  have h0 := pow_pos hM.pos 4
  have hν := ν_pos
  have h5 : |1 / rv det| ≤ 1.054 / |D| := by
    rw [abs_div, abs_one, div_le_div_iff₀ (abs_pos.2 h4) h1]
    nlinarith
  have h6 : |1 / rv det - 1 / D| ≤ 218.4 * (M ^ 4 / |D|) * (ν / |D|) := by
    have : 1 / rv det - 1 / D = (D - rv det) * (1 / rv det) * (1 / D) := by
      have := abs_pos.1 h1
      field_simp
    rw [this, abs_mul, abs_mul, abs_sub_comm, abs_div 1 D, abs_one]
    calc _ ≤ 207.2 * (ν * M ^ 4) * (1.054 / |D|) * (1 / |D|) :=
          mul_le_mul_of_nonneg_right (mul_le_mul h3 h5 (abs_nonneg _) (by positivity)) (by positivity)
      _ = (207.2 * 1.054) * (M ^ 4 / |D|) * (ν / |D|) := by ring
      _ ≤ _ := mul_le_mul_of_nonneg_right (mul_le_mul_of_nonneg_right (by norm_num) (by positivity)) (by positivity)
  rw [show Y - 1 / D = (Y - 1 / rv det) + (1 / rv det - 1 / D) by ring]
  refine (abs_add_le _ _).trans ?_
  have h7 : α * ν * |1 / rv det| ≤ α * ν * (1.054 / |D|) := mul_le_mul_of_nonneg_left h5 (mul_nonneg hα hν.le)
  calc _ ≤ α * ν * (1.054 / |D|) + 218.4 * (M ^ 4 / |D|) * (ν / |D|) := add_le_add (hY.trans h7) h6
    _ = _ := by ring

/-- Multiplication of a cofactor by that inverse. -/
theorem scale_near (hM : Size M) {c y : F32} {C D α : ℝ} (hc : Near M 3 6 2065 c C) (fy : Fin' y) (hD : M ^ 4 / 4096 ≤ |D|) (hD' : |D| ≤ 24 * M ^ 4)
    (hα : 0 ≤ α) (hα' : α ≤ 10) (hy : |rv y - 1 / D| ≤ (1.054 * α + 218.4 * (M ^ 4 / |D|)) * (ν / |D|)) :
    Fin' (c * y) ∧ |rv (c * y) - C * (1 / D)| ≤ (38.645 + 6.326 * α + 1311 * (M ^ 4 / |D|)) * (M ^ 3 * (ν / |D|)) := by
  obtain ⟨fc, c1, c2⟩ := hc
  have hp := hM.pos
  have h0 := pow_pos hp 4
  have h3 := pow_pos hp 3
  have hν := ν_pos
  have hE : 0 < |D| := lt_of_lt_of_le (by positivity) hD
  have hq : M ^ 4 / |D| ≤ 4096 := by rw [div_le_iff₀ hE]; linarith
  have hq0 : 0 < M ^ 4 / |D| := div_pos h0 hE
  have hT : 0 < ν / |D| := div_pos hν hE
  push_cast at c1 c2
  have c3 : |rv c - C| ≤ 32.27 * (ν * M ^ 3) := c2.trans (mul_le_mul_of_nonneg_right (by norm_num) (by positivity))
  have c4 : |rv c| ≤ 6.001 * M ^ 3 := by
    have := abs_sub_abs_le_abs_sub (rv c) C
    have : 32.27 * (ν * M ^ 3) ≤ 0.001 * M ^ 3 := by
      have : 32.27 * ν ≤ 0.001 := by unfold ν; norm_num
      nlinarith
    linarith
  have y1 : |rv y| ≤ 1.06 / |D| := by
    have t1 := abs_sub_abs_le_abs_sub (rv y) (1 / D)
    rw [abs_div, abs_one] at t1
    have t2 : (1.054 * α + 218.4 * (M ^ 4 / |D|)) * (ν / |D|) ≤ 0.06 / |D| := by
      rw [← mul_div_assoc]
      refine div_le_div_of_nonneg_right ?_ hE.le
      calc _ ≤ (1.054 * 10 + 218.4 * 4096) * ν := mul_le_mul_of_nonneg_right (by linarith) hν.le
        _ ≤ _ := by unfold ν; norm_num
    have t3 : 1.06 / |D| = 1 / |D| + 0.06 / |D| := by rw [← add_div]; norm_num
    linarith
  have hcy : |rv c * rv y| ≤ 6.37 * (M ^ 3 / |D|) := by
    rw [abs_mul]
    calc _ ≤ 6.001 * M ^ 3 * (1.06 / |D|) := mul_le_mul c4 y1 (abs_nonneg _) (by positivity)
      _ = (6.001 * 1.06) * (M ^ 3 / |D|) := by ring
      _ ≤ _ := mul_le_mul_of_nonneg_right (by norm_num) (by positivity)
  have hr : M ^ 3 / |D| ≤ 2 ^ 32 := by
    rw [div_le_iff₀ hE]
    have : M ^ 3 * (1 / 2 ^ 20) ≤ M ^ 4 := by rw [pow_succ M 3]; exact mul_le_mul_of_nonneg_left hM.1 h3.le
    norm_num at this ⊢
    linarith
  have hr' : 1 / 2 ^ 25 ≤ M ^ 3 / |D| := by
    rw [le_div_iff₀ hE]
    have : M ^ 4 ≤ M ^ 3 * 2 ^ 20 := by rw [pow_succ M 3]; exact mul_le_mul_of_nonneg_left hM.2 h3.le
    norm_num at this ⊢
    linarith
  have hlt : |rv c * rv y| < 2 ^ 127 := by
    refine lt_of_le_of_lt hcy ?_
    norm_num at hr ⊢
    linarith
  obtain ⟨f, e⟩ := mul_ok fc fy hlt
  refine ⟨f, ?_⟩
  rw [show M ^ 3 * (ν / |D|) = ν * (M ^ 3 / |D|) by ring]
  have hη : η ≤ 0.001 * (ν * (M ^ 3 / |D|)) := by
    have := mul_le_mul_of_nonneg_left hr' (mul_nonneg (by norm_num : (0 : ℝ) ≤ 0.001) hν.le)
    unfold η ν at *
    norm_num at this ⊢
    linarith
  have e1 : ν * |rv c * rv y| ≤ 6.37 * (ν * (M ^ 3 / |D|)) := by
    calc _ ≤ ν * (6.37 * (M ^ 3 / |D|)) := mul_le_mul_of_nonneg_left hcy hν.le
      _ = _ := by ring
  have e2 : |rv c * (rv y - 1 / D)| ≤ (6.326 * α + 1311 * (M ^ 4 / |D|)) * (ν * (M ^ 3 / |D|)) := by
    rw [abs_mul]
    calc _ ≤ 6.001 * M ^ 3 * ((1.054 * α + 218.4 * (M ^ 4 / |D|)) * (ν / |D|)) := mul_le_mul c4 hy (abs_nonneg _) (by positivity)
      _ = (6.001 * 1.054 * α + 6.001 * 218.4 * (M ^ 4 / |D|)) * (ν * (M ^ 3 / |D|)) := by ring
      _ ≤ _ := by
        refine mul_le_mul_of_nonneg_right ?_ (by positivity)
        refine add_le_add (mul_le_mul_of_nonneg_right (by norm_num) hα) (mul_le_mul_of_nonneg_right (by norm_num) hq0.le)
  have e3 : |(rv c - C) * (1 / D)| ≤ 32.27 * (ν * (M ^ 3 / |D|)) := by
    rw [abs_mul, abs_div, abs_one]
    calc _ ≤ 32.27 * (ν * M ^ 3) * (1 / |D|) := mul_le_mul_of_nonneg_right c3 (by positivity)
      _ = _ := by ring
  rw [show rv (c * y) - C * (1 / D) = (rv (c * y) - rv c * rv y) + rv c * (rv y - 1 / D) + (rv c - C) * (1 / D) by ring]
  refine (abs_add_three _ _ _).trans ?_
  have hX : 0 < ν * (M ^ 3 / |D|) := by positivity
  linarith

end PackedSimd.F32R
