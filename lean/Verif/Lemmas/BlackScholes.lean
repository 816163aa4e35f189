import Verif.Lemmas.Cnd
/-
The Black-Scholes formula, and what the program computes in exact arithmetic.
-/
namespace PackedSimd.Ex.Options
open MeasureTheory Set

section
variable {s x t r v : ℝ}

theorem sigma_sq (ht : 0 < t) : (v * √t) ^ 2 = v ^ 2 * t := by rw [mul_pow, Real.sq_sqrt ht.le]

theorem dOne_mul (ht : 0 < t) (hv : 0 < v) : v * √t * dOne s x t r v = Real.log (s / x) + (r + v * v * (1 / 2)) * t := by
  unfold dOne
  have : 0 < v * √t := mul_pos hv (Real.sqrt_pos.mpr ht)
  field_simp

theorem dTwo_mul (ht : 0 < t) (hv : 0 < v) : (r - v ^ 2 / 2) * t + v * √t * -dTwo s x t r v = -Real.log (s / x) := by
  unfold dTwo
  have h1 := dOne_mul (s := s) (x := x) (r := r) ht hv
  have h2 := sigma_sq (v := v) ht
  linear_combination -h1 + h2

/-- The strike is the stock price at `-d2`. -/
theorem strike_eq (hs : 0 < s) (hx : 0 < x) (ht : 0 < t) (hv : 0 < v) : stockAfter s t r v (-dTwo s x t r v) = x := by
  unfold stockAfter
  rw [dTwo_mul ht hv, Real.exp_neg, Real.exp_log (div_pos hs hx)]
  field_simp

theorem stock_mono (hs : 0 < s) (ht : 0 < t) (hv : 0 < v) : StrictMono (stockAfter s t r v) := by
  intro a b h
  unfold stockAfter
  have : 0 < v * √t := mul_pos hv (Real.sqrt_pos.mpr ht)
  apply mul_lt_mul_of_pos_left _ hs
  rw [Real.exp_lt_exp]
  nlinarith

/-- Stock times bell curve, the square completed. -/
theorem stock_bell (ht : 0 < t) (z : ℝ) : stockAfter s t r v z * bell z = s * Real.exp (r * t) * bell (z - v * √t) := by
  unfold stockAfter
  have h2 := sigma_sq (v := v) ht
  rw [Real.exp_add, mul_assoc, mul_assoc, bell_square, h2, ← mul_assoc (Real.exp _), ← Real.exp_add, mul_assoc]
  congr 3
  ring

/-- The Black-Scholes formula. -/
theorem callPrice_eq (hs : 0 < s) (hx : 0 < x) (ht : 0 < t) (hv : 0 < v) :
    callPrice s x t r v = s * normalCdf (dOne s x t r v) - x * Real.exp (-(r * t)) * normalCdf (dTwo s x t r v) := by
  obtain ⟨d, hd⟩ : ∃ d, d = dTwo s x t r v := ⟨_, rfl⟩
  have hd1 : dOne s x t r v = d + v * √t := by rw [hd, dTwo]; ring
  have hint : ∫ z : ℝ, max 0 (stockAfter s t r v z - x) * Real.exp (-(z ^ 2) / 2) =
      ∫ z in Ioi (-d), (s * Real.exp (r * t) * bell (z - v * √t) - x * bell z) := by
    rw [← integral_indicator measurableSet_Ioi]
    congr 1
    funext z
    have hst := strike_eq (r := r) hs hx ht hv
    rw [← hd] at hst
    simp only [indicator, mem_Ioi]
    split
    next h =>
      have h1 := stock_mono (r := r) hs ht hv h
      rw [hst] at h1
      rw [max_eq_right (by linarith), ← stock_bell ht, bell]
      ring
    next h =>
      have h1 := (stock_mono (r := r) hs ht hv).monotone (not_lt.mp h)
      rw [hst] at h1
      rw [max_eq_left (by linarith), zero_mul]
  unfold callPrice normalMean
  rw [hint, integral_sub (((bell_int.comp_sub_right _).const_mul _).integrableOn) ((bell_int.const_mul _).integrableOn),
    integral_const_mul, integral_const_mul]
  have e1 := cdf_shift (-d) (v * √t)
  have e2 := cdf_upper (-d)
  rw [show -d - v * √t = -(d + v * √t) by ring, cdf_neg] at e1
  rw [cdf_neg] at e2
  change Real.exp (-(r * t)) * (γ * _) = _
  have e3 : Real.exp (-(r * t)) * Real.exp (r * t) = 1 := by rw [← Real.exp_add]; simp
  rw [hd1, ← hd]
  linear_combination (Real.exp (-(r * t)) * s * Real.exp (r * t)) * e1 - Real.exp (-(r * t)) * x * e2 + s * normalCdf (d + v * √t) * e3

/-- The two bell curves of the formula. -/
theorem bells (hs : 0 < s) (hx : 0 < x) (ht : 0 < t) (hv : 0 < v) :
    s * bell (dOne s x t r v) = x * Real.exp (-(r * t)) * bell (dTwo s x t r v) := by
  have h1 := dOne_mul (s := s) (x := x) (r := r) ht hv
  have h2 := sigma_sq (v := v) ht
  have h3 : s = x * Real.exp (Real.log (s / x)) := by rw [Real.exp_log (div_pos hs hx)]; field_simp
  nth_rewrite 1 [h3]
  unfold bell
  rw [mul_assoc, mul_assoc, ← Real.exp_add, ← Real.exp_add]
  congr 2
  unfold dTwo
  linear_combination -h1 + h2 / 2

end

/-! ### The program -/

theorem cnd_eq (x : ℝ) : cndScalar realFns x = if 0 < x then 1 - wing |x| else wing |x| := by
  unfold cndScalar wing
  dsimp only [realFns]
  have hk : ((1 : ℚ) : ℝ) / (((1 : ℚ) : ℝ) + ((0.2316419 : ℚ) : ℝ) * |x|) = 1 / (1 + cb * |x|) := by unfold cb; norm_num
  have e : Real.exp (-|x| * |x| * ((0.5 : ℚ) : ℝ)) = bell |x| := by unfold bell; congr 1; norm_num; ring
  rw [hk, e]
  generalize 1 / (1 + cb * |x|) = k
  generalize bell |x| = b
  unfold poly cc
  norm_num
  split <;> ring

theorem cnd_near (x : ℝ) : |cndScalar realFns x - normalCdf x| ≤ 1 / 10 ^ 6 := by
  rw [cnd_eq]
  split
  next h =>
    have h1 := cerr_le h.le
    rw [abs_of_pos h]
    exact h1
  next h =>
    have h1 := cerr_le (abs_nonneg x)
    have h2 : normalCdf x = 1 - normalCdf |x| := by rw [abs_of_nonpos (not_lt.mp h), cdf_neg]; ring
    rw [h2, ← abs_neg]
    unfold cerr at h1
    rw [show -(wing |x| - (1 - normalCdf |x|)) = 1 - wing |x| - normalCdf |x| by ring]
    exact h1

theorem blackScholes_eq (s x t r v : ℝ) : blackScholesScalar realFns s x t r v =
    .ok (s * cndScalar realFns (dOne s x t r v) - x * Real.exp (-(r * t)) * cndScalar realFns (dTwo s x t r v)) := by
  unfold blackScholesScalar dTwo dOne
  dsimp only [realFns]
  norm_num

theorem poly_mono {a b : ℝ} (hab : a ≤ b) : poly a ≤ poly b := by
  have hd : ∀ k, 0 ≤ poly' k := fun k => by
    unfold poly'
    nlinarith [sq_nonneg (k ^ 2 - 0.55 * k), sq_nonneg (k - 0.12), sq_nonneg k]
  exact monotone_of_deriv_nonneg (fun k => (poly_deriv k).differentiableAt) (fun k => by rw [(poly_deriv k).deriv]; exact hd k) hab

theorem k_pos {x : ℝ} (hx : 0 ≤ x) : 0 < 1 / (1 + cb * x) ∧ 1 / (1 + cb * x) ≤ 1 := by
  have h : 0 < 1 + cb * x := by unfold cb; positivity
  refine ⟨by positivity, ?_⟩
  rw [div_le_one h]
  have : 0 ≤ cb * x := by unfold cb; positivity
  linarith

theorem k_anti {x y : ℝ} (hx : 0 ≤ x) (h : x ≤ y) : 1 / (1 + cb * y) ≤ 1 / (1 + cb * x) := by
  have h1 : 0 < 1 + cb * x := by unfold cb; positivity
  apply one_div_le_one_div_of_le h1
  have : cb * x ≤ cb * y := mul_le_mul_of_nonneg_left h (by unfold cb; norm_num)
  linarith

/-- The factor of the bell curve in `wing`. -/
noncomputable def fac (x : ℝ) : ℝ := poly (1 / (1 + cb * x)) * cc

theorem wing_eq (x : ℝ) : wing x = fac x * bell x := rfl

theorem fac_bounds {x : ℝ} (hx : 0 ≤ x) : 0 ≤ fac x ∧ fac x ≤ 1 / 2 := by
  obtain ⟨h1, h2⟩ := k_pos hx
  have h3 := poly_mono h1.le
  have h4 := poly_mono h2
  have h5 : poly 0 = 0 := by simp [poly]
  have h6 : poly 1 = 1253314136 / 10 ^ 9 := by unfold poly; norm_num
  unfold fac cc
  constructor
  · apply mul_nonneg _ (by norm_num); linarith
  · rw [h6] at h4; norm_num at h4 ⊢; linarith

theorem fac_anti {x y : ℝ} (hx : 0 ≤ x) (h : x ≤ y) : fac y ≤ fac x :=
  mul_le_mul_of_nonneg_right (poly_mono (k_anti hx h)) (by unfold cc; norm_num)

theorem bell_abs (x : ℝ) : bell |x| = bell x := by unfold bell; rw [sq_abs]

theorem bell_anti {a b : ℝ} (h : |a| ≤ |b|) : bell b ≤ bell a := by
  unfold bell
  rw [Real.exp_le_exp]
  have := sq_le_sq.mpr h
  linarith

theorem cnd_unit (x : ℝ) : 0 ≤ cndScalar realFns x ∧ cndScalar realFns x ≤ 1 := by
  rw [cnd_eq, wing_eq]
  obtain ⟨h1, h2⟩ := fac_bounds (abs_nonneg x)
  have h3 := bell_pos |x|
  have h4 := bell_le |x|
  have h5 : 0 ≤ fac |x| * bell |x| := by positivity
  have h6 : fac |x| * bell |x| ≤ 1 / 2 * 1 := mul_le_mul h2 h4 h3.le (by norm_num)
  split <;> constructor <;> linarith

/-- The price lies between the bounds that exclude arbitrage. -/
theorem price_bounds {s x t r v : ℝ} (hs : 0 < s) (hx : 0 < x) (ht : 0 < t) (hv : 0 < v) :
    max 0 (s - x * Real.exp (-(r * t))) ≤
      s * cndScalar realFns (dOne s x t r v) - x * Real.exp (-(r * t)) * cndScalar realFns (dTwo s x t r v) ∧
    s * cndScalar realFns (dOne s x t r v) - x * Real.exp (-(r * t)) * cndScalar realFns (dTwo s x t r v) ≤ s := by
  have hb := bells (r := r) hs hx ht hv
  have hσ : 0 < v * √t := mul_pos hv (Real.sqrt_pos.mpr ht)
  have hd : dTwo s x t r v < dOne s x t r v := by unfold dTwo; linarith
  obtain ⟨D, hD⟩ : ∃ D, D = x * Real.exp (-(r * t)) := ⟨_, rfl⟩
  have hD0 : 0 < D := by rw [hD]; positivity
  rw [← hD] at hb ⊢
  generalize dOne s x t r v = d1 at *
  generalize dTwo s x t r v = d2 at *
  constructor
  · have e1 : s * wing |d1| = fac |d1| * (s * bell d1) := by rw [wing_eq, bell_abs]; ring
    have e2 : D * wing |d2| = fac |d2| * (s * bell d1) := by rw [wing_eq, bell_abs, hb]; ring
    have f1 := fac_bounds (abs_nonneg d1)
    have f2 := fac_bounds (abs_nonneg d2)
    have p1 : 0 < s * bell d1 := mul_pos hs (bell_pos d1)
    have u1 : s * bell d1 ≤ s := by nlinarith [bell_le d1]
    have u2 : s * bell d1 ≤ D := by rw [hb]; nlinarith [bell_le d2]
    rw [cnd_eq, cnd_eq]
    apply max_le
    · split
      · split
        next h1 h2 =>
          have : fac |d1| ≤ fac |d2| := fac_anti (abs_nonneg d2) (by rw [abs_of_pos h1, abs_of_pos h2]; exact hd.le)
          have hB : bell d1 ≤ bell d2 := bell_anti (by rw [abs_of_pos h1, abs_of_pos h2]; exact hd.le)
          have hsD : D ≤ s := by
            have := mul_le_mul_of_nonneg_left hB hs.le
            exact le_of_mul_le_mul_right (hb ▸ this) (bell_pos d2)
          nlinarith
        next h1 h2 => nlinarith
      · split
        next h1 h2 => linarith
        next h1 h2 =>
          have : fac |d2| ≤ fac |d1| := fac_anti (abs_nonneg d1) (by rw [abs_of_nonpos (not_lt.mp h1), abs_of_nonpos (not_lt.mp h2)]; linarith)
          nlinarith
    · split
      · split
        next h1 h2 =>
          have : fac |d1| ≤ fac |d2| := fac_anti (abs_nonneg d2) (by rw [abs_of_pos h1, abs_of_pos h2]; exact hd.le)
          nlinarith
        next h1 h2 => nlinarith
      · split
        next h1 h2 => linarith
        next h1 h2 =>
          have hB : bell d2 ≤ bell d1 := bell_anti (by rw [abs_of_nonpos (not_lt.mp h1), abs_of_nonpos (not_lt.mp h2)]; linarith)
          have hsD : s ≤ D := by
            have := mul_le_mul_of_nonneg_left hB hD0.le
            rw [← hb] at this
            exact le_of_mul_le_mul_right this (bell_pos d1)
          have : fac |d2| ≤ fac |d1| := fac_anti (abs_nonneg d1) (by rw [abs_of_nonpos (not_lt.mp h1), abs_of_nonpos (not_lt.mp h2)]; linarith)
          nlinarith
  · have h1 := cnd_unit d1
    have h2 := cnd_unit d2
    nlinarith

end PackedSimd.Ex.Options
