import Verif.Spec.BlackScholes
import Mathlib.MeasureTheory.Integral.IntegralEqImproper
import Mathlib.MeasureTheory.Integral.IntervalIntegral.FundThmCalculus
import Mathlib.MeasureTheory.Measure.Lebesgue.Integral
import Mathlib.MeasureTheory.Group.Integral
/-
Facts about the standard normal distribution.
-/
namespace PackedSimd.Ex.Options
open MeasureTheory Set Filter Topology

/-- The bell curve, not normalised. -/
noncomputable def bell (z : ℝ) : ℝ := Real.exp (-(z ^ 2) / 2)

/-- The normalisation. -/
noncomputable def γ : ℝ := (√(2 * Real.pi))⁻¹

theorem bell_pos (z : ℝ) : 0 < bell z := Real.exp_pos _
theorem bell_le (z : ℝ) : bell z ≤ 1 := by
  unfold bell; rw [Real.exp_le_one_iff]; nlinarith [sq_nonneg z]
theorem bell_zero : bell 0 = 1 := by simp [bell]
theorem bell_neg (z : ℝ) : bell (-z) = bell z := by simp [bell]
theorem bell_cont : Continuous bell := by unfold bell; fun_prop
theorem bell_deriv (z : ℝ) : HasDerivAt bell (-z * bell z) z := by
  have h : HasDerivAt (fun z : ℝ => -(z ^ 2) / 2) (-z) z := by
    exact ((hasDerivAt_pow 2 z).neg.div_const 2).congr_deriv (by norm_num; ring)
  have := h.exp
  unfold bell
  rw [mul_comm]
  exact this
theorem bell_eq : bell = fun z : ℝ => Real.exp (-(1 / 2) * z ^ 2) := by
  funext z; unfold bell; congr 1; ring
theorem bell_int : Integrable bell := by
  rw [bell_eq]; exact integrable_exp_neg_mul_sq (by norm_num)
theorem γ_pos : 0 < γ := inv_pos.mpr (Real.sqrt_pos.mpr (by positivity))
theorem bell_total : γ * ∫ z, bell z = 1 := by
  rw [bell_eq, integral_gaussian, γ, show Real.pi / (1 / 2) = 2 * Real.pi by ring]
  exact inv_mul_cancel₀ (Real.sqrt_pos.mpr (by positivity)).ne'

theorem cdf_eq (x : ℝ) : normalCdf x = γ * ∫ z in Iic x, bell z := rfl

theorem cdf_upper (x : ℝ) : γ * ∫ z in Ioi x, bell z = 1 - normalCdf x := by
  rw [cdf_eq, ← bell_total, ← intervalIntegral.integral_Iic_add_Ioi (b := x) bell_int.integrableOn bell_int.integrableOn]
  ring

theorem cdf_neg (x : ℝ) : normalCdf (-x) = 1 - normalCdf x := by
  rw [← cdf_upper, cdf_eq, ← integral_comp_neg_Ioi]
  simp only [bell_neg]

theorem cdf_zero : normalCdf 0 = 1 / 2 := by
  have := cdf_neg 0
  rw [neg_zero] at this
  linarith

theorem cdf_diff (x y : ℝ) : normalCdf y - normalCdf x = γ * ∫ z in x..y, bell z := by
  rw [cdf_eq, cdf_eq, ← mul_sub, intervalIntegral.integral_Iic_sub_Iic bell_int.integrableOn bell_int.integrableOn]

theorem cdf_deriv (x : ℝ) : HasDerivAt normalCdf (γ * bell x) x := by
  have h : normalCdf = fun y => normalCdf 0 + γ * ∫ z in (0:ℝ)..y, bell z := by
    funext y; rw [← cdf_diff]; ring
  rw [h]
  exact ((bell_cont.integral_hasStrictDerivAt 0 x).hasDerivAt.const_mul γ).const_add _

theorem cdf_nonneg (x : ℝ) : 0 ≤ normalCdf x :=
  mul_nonneg γ_pos.le (setIntegral_nonneg measurableSet_Iic fun z _ => (bell_pos z).le)

theorem cdf_le_one (x : ℝ) : normalCdf x ≤ 1 := by
  have := cdf_nonneg (-x)
  rw [cdf_neg] at this
  linarith

theorem cdf_mono : Monotone normalCdf := by
  intro x y h
  have := cdf_diff x y
  have h2 : 0 ≤ γ * ∫ z in x..y, bell z := mul_nonneg γ_pos.le (intervalIntegral.integral_nonneg h fun z _ => (bell_pos z).le)
  linarith

theorem cdf_tendsto : Tendsto normalCdf atTop (𝓝 1) := by
  have h : normalCdf = fun y => 1 / 2 + γ * ∫ z in (0:ℝ)..y, bell z := by
    funext y; rw [← cdf_diff, cdf_zero]; ring
  have h1 : (1 : ℝ) = 1 / 2 + γ * ∫ z in Ioi (0:ℝ), bell z := by rw [cdf_upper, cdf_zero]; norm_num
  rw [h]
  nth_rewrite 2 [h1]
  exact ((intervalIntegral_tendsto_integral_Ioi 0 bell_int.integrableOn tendsto_id).const_mul γ).const_add _

theorem bell_tendsto : Tendsto bell atTop (𝓝 0) := by
  unfold bell
  apply Real.tendsto_exp_atBot.comp
  have : Tendsto (fun z : ℝ => z ^ 2 / 2) atTop atTop := (tendsto_pow_atTop (by norm_num)).atTop_div_const (by norm_num)
  refine (tendsto_neg_atTop_atBot.comp this).congr fun z => ?_
  simp; ring

/-- A tail of the shifted bell curve. -/
theorem cdf_shift (a m : ℝ) : γ * ∫ z in Ioi a, bell (z - m) = 1 - normalCdf (a - m) := by
  rw [← cdf_upper]
  congr 1
  rw [← integral_indicator measurableSet_Ioi, ← integral_indicator measurableSet_Ioi,
    ← integral_sub_right_eq_self (fun z => (Ioi (a - m)).indicator bell z) m]
  congr 1
  funext z
  simp only [indicator, mem_Ioi, sub_lt_sub_iff_right]

/-- Completing the square. -/
theorem bell_square (s z : ℝ) : Real.exp (s * z) * bell z = Real.exp (s ^ 2 / 2) * bell (z - s) := by
  unfold bell
  rw [← Real.exp_add, ← Real.exp_add]
  congr 1; ring

end PackedSimd.Ex.Options
