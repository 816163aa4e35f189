import Verif.Model.FloatConsts
import Verif.Spec.FloatConsts
import Verif.Lemmas.FloatOps
import Mathlib.Analysis.Real.Pi.Bounds
import Mathlib.Analysis.SpecialFunctions.Log.Base
import Mathlib.Analysis.Complex.ExponentialBounds
/-
Enclosures of the mathematical constants, and when a float is the nearest one to a real number.
-/
namespace PackedSimd.FConsts
open Spec Math

/-! ### Enclosures -/

theorem log_two_near : |Real.log 2 - 0.6931471805599453094172| ≤ 1 / 10 ^ 21 := by
  have z := Real.abs_log_sub_add_sum_range_le (x := 2⁻¹) (by rw [abs_of_pos (by norm_num)]; norm_num) 76
  rw [abs_of_pos (by norm_num : (0 : ℝ) < 2⁻¹)] at z
  norm_num1 at z
  rw [one_div (2 : ℝ), Real.log_inv, ← sub_eq_add_neg, _root_.abs_sub_comm] at z
  obtain ⟨h1, h2⟩ := abs_le.1 z
  rw [abs_le]
  constructor <;> norm_num at h1 h2 ⊢ <;> linarith

theorem log_five_quarters_near : |Real.log (5 / 4) - 0.2231435513142097557662| ≤ 1 / 10 ^ 21 := by
  have z := Real.abs_log_sub_add_sum_range_le (x := 5⁻¹) (by rw [abs_of_pos (by norm_num)]; norm_num) 34
  rw [abs_of_pos (by norm_num : (0 : ℝ) < 5⁻¹)] at z
  norm_num1 at z
  rw [show (4 / 5 : ℝ) = (5 / 4)⁻¹ by norm_num, Real.log_inv, ← sub_eq_add_neg, _root_.abs_sub_comm] at z
  obtain ⟨h1, h2⟩ := abs_le.1 z
  rw [abs_le]
  constructor <;> norm_num at h1 h2 ⊢ <;> linarith

theorem log_ten : Real.log 10 = 3 * Real.log 2 + Real.log (5 / 4) := by
  rw [show (10 : ℝ) = 2 ^ 3 * (5 / 4) by norm_num, Real.log_mul (by norm_num) (by norm_num), Real.log_pow]
  norm_num

theorem near_PI : (3.14159265358979323846 : ℝ) < Real.pi ∧ Real.pi < 3.14159265358979323847 := ⟨Real.pi_gt_d20, Real.pi_lt_d20⟩

theorem near_FRAC_PI_2 : (1.5707963267948966192 : ℝ) < Real.pi / 2 ∧ Real.pi / 2 < 1.5707963267948966193 := by
  have h1 := Real.pi_gt_d20
  have h2 := Real.pi_lt_d20
  constructor <;> norm_num at h1 h2 ⊢ <;> linarith

theorem near_FRAC_PI_3 : (1.0471975511965977461 : ℝ) < Real.pi / 3 ∧ Real.pi / 3 < 1.0471975511965977462 := by
  have h1 := Real.pi_gt_d20
  have h2 := Real.pi_lt_d20
  constructor <;> norm_num at h1 h2 ⊢ <;> linarith

theorem near_FRAC_PI_4 : (0.7853981633974483096 : ℝ) < Real.pi / 4 ∧ Real.pi / 4 < 0.7853981633974483097 := by
  have h1 := Real.pi_gt_d20
  have h2 := Real.pi_lt_d20
  constructor <;> norm_num at h1 h2 ⊢ <;> linarith

theorem near_FRAC_PI_6 : (0.5235987755982988730 : ℝ) < Real.pi / 6 ∧ Real.pi / 6 < 0.5235987755982988731 := by
  have h1 := Real.pi_gt_d20
  have h2 := Real.pi_lt_d20
  constructor <;> norm_num at h1 h2 ⊢ <;> linarith

theorem near_FRAC_PI_8 : (0.3926990816987241548 : ℝ) < Real.pi / 8 ∧ Real.pi / 8 < 0.3926990816987241549 := by
  have h1 := Real.pi_gt_d20
  have h2 := Real.pi_lt_d20
  constructor <;> norm_num at h1 h2 ⊢ <;> linarith

theorem near_FRAC_1_PI : (0.3183098861837906715 : ℝ) < 1 / Real.pi ∧ 1 / Real.pi < 0.3183098861837906716 := by
  have h1 := Real.pi_gt_d20
  have h2 := Real.pi_lt_d20
  have h0 := Real.pi_pos
  constructor
  · rw [lt_div_iff₀ h0]; norm_num at h1 h2 ⊢; linarith
  · rw [div_lt_iff₀ h0]; norm_num at h1 h2 ⊢; linarith

theorem near_FRAC_2_PI : (0.6366197723675813430 : ℝ) < 2 / Real.pi ∧ 2 / Real.pi < 0.6366197723675813431 := by
  have h1 := Real.pi_gt_d20
  have h2 := Real.pi_lt_d20
  have h0 := Real.pi_pos
  constructor
  · rw [lt_div_iff₀ h0]; norm_num at h1 h2 ⊢; linarith
  · rw [div_lt_iff₀ h0]; norm_num at h1 h2 ⊢; linarith

theorem near_FRAC_2_SQRT_PI : (1.1283791670955125738 : ℝ) < 2 / √Real.pi ∧ 2 / √Real.pi < 1.1283791670955125739 := by
  have h1 := Real.pi_gt_d20
  have h2 := Real.pi_lt_d20
  have h0 := Real.sqrt_pos.2 Real.pi_pos
  constructor
  · rw [lt_div_iff₀ h0, mul_comm, ← lt_div_iff₀ (by norm_num), Real.sqrt_lt' (by norm_num)]; norm_num at h1 h2 ⊢; linarith
  · rw [div_lt_iff₀ h0, mul_comm, ← div_lt_iff₀ (by norm_num)]; apply Real.lt_sqrt_of_sq_lt; norm_num at h1 h2 ⊢; linarith

theorem near_SQRT_2 : (1.4142135623730950488 : ℝ) < √2 ∧ √2 < 1.4142135623730950489 := by
  constructor
  · apply Real.lt_sqrt_of_sq_lt; norm_num
  · rw [Real.sqrt_lt' (by norm_num)]; norm_num

theorem near_FRAC_1_SQRT_2 : (0.7071067811865475244 : ℝ) < 1 / √2 ∧ 1 / √2 < 0.7071067811865475245 := by
  have h0 : (0 : ℝ) < √2 := Real.sqrt_pos.2 (by norm_num)
  constructor
  · rw [lt_div_iff₀ h0, mul_comm, ← lt_div_iff₀ (by norm_num), Real.sqrt_lt' (by norm_num)]; norm_num
  · rw [div_lt_iff₀ h0, mul_comm, ← div_lt_iff₀ (by norm_num)]; apply Real.lt_sqrt_of_sq_lt; norm_num

theorem near_E : (2.7182818284590452353 : ℝ) < Real.exp 1 ∧ Real.exp 1 < 2.7182818284590452354 := by
  have h := abs_le.1 Real.exp_one_near_20
  obtain ⟨h1, h2⟩ := h
  constructor <;> norm_num at h1 h2 ⊢ <;> linarith

theorem near_LN_2 : (0.6931471805599453094 : ℝ) < Real.log 2 ∧ Real.log 2 < 0.6931471805599453095 := by
  obtain ⟨h1, h2⟩ := abs_le.1 log_two_near
  constructor <;> norm_num at h1 h2 ⊢ <;> linarith

theorem near_LN_10 : (2.3025850929940456840 : ℝ) < Real.log 10 ∧ Real.log 10 < 2.3025850929940456841 := by
  obtain ⟨h1, h2⟩ := abs_le.1 log_two_near
  obtain ⟨h3, h4⟩ := abs_le.1 log_five_quarters_near
  rw [log_ten]
  constructor <;> norm_num at h1 h2 h3 h4 ⊢ <;> linarith

theorem near_LOG2_E : (1.442695040888963407 : ℝ) < Real.logb 2 (Real.exp 1) ∧ Real.logb 2 (Real.exp 1) < 1.442695040888963408 := by
  obtain ⟨h1, h2⟩ := near_LN_2
  have h0 : (0 : ℝ) < Real.log 2 := Real.log_pos (by norm_num)
  rw [Real.logb, Real.log_exp]
  constructor
  · rw [lt_div_iff₀ h0]; norm_num at h1 h2 ⊢; linarith
  · rw [div_lt_iff₀ h0]; norm_num at h1 h2 ⊢; linarith

theorem near_LOG10_E : (0.434294481903251827 : ℝ) < Real.logb 10 (Real.exp 1) ∧ Real.logb 10 (Real.exp 1) < 0.434294481903251828 := by
  obtain ⟨h1, h2⟩ := near_LN_10
  have h0 : (0 : ℝ) < Real.log 10 := Real.log_pos (by norm_num)
  rw [Real.logb, Real.log_exp]
  constructor
  · rw [lt_div_iff₀ h0]; norm_num at h1 h2 ⊢; linarith
  · rw [div_lt_iff₀ h0]; norm_num at h1 h2 ⊢; linarith

/-! ### Nearest floats -/

theorem nearest_real {w man : Nat} (hf : Format w man) {m e k b : Nat} (hb : 0 < b) (h0 : magUnits man (b - 1) + 2 ^ e = m * 2 ^ e) (h1 : magUnits man b = m * 2 ^ e)
    (h2 : magUnits man (b + 1) = (m + 1) * 2 ^ e) (hk : e + k = low w man) (hbi : b < infMag w man) {x : BitVec w} (hx : x.toNat = b) {r lo hi : ℝ}
    (hr : lo < r ∧ r < hi) (hl : (2 * m - 1 : ℝ) / 2 ^ (k + 1) ≤ lo) (hu : hi ≤ (2 * m + 1) / 2 ^ (k + 1)) : Nearest man x r := by
  have hw := infMag_lt hf
  have hp := Nat.two_pow_pos man
  have hx' : x = Flt.mk w false b := by
    apply BitVec.eq_of_toNat_eq
    rw [hx, Flt.mk, BitVec.toNat_ofNat]
    simp only [Bool.false_eq_true, if_false]
    rw [Nat.mod_eq_of_lt]
    rw [two_pow_width hf]
    omega
  have hv : valueOf man x = .num (m * 2 ^ e : Nat) := by
    rw [hx', valueOf_mk hf false (by omega), if_neg (by omega), h1]
    rfl
  refine ⟨_, hv, fun y z hy hz => ?_⟩
  -- `y` is at least one unit away
  have hgap : z + 2 ^ e ≤ (m * 2 ^ e : Nat) ∨ ((m * 2 ^ e : Nat) : Int) + 2 ^ e ≤ z := by
    obtain ⟨c, hc, hcz⟩ := representable_units hy
    rcases Int.natAbs_eq z with hz' | hz'
    · rcases Nat.lt_trichotomy c b with h | h | h
      · left
        have := magUnits_le (man := man) (show c ≤ b - 1 by omega)
        zify at *
        omega
      · exfalso
        apply hz
        rw [hz', ← hcz, h, h1]
      · right
        have := magUnits_le (man := man) (show b + 1 ≤ c by omega)
        rw [h2, Nat.add_mul, Nat.one_mul] at this
        zify at *
        omega
    · left
      zify at *
      omega
  have hP : (0 : ℝ) < 2 ^ low w man := by positivity
  have hlow : (2 : ℝ) ^ low w man = 2 ^ e * 2 ^ k := by rw [← hk, pow_add]
  have hE : (0 : ℝ) < 2 ^ e := by positivity
  have hK : (0 : ℝ) < 2 ^ k := by positivity
  have hxl : (2 * m - 1 : ℝ) < 2 * (r * 2 ^ k) := by
    have : (2 * m - 1 : ℝ) / 2 ^ (k + 1) < r := lt_of_le_of_lt hl hr.1
    rw [div_lt_iff₀ (by positivity), pow_succ] at this
    linarith
  have hxu : 2 * (r * 2 ^ k) < (2 * m + 1 : ℝ) := by
    have : r < (2 * m + 1 : ℝ) / 2 ^ (k + 1) := lt_of_lt_of_le hr.2 hu
    rw [lt_div_iff₀ (by positivity), pow_succ] at this
    linarith
  have hc : ((m * 2 ^ e : Nat) : Int) / (2 ^ low w man : ℝ) = m / 2 ^ k := by
    rw [hlow]; push_cast; field_simp
  rw [hc]
  have hd : (z : ℝ) / 2 ^ low w man = (z / 2 ^ e) / 2 ^ k := by rw [hlow, div_div]
  rw [hd]
  have key : |(m : ℝ) - r * 2 ^ k| < |(z : ℝ) / 2 ^ e - r * 2 ^ k| := by
    have h1 : |(m : ℝ) - r * 2 ^ k| < 1 / 2 := by rw [abs_lt]; constructor <;> linarith
    rcases hgap with h | h
    · have h' : (z : ℝ) + 2 ^ e ≤ m * 2 ^ e := by exact_mod_cast h
      have : (z : ℝ) / 2 ^ e ≤ m - 1 := by rw [div_le_iff₀ hE]; linarith
      have h2 : (z : ℝ) / 2 ^ e - r * 2 ^ k < -(1 / 2) := by linarith
      rw [abs_of_neg (by linarith : (z : ℝ) / 2 ^ e - r * 2 ^ k < 0)]
      linarith
    · have h' : (m : ℝ) * 2 ^ e + 2 ^ e ≤ z := by exact_mod_cast h
      have : (m : ℝ) + 1 ≤ (z : ℝ) / 2 ^ e := by rw [le_div_iff₀ hE]; linarith
      have h2 : (1 / 2 : ℝ) < (z : ℝ) / 2 ^ e - r * 2 ^ k := by linarith
      rw [abs_of_pos (by linarith : 0 < (z : ℝ) / 2 ^ e - r * 2 ^ k)]
      linarith
  have e1 : (m : ℝ) / 2 ^ k - r = (m - r * 2 ^ k) / 2 ^ k := by field_simp
  have e2 : (z : ℝ) / 2 ^ e / 2 ^ k - r = (z / 2 ^ e - r * 2 ^ k) / 2 ^ k := by field_simp
  rw [e1, e2, abs_div, abs_div, abs_of_pos hK]
  exact div_lt_div_of_pos_right key hK

theorem format_of (f : FTy) : Format (8 * f.bytes) f.man := by cases f <;> exact ⟨by decide, by decide⟩

theorem nearest_PI (f : FTy) : Nearest f.man (Core.PI f) (Real.pi) := by
  cases f
  · exact nearest_real (m := 13176795) (e := 127) (k := 22) (b := 0x40490fdb) (format_of .f32) (by decide +kernel) (by decide +kernel) (by decide +kernel) (by decide +kernel) (by decide +kernel)
      (by decide +kernel) (by decide +kernel) near_PI (by norm_num) (by norm_num)
  · exact nearest_real (m := 7074237752028440) (e := 1023) (k := 51) (b := 0x400921fb54442d18) (format_of .f64) (by decide +kernel) (by decide +kernel) (by decide +kernel) (by decide +kernel) (by decide +kernel)
      (by decide +kernel) (by decide +kernel) near_PI (by norm_num) (by norm_num)

theorem nearest_FRAC_PI_2 (f : FTy) : Nearest f.man (Core.FRAC_PI_2 f) (Real.pi / 2) := by
  cases f
  · exact nearest_real (m := 13176795) (e := 126) (k := 23) (b := 0x3fc90fdb) (format_of .f32) (by decide +kernel) (by decide +kernel) (by decide +kernel) (by decide +kernel) (by decide +kernel)
      (by decide +kernel) (by decide +kernel) near_FRAC_PI_2 (by norm_num) (by norm_num)
  · exact nearest_real (m := 7074237752028440) (e := 1022) (k := 52) (b := 0x3ff921fb54442d18) (format_of .f64) (by decide +kernel) (by decide +kernel) (by decide +kernel) (by decide +kernel) (by decide +kernel)
      (by decide +kernel) (by decide +kernel) near_FRAC_PI_2 (by norm_num) (by norm_num)

theorem nearest_FRAC_PI_3 (f : FTy) : Nearest f.man (Core.FRAC_PI_3 f) (Real.pi / 3) := by
  cases f
  · exact nearest_real (m := 8784530) (e := 126) (k := 23) (b := 0x3f860a92) (format_of .f32) (by decide +kernel) (by decide +kernel) (by decide +kernel) (by decide +kernel) (by decide +kernel)
      (by decide +kernel) (by decide +kernel) near_FRAC_PI_3 (by norm_num) (by norm_num)
  · exact nearest_real (m := 4716158501352294) (e := 1022) (k := 52) (b := 0x3ff0c152382d7366) (format_of .f64) (by decide +kernel) (by decide +kernel) (by decide +kernel) (by decide +kernel) (by decide +kernel)
      (by decide +kernel) (by decide +kernel) near_FRAC_PI_3 (by norm_num) (by norm_num)

theorem nearest_FRAC_PI_4 (f : FTy) : Nearest f.man (Core.FRAC_PI_4 f) (Real.pi / 4) := by
  cases f
  · exact nearest_real (m := 13176795) (e := 125) (k := 24) (b := 0x3f490fdb) (format_of .f32) (by decide +kernel) (by decide +kernel) (by decide +kernel) (by decide +kernel) (by decide +kernel)
      (by decide +kernel) (by decide +kernel) near_FRAC_PI_4 (by norm_num) (by norm_num)
  · exact nearest_real (m := 7074237752028440) (e := 1021) (k := 53) (b := 0x3fe921fb54442d18) (format_of .f64) (by decide +kernel) (by decide +kernel) (by decide +kernel) (by decide +kernel) (by decide +kernel)
      (by decide +kernel) (by decide +kernel) near_FRAC_PI_4 (by norm_num) (by norm_num)

theorem nearest_FRAC_PI_6 (f : FTy) : Nearest f.man (Core.FRAC_PI_6 f) (Real.pi / 6) := by
  cases f
  · exact nearest_real (m := 8784530) (e := 125) (k := 24) (b := 0x3f060a92) (format_of .f32) (by decide +kernel) (by decide +kernel) (by decide +kernel) (by decide +kernel) (by decide +kernel)
      (by decide +kernel) (by decide +kernel) near_FRAC_PI_6 (by norm_num) (by norm_num)
  · exact nearest_real (m := 4716158501352294) (e := 1021) (k := 53) (b := 0x3fe0c152382d7366) (format_of .f64) (by decide +kernel) (by decide +kernel) (by decide +kernel) (by decide +kernel) (by decide +kernel)
      (by decide +kernel) (by decide +kernel) near_FRAC_PI_6 (by norm_num) (by norm_num)

theorem nearest_FRAC_PI_8 (f : FTy) : Nearest f.man (Core.FRAC_PI_8 f) (Real.pi / 8) := by
  cases f
  · exact nearest_real (m := 13176795) (e := 124) (k := 25) (b := 0x3ec90fdb) (format_of .f32) (by decide +kernel) (by decide +kernel) (by decide +kernel) (by decide +kernel) (by decide +kernel)
      (by decide +kernel) (by decide +kernel) near_FRAC_PI_8 (by norm_num) (by norm_num)
  · exact nearest_real (m := 7074237752028440) (e := 1020) (k := 54) (b := 0x3fd921fb54442d18) (format_of .f64) (by decide +kernel) (by decide +kernel) (by decide +kernel) (by decide +kernel) (by decide +kernel)
      (by decide +kernel) (by decide +kernel) near_FRAC_PI_8 (by norm_num) (by norm_num)

theorem nearest_FRAC_1_PI (f : FTy) : Nearest f.man (Core.FRAC_1_PI f) (1 / Real.pi) := by
  cases f
  · exact nearest_real (m := 10680707) (e := 124) (k := 25) (b := 0x3ea2f983) (format_of .f32) (by decide +kernel) (by decide +kernel) (by decide +kernel) (by decide +kernel) (by decide +kernel)
      (by decide +kernel) (by decide +kernel) near_FRAC_1_PI (by norm_num) (by norm_num)
  · exact nearest_real (m := 5734161139222659) (e := 1020) (k := 54) (b := 0x3fd45f306dc9c883) (format_of .f64) (by decide +kernel) (by decide +kernel) (by decide +kernel) (by decide +kernel) (by decide +kernel)
      (by decide +kernel) (by decide +kernel) near_FRAC_1_PI (by norm_num) (by norm_num)

theorem nearest_FRAC_2_PI (f : FTy) : Nearest f.man (Core.FRAC_2_PI f) (2 / Real.pi) := by
  cases f
  · exact nearest_real (m := 10680707) (e := 125) (k := 24) (b := 0x3f22f983) (format_of .f32) (by decide +kernel) (by decide +kernel) (by decide +kernel) (by decide +kernel) (by decide +kernel)
      (by decide +kernel) (by decide +kernel) near_FRAC_2_PI (by norm_num) (by norm_num)
  · exact nearest_real (m := 5734161139222659) (e := 1021) (k := 53) (b := 0x3fe45f306dc9c883) (format_of .f64) (by decide +kernel) (by decide +kernel) (by decide +kernel) (by decide +kernel) (by decide +kernel)
      (by decide +kernel) (by decide +kernel) near_FRAC_2_PI (by norm_num) (by norm_num)

theorem nearest_FRAC_2_SQRT_PI (f : FTy) : Nearest f.man (Core.FRAC_2_SQRT_PI f) (2 / √Real.pi) := by
  cases f
  · exact nearest_real (m := 9465531) (e := 126) (k := 23) (b := 0x3f906ebb) (format_of .f32) (by decide +kernel) (by decide +kernel) (by decide +kernel) (by decide +kernel) (by decide +kernel)
      (by decide +kernel) (by decide +kernel) near_FRAC_2_SQRT_PI (by norm_num) (by norm_num)
  · exact nearest_real (m := 5081767996463981) (e := 1022) (k := 52) (b := 0x3ff20dd750429b6d) (format_of .f64) (by decide +kernel) (by decide +kernel) (by decide +kernel) (by decide +kernel) (by decide +kernel)
      (by decide +kernel) (by decide +kernel) near_FRAC_2_SQRT_PI (by norm_num) (by norm_num)

theorem nearest_SQRT_2 (f : FTy) : Nearest f.man (Core.SQRT_2 f) (√2) := by
  cases f
  · exact nearest_real (m := 11863283) (e := 126) (k := 23) (b := 0x3fb504f3) (format_of .f32) (by decide +kernel) (by decide +kernel) (by decide +kernel) (by decide +kernel) (by decide +kernel)
      (by decide +kernel) (by decide +kernel) near_SQRT_2 (by norm_num) (by norm_num)
  · exact nearest_real (m := 6369051672525773) (e := 1022) (k := 52) (b := 0x3ff6a09e667f3bcd) (format_of .f64) (by decide +kernel) (by decide +kernel) (by decide +kernel) (by decide +kernel) (by decide +kernel)
      (by decide +kernel) (by decide +kernel) near_SQRT_2 (by norm_num) (by norm_num)

theorem nearest_FRAC_1_SQRT_2 (f : FTy) : Nearest f.man (Core.FRAC_1_SQRT_2 f) (1 / √2) := by
  cases f
  · exact nearest_real (m := 11863283) (e := 125) (k := 24) (b := 0x3f3504f3) (format_of .f32) (by decide +kernel) (by decide +kernel) (by decide +kernel) (by decide +kernel) (by decide +kernel)
      (by decide +kernel) (by decide +kernel) near_FRAC_1_SQRT_2 (by norm_num) (by norm_num)
  · exact nearest_real (m := 6369051672525773) (e := 1021) (k := 53) (b := 0x3fe6a09e667f3bcd) (format_of .f64) (by decide +kernel) (by decide +kernel) (by decide +kernel) (by decide +kernel) (by decide +kernel)
      (by decide +kernel) (by decide +kernel) near_FRAC_1_SQRT_2 (by norm_num) (by norm_num)

theorem nearest_E (f : FTy) : Nearest f.man (Core.E f) (Real.exp 1) := by
  cases f
  · exact nearest_real (m := 11401300) (e := 127) (k := 22) (b := 0x402df854) (format_of .f32) (by decide +kernel) (by decide +kernel) (by decide +kernel) (by decide +kernel) (by decide +kernel)
      (by decide +kernel) (by decide +kernel) near_E (by norm_num) (by norm_num)
  · exact nearest_real (m := 6121026514868073) (e := 1023) (k := 51) (b := 0x4005bf0a8b145769) (format_of .f64) (by decide +kernel) (by decide +kernel) (by decide +kernel) (by decide +kernel) (by decide +kernel)
      (by decide +kernel) (by decide +kernel) near_E (by norm_num) (by norm_num)

theorem nearest_LN_2 (f : FTy) : Nearest f.man (Core.LN_2 f) (Real.log 2) := by
  cases f
  · exact nearest_real (m := 11629080) (e := 125) (k := 24) (b := 0x3f317218) (format_of .f32) (by decide +kernel) (by decide +kernel) (by decide +kernel) (by decide +kernel) (by decide +kernel)
      (by decide +kernel) (by decide +kernel) near_LN_2 (by norm_num) (by norm_num)
  · exact nearest_real (m := 6243314768165359) (e := 1021) (k := 53) (b := 0x3fe62e42fefa39ef) (format_of .f64) (by decide +kernel) (by decide +kernel) (by decide +kernel) (by decide +kernel) (by decide +kernel)
      (by decide +kernel) (by decide +kernel) near_LN_2 (by norm_num) (by norm_num)

theorem nearest_LN_10 (f : FTy) : Nearest f.man (Core.LN_10 f) (Real.log 10) := by
  cases f
  · exact nearest_real (m := 9657742) (e := 127) (k := 22) (b := 0x40135d8e) (format_of .f32) (by decide +kernel) (by decide +kernel) (by decide +kernel) (by decide +kernel) (by decide +kernel)
      (by decide +kernel) (by decide +kernel) near_LN_10 (by norm_num) (by norm_num)
  · exact nearest_real (m := 5184960683398422) (e := 1023) (k := 51) (b := 0x40026bb1bbb55516) (format_of .f64) (by decide +kernel) (by decide +kernel) (by decide +kernel) (by decide +kernel) (by decide +kernel)
      (by decide +kernel) (by decide +kernel) near_LN_10 (by norm_num) (by norm_num)

theorem nearest_LOG2_E (f : FTy) : Nearest f.man (Core.LOG2_E f) (Real.logb 2 (Real.exp 1)) := by
  cases f
  · exact nearest_real (m := 12102203) (e := 126) (k := 23) (b := 0x3fb8aa3b) (format_of .f32) (by decide +kernel) (by decide +kernel) (by decide +kernel) (by decide +kernel) (by decide +kernel)
      (by decide +kernel) (by decide +kernel) near_LOG2_E (by norm_num) (by norm_num)
  · exact nearest_real (m := 6497320848556798) (e := 1022) (k := 52) (b := 0x3ff71547652b82fe) (format_of .f64) (by decide +kernel) (by decide +kernel) (by decide +kernel) (by decide +kernel) (by decide +kernel)
      (by decide +kernel) (by decide +kernel) near_LOG2_E (by norm_num) (by norm_num)

theorem nearest_LOG10_E (f : FTy) : Nearest f.man (Core.LOG10_E f) (Real.logb 10 (Real.exp 1)) := by
  cases f
  · exact nearest_real (m := 14572505) (e := 124) (k := 25) (b := 0x3ede5bd9) (format_of .f32) (by decide +kernel) (by decide +kernel) (by decide +kernel) (by decide +kernel) (by decide +kernel)
      (by decide +kernel) (by decide +kernel) near_LOG10_E (by norm_num) (by norm_num)
  · exact nearest_real (m := 7823553867474190) (e := 1020) (k := 54) (b := 0x3fdbcb7b1526e50e) (format_of .f64) (by decide +kernel) (by decide +kernel) (by decide +kernel) (by decide +kernel) (by decide +kernel)
      (by decide +kernel) (by decide +kernel) near_LOG10_E (by norm_num) (by norm_num)

end PackedSimd.FConsts
