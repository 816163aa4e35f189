import Verif.Lemmas.Lattice
import Mathlib.Analysis.SpecialFunctions.Exp
import Mathlib.Analysis.Complex.ExponentialBounds
/-
C126: what the binomial program of examples/options_pricing prices, in exact arithmetic.
-/
namespace PackedSimd.Props
open Ex.Options

variable {n : Nat}

theorem realValue_eq (f : ℝ → ℝ → ℝ → ℝ → ℝ) (hf : ∀ p D a b, f p D a b = ((1 - p) * a + p * b) / D) {N : Nat} (hN : 0 < N) (s x t r v : ℝ) :
    binomialValue realFns f N s x t r v = crrPut (N - 1) (t / N) (s / Real.exp (v * √(t / N))) x r v := by
  unfold binomialValue crrPut
  dsimp only [realFns]
  have hu : 0 < Real.exp (v * √(t / N)) := Real.exp_pos _
  simp only [Rat.cast_natCast, Rat.cast_one, Rat.cast_zero, Rat.cast_intCast]
  generalize Real.exp (v * √(t / N)) = u at hu ⊢
  have hf' : ∀ p D : ℝ, f p D = fun a b => ((1 - p) * a + p * b) / D := fun p D => by funext a b; exact hf p D a b
  rw [hf', level_expectation, one_div, mul_comm (Real.exp (-_)), Real.exp_neg, ← div_eq_mul_inv]
  congr 1
  · refine expectation_congr _ _ _ fun j _ => ?_
    congr 2
    rw [div_mul_eq_mul_div, mul_div_assoc]
    congr 1
    have e : Real.rpow u ((2 * ((0 + j : Nat) : ℤ) - N : ℤ) : ℝ) = u ^ (2 * ((0 + j : Nat) : ℤ) - N : ℤ) := Real.rpow_intCast u _
    rw [e, eq_div_iff hu.ne', ← zpow_add_one₀ hu.ne']
    congr 1
    omega
  · rw [← Real.exp_nat_mul]
    congr 1
    push_cast
    ring

/-- **C126** In exact arithmetic the binomial programs return the textbook price of a put after `N - 1` periods of `t / N`, not `N`, on a stock
that starts at `s / u`, not `s`. -/
theorem C126_scalar_partial {N : Nat} (hN : 0 < N) (s x t r v : ℝ) :
    binomialScalar realFns N s x t r v = .ok (crrPut (N - 1) (t / N) (s / Real.exp (v * √(t / N))) x r v) := by
  rw [binomialScalar_ok realFns hN, realValue_eq _ _ hN]
  intro p D a b
  simp [realFns]

/-- **C126** The same for every lane of the vectorised program. -/
theorem C126_simd_partial {N : Nat} (hN : 0 < N) (s x t r v : Vec ℝ n) :
    ∃ w, binomialSimd realFns N s x t r v = .ok w ∧
      ∀ i (h : i < n), w[i] = crrPut (N - 1) (t[i] / N) (s[i] / Real.exp (v[i] * √(t[i] / N))) x[i] r[i] v[i] := by
  obtain ⟨w, h1, h2⟩ := binomialSimd_lane realFns hN s x t r v
  refine ⟨w, h1, fun i h => ?_⟩
  rw [h2 i h, realValue_eq _ _ hN]
  intro p D a b
  simp [realFns, div_eq_mul_inv]

/-- The textbook lattice is free of arbitrage: a put certain to be exercised is worth the discounted strike less the stock. -/
theorem C126_textbook (m : Nat) {dt s x r v : ℝ} (hdt : 0 < dt) (hv : 0 < v) (hs : 0 ≤ s) (hx : s * Real.exp (v * √dt) ^ m ≤ x) :
    crrPut m dt s x r v = Real.exp (-(r * (m * dt))) * x - s := by
  unfold crrPut
  have hu : 1 < Real.exp (v * √dt) := Real.one_lt_exp_iff.2 (by positivity)
  generalize Real.exp (v * √dt) = u at hu hx ⊢
  dsimp only
  rw [expectation_congr m _ _ (w := fun j => x - s * u ^ (2 * (j : ℤ) - m)), expectation_sub, expectation_const, expectation_stock m hu s]
  · rw [← Real.exp_nat_mul, add_sub_cancel, one_pow, one_mul, mul_sub, ← mul_assoc (Real.exp _) (Real.exp _), ← Real.exp_add]
    rw [show -(r * (m * dt)) + m * (r * dt) = 0 by ring, Real.exp_zero, one_mul]
  · intro j hj
    refine max_eq_right (sub_nonneg.2 (le_trans (mul_le_mul_of_nonneg_left ?_ hs) hx))
    rw [← zpow_natCast]
    exact zpow_le_zpow_right₀ hu.le (by omega)

/-- **C126** A put certain to be exercised (the stock ends below the strike even if it always goes up) is overpriced by the programs whenever the
interest rate is not negative: the value without arbitrage is `x e^(-rt) - s`. -/
theorem C126_overpriced {N : Nat} (hN : 0 < N) {s x t r v : ℝ} (ht : 0 < t) (hv : 0 < v) (hs : 0 < s) (hr : 0 ≤ r)
    (hx : s * Real.exp (v * √(t / N)) ^ N ≤ x) :
    ∃ price, binomialScalar realFns N s x t r v = .ok price ∧ price = Real.exp (-(r * t)) * Real.exp (r * (t / N)) * x - s / Real.exp (v * √(t / N)) ∧
      Real.exp (-(r * t)) * x - s < price ∧ crrPut N (t / N) s x r v = Real.exp (-(r * t)) * x - s := by
  have hN' : (0 : ℝ) < N := by exact_mod_cast hN
  have hdt : 0 < t / N := by positivity
  have hu : 1 < Real.exp (v * √(t / N)) := Real.one_lt_exp_iff.2 (by positivity)
  have htb := C126_textbook N (r := r) hdt hv hs.le hx
  rw [show r * (N * (t / N)) = r * t by field_simp] at htb
  have e := C126_scalar_partial hN s x t r v
  rw [C126_textbook (N - 1) hdt hv (by positivity)] at e
  · have e2 : Real.exp (-(r * (((N - 1 : Nat) : ℝ) * (t / N)))) = Real.exp (-(r * t)) * Real.exp (r * (t / N)) := by
      rw [← Real.exp_add, Nat.cast_sub hN]
      congr 1
      field_simp
      ring
    rw [e2] at e
    refine ⟨_, e, rfl, ?_, htb⟩
    have hx0 : 0 < x := lt_of_lt_of_le (by positivity) hx
    have h1 : s / Real.exp (v * √(t / N)) < s := div_lt_self hs hu
    have h2 : 1 ≤ Real.exp (r * (t / N)) := Real.one_le_exp (by positivity)
    have h3 : Real.exp (-(r * t)) * x ≤ Real.exp (-(r * t)) * Real.exp (r * (t / N)) * x := by
      have : 0 < Real.exp (-(r * t)) * x := by positivity
      nlinarith
    linarith
  · refine le_trans ?_ hx
    have : Real.exp (v * √(t / N)) ^ N = Real.exp (v * √(t / N)) ^ (N - 1) * Real.exp (v * √(t / N)) := by
      rw [← pow_succ]
      congr 1
      omega
    rw [this, div_mul_eq_mul_div, ← mul_assoc]
    refine (div_le_self (by positivity) hu.le).trans (le_mul_of_one_le_right (by positivity) hu.le)

/-- **C126** So the price is not that of the lattice with `BINOMIAL_NUM` periods: with a strike of 1000, a stock at 1, one year, no interest and
volatility 1/2 the put is worth 999 and the program says more. -/
theorem C126_fails : ∃ price, binomialScalar realFns 64 1 1000 1 0 (1 / 2) = .ok price ∧ crrPut 64 (1 / 64) 1 1000 0 (1 / 2) = 999 ∧ 999 < price := by
  have hsq : √((1 : ℝ) / (64 : Nat)) = 1 / 8 := by
    rw [show (1 : ℝ) / (64 : Nat) = (1 / 8) ^ 2 by norm_num]
    exact Real.sqrt_sq (by norm_num)
  obtain ⟨price, h1, -, h3, h4⟩ := C126_overpriced (N := 64) (by norm_num) (s := 1) (x := 1000) (t := 1) (r := 0) (v := 1 / 2) one_pos (by norm_num)
    one_pos le_rfl (by
      rw [hsq, ← Real.exp_nat_mul, one_mul]
      have : Real.exp (((64 : Nat) : ℝ) * (1 / 2 * (1 / 8))) = Real.exp 1 ^ 4 := by
        rw [← Real.exp_nat_mul]; norm_num
      rw [this]
      have h := Real.exp_one_lt_d9
      have h0 := Real.exp_pos 1
      calc Real.exp 1 ^ 4 ≤ 3 ^ 4 := pow_le_pow_left₀ h0.le (by linarith) 4
        _ ≤ 1000 := by norm_num)
  rw [zero_mul, neg_zero, Real.exp_zero] at h3 h4
  refine ⟨price, h1, ?_, by linarith⟩
  rw [show ((1 : ℝ) / 64) = 1 / (64 : Nat) by norm_num, h4]
  norm_num

/-- **C126** The price is never negative and at most the strike discounted for the `N - 1` periods, when the fair probability is one. -/
theorem C126_bounds {N : Nat} (hN : 0 < N) {s x t r v : ℝ} (ht : 0 < t) (hv : 0 < v) (hs : 0 ≤ s) (hx : 0 ≤ x) (hr : |r| * √(t / N) ≤ v) :
    ∃ price, binomialScalar realFns N s x t r v = .ok price ∧ 0 ≤ price ∧ price ≤ Real.exp (-(r * t)) * Real.exp (r * (t / N)) * x := by
  have hN' : (0 : ℝ) < N := by exact_mod_cast hN
  have hdt : 0 < t / N := by positivity
  have hsq : 0 < √(t / N) := Real.sqrt_pos.2 hdt
  have hu : 1 < Real.exp (v * √(t / N)) := Real.one_lt_exp_iff.2 (by positivity)
  refine ⟨_, C126_scalar_partial hN s x t r v, ?_⟩
  unfold crrPut
  have hdd : √(t / N) * √(t / N) = t / N := Real.mul_self_sqrt hdt.le
  have hb : |r * (t / N)| ≤ v * √(t / N) := by
    rw [abs_mul, abs_of_pos hdt]
    calc |r| * (t / N) = |r| * √(t / N) * √(t / N) := by rw [mul_assoc, hdd]
      _ ≤ _ := mul_le_mul_of_nonneg_right hr hsq.le
  have hD1 : Real.exp (r * (t / N)) ≤ Real.exp (v * √(t / N)) := Real.exp_le_exp.2 ((le_abs_self _).trans hb)
  have hD0 : (Real.exp (v * √(t / N)))⁻¹ ≤ Real.exp (r * (t / N)) := by
    rw [← Real.exp_neg]
    exact Real.exp_le_exp.2 (by linarith [neg_abs_le (r * (t / N))])
  have e2 : Real.exp (-(r * (((N - 1 : Nat) : ℝ) * (t / N)))) = Real.exp (-(r * t)) * Real.exp (r * (t / N)) := by
    rw [← Real.exp_add, Nat.cast_sub hN]
    congr 1
    field_simp
    ring
  dsimp only
  rw [e2]
  generalize Real.exp (v * √(t / N)) = u at *
  have hd : 0 < u - u⁻¹ := by
    have : u⁻¹ < 1 := inv_lt_one_of_one_lt₀ hu
    linarith
  have hp0 : 0 ≤ (Real.exp (r * (t / N)) - u⁻¹) / (u - u⁻¹) := div_nonneg (by linarith) hd.le
  have hp1 : (Real.exp (r * (t / N)) - u⁻¹) / (u - u⁻¹) ≤ 1 := (div_le_one hd).2 (by linarith)
  generalize (Real.exp (r * (t / N)) - u⁻¹) / (u - u⁻¹) = p at *
  have hu0 : 0 < u := by linarith
  refine ⟨mul_nonneg (by positivity) ?_, mul_le_mul_of_nonneg_left ?_ (by positivity)⟩
  · have := expectation_le (N - 1) hp0 (sub_nonneg.2 hp1) (v := fun _ => 0) (w := fun j => max 0 (x - s / u * u ^ (2 * (j : ℤ) - (N - 1 : Nat))))
      (fun j _ => le_max_left _ _)
    rwa [expectation_const, mul_zero] at this
  · have := expectation_le (N - 1) hp0 (sub_nonneg.2 hp1) (v := fun j => max 0 (x - s / u * u ^ (2 * (j : ℤ) - (N - 1 : Nat)))) (w := fun _ => x)
      (fun j _ => max_le hx (by have : 0 ≤ s / u * u ^ (2 * (j : ℤ) - (N - 1 : Nat)) := by positivity
                                linarith))
    rwa [expectation_const, add_sub_cancel, one_pow, one_mul] at this

/-- Hypotheses of `C126_bounds`: the options of `State::new` (lib.rs:43-57). -/
example : ∃ price, binomialScalar realFns 64 100 98 2 (1 / 50) 5 = .ok price ∧ 0 ≤ price ∧
    price ≤ Real.exp (-(1 / 50 * 2)) * Real.exp (1 / 50 * (2 / 64)) * 98 := by
  have := C126_bounds (N := 64) (by norm_num) (s := 100) (x := 98) (t := 2) (r := 1 / 50) (v := 5) (by norm_num) (by norm_num) (by norm_num) (by norm_num) (by
    have : √((2 : ℝ) / (64 : Nat)) ≤ 1 := by
      rw [Real.sqrt_le_left (by norm_num)]
      norm_num
    rw [abs_of_pos (by norm_num)]
    linarith)
  exact_mod_cast this

end PackedSimd.Props
