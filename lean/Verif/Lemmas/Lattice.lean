import Verif.Spec.Lattice
import Verif.Lemmas.Options
import Mathlib.Tactic.Ring
import Mathlib.Tactic.FieldSimp
import Mathlib.Tactic.LinearCombination
import Mathlib.Data.Nat.Choose.Sum
/-
The backward recurrence of the binomial lattice sums up to the expectation.
-/
namespace PackedSimd.Ex.Options

theorem expectation_succ {K : Type} [CommRing K] (m : Nat) (p q : K) (v : Nat → K) :
    expectation (m + 1) p q v = q * expectation m p q v + p * expectation m p q (fun j => v (j + 1)) := by
  unfold expectation
  have e1 : q * ∑ j ∈ Finset.range (m + 1), (m.choose j : K) * p ^ j * q ^ (m - j) * v j =
      (∑ j ∈ Finset.range (m + 1), (m.choose (j + 1) : K) * p ^ (j + 1) * q ^ (m - j) * v (j + 1)) + q ^ (m + 1) * v 0 := by
    have : q * ∑ j ∈ Finset.range (m + 1), (m.choose j : K) * p ^ j * q ^ (m - j) * v j =
        ∑ j ∈ Finset.range (m + 2), (m.choose j : K) * p ^ j * q ^ (m + 1 - j) * v j := by
      rw [Finset.sum_range_succ _ (m + 1), Nat.choose_succ_self, Nat.cast_zero]
      simp only [zero_mul, add_zero]
      rw [Finset.mul_sum]
      refine Finset.sum_congr rfl fun j hj => ?_
      have hj := Finset.mem_range.1 hj
      rw [show m + 1 - j = (m - j) + 1 by omega, pow_succ q]
      ring
    rw [this, Finset.sum_range_succ']
    simp only [Nat.choose_zero_right, Nat.cast_one, pow_zero, one_mul, Nat.sub_zero, Nat.reduceSubDiff]
  rw [e1, Finset.sum_range_succ', Finset.mul_sum]
  simp only [Nat.choose_zero_right, Nat.cast_one, pow_zero, one_mul, Nat.sub_zero, Nat.reduceSubDiff, Nat.choose_succ_succ, Nat.cast_add]
  rw [add_right_comm, ← Finset.sum_add_distrib]
  congr 1
  refine Finset.sum_congr rfl fun j _ => ?_
  rw [Nat.succ_eq_add_one, pow_succ p]
  ring

theorem level_expectation {K : Type} [Field K] (p q D : K) (v : Nat → K) (m k : Nat) :
    level (fun a b => (q * a + p * b) / D) v m k = expectation m p q (fun j => v (k + j)) / D ^ m := by
  induction m generalizing k with
  | zero => simp [level, expectation]
  | succ m ih =>
    rw [level, ih, ih, expectation_succ, pow_succ]
    have : (fun j => v (k + (j + 1))) = fun j => v (k + 1 + j) := by
      funext j
      rw [show k + (j + 1) = k + 1 + j by omega]
    rw [this, ← mul_div_assoc, ← mul_div_assoc, ← add_div, div_div]

/-- The weights sum to `(p + q) ^ m`. -/
theorem expectation_const {K : Type} [CommRing K] (m : Nat) (p q c : K) : expectation m p q (fun _ => c) = (p + q) ^ m * c := by
  induction m with
  | zero => simp [expectation]
  | succ m ih => rw [expectation_succ, ih, pow_succ]; ring

theorem expectation_mul {K : Type} [CommRing K] (m : Nat) (p q c : K) (v : Nat → K) :
    expectation m p q (fun j => c * v j) = c * expectation m p q v := by
  unfold expectation
  rw [Finset.mul_sum]
  exact Finset.sum_congr rfl fun _ _ => by ring

theorem expectation_sub {K : Type} [CommRing K] (m : Nat) (p q : K) (v w : Nat → K) :
    expectation m p q (fun j => v j - w j) = expectation m p q v - expectation m p q w := by
  unfold expectation
  rw [← Finset.sum_sub_distrib]
  exact Finset.sum_congr rfl fun _ _ => by ring

theorem expectation_pow {K : Type} [CommRing K] (m : Nat) (p q a b : K) :
    expectation m p q (fun j => a ^ j * b) = (p * a + q) ^ m * b := by
  induction m generalizing b with
  | zero => simp [expectation]
  | succ m ih =>
    rw [expectation_succ, ih]
    have : (fun j => a ^ (j + 1) * b) = fun j => a ^ j * (a * b) := by funext j; rw [pow_succ]; ring
    rw [this, ih, pow_succ]
    ring

theorem expectation_congr {K : Type} [CommSemiring K] (m : Nat) (p q : K) {v w : Nat → K} (h : ∀ j, j ≤ m → v j = w j) :
    expectation m p q v = expectation m p q w := by
  unfold expectation
  refine Finset.sum_congr rfl fun j hj => ?_
  rw [h j (by have := Finset.mem_range.1 hj; omega)]

theorem expectation_le (m : Nat) {p q : ℝ} (hp : 0 ≤ p) (hq : 0 ≤ q) {v w : Nat → ℝ} (h : ∀ j, j ≤ m → v j ≤ w j) :
    expectation m p q v ≤ expectation m p q w := by
  unfold expectation
  refine Finset.sum_le_sum fun j hj => ?_
  exact mul_le_mul_of_nonneg_left (h j (by have := Finset.mem_range.1 hj; omega)) (by positivity)

/-- With the fair probability the stock's mean grows at the rate `D`. -/
theorem expectation_stock (m : Nat) {u D : ℝ} (hu : 1 < u) (s : ℝ) :
    let p := (D - u⁻¹) / (u - u⁻¹)
    expectation m p (1 - p) (fun j => s * u ^ (2 * (j : ℤ) - m)) = D ^ m * s := by
  intro p
  have hu0 : u ≠ 0 := by linarith
  have hd : u - u⁻¹ ≠ 0 := by
    have : u⁻¹ < 1 := inv_lt_one_of_one_lt₀ hu
    linarith
  have e : (fun j : Nat => s * u ^ (2 * (j : ℤ) - m)) = fun j => (u ^ 2) ^ j * (s * u⁻¹ ^ m) := by
    funext j
    rw [zpow_sub₀ hu0, zpow_natCast, zpow_mul, zpow_natCast, inv_pow]
    simp only [zpow_ofNat]
    rw [div_eq_mul_inv]
    ring
  rw [e, expectation_pow, mul_left_comm, ← mul_pow, mul_comm]
  congr 2
  have h1 : p * (u - u⁻¹) = D - u⁻¹ := div_mul_cancel₀ _ hd
  have h2 : u ^ 2 * u⁻¹ = u := by field_simp
  linear_combination p * h2 + h1
end PackedSimd.Ex.Options
