import Verif.Spec.MandelSet
import Verif.Lemmas.MandelFine
import Verif.Lemmas.Mandelbrot
import Mathlib.Analysis.Complex.Basic
import Mathlib.Analysis.SpecificLimits.Basic
/-
The orbits of the Mandelbrot example and the Mandelbrot set.
-/
namespace PackedSimd.Ex.Mandel
open Spec Filter F64R

theorem trueOrbit_zero (c : ℂ) : trueOrbit c 0 = c := rfl
theorem trueOrbit_succ (c : ℂ) (n : ℕ) : trueOrbit c (n + 1) = trueOrbit c n ^ 2 + c := by
  unfold trueOrbit; rw [Function.iterate_succ_apply']

theorem iterate_zero_succ (c : ℂ) (n : ℕ) : (fun z => z ^ 2 + c)^[n + 1] 0 = trueOrbit c n := by
  unfold trueOrbit
  rw [Function.iterate_succ_apply]
  congr 1
  show (0 : ℂ) ^ 2 + c = c
  rw [zero_pow two_ne_zero, zero_add]

theorem mem_iff (c : ℂ) : c ∈ MandelbrotSet ↔ ∃ B : ℝ, ∀ n, ‖trueOrbit c n‖ ≤ B := by
  constructor
  · rintro ⟨B, h⟩
    exact ⟨B, fun n => by rw [← iterate_zero_succ]; exact h (n + 1)⟩
  · rintro ⟨B, h⟩
    refine ⟨B, fun n => ?_⟩
    rcases n with _ | n
    · rw [Function.iterate_zero, id, norm_zero]; exact (norm_nonneg _).trans (h 0)
    · rw [iterate_zero_succ]; exact h n

theorem orbit_true (x y : ℝ) (n : ℕ) : (⟨(orbit (x, y) n).1, (orbit (x, y) n).2⟩ : ℂ) = trueOrbit ⟨x, y⟩ n := by
  induction n with
  | zero => rfl
  | succ n ih =>
    rw [trueOrbit_succ, ← ih, sq]
    apply Complex.ext
    · rw [Complex.add_re, Complex.mul_re]; show x + _ = _; ring
    · rw [Complex.add_im, Complex.mul_im]; show y + _ = _; ring

theorem orbitNorm_true (x y : ℝ) (n : ℕ) : orbitNorm (x, y) n = ‖trueOrbit ⟨x, y⟩ n‖ ^ 2 := by
  rw [Complex.sq_norm, Complex.normSq_apply, ← orbit_true]; rfl

theorem four_lt_iff (x y : ℝ) (n : ℕ) : 4 < orbitNorm (x, y) n ↔ 2 < ‖trueOrbit ⟨x, y⟩ n‖ := by
  rw [orbitNorm_true]
  constructor
  · intro h; nlinarith [norm_nonneg (trueOrbit ⟨x, y⟩ n)]
  · intro h; nlinarith

/-- Outside the circle of radius 2 and of the radius of `c`, the modulus grows geometrically. -/
theorem grows {c : ℂ} {n : ℕ} (h2 : 2 < ‖trueOrbit c n‖) (hc : ‖c‖ ≤ ‖trueOrbit c n‖) (m : ℕ) :
    ‖trueOrbit c n‖ * (‖trueOrbit c n‖ - 1) ^ m ≤ ‖trueOrbit c (n + m)‖ := by
  obtain ⟨a, ha⟩ : ∃ a, a = ‖trueOrbit c n‖ := ⟨_, rfl⟩
  rw [← ha] at h2 hc ⊢
  induction m with
  | zero => rw [pow_zero, mul_one, Nat.add_zero, ha]
  | succ m ih =>
    rw [← Nat.add_assoc, trueOrbit_succ]
    have h1 : ‖trueOrbit c (n + m)‖ ^ 2 - ‖c‖ ≤ ‖trueOrbit c (n + m) ^ 2 + c‖ := by
      have := norm_sub_le (trueOrbit c (n + m) ^ 2 + c) c
      rw [add_sub_cancel_right, norm_pow] at this
      linarith
    have hp : 1 ≤ (a - 1) ^ m := one_le_pow₀ (by linarith)
    have h3 : a ≤ ‖trueOrbit c (n + m)‖ := le_trans (by nlinarith) ih
    obtain ⟨b, hb⟩ : ∃ b, b = ‖trueOrbit c (n + m)‖ := ⟨_, rfl⟩
    rw [← hb] at h1 h3 ih
    have h4 : a * (a - 1) ^ (m + 1) = a * (a - 1) ^ m * (a - 1) := by ring
    rw [h4]
    have h5 : a * (a - 1) ^ m * (a - 1) ≤ b * (a - 1) := mul_le_mul_of_nonneg_right ih (by linarith)
    nlinarith

theorem norm_first (x y : ℝ) {n : ℕ} (h : 4 < orbitNorm (x, y) n) : orbitNorm (x, y) 0 ≤ orbitNorm (x, y) n := by
  classical
  have hex : ∃ n, 4 < orbitNorm (x, y) n := ⟨n, h⟩
  have := (norm_mono _ (Nat.find_spec hex) (fun i hi => not_lt.1 (Nat.find_min hex hi)) (n - Nat.find hex)).1
  rwa [Nat.add_sub_cancel' (Nat.find_min' hex h)] at this

/-- A point once outside the circle of radius 2 runs off to infinity. -/
theorem escapes (x y : ℝ) {n : ℕ} (h : 4 < orbitNorm (x, y) n) : Tendsto (fun n => ‖trueOrbit ⟨x, y⟩ n‖) atTop atTop := by
  have h2 := (four_lt_iff x y n).1 h
  have hc : ‖(⟨x, y⟩ : ℂ)‖ ≤ ‖trueOrbit ⟨x, y⟩ n‖ := by
    have := norm_first x y h
    rw [orbitNorm_true, orbitNorm_true] at this
    exact le_of_sq_le_sq' this
  rw [← tendsto_add_atTop_iff_nat n]
  have hg := grows h2 hc
  refine tendsto_atTop_mono (f := fun m => ‖trueOrbit ⟨x, y⟩ n‖ * (‖trueOrbit ⟨x, y⟩ n‖ - 1) ^ m)
    (fun m => by rw [Nat.add_comm m n]; exact hg m) ?_
  exact (tendsto_pow_atTop_atTop_of_one_lt (by linarith)).const_mul_atTop (by linarith)
where
  le_of_sq_le_sq' {a b : ℂ} (h : ‖a‖ ^ 2 ≤ ‖b‖ ^ 2) : ‖a‖ ≤ ‖b‖ := by
    nlinarith [norm_nonneg a, norm_nonneg b, sq_nonneg (‖a‖ - ‖b‖)]

theorem mem_iff_norm (x y : ℝ) : (⟨x, y⟩ : ℂ) ∈ MandelbrotSet ↔ ∀ n, orbitNorm (x, y) n ≤ 4 := by
  rw [mem_iff]
  constructor
  · rintro ⟨B, hB⟩ n
    by_contra h
    have ht := escapes x y (not_le.1 h)
    obtain ⟨m, hm⟩ := (ht.eventually (eventually_gt_atTop B)).exists
    exact absurd (hB m) (not_le.2 hm)
  · intro h
    refine ⟨2, fun n => ?_⟩
    by_contra h2
    exact absurd (h n) (not_le.2 ((four_lt_iff x y n).2 (not_le.1 h2)))

end PackedSimd.Ex.Mandel
