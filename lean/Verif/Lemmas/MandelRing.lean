import Verif.Lemmas.F64Grid
import Verif.Lemmas.MandelFloat
import Mathlib.Analysis.Complex.Norm
/-
Orbits of `z ↦ z² + c` in `f64` arithmetic for `|c|` close to 2.
-/
namespace PackedSimd.F64R
open Spec Ex

/-! ### Comparing the rounded modulus with 4 -/

theorem four_grid : ((2 ^ 52 : ℤ) : ℝ) * (2 ^ 2 * η) = 4 := by unfold η; norm_num
theorem four_grid' : ((2 ^ 52 + 1 : ℤ) : ℝ) * (2 ^ 2 * η) = 4 + 4 * η := by unfold η; norm_num

theorem unbounded_ge {x y : F64} (fx : Fin' (x * x)) (fy : Fin' (y * y)) (h : ¬ F64.le (x * x + y * y) (F64.ofInt 4) = true) :
    4 + 2 * η ≤ rv (x * x) + rv (y * y) := by
  have hη := η_pos
  have hη' := η_le
  by_contra hlt
  rw [not_le] at hlt
  have nx := sq_nonneg fx
  have ny := sq_nonneg fy
  have hf : Fin' (x * x + y * y) := add_fin fx fy (by
    rw [abs_of_nonneg (by linarith)]
    have : (5 : ℝ) < 10 ^ 30 := by norm_num
    linarith)
  apply h
  refine (bounded_iff _ _).2 ⟨hf, ?_⟩
  by_contra h4
  rw [not_le] at h4
  have h1 := add_near hf (2 ^ 52) (by norm_num) (j := 2) (by norm_num)
  rw [four_grid] at h1
  obtain ⟨m, hm⟩ := onGrid hf (j := 2) (by norm_num) (by rw [abs_of_pos (by linarith)]; linarith)
  have h2 : 4 + 4 * η ≤ rv (x * x + y * y) := by
    rw [hm, ← four_grid] at h4
    have hp : (0 : ℝ) < 2 ^ 2 * η := by positivity
    have h5 : ((2 ^ 52 : ℤ) : ℝ) < m := lt_of_mul_lt_mul_right h4 hp.le
    have h6 : (2 ^ 52 + 1 : ℤ) ≤ m := by exact_mod_cast h5
    rw [← four_grid', hm]
    exact mul_le_mul_of_nonneg_right (by exact_mod_cast h6) hp.le
  by_cases h3 : 4 ≤ rv (x * x) + rv (y * y)
  · rw [abs_le, abs_of_nonpos (by linarith)] at h1
    linarith
  · rw [abs_le, abs_of_nonneg (by linarith)] at h1
    linarith

theorem bounded_le {x y : F64} (h : F64.le (x * x + y * y) (F64.ofInt 4) = true) : rv (x * x) + rv (y * y) ≤ 4 + 2 * η := by
  obtain ⟨hf, h4⟩ := (bounded_iff _ _).1 h
  have hη := η_pos
  by_contra hlt
  rw [not_le] at hlt
  have h1 := add_near hf (2 ^ 52 + 1) (by norm_num) (j := 2) (by norm_num)
  rw [four_grid'] at h1
  by_cases h3 : 4 + 4 * η ≤ rv (x * x) + rv (y * y)
  · rw [abs_le, abs_of_nonpos (by linarith)] at h1
    linarith
  · rw [abs_le, abs_of_nonneg (by linarith)] at h1
    linarith

/-- Multiples of `2 * η` are never farther than `η`. -/
theorem near_two {v : ℝ} (hv : |v| ≤ 4) : ∃ m : ℤ, m.natAbs ≤ 2 ^ 53 ∧ |(m : ℝ) * (2 ^ 1 * η) - v| ≤ η := by
  have hη := η_pos
  refine ⟨round (v / (2 * η)), ?_, ?_⟩
  · have h1 := abs_sub_round (v / (2 * η))
    have h2 : |v / (2 * η)| ≤ 2 ^ 53 := by
      rw [abs_div, abs_of_pos (by linarith : (0 : ℝ) < 2 * η), div_le_iff₀ (by linarith)]
      refine hv.trans (le_of_eq ?_)
      unfold η; norm_num
    have h3 : |((round (v / (2 * η)) : ℤ) : ℝ)| ≤ 2 ^ 53 + 1 / 2 := by
      have := abs_sub_abs_le_abs_sub ((round (v / (2 * η)) : ℤ) : ℝ) (v / (2 * η))
      rw [abs_sub_comm] at this
      linarith
    have h4 : ((round (v / (2 * η))).natAbs : ℝ) < 2 ^ 53 + 1 := by
      rw [Nat.cast_natAbs, Int.cast_abs]; linarith
    have h5 : (round (v / (2 * η))).natAbs < 2 ^ 53 + 1 := by exact_mod_cast h4
    omega
  · have h1 := abs_sub_round (v / (2 * η))
    have h2 : ((round (v / (2 * η)) : ℤ) : ℝ) * (2 ^ 1 * η) - v = -((v / (2 * η) - round (v / (2 * η))) * (2 * η)) := by
      field_simp
      ring
    rw [h2, abs_neg, abs_mul, abs_of_pos (by linarith : (0 : ℝ) < 2 * η)]
    nlinarith

/-! ### Norms -/

theorem norm_comp {a b : ℂ} {k : ℝ} (hk : 0 ≤ k) (h1 : |a.re| ≤ k * |b.re|) (h2 : |a.im| ≤ k * |b.im|) : ‖a‖ ≤ k * ‖b‖ := by
  have e1 := scaled_sq h1
  have e2 := scaled_sq h2
  refine abs_le_of_sq_le_sq' ?_ (mul_nonneg hk (norm_nonneg b)) |>.2
  rw [mul_pow, Complex.sq_norm, Complex.sq_norm, Complex.normSq_apply, Complex.normSq_apply]
  linarith

/-- A point given by two floats. -/
noncomputable def pt (x y : F64) : ℂ := ⟨rv x, rv y⟩
theorem pt_sq (x y : F64) : ‖pt x y‖ ^ 2 = rv x * rv x + rv y * rv y := by
  rw [Complex.sq_norm, Complex.normSq_apply]; rfl

/-- The real computation: errors of the complex square. -/
theorem square_err_real {η X Y sx sy s d e : ℝ} (hη : 0 < η) (hη' : η ≤ 1 / 10 ^ 15) (hR : 1 ≤ X * X + Y * Y)
    (e5 : |sx - X * X| ≤ η / 2 * (X * X) + η * η * η) (e6 : |sy - Y * Y| ≤ η / 2 * (Y * Y) + η * η * η)
    (e3 : |d - (sx - sy)| ≤ η / 2 * |sx - sy|) (e7 : |s - X * Y| ≤ η / 2 * |X * Y| + η * η * η) (e4 : |e - (s + s)| ≤ η / 2 * |s + s|) :
    (d - (X * X - Y * Y)) * (d - (X * X - Y * Y)) + (e - 2 * (X * Y)) * (e - 2 * (X * Y)) ≤ (5 / 4 * η * (X * X + Y * Y)) ^ 2 := by
  obtain ⟨D, hD⟩ : ∃ D, D = |X * X - Y * Y| := ⟨_, rfl⟩
  obtain ⟨Z, hZ⟩ : ∃ Z, Z = |X * Y| := ⟨_, rfl⟩
  obtain ⟨W, hW⟩ : ∃ W, W = 2 * Z := ⟨_, rfl⟩
  obtain ⟨R, hRd⟩ : ∃ R, R = X * X + Y * Y := ⟨_, rfl⟩
  obtain ⟨E, hE⟩ : ∃ E, E = η * η * η := ⟨_, rfl⟩
  have hDW : D * D + W * W = R * R := by
    rw [hD, hW, hZ, hRd]
    have h1 := abs_mul_abs_self (X * X - Y * Y)
    have h2 := abs_mul_abs_self (X * Y)
    calc _ = |X * X - Y * Y| * |X * X - Y * Y| + 4 * (|X * Y| * |X * Y|) := by ring
      _ = _ := by rw [h1, h2]; ring
  have hD0 : 0 ≤ D := by rw [hD]; exact abs_nonneg _
  have hZ0 : 0 ≤ Z := by rw [hZ]; exact abs_nonneg _
  have hη3 : E ≤ 1 / 10 ^ 15 * η := by
    have : η * η ≤ 1 / 10 ^ 15 := by nlinarith
    rw [hE]
    exact mul_le_mul_of_nonneg_right this hη.le
  have hE1 : E ≤ 1 / 10 ^ 15 := by linarith
  rw [← hRd] at hR ⊢
  rw [← hE] at e5 e6 e7
  rw [← hZ] at e7
  have hηR : η * R ≤ 1 / 10 ^ 15 * R := mul_le_mul_of_nonneg_right hη' (by linarith)
  have hηR1 : η ≤ η * R := by
    have := mul_le_mul_of_nonneg_left hR hη.le
    linarith
  have hDR : D ≤ R := by nlinarith
  have hWR : W ≤ R := by nlinarith
  have hηZ : η * Z ≤ 1 / 10 ^ 15 * Z := mul_le_mul_of_nonneg_right hη' hZ0
  have h1 : |sx - sy - (X * X - Y * Y)| ≤ η / 2 * R + 2 * E := by
    rw [abs_le] at e5 e6 ⊢
    rw [hRd]
    constructor <;> linarith
  have k1 : |sx - sy| ≤ D + 1 / 10 ^ 11 * R := by
    have h2 := abs_sub_abs_le_abs_sub (sx - sy) (X * X - Y * Y)
    rw [← hD] at h2
    linarith
  have k2 : |d - (X * X - Y * Y)| ≤ η / 2 * (R + D + 1 / 10 ^ 10 * R) := by
    have h2 := abs_add_le (d - (sx - sy)) (sx - sy - (X * X - Y * Y))
    rw [show d - (sx - sy) + (sx - sy - (X * X - Y * Y)) = d - (X * X - Y * Y) by ring] at h2
    have h3 : η / 2 * |sx - sy| ≤ η / 2 * (D + 1 / 10 ^ 11 * R) := mul_le_mul_of_nonneg_left k1 (by linarith)
    linarith
  have k3 : |s + s| ≤ W + 1 / 10 ^ 11 * R := by
    have h2 := abs_sub_abs_le_abs_sub s (X * Y)
    have h3 : |s + s| = 2 * |s| := by rw [← two_mul, abs_mul, abs_two]
    rw [← hZ] at h2
    rw [h3]
    linarith
  have k4 : |e - 2 * (X * Y)| ≤ η / 2 * (2 * W + 1 / 10 ^ 10 * R) := by
    have h2 := abs_add_le (e - (s + s)) (2 * (s - X * Y))
    rw [show e - (s + s) + 2 * (s - X * Y) = e - 2 * (X * Y) by ring, abs_mul, abs_two] at h2
    have h3 : η / 2 * |s + s| ≤ η / 2 * (W + 1 / 10 ^ 11 * R) := mul_le_mul_of_nonneg_left k3 (by linarith)
    rw [hW] at h3 ⊢
    linarith
  have q1 := mul_self_le_mul_self (abs_nonneg _) k2
  have q2 := mul_self_le_mul_self (abs_nonneg _) k4
  rw [abs_mul_abs_self] at q1 q2
  have fin : (R + D + 1 / 10 ^ 10 * R) * (R + D + 1 / 10 ^ 10 * R) + (2 * W + 1 / 10 ^ 10 * R) * (2 * W + 1 / 10 ^ 10 * R) ≤ (5 / 2 * R) ^ 2 := by
    have h3 := mul_self_nonneg (R - 3 * D)
    have h4 : R * D ≤ R * R := mul_le_mul_of_nonneg_left hDR (by linarith)
    have h5 : R * W ≤ R * R := mul_le_mul_of_nonneg_left hWR (by linarith)
    nlinarith only [h3, h4, h5, hDW, mul_self_nonneg R]
  calc _ ≤ (η / 2) ^ 2 * ((R + D + 1 / 10 ^ 10 * R) * (R + D + 1 / 10 ^ 10 * R) + (2 * W + 1 / 10 ^ 10 * R) * (2 * W + 1 / 10 ^ 10 * R)) :=
        (add_le_add q1 q2).trans (le_of_eq (by ring))
    _ ≤ (η / 2) ^ 2 * (5 / 2 * R) ^ 2 := mul_le_mul_of_nonneg_left fin (by positivity)
    _ = _ := by ring

/-- One step of the computed orbit, compared with the exact one. -/
theorem step_norm {cx cy x y : F64} (fnx : Fin' (cx + (x * x - y * y))) (fny : Fin' (cy + (x * y + x * y))) (hR : 1 ≤ ‖pt x y‖ ^ 2) :
    ∃ w : ℝ, 0 ≤ w ∧ ‖pt x y ^ 2 + pt cx cy‖ ≤ w + 5 / 4 * η * ‖pt x y‖ ^ 2 ∧
      w ≤ ‖pt (cx + (x * x - y * y)) (cy + (x * y + x * y))‖ + η / 2 * w := by
  have hη := η_pos
  have fd := (fin_add fnx).2
  have fe := (fin_add fny).2
  have e1 := add_u fnx
  have e2 := add_u fny
  have e3 := sub_u fd
  have e4 := add_u fe
  have e5 := mul_u (fin_sub fd).1
  have e6 := mul_u (fin_sub fd).2
  have e7 := mul_u (fin_add fe).1
  rw [abs_of_nonneg (mul_self_nonneg (rv x))] at e5
  rw [abs_of_nonneg (mul_self_nonneg (rv y))] at e6
  have hR' := hR
  rw [pt_sq] at hR'
  have hq := square_err_real hη η_le hR' e5 e6 e3 e7 e4
  refine ⟨‖(⟨rv cx + rv (x * x - y * y), rv cy + rv (x * y + x * y)⟩ : ℂ)‖, norm_nonneg _, ?_, ?_⟩
  · have h1 : ‖pt x y ^ 2 + pt cx cy - (⟨rv cx + rv (x * x - y * y), rv cy + rv (x * y + x * y)⟩ : ℂ)‖ ≤ 5 / 4 * η * ‖pt x y‖ ^ 2 := by
      refine abs_le_of_sq_le_sq' ?_ (by positivity) |>.2
      rw [pt_sq, Complex.sq_norm, Complex.normSq_apply]
      refine le_trans (le_of_eq ?_) hq
      simp only [pt, pow_two, Complex.sub_re, Complex.add_re, Complex.mul_re, Complex.sub_im, Complex.add_im, Complex.mul_im]
      ring
    have := norm_sub_norm_le (pt x y ^ 2 + pt cx cy) (⟨rv cx + rv (x * x - y * y), rv cy + rv (x * y + x * y)⟩ : ℂ)
    linarith
  · have h1 : ‖pt (cx + (x * x - y * y)) (cy + (x * y + x * y)) - (⟨rv cx + rv (x * x - y * y), rv cy + rv (x * y + x * y)⟩ : ℂ)‖ ≤
        η / 2 * ‖(⟨rv cx + rv (x * x - y * y), rv cy + rv (x * y + x * y)⟩ : ℂ)‖ := norm_comp (by linarith) e1 e2
    have := norm_sub_norm_le (⟨rv cx + rv (x * x - y * y), rv cy + rv (x * y + x * y)⟩ : ℂ) (pt (cx + (x * x - y * y)) (cy + (x * y + x * y)))
    rw [norm_sub_rev] at this
    linarith

theorem norm_grow (z c : ℂ) : ‖z‖ ^ 2 - ‖c‖ ≤ ‖z ^ 2 + c‖ := by
  have := norm_sub_norm_le (z ^ 2) (-c)
  rw [norm_neg, sub_neg_eq_add, pow_two, Complex.norm_mul, ← pow_two, ← pow_two] at this
  exact this

theorem η2_le : η * η ≤ 1 / 10 ^ 15 * η := mul_le_mul_of_nonneg_right η_le η_pos.le
theorem η2_nonneg : 0 ≤ η * η := mul_self_nonneg _
theorem η3_le : η * η * η ≤ 1 / 10 ^ 15 * η := by
  have h1 := η2_le
  have h2 := η_pos
  have h3 := η_le
  have : η * η ≤ 1 / 10 ^ 15 := by linarith
  exact mul_le_mul_of_nonneg_right this h2.le

theorem unbounded_norm {x y : F64} (fx : Fin' (x * x)) (fy : Fin' (y * y)) (h : ¬ F64.le (x * x + y * y) (F64.ofInt 4) = true) :
    2 - η / 1000 ≤ ‖pt x y‖ := by
  have h1 := unbounded_ge fx fy h
  have e5 := mul_u fx
  have e6 := mul_u fy
  rw [abs_of_nonneg (mul_self_nonneg (rv x))] at e5
  rw [abs_of_nonneg (mul_self_nonneg (rv y))] at e6
  have hη := η_pos
  have hη' := η_le
  have hη2 := η2_le
  have hη3 := η3_le
  rw [abs_le] at e5 e6
  have hR := pt_sq x y
  have hp := norm_nonneg (pt x y)
  by_contra hlt
  rw [not_le] at hlt
  have hq : ‖pt x y‖ ^ 2 ≤ (2 - η / 1000) ^ 2 := pow_le_pow_left₀ hp hlt.le 2
  have hq' : ‖pt x y‖ ^ 2 ≤ 4 - 3 / 1000 * η := by nlinarith
  have : η * ‖pt x y‖ ^ 2 ≤ η * 4 := mul_le_mul_of_nonneg_left (by linarith) hη.le
  rw [hR] at hq' this
  linarith

theorem bounded_norm_sq {x y : F64} (h : F64.le (x * x + y * y) (F64.ofInt 4) = true) : ‖pt x y‖ ^ 2 ≤ 4 + 4.01 * η := by
  have h1 := bounded_le h
  obtain ⟨hf, -⟩ := (bounded_iff _ _).1 h
  have e5 := mul_u (fin_add hf).1
  have e6 := mul_u (fin_add hf).2
  rw [abs_of_nonneg (mul_self_nonneg (rv x))] at e5
  rw [abs_of_nonneg (mul_self_nonneg (rv y))] at e6
  have hη := η_pos
  have hη' := η_le
  have hη2 := η2_le
  have hη3 := η3_le
  rw [abs_le] at e5 e6
  rw [pt_sq]
  obtain ⟨R, hR⟩ : ∃ R, R = rv x * rv x + rv y * rv y := ⟨_, rfl⟩
  have h2 : R * (1 - η / 2) ≤ 4 + 2 * η + 2 * (η * η * η) := by rw [hR]; linarith
  rw [← hR]
  nlinarith

theorem bounded_norm {x y : F64} (h : F64.le (x * x + y * y) (F64.ofInt 4) = true) : ‖pt x y‖ ≤ 2 + 1.003 * η := by
  have h1 := bounded_norm_sq h
  have hη := η_pos
  refine abs_le_of_sq_le_sq' ?_ (by linarith) |>.2
  nlinarith

/-! ### Real inequalities of the coarse argument -/

theorem a_step {η C ρ K w r : ℝ} (hη : 0 < η) (hη' : η ≤ 1 / 10 ^ 15) (hC : C ≤ 2 + 1.003 * η) (hρ : 2 - η / 1000 ≤ ρ) (_ : 0 ≤ w)
    (h1 : ρ ^ 2 - C ≤ K) (h2 : K ≤ w + 5 / 4 * η * ρ ^ 2) (h3 : w ≤ r + η / 2 * w) (hr : r ≤ 2 + 1.003 * η) :
    ρ ≤ 2 + 2.2 * η ∧ 2 - 7.06 * η ≤ C ∧ K ≤ 2 + 7.06 * η := by
  have hη2 : η * η ≤ 1 / 10 ^ 15 * η := mul_le_mul_of_nonneg_right hη' hη.le
  have hη0 := mul_self_nonneg η
  have hw1 : w ≤ 2 + 2.02 * η := by nlinarith
  have hρ1 : ρ ≤ 2 + 2.2 * η := by
    by_contra hlt
    rw [not_le] at hlt
    have h4 : 4 + 8.8 * η ≤ ρ ^ 2 := by nlinarith
    have h5 : (4 + 8.8 * η) * (1 - 5 / 4 * η) ≤ ρ ^ 2 * (1 - 5 / 4 * η) := mul_le_mul_of_nonneg_right h4 (by linarith)
    linarith
  have h4 : ρ ^ 2 ≤ 4 + 9 * η := by nlinarith
  have h5 : η * ρ ^ 2 ≤ η * (4 + 9 * η) := mul_le_mul_of_nonneg_left h4 hη.le
  have h6 : 4 - 4 * (η / 1000) ≤ ρ ^ 2 := by nlinarith
  exact ⟨hρ1, by linarith, by linarith⟩

theorem a_persist {η C ρ K w r : ℝ} (hη : 0 < η) (hη' : η ≤ 1 / 10 ^ 15) (hC : C ≤ 2 + 1.003 * η) (hρ : 2 + 3 * η ≤ ρ) (_ : 0 ≤ w)
    (h1 : ρ ^ 2 - C ≤ K) (h2 : K ≤ w + 5 / 4 * η * ρ ^ 2) (h3 : w ≤ r + η / 2 * w) : 2 + 3 * η ≤ r := by
  have hη2 : η * η ≤ 1 / 10 ^ 15 * η := mul_le_mul_of_nonneg_right hη' hη.le
  have hη0 := mul_self_nonneg η
  by_contra hlt
  rw [not_le] at hlt
  have hw1 : w ≤ 2 + 4.02 * η := by nlinarith
  have h4 : 4 + 12 * η ≤ ρ ^ 2 := by nlinarith
  have h5 : (4 + 12 * η) * (1 - 5 / 4 * η) ≤ ρ ^ 2 * (1 - 5 / 4 * η) := mul_le_mul_of_nonneg_right h4 (by linarith)
  linarith

theorem b_persist {η C κ ρ K w r : ℝ} (hη : 0 < η) (hη' : η ≤ 1 / 10 ^ 15) (hC1 : 2 - η / 1000 ≤ C) (hC2 : C ≤ 2.01)
    (hκ : 1.79 * η ≤ κ) (hκ' : κ ≤ 3 * η) (hk : 6.1 * η ≤ 1.99 * (C - 2) + 2.99 * κ) (hρ : C + κ ≤ ρ) (_ : 0 ≤ w)
    (h1 : ρ ^ 2 - C ≤ K) (h2 : K ≤ w + 5 / 4 * η * ρ ^ 2) (h3 : w ≤ r + η / 2 * w) : C + κ ≤ r := by
  have hη2 : η * η ≤ 1 / 10 ^ 15 * η := mul_le_mul_of_nonneg_right hη' hη.le
  have hη0 := mul_self_nonneg η
  by_contra hlt
  rw [not_le] at hlt
  obtain ⟨γ, hγ⟩ : ∃ γ, C = 2 + γ := ⟨C - 2, by ring⟩
  subst hγ
  have hγη : η * γ ≤ 0.01 * η := by nlinarith
  have hw1 : w ≤ 2 + γ + κ + 1.01 * η := by
    by_contra hw2
    rw [not_le] at hw2
    have : (1 - η / 2) * (2 + γ + κ + 1.01 * η) ≤ (1 - η / 2) * w := mul_le_mul_of_nonneg_left hw2.le (by linarith)
    nlinarith
  have h4 : 4 + 4 * (γ + κ) ≤ ρ ^ 2 := by nlinarith [mul_self_nonneg (γ + κ)]
  have h5 : (4 + 4 * (γ + κ)) * (1 - 5 / 4 * η) ≤ ρ ^ 2 * (1 - 5 / 4 * η) := mul_le_mul_of_nonneg_right h4 (by linarith)
  have h6 : η * κ ≤ 0.01 * η := by nlinarith
  have h7 : κ ≥ 0 := by linarith
  nlinarith

theorem b_box {η C U V g w r : ℝ} (hη : 0 < η) (hη' : η ≤ 1 / 10 ^ 15) (hC : C ^ 2 = U * U + V * V) (hC1 : 2 - η / 1000 ≤ C) (hC2 : C ≤ 2.01)
    (hg : 0 ≤ g) (hg2 : g ^ 2 = C ^ 2 + 2 * U + 1) (h2 : C * g ≤ w + 5 / 4 * η * C ^ 2) (h3 : w ≤ r + η / 2 * w) (hr : r < C + 2.1 * η) :
    |U + 2| ≤ 4.2 * η ∧ V * V ≤ 33.5 * η ∧ C ≤ 2 + 4.12 * η := by
  have hη2 : η * η ≤ 1 / 10 ^ 15 * η := mul_le_mul_of_nonneg_right hη' hη.le
  have hη0 := mul_self_nonneg η
  have hw1 : w ≤ C + 3.13 * η := by
    by_contra hw2
    rw [not_le] at hw2
    have : (1 - η / 2) * (C + 3.13 * η) ≤ (1 - η / 2) * w := mul_le_mul_of_nonneg_left hw2.le (by linarith)
    nlinarith
  have hCC : C ^ 2 ≤ 4.0401 := by nlinarith
  have h4 : η * C ^ 2 ≤ η * 4.0401 := mul_le_mul_of_nonneg_left hCC hη.le
  have h5 : C * g ≤ C + 8.19 * η := by linarith
  have h6 : g ≤ 1 + 4.11 * η := by
    by_contra hlt
    rw [not_le] at hlt
    have : C * (1 + 4.11 * η) ≤ C * g := mul_le_mul_of_nonneg_left hlt.le (by linarith)
    nlinarith
  have h7 : g ^ 2 ≤ 1 + 8.23 * η := by nlinarith
  have h8 : 4 - 0.004 * η ≤ C ^ 2 := by nlinarith
  have h9 : U ≤ -2 + 4.12 * η := by linarith
  have h10 : -C ≤ U := by
    have : U ^ 2 ≤ C ^ 2 := by rw [hC, pow_two]; linarith [mul_self_nonneg V]
    exact (abs_le_of_sq_le_sq' this (by linarith)).1
  have h11 : C ≤ 2 + 4.12 * η := by
    by_contra hlt
    rw [not_le] at hlt
    nlinarith
  refine ⟨abs_le.2 ⟨by linarith, by linarith⟩, ?_, h11⟩
  have h12 := mul_self_le_mul_self (by linarith) (show 2 - 4.12 * η ≤ -U by linarith)
  have h13 := mul_self_le_mul_self (by linarith) h11
  linarith

theorem a_box {η C U V g w r : ℝ} (hη : 0 < η) (hη' : η ≤ 1 / 10 ^ 15) (hC : C ^ 2 = U * U + V * V) (hC1 : 2 - 7.06 * η ≤ C) (hC2 : C ≤ 2 + 1.003 * η)
    (hg : 0 ≤ g) (hg2 : g ^ 2 = C ^ 2 + 2 * U + 1) (h2 : C * g ≤ w + 5 / 4 * η * C ^ 2) (h3 : w ≤ r + η / 2 * w) (hr : r ≤ 2 + 3 * η) :
    -1.01 * η ≤ U + 2 ∧ U + 2 ≤ 22.5 * η ∧ V * V ≤ 95 * η := by
  have hη2 : η * η ≤ 1 / 10 ^ 15 * η := mul_le_mul_of_nonneg_right hη' hη.le
  have hη0 := mul_self_nonneg η
  have hw1 : w ≤ 2 + 4.02 * η := by nlinarith
  have hCC : C ^ 2 ≤ 4 + 4.02 * η := by nlinarith
  have h4 : η * C ^ 2 ≤ η * (4 + 4.02 * η) := mul_le_mul_of_nonneg_left hCC hη.le
  have h5 : C * g ≤ 2 + 9.03 * η := by linarith
  have h6 : g ≤ 1 + 8.1 * η := by
    by_contra hlt
    rw [not_le] at hlt
    have : C * (1 + 8.1 * η) ≤ C * g := mul_le_mul_of_nonneg_left hlt.le (by linarith)
    nlinarith
  have h7 : g ^ 2 ≤ 1 + 16.3 * η := by nlinarith
  have h8 : 4 - 28.3 * η ≤ C ^ 2 := by nlinarith
  have h9 : U ≤ -2 + 22.4 * η := by linarith
  have h10 : -C ≤ U := by
    have : U ^ 2 ≤ C ^ 2 := by rw [hC, pow_two]; linarith [mul_self_nonneg V]
    exact (abs_le_of_sq_le_sq' this (by linarith)).1
  refine ⟨by linarith, by linarith, ?_⟩
  have h12 := mul_self_le_mul_self (by linarith) (show 2 - 22.4 * η ≤ -U by linarith)
  linarith

theorem a_box_z {η U V X Y ρ K : ℝ} (hη : 0 < η) (hη' : η ≤ 1 / 10 ^ 15) (ha1 : -1.01 * η ≤ U + 2) (ha2 : U + 2 ≤ 22.5 * η) (hV : V * V ≤ 95 * η)
    (hρ : ρ ^ 2 = X * X + Y * Y) (hρ1 : 2 - η / 1000 ≤ ρ) (hρ2 : ρ ≤ 2 + 2.2 * η) (hK : K ^ 2 = (X * X - Y * Y + U) ^ 2 + (2 * (X * Y) + V) ^ 2)
    (hK0 : 0 ≤ K) (hK2 : K ≤ 2 + 7.06 * η) : Y * Y ≤ 81 * η ∧ 2 - 20.5 * η ≤ |X| ∧ |X| ≤ 2 + 2.2 * η := by
  have hη2 : η * η ≤ 1 / 10 ^ 15 * η := mul_le_mul_of_nonneg_right hη' hη.le
  have hη0 := mul_self_nonneg η
  obtain ⟨M, hM⟩ : ∃ M, M = ρ ^ 2 - 4 := ⟨_, rfl⟩
  obtain ⟨a, ha⟩ : ∃ a, a = U + 2 := ⟨_, rfl⟩
  obtain ⟨S, hS⟩ : ∃ S, S = Y * Y := ⟨_, rfl⟩
  rw [← ha] at ha1 ha2
  have hM1 : -0.004 * η ≤ M := by rw [hM]; nlinarith
  have hM2 : M ≤ 8.81 * η := by rw [hM]; nlinarith
  have hS0 : 0 ≤ S := by rw [hS]; exact mul_self_nonneg Y
  have hX : X * X = 4 + M - S := by rw [hM, hS, hρ]; ring
  have hKK : K ^ 2 ≤ 4 + 28.3 * η := by nlinarith
  have hXX : X * X ≤ 4.0001 := by linarith
  have hid : K ^ 2 = 4 + (M + a) ^ 2 - 4 * S * a + 4 * M + 4 * a + 8 * S + 4 * (X * Y) * V + V * V := by
    rw [hK, show U = a - 2 by rw [ha]; ring]
    have h1 : (2 * (X * Y) + V) ^ 2 = 4 * (X * X) * (Y * Y) + 4 * (X * Y) * V + V * V := by ring
    rw [h1, ← hS, hX]
    ring
  have h1 : 0 ≤ (X * Y + 2 * V) ^ 2 := _root_.sq_nonneg _
  have h2 : (X * Y + 2 * V) ^ 2 = X * X * S + 4 * (X * Y) * V + 4 * (V * V) := by rw [hS]; ring
  have h3 : X * X * S ≤ 4.0001 * S := mul_le_mul_of_nonneg_right hXX hS0
  have h4 : S * a ≤ S * (22.5 * η) := mul_le_mul_of_nonneg_left ha2 hS0
  have h5 : S * η ≤ S * (1 / 10 ^ 15) := mul_le_mul_of_nonneg_left hη' hS0
  have h6 : 0 ≤ (M + a) ^ 2 := _root_.sq_nonneg _
  have hS1 : S ≤ 80 * η := by linarith
  refine ⟨by rw [← hS]; linarith, ?_, ?_⟩
  · by_contra hlt
    rw [not_le] at hlt
    have := mul_self_le_mul_self (abs_nonneg X) hlt.le
    rw [abs_mul_abs_self] at this
    linarith
  · refine le_trans (abs_le_of_sq_le_sq (b := ρ) ?_ (by linarith)) hρ2
    rw [hρ, pow_two]
    linarith [mul_self_nonneg Y]

end PackedSimd.F64R
