import Verif.Lemmas.F64Real
import Verif.Spec.Mandel
/-
The orbits of `z ↦ z² + c` in `f64` arithmetic.
-/
namespace PackedSimd.F64R
open Spec Ex

theorem ε_def : ε = 1 / 10 ^ 15 := rfl

/-- The rounded sum of squares determines the exact one up to a small error. -/
theorem sumsq_close {a b : F64} (h : Fin' (a * a + b * b)) :
    |rv (a * a + b * b) - (rv a * rv a + rv b * rv b)| ≤ 3 * ε * (rv a * rv a + rv b * rv b) + 3 * ε := by
  have h1 := add_err h
  have ha := mul_err (fin_add h).1
  have hb := mul_err (fin_add h).2
  rw [abs_of_nonneg (mul_self_nonneg (rv a))] at ha
  rw [abs_of_nonneg (mul_self_nonneg (rv b))] at hb
  rw [abs_of_nonneg (add_nonneg (sq_nonneg (fin_add h).1) (sq_nonneg (fin_add h).2))] at h1
  have na := mul_self_nonneg (rv a)
  have nb := mul_self_nonneg (rv b)
  rw [abs_le] at *
  rw [ε_def] at *
  constructor <;> linarith

/-- A point of moderate size has a finite modulus, so that the two comparisons are opposite. -/
theorem gt_eq_not_le {x y : F64} (hx : Fin' x) (hy : Fin' y) (bx : |rv x| ≤ 10) (bY : |rv y| ≤ 10) :
    F64.gt (x * x + y * y) (F64.ofInt 4) = !F64.le (x * x + y * y) (F64.ofInt 4) ∧ Fin' (x * x + y * y) := by
  have bxx : |rv x * rv x| ≤ 100 := by
    rw [abs_mul]; nlinarith [abs_nonneg (rv x)]
  have byy : |rv y * rv y| ≤ 100 := by
    rw [abs_mul]; nlinarith [abs_nonneg (rv y)]
  have big : (10000 : ℝ) < 10 ^ 30 := by norm_num
  have fx := mul_fin hx hx (by linarith)
  have fy := mul_fin hy hy (by linarith)
  have ex := mul_err fx
  have ey := mul_err fy
  have hf : Fin' (x * x + y * y) := add_fin fx fy (by
    have h1 : ε ≤ 1 := by rw [ε_def]; norm_num
    have h2 := abs_sub_abs_le_abs_sub (rv (x * x)) (rv x * rv x)
    have h3 := abs_sub_abs_le_abs_sub (rv (y * y)) (rv y * rv y)
    have h4 : ε * |rv x * rv x| ≤ 100 := by nlinarith [abs_nonneg (rv x * rv x)]
    have h5 : ε * |rv y * rv y| ≤ 100 := by nlinarith [abs_nonneg (rv y * rv y)]
    have := abs_add_le (rv (x * x)) (rv (y * y))
    linarith)
  refine ⟨?_, hf⟩
  rw [Bool.eq_iff_iff, gt_iff hf four.1, Bool.not_eq_true', ← Bool.not_eq_true, le_iff hf four.1, not_le]

/-- Up to the first escape the orbit is finite and moderate. -/
theorem orbit_moderate {cx cy : F64} (fx : Fin' cx) (fy : Fin' cy) (hc : rv cx * rv cx + rv cy * rv cy ≤ 4.01) (j : ℕ)
    (h : ∀ i, i < j → F64.gt (orbitNorm (cx, cy) i) (F64.ofInt 4) = false) :
    (Fin' (orbit (cx, cy) j).1 ∧ Fin' (orbit (cx, cy) j).2) ∧ |rv (orbit (cx, cy) j).1| ≤ 10 ∧ |rv (orbit (cx, cy) j).2| ≤ 10 := by
  have hcx : |rv cx| ≤ 2.01 := abs_le_of_sq_le_sq (by nlinarith [mul_self_nonneg (rv cy)]) (by norm_num)
  have hcy : |rv cy| ≤ 2.01 := abs_le_of_sq_le_sq (by nlinarith [mul_self_nonneg (rv cx)]) (by norm_num)
  induction j with
  | zero => exact ⟨⟨fx, fy⟩, by show |rv cx| ≤ 10; linarith, by show |rv cy| ≤ 10; linarith⟩
  | succ j ih =>
    obtain ⟨⟨f1, f2⟩, b1, b2⟩ := ih fun i hi => h i (by omega)
    have hj := h j (by omega)
    unfold orbitNorm at hj
    show (Fin' (cx + ((orbit (cx, cy) j).1 * (orbit (cx, cy) j).1 - (orbit (cx, cy) j).2 * (orbit (cx, cy) j).2)) ∧
      Fin' (cy + ((orbit (cx, cy) j).1 * (orbit (cx, cy) j).2 + (orbit (cx, cy) j).1 * (orbit (cx, cy) j).2))) ∧
      |rv (cx + ((orbit (cx, cy) j).1 * (orbit (cx, cy) j).1 - (orbit (cx, cy) j).2 * (orbit (cx, cy) j).2))| ≤ 10 ∧
      |rv (cy + ((orbit (cx, cy) j).1 * (orbit (cx, cy) j).2 + (orbit (cx, cy) j).1 * (orbit (cx, cy) j).2))| ≤ 10
    generalize (orbit (cx, cy) j).1 = x at *
    generalize (orbit (cx, cy) j).2 = y at *
    have hfs := (gt_eq_not_le f1 f2 b1 b2).2
    have h4 : rv (x * x + y * y) ≤ 4 := by
      by_contra hlt
      rw [not_le, ← four.2, ← gt_iff hfs four.1] at hlt
      rw [hlt] at hj
      exact Bool.noConfusion hj
    have hcl := sumsq_close hfs
    have nX := mul_self_nonneg (rv x)
    have nY := mul_self_nonneg (rv y)
    have hM : rv x * rv x + rv y * rv y ≤ 4.001 := by
      rw [abs_le, ε_def] at hcl
      linarith
    have hXY : |rv x * rv y| ≤ 2.001 := abs_le.2 ⟨by nlinarith [mul_self_nonneg (rv x + rv y)], by nlinarith [mul_self_nonneg (rv x - rv y)]⟩
    have big : (10000 : ℝ) < 10 ^ 30 := by norm_num
    have fxx := (fin_add hfs).1
    have fyy := (fin_add hfs).2
    have fxy := mul_fin f1 f2 (by linarith)
    have e5 := mul_err fxx
    have e6 := mul_err fyy
    have e7 := mul_err fxy
    rw [abs_of_nonneg (mul_self_nonneg (rv x))] at e5
    rw [abs_of_nonneg (mul_self_nonneg (rv y))] at e6
    have hε : ε * |rv x * rv y| ≤ 0.0001 := by rw [ε_def]; linarith
    have b5 : |rv (x * x) - rv (y * y)| ≤ 4.1 := by
      rw [ε_def, abs_le] at e5 e6
      rw [abs_le]
      constructor <;> linarith
    have b7 : |rv (x * y)| ≤ 2.01 := by
      have := abs_sub_abs_le_abs_sub (rv (x * y)) (rv x * rv y)
      rw [ε_def] at e7
      linarith
    have fd := sub_fin fxx fyy (by linarith)
    have fe := add_fin fxy fxy (by rw [← two_mul, abs_mul, abs_two]; linarith)
    have e3 := sub_err fd
    have e4 := add_err fe
    have b3 : |rv (x * x - y * y)| ≤ 4.2 := by
      have := abs_sub_abs_le_abs_sub (rv (x * x - y * y)) (rv (x * x) - rv (y * y))
      rw [ε_def] at e3
      linarith
    have b4 : |rv (x * y + x * y)| ≤ 4.2 := by
      have := abs_sub_abs_le_abs_sub (rv (x * y + x * y)) (rv (x * y) + rv (x * y))
      have h2 : |rv (x * y) + rv (x * y)| ≤ 4.1 := by rw [← two_mul, abs_mul, abs_two]; linarith
      rw [ε_def] at e4
      linarith
    have t1 := abs_add_le (rv cx) (rv (x * x - y * y))
    have t2 := abs_add_le (rv cy) (rv (x * y + x * y))
    have fn := add_fin fx fd (by linarith)
    have fp := add_fin fy fe (by linarith)
    refine ⟨⟨fn, fp⟩, ?_, ?_⟩
    · have e1 := add_err fn
      have := abs_sub_abs_le_abs_sub (rv (cx + (x * x - y * y))) (rv cx + rv (x * x - y * y))
      rw [ε_def] at e1
      linarith
    · have e1 := add_err fp
      have := abs_sub_abs_le_abs_sub (rv (cy + (x * y + x * y))) (rv cy + rv (x * y + x * y))
      rw [ε_def] at e1
      linarith

/-! ### Starting points outside the circle, and infinite ones -/

/-- Away from NaN the two comparisons are opposite. -/
theorem gt_eq_not_le' {s : F64} (h : valueOf 52 s.bits ≠ .nan) : F64.gt s (F64.ofInt 4) = !F64.le s (F64.ofInt 4) := by
  unfold F64.gt F64.le
  rw [ogt_iff fmt, ole_iff fmt, (show valueOf 52 (F64.ofInt 4).bits = .num (4 * 2 ^ 1074) by decide +kernel)]
  rcases hv : valueOf 52 s.bits with _ | p | z
  · exact absurd hv h
  · rcases p with _ | _ <;> rfl
  · generalize (4 * 2 ^ 1074 : ℤ) = k
    simp only [FVal.cmp]
    rcases compare z k with _ | _ | _ <;> rfl

theorem sq_not_nan {a : F64} (h : valueOf 52 a.bits ≠ .nan) : valueOf 52 (a * a).bits ≠ .nan := by
  have hr := mul_rounds fmt a.bits a.bits
  change RoundsTo 52 _ (a * a).bits at hr
  unfold exactMul at hr
  rcases hx : valueOf 52 a.bits with _ | p | x <;> rw [hx] at hr <;> dsimp only at hr
  · exact absurd hx h
  · intro h'; exact absurd (h'.symm.trans hr) (by simp)
  · intro h'
    have h2 := rounds_real fmt hr rfl
    have hnf : ¬IsFinite 52 (a * a).bits := by rintro ⟨z, hz⟩; exact absurd (h'.symm.trans hz) (by simp)
    exact absurd (h'.symm.trans (h2.2.2.2 hnf)) (by simp)

/-! NaN propagates. -/
theorem add_nan {a b : F64} (h : valueOf 52 a.bits = .nan ∨ valueOf 52 b.bits = .nan) : valueOf 52 (a + b).bits = .nan := by
  have hr := add_rounds fmt a.bits b.bits
  change RoundsTo 52 _ (a + b).bits at hr
  unfold exactAdd at hr
  rcases h with h | h
  · rw [h] at hr; exact hr
  · rw [h] at hr
    rcases hv : valueOf 52 a.bits with _ | _ | _ <;> rw [hv] at hr <;> exact hr

theorem mul_nan {a b : F64} (h : valueOf 52 a.bits = .nan ∨ valueOf 52 b.bits = .nan) : valueOf 52 (a * b).bits = .nan := by
  have hr := mul_rounds fmt a.bits b.bits
  change RoundsTo 52 _ (a * b).bits at hr
  unfold exactMul at hr
  rcases h with h | h
  · rw [h] at hr; exact hr
  · rw [h] at hr
    rcases hv : valueOf 52 a.bits with _ | _ | _ <;> rw [hv] at hr <;> exact hr

theorem nan_incomparable {s : F64} (h : valueOf 52 s.bits = .nan) : F64.gt s (F64.ofInt 4) = false ∧ F64.le s (F64.ofInt 4) = false := by
  unfold F64.gt F64.le
  rw [ogt_iff fmt, ole_iff fmt, h]
  exact ⟨rfl, rfl⟩

theorem orbit_nan {x y : F64} (h : valueOf 52 x.bits = .nan ∨ valueOf 52 y.bits = .nan) (j : ℕ) : valueOf 52 (orbitNorm (x, y) j).bits = .nan := by
  have h1 : valueOf 52 (orbit (x, y) j).1.bits = .nan ∨ valueOf 52 (orbit (x, y) j).2.bits = .nan := by
    rcases j with _ | j
    · exact h
    · exact h.imp (fun h => add_nan (.inl h)) (fun h => add_nan (.inl h))
  exact add_nan (h1.imp (fun h => mul_nan (.inl h)) (fun h => mul_nan (.inl h)))

theorem sumsq_not_nan {a b : F64} (h1 : valueOf 52 a.bits ≠ .nan) (h2 : valueOf 52 b.bits ≠ .nan) : valueOf 52 (a * a + b * b).bits ≠ .nan := by
  have hr := add_rounds fmt (a * a).bits (b * b).bits
  change RoundsTo 52 _ (a * a + b * b).bits at hr
  have ha := sq_not_neg_inf a
  have hb := sq_not_neg_inf b
  have ha' := sq_not_nan h1
  have hb' := sq_not_nan h2
  intro h
  by_cases hfin : Fin' (a * a) ∧ Fin' (b * b)
  · obtain ⟨p, hp, -⟩ := (flt_add fmt hfin.1 hfin.2).2.2 (by
      rintro ⟨z, hz⟩; exact absurd (h.symm.trans hz) (by simp))
    exact absurd (h.symm.trans hp) (by simp)
  · unfold exactAdd at hr
    rcases hx : valueOf 52 (a * a).bits with _ | p | x
    · exact ha' hx
    · rcases p with _ | _
      · rcases hy : valueOf 52 (b * b).bits with _ | q | y <;> rw [hx, hy] at hr <;> dsimp only at hr
        · exact hb' hy
        · rcases q with _ | _
          · exact absurd (h.symm.trans hr) (by simp)
          · exact hb hy
        · exact absurd (h.symm.trans hr) (by simp)
      · exact ha hx
    · rcases hy : valueOf 52 (b * b).bits with _ | q | y <;> rw [hx, hy] at hr <;> dsimp only at hr
      · exact hb' hy
      · exact absurd (h.symm.trans hr) (by simp)
      · exact hfin ⟨⟨x, hx⟩, ⟨y, hy⟩⟩

/-- Outside the circle the modulus grows. -/
theorem grow_real {X Y d e u v : ℝ} (hM : 4.009 ≤ X * X + Y * Y)
    (hd : |d - (X * X - Y * Y)| ≤ 1 / 10 ^ 10 * (X * X + Y * Y)) (he : |e - 2 * (X * Y)| ≤ 1 / 10 ^ 10 * (X * X + Y * Y))
    (hc : u * u + v * v ≤ 1.0001 * (X * X + Y * Y)) : 1.001 * (X * X + Y * Y) ≤ (u + d) * (u + d) + (v + e) * (v + e) := by
  obtain ⟨A, hA⟩ : ∃ A, A = X * X - Y * Y := ⟨_, rfl⟩
  obtain ⟨B, hB⟩ : ∃ B, B = 2 * (X * Y) := ⟨_, rfl⟩
  obtain ⟨M, hMd⟩ : ∃ M, M = X * X + Y * Y := ⟨_, rfl⟩
  have hAB : A * A + B * B = M * M := by rw [hA, hB, hMd]; ring
  rw [← hA, ← hMd] at hd
  rw [← hB, ← hMd] at he
  rw [← hMd] at hM hc ⊢
  clear hA hB hMd
  have hM0 : 0 ≤ M := by linarith
  have hA1 : |A| ≤ M := abs_le_of_sq_le_sq (by nlinarith) hM0
  have hB1 : |B| ≤ M := abs_le_of_sq_le_sq (by nlinarith) hM0
  have k1 : A * A - 2 / 10 ^ 10 * (M * M) ≤ d * d := by
    have h1 : |A * (d - A)| ≤ M * (1 / 10 ^ 10 * M) := by
      rw [abs_mul]
      exact mul_le_mul hA1 hd (abs_nonneg _) hM0
    have h2 := (abs_le.1 h1).1
    nlinarith [mul_self_nonneg (d - A)]
  have k2 : B * B - 2 / 10 ^ 10 * (M * M) ≤ e * e := by
    have h1 : |B * (e - B)| ≤ M * (1 / 10 ^ 10 * M) := by
      rw [abs_mul]
      exact mul_le_mul hB1 he (abs_nonneg _) hM0
    have h2 := (abs_le.1 h1).1
    nlinarith [mul_self_nonneg (e - B)]
  have hMM : 4.009 * M ≤ M * M := mul_le_mul_of_nonneg_right hM hM0
  have s1 := mul_self_nonneg (d + 2 * u)
  have s2 := mul_self_nonneg (e + 2 * v)
  -- (d + u)² ≥ d²/2 - u²
  nlinarith

/-- Errors of one step, relative to `|z|²`. -/
theorem step_err {cx cy x y : F64} (fnx : Fin' (cx + (x * x - y * y))) (fny : Fin' (cy + (x * y + x * y))) (hM : 1 ≤ rv x * rv x + rv y * rv y) :
    |rv (x * x - y * y) - (rv x * rv x - rv y * rv y)| ≤ 1 / 10 ^ 10 * (rv x * rv x + rv y * rv y) ∧
    |rv (x * y + x * y) - 2 * (rv x * rv y)| ≤ 1 / 10 ^ 10 * (rv x * rv x + rv y * rv y) ∧
    |rv cx + rv (x * x - y * y)| ≤ (1 + 1 / 10 ^ 10) * |rv (cx + (x * x - y * y))| ∧
    |rv cy + rv (x * y + x * y)| ≤ (1 + 1 / 10 ^ 10) * |rv (cy + (x * y + x * y))| := by
  have fd := (fin_add fnx).2
  have fe := (fin_add fny).2
  have fxx := (fin_sub fd).1
  have fyy := (fin_sub fd).2
  have fxy := (fin_add fe).1
  have e1 := add_err fnx
  have e2 := add_err fny
  have e3 := sub_err fd
  have e4 := add_err fe
  have e5 := mul_err fxx
  have e6 := mul_err fyy
  have e7 := mul_err fxy
  have n5 := sq_nonneg fxx
  have n6 := sq_nonneg fyy
  rw [abs_of_nonneg (mul_self_nonneg (rv x))] at e5
  rw [abs_of_nonneg (mul_self_nonneg (rv y))] at e6
  generalize rv (cx + (x * x - y * y)) = N at *
  generalize rv (cy + (x * y + x * y)) = P at *
  generalize rv (x * x - y * y) = d at *
  generalize rv (x * y + x * y) = e at *
  generalize rv (x * x) = p at *
  generalize rv (y * y) = q at *
  generalize rv (x * y) = s at *
  generalize rv cx = u at *
  generalize rv cy = v at *
  generalize rv x = X at *
  generalize rv y = Y at *
  clear fnx fny fd fe fxx fyy fxy
  have nX := mul_self_nonneg X
  have nY := mul_self_nonneg Y
  refine ⟨?_, ?_, ?_, ?_⟩
  · have hpq : |p - q| ≤ p + q := abs_le.2 ⟨by linarith, by linarith⟩
    have h3 : |d - (p - q)| ≤ ε * (p + q) := e3.trans (mul_le_mul_of_nonneg_left hpq (by rw [ε_def]; norm_num))
    rw [abs_le] at *
    rw [ε_def] at *
    constructor <;> linarith
  · have hXY : |X * Y| ≤ X * X + Y * Y := abs_le.2 ⟨by nlinarith [mul_self_nonneg (X + Y)], by nlinarith [mul_self_nonneg (X - Y)]⟩
    have h7 : |s - X * Y| ≤ ε * (X * X + Y * Y) + ε := e7.trans (by
      have := mul_le_mul_of_nonneg_left hXY (show 0 ≤ ε by rw [ε_def]; norm_num)
      linarith)
    have hs : |s| ≤ 2 * (X * X + Y * Y) := by
      have := abs_sub_abs_le_abs_sub s (X * Y)
      rw [ε_def] at h7
      linarith
    have h4 : |e - (s + s)| ≤ ε * (4 * (X * X + Y * Y)) := e4.trans (mul_le_mul_of_nonneg_left (by
      rw [← two_mul, abs_mul, abs_two]; linarith) (by rw [ε_def]; norm_num))
    rw [abs_le] at h4 h7 ⊢
    rw [ε_def] at *
    constructor <;> linarith
  · have := abs_sub_abs_le_abs_sub (u + d) N
    rw [abs_sub_comm] at this
    have h0 := abs_nonneg (u + d)
    have h1 := abs_nonneg N
    rw [ε_def] at e1
    linarith
  · have := abs_sub_abs_le_abs_sub (v + e) P
    rw [abs_sub_comm] at this
    have h0 := abs_nonneg (v + e)
    have h1 := abs_nonneg P
    rw [ε_def] at e2
    linarith

theorem scaled_sq {a b k : ℝ} (h : |a| ≤ k * |b|) : a * a ≤ k ^ 2 * (b * b) := by
  have h1 := mul_self_le_mul_self (abs_nonneg _) h
  rw [abs_mul_abs_self] at h1
  rw [← abs_mul_abs_self b]
  linarith [show k * |b| * (k * |b|) = k ^ 2 * (|b| * |b|) by ring]

/-- The orbit of a point outside the circle: as long as it is finite its modulus is not below that of the point. -/
theorem orbit_outside {cx cy : F64} (hc : 4.01 ≤ rv cx * rv cx + rv cy * rv cy) (j : ℕ) (f1 : Fin' (orbit (cx, cy) j).1) (f2 : Fin' (orbit (cx, cy) j).2) :
    rv cx * rv cx + rv cy * rv cy ≤ rv (orbit (cx, cy) j).1 * rv (orbit (cx, cy) j).1 + rv (orbit (cx, cy) j).2 * rv (orbit (cx, cy) j).2 := by
  induction j with
  | zero => exact le_refl _
  | succ j ih =>
    change Fin' (cx + ((orbit (cx, cy) j).1 * (orbit (cx, cy) j).1 - (orbit (cx, cy) j).2 * (orbit (cx, cy) j).2)) at f1
    change Fin' (cy + ((orbit (cx, cy) j).1 * (orbit (cx, cy) j).2 + (orbit (cx, cy) j).1 * (orbit (cx, cy) j).2)) at f2
    show _ ≤ rv (cx + ((orbit (cx, cy) j).1 * (orbit (cx, cy) j).1 - (orbit (cx, cy) j).2 * (orbit (cx, cy) j).2)) *
      rv (cx + ((orbit (cx, cy) j).1 * (orbit (cx, cy) j).1 - (orbit (cx, cy) j).2 * (orbit (cx, cy) j).2)) +
      rv (cy + ((orbit (cx, cy) j).1 * (orbit (cx, cy) j).2 + (orbit (cx, cy) j).1 * (orbit (cx, cy) j).2)) *
      rv (cy + ((orbit (cx, cy) j).1 * (orbit (cx, cy) j).2 + (orbit (cx, cy) j).1 * (orbit (cx, cy) j).2))
    generalize (orbit (cx, cy) j).1 = x at *
    generalize (orbit (cx, cy) j).2 = y at *
    have ih := ih (fin_mul (fin_sub (fin_add f1).2).1).1 (fin_mul (fin_sub (fin_add f1).2).2).1
    obtain ⟨h1, h2, h3, h4⟩ := step_err f1 f2 (by linarith)
    have hg := grow_real (u := rv cx) (v := rv cy) (by linarith) h1 h2 (by linarith)
    have q3 := scaled_sq h3
    have q4 := scaled_sq h4
    have n1 := mul_self_nonneg (rv (cx + (x * x - y * y)))
    have n2 := mul_self_nonneg (rv (cy + (x * y + x * y)))
    nlinarith

/-- Points outside the circle and infinite points are never bounded. -/
theorem never_bounded {cx cy : F64} (h : Fin' cx → Fin' cy → 4.01 ≤ rv cx * rv cx + rv cy * rv cy) (j : ℕ) :
    F64.le (orbitNorm (cx, cy) j) (F64.ofInt 4) = false := by
  rw [← Bool.not_eq_true]
  intro hb
  unfold orbitNorm at hb
  obtain ⟨hf, hle⟩ := (bounded_iff _ _).1 hb
  have f1 := (fin_mul (fin_add hf).1).1
  have f2 := (fin_mul (fin_add hf).2).1
  have fc : Fin' cx ∧ Fin' cy := by
    rcases j with _ | j
    · exact ⟨f1, f2⟩
    · exact ⟨(fin_add f1).1, (fin_add f2).1⟩
  have hc := h fc.1 fc.2
  have := orbit_outside hc j f1 f2
  have hcl := sumsq_close hf
  rw [abs_le, ε_def] at hcl
  linarith

/-! ### The points of a grid over an interval of length 2 -/

theorem two : Fin' (F64.ofInt 2) ∧ rv (F64.ofInt 2) = 2 := by
  have h : valueOf 52 (F64.ofInt 2).bits = .num (2 * 2 ^ 1074) := by decide +kernel
  refine ⟨⟨_, h⟩, ?_⟩
  unfold rv
  rw [realVal_num h, show low 64 52 = 1074 by decide]
  push_cast
  field_simp

theorem grid_point {s : F64} (hs : Fin' s) (bs : |rv s| ≤ 2) {n i : ℕ} (hn : n < 2 ^ 64) (hi : i < n) :
    Fin' (s + F64.ofInt 2 / F64.ofInt n * F64.ofInt i) ∧
      rv s - 0.001 ≤ rv (s + F64.ofInt 2 / F64.ofInt n * F64.ofInt i) ∧ rv (s + F64.ofInt 2 / F64.ofInt n * F64.ofInt i) ≤ rv s + 2.001 := by
  have hn' : (n : ℝ) < 2 ^ 64 := by
    have h := (Nat.cast_lt (α := ℝ)).2 hn
    rwa [Nat.cast_pow, Nat.cast_ofNat] at h
  have hi' : (i : ℝ) + 1 ≤ n := by exact_mod_cast hi
  have i0 : (0 : ℝ) ≤ i := Nat.cast_nonneg i
  have n0 : (0 : ℝ) ≤ n := Nat.cast_nonneg n
  have b64 : (2 : ℝ) ^ 64 ≤ 10 ^ 20 := by norm_num
  have big : (10 : ℝ) ^ 21 < 10 ^ 30 := by norm_num
  obtain ⟨fn, en⟩ := ofInt_fin (z := (n : ℤ)) (by rw [Int.cast_natCast, abs_of_nonneg n0]; linarith)
  obtain ⟨fi, ei⟩ := ofInt_fin (z := (i : ℤ)) (by rw [Int.cast_natCast, abs_of_nonneg i0]; linarith)
  rw [Int.cast_natCast, abs_of_nonneg n0] at en
  rw [Int.cast_natCast, abs_of_nonneg i0] at ei
  have hεn : ε * n ≤ 0.00001 * n := mul_le_mul_of_nonneg_right (by rw [ε_def]; norm_num) n0
  have hεi : ε * i ≤ 0.00001 * i := mul_le_mul_of_nonneg_right (by rw [ε_def]; norm_num) i0
  rw [abs_le] at en ei
  have n1 : 0.99999 * n ≤ rv (F64.ofInt n) := by linarith
  have n2 : rv (F64.ofInt n) ≤ 1.00001 * n := by linarith
  have i1 : 0 ≤ rv (F64.ofInt i) := by linarith
  have i2 : rv (F64.ofInt i) ≤ 1.00001 * n := by linarith
  have npos : 0 < rv (F64.ofInt n) := by linarith
  generalize F64.ofInt n = N at *
  generalize F64.ofInt i = I at *
  have hq0 : 0 ≤ 2 / rv N := by positivity
  have hq : 2 / rv N ≤ 2.0001 / n := by
    rw [div_le_div_iff₀ npos (by linarith)]
    linarith
  have hq2 : 2.0001 / (n : ℝ) ≤ 2.0001 := div_le_self (by norm_num) (by linarith)
  obtain ⟨fd, ed⟩ := div_fin' two.1 fn (ne_of_gt npos) (by rw [two.2, abs_of_nonneg hq0]; linarith)
  rw [two.2, abs_of_nonneg hq0, abs_le] at ed
  -- one part in 10^60 is small against 2 / n
  have hsmall : (1 : ℝ) / 10 ^ 60 ≤ 0.0001 / n := by
    rw [div_le_div_iff₀ (by positivity) (by linarith)]
    have : (10 : ℝ) ^ 21 ≤ 0.0001 * 10 ^ 60 := by norm_num
    linarith
  have hεq : ε * (2 / rv N) ≤ 0.00001 * (2 / rv N) := mul_le_mul_of_nonneg_right (by rw [ε_def]; norm_num) hq0
  have e1 : (0.0001 : ℝ) / n = 0.0001 * (1 / n) := by ring
  have e2 : (2.0001 : ℝ) / n = 2.0001 * (1 / n) := by ring
  have inv0 : (0 : ℝ) ≤ 1 / n := div_nonneg zero_le_one n0
  have d1 : -(0.0001 * (1 / (n : ℝ))) ≤ rv (F64.ofInt 2 / N) := by linarith
  have d2 : rv (F64.ofInt 2 / N) ≤ 2.0003 * (1 / (n : ℝ)) := by
    linarith
  clear ed
  obtain ⟨D, hD⟩ : ∃ D, D = F64.ofInt 2 / N := ⟨_, rfl⟩
  rw [← hD] at fd d1 d2 ⊢
  have hinv : 1 / (n : ℝ) * n = 1 := by
    have : (n : ℝ) ≠ 0 := by linarith
    field_simp
  have hp1 : -0.0002 ≤ rv D * rv I := by
    have h1 := mul_le_mul_of_nonneg_right d1 i1
    have h2 : 0.0001 * (1 / (n : ℝ)) * rv I ≤ 0.0001 * (1 / (n : ℝ)) * (1.00001 * n) := mul_le_mul_of_nonneg_left i2 (mul_nonneg (by norm_num) inv0)
    have h3 : 0.0001 * (1 / (n : ℝ)) * (1.00001 * n) = 0.0001 * 1.00001 * (1 / n * n) := by ring
    rw [h3, hinv] at h2
    linarith
  have hp2 : rv D * rv I ≤ 2.0004 := by
    have h1 := mul_le_mul_of_nonneg_right d2 i1
    have h2 : 2.0003 * (1 / (n : ℝ)) * rv I ≤ 2.0003 * (1 / (n : ℝ)) * (1.00001 * n) := mul_le_mul_of_nonneg_left i2 (mul_nonneg (by norm_num) inv0)
    have h3 : 2.0003 * (1 / (n : ℝ)) * (1.00001 * n) = 2.0003 * 1.00001 * (1 / n * n) := by ring
    rw [h3, hinv] at h2
    linarith
  have hpa : |rv D * rv I| ≤ 3 := abs_le.2 ⟨by linarith, by linarith⟩
  have fp := mul_fin fd fi (by linarith)
  have ep := mul_err fp
  have hε3 : ε * |rv D * rv I| + ε ≤ 0.00001 := by rw [ε_def]; linarith
  have ep := abs_le.1 (ep.trans hε3)
  generalize D * I = P at *
  have bs' := abs_le.1 bs
  have hsp : |rv s + rv P| ≤ 5 := abs_le.2 ⟨by linarith, by linarith⟩
  have fs := add_fin hs fp (by linarith)
  have es := add_err fs
  have hε5 : ε * |rv s + rv P| ≤ 0.00001 := by rw [ε_def]; linarith
  have es := abs_le.1 (es.trans hε5)
  exact ⟨fs, by linarith, by linarith⟩

/-- The points of a grid over any interval of moderate numbers are finite. -/
theorem region_point {s e : F64} (hs : Fin' s) (he : Fin' e) (bs : |rv s| ≤ 10 ^ 9) (be : |rv e| ≤ 10 ^ 9) {n i : ℕ} (hn : n < 2 ^ 64) (hi : i < n) :
    Fin' (s + (e - s) / F64.ofInt n * F64.ofInt i) := by
  have hn' : (n : ℝ) < 2 ^ 64 := by
    have h := (Nat.cast_lt (α := ℝ)).2 hn
    rwa [Nat.cast_pow, Nat.cast_ofNat] at h
  have hi' : (i : ℝ) + 1 ≤ n := by exact_mod_cast hi
  have i0 : (0 : ℝ) ≤ i := Nat.cast_nonneg i
  have n0 : (0 : ℝ) ≤ n := Nat.cast_nonneg n
  have b64 : (2 : ℝ) ^ 64 ≤ 10 ^ 19 * 2 := by norm_num
  have big : (10 : ℝ) ^ 21 < 10 ^ 30 := by norm_num
  have hε : ε = 1 / 10 ^ 15 := rfl
  obtain ⟨fn, en⟩ := ofInt_fin (z := (n : ℤ)) (by rw [Int.cast_natCast, abs_of_nonneg n0]; linarith)
  obtain ⟨fi, ei⟩ := ofInt_fin (z := (i : ℤ)) (by rw [Int.cast_natCast, abs_of_nonneg i0]; linarith)
  rw [Int.cast_natCast, abs_of_nonneg n0, hε, abs_le] at en
  rw [Int.cast_natCast, abs_of_nonneg i0, hε, abs_le] at ei
  have n1 : 1 / 2 ≤ rv (F64.ofInt n) := by linarith
  have i2 : |rv (F64.ofInt i)| ≤ 10 ^ 20 := by rw [abs_le]; constructor <;> linarith
  have t1 := abs_sub (rv e) (rv s)
  have fd := sub_fin he hs (by linarith)
  have ed := sub_err fd
  have t2 := abs_sub_abs_le_abs_sub (rv (e - s)) (rv e - rv s)
  rw [hε] at ed
  have bd : |rv (e - s)| ≤ 3 * 10 ^ 9 := by linarith
  have hq : |rv (e - s) / rv (F64.ofInt n)| ≤ 6 * 10 ^ 9 := by
    rw [abs_div, abs_of_pos (by linarith : 0 < rv (F64.ofInt n)), div_le_iff₀ (by linarith)]
    linarith
  obtain ⟨fq, eq⟩ := div_fin fd fn (by linarith) (by linarith)
  have t3 := abs_sub_abs_le_abs_sub (rv ((e - s) / F64.ofInt n)) (rv (e - s) / rv (F64.ofInt n))
  rw [hε] at eq
  have bq : |rv ((e - s) / F64.ofInt n)| ≤ 7 * 10 ^ 9 := by linarith
  have hm : |rv ((e - s) / F64.ofInt n) * rv (F64.ofInt i)| ≤ 7 * 10 ^ 9 * 10 ^ 20 := by
    rw [abs_mul]
    exact mul_le_mul bq i2 (abs_nonneg _) (by norm_num)
  have fm := mul_fin fq fi (by linarith)
  have em := mul_err fm
  have t4 := abs_sub_abs_le_abs_sub (rv ((e - s) / F64.ofInt n * F64.ofInt i)) (rv ((e - s) / F64.ofInt n) * rv (F64.ofInt i))
  rw [hε] at em
  have t5 := abs_add_le (rv s) (rv ((e - s) / F64.ofInt n * F64.ofInt i))
  exact add_fin hs fm (by linarith)

end PackedSimd.F64R
