import Verif.Lemmas.MandelReal
import Verif.Lemmas.MandelBall
import Verif.Props.MandelFloat
/-
C123: the counts of the Mandelbrot example and the Mandelbrot set.
-/
namespace PackedSimd.Props
open PackedSimd Spec Intr Ex Ex.Mandel F64R Filter

/-! ## Exact arithmetic -/

/-- C123: computed exactly, a point is in the set if and only if its count is the limit, whatever the limit. -/
theorem C123_exact (x y : ℝ) : (⟨x, y⟩ : ℂ) ∈ MandelbrotSet ↔ ∀ limit, countScalar (fun a b => decide (a > b)) 4 limit ⟨x, y⟩ = limit := by
  have hc := fun limit => C53_scalar (fun a b : ℝ => decide (a > b)) 4 limit x y
  simp only [decide_eq_true_eq, gt_iff_lt] at hc
  rw [mem_iff_norm]
  constructor
  · intro h limit
    by_contra hne
    exact absurd (h _) (not_le.2 ((hc limit).2.2 (lt_of_le_of_ne (hc limit).1 hne)))
  · intro h n
    have := (hc (n + 1)).2.1 n (by simp only [gt_iff_lt] at h; rw [h]; omega)
    exact not_lt.1 this

/-- C123: computed exactly, a point whose count is below the limit runs off to infinity. -/
theorem C123_escapes (x y : ℝ) (limit : ℕ) (h : countScalar (fun a b => decide (a > b)) 4 limit ⟨x, y⟩ < limit) :
    (⟨x, y⟩ : ℂ) ∉ MandelbrotSet ∧ Tendsto (fun n => ‖trueOrbit ⟨x, y⟩ n‖) atTop atTop := by
  have hc := C53_scalar (fun a b : ℝ => decide (a > b)) 4 limit x y
  simp only [decide_eq_true_eq, gt_iff_lt] at hc h
  exact ⟨fun hm => absurd ((mem_iff_norm x y).1 hm _) (not_le.2 (hc.2.2 h)), escapes x y (hc.2.2 h)⟩

/-- C123: the same for the lanes of the vector program: a lane stops short of the limit only outside the set, and outside the set every large
enough limit is not reached. -/
theorem C123_exact_lanes (t : Target) (ht : t.Supported) (ty : MaskTy) (xs ys : Vec ℝ ty.lanes) :
    ∃ L, ∀ limit, limit < 2 ^ 32 → ∃ r, countSimd t ty (fun a b => decide (a ≤ b)) 4 limit ⟨xs, ys⟩ = .ok r ∧ ∀ l : Fin ty.lanes,
      ((⟨xs[l], ys[l]⟩ : ℂ) ∈ MandelbrotSet → r[l].toNat = limit) ∧ ((⟨xs[l], ys[l]⟩ : ℂ) ∉ MandelbrotSet → L ≤ limit → r[l].toNat < limit) := by
  have hex : ∀ l : Fin ty.lanes, ∃ L, (⟨xs[l], ys[l]⟩ : ℂ) ∉ MandelbrotSet → ∃ n, n < L ∧ 4 < orbitNorm (xs[l], ys[l]) n := by
    intro l
    by_cases hm : (⟨xs[l], ys[l]⟩ : ℂ) ∈ MandelbrotSet
    · exact ⟨0, fun h => absurd hm h⟩
    · rw [mem_iff_norm, not_forall] at hm
      obtain ⟨n, hn⟩ := hm
      exact ⟨n + 1, fun _ => ⟨n, by omega, not_le.1 hn⟩⟩
  choose F hF using hex
  refine ⟨Finset.univ.sup F, fun limit hl => ?_⟩
  obtain ⟨r, hr, h⟩ := C53_exact t ht ty limit hl xs ys
  refine ⟨r, hr, fun l => ⟨fun hm => ?_, fun hm hL => ?_⟩⟩
  · obtain ⟨-, h1, h2, h3⟩ := h l
    by_contra hne
    exact absurd ((mem_iff_norm _ _).1 hm _) (not_le.2 (h3 (lt_of_le_of_ne h1 hne)))
  · obtain ⟨-, h1, h2, h3⟩ := h l
    obtain ⟨n, hn, h4⟩ := hF l hm
    have : F l ≤ limit := (Finset.le_sup (Finset.mem_univ l)).trans hL
    refine lt_of_le_of_ne h1 fun he => ?_
    exact h2 n (by omega) h4

example : (⟨-1, 0⟩ : ℂ) ∈ MandelbrotSet := by
  rw [mem_iff_norm]
  have : ∀ n, orbit ((-1 : ℝ), (0 : ℝ)) n = (-1, 0) ∨ orbit ((-1 : ℝ), (0 : ℝ)) n = (0, 0) := by
    intro n
    induction n with
    | zero => exact .inl rfl
    | succ n ih =>
      rcases ih with h | h
      · right; unfold orbit; rw [h]; norm_num
      · left; unfold orbit; rw [h]; norm_num
  intro n
  unfold orbitNorm
  rcases this n with h | h <;> rw [h] <;> norm_num

/-! ## In `f64` -/

/-- C123: in `f64`, the count is that of the true orbit, whatever happens later, if up to the step at which it leaves the circle of radius 2 the true
orbit keeps a distance from the circle greater than `drift`.

Missing: points whose orbits come closer to the circle, for which the claim that only points outside the set stop short of the limit is false
(`C123_f64_fails`). -/
theorem C123_f64_partial (cx cy : F64) (fx : IsFinite 52 cx.bits) (fy : IsFinite 52 cy.bits) (limit k : ℕ) (hk : k ≤ limit)
    (hin : ∀ j, j < k → ‖trueOrbit ⟨realVal 52 cx.bits, realVal 52 cy.bits⟩ j‖ + drift ⟨realVal 52 cx.bits, realVal 52 cy.bits⟩ j ≤ 2 - 1 / 2 ^ 48)
    (hout : k < limit →
      2 + 1 / 2 ^ 48 ≤ ‖trueOrbit ⟨realVal 52 cx.bits, realVal 52 cy.bits⟩ k‖ - drift ⟨realVal 52 cx.bits, realVal 52 cy.bits⟩ k) :
    countScalar F64.gt (F64.ofInt 4) limit ⟨cx, cy⟩ = k := by
  change ∀ j, j < k → ‖trueOrbit (pt (cx, cy)) j‖ + drift (pt (cx, cy)) j ≤ _ at hin
  change k < limit → _ ≤ ‖trueOrbit (pt (cx, cy)) k‖ - drift (pt (cx, cy)) k at hout
  have hp : (0 : ℝ) < 1 / 2 ^ 48 := by norm_num
  have hd : ∀ j, j ≤ k → _ := fun j hj => orbit_drift fx fy j fun i hi => by linarith [hin i (by omega)]
  refine EscapeCount.unique (C53_scalar F64.gt (F64.ofInt 4) limit cx cy) ⟨hk, fun j hj => ?_, fun h => ?_⟩
  · obtain ⟨⟨f1, f2⟩, h⟩ := hd j (by omega)
    rw [Bool.not_eq_true]
    refine inside_false f1 f2 ?_
    have := norm_add_le (pt (orbit (cx, cy) j) - trueOrbit (pt (cx, cy)) j) (trueOrbit (pt (cx, cy)) j)
    rw [sub_add_cancel] at this
    exact this.trans (by linarith [hin j hj])
  · obtain ⟨⟨f1, f2⟩, h'⟩ := hd k le_rfl
    refine outside_true f1 f2 ?_
    have := norm_sub_le (pt (orbit (cx, cy) k)) (pt (orbit (cx, cy) k) - trueOrbit (pt (cx, cy)) k)
    rw [sub_sub_cancel] at this
    show _ ≤ ‖pt (orbit (cx, cy) k)‖
    linarith [hout h]

/-- C123: the same with an explicit margin, `4^j 2^-48` at step `j`. -/
theorem C123_f64_margin (cx cy : F64) (fx : IsFinite 52 cx.bits) (fy : IsFinite 52 cy.bits) (limit k : ℕ) (hk : k ≤ limit)
    (hin : ∀ j, j < k → ‖trueOrbit ⟨realVal 52 cx.bits, realVal 52 cy.bits⟩ j‖ ≤ 2 - 4 ^ j / 2 ^ 48)
    (hout : k < limit → 2 + 4 ^ k / 2 ^ 48 ≤ ‖trueOrbit ⟨realVal 52 cx.bits, realVal 52 cy.bits⟩ k‖) :
    countScalar F64.gt (F64.ofInt 4) limit ⟨cx, cy⟩ = k := by
  generalize hc : (⟨realVal 52 cx.bits, realVal 52 cy.bits⟩ : ℂ) = c at hin hout
  have hd : ∀ j, j ≤ k → drift c j + 1 / 2 ^ 48 ≤ 4 ^ j / 2 ^ 48 := by
    intro j hj
    induction j with
    | zero => show (0 : ℝ) + _ ≤ _; norm_num
    | succ j ih =>
      have h1 := ih (by omega)
      have h2 := hin j (by omega)
      have h3 := drift_nonneg c j
      show 2 * ‖trueOrbit c j‖ * drift c j + drift c j ^ 2 + 1 / 2 ^ 48 + 1 / 2 ^ 48 ≤ _
      have h4 : 2 * ‖trueOrbit c j‖ + drift c j ≤ 4 := by
        have := norm_nonneg (trueOrbit c j)
        have : (0 : ℝ) < 1 / 2 ^ 48 := by norm_num
        linarith
      have h5 : drift c j * (2 * ‖trueOrbit c j‖ + drift c j) ≤ drift c j * 4 := mul_le_mul_of_nonneg_left h4 h3
      have h6 : (4 : ℝ) ^ (j + 1) / 2 ^ 48 = 4 * (4 ^ j / 2 ^ 48) := by ring
      rw [h6]
      nlinarith
  refine C123_f64_partial cx cy fx fy limit k hk (fun j hj => ?_) (fun h => ?_)
  · rw [hc]; linarith [hin j hj, hd j (by omega)]
  · rw [hc]; linarith [hout h, hd k le_rfl]

/-- `1 + i` goes to `1 + 3 i`: the count is 1. -/
example : countScalar F64.gt (F64.ofInt 4) 50 ⟨1, 1⟩ = 1 := by
  have h1 : valueOf 52 (1 : F64).bits = .num (2 ^ 1074) := by decide +kernel
  have e1 : realVal 52 (1 : F64).bits = 1 := by
    rw [realVal_num h1, show low 64 52 = 1074 by decide]; push_cast; exact div_self (by positivity)
  refine C123_f64_margin 1 1 ⟨_, h1⟩ ⟨_, h1⟩ 50 1 (by norm_num) (fun j hj => ?_) (fun _ => ?_)
  · obtain rfl : j = 0 := by omega
    rw [e1, trueOrbit_zero]
    have : ‖(⟨1, 1⟩ : ℂ)‖ ^ 2 = 2 := by rw [Complex.sq_norm, Complex.normSq_apply]; norm_num
    have hn := norm_nonneg (⟨1, 1⟩ : ℂ)
    have : ‖(⟨1, 1⟩ : ℂ)‖ ≤ 1.5 := by nlinarith
    exact this.trans (by norm_num)
  · rw [e1, trueOrbit_succ, trueOrbit_zero]
    have e2 : (⟨1, 1⟩ : ℂ) ^ 2 + ⟨1, 1⟩ = ⟨1, 3⟩ := by rw [sq]; apply Complex.ext <;> simp <;> norm_num
    have h3 : ‖(⟨1, 3⟩ : ℂ)‖ ^ 2 = 10 := by rw [Complex.sq_norm, Complex.normSq_apply]; norm_num
    have hn := norm_nonneg (⟨1, 3⟩ : ℂ)
    have : 3 ≤ ‖(⟨1, 3⟩ : ℂ)‖ := by nlinarith
    rw [e2]
    exact le_trans (by norm_num) this

/-- C123: every point at most 0.24 from 0, all of which are in the set, is counted to the limit, whatever the limit. -/
theorem C123_disc (cx cy : F64) (fx : IsFinite 52 cx.bits) (fy : IsFinite 52 cy.bits)
    (h : ‖(⟨realVal 52 cx.bits, realVal 52 cy.bits⟩ : ℂ)‖ ≤ 0.24) (limit : ℕ) :
    (⟨realVal 52 cx.bits, realVal 52 cy.bits⟩ : ℂ) ∈ MandelbrotSet ∧ countScalar F64.gt (F64.ofInt 4) limit ⟨cx, cy⟩ = limit := by
  generalize hc : (⟨realVal 52 cx.bits, realVal 52 cy.bits⟩ : ℂ) = c at h
  have hn : ∀ j, ‖trueOrbit c j‖ ≤ 0.4 := by
    intro j
    induction j with
    | zero => rw [trueOrbit_zero]; linarith
    | succ j ih =>
      rw [trueOrbit_succ]
      refine (norm_add_le _ _).trans ?_
      rw [norm_pow]
      nlinarith [norm_nonneg (trueOrbit c j)]
  have hd : ∀ j, drift c j ≤ 6 / 2 ^ 48 := by
    intro j
    induction j with
    | zero => show (0 : ℝ) ≤ _; norm_num
    | succ j ih =>
      have h3 := drift_nonneg c j
      show 2 * ‖trueOrbit c j‖ * drift c j + drift c j ^ 2 + 1 / 2 ^ 48 ≤ _
      have h4 : 2 * ‖trueOrbit c j‖ * drift c j ≤ 0.8 * drift c j := by nlinarith [hn j]
      have h5 : drift c j ^ 2 ≤ 0.01 * drift c j := by
        have : drift c j ≤ 0.01 := ih.trans (by norm_num)
        nlinarith
      norm_num at ih ⊢
      linarith
  refine ⟨(mem_iff c).2 ⟨0.4, hn⟩, C123_f64_partial cx cy fx fy limit limit le_rfl (fun j _ => ?_) (fun h => absurd h (lt_irrefl _))⟩
  rw [hc]
  have h1 := hn j
  have h2 := hd j
  norm_num at h1 h2 ⊢
  linarith

/-- C123: every point of the set on the real axis is counted to the limit, whatever the limit (they reach up to the circle of radius 2: see -2). -/
theorem C123_real_axis (cx cy : F64) (fx : IsFinite 52 cx.bits) (fy : IsFinite 52 cy.bits) (hy : realVal 52 cy.bits = 0)
    (h : (⟨realVal 52 cx.bits, realVal 52 cy.bits⟩ : ℂ) ∈ MandelbrotSet) (limit : ℕ) :
    countScalar F64.gt (F64.ofInt 4) limit ⟨cx, cy⟩ = limit := by
  rw [hy] at h
  obtain ⟨h1, h2⟩ := real_mem h
  refine EscapeCount.unique (C53_scalar F64.gt (F64.ofInt 4) limit cx cy) ⟨le_rfl, fun j _ => ?_, fun h => absurd h (lt_irrefl _)⟩
  rw [Bool.not_eq_true]
  exact real_bounded fx fy hy h1 h2 j

/-- C123 **fails** in `f64` for some points: this one is in the set (its orbit settles on a cycle of 24 points), but the computed orbit leaves
the circle of radius 2 after 142 steps. -/
theorem C123_f64_fails : ∃ cx cy : F64, IsFinite 52 cx.bits ∧ IsFinite 52 cy.bits ∧
    (⟨realVal 52 cx.bits, realVal 52 cy.bits⟩ : ℂ) ∈ MandelbrotSet ∧ countScalar F64.gt (F64.ofInt 4) 200 ⟨cx, cy⟩ = 142 := by
  have hx : valueOf 52 (0xbeb2e4bc2aced70d#64) = .num (-5318046403974925 * 2 ^ 1002) := by decide +kernel
  have hy : valueOf 52 (0x3feffffedcfb30e2#64) = .num (9007194372255970 * 2 ^ 1021) := by decide +kernel
  have ex : realVal 52 (0xbeb2e4bc2aced70d#64) = -5318046403974925 / 2 ^ 72 := by
    rw [realVal_num hx, show low 64 52 = 1074 by decide, show (2 : ℝ) ^ 1074 = 2 ^ 72 * 2 ^ 1002 by rw [← pow_add]]
    push_cast
    exact mul_div_mul_right _ _ (by positivity)
  have ey : realVal 52 (0x3feffffedcfb30e2#64) = 9007194372255970 / 2 ^ 53 := by
    rw [realVal_num hy, show low 64 52 = 1074 by decide, show (2 : ℝ) ^ 1074 = 2 ^ 53 * 2 ^ 1021 by rw [← pow_add]]
    push_cast
    exact mul_div_mul_right _ _ (by positivity)
  refine ⟨⟨0xbeb2e4bc2aced70d#64⟩, ⟨0x3feffffedcfb30e2#64⟩, ⟨_, hx⟩, ⟨_, hy⟩, ?_, by decide +kernel⟩
  dsimp only
  rw [ex, ey]
  refine mem_of_discs (C := (-1427552211480169204940800, 1267649913079550472708329308160)) ?_ discs 24 2785372340113435525120
    (-35611251394377923716) (-126811431675764568916) 1392686170896130478135 (by decide +kernel) (by decide) (by decide +kernel) (by decide +kernel)
    (by decide) (by decide +kernel) discs_chain
  unfold scale
  apply Complex.ext
  · simp only [Complex.mul_re, Complex.intCast_re, Complex.intCast_im]; norm_num
  · simp only [Complex.mul_im, Complex.intCast_re, Complex.intCast_im]; norm_num

theorem gridPoint_finite {w h i j : ℕ} (hw : w < 2 ^ 64) (hh : h < 2 ^ 64) (hi : i < h) (hj : j < w) :
    IsFinite 52 (gridPoint w h i j).1.bits ∧ IsFinite 52 (gridPoint w h i j).2.bits := by
  obtain ⟨⟨c1, c2⟩, c3, c4⟩ := corner
  exact ⟨(grid_point c1 (by rw [c2]; norm_num) hw hj).1, (grid_point c3 (by rw [c4]; norm_num) hh hi).1⟩

/-- C123: the pictures of the program, by either algorithm: a pixel is the true count of its point (where `gridPoint` puts it) if the true orbit keeps
the margin of `C123_f64_margin`, and 50 if the point is in the set and on the real axis, or at most 0.24 from 0. -/
theorem C123_picture (t : Target) (ht : t.Supported) (w h : ℕ) (hw : w < 2 ^ 64) (hh : h < 2 ^ 64) (alg : Algorithm) (mb : Mandelbrot)
    (hmb : generate t (w, h) alg = .ok mb) (i j : ℕ) (hi : i < h) (hj : j < w) (c : ℂ)
    (hc : c = ⟨realVal 52 (gridPoint w h i j).1.bits, realVal 52 (gridPoint w h i j).2.bits⟩) :
    (∀ k ≤ 50, (∀ n, n < k → ‖trueOrbit c n‖ ≤ 2 - 4 ^ n / 2 ^ 48) → (k < 50 → 2 + 4 ^ k / 2 ^ 48 ≤ ‖trueOrbit c k‖) →
      (mb.data.getD (w * i + j) 0).toNat = k) ∧
    (c ∈ MandelbrotSet → c.im = 0 → (mb.data.getD (w * i + j) 0).toNat = 50) ∧ (‖c‖ ≤ 0.24 → (mb.data.getD (w * i + j) 0).toNat = 50) := by
  have hs : generate t (w, h) .scalar = .ok mb := by
    cases alg with
    | scalar => exact hmb
    | simd =>
      rw [C53_generate t ht w h hw hh] at hmb
      split at hmb
      · exact hmb
      · cases hmb
    | ispc => cases hmb
  obtain ⟨mb', h1, -, -, h2⟩ := C53_pixels t w h (by omega)
  obtain rfl : mb' = mb := by rw [h1] at hs; exact Except.ok.inj hs
  have hp := h2 i j hi hj
  obtain ⟨fx, fy⟩ := gridPoint_finite hw hh hi hj
  have hcount : countScalar F64.gt (F64.ofInt 4) 50 ⟨(gridPoint w h i j).1, (gridPoint w h i j).2⟩ = (mb'.data.getD (w * i + j) 0).toNat :=
    EscapeCount.unique (C53_scalar F64.gt (F64.ofInt 4) 50 _ _) hp
  rw [← hcount]
  subst hc
  generalize (gridPoint w h i j).1 = cx at fx ⊢
  generalize (gridPoint w h i j).2 = cy at fy ⊢
  refine ⟨fun k hk h3 h4 => C123_f64_margin cx cy fx fy 50 k hk h3 h4, fun h3 h4 => ?_, fun h3 => (C123_disc cx cy fx fy h3 50).2⟩
  dsimp only at h4
  exact C123_real_axis cx cy fx fy h4 h3 50

/-- Pixel (1, 6) of the 8 × 2 picture is at 0. -/
example : gridPoint 8 2 1 6 = (⟨0⟩, ⟨0⟩) := by decide +kernel

end PackedSimd.Props
