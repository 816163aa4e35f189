import Verif.Lemmas.BlackScholes
import Verif.Lemmas.LatticeFloat
import Verif.Spec.BlackScholesFloat
/-
The Black-Scholes programs in `f32`: rounding errors.
-/
namespace PackedSimd.Ex.Options
open Spec F32R

theorem η_tiny : η ≤ ν / 1000000 := by
  have := η_le
  have := ν_pos
  have : ν / 10 ^ 36 ≤ ν / 1000000 := div_le_div_of_nonneg_left ν_pos.le (by norm_num) (by norm_num)
  linarith

/-- `x` is `y` up to an absolute error of `E` units of `2^-24`. -/
structure Ab (E : ℝ) (x : F32) (y : ℝ) : Prop where
  fin : Fin' x
  err : |rv x - y| ≤ E * ν

theorem Ab.mono {E E' : ℝ} {x : F32} {y : ℝ} (h : Ab E x y) (hE : E ≤ E') : Ab E' x y :=
  ⟨h.fin, h.err.trans (mul_le_mul_of_nonneg_right hE ν_pos.le)⟩

theorem Ab.nonneg {E : ℝ} {x : F32} {y : ℝ} (h : Ab E x y) : 0 ≤ E := by
  by_contra hE
  have := (abs_nonneg _).trans h.err
  have := mul_neg_of_neg_of_pos (not_le.1 hE) ν_pos
  linarith

/-- One more rounding. -/
theorem Ab.round {E S : ℝ} {x : F32} {v y : ℝ} (hE0 : 0 ≤ E) (hE : E ≤ 2000) (hS : S ≤ 20) (hfin : Fin' x) (hx : |rv x - v| ≤ ν * |v| + η)
    (hv : |v - y| ≤ E * ν) (hy : |y| ≤ S) : Ab (E + S + 1 / 100) x y := by
  refine ⟨hfin, ?_⟩
  have hν := ν_pos
  have hνl := ν_le
  have h1 : |rv x - y| ≤ |rv x - v| + |v - y| := abs_sub_le _ _ _
  have h2 : |v| ≤ |v - y| + |y| := by
    have := abs_add_le (v - y) y
    rwa [sub_add_cancel] at this
  have h3 : ν * |v| ≤ ν * (E * ν + S) := mul_le_mul_of_nonneg_left (by linarith) hν.le
  have h4 : ν * (E * ν) ≤ ν * (2000 * (1 / 16000000)) :=
    mul_le_mul_of_nonneg_left (mul_le_mul hE hνl hν.le (by norm_num)) hν.le
  have := η_tiny
  linarith

theorem Ab.add {E E' S : ℝ} {x x' : F32} {y y' : ℝ} (h : Ab E x y) (h' : Ab E' x' y') (hE : E ≤ 500) (hE' : E' ≤ 500) (hS : S ≤ 20) (hy : |y + y'| ≤ S) :
    Ab (E + E' + S + 1 / 100) (x + x') (y + y') := by
  have hν := ν_pos
  have hνl := ν_le
  have hv : |(rv x + rv x') - (y + y')| ≤ (E + E') * ν := by
    have := abs_add_le (rv x - y) (rv x' - y')
    rw [show (rv x + rv x') - (y + y') = (rv x - y) + (rv x' - y') by ring]
    linarith [h.err, h'.err]
  have hm : |rv x + rv x'| < 2 ^ 127 := by
    have h2 := abs_add_le ((rv x + rv x') - (y + y')) (y + y')
    rw [sub_add_cancel] at h2
    have : (E + E') * ν ≤ 1000 * (1 / 16000000) := mul_le_mul (by linarith) hνl hν.le (by norm_num)
    refine lt_of_le_of_lt (h2.trans (add_le_add (hv.trans this) (hy.trans hS))) (by norm_num)
  obtain ⟨f, e⟩ := add_ok h.fin h'.fin hm
  exact Ab.round (by linarith [h.nonneg, h'.nonneg]) (by linarith) hS f (by linarith [η_pos]) hv hy

theorem Ab.neg {E : ℝ} {x : F32} {y : ℝ} (h : Ab E x y) : Ab E (-x) (-y) := by
  obtain ⟨f, e⟩ := neg_ok h.fin
  refine ⟨f, ?_⟩
  rw [e, show -rv x - -y = -(rv x - y) by ring, abs_neg]
  exact h.err

theorem Ab.sub {E E' S : ℝ} {x x' : F32} {y y' : ℝ} (h : Ab E x y) (h' : Ab E' x' y') (hE : E ≤ 500) (hE' : E' ≤ 500) (hS : S ≤ 20) (hy : |y - y'| ≤ S) :
    Ab (E + E' + S + 1 / 100) (x - x') (y - y') := by
  have hν := ν_pos
  have hνl := ν_le
  have hv : |(rv x - rv x') - (y - y')| ≤ (E + E') * ν := by
    have := abs_sub (rv x - y) (rv x' - y')
    rw [show (rv x - rv x') - (y - y') = (rv x - y) - (rv x' - y') by ring]
    linarith [h.err, h'.err]
  have hm : |rv x - rv x'| < 2 ^ 127 := by
    have h2 := abs_add_le ((rv x - rv x') - (y - y')) (y - y')
    rw [sub_add_cancel] at h2
    have : (E + E') * ν ≤ 1000 * (1 / 16000000) := mul_le_mul (by linarith) hνl hν.le (by norm_num)
    refine lt_of_le_of_lt (h2.trans (add_le_add (hv.trans this) (hy.trans hS))) (by norm_num)
  obtain ⟨f, e⟩ := sub_ok h.fin h'.fin hm
  exact Ab.round (by linarith [h.nonneg, h'.nonneg]) (by linarith) hS f (by linarith [η_pos]) hv hy

theorem prod_err {x y x' y' e e' B B' : ℝ} (h : |x - y| ≤ e) (h' : |x' - y'| ≤ e') (hB : |y| ≤ B) (hB' : |y'| ≤ B') :
    |x * x' - y * y'| ≤ e * B' + e' * B + e * e' := by
  have e0 := (abs_nonneg _).trans h
  have e0' := (abs_nonneg _).trans h'
  rw [show x * x' - y * y' = (x - y) * y' + (x' - y') * y + (x - y) * (x' - y') by ring]
  refine (abs_add_le _ _).trans (add_le_add ((abs_add_le _ _).trans (add_le_add ?_ ?_)) ?_)
  · rw [abs_mul]; exact mul_le_mul h hB' (abs_nonneg _) e0
  · rw [abs_mul]; exact mul_le_mul h' hB (abs_nonneg _) e0'
  · rw [abs_mul]; exact mul_le_mul h h' (abs_nonneg _) e0

theorem Ab.mul {E E' B B' : ℝ} {x x' : F32} {y y' : ℝ} (h : Ab E x y) (h' : Ab E' x' y') (hE : E ≤ 400) (hE' : E' ≤ 400) (hy : |y| ≤ B) (hy' : |y'| ≤ B')
    (hB : B ≤ 2) (hB' : B' ≤ 2) : Ab (E * B' + E' * B + B * B' + 1 / 20) (x * x') (y * y') := by
  have hν := ν_pos
  have hνl := ν_le
  have e0 := h.nonneg
  have e0' := h'.nonneg
  have b0 := (abs_nonneg _).trans hy
  have b0' := (abs_nonneg _).trans hy'
  have hp := prod_err h.err h'.err hy hy'
  have hq : E * ν * (E' * ν) ≤ 1 / 50 * ν := by
    have h1 : E * E' ≤ 400 * 400 := mul_le_mul hE hE' e0' (by norm_num)
    have h2 : E * E' * ν ≤ 400 * 400 * (1 / 16000000) := mul_le_mul h1 hνl hν.le (by norm_num)
    have h3 := mul_le_mul_of_nonneg_right h2 hν.le
    nlinarith
  have hv : |rv x * rv x' - y * y'| ≤ (E * B' + E' * B + 1 / 50) * ν := by
    refine hp.trans (le_trans (add_le_add le_rfl hq) (le_of_eq (by ring)))
  have hyy : |y * y'| ≤ B * B' := by rw [abs_mul]; exact mul_le_mul hy hy' (abs_nonneg _) b0
  have g1 : E * B' ≤ 400 * 2 := mul_le_mul hE hB' b0' (by norm_num)
  have g2 : E' * B ≤ 400 * 2 := mul_le_mul hE' hB b0 (by norm_num)
  have g3 : B * B' ≤ 2 * 2 := mul_le_mul hB hB' b0' (by norm_num)
  have g4 : 0 ≤ E * B' := mul_nonneg e0 b0'
  have g5 : 0 ≤ E' * B := mul_nonneg e0' b0
  have hm : |rv x * rv x'| < 2 ^ 127 := by
    have h2 := abs_add_le (rv x * rv x' - y * y') (y * y')
    rw [sub_add_cancel] at h2
    have : (E * B' + E' * B + 1 / 50) * ν ≤ 2000 * (1 / 16000000) := mul_le_mul (by linarith) hνl hν.le (by norm_num)
    refine lt_of_le_of_lt (h2.trans (add_le_add (hv.trans this) (hyy.trans g3))) (by norm_num)
  obtain ⟨f, e⟩ := mul_ok h.fin h'.fin hm
  exact (Ab.round (by linarith) (by linarith) (by linarith) f e hv hyy).mono (by linarith)

/-! ### Literals -/

theorem lit_val (q : ℚ) : (q : ℝ) = ((q.num * 2 ^ 149 : ℤ) : ℝ) / q.den / 2 ^ low 32 23 := by
  rw [show low 32 23 = 149 by decide]
  have : (q.den : ℝ) ≠ 0 := by exact_mod_cast q.den_nz
  conv_lhs => rw [Rat.cast_def]
  push_cast
  field_simp
  norm_num

theorem lit_ok {F : Fns F32} (hF : LitOk F) (q : ℚ) (hq : |(q : ℝ)| < 2 ^ 127) : Fin' (F.lit q) ∧ |rv (F.lit q) - q| ≤ ν * |(q : ℝ)| + η := by
  have h := (realRound_of fmt (hF q) (lit_val q)).1
  have hfin : Fin' (F.lit q) := h.1.2 (lt_of_lt_of_le hq overflow_ge)
  exact ⟨hfin, (h.2.1 hfin).trans (max_le_sum _)⟩

/-- A literal that is a float. -/
theorem lit_exact {F : Fns F32} (hF : LitOk F) (q : ℚ) (hq : |(q : ℝ)| < 2 ^ 127) {c : F32} (hc : Fin' c) (h : rv c = q) : rv (F.lit q) = q := by
  have h1 := near_of_rounds fmt (hF q) (lit_val q) (lit_ok hF q hq).1 c.bits hc
  rw [show realVal 23 c.bits = rv c from rfl, h, sub_self, abs_zero] at h1
  exact sub_eq_zero.1 (abs_eq_zero.1 (le_antisymm h1 (abs_nonneg _)))

theorem lit_zero {F : Fns F32} (hF : LitOk F) : Fin' (F.lit 0) ∧ rv (F.lit 0) = 0 := by
  have hq : |((0 : ℚ) : ℝ)| < 2 ^ 127 := by norm_num
  exact ⟨(lit_ok hF 0 hq).1, (lit_exact hF 0 hq zero_ok.1 (by rw [zero_ok.2]; norm_num)).trans (by norm_num)⟩
theorem lit_one {F : Fns F32} (hF : LitOk F) : Fin' (F.lit 1) ∧ rv (F.lit 1) = 1 := by
  have hq : |((1 : ℚ) : ℝ)| < 2 ^ 127 := by norm_num
  exact ⟨(lit_ok hF 1 hq).1, (lit_exact hF 1 hq one_ok.1 (by rw [one_ok.2]; norm_num)).trans (by norm_num)⟩

theorem lit_ab {F : Fns F32} (hF : LitOk F) (q : ℚ) {y : ℝ} (e : (q : ℝ) = y) (hq : |y| ≤ 2) : Ab (|y| + 1 / 1000) (F.lit q) y := by
  obtain ⟨f, h⟩ := lit_ok hF q (by rw [e]; exact lt_of_le_of_lt hq (by norm_num))
  refine ⟨f, ?_⟩
  rw [e] at h
  have := η_tiny
  have := ν_pos
  linarith

/-- `-1`. -/
theorem lit_minus_one {F : Fns F32} (hF : LitOk F) : F.lit (-1) = ⟨Flt.fromInt 32 23 (-1)⟩ := by
  have h := hF (-1)
  have h' : RoundsTo 23 (.frac ((-1 : ℚ).num * 2 ^ 149) (-1 : ℚ).den) (Flt.fromInt 32 23 (-1)) :=
    roundsTo_mk fmt (-1 * 2 ^ 149) 1 (by decide) true (fun _ => by decide)
  obtain ⟨h1, h2, h3⟩ := h
  obtain ⟨-, h2', h3'⟩ := h'
  have : (F.lit (-1)).bits = Flt.fromInt 32 23 (-1) := eq_of_sign_mag fmt ((h3 (by decide)).trans (h3' (by decide)).symm) (nearest_unique h1 h2 h2')
  rw [← this]

/-! ### The distribution function -/

/-- `1 / (1 + 0.2316419 l)`. -/
theorem k_ab {F : Fns F32} (hF : LitOk F) {l : F32} (fl : Fin' l) (l0 : 0 ≤ rv l) (l1 : rv l ≤ 2 ^ 60) :
    Ab (43 / 10) (F.lit 1 / (F.lit 1 + F.lit 0.2316419 * l)) (1 / (1 + cb * rv l)) := by
  have hν := ν_pos
  have hνl := ν_le
  have hη := η_pos
  have hηl := η_tiny
  obtain ⟨f1, e1⟩ := lit_one hF
  have hq : (((0.2316419 : ℚ) : ℝ)) = cb := by unfold cb; norm_num
  have hcb : 0 < cb := by unfold cb; norm_num
  have hcb1 : cb ≤ 1 := by unfold cb; norm_num
  have hcb2 : 1 / 5 ≤ cb := by unfold cb; norm_num
  obtain ⟨fb, eb⟩ := lit_ok hF 0.2316419 (by rw [hq, abs_of_pos hcb]; linarith [show (1 : ℝ) < 2 ^ 127 by norm_num])
  rw [hq, abs_of_pos hcb] at eb
  have eb' : |rv (F.lit 0.2316419) - cb| ≤ 1001 / 1000 * ν * cb := eb.trans (by nlinarith)
  obtain ⟨b1, b2⟩ := abs_le.1 eb'
  -- the product
  have hU0 : 0 ≤ cb * rv l := mul_nonneg hcb.le l0
  have p1 : |rv (F.lit 0.2316419) * rv l - cb * rv l| ≤ 1001 / 1000 * ν * (cb * rv l) := by
    rw [← sub_mul, abs_mul, abs_of_nonneg l0]
    have := mul_le_mul_of_nonneg_right eb' l0
    linarith
  have p2 : |rv (F.lit 0.2316419) * rv l| ≤ 1001 / 1000 * (cb * rv l) := by
    have h := abs_add_le (rv (F.lit 0.2316419) * rv l - cb * rv l) (cb * rv l)
    rw [sub_add_cancel, abs_of_nonneg hU0] at h
    have : ν * (cb * rv l) ≤ 1 / 16000000 * (cb * rv l) := mul_le_mul_of_nonneg_right hνl hU0
    linarith
  have hU1 : cb * rv l ≤ 2 ^ 60 := by nlinarith
  obtain ⟨fp, ep⟩ := mul_ok fb fl (lt_of_le_of_lt p2 (by linarith [show (1001 / 1000 * 2 ^ 60 : ℝ) < 2 ^ 127 by norm_num]))
  have p3 : |rv (F.lit 0.2316419 * l) - cb * rv l| ≤ 2003 / 1000 * ν * (cb * rv l) + η := by
    have h := abs_sub_le (rv (F.lit 0.2316419 * l)) (rv (F.lit 0.2316419) * rv l) (cb * rv l)
    have := mul_le_mul_of_nonneg_left p2 hν.le
    have : 0 ≤ ν * (cb * rv l) := mul_nonneg hν.le hU0
    linarith
  -- the sum
  have s1 : |(rv (F.lit 1) + rv (F.lit 0.2316419 * l)) - (1 + cb * rv l)| ≤ 2003 / 1000 * ν * (cb * rv l) + η := by
    rw [e1, show (1 + rv (F.lit 0.2316419 * l)) - (1 + cb * rv l) = rv (F.lit 0.2316419 * l) - cb * rv l by ring]
    exact p3
  have hνU : ν * (cb * rv l) ≤ 1 / 16000000 * (cb * rv l) := mul_le_mul_of_nonneg_right hνl hU0
  have s2 : |rv (F.lit 1) + rv (F.lit 0.2316419 * l)| ≤ 1001 / 1000 * (1 + cb * rv l) := by
    have h := abs_add_le ((rv (F.lit 1) + rv (F.lit 0.2316419 * l)) - (1 + cb * rv l)) (1 + cb * rv l)
    rw [sub_add_cancel, abs_of_nonneg (by linarith : (0 : ℝ) ≤ 1 + cb * rv l)] at h
    have : 2003 / 1000 * ν * (cb * rv l) = 2003 / 1000 * (ν * (cb * rv l)) := by ring
    linarith
  obtain ⟨fu, eu⟩ := add_ok f1 fp (lt_of_le_of_lt s2 (by linarith [show (1001 / 1000 * (1 + 2 ^ 60) : ℝ) < 2 ^ 127 by norm_num]))
  have s3 : |rv (F.lit 1 + F.lit 0.2316419 * l) - (1 + cb * rv l)| ≤ 301 / 100 * ν * (1 + cb * rv l) := by
    have h := abs_sub_le (rv (F.lit 1 + F.lit 0.2316419 * l)) (rv (F.lit 1) + rv (F.lit 0.2316419 * l)) (1 + cb * rv l)
    have := mul_le_mul_of_nonneg_left s2 hν.le
    have : 0 ≤ ν * (cb * rv l) := mul_nonneg hν.le hU0
    linarith
  -- the quotient
  generalize F.lit 1 + F.lit 0.2316419 * l = u at *
  generalize hU : 1 + cb * rv l = U at *
  have hU1 : 1 ≤ U := by linarith
  have hUpos : 0 < U := by linarith
  have hνU' : ν * U ≤ 1 / 16000000 * U := mul_le_mul_of_nonneg_right hνl hUpos.le
  obtain ⟨c1, c2⟩ := abs_le.1 s3
  have u1 : 999 / 1000 * U ≤ rv u := by linarith
  have upos : 0 < rv u := by linarith
  have q1 : 1 / rv u ≤ 1002 / 1000 * (1 / U) := by
    rw [div_le_iff₀ upos, mul_assoc, one_div_mul_eq_div, ← mul_div_assoc, le_div_iff₀ hUpos]
    linarith
  have hU2 : 1 / U ≤ 1 := by rw [div_le_one hUpos]; exact hU1
  have q2 : |1 / rv u - 1 / U| ≤ 302 / 100 * ν := by
    have : 1 / rv u - 1 / U = -(rv u - U) * (1 / rv u) * (1 / U) := by field_simp; ring
    rw [this, abs_mul, abs_mul, abs_neg, abs_of_pos (one_div_pos.2 upos), abs_of_pos (one_div_pos.2 hUpos)]
    calc |rv u - U| * (1 / rv u) * (1 / U) ≤ (301 / 100 * ν * U) * (1002 / 1000 * (1 / U)) * (1 / U) := by gcongr
      _ = 301 / 100 * ν * (1002 / 1000) * (1 / U) := by field_simp
      _ ≤ 301 / 100 * ν * (1002 / 1000) * 1 := by gcongr
      _ ≤ 302 / 100 * ν := by linarith
  have q3 : |rv (F.lit 1) / rv u| ≤ 1002 / 1000 := by
    rw [e1, abs_of_pos (one_div_pos.2 upos)]
    linarith
  obtain ⟨fk, ek⟩ := div_ok f1 fu upos.ne' (lt_of_le_of_lt q3 (by norm_num))
  refine ⟨fk, ?_⟩
  have h := abs_sub_le (rv (F.lit 1 / u)) (rv (F.lit 1) / rv u) (1 / U)
  have := mul_le_mul_of_nonneg_left q3 hν.le
  rw [e1] at *
  linarith

/-- The polynomial. -/
theorem poly_ab {F : Fns F32} (hF : LitOk F) {k : F32} {K : ℝ} (hk : Ab (43 / 10) k K) (K0 : 0 ≤ K) (K1 : K ≤ 1) :
    Ab 125 (F.lit 0.31938153 * k - F.lit 0.356563782 * (k * k) + F.lit 1.781477937 * (k * k * k) + -F.lit 1.821255978 * (k * k * (k * k))
      + F.lit 1.330274429 * (k * k * k * (k * k))) (poly K) := by
  have aK : |K| ≤ 1 := by rw [abs_of_nonneg K0]; exact K1
  have p2 : 0 ≤ K * K ∧ K * K ≤ 1 := ⟨by positivity, by nlinarith⟩
  have p3 : 0 ≤ K * K * K ∧ K * K * K ≤ 1 := ⟨by positivity, by nlinarith⟩
  have p4 : 0 ≤ K * K * (K * K) ∧ K * K * (K * K) ≤ 1 := ⟨by positivity, by nlinarith⟩
  have p5 : 0 ≤ K * K * K * (K * K) ∧ K * K * K * (K * K) ≤ 1 := ⟨by positivity, by nlinarith⟩
  have ab : ∀ {y : ℝ}, 0 ≤ y ∧ y ≤ 1 → |y| ≤ 1 := fun h => by rw [abs_of_nonneg h.1]; exact h.2
  have k2 : Ab (97 / 10) (k * k) (K * K) := (hk.mul hk (by norm_num) (by norm_num) aK aK (by norm_num) (by norm_num)).mono (by norm_num)
  have k3 : Ab (151 / 10) (k * k * k) (K * K * K) := (k2.mul hk (by norm_num) (by norm_num) (ab p2) aK (by norm_num) (by norm_num)).mono (by norm_num)
  have k4 : Ab (205 / 10) (k * k * (k * k)) (K * K * (K * K)) := (k2.mul k2 (by norm_num) (by norm_num) (ab p2) (ab p2) (by norm_num) (by norm_num)).mono (by norm_num)
  have k5 : Ab (259 / 10) (k * k * k * (k * k)) (K * K * K * (K * K)) := (k3.mul k2 (by norm_num) (by norm_num) (ab p3) (ab p2) (by norm_num) (by norm_num)).mono (by norm_num)
  have l1 : Ab (4 / 10) (F.lit 0.31938153) (31938153 / 10 ^ 8) := (lit_ab hF _ (by norm_num) (by rw [abs_of_pos (by norm_num)]; norm_num)).mono (by rw [abs_of_pos (by norm_num)]; norm_num)
  have l2 : Ab (4 / 10) (F.lit 0.356563782) (356563782 / 10 ^ 9) := (lit_ab hF _ (by norm_num) (by rw [abs_of_pos (by norm_num)]; norm_num)).mono (by rw [abs_of_pos (by norm_num)]; norm_num)
  have l3 : Ab (18 / 10) (F.lit 1.781477937) (1781477937 / 10 ^ 9) := (lit_ab hF _ (by norm_num) (by rw [abs_of_pos (by norm_num)]; norm_num)).mono (by rw [abs_of_pos (by norm_num)]; norm_num)
  have l4 : Ab (183 / 100) (-F.lit 1.821255978) (-(1821255978 / 10 ^ 9)) := ((lit_ab hF _ (by norm_num) (by rw [abs_of_pos (by norm_num)]; norm_num)).mono (by rw [abs_of_pos (by norm_num)]; norm_num)).neg
  have l5 : Ab (14 / 10) (F.lit 1.330274429) (1330274429 / 10 ^ 9) := (lit_ab hF _ (by norm_num) (by rw [abs_of_pos (by norm_num)]; norm_num)).mono (by rw [abs_of_pos (by norm_num)]; norm_num)
  have m1 := (l1.mul hk (B := 4 / 10) (by norm_num) (by norm_num) (by rw [abs_of_pos (by norm_num)]; norm_num) aK (by norm_num) (by norm_num)).mono (E' := 26 / 10) (by norm_num)
  have m2 := (l2.mul k2 (B := 4 / 10) (by norm_num) (by norm_num) (by rw [abs_of_pos (by norm_num)]; norm_num) (ab p2) (by norm_num) (by norm_num)).mono (E' := 48 / 10) (by norm_num)
  have m3 := (l3.mul k3 (B := 1782 / 1000) (by norm_num) (by norm_num) (by rw [abs_of_pos (by norm_num)]; norm_num) (ab p3) (by norm_num) (by norm_num)).mono (E' := 306 / 10) (by norm_num)
  have m4 := (l4.mul k4 (B := 1822 / 1000) (by norm_num) (by norm_num) (by rw [abs_neg, abs_of_pos (by norm_num)]; norm_num) (ab p4) (by norm_num) (by norm_num)).mono (E' := 412 / 10) (by norm_num)
  have m5 := (l5.mul k5 (B := 1331 / 1000) (by norm_num) (by norm_num) (by rw [abs_of_pos (by norm_num)]; norm_num) (ab p5) (by norm_num) (by norm_num)).mono (E' := 374 / 10) (by norm_num)
  have s1 := (m1.sub m2 (S := 4 / 10) (by norm_num) (by norm_num) (by norm_num) (by rw [abs_le]; constructor <;> linarith [p2.1, p2.2])).mono (E' := 79 / 10) (by norm_num)
  have s2 := (s1.add m3 (S := 22 / 10) (by norm_num) (by norm_num) (by norm_num) (by rw [abs_le]; constructor <;> linarith [p2.1, p2.2, p3.1, p3.2])).mono (E' := 408 / 10) (by norm_num)
  have s3 := (s2.add m4 (S := 24 / 10) (by norm_num) (by norm_num) (by norm_num) (by rw [abs_le]; constructor <;> linarith [p2.1, p2.2, p3.1, p3.2, p4.1, p4.2])).mono (E' := 845 / 10) (by norm_num)
  have s4 := (s3.add m5 (S := 3) (by norm_num) (by norm_num) (by norm_num) (by
    rw [abs_le]
    have : K * K * K ≤ K * K := by nlinarith
    have : K * K * (K * K) ≤ K * K * K := by nlinarith [p3.1]
    have : K * K * K * (K * K) ≤ K * K * (K * K) := by nlinarith [p4.1]
    constructor <;> linarith [p2.1, p2.2, p3.1, p3.2, p4.1, p4.2, p5.1, p5.2])).mono (E' := 125) (by norm_num)
  convert s4 using 1
  unfold poly
  ring

/-- Two exponents that are close, relatively. -/
theorem exp_close {a b : ℝ} (ha : a ≤ 0) (hb : b ≤ 0) (h : |a - b| ≤ 21 / 10 * ν * |b| + 3 * η) : |Real.exp a - Real.exp b| ≤ 23 / 10 * ν := by
  have hν := ν_pos
  have hνl := ν_le
  have hη := η_pos
  have hηl := η_tiny
  -- the greater and the smaller exponent
  have key : ∀ c d : ℝ, c ≤ d → d ≤ 0 → d - c ≤ 21 / 10 * ν * (-c) + 3 * η → Real.exp d - Real.exp c ≤ 23 / 10 * ν := by
    intro c d hcd hd h
    have h1 : d - c ≤ 22 / 10 * ν * (-d) + 4 * η := by
      have h2 : (d - c) * (1 - 21 / 10 * ν) ≤ 21 / 10 * ν * (-d) + 3 * η := by nlinarith
      have h3 : (22 / 10 * ν * (-d) + 4 * η) * (1 - 21 / 10 * ν) ≥ 21 / 10 * ν * (-d) + 3 * η := by
        have e1 : 0 ≤ ν * (-d) := mul_nonneg hν.le (by linarith)
        have e2 : ν * (ν * (-d)) ≤ 1 / 16000000 * (ν * (-d)) := mul_le_mul_of_nonneg_right hνl e1
        have e3 : ν * η ≤ 1 / 16000000 * η := mul_le_mul_of_nonneg_right hνl hη.le
        nlinarith
      have h4 : 0 < 1 - 21 / 10 * ν := by linarith
      exact le_of_mul_le_mul_right (h2.trans h3) h4
    have h5 : Real.exp d - Real.exp c ≤ Real.exp d * (d - c) := by
      have h6 := Real.add_one_le_exp (c - d)
      have h7 : Real.exp c = Real.exp d * Real.exp (c - d) := by rw [← Real.exp_add]; ring_nf
      rw [h7]
      nlinarith [Real.exp_pos d]
    have h8 : Real.exp d * (-d) ≤ 1 := by
      have h6 := Real.add_one_le_exp (-d)
      have h7 : Real.exp d * Real.exp (-d) = 1 := by rw [← Real.exp_add]; simp
      nlinarith [Real.exp_pos d]
    have h9 : Real.exp d ≤ 1 := Real.exp_le_one_iff.2 hd
    have h10 : Real.exp d * (d - c) ≤ Real.exp d * (22 / 10 * ν * (-d) + 4 * η) := mul_le_mul_of_nonneg_left h1 (Real.exp_pos d).le
    have h11 : Real.exp d * (22 / 10 * ν * (-d)) ≤ 22 / 10 * ν := by nlinarith
    have h12 : Real.exp d * (4 * η) ≤ 4 * η := by nlinarith
    nlinarith
  have hb' : |b| = -b := abs_of_nonpos hb
  rw [hb'] at h
  rcases le_total a b with hab | hab
  · rw [abs_sub_comm, abs_of_nonneg (sub_nonneg.2 (Real.exp_le_exp.2 hab))]
    rw [abs_sub_comm, abs_of_nonneg (by linarith)] at h
    refine key a b hab hb (h.trans ?_)
    nlinarith
  · rw [abs_of_nonneg (sub_nonneg.2 (Real.exp_le_exp.2 hab))]
    rw [abs_of_nonneg (by linarith)] at h
    exact key b a hab ha h

/-- The exponent `-l * l * 0.5`. -/
theorem exponent_ok {F : Fns F32} (hF : LitOk F) {l : F32} (fl : Fin' l) (l0 : 0 ≤ rv l) (l1 : rv l ≤ 2 ^ 60) :
    let y := -l * l * F.lit 0.5
    Fin' y ∧ rv y ≤ 0 ∧ |rv y - -(rv l ^ 2 / 2)| ≤ 21 / 10 * ν * |-(rv l ^ 2 / 2)| + 3 * η := by
  intro y
  have hν := ν_pos
  have hνl := ν_le
  have hη := η_pos
  have hηl := η_tiny
  obtain ⟨fn, en⟩ := neg_ok fl
  have hl2 : 0 ≤ rv l ^ 2 := sq_nonneg _
  have hl3 : rv l ^ 2 ≤ (2 ^ 60) ^ 2 := pow_le_pow_left₀ l0 l1 2
  have e1 : rv (-l) * rv l = -rv l ^ 2 := by rw [en]; ring
  have a1 : |rv (-l) * rv l| = rv l ^ 2 := by rw [e1, abs_neg, abs_of_nonneg hl2]
  obtain ⟨fz, ez⟩ := mul_ok fn fl (by rw [a1]; exact lt_of_le_of_lt hl3 (by norm_num))
  have z0 : rv (-l * l) ≤ 0 := by
    have h := mul_near fn fl fz 0 zero_ok.1
    exact (near_le h (by rw [e1, zero_ok.2]; linarith)).trans zero_ok.2.le
  rw [a1, e1] at ez
  -- one half
  have hq : |((0.5 : ℚ) : ℝ)| < 2 ^ 127 := by norm_num
  have fh := (lit_ok hF 0.5 hq).1
  have hh : rv (F.lit 0.5) = 1 / 2 := by
    have h : valueOf 23 (⟨0x3f000000⟩ : F32).bits = .num (2 ^ 148) := by decide +kernel
    have := lit_exact hF 0.5 hq (c := ⟨0x3f000000⟩) ⟨_, h⟩ (by
      unfold rv
      rw [realVal_num h, show low 32 23 = 149 by decide]
      norm_num)
    rw [this]
    norm_num
  have hz1 : |rv (-l * l)| ≤ 2 * rv l ^ 2 + η := by
    have h2 := abs_add_le (rv (-l * l) - -rv l ^ 2) (-rv l ^ 2)
    rw [sub_add_cancel, abs_neg, abs_of_nonneg hl2] at h2
    have : ν * rv l ^ 2 ≤ 1 / 16000000 * rv l ^ 2 := mul_le_mul_of_nonneg_right hνl hl2
    linarith
  have hp : |rv (-l * l) * rv (F.lit 0.5)| = |rv (-l * l)| / 2 := by
    rw [hh, abs_mul, abs_of_pos (by norm_num : (0 : ℝ) < 1 / 2)]; ring
  obtain ⟨fy, ey⟩ := mul_ok fz fh (by
    rw [hp]
    have : ((2 : ℝ) * (2 ^ 60) ^ 2 + 1) / 2 < 2 ^ 127 := by norm_num
    linarith)
  refine ⟨fy, ?_, ?_⟩
  · have h := mul_near fz fh fy 0 zero_ok.1
    exact (near_le h (by rw [zero_ok.2, hh]; linarith)).trans zero_ok.2.le
  · rw [hp, hh] at ey
    rw [abs_neg, abs_of_nonneg (by positivity : (0 : ℝ) ≤ rv l ^ 2 / 2)]
    have t := abs_sub_le (rv y) (rv (-l * l) * (1 / 2)) (-(rv l ^ 2 / 2))
    have t2 : |rv (-l * l) * (1 / 2) - -(rv l ^ 2 / 2)| ≤ (ν * rv l ^ 2 + η) / 2 := by
      rw [show rv (-l * l) * (1 / 2) - -(rv l ^ 2 / 2) = (rv (-l * l) - -rv l ^ 2) * (1 / 2) by ring, abs_mul,
        abs_of_pos (by norm_num : (0 : ℝ) < 1 / 2)]
      linarith
    have t3 : |rv (-l * l)| ≤ rv l ^ 2 + (ν * rv l ^ 2 + η) := by
      have h2 := abs_add_le (rv (-l * l) - -rv l ^ 2) (-rv l ^ 2)
      rw [sub_add_cancel, abs_neg, abs_of_nonneg hl2] at h2
      linarith
    have t4 : ν * (|rv (-l * l)| / 2) ≤ ν * ((rv l ^ 2 + (ν * rv l ^ 2 + η)) / 2) := mul_le_mul_of_nonneg_left (by linarith) hν.le
    have e1 : 0 ≤ ν * rv l ^ 2 := mul_nonneg hν.le hl2
    have e2 : ν * (ν * rv l ^ 2) ≤ 1 / 16000000 * (ν * rv l ^ 2) := mul_le_mul_of_nonneg_right hνl e1
    have e3 : ν * η ≤ 1 / 16000000 * η := mul_le_mul_of_nonneg_right hνl hη.le
    have : |rv y - -(rv l ^ 2 / 2)| ≤ (ν * ((rv l ^ 2 + (ν * rv l ^ 2 + η)) / 2) + η) + (ν * rv l ^ 2 + η) / 2 :=
      t.trans (add_le_add (ey.trans (by linarith)) t2)
    nlinarith

theorem abs_ok {x : F32} (hx : Fin' x) : Fin' (⟨Flt.abs x.bits⟩ : F32) ∧ rv ⟨Flt.abs x.bits⟩ = |rv x| := by
  have hI := (finite_iff x.bits).1 hx
  have hI' := infMag_lt fmt
  obtain ⟨h1, h2⟩ := magBits_mk fmt false (b := magBits x.bits) (by have := Nat.two_pow_pos 23; omega)
  have hfin : Fin' (⟨Flt.abs x.bits⟩ : F32) := (finite_iff _).2 (by unfold Flt.abs; rw [h1]; exact hI)
  refine ⟨hfin, ?_⟩
  unfold rv
  rw [realVal_nonneg_sign hfin h2, abs_realVal hx]
  unfold Flt.abs
  rw [h1]

/-- `cnd` against the normal distribution. -/
theorem cnd_float {X : ℝ} {F : Fns F32} (hF : CndFns X F) (X1 : X ≤ 100) {x : F32} (hx : Fin' x) (hx1 : |rv x| ≤ 2 ^ 60) :
    Fin' (cndScalar F x) ∧ |rv (cndScalar F x) - cndScalar realFns (rv x)| ≤ (60 + X / 2) * ν := by
  have hν := ν_pos
  obtain ⟨fl, el⟩ := abs_ok hx
  have l0 : 0 ≤ rv ⟨Flt.abs x.bits⟩ := by rw [el]; exact abs_nonneg _
  have l1 : rv ⟨Flt.abs x.bits⟩ ≤ 2 ^ 60 := by rw [el]; exact hx1
  have hk := k_ab hF.lit fl l0 l1
  obtain ⟨k0, k1⟩ := k_pos l0
  have hp := poly_ab hF.lit hk k0.le k1
  obtain ⟨fy, y0, ey⟩ := exponent_ok hF.lit fl l0 l1
  obtain ⟨fe, ee⟩ := hF.exp _ fy y0
  rw [show X / 2 ^ 24 = X * ν by unfold ν; ring] at ee
  change |rv _ - Real.exp (rv _)| ≤ _ at ee
  have hb : Ab (X + 23 / 10) (F.exp (-⟨Flt.abs x.bits⟩ * ⟨Flt.abs x.bits⟩ * F.lit 0.5)) (bell |rv x|) := by
    refine ⟨fe, ?_⟩
    have h1 := exp_close y0 (by rw [neg_nonpos]; positivity) ey
    have h2 : Real.exp (-(rv ⟨Flt.abs x.bits⟩ ^ 2 / 2)) = bell |rv x| := by
      unfold bell; rw [el]; congr 1; ring
    rw [h2] at h1
    have := abs_sub_le (rv (F.exp (-⟨Flt.abs x.bits⟩ * ⟨Flt.abs x.bits⟩ * F.lit 0.5))) (Real.exp (rv (-⟨Flt.abs x.bits⟩ * ⟨Flt.abs x.bits⟩ * F.lit 0.5))) (bell |rv x|)
    linarith
  rw [el] at hp
  have X0 : 0 ≤ X + 23 / 10 := hb.nonneg
  have hlc : Ab (4 / 10) (F.lit 0.39894228040) cc := (lit_ab hF.lit _ (by unfold cc; norm_num) (by unfold cc; rw [abs_of_pos (by norm_num)]; norm_num)).mono (by unfold cc; rw [abs_of_pos (by norm_num)]; norm_num)
  obtain ⟨fac0, fac1⟩ := fac_bounds (abs_nonneg (rv x))
  have hfac : poly (1 / (1 + cb * |rv x|)) * cc = fac |rv x| := rfl
  have hpoly : |poly (1 / (1 + cb * |rv x|))| ≤ 126 / 100 := by
    have hc : (3989422804 / 10 ^ 10 : ℝ) = cc := rfl
    have : 0 < cc := by rw [← hc]; norm_num
    rw [abs_of_nonneg (by
      have := hfac ▸ fac0
      exact nonneg_of_mul_nonneg_left this ‹0 < cc›)]
    rw [← hfac] at fac1
    have h3 : poly (1 / (1 + cb * |rv x|)) ≤ 1 / 2 / cc := by rw [le_div_iff₀ this]; exact fac1
    refine h3.trans ?_
    rw [← hc]
    norm_num
  have m1 := (hp.mul hlc (B' := 4 / 10) (by norm_num) (by norm_num) hpoly (by unfold cc; rw [abs_of_pos (by norm_num)]; norm_num) (by norm_num) (by norm_num)).mono
    (E' := 512 / 10) (by norm_num)
  have m2 := (m1.mul hb (B := 1 / 2) (B' := 1) (by norm_num) (by linarith) (by rw [hfac, abs_of_nonneg fac0]; exact fac1)
    (by rw [abs_of_pos (bell_pos _)]; exact bell_le _) (by norm_num) (by norm_num)).mono (E' := 534 / 10 + X / 2) (by linarith)
  rw [cnd_eq]
  have hw : wing |rv x| = poly (1 / (1 + cb * |rv x|)) * cc * bell |rv x| := rfl
  rw [← hw] at m2
  have w0 : 0 ≤ wing |rv x| ∧ wing |rv x| ≤ 1 := by
    rw [hw, hfac]
    have h3 := bell_pos |rv x|
    have h4 := bell_le |rv x|
    exact ⟨by positivity, by nlinarith⟩
  obtain ⟨f1, e1⟩ := lit_one hF.lit
  have hone : Ab 0 (F.lit 1) 1 := ⟨f1, by rw [e1]; simp⟩
  have m3 := (hone.sub m2 (S := 1) (by norm_num) (by linarith) (by norm_num) (by rw [abs_le]; constructor <;> linarith)).mono (E' := 60 + X / 2) (by linarith)
  have m2' := m2.mono (E' := 60 + X / 2) (by linarith)
  unfold cndScalar
  dsimp only
  rw [hF.abs, hF.gt]
  obtain ⟨f0, e0⟩ := lit_zero hF.lit
  have hg := gt_iff hx f0
  rw [e0] at hg
  by_cases hpos : 0 < rv x
  · rw [if_pos (hg.2 hpos), if_pos hpos]
    exact ⟨m3.fin, m3.err⟩
  · rw [if_neg (fun h => hpos (hg.1 h)), if_neg hpos]
    exact ⟨m2'.fin, m2'.err⟩

/-! ### The price -/

theorem cdf_lipschitz (a b : ℝ) : |normalCdf a - normalCdf b| ≤ 2 / 5 * |a - b| := by
  have hγ := γ_bounds.2
  have hγ0 := γ_pos
  have h : ∀ z ∈ Set.univ, HasDerivWithinAt normalCdf (γ * bell z) Set.univ z := fun z _ => (cdf_deriv z).hasDerivWithinAt
  have hb : ∀ z ∈ (Set.univ : Set ℝ), ‖γ * bell z‖ ≤ 2 / 5 := fun z _ => by
    have h1 := bell_pos z
    have h2 := bell_le z
    rw [Real.norm_eq_abs, abs_of_pos (mul_pos hγ0 h1)]
    nlinarith
  have := convex_univ.norm_image_sub_le_of_norm_hasDerivWithin_le h hb (Set.mem_univ b) (Set.mem_univ a)
  rwa [Real.norm_eq_abs, Real.norm_eq_abs] at this

theorem price_float {δ : ℝ} (δ1 : δ ≤ 1 / 1000) {s x e n1 n2 : F32} (fs : Fin' s) (fx : Fin' x) (fe : Fin' e) (f1 : Fin' n1) (f2 : Fin' n2)
    (s0 : 0 ≤ rv s) (s1 : rv s ≤ 2 ^ 60) (x0 : 0 ≤ rv x) (x1 : rv x ≤ 2 ^ 60) (e0 : 0 ≤ rv e) (e1 : rv e ≤ 2 ^ 60)
    {N1 N2 : ℝ} (h1 : |rv n1 - N1| ≤ δ) (h2 : |rv n2 - N2| ≤ δ) (a1 : 0 ≤ N1) (b1 : N1 ≤ 1) (a2 : 0 ≤ N2) (b2 : N2 ≤ 1) :
    Fin' (s * n1 - x * e * n2) ∧
      |rv (s * n1 - x * e * n2) - (rv s * N1 - rv x * rv e * N2)| ≤ (rv s + rv x * rv e) * (δ + 4 * ν) + 4 * η := by
  have hν := ν_pos
  have hνl := ν_le
  have hη := η_pos
  have hηl := η_tiny
  have δ0 := (abs_nonneg _).trans h1
  have m1 : |rv n1| ≤ 1001 / 1000 := by
    have := abs_add_le (rv n1 - N1) N1
    rw [sub_add_cancel, abs_of_nonneg a1] at this
    linarith
  have m2 : |rv n2| ≤ 1001 / 1000 := by
    have := abs_add_le (rv n2 - N2) N2
    rw [sub_add_cancel, abs_of_nonneg a2] at this
    linarith
  -- the stock
  have p1 : |rv s * rv n1| ≤ 1001 / 1000 * rv s := by
    rw [abs_mul, abs_of_nonneg s0]
    nlinarith
  obtain ⟨fa, ea⟩ := mul_ok fs f1 (lt_of_le_of_lt p1 (by linarith [show (1001 / 1000 * 2 ^ 60 : ℝ) < 2 ^ 127 by norm_num]))
  have pa : |rv (s * n1) - rv s * N1| ≤ rv s * δ + 1001 / 1000 * (ν * rv s) + η := by
    have t := abs_sub_le (rv (s * n1)) (rv s * rv n1) (rv s * N1)
    have t2 : |rv s * rv n1 - rv s * N1| ≤ rv s * δ := by
      rw [← mul_sub, abs_mul, abs_of_nonneg s0]
      exact mul_le_mul_of_nonneg_left h1 s0
    have t3 := mul_le_mul_of_nonneg_left p1 hν.le
    linarith
  -- the discounted strike
  have q0 : 0 ≤ rv x * rv e := mul_nonneg x0 e0
  have q1 : rv x * rv e ≤ 2 ^ 60 * 2 ^ 60 := mul_le_mul x1 e1 e0 (by positivity)
  have q2 : |rv x * rv e| = rv x * rv e := abs_of_nonneg q0
  obtain ⟨fb, eb⟩ := mul_ok fx fe (by rw [q2]; exact lt_of_le_of_lt q1 (by norm_num))
  rw [q2] at eb
  have hνq : ν * (rv x * rv e) ≤ 1 / 16000000 * (rv x * rv e) := mul_le_mul_of_nonneg_right hνl q0
  have hνq0 : 0 ≤ ν * (rv x * rv e) := mul_nonneg hν.le q0
  have hνs : ν * rv s ≤ 1 / 16000000 * rv s := mul_le_mul_of_nonneg_right hνl s0
  have hνs0 : 0 ≤ ν * rv s := mul_nonneg hν.le s0
  have q3 : |rv (x * e)| ≤ rv x * rv e + (ν * (rv x * rv e) + η) := by
    have := abs_add_le (rv (x * e) - rv x * rv e) (rv x * rv e)
    rw [sub_add_cancel, q2] at this
    linarith
  have q4 : |rv (x * e) * rv n2| ≤ 1002 / 1000 * (rv x * rv e) + 2 * η := by
    rw [abs_mul]
    have := mul_le_mul q3 m2 (abs_nonneg _) (by linarith)
    linarith
  obtain ⟨fc, ec⟩ := mul_ok fb f2 (by linarith [show (1002 / 1000 * (2 ^ 60 * 2 ^ 60) + 1 : ℝ) < 2 ^ 127 by norm_num])
  have pb : |rv (x * e * n2) - rv x * rv e * N2| ≤ rv x * rv e * δ + 2004 / 1000 * (ν * (rv x * rv e)) + 21 / 10 * η := by
    have t := abs_sub_le (rv (x * e * n2)) (rv (x * e) * rv n2) (rv x * rv e * N2)
    have t2 : |rv (x * e) * rv n2 - rv x * rv e * N2| ≤ rv x * rv e * δ + 1001 / 1000 * (ν * (rv x * rv e) + η) := by
      rw [show rv (x * e) * rv n2 - rv x * rv e * N2 = rv x * rv e * (rv n2 - N2) + (rv (x * e) - rv x * rv e) * rv n2 by ring]
      refine (abs_add_le _ _).trans (add_le_add ?_ ?_)
      · rw [abs_mul, q2]
        exact mul_le_mul_of_nonneg_left h2 q0
      · rw [abs_mul, mul_comm]
        exact mul_le_mul m2 eb (abs_nonneg _) (by norm_num)
    have t3 := mul_le_mul_of_nonneg_left q4 hν.le
    have t4 : ν * η ≤ 1 / 16000000 * η := mul_le_mul_of_nonneg_right hνl hη.le
    have t5 : ν * (1002 / 1000 * (rv x * rv e) + 2 * η) = 1002 / 1000 * (ν * (rv x * rv e)) + 2 * (ν * η) := by ring
    linarith
  -- the difference
  have hd : |(rv (s * n1) - rv (x * e * n2)) - (rv s * N1 - rv x * rv e * N2)| ≤
      (rv s * δ + 1001 / 1000 * (ν * rv s) + η) + (rv x * rv e * δ + 2004 / 1000 * (ν * (rv x * rv e)) + 21 / 10 * η) := by
    rw [show (rv (s * n1) - rv (x * e * n2)) - (rv s * N1 - rv x * rv e * N2) = (rv (s * n1) - rv s * N1) - (rv (x * e * n2) - rv x * rv e * N2) by ring]
    exact (abs_sub _ _).trans (add_le_add pa pb)
  have hsδ : rv s * δ ≤ rv s * (1 / 1000) := mul_le_mul_of_nonneg_left δ1 s0
  have hqδ : rv x * rv e * δ ≤ rv x * rv e * (1 / 1000) := mul_le_mul_of_nonneg_left δ1 q0
  have hN : |rv s * N1 - rv x * rv e * N2| ≤ rv s + rv x * rv e := by
    rw [abs_le]
    constructor <;> nlinarith [mul_nonneg s0 a1, mul_nonneg q0 a2]
  have hm : |rv (s * n1) - rv (x * e * n2)| ≤ 1002 / 1000 * (rv s + rv x * rv e) + 4 * η := by
    have := abs_add_le ((rv (s * n1) - rv (x * e * n2)) - (rv s * N1 - rv x * rv e * N2)) (rv s * N1 - rv x * rv e * N2)
    rw [sub_add_cancel] at this
    linarith
  obtain ⟨fd, ed⟩ := sub_ok fa fc (by linarith [show (1002 / 1000 * (2 ^ 60 + 2 ^ 60 * 2 ^ 60) + 1 : ℝ) < 2 ^ 127 by norm_num])
  refine ⟨fd, ?_⟩
  have t := abs_sub_le (rv (s * n1 - x * e * n2)) (rv (s * n1) - rv (x * e * n2)) (rv s * N1 - rv x * rv e * N2)
  have t3 := mul_le_mul_of_nonneg_left hm hν.le
  have t4 : ν * η ≤ 1 / 16000000 * η := mul_le_mul_of_nonneg_right hνl hη.le
  have t5 : ν * (1002 / 1000 * (rv s + rv x * rv e) + 4 * η) = 1002 / 1000 * (ν * rv s) + 1002 / 1000 * (ν * (rv x * rv e)) + 4 * (ν * η) := by ring
  have t6 : (rv s + rv x * rv e) * (δ + 4 * ν) = rv s * δ + rv x * rv e * δ + 4 * (ν * rv s) + 4 * (ν * (rv x * rv e)) := by ring
  linarith

end PackedSimd.Ex.Options
