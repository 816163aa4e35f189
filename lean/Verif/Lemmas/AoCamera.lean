import Verif.Spec.AoCamera
import Verif.Lemmas.AoHit
import Verif.Lemmas.LatticeFloat
import Verif.Lemmas.Cast
/-
Error bounds of the directions from the camera.
-/
namespace PackedSimd.F32R
open Ex Ex.Ao Spec Spec.Ao

theorem whole_ok {k : Nat} (h : k ≤ 2 ^ 24) : Fin' ⟨Flt.fromInt 32 23 k⟩ ∧ rv ⟨Flt.fromInt 32 23 k⟩ = k := by
  have := fromInt_exact fmt (k : Int) (by simpa using h) (by decide +kernel)
  refine ⟨⟨_, this⟩, ?_⟩
  unfold rv
  rw [realVal_num this]
  push_cast
  rw [mul_div_assoc, div_self (by positivity), mul_one]

/-- An error bound and a bound of the exact value. -/
theorem abs_near {r v e B : ℝ} (h : |r - v| ≤ e) (hv : |v| ≤ B) : |r| ≤ B + e := by
  rw [show r = v + (r - v) by ring]
  exact (abs_add_le _ _).trans (add_le_add hv h)

theorem near_trans {a b c e f : ℝ} (h : |a - b| ≤ e) (h' : |b - c| ≤ f) : |a - c| ≤ e + f := by
  rw [show a - c = (a - b) + (b - c) by ring]
  exact (abs_add_le _ _).trans (add_le_add h h')

/-- One more rounding. -/
theorem round_step {r v t e B : ℝ} (h : |r - v| ≤ ν * |v| + η) (h' : |v - t| ≤ e) (hB : |t| ≤ B) : |r - t| ≤ e + ν * (B + e) + η := by
  have h1 := abs_near h' hB
  have h2 := near_trans h h'
  have h3 := mul_le_mul_of_nonneg_left h1 ν_pos.le
  linarith

/-- The numerator, summed in both orders. -/
theorem offset_ok {X a H : F32} {x q W : ℝ} (fX : Fin' X) (fa : Fin' a) (fH : Fin' H) (hX : |rv X - x| ≤ ν * W) (ha : |rv a - q| ≤ 2.01 * ν)
    (hH : |rv H - W / 2| ≤ 0.51 * (ν * W)) (x0 : 0 ≤ x) (q0 : 0 ≤ q) (q1 : q ≤ 1) (hx : x + q ≤ W) (w1 : 1 ≤ W) (w2 : W ≤ 2 ^ 24) :
    (Fin' (X + a - H) ∧ |rv (X + a - H) - (x + q - W / 2)| ≤ 5.05 * (ν * W)) ∧
    (Fin' (X + (a - H)) ∧ |rv (X + (a - H)) - (x + q - W / 2)| ≤ 5.05 * (ν * W)) := by
  have v0 := ν_pos
  have v1 := ν_le
  have n0 := η_pos
  have vw : ν ≤ ν * W := le_mul_of_one_le_right v0.le w1
  have vW : ν * W ≤ W / 16000000 := by nlinarith
  have vv : ν * (ν * W) ≤ ν * W / 16000000 := by nlinarith
  have big : (2 : ℝ) ^ 127 = 2 ^ 103 * 2 ^ 24 := by norm_num
  have lt : ∀ {y : ℝ}, |y| ≤ 2 * W → |y| < 2 ^ 127 := fun h => by
    refine lt_of_le_of_lt (h.trans (mul_le_mul_of_nonneg_left w2 (by norm_num))) (by norm_num)
  have t1 : |x + q| ≤ W := by rw [abs_of_nonneg (by linarith)]; exact hx
  have t2 : |x + q - W / 2| ≤ W / 2 := abs_le.2 ⟨by linarith, by linarith⟩
  have t3 : |q - W / 2| ≤ W := abs_le.2 ⟨by linarith, by linarith⟩
  constructor
  · have e1 : |rv X + rv a - (x + q)| ≤ ν * W + 2.01 * ν := by
      rw [show rv X + rv a - (x + q) = (rv X - x) + (rv a - q) by ring]
      exact (abs_add_le _ _).trans (add_le_add hX ha)
    obtain ⟨f1, r1⟩ := add_ok fX fa (lt ((abs_near e1 t1).trans (by linarith)))
    have e2 := round_step (r1.trans (le_add_of_nonneg_right n0.le)) e1 t1
    have nv : η ≤ ν / 10 ^ 36 := η_le
    have e2' : |rv (X + a) - (x + q)| ≤ 4.02 * (ν * W) := by
      refine e2.trans ?_
      have : ν * (W + (ν * W + 2.01 * ν)) ≤ ν * W + 4 * (ν * W / 16000000) := by nlinarith
      linarith
    have e3 : |rv (X + a) - rv H - (x + q - W / 2)| ≤ 4.53 * (ν * W) := by
      rw [show rv (X + a) - rv H - (x + q - W / 2) = (rv (X + a) - (x + q)) + -(rv H - W / 2) by ring]
      refine (abs_add_le _ _).trans ?_
      rw [abs_neg]
      linarith
    obtain ⟨f2, r2⟩ := sub_ok f1 fH (lt ((abs_near e3 t2).trans (by linarith)))
    refine ⟨f2, (round_step (r2.trans (le_add_of_nonneg_right n0.le)) e3 t2).trans ?_⟩
    have : ν * (W / 2 + 4.53 * (ν * W)) ≤ ν * W / 2 + 4.53 * (ν * W / 16000000) := by nlinarith
    linarith
  · have e1 : |rv a - rv H - (q - W / 2)| ≤ 2.01 * ν + 0.51 * (ν * W) := by
      rw [show rv a - rv H - (q - W / 2) = (rv a - q) + -(rv H - W / 2) by ring]
      refine (abs_add_le _ _).trans ?_
      rw [abs_neg]
      exact add_le_add ha hH
    obtain ⟨f1, r1⟩ := sub_ok fa fH (lt ((abs_near e1 t3).trans (by linarith)))
    have e2 := round_step (r1.trans (le_add_of_nonneg_right n0.le)) e1 t3
    have nv : η ≤ ν / 10 ^ 36 := η_le
    have e2' : |rv (a - H) - (q - W / 2)| ≤ 3.53 * (ν * W) := by
      refine e2.trans ?_
      have : ν * (W + (2.01 * ν + 0.51 * (ν * W))) ≤ ν * W + 4 * (ν * W / 16000000) := by nlinarith
      linarith
    have e3 : |rv X + rv (a - H) - (x + q - W / 2)| ≤ 4.53 * (ν * W) := by
      rw [show rv X + rv (a - H) - (x + q - W / 2) = (rv X - x) + (rv (a - H) - (q - W / 2)) by ring]
      exact (abs_add_le _ _).trans (by linarith)
    obtain ⟨f2, r2⟩ := add_ok fX f1 (lt ((abs_near e3 t2).trans (by linarith)))
    refine ⟨f2, (round_step (r2.trans (le_add_of_nonneg_right n0.le)) e3 t2).trans ?_⟩
    have : ν * (W / 2 + 4.53 * (ν * W)) ≤ ν * W / 2 + 4.53 * (ν * W / 16000000) := by nlinarith
    linarith

/-- Quotients, before rounding. -/
theorem quotient_err {B D t P Q a b : ℝ} (hP : 0 < P) (hQ : 0 < Q) (a0 : 0 ≤ a) (b0 : 0 ≤ b) (b2 : b ≤ 2) (hB : |B - t| ≤ a * (ν * P)) (ht : |t| ≤ P / 2)
    (hD : |D - Q / 2| ≤ b * (ν * Q)) : 0 < D ∧ |B / D - t / (Q / 2)| ≤ 2.001 * (a + b) * (ν * (P / Q)) := by
  have v0 := ν_pos
  have v1 := ν_le
  have hνQ : b * (ν * Q) ≤ Q / 8000000 := by
    have : ν * Q ≤ Q / 16000000 := by nlinarith
    have : b * (ν * Q) ≤ 2 * (ν * Q) := mul_le_mul_of_nonneg_right b2 (by positivity)
    linarith
  have hD' : 0.4999 * Q ≤ D := by have := (abs_le.1 hD).1; linarith
  have D0 : 0 < D := by linarith
  refine ⟨D0, ?_⟩
  rw [show B / D - t / (Q / 2) = ((B - t) * (Q / 2) + -(t * (D - Q / 2))) / (D * (Q / 2)) by field_simp; ring, abs_div,
    abs_of_pos (show 0 < D * (Q / 2) by positivity), div_le_iff₀ (by positivity)]
  refine (abs_add_le _ _).trans ?_
  rw [abs_neg, abs_mul, abs_mul, abs_of_pos (show 0 < Q / 2 by positivity)]
  have h1 := mul_le_mul_of_nonneg_right hB (show 0 ≤ Q / 2 by positivity)
  have h2 := mul_le_mul ht hD (abs_nonneg _) (by positivity)
  have h3 : 2.001 * (a + b) * (ν * (P / Q)) * (D * (Q / 2)) = 2.001 * ((a + b) * (ν * P)) / 2 * D := by field_simp
  have h4 : 0 ≤ (a + b) * (ν * P) := by positivity
  have h5 : 2.001 * ((a + b) * (ν * P)) / 2 * (0.4999 * Q) ≤ 2.001 * ((a + b) * (ν * P)) / 2 * D := mul_le_mul_of_nonneg_left hD' (by positivity)
  have h6 : 0 ≤ (a + b) * (ν * P) * Q := by positivity
  rw [h3]
  refine le_trans ?_ h5
  refine (add_le_add h1 h2).trans ?_
  nlinarith

/-- Quotients. -/
theorem quotient_ok {B D : F32} {t P Q a b : ℝ} (fB : Fin' B) (fD : Fin' D) (hP : 1 ≤ P) (hP' : P ≤ 2 ^ 24) (hQ : 1 ≤ Q) (hQ' : Q ≤ 2 ^ 24) (a0 : 0 ≤ a) (a9 : a ≤ 9)
    (b0 : 0 ≤ b) (b2 : b ≤ 2) (hB : |rv B - t| ≤ a * (ν * P)) (ht : |t| ≤ P / 2) (hD : |rv D - Q / 2| ≤ b * (ν * Q)) :
    Fin' (B / D) ∧ |rv (B / D) - t / (Q / 2)| ≤ (2.001 * (a + b) + 1.001) * (ν * (P / Q)) := by
  have v0 := ν_pos
  have v1 := ν_le
  have P0 : 0 < P := by linarith
  have Q0 : 0 < Q := by linarith
  have hr : 1 / 2 ^ 24 ≤ P / Q := by
    rw [div_le_div_iff₀ (by norm_num) Q0]
    linarith
  have hr0 : 0 < P / Q := by positivity
  have hr2 : P / Q ≤ 2 ^ 24 := by
    rw [div_le_iff₀ Q0]
    nlinarith
  obtain ⟨D0, e⟩ := quotient_err P0 Q0 a0 b0 b2 hB ht hD
  have t1 : |t / (Q / 2)| ≤ P / Q := by
    rw [abs_div, abs_of_pos (show 0 < Q / 2 by positivity), div_le_div_iff₀ (by positivity) Q0]
    nlinarith
  have c1 : 2.001 * (a + b) ≤ 23 := by linarith
  have hs : ν * (P / Q) ≤ P / Q / 16000000 := by nlinarith
  have hs0 : 0 < ν * (P / Q) := by positivity
  have e' : 2.001 * (a + b) * (ν * (P / Q)) ≤ P / Q / 10000 := by nlinarith
  obtain ⟨f, r⟩ := Options.div_ok fB fD D0.ne' (lt_of_le_of_lt ((abs_near e t1).trans (show _ ≤ (2 : ℝ) ^ 25 by linarith)) (by norm_num))
  refine ⟨f, (round_step r e t1).trans ?_⟩
  have nv : η ≤ 0.0001 * (ν * (P / Q)) := by
    have : ν * (1 / 2 ^ 24) ≤ ν * (P / Q) := mul_le_mul_of_nonneg_left hr v0.le
    have h2 : η ≤ 0.0001 * (ν * (1 / 2 ^ 24)) := by unfold η ν; norm_num
    linarith
  have : ν * (P / Q + 2.001 * (a + b) * (ν * (P / Q))) ≤ ν * (P / Q + P / Q / 10000) := mul_le_mul_of_nonneg_left (by linarith) v0.le
  have h3 : ν * (P / Q + P / Q / 10000) = 1.0001 * (ν * (P / Q)) := by ring
  linarith

/-- The aspect ratio put on afterwards. -/
theorem aspect_ok {C w h : F32} {s W H : ℝ} (fC : Fin' C) (fw : Fin' w) (fh : Fin' h) (ew : rv w = W) (eh : rv h = H) (w1 : 1 ≤ W) (w2 : W ≤ 2 ^ 24) (h1 : 1 ≤ H)
    (h2 : H ≤ 2 ^ 24) (hs : |s| ≤ 1) (hC : |rv C - s| ≤ 12.2 * ν) : Fin' (C * w / h) ∧ |rv (C * w / h) - s * (W / H)| ≤ 14.9 * (ν * (W / H)) := by
  have v0 := ν_pos
  have v1 := ν_le
  have W0 : 0 < W := by linarith
  have H0 : 0 < H := by linarith
  have e1 : |rv C * rv w - s * W| ≤ 12.2 * (ν * W) := by
    rw [ew, ← sub_mul, abs_mul, abs_of_pos W0]
    nlinarith
  have t1 : |s * W| ≤ W := by
    rw [abs_mul, abs_of_pos W0]
    nlinarith
  have vW : ν * W ≤ W / 16000000 := by nlinarith
  have vW0 : 0 < ν * W := by positivity
  have vw : ν ≤ ν * W := le_mul_of_one_le_right v0.le w1
  obtain ⟨f1, r1⟩ := mul_ok fC fw (lt_of_le_of_lt ((abs_near e1 t1).trans (show _ ≤ (2 : ℝ) ^ 25 by linarith)) (by norm_num))
  have e2 : |rv (C * w) - s * W| ≤ 13.3 * (ν * W) := by
    refine (round_step r1 e1 t1).trans ?_
    have : ν * (W + 12.2 * (ν * W)) ≤ ν * (1.0001 * W) := mul_le_mul_of_nonneg_left (by linarith) v0.le
    have nv : η ≤ ν / 10 ^ 36 := η_le
    linarith
  have e3 : |rv (C * w) / rv h - s * (W / H)| ≤ 13.3 * (ν * (W / H)) := by
    rw [eh, show rv (C * w) / H - s * (W / H) = (rv (C * w) - s * W) / H by ring, abs_div, abs_of_pos H0, div_le_iff₀ H0]
    refine e2.trans (le_of_eq ?_)
    field_simp
  have t2 : |s * (W / H)| ≤ W / H := by
    rw [abs_mul, abs_of_pos (show 0 < W / H by positivity)]
    have : 0 < W / H := by positivity
    nlinarith
  have hr : 1 / 2 ^ 24 ≤ W / H := by
    rw [div_le_div_iff₀ (by norm_num) H0]
    linarith
  have hr0 : 0 < W / H := by positivity
  have hr2 : W / H ≤ 2 ^ 24 := by
    rw [div_le_iff₀ H0]
    nlinarith
  have hs' : ν * (W / H) ≤ W / H / 16000000 := by nlinarith
  have hs0 : 0 < ν * (W / H) := by positivity
  obtain ⟨f2, r2⟩ := Options.div_ok f1 fh (by rw [eh]; exact H0.ne') (lt_of_le_of_lt ((abs_near e3 t2).trans (show _ ≤ (2 : ℝ) ^ 25 by linarith)) (by norm_num))
  refine ⟨f2, (round_step r2 e3 t2).trans ?_⟩
  have nv : η ≤ 0.0001 * (ν * (W / H)) := by
    have : ν * (1 / 2 ^ 24) ≤ ν * (W / H) := mul_le_mul_of_nonneg_left hr v0.le
    have h2 : η ≤ 0.0001 * (ν * (1 / 2 ^ 24)) := by unfold η ν; norm_num
    linarith
  have : ν * (W / H + 13.3 * (ν * (W / H))) ≤ ν * (1.0001 * (W / H)) := mul_le_mul_of_nonneg_left (by linarith) v0.le
  linarith

end PackedSimd.F32R
