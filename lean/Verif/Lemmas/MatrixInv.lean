import Verif.Lemmas.MatrixFloat
/-
The matrix inverse example on matrices whose determinants `f32` computes without rounding errors.
-/
namespace PackedSimd.F32R
open Spec Ex

variable {k : ℤ}

/-! ### The final scaling -/

/-- Doubling is exact. -/
theorem double_ok {a : F32} (ha : Fin' a) (h : |rv a| ≤ 2 ^ 97) : Fin' (a + a) ∧ rv (a + a) = rv a + rv a := by
  have hlt : |rv a + rv a| < 2 ^ 127 := lt_of_le_of_lt (abs_add_le _ _) (by norm_num at h ⊢; linarith)
  have hf := (add_ok ha ha hlt).1
  refine ⟨hf, ?_⟩
  have hv := valueOf_finite ha
  have hrv : rv a = _ := realVal_num hv
  rw [low_eq] at hrv
  obtain ⟨s, q, hc, hq, hsq⟩ := exists_mk (man := 23) (magBits a.bits)
  have hm : magUnits 23 (magBits a.bits) = q * 2 ^ s := by rw [hc]; exact magUnits_mk (by omega) hsq
  have habs : |rv a| = (q : ℝ) * 2 ^ s / 2 ^ 149 := by
    rw [hrv, abs_div, abs_of_pos (by positivity : (0 : ℝ) < 2 ^ 149), hm]
    congr 1
    split <;> simp
  have hs : s ≤ 244 := by
    rcases hsq with rfl | hq'
    · omega
    · by_contra hs
      rw [habs] at h
      have h1 : (2 : ℝ) ^ 23 * 2 ^ 245 ≤ q * 2 ^ s :=
        mul_le_mul (by exact_mod_cast hq') (pow_le_pow_right₀ (by norm_num) (by omega)) (by positivity) (by positivity)
      rw [div_le_iff₀ (by positivity)] at h
      have h2 := h1.trans h
      norm_num at h2
  have hr := add_rounds fmt a.bits a.bits
  unfold exactAdd at hr
  rw [hv] at hr
  refine exact_of_rounds hr ?_ hf (if isNeg a.bits = true then -(q : ℤ) else q) (by split <;> omega) (s + 1) (by omega) ?_
  · rw [hrv]
    push_cast
    ring
  · rw [hrv, hm, pow_succ]
    split <;> push_cast <;> ring

theorem rel_delta {x v : ℝ} (hv : v ≠ 0) (h : |x - v| ≤ ν * |v|) : ∃ δ, |δ| ≤ ν ∧ x = v * (1 + δ) := by
  refine ⟨(x - v) / v, ?_, by field_simp; ring⟩
  rw [abs_div, div_le_iff₀ (abs_pos.2 hv)]
  exact h

theorem rel_bounds {x v δ : ℝ} (hδ : |δ| ≤ 1 / 4) (h : x = v * (1 + δ)) : |v| / 2 ≤ |x| ∧ |x| ≤ 2 * |v| := by
  obtain ⟨h1, h2⟩ := abs_le.1 hδ
  rw [h, abs_mul, abs_of_pos (show 0 < 1 + δ by linarith)]
  constructor <;> nlinarith [abs_nonneg v]

/-- Sizes of the determinant and its inverse. -/
theorem det_size (hk : |k| ≤ 24) {b : ℕ} {d : F32} {D : ℝ} (h : IsMul k 4 b d D) (hb : b ≤ 2 ^ 24) (h0 : D ≠ 0) :
    (2 : ℝ) ^ (4 * k) ≤ |D| ∧ |D| ≤ 2 ^ 24 * 2 ^ (4 * k) := by
  obtain ⟨-, -, z, hz, hzb⟩ := h
  have hu : (0 : ℝ) < 2 ^ (4 * k) := zpow_pos (by norm_num) _
  have e : D = z * 2 ^ (4 * k) := by rw [hz]; norm_num [mul_comm]
  have hz0 : z ≠ 0 := by rintro rfl; simp at e; exact h0 e
  have h1 : (1 : ℝ) ≤ |(z : ℝ)| := by rw [← Int.cast_abs]; exact_mod_cast Int.one_le_abs hz0
  have h2 : |(z : ℝ)| ≤ 2 ^ 24 := by rw [← Int.cast_abs, ← Nat.cast_natAbs]; exact_mod_cast hzb.trans hb
  rw [e, abs_mul, abs_of_pos hu]
  constructor <;> nlinarith

theorem cof_size {b : ℕ} {c : F32} {C : ℝ} (h : IsMul k 3 b c C) (hb : b ≤ 2 ^ 24) (h0 : C ≠ 0) :
    (2 : ℝ) ^ (3 * k) ≤ |C| ∧ |C| ≤ 2 ^ 24 * 2 ^ (3 * k) := by
  obtain ⟨-, -, z, hz, hzb⟩ := h
  have hu : (0 : ℝ) < 2 ^ (3 * k) := zpow_pos (by norm_num) _
  have e : C = z * 2 ^ (3 * k) := by rw [hz]; norm_num [mul_comm]
  have hz0 : z ≠ 0 := by rintro rfl; simp at e; exact h0 e
  have h1 : (1 : ℝ) ≤ |(z : ℝ)| := by rw [← Int.cast_abs]; exact_mod_cast Int.one_le_abs hz0
  have h2 : |(z : ℝ)| ≤ 2 ^ 24 := by rw [← Int.cast_abs, ← Nat.cast_natAbs]; exact_mod_cast hzb.trans hb
  rw [e, abs_mul, abs_of_pos hu]
  constructor <;> nlinarith

theorem zpow_mono' {a b : ℤ} (h : a ≤ b) : (2 : ℝ) ^ a ≤ 2 ^ b := zpow_le_zpow_right₀ (by norm_num) h

theorem inv_size (hk : |k| ≤ 24) {D : ℝ} (h : (2 : ℝ) ^ (4 * k) ≤ |D| ∧ |D| ≤ 2 ^ 24 * 2 ^ (4 * k)) :
    1 / 2 ^ 120 ≤ |1 / D| ∧ |1 / D| ≤ 2 ^ 96 := by
  obtain ⟨k1, k2⟩ := abs_le.1 hk
  obtain ⟨h1, h2⟩ := h
  have hu : (0 : ℝ) < 2 ^ (4 * k) := zpow_pos (by norm_num) _
  have u1 : (2 : ℝ) ^ (-96 : ℤ) ≤ 2 ^ (4 * k) := zpow_mono' (by omega)
  have u2 : (2 : ℝ) ^ (4 * k) ≤ 2 ^ (96 : ℤ) := zpow_mono' (by omega)
  have hD : 0 < |D| := lt_of_lt_of_le hu h1
  rw [abs_div, abs_one]
  constructor
  · refine one_div_le_one_div_of_le hD (h2.trans ?_)
    calc _ ≤ (2 : ℝ) ^ 24 * 2 ^ (96 : ℤ) := mul_le_mul_of_nonneg_left u2 (by norm_num)
      _ = _ := by norm_num
  · rw [div_le_iff₀ hD]
    calc (1 : ℝ) = 2 ^ 96 * 2 ^ (-96 : ℤ) := by norm_num
      _ ≤ _ := mul_le_mul_of_nonneg_left (u1.trans h1) (by norm_num)

theorem ratio_size (hk : |k| ≤ 24) {C D : ℝ} (h : (2 : ℝ) ^ (4 * k) ≤ |D| ∧ |D| ≤ 2 ^ 24 * 2 ^ (4 * k))
    (h' : (2 : ℝ) ^ (3 * k) ≤ |C| ∧ |C| ≤ 2 ^ 24 * 2 ^ (3 * k)) : 1 / 2 ^ 48 ≤ |C * (1 / D)| ∧ |C * (1 / D)| ≤ 2 ^ 48 := by
  obtain ⟨k1, k2⟩ := abs_le.1 hk
  obtain ⟨h1, h2⟩ := h
  obtain ⟨h3, h4⟩ := h'
  have hu : (0 : ℝ) < 2 ^ (4 * k) := zpow_pos (by norm_num) _
  have hu3 : (0 : ℝ) < 2 ^ (3 * k) := zpow_pos (by norm_num) _
  have e : (2 : ℝ) ^ (4 * k) = 2 ^ (3 * k) * 2 ^ k := by rw [← zpow_add₀ (by norm_num)]; congr 1; ring
  have u1 : (2 : ℝ) ^ (-24 : ℤ) ≤ 2 ^ k := zpow_mono' k1
  have u2 : (2 : ℝ) ^ k ≤ 2 ^ (24 : ℤ) := zpow_mono' k2
  norm_num at u1 u2
  have hD : 0 < |D| := lt_of_lt_of_le hu h1
  rw [abs_mul, abs_div, abs_one, mul_one_div]
  constructor
  · rw [le_div_iff₀ hD]
    refine le_trans ?_ h3
    calc 1 / 2 ^ 48 * |D| ≤ 1 / 2 ^ 48 * (2 ^ 24 * (2 ^ (3 * k) * 2 ^ k)) := by rw [← e]; exact mul_le_mul_of_nonneg_left h2 (by norm_num)
      _ = 2 ^ (3 * k) * (1 / 2 ^ 24 * 2 ^ k) := by ring
      _ ≤ 2 ^ (3 * k) * 1 := mul_le_mul_of_nonneg_left (by norm_num; linarith) hu3.le
      _ = _ := mul_one _
  · rw [div_le_iff₀ hD]
    calc |C| ≤ 2 ^ 24 * 2 ^ (3 * k) := h4
      _ = 2 ^ 48 * (2 ^ (3 * k) * (1 / 2 ^ 24)) := by ring
      _ ≤ 2 ^ 48 * (2 ^ (3 * k) * 2 ^ k) := by
        refine mul_le_mul_of_nonneg_left (mul_le_mul_of_nonneg_left ?_ hu3.le) (by norm_num)
        norm_num
        linarith
      _ ≤ _ := by rw [← e]; exact mul_le_mul_of_nonneg_left h1 (by norm_num)

/-- Multiplication by an approximate inverse of the determinant. -/
theorem scale_ok {c y : F32} {C t ε : ℝ} (hc : Fin' c) (hC : rv c = C) (hy : Fin' y) (hr : C = 0 ∨ 1 / 2 ^ 48 ≤ |C * t| ∧ |C * t| ≤ 2 ^ 48)
    (hε : ε ≤ 1 / 4) (h : |rv y - t| ≤ ε * |t|) (hε0 : 0 ≤ ε) :
    Fin' (c * y) ∧ |rv (c * y) - C * t| ≤ (ε + ν * (1 + ε)) * |C * t| := by
  have hν := ν_pos
  have e1 : |C * rv y - C * t| ≤ ε * |C * t| := by
    rw [← mul_sub, abs_mul, abs_mul]
    calc |C| * |rv y - t| ≤ |C| * (ε * |t|) := mul_le_mul_of_nonneg_left h (abs_nonneg _)
      _ = _ := by ring
  have e2 : |C * rv y| ≤ (1 + ε) * |C * t| := by
    have : C * rv y = (C * rv y - C * t) + C * t := by ring
    rw [this]
    refine (abs_add_le _ _).trans ?_
    linarith
  have e3 : (1 - ε) * |C * t| ≤ |C * rv y| := by
    have := abs_sub_abs_le_abs_sub (C * t) (C * rv y)
    rw [abs_sub_comm] at this
    linarith
  have hz : rv c * rv y = 0 ∨ 1 / 2 ^ 126 ≤ |rv c * rv y| := by
    rw [hC]
    rcases hr with rfl | hr
    · left; rw [zero_mul]
    · right
      refine le_trans ?_ e3
      calc (1 : ℝ) / 2 ^ 126 ≤ 3 / 4 * (1 / 2 ^ 48) := by norm_num
        _ ≤ _ := mul_le_mul (by linarith) hr.1 (by norm_num) (by linarith)
  have hlt : |rv c * rv y| < 2 ^ 127 := by
    rw [hC]
    rcases hr with rfl | hr
    · rw [zero_mul, abs_zero]; norm_num
    · refine lt_of_le_of_lt e2 ?_
      calc (1 + ε) * |C * t| ≤ 2 * 2 ^ 48 := mul_le_mul (by linarith) hr.2 (abs_nonneg _) (by norm_num)
        _ < _ := by norm_num
  obtain ⟨hf, he⟩ := mul_rel hc hy hlt hz
  refine ⟨hf, ?_⟩
  rw [hC] at he
  have : rv (c * y) - C * t = (rv (c * y) - C * rv y) + (C * rv y - C * t) := by ring
  rw [this]
  refine (abs_add_le _ _).trans ?_
  have : ν * |C * rv y| ≤ ν * ((1 + ε) * |C * t|) := mul_le_mul_of_nonneg_left e2 hν.le
  linarith

/-- `1 / det`. -/
theorem recip_gen {d : F32} {D : ℝ} (fd : Fin' d) (hd : rv d = D) (h0 : D ≠ 0) (s1 : 1 / 2 ^ 120 ≤ |1 / D|) (s2 : |1 / D| ≤ 2 ^ 96) :
    Fin' (1 / d) ∧ |rv (1 / d) - 1 / D| ≤ ν * |1 / D| := by
  have := div_rel one_ok.1 fd (by rw [hd]; exact h0) (by rw [one_ok.2, hd]; exact lt_of_le_of_lt s2 (by norm_num))
    (by rw [one_ok.2, hd]; exact le_trans (by norm_num) s1)
  rwa [one_ok.2, hd] at this
theorem recip_ok (hk : |k| ≤ 24) {b : ℕ} {d : F32} {D : ℝ} (h : IsMul k 4 b d D) (hb : b ≤ 2 ^ 24) (h0 : D ≠ 0) :
    Fin' (1 / d) ∧ |rv (1 / d) - 1 / D| ≤ ν * |1 / D| := by
  obtain ⟨s1, s2⟩ := inv_size hk (det_size hk h hb h0)
  obtain ⟨fd, hd, -⟩ := h
  exact recip_gen fd hd h0 s1 s2

/-- The polynomial of the Newton step. -/
theorem newton_poly {d1 d2 d3 d4 : ℝ} (h1 : |d1| ≤ ν) (h2 : |d2| ≤ ν) (h3 : |d3| ≤ ν) (h4 : |d4| ≤ ν) :
    |(2 * (1 + d1) - (1 + d1) ^ 2 * (1 + d2) * (1 + d3)) * (1 + d4) - 1| ≤ 3.001 * ν := by
  have hν := ν_pos
  have hνl := ν_le
  have q11 : |d1 * d1| ≤ ν * ν := by rw [abs_mul]; exact mul_le_mul h1 h1 (abs_nonneg _) hν.le
  have q23 : |d2 * d3| ≤ ν * ν := by rw [abs_mul]; exact mul_le_mul h2 h3 (abs_nonneg _) hν.le
  set S := d2 + d3 + d2 * d3 with hS
  have hSb : |S| ≤ 2 * ν + ν * ν := by
    rw [hS]
    refine (abs_add_le _ _).trans ?_
    have := abs_add_le d2 d3
    linarith
  set Q := (1 + d1) ^ 2 with hQ
  have hQb : |Q| ≤ 1.0001 := by
    have : Q = 1 + 2 * d1 + d1 * d1 := by rw [hQ]; ring
    rw [this]
    obtain ⟨a1, a2⟩ := abs_le.1 h1
    obtain ⟨b1, b2⟩ := abs_le.1 q11
    rw [abs_le]
    constructor <;> nlinarith
  set E := -(d1 * d1) - Q * S with hE
  have hEb : |E| ≤ 2.0005 * ν := by
    rw [hE]
    refine (abs_sub _ _).trans ?_
    rw [abs_neg]
    have : |Q * S| ≤ 1.0001 * (2 * ν + ν * ν) := by
      rw [abs_mul]
      exact mul_le_mul hQb hSb (abs_nonneg _) (by norm_num)
    nlinarith
  have e : (2 * (1 + d1) - Q * (1 + d2) * (1 + d3)) * (1 + d4) - 1 = E + d4 + E * d4 := by
    have : Q * (1 + d2) * (1 + d3) = Q + Q * S := by rw [hS]; ring
    rw [this, hE, hQ]
    ring
  rw [e]
  refine (abs_add_le _ _).trans ?_
  have h5 : |E * d4| ≤ 2.0005 * ν * ν := by rw [abs_mul]; exact mul_le_mul hEb h4 (abs_nonneg _) (by positivity)
  have := abs_add_le E d4
  nlinarith

/-- The Newton step (which makes the error of the inverse greater). -/
theorem newton_gen {d : F32} {D : ℝ} (fd : Fin' d) (hd : rv d = D) (h0 : D ≠ 0) (s1 : 1 / 2 ^ 120 ≤ |1 / D|) (s2 : |1 / D| ≤ 2 ^ 96) :
    Fin' (1 / d + 1 / d - d * (1 / d) * (1 / d)) ∧ |rv (1 / d + 1 / d - d * (1 / d) * (1 / d)) - 1 / D| ≤ 3.001 * ν * |1 / D| := by
  have hν := ν_pos
  have hν4 : ν ≤ 1 / 4 := ν_le.trans (by norm_num)
  obtain ⟨fy, ey⟩ := recip_gen fd hd h0 s1 s2
  have ht : 1 / D ≠ 0 := one_div_ne_zero h0
  obtain ⟨d1, hd1, e1⟩ := rel_delta ht ey
  obtain ⟨y1, y2⟩ := rel_bounds (hd1.trans hν4) e1
  obtain ⟨fs, es⟩ := double_ok fy (y2.trans (by norm_num at s2 ⊢; linarith))
  have hDy : rv d * rv (1 / d) = 1 * (1 + d1) := by rw [hd, e1]; field_simp
  obtain ⟨a1, a2⟩ := abs_le.1 (hd1.trans hν4)
  have hDy' : 3 / 4 ≤ |rv d * rv (1 / d)| ∧ |rv d * rv (1 / d)| ≤ 5 / 4 := by
    rw [hDy, abs_of_pos (by linarith)]
    constructor <;> linarith
  obtain ⟨fp, ep⟩ := mul_rel fd fy (lt_of_le_of_lt hDy'.2 (by norm_num)) (.inr (le_trans (by norm_num) hDy'.1))
  obtain ⟨d2, hd2, e2⟩ := rel_delta (by rw [hDy]; exact mul_ne_zero one_ne_zero (by linarith)) ep
  obtain ⟨p1, p2⟩ := rel_bounds (hd2.trans hν4) e2
  have hq : |rv (d * (1 / d)) * rv (1 / d)| < 2 ^ 127 := by
    rw [abs_mul]
    calc _ ≤ (2 * (5 / 4)) * (2 * 2 ^ 96) := mul_le_mul (p2.trans (by linarith [hDy'.2])) (y2.trans (by linarith)) (abs_nonneg _) (by norm_num)
      _ < (2 : ℝ) ^ 127 := by norm_num
  have hq' : 1 / 2 ^ 126 ≤ |rv (d * (1 / d)) * rv (1 / d)| := by
    rw [abs_mul]
    calc (1 : ℝ) / 2 ^ 126 ≤ (3 / 4 / 2) * (1 / 2 ^ 120 / 2) := by norm_num
      _ ≤ _ := mul_le_mul (le_trans (by linarith [hDy'.1]) p1) (le_trans (by linarith) y1) (by norm_num) (abs_nonneg _)
  obtain ⟨fq, eq⟩ := mul_rel fp fy hq (.inr hq')
  obtain ⟨d3, hd3, e3⟩ := rel_delta (fun hz => by rw [hz, abs_zero] at hq'; norm_num at hq') eq
  have hsub : rv (1 / d + 1 / d) - rv (d * (1 / d) * (1 / d)) = 1 / D * (2 * (1 + d1) - (1 + d1) ^ 2 * (1 + d2) * (1 + d3)) := by
    rw [es, e3, e2, hDy, e1]; ring
  have hpoly := newton_poly hd1 hd2 hd3 (d4 := 0) (by rw [abs_zero]; exact hν.le)
  rw [add_zero, mul_one] at hpoly
  have hP : |2 * (1 + d1) - (1 + d1) ^ 2 * (1 + d2) * (1 + d3)| ≤ 2 ∧ 2 * (1 + d1) - (1 + d1) ^ 2 * (1 + d2) * (1 + d3) ≠ 0 := by
    obtain ⟨b1, b2⟩ := abs_le.1 hpoly
    have := ν_le
    refine ⟨abs_le.2 ⟨by linarith, by linarith⟩, fun hz => ?_⟩
    rw [hz] at b1
    linarith
  have hlt : |rv (1 / d + 1 / d) - rv (d * (1 / d) * (1 / d))| < 2 ^ 127 := by
    rw [hsub, abs_mul]
    calc _ ≤ (2 : ℝ) ^ 96 * 2 := mul_le_mul s2 hP.1 (abs_nonneg _) (by norm_num)
      _ < _ := by norm_num
  obtain ⟨fr, er⟩ := sub_ok fs fq hlt
  refine ⟨fr, ?_⟩
  obtain ⟨d4, hd4, e4⟩ := rel_delta (by rw [hsub]; exact mul_ne_zero ht hP.2) er
  have e5 : rv (1 / d + 1 / d - d * (1 / d) * (1 / d)) - 1 / D =
      ((2 * (1 + d1) - (1 + d1) ^ 2 * (1 + d2) * (1 + d3)) * (1 + d4) - 1) * (1 / D) := by rw [e4, hsub]; ring
  rw [e5, abs_mul]
  exact mul_le_mul_of_nonneg_right (newton_poly hd1 hd2 hd3 hd4) (abs_nonneg _)
theorem newton_ok (hk : |k| ≤ 24) {b : ℕ} {d : F32} {D : ℝ} (h : IsMul k 4 b d D) (hb : b ≤ 2 ^ 24) (h0 : D ≠ 0) :
    Fin' (1 / d + 1 / d - d * (1 / d) * (1 / d)) ∧ |rv (1 / d + 1 / d - d * (1 / d) * (1 / d)) - 1 / D| ≤ 3.001 * ν * |1 / D| := by
  obtain ⟨s1, s2⟩ := inv_size hk (det_size hk h hb h0)
  exact newton_gen h.1 h.2.1 h0 s1 s2

end PackedSimd.F32R
