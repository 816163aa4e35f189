import Verif.Spec.NbodyEnergy
import Verif.Lemmas.NbodyRun
import Verif.Lemmas.NbodyFloat
import Verif.Lemmas.SpectralFloat
import Verif.Lemmas.AoBytes
/-
Rounding errors in the energy of the nbody programs.
-/
namespace PackedSimd.Ex.Nbody
open Spec F64N

/-! ### Squares -/

theorem value_of_rv_zero {a : F64} (ha : IsFinite 52 a.bits) (h : rv a = 0) : valueOf 52 a.bits = .num 0 := by
  obtain ⟨z, hz⟩ := ha
  unfold rv at h
  rw [realVal_num hz] at h
  have : (z : ℝ) = 0 := by
    rcases div_eq_zero_iff.1 h with h | h
    · exact h
    · exact absurd h (by positivity)
  rw [hz, Int.cast_eq_zero.1 this]

theorem near_of_zero {k : Nat} {x : F64} (h : valueOf 52 x.bits = .num 0) : Near k x 0 := by
  have e : rv x = 0 := by unfold rv; rw [realVal_num h]; simp
  exact ⟨⟨_, h⟩, le_rfl, by rw [e, zero_mul], by rw [e, zero_mul]⟩

theorem near_value_zero {k : Nat} {x : F64} (h : Near k x 0) : valueOf 52 x.bits = .num 0 := by
  refine value_of_rv_zero h.1 (le_antisymm ?_ h.nonneg)
  have := h.2.2.1
  rwa [zero_mul] at this

theorem rep_zero : Representable 64 52 0 := representable_units (x := (0 : F64).bits) (by decide +kernel)

theorem near_zero_mul {k m j : Nat} {a b : F64} {β : ℝ} (ha : Near k a 0) (hb : Near m b β) : Near j (a * b) 0 ∧ Near j (b * a) 0 := by
  obtain ⟨z, hz⟩ := hb.1
  exact ⟨near_of_zero (mul_exact fmt64 (near_value_zero ha) hz (by simp) rep_zero), near_of_zero (mul_exact fmt64 hz (near_value_zero ha) (by simp) rep_zero)⟩

theorem near_zero_div {k j : Nat} {a b : F64} (ha : Near k a 0) (hb : IsFinite 52 b.bits) (hp : 0 < rv b) : Near j (a / b) 0 := by
  obtain ⟨z, hz⟩ := hb
  unfold rv at hp
  rw [realVal_num hz] at hp
  have hz0 : 0 < z := by
    have h2 : (0 : ℝ) < 2 ^ low 64 52 := by positivity
    have := (div_pos_iff_of_pos_right h2).1 hp
    exact_mod_cast this
  exact near_of_zero (div_exact fmt64 (near_value_zero ha) hz hz0 (by simp) rep_zero)

/-- The square of a number known up to `k` roundings. -/
theorem near_sq {k : Nat} (hk : k ≤ 10) {d : F64} {y : ℝ} (hd : IsFinite 52 d.bits) (h1 : |rv d| ≤ |y| * ρ ^ k) (h2 : |y| ≤ |rv d| * ρ ^ k) (hy : Ordinary y) :
    Near (2 * k + 1) (d * d) (y * y) := by
  rcases hy with rfl | ⟨hy1, hy2⟩
  · rw [abs_zero, zero_mul] at h1
    have h0 := value_of_rv_zero hd (abs_nonpos_iff.1 h1)
    rw [mul_zero]
    exact near_of_zero (mul_exact fmt64 h0 h0 (by simp) rep_zero)
  · have hp := pow_pos ρ_pos k
    have e2 : ρ ^ (2 * k) = ρ ^ k * ρ ^ k := by rw [two_mul, pow_add]
    have yy : y * y = |y| * |y| := (abs_mul_abs_self y).symm
    have dd : rv d * rv d = |rv d| * |rv d| := (abs_mul_abs_self _).symm
    have g1 : rv d * rv d ≤ y * y * ρ ^ (2 * k) := by
      rw [yy, dd, e2]
      calc _ ≤ (|y| * ρ ^ k) * (|y| * ρ ^ k) := mul_le_mul h1 h1 (abs_nonneg _) (mul_nonneg (abs_nonneg _) hp.le)
        _ = _ := by ring
    have g2 : y * y ≤ rv d * rv d * ρ ^ (2 * k) := by
      rw [yy, dd, e2]
      calc _ ≤ (|rv d| * ρ ^ k) * (|rv d| * ρ ^ k) := mul_le_mul h2 h2 (abs_nonneg _) (mul_nonneg (abs_nonneg _) hp.le)
        _ = _ := by ring
    have l1 : 1 / 2 ^ 500 ≤ y * y := by
      rw [yy]
      refine le_trans ?_ (mul_le_mul hy1 hy1 (by positivity) (abs_nonneg _))
      rw [div_mul_div_comm, one_mul, ← pow_add]
      exact one_div_le_one_div_of_le (by positivity) (pow_le_pow_right₀ (by norm_num) (by norm_num))
    have l2 : y * y ≤ 2 ^ 500 := by
      rw [yy]
      refine (mul_le_mul hy2 hy2 (abs_nonneg _) (by positivity)).trans ?_
      rw [← pow_add]
      exact pow_le_pow_right₀ (by norm_num) (by norm_num)
    have hk' : 2 * k ≤ 2 ^ 52 := by omega
    have hv : 1 / 2 ^ 1022 ≤ rv d * rv d := le_of_mul_le_mul_right ((SpecF.not_small hk' l1).trans g2) (pow_pos ρ_pos _)
    have h0 : 0 ≤ rv d * rv d := mul_self_nonneg _
    have h := flt_mul fmt64 hd hd
    rw [show realVal 52 d.bits * realVal 52 d.bits = rv d * rv d from rfl, max_normal hv] at h
    have hfin : IsFinite 52 (d * d).bits := h.1.2 (by rw [abs_of_nonneg h0]; exact lt_of_lt_of_le (g1.trans_lt (SpecF.in_range hk' l2 (mul_self_nonneg y))) overflow64)
    exact near_round hfin (mul_self_nonneg y) h0 g1 g2 (h.2.1 hfin)

theorem near_sq0 {v : F64} (hv : IsFinite 52 v.bits) (h : Ordinary (toReal v)) : Near 1 (v * v) (toReal v * toReal v) :=
  near_sq (k := 0) (by omega) (y := toReal v) hv (by rw [pow_zero, mul_one]; rfl) (by rw [pow_zero, mul_one]; rfl) h

theorem near_sqdiff {a b : F64} (ha : IsFinite 52 a.bits) (hb : IsFinite 52 b.bits) (h : Ordinary (toReal a - toReal b)) :
    Near 3 ((a - b) * (a - b)) ((toReal a - toReal b) * (toReal a - toReal b)) := by
  have hr := flt_sub fmt64 ha hb
  rw [show realVal 52 a.bits - realVal 52 b.bits = toReal a - toReal b from rfl, u_eq] at hr
  set y := toReal a - toReal b with hy
  have hle : |y| ≤ 2 ^ 100 := by
    rcases h with h | h
    · rw [h, abs_zero]; positivity
    · exact h.2
  have hfin : IsFinite 52 (a - b).bits := hr.1.2 (lt_of_lt_of_le (lt_of_le_of_lt hle (pow_lt_pow_right₀ (by norm_num) (by norm_num))) overflow64)
  have he : |rv (a - b) - y| ≤ u * |y| := hr.2.1 hfin
  have hu := u_pos
  have hul := u_lt
  have hy0 := abs_nonneg y
  refine near_sq (k := 1) (by omega) hfin ?_ ?_ h
  · rw [pow_one]
    have h1 := abs_sub_abs_le_abs_sub (rv (a - b)) y
    have : |y| * ρ = |y| + u * (|y| * ρ) := by linear_combination |y| * ρ_mul
    have h3 := mul_le_mul_of_nonneg_left (le_mul_of_one_le_right hy0 ρ_ge) hu.le
    linarith
  · rw [pow_one]
    have h1 := abs_sub_abs_le_abs_sub y (rv (a - b))
    rw [abs_sub_comm y (rv (a - b))] at h1
    have h3 : (|y| * (1 - u)) * ρ ≤ |rv (a - b)| * ρ := mul_le_mul_of_nonneg_right (by linarith) ρ_pos.le
    have : |y| * (1 - u) * ρ = |y| := by linear_combination |y| * ρ_mul
    linarith

theorem Ordinary.sq_le {y : ℝ} (h : Ordinary y) : y * y ≤ 2 ^ 200 := by
  rw [← abs_mul_abs_self]
  rcases h with h | h
  · rw [h]; norm_num
  · refine (mul_le_mul h.2 h.2 (abs_nonneg _) (by positivity)).trans ?_
    rw [← pow_add]

theorem Ordinary.sq_ge {y : ℝ} (h : Ordinary y) (h0 : y ≠ 0) : 1 / 2 ^ 200 ≤ y * y := by
  rw [← abs_mul_abs_self]
  rcases h with h | h
  · exact absurd h h0
  · refine le_trans ?_ (mul_le_mul h.1 h.1 (by positivity) (abs_nonneg _))
    rw [div_mul_div_comm, one_mul, ← pow_add]

/-! ### The terms -/

theorem pow_le' {a b : Nat} (h : a ≤ b) : (2 : ℝ) ^ a ≤ 2 ^ b := pow_le_pow_right₀ (by norm_num) h
theorem inv_pow_le' {a b : Nat} (h : a ≤ b) : (1 : ℝ) / 2 ^ b ≤ 1 / 2 ^ a := one_div_le_one_div_of_le (by positivity) (pow_le' h)

/-- Kinetic energy, as the scalar program computes it. -/
theorem near_kin {m s two : F64} {σ : ℝ} {k : Nat} (hk : k ≤ 10) (hm : IsFinite 52 m.bits) (hm0 : 0 < toReal m) (hm1 : Ordinary (toReal m)) (h2 : IsFinite 52 two.bits)
    (h2' : toReal two = 2) (hs : Near k s σ) (hσ : σ = 0 ∨ 1 / 2 ^ 200 ≤ σ) (hσ' : σ ≤ 2 ^ 202) : Near (k + 2) (s * m / two) (σ * toReal m / 2) := by
  have nm : Near 0 m (toReal m) := ⟨hm, hm0.le, by rw [pow_zero, mul_one]; rfl, by rw [pow_zero, mul_one]; rfl⟩
  have n2 : Near 0 two 2 := ⟨h2, by norm_num, by rw [pow_zero, mul_one]; exact h2'.le, by rw [pow_zero, mul_one]; exact h2'.ge⟩
  rcases hσ with rfl | hσ
  · rw [zero_mul, zero_div]
    exact near_zero_div (near_zero_mul (j := 0) hs nm).1 h2 (by rw [show rv two = 2 from h2']; norm_num)
  · obtain ⟨m1, m2⟩ : 1 / 2 ^ 100 ≤ toReal m ∧ toReal m ≤ 2 ^ 100 := by
      rcases hm1 with h | h
      · exact absurd h hm0.ne'
      · rwa [abs_of_pos hm0] at h
    have l1 : 1 / 2 ^ 300 ≤ σ * toReal m := by
      refine le_trans ?_ (mul_le_mul hσ m1 (by positivity) (le_trans (by positivity) hσ))
      rw [div_mul_div_comm, one_mul, ← pow_add]
    have l2 : σ * toReal m ≤ 2 ^ 302 := by
      refine (mul_le_mul hσ' m2 hm0.le (by positivity)).trans ?_
      rw [← pow_add]
    have a := near_mul hs nm (SpecF.in_range (by omega) (l2.trans (pow_le' (by norm_num))) (le_trans (by positivity) l1))
      (SpecF.not_small (by omega) ((inv_pow_le' (by norm_num)).trans l1))
    have l0 : 0 ≤ σ * toReal m := le_trans (by positivity) l1
    refine near_div (k := k + 1) (m := 0) a n2 (by norm_num) (SpecF.in_range (by omega) ?_ ?_) (SpecF.not_small (by omega) ?_)
    · exact (half_le_self l0).trans (l2.trans (pow_le' (by norm_num)))
    · exact div_nonneg l0 (by norm_num)
    · rw [le_div_iff₀ (by norm_num)]
      refine le_trans ?_ l1
      rw [div_mul_eq_mul_div, one_mul, div_le_div_iff₀ (by positivity) (by positivity), one_mul, ← pow_succ']
      exact pow_le' (by norm_num)

/-- Kinetic energy, as the vector program computes it. -/
theorem near_kin' {m s half : F64} {σ : ℝ} {k : Nat} (hk : k ≤ 10) (hm : IsFinite 52 m.bits) (hm0 : 0 < toReal m) (hm1 : Ordinary (toReal m)) (h2 : IsFinite 52 half.bits)
    (h2' : toReal half = 1 / 2) (hs : Near k s σ) (hσ : σ = 0 ∨ 1 / 2 ^ 200 ≤ σ) (hσ' : σ ≤ 2 ^ 202) : Near (k + 2) (m * s * half) (toReal m * σ * (1 / 2)) := by
  have nm : Near 0 m (toReal m) := ⟨hm, hm0.le, by rw [pow_zero, mul_one]; rfl, by rw [pow_zero, mul_one]; rfl⟩
  have n2 : Near 0 half (1 / 2) := ⟨h2, by norm_num, by rw [pow_zero, mul_one]; exact h2'.le, by rw [pow_zero, mul_one]; exact h2'.ge⟩
  rcases hσ with rfl | hσ
  · rw [mul_zero, zero_mul]
    exact (near_zero_mul (near_zero_mul (j := 0) hs nm).2 n2).1
  · obtain ⟨m1, m2⟩ : 1 / 2 ^ 100 ≤ toReal m ∧ toReal m ≤ 2 ^ 100 := by
      rcases hm1 with h | h
      · exact absurd h hm0.ne'
      · rwa [abs_of_pos hm0] at h
    have l1 : 1 / 2 ^ 300 ≤ toReal m * σ := by
      rw [mul_comm]
      refine le_trans ?_ (mul_le_mul hσ m1 (by positivity) (le_trans (by positivity) hσ))
      rw [div_mul_div_comm, one_mul, ← pow_add]
    have l2 : toReal m * σ ≤ 2 ^ 302 := by
      rw [mul_comm]
      refine (mul_le_mul hσ' m2 hm0.le (by positivity)).trans ?_
      rw [← pow_add]
    have a := near_mul nm hs (SpecF.in_range (by omega) (l2.trans (pow_le' (by norm_num))) (le_trans (by positivity) l1))
      (SpecF.not_small (by omega) ((inv_pow_le' (by norm_num)).trans l1))
    have l0 : 0 ≤ toReal m * σ := le_trans (by positivity) l1
    have b := near_mul a n2 (SpecF.in_range (by omega) (by
        rw [mul_one_div]
        exact (half_le_self l0).trans (l2.trans (pow_le' (by norm_num)))) (mul_nonneg l0 (by norm_num))) (SpecF.not_small (by omega) (by
        rw [mul_one_div, le_div_iff₀ (by norm_num)]
        refine le_trans ?_ l1
        rw [div_mul_eq_mul_div, one_mul, div_le_div_iff₀ (by positivity) (by positivity), one_mul, ← pow_succ']
        exact pow_le' (by norm_num)))
    exact b.mono (by omega)

/-- Potential energy of two bodies. -/
theorem near_pot {m m' s r : F64} {σ : ℝ} {k : Nat} (hk : k ≤ 10) (hm : IsFinite 52 m.bits) (hm0 : 0 < toReal m) (hm1 : Ordinary (toReal m))
    (hm' : IsFinite 52 m'.bits) (hm0' : 0 < toReal m') (hm1' : Ordinary (toReal m')) (hs : Near (2 * k) s σ) (hσ : 1 / 2 ^ 200 ≤ σ) (hσ' : σ ≤ 2 ^ 202)
    (hr : IsSqrt 52 s.bits r.bits) : Near (k + 3) (m * m' / r) (toReal m * toReal m' / √σ) ∧ toReal m * toReal m' / √σ ≤ 2 ^ 300 := by
  have nm : Near 0 m (toReal m) := ⟨hm, hm0.le, by rw [pow_zero, mul_one]; rfl, by rw [pow_zero, mul_one]; rfl⟩
  have nm' : Near 0 m' (toReal m') := ⟨hm', hm0'.le, by rw [pow_zero, mul_one]; rfl, by rw [pow_zero, mul_one]; rfl⟩
  have rng : ∀ {y : ℝ}, 0 < y → Ordinary y → 1 / 2 ^ 100 ≤ y ∧ y ≤ 2 ^ 100 := by
    intro y h0 h
    rcases h with h | h
    · exact absurd h h0.ne'
    · rwa [abs_of_pos h0] at h
  obtain ⟨m1, m2⟩ := rng hm0 hm1
  obtain ⟨m3, m4⟩ := rng hm0' hm1'
  have l1 : 1 / 2 ^ 200 ≤ toReal m * toReal m' := by
    refine le_trans ?_ (mul_le_mul m1 m3 (by positivity) hm0.le)
    rw [div_mul_div_comm, one_mul, ← pow_add]
  have l2 : toReal m * toReal m' ≤ 2 ^ 200 := by
    refine (mul_le_mul m2 m4 hm0'.le (by positivity)).trans ?_
    rw [← pow_add]
  have p0 : 0 ≤ toReal m * toReal m' := (mul_pos hm0 hm0').le
  have σ0 : 0 < σ := lt_of_lt_of_le (by positivity) hσ
  have q1 : 1 / 2 ^ 100 ≤ √σ := by
    apply Real.le_sqrt_of_sq_le
    rw [div_pow, one_pow, ← pow_mul]
    exact hσ
  have q2 : √σ ≤ 2 ^ 101 := by
    rw [Real.sqrt_le_left (by positivity), ← pow_mul]
    exact hσ'
  have q0 : 0 < √σ := Real.sqrt_pos.2 σ0
  have a := near_mul nm nm' (SpecF.in_range (by omega) (l2.trans (pow_le' (by norm_num))) p0) (SpecF.not_small (by omega) ((inv_pow_le' (by norm_num)).trans l1))
  have b := near_sqrt hs σ0 hr
  have top : toReal m * toReal m' / √σ ≤ 2 ^ 300 := by
    rw [div_le_iff₀ q0]
    refine l2.trans ?_
    calc (2 : ℝ) ^ 200 = 2 ^ 300 * (1 / 2 ^ 100) := by rw [mul_one_div, eq_div_iff (by positivity), ← pow_add]
      _ ≤ _ := mul_le_mul_of_nonneg_left q1 (by positivity)
  have bot : 1 / 2 ^ 301 ≤ toReal m * toReal m' / √σ := by
    rw [le_div_iff₀ q0]
    refine le_trans ?_ l1
    calc 1 / 2 ^ 301 * √σ ≤ 1 / 2 ^ 301 * 2 ^ 101 := mul_le_mul_of_nonneg_left q2 (by positivity)
      _ = 1 / 2 ^ 200 := by rw [div_mul_eq_mul_div, one_mul, div_eq_div_iff (by positivity) (by positivity), one_mul, ← pow_add]
  refine ⟨?_, top⟩
  have := near_div a b q0 (SpecF.in_range (by omega) (top.trans (pow_le' (by norm_num))) (div_nonneg p0 q0.le)) (SpecF.not_small (by omega) ((inv_pow_le' (by norm_num)).trans bot))
  exact this.mono (by omega)

/-! ### Accumulation -/

/-- `e` is `E` up to the roundings of `T` additions of terms with `c` roundings each; `S` is the sum of the magnitudes of the terms. -/
def Acc (c T : Nat) (e : F64) (E S : ℝ) : Prop := IsFinite 52 e.bits ∧ |rv e - E| ≤ (ρ ^ (c + T) - 1) * S ∧ |E| ≤ S ∧ S ≤ T * 2 ^ 310

theorem near_abs_err {k : Nat} {x : F64} {y : ℝ} (h : Near k x y) : |rv x - y| ≤ (ρ ^ k - 1) * y := by
  have h1 : 1 ≤ ρ ^ k := one_le_pow₀ ρ_ge
  rw [abs_le]
  constructor
  · have := h.2.2.2
    have hx := h.nonneg
    -- y ≤ x P, so y - x ≤ x (P - 1); if x ≤ y this is at most y (P - 1)
    rcases le_total (rv x) y with hc | hc
    · have := mul_le_mul_of_nonneg_right hc (sub_nonneg.2 h1)
      linarith
    · have := mul_nonneg (sub_nonneg.2 h1) h.2.1
      linarith
  · have := h.2.2.1
    linarith

theorem acc_real {a x r E S y P Q : ℝ} (hQ : Q ≤ P) (h1 : 1 ≤ P) (ha : |a - E| ≤ (P - 1) * S) (hx : |x - y| ≤ (Q - 1) * |y|) (hE : |E| ≤ S)
    (hr : |r - (a + x)| ≤ u * |a + x|) : |r - (E + y)| ≤ (P * ρ - 1) * (S + |y|) ∧ |E + y| ≤ S + |y| := by
  have hu := u_pos
  have hS : 0 ≤ S := (abs_nonneg _).trans hE
  have hy := abs_nonneg y
  have d1 : |(a + x) - (E + y)| ≤ (P - 1) * (S + |y|) := by
    rw [show (a + x) - (E + y) = (a - E) + (x - y) by ring]
    refine (abs_add_le _ _).trans ?_
    have := mul_le_mul_of_nonneg_right (show Q - 1 ≤ P - 1 by linarith) hy
    rw [mul_add]
    linarith
  have d2 : |E + y| ≤ S + |y| := (abs_add_le _ _).trans (by linarith)
  have d3 : |a + x| ≤ P * (S + |y|) := by
    have := abs_sub_abs_le_abs_sub (a + x) (E + y)
    linarith
  refine ⟨?_, d2⟩
  have d4 : |r - (E + y)| ≤ |r - (a + x)| + |(a + x) - (E + y)| := by
    rw [show r - (E + y) = (r - (a + x)) + ((a + x) - (E + y)) by ring]
    exact abs_add_le _ _
  have d5 := mul_le_mul_of_nonneg_left d3 hu.le
  have hρ : 1 + u ≤ ρ := by
    have : ρ = 1 + u * ρ := by linear_combination ρ_mul
    have := mul_le_mul_of_nonneg_left ρ_ge hu.le
    linarith
  have d6 : (1 + u) * (P * (S + |y|)) ≤ ρ * (P * (S + |y|)) := mul_le_mul_of_nonneg_right hρ (mul_nonneg (by linarith) (by linarith))
  have e1 : (P * ρ - 1) * (S + |y|) = ρ * (P * (S + |y|)) - (S + |y|) := by ring
  rw [e1]
  have e2 : (1 + u) * (P * (S + |y|)) = P * (S + |y|) + u * (P * (S + |y|)) := by ring
  linarith

theorem acc_range {c T : Nat} {e x : F64} {E S y : ℝ} (h : Acc c T e E S) (hx : Near c x y) (hy : y ≤ 2 ^ 310) (hT : c + T ≤ 2 ^ 40) :
    |rv e| + |rv x| < overflow 64 52 := by
  have hP : ρ ^ (c + T) ≤ 2 := ρ_pow_two (hT.trans (by norm_num))
  have hc : ρ ^ c ≤ 2 := ρ_pow_two (by omega)
  have hS : 0 ≤ S := (abs_nonneg _).trans h.2.2.1
  have b1 : |rv e| ≤ 2 * S := by
    have := abs_sub_abs_le_abs_sub (rv e) E
    have h2 := h.2.1
    have h3 := mul_le_mul_of_nonneg_right (show ρ ^ (c + T) - 1 ≤ 1 by linarith) hS
    linarith [h.2.2.1]
  have b2 : |rv x| ≤ 2 * 2 ^ 310 := by
    rw [abs_of_nonneg hx.nonneg]
    calc rv x ≤ y * ρ ^ c := hx.2.2.1
      _ ≤ y * 2 := mul_le_mul_of_nonneg_left hc hx.2.1
      _ ≤ _ := by linarith
  have hT' : (T : ℝ) ≤ 2 ^ 40 := by
    have : T ≤ 2 ^ 40 := by omega
    exact_mod_cast this
  have b3 : S ≤ 2 ^ 40 * 2 ^ 310 := h.2.2.2.trans (mul_le_mul_of_nonneg_right hT' (by positivity))
  refine lt_of_lt_of_le ?_ overflow64
  rw [← pow_add] at b3
  have c1 : (2 : ℝ) * 2 ^ (40 + 310) = 2 ^ 351 := by rw [← pow_succ']
  have c2 : (2 : ℝ) * 2 ^ 310 = 2 ^ 311 := by rw [← pow_succ']
  have c3 : (2 : ℝ) ^ 311 ≤ 2 ^ 351 := pow_le' (by norm_num)
  have c4 : (2 : ℝ) ^ 351 + 2 ^ 351 = 2 ^ 352 := by rw [← two_mul, ← pow_succ']
  have c5 : (2 : ℝ) ^ 352 < 2 ^ 1023 := pow_lt_pow_right₀ (by norm_num) (by norm_num)
  generalize (2 : ℝ) ^ 1023 = x0 at *
  generalize (2 : ℝ) ^ 352 = x1 at *
  generalize (2 : ℝ) ^ 351 = x2 at *
  generalize (2 : ℝ) ^ 311 = x3 at *
  generalize (2 : ℝ) ^ 310 = x4 at *
  generalize (2 : ℝ) ^ (40 + 310) = x5 at *
  linarith

theorem acc_top {T : Nat} {S y : ℝ} (h : S ≤ T * 2 ^ 310) (hy : y ≤ 2 ^ 310) : S + y ≤ ((T + 1 : Nat) : ℝ) * 2 ^ 310 := by
  push_cast
  rw [add_mul, one_mul]
  exact add_le_add h hy

theorem acc_add {c T : Nat} {e x : F64} {E S y : ℝ} (h : Acc c T e E S) (hx : Near c x y) (hy : y ≤ 2 ^ 310) (hT : c + T ≤ 2 ^ 40) :
    Acc c (T + 1) (e + x) (E + y) (S + y) := by
  have hb := flt_add fmt64 h.1 hx.1
  rw [show realVal 52 e.bits + realVal 52 x.bits = rv e + rv x from rfl, u_eq] at hb
  have hfin : IsFinite 52 (e + x).bits := hb.1.2 (lt_of_le_of_lt (abs_add_le _ _) (acc_range h hx hy hT))
  have hQ : ρ ^ c ≤ ρ ^ (c + T) := pow_le_pow_right₀ ρ_ge (by omega)
  have ha : |y| = y := abs_of_nonneg hx.2.1
  obtain ⟨g1, g2⟩ := acc_real (r := rv (e + x)) hQ (one_le_pow₀ ρ_ge) h.2.1 (by rw [ha]; exact near_abs_err hx) h.2.2.1 (hb.2.1 hfin)
  rw [ha] at g1 g2
  exact ⟨hfin, by rw [← add_assoc, pow_succ]; exact g1, g2, acc_top h.2.2.2 hy⟩

theorem acc_sub {c T : Nat} {e x : F64} {E S y : ℝ} (h : Acc c T e E S) (hx : Near c x y) (hy : y ≤ 2 ^ 310) (hT : c + T ≤ 2 ^ 40) :
    Acc c (T + 1) (e - x) (E - y) (S + y) := by
  have hb := flt_sub fmt64 h.1 hx.1
  rw [show realVal 52 e.bits - realVal 52 x.bits = rv e + -rv x from sub_eq_add_neg _ _, u_eq] at hb
  have hfin : IsFinite 52 (e - x).bits := hb.1.2 (lt_of_le_of_lt (abs_add_le _ _) (by rw [abs_neg]; exact acc_range h hx hy hT))
  have hQ : ρ ^ c ≤ ρ ^ (c + T) := pow_le_pow_right₀ ρ_ge (by omega)
  have ha : |-y| = y := by rw [abs_neg]; exact abs_of_nonneg hx.2.1
  obtain ⟨g1, g2⟩ := acc_real (r := rv (e - x)) (y := -y) (x := -rv x) hQ (one_le_pow₀ ρ_ge) h.2.1
    (by rw [ha, show -rv x - -y = -(rv x - y) by ring, abs_neg]; exact near_abs_err hx) h.2.2.1 (hb.2.1 hfin)
  rw [ha, ← sub_eq_add_neg] at g1 g2
  exact ⟨hfin, by rw [← add_assoc, pow_succ]; exact g1, g2, acc_top h.2.2.2 hy⟩

/-! ### The scalar program -/

/-- The program over the reals, with `s` for the square root. -/
noncomputable def RF (s : ℝ → ℝ) : Fns ℝ := ⟨fun q => q, 0, s, s⟩

theorem square_three {α : Type} [Zero α] [Add α] [Mul α] (v : Vector α 3) : square v = (0 : α) + v[0] * v[0] + v[1] * v[1] + v[2] * v[2] := by
  obtain ⟨⟨l⟩, hl⟩ := v
  match l, hl with
  | [a, b, c], _ => rfl

theorem square_range {w : Vector ℝ 3} (hw : ∀ c (h : c < 3), Ordinary w[c]) : (square w = 0 ∨ 1 / 2 ^ 200 ≤ square w) ∧ square w ≤ 2 ^ 202 ∧
    ((∃ c, ∃ h : c < 3, w[c] ≠ 0) → 1 / 2 ^ 200 ≤ square w) := by
  have s0 := (hw 0 (by omega)).sq_le
  have s1 := (hw 1 (by omega)).sq_le
  have s2 := (hw 2 (by omega)).sq_le
  have n0 := mul_self_nonneg w[0]
  have n1 := mul_self_nonneg w[1]
  have n2 := mul_self_nonneg w[2]
  have big : (∃ c, ∃ h : c < 3, w[c] ≠ 0) → 1 / 2 ^ 200 ≤ square w := by
    rintro ⟨c, hc, h⟩
    have := (hw c hc).sq_ge h
    rw [square_three]
    match c, hc with
    | 0, _ => linarith
    | 1, _ => linarith
    | 2, _ => linarith
  refine ⟨?_, ?_, big⟩
  · by_cases h : ∃ c, ∃ h : c < 3, w[c] ≠ 0
    · exact .inr (big h)
    · push Not at h
      rw [square_three, h 0 (by omega), h 1 (by omega), h 2 (by omega)]
      exact .inl (by norm_num)
  · rw [square_three]
    have e : (2 : ℝ) ^ 202 = 4 * 2 ^ 200 := by norm_num
    rw [e]
    have : (0 : ℝ) < 2 ^ 200 := by positivity
    linarith

theorem near_square {k : Nat} (hk : k ≤ 10) {v : Vector F64 3} {w : Vector ℝ 3} (h : ∀ c (hc : c < 3), Near k (v[c] * v[c]) (w[c] * w[c]))
    (hw : ∀ c (h : c < 3), Ordinary w[c]) : Near (k + 3) (square v) (square w) := by
  have s0 := (hw 0 (by omega)).sq_le
  have s1 := (hw 1 (by omega)).sq_le
  have s2 := (hw 2 (by omega)).sq_le
  have n0 := mul_self_nonneg w[0]
  have n1 := mul_self_nonneg w[1]
  have n2 := mul_self_nonneg w[2]
  have top : ∀ z : ℝ, z ≤ 3 * 2 ^ 200 → z ≤ 2 ^ 500 := fun z hz => by
    refine hz.trans (le_trans ?_ (pow_le' (show 202 ≤ 500 by norm_num)))
    norm_num
  rw [square_three, square_three]
  have a0 := near_add (near_zero (k := k)) (h 0 (by omega)) (SpecF.in_range (by omega) (top _ (by linarith)) (by linarith))
  have a1 := near_add a0 ((h 1 (by omega)).mono (by omega)) (SpecF.in_range (by omega) (top _ (by linarith)) (by linarith))
  exact near_add a1 ((h 2 (by omega)).mono (by omega)) (SpecF.in_range (by omega) (top _ (by linarith)) (by linarith))

theorem kin_le {σ m : ℝ} (h0 : 0 < m) (h : Ordinary m) (hσ : σ ≤ 2 ^ 202) : σ * m / 2 ≤ 2 ^ 310 := by
  have hm : m ≤ 2 ^ 100 := by
    rcases h with h | h
    · rw [h]; positivity
    · rw [abs_of_pos h0] at h; exact h.2
  have : σ * m ≤ 2 ^ 302 := by
    refine (mul_le_mul hσ hm h0.le (by positivity)).trans ?_
    rw [← pow_add]
  refine le_trans ?_ (pow_le' (show 302 ≤ 310 by norm_num))
  rw [div_le_iff₀ (by norm_num)]
  refine this.trans (le_mul_of_one_le_right (by positivity) (by norm_num))

variable {F : Fns F64} (hF : RoundFns F)
include hF

theorem kin_scalar {b : Body F64 3} (hm : IsFinite 52 b.mass.bits ∧ 0 < toReal b.mass ∧ Ordinary (toReal b.mass))
    (hv : ∀ c (h : c < 3), IsFinite 52 b.v[c].bits ∧ Ordinary (toReal b.v[c])) :
    Near 6 (square b.v * b.mass / F.lit 2) (square (realBody b).v * (realBody b).mass / 2) ∧ square (realBody b).v * (realBody b).mass / 2 ≤ 2 ^ 310 := by
  have e : ∀ c (h : c < 3), (realBody b).v[c] = toReal b.v[c] := fun c h => Vector.getElem_map ..
  have hw : ∀ c (h : c < 3), Ordinary (realBody b).v[c] := fun c h => by rw [e]; exact (hv c h).2
  obtain ⟨r1, r2, -⟩ := square_range hw
  have n := near_square (k := 1) (by omega) (v := b.v) (w := (realBody b).v) (fun c h => by rw [e]; exact near_sq0 (hv c h).1 (hv c h).2) hw
  exact ⟨near_kin (by omega) hm.1 hm.2.1 hm.2.2 hF.two.1 hF.two.2 n r1 r2, kin_le hm.2.1 hm.2.2 r2⟩

theorem pot_scalar {a b : Body F64 3} (ha : IsFinite 52 a.mass.bits ∧ 0 < toReal a.mass ∧ Ordinary (toReal a.mass))
    (hb : IsFinite 52 b.mass.bits ∧ 0 < toReal b.mass ∧ Ordinary (toReal b.mass)) (xa : ∀ c (h : c < 3), IsFinite 52 a.x[c].bits)
    (xb : ∀ c (h : c < 3), IsFinite 52 b.x[c].bits) (hd : (∀ c (h : c < 3), Ordinary (toReal a.x[c] - toReal b.x[c])) ∧ ∃ c, ∃ h : c < 3, toReal a.x[c] ≠ toReal b.x[c]) :
    Near 6 (a.mass * b.mass / F.sqrt (square (Vector.zipWith (· - ·) a.x b.x)))
      ((realBody a).mass * (realBody b).mass / √(square (Vector.zipWith (· - ·) (realBody a).x (realBody b).x))) ∧
      (realBody a).mass * (realBody b).mass / √(square (Vector.zipWith (· - ·) (realBody a).x (realBody b).x)) ≤ 2 ^ 310 := by
  have e : ∀ c (h : c < 3), (Vector.zipWith (· - ·) (realBody a).x (realBody b).x)[c] = toReal a.x[c] - toReal b.x[c] := fun c h => by
    rw [Vector.getElem_zipWith]; simp [realBody]
  have hw : ∀ c (h : c < 3), Ordinary (Vector.zipWith (· - ·) (realBody a).x (realBody b).x)[c] := fun c h => by rw [e]; exact hd.1 c h
  obtain ⟨-, r2, r3⟩ := square_range hw
  obtain ⟨c, hc, hne⟩ := hd.2
  have r := r3 ⟨c, hc, by rw [e]; exact sub_ne_zero.2 hne⟩
  have n := near_square (k := 3) (by omega) (v := Vector.zipWith (· - ·) a.x b.x) (w := Vector.zipWith (· - ·) (realBody a).x (realBody b).x)
    (fun c h => by rw [e, Vector.getElem_zipWith]; exact near_sqdiff (xa c h) (xb c h) (hd.1 c h)) hw
  obtain ⟨p1, p2⟩ := near_pot (k := 3) (by omega) ha.1 ha.2.1 ha.2.2 hb.1 hb.2.1 hb.2.2 n r r2 (hF.sqrt _)
  exact ⟨p1, p2.trans (pow_le' (by norm_num))⟩

theorem inner_scalar {a : Body F64 3} (ha : IsFinite 52 a.mass.bits ∧ 0 < toReal a.mass ∧ Ordinary (toReal a.mass)) (xa : ∀ c (h : c < 3), IsFinite 52 a.x[c].bits) :
    ∀ (rest : List (Body F64 3)), Calm rest →
      (∀ b ∈ rest, (∀ c (h : c < 3), Ordinary (toReal a.x[c] - toReal b.x[c])) ∧ ∃ c, ∃ h : c < 3, toReal a.x[c] ≠ toReal b.x[c]) →
      ∀ (T : Nat) (e : F64) (E S : ℝ), 6 + T + rest.length ≤ 2 ^ 40 → Acc 6 T e E S →
      Acc 6 (T + rest.length) (rest.foldl (fun e bj => e - a.mass * bj.mass / F.sqrt (square (Vector.zipWith (· - ·) a.x bj.x))) e)
        ((rest.map realBody).foldl (fun e bj => e - (realBody a).mass * bj.mass / (RF Real.sqrt).sqrt (square (Vector.zipWith (· - ·) (realBody a).x bj.x))) E)
        ((rest.map realBody).foldl (fun e bj => e - (realBody a).mass * bj.mass / (RF fun x => -√x).sqrt (square (Vector.zipWith (· - ·) (realBody a).x bj.x))) S)
  | [], _, _, T, e, E, S, _, h => h
  | b :: rest, hc, hd, T, e, E, S, hT, h => by
    rw [List.length_cons] at hT
    obtain ⟨p1, p2⟩ := pot_scalar hF ha (hc.mass b (by simp)) xa (hc.pos b (by simp)) (hd b (by simp))
    have h' := acc_sub h p1 p2 (by omega)
    have hc' : Calm rest := ⟨fun x hx => hc.mass x (by simp [hx]), fun x hx => hc.vel x (by simp [hx]), fun x hx => hc.pos x (by simp [hx]), (List.pairwise_cons.1 hc.apart).2⟩
    have := inner_scalar ha xa rest hc' (fun x hx => hd x (by simp [hx])) (T + 1) _ _ _ (by omega) h'
    rw [List.length_cons, show T + (rest.length + 1) = T + 1 + rest.length by omega, List.map_cons, List.foldl_cons, List.foldl_cons, List.foldl_cons]
    simp only [RF, div_neg, sub_neg_eq_add] at this ⊢
    exact this

theorem from_scalar : ∀ (L : List (Body F64 3)), Calm L → ∀ (T : Nat) (e : F64) (E S : ℝ), 6 + T + L.length * (L.length + 1) / 2 ≤ 2 ^ 40 → Acc 6 T e E S →
    Acc 6 (T + L.length * (L.length + 1) / 2) (energyFrom F e L) (energyFrom (RF Real.sqrt) E (L.map realBody)) (energyFrom (RF fun x => -√x) S (L.map realBody))
  | [], _, T, e, E, S, _, h => h
  | b :: rest, hc, T, e, E, S, hT, h => by
    have ht : (b :: rest).length * ((b :: rest).length + 1) / 2 = rest.length + 1 + rest.length * (rest.length + 1) / 2 := by
      rw [List.length_cons, show (rest.length + 1) * (rest.length + 1 + 1) = rest.length * (rest.length + 1) + (rest.length + 1) * 2 by ring,
        Nat.add_mul_div_right _ _ (by norm_num)]
      omega
    rw [ht] at hT ⊢
    have hc' : Calm rest := ⟨fun x hx => hc.mass x (by simp [hx]), fun x hx => hc.vel x (by simp [hx]), fun x hx => hc.pos x (by simp [hx]), (List.pairwise_cons.1 hc.apart).2⟩
    obtain ⟨k1, k2⟩ := kin_scalar hF (hc.mass b (by simp)) (hc.vel b (by simp))
    have h1 := acc_add h k1 k2 (by omega)
    have h2 := inner_scalar hF (hc.mass b (by simp)) (hc.pos b (by simp)) rest hc' (List.pairwise_cons.1 hc.apart).1 (T + 1) _ _ _ (by omega) h1
    have h3 := from_scalar rest hc' _ _ _ _ (by omega) h2
    rw [show T + (rest.length + 1 + rest.length * (rest.length + 1) / 2) = T + 1 + rest.length + rest.length * (rest.length + 1) / 2 by omega]
    rw [List.map_cons]
    simp only [energyFrom]
    have l2 : ∀ s : ℝ → ℝ, (RF s).lit 2 = 2 := fun s => by simp [RF]
    rw [l2, l2]
    exact h3

omit hF

/-! ### The vector program -/

theorem sumOf_bits {l : List F64} {s : F64} (h : SumOf (· + ·) 0 l s) : SumOf (Flt.add 52) (Flt.fromInt 64 52 0) (l.map F64.bits) s.bits := by
  induction h with
  | empty =>
    have e : (0 : F64).bits = Flt.fromInt 64 52 0 := by decide +kernel
    rw [e]
    exact SumOf.empty
  | single x => exact .single _
  | add _ _ ih1 ih2 => rw [List.map_append]; exact .add ih1 ih2
  | perm hp _ ih => exact .perm (hp.map _) ih

/-- The sum of the lanes. -/
def sum4R (w : Vec ℝ 4) : ℝ := w[0] + w[1] + w[2] + w[3]

theorem near_sum4 {k : Nat} {v : Vec F64 4} {w : Vec ℝ 4} {s : F64} (h : ∀ c (hc : c < 4), Near k v[c] w[c]) (hk : k ≤ 10)
    (hw : ∀ c (hc : c < 4), w[c] ≤ 2 ^ 200) (hs : SumOf (· + ·) 0 v.toList s) : Near (k + 4) s (sum4R w) := by
  have hb := sumOf_bits hs
  have hu := u_pos
  have hul := u_lt
  have el : v.toList.map F64.bits = [v[0].bits, v[1].bits, v[2].bits, v[3].bits] := by
    obtain ⟨⟨l⟩, hl⟩ := v
    match l, hl with
    | [a, b, c, d], _ => rfl
  rw [el] at hb
  have h0 := h 0 (by omega)
  have h1 := h 1 (by omega)
  have h2 := h 2 (by omega)
  have h3 := h 3 (by omega)
  set A := rv v[0] + rv v[1] + rv v[2] + rv v[3] with hA
  have n0 := h0.nonneg
  have n1 := h1.nonneg
  have n2 := h2.nonneg
  have n3 := h3.nonneg
  have hA0 : 0 ≤ A := by rw [hA]; linarith
  have e1 : realSum 52 [v[0].bits, v[1].bits, v[2].bits, v[3].bits] = A := by
    unfold realSum
    simp only [List.map_cons, List.map_nil, List.sum_cons, List.sum_nil, add_zero]
    rw [hA]; unfold rv; ring
  have e2 : absSum 52 [v[0].bits, v[1].bits, v[2].bits, v[3].bits] = A := by
    unfold absSum
    simp only [List.map_cons, List.map_nil, List.sum_cons, List.sum_nil, add_zero]
    rw [show |realVal 52 v[0].bits| = rv v[0] from abs_of_nonneg n0, show |realVal 52 v[1].bits| = rv v[1] from abs_of_nonneg n1,
      show |realVal 52 v[2].bits| = rv v[2] from abs_of_nonneg n2, show |realVal 52 v[3].bits| = rv v[3] from abs_of_nonneg n3, hA]
    ring
  have g1 : A ≤ sum4R w * ρ ^ k := by
    unfold sum4R
    have := h0.2.2.1; have := h1.2.2.1; have := h2.2.2.1; have := h3.2.2.1
    simp only [add_mul]
    linarith
  have g2 : sum4R w ≤ A * ρ ^ k := by
    unfold sum4R
    have := h0.2.2.2; have := h1.2.2.2; have := h2.2.2.2; have := h3.2.2.2
    rw [hA]
    simp only [add_mul]
    linarith
  have w0 : 0 ≤ sum4R w := by unfold sum4R; linarith [h0.2.1, h1.2.1, h2.2.1, h3.2.1]
  have wt : sum4R w ≤ 2 ^ 500 := by
    have : sum4R w ≤ 2 ^ 202 := by
      unfold sum4R
      have := hw 0 (by omega); have := hw 1 (by omega); have := hw 2 (by omega); have := hw 3 (by omega)
      rw [show (2 : ℝ) ^ 202 = 4 * 2 ^ 200 by norm_num]
      linarith
    exact this.trans (pow_le' (by norm_num))
  have hρ : 1 + u ≤ ρ := by
    have : ρ = 1 + u * ρ := by linear_combination ρ_mul
    have := mul_le_mul_of_nonneg_left ρ_ge hu.le
    linarith
  have q3 : (1 + u) ^ 3 ≤ ρ ^ 3 := pow_le_pow_left₀ (by linarith) hρ 3
  have hfin : IsFinite 52 s.bits := by
    refine sumOf_finite fmt64 hb ?_ ?_
    · intro x hx
      simp only [List.mem_cons, List.not_mem_nil, or_false] at hx
      rcases hx with rfl | rfl | rfl | rfl
      exacts [h0.1, h1.1, h2.1, h3.1]
    · rw [e2, u_eq]
      refine lt_of_lt_of_le ?_ overflow64
      refine lt_of_le_of_lt ?_ (SpecF.in_range (k := k + 3) (by omega) wt w0)
      calc ((1 : ℝ) + u) ^ ([v[0].bits, v[1].bits, v[2].bits, v[3].bits].length - 1) * A = ((1 : ℝ) + u) ^ 3 * A := rfl
        _ ≤ ρ ^ 3 * (sum4R w * ρ ^ k) := mul_le_mul q3 g1 hA0 (pow_pos ρ_pos 3).le
        _ = _ := by rw [pow_add]; ring
  have he := (sumOf_error fmt64 hb hfin).1
  rw [e1, e2, u_eq] at he
  have he' : |rv s - A| ≤ ((1 + u) ^ 3 - 1) * A := he
  obtain ⟨a1, a2⟩ := abs_le.1 he'
  have b1 : rv s ≤ A * ρ ^ 4 := by
    have : rv s ≤ (1 + u) ^ 3 * A := by linarith
    have h5 := mul_le_mul_of_nonneg_right (q3.trans (pow_le_pow_right₀ ρ_ge (show 3 ≤ 4 by omega))) hA0
    linarith
  have b2 : A ≤ rv s * ρ ^ 4 := by
    have c1 : A * (1 - u) ^ 4 ≤ rv s := by
      have : (1 - u) ^ 4 ≤ 2 - (1 + u) ^ 3 := by nlinarith [hu, hul, mul_pos hu hu, mul_pos (mul_pos hu hu) hu]
      have := mul_le_mul_of_nonneg_left this hA0
      linarith
    have c2 := mul_le_mul_of_nonneg_right c1 (pow_pos ρ_pos 4).le
    have c3 : A * (1 - u) ^ 4 * ρ ^ 4 = A := by rw [mul_assoc, ← mul_pow, mul_comm (1 - u), ρ_mul, one_pow, mul_one]
    linarith
  refine ⟨hfin, w0, ?_, ?_⟩
  · rw [pow_add, ← mul_assoc]
    exact b1.trans (mul_le_mul_of_nonneg_right g1 (pow_pos ρ_pos 4).le)
  · rw [pow_add, mul_comm (ρ ^ k), ← mul_assoc]
    exact g2.trans (mul_le_mul_of_nonneg_right b2 (pow_pos ρ_pos k).le)

theorem sum4R_range {w : Vec ℝ 4} (hw : ∀ c (h : c < 4), Ordinary w[c]) : (sum4R (w * w) = 0 ∨ 1 / 2 ^ 200 ≤ sum4R (w * w)) ∧ sum4R (w * w) ≤ 2 ^ 202 ∧
    ((∃ c, ∃ h : c < 4, w[c] ≠ 0) → 1 / 2 ^ 200 ≤ sum4R (w * w)) := by
  have e : sum4R (w * w) = w[0] * w[0] + w[1] * w[1] + w[2] * w[2] + w[3] * w[3] := by simp only [sum4R, Mandel.vmul_get]
  rw [e]
  have s0 := (hw 0 (by omega)).sq_le
  have s1 := (hw 1 (by omega)).sq_le
  have s2 := (hw 2 (by omega)).sq_le
  have s3 := (hw 3 (by omega)).sq_le
  have n0 := mul_self_nonneg w[0]
  have n1 := mul_self_nonneg w[1]
  have n2 := mul_self_nonneg w[2]
  have n3 := mul_self_nonneg w[3]
  have big : (∃ c, ∃ h : c < 4, w[c] ≠ 0) → (1 : ℝ) / 2 ^ 200 ≤ w[0] * w[0] + w[1] * w[1] + w[2] * w[2] + w[3] * w[3] := by
    rintro ⟨c, hc, h⟩
    have := (hw c hc).sq_ge h
    match c, hc with
    | 0, _ => linarith
    | 1, _ => linarith
    | 2, _ => linarith
    | 3, _ => linarith
  refine ⟨?_, ?_, big⟩
  · by_cases h : ∃ c, ∃ h : c < 4, w[c] ≠ 0
    · exact .inr (big h)
    · push Not at h
      rw [h 0 (by omega), h 1 (by omega), h 2 (by omega), h 3 (by omega)]
      exact .inl (by norm_num)
  · rw [show (2 : ℝ) ^ 202 = 4 * 2 ^ 200 by norm_num]
    linarith

/-- Three loops side by side. -/
theorem forRange_rel {σ τ υ : Type} (P : Nat → σ → τ → υ → Prop) (f : σ → Nat → R σ) (g : τ → Nat → R τ) (h : υ → Nat → R υ) {hi : Nat} : ∀ (k lo : Nat), lo + k = hi →
    ∀ (s : σ) (t : τ) (w : υ), P lo s t w →
    (∀ i s t w, lo ≤ i → i < hi → P i s t w → ∃ s' t' w', f s i = .ok s' ∧ g t i = .ok t' ∧ h w i = .ok w' ∧ P (i + 1) s' t' w') →
    ∃ s' t' w', forRange lo hi f s = .ok s' ∧ forRange lo hi g t = .ok t' ∧ forRange lo hi h w = .ok w' ∧ P hi s' t' w'
  | 0, lo, hl, s, t, w, h0, _ => by
    obtain rfl : lo = hi := by omega
    refine ⟨s, t, w, ?_, ?_, ?_, h0⟩ <;> simp only [forRange, Nat.sub_self] <;> rfl
  | k + 1, lo, hl, s, t, w, h0, hstep => by
    obtain ⟨s', t', w', e1, e2, e3, h1⟩ := hstep lo s t w le_rfl (by omega) h0
    obtain ⟨s'', t'', w'', i1, i2, i3, h2⟩ := forRange_rel P f g h k (lo + 1) (by omega) s' t' w' h1 (fun i s t w a b c => hstep i s t w (by omega) b c)
    refine ⟨s'', t'', w'', ?_, ?_, ?_, h2⟩
    all_goals
      unfold forRange at *
      rw [show hi - lo = (hi - (lo + 1)) + 1 by omega, List.range'_succ, List.foldlM_cons]
    · rw [e1]; exact i1
    · rw [e2]; exact i2
    · rw [e3]; exact i3

include hF

theorem kin_simd {S : Vec F64 4 → F64} (hS : ∀ v, SumOf (· + ·) 0 v.toList (S v)) {b : Body F64 4}
    (hm : IsFinite 52 b.mass.bits ∧ 0 < toReal b.mass ∧ Ordinary (toReal b.mass))
    (hv : ∀ c (h : c < 4), IsFinite 52 b.v[c].bits ∧ Ordinary (toReal b.v[c])) :
    Near 7 (b.mass * S (b.v * b.v) * F.lit 0.5) ((realBody b).mass * sum4R ((realBody b).v * (realBody b).v) * (1 / 2)) ∧
      (realBody b).mass * sum4R ((realBody b).v * (realBody b).v) * (1 / 2) ≤ 2 ^ 310 := by
  have e : ∀ c (h : c < 4), (realBody b).v[c] = toReal b.v[c] := fun c h => Vector.getElem_map ..
  have hw : ∀ c (h : c < 4), Ordinary (realBody b).v[c] := fun c h => by rw [e]; exact (hv c h).2
  obtain ⟨r1, r2, -⟩ := sum4R_range hw
  have n := near_sum4 (k := 1) (v := b.v * b.v) (w := (realBody b).v * (realBody b).v)
    (fun c h => by rw [Mandel.vmul_get, Mandel.vmul_get, e]; exact near_sq0 (hv c h).1 (hv c h).2) (by omega)
    (fun c h => by rw [Mandel.vmul_get]; exact (hw c h).sq_le) (hS _)
  refine ⟨near_kin' (by omega) hm.1 hm.2.1 hm.2.2 hF.half.1 hF.half.2 n r1 r2, ?_⟩
  have := kin_le hm.2.1 hm.2.2 r2
  rw [mul_one_div, mul_comm (realBody b).mass]
  exact this

theorem pot_simd {S : Vec F64 4 → F64} (hS : ∀ v, SumOf (· + ·) 0 v.toList (S v)) {a b : Body F64 4}
    (ha : IsFinite 52 a.mass.bits ∧ 0 < toReal a.mass ∧ Ordinary (toReal a.mass))
    (hb : IsFinite 52 b.mass.bits ∧ 0 < toReal b.mass ∧ Ordinary (toReal b.mass)) (xa : ∀ c (h : c < 4), IsFinite 52 a.x[c].bits)
    (xb : ∀ c (h : c < 4), IsFinite 52 b.x[c].bits) (hd : (∀ c (h : c < 4), Ordinary (toReal a.x[c] - toReal b.x[c])) ∧ ∃ c, ∃ h : c < 4, toReal a.x[c] ≠ toReal b.x[c]) :
    Near 7 (a.mass * b.mass / F.sqrt (S ((a.x - b.x) * (a.x - b.x))))
      ((realBody a).mass * (realBody b).mass / √(sum4R (((realBody a).x - (realBody b).x) * ((realBody a).x - (realBody b).x)))) ∧
      (realBody a).mass * (realBody b).mass / √(sum4R (((realBody a).x - (realBody b).x) * ((realBody a).x - (realBody b).x))) ≤ 2 ^ 310 := by
  have e : ∀ c (h : c < 4), ((realBody a).x - (realBody b).x)[c] = toReal a.x[c] - toReal b.x[c] := fun c h => by
    rw [Mandel.vsub_get]; simp [realBody]
  have hw : ∀ c (h : c < 4), Ordinary ((realBody a).x - (realBody b).x)[c] := fun c h => by rw [e]; exact hd.1 c h
  obtain ⟨-, r2, r3⟩ := sum4R_range hw
  obtain ⟨c, hc, hne⟩ := hd.2
  have r := r3 ⟨c, hc, by rw [e]; exact sub_ne_zero.2 hne⟩
  have n := near_sum4 (k := 3) (v := (a.x - b.x) * (a.x - b.x)) (w := ((realBody a).x - (realBody b).x) * ((realBody a).x - (realBody b).x))
    (fun c h => by rw [Mandel.vmul_get, Mandel.vmul_get, e, Mandel.vsub_get]; exact near_sqdiff (xa c h) (xb c h) (hd.1 c h)) (by omega)
    (fun c h => by rw [Mandel.vmul_get]; exact (hw c h).sq_le) (hS _)
  obtain ⟨p1, p2⟩ := near_pot (k := 4) (by omega) ha.1 ha.2.1 ha.2.2 hb.1 hb.2.1 hb.2.2 (n.mono (by omega)) r r2 (hF.sqrt _)
  exact ⟨p1, p2.trans (pow_le' (by norm_num))⟩

theorem energy_simd {N : Nat} (t : Target) (B : Vector (Body F64 4) N) (hc : Calm B.toList) (hN : 7 + N * (N + 1) / 2 ≤ 2 ^ 40) :
    ∃ e E S, energySimd F t B = .ok e ∧ energySimd (RF Real.sqrt) t (B.map realBody) = .ok E ∧ energySimd (RF fun x => -√x) t (B.map realBody) = .ok S ∧
      Acc 7 (N * (N + 1) / 2) e E S := by
  obtain ⟨S, hS⟩ := sum4_fn (α := F64) t
  obtain ⟨SR, hSR⟩ := sum4_fn (α := ℝ) t
  have eR : ∀ v, SR v = sum4R v := fun v => sum4_eq (hSR v).2
  have mem : ∀ {i : Nat} (h : i < N), B[i] ∈ B.toList := fun h => by simp
  have tri : ∀ n, (n + 1) * (n + 1 + 1) / 2 = n + 1 + n * (n + 1) / 2 := fun n => by
    rw [show (n + 1) * (n + 1 + 1) = n * (n + 1) + (n + 1) * 2 by ring, Nat.add_mul_div_right _ _ (by norm_num)]
    omega
  have l5 : ∀ s : ℝ → ℝ, (RF s).lit 0.5 = 1 / 2 := fun s => by simp only [RF]; norm_num
  have l0 : ∀ s : ℝ → ℝ, (RF s).lit 0 = 0 := fun s => by simp [RF]
  obtain ⟨e, E, W, h1, h2, h3, T, hT, hA⟩ := forRange_rel (hi := N) (fun i e E W => ∃ T, T + (N - i) * (N - i + 1) / 2 = N * (N + 1) / 2 ∧ Acc 7 T e E W)
    (fun e i => do
        let bi ← aget B i
        let e := e + bi.mass * (← sum4 t (bi.v * bi.v)) * F.lit 0.5
        forRange (i + 1) N (fun e k => do
          let bj ← aget B k
          let dx := bi.x - bj.x
          return e - bi.mass * bj.mass / F.sqrt (← sum4 t (dx * dx))) e)
    (fun e i => do
        let bi ← aget (B.map realBody) i
        let e := e + bi.mass * (← sum4 t (bi.v * bi.v)) * (RF Real.sqrt).lit 0.5
        forRange (i + 1) N (fun e k => do
          let bj ← aget (B.map realBody) k
          let dx := bi.x - bj.x
          return e - bi.mass * bj.mass / (RF Real.sqrt).sqrt (← sum4 t (dx * dx))) e)
    (fun e i => do
        let bi ← aget (B.map realBody) i
        let e := e + bi.mass * (← sum4 t (bi.v * bi.v)) * (RF fun x => -√x).lit 0.5
        forRange (i + 1) N (fun e k => do
          let bj ← aget (B.map realBody) k
          let dx := bi.x - bj.x
          return e - bi.mass * bj.mass / (RF fun x => -√x).sqrt (← sum4 t (dx * dx))) e) N 0 (by omega) (F.lit 0) ((RF Real.sqrt).lit 0) ((RF fun x => -√x).lit 0)
    ⟨0, by simp, by
      rw [hF.zero, l0, l0]
      have z := near_zero (k := 0)
      refine ⟨z.1, ?_, by simp, by simp⟩
      rw [show rv (0 : F64) = 0 from le_antisymm (by simpa using z.2.2.1) z.nonneg]
      simp⟩ (by
    rintro i e E W - hi ⟨T, hT, hA⟩
    have hni : N - i = (N - (i + 1)) + 1 := by omega
    rw [hni, tri] at hT
    obtain ⟨k1, k2⟩ := kin_simd hF (fun v => (hS v).2) (hc.mass _ (mem hi)) (hc.vel _ (mem hi))
    have hA1 := acc_add hA k1 k2 (by omega)
    have gi : (B.map realBody)[i] = realBody B[i] := Vector.getElem_map ..
    obtain ⟨e', E', W', g1, g2, g3, hA2⟩ := forRange_rel (hi := N) (fun k e E W => Acc 7 (T + (k - i)) e E W)
      (fun e k => do
          let bj ← aget B k
          let dx := B[i].x - bj.x
          return e - B[i].mass * bj.mass / F.sqrt (← sum4 t (dx * dx)))
      (fun e k => do
          let bj ← aget (B.map realBody) k
          let dx := (B.map realBody)[i].x - bj.x
          return e - (B.map realBody)[i].mass * bj.mass / (RF Real.sqrt).sqrt (← sum4 t (dx * dx)))
      (fun e k => do
          let bj ← aget (B.map realBody) k
          let dx := (B.map realBody)[i].x - bj.x
          return e - (B.map realBody)[i].mass * bj.mass / (RF fun x => -√x).sqrt (← sum4 t (dx * dx))) (N - (i + 1)) (i + 1) (by omega) _ _ _
      (by rw [show i + 1 - i = 1 by omega]; exact hA1) (by
      intro k e E W hk1 hk hA
      rw [aget_lt _ hk, aget_lt _ hk]
      simp only [R_ok_bind, (hS _).1, (hSR _).1, eR]
      refine ⟨_, _, _, rfl, rfl, rfl, ?_⟩
      have gk : (B.map realBody)[k] = realBody B[k] := Vector.getElem_map ..
      have ap := List.pairwise_iff_getElem.1 hc.apart i k (by simpa using hi) (by simpa using hk) (by omega)
      simp only [Vector.getElem_toList] at ap
      obtain ⟨p1, p2⟩ := pot_simd hF (fun v => (hS v).2) (hc.mass _ (mem hi)) (hc.mass _ (mem hk)) (hc.pos _ (mem hi)) (hc.pos _ (mem hk)) ap
      have := acc_sub hA p1 p2 (by omega)
      rw [gi, gk, show k + 1 - i = k - i + 1 by omega, ← add_assoc]
      simp only [RF, div_neg, sub_neg_eq_add]
      exact this)
    refine ⟨e', E', W', ?_, ?_, ?_, T + (N - i), by omega, hA2⟩
    · dsimp only
      rw [aget_lt _ hi]
      simp only [R_ok_bind, (hS _).1] at g1 ⊢
      exact g1
    · dsimp only
      rw [aget_lt _ hi]
      simp only [R_ok_bind, (hSR _).1, eR, l5] at g2 ⊢
      rw [gi] at g2 ⊢
      exact g2
    · dsimp only
      rw [aget_lt _ hi]
      simp only [R_ok_bind, (hSR _).1, eR, l5] at g3 ⊢
      rw [gi] at g3 ⊢
      exact g3)
  rw [Nat.sub_self, Nat.zero_mul, Nat.zero_div, Nat.add_zero] at hT
  exact ⟨e, E, W, h1, h2, h3, by rw [← hT]; exact hA⟩

end PackedSimd.Ex.Nbody
