import Verif.Lemmas.SumError
import Verif.Lemmas.Cast
import Verif.Model.Examples.Matrix
/-
`f64` arithmetic in terms of real numbers, with coarse error bounds.
-/
namespace PackedSimd.F64R
open Spec Ex

theorem fmt : Format 64 52 := ⟨by decide, by decide⟩

/-- Finite, and the value. -/
def Fin' (a : F64) : Prop := IsFinite 52 a.bits
noncomputable def rv (a : F64) : ℝ := realVal 52 a.bits

theorem u_le : unitRoundoff 52 ≤ 1 / 10 ^ 15 := by unfold unitRoundoff; norm_num
theorem tiny_le : tiny 64 52 ≤ 1 / 10 ^ 15 := by
  unfold tiny
  rw [show low 64 52 = 1074 by decide]
  have h : (2 : ℝ) ^ 50 ≤ 2 ^ (1074 + 1) := pow_le_pow_right₀ (by norm_num) (by norm_num)
  have h2 : (1 : ℝ) / 2 ^ (1074 + 1) ≤ 1 / 2 ^ 50 := one_div_le_one_div_of_le (by positivity) h
  refine h2.trans ?_
  norm_num

theorem overflow_ge : (10 : ℝ) ^ 30 ≤ overflow 64 52 := by
  unfold overflow
  rw [show low 64 52 = 1074 by decide, le_div_iff₀ (by positivity), le_div_iff₀ (by norm_num)]
  have h : 10 ^ 30 * 2 ^ 1074 * 2 ≤ magUnits 52 (infMag 64 52 - 1) + magUnits 52 (infMag 64 52) := by decide +kernel
  exact_mod_cast h

/-- The relative error bound used here. -/
noncomputable def ε : ℝ := 1 / 10 ^ 15

theorem relErr_le (v : ℝ) : unitRoundoff 52 * |v| ≤ ε * |v| := mul_le_mul_of_nonneg_right u_le (abs_nonneg _)
theorem relOrTiny_le (v : ℝ) : max (unitRoundoff 52 * |v|) (tiny 64 52) ≤ ε * |v| + ε := by
  have h1 := relErr_le v
  have h2 : tiny 64 52 ≤ ε := tiny_le
  have h3 : 0 ≤ ε * |v| := mul_nonneg (by unfold ε; norm_num) (abs_nonneg _)
  have h4 : 0 ≤ ε := by unfold ε; norm_num
  exact max_le (by linarith) (by linarith)

theorem fin_add {a b : F64} (h : Fin' (a + b)) : Fin' a ∧ Fin' b := finite_of_add fmt h
theorem fin_mul {a b : F64} (h : Fin' (a * b)) : Fin' a ∧ Fin' b := finite_of_mul fmt h
theorem fin_sub {a b : F64} (h : Fin' (a - b)) : Fin' a ∧ Fin' b := by
  obtain ⟨z, hz⟩ := h
  have hr := sub_rounds fmt a.bits b.bits
  have hz : valueOf 52 (Flt.sub 52 a.bits b.bits) = .num z := hz
  unfold exactSub at hr
  unfold Fin' IsFinite
  rcases hx : valueOf 52 a.bits with _ | p | x
  · rw [hx] at hr
    exact absurd (hz.symm.trans hr) (by simp)
  · rcases hy : valueOf 52 b.bits with _ | q | y <;> rw [hx, hy] at hr <;> dsimp only at hr
    · exact absurd (hz.symm.trans hr) (by simp)
    · split at hr <;> exact absurd (hz.symm.trans hr) (by simp)
    · exact absurd (hz.symm.trans hr) (by simp)
  · rcases hy : valueOf 52 b.bits with _ | q | y <;> rw [hx, hy] at hr <;> dsimp only at hr
    · exact absurd (hz.symm.trans hr) (by simp)
    · exact absurd (hz.symm.trans hr) (by simp)
    · exact ⟨⟨x, rfl⟩, ⟨y, rfl⟩⟩

theorem add_err {a b : F64} (h : Fin' (a + b)) : |rv (a + b) - (rv a + rv b)| ≤ ε * |rv a + rv b| :=
  ((flt_add fmt (fin_add h).1 (fin_add h).2).2.1 h).trans (relErr_le _)
theorem sub_err {a b : F64} (h : Fin' (a - b)) : |rv (a - b) - (rv a - rv b)| ≤ ε * |rv a - rv b| :=
  ((flt_sub fmt (fin_sub h).1 (fin_sub h).2).2.1 h).trans (relErr_le _)
theorem mul_err {a b : F64} (h : Fin' (a * b)) : |rv (a * b) - rv a * rv b| ≤ ε * |rv a * rv b| + ε :=
  ((flt_mul fmt (fin_mul h).1 (fin_mul h).2).2.1 h).trans (relOrTiny_le _)

theorem add_fin {a b : F64} (ha : Fin' a) (hb : Fin' b) (h : |rv a + rv b| < 10 ^ 30) : Fin' (a + b) :=
  (flt_add fmt ha hb).1.2 (lt_of_lt_of_le h overflow_ge)
theorem sub_fin {a b : F64} (ha : Fin' a) (hb : Fin' b) (h : |rv a - rv b| < 10 ^ 30) : Fin' (a - b) :=
  (flt_sub fmt ha hb).1.2 (lt_of_lt_of_le h overflow_ge)
theorem mul_fin {a b : F64} (ha : Fin' a) (hb : Fin' b) (h : |rv a * rv b| < 10 ^ 30) : Fin' (a * b) :=
  (flt_mul fmt ha hb).1.2 (lt_of_lt_of_le h overflow_ge)
theorem div_fin {a b : F64} (ha : Fin' a) (hb : Fin' b) (h0 : rv b ≠ 0) (h : |rv a / rv b| < 10 ^ 30) :
    Fin' (a / b) ∧ |rv (a / b) - rv a / rv b| ≤ ε * |rv a / rv b| + ε := by
  have hd := flt_div fmt ha hb h0
  have hfin : Fin' (a / b) := hd.1.2 (lt_of_lt_of_le h overflow_ge)
  exact ⟨hfin, (hd.2.1 hfin).trans (relOrTiny_le _)⟩

theorem div_fin' {a b : F64} (ha : Fin' a) (hb : Fin' b) (h0 : rv b ≠ 0) (h : |rv a / rv b| < 10 ^ 30) :
    Fin' (a / b) ∧ |rv (a / b) - rv a / rv b| ≤ ε * |rv a / rv b| + 1 / 10 ^ 60 := by
  have hd := flt_div fmt ha hb h0
  have hfin : Fin' (a / b) := hd.1.2 (lt_of_lt_of_le h overflow_ge)
  refine ⟨hfin, (hd.2.1 hfin).trans ?_⟩
  have h2 : tiny 64 52 ≤ 1 / 10 ^ 60 := by
    unfold tiny
    rw [show low 64 52 = 1074 by decide]
    have h : (2 : ℝ) ^ 200 ≤ 2 ^ (1074 + 1) := pow_le_pow_right₀ (by norm_num) (by norm_num)
    refine (one_div_le_one_div_of_le (by positivity) h).trans ?_
    norm_num
  have h3 : 0 ≤ ε * |rv a / rv b| := mul_nonneg (by unfold ε; norm_num) (abs_nonneg _)
  have h1 := relErr_le (rv a / rv b)
  have h4 : (0 : ℝ) ≤ 1 / 10 ^ 60 := by norm_num
  unfold rv at h1 h3 ⊢
  exact max_le (by linarith) (by linarith)

theorem ofInt_fin {z : Int} (h : |(z : ℝ)| < 10 ^ 30) : Fin' (F64.ofInt z) ∧ |rv (F64.ofInt z) - z| ≤ ε * |(z : ℝ)| := by
  have hr := fromInt_rounds fmt z
  have := (realRound_of fmt hr (v := (z : ℝ)) (by push_cast; field_simp)).2 rfl
  have hfin : Fin' (F64.ofInt z) := this.1.2 (lt_of_lt_of_le h overflow_ge)
  exact ⟨hfin, (this.2.1 hfin).trans (relErr_le _)⟩

/-! ### Squares -/

/-- A square is not negative infinity. -/
theorem sq_not_neg_inf (a : F64) : valueOf 52 (a * a).bits ≠ .inf true := by
  have hr := mul_rounds fmt a.bits a.bits
  change RoundsTo 52 _ (a * a).bits at hr
  unfold exactMul at hr
  rcases hx : valueOf 52 a.bits with _ | p | x <;> rw [hx] at hr <;> dsimp only at hr
  · intro h; exact absurd (h.symm.trans hr) (by simp)
  · intro h; exact absurd (h.symm.trans hr) (by simp)
  · intro h
    have h2 := rounds_real fmt hr rfl
    have hnf : ¬IsFinite 52 (a * a).bits := by rintro ⟨z, hz⟩; exact absurd (h.symm.trans hz) (by simp)
    have := h.symm.trans (h2.2.2.2 hnf)
    have hnn := mul_self_nonneg x
    simp at this
    omega

/-- The rounded square of a number is not negative. -/
theorem sq_nonneg {a : F64} (h : Fin' (a * a)) : 0 ≤ rv (a * a) := by
  have hr := mul_rounds fmt a.bits a.bits
  change RoundsTo 52 _ (a * a).bits at hr
  unfold exactMul at hr
  obtain ⟨x, hx⟩ := (fin_mul h).1
  rw [hx] at hr
  obtain ⟨-, hn, hs⟩ := hr
  unfold rv
  rw [realVal_num (valueOf_finite h)]
  apply div_nonneg _ (by positivity)
  by_cases h0 : x = 0
  · subst h0
    have : magBits (a * a).bits = 0 := nearest_exact (Nat.two_pow_pos _) hn (Nat.zero_le _) (by
      rw [show magUnits 52 0 = 0 by decide, Nat.zero_mul, Int.mul_zero, Int.natAbs_zero])
    rw [this, show magUnits 52 0 = 0 by decide]
    simp only [Nat.cast_zero, neg_zero, ite_self, Int.cast_zero, le_refl]
  · have hne : x * x ≠ 0 := mul_ne_zero h0 h0
    have hpos : ¬x * x < 0 := by have := mul_self_nonneg x; omega
    rw [hs hne, decide_eq_false hpos]
    simp

/-- A sum of two squares is not negative infinity. -/
theorem sumsq_not_neg_inf (a b : F64) : valueOf 52 (a * a + b * b).bits ≠ .inf true := by
  have hr := add_rounds fmt (a * a).bits (b * b).bits
  change RoundsTo 52 _ (a * a + b * b).bits at hr
  have ha := sq_not_neg_inf a
  have hb := sq_not_neg_inf b
  intro h
  by_cases hfin : Fin' (a * a) ∧ Fin' (b * b)
  · have h3 := (flt_add fmt hfin.1 hfin.2).2.2 (by
      rintro ⟨z, hz⟩; exact absurd (h.symm.trans hz) (by simp))
    obtain ⟨p, hp, hpv⟩ := h3
    have e : p = true := by
      have := h.symm.trans hp
      simp at this
      exact this
    have := hpv.1 e
    have h1 := sq_nonneg hfin.1
    have h2 := sq_nonneg hfin.2
    unfold rv at h1 h2
    linarith
  · unfold exactAdd at hr
    rcases hx : valueOf 52 (a * a).bits with _ | p | x
    · rw [hx] at hr; exact absurd (h.symm.trans hr) (by simp)
    · rcases hy : valueOf 52 (b * b).bits with _ | q | y <;> rw [hx, hy] at hr <;> dsimp only at hr
      · exact absurd (h.symm.trans hr) (by simp)
      · split at hr
        · have := h.symm.trans hr
          simp at this
          subst this
          exact ha hx
        · exact absurd (h.symm.trans hr) (by simp)
      · have := h.symm.trans hr
        simp at this
        subst this
        exact ha hx
    · rcases hy : valueOf 52 (b * b).bits with _ | q | y <;> rw [hx, hy] at hr <;> dsimp only at hr
      · exact absurd (h.symm.trans hr) (by simp)
      · have := h.symm.trans hr
        simp at this
        subst this
        exact hb hy
      · exact hfin ⟨⟨x, hx⟩, ⟨y, hy⟩⟩

/-! ### Comparing with 4 -/

theorem four : Fin' (F64.ofInt 4) ∧ rv (F64.ofInt 4) = 4 := by
  have h : valueOf 52 (F64.ofInt 4).bits = .num (4 * 2 ^ 1074) := by decide +kernel
  refine ⟨⟨_, h⟩, ?_⟩
  unfold rv
  rw [realVal_num h, show low 64 52 = 1074 by decide]
  push_cast
  field_simp

theorem le_iff {a b : F64} (ha : Fin' a) (hb : Fin' b) : F64.le a b = true ↔ rv a ≤ rv b := by
  obtain ⟨c1, c2, -⟩ := cmp_real (man := 52) ha hb
  unfold F64.le
  rw [ole_iff fmt, Bool.or_eq_true, beq_iff_eq, beq_iff_eq, c1, c2, ← le_iff_lt_or_eq]
  rfl

theorem gt_iff {a b : F64} (ha : Fin' a) (hb : Fin' b) : F64.gt a b = true ↔ rv b < rv a := by
  obtain ⟨-, -, c3⟩ := cmp_real (man := 52) ha hb
  unfold F64.gt
  rw [ogt_iff fmt, beq_iff_eq, c3]
  rfl

/-- The test of the vector program. -/
theorem bounded_iff (a b : F64) : F64.le (a * a + b * b) (F64.ofInt 4) = true ↔ Fin' (a * a + b * b) ∧ rv (a * a + b * b) ≤ 4 := by
  by_cases h : Fin' (a * a + b * b)
  · rw [le_iff h four.1, four.2]
    exact ⟨fun h' => ⟨h, h'⟩, fun h' => h'.2⟩
  · refine ⟨fun hle => ?_, fun h' => absurd h'.1 h⟩
    exfalso
    have hn := sumsq_not_neg_inf a b
    unfold F64.le at hle
    rw [ole_iff fmt, (show valueOf 52 (F64.ofInt 4).bits = .num (4 * 2 ^ 1074) by decide +kernel)] at hle
    rcases hv : valueOf 52 (a * a + b * b).bits with _ | p | z
    · rw [hv] at hle; simp [FVal.cmp] at hle
    · rcases p with _ | _
      · rw [hv] at hle; simp [FVal.cmp] at hle
      · exact hn hv
    · exact h ⟨z, hv⟩

end PackedSimd.F64R
