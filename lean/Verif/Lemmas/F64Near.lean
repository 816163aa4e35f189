import Verif.Lemmas.FloatSqrt
import Verif.Lemmas.Cast
import Verif.Model.Examples.Matrix
import Mathlib.Algebra.Order.Ring.Pow
import Mathlib.Tactic.LinearCombination
/-
Computations in `f64` with positive numbers: every operation changes the result by a factor at most `1 / (1 - 2^-53)` either way.
-/
namespace PackedSimd.F64N
open Spec Ex

theorem fmt64 : Format 64 52 := ⟨by decide, by decide⟩

noncomputable def u : ℝ := 1 / 2 ^ 53
/-- The greatest factor of one rounding. -/
noncomputable def ρ : ℝ := 1 / (1 - u)

theorem u_eq : unitRoundoff 52 = u := by unfold unitRoundoff u; norm_num
theorem u_pos : 0 < u := by unfold u; norm_num
theorem u_lt : u < 1 / 1000 := by unfold u; norm_num
theorem ρ_ge : 1 ≤ ρ := by
  unfold ρ
  rw [le_div_iff₀ (by linarith [u_lt])]
  linarith [u_pos]
theorem ρ_pos : 0 < ρ := lt_of_lt_of_le one_pos ρ_ge
theorem ρ_mul : ρ * (1 - u) = 1 := by
  unfold ρ
  rw [one_div, inv_mul_cancel₀]
  linarith [u_lt]

theorem overflow64 : (2 : ℝ) ^ 1023 ≤ overflow 64 52 := by
  unfold overflow
  rw [show low 64 52 = 1074 by decide, le_div_iff₀ (by positivity), le_div_iff₀ (by norm_num)]
  have h : 2 ^ 1023 * 2 ^ 1074 * 2 ≤ magUnits 52 (infMag 64 52 - 1) + magUnits 52 (infMag 64 52) := by decide +kernel
  exact_mod_cast h

noncomputable def rv (x : F64) : ℝ := realVal 52 x.bits

/-- `x` is the non-negative number `y` up to `k` roundings. -/
def Near (k : Nat) (x : F64) (y : ℝ) : Prop := IsFinite 52 x.bits ∧ 0 ≤ y ∧ rv x ≤ y * ρ ^ k ∧ y ≤ rv x * ρ ^ k

theorem Near.nonneg {k : Nat} {x : F64} {y : ℝ} (h : Near k x y) : 0 ≤ rv x := by
  by_contra hc
  have h1 : rv x * ρ ^ k < 0 := mul_neg_of_neg_of_pos (not_le.1 hc) (pow_pos ρ_pos k)
  linarith [h.2.1, h.2.2.2]

theorem Near.mono {k m : Nat} (hkm : k ≤ m) {x : F64} {y : ℝ} (h : Near k x y) : Near m x y := by
  have hp := pow_le_pow_right₀ ρ_ge hkm
  exact ⟨h.1, h.2.1, h.2.2.1.trans (mul_le_mul_of_nonneg_left hp h.2.1), h.2.2.2.trans (mul_le_mul_of_nonneg_left hp h.nonneg)⟩

/-- One more rounding. -/
theorem near_round {k : Nat} {x : F64} {v y : ℝ} (hx : IsFinite 52 x.bits) (hy : 0 ≤ y) (hv : 0 ≤ v) (h1 : v ≤ y * ρ ^ k) (h2 : y ≤ v * ρ ^ k)
    (he : |rv x - v| ≤ u * v) : Near (k + 1) x y := by
  obtain ⟨e1, e2⟩ := abs_le.1 he
  have hp := pow_pos ρ_pos k
  have a1 : rv x ≤ v * ρ := by
    have : v * ρ = v + u * (v * ρ) := by linear_combination v * ρ_mul
    have h3 : v ≤ v * ρ := le_mul_of_one_le_right hv ρ_ge
    have := mul_le_mul_of_nonneg_left h3 u_pos.le
    linarith
  have a2 : v ≤ rv x * ρ := by
    have h3 : (v * (1 - u)) * ρ ≤ rv x * ρ := mul_le_mul_of_nonneg_right (by linarith) ρ_pos.le
    have : v * (1 - u) * ρ = v := by linear_combination v * ρ_mul
    linarith
  refine ⟨hx, hy, ?_, ?_⟩
  · rw [pow_succ, ← mul_assoc]
    exact a1.trans (mul_le_mul_of_nonneg_right h1 ρ_pos.le)
  · rw [pow_succ', ← mul_assoc]
    exact h2.trans (mul_le_mul_of_nonneg_right a2 hp.le)

theorem near_add {k : Nat} {a b : F64} {α β : ℝ} (ha : Near k a α) (hb : Near k b β) (hl : (α + β) * ρ ^ k < 2 ^ 1023) : Near (k + 1) (a + b) (α + β) := by
  have hs : 0 ≤ rv a + rv b := add_nonneg ha.nonneg hb.nonneg
  have h1 : rv a + rv b ≤ (α + β) * ρ ^ k := by rw [add_mul]; exact add_le_add ha.2.2.1 hb.2.2.1
  have h2 : α + β ≤ (rv a + rv b) * ρ ^ k := by rw [add_mul]; exact add_le_add ha.2.2.2 hb.2.2.2
  have h := flt_add fmt64 ha.1 hb.1
  have hfin : IsFinite 52 (a + b).bits := h.1.2 (by
    have : realVal 52 a.bits + realVal 52 b.bits = rv a + rv b := rfl
    rw [this, abs_of_nonneg hs]
    exact lt_of_lt_of_le (h1.trans_lt hl) overflow64)
  refine near_round hfin (add_nonneg ha.2.1 hb.2.1) hs h1 h2 ?_
  have := h.2.1 hfin
  rwa [u_eq, show realVal 52 a.bits + realVal 52 b.bits = rv a + rv b from rfl, abs_of_nonneg hs] at this

theorem max_normal {v : ℝ} (hv : 1 / 2 ^ 1022 ≤ v) : max (unitRoundoff 52 * |v|) (tiny 64 52) = u * v := by
  have h0 : 0 ≤ v := le_trans (by positivity) hv
  rw [u_eq, abs_of_nonneg h0]
  apply max_eq_left
  unfold tiny u
  rw [show low 64 52 = 1074 by decide]
  calc (1 : ℝ) / 2 ^ (1074 + 1) = 1 / 2 ^ 53 * (1 / 2 ^ 1022) := by rw [div_mul_div_comm, ← pow_add]; norm_num only
    _ ≤ _ := mul_le_mul_of_nonneg_left hv (by positivity)

theorem near_mul {k m : Nat} {a b : F64} {α β : ℝ} (ha : Near k a α) (hb : Near m b β) (hl : α * β * ρ ^ (k + m) < 2 ^ 1023)
    (hs : 1 / 2 ^ 1022 * ρ ^ (k + m) ≤ α * β) : Near (k + m + 1) (a * b) (α * β) := by
  have hp := pow_pos ρ_pos (k + m)
  have h1 : rv a * rv b ≤ α * β * ρ ^ (k + m) := by
    have := mul_le_mul ha.2.2.1 hb.2.2.1 hb.nonneg (mul_nonneg ha.2.1 (pow_pos ρ_pos k).le)
    calc _ ≤ _ := this
      _ = _ := by rw [pow_add]; ring
  have h2 : α * β ≤ rv a * rv b * ρ ^ (k + m) := by
    have := mul_le_mul ha.2.2.2 hb.2.2.2 hb.2.1 (mul_nonneg ha.nonneg (pow_pos ρ_pos k).le)
    calc _ ≤ _ := this
      _ = _ := by rw [pow_add]; ring
  have hv : 1 / 2 ^ 1022 ≤ rv a * rv b := le_of_mul_le_mul_right (hs.trans h2) hp
  have h0 : 0 ≤ rv a * rv b := mul_nonneg ha.nonneg hb.nonneg
  have h := flt_mul fmt64 ha.1 hb.1
  rw [show realVal 52 a.bits * realVal 52 b.bits = rv a * rv b from rfl, max_normal hv] at h
  have hfin : IsFinite 52 (a * b).bits := h.1.2 (by rw [abs_of_nonneg h0]; exact lt_of_lt_of_le (h1.trans_lt hl) overflow64)
  exact near_round hfin (mul_nonneg ha.2.1 hb.2.1) h0 h1 h2 (h.2.1 hfin)

theorem near_div {k m : Nat} {a b : F64} {α β : ℝ} (ha : Near k a α) (hb : Near m b β) (hβ : 0 < β) (hl : α / β * ρ ^ (k + m) < 2 ^ 1023)
    (hs : 1 / 2 ^ 1022 * ρ ^ (k + m) ≤ α / β) : Near (k + m + 1) (a / b) (α / β) := by
  have hp := pow_pos ρ_pos (k + m)
  have hpm := pow_pos ρ_pos m
  have hb0 : 0 < rv b := by
    rcases hb.nonneg.eq_or_lt with h | h
    · have := hb.2.2.2
      rw [← h, zero_mul] at this
      linarith
    · exact h
  have h1 : rv a / rv b ≤ α / β * ρ ^ (k + m) := by
    rw [div_le_iff₀ hb0]
    have e : α / β * ρ ^ (k + m) * rv b = α * ρ ^ k * (rv b * ρ ^ m / β) := by rw [pow_add]; ring
    rw [e]
    have : 1 ≤ rv b * ρ ^ m / β := by rw [le_div_iff₀ hβ, one_mul]; exact hb.2.2.2
    exact ha.2.2.1.trans (le_mul_of_one_le_right (mul_nonneg ha.2.1 (pow_pos ρ_pos k).le) this)
  have h2 : α / β ≤ rv a / rv b * ρ ^ (k + m) := by
    rw [div_le_iff₀ hβ]
    have e : rv a / rv b * ρ ^ (k + m) * β = rv a * ρ ^ k * (β * ρ ^ m / rv b) := by rw [pow_add]; ring
    rw [e]
    have : 1 ≤ β * ρ ^ m / rv b := by rw [le_div_iff₀ hb0, one_mul]; exact hb.2.2.1
    exact ha.2.2.2.trans (le_mul_of_one_le_right (mul_nonneg ha.nonneg (pow_pos ρ_pos k).le) this)
  have hv : 1 / 2 ^ 1022 ≤ rv a / rv b := le_of_mul_le_mul_right (hs.trans h2) hp
  have h0 : 0 ≤ rv a / rv b := div_nonneg ha.nonneg hb.nonneg
  have h := flt_div fmt64 ha.1 hb.1 (by exact hb0.ne')
  rw [show realVal 52 a.bits / realVal 52 b.bits = rv a / rv b from rfl, max_normal hv] at h
  have hfin : IsFinite 52 (a / b).bits := h.1.2 (by rw [abs_of_nonneg h0]; exact lt_of_lt_of_le (h1.trans_lt hl) overflow64)
  exact near_round hfin (div_nonneg ha.2.1 hβ.le) h0 h1 h2 (h.2.1 hfin)

theorem near_sqrt {k : Nat} {a r : F64} {α : ℝ} (ha : Near (2 * k) a α) (hα : 0 < α) (hr : IsSqrt 52 a.bits r.bits) : Near (k + 1) r (√α) := by
  have hp := pow_pos ρ_pos k
  have ha0 : 0 < rv a := by
    rcases ha.nonneg.eq_or_lt with h | h
    · have := ha.2.2.2
      rw [← h, zero_mul] at this
      linarith
    · exact h
  obtain ⟨-, hf, -⟩ := (isSqrt_pos_iff ha0).1 hr
  have he := isSqrt_error fmt64 (by decide) ha0 hr
  rw [u_eq] at he
  have e : ρ ^ (2 * k) = (ρ ^ k) ^ 2 := by rw [← pow_mul, mul_comm]
  refine near_round hf (Real.sqrt_nonneg _) (Real.sqrt_nonneg (rv a)) ?_ ?_ he
  · have := Real.sqrt_le_sqrt ha.2.2.1
    rwa [e, Real.sqrt_mul hα.le, Real.sqrt_sq hp.le] at this
  · have := Real.sqrt_le_sqrt ha.2.2.2
    rwa [e, Real.sqrt_mul ha0.le, Real.sqrt_sq hp.le] at this

theorem near_ofNat {N : Nat} (hN : N < 2 ^ 64) : Near 1 ⟨Flt.fromInt 64 52 N⟩ N := by
  have h := fromInt_rounds fmt64 (N : Int)
  have := (realRound_of fmt64 h (v := (N : ℝ)) (by push_cast; field_simp)).2 rfl
  have h0 : (0 : ℝ) ≤ N := by positivity
  rw [u_eq, abs_of_nonneg h0] at this
  have hfin : IsFinite 52 (Flt.fromInt 64 52 N) := this.1.2 (by
    rw [abs_of_nonneg h0]
    refine lt_of_lt_of_le ?_ overflow64
    have : (N : ℝ) < 2 ^ 64 := by exact_mod_cast hN
    exact this.trans (by gcongr <;> norm_num))
  have := near_round (x := ⟨Flt.fromInt 64 52 N⟩) (k := 0) hfin h0 h0 (by simp) (by simp) (this.2.1 hfin)
  exact this

theorem near_zero {k : Nat} : Near k (0 : F64) 0 := by
  have h : valueOf 52 (0 : F64).bits = .num 0 := by decide +kernel
  have e : rv 0 = 0 := by unfold rv; rw [realVal_num h]; simp
  exact ⟨⟨_, h⟩, le_rfl, by rw [e, zero_mul], by rw [e, zero_mul]⟩

theorem near_one : Near 0 (1 : F64) 1 := by
  have h : valueOf 52 (1 : F64).bits = .num (2 ^ 1074) := by decide +kernel
  have e : rv 1 = 1 := by
    unfold rv
    rw [realVal_num h, show low 64 52 = 1074 by decide]
    push_cast
    exact div_self (by positivity)
  exact ⟨⟨_, h⟩, zero_le_one, by rw [e]; simp, by rw [e]; simp⟩

/-- `ρ ^ k` is about `1 + k u`. -/
theorem ρ_pow (k : Nat) (hk : (k : ℝ) * u < 1) : ρ ^ k ≤ 1 / (1 - k * u) := by
  unfold ρ
  rw [one_div_pow]
  have hb := one_add_mul_le_pow (a := -u) (by linarith [u_lt]) k
  have : 1 - (k : ℝ) * u ≤ (1 - u) ^ k := by
    rw [sub_eq_add_neg 1 u]
    linarith
  exact one_div_le_one_div_of_le (by linarith) this

theorem ρ_pow_two {k : Nat} (hk : k ≤ 2 ^ 52) : ρ ^ k ≤ 2 := by
  have hk' : (k : ℝ) ≤ 2 ^ 52 := by exact_mod_cast hk
  have h1 : (k : ℝ) * u ≤ 1 / 2 := by
    have := mul_le_mul_of_nonneg_right hk' u_pos.le
    refine this.trans (le_of_eq ?_)
    unfold u
    norm_num
  refine (ρ_pow k (by linarith)).trans ?_
  rw [div_le_iff₀ (by linarith)]
  linarith

end PackedSimd.F64N
