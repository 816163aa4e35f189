import Verif.Lemmas.F64Real
/-
Finer facts about rounding to `f64`: no number of the format is nearer than the result, and the numbers of size at least `2 ^ j` are multiples of
`2 ^ j * η`.
-/
namespace PackedSimd.F64R
open Spec Ex

/-- The distance of the numbers between 1 and 2. -/
noncomputable def η : ℝ := 1 / 2 ^ 52
theorem η_pos : 0 < η := by unfold η; positivity
theorem η_le : η ≤ 1 / 10 ^ 15 := by unfold η; norm_num
theorem u_eq : unitRoundoff 52 = η / 2 := by unfold unitRoundoff η; norm_num
theorem tiny_le_η : tiny 64 52 ≤ η * η * η := by
  unfold tiny η
  rw [show low 64 52 = 1074 by decide]
  have h : (2 : ℝ) ^ 156 ≤ 2 ^ (1074 + 1) := pow_le_pow_right₀ (by norm_num) (by norm_num)
  have h2 : (1 : ℝ) / 2 ^ (1074 + 1) ≤ 1 / 2 ^ 156 := one_div_le_one_div_of_le (by positivity) h
  refine h2.trans (le_of_eq ?_)
  norm_num

theorem near_units {num : Int} {den : Nat} {x : BitVec 64} (h : RoundsTo 52 (.frac num den) x) {v : ℝ} (hv : v = (num : ℝ) / den / 2 ^ 1074)
    (hx : IsFinite 52 x) (m : ℤ) (hm : m.natAbs ≤ 2 ^ 53) {j : ℕ} (hj : j ≤ 100) :
    |realVal 52 x - v| ≤ |(m : ℝ) * (2 ^ j * η) - v| := by
  have hlow : low 64 52 = 1074 := by decide
  have hd : (0 : ℝ) < den := by exact_mod_cast h.1
  have hL : (0 : ℝ) < 2 ^ 1074 := by positivity
  obtain ⟨b, hb⟩ := exists_mag (man := 52) (1022 + j) _ hm
  have hb' : b ≤ infMag 64 52 := by
    by_contra hlt
    have h1 := magUnits_lt (man := 52) (Nat.lt_of_not_le hlt)
    have h2 : 2 ^ 53 * 2 ^ 1122 ≤ magUnits 52 (infMag 64 52) := by decide +kernel
    have h3 : m.natAbs * 2 ^ (1022 + j) ≤ 2 ^ 53 * 2 ^ 1122 := Nat.mul_le_mul hm (Nat.pow_le_pow_right (by norm_num) (by omega))
    omega
  have h1 := (nearTo_of h.1 h.2.1).2 b hb'
  have h2 := rounds_err h (v := v) (by rw [hlow]; exact hv) hx _ h1
  rw [hlow] at h2
  refine h2.trans ?_
  have hav : |v| = (num.natAbs : ℝ) / den / 2 ^ 1074 := by
    rw [hv, abs_div, abs_div, abs_of_pos hL, abs_of_pos hd, Nat.cast_natAbs, Int.cast_abs]
  have e : |((magUnits 52 b : ℕ) : ℝ) - num.natAbs / den| / 2 ^ 1074 = |(|(m : ℝ) * (2 ^ j * η)| - |v|)| := by
    rw [hav]
    conv => lhs; rw [← abs_of_pos hL]
    rw [← abs_div, sub_div, hb]
    congr 2
    have he : (0 : ℝ) < 2 ^ j * η := mul_pos (by positivity) η_pos
    rw [abs_mul, abs_of_pos he]
    push_cast
    rw [pow_add, Nat.cast_natAbs, Int.cast_abs]
    unfold η
    rw [show (2 : ℝ) ^ 1074 = 2 ^ 1022 * 2 ^ 52 by rw [← pow_add]]
    field_simp
  rw [e]
  exact abs_abs_sub_abs_le _ _

theorem add_near {a b : F64} (h : Fin' (a + b)) (m : ℤ) (hm : m.natAbs ≤ 2 ^ 53) {j : ℕ} (hj : j ≤ 100) :
    |rv (a + b) - (rv a + rv b)| ≤ |(m : ℝ) * (2 ^ j * η) - (rv a + rv b)| := by
  obtain ⟨⟨x, hx⟩, ⟨y, hy⟩⟩ := fin_add h
  have hr := add_rounds fmt a.bits b.bits
  unfold exactAdd at hr
  rw [hx, hy] at hr
  unfold rv
  rw [realVal_num hx, realVal_num hy]
  refine near_units hr ?_ h m hm hj
  rw [show low 64 52 = 1074 by decide]
  push_cast
  ring

theorem sub_near {a b : F64} (h : Fin' (a - b)) (m : ℤ) (hm : m.natAbs ≤ 2 ^ 53) {j : ℕ} (hj : j ≤ 100) :
    |rv (a - b) - (rv a - rv b)| ≤ |(m : ℝ) * (2 ^ j * η) - (rv a - rv b)| := by
  obtain ⟨⟨x, hx⟩, ⟨y, hy⟩⟩ := fin_sub h
  have hr := sub_rounds fmt a.bits b.bits
  unfold exactSub at hr
  rw [hx, hy] at hr
  unfold rv
  rw [realVal_num hx, realVal_num hy]
  refine near_units hr ?_ h m hm hj
  rw [show low 64 52 = 1074 by decide]
  push_cast
  ring

theorem mul_near {a b : F64} (h : Fin' (a * b)) (m : ℤ) (hm : m.natAbs ≤ 2 ^ 53) {j : ℕ} (hj : j ≤ 100) :
    |rv (a * b) - rv a * rv b| ≤ |(m : ℝ) * (2 ^ j * η) - rv a * rv b| := by
  obtain ⟨⟨x, hx⟩, ⟨y, hy⟩⟩ := fin_mul h
  have hr := mul_rounds fmt a.bits b.bits
  unfold exactMul at hr
  rw [hx, hy] at hr
  unfold rv
  rw [realVal_num hx, realVal_num hy]
  refine near_units hr ?_ h m hm hj
  rw [show low 64 52 = 1074 by decide]
  push_cast
  field_simp

theorem add_u {a b : F64} (h : Fin' (a + b)) : |rv (a + b) - (rv a + rv b)| ≤ η / 2 * |rv a + rv b| := by
  rw [← u_eq]; exact (flt_add fmt (fin_add h).1 (fin_add h).2).2.1 h
theorem sub_u {a b : F64} (h : Fin' (a - b)) : |rv (a - b) - (rv a - rv b)| ≤ η / 2 * |rv a - rv b| := by
  rw [← u_eq]; exact (flt_sub fmt (fin_sub h).1 (fin_sub h).2).2.1 h
theorem mul_u {a b : F64} (h : Fin' (a * b)) : |rv (a * b) - rv a * rv b| ≤ η / 2 * |rv a * rv b| + η * η * η := by
  have h1 := (flt_mul fmt (fin_mul h).1 (fin_mul h).2).2.1 h
  rw [u_eq] at h1
  refine h1.trans (max_le ?_ ?_)
  · have := η_pos
    have : 0 < η * η * η := by positivity
    show η / 2 * |rv a * rv b| ≤ _
    linarith
  · have h0 : 0 ≤ η / 2 * |rv a * rv b| := mul_nonneg (by have := η_pos; linarith) (abs_nonneg _)
    have := tiny_le_η
    linarith

/-- Numbers of size at least `2 ^ j` are multiples of `2 ^ j * η`. -/
theorem onGrid {a : F64} (h : Fin' a) {j : ℕ} (hj : j ≤ 100) (ha : 2 ^ j ≤ |rv a|) : ∃ m : ℤ, rv a = m * (2 ^ j * η) := by
  have hv := valueOf_finite h
  have hr : rv a = _ := realVal_num hv
  rw [show low 64 52 = 1074 by decide] at hr
  have hL : (0 : ℝ) < 2 ^ 1074 := by positivity
  have hmag : |rv a| = (magUnits 52 (magBits a.bits) : ℝ) / 2 ^ 1074 := by
    rw [hr, abs_div, abs_of_pos hL]
    congr 1
    split
    · rw [Int.cast_neg, abs_neg, Int.cast_natCast, abs_of_nonneg (Nat.cast_nonneg _)]
    · rw [Int.cast_natCast, abs_of_nonneg (Nat.cast_nonneg _)]
  rw [hmag, le_div_iff₀ hL, ← pow_add] at ha
  have ha' : 2 ^ (j + 1074) ≤ magUnits 52 (magBits a.bits) := by exact_mod_cast ha
  obtain ⟨k, hk⟩ : ∃ k : ℕ, magUnits 52 (magBits a.bits) = k * 2 ^ (1022 + j) := by
    obtain ⟨s, q, e, hq, hs⟩ := exists_mk (man := 52) (magBits a.bits)
    rw [e, magUnits_mk (by omega) hs] at ha' ⊢
    have hs2 : 1022 + j ≤ s := by
      by_contra hlt
      have h1 : 2 ^ s ≤ 2 ^ (1021 + j) := Nat.pow_le_pow_right (by norm_num) (by omega)
      have h2 : q * 2 ^ s < 2 ^ 53 * 2 ^ (1021 + j) := Nat.lt_of_lt_of_le (Nat.mul_lt_mul_of_pos_right hq (Nat.two_pow_pos s)) (Nat.mul_le_mul_left _ h1)
      rw [← pow_add, show 53 + (1021 + j) = j + 1074 by omega] at h2
      omega
    exact ⟨q * 2 ^ (s - (1022 + j)), by rw [Nat.mul_assoc, ← pow_add, Nat.sub_add_cancel hs2]⟩
  have key : (magUnits 52 (magBits a.bits) : ℝ) / 2 ^ 1074 = k * (2 ^ j * η) := by
    rw [hk]
    push_cast
    rw [pow_add]
    unfold η
    rw [show (2 : ℝ) ^ 1074 = 2 ^ 1022 * 2 ^ 52 by rw [← pow_add]]
    field_simp
  by_cases hneg : isNeg a.bits
  · refine ⟨-k, ?_⟩
    rw [hr, if_pos hneg, Int.cast_neg, Int.cast_natCast, neg_div, key, Int.cast_neg, Int.cast_natCast]
    ring
  · refine ⟨k, ?_⟩
    rw [hr, if_neg hneg, Int.cast_natCast, key, Int.cast_natCast]

end PackedSimd.F64R
