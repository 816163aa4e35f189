import Verif.Lemmas.CndFloat
import Verif.Props.Options
/-
C130: the Black-Scholes programs in `f32`.
-/
namespace PackedSimd.Props
open PackedSimd Ex Ex.Options Spec F32R

variable {n : Nat} {X : ℝ} {F : Fns F32}

/-- **C130** The approximation of the normal distribution, computed in `f32`. -/
theorem C130_cnd (hF : CndFns X F) (hX : X ≤ 100) {x : F32} (hx : Bounded x) :
    IsFinite 23 (cndScalar F x).bits ∧ |realVal 23 (cndScalar F x).bits - normalCdf (realVal 23 x.bits)| ≤ 1 / 10 ^ 6 + (60 + X / 2) / 2 ^ 24 := by
  obtain ⟨h1, h2⟩ := cnd_float hF hX hx.1 hx.2
  refine ⟨h1, (abs_sub_le _ (cndScalar realFns (rv x)) _).trans ?_⟩
  have h3 := cnd_near (rv x)
  rw [show (60 + X / 2) / 2 ^ 24 = (60 + X / 2) * ν by unfold ν; ring]
  change |rv (cndScalar F x) - _| + |_ - normalCdf (rv x)| ≤ _
  linarith

/-- The vector program computes the same in every lane. -/
theorem C130_cnd_simd (hF : CndFns X F) (hX : X ≤ 100) {x : Vec F32 n} (hx : ∀ i (h : i < n), Bounded x[i]) (i : Nat) (h : i < n) :
    IsFinite 23 ((cndSimd F x)[i]).bits ∧
      |realVal 23 ((cndSimd F x)[i]).bits - normalCdf (realVal 23 (x[i]).bits)| ≤ 1 / 10 ^ 6 + (60 + X / 2) / 2 ^ 24 := by
  rw [cnd_lane F (f32_neg F (lit_minus_one hF.lit))]
  exact C130_cnd hF hX (hx i h)

/-- The price against the formula for the computed arguments. -/
theorem C130_scalar (hF : CndFns X F) (hX : X ≤ 100) {s x t r v : F32} (hs : Moderate s) (hx : Moderate x) (he : Moderate (discountComputed F t r))
    (h1 : Bounded (d1Computed F s x t r v)) (h2 : Bounded (d2Computed F s x t r v)) :
    ∃ p, blackScholesScalar F s x t r v = .ok p ∧ IsFinite 23 p.bits ∧
      |realVal 23 p.bits - formulaAt F s x t r v| ≤ sizeAt F s x t r * (1 / 10 ^ 6 + (64 + X / 2) / 2 ^ 24) + 4 / 2 ^ 150 := by
  obtain ⟨f1, e1⟩ := C130_cnd hF hX h1
  obtain ⟨f2, e2⟩ := C130_cnd hF hX h2
  have hδ : 1 / 10 ^ 6 + (60 + X / 2) / 2 ^ 24 ≤ (1 / 1000 : ℝ) := by
    have : (60 + X / 2) / 2 ^ 24 ≤ (60 + 100 / 2) / 2 ^ 24 := by gcongr
    have : ((60 + 100 / 2) / 2 ^ 24 : ℝ) ≤ 1 / 100000 := by norm_num
    linarith
  obtain ⟨hp, hq⟩ := price_float hδ hs.1 hx.1 he.1 f1 f2 hs.2.1 hs.2.2 hx.2.1 hx.2.2 he.2.1 he.2.2 e1 e2 (cdf_nonneg _) (cdf_le_one _) (cdf_nonneg _) (cdf_le_one _)
  refine ⟨_, rfl, hp, ?_⟩
  have c : 1 / 10 ^ 6 + (64 + X / 2) / 2 ^ 24 = (1 / 10 ^ 6 + (60 + X / 2) / 2 ^ 24) + 4 * ν := by unfold ν; ring
  have d : (4 / 2 ^ 150 : ℝ) = 4 * η := by unfold η; ring
  rw [c, d]
  exact hq

/-- **C130** The price against the value of the call: besides the rounding of the formula itself, only the errors made in the two arguments of the distribution
function and in the discount factor count. -/
theorem C130_call (hF : CndFns X F) (hX : X ≤ 100) {s x t r v : F32} (hs : Moderate s) (hx : Moderate x) (he : Moderate (discountComputed F t r))
    (h1 : Bounded (d1Computed F s x t r v)) (h2 : Bounded (d2Computed F s x t r v))
    (s0 : 0 < realVal 23 s.bits) (x0 : 0 < realVal 23 x.bits) (t0 : 0 < realVal 23 t.bits) (v0 : 0 < realVal 23 v.bits) {a b c : ℝ}
    (ha : |realVal 23 (d1Computed F s x t r v).bits - dOne (realVal 23 s.bits) (realVal 23 x.bits) (realVal 23 t.bits) (realVal 23 r.bits) (realVal 23 v.bits)| ≤ a)
    (hb : |realVal 23 (d2Computed F s x t r v).bits - dTwo (realVal 23 s.bits) (realVal 23 x.bits) (realVal 23 t.bits) (realVal 23 r.bits) (realVal 23 v.bits)| ≤ b)
    (hc : |realVal 23 (discountComputed F t r).bits - Real.exp (-(realVal 23 r.bits * realVal 23 t.bits))| ≤ c) :
    ∃ p, blackScholesScalar F s x t r v = .ok p ∧ IsFinite 23 p.bits ∧
      |realVal 23 p.bits - callPrice (realVal 23 s.bits) (realVal 23 x.bits) (realVal 23 t.bits) (realVal 23 r.bits) (realVal 23 v.bits)| ≤
        sizeAt F s x t r * (1 / 10 ^ 6 + (64 + X / 2) / 2 ^ 24) + 4 / 2 ^ 150
          + 2 / 5 * (realVal 23 s.bits * a + realVal 23 x.bits * realVal 23 (discountComputed F t r).bits * b) + realVal 23 x.bits * c := by
  obtain ⟨p, hp1, hp2, hp3⟩ := C130_scalar hF hX hs hx he h1 h2
  refine ⟨p, hp1, hp2, (abs_sub_le _ (formulaAt F s x t r v) _).trans ?_⟩
  rw [callPrice_eq s0 x0 t0 v0]
  suffices hd : |formulaAt F s x t r v - (realVal 23 s.bits * normalCdf (dOne (realVal 23 s.bits) (realVal 23 x.bits) (realVal 23 t.bits) (realVal 23 r.bits) (realVal 23 v.bits))
      - realVal 23 x.bits * Real.exp (-(realVal 23 r.bits * realVal 23 t.bits)) * normalCdf (dTwo (realVal 23 s.bits) (realVal 23 x.bits) (realVal 23 t.bits) (realVal 23 r.bits) (realVal 23 v.bits)))| ≤
      realVal 23 s.bits * (2 / 5 * a) + (realVal 23 x.bits * realVal 23 (discountComputed F t r).bits * (2 / 5 * b) + realVal 23 x.bits * c) by linarith
  clear hp3
  unfold formulaAt
  have l1 := (cdf_lipschitz (realVal 23 (d1Computed F s x t r v).bits) (dOne (realVal 23 s.bits) (realVal 23 x.bits) (realVal 23 t.bits) (realVal 23 r.bits) (realVal 23 v.bits))).trans
    (mul_le_mul_of_nonneg_left ha (by norm_num))
  have l2 := (cdf_lipschitz (realVal 23 (d2Computed F s x t r v).bits) (dTwo (realVal 23 s.bits) (realVal 23 x.bits) (realVal 23 t.bits) (realVal 23 r.bits) (realVal 23 v.bits))).trans
    (mul_le_mul_of_nonneg_left hb (by norm_num))
  have n0 := cdf_nonneg (dTwo (realVal 23 s.bits) (realVal 23 x.bits) (realVal 23 t.bits) (realVal 23 r.bits) (realVal 23 v.bits))
  have n1 := cdf_le_one (dTwo (realVal 23 s.bits) (realVal 23 x.bits) (realVal 23 t.bits) (realVal 23 r.bits) (realVal 23 v.bits))
  have he0 := he.2.1
  generalize normalCdf (dTwo _ _ _ _ _) = N2 at *
  generalize normalCdf (dOne _ _ _ _ _) = N1 at *
  generalize normalCdf (realVal 23 (d1Computed F s x t r v).bits) = M1 at *
  generalize normalCdf (realVal 23 (d2Computed F s x t r v).bits) = M2 at *
  generalize realVal 23 (discountComputed F t r).bits = e at *
  generalize Real.exp _ = E at *
  generalize realVal 23 s.bits = S at *
  generalize realVal 23 x.bits = K at *
  rw [show S * M1 - K * e * M2 - (S * N1 - K * E * N2) = S * (M1 - N1) + (-(K * e * (M2 - N2)) + -(K * N2 * (e - E))) by ring]
  refine (abs_add_le _ _).trans (add_le_add ?_ ((abs_add_le _ _).trans (add_le_add ?_ ?_)))
  · rw [abs_mul, abs_of_pos s0]
    exact mul_le_mul_of_nonneg_left l1 s0.le
  · rw [abs_neg, abs_mul, abs_of_nonneg (mul_nonneg x0.le he0)]
    exact mul_le_mul_of_nonneg_left l2 (mul_nonneg x0.le he0)
  · rw [abs_neg, abs_mul, abs_of_nonneg (mul_nonneg x0.le n0)]
    have c0 := (abs_nonneg _).trans hc
    calc K * N2 * |e - E| ≤ K * 1 * c := by gcongr
      _ = K * c := by ring

/-- The vector program. -/
theorem C130_simd (hF : CndFns X F) (hX : X ≤ 100) {s x t r v : Vec F32 n}
    (h : ∀ i (hi : i < n), Moderate s[i] ∧ Moderate x[i] ∧ Moderate (discountComputed F t[i] r[i]) ∧ Bounded (d1Computed F s[i] x[i] t[i] r[i] v[i]) ∧
      Bounded (d2Computed F s[i] x[i] t[i] r[i] v[i])) :
    ∃ w, blackScholesSimd F s x t r v = .ok w ∧ ∀ i (hi : i < n), IsFinite 23 (w[i]).bits ∧
      |realVal 23 (w[i]).bits - formulaAt F s[i] x[i] t[i] r[i] v[i]| ≤ sizeAt F s[i] x[i] t[i] r[i] * (1 / 10 ^ 6 + (64 + X / 2) / 2 ^ 24) + 4 / 2 ^ 150 := by
  obtain ⟨w, h1, h2⟩ := blackScholes_lane F (f32_neg F (lit_minus_one hF.lit)) s x t r v
  refine ⟨w, h1, fun i hi => ?_⟩
  obtain ⟨a, b, c, d, e⟩ := h i hi
  obtain ⟨p, h3, h4⟩ := C130_scalar hF hX a b c d e
  have h5 := h2 i hi
  rw [h3] at h5
  cases h5
  exact h4

/-! ### Examples -/

/-- A library that rounds the exponential to a multiple of `2^-24`, and then to a float. -/
noncomputable def someFns : Fns F32 :=
  let lit : ℚ → F32 := fun q => ⟨Flt.roundInt 32 23 false (q.num * 2 ^ 149) q.den⟩
  { lit := lit
    abs := fun x => ⟨Flt.abs x.bits⟩
    exp := fun y => lit (((⌊Real.exp (realVal 23 y.bits) * 2 ^ 24⌋ : ℤ) : ℚ) / 2 ^ 24)
    ln := fun _ => 0
    sqrt := id
    powf := fun x _ => x
    max := fun x _ => x
    gt := fun x y => Flt.ogt 23 x.bits y.bits }

theorem someFns_ok : CndFns 3 someFns := by
  have hlit : LitOk someFns := fun q => roundsTo_roundInt fmt _ _ q.den_pos false
  refine ⟨hlit, fun _ => rfl, fun _ _ => rfl, fun y _ hy => ?_⟩
  have h0 := Real.exp_pos (realVal 23 y.bits)
  have h1 := Real.exp_le_one_iff.2 hy
  have hE : someFns.exp y = someFns.lit (((⌊Real.exp (realVal 23 y.bits) * 2 ^ 24⌋ : ℤ) : ℚ) / 2 ^ 24) := rfl
  rw [hE]
  generalize Real.exp (realVal 23 y.bits) = e at *
  have f1 := Int.floor_le (e * 2 ^ 24)
  have f2 := Int.lt_floor_add_one (e * 2 ^ 24)
  have f0 : (0 : ℝ) ≤ ((⌊e * 2 ^ 24⌋ : ℤ) : ℝ) := by exact_mod_cast Int.floor_nonneg.2 (by positivity)
  have hq : ((((⌊e * 2 ^ 24⌋ : ℤ) : ℚ) / 2 ^ 24 : ℚ) : ℝ) = ((⌊e * 2 ^ 24⌋ : ℤ) : ℝ) / 2 ^ 24 := by push_cast; rfl
  generalize (((⌊e * 2 ^ 24⌋ : ℤ) : ℚ) / 2 ^ 24 : ℚ) = q at *
  generalize ((⌊e * 2 ^ 24⌋ : ℤ) : ℝ) = z at *
  have q1 : (q : ℝ) ≤ e := by rw [hq, div_le_iff₀ (by positivity)]; exact f1
  have q0 : (0 : ℝ) ≤ q := by rw [hq]; positivity
  have q2 : e - 1 / 2 ^ 24 ≤ q := by rw [hq, le_div_iff₀ (by positivity), sub_mul]; linarith
  obtain ⟨hf, hv⟩ := lit_ok hlit q (by rw [abs_of_nonneg q0]; exact lt_of_le_of_lt (q1.trans h1) (by norm_num))
  refine ⟨hf, (abs_sub_le _ (q : ℝ) _).trans ?_⟩
  rw [abs_of_nonneg q0] at hv
  have h3 : |(q : ℝ) - e| ≤ 1 / 2 ^ 24 := by rw [abs_le]; constructor <;> linarith
  have hν : ν = 1 / 2 ^ 24 := rfl
  rw [← hν] at h3
  have hν0 := ν_pos
  have hη := η_tiny
  rw [show (3 : ℝ) / 2 ^ 24 = 3 * ν by unfold ν; ring]
  change |rv (someFns.lit q) - q| + |(q : ℝ) - e| ≤ _
  nlinarith

theorem one_float : Bounded 1 := ⟨one_ok.1, by show |rv 1| ≤ _; rw [one_ok.2]; norm_num⟩

/-- One standard deviation. -/
example : |realVal 23 (cndScalar someFns 1).bits - normalCdf 1| ≤ 5 / 10 ^ 6 := by
  have h := (C130_cnd someFns_ok (by norm_num) one_float).2
  rw [show realVal 23 (1 : F32).bits = 1 from one_ok.2] at h
  refine h.trans ?_
  norm_num

/-- Stock 100, strike 98. -/
example : ∃ p, blackScholesScalar someFns ⟨0x42c80000⟩ ⟨0x42c40000⟩ 1 0 1 = .ok p ∧ IsFinite 23 p.bits ∧
    |realVal 23 p.bits - formulaAt someFns ⟨0x42c80000⟩ ⟨0x42c40000⟩ 1 0 1| ≤ 1 / 500 := by
  have v1 : valueOf 23 (0x42c80000 : BitVec 32) = .num (100 * 2 ^ 149) := by decide +kernel
  have v2 : valueOf 23 (0x42c40000 : BitVec 32) = .num (98 * 2 ^ 149) := by decide +kernel
  have r1 : realVal 23 (0x42c80000 : BitVec 32) = 100 := by rw [realVal_num v1, show low 32 23 = 149 by decide]; norm_num
  have r2 : realVal 23 (0x42c40000 : BitVec 32) = 98 := by rw [realVal_num v2, show low 32 23 = 149 by decide]; norm_num
  have w1 : valueOf 23 (d1Computed someFns ⟨0x42c80000⟩ ⟨0x42c40000⟩ 1 0 1).bits = .num (2 ^ 148) := by decide +kernel
  have w2 : valueOf 23 (d2Computed someFns ⟨0x42c80000⟩ ⟨0x42c40000⟩ 1 0 1).bits = .num (-2 ^ 148) := by decide +kernel
  have w3 : valueOf 23 (-(0 : F32) * 1).bits = .num 0 := by decide +kernel
  have w3' : realVal 23 (-(0 : F32) * 1).bits = 0 := by rw [realVal_num w3]; simp
  obtain ⟨e1, e2⟩ := someFns_ok.exp (-(0 : F32) * 1) ⟨_, w3⟩ w3'.le
  rw [w3', Real.exp_zero] at e2
  obtain ⟨e3, e4⟩ := abs_le.1 e2
  have hd : realVal 23 (discountComputed someFns 1 0).bits ≤ 2 := by
    show realVal 23 (someFns.exp (-(0 : F32) * 1)).bits ≤ 2
    norm_num at e4
    linarith
  have hd0 : 0 ≤ realVal 23 (discountComputed someFns 1 0).bits := by
    show 0 ≤ realVal 23 (someFns.exp (-(0 : F32) * 1)).bits
    norm_num at e3
    linarith
  obtain ⟨p, h1, h2, h3⟩ := C130_scalar (s := ⟨0x42c80000⟩) (x := ⟨0x42c40000⟩) (t := 1) (r := 0) (v := 1) someFns_ok (by norm_num)
    ⟨⟨_, v1⟩, by rw [r1]; norm_num⟩ ⟨⟨_, v2⟩, by rw [r2]; norm_num⟩ ⟨e1, hd0, hd.trans (by norm_num)⟩
    ⟨⟨_, w1⟩, by rw [realVal_num w1, show low 32 23 = 149 by decide]; norm_num⟩ ⟨⟨_, w2⟩, by rw [realVal_num w2, show low 32 23 = 149 by decide]; norm_num⟩
  refine ⟨p, h1, h2, h3.trans ?_⟩
  unfold sizeAt
  rw [r1, r2]
  norm_num at hd ⊢
  linarith

end PackedSimd.Props
