import Verif.Lemmas.LatticeFloat
/-
C127: rounding errors of the binomial programs of examples/options_pricing.
-/
namespace PackedSimd.Props
open Ex Ex.Options Spec F32R

variable {n : Nat}

/-- The literals are those of `f32`, and `max` is IEEE's `maxNum`. -/
structure F32Fns (F : Fns F32) : Prop where
  zero : F.lit 0 = 0
  one : F.lit 1 = 1
  max : ∀ a b, ∃ pick, F.max a b = ⟨Flt.maxNum 23 pick a.bits b.bits⟩

/-- An ordinary market: as computed, the stock's up factor is more than 1 and at least the interest factor of one period, which is at least 1; the strike
is a non-negative number; no stock price is negative.  Nothing is said of how accurate `exp`, `powf` and `sqrt` are. -/
structure Market (F : Fns F32) (N : Nat) (s x t r v : F32) : Prop where
  up_finite : Fin' (F.exp (v * F.sqrt (t / F.lit N)))
  disc_finite : Fin' (F.exp (r * (t / F.lit N)))
  up : 1 < rv (F.exp (v * F.sqrt (t / F.lit N)))
  up_le : rv (F.exp (v * F.sqrt (t / F.lit N))) ≤ 2 ^ 126
  disc : 1 ≤ rv (F.exp (r * (t / F.lit N)))
  disc_le : rv (F.exp (r * (t / F.lit N))) ≤ rv (F.exp (v * F.sqrt (t / F.lit N)))
  strike_finite : Fin' x
  strike : 0 ≤ rv x
  strike_le : rv x ≤ 2 ^ 120
  stock : ∀ j : Nat, j < N → Flt.olt 23 (s * F.powf (F.exp (v * F.sqrt (t / F.lit N))) (F.lit ((2 * (j : Int) - N : Int) : Rat))).bits 0 = false

/-- The computed probabilities, interest factor and payoffs. -/
def upProb (F : Fns F32) (N : Nat) (t r v : F32) : F32 :=
  let u := F.exp (v * F.sqrt (t / F.lit N))
  (F.exp (r * (t / F.lit N)) - F.lit 1 / u) / (u - F.lit 1 / u)
def payoff (F : Fns F32) (N : Nat) (s x t v : F32) (j : Nat) : F32 :=
  F.max (F.lit 0) (x - s * F.powf (F.exp (v * F.sqrt (t / F.lit N))) (F.lit ((2 * (j : Int) - N : Int) : Rat)))

/-- The exact discounted mean of the computed payoffs, with the computed probabilities and interest. -/
noncomputable def exactPrice (F : Fns F32) (N : Nat) (s x t r v : F32) : ℝ :=
  expectation (N - 1) (rv (upProb F N t r v)) (rv (F.lit 1 - upProb F N t r v)) (fun j => rv (payoff F N s x t v j)) / rv (F.exp (r * (t / F.lit N))) ^ (N - 1)

/-- `y` is the price up to `c` roundings in each of `m` steps, and underflow. -/
def Close (c m : Nat) (y : F32) (E : ℝ) : Prop :=
  Fin' y ∧ 0 ≤ rv y ∧ (1 - ν) ^ (c * m) * E - 4 * m * η ≤ rv y ∧ rv y ≤ (1 + ν) ^ (c * m) * E + 8 * m * η

theorem market_close {F : Fns F32} (hF : F32Fns F) {N : Nat} (hN0 : 0 < N) {s x t r v : F32} (hM : Market F N s x t r v) (c : Nat) (hN : (c + 1) * N ≤ 4000000)
    {f : F32 → F32 → F32 → F32 → F32}
    (hf : ∀ p D : F32, Fin' p → Fin' (1 - p) → Fin' D → 0 ≤ rv p → 0 ≤ rv (1 - p) → rv (1 - p) + rv p ≤ 1 + ν → 1 ≤ rv D → rv D ≤ 2 ^ 126 →
      BackStep c (rv (1 - p)) (rv p) (rv D) (f p D)) :
    Close c (N - 1) (binomialValue F f N s x t r v) (exactPrice F N s x t r v) ∧ 0 ≤ exactPrice F N s x t r v ∧
      Fin' (upProb F N t r v) ∧ 0 ≤ rv (upProb F N t r v) ∧ rv (upProb F N t r v) ≤ 1 := by
  have hp := probs_ok hM.up_finite hM.disc_finite hM.disc hM.disc_le hM.up hM.up_le
  unfold Close exactPrice binomialValue
  dsimp only
  rw [hF.one]
  have e : upProb F N t r v = (F.exp (r * (t / F.lit N)) - 1 / F.exp (v * F.sqrt (t / F.lit N))) / (F.exp (v * F.sqrt (t / F.lit N)) - 1 / F.exp (v * F.sqrt (t / F.lit N))) := by
    unfold upProb
    rw [hF.one]
  rw [← e] at hp ⊢
  obtain ⟨fp, p0, p1, fq, q0, hpq⟩ := hp
  let leaf : Nat → F32 := fun j => if j < N then payoff F N s x t v j else 0
  have hleaf : ∀ j, Fin' (leaf j) ∧ 0 ≤ rv (leaf j) ∧ rv (leaf j) ≤ 2 ^ 120 := by
    intro j
    by_cases hj : j < N
    swap
    · simp only [leaf, if_neg hj]
      exact ⟨zero_ok.1, zero_ok.2.ge, by rw [zero_ok.2]; positivity⟩
    simp only [leaf, if_pos hj]
    unfold payoff
    rw [hF.zero]
    obtain ⟨pick, hpick⟩ := hF.max 0 (x - s * F.powf (F.exp (v * F.sqrt (t / F.lit N))) (F.lit ((2 * (j : Int) - N : Int) : Rat)))
    obtain ⟨h1, h2, h3⟩ := payoff_ok pick hM.strike_finite hM.strike (hM.strike_le.trans (by norm_num)) (hM.stock j hj)
    rw [hpick]
    exact ⟨h1, h2, h3.trans hM.strike_le⟩
  have hN' : (c + 1) * (N - 1) ≤ 4000000 := (Nat.mul_le_mul_left _ (Nat.sub_le N 1)).trans hN
  obtain ⟨h1, h2, h3, -, h5, h6⟩ := lattice_float q0 p0 hpq hM.disc (hf _ _ fp fq hM.disc_finite p0 q0 hpq hM.disc (hM.disc_le.trans hM.up_le)) hleaf (N - 1) 0 hN'
  rw [level_expectation (K := ℝ)] at h3 h5 h6
  have heq : ∀ j, j < N → payoff F N s x t v j = leaf j := fun j hj => by simp only [leaf, if_pos hj]
  have hlev := level_eq_of (f (upProb F N t r v) (F.exp (r * (t / F.lit N)))) (v := payoff F N s x t v) (w := leaf) (N - 1) 0 (fun j _ hj => heq j (by omega))
  have hexp := expectation_congr (N - 1) (rv (upProb F N t r v)) (rv (1 - upProb F N t r v)) (v := fun j => rv (payoff F N s x t v j)) (w := fun j => rv (leaf j))
    (fun j hj => by rw [heq j (by omega)])
  rw [hexp]
  change (Fin' (level _ (payoff F N s x t v) _ _) ∧ 0 ≤ rv (level _ (payoff F N s x t v) _ _) ∧ _ ≤ rv (level _ (payoff F N s x t v) _ _) ∧ rv (level _ (payoff F N s x t v) _ _) ≤ _) ∧ _
  rw [hlev]
  simp only [Nat.zero_add] at h3 h5 h6
  refine ⟨⟨h1, h2, h5, h6.trans ?_⟩, h3, fp, p0, p1⟩
  have hP : (1 + ν) ^ ((c + 1) * (N - 1)) ≤ 2 := by
    have hk : (((c + 1) * (N - 1) : Nat) : ℝ) * ν ≤ 1 / 4 := by
      have : (((c + 1) * (N - 1) : Nat) : ℝ) ≤ 4000000 := by exact_mod_cast hN'
      have := ν_le
      have := ν_pos
      nlinarith
    refine (pow_up _ (by linarith)).trans ?_
    rw [div_le_iff₀ (by linarith)]
    linarith
  have : 4 * ((N - 1 : Nat) : ℝ) * (1 + ν) ^ ((c + 1) * (N - 1)) * η ≤ 8 * ((N - 1 : Nat) : ℝ) * η := by
    refine mul_le_mul_of_nonneg_right ?_ η_pos.le
    have : (0 : ℝ) ≤ ((N - 1 : Nat) : ℝ) := by positivity
    nlinarith
  linarith

/-- **C127** Scalar program: the price is a number, and differs from the exact discounted mean of the payoffs by at most 3 roundings per step, and the
computed probability is one. -/
theorem C127_scalar {F : Fns F32} (hF : F32Fns F) {N : Nat} (hN0 : 0 < N) (hN : N ≤ 800000) {s x t r v : F32} (hM : Market F N s x t r v) :
    ∃ y, binomialScalar F N s x t r v = .ok y ∧ Close 3 (N - 1) y (exactPrice F N s x t r v) ∧
      0 ≤ rv (upProb F N t r v) ∧ rv (upProb F N t r v) ≤ 1 := by
  have h := market_close hF hN0 hM 3 (by omega) (f := fun pu disc a b => ((F.lit 1 - pu) * a + pu * b) / disc) (by
    intro p D fp fq fD p0 q0 hpq D1 _
    rw [hF.one]
    exact step_div fq fp fD q0 p0 hpq D1)
  exact ⟨_, binomialScalar_ok F hN0 s x t r v, h.1, h.2.2.2⟩

/-- **C127** Vectorised program: the same in every lane, with 4 roundings per step. -/
theorem C127_simd {F : Fns F32} (hF : F32Fns F) {N : Nat} (hN0 : 0 < N) (hN : N ≤ 800000) (s x t r v : Vec F32 n) :
    ∃ w, binomialSimd F N s x t r v = .ok w ∧
      ∀ i (h : i < n), Market F N s[i] x[i] t[i] r[i] v[i] → Close 4 (N - 1) w[i] (exactPrice F N s[i] x[i] t[i] r[i] v[i]) := by
  obtain ⟨w, h1, h2⟩ := binomialSimd_lane F hN0 s x t r v
  refine ⟨w, h1, fun i h hM => ?_⟩
  rw [h2 i h]
  refine (market_close hF hN0 hM 4 (by omega) ?_).1
  intro p D fp fq fD p0 q0 hpq D1 D2
  rw [hF.one]
  exact step_mul fq fp fD q0 p0 hpq D1 D2

theorem close_num {c : Nat} {y : F32} {E ε : ℝ} (hE : 0 ≤ E) (h : Close c 63 y E) (h1 : (c * 63 : Nat) * ν ≤ ε) (h2 : 1 / (1 - (c * 63 : Nat) * ν) ≤ 1 + ε) (h3 : ε < 1) :
    |rv y - E| ≤ ε * E + 1 / 2 ^ 141 := by
  obtain ⟨-, -, l, u⟩ := h
  have hη : 8 * ((63 : Nat) : ℝ) * η ≤ 1 / 2 ^ 141 := by unfold η; norm_num
  have hη0 := η_pos
  have a := pow_down (c * 63)
  have b := (pow_up (c * 63) (by linarith)).trans h2
  rw [abs_le]
  constructor
  · have : (1 - ε) * E ≤ (1 - ν) ^ (c * 63) * E := mul_le_mul_of_nonneg_right (by linarith) hE
    push_cast at *
    linarith
  · have : (1 + ν) ^ (c * 63) * E ≤ (1 + ε) * E := mul_le_mul_of_nonneg_right b hE
    push_cast at *
    linarith

/-- **C127** The programs as they are (`BINOMIAL_NUM = 64`, any number of lanes): the scalar price is within 12 parts in a million of the exact discounted mean,
every lane of the vectorised one within 16, and the two are within 28 parts in a million of each other, apart from amounts below 2^-139. -/
theorem C127_binomial {F : Fns F32} (hF : F32Fns F) (s x t r v : Vec F32 n) :
    ∃ w, binomialSimd F 64 s x t r v = .ok w ∧ ∀ i (h : i < n), Market F 64 s[i] x[i] t[i] r[i] v[i] →
      ∃ y, binomialScalar F 64 s[i] x[i] t[i] r[i] v[i] = .ok y ∧ Fin' y ∧ Fin' w[i] ∧ 0 ≤ rv y ∧ 0 ≤ rv w[i] ∧
        |rv y - exactPrice F 64 s[i] x[i] t[i] r[i] v[i]| ≤ 12 / 10 ^ 6 * exactPrice F 64 s[i] x[i] t[i] r[i] v[i] + 1 / 2 ^ 141 ∧
        |rv w[i] - exactPrice F 64 s[i] x[i] t[i] r[i] v[i]| ≤ 16 / 10 ^ 6 * exactPrice F 64 s[i] x[i] t[i] r[i] v[i] + 1 / 2 ^ 141 ∧
        |rv w[i] - rv y| ≤ 28 / 10 ^ 6 * rv y + 1 / 2 ^ 139 := by
  obtain ⟨w, h1, h2⟩ := C127_simd hF (N := 64) (by norm_num) (by norm_num) s x t r v
  refine ⟨w, h1, fun i h hM => ?_⟩
  obtain ⟨y, h3, h4, -⟩ := C127_scalar hF (N := 64) (by norm_num) (by norm_num) hM
  have h5 := h2 i h hM
  have hE : 0 ≤ exactPrice F 64 s[i] x[i] t[i] r[i] v[i] := (market_close hF (by norm_num) hM 3 (by norm_num) (f := fun pu disc a b => ((F.lit 1 - pu) * a + pu * b) / disc) (by
    intro p D fp fq fD p0 q0 hpq D1 _
    rw [hF.one]
    exact step_div fq fp fD q0 p0 hpq D1)).2.1
  have c1 := close_num (ε := 113 / 10 ^ 7) hE h4 (by unfold ν; norm_num) (by unfold ν; norm_num) (by norm_num)
  have c2 := close_num (ε := 151 / 10 ^ 7) hE h5 (by unfold ν; norm_num) (by unfold ν; norm_num) (by norm_num)
  refine ⟨y, h3, h4.1, h5.1, h4.2.1, h5.2.1, c1.trans (add_le_add (mul_le_mul_of_nonneg_right (by norm_num) hE) le_rfl),
    c2.trans (add_le_add (mul_le_mul_of_nonneg_right (by norm_num) hE) le_rfl), ?_⟩
  · generalize exactPrice F 64 s[i] x[i] t[i] r[i] v[i] = E at *
    have d1 := abs_le.1 c1
    have d2 := abs_le.1 c2
    have hy := h4.2.1
    rw [abs_le]
    constructor <;> norm_num at d1 d2 ⊢ <;> linarith [d1.1, d1.2, d2.1, d2.2]

/-! ### A market -/

/-- A library that knows powers of two only. -/
def coarse : Fns F32 where
  lit q := if q = 0 then 0 else F32.ofInt q.floor
  abs x := x
  exp x := if x.isZero then 1 else F32.ofInt 2
  ln x := x
  sqrt x := x
  powf _ e := match valueOf 23 e.bits with
    | .num z => ⟨BitVec.ofInt 32 ((127 + z / 2 ^ 149) * 2 ^ 23)⟩
    | _ => e
  max a b := ⟨Flt.maxNum 23 (fun _ _ => false) a.bits b.bits⟩
  gt a b := Flt.ogt 23 a.bits b.bits

theorem coarse_fns : F32Fns coarse := ⟨rfl, by decide +kernel, fun _ _ => ⟨_, rfl⟩⟩

/-- A stock at 100 that doubles or halves in each of 64 periods, without interest; strike 98. -/
theorem coarse_market : Market coarse 64 (F32.ofInt 100) (F32.ofInt 98) (F32.ofInt 64) 0 1 := by
  have hu : coarse.exp (1 * coarse.sqrt (F32.ofInt 64 / coarse.lit (64 : Nat))) = F32.ofInt 2 := by decide +kernel
  have hD : coarse.exp (0 * (F32.ofInt 64 / coarse.lit (64 : Nat))) = 1 := by decide +kernel
  have v2 : valueOf 23 (F32.ofInt 2).bits = .num (2 ^ 150) := by decide +kernel
  have v98 : valueOf 23 (F32.ofInt 98).bits = .num (98 * 2 ^ 149) := by decide +kernel
  have r2 : rv (F32.ofInt 2) = 2 := by
    unfold rv
    rw [realVal_num v2, show low 32 23 = 149 by decide]
    norm_num
  have r98 : rv (F32.ofInt 98) = 98 := by
    unfold rv
    rw [realVal_num v98, show low 32 23 = 149 by decide]
    norm_num
  constructor
  · rw [hu]; exact ⟨_, v2⟩
  · rw [hD]; exact one_ok.1
  · rw [hu, r2]; norm_num
  · rw [hu, r2]; norm_num
  · rw [hD, one_ok.2]
  · rw [hD, hu, one_ok.2, r2]; norm_num
  · exact ⟨_, v98⟩
  · rw [r98]; norm_num
  · rw [r98]; norm_num
  · rw [hu]
    decide +kernel

example : ∃ y, binomialScalar coarse 64 (F32.ofInt 100) (F32.ofInt 98) (F32.ofInt 64) 0 1 = .ok y ∧
    Close 3 63 y (exactPrice coarse 64 (F32.ofInt 100) (F32.ofInt 98) (F32.ofInt 64) 0 1) := by
  obtain ⟨y, h1, h2, -⟩ := C127_scalar coarse_fns (by norm_num) (by norm_num) coarse_market
  exact ⟨y, h1, h2⟩

end PackedSimd.Props
