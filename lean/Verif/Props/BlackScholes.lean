import Verif.Lemmas.BlackScholes
import Verif.Lemmas.Options
/-
C129: what the Black-Scholes programs price, in exact arithmetic.
-/
namespace PackedSimd.Props
open PackedSimd Ex Ex.Options

variable {n : Nat}

/-- The program's approximation of the normal distribution function is within a millionth of it, everywhere. -/
theorem C129_cnd (x : ℝ) : |cndScalar realFns x - normalCdf x| ≤ 1 / 10 ^ 6 := cnd_near x

/-- It is a number between 0 and 1. -/
theorem C129_cnd_unit (x : ℝ) : 0 ≤ cndScalar realFns x ∧ cndScalar realFns x ≤ 1 := cnd_unit x

/-- The scalar program. -/
theorem C129_scalar {s x t v : ℝ} (r : ℝ) (hs : 0 < s) (hx : 0 < x) (ht : 0 < t) (hv : 0 < v) :
    ∃ p, blackScholesScalar realFns s x t r v = .ok p ∧ Prices s x t r v p := by
  refine ⟨_, blackScholes_eq s x t r v, ?_, ?_, ?_, ?_⟩
  · rw [callPrice_eq hs hx ht hv]
    have h1 := cnd_near (dOne s x t r v)
    have h2 := cnd_near (dTwo s x t r v)
    have hD : 0 < x * Real.exp (-(r * t)) := by positivity
    generalize x * Real.exp (-(r * t)) = D at *
    rw [abs_le] at h1 h2 ⊢
    constructor <;> nlinarith [h1.1, h1.2, h2.1, h2.2]
  · exact (le_max_left _ _).trans (price_bounds hs hx ht hv).1
  · exact (le_max_right _ _).trans (price_bounds hs hx ht hv).1
  · exact (price_bounds hs hx ht hv).2

/-- The vectorised program, in every lane. -/
theorem C129_simd {s x t r v : Vec ℝ n} (h : ∀ i (hi : i < n), 0 < s[i] ∧ 0 < x[i] ∧ 0 < t[i] ∧ 0 < v[i]) :
    ∃ w, blackScholesSimd realFns s x t r v = .ok w ∧ ∀ i (hi : i < n), Prices s[i] x[i] t[i] r[i] v[i] w[i] := by
  obtain ⟨w, h1, h2⟩ := blackScholes_lane realFns (fun x y => by simp [realFns]) s x t r v
  refine ⟨w, h1, fun i hi => ?_⟩
  obtain ⟨a, b, c, d⟩ := h i hi
  obtain ⟨p, h3, h4⟩ := C129_scalar (r[i]) a b c d
  have h5 := h2 i hi
  rw [h3] at h5
  cases h5
  exact h4

/-- The textbook formula is a theorem about the mean payoff, not a definition here. -/
theorem C129_formula {s x t v : ℝ} (r : ℝ) (hs : 0 < s) (hx : 0 < x) (ht : 0 < t) (hv : 0 < v) :
    let d := (Real.log (s / x) + (r + v ^ 2 / 2) * t) / (v * √t)
    callPrice s x t r v = s * normalCdf d - x * Real.exp (-(r * t)) * normalCdf (d - v * √t) := by
  intro d
  rw [callPrice_eq hs hx ht hv]
  have : dOne s x t r v = d := by unfold dOne; show _ = (Real.log (s / x) + (r + v ^ 2 / 2) * t) / (v * √t); congr 2; ring
  rw [dTwo, this]

/-- The option all tests and benchmarks price (`State::new`): 100 now, strike 98, two years, 2 %, volatility 5. -/
example : ∃ p, blackScholesScalar realFns 100 98 2 (1 / 50) 5 = .ok p ∧ |p - callPrice 100 98 2 (1 / 50) 5| ≤ 1 / 5000 ∧
    100 - 98 * Real.exp (-(1 / 25)) ≤ p ∧ p ≤ 100 := by
  obtain ⟨p, h1, h2⟩ := C129_scalar (s := 100) (x := 98) (t := 2) (v := 5) (1 / 50) (by norm_num) (by norm_num) (by norm_num) (by norm_num)
  refine ⟨p, h1, h2.near.trans ?_, ?_, h2.cap⟩
  · have : Real.exp (-(1 / 50 * 2)) ≤ 1 := Real.exp_le_one_iff.mpr (by norm_num)
    linarith
  · have := h2.floor
    norm_num at this ⊢
    linarith

/-- Two lanes. -/
example : ∃ w, blackScholesSimd realFns #v[(100 : ℝ), 1] #v[98, 1000] #v[2, 1] #v[1 / 50, 0] #v[5, 1 / 2] = .ok w ∧ (0 : ℝ) ≤ w[1] ∧ w[1] ≤ (1 : ℝ) := by
  obtain ⟨w, h1, h2⟩ := C129_simd (s := #v[(100 : ℝ), 1]) (x := #v[98, 1000]) (t := #v[2, 1]) (r := #v[1 / 50, 0]) (v := #v[5, 1 / 2])
    (fun i hi => by
      rcases i with _ | _ | i
      · show (0 : ℝ) < 100 ∧ (0 : ℝ) < 98 ∧ (0 : ℝ) < 2 ∧ (0 : ℝ) < 5; norm_num
      · show (0 : ℝ) < 1 ∧ (0 : ℝ) < 1000 ∧ (0 : ℝ) < 1 ∧ (0 : ℝ) < 1 / 2; norm_num
      · omega)
  exact ⟨w, h1, (h2 1 (by decide)).nonneg, (h2 1 (by decide)).cap⟩

/-- The distribution function has the values it should. -/
example : normalCdf 0 = 1 / 2 ∧ |cndScalar realFns 0 - 1 / 2| ≤ 1 / 10 ^ 6 := by
  have := C129_cnd 0
  rw [cdf_zero] at this
  exact ⟨cdf_zero, this⟩

end PackedSimd.Props
