import Verif.Lemmas.Normal
import Verif.Model.Examples.Options
import Verif.Spec.Lattice
import Mathlib.Analysis.Real.Pi.Bounds
import Mathlib.Analysis.Calculus.Deriv.MeanValue
/-
The approximation of the normal distribution function in the option-pricing example (Abramowitz and Stegun 26.2.17) is within 10^-6 of it.
The derivative of the error is the bell curve times a polynomial `R` of degree six in `k = 1 / (1 + b x)`; `R` is bounded piece by piece with
integers, and the bound integrated.
-/
namespace PackedSimd.Ex.Options
open MeasureTheory Set Filter Topology

/-! ### Bounding an integer polynomial on an interval -/

/-- `Σ pⱼ yʲ`. -/
def ev (y : ℝ) : List ℤ → ℝ
  | [] => 0
  | a :: p => a + y * ev y p

/-- The coefficients of `a + (m + t) q(t)`. -/
def mulLin (m : ℤ) : ℤ → List ℤ → List ℤ
  | a, [] => [a]
  | a, c :: cs => (m * c + a) :: mulLin m c cs

theorem ev_mulLin (m a : ℤ) (q : List ℤ) (t : ℝ) : ev t (mulLin m a q) = a + (m + t) * ev t q := by
  induction q generalizing a with
  | nil => simp [mulLin, ev]
  | cons c cs ih => simp only [mulLin, ev, ih]; push_cast; ring

/-- The coefficients of `p(m + t)`. -/
def shift (m : ℤ) : List ℤ → List ℤ
  | [] => []
  | a :: p => mulLin m a (shift m p)

theorem ev_shift (m : ℤ) (p : List ℤ) (t : ℝ) : ev t (shift m p) = ev (m + t) p := by
  induction p with
  | nil => rfl
  | cons a p ih => rw [shift, ev_mulLin, ih, ev]

/-- Bounds of `p(t)` for `0 ≤ t ≤ s`. -/
def rng (s : ℤ) : List ℤ → ℤ × ℤ
  | [] => (0, 0)
  | a :: p => (a + min 0 (s * (rng s p).1), a + max 0 (s * (rng s p).2))

theorem ev_rng (s : ℤ) (p : List ℤ) {t : ℝ} (h0 : 0 ≤ t) (h1 : t ≤ s) : ((rng s p).1 : ℝ) ≤ ev t p ∧ ev t p ≤ ((rng s p).2 : ℝ) := by
  induction p with
  | nil => simp [rng, ev]
  | cons a p ih =>
    obtain ⟨l, u⟩ := ih
    simp only [rng, ev]
    push_cast
    have h2 : (0 : ℝ) ≤ s := h0.trans h1
    constructor
    · have h3 : min 0 ((s : ℝ) * ((rng s p).1 : ℝ)) ≤ t * ev t p := by
        rcases le_total 0 (ev t p) with h | h
        · exact (min_le_left _ _).trans (mul_nonneg h0 h)
        · refine (min_le_right _ _).trans ?_
          nlinarith
      linarith
    · have h3 : t * ev t p ≤ max 0 ((s : ℝ) * ((rng s p).2 : ℝ)) := by
        rcases le_total 0 (ev t p) with h | h
        · refine le_trans ?_ (le_max_right _ _)
          nlinarith
        · exact le_trans (mul_nonpos_of_nonneg_of_nonpos h0 h) (le_max_left _ _)
      linarith

/-- `|p(y)| * a ≤ c` for `m ≤ y ≤ m + s`, by `rng`. -/
def within (p : List ℤ) (m s a c : ℤ) : Bool :=
  decide ((rng s (shift m p)).2 * a ≤ c) && decide (-c ≤ (rng s (shift m p)).1 * a)

theorem within_ok {p : List ℤ} {m s a c : ℤ} (ha : 0 ≤ a) (h : within p m s a c = true) {y : ℝ} (h0 : (m : ℝ) ≤ y) (h1 : y ≤ m + s) :
    |ev y p| * a ≤ c := by
  simp only [within, Bool.and_eq_true, decide_eq_true_eq] at h
  obtain ⟨hu, hl⟩ := h
  have h2 := ev_rng s (shift m p) (t := y - m) (by linarith) (by linarith)
  rw [ev_shift, add_sub_cancel] at h2
  have hu' : (((rng s (shift m p)).2 : ℤ) : ℝ) * a ≤ c := by exact_mod_cast hu
  have hl' : -(c : ℝ) ≤ (((rng s (shift m p)).1 : ℤ) : ℝ) * a := by exact_mod_cast hl
  have ha' : (0 : ℝ) ≤ a := by exact_mod_cast ha
  have e : |ev y p| * a = |ev y p * a| := by rw [abs_mul, abs_of_nonneg ha']
  rw [e, abs_le]
  constructor <;> nlinarith [h2.1, h2.2]

/-! ### The polynomial -/

/-- The constants of the program. -/
noncomputable def cb : ℝ := 2316419 / 10 ^ 7
noncomputable def cc : ℝ := 3989422804 / 10 ^ 10
noncomputable def poly (k : ℝ) : ℝ :=
  31938153 / 10 ^ 8 * k - 356563782 / 10 ^ 9 * k ^ 2 + 1781477937 / 10 ^ 9 * k ^ 3 - 1821255978 / 10 ^ 9 * k ^ 4 + 1330274429 / 10 ^ 9 * k ^ 5
noncomputable def poly' (k : ℝ) : ℝ :=
  31938153 / 10 ^ 8 - 2 * (356563782 / 10 ^ 9) * k + 3 * (1781477937 / 10 ^ 9) * k ^ 2 - 4 * (1821255978 / 10 ^ 9) * k ^ 3
    + 5 * (1330274429 / 10 ^ 9) * k ^ 4

/-- `10^4` parts of the interval. -/
def coeffs : List ℤ :=
  [8773963000000000000000 * 10000 ^ 6, -67594531200000000000000 * 10000 ^ 5, 215517908350279097028330 * 10000 ^ 4,
   -364099889231805403975404 * 10000 ^ 3, 343830187521905219580971 * 10000 ^ 2, -172117402232179355910632 * 10000,
   35689912592182658308345]

/-- The scale of `coeffs`. -/
def scale : ℤ := 2316419 * 10 ^ 16 * 10000 ^ 6

theorem poly_coeffs {x : ℝ} (hx : 0 ≤ x) :
    (cb * (1 / (1 + cb * x)) ^ 2 * poly' (1 / (1 + cb * x)) + x * poly (1 / (1 + cb * x)) - 1) * scale = ev (1 / (1 + cb * x) * 10000) coeffs := by
  have h : 0 < 1 + cb * x := by unfold cb; positivity
  obtain ⟨k, hk⟩ : ∃ k, k = 1 / (1 + cb * x) := ⟨_, rfl⟩
  have hk1 : x * k = (1 - k) / cb := by
    have hb : cb ≠ 0 := by unfold cb; norm_num
    have hc : k * (1 + cb * x) = 1 := by rw [hk]; exact one_div_mul_cancel h.ne'
    rw [eq_div_iff hb]; linear_combination hc
  rw [← hk]
  have e : x * poly k = (1 - k) / cb * (31938153 / 10 ^ 8 - 356563782 / 10 ^ 9 * k + 1781477937 / 10 ^ 9 * k ^ 2 - 1821255978 / 10 ^ 9 * k ^ 3
      + 1330274429 / 10 ^ 9 * k ^ 4) := by
    rw [← hk1]; unfold poly; ring
  rw [e]
  unfold poly' coeffs scale cb ev
  simp only [ev]
  push_cast
  ring

/-- One piece: `|R| ≤ 1/400000 + x^7/40000000`, at the end of the piece where `x` is least. -/
def piece (m y : ℤ) : Bool :=
  within coeffs m (y - m) (40000000 * (y * 2316419) ^ 7) (scale * (100 * (y * 2316419) ^ 7 + ((10000 - y) * 10 ^ 7) ^ 7))

/-- The pieces from `y` down to zero. -/
def pieces : ℤ → List ℤ → Bool
  | y, [] => y == 0
  | y, m :: ms => decide (0 ≤ m) && decide (m < y) && decide (y ≤ 10000) && piece m y && pieces m ms

theorem piece_ok {m y : ℤ} (hm : 0 ≤ m) (hmy : m < y) (hy : y ≤ 10000) (h : piece m y = true) {x : ℝ} (hx : 0 ≤ x)
    (h0 : (m : ℝ) ≤ 1 / (1 + cb * x) * 10000) (h1 : 1 / (1 + cb * x) * 10000 ≤ y) :
    |cb * (1 / (1 + cb * x)) ^ 2 * poly' (1 / (1 + cb * x)) + x * poly (1 / (1 + cb * x)) - 1| ≤ 1 / 400000 + x ^ 7 / 40000000 := by
  have hy0 : (0 : ℝ) < y := by exact_mod_cast lt_of_le_of_lt hm hmy
  have hy0' : 0 < y := lt_of_le_of_lt hm hmy
  have hy1 : (y : ℝ) ≤ 10000 := by exact_mod_cast hy
  have hw := within_ok (by positivity) h h0 (by push_cast; linarith)
  rw [← poly_coeffs hx, abs_mul] at hw
  have hs : (0 : ℝ) < (scale : ℝ) := by unfold scale; norm_num
  rw [abs_of_pos hs] at hw
  obtain ⟨R, hR⟩ : ∃ R, R = |cb * (1 / (1 + cb * x)) ^ 2 * poly' (1 / (1 + cb * x)) + x * poly (1 / (1 + cb * x)) - 1| := ⟨_, rfl⟩
  rw [← hR] at hw ⊢
  push_cast at hw
  have hc : 0 < 1 + cb * x := by unfold cb; positivity
  -- the least `x` of the piece
  have hxy : (10000 - (y : ℝ)) * 10000000 ≤ x * (y * 2316419) := by
    have h2 : 10000 ≤ y * (1 + cb * x) := by
      rw [div_mul_eq_mul_div, one_mul, div_le_iff₀ hc] at h1
      exact h1
    unfold cb at h2
    nlinarith
  have h7 : ((10000 - (y : ℝ)) * 10000000) ^ 7 ≤ (x * (y * 2316419)) ^ 7 := by
    apply pow_le_pow_left₀ _ hxy
    have : 0 ≤ 10000 - (y : ℝ) := by linarith
    positivity
  have hp : (0 : ℝ) < ((y : ℝ) * 2316419) ^ 7 := by positivity
  rw [mul_pow x] at h7
  obtain ⟨Y, hY⟩ : ∃ Y, Y = ((y : ℝ) * 2316419) ^ 7 := ⟨_, rfl⟩
  rw [← hY] at hw h7 hp
  have h8 : R * (scale * (40000000 * Y)) ≤ (1 / 400000 + x ^ 7 / 40000000) * (scale * (40000000 * Y)) := by
    calc R * (scale * (40000000 * Y)) = R * scale * (40000000 * Y) := by ring
      _ ≤ scale * (100 * Y + ((10000 - (y : ℝ)) * 10000000) ^ 7) := hw
      _ ≤ scale * (100 * Y + x ^ 7 * Y) := by
          apply mul_le_mul_of_nonneg_left _ hs.le
          linarith
      _ = _ := by ring
  exact le_of_mul_le_mul_right h8 (by positivity)

theorem pieces_ok (ms : List ℤ) {y : ℤ} (h : pieces y ms = true) {x : ℝ} (hx : 0 ≤ x) (h1 : 1 / (1 + cb * x) * 10000 ≤ y) :
    |cb * (1 / (1 + cb * x)) ^ 2 * poly' (1 / (1 + cb * x)) + x * poly (1 / (1 + cb * x)) - 1| ≤ 1 / 400000 + x ^ 7 / 40000000 := by
  induction ms generalizing y with
  | nil =>
    simp only [pieces, beq_iff_eq] at h
    subst h
    have : (0 : ℝ) < 1 / (1 + cb * x) * 10000 := by unfold cb; positivity
    simp only [Int.cast_zero] at h1
    linarith
  | cons m ms ih =>
    simp only [pieces, Bool.and_eq_true, decide_eq_true_eq] at h
    obtain ⟨⟨⟨⟨a, b⟩, c⟩, d⟩, e⟩ := h
    rcases le_total (1 / (1 + cb * x) * 10000) (m : ℝ) with h2 | h2
    · exact ih e h2
    · exact piece_ok a b c d hx h2 h1

theorem pieces_all : pieces 9880 [9640, 9523, 9076, 8754, 8273, 7962, 7541, 7329, 7175, 7004, 6729, 6555, 6420, 6208, 5970, 5726, 5547, 5407, 5291,
    5188, 5091, 4994, 4892, 4778, 4643, 4473, 4242, 3900, 3327, 2150, 0] = true := by decide +kernel

theorem within_first : within coeffs 9870 130 (10 ^ 7) (scale * 65) = true := by decide +kernel

/-! ### The error -/

/-- What the program subtracts from one. -/
noncomputable def wing (x : ℝ) : ℝ := poly (1 / (1 + cb * x)) * cc * bell x

/-- The error for `x ≥ 0`. -/
noncomputable def cerr (x : ℝ) : ℝ := 1 - wing x - normalCdf x

theorem γ_bounds : 3989422803 / 10 ^ 10 ≤ γ ∧ γ ≤ 3989422805 / 10 ^ 10 := by
  have hp : (0 : ℝ) < 2 * Real.pi := by positivity
  have h : γ ^ 2 * (2 * Real.pi) = 1 := by
    rw [γ, inv_pow, Real.sq_sqrt hp.le]; exact inv_mul_cancel₀ hp.ne'
  have h1 := Real.pi_gt_d20
  have h2 := Real.pi_lt_d20
  constructor
  · by_contra hc
    push Not at hc
    have h3 : γ ^ 2 ≤ (3989422803 / 10 ^ 10) ^ 2 := pow_le_pow_left₀ γ_pos.le hc.le 2
    have h4 : γ ^ 2 * (2 * Real.pi) ≤ (3989422803 / 10 ^ 10) ^ 2 * (2 * 3.14159265358979323847) := by
      apply mul_le_mul h3 (by linarith) hp.le (by positivity)
    rw [h] at h4
    norm_num at h4
  · by_contra hc
    push Not at hc
    have h3 : (3989422805 / 10 ^ 10) ^ 2 ≤ γ ^ 2 := pow_le_pow_left₀ (by positivity) hc.le 2
    have h4 : (3989422805 / 10 ^ 10) ^ 2 * (2 * 3.14159265358979323846) ≤ γ ^ 2 * (2 * Real.pi) := by
      apply mul_le_mul h3 (by linarith) (by positivity) (by positivity)
    rw [h] at h4
    norm_num at h4

theorem poly_deriv (k : ℝ) : HasDerivAt poly (poly' k) k := by
  unfold poly
  have h := (((((hasDerivAt_id k).const_mul (31938153 / 10 ^ 8 : ℝ)).sub ((hasDerivAt_pow 2 k).const_mul (356563782 / 10 ^ 9 : ℝ))).add
    ((hasDerivAt_pow 3 k).const_mul (1781477937 / 10 ^ 9 : ℝ))).sub ((hasDerivAt_pow 4 k).const_mul (1821255978 / 10 ^ 9 : ℝ))).add
    ((hasDerivAt_pow 5 k).const_mul (1330274429 / 10 ^ 9 : ℝ))
  refine h.congr_deriv ?_
  unfold poly'
  norm_num
  ring

theorem k_deriv {x : ℝ} (hx : 0 ≤ x) : HasDerivAt (fun x => 1 / (1 + cb * x)) (-cb * (1 / (1 + cb * x)) ^ 2) x := by
  have h : 1 + cb * x ≠ 0 := by unfold cb; positivity
  have h1 : HasDerivAt (fun x : ℝ => 1 + cb * x) cb x := by
    exact (((hasDerivAt_id x).const_mul cb).const_add 1).congr_deriv (by simp)
  have := h1.inv h
  simp only [one_div]
  refine this.congr_deriv ?_
  field_simp

theorem cerr_deriv {x : ℝ} (hx : 0 ≤ x) : HasDerivAt cerr
    (bell x * (cc * (cb * (1 / (1 + cb * x)) ^ 2 * poly' (1 / (1 + cb * x)) + x * poly (1 / (1 + cb * x)) - 1) + (cc - γ))) x := by
  have h1 : HasDerivAt (fun x => poly (1 / (1 + cb * x))) _ x := (poly_deriv _).comp x (k_deriv hx)
  have h2 := ((h1.mul_const cc).mul (bell_deriv x)).const_sub 1 |>.sub (cdf_deriv x)
  refine HasDerivAt.congr_deriv (f := cerr) h2 ?_
  ring

/-- A function whose slope is bounded by that of another grows no faster. -/
theorem grow {f f' h h' : ℝ → ℝ} {a : ℝ} (hf : ∀ x, a ≤ x → HasDerivAt f (f' x) x) (hh : ∀ x, a ≤ x → HasDerivAt h (h' x) x)
    (hb : ∀ x, a ≤ x → |f' x| ≤ h' x) {x y : ℝ} (hx : a ≤ x) (hxy : x ≤ y) : |f y - f x| ≤ h y - h x := by
  have m1 : MonotoneOn (fun x => h x - f x) (Ici a) := by
    apply monotoneOn_of_deriv_nonneg (convex_Ici a)
    · exact fun z hz => ((hh z hz).sub (hf z hz)).continuousAt.continuousWithinAt
    · intro z hz
      rw [interior_Ici] at hz
      exact ((hh z hz.le).sub (hf z hz.le)).differentiableAt.differentiableWithinAt
    · intro z hz
      rw [interior_Ici] at hz
      have e : deriv (fun x => h x - f x) z = h' z - f' z := ((hh z (le_of_lt hz)).sub (hf z (le_of_lt hz))).deriv
      rw [e]
      have := le_of_abs_le (hb z (le_of_lt hz))
      linarith
  have m2 : MonotoneOn (fun x => h x + f x) (Ici a) := by
    apply monotoneOn_of_deriv_nonneg (convex_Ici a)
    · exact fun z hz => ((hh z hz).add (hf z hz)).continuousAt.continuousWithinAt
    · intro z hz
      rw [interior_Ici] at hz
      exact ((hh z hz.le).add (hf z hz.le)).differentiableAt.differentiableWithinAt
    · intro z hz
      rw [interior_Ici] at hz
      have e : deriv (fun x => h x + f x) z = h' z + f' z := ((hh z (le_of_lt hz)).add (hf z (le_of_lt hz))).deriv
      rw [e]
      have := neg_le_of_abs_le (hb z (le_of_lt hz))
      linarith
  have e1 := m1 hx (hx.trans hxy) hxy
  have e2 := m2 hx (hx.trans hxy) hxy
  simp only at e1 e2
  rw [abs_le]
  constructor <;> linarith

/-- The error at zero. -/
theorem cerr_zero : |cerr 0| ≤ 1 / 10 ^ 9 := by
  unfold cerr wing poly cc
  rw [cdf_zero, bell_zero]
  norm_num [abs_le]

/-- Near zero. -/
theorem cerr_small {x : ℝ} (h0 : 0 ≤ x) (h1 : x ≤ 105 / 2000) : |cerr x| ≤ 138 / 10 ^ 9 := by
  have hR : ∀ z : ℝ, 0 ≤ z → z ≤ 105 / 2000 →
      |cb * (1 / (1 + cb * z)) ^ 2 * poly' (1 / (1 + cb * z)) + z * poly (1 / (1 + cb * z)) - 1| ≤ 65 / 10 ^ 7 := by
    intro z hz hz1
    have hc : 0 < 1 + cb * z := by unfold cb; positivity
    have a1 : ((9870 : ℤ) : ℝ) ≤ 1 / (1 + cb * z) * 10000 := by
      rw [div_mul_eq_mul_div, one_mul, le_div_iff₀ hc]
      unfold cb; push_cast; nlinarith
    have a2 : 1 / (1 + cb * z) * 10000 ≤ ((9870 : ℤ) : ℝ) + ((130 : ℤ) : ℝ) := by
      rw [div_mul_eq_mul_div, one_mul, div_le_iff₀ hc]
      unfold cb; push_cast; nlinarith
    have hw := within_ok (by norm_num) within_first a1 a2
    rw [← poly_coeffs hz, abs_mul] at hw
    have hs : (0 : ℝ) < (scale : ℝ) := by unfold scale; norm_num
    rw [abs_of_pos hs] at hw
    push_cast at hw
    have h8 : |cb * (1 / (1 + cb * z)) ^ 2 * poly' (1 / (1 + cb * z)) + z * poly (1 / (1 + cb * z)) - 1| * ((scale : ℝ) * 10 ^ 7)
        ≤ 65 / 10 ^ 7 * ((scale : ℝ) * 10 ^ 7) := by
      rw [← mul_assoc]; linarith
    exact le_of_mul_le_mul_right h8 (by positivity)
  -- the mean value theorem on the segment
  have hd : ∀ z ∈ Icc (0 : ℝ) (105 / 2000), HasDerivWithinAt cerr
      (bell z * (cc * (cb * (1 / (1 + cb * z)) ^ 2 * poly' (1 / (1 + cb * z)) + z * poly (1 / (1 + cb * z)) - 1) + (cc - γ))) (Icc 0 (105 / 2000)) z :=
    fun z hz => (cerr_deriv hz.1).hasDerivWithinAt
  have hb : ∀ z ∈ Icc (0 : ℝ) (105 / 2000),
      ‖bell z * (cc * (cb * (1 / (1 + cb * z)) ^ 2 * poly' (1 / (1 + cb * z)) + z * poly (1 / (1 + cb * z)) - 1) + (cc - γ))‖ ≤ 26 / 10 ^ 7 := by
    intro z hz
    have h := hR z hz.1 hz.2
    obtain ⟨R, hRe⟩ : ∃ R, R = cb * (1 / (1 + cb * z)) ^ 2 * poly' (1 / (1 + cb * z)) + z * poly (1 / (1 + cb * z)) - 1 := ⟨_, rfl⟩
    rw [← hRe] at h ⊢
    rw [Real.norm_eq_abs, abs_mul, abs_of_pos (bell_pos z)]
    have h2 : |cc * R + (cc - γ)| ≤ 26 / 10 ^ 7 := by
      have := γ_bounds
      rw [abs_le] at h ⊢
      unfold cc
      constructor <;> linarith [h.1, h.2, this.1, this.2]
    calc bell z * |cc * R + (cc - γ)| ≤ 1 * (26 / 10 ^ 7) := mul_le_mul (bell_le z) h2 (abs_nonneg _) (by norm_num)
      _ = _ := one_mul _
  have hm := (convex_Icc (0 : ℝ) (105 / 2000)).norm_image_sub_le_of_norm_hasDerivWithin_le hd hb (left_mem_Icc.mpr (by norm_num)) ⟨h0, h1⟩
  rw [Real.norm_eq_abs, Real.norm_eq_abs, sub_zero, abs_of_nonneg h0] at hm
  have h3 := cerr_zero
  rw [abs_le] at hm h3 ⊢
  constructor <;> linarith [hm.1, hm.2, h3.1, h3.2]

/-- A primitive of the bound of the slope. -/
noncomputable def hull (x : ℝ) : ℝ := 1 / 10 ^ 6 / γ * normalCdf x - 1 / 10 ^ 8 * (bell x * (x ^ 6 + 6 * x ^ 4 + 24 * x ^ 2 + 48))

theorem hull_deriv (x : ℝ) : HasDerivAt hull (bell x * (1 / 10 ^ 6 + 1 / 10 ^ 8 * x ^ 7)) x := by
  have h1 : HasDerivAt (fun x : ℝ => x ^ 6 + 6 * x ^ 4 + 24 * x ^ 2 + 48) (6 * x ^ 5 + 24 * x ^ 3 + 48 * x) x := by
    have h := (((hasDerivAt_pow 6 x).add ((hasDerivAt_pow 4 x).const_mul (6 : ℝ))).add ((hasDerivAt_pow 2 x).const_mul (24 : ℝ))).add_const (48 : ℝ)
    refine h.congr_deriv ?_
    norm_num; ring
  have h2 := ((cdf_deriv x).const_mul (1 / 10 ^ 6 / γ)).sub (((bell_deriv x).mul h1).const_mul (1 / 10 ^ 8 : ℝ))
  refine HasDerivAt.congr_deriv (f := hull) h2 ?_
  have := γ_pos.ne'
  field_simp
  ring

theorem hull_mono {x : ℝ} (hx : 0 ≤ x) : hull 0 ≤ hull x := by
  have := grow (f := fun _ => 0) (f' := fun _ => 0) (h := hull) (a := 0) (fun z _ => hasDerivAt_const z 0) (fun z _ => hull_deriv z)
    (fun z hz => by rw [abs_zero]; have := bell_pos z; positivity) le_rfl hx
  simp at this
  exact this

theorem hull_le (x : ℝ) : hull x ≤ 25067 / 10 ^ 10 := by
  have h1 : 1 / 10 ^ 6 / γ ≤ 25067 / 10 ^ 10 := by
    rw [div_le_iff₀ γ_pos]
    linarith [γ_bounds.1]
  have h2 : 0 ≤ bell x * (x ^ 6 + 6 * x ^ 4 + 24 * x ^ 2 + 48) := by have := bell_pos x; positivity
  have h3 : 1 / 10 ^ 6 / γ * normalCdf x ≤ 25067 / 10 ^ 10 * 1 :=
    mul_le_mul h1 (cdf_le_one x) (cdf_nonneg x) (by norm_num)
  unfold hull
  linarith

theorem hull_zero : 7732 / 10 ^ 10 ≤ hull 0 := by
  have h1 : 25066 / 10 ^ 10 ≤ 1 / 10 ^ 6 / γ := by
    rw [le_div_iff₀ γ_pos]
    linarith [γ_bounds.2]
  unfold hull
  rw [cdf_zero, bell_zero]
  linarith

theorem wing_tendsto : Tendsto wing atTop (𝓝 0) := by
  have hk : Tendsto (fun x : ℝ => 1 / (1 + cb * x)) atTop (𝓝 0) := by
    have : Tendsto (fun x : ℝ => 1 + cb * x) atTop atTop :=
      tendsto_atTop_add_const_left _ _ (tendsto_id.const_mul_atTop (by unfold cb; norm_num))
    exact this.inv_tendsto_atTop.congr fun x => by simp
  have hp : Tendsto poly (𝓝 0) (𝓝 (poly 0)) := (poly_deriv 0).continuousAt
  have h := ((hp.comp hk).mul_const cc).mul bell_tendsto
  rw [mul_zero] at h
  exact h

/-- The error of the approximation. -/
theorem cerr_le {x : ℝ} (hx : 0 ≤ x) : |cerr x| ≤ 1 / 10 ^ 6 := by
  rcases le_total x (105 / 2000) with h | h
  · exact (cerr_small hx h).trans (by norm_num)
  have slope : ∀ z : ℝ, 105 / 2000 ≤ z →
      |bell z * (cc * (cb * (1 / (1 + cb * z)) ^ 2 * poly' (1 / (1 + cb * z)) + z * poly (1 / (1 + cb * z)) - 1) + (cc - γ))|
        ≤ bell z * (1 / 10 ^ 6 + 1 / 10 ^ 8 * z ^ 7) := by
    intro z hz
    have hz0 : 0 ≤ z := le_trans (by norm_num) hz
    have hc : 0 < 1 + cb * z := by unfold cb; positivity
    have a2 : 1 / (1 + cb * z) * 10000 ≤ ((9880 : ℤ) : ℝ) := by
      rw [div_mul_eq_mul_div, one_mul, div_le_iff₀ hc]
      unfold cb; push_cast; nlinarith
    have hR := pieces_ok _ pieces_all hz0 a2
    obtain ⟨R, hRe⟩ : ∃ R, R = cb * (1 / (1 + cb * z)) ^ 2 * poly' (1 / (1 + cb * z)) + z * poly (1 / (1 + cb * z)) - 1 := ⟨_, rfl⟩
    rw [← hRe] at hR ⊢
    rw [abs_mul, abs_of_pos (bell_pos z)]
    apply mul_le_mul_of_nonneg_left _ (bell_pos z).le
    have hz7 : 0 ≤ z ^ 7 := by positivity
    have := γ_bounds
    rw [abs_le] at hR ⊢
    unfold cc
    constructor <;> linarith [hR.1, hR.2, this.1, this.2]
  have hs : |cerr (105 / 2000)| ≤ 138 / 10 ^ 9 := cerr_small (by norm_num) le_rfl
  have hd : ∀ z : ℝ, 105 / 2000 ≤ z → HasDerivAt cerr _ z := fun z hz => cerr_deriv (le_trans (by norm_num) hz)
  -- from the left
  have h1 := grow hd (fun z _ => hull_deriv z) slope le_rfl h
  -- from the right
  have h2 : ∀ y, x ≤ y → |cerr y - cerr x| ≤ 25067 / 10 ^ 10 - hull x := fun y hy => by
    have := grow hd (fun z _ => hull_deriv z) slope h hy
    linarith [hull_le y]
  have h3 : |0 - cerr x| ≤ 25067 / 10 ^ 10 - hull x := by
    have ht : Tendsto cerr atTop (𝓝 0) := by
      have := (wing_tendsto.const_sub 1).sub cdf_tendsto
      rw [sub_zero, sub_self] at this
      exact this
    refine le_of_tendsto ((ht.sub_const (cerr x)).abs) ?_
    filter_upwards [eventually_ge_atTop x] with y hy using h2 y hy
  have h4 : hull 0 ≤ hull (105 / 2000) := hull_mono (by norm_num)
  have h5 := hull_zero
  rw [abs_le] at h1 h3 hs ⊢
  constructor <;> linarith [h1.1, h1.2, h3.1, h3.2, hs.1, hs.2]

end PackedSimd.Ex.Options
