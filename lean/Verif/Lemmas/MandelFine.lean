import Verif.Lemmas.MandelRing
/-
The steps of computed orbits close to `2` and `-2`, where rounding decides.
-/
namespace PackedSimd.F64R
open Spec Ex

theorem η_unit : (2 ^ 52 : ℝ) * η = 1 := by unfold η; norm_num

/-- Floats close to `2` or `-2` are multiples of `η`, beyond the circle even multiples of `2 * η`. -/
theorem grid_fine {x : F64} (f : Fin' x) {p : ℝ} (hp : |rv x| = 2 + p) (h : |p| ≤ 1000 * η) :
    ∃ i : ℤ, p = i * η ∧ -1000 ≤ i ∧ i ≤ 1000 ∧ (0 < p → 2 ≤ i) := by
  have hη := η_pos
  have hη' := η_le
  have hu := η_unit
  obtain ⟨m, hm⟩ := onGrid f (j := 0) (by norm_num) (by rw [hp]; rw [abs_le] at h; linarith)
  have hpi : p = ((|m| - 2 ^ 53 : ℤ) : ℝ) * η := by
    have : |rv x| = (|m| : ℤ) * η := by rw [hm, pow_zero, one_mul, abs_mul, abs_of_pos hη, Int.cast_abs]
    rw [hp] at this
    push_cast at this ⊢
    linarith
  rw [abs_le, hpi] at h
  refine ⟨_, hpi, ?_, ?_, ?_⟩
  · have : ((-1000 : ℤ) : ℝ) ≤ ((|m| - 2 ^ 53 : ℤ) : ℝ) := le_of_mul_le_mul_right (by push_cast at h ⊢; linarith) hη
    exact_mod_cast this
  · have : ((|m| - 2 ^ 53 : ℤ) : ℝ) ≤ ((1000 : ℤ) : ℝ) := le_of_mul_le_mul_right (by push_cast at h ⊢; linarith) hη
    exact_mod_cast this
  · intro h0
    obtain ⟨k, hk⟩ := onGrid f (j := 1) (by norm_num) (by rw [hp]; linarith)
    have hpk : p = ((2 * (|k| - 2 ^ 52) : ℤ) : ℝ) * η := by
      have : |rv x| = (|k| : ℤ) * (2 * η) := by rw [hk, pow_one, abs_mul, abs_of_pos (by linarith : (0:ℝ) < 2 * η), Int.cast_abs]
      rw [hp] at this
      push_cast at this ⊢
      linarith
    have e : (|m| - 2 ^ 53 : ℤ) = 2 * (|k| - 2 ^ 52) := by
      have := mul_right_cancel₀ hη.ne' (hpi.symm.trans hpk)
      exact_mod_cast this
    have : (0 : ℝ) < ((|m| - 2 ^ 53 : ℤ) : ℝ) := by
      rw [hpi] at h0
      exact pos_of_mul_pos_left h0 hη.le
    have : (0 : ℤ) < |m| - 2 ^ 53 := by exact_mod_cast this
    omega

theorem sq_small {η p k : ℝ} (hη : 0 < η) (hη' : η ≤ 1 / 10 ^ 15) (hk : k ≤ 1000) (h : |p| ≤ k * η) : p * p ≤ 1 / 10 ^ 9 * η := by
  have hk0 : 0 ≤ k := by
    by_contra hlt
    have := abs_nonneg p
    nlinarith
  have := mul_self_le_mul_self (abs_nonneg p) h
  rw [abs_mul_abs_self] at this
  have h2 : k * η ≤ 1 / 10 ^ 12 := by nlinarith
  have h3 : k * η * (k * η) ≤ 1 / 10 ^ 12 * (1000 * η) := mul_le_mul h2 (by nlinarith) (by positivity) (by norm_num)
  linarith

/-- Squares close to 4. -/
theorem sq_fine {x : F64} (f : Fin' (x * x)) {p : ℝ} (hp : |rv x| = 2 + p) {i : ℤ} (hi : p = i * η) (h1 : -1000 ≤ i) (h2 : i ≤ 1000) :
    |rv (x * x) - (4 + 4 * p)| ≤ 1 / 10 ^ 8 * η := by
  have hη := η_pos
  have hη' := η_le
  have hu := η_unit
  have hn := mul_near f (2 ^ 52 + i) (by omega) (j := 2) (by norm_num)
  have hv : ((2 ^ 52 + i : ℤ) : ℝ) * (2 ^ 2 * η) = 4 + 4 * p := by rw [hi]; push_cast; linarith
  rw [hv, ← abs_mul_abs_self (rv x), hp] at hn
  have hpp : |p| ≤ 1000 * η := by
    have a1 : ((-1000 : ℤ) : ℝ) ≤ i := by exact_mod_cast h1
    have a2 : (i : ℝ) ≤ (1000 : ℤ) := by exact_mod_cast h2
    push_cast at a1 a2
    rw [hi, abs_le]
    constructor <;> nlinarith
  have hs := sq_small hη hη' (le_refl _) hpp
  have : |4 + 4 * p - (2 + p) * (2 + p)| = p * p := by
    rw [show 4 + 4 * p - (2 + p) * (2 + p) = -(p * p) by ring, abs_neg, abs_of_nonneg (mul_self_nonneg p)]
  rw [this, abs_le] at hn
  rw [abs_le]
  constructor <;> linarith

/-- Squares close to 0. -/
theorem sq_tiny {y : F64} (f : Fin' (y * y)) (h : rv y * rv y ≤ 10000 * η) : |rv (y * y) - rv y * rv y| ≤ 1 / 10 ^ 8 * η := by
  have hη := η_pos
  have e := mul_u f
  rw [abs_of_nonneg (mul_self_nonneg (rv y))] at e
  have h1 : η * (rv y * rv y) ≤ η * (10000 * η) := mul_le_mul_of_nonneg_left h hη.le
  have h2 := η2_le
  have h3 := η3_le
  linarith

theorem im_real {η V Y X s e Q g : ℝ} (hη : 0 < η) (hη' : η ≤ 1 / 10 ^ 15) (hg : |g| = 1) (hX : |X - 2 * g| ≤ 50 * η)
    (hY : |Y| ≤ 1 / 10 ^ 5) (hV : |V| ≤ 1 / 10 ^ 5)
    (e7 : |s - X * Y| ≤ η / 2 * |X * Y| + η * η * η) (e4 : |e - (s + s)| ≤ η / 2 * |s + s|) (e2 : |Q - (V + e)| ≤ η / 2 * |V + e|) :
    (V + 4 * (g * Y)) * (V + 4 * (g * Y)) - 1 / 10 ^ 4 * η ≤ Q * Q ∧ Q * Q ≤ 1 / 10 ^ 8 := by
  have hη2 : η * η ≤ 1 / 10 ^ 15 * η := mul_le_mul_of_nonneg_right hη' hη.le
  have hη3 : η * η * η ≤ 1 / 10 ^ 15 * η := by
    have : η * η ≤ 1 / 10 ^ 15 := by linarith
    exact mul_le_mul_of_nonneg_right this hη.le
  have hY0 := abs_nonneg Y
  have hηY : η * |Y| ≤ η * (1 / 10 ^ 5) := mul_le_mul_of_nonneg_left hY hη.le
  have hηV : η * |V| ≤ η * (1 / 10 ^ 5) := mul_le_mul_of_nonneg_left hV hη.le
  have hgY : |g * Y| = |Y| := by rw [abs_mul, hg, one_mul]
  have a1 : |X * Y - 2 * (g * Y)| ≤ 50 * η * (1 / 10 ^ 5) := by
    rw [show X * Y - 2 * (g * Y) = (X - 2 * g) * Y by ring, abs_mul]
    exact mul_le_mul hX hY hY0 (by linarith)
  have a2 : |X * Y| ≤ 3 / 10 ^ 5 := by
    have := abs_sub_abs_le_abs_sub (X * Y) (2 * (g * Y))
    rw [abs_mul 2, hgY, abs_two] at this
    linarith
  have a3 : η * |X * Y| ≤ η * (3 / 10 ^ 5) := mul_le_mul_of_nonneg_left a2 hη.le
  have a4 : |s - 2 * (g * Y)| ≤ 53 / 10 ^ 5 * η := by
    rw [abs_le] at *
    constructor <;> linarith
  have a5 : |s + s| ≤ 5 / 10 ^ 5 := by
    have := abs_sub_abs_le_abs_sub s (2 * (g * Y))
    rw [abs_mul 2, hgY, abs_two] at this
    rw [← two_mul, abs_mul, abs_two]
    linarith
  have a6 : η * |s + s| ≤ η * (5 / 10 ^ 5) := mul_le_mul_of_nonneg_left a5 hη.le
  have a7 : |e - 4 * (g * Y)| ≤ 110 / 10 ^ 5 * η := by
    rw [abs_le] at *
    constructor <;> linarith
  have a8 : |V + e| ≤ 6 / 10 ^ 5 := by
    have h1 := abs_sub_abs_le_abs_sub e (4 * (g * Y))
    rw [abs_mul 4, hgY, abs_of_pos (by norm_num : (0 : ℝ) < 4)] at h1
    have := abs_add_le V e
    linarith
  have a9 : η * |V + e| ≤ η * (6 / 10 ^ 5) := mul_le_mul_of_nonneg_left a8 hη.le
  have a10 : |Q - (V + 4 * (g * Y))| ≤ 120 / 10 ^ 5 * η := by
    rw [abs_le] at *
    constructor <;> linarith
  obtain ⟨L, hL⟩ : ∃ L, L = V + 4 * (g * Y) := ⟨_, rfl⟩
  have a11 : |L| ≤ 5 / 10 ^ 5 := by
    have := abs_add_le V (4 * (g * Y))
    rw [abs_mul 4, hgY, abs_of_pos (by norm_num : (0 : ℝ) < 4), ← hL] at this
    linarith
  rw [← hL] at a10 ⊢
  obtain ⟨D, hD⟩ : ∃ D, D = Q - L := ⟨_, rfl⟩
  rw [← hD] at a10
  rw [show Q = L + D by rw [hD]; ring]
  have a12 : |L * D| ≤ 5 / 10 ^ 5 * (120 / 10 ^ 5 * η) := by
    rw [abs_mul]; exact mul_le_mul a11 a10 (abs_nonneg _) (by norm_num)
  have a13 : |D| ≤ 1 / 10 ^ 5 := by linarith
  rw [abs_le] at a12
  constructor
  · have := mul_self_nonneg D
    linarith
  · have b1 := mul_self_le_mul_self (abs_nonneg L) a11
    have b2 := mul_self_le_mul_self (abs_nonneg D) a13
    rw [abs_mul_abs_self] at b1 b2
    linarith

/-- The imaginary part after a step. -/
theorem im_fine {cy x y : F64} (f : Fin' (cy + (x * y + x * y))) {g : ℝ} (hg : |g| = 1) (hX : |rv x - 2 * g| ≤ 50 * η)
    (hY : rv y * rv y ≤ 100 * η) (hV : rv cy * rv cy ≤ 100 * η) :
    (rv cy + 4 * (g * rv y)) * (rv cy + 4 * (g * rv y)) - 1 / 10 ^ 4 * η ≤ rv (cy + (x * y + x * y)) * rv (cy + (x * y + x * y)) ∧
    rv (cy + (x * y + x * y)) * rv (cy + (x * y + x * y)) ≤ 1 / 10 ^ 8 := by
  have hη' := η_le
  have aux : ∀ v : ℝ, v * v ≤ 100 * η → |v| ≤ 1 / 10 ^ 5 := by
    intro v hv
    refine abs_le_of_sq_le_sq ?_ (by norm_num)
    rw [pow_two]
    linarith
  exact im_real η_pos hη' hg hX (aux _ hY) (aux _ hV) (mul_u (fin_add (fin_add f).2).1) (add_u (fin_add f).2) (add_u f)

/-- The first step of a point which is not bounded, close to `-2`. -/
theorem fine_b {cx cy : F64} (f1 : Fin' (cx + (cx * cx - cy * cy))) (f2 : Fin' (cy + (cx * cy + cx * cy)))
    (ha : |rv cx + 2| ≤ 4.2 * η) (hV : rv cy * rv cy ≤ 33.5 * η) (hu : ¬ F64.le (cx * cx + cy * cy) (F64.ofInt 4) = true) :
    4 + 1.99 * η ≤ ‖pt cx cy‖ ^ 2 ∧ ‖pt cx cy‖ ^ 2 + 7.2 * η ≤ ‖pt (cx + (cx * cx - cy * cy)) (cy + (cx * cy + cx * cy))‖ ^ 2 := by
  have hη := η_pos
  have hη' := η_le
  have hη1 := η_unit
  have fd := (fin_add f1).2
  obtain ⟨fxx, fyy⟩ := fin_sub fd
  have fx := (fin_mul fxx).1
  obtain ⟨a, hae⟩ : ∃ a, a = rv cx + 2 := ⟨_, rfl⟩
  rw [← hae] at ha
  have hcx : rv cx = -2 + a := by rw [hae]; ring
  have ha2 := sq_small hη hη' (by norm_num) ha
  have hab := abs_le.1 ha
  have hp : |rv cx| = 2 + -a := by rw [hcx, abs_of_neg (by linarith)]; ring
  obtain ⟨i, hi, hi1, hi2, hi3⟩ := grid_fine fx hp (by rw [abs_neg]; linarith)
  have hsx := sq_fine fxx hp hi (by linarith) (by linarith)
  have hsy := sq_tiny fyy (by linarith)
  have hub := unbounded_ge fxx fyy hu
  have him := im_fine f2 (g := -1) (by rw [abs_neg, abs_one]) (by rw [hcx, show -2 + a - 2 * -1 = a by ring]; linarith)
    (by linarith) (by linarith)
  rw [pt_sq, pt_sq, hcx]
  obtain ⟨β, hβ⟩ : ∃ β, β = rv cy * rv cy := ⟨_, rfl⟩
  have hβ0 : 0 ≤ β := by rw [hβ]; exact mul_self_nonneg _
  have hQ : 9 * β - 1 / 10 ^ 4 * η ≤ rv (cy + (cx * cy + cx * cy)) * rv (cy + (cx * cy + cx * cy)) := by
    refine le_trans (le_of_eq ?_) him.1
    rw [hβ]; ring
  rw [← hβ] at hV hsy ⊢
  rw [abs_le] at hsx hsy
  have hM : 2 * η - 3 / 10 ^ 8 * η ≤ β - 4 * a := by linarith
  obtain ⟨u, hu'⟩ : ∃ u, u = rv (cx * cx) - rv (cy * cy) := ⟨_, rfl⟩
  have hu1 : 4 - 4 * a - β - 2 / 10 ^ 8 * η ≤ u := by rw [hu']; linarith
  have hu2 : u ≤ 4 - 4 * a - β + 2 / 10 ^ 8 * η := by rw [hu']; linarith
  -- the real part
  have key : -2 * β - a + 1.9 * η ≤ rv (cx + (cx * cx - cy * cy)) - 2 := by
    rcases lt_trichotomy i 0 with h | h | h
    · have ha1 : η ≤ a := by
        have : (i : ℝ) ≤ ((-1 : ℤ) : ℝ) := by exact_mod_cast (by omega : i ≤ -1)
        push_cast at this
        nlinarith
      obtain ⟨m, hm, hmn⟩ := near_two (v := u) (by rw [abs_le]; constructor <;> linarith)
      have hd := sub_near fd m hm (j := 1) (by norm_num)
      rw [← hu'] at hd
      have hd := abs_le.1 (hd.trans hmn)
      obtain ⟨k, hk, hkn⟩ := near_two (v := rv cx + rv (cx * cx - cy * cy)) (by rw [hcx, abs_le]; constructor <;> linarith)
      have hx := abs_le.1 ((add_near f1 k hk (j := 1) (by norm_num)).trans hkn)
      rw [hcx] at hx
      linarith
    · have ha0 : a = 0 := by rw [h] at hi; push_cast at hi; linarith
      subst ha0
      have hd := sub_near fd (2 ^ 53 - 1) (by norm_num) (j := 1) (by norm_num)
      rw [← hu', show ((2 ^ 53 - 1 : ℤ) : ℝ) * (2 ^ 1 * η) = 4 - 2 * η by push_cast; linarith] at hd
      have h3 : |4 - 2 * η - u| ≤ β - 2 * η + 10 / 10 ^ 8 * η := by rw [abs_le]; constructor <;> linarith
      have hd1 := abs_le.1 (hd.trans h3)
      have hd4 := sub_near fd (2 ^ 52) (by norm_num) (j := 2) (by norm_num)
      rw [← hu', four_grid, abs_of_nonneg (by linarith : 0 ≤ 4 - u)] at hd4
      have hd4 := abs_le.1 hd4
      obtain ⟨m, hm⟩ := onGrid fd (j := 0) (by norm_num) (by rw [pow_zero, le_abs]; left; linarith)
      have hv : rv cx + rv (cx * cx - cy * cy) = ((m - 2 ^ 53 : ℤ) : ℝ) * (2 ^ 0 * η) := by
        rw [hcx, hm]; push_cast; linarith
      have hvb : |((m - 2 ^ 53 : ℤ) : ℝ) * (2 ^ 0 * η)| ≤ 2 := by
        rw [← hv, hcx, abs_le]; constructor <;> linarith
      have hmb : (m - 2 ^ 53).natAbs ≤ 2 ^ 53 := by
        rw [pow_zero, one_mul, abs_mul, abs_of_pos hη] at hvb
        have h1 : |((m - 2 ^ 53 : ℤ) : ℝ)| ≤ 2 ^ 53 := by
          by_contra hlt
          rw [not_le] at hlt
          nlinarith
        rw [← Int.cast_abs] at h1
        have h2 : |m - 2 ^ 53| ≤ 2 ^ 53 := by exact_mod_cast h1
        rw [Int.abs_eq_natAbs] at h2
        omega
      have hx := add_near f1 (m - 2 ^ 53) hmb (j := 0) (by norm_num)
      rw [← hv, sub_self, abs_zero] at hx
      have hx := abs_le.1 hx
      rw [hcx] at hx
      linarith
    · have hneg : a ≤ -(2 * η) := by
        have hpos : 0 < -a := by
          rw [hi]
          exact mul_pos (by exact_mod_cast h) hη
        have : ((2 : ℤ) : ℝ) ≤ i := by exact_mod_cast hi3 hpos
        push_cast at this
        nlinarith
      have hd := sub_near fd (2 ^ 52 + i) (by omega) (j := 2) (by norm_num)
      have hv : ((2 ^ 52 + i : ℤ) : ℝ) * (2 ^ 2 * η) = 4 - 4 * a := by push_cast; linarith
      rw [← hu', hv] at hd
      have h3 : |4 - 4 * a - u| ≤ β + 2 / 10 ^ 8 * η := by rw [abs_le]; constructor <;> linarith
      have hd := abs_le.1 (hd.trans h3)
      obtain ⟨k, hk, hkn⟩ := near_two (v := rv cx + rv (cx * cx - cy * cy)) (by rw [hcx, abs_le]; constructor <;> linarith)
      have hx := abs_le.1 ((add_near f1 k hk (j := 1) (by norm_num)).trans hkn)
      rw [hcx] at hx
      linarith
  obtain ⟨P, hP⟩ : ∃ P, P = rv (cx + (cx * cx - cy * cy)) - 2 := ⟨_, rfl⟩
  rw [← hP] at key
  have hx : rv (cx + (cx * cx - cy * cy)) = 2 + P := by rw [hP]; ring
  rw [hx]
  have hPP := mul_self_nonneg P
  have haa := mul_self_nonneg a
  constructor <;> linarith

set_option maxHeartbeats 400000 in
/-- A later step from a point which is not bounded to one which is bounded, close to `-2` and `2`, is impossible. -/
theorem fine_a {cx cy x y : F64} (hc : F64.le (cx * cx + cy * cy) (F64.ofInt 4) = true) (hz : ¬ F64.le (x * x + y * y) (F64.ofInt 4) = true)
    (hn : F64.le ((cx + (x * x - y * y)) * (cx + (x * x - y * y)) + (cy + (x * y + x * y)) * (cy + (x * y + x * y))) (F64.ofInt 4) = true)
    (ha1 : -1.01 * η ≤ rv cx + 2) (ha2 : rv cx + 2 ≤ 22.5 * η) (hV : rv cy * rv cy ≤ 95 * η) (hY : rv y * rv y ≤ 81 * η)
    (hX1 : 2 - 20.5 * η ≤ |rv x|) (hX2 : |rv x| ≤ 2 + 2.2 * η) : False := by
  have hη := η_pos
  have hη' := η_le
  have hη1 := η_unit
  obtain ⟨hfc, -⟩ := (bounded_iff _ _).1 hc
  obtain ⟨hfn, -⟩ := (bounded_iff _ _).1 hn
  obtain ⟨fcc, fdd⟩ := fin_add hfc
  obtain ⟨fnn, fpp⟩ := fin_add hfn
  have f1 := (fin_mul fnn).1
  have f2 := (fin_mul fpp).1
  have fd := (fin_add f1).2
  obtain ⟨fxx, fyy⟩ := fin_sub fd
  -- the starting point
  obtain ⟨a, hae⟩ : ∃ a, a = rv cx + 2 := ⟨_, rfl⟩
  rw [← hae] at ha1 ha2
  have hcx : rv cx = -2 + a := by rw [hae]; ring
  have hpc : |rv cx| = 2 + -a := by rw [hcx, abs_of_neg (by linarith)]; ring
  obtain ⟨ic, hic, hic1, hic2, hic3⟩ := grid_fine (fin_mul fcc).1 hpc (by rw [abs_neg, abs_le]; constructor <;> linarith)
  have ha0 : 0 ≤ a := by
    by_contra hlt
    rw [not_le] at hlt
    have : ((2 : ℤ) : ℝ) ≤ ic := by exact_mod_cast hic3 (by linarith)
    push_cast at this
    have := mul_le_mul_of_nonneg_right this hη.le
    linarith only [this, hic, ha1, hη]
  have hcsx := sq_fine fcc hpc hic (by linarith) (by linarith)
  have hcsy := sq_tiny fdd (by linarith)
  have hcb := bounded_le hc
  -- the point
  obtain ⟨p, hpe⟩ : ∃ p, p = |rv x| - 2 := ⟨_, rfl⟩
  have hp : |rv x| = 2 + p := by rw [hpe]; ring
  have hp1 : -20.5 * η ≤ p := by linarith
  have hp2 : p ≤ 2.2 * η := by linarith
  obtain ⟨i, hi, hi1, hi2, hi3⟩ := grid_fine (fin_mul fxx).1 hp (by rw [abs_le]; constructor <;> linarith)
  have hsx := sq_fine fxx hp hi (by linarith) (by linarith)
  have hsy := sq_tiny fyy (by linarith)
  have hub := unbounded_ge fxx fyy hz
  obtain ⟨g, hg, hgx⟩ : ∃ g : ℝ, |g| = 1 ∧ |rv x - 2 * g| ≤ 50 * η := by
    rcases abs_cases (rv x) with ⟨h1, -⟩ | ⟨h1, -⟩
    · exact ⟨1, abs_one, by rw [abs_le]; constructor <;> linarith⟩
    · exact ⟨-1, by rw [abs_neg, abs_one], by rw [abs_le]; constructor <;> linarith⟩
  obtain ⟨hQ1, hQ2⟩ := im_fine f2 hg hgx (by linarith) (by linarith)
  obtain ⟨β, hβ⟩ : ∃ β, β = rv cy * rv cy := ⟨_, rfl⟩
  obtain ⟨σ, hσ⟩ : ∃ σ, σ = rv y * rv y := ⟨_, rfl⟩
  obtain ⟨t, ht⟩ : ∃ t, t = |rv cy| := ⟨_, rfl⟩
  obtain ⟨s, hs⟩ : ∃ s, s = |rv y| := ⟨_, rfl⟩
  obtain ⟨Q, hQ⟩ : ∃ Q, Q = rv (cy + (x * y + x * y)) := ⟨_, rfl⟩
  have hβ0 : 0 ≤ β := by rw [hβ]; exact mul_self_nonneg _
  have hσ0 : 0 ≤ σ := by rw [hσ]; exact mul_self_nonneg _
  have ht0 : 0 ≤ t := by rw [ht]; exact abs_nonneg _
  have hs0 : 0 ≤ s := by rw [hs]; exact abs_nonneg _
  have htt : t * t = β := by rw [ht, hβ, abs_mul_abs_self]
  have hss : s * s = σ := by rw [hs, hσ, abs_mul_abs_self]
  rw [← hQ] at hQ1 hQ2
  have hQQ : 16 * σ - 8 * (s * t) + β - 1 / 10 ^ 4 * η ≤ Q * Q := by
    have h1 : |g * rv y * rv cy| = s * t := by rw [abs_mul, abs_mul, hg, one_mul, ← hs, ← ht]
    have h2 := neg_abs_le (g * rv y * rv cy)
    rw [h1] at h2
    have h3 : (rv cy + 4 * (g * rv y)) * (rv cy + 4 * (g * rv y)) = β + 8 * (g * rv y * rv cy) + 16 * ((g * g) * (rv y * rv y)) := by
      rw [hβ]; ring
    rw [← abs_mul_abs_self g, hg, one_mul, one_mul, ← hσ] at h3
    linarith
  rw [← hβ] at hV hcsy
  rw [← hσ] at hY hsy
  rw [abs_le] at hcsx hcsy hsx hsy
  have hcM : β - 4 * a ≤ 2 * η + 3 / 10 ^ 8 * η := by linarith
  have hzM : 2 * η - 3 / 10 ^ 8 * η ≤ 4 * p + σ := by linarith
  obtain ⟨u, hu'⟩ : ∃ u, u = rv (x * x) - rv (y * y) := ⟨_, rfl⟩
  have hu1 : 4 + 4 * p - σ - 2 / 10 ^ 8 * η ≤ u := by rw [hu']; linarith
  have hu2 : u ≤ 4 + 4 * p - σ + 2 / 10 ^ 8 * η := by rw [hu']; linarith
  -- coarse bounds
  have hu4 : |4 - u| ≤ 164 * η := by rw [abs_le]; constructor <;> linarith
  have hd0 := sub_near fd (2 ^ 52) (by norm_num) (j := 2) (by norm_num)
  rw [four_grid, ← hu'] at hd0
  have hd0 := abs_le.1 (hd0.trans hu4)
  obtain ⟨d, hd⟩ : ∃ d, d = rv (x * x - y * y) := ⟨_, rfl⟩
  obtain ⟨v, hv⟩ : ∃ v, v = rv cx + rv (x * x - y * y) := ⟨_, rfl⟩
  rw [← hd] at hd0
  have hvd : v = -2 + a + d := by rw [hv, hcx, hd]
  rw [abs_le] at hu4
  have hv2 : |2 - v| ≤ 352 * η := by rw [hvd, abs_le]; constructor <;> linarith
  have two_grid : ((2 ^ 53 : ℤ) : ℝ) * (2 ^ 0 * η) = 2 := by push_cast; linarith
  have hx0 := add_near f1 (2 ^ 53) (by norm_num) (j := 0) (by norm_num)
  rw [two_grid, ← hv] at hx0
  obtain ⟨P, hP⟩ : ∃ P, P = rv (cx + (x * x - y * y)) - 2 := ⟨_, rfl⟩
  have hx' : rv (cx + (x * x - y * y)) = 2 + P := by rw [hP]; ring
  have hxv : |P - (v - 2)| ≤ |2 - v| := by
    rw [hx'] at hx0
    rw [show P - (v - 2) = 2 + P - v by ring]
    exact hx0
  have hP0 : |P| ≤ 1000 * η := by
    have h1 := abs_le.1 (hxv.trans hv2)
    rw [abs_le] at hv2 ⊢
    constructor <;> linarith
  have key : 2.4 * η ≤ 4 * P + Q * Q := by
    have hst := mul_self_nonneg (t - 2 * s)
    have hst' : (t - 2 * s) * (t - 2 * s) = β - 4 * (s * t) + 4 * σ := by rw [← htt, ← hss]; ring
    by_cases hpp : 0 < p
    · have hp2 : 2 * η ≤ p := by
        have : ((2 : ℤ) : ℝ) ≤ i := by exact_mod_cast hi3 hpp
        push_cast at this
        rw [hi]
        exact mul_le_mul_of_nonneg_right this hη.le
      have hd1 := sub_near fd (2 ^ 52 + i) (by omega) (j := 2) (by norm_num)
      have hv1 : ((2 ^ 52 + i : ℤ) : ℝ) * (2 ^ 2 * η) = 4 + 4 * p := by push_cast; linarith
      rw [← hu', ← hd, hv1] at hd1
      have h3 : |4 + 4 * p - u| ≤ σ + 2 / 10 ^ 8 * η := by rw [abs_le]; constructor <;> linarith
      have hd1 := abs_le.1 (hd1.trans h3)
      obtain ⟨k, hk, hkn⟩ := near_two (v := v) (by rw [hvd, abs_le]; constructor <;> linarith)
      have hx := add_near f1 k hk (j := 1) (by norm_num)
      rw [← hv] at hx
      have hx := abs_le.1 (hx.trans hkn)
      rw [hx', hvd] at hx
      linarith
    · rw [not_lt] at hpp
      have hd1 := sub_near fd (2 ^ 53 + 4 * i - 1) (by
        have : i ≤ 0 := by
          by_contra hlt
          have h1 : (0 : ℝ) < i := by exact_mod_cast not_le.1 hlt
          have := mul_pos h1 hη
          linarith
        omega) (j := 1) (by norm_num)
      have hv1 : ((2 ^ 53 + 4 * i - 1 : ℤ) : ℝ) * (2 ^ 1 * η) = 4 + 8 * p - 2 * η := by push_cast; linarith
      rw [← hu', ← hd, hv1] at hd1
      have h3 : |4 + 8 * p - 2 * η - u| ≤ 4 * p + σ - 2 * η + 10 / 10 ^ 8 * η := by rw [abs_le]; constructor <;> linarith
      have hd1 := abs_le.1 (hd1.trans h3)
      obtain ⟨m, hm⟩ := onGrid fd (j := 0) (by norm_num) (by rw [pow_zero, le_abs]; left; rw [← hd]; linarith)
      rw [← hd, pow_zero, one_mul] at hm
      have hvn : v = ((m - 2 ^ 53 - ic : ℤ) : ℝ) * (2 ^ 0 * η) := by
        rw [hvd, hm]; push_cast; linarith
      rcases lt_trichotomy (m - 2 ^ 53 - ic) (2 ^ 53 + 1) with h | h | h
      · -- exact
        have hmb : (m - 2 ^ 53 - ic).natAbs ≤ 2 ^ 53 := by
          have h1 : (0 : ℝ) ≤ ((m - 2 ^ 53 - ic : ℤ) : ℝ) := by
            by_contra hlt
            rw [not_le] at hlt
            have h2 := mul_neg_of_neg_of_pos hlt hη
            rw [pow_zero, one_mul] at hvn
            rw [← hvn, hvd] at h2
            linarith
          have h1 : 0 ≤ m - 2 ^ 53 - ic := by exact_mod_cast h1
          omega
        have hx := add_near f1 _ hmb (j := 0) (by norm_num)
        rw [← hvn, ← hv, sub_self, abs_zero] at hx
        have hx := abs_le.1 hx
        rw [hx', hvd] at hx
        linarith
      · have hv3 : v = 2 + η := by rw [hvn, h]; push_cast; linarith
        have hP1 : 0 ≤ P := by
          rw [hv3, show 2 + η - 2 = η by ring, show 2 - (2 + η) = -η by ring, abs_neg, abs_of_pos hη, abs_le] at hxv
          linarith
        have hb8 : t * t ≤ 8 * (s * s) := by
          rw [htt, hss]
          linarith
        have ht83 : t ≤ 2.83 * s := by
          refine abs_le_of_sq_le_sq' ?_ (by linarith only [hs0]) |>.2
          have h5 : (2.83 * s) ^ 2 = 8.0089 * (s * s) := by ring
          rw [h5, pow_two]
          linarith only [hb8, mul_self_nonneg s]
        have h5 := mul_self_le_mul_self (by linarith only [hs0] : 0 ≤ 1.17 * s) (by linarith only [ht83] : 1.17 * s ≤ 4 * s - t)
        have h6 : (4 * s - t) * (4 * s - t) = 16 * σ - 8 * (s * t) + β := by rw [← htt, ← hss]; ring
        have h7 : 1.17 * s * (1.17 * s) = 1.3689 * σ := by rw [← hss]; ring
        rw [h6, h7] at h5
        linarith
      · have hv3 : 2 + 2 * η ≤ v := by
          have h1 : ((2 ^ 53 + 2 : ℤ) : ℝ) ≤ ((m - 2 ^ 53 - ic : ℤ) : ℝ) := by exact_mod_cast (by omega)
          have h2 := mul_le_mul_of_nonneg_right h1 hη.le
          rw [pow_zero, one_mul] at hvn
          rw [← hvn] at h2
          push_cast at h2
          linarith
        have hx := add_near f1 (2 ^ 52 + 1) (by norm_num) (j := 1) (by norm_num)
        rw [← hv, show ((2 ^ 52 + 1 : ℤ) : ℝ) * (2 ^ 1 * η) = 2 + 2 * η by push_cast; linarith, abs_of_nonpos (by linarith : 2 + 2 * η - v ≤ 0), hx'] at hx
        have hx := abs_le.1 hx
        have := mul_self_nonneg Q
        linarith
  have hPa : |rv (cx + (x * x - y * y))| = 2 + P := by
    rw [hx', abs_of_nonneg]
    rw [abs_le] at hP0
    linarith
  obtain ⟨k, hk, hk1, hk2, -⟩ := grid_fine f1 hPa hP0
  have hnx := sq_fine fnn hPa hk hk1 hk2
  have hny := mul_u fpp
  rw [← hQ, abs_of_nonneg (mul_self_nonneg Q)] at hny
  have hnb := bounded_le hn
  have hηQ : η * (Q * Q) ≤ η * (1 / 10 ^ 8) := mul_le_mul_of_nonneg_left hQ2 hη.le
  have hη3 := η3_le
  rw [abs_le] at hnx hny
  linarith

/-! ### All steps -/

theorem orbit_succ (cx cy : F64) (j : ℕ) : orbit (cx, cy) (j + 1) =
    (cx + ((orbit (cx, cy) j).1 * (orbit (cx, cy) j).1 - (orbit (cx, cy) j).2 * (orbit (cx, cy) j).2),
     cy + ((orbit (cx, cy) j).1 * (orbit (cx, cy) j).2 + (orbit (cx, cy) j).1 * (orbit (cx, cy) j).2)) := rfl

/-- The modulus of the computed points. -/
noncomputable def radius (c : F64 × F64) (j : ℕ) : ℝ := ‖pt (orbit c j).1 (orbit c j).2‖

theorem fin_back {cx cy : F64} {j : ℕ} (h : Fin' (orbit (cx, cy) (j + 1)).1) : Fin' (orbit (cx, cy) j).1 ∧ Fin' (orbit (cx, cy) j).2 := by
  rw [orbit_succ] at h
  have := fin_sub (fin_add h).2
  exact ⟨(fin_mul this.1).1, (fin_mul this.2).1⟩

/-- One step in terms of the moduli. -/
theorem radius_step {cx cy : F64} {j : ℕ} (f1 : Fin' (orbit (cx, cy) (j + 1)).1) (f2 : Fin' (orbit (cx, cy) (j + 1)).2) (hR : 1 ≤ radius (cx, cy) j) :
    ∃ w : ℝ, 0 ≤ w ∧ radius (cx, cy) j ^ 2 - ‖pt cx cy‖ ≤ ‖pt (orbit (cx, cy) j).1 (orbit (cx, cy) j).2 ^ 2 + pt cx cy‖ ∧
      ‖pt (orbit (cx, cy) j).1 (orbit (cx, cy) j).2 ^ 2 + pt cx cy‖ ≤ w + 5 / 4 * η * radius (cx, cy) j ^ 2 ∧ w ≤ radius (cx, cy) (j + 1) + η / 2 * w := by
  obtain ⟨w, h1, h2, h3⟩ := step_norm f1 f2 (one_le_pow₀ hR)
  exact ⟨w, h1, norm_grow _ _, h2, h3⟩

theorem first_norm (c : ℂ) : ‖c ^ 2 + c‖ = ‖c‖ * ‖c + 1‖ ∧ ‖c + 1‖ ^ 2 = ‖c‖ ^ 2 + 2 * c.re + 1 := by
  constructor
  · rw [← Complex.norm_mul]; ring_nf
  · rw [Complex.sq_norm, Complex.sq_norm, Complex.normSq_apply, Complex.normSq_apply]
    simp
    ring

/-- A starting point which is not bounded: no later point is bounded. -/
theorem outside {cx cy : F64} (hC2 : ‖pt cx cy‖ ≤ 2.01) (hu : ¬ F64.le (cx * cx + cy * cy) (F64.ofInt 4) = true) (j : ℕ) :
    ¬ F64.le (orbitNorm (cx, cy) (j + 1)) (F64.ofInt 4) = true := by
  intro hb
  have hη := η_pos
  have hη' := η_le
  obtain ⟨hf, -⟩ := (bounded_iff _ _).1 hb
  have f1 := (fin_mul (fin_add hf).1).1
  have f2 := (fin_mul (fin_add hf).2).1
  have fin1 : ∀ i, i ≤ j → Fin' (orbit (cx, cy) (i + 1)).1 ∧ Fin' (orbit (cx, cy) (i + 1)).2 := by
    intro i hi
    induction hk : j - i generalizing i with
    | zero =>
      obtain rfl : i = j := by omega
      exact ⟨f1, f2⟩
    | succ n ih => exact fin_back (ih (i + 1) (by omega) (by omega)).1
  obtain ⟨g1, g2⟩ := fin1 0 (by omega)
  have g1' : Fin' (cx + (cx * cx - cy * cy)) := g1
  have g2' : Fin' (cy + (cx * cy + cx * cy)) := g2
  have hC1 := unbounded_norm (fin_sub (fin_add g1').2).1 (fin_sub (fin_add g1').2).2 hu
  have hr0 : radius (cx, cy) 0 = ‖pt cx cy‖ := rfl
  obtain ⟨κ, k1, k2, k3, k4⟩ : ∃ κ, 1.79 * η ≤ κ ∧ κ ≤ 3 * η ∧ 6.1 * η ≤ 1.99 * (‖pt cx cy‖ - 2) + 2.99 * κ ∧ ‖pt cx cy‖ + κ ≤ radius (cx, cy) 1 := by
    by_cases h1 : ‖pt cx cy‖ + 2.1 * η ≤ radius (cx, cy) 1
    · exact ⟨2.1 * η, by linarith, by linarith, by linarith, h1⟩
    · rw [not_le] at h1
      obtain ⟨w, hw, -, h2, h3⟩ := radius_step g1 g2 (by rw [hr0]; linarith)
      obtain ⟨n1, n2⟩ := first_norm (pt cx cy)
      have h2' : ‖pt cx cy‖ * ‖pt cx cy + 1‖ ≤ w + 5 / 4 * η * ‖pt cx cy‖ ^ 2 := n1 ▸ h2
      obtain ⟨b1, b2, b3⟩ := b_box hη hη' (pt_sq cx cy) hC1 hC2 (norm_nonneg _) n2 h2' h3 h1
      obtain ⟨c1, c2⟩ := fine_b g1' g2' b1 b2 hu
      have hr1 : ‖pt (cx + (cx * cx - cy * cy)) (cy + (cx * cy + cx * cy))‖ = radius (cx, cy) 1 := rfl
      rw [hr1] at c2
      have hC3 : 2 + 0.49 * η ≤ ‖pt cx cy‖ := by
        by_contra hlt
        rw [not_le] at hlt
        have h4 := mul_self_le_mul_self (norm_nonneg _) hlt.le
        have h5 := η2_le
        rw [pow_two] at c1
        linarith
      refine ⟨1.79 * η, le_refl _, by linarith, by linarith, ?_⟩
      by_contra hlt
      rw [not_le] at hlt
      have h4 := mul_self_le_mul_self (norm_nonneg _) hlt.le
      have h5 := η2_le
      have h6 : η * ‖pt cx cy‖ ≤ η * (2 + 4.12 * η) := mul_le_mul_of_nonneg_left b3 hη.le
      change radius (cx, cy) 1 * radius (cx, cy) 1 ≤ _ at h4
      rw [pow_two, pow_two] at c2
      linarith
  have all : ∀ i, i ≤ j → ‖pt cx cy‖ + κ ≤ radius (cx, cy) (i + 1) := by
    intro i
    induction i with
    | zero => exact fun _ => k4
    | succ i ih =>
      intro hi
      have ih := ih (by omega)
      obtain ⟨p1, p2⟩ := fin1 (i + 1) hi
      obtain ⟨w, hw, h1, h2, h3⟩ := radius_step p1 p2 (by linarith)
      exact b_persist hη hη' hC1 hC2 k1 k2 k3 ih hw h1 h2 h3
  have h4 := all j (le_refl _)
  have h5 : radius (cx, cy) (j + 1) ≤ 2 + 1.003 * η := bounded_norm hb
  linarith

/-- A point which is not bounded is followed by one which is not bounded. -/
theorem escaped_stays {cx cy : F64} (hC : rv cx * rv cx + rv cy * rv cy ≤ 4.01) (j : ℕ) (hb : F64.le (orbitNorm (cx, cy) (j + 1)) (F64.ofInt 4) = true) :
    F64.le (orbitNorm (cx, cy) j) (F64.ofInt 4) = true := by
  by_contra hz
  have hη := η_pos
  have hη' := η_le
  have hC2 : ‖pt cx cy‖ ≤ 2.01 := by
    refine abs_le_of_sq_le_sq' ?_ (by norm_num) |>.2
    rw [pt_sq]
    linarith
  by_cases hc : F64.le (cx * cx + cy * cy) (F64.ofInt 4) = true
  · obtain ⟨hf, -⟩ := (bounded_iff _ _).1 hb
    have f1 := (fin_mul (fin_add hf).1).1
    have f2 := (fin_mul (fin_add hf).2).1
    have fin1 : ∀ i, i ≤ j → Fin' (orbit (cx, cy) (i + 1)).1 ∧ Fin' (orbit (cx, cy) (i + 1)).2 := by
      intro i hi
      induction hk : j - i generalizing i with
      | zero =>
        obtain rfl : i = j := by omega
        exact ⟨f1, f2⟩
      | succ n ih => exact fin_back (ih (i + 1) (by omega) (by omega)).1
    have hC3 := bounded_norm hc
    have f1' := f1
    rw [orbit_succ] at f1'
    have hρ1 : 2 - η / 1000 ≤ radius (cx, cy) j := unbounded_norm (fin_sub (fin_add f1').2).1 (fin_sub (fin_add f1').2).2 hz
    have hr : radius (cx, cy) (j + 1) ≤ 2 + 1.003 * η := bounded_norm hb
    obtain ⟨w, hw, h1, h2, h3⟩ := radius_step f1 f2 (by linarith)
    obtain ⟨s1, s2, s3⟩ := a_step hη hη' hC3 hρ1 hw h1 h2 h3 hr
    obtain ⟨k, rfl⟩ : ∃ k, j = k + 1 := by
      rcases j with _ | k
      · exact absurd hc hz
      · exact ⟨k, rfl⟩
    have hr1 : radius (cx, cy) 1 ≤ 2 + 3 * η := by
      by_contra hlt
      rw [not_le] at hlt
      have all : ∀ i, i ≤ k → 2 + 3 * η ≤ radius (cx, cy) (i + 1) := by
        intro i
        induction i with
        | zero => exact fun _ => hlt.le
        | succ i ih =>
          intro hi
          have ih := ih (by omega)
          obtain ⟨p1, p2⟩ := fin1 (i + 1) (by omega)
          obtain ⟨w, hw, h1, h2, h3⟩ := radius_step p1 p2 (by linarith)
          exact a_persist hη hη' hC3 ih hw h1 h2 h3
      have := all k (le_refl _)
      linarith
    obtain ⟨g1, g2⟩ := fin1 0 (by omega)
    have hr0 : radius (cx, cy) 0 = ‖pt cx cy‖ := rfl
    obtain ⟨w', hw', -, h2', h3'⟩ := radius_step g1 g2 (by rw [hr0]; linarith)
    obtain ⟨n1, n2⟩ := first_norm (pt cx cy)
    have h2'' : ‖pt cx cy‖ * ‖pt cx cy + 1‖ ≤ w' + 5 / 4 * η * ‖pt cx cy‖ ^ 2 := n1 ▸ h2'
    obtain ⟨b1, b2, b3⟩ := a_box hη hη' (pt_sq cx cy) s2 hC3 (norm_nonneg _) n2 h2'' h3' hr1
    have hK : ‖pt (orbit (cx, cy) (k + 1)).1 (orbit (cx, cy) (k + 1)).2 ^ 2 + pt cx cy‖ ^ 2 =
        (rv (orbit (cx, cy) (k + 1)).1 * rv (orbit (cx, cy) (k + 1)).1 - rv (orbit (cx, cy) (k + 1)).2 * rv (orbit (cx, cy) (k + 1)).2 + rv cx) ^ 2 +
        (2 * (rv (orbit (cx, cy) (k + 1)).1 * rv (orbit (cx, cy) (k + 1)).2) + rv cy) ^ 2 := by
      rw [Complex.sq_norm, Complex.normSq_apply]
      simp only [pt, pow_two, Complex.add_re, Complex.mul_re, Complex.add_im, Complex.mul_im]
      ring
    obtain ⟨z1, z2, z3⟩ := a_box_z hη hη' b1 b2 b3 (pt_sq _ _) hρ1 s1 hK (norm_nonneg _) s3
    exact fine_a hc hz hb b1 b2 b3 z1 z2 z3
  · exact outside hC2 hc j hb

end PackedSimd.F64R
