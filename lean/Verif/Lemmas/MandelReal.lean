import Verif.Lemmas.MandelDrift
/-
The Mandelbrot set on the real axis, and the orbits computed there.
-/
namespace PackedSimd.Ex.Mandel
open Spec F64R

/-- Rounding is at least as close as any float. -/
theorem near_float {num : Int} {den : Nat} {x : BitVec 64} (h : RoundsTo 52 (.frac num den) x) {v : ℝ} (hv : v = (num : ℝ) / den / 2 ^ 1074)
    (hx : IsFinite 52 x) {g : F64} (hg : Fin' g) {G : ℝ} (hG : |G| = |rv g|) : |realVal 52 x - v| ≤ |G - v| := by
  have hlow : low 64 52 = 1074 := by decide
  have hd : (0 : ℝ) < den := by exact_mod_cast h.1
  have hL : (0 : ℝ) < 2 ^ 1074 := by positivity
  have hvg := valueOf_finite hg
  have hr : rv g = _ := realVal_num hvg
  rw [show low 64 52 = 1074 by decide] at hr
  have hmag : |rv g| = (magUnits 52 (magBits g.bits) : ℝ) / 2 ^ 1074 := by
    rw [hr, abs_div, abs_of_pos hL]
    congr 1
    split <;> simp
  have hb' : magBits g.bits ≤ infMag 64 52 := ((finite_iff _).1 hg).le
  have h1 := (nearTo_of h.1 h.2.1).2 _ hb'
  have h2 := rounds_err h (v := v) (by rw [hlow]; exact hv) hx _ h1
  rw [hlow] at h2
  refine h2.trans ?_
  have hav : |v| = (num.natAbs : ℝ) / den / 2 ^ 1074 := by
    rw [hv, abs_div, abs_div, abs_of_pos hL, abs_of_pos hd, Nat.cast_natAbs, Int.cast_abs]
  have e : |((magUnits 52 (magBits g.bits) : ℕ) : ℝ) - num.natAbs / den| / 2 ^ 1074 = |(|G| - |v|)| := by
    rw [hav, hG, hmag]
    conv => lhs; rw [← abs_of_pos hL]
    rw [← abs_div, sub_div]
  rw [e]
  exact abs_abs_sub_abs_le _ _

theorem add_nearf {a b : F64} (h : Fin' (a + b)) {g : F64} (hg : Fin' g) {G : ℝ} (hG : |G| = |rv g|) :
    |rv (a + b) - (rv a + rv b)| ≤ |G - (rv a + rv b)| := by
  obtain ⟨⟨x, hx⟩, ⟨y, hy⟩⟩ := fin_add h
  have hr := add_rounds fmt a.bits b.bits
  unfold exactAdd at hr
  rw [hx, hy] at hr
  have hv : rv a + rv b = ((x + y : ℤ) : ℝ) / (1 : ℕ) / 2 ^ 1074 := by
    unfold rv
    rw [realVal_num hx, realVal_num hy, show low 64 52 = 1074 by decide]
    push_cast
    ring
  exact near_float hr hv h hg hG

theorem sub_nearf {a b : F64} (h : Fin' (a - b)) {g : F64} (hg : Fin' g) {G : ℝ} (hG : |G| = |rv g|) :
    |rv (a - b) - (rv a - rv b)| ≤ |G - (rv a - rv b)| := by
  obtain ⟨⟨x, hx⟩, ⟨y, hy⟩⟩ := fin_sub h
  have hr := sub_rounds fmt a.bits b.bits
  unfold exactSub at hr
  rw [hx, hy] at hr
  have hv : rv a - rv b = ((x - y : ℤ) : ℝ) / (1 : ℕ) / 2 ^ 1074 := by
    unfold rv
    rw [realVal_num hx, realVal_num hy, show low 64 52 = 1074 by decide]
    push_cast
    ring
  exact near_float hr hv h hg hG

theorem mul_nearf {a b : F64} (h : Fin' (a * b)) {g : F64} (hg : Fin' g) {G : ℝ} (hG : |G| = |rv g|) :
    |rv (a * b) - rv a * rv b| ≤ |G - rv a * rv b| := by
  obtain ⟨⟨x, hx⟩, ⟨y, hy⟩⟩ := fin_mul h
  have hr := mul_rounds fmt a.bits b.bits
  unfold exactMul at hr
  rw [hx, hy] at hr
  refine near_float hr ?_ h hg hG
  unfold rv
  rw [realVal_num hx, realVal_num hy, show low 64 52 = 1074 by decide]
  push_cast
  field_simp

theorem le_of_near {r v G : ℝ} (h : |r - v| ≤ |G - v|) (hv : v ≤ G) : r ≤ G := by
  rw [abs_of_nonneg (sub_nonneg.2 hv)] at h
  linarith [le_abs_self (r - v)]
theorem ge_of_near {r v G : ℝ} (h : |r - v| ≤ |G - v|) (hv : G ≤ v) : G ≤ r := by
  rw [abs_of_nonpos (sub_nonpos.2 hv)] at h
  linarith [neg_abs_le (r - v)]
theorem eq_of_near {r v : ℝ} (h : |r - v| ≤ |v - v|) : r = v := by
  rw [sub_self, abs_zero] at h
  exact sub_eq_zero.1 (abs_eq_zero.1 (le_antisymm h (abs_nonneg _)))

theorem grid_num (m : ℤ) (j : ℕ) : (m : ℝ) * (2 ^ j * η) = m * 2 ^ j / 2 ^ 52 := by unfold η; ring

/-- One step on the real axis: what it does to the first coordinate, and that the second stays 0. -/
theorem real_step {cx cy x y : F64} (fcx : Fin' cx) (fcy : Fin' cy) (fx : Fin' x) (fy : Fin' y) (hcx : |rv cx| ≤ 2) (hcy : rv cy = 0)
    (hx : |rv x| ≤ 2) (hy : rv y = 0) :
    (Fin' (x * x) ∧ Fin' (cx + (x * x - y * y)) ∧ Fin' (cy + (x * y + x * y))) ∧
    rv (x * x - y * y) = rv (x * x) ∧ Fin' (x * x - y * y) ∧ rv (cy + (x * y + x * y)) = 0 := by
  have h4 : rv x * rv x + rv y * rv y ≤ 4 := by rw [hy]; nlinarith [abs_le.1 hx, abs_mul_abs_self (rv x)]
  have hc4 : rv cx * rv cx + rv cy * rv cy ≤ 4 := by rw [hcy]; nlinarith [abs_le.1 hcx, abs_mul_abs_self (rv cx)]
  obtain ⟨⟨f1, f2⟩, -, -⟩ := one_step fcx fcy fx fy hc4 h4
  have fd := (fin_add f1).2
  have fs := (fin_add f2).2
  have fxx := (fin_sub fd).1
  have fyy := (fin_sub fd).2
  have fxy := (fin_add fs).1
  have z0 : ∀ {r : ℝ}, |r - 0| ≤ |((0 : ℤ) : ℝ) * (2 ^ 0 * η) - 0| → r = 0 := by
    intro r h
    rw [Int.cast_zero, zero_mul] at h
    exact eq_of_near h
  have exy : rv (x * y) = 0 := by
    have h := mul_near fxy 0 (by norm_num) (j := 0) (by norm_num)
    rw [hy, mul_zero] at h
    exact z0 h
  have eyy : rv (y * y) = 0 := by
    have h := mul_near fyy 0 (by norm_num) (j := 0) (by norm_num)
    rw [hy, mul_zero] at h
    exact z0 h
  have es : rv (x * y + x * y) = 0 := by
    have h := add_near fs 0 (by norm_num) (j := 0) (by norm_num)
    rw [exy, add_zero] at h
    exact z0 h
  refine ⟨⟨fxx, f1, f2⟩, ?_, fd, ?_⟩
  · have h := sub_nearf fd fxx (G := rv (x * x)) rfl
    rw [eyy, sub_zero] at h
    exact eq_of_near h
  · have h := add_near f2 0 (by norm_num) (j := 0) (by norm_num)
    rw [es, hcy, add_zero] at h
    exact z0 h

/-- The computed orbit of a point of the real axis between -2 and 1/4. -/
theorem real_orbit {cx cy : F64} (fcx : Fin' cx) (fcy : Fin' cy) (hcy : rv cy = 0) (h1 : -2 ≤ rv cx) (h2 : rv cx ≤ 1 / 4) (j : ℕ) :
    (Fin' (orbit (cx, cy) j).1 ∧ Fin' (orbit (cx, cy) j).2) ∧ rv (orbit (cx, cy) j).2 = 0 ∧
      ((rv cx ≤ 0 ∧ |rv (orbit (cx, cy) j).1| ≤ -rv cx) ∨ (0 ≤ rv cx ∧ |rv (orbit (cx, cy) j).1| ≤ 1 / 2)) := by
  induction j with
  | zero =>
    refine ⟨⟨fcx, fcy⟩, hcy, ?_⟩
    change (_ ∧ |rv cx| ≤ _) ∨ (_ ∧ |rv cx| ≤ _)
    rcases le_total (rv cx) 0 with h | h
    · exact .inl ⟨h, by rw [abs_of_nonpos h]⟩
    · exact .inr ⟨h, by rw [abs_of_nonneg h]; linarith⟩
  | succ j ih =>
    obtain ⟨⟨fx, fy⟩, hy, hx⟩ := ih
    show (Fin' (cx + ((orbit (cx, cy) j).1 * (orbit (cx, cy) j).1 - (orbit (cx, cy) j).2 * (orbit (cx, cy) j).2)) ∧
      Fin' (cy + ((orbit (cx, cy) j).1 * (orbit (cx, cy) j).2 + (orbit (cx, cy) j).1 * (orbit (cx, cy) j).2))) ∧
      rv (cy + ((orbit (cx, cy) j).1 * (orbit (cx, cy) j).2 + (orbit (cx, cy) j).1 * (orbit (cx, cy) j).2)) = 0 ∧
      ((rv cx ≤ 0 ∧ |rv (cx + ((orbit (cx, cy) j).1 * (orbit (cx, cy) j).1 - (orbit (cx, cy) j).2 * (orbit (cx, cy) j).2))| ≤ -rv cx) ∨
       (0 ≤ rv cx ∧ |rv (cx + ((orbit (cx, cy) j).1 * (orbit (cx, cy) j).1 - (orbit (cx, cy) j).2 * (orbit (cx, cy) j).2))| ≤ 1 / 2))
    generalize (orbit (cx, cy) j).1 = x at *
    generalize (orbit (cx, cy) j).2 = y at *
    have hx2 : |rv x| ≤ 2 := by rcases hx with ⟨_, h⟩ | ⟨_, h⟩ <;> linarith
    have hc2 : |rv cx| ≤ 2 := abs_le.2 ⟨h1, by linarith⟩
    obtain ⟨⟨fxx, f1, f2⟩, ed, fd, es⟩ := real_step fcx fcy fx fy hc2 hcy hx2 hy
    refine ⟨⟨f1, f2⟩, es, ?_⟩
    have hsq := abs_mul_abs_self (rv x)
    have hq0 := F64R.sq_nonneg fxx
    rcases hx with ⟨hc, hx⟩ | ⟨hc, hx⟩
    · refine .inl ⟨hc, ?_⟩
      have hxx : rv x * rv x ≤ rv cx * rv cx := by nlinarith [abs_nonneg (rv x)]
      have hq : rv (x * x) ≤ 2 * -rv cx := by
        by_cases ha : 1 ≤ -rv cx
        · obtain ⟨m, hm⟩ := onGrid fcx (j := 0) (by norm_num) (by rw [abs_of_nonpos hc, pow_zero]; exact ha)
          have hml : (-m).natAbs ≤ 2 ^ 53 := by
            have hp : (0 : ℝ) < η := η_pos
            have h3 : (-(m : ℝ)) * η ≤ 2 ^ 53 * η := by
              have : (2 : ℝ) ^ 53 * η = 2 := by unfold η; norm_num
              rw [this, neg_mul, ← one_mul η, ← pow_zero (2 : ℝ), ← hm]; linarith
            have h4 : (-(m : ℝ)) ≤ 2 ^ 53 := le_of_mul_le_mul_right h3 hp
            have h5 : (0 : ℝ) ≤ -(m : ℝ) * η := by rw [neg_mul, ← one_mul η, ← pow_zero (2 : ℝ), ← hm]; linarith
            have h6 : (0 : ℝ) ≤ -(m : ℝ) := by
              by_contra hneg
              have := mul_neg_of_neg_of_pos (not_le.1 hneg) hp
              linarith
            have h7 : (-m : ℤ) ≤ 2 ^ 53 := by exact_mod_cast h4
            have h8 : (0 : ℤ) ≤ -m := by exact_mod_cast h6
            omega
          have hn := mul_near fxx (-m) hml (j := 1) (by norm_num)
          have he : (((-m : ℤ)) : ℝ) * (2 ^ 1 * η) = 2 * -rv cx := by rw [hm]; push_cast; ring
          rw [he] at hn
          exact le_of_near hn (by nlinarith)
        · have hn := mul_nearf fxx fcx (G := -rv cx) (abs_neg _)
          have := le_of_near hn (by nlinarith)
          linarith
      rw [abs_le]
      constructor
      · have hn := add_nearf f1 fcx (G := rv cx) rfl
        rw [neg_neg]
        exact ge_of_near hn (by rw [ed]; linarith)
      · have hn := add_nearf f1 fcx (G := -rv cx) (abs_neg _)
        exact le_of_near hn (by rw [ed]; linarith)
    · refine .inr ⟨hc, ?_⟩
      have hq : rv (x * x) ≤ 1 / 4 := by
        have hn := mul_near fxx (2 ^ 50) (by norm_num) (j := 0) (by norm_num)
        have he : (((2 ^ 50 : ℤ)) : ℝ) * (2 ^ 0 * η) = 1 / 4 := by unfold η; norm_num
        rw [he] at hn
        exact le_of_near hn (by nlinarith [abs_nonneg (rv x)])
      rw [abs_le]
      constructor
      · have hn := add_near f1 0 (by norm_num) (j := 0) (by norm_num)
        rw [Int.cast_zero, zero_mul] at hn
        have := ge_of_near hn (by rw [ed]; linarith)
        linarith
      · have hn := add_near f1 (2 ^ 51) (by norm_num) (j := 0) (by norm_num)
        have he : (((2 ^ 51 : ℤ)) : ℝ) * (2 ^ 0 * η) = 1 / 2 := by unfold η; norm_num
        rw [he] at hn
        exact le_of_near hn (by rw [ed]; linarith)

/-- No step of such an orbit is found to have escaped. -/
theorem real_bounded {cx cy : F64} (fcx : Fin' cx) (fcy : Fin' cy) (hcy : rv cy = 0) (h1 : -2 ≤ rv cx) (h2 : rv cx ≤ 1 / 4) (j : ℕ) :
    F64.gt (orbitNorm (cx, cy) j) (F64.ofInt 4) = false := by
  obtain ⟨⟨fx, fy⟩, hy, hx⟩ := real_orbit fcx fcy hcy h1 h2 j
  unfold orbitNorm
  generalize (orbit (cx, cy) j).1 = x at *
  generalize (orbit (cx, cy) j).2 = y at *
  have hx2 : |rv x| ≤ 2 := by rcases hx with ⟨_, h⟩ | ⟨_, h⟩ <;> linarith
  obtain ⟨hg, hf⟩ := gt_eq_not_le fx fy (by linarith) (by rw [hy, abs_zero]; norm_num)
  rw [hg, Bool.not_eq_false', bounded_iff]
  refine ⟨hf, ?_⟩
  have he : (((2 ^ 52 : ℤ)) : ℝ) * (2 ^ 2 * η) = 4 := by unfold η; norm_num
  have h3 := mul_near (fin_add hf).1 (2 ^ 52) (by norm_num) (j := 2) (by norm_num)
  rw [he] at h3
  have hxx := le_of_near h3 (by nlinarith [abs_nonneg (rv x), abs_mul_abs_self (rv x)])
  have h4 := mul_near (fin_add hf).2 0 (by norm_num) (j := 0) (by norm_num)
  rw [hy, mul_zero, Int.cast_zero, zero_mul] at h4
  have hyy := eq_of_near h4
  have h5 := add_near hf (2 ^ 52) (by norm_num) (j := 2) (by norm_num)
  rw [he, hyy, add_zero] at h5
  exact le_of_near h5 hxx

/-- The real points of the set. -/
theorem real_mem {x : ℝ} (h : (⟨x, 0⟩ : ℂ) ∈ MandelbrotSet) : -2 ≤ x ∧ x ≤ 1 / 4 := by
  rw [mem_iff_norm] at h
  have h0 : x * x + 0 * 0 ≤ 4 := h 0
  refine ⟨by nlinarith, ?_⟩
  by_contra hc
  rw [not_le] at hc
  have key : ∀ n, (orbit (x, (0 : ℝ)) n).2 = 0 ∧ x + n * (x - 1 / 4) ≤ (orbit (x, (0 : ℝ)) n).1 := by
    intro n
    induction n with
    | zero => exact ⟨rfl, by rw [Nat.cast_zero, zero_mul, add_zero]; exact le_rfl⟩
    | succ n ih =>
      obtain ⟨h1, h2⟩ := ih
      constructor
      · show 0 + ((orbit (x, (0 : ℝ)) n).1 * (orbit (x, (0 : ℝ)) n).2 + (orbit (x, (0 : ℝ)) n).1 * (orbit (x, (0 : ℝ)) n).2) = 0
        rw [h1]; ring
      · show _ ≤ x + ((orbit (x, (0 : ℝ)) n).1 * (orbit (x, (0 : ℝ)) n).1 - (orbit (x, (0 : ℝ)) n).2 * (orbit (x, (0 : ℝ)) n).2)
        rw [h1]
        push_cast
        nlinarith [sq_nonneg ((orbit (x, (0 : ℝ)) n).1 - 1 / 2)]
  obtain ⟨n, hn⟩ := exists_nat_gt (2 / (x - 1 / 4))
  have hp : 0 < x - 1 / 4 := by linarith
  rw [div_lt_iff₀ hp] at hn
  obtain ⟨k1, k2⟩ := key n
  have := h n
  unfold orbitNorm at this
  nlinarith

end PackedSimd.Ex.Mandel
