import Verif.Lemmas.MandelSet
/-
The orbits computed in `f64` next to the true ones.
-/
namespace PackedSimd.Ex.Mandel
open Spec F64R

/-- The point with the given coordinates. -/
noncomputable def pt (p : F64 × F64) : ℂ := ⟨rv p.1, rv p.2⟩

theorem pt_norm (p : F64 × F64) : ‖pt p‖ ^ 2 = rv p.1 * rv p.1 + rv p.2 * rv p.2 := by
  rw [Complex.sq_norm, Complex.normSq_apply]; rfl

theorem abs_le_two {a b : ℝ} (h : a * a + b * b ≤ 4) : |a| ≤ 2 ∧ |b| ≤ 2 ∧ |a * b| ≤ 2 ∧ |a * a - b * b| ≤ 4 := by
  refine ⟨abs_le_of_sq_le_sq (by nlinarith [mul_self_nonneg b]) (by norm_num), abs_le_of_sq_le_sq (by nlinarith [mul_self_nonneg a]) (by norm_num), ?_, ?_⟩
  · rw [abs_le]; constructor <;> nlinarith [mul_self_nonneg (a - b), mul_self_nonneg (a + b)]
  · rw [abs_le]; constructor <;> nlinarith [mul_self_nonneg a, mul_self_nonneg b]

theorem last_add {c d : F64} (fc : Fin' c) (fd : Fin' d) (hc : |rv c| ≤ 2) (hd : |rv d| ≤ 4.05) :
    Fin' (c + d) ∧ |rv (c + d) - (rv c + rv d)| ≤ 3.05 * η := by
  have hη := η_pos
  have hn : |rv c + rv d| ≤ 6.1 := (abs_add_le _ _).trans (by linarith)
  have fn : Fin' (c + d) := add_fin fc fd (lt_of_le_of_lt hn (by norm_num))
  exact ⟨fn, (add_u fn).trans (by nlinarith)⟩

theorem re_part {x y : F64} (fx : Fin' x) (fy : Fin' y) (h : rv x * rv x + rv y * rv y ≤ 4) :
    Fin' (x * x - y * y) ∧ |rv (x * x - y * y) - (rv x * rv x - rv y * rv y)| ≤ 4.1 * η := by
  have hη := η_pos
  have hη' := η_le
  have hη3 : η * η * η ≤ η / 1000 := by nlinarith [mul_pos hη hη]
  obtain ⟨-, -, -, d4⟩ := abs_le_two h
  have hxx := mul_self_nonneg (rv x)
  have hyy := mul_self_nonneg (rv y)
  have big : (100 : ℝ) < 10 ^ 30 := by norm_num
  have fxx : Fin' (x * x) := mul_fin fx fx (by rw [abs_of_nonneg hxx]; linarith)
  have fyy : Fin' (y * y) := mul_fin fy fy (by rw [abs_of_nonneg hyy]; linarith)
  have exx := mul_u fxx
  have eyy := mul_u fyy
  rw [abs_of_nonneg hxx] at exx
  rw [abs_of_nonneg hyy] at eyy
  obtain ⟨exx1, exx2⟩ := abs_le.1 exx
  obtain ⟨eyy1, eyy2⟩ := abs_le.1 eyy
  obtain ⟨d4a, d4b⟩ := abs_le.1 d4
  have kxx : η / 2 * (rv x * rv x) + η / 2 * (rv y * rv y) ≤ 2 * η := by
    rw [← mul_add]; have := mul_le_mul_of_nonneg_left h (show 0 ≤ η / 2 by linarith); linarith
  have hd : |rv (x * x) - rv (y * y)| ≤ 4.01 := by rw [abs_le]; constructor <;> linarith
  have fd : Fin' (x * x - y * y) := sub_fin fxx fyy (by linarith)
  have hde : η / 2 * |rv (x * x) - rv (y * y)| ≤ 2.01 * η := by
    have := mul_le_mul_of_nonneg_left hd (show 0 ≤ η / 2 by linarith); linarith
  obtain ⟨ed1, ed2⟩ := abs_le.1 ((sub_u fd).trans hde)
  refine ⟨fd, ?_⟩
  rw [abs_le]; constructor <;> linarith

theorem im_part {x y : F64} (fx : Fin' x) (fy : Fin' y) (h : rv x * rv x + rv y * rv y ≤ 4) :
    Fin' (x * y + x * y) ∧ |rv (x * y + x * y) - 2 * (rv x * rv y)| ≤ 4.1 * η := by
  have hη := η_pos
  have hη' := η_le
  have hη3 : η * η * η ≤ η / 1000 := by nlinarith [mul_pos hη hη]
  obtain ⟨-, -, xy2, -⟩ := abs_le_two h
  have big : (100 : ℝ) < 10 ^ 30 := by norm_num
  have fxy : Fin' (x * y) := mul_fin fx fy (by linarith)
  have hxye : η / 2 * |rv x * rv y| ≤ η := by
    have := mul_le_mul_of_nonneg_left xy2 (show 0 ≤ η / 2 by linarith); linarith
  obtain ⟨exy1, exy2⟩ := abs_le.1 (mul_u fxy)
  obtain ⟨xya, xyb⟩ := abs_le.1 xy2
  have hs : |rv (x * y) + rv (x * y)| ≤ 4.01 := by rw [abs_le]; constructor <;> linarith
  have fs : Fin' (x * y + x * y) := add_fin fxy fxy (by linarith)
  have hse : η / 2 * |rv (x * y) + rv (x * y)| ≤ 2.01 * η := by
    have := mul_le_mul_of_nonneg_left hs (show 0 ≤ η / 2 by linarith); linarith
  obtain ⟨es1, es2⟩ := abs_le.1 ((add_u fs).trans hse)
  refine ⟨fs, ?_⟩
  rw [abs_le]; constructor <;> linarith

/-- The rounding errors of one step inside the circle of radius 2. -/
theorem one_step {cx cy x y : F64} (fcx : Fin' cx) (fcy : Fin' cy) (fx : Fin' x) (fy : Fin' y)
    (hc : rv cx * rv cx + rv cy * rv cy ≤ 4) (h : rv x * rv x + rv y * rv y ≤ 4) :
    (Fin' (cx + (x * x - y * y)) ∧ Fin' (cy + (x * y + x * y))) ∧
    |rv (cx + (x * x - y * y)) - (rv cx + (rv x * rv x - rv y * rv y))| ≤ 8 * η ∧
    |rv (cy + (x * y + x * y)) - (rv cy + 2 * (rv x * rv y))| ≤ 8 * η := by
  have hη := η_pos
  have hη' := η_le
  obtain ⟨cx2, cy2, -, -⟩ := abs_le_two hc
  obtain ⟨-, -, xy2, d4⟩ := abs_le_two h
  obtain ⟨fd, ed⟩ := re_part fx fy h
  obtain ⟨fs, es⟩ := im_part fx fy h
  obtain ⟨d4a, d4b⟩ := abs_le.1 d4
  obtain ⟨xya, xyb⟩ := abs_le.1 xy2
  obtain ⟨ed1, ed2⟩ := abs_le.1 ed
  obtain ⟨es1, es2⟩ := abs_le.1 es
  obtain ⟨fn, en⟩ := last_add fcx fd cx2 (by rw [abs_le]; constructor <;> linarith)
  obtain ⟨fm, em⟩ := last_add fcy fs cy2 (by rw [abs_le]; constructor <;> linarith)
  obtain ⟨en1, en2⟩ := abs_le.1 en
  obtain ⟨em1, em2⟩ := abs_le.1 em
  refine ⟨⟨fn, fm⟩, ?_, ?_⟩
  · rw [abs_le]; constructor <;> linarith
  · rw [abs_le]; constructor <;> linarith

theorem drift_nonneg (c : ℂ) (n : ℕ) : 0 ≤ drift c n := by
  induction n with
  | zero => exact le_rfl
  | succ n ih => unfold drift; have := norm_nonneg (trueOrbit c n); positivity

/-- The computed orbit stays within `drift` of the true one, as long as that is safely inside the circle of radius 2. -/
theorem orbit_drift {cx cy : F64} (fx : Fin' cx) (fy : Fin' cy) (k : ℕ) (h : ∀ j, j < k → ‖trueOrbit (pt (cx, cy)) j‖ + drift (pt (cx, cy)) j ≤ 2) :
    (Fin' (orbit (cx, cy) k).1 ∧ Fin' (orbit (cx, cy) k).2) ∧ ‖pt (orbit (cx, cy) k) - trueOrbit (pt (cx, cy)) k‖ ≤ drift (pt (cx, cy)) k := by
  induction k with
  | zero => refine ⟨⟨fx, fy⟩, ?_⟩; rw [trueOrbit_zero]; show ‖pt (cx, cy) - pt (cx, cy)‖ ≤ 0; rw [sub_self, norm_zero]
  | succ k ih =>
    obtain ⟨⟨f1, f2⟩, hd⟩ := ih (fun j hj => h j (by omega))
    obtain ⟨z, hz⟩ : ∃ z, z = orbit (cx, cy) k := ⟨_, rfl⟩
    obtain ⟨w, hw⟩ : ∃ w, w = trueOrbit (pt (cx, cy)) k := ⟨_, rfl⟩
    have hk := h k (by omega)
    have h0 := h 0 (by omega)
    rw [trueOrbit_zero] at h0
    have hdn := drift_nonneg (pt (cx, cy)) k
    have e1 : orbit (cx, cy) (k + 1) = (cx + (z.1 * z.1 - z.2 * z.2), cy + (z.1 * z.2 + z.1 * z.2)) := by rw [hz]; rfl
    rw [e1, trueOrbit_succ]
    show _ ∧ _ ≤ 2 * ‖trueOrbit (pt (cx, cy)) k‖ * drift (pt (cx, cy)) k + drift (pt (cx, cy)) k ^ 2 + 1 / 2 ^ 48
    rw [← hz] at f1 f2 hd
    rw [← hw] at hd hk ⊢
    have hzn : ‖pt z‖ ≤ 2 := by
      have := norm_add_le (pt z - w) w
      rw [sub_add_cancel] at this
      linarith
    have hc4 : rv cx * rv cx + rv cy * rv cy ≤ 4 := by
      have := pt_norm (cx, cy)
      change _ = rv cx * rv cx + rv cy * rv cy at this
      have hn := norm_nonneg (pt (cx, cy))
      have h0' : ‖pt (cx, cy)‖ ≤ 2 := by linarith [show drift (pt (cx, cy)) 0 = 0 from rfl]
      nlinarith
    have hz4 : rv z.1 * rv z.1 + rv z.2 * rv z.2 ≤ 4 := by
      rw [← pt_norm]; nlinarith [norm_nonneg (pt z)]
    obtain ⟨hf, er, ei⟩ := one_step fx fy f1 f2 hc4 hz4
    refine ⟨hf, ?_⟩
    have hsplit : pt (cx + (z.1 * z.1 - z.2 * z.2), cy + (z.1 * z.2 + z.1 * z.2)) - (w ^ 2 + pt (cx, cy)) =
        (pt (cx + (z.1 * z.1 - z.2 * z.2), cy + (z.1 * z.2 + z.1 * z.2)) - (pt z ^ 2 + pt (cx, cy))) + (pt z - w) * (pt z - w + 2 * w) := by ring
    rw [hsplit]
    have hA : ‖pt (cx + (z.1 * z.1 - z.2 * z.2), cy + (z.1 * z.2 + z.1 * z.2)) - (pt z ^ 2 + pt (cx, cy))‖ ≤ 1 / 2 ^ 48 := by
      refine (Complex.norm_le_abs_re_add_abs_im _).trans ?_
      have hre : (pt (cx + (z.1 * z.1 - z.2 * z.2), cy + (z.1 * z.2 + z.1 * z.2)) - (pt z ^ 2 + pt (cx, cy))).re =
          rv (cx + (z.1 * z.1 - z.2 * z.2)) - (rv cx + (rv z.1 * rv z.1 - rv z.2 * rv z.2)) := by
        rw [sq, Complex.sub_re, Complex.add_re, Complex.mul_re]; unfold pt; dsimp only; ring
      have him : (pt (cx + (z.1 * z.1 - z.2 * z.2), cy + (z.1 * z.2 + z.1 * z.2)) - (pt z ^ 2 + pt (cx, cy))).im =
          rv (cy + (z.1 * z.2 + z.1 * z.2)) - (rv cy + 2 * (rv z.1 * rv z.2)) := by
        rw [sq, Complex.sub_im, Complex.add_im, Complex.mul_im]; unfold pt; dsimp only; ring
      rw [hre, him]
      refine (add_le_add er ei).trans (le_of_eq ?_)
      unfold η; norm_num
    have hB : ‖(pt z - w) * (pt z - w + 2 * w)‖ ≤ drift (pt (cx, cy)) k * (drift (pt (cx, cy)) k + 2 * ‖w‖) := by
      rw [norm_mul]
      refine mul_le_mul hd ?_ (norm_nonneg _) hdn
      refine (norm_add_le _ _).trans ?_
      rw [norm_mul, Complex.norm_two]
      linarith
    refine (norm_add_le _ _).trans ((add_le_add hA hB).trans (le_of_eq ?_))
    ring

/-- The rounded sum of squares. -/
theorem sumsq_u {a b : F64} (h : Fin' (a * a + b * b)) :
    |rv (a * a + b * b) - (rv a * rv a + rv b * rv b)| ≤ 2 * η * (rv a * rv a + rv b * rv b) + η := by
  have h1 := add_u h
  have ha := mul_u (fin_add h).1
  have hb := mul_u (fin_add h).2
  have na := mul_self_nonneg (rv a)
  have nb := mul_self_nonneg (rv b)
  rw [abs_of_nonneg na] at ha
  rw [abs_of_nonneg nb] at hb
  rw [abs_of_nonneg (add_nonneg (F64R.sq_nonneg (fin_add h).1) (F64R.sq_nonneg (fin_add h).2))] at h1
  have hη := η_pos
  have hη' := η_le
  have hη3 : η * η * η ≤ η / 1000 := by nlinarith [mul_pos hη hη]
  obtain ⟨a1, a2⟩ := abs_le.1 ha
  obtain ⟨b1, b2⟩ := abs_le.1 hb
  obtain ⟨c1, c2⟩ := abs_le.1 h1
  obtain ⟨S, hS⟩ : ∃ S, S = rv a * rv a + rv b * rv b := ⟨_, rfl⟩
  have nS : 0 ≤ S := by rw [hS]; linarith
  have k1 : rv (a * a) + rv (b * b) ≤ S + η / 2 * S + 2 * (η * η * η) := by rw [hS]; linarith
  have k2 : S - η / 2 * S - 2 * (η * η * η) ≤ rv (a * a) + rv (b * b) := by rw [hS]; linarith
  have k3 : η / 2 * (rv (a * a) + rv (b * b)) ≤ η / 2 * (S + η / 2 * S + 2 * (η * η * η)) := mul_le_mul_of_nonneg_left k1 (by linarith)
  have k4 : η / 2 * (S + η / 2 * S + 2 * (η * η * η)) ≤ η * S + η / 1000 := by nlinarith [mul_nonneg hη.le nS]
  have k5 := mul_nonneg hη.le nS
  rw [← hS, abs_le]
  constructor <;> linarith

theorem inside_false {x y : F64} (fx : Fin' x) (fy : Fin' y) (h : ‖pt (x, y)‖ ≤ 2 - 1 / 2 ^ 48) :
    F64.gt (x * x + y * y) (F64.ofInt 4) = false := by
  have hS := pt_norm (x, y)
  change _ = rv x * rv x + rv y * rv y at hS
  have hn := norm_nonneg (pt (x, y))
  have e48 : (1 : ℝ) / 2 ^ 48 = 16 * η := by unfold η; norm_num
  rw [e48] at h
  have hη := η_pos
  have hη' := η_le
  have hle : rv x * rv x + rv y * rv y ≤ 4 - 48 * η := by rw [← hS]; nlinarith
  obtain ⟨x2, y2, -, -⟩ := abs_le_two (a := rv x) (b := rv y) (by linarith)
  obtain ⟨hg, hf⟩ := gt_eq_not_le fx fy (by linarith) (by linarith)
  rw [hg, Bool.not_eq_false', bounded_iff]
  refine ⟨hf, ?_⟩
  have := (abs_le.1 (sumsq_u hf)).2
  nlinarith

theorem outside_true {x y : F64} (fx : Fin' x) (fy : Fin' y) (h : 2 + 1 / 2 ^ 48 ≤ ‖pt (x, y)‖) :
    F64.gt (x * x + y * y) (F64.ofInt 4) = true := by
  have hS := pt_norm (x, y)
  change _ = rv x * rv x + rv y * rv y at hS
  have e48 : (1 : ℝ) / 2 ^ 48 = 16 * η := by unfold η; norm_num
  rw [e48] at h
  have hη := η_pos
  have hη' := η_le
  have hge : 4 + 64 * η ≤ rv x * rv x + rv y * rv y := by rw [← hS]; nlinarith
  have nn : ∀ {a : F64}, Fin' a → valueOf 52 a.bits ≠ .nan := by rintro a ⟨z, hz⟩; rw [hz]; exact fun h => by cases h
  rw [gt_eq_not_le' (sumsq_not_nan (nn fx) (nn fy)), Bool.not_eq_true', ← Bool.not_eq_true, bounded_iff]
  rintro ⟨hf, h4⟩
  have := (abs_le.1 (sumsq_u hf)).1
  nlinarith

theorem EscapeCount.unique {p : ℕ → Prop} {limit a b : ℕ} (ha : EscapeCount p limit a) (hb : EscapeCount p limit b) : a = b := by
  obtain ⟨a1, a2, a3⟩ := ha
  obtain ⟨b1, b2, b3⟩ := hb
  rcases Nat.lt_trichotomy a b with h | h | h
  · exact absurd (a3 (by omega)) (b2 a h)
  · exact h
  · exact absurd (b3 (by omega)) (a2 b h)

end PackedSimd.Ex.Mandel
