import Verif.Lemmas.AoFloatDir
import Verif.Lemmas.LatticeFloat
import Verif.Spec.AoHit
/-
Helper lemmas for C136: intersections in `f32`.
-/
namespace PackedSimd.F32R
open Spec Ex Ex.Ao Spec.Ao

theorem ge_iff {a b : F32} (ha : Fin' a) (hb : Fin' b) : Flt.oge 23 a.bits b.bits = true ↔ rv b ≤ rv a := by
  obtain ⟨-, c2, c3⟩ := cmp_real (man := 23) ha hb
  rw [oge_iff fmt, Bool.or_eq_true, beq_iff_eq, beq_iff_eq, c2, c3, le_iff_lt_or_eq]
  exact or_congr Iff.rfl eq_comm

theorem absInner_eq (a b : V3 ℝ) : absInner a b = weight a b := rfl

theorem weight_nonneg (a b : V3 ℝ) : 0 ≤ weight a b := by unfold weight; positivity

theorem inner_le_weight (a b : V3 ℝ) : |inner a b| ≤ weight a b :=
  (abs_add_le _ _).trans (add_le_add (abs_add_le _ _) le_rfl)

theorem weight_le {a b : V3 F32} (ha : Moderate a) (hb : Moderate b) : weight (toReal a) (toReal b) ≤ 2 ^ 62 := by
  have h : ∀ x y : ℝ, |x| ≤ 2 ^ 30 → |y| ≤ 2 ^ 30 → |x * y| ≤ 2 ^ 60 := fun x y hx hy => by
    rw [abs_mul]
    exact (mul_le_mul hx hy (abs_nonneg _) (by norm_num)).trans (by norm_num)
  obtain ⟨-, a1, a2, a3⟩ := ha
  obtain ⟨-, b1, b2, b3⟩ := hb
  have h1 := h _ _ a1 b1
  have h2 := h _ _ a2 b2
  have h3 := h _ _ a3 b3
  unfold weight
  norm_num at h1 h2 h3 ⊢
  linarith

/-- The errors of the parameter of a plane, put together. -/
theorem plane_alg {a b vf s t io ip v A P D : ℝ} (hA : |io| ≤ A) (hP : |ip| ≤ P) (hD : 0 ≤ D) (h1 : |a - io| ≤ 3.001 * (ν * A) + 7 * η)
    (h2 : |b - ip| ≤ 3.001 * (ν * P) + 7 * η) (h3 : |vf - v| ≤ 3.001 * (ν * D) + 7 * η) (h4 : |s - (a - b)| ≤ ν * |a - b|)
    (h5 : |t - -s / vf| ≤ ν * |-s / vf| + η) (h0 : vf ≠ 0) (hv : |vf| ≤ 2 ^ 63) :
    |io + t * v - ip| ≤ 5.01 * (ν * (A + P)) + 3.01 * (ν * (|t| * D)) + (1 + |t|) / 2 ^ 80 := by
  have hν := ν_pos
  have hνl := ν_le
  have hη := η_pos
  have A0 : 0 ≤ A := (abs_nonneg _).trans hA
  have P0 : 0 ≤ P := (abs_nonneg _).trans hP
  set X := ν * (A + P) with hX
  have X0 : 0 ≤ X := mul_nonneg hν.le (by linarith)
  have eX : ν * A + ν * P = X := by rw [hX]; ring
  have m1 : |a - b| ≤ A + P + 3.001 * X + 14 * η := by
    rw [show a - b = (a - io) + -(b - ip) + (io + -ip) by ring]
    have e1 := abs_add_le ((a - io) + -(b - ip)) (io + -ip)
    have e2 := abs_add_le (a - io) (-(b - ip))
    have e3 := abs_add_le io (-ip)
    rw [abs_neg] at e2 e3
    linarith
  have small : ∀ y : ℝ, 0 ≤ y → ν * y ≤ 0.00001 * y := fun y hy => mul_le_mul_of_nonneg_right (hνl.trans (by norm_num)) hy
  have m2 : ν * |a - b| ≤ 1.0001 * X + η := by
    have e1 := mul_le_mul_of_nonneg_left m1 hν.le
    have e2 : ν * (A + P + 3.001 * X + 14 * η) = X + 3.001 * (ν * X) + 14 * (ν * η) := by rw [hX]; ring
    have := small X X0
    have := small η hη.le
    linarith
  have m3 : ν * |s| ≤ 1.001 * (1.0001 * X + η) := by
    have e1 : |s| ≤ |a - b| + ν * |a - b| := by
      rw [show s = (s - (a - b)) + (a - b) by ring]
      have := abs_add_le (s - (a - b)) (a - b)
      linarith
    have e2 := mul_le_mul_of_nonneg_left e1 hν.le
    have e3 := small (ν * |a - b|) (mul_nonneg hν.le (abs_nonneg _))
    have e4 : ν * (|a - b| + ν * |a - b|) = ν * |a - b| + ν * (ν * |a - b|) := by ring
    linarith
  have m4 : |t * vf + s| ≤ ν * |s| + η * |vf| := by
    have e1 : t * vf + s = (t - -s / vf) * vf := by field_simp; ring
    rw [e1, abs_mul]
    refine (mul_le_mul_of_nonneg_right h5 (abs_nonneg _)).trans (le_of_eq ?_)
    rw [abs_div, abs_neg]
    have := abs_pos.2 h0
    field_simp
  have m5 : η * |vf| ≤ η * 2 ^ 63 := mul_le_mul_of_nonneg_left hv hη.le
  have m6 : |t * (vf - v)| ≤ 3.001 * (ν * (|t| * D)) + 7 * (η * |t|) := by
    rw [abs_mul]
    refine (mul_le_mul_of_nonneg_left h3 (abs_nonneg _)).trans (le_of_eq ?_)
    ring
  have m7 : η * 2 ^ 63 + 18 * η + 7 * (η * |t|) ≤ (1 + |t|) / 2 ^ 80 := by
    have e1 : η * 2 ^ 63 + 18 * η ≤ 1 / 2 ^ 80 := by unfold η; norm_num
    have e2 : 7 * η * |t| ≤ 1 / 2 ^ 80 * |t| := mul_le_mul_of_nonneg_right (by unfold η; norm_num) (abs_nonneg _)
    have e3 : (1 + |t|) / 2 ^ 80 = 1 / 2 ^ 80 + 1 / 2 ^ 80 * |t| := by ring
    rw [e3]
    linarith only [e1, e2]
  have m8 : 0 ≤ ν * (|t| * D) := by positivity
  rw [show io + t * v - ip = -(a - io) + (b - ip) + -(s - (a - b)) + (t * vf + s) + -(t * (vf - v)) by ring]
  have t1 := abs_add_le (-(a - io) + (b - ip) + -(s - (a - b)) + (t * vf + s)) (-(t * (vf - v)))
  have t2 := abs_add_le (-(a - io) + (b - ip) + -(s - (a - b))) (t * vf + s)
  have t3 := abs_add_le (-(a - io) + (b - ip)) (-(s - (a - b)))
  have t4 := abs_add_le (-(a - io)) (b - ip)
  rw [abs_neg] at t1 t3 t4
  have t5 : |(-(a - io) + (b - ip) + -(s - (a - b)) + (t * vf + s) + -(t * (vf - v)))| ≤
      5.01 * X + 3.01 * (ν * (|t| * D)) + (η * 2 ^ 63 + 18 * η + 7 * (η * |t|)) := by
    generalize η * 2 ^ 63 = q at *
    linarith only [t1, t2, t3, t4, h1, h2, h4, m2, m3, m4, m5, m6, m8, eX, X0, hη]
  exact t5.trans (add_le_add le_rfl m7)

/-- The parameter at which a ray meets a plane, for either dot product and any exact negation. -/
theorem plane_t {dot : V3 F32 → V3 F32 → F32} (hd : DotOk dot) {o d p n : V3 F32} (ho : Moderate o) (hdir : Moderate d) (hp : Moderate p) (hn : Moderate n)
    {s' : F32} (hs : ∀ x, x = dot o n + -V3.dot p n → Fin' x → |rv x| ≤ 2 ^ 66 → Fin' s' ∧ rv s' = -rv x) :
    Fin' (dot d n) ∧ |rv (dot d n) - inner (toReal d) (toReal n)| ≤ 3.001 * (ν * weight (toReal d) (toReal n)) + 7 * η ∧
    (1 / 2 ^ 57 ≤ |rv (dot d n)| → Fin' (s' / dot d n) ∧
      |inner (toReal o) (toReal n) + rv (s' / dot d n) * inner (toReal d) (toReal n) - inner (toReal p) (toReal n)| ≤
        5.01 * (ν * (weight (toReal o) (toReal n) + weight (toReal p) (toReal n))) + 3.01 * (ν * (|rv (s' / dot d n)| * weight (toReal d) (toReal n))) +
          (1 + |rv (s' / dot d n)|) / 2 ^ 80) := by
  have wo := weight_le ho hn
  have wd := weight_le hdir hn
  have wp := weight_le hp hn
  have le120 : ∀ {x : ℝ}, x ≤ 2 ^ 62 → x ≤ 2 ^ 120 := fun h => h.trans (by norm_num)
  obtain ⟨fo, eo⟩ := hd o n ho.1 hn.1 (le120 wo)
  obtain ⟨fd, ed⟩ := hd d n hdir.1 hn.1 (le120 wd)
  obtain ⟨fp, ep⟩ := dot_dotOk p n hp.1 hn.1 (le120 wp)
  rw [absInner_eq] at eo ed ep
  have hη1 : 7 * η ≤ 1 := by unfold η; norm_num
  have big : ∀ {r v w : ℝ}, |r - v| ≤ 3.001 * (ν * w) + 7 * η → |v| ≤ w → w ≤ 2 ^ 62 → |r| ≤ 2 ^ 63 := fun {r v w} h hv hw => by
    rw [show r = (r - v) + v by ring]
    refine (abs_add_le _ _).trans ?_
    have h0 : 0 ≤ w := (abs_nonneg _).trans hv
    have : ν * w ≤ 0.001 * w := mul_le_mul_of_nonneg_right (ν_le.trans (by norm_num)) h0
    norm_num at hw ⊢
    linarith
  have bo := big eo (inner_le_weight _ _) wo
  have bd := big ed (inner_le_weight _ _) wd
  have bp := big ep (inner_le_weight _ _) wp
  refine ⟨fd, ed, fun hv => ?_⟩
  obtain ⟨fn, en⟩ := neg_ok fp
  have b1 : |rv (dot o n) + rv (-V3.dot p n)| ≤ 2 ^ 64 := by
    rw [en]
    refine (abs_add_le _ _).trans ?_
    rw [abs_neg]
    norm_num at bo bp ⊢
    linarith
  obtain ⟨fs, es⟩ := add_ok fo fn (lt_of_le_of_lt b1 (by norm_num))
  have b2 : |rv (dot o n + -V3.dot p n)| ≤ 2 ^ 66 := by
    refine (bound_of_err (es.trans (le_add_of_nonneg_right η_pos.le)) b1).trans ?_
    norm_num
  obtain ⟨fs', es'⟩ := hs _ rfl fs b2
  have v0 : rv (dot d n) ≠ 0 := fun h => by
    rw [h, abs_zero] at hv
    norm_num at hv
  have b3 : |rv s' / rv (dot d n)| < 2 ^ 127 := by
    rw [es', abs_div, abs_neg, div_lt_iff₀ (abs_pos.2 v0)]
    calc _ ≤ (2 : ℝ) ^ 66 := b2
      _ < 2 ^ 127 * (1 / 2 ^ 57) := by norm_num
      _ ≤ _ := mul_le_mul_of_nonneg_left hv (by norm_num)
  obtain ⟨ft, et⟩ := Options.div_ok fs' fd v0 b3
  refine ⟨ft, ?_⟩
  rw [es'] at et
  rw [en, ← sub_eq_add_neg] at es
  exact plane_alg (inner_le_weight _ _) (inner_le_weight _ _) (weight_nonneg _ _) eo ep ed es et v0 bd

theorem meetsAt_of {ray : Ray F32} {pl : Plane F32} {t : ℝ}
    (h : |inner (toReal ray.origin) (toReal pl.n) + t * inner (toReal ray.dir) (toReal pl.n) - inner (toReal pl.p) (toReal pl.n)| ≤
      5.01 * (ν * (weight (toReal ray.origin) (toReal pl.n) + weight (toReal pl.p) (toReal pl.n))) + 3.01 * (ν * (|t| * weight (toReal ray.dir) (toReal pl.n))) +
          (1 + |t|) / 2 ^ 80) : MeetsAt 5.01 (realRay ray) (realPlane pl) t := by
  unfold MeetsAt
  have e : inner (minus (at_ (realRay ray) t) (realPlane pl).p) (realPlane pl).n =
      inner (toReal ray.origin) (toReal pl.n) + t * inner (toReal ray.dir) (toReal pl.n) - inner (toReal pl.p) (toReal pl.n) := by
    unfold inner minus at_ realRay realPlane
    ring
  rw [e]
  refine h.trans (add_le_add ?_ le_rfl)
  have : 0 ≤ ν * (|t| * weight (toReal ray.dir) (toReal pl.n)) := mul_nonneg ν_pos.le (mul_nonneg (abs_nonneg _) (weight_nonneg _ _))
  show _ ≤ 5.01 * ν * (weight (toReal ray.origin) (toReal pl.n) + weight (toReal pl.p) (toReal pl.n) + |t| * weight (toReal ray.dir) (toReal pl.n))
  rw [show 5.01 * ν * (weight (toReal ray.origin) (toReal pl.n) + weight (toReal pl.p) (toReal pl.n) + |t| * weight (toReal ray.dir) (toReal pl.n)) =
    5.01 * (ν * (weight (toReal ray.origin) (toReal pl.n) + weight (toReal pl.p) (toReal pl.n))) + 5.01 * (ν * (|t| * weight (toReal ray.dir) (toReal pl.n))) by ring]
  linarith

/-- `o + t * d`. -/
theorem point_comp {o d t m : F32} (ho : Fin' o) (hd : Fin' d) (ht : Fin' t) (bo : |rv o| ≤ 2 ^ 30) (bd : |rv d| ≤ 2 ^ 30) (bt : |rv t| ≤ 2 ^ 60)
    (hm : m = d * t ∨ m = t * d) :
    Fin' (o + m) ∧ |rv (o + m) - (rv o + rv t * rv d)| ≤ 2.01 * ν * (|rv o| + |rv t * rv d|) + 2 / 2 ^ 150 := by
  have hν := ν_pos
  have hη := η_pos
  have b0 : |rv t * rv d| ≤ 2 ^ 90 := by
    rw [abs_mul]
    exact (mul_le_mul bt bd (abs_nonneg _) (by norm_num)).trans (by norm_num)
  obtain ⟨fm, em⟩ : Fin' m ∧ |rv m - rv t * rv d| ≤ ν * |rv t * rv d| + η := by
    rcases hm with h | h
    · rw [h, mul_comm (rv t)]
      exact mul_ok hd ht (by rw [mul_comm]; exact lt_of_le_of_lt b0 (by norm_num))
    · rw [h]
      exact mul_ok ht hd (lt_of_le_of_lt b0 (by norm_num))
  have bm := bound_of_err em b0
  have b1 : |rv o + rv m| < 2 ^ 127 := lt_of_le_of_lt (abs_add_le _ _) (by norm_num at bo bm ⊢; linarith)
  obtain ⟨f, e⟩ := add_ok ho fm b1
  refine ⟨f, ?_⟩
  set y := rv t * rv d
  have e1 : |rv o + rv m| ≤ |rv o| + |y| + (ν * |y| + η) := by
    rw [show rv o + rv m = rv o + (y + (rv m - y)) by ring]
    have h1 := abs_add_le (rv o) (y + (rv m - y))
    have h2 := abs_add_le y (rv m - y)
    linarith
  have e2 := mul_le_mul_of_nonneg_left e1 hν.le
  have n1 := mul_nonneg hν.le (abs_nonneg (rv o))
  have n2 := mul_nonneg hν.le (abs_nonneg y)
  have s1 : ν * (ν * |y|) ≤ 0.001 * (ν * |y|) := mul_le_mul_of_nonneg_right (ν_le.trans (by norm_num)) n2
  have s2 : ν * η ≤ 0.001 * η := mul_le_mul_of_nonneg_right (ν_le.trans (by norm_num)) hη.le
  rw [show rv (o + m) - (rv o + y) = (rv (o + m) - (rv o + rv m)) + (rv m - y) by ring]
  refine (abs_add_le _ _).trans ?_
  have e3 : ν * (|rv o| + |y| + (ν * |y| + η)) = ν * |rv o| + ν * |y| + ν * (ν * |y|) + ν * η := by ring
  have e4 : 2.01 * ν * (|rv o| + |y|) + 2 / 2 ^ 150 = 2.01 * (ν * |rv o|) + 2.01 * (ν * |y|) + 2 * η := by unfold η; ring
  rw [e4]
  linarith

/-- From the ray to the point. -/
theorem onPlane_of {ray : Ray F32} {pl : Plane F32} {t : ℝ} {a : V3 F32} (hn : Moderate pl.n) (ht : 0 < t)
    (h : |inner (toReal ray.origin) (toReal pl.n) + t * inner (toReal ray.dir) (toReal pl.n) - inner (toReal pl.p) (toReal pl.n)| ≤
      5.01 * (ν * (weight (toReal ray.origin) (toReal pl.n) + weight (toReal pl.p) (toReal pl.n))) + 3.01 * (ν * (|t| * weight (toReal ray.dir) (toReal pl.n))) +
          (1 + |t|) / 2 ^ 80) (hp : PointAt (realRay ray) t a) :
    |inner (minus (toReal a) (toReal pl.p)) (toReal pl.n)| ≤
      7.1 * ulp * (weight (toReal ray.origin) (toReal pl.n) + weight (toReal pl.p) (toReal pl.n) + t * weight (toReal ray.dir) (toReal pl.n)) + (2 + t) / 2 ^ 80 := by
  obtain ⟨-, hx, hy, hz⟩ := hp
  obtain ⟨-, nx, ny, nz⟩ := hn
  have key : ∀ q e k o d : ℝ, |q - e| ≤ 2.01 * ulp * (|o| + |t * d|) + 2 / 2 ^ 150 → |k| ≤ 2 ^ 30 →
      |(q - e) * k| ≤ 2.01 * (ν * (|o * k| + t * |d * k|)) + 1 / 2 ^ 90 := fun q e k o d h hk => by
    rw [abs_mul]
    refine (mul_le_mul_of_nonneg_right h (abs_nonneg _)).trans ?_
    rw [abs_mul t, abs_of_pos ht, abs_mul o, abs_mul d]
    have : (2 : ℝ) / 2 ^ 150 * |k| ≤ 1 / 2 ^ 90 := (mul_le_mul_of_nonneg_left hk (by norm_num)).trans (by norm_num)
    have e : (2.01 * ulp * (|o| + t * |d|) + 2 / 2 ^ 150) * |k| = 2.01 * (ν * (|o| * |k| + t * (|d| * |k|))) + 2 / 2 ^ 150 * |k| := by
      unfold ulp ν; ring
    rw [e]
    exact add_le_add le_rfl this
  have kx := key _ _ _ _ _ hx nx
  have ky := key _ _ _ _ _ hy ny
  have kz := key _ _ _ _ _ hz nz
  rw [abs_of_pos ht] at h
  set O := weight (toReal ray.origin) (toReal pl.n) with hO
  set P := weight (toReal pl.p) (toReal pl.n) with hP
  set D := weight (toReal ray.dir) (toReal pl.n) with hD
  have O0 : 0 ≤ O := weight_nonneg _ _
  have P0 : 0 ≤ P := weight_nonneg _ _
  have D0 : 0 ≤ D := weight_nonneg _ _
  set q := toReal a
  set e := at_ (realRay ray) t with he
  set k := toReal pl.n
  have e1 : inner (minus q (toReal pl.p)) k = ((q.x - e.x) * k.x + (q.y - e.y) * k.y + (q.z - e.z) * k.z) +
      (inner (toReal ray.origin) k + t * inner (toReal ray.dir) k - inner (toReal pl.p) k) := by
    rw [he]
    unfold inner minus at_ realRay
    ring
  rw [e1]
  have t1 := abs_add_le ((q.x - e.x) * k.x + (q.y - e.y) * k.y + (q.z - e.z) * k.z) (inner (toReal ray.origin) k + t * inner (toReal ray.dir) k - inner (toReal pl.p) k)
  have t2 := abs_add_le ((q.x - e.x) * k.x + (q.y - e.y) * k.y) ((q.z - e.z) * k.z)
  have t3 := abs_add_le ((q.x - e.x) * k.x) ((q.y - e.y) * k.y)
  have s1 : 2.01 * (ν * (|(realRay ray).origin.x * k.x| + t * |(realRay ray).dir.x * k.x|)) + 2.01 * (ν * (|(realRay ray).origin.y * k.y| + t * |(realRay ray).dir.y * k.y|)) +
      2.01 * (ν * (|(realRay ray).origin.z * k.z| + t * |(realRay ray).dir.z * k.z|)) = 2.01 * (ν * O) + 2.01 * (ν * (t * D)) := by
    rw [hO, hD]
    unfold weight realRay
    ring
  have s2 : 7.1 * ulp * (O + P + t * D) = 7.1 * (ν * O) + 7.1 * (ν * P) + 7.1 * (ν * (t * D)) := by unfold ulp ν; ring
  have n1 := mul_nonneg ν_pos.le O0
  have n2 := mul_nonneg ν_pos.le P0
  have n3 := mul_nonneg ν_pos.le (mul_nonneg ht.le D0)
  have s3 : ν * (O + P) = ν * O + ν * P := by ring
  have s4 : (2 + t) / 2 ^ 80 = (1 + t) / 2 ^ 80 + 1 / 2 ^ 80 := by ring
  have s5 : (1 : ℝ) / 2 ^ 90 + 1 / 2 ^ 90 + 1 / 2 ^ 90 ≤ 1 / 2 ^ 80 := by norm_num
  rw [s2, s4]
  generalize (1 : ℝ) / 2 ^ 90 = r1 at *
  generalize (1 : ℝ) / 2 ^ 80 = r2 at *
  generalize (1 + t) / 2 ^ 80 = r3 at *
  linarith only [t1, t2, t3, kx, ky, kz, h, s1, s3, s5, n1, n2, n3]

/-! ### Spheres -/

theorem shrink {y : ℝ} (hy : 0 ≤ y) : ν * y ≤ 0.00001 * y := mul_le_mul_of_nonneg_right (ν_le.trans (by norm_num)) hy

noncomputable def τ : ℝ := 1 / 2 ^ 80
theorem η_τ : 100000 * η ≤ τ := by unfold η τ; norm_num
theorem τ_pos : 0 < τ := by unfold τ; norm_num

/-- The coefficients of the quadratic equation. -/
theorem sphere_alg {R B W r2 bf dd p1 cf p2 df : ℝ} (hR : 0 ≤ R) (hr : 0 ≤ r2) (hW : W * W ≤ 1.001 * R) (hB : |B| ≤ W) (hWb : W ≤ 2 ^ 63)
    (hb : |bf - B| ≤ 4.01 * (ν * W) + 7 * η) (hdd : |dd - R| ≤ 5.01 * (ν * R) + 7 * η) (hp1 : |p1 - r2| ≤ ν * r2 + η)
    (hc : |cf - (dd - p1)| ≤ ν * |dd - p1| + η) (hp2 : |p2 - bf * bf| ≤ ν * (bf * bf) + η) (hdf : |df - (p2 - cf)| ≤ ν * |p2 - cf| + η) :
    |cf - (R - r2)| ≤ 6.02 * (ν * R) + 2.01 * (ν * r2) + τ ∧ ν * |cf| ≤ 1.001 * (ν * R + ν * r2) + τ ∧ ν * (bf * bf) ≤ 1.01 * (ν * R) + τ ∧
    |df - (bf * bf - cf)| ≤ 3.03 * (ν * R) + 1.01 * (ν * r2) + 4 * τ ∧ |df - (B * B - (R - r2))| ≤ 18 * (ν * R + ν * r2) + 8 * τ := by
  have hν := ν_pos
  have hη := η_pos
  have hτ := τ_pos
  have hητ := η_τ
  have W0 : 0 ≤ W := (abs_nonneg _).trans hB
  have u0 : 0 ≤ ν * R := mul_nonneg hν.le hR
  have y0 : 0 ≤ ν * r2 := mul_nonneg hν.le hr
  have c0 : |dd - p1 - (R - r2)| ≤ 5.01 * (ν * R) + ν * r2 + 8 * η := by
    rw [show dd - p1 - (R - r2) = (dd - R) + -(p1 - r2) by ring]
    have := abs_add_le (dd - R) (-(p1 - r2))
    rw [abs_neg] at this
    linarith
  have sR := abs_le.2 (⟨by linarith, by linarith⟩ : -(R + r2) ≤ R - r2 ∧ R - r2 ≤ R + r2)
  have c1 : |dd - p1| ≤ R + r2 + (5.01 * (ν * R) + ν * r2 + 8 * η) := by
    rw [show dd - p1 = (dd - p1 - (R - r2)) + (R - r2) by ring]
    have := abs_add_le (dd - p1 - (R - r2)) (R - r2)
    linarith
  have c2 := mul_le_mul_of_nonneg_left c1 hν.le
  have c3 := shrink (y := 5.01 * (ν * R) + ν * r2 + 8 * η) (by positivity)
  have c4 : |cf - (R - r2)| ≤ 6.02 * (ν * R) + 2.01 * (ν * r2) + 10 * η := by
    rw [show cf - (R - r2) = (cf - (dd - p1)) + (dd - p1 - (R - r2)) by ring]
    have h1 := abs_add_le (cf - (dd - p1)) (dd - p1 - (R - r2))
    have h2 : ν * (R + r2 + (5.01 * (ν * R) + ν * r2 + 8 * η)) = ν * R + ν * r2 + ν * (5.01 * (ν * R) + ν * r2 + 8 * η) := by ring
    linarith
  have c5 : |cf| ≤ R + r2 + (6.02 * (ν * R) + 2.01 * (ν * r2) + 10 * η) := by
    rw [show cf = (cf - (R - r2)) + (R - r2) by ring]
    have := abs_add_le (cf - (R - r2)) (R - r2)
    linarith
  have c6 : ν * |cf| ≤ 1.001 * (ν * R + ν * r2) + η := by
    have h1 := mul_le_mul_of_nonneg_left c5 hν.le
    have h2 : ν * (R + r2 + (6.02 * (ν * R) + 2.01 * (ν * r2) + 10 * η)) = ν * R + ν * r2 + ν * (6.02 * (ν * R) + 2.01 * (ν * r2) + 10 * η) := by ring
    have h3 := shrink (y := 6.02 * (ν * R) + 2.01 * (ν * r2) + 10 * η) (by positivity)
    linarith
  have W1 : η * W ≤ 0.01 * τ := by
    refine (mul_le_mul_of_nonneg_left hWb hη.le).trans ?_
    unfold η τ
    norm_num
  have W2 : η * η ≤ 0.001 * τ := by unfold η τ; norm_num
  have sW := shrink W0
  have b1 : |bf| ≤ 1.001 * W + 7 * η := by
    rw [show bf = (bf - B) + B by ring]
    have := abs_add_le (bf - B) B
    linarith
  have b2 : bf * bf ≤ 1.0021 * (W * W) + τ := by
    have h1 : bf * bf ≤ (1.001 * W + 7 * η) * (1.001 * W + 7 * η) := by
      rw [← abs_mul_abs_self bf]
      exact mul_le_mul b1 b1 (abs_nonneg _) (by positivity)
    have h2 : (1.001 * W + 7 * η) * (1.001 * W + 7 * η) = 1.002001 * (W * W) + 14.014 * (η * W) + 49 * (η * η) := by ring
    have := mul_nonneg W0 W0
    linarith
  have B0 : 0 ≤ bf * bf := mul_self_nonneg _
  have b3 : bf * bf ≤ 1.01 * R + τ := by linarith
  have b4 : ν * (bf * bf) ≤ 1.01 * (ν * R) + 0.001 * τ := by
    have h1 := mul_le_mul_of_nonneg_left b3 hν.le
    have h2 := shrink hτ.le
    linarith
  have nb : 0 ≤ ν * (bf * bf) := mul_nonneg hν.le B0
  have d0 : |p2 - cf| ≤ bf * bf + |cf| + (ν * (bf * bf) + η) := by
    rw [show p2 - cf = (p2 - bf * bf) + bf * bf + -cf by ring]
    have h1 := abs_add_le ((p2 - bf * bf) + bf * bf) (-cf)
    have h2 := abs_add_le (p2 - bf * bf) (bf * bf)
    rw [abs_neg] at h1
    rw [abs_of_nonneg B0] at h2
    linarith
  have d1 : |df - (bf * bf - cf)| ≤ 3.03 * (ν * R) + 1.01 * (ν * r2) + 4 * τ := by
    rw [show df - (bf * bf - cf) = (df - (p2 - cf)) + (p2 - bf * bf) by ring]
    have h1 := abs_add_le (df - (p2 - cf)) (p2 - bf * bf)
    have h2 := mul_le_mul_of_nonneg_left d0 hν.le
    have h3 : ν * (bf * bf + |cf| + (ν * (bf * bf) + η)) = ν * (bf * bf) + ν * |cf| + ν * (ν * (bf * bf) + η) := by ring
    have h4 := shrink (y := ν * (bf * bf) + η) (by positivity)
    linarith
  refine ⟨by linarith, by linarith, by linarith, d1, ?_⟩
  have e1 : |bf * bf - B * B| ≤ 8.04 * (ν * R) + τ := by
    rw [show bf * bf - B * B = (bf - B) * (bf + B) by ring, abs_mul]
    have h1 : |bf + B| ≤ 2.001 * W + 7 * η := by
      have := abs_add_le bf B
      linarith
    refine (mul_le_mul hb h1 (abs_nonneg _) (by positivity)).trans ?_
    have h2 : (4.01 * (ν * W) + 7 * η) * (2.001 * W + 7 * η) = 8.02401 * (ν * (W * W)) + 28.07 * (ν * (η * W)) + 14.007 * (η * W) + 49 * (η * η) := by ring
    have h3 : ν * (W * W) ≤ 1.001 * (ν * R) := by
      have := mul_le_mul_of_nonneg_left hW hν.le
      linarith
    have h4 := shrink (mul_nonneg hη.le W0)
    rw [h2]
    linarith
  rw [show df - (B * B - (R - r2)) = (df - (bf * bf - cf)) + (bf * bf - B * B) + -(cf - (R - r2)) by ring]
  have h1 := abs_add_le ((df - (bf * bf - cf)) + (bf * bf - B * B)) (-(cf - (R - r2)))
  have h2 := abs_add_le (df - (bf * bf - cf)) (bf * bf - B * B)
  rw [abs_neg] at h1
  linarith

/-- The smaller root. -/
theorem root_alg {R B W D r2 δ bf cf df w t : ℝ} (hR : 0 ≤ R) (hr : 0 ≤ r2) (hW : W * W ≤ 1.001 * R) (hB : |B| ≤ W) (hD : |D - 1| ≤ δ)
    (hb : |bf - B| ≤ 4.01 * (ν * W) + 7 * η) (h1 : |cf - (R - r2)| ≤ 6.02 * (ν * R) + 2.01 * (ν * r2) + τ) (h2 : ν * |cf| ≤ 1.001 * (ν * R + ν * r2) + τ)
    (h3 : ν * (bf * bf) ≤ 1.01 * (ν * R) + τ) (h4 : |df - (bf * bf - cf)| ≤ 3.03 * (ν * R) + 1.01 * (ν * r2) + 4 * τ) (h0 : 0 < df)
    (hw : |w - √df| ≤ ν * √df) (hw0 : 0 ≤ w) (ht : |t - (-bf - w)| ≤ ν * |-bf - w|) :
    |R + 2 * t * B + t * t * D - r2| ≤ 19 * (ν * (R + r2 + t * t)) + δ * (t * t) + 100 * τ * (1 + |t|) ∧ t + B ≤ 5 * (ν * (W + |t|)) + τ := by
  have hν := ν_pos
  have hη := η_pos
  have hτ := τ_pos
  have hητ := η_τ
  have W0 : 0 ≤ W := (abs_nonneg _).trans hB
  have u0 : 0 ≤ ν * R := mul_nonneg hν.le hR
  have y0 : 0 ≤ ν * r2 := mul_nonneg hν.le hr
  have T0 : 0 ≤ t * t := mul_self_nonneg _
  have z0 : 0 ≤ ν * (t * t) := mul_nonneg hν.le T0
  have B0 : 0 ≤ bf * bf := mul_self_nonneg _
  -- w² is df
  have s0 := Real.sqrt_nonneg df
  have ss := Real.mul_self_sqrt h0.le
  have w1 : |w * w - df| ≤ 2.001 * (ν * df) := by
    have e : w * w - df = (w - √df) * (w + √df) := by
      have : (w - √df) * (w + √df) = w * w - √df * √df := by ring
      rw [this, ss]
    have hs := shrink s0
    have w2 : |w + √df| ≤ 2.001 * √df := by
      rw [show w + √df = (w - √df) + 2 * √df by ring]
      have := abs_add_le (w - √df) (2 * √df)
      rw [abs_of_nonneg (by positivity : 0 ≤ 2 * √df)] at this
      linarith
    rw [e, abs_mul]
    refine (mul_le_mul hw w2 (abs_nonneg _) (by positivity)).trans (le_of_eq ?_)
    rw [show ν * √df * (2.001 * √df) = 2.001 * (ν * (√df * √df)) by ring, ss]
  have w3 : ν * df ≤ 2.02 * (ν * R) + 1.01 * (ν * r2) + 3 * τ := by
    have e : df ≤ bf * bf + |cf| + (3.03 * (ν * R) + 1.01 * (ν * r2) + 4 * τ) := by
      have a1 := (abs_le.1 h4).2
      have a2 := neg_abs_le cf
      linarith
    have e1 := mul_le_mul_of_nonneg_left e hν.le
    have e2 : ν * (bf * bf + |cf| + (3.03 * (ν * R) + 1.01 * (ν * r2) + 4 * τ)) = ν * (bf * bf) + ν * |cf| + ν * (3.03 * (ν * R) + 1.01 * (ν * r2) + 4 * τ) := by ring
    have e3 := shrink (y := 3.03 * (ν * R) + 1.01 * (ν * r2) + 4 * τ) (by linarith only [u0, y0, hτ])
    linarith
  have w4 : |w * w - (bf * bf - cf)| ≤ 7.09 * (ν * R) + 3.05 * (ν * r2) + 11 * τ := by
    rw [show w * w - (bf * bf - cf) = (w * w - df) + (df - (bf * bf - cf)) by ring]
    have := abs_add_le (w * w - df) (df - (bf * bf - cf))
    linarith
  -- t
  set ε := t - (-bf - w) with hε
  have e1 : |ε| ≤ 1.001 * (ν * |t|) := by
    have a1 : |-bf - w| ≤ |t| + |ε| := by
      rw [show -bf - w = t + -ε by rw [hε]; ring]
      have := abs_add_le t (-ε)
      rwa [abs_neg] at this
    have a2 := mul_le_mul_of_nonneg_left a1 hν.le
    have a3 := shrink (abs_nonneg ε)
    have a4 : ν * (|t| + |ε|) = ν * |t| + ν * |ε| := by ring
    have a5 := mul_nonneg hν.le (abs_nonneg t)
    linarith
  have tt : |t| * |t| = t * t := abs_mul_abs_self t
  have bb : |bf| * |bf| = bf * bf := abs_mul_abs_self bf
  have n1 : 0 ≤ ν * |t| := mul_nonneg hν.le (abs_nonneg t)
  have e2 : |(t + bf) * (t + bf) - w * w| ≤ 3.02 * (ν * (t * t)) + 1.03 * (ν * R) + 2 * τ := by
    rw [show (t + bf) * (t + bf) - w * w = ε * (2 * (t + bf) + -ε) by rw [hε]; ring, abs_mul]
    have a1 : |2 * (t + bf) + -ε| ≤ 2.001 * |t| + 2 * |bf| := by
      have b1 := abs_add_le (2 * (t + bf)) (-ε)
      rw [abs_neg, abs_mul, abs_two] at b1
      have b2 := abs_add_le t bf
      have b3 := shrink (abs_nonneg t)
      linarith
    refine (mul_le_mul e1 a1 (abs_nonneg _) (by positivity)).trans ?_
    have a2 : 1.001 * (ν * |t|) * (2.001 * |t| + 2 * |bf|) = 2.003001 * (ν * (|t| * |t|)) + 1.001 * (ν * (2 * |t| * |bf|)) := by ring
    have a3 : 2 * |t| * |bf| ≤ t * t + bf * bf := by
      have := sq_nonneg (|t| - |bf|)
      rw [sub_sq, sq, sq, tt, bb] at this
      linarith
    have a4 := mul_le_mul_of_nonneg_left a3 hν.le
    rw [a2, tt]
    have a5 : ν * (t * t + bf * bf) = ν * (t * t) + ν * (bf * bf) := by ring
    linarith
  have e3 : |2 * t * (B - bf)| ≤ 4.02 * (ν * (t * t)) + 4.03 * (ν * R) + τ * |t| := by
    rw [abs_mul, abs_mul, abs_two, abs_sub_comm]
    refine (mul_le_mul_of_nonneg_left hb (by positivity)).trans ?_
    have a1 : 2 * |t| * (4.01 * (ν * W) + 7 * η) = 4.01 * (ν * (2 * |t| * W)) + 14 * η * |t| := by ring
    have a2 : 2 * |t| * W ≤ t * t + 1.001 * R := by
      have := sq_nonneg (|t| - W)
      rw [sub_sq, sq, sq, tt] at this
      linarith
    have a3 := mul_le_mul_of_nonneg_left a2 hν.le
    have a4 : ν * (t * t + 1.001 * R) = ν * (t * t) + 1.001 * (ν * R) := by ring
    have a5 : 14 * η * |t| ≤ τ * |t| := mul_le_mul_of_nonneg_right (by linarith) (abs_nonneg _)
    rw [a1]
    linarith
  have e4 : |t * t * (D - 1)| ≤ δ * (t * t) := by
    rw [abs_mul, abs_of_nonneg T0, mul_comm]
    exact mul_le_mul_of_nonneg_right hD T0
  refine ⟨?_, ?_⟩
  · rw [show R + 2 * t * B + t * t * D - r2 = -(cf - (R - r2)) + 2 * t * (B - bf) + t * t * (D - 1) + ((t + bf) * (t + bf) - w * w) + (w * w - (bf * bf - cf)) by ring]
    have a1 := abs_add_le (-(cf - (R - r2)) + 2 * t * (B - bf) + t * t * (D - 1) + ((t + bf) * (t + bf) - w * w)) (w * w - (bf * bf - cf))
    have a2 := abs_add_le (-(cf - (R - r2)) + 2 * t * (B - bf) + t * t * (D - 1)) ((t + bf) * (t + bf) - w * w)
    have a3 := abs_add_le (-(cf - (R - r2)) + 2 * t * (B - bf)) (t * t * (D - 1))
    have a4 := abs_add_le (-(cf - (R - r2))) (2 * t * (B - bf))
    rw [abs_neg] at a4
    have a5 : ν * (R + r2 + t * t) = ν * R + ν * r2 + ν * (t * t) := by ring
    have a6 : 100 * τ * (1 + |t|) = 100 * τ + 100 * (τ * |t|) := by ring
    have a7 : 0 ≤ τ * |t| := mul_nonneg hτ.le (abs_nonneg _)
    rw [a5, a6]
    linarith
  · have a1 := (abs_le.1 e1).2
    have a2 := (abs_le.1 hb).1
    have a3 : ν * (W + |t|) = ν * W + ν * |t| := by ring
    have a4 := mul_nonneg hν.le W0
    have a5 : t = ε - bf - w := by linarith only [hε]
    rw [a3]
    linarith only [a1, a2, a4, a5, n1, hw0, hητ, hη, hτ]

theorem root_pos {sqrt : F32 → F32} (hs : RootOk sqrt) {x : F32} (h0 : 0 < rv x) :
    Fin' (sqrt x) ∧ 0 ≤ rv (sqrt x) ∧ |rv (sqrt x) - √(rv x)| ≤ ν * √(rv x) := by
  have h := hs x
  have hp : 0 < realVal 23 x.bits := h0
  obtain ⟨-, hf, -⟩ := (isSqrt_pos_iff hp).1 h
  have he := isSqrt_error fmt roomy32.two_man hp h
  rw [u_eq] at he
  exact ⟨hf, (isSqrt_pos fmt roomy32.two_man hp h).le, he⟩

/-- Products with a rounded factor. -/
theorem comp_prod {a e d : ℝ} (h : |a - e| ≤ ν * |e|) : |a * d - e * d| ≤ ν * |e * d| ∧ |a * d| ≤ |e * d| + ν * |e * d| ∧
    |a * a - e * e| ≤ 2.001 * (ν * (e * e)) := by
  have h1 : |a * d - e * d| ≤ ν * |e * d| := by
    rw [← sub_mul, abs_mul, abs_mul, ← mul_assoc]
    exact mul_le_mul_of_nonneg_right h (abs_nonneg _)
  refine ⟨h1, ?_, ?_⟩
  · rw [show a * d = (a * d - e * d) + e * d by ring]
    have := abs_add_le (a * d - e * d) (e * d)
    linarith
  · rw [show a * a - e * e = (a - e) * ((a - e) + 2 * e) by ring, abs_mul]
    have a1 : |(a - e) + 2 * e| ≤ 2.001 * |e| := by
      have b1 := abs_add_le (a - e) (2 * e)
      rw [abs_mul, abs_two] at b1
      have b2 := shrink (abs_nonneg e)
      linarith [abs_nonneg e]
    refine (mul_le_mul h a1 (abs_nonneg _) (mul_nonneg ν_pos.le (abs_nonneg _))).trans (le_of_eq ?_)
    rw [show ν * |e| * (2.001 * |e|) = 2.001 * (ν * (|e| * |e|)) by ring, abs_mul_abs_self]

/-- The vector from the centre to the origin, and its dot products. -/
theorem centre_ok {dot : V3 F32 → V3 F32 → F32} (hd : DotOk dot) {o d c : V3 F32} (ho : Moderate o) (hdir : Moderate d) (hc : Moderate c) {δ : ℝ}
    (hδ : δ ≤ 1 / 1000) (hD : |inner (toReal d) (toReal d) - 1| ≤ δ) :
    (Fin' (dot (V3.sub o c) d) ∧ |rv (dot (V3.sub o c) d) - inner (minus (toReal o) (toReal c)) (toReal d)| ≤
      4.01 * (ν * weight (minus (toReal o) (toReal c)) (toReal d)) + 7 * η) ∧
    (Fin' (dot (V3.sub o c) (V3.sub o c)) ∧ |rv (dot (V3.sub o c) (V3.sub o c)) - len2 (minus (toReal o) (toReal c))| ≤
      5.01 * (ν * len2 (minus (toReal o) (toReal c))) + 7 * η) ∧
    weight (minus (toReal o) (toReal c)) (toReal d) * weight (minus (toReal o) (toReal c)) (toReal d) ≤ 1.001 * len2 (minus (toReal o) (toReal c)) ∧
    weight (minus (toReal o) (toReal c)) (toReal d) ≤ 2 ^ 34 ∧ 0 ≤ len2 (minus (toReal o) (toReal c)) ∧ len2 (minus (toReal o) (toReal c)) ≤ 2 ^ 64 := by
  have hν := ν_pos
  obtain ⟨⟨ox, oy, oz⟩, bx, by', bz⟩ := ho
  obtain ⟨⟨cx, cy, cz⟩, gx, gy, gz⟩ := hc
  have comp : ∀ {a b : F32}, Fin' a → Fin' b → |rv a| ≤ 2 ^ 30 → |rv b| ≤ 2 ^ 30 → Fin' (a - b) ∧ |rv (a - b) - (rv a - rv b)| ≤ ν * |rv a - rv b| ∧
      |rv a - rv b| ≤ 2 ^ 31 := fun {a b} ha hb h1 h2 => by
    have h3 : |rv a - rv b| ≤ 2 ^ 31 := (abs_sub _ _).trans (by norm_num at h1 h2 ⊢; linarith)
    obtain ⟨f, e⟩ := sub_ok ha hb (lt_of_le_of_lt h3 (by norm_num))
    exact ⟨f, e, h3⟩
  obtain ⟨fx, ex, kx⟩ := comp ox cx bx gx
  obtain ⟨fy, ey, ky⟩ := comp oy cy by' gy
  obtain ⟨fz, ez, kz⟩ := comp oz cz bz gz
  obtain ⟨px, qx, sx⟩ := comp_prod (d := rv d.x) ex
  obtain ⟨py, qy, sy⟩ := comp_prod (d := rv d.y) ey
  obtain ⟨pz, qz, sz⟩ := comp_prod (d := rv d.z) ez
  set e := minus (toReal o) (toReal c) with he
  set D := toReal d with hDd
  set a := V3.sub o c with ha
  have fa : FiniteV a := ⟨fx, fy, fz⟩
  have W0 := weight_nonneg e D
  have eW : weight e D = |(rv o.x - rv c.x) * rv d.x| + |(rv o.y - rv c.y) * rv d.y| + |(rv o.z - rv c.z) * rv d.z| := rfl
  have eR : len2 e = (rv o.x - rv c.x) * (rv o.x - rv c.x) + (rv o.y - rv c.y) * (rv o.y - rv c.y) + (rv o.z - rv c.z) * (rv o.z - rv c.z) := rfl
  have R0 : 0 ≤ len2 e := by rw [eR]; exact add_nonneg (add_nonneg (mul_self_nonneg _) (mul_self_nonneg _)) (mul_self_nonneg _)
  have sqb : ∀ {x : ℝ}, |x| ≤ 2 ^ 31 → x * x ≤ 2 ^ 62 := fun {x} h => by
    rw [← abs_mul_abs_self]
    exact (mul_le_mul h h (abs_nonneg _) (by norm_num)).trans (by norm_num)
  have R1 : len2 e ≤ 2 ^ 64 := by
    have h1 := sqb kx
    have h2 := sqb ky
    have h3 := sqb kz
    rw [eR]
    norm_num at h1 h2 h3 ⊢
    linarith
  have D1 : inner D D ≤ 1.001 := by
    have := (abs_le.1 hD).2
    linarith
  have W2 : weight e D * weight e D ≤ 1.001 * len2 e := by
    have h1 : weight e D * weight e D ≤ len2 e * inner D D := cs3 e.x e.y e.z D.x D.y D.z
    have h2 : len2 e * inner D D ≤ len2 e * 1.001 := mul_le_mul_of_nonneg_left D1 R0
    linarith
  have W1 : weight e D ≤ 2 ^ 34 := by
    refine abs_le_of_sq_le_sq' ?_ (by norm_num) |>.2
    rw [sq]
    refine W2.trans ?_
    norm_num at R1 ⊢
    linarith
  have n1 := shrink W0
  have wa : weight (toReal a) D ≤ weight e D + ν * weight e D := by
    rw [eW]
    show |rv (o.x - c.x) * rv d.x| + |rv (o.y - c.y) * rv d.y| + |rv (o.z - c.z) * rv d.z| ≤ _
    rw [mul_add, mul_add]
    linarith
  have ia : |inner (toReal a) D - inner e D| ≤ ν * weight e D := by
    show |(rv (o.x - c.x) * rv d.x + rv (o.y - c.y) * rv d.y + rv (o.z - c.z) * rv d.z) -
      ((rv o.x - rv c.x) * rv d.x + (rv o.y - rv c.y) * rv d.y + (rv o.z - rv c.z) * rv d.z)| ≤ _
    rw [eW, mul_add, mul_add]
    have t1 := abs_add_le (rv (o.x - c.x) * rv d.x - (rv o.x - rv c.x) * rv d.x + (rv (o.y - c.y) * rv d.y - (rv o.y - rv c.y) * rv d.y))
      (rv (o.z - c.z) * rv d.z - (rv o.z - rv c.z) * rv d.z)
    have t2 := abs_add_le (rv (o.x - c.x) * rv d.x - (rv o.x - rv c.x) * rv d.x) (rv (o.y - c.y) * rv d.y - (rv o.y - rv c.y) * rv d.y)
    refine le_trans (le_of_eq ?_) (t1.trans ((add_le_add t2 le_rfl).trans (add_le_add (add_le_add px py) pz)))
    congr 1
    ring
  have la : |inner (toReal a) (toReal a) - len2 e| ≤ 2.001 * (ν * len2 e) := by
    show |(rv (o.x - c.x) * rv (o.x - c.x) + rv (o.y - c.y) * rv (o.y - c.y) + rv (o.z - c.z) * rv (o.z - c.z)) - _| ≤ _
    rw [eR, mul_add ν, mul_add ν]
    have t1 := abs_add_le (rv (o.x - c.x) * rv (o.x - c.x) - (rv o.x - rv c.x) * (rv o.x - rv c.x) + (rv (o.y - c.y) * rv (o.y - c.y) - (rv o.y - rv c.y) * (rv o.y - rv c.y)))
      (rv (o.z - c.z) * rv (o.z - c.z) - (rv o.z - rv c.z) * (rv o.z - rv c.z))
    have t2 := abs_add_le (rv (o.x - c.x) * rv (o.x - c.x) - (rv o.x - rv c.x) * (rv o.x - rv c.x)) (rv (o.y - c.y) * rv (o.y - c.y) - (rv o.y - rv c.y) * (rv o.y - rv c.y))
    refine le_trans (le_of_eq ?_) (t1.trans ((add_le_add t2 le_rfl).trans ((add_le_add (add_le_add sx sy) sz).trans (le_of_eq ?_))))
    · congr 1
      ring
    · ring
  have n2 := shrink R0
  have lw : weight (toReal a) (toReal a) = inner (toReal a) (toReal a) := by
    unfold weight inner
    rw [abs_mul_self, abs_mul_self, abs_mul_self]
  have lb : weight (toReal a) (toReal a) ≤ len2 e + 2.001 * (ν * len2 e) := by
    rw [lw]
    have := (abs_le.1 la).2
    linarith
  obtain ⟨fb, eb⟩ := hd a d fa hdir.1 (by rw [absInner_eq]; norm_num at W1 ⊢; linarith)
  obtain ⟨fc, ec⟩ := hd a a fa fa (by rw [absInner_eq]; norm_num at R1 ⊢; linarith)
  rw [absInner_eq] at eb ec
  have nW := mul_nonneg hν.le W0
  have nR := mul_nonneg hν.le R0
  refine ⟨⟨fb, ?_⟩, ⟨fc, ?_⟩, W2, W1, R0, R1⟩
  · rw [show rv (dot a d) - inner e D = (rv (dot a d) - inner (toReal a) D) + (inner (toReal a) D - inner e D) by ring]
    have t1 := abs_add_le (rv (dot a d) - inner (toReal a) D) (inner (toReal a) D - inner e D)
    have t2 := mul_le_mul_of_nonneg_left wa hν.le
    have t3 := shrink nW
    rw [mul_add] at t2
    linarith
  · rw [show rv (dot a a) - len2 e = (rv (dot a a) - inner (toReal a) (toReal a)) + (inner (toReal a) (toReal a) - len2 e) by ring]
    have t1 := abs_add_le (rv (dot a a) - inner (toReal a) (toReal a)) (inner (toReal a) (toReal a) - len2 e)
    have t2 := mul_le_mul_of_nonneg_left lb hν.le
    have t3 := shrink nR
    rw [mul_add, show ν * (2.001 * (ν * len2 e)) = 2.001 * (ν * (ν * len2 e)) by ring] at t2
    linarith

/-- The parameter at which a ray enters a sphere, for either way to compute the coefficients. -/
theorem sphere_t {dot : V3 F32 → V3 F32 → F32} (hd : DotOk dot) {sqrt : F32 → F32} (hs : RootOk sqrt) {ray : Ray F32} {sp : Sphere F32} (ho : Moderate ray.origin)
    (hdir : Moderate ray.dir) (hc : Moderate sp.center) (br : |rv sp.radius| ≤ 2 ^ 30) {δ : ℝ} (hδ : δ ≤ 1 / 1000)
    (hD : |inner (toReal ray.dir) (toReal ray.dir) - 1| ≤ δ) {nb cc df : F32}
    (ec : ∀ x, x = dot (V3.sub ray.origin sp.center) (V3.sub ray.origin sp.center) → Fin' x → |rv x| ≤ 2 ^ 66 →
      Fin' cc ∧ ∃ p, |p - rv sp.radius * rv sp.radius| ≤ ν * (rv sp.radius * rv sp.radius) + η ∧ |rv cc - (rv x - p)| ≤ ν * |rv x - p| + η)
    (ed : ∀ x, x = dot (V3.sub ray.origin sp.center) ray.dir → Fin' x → |rv x| ≤ 2 ^ 36 → Fin' cc → |rv cc| ≤ 2 ^ 68 →
      Fin' df ∧ ∃ p, |p - rv x * rv x| ≤ ν * (rv x * rv x) + η ∧ |rv df - (p - rv cc)| ≤ ν * |p - rv cc| + η)
    (en : ∀ x, x = dot (V3.sub ray.origin sp.center) ray.dir → Fin' x → |rv x| ≤ 2 ^ 36 → Fin' nb ∧ rv nb = -rv x) :
    Fin' df ∧ (rv df ≤ 0 → inner (minus (toReal ray.origin) (toReal sp.center)) (toReal ray.dir) ^ 2 -
        (len2 (minus (toReal ray.origin) (toReal sp.center)) - realVal 23 sp.radius.bits ^ 2) ≤
        18 * ulp * (len2 (minus (toReal ray.origin) (toReal sp.center)) + realVal 23 sp.radius.bits ^ 2) + 1 / 2 ^ 70) ∧
    (0 < rv df → Fin' (nb - sqrt df) ∧ EntersAt δ (realRay ray) (toReal sp.center) (realVal 23 sp.radius.bits) (rv (nb - sqrt df))) := by
  have hν := ν_pos
  have hη := η_pos
  obtain ⟨⟨fb, eb⟩, ⟨fq, eq⟩, W2, W1, R0, R1⟩ := centre_ok hd ho hdir hc hδ hD
  set e := minus (toReal ray.origin) (toReal sp.center) with he
  set D := toReal ray.dir with hDd
  set B := inner e D
  set W := weight e D
  set R := len2 e
  have BW : |B| ≤ W := inner_le_weight _ _
  have W0 : 0 ≤ W := weight_nonneg _ _
  have hη1 : 7 * η ≤ 1 := by unfold η; norm_num
  have sW := shrink W0
  have sR := shrink R0
  have bb : |rv (dot (V3.sub ray.origin sp.center) ray.dir)| ≤ 2 ^ 36 := by
    rw [show rv (dot (V3.sub ray.origin sp.center) ray.dir) = (rv (dot (V3.sub ray.origin sp.center) ray.dir) - B) + B by ring]
    refine (abs_add_le _ _).trans ?_
    norm_num at W1 ⊢
    linarith
  have bq : |rv (dot (V3.sub ray.origin sp.center) (V3.sub ray.origin sp.center))| ≤ 2 ^ 66 := by
    rw [show rv (dot (V3.sub ray.origin sp.center) (V3.sub ray.origin sp.center)) = (rv (dot (V3.sub ray.origin sp.center) (V3.sub ray.origin sp.center)) - R) + R by ring]
    refine (abs_add_le _ _).trans ?_
    rw [abs_of_nonneg R0]
    norm_num at R1 ⊢
    linarith
  obtain ⟨fc, p1, hp1, hcc⟩ := ec _ rfl fq bq
  have r0 : 0 ≤ rv sp.radius * rv sp.radius := mul_self_nonneg _
  have r1 : rv sp.radius * rv sp.radius ≤ 2 ^ 60 := by
    rw [← abs_mul_abs_self]
    exact (mul_le_mul br br (abs_nonneg _) (by norm_num)).trans (by norm_num)
  have sr := shrink r0
  have bc : |rv cc| ≤ 2 ^ 68 := by
    have b1 : |p1| ≤ 2 ^ 61 := by
      rw [show p1 = (p1 - rv sp.radius * rv sp.radius) + rv sp.radius * rv sp.radius by ring]
      refine (abs_add_le _ _).trans ?_
      rw [abs_of_nonneg r0]
      norm_num at r1 ⊢
      linarith
    have b2 : |rv (dot (V3.sub ray.origin sp.center) (V3.sub ray.origin sp.center)) - p1| ≤ 2 ^ 67 := (abs_sub _ _).trans (by norm_num at b1 bq ⊢; linarith)
    exact (bound_of_err hcc b2).trans (by norm_num)
  obtain ⟨fd, p2, hp2, hdf⟩ := ed _ rfl fb bb fc bc
  obtain ⟨fn, hn⟩ := en _ rfl fb bb
  obtain ⟨a1, a2, a3, a4, a5⟩ := sphere_alg R0 r0 W2 BW (W1.trans (by norm_num)) eb eq hp1 hcc hp2 hdf
  refine ⟨fd, fun h => ?_, fun h => ?_⟩
  · have h1 := (abs_le.1 a5).1
    have h2 : 8 * τ ≤ 1 / 2 ^ 70 := by unfold τ; norm_num
    have h3 : 18 * ulp * (R + realVal 23 sp.radius.bits ^ 2) = 18 * (ν * R + ν * (rv sp.radius * rv sp.radius)) := by
      show 18 * ν * (R + rv sp.radius ^ 2) = _
      ring
    rw [h3]
    show B ^ 2 - (R - rv sp.radius ^ 2) ≤ _
    rw [sq, sq]
    generalize (1 : ℝ) / 2 ^ 70 = q at *
    linarith
  · obtain ⟨fw, w0, ew⟩ := root_pos hs h
    have bdf : rv df ≤ 2 ^ 74 := by
      have b1 : |p2| ≤ 2 ^ 73 := by
        have c0 : 0 ≤ rv (dot (V3.sub ray.origin sp.center) ray.dir) * rv (dot (V3.sub ray.origin sp.center) ray.dir) := mul_self_nonneg _
        have c1 : rv (dot (V3.sub ray.origin sp.center) ray.dir) * rv (dot (V3.sub ray.origin sp.center) ray.dir) ≤ 2 ^ 72 := by
          rw [← abs_mul_abs_self]
          exact (mul_le_mul bb bb (abs_nonneg _) (by norm_num)).trans (by norm_num)
        have c2 := shrink c0
        rw [show p2 = (p2 - rv (dot (V3.sub ray.origin sp.center) ray.dir) * rv (dot (V3.sub ray.origin sp.center) ray.dir)) +
          rv (dot (V3.sub ray.origin sp.center) ray.dir) * rv (dot (V3.sub ray.origin sp.center) ray.dir) by ring]
        refine (abs_add_le _ _).trans ?_
        rw [abs_of_nonneg c0]
        norm_num at c1 ⊢
        linarith
      have b2 : |p2 - rv cc| ≤ 2 ^ 73 + 2 ^ 68 := (abs_sub _ _).trans (add_le_add b1 bc)
      exact (le_abs_self _).trans ((bound_of_err hdf b2).trans (by norm_num))
    have bw : |rv (sqrt df)| ≤ 2 ^ 38 := by
      have c1 : √(rv df) ≤ 2 ^ 37 := by
        rw [show (2 : ℝ) ^ 37 = √(2 ^ 74) by rw [show (2 : ℝ) ^ 74 = (2 ^ 37) ^ 2 by norm_num, Real.sqrt_sq (by norm_num)]]
        exact Real.sqrt_le_sqrt bdf
      have c2 := shrink (Real.sqrt_nonneg (rv df))
      rw [abs_of_nonneg w0]
      have c3 := (abs_le.1 ew).2
      norm_num at c1 ⊢
      linarith
    have bt : |rv nb - rv (sqrt df)| < 2 ^ 127 := by
      refine lt_of_le_of_lt (abs_sub _ _) ?_
      rw [hn, abs_neg]
      norm_num at bb bw ⊢
      linarith
    obtain ⟨ft, et⟩ := sub_ok fn fw bt
    rw [hn] at et
    obtain ⟨g1, g2⟩ := root_alg R0 r0 W2 BW hD eb a1 a2 a3 a4 h ew w0 et
    refine ⟨ft, ?_, ?_⟩
    · set t := rv (nb - sqrt df)
      have k1 : len2 (minus (at_ (realRay ray) t) (toReal sp.center)) - realVal 23 sp.radius.bits ^ 2 = R + 2 * t * B + t * t * inner D D - rv sp.radius * rv sp.radius := by
        show (rv ray.origin.x + t * rv ray.dir.x - rv sp.center.x) * (rv ray.origin.x + t * rv ray.dir.x - rv sp.center.x) +
          (rv ray.origin.y + t * rv ray.dir.y - rv sp.center.y) * (rv ray.origin.y + t * rv ray.dir.y - rv sp.center.y) +
          (rv ray.origin.z + t * rv ray.dir.z - rv sp.center.z) * (rv ray.origin.z + t * rv ray.dir.z - rv sp.center.z) - rv sp.radius ^ 2 =
          ((rv ray.origin.x - rv sp.center.x) * (rv ray.origin.x - rv sp.center.x) + (rv ray.origin.y - rv sp.center.y) * (rv ray.origin.y - rv sp.center.y) +
            (rv ray.origin.z - rv sp.center.z) * (rv ray.origin.z - rv sp.center.z)) +
          2 * t * ((rv ray.origin.x - rv sp.center.x) * rv ray.dir.x + (rv ray.origin.y - rv sp.center.y) * rv ray.dir.y + (rv ray.origin.z - rv sp.center.z) * rv ray.dir.z) +
          t * t * (rv ray.dir.x * rv ray.dir.x + rv ray.dir.y * rv ray.dir.y + rv ray.dir.z * rv ray.dir.z) - rv sp.radius * rv sp.radius
        ring
      rw [k1]
      refine g1.trans (add_le_add (add_le_add (le_of_eq ?_) (le_of_eq ?_)) ?_)
      · show 19 * (ν * (R + rv sp.radius * rv sp.radius + t * t)) = 19 * ν * (R + rv sp.radius ^ 2 + t ^ 2)
        ring
      · ring
      · have k2 : 100 * τ ≤ 1 / 2 ^ 70 := by unfold τ; norm_num
        have k3 : (1 + |t|) / 2 ^ 70 = 1 / 2 ^ 70 * (1 + |t|) := by ring
        rw [k3]
        exact mul_le_mul_of_nonneg_right k2 (by positivity)
    · refine g2.trans (add_le_add (le_of_eq ?_) ?_)
      · show 5 * (ν * (W + |rv (nb - sqrt df)|)) = 5 * ν * (W + |rv (nb - sqrt df)|)
        ring
      · unfold τ; norm_num

end PackedSimd.F32R
