import Verif.Lemmas.AoExact
import Verif.Model.Examples.AoOcclusion
/-
examples/aobench/src: the geometry in exact real arithmetic, C94 (a ray and a sphere, a ray and a plane), C95 (the nearest surface), C96
(the basis built on a normal), C97 (the directions of samples).
-/
namespace PackedSimd.Props
open Ex Ex.Ao Spec.Ao

variable {F : Fns ℝ}

/-! ### C94 -/

theorem onSphere_iff {ray : Ray ℝ} (hd : IsUnit3 ray.dir) (s : Sphere ℝ) (t : ℝ) :
    OnSphere s (at_ ray t) ↔ t ^ 2 + 2 * V3.dot (ray.origin.sub s.center) ray.dir * t +
      (V3.dot (ray.origin.sub s.center) (ray.origin.sub s.center) - s.radius * s.radius) = 0 := by
  unfold OnSphere IsUnit3 at *
  simp only [inner, minus, at_, V3.dot, V3.sub] at *
  constructor
  · intro h; linear_combination h - t ^ 2 * hd
  · intro h; linear_combination h + t ^ 2 * hd

theorem normal_outward (R : IsReal F) {s : Sphere ℝ} {q : V3 ℝ} (h : OnSphere s q) (hr : s.radius ≠ 0) :
    OutwardNormal s q (V3.normalized F (V3.sub q s.center)) := by
  have hn : Real.sqrt (V3.dot (q.sub s.center) (q.sub s.center)) = |s.radius| := by
    rw [show V3.dot (q.sub s.center) (q.sub s.center) = s.radius ^ 2 from h, Real.sqrt_sq_eq_abs]
  have ha : |s.radius| ≠ 0 := abs_ne_zero.2 hr
  have h1 : scale |s.radius| (V3.normalized F (V3.sub q s.center)) = minus q s.center := by
    unfold V3.normalized V3.smul V3.mulS scale minus
    simp only [R.sqrt, hn, R.lit]
    simp only [V3.sub, Rat.cast_one]
    congr 1 <;> field_simp
  refine ⟨?_, h1⟩
  have h2 : |s.radius| ^ 2 * inner (V3.normalized F (V3.sub q s.center)) (V3.normalized F (V3.sub q s.center)) = |s.radius| ^ 2 * 1 := by
    have := h
    unfold OnSphere at this
    rw [← h1] at this
    simp only [inner, scale] at this ⊢
    rw [sq_abs] at *
    rw [mul_one, ← this]
    nlinarith [sq_abs s.radius]
  exact mul_left_cancel₀ (pow_ne_zero 2 ha) h2

/-- C94: a ray (of unit direction) that passes through two points of a sphere, the first at parameter `t₁`, is reported to hit it exactly if
`0 < t₁` and `t₁` is less than the previous hit; the reported point is the first one and the reported normal is the outward unit normal
there. -/
theorem C94_sphere (R : IsReal F) (ray : Ray ℝ) (hd : IsUnit3 ray.dir) (s : Sphere ℝ) (old : Isect ℝ) (t₁ t₂ : ℝ) (ht : t₁ < t₂)
    (h1 : OnSphere s (at_ ray t₁)) (h2 : OnSphere s (at_ ray t₂)) :
    ∃ n, OutwardNormal s (at_ ray t₁) n ∧
      (0 < t₁ ∧ t₁ < old.t → raySphere F ray s old = ⟨t₁, at_ ray t₁, n, true⟩) ∧ (¬ (0 < t₁ ∧ t₁ < old.t) → raySphere F ray s old = old) := by
  have e1 := (onSphere_iff hd s t₁).1 h1
  have e2 := (onSphere_iff hd s t₂).1 h2
  have hr : s.radius ≠ 0 := by
    intro h0
    unfold OnSphere at h1 h2
    unfold IsUnit3 at hd
    rw [h0] at h1 h2
    simp only [inner, minus, at_] at h1 h2 hd
    have z : ∀ a b c : ℝ, a * a + b * b + c * c = 0 ^ 2 → a = 0 ∧ b = 0 ∧ c = 0 := by
      intro a b c h
      have ha := mul_self_nonneg a
      have hb := mul_self_nonneg b
      have hc := mul_self_nonneg c
      rw [zero_pow (by norm_num)] at h
      exact ⟨mul_self_eq_zero.1 (by linarith), mul_self_eq_zero.1 (by linarith), mul_self_eq_zero.1 (by linarith)⟩
    obtain ⟨a1, b1, c1⟩ := z _ _ _ h1
    obtain ⟨a2, b2, c2⟩ := z _ _ _ h2
    have k : ∀ d : ℝ, (t₁ - t₂) * d = 0 → d = 0 := fun d h => (mul_eq_zero.1 h).resolve_left (by linarith)
    rw [k ray.dir.x (by linear_combination a1 - a2), k ray.dir.y (by linear_combination b1 - b2), k ray.dir.z (by linear_combination c1 - c2)] at hd
    norm_num at hd
  refine ⟨_, normal_outward R h1 hr, ?_⟩
  unfold raySphere
  dsimp only
  generalize V3.dot (ray.origin.sub s.center) ray.dir = b at *
  generalize V3.dot (ray.origin.sub s.center) (ray.origin.sub s.center) - s.radius * s.radius = c at *
  have eb : t₁ + t₂ = -2 * b := by
    have : (t₂ - t₁) * (t₁ + t₂ + 2 * b) = 0 := by linear_combination e2 - e1
    rcases mul_eq_zero.1 this with h | h <;> linarith
  have ed : b * b - c = ((t₂ - t₁) / 2) ^ 2 := by
    have : b = -(t₁ + t₂) / 2 := by linarith
    subst this
    linear_combination -e1
  have hs : F.sqrt (b * b - c) = (t₂ - t₁) / 2 := by
    rw [R.sqrt, ed, Real.sqrt_sq (by linarith)]
  have hpos : F.gt (b * b - c) (F.lit 0) = true := by
    rw [R.gt, R.lit, ed]; push_cast
    have : 0 < (t₂ - t₁) / 2 := by linarith
    positivity
  have et : -b - (t₂ - t₁) / 2 = t₁ := by linarith
  rw [if_pos hpos, hs, et]
  have hp : ray.origin.add (V3.smul t₁ ray.dir) = at_ ray t₁ := by
    unfold V3.add V3.smul V3.mulS at_; congr 1 <;> ring
  rw [hp]
  have hc : (F.gt t₁ (F.lit 0) && F.lt t₁ old.t) = true ↔ 0 < t₁ ∧ t₁ < old.t := by
    rw [Bool.and_eq_true, R.gt, R.lt, R.lit]; push_cast; rfl
  exact ⟨fun h => if_pos (hc.2 h), fun h => if_neg fun h' => h (hc.1 h')⟩

/-- C94: a ray without two points on the sphere (it misses or touches it) is reported not to hit it. -/
theorem C94_sphere_miss (R : IsReal F) (ray : Ray ℝ) (hd : IsUnit3 ray.dir) (s : Sphere ℝ) (old : Isect ℝ)
    (h : ¬ ∃ t₁ t₂, t₁ < t₂ ∧ OnSphere s (at_ ray t₁) ∧ OnSphere s (at_ ray t₂)) : raySphere F ray s old = old := by
  unfold raySphere
  dsimp only
  by_cases hpos : F.gt (V3.dot (ray.origin.sub s.center) ray.dir * V3.dot (ray.origin.sub s.center) ray.dir -
      (V3.dot (ray.origin.sub s.center) (ray.origin.sub s.center) - s.radius * s.radius)) (F.lit 0) = true
  · exfalso
    apply h
    rw [R.gt, R.lit] at hpos
    simp only [onSphere_iff hd]
    generalize V3.dot (ray.origin.sub s.center) ray.dir = b at *
    generalize V3.dot (ray.origin.sub s.center) (ray.origin.sub s.center) - s.radius * s.radius = c at *
    push_cast at hpos
    have hq : Real.sqrt (b * b - c) ^ 2 = b * b - c := Real.sq_sqrt hpos.le
    have hq' : 0 < Real.sqrt (b * b - c) := Real.sqrt_pos.2 hpos
    refine ⟨-b - Real.sqrt (b * b - c), -b + Real.sqrt (b * b - c), by linarith, ?_, ?_⟩
    · linear_combination hq
    · linear_combination hq
  · rw [if_neg hpos]

/-- C94: a ray that is not almost parallel to a plane meets it in exactly one parameter `t` and is reported to hit it exactly if `0 < t` and
`t` is less than the previous hit; the reported point is the one met, the normal that of the plane.  A ray with
`|dir · n| < 10^-17` is never reported to hit. -/
theorem C94_plane (R : IsReal F) (ray : Ray ℝ) (pl : Plane ℝ) (old : Isect ℝ) :
    (1 / 10 ^ 17 ≤ |inner ray.dir pl.n| → ∃ t, (∀ t', OnPlane pl (at_ ray t') ↔ t' = t) ∧
      (0 < t ∧ t < old.t → rayPlane F ray pl old = ⟨t, at_ ray t, pl.n, true⟩) ∧ (¬ (0 < t ∧ t < old.t) → rayPlane F ray pl old = old)) ∧
    (|inner ray.dir pl.n| < 1 / 10 ^ 17 → rayPlane F ray pl old = old) := by
  have hv : V3.dot ray.dir pl.n = inner ray.dir pl.n := rfl
  have hl : F.lt (F.abs (V3.dot ray.dir pl.n)) (F.lit (1 / 100000000000000000)) = true ↔ |inner ray.dir pl.n| < 1 / 10 ^ 17 := by
    rw [R.lt, R.abs, R.lit, hv, abs_eq_max_neg]; push_cast; norm_num
  constructor
  · intro hge
    have hne : inner ray.dir pl.n ≠ 0 := by
      intro h0; rw [h0] at hge; norm_num at hge
    refine ⟨-(V3.dot ray.origin pl.n + -V3.dot pl.p pl.n) / inner ray.dir pl.n, fun t' => ?_, ?_⟩
    · rw [eq_div_iff hne]
      unfold OnPlane
      simp only [inner, minus, at_, V3.dot]
      constructor <;> intro h <;> linear_combination h
    · unfold rayPlane
      dsimp only
      rw [if_neg (by rw [hl]; linarith), hv]
      generalize -(V3.dot ray.origin pl.n + -V3.dot pl.p pl.n) / inner ray.dir pl.n = t
      have hp : ray.origin.add (V3.smul t ray.dir) = at_ ray t := by
        unfold V3.add V3.smul V3.mulS at_; congr 1 <;> ring
      rw [hp]
      have hc : (F.gt t (F.lit 0) && F.lt t old.t) = true ↔ 0 < t ∧ t < old.t := by
        rw [Bool.and_eq_true, R.gt, R.lt, R.lit]; push_cast; rfl
      exact ⟨fun h => if_pos (hc.2 h), fun h => if_neg fun h' => h (hc.1 h')⟩
  · intro h
    unfold rayPlane
    dsimp only
    rw [if_pos (hl.2 h)]

/-! ### C95 -/

theorem enters_unique {ray : Ray ℝ} (hd : IsUnit3 ray.dir) {s : Sphere ℝ} {t t' : ℝ} (h : Enters ray s t) (h' : Enters ray s t') : t = t' := by
  obtain ⟨_, h1, u, hu, h2⟩ := h
  obtain ⟨_, h1', u', hu', h2'⟩ := h'
  rw [onSphere_iff hd] at *
  generalize V3.dot (ray.origin.sub s.center) ray.dir = b at *
  generalize V3.dot (ray.origin.sub s.center) (ray.origin.sub s.center) - s.radius * s.radius = c at *
  have root : ∀ t u : ℝ, t < u → t ^ 2 + 2 * b * t + c = 0 → u ^ 2 + 2 * b * u + c = 0 → t + b < 0 ∧ (t + b) ^ 2 = b ^ 2 - c := by
    intro t u htu e1 e2
    have : (u - t) * (t + u + 2 * b) = 0 := by linear_combination e2 - e1
    have hs : t + u + 2 * b = 0 := (mul_eq_zero.1 this).resolve_left (by linarith)
    exact ⟨by linarith, by linear_combination e1⟩
  obtain ⟨a1, a2⟩ := root _ _ hu h1 h2
  obtain ⟨b1, b2⟩ := root _ _ hu' h1' h2'
  have : (t - t') * ((t + b) + (t' + b)) = 0 := by linear_combination a2 - b2
  have := (mul_eq_zero.1 this).resolve_right (by linarith)
  linarith

theorem meets_unique (R : IsReal F) {ray : Ray ℝ} {pl : Plane ℝ} {t t' : ℝ} (h : Meets ray pl t) (h' : Meets ray pl t') : t = t' := by
  obtain ⟨u, hu, _⟩ := (C94_plane R ray pl (Isect.default F)).1 h.2.2
  rw [(hu t).1 h.2.1, (hu t').1 h'.2.1]

theorem raySphere_cases (R : IsReal F) (ray : Ray ℝ) (hd : IsUnit3 ray.dir) (s : Sphere ℝ) (old : Isect ℝ) :
    (∃ t n, Enters ray s t ∧ t < old.t ∧ raySphere F ray s old = ⟨t, at_ ray t, n, true⟩ ∧ OutwardNormal s (at_ ray t) n) ∨
    (raySphere F ray s old = old ∧ ∀ t, Enters ray s t → old.t ≤ t) := by
  by_cases h : ∃ t₁ t₂, t₁ < t₂ ∧ OnSphere s (at_ ray t₁) ∧ OnSphere s (at_ ray t₂)
  · obtain ⟨t₁, t₂, ht, h1, h2⟩ := h
    obtain ⟨n, hn, hy, hno⟩ := C94_sphere R ray hd s old t₁ t₂ ht h1 h2
    by_cases hc : 0 < t₁ ∧ t₁ < old.t
    · exact .inl ⟨t₁, n, ⟨hc.1, h1, t₂, ht, h2⟩, hc.2, hy hc, hn⟩
    · refine .inr ⟨hno hc, fun t hent => ?_⟩
      obtain ⟨m, _, hy', hno'⟩ := C94_sphere R ray hd s { old with t := t + 1 } t hent.2.2.choose hent.2.2.choose_spec.1 hent.2.1 hent.2.2.choose_spec.2
      by_cases h0 : 0 < t₁
      · have : t = t₁ := enters_unique hd hent ⟨h0, h1, t₂, ht, h2⟩
        rw [this]
        by_contra hlt
        exact hc ⟨h0, not_le.1 hlt⟩
      · exfalso
        -- both `t` and `t₁` are the smaller of two parameters on the sphere
        obtain ⟨k, _, hky, hkn⟩ := C94_sphere R ray hd s { old with t := t + 1, hit := false } t₁ t₂ ht h1 h2
        obtain ⟨m, _, hmy, _⟩ := C94_sphere R ray hd s { old with t := t + 1, hit := false } t hent.2.2.choose hent.2.2.choose_spec.1 hent.2.1 hent.2.2.choose_spec.2
        have e1 := hmy ⟨hent.1, by simp⟩
        have e2 := hkn fun hh => h0 hh.1
        rw [e1] at e2
        have := congrArg Isect.hit e2
        simp at this
  · refine .inr ⟨C94_sphere_miss R ray hd s old h, fun t hent => ?_⟩
    obtain ⟨_, h1, t', ht, h2⟩ := hent
    exact absurd ⟨t, t', ht, h1, h2⟩ h

theorem rayPlane_cases (R : IsReal F) (ray : Ray ℝ) (pl : Plane ℝ) (old : Isect ℝ) :
    (∃ t, Meets ray pl t ∧ t < old.t ∧ rayPlane F ray pl old = ⟨t, at_ ray t, pl.n, true⟩) ∨
    (rayPlane F ray pl old = old ∧ ∀ t, Meets ray pl t → old.t ≤ t) := by
  by_cases h : 1 / 10 ^ 17 ≤ |inner ray.dir pl.n|
  · obtain ⟨t, ht, hy, hno⟩ := (C94_plane R ray pl old).1 h
    by_cases hc : 0 < t ∧ t < old.t
    · exact .inl ⟨t, ⟨hc.1, (ht t).2 rfl, h⟩, hc.2, hy hc⟩
    · refine .inr ⟨hno hc, fun t' hm => ?_⟩
      have : t' = t := (ht t').1 hm.2.1
      subst this
      by_contra hlt
      exact hc ⟨hm.1, not_le.1 hlt⟩
  · exact .inr ⟨(C94_plane R ray pl old).2 (not_le.1 h), fun t hm => absurd hm.2.2 h⟩

/-- What is known after the spheres `ss`. -/
def CastInv (ray : Ray ℝ) (ss : List (Sphere ℝ)) (a : Isect ℝ) : Prop :=
  (a.hit = false ∧ a.t = 10 ^ 17 ∧ ∀ s ∈ ss, ∀ t, Enters ray s t → 10 ^ 17 ≤ t) ∨
  (a.hit = true ∧ a.t < 10 ^ 17 ∧ a.p = at_ ray a.t ∧ (∃ s ∈ ss, Enters ray s a.t ∧ OutwardNormal s a.p a.n) ∧
    ∀ s ∈ ss, ∀ t, Enters ray s t → a.t ≤ t)

theorem castInv_fold (R : IsReal F) (ray : Ray ℝ) (hd : IsUnit3 ray.dir) : ∀ (ss done : List (Sphere ℝ)) (a : Isect ℝ), CastInv ray done a →
    CastInv ray (done ++ ss) (ss.foldl (fun isect s => raySphere F ray s isect) a) := by
  intro ss
  induction ss with
  | nil => intro done a h; simpa using h
  | cons s ss ih =>
    intro done a h
    have : CastInv ray (done ++ [s]) (raySphere F ray s a) := by
      rcases raySphere_cases R ray hd s a with ⟨t, n, h1, h2, h3, h4⟩ | ⟨h1, h2⟩
      · rw [h3]
        refine .inr ⟨rfl, ?_, rfl, ⟨s, by simp, h1, h4⟩, ?_⟩
        · rcases h with ⟨_, e, _⟩ | ⟨_, e, _⟩
          · rw [← e]; exact h2
          · exact lt_trans h2 e
        · intro s' hs' t' ht'
          rcases List.mem_append.1 hs' with hs' | hs'
          · rcases h with ⟨_, e, hall⟩ | ⟨_, _, _, _, hall⟩
            · exact le_trans (by rw [e] at h2; exact h2.le) (hall s' hs' t' ht')
            · exact le_trans h2.le (hall s' hs' t' ht')
          · rw [List.mem_singleton.1 hs'] at ht'
            exact (enters_unique hd h1 ht').le
      · rw [h1]
        rcases h with ⟨e1, e2, hall⟩ | ⟨e1, e2, e3, ⟨s0, hs0, e4⟩, hall⟩
        · refine .inl ⟨e1, e2, fun s' hs' t' ht' => ?_⟩
          rcases List.mem_append.1 hs' with hs' | hs'
          · exact hall s' hs' t' ht'
          · rw [List.mem_singleton.1 hs'] at ht'
            rw [← e2]; exact h2 t' ht'
        · refine .inr ⟨e1, e2, e3, ⟨s0, by simp [hs0], e4⟩, fun s' hs' t' ht' => ?_⟩
          rcases List.mem_append.1 hs' with hs' | hs'
          · exact hall s' hs' t' ht'
          · rw [List.mem_singleton.1 hs'] at ht'
            exact h2 t' ht'
    have := ih (done ++ [s]) _ this
    simpa using this

/-- C95: intersecting a ray (of unit direction) with all the spheres and the plane of a scene reports a hit exactly if the ray meets the scene
at some parameter below `10^17`, and then the reported parameter is the smallest one, with the point and the normal of the surface there. -/
theorem C95_nearest (R : IsReal F) (ray : Ray ℝ) (hd : IsUnit3 ray.dir) (pl : Plane ℝ) (ss : List (Sphere ℝ)) :
    ((castRay F pl ss ray).hit = true ↔ ∃ t, MeetsScene ray pl ss t ∧ t < 10 ^ 17) ∧
    ((castRay F pl ss ray).hit = true → MeetsScene ray pl ss (castRay F pl ss ray).t ∧ (∀ t, MeetsScene ray pl ss t → (castRay F pl ss ray).t ≤ t) ∧
      (castRay F pl ss ray).p = at_ ray (castRay F pl ss ray).t ∧
      ((∃ s ∈ ss, Enters ray s (castRay F pl ss ray).t ∧ OutwardNormal s (castRay F pl ss ray).p (castRay F pl ss ray).n) ∨
        Meets ray pl (castRay F pl ss ray).t ∧ (castRay F pl ss ray).n = pl.n)) := by
  have h0 : CastInv ray [] (Isect.default F) := .inl ⟨rfl, by simp [Isect.default, R.lit]; norm_num, by simp⟩
  have h1 := castInv_fold R ray hd ss [] _ h0
  rw [List.nil_append] at h1
  unfold castRay
  dsimp only
  generalize ss.foldl (fun isect s => raySphere F ray s isect) (Isect.default F) = a at *
  rcases rayPlane_cases R ray pl a with ⟨t, h2, h3, h4⟩ | ⟨h2, h3⟩
  · rw [h4]
    have hlt : t < 10 ^ 17 := by
      rcases h1 with ⟨_, e, _⟩ | ⟨_, e, _⟩
      · rw [← e]; exact h3
      · exact lt_trans h3 e
    refine ⟨⟨fun _ => ⟨t, .inr h2, hlt⟩, fun _ => rfl⟩, fun _ => ⟨.inr h2, fun t' ht' => ?_, rfl, .inr ⟨h2, rfl⟩⟩⟩
    rcases ht' with ⟨s, hs, he⟩ | hm
    · rcases h1 with ⟨_, e, hall⟩ | ⟨_, e, _, _, hall⟩
      · exact le_trans hlt.le (hall s hs t' he)
      · exact le_trans h3.le (hall s hs t' he)
    · exact (meets_unique R h2 hm).le
  · rw [h2]
    rcases h1 with ⟨e1, e2, hall⟩ | ⟨e1, e2, e3, ⟨s0, hs0, e4⟩, hall⟩
    · have hno : ¬ ∃ t, MeetsScene ray pl ss t ∧ t < 10 ^ 17 := by
        rintro ⟨t, ⟨s, hs, he⟩ | hm, hlt⟩
        · exact absurd (hall s hs t he) (not_le.2 hlt)
        · have := h3 t hm
          rw [e2] at this
          exact absurd this (not_le.2 hlt)
      refine ⟨⟨fun h => by rw [e1] at h; simp at h, fun h => absurd h hno⟩, fun h => by rw [e1] at h; simp at h⟩
    · refine ⟨⟨fun _ => ⟨a.t, .inl ⟨s0, hs0, e4.1⟩, e2⟩, fun _ => e1⟩, fun _ => ⟨.inl ⟨s0, hs0, e4.1⟩, fun t ht => ?_, e3, .inl ⟨s0, hs0, e4⟩⟩⟩
      rcases ht with ⟨s, hs, he⟩ | hm
      · exact hall s hs t he
      · exact h3 t hm

/-- Real arithmetic. -/
noncomputable def realFns : Fns ℝ where
  lit q := q
  ofUsize k := k
  abs x := max x (-x)
  sqrt := Real.sqrt
  sqrte := Real.sqrt
  mulAdde a b c := a * b + c
  sin := Real.sin
  cos := Real.cos
  pi := Real.pi
  sinCosPi x := (Real.sin (x * Real.pi), Real.cos (x * Real.pi))
  lt a b := decide (a < b)
  gt a b := decide (b < a)
  ge a b := decide (b ≤ a)

theorem realFns_real : IsReal realFns := by
  refine { lit := ?_, ofUsize := ?_, abs := ?_, sqrte := ?_, mulAdde := ?_, lt := ?_, gt := ?_, ge := ?_, sinCosPi := ?_, sqrt := ?_, sin := ?_, cos := ?_, pi := ?_ } <;>
    intros <;> simp [realFns]

-- a ray down from (-2, 2, -3.5) enters the first sphere of the scenes at parameter 3/2 and would meet the plane at 5/2
example : IsUnit3 (⟨0, -1, 0⟩ : V3 ℝ) ∧ Enters ⟨⟨-2, 2, -7 / 2⟩, ⟨0, -1, 0⟩⟩ ⟨⟨-2, 0, -7 / 2⟩, 1 / 2⟩ (3 / 2) ∧
    Meets ⟨⟨-2, 2, -7 / 2⟩, ⟨0, -1, 0⟩⟩ ⟨⟨0, -1 / 2, 0⟩, ⟨0, 1, 0⟩⟩ (5 / 2) := by
  refine ⟨by norm_num [IsUnit3, inner], ⟨by norm_num, by norm_num [OnSphere, inner, minus, at_], 5 / 2, by norm_num, by norm_num [OnSphere, inner, minus, at_]⟩,
    by norm_num, by norm_num [OnPlane, inner, minus, at_], by norm_num [inner]⟩

/-! ### C96 -/

/-- Three mutually perpendicular unit vectors, right-handed. -/
def Orthonormal (a b c : V3 ℝ) : Prop :=
  IsUnit3 a ∧ IsUnit3 b ∧ IsUnit3 c ∧ inner a b = 0 ∧ inner a c = 0 ∧ inner b c = 0 ∧
  a.y * b.z - a.z * b.y = c.x ∧ a.z * b.x - a.x * b.z = c.y ∧ a.x * b.y - a.y * b.x = c.z

theorem normalized_scale (R : IsReal F) (v : V3 ℝ) (hv : 0 < inner v v) : ∃ k, 0 < k ∧ k * k * inner v v = 1 ∧ V3.normalized F v = scale k v := by
  have hs : 0 < Real.sqrt (inner v v) := Real.sqrt_pos.2 hv
  refine ⟨1 / Real.sqrt (inner v v), by positivity, ?_, ?_⟩
  · have := Real.mul_self_sqrt hv.le
    field_simp
    rw [sq, this]
  · unfold V3.normalized V3.smul V3.mulS scale
    simp only [R.sqrt, R.lit, show V3.dot v v = inner v v from rfl]
    push_cast
    congr 1 <;> ring

/-- The chosen axis is a unit vector that makes an angle of more than 53 degrees with the normal. -/
theorem axis_spec (R : IsReal F) (n : V3 ℝ) (hn : IsUnit3 n) : IsUnit3 (V3.axis F n) ∧ inner (V3.axis F n) n ^ 2 < 0.36 := by
  have hb : ∀ x : ℝ, (F.lt x (F.lit 0.6) && F.gt x (F.lit (-0.6))) = true ↔ -0.6 < x ∧ x < 0.6 := by
    intro x
    rw [Bool.and_eq_true, R.lt, R.gt, R.lit, R.lit, and_comm]; push_cast; norm_num
  have hsq : ∀ x : ℝ, -0.6 < x ∧ x < 0.6 → x ^ 2 < 0.36 := by
    intro x h; nlinarith [h.1, h.2]
  have hsq' : ∀ x : ℝ, ¬ (-0.6 < x ∧ x < 0.6) → 0.36 ≤ x * x := by
    intro x h
    by_contra h2
    apply h
    constructor <;> nlinarith
  unfold V3.axis V3.zero
  dsimp only
  simp only [hb]
  simp only [R.lit]
  split_ifs with h1 h2 h3
  · have := hsq _ h1; simp [IsUnit3, inner]; norm_num at this ⊢; exact this
  · have := hsq _ h2; simp [IsUnit3, inner]; norm_num at this ⊢; exact this
  · have := hsq _ h3; simp [IsUnit3, inner]; norm_num at this ⊢; exact this
  · exfalso
    have a := hsq' _ h1
    have b := hsq' _ h2
    have c := hsq' _ h3
    unfold IsUnit3 inner at hn
    norm_num at a b c
    linarith

/-- C96: the basis built on a unit normal is orthonormal and right-handed, and its third vector is the normal. -/
theorem C96_basis (R : IsReal F) (n : V3 ℝ) (hn : IsUnit3 n) :
    Orthonormal (V3.orthoBasis F n).b0 (V3.orthoBasis F n).b1 (V3.orthoBasis F n).b2 ∧ (V3.orthoBasis F n).b2 = n := by
  refine ⟨?_, rfl⟩
  obtain ⟨ha, hlt⟩ := axis_spec R n hn
  unfold V3.orthoBasis
  dsimp only
  generalize V3.axis F n = a at *
  have hc : inner (V3.cross a n) (V3.cross a n) = 1 - inner a n ^ 2 := by
    unfold IsUnit3 at ha hn
    simp only [inner, V3.cross] at *
    linear_combination (n.x * n.x + n.y * n.y + n.z * n.z) * ha + hn
  have hpos : 0 < inner (V3.cross a n) (V3.cross a n) := by rw [hc]; norm_num at hlt; linarith
  have hperp : inner (V3.cross a n) n = 0 := by simp only [inner, V3.cross]; ring
  obtain ⟨k, hk, hk1, e⟩ := normalized_scale R _ hpos
  rw [e]
  generalize V3.cross a n = c at *
  have u0 : IsUnit3 (scale k c) := by
    unfold IsUnit3; simp only [inner, scale] at *; linear_combination hk1
  have p0 : inner (scale k c) n = 0 := by
    simp only [inner, scale] at *; linear_combination k * hperp
  generalize scale k c = b0 at *
  have h1 : inner (V3.cross n b0) (V3.cross n b0) = 1 := by
    unfold IsUnit3 at u0 hn
    simp only [inner, V3.cross] at *
    linear_combination (n.x * n.x + n.y * n.y + n.z * n.z) * u0 + hn - (b0.x * n.x + b0.y * n.y + b0.z * n.z) * p0
  obtain ⟨m, hm, hm1, e'⟩ := normalized_scale R (V3.cross n b0) (by rw [h1]; norm_num)
  have m1 : m = 1 := by rw [h1] at hm1; nlinarith
  rw [e', m1]
  unfold IsUnit3 at *
  refine ⟨u0, ?_, hn, ?_, p0, ?_, ?_, ?_, ?_⟩
  · show inner _ _ = 1
    simp only [inner, scale, V3.cross] at *; linear_combination h1
  · simp only [inner, scale, V3.cross]; ring
  · simp only [inner, scale, V3.cross]; ring
  · simp only [inner, scale, V3.cross] at *; linear_combination n.x * u0 - b0.x * p0
  · simp only [inner, scale, V3.cross] at *; linear_combination n.y * u0 - b0.y * p0
  · simp only [inner, scale, V3.cross] at *; linear_combination n.z * u0 - b0.z * p0

example : IsUnit3 (⟨3 / 5, 0, 4 / 5⟩ : V3 ℝ) := by norm_num [IsUnit3, inner]

/-! ### C97 -/

theorem inner_mulM {a b c : V3 ℝ} (u0 : IsUnit3 a) (u1 : IsUnit3 b) (u2 : IsUnit3 c) (p01 : inner a b = 0) (p02 : inner a c = 0) (p12 : inner b c = 0)
    (p q z : ℝ) : inner (V3.mulM ⟨a, b, c⟩ ⟨p, q, z⟩) a = p ∧ inner (V3.mulM ⟨a, b, c⟩ ⟨p, q, z⟩) b = q ∧ inner (V3.mulM ⟨a, b, c⟩ ⟨p, q, z⟩) c = z ∧
    inner (V3.mulM ⟨a, b, c⟩ ⟨p, q, z⟩) (V3.mulM ⟨a, b, c⟩ ⟨p, q, z⟩) = p ^ 2 + q ^ 2 + z ^ 2 := by
  unfold IsUnit3 at *
  simp only [inner, V3.mulM, V3.dot] at *
  refine ⟨?_, ?_, ?_, ?_⟩
  · linear_combination p * u0 + q * p01 + z * p02
  · linear_combination q * u1 + p * p01 + z * p12
  · linear_combination z * u2 + p * p02 + q * p12
  · linear_combination p ^ 2 * u0 + q ^ 2 * u1 + z ^ 2 * u2 + 2 * p * q * p01 + 2 * p * z * p02 + 2 * q * z * p12

/-- C97: for random numbers `r₁` in `[0, 1]` and any `r₂` the direction of a sample is a unit vector in the hemisphere of the normal: its component
along the normal is `√(1 - r₁)`, and the components along the other two vectors of the basis are `√r₁ cos 2πr₂` and `√r₁ sin 2πr₂`. -/
theorem C97_sample_direction (R : IsReal F) (n : V3 ℝ) (hn : IsUnit3 n) (r₁ r₂ : ℝ) (h0 : 0 ≤ r₁) (h1 : r₁ ≤ 1) :
    let B := V3.orthoBasis F n
    let d := sampleDir F B r₁ r₂
    IsUnit3 d ∧ inner d n = Real.sqrt (1 - r₁) ∧ inner d B.b0 = Real.sqrt r₁ * Real.cos (2 * Real.pi * r₂) ∧
    inner d B.b1 = Real.sqrt r₁ * Real.sin (2 * Real.pi * r₂) := by
  intro B d
  obtain ⟨⟨u0, u1, u2, p01, p02, p12, -⟩, e2⟩ := C96_basis R n hn
  have hs : Real.sqrt r₁ * Real.sqrt r₁ = r₁ := Real.mul_self_sqrt h0
  have hz : Real.sqrt (1 - r₁) * Real.sqrt (1 - r₁) = 1 - r₁ := Real.mul_self_sqrt (by linarith)
  have ht := Real.cos_sq_add_sin_sq (2 * Real.pi * r₂)
  have hd : d = V3.mulM B ⟨Real.cos (2 * Real.pi * r₂) * Real.sqrt r₁, Real.sin (2 * Real.pi * r₂) * Real.sqrt r₁, Real.sqrt (1 - r₁)⟩ := by
    simp only [d, sampleDir, R.sqrt, R.cos, R.sin, R.pi, R.lit]
    push_cast
    rw [hs]
  have hB : B = ⟨(V3.orthoBasis F n).b0, (V3.orthoBasis F n).b1, n⟩ := rfl
  rw [hd, hB]
  rw [e2] at u2 p02 p12
  obtain ⟨c1, c2, c3, c4⟩ := inner_mulM u0 u1 u2 p01 p02 p12 (Real.cos (2 * Real.pi * r₂) * Real.sqrt r₁)
    (Real.sin (2 * Real.pi * r₂) * Real.sqrt r₁) (Real.sqrt (1 - r₁))
  refine ⟨?_, c3, by rw [c1, mul_comm], by rw [c2, mul_comm]⟩
  unfold IsUnit3
  rw [c4]
  linear_combination hz + (Real.cos (2 * Real.pi * r₂) ^ 2 + Real.sin (2 * Real.pi * r₂) ^ 2) * hs + r₁ * ht

example : (0 : ℝ) ≤ 1 / 3 ∧ (1 / 3 : ℝ) ≤ 1 := by norm_num

end PackedSimd.Props
