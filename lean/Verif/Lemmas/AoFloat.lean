import Verif.Lemmas.F32Real
import Mathlib.Tactic.NormNum
/-
aobench in `f32`: errors of the vector operations.
-/
namespace PackedSimd.F32R
open Spec Ex Ex.Ao Spec.Ao

/-! ### Normalizing -/

/-- `n` is the vector `e` up to the rounding errors of normalizing. -/
def CloseV (n e : V3 ℝ) : Prop := |n.x - e.x| ≤ 4.7 * (ν * |e.x|) + η ∧ |n.y - e.y| ≤ 4.7 * (ν * |e.y|) + η ∧ |n.z - e.z| ≤ 4.7 * (ν * |e.z|) + η

/-- The factor by which a vector is scaled. -/
theorem factor_err {S L g : ℝ} (hS : 0 < S) (hL : |L - S| ≤ 3.1 * (ν * S)) (hg : |g - 1 / √L| ≤ 2.01 * (ν * (1 / √L))) : |g * √S - 1| ≤ 3.6 * ν := by
  have hν := ν_pos
  have hνl := ν_le
  have hL0 : 0 < L := by
    have := neg_abs_le (L - S)
    have h2 : ν * S ≤ 1 / 16000000 * S := mul_le_mul_of_nonneg_right hνl hS.le
    linarith
  have r0 : 0 < √S := Real.sqrt_pos.2 hS
  have l0 : 0 < √L := Real.sqrt_pos.2 hL0
  have rr : √S * √S = S := Real.mul_self_sqrt hS.le
  have ll : √L * √L = L := Real.mul_self_sqrt hL0.le
  set ρ := √S with hρ
  set l := √L with hl
  set w := l / ρ with hw
  have w0 : 0 < w := div_pos l0 r0
  have hww : |w * w - 1| ≤ 3.1 * ν := by
    have : w * w - 1 = (L - S) / S := by
      rw [hw, ← rr, ← ll]
      field_simp
    rw [this, abs_div, abs_of_pos hS, div_le_iff₀ hS]
    linarith
  have h1 : |w - 1| * (w + 1) ≤ 3.1 * ν := by
    have : w * w - 1 = (w - 1) * (w + 1) := by ring
    rw [this, abs_mul, abs_of_pos (by linarith : (0 : ℝ) < w + 1)] at hww
    exact hww
  have h2 : |w - 1| ≤ 3.1 * ν := by
    have : |w - 1| * 1 ≤ |w - 1| * (w + 1) := mul_le_mul_of_nonneg_left (by linarith) (abs_nonneg _)
    linarith
  have h3 : (1.99 : ℝ) ≤ w + 1 := by
    have := neg_abs_le (w - 1)
    linarith
  have h4 : |w - 1| ≤ 1.56 * ν := by
    have : |w - 1| * 1.99 ≤ |w - 1| * (w + 1) := mul_le_mul_of_nonneg_left h3 (abs_nonneg _)
    linarith
  have h5 : (0.999 : ℝ) ≤ w := by
    have := neg_abs_le (w - 1)
    linarith
  -- the inverse
  have hinv : 1 / l * ρ = 1 / w := by rw [hw]; field_simp
  have h6 : |1 / w - 1| ≤ 1.565 * ν := by
    have : 1 / w - 1 = -(w - 1) / w := by field_simp; ring
    rw [this, abs_div, abs_neg, abs_of_pos w0, div_le_iff₀ w0]
    have : 1.565 * ν * 0.999 ≤ 1.565 * ν * w := mul_le_mul_of_nonneg_left h5 (by positivity)
    linarith
  have h7 : |g * ρ - 1 / w| ≤ 2.01 * (ν * (1 / w)) := by
    have : g * ρ - 1 / w = (g - 1 / l) * ρ := by rw [← hinv]; ring
    rw [this, abs_mul, abs_of_pos r0]
    have := mul_le_mul_of_nonneg_right hg r0.le
    rw [← hinv]
    linarith
  have h8 : 1 / w ≤ 1.002 := by
    rw [div_le_iff₀ w0]
    linarith
  have h9 : ν * (1 / w) ≤ ν * 1.002 := mul_le_mul_of_nonneg_left h8 hν.le
  have : g * ρ - 1 = (g * ρ - 1 / w) + (1 / w - 1) := by ring
  rw [this]
  refine (abs_add_le _ _).trans ?_
  linarith

/-- One component. -/
theorem comp_err {g ρ v n : ℝ} (hρ : 0 < ρ) (hk : |g * ρ - 1| ≤ 3.6 * ν) (hn : |n - g * v| ≤ ν * |g * v| + η) :
    |n - 1 / ρ * v| ≤ 4.7 * (ν * |1 / ρ * v|) + η := by
  have hν := ν_pos
  have hνl := ν_le
  set e := 1 / ρ * v with he
  have hgv : g * v = (g * ρ) * e := by rw [he]; field_simp
  rw [hgv, abs_mul] at hn
  set k := g * ρ with hkk
  have hk1 : |k| ≤ 1.001 := by
    have : k = (k - 1) + 1 := by ring
    rw [this]
    refine (abs_add_le _ _).trans ?_
    rw [abs_one]
    linarith
  have h1 : ν * (|k| * |e|) ≤ 1.001 * (ν * |e|) := by
    have := mul_le_mul_of_nonneg_right hk1 (mul_nonneg hν.le (abs_nonneg e))
    linarith
  have h2 : |k * e - e| ≤ 3.6 * (ν * |e|) := by
    have : k * e - e = (k - 1) * e := by ring
    rw [this, abs_mul]
    have := mul_le_mul_of_nonneg_right hk (abs_nonneg e)
    linarith
  have : n - e = (n - k * e) + (k * e - e) := by ring
  rw [this]
  have h3 : 0 ≤ ν * |e| := mul_nonneg hν.le (abs_nonneg _)
  refine (abs_add_le _ _).trans ?_
  linarith

/-- What the two ways of normalizing have in common: the result is near the vector divided by its length. -/
def NormOk (nrm : V3 F32 → V3 F32) : Prop := ∀ v, FiniteV v → 1 / 2 ^ 100 ≤ inner (toReal v) (toReal v) → inner (toReal v) (toReal v) ≤ 2 ^ 100 →
  FiniteV (nrm v) ∧ CloseV (toReal (nrm v)) (scale (1 / √(inner (toReal v) (toReal v))) (toReal v))

theorem absInner_self (v : V3 ℝ) : absInner v v = inner v v := by
  unfold absInner inner
  rw [abs_mul_self, abs_mul_self, abs_mul_self]

theorem sq_le_inner (v : V3 ℝ) : v.x * v.x ≤ inner v v ∧ v.y * v.y ≤ inner v v ∧ v.z * v.z ≤ inner v v := by
  unfold inner
  have h1 := mul_self_nonneg v.x
  have h2 := mul_self_nonneg v.y
  have h3 := mul_self_nonneg v.z
  exact ⟨by linarith, by linarith, by linarith⟩

theorem roomy32 : Roomy 32 23 75 :=
  ⟨by decide +kernel, by decide +kernel, by decide +kernel, by decide +kernel, by decide +kernel, by decide +kernel⟩

/-- The factor as computed. -/
theorem factor_ok {dot : V3 F32 → V3 F32 → F32} (hd : DotOk dot) {sqrt : F32 → F32} (hs : RootOk sqrt) {one : F32} (h1 : one.bits = Flt.fromInt 32 23 1)
    (v : V3 F32) (hv : FiniteV v) (l1 : 1 / 2 ^ 100 ≤ inner (toReal v) (toReal v)) (l2 : inner (toReal v) (toReal v) ≤ 2 ^ 100) :
    Fin' (one / sqrt (dot v v)) ∧ |rv (one / sqrt (dot v v)) * √(inner (toReal v) (toReal v)) - 1| ≤ 3.6 * ν := by
  have hν := ν_pos
  have hη := η_pos
  set S := inner (toReal v) (toReal v) with hS
  obtain ⟨f, e⟩ := hd v v hv hv (by rw [absInner_self, ← hS]; exact l2.trans (by norm_num))
  rw [absInner_self, ← hS] at e
  have hηS : 7 * η ≤ 0.09 * (ν * S) := by
    have : 1 / 2 ^ 100 * ν ≤ S * ν := mul_le_mul_of_nonneg_right l1 hν.le
    have h2 : 7 * η ≤ 0.09 * (1 / 2 ^ 100 * ν) := by unfold η ν; norm_num
    linarith
  have hS0 : 0 < S := lt_of_lt_of_le (by norm_num) l1
  have hνS : 0 ≤ ν * S := by positivity
  have hL : |rv (dot v v) - S| ≤ 3.1 * (ν * S) := by linarith
  have hL0 : 0 < rv (dot v v) := by
    have := neg_abs_le (rv (dot v v) - S)
    have h2 : ν * S ≤ 1 / 16000000 * S := mul_le_mul_of_nonneg_right ν_le hS0.le
    linarith
  obtain ⟨g1, g2⟩ := rsqrt_error fmt roomy32 (x := (dot v v).bits) hL0 (hs (dot v v))
  rw [← h1] at g1 g2
  refine ⟨g1, factor_err hS0 hL ?_⟩
  refine g2.trans ?_
  rw [u_eq, ← mul_assoc]
  refine mul_le_mul_of_nonneg_right ?_ (by positivity)
  rw [div_le_iff₀ (by linarith [ν_le])]
  nlinarith [ν_le, ν_pos]

theorem comp_bound {g ρ v : ℝ} (hρ : 1 / 2 ^ 50 ≤ ρ) (hk : |g * ρ - 1| ≤ 3.6 * ν) (hv : |v| ≤ 2 ^ 50) : |g * v| < 2 ^ 127 := by
  have h0 : (0 : ℝ) < ρ := lt_of_lt_of_le (by norm_num) hρ
  have hk1 : |g * ρ| ≤ 2 := by
    have : g * ρ = (g * ρ - 1) + 1 := by ring
    rw [this]
    refine (abs_add_le _ _).trans ?_
    rw [abs_one]
    linarith [ν_le]
  rw [abs_mul, abs_of_pos h0] at hk1
  have hg : |g| ≤ 2 * 2 ^ 50 := by
    have h3 : |g| * (1 / 2 ^ 50) ≤ |g| * ρ := mul_le_mul_of_nonneg_left hρ (abs_nonneg _)
    norm_num at h3 ⊢
    linarith
  rw [abs_mul]
  calc |g| * |v| ≤ (2 * 2 ^ 50) * 2 ^ 50 := mul_le_mul hg hv (abs_nonneg _) (by norm_num)
    _ < 2 ^ 127 := by norm_num

theorem abs_le_of_sq {v S : ℝ} (h : v * v ≤ S) (hS : S ≤ 2 ^ 100) : |v| ≤ 2 ^ 50 := by
  apply abs_le_of_sq_le_sq _ (by norm_num)
  rw [sq, ← pow_mul]
  exact (h.trans hS).trans (by norm_num)

theorem sqrt_ge {S : ℝ} (l1 : 1 / 2 ^ 100 ≤ S) : 1 / 2 ^ 50 ≤ √S := by
  apply Real.le_sqrt_of_sq_le
  exact le_trans (by norm_num) l1

theorem smul_normOk {dot : V3 F32 → V3 F32 → F32} (hd : DotOk dot) {sqrt : F32 → F32} (hs : RootOk sqrt) {one : F32} (h1 : one.bits = Flt.fromInt 32 23 1) :
    NormOk (fun v => V3.smul (one / sqrt (dot v v)) v) ∧ NormOk (fun v => msmul (one / sqrt (dot v v)) v) := by
  have key : ∀ v, FiniteV v → 1 / 2 ^ 100 ≤ inner (toReal v) (toReal v) → inner (toReal v) (toReal v) ≤ 2 ^ 100 → ∀ c : F32, Fin' c →
      rv c * rv c ≤ inner (toReal v) (toReal v) → (Fin' (one / sqrt (dot v v) * c) ∧
        |rv (one / sqrt (dot v v) * c) - 1 / √(inner (toReal v) (toReal v)) * rv c| ≤ 4.7 * (ν * |1 / √(inner (toReal v) (toReal v)) * rv c|) + η) ∧
      (Fin' (c * (one / sqrt (dot v v))) ∧
        |rv (c * (one / sqrt (dot v v))) - 1 / √(inner (toReal v) (toReal v)) * rv c| ≤ 4.7 * (ν * |1 / √(inner (toReal v) (toReal v)) * rv c|) + η) := by
    intro v hv l1 l2 c hc hcS
    obtain ⟨f, e⟩ := factor_ok hd hs h1 v hv l1 l2
    have hρ := sqrt_ge l1
    have h0 : 0 < √(inner (toReal v) (toReal v)) := lt_of_lt_of_le (by norm_num) hρ
    have hb := comp_bound hρ e (abs_le_of_sq hcS l2)
    obtain ⟨m1, m2⟩ := mul_ok f hc hb
    obtain ⟨m3, m4⟩ := mul_ok hc f (by rw [mul_comm]; exact hb)
    rw [mul_comm (rv c)] at m4
    exact ⟨⟨m1, comp_err h0 e m2⟩, ⟨m3, comp_err h0 e m4⟩⟩
  constructor
  · intro v hv l1 l2
    obtain ⟨q1, q2, q3⟩ := sq_le_inner (toReal v)
    have k1 := (key v hv l1 l2 v.x hv.1 q1).2
    have k2 := (key v hv l1 l2 v.y hv.2.1 q2).2
    have k3 := (key v hv l1 l2 v.z hv.2.2 q3).2
    exact ⟨⟨k1.1, k2.1, k3.1⟩, k1.2, k2.2, k3.2⟩
  · intro v hv l1 l2
    obtain ⟨q1, q2, q3⟩ := sq_le_inner (toReal v)
    have k1 := (key v hv l1 l2 v.x hv.1 q1).1
    have k2 := (key v hv l1 l2 v.y hv.2.1 q2).1
    have k3 := (key v hv l1 l2 v.z hv.2.2 q3).1
    exact ⟨⟨k1.1, k2.1, k3.1⟩, k1.2, k2.2, k3.2⟩

/-! ### Consequences -/

theorem scale_unit {v : V3 ℝ} (h : 0 < inner v v) : IsUnit3 (scale (1 / √(inner v v)) v) := by
  have h1 : √(inner v v) * √(inner v v) = inner v v := Real.mul_self_sqrt h.le
  have h0 : √(inner v v) ≠ 0 := (Real.sqrt_pos.2 h).ne'
  have h2 : inner (scale (1 / √(inner v v)) v) (scale (1 / √(inner v v)) v) = (1 / √(inner v v)) * (1 / √(inner v v)) * inner v v := by
    simp only [inner, scale]; ring
  have h3 : (1 / √(inner v v)) * (1 / √(inner v v)) * (√(inner v v) * √(inner v v)) = 1 := by field_simp
  rw [h1] at h3
  exact h2.trans h3

theorem inner_scale (k : ℝ) (v m : V3 ℝ) : inner (scale k v) m = k * inner v m := by
  simp only [inner, scale]; ring

theorem comp_sq {n e : ℝ} (he : |e| ≤ 1) (h : |n - e| ≤ 4.7 * (ν * |e|) + η) : |n * n - e * e| ≤ 9.41 * (ν * (e * e)) + 0.01 * ν := by
  have hν := ν_pos
  have hνl := ν_le
  have hηl := η_le
  have hee : |e| * |e| = e * e := abs_mul_abs_self e
  have h1 : n * n - e * e = (n - e) * (2 * e + (n - e)) := by ring
  rw [h1, abs_mul]
  have h0 : ν * |e| ≤ ν := mul_le_of_le_one_right hν.le he
  have hd : |n - e| ≤ 5 * ν := by linarith
  have h2 : |2 * e + (n - e)| ≤ 2 * |e| + 5 * ν := by
    refine (abs_add_le _ _).trans ?_
    rw [abs_mul, abs_two]
    linarith
  calc |n - e| * |2 * e + (n - e)| ≤ (4.7 * (ν * |e|) + η) * (2 * |e| + 5 * ν) := mul_le_mul h h2 (abs_nonneg _) (by positivity [η_pos])
    _ = 9.4 * (ν * (e * e)) + 23.5 * (ν * (ν * |e|)) + 2 * (η * |e|) + 5 * (η * ν) := by rw [← hee]; ring
    _ ≤ 9.41 * (ν * (e * e)) + 0.01 * ν := by
      have a1 : ν * (ν * |e|) ≤ 1 / 16000000 * ν := mul_le_mul hνl h0 (by positivity) (by norm_num)
      have a2 : η * |e| ≤ η := mul_le_of_le_one_right η_pos.le he
      have a3 : η * ν ≤ η := mul_le_of_le_one_right η_pos.le (by linarith)
      have a4 : 0 ≤ ν * (e * e) := mul_nonneg hν.le (mul_self_nonneg e)
      linarith

theorem unit_comp {e : V3 ℝ} (h : IsUnit3 e) : |e.x| ≤ 1 ∧ |e.y| ≤ 1 ∧ |e.z| ≤ 1 := by
  obtain ⟨q1, q2, q3⟩ := sq_le_inner e
  unfold IsUnit3 at h
  rw [h] at q1 q2 q3
  have key : ∀ t : ℝ, t * t ≤ 1 → |t| ≤ 1 := fun t ht => abs_le_of_sq_le_sq (by rw [sq]; linarith) (by norm_num)
  exact ⟨key _ q1, key _ q2, key _ q3⟩

theorem close_unit {n e : V3 ℝ} (he : IsUnit3 e) (h : CloseV n e) : |inner n n - 1| ≤ 9.5 * ν := by
  obtain ⟨u1, u2, u3⟩ := unit_comp he
  have c1 := comp_sq u1 h.1
  have c2 := comp_sq u2 h.2.1
  have c3 := comp_sq u3 h.2.2
  have : inner n n - 1 = (n.x * n.x - e.x * e.x) + (n.y * n.y - e.y * e.y) + (n.z * n.z - e.z * e.z) := by
    unfold IsUnit3 at he
    rw [← he]
    simp only [inner]; ring
  rw [this]
  refine (abs_add_three _ _ _).trans ?_
  unfold IsUnit3 inner at he
  have h2 : ν * (e.x * e.x) + ν * (e.y * e.y) + ν * (e.z * e.z) = ν := by rw [← mul_add, ← mul_add, he, mul_one]
  linarith [ν_pos]

theorem abs_prod_le (a b : ℝ) : |a| * |b| ≤ (a * a + b * b) / 2 := by
  have h1 := abs_mul_abs_self a
  have h2 := abs_mul_abs_self b
  have := mul_self_nonneg (|a| - |b|)
  nlinarith

theorem close_inner {n e m : V3 ℝ} (he : IsUnit3 e) (h : CloseV n e) (hm : inner m m ≤ 1.01) : |inner n m - inner e m| ≤ 4.8 * ν := by
  have hν := ν_pos
  have hηl := η_le
  have hη := η_pos
  have : inner n m - inner e m = (n.x - e.x) * m.x + (n.y - e.y) * m.y + (n.z - e.z) * m.z := by simp only [inner]; ring
  rw [this]
  refine (abs_add_three _ _ _).trans ?_
  rw [abs_mul, abs_mul, abs_mul]
  obtain ⟨q1, q2, q3⟩ := sq_le_inner m
  have hm' : ∀ t : ℝ, t * t ≤ inner m m → |t| ≤ 2 := fun t ht => by
    apply abs_le_of_sq_le_sq _ (by norm_num)
    rw [sq]
    linarith
  have key : ∀ d e m : ℝ, |d| ≤ 4.7 * (ν * |e|) + η → |m| ≤ 2 → |d| * |m| ≤ 4.7 * (ν * ((e * e + m * m) / 2)) + 2 * η := by
    intro d e m h1 h2
    have a1 := abs_prod_le e m
    have a2 : ν * (|e| * |m|) ≤ ν * ((e * e + m * m) / 2) := mul_le_mul_of_nonneg_left a1 hν.le
    have a3 : |d| * |m| ≤ (4.7 * (ν * |e|) + η) * |m| := mul_le_mul_of_nonneg_right h1 (abs_nonneg _)
    have a4 : η * |m| ≤ η * 2 := mul_le_mul_of_nonneg_left h2 hη.le
    have a5 : (4.7 * (ν * |e|) + η) * |m| = 4.7 * (ν * (|e| * |m|)) + η * |m| := by ring
    linarith
  have k1 := key _ _ _ h.1 (hm' _ q1)
  have k2 := key _ _ _ h.2.1 (hm' _ q2)
  have k3 := key _ _ _ h.2.2 (hm' _ q3)
  unfold IsUnit3 inner at he
  unfold inner at hm
  have h2 : ν * ((e.x * e.x + m.x * m.x) / 2) + ν * ((e.y * e.y + m.y * m.y) / 2) + ν * ((e.z * e.z + m.z * m.z) / 2) =
    ν * (((e.x * e.x + e.y * e.y + e.z * e.z) + (m.x * m.x + m.y * m.y + m.z * m.z)) / 2) := by ring
  rw [he] at h2
  have h3 : ν * ((1 + (m.x * m.x + m.y * m.y + m.z * m.z)) / 2) ≤ ν * 1.005 := mul_le_mul_of_nonneg_left (by linarith) hν.le
  linarith

/-! ### Cross products -/

theorem cross_perp_left (a b : V3 ℝ) : inner (V3.cross a b) a = 0 := by simp only [inner, V3.cross]; ring
theorem cross_perp_right (a b : V3 ℝ) : inner (V3.cross a b) b = 0 := by simp only [inner, V3.cross]; ring
theorem cross_length (a b : V3 ℝ) : inner (V3.cross a b) (V3.cross a b) = inner a a * inner b b - inner a b * inner a b := by
  simp only [inner, V3.cross]; ring

/-- One component of a cross product. -/
theorem cross_comp {a b c d : F32} (ha : Fin' a) (hb : Fin' b) (hc : Fin' c) (hd : Fin' d) (h : rv a * rv a + rv b * rv b + rv c * rv c + rv d * rv d ≤ 2.02) :
    Fin' (a * b - c * d) ∧ |rv (a * b - c * d) - (rv a * rv b - rv c * rv d)| ≤ 2.03 * ν := by
  have hν := ν_pos
  have hνl := ν_le
  have hηl := η_le
  have hη := η_pos
  have p1 := abs_prod_le (rv a) (rv b)
  have p2 := abs_prod_le (rv c) (rv d)
  rw [← abs_mul] at p1 p2
  have hab : |rv a * rv b| ≤ 1.01 := by nlinarith [mul_self_nonneg (rv c), mul_self_nonneg (rv d)]
  have hcd : |rv c * rv d| ≤ 1.01 := by nlinarith [mul_self_nonneg (rv a), mul_self_nonneg (rv b)]
  have hsum : |rv a * rv b| + |rv c * rv d| ≤ 1.01 := by linarith
  obtain ⟨f1, e1⟩ := mul_ok ha hb (lt_of_le_of_lt hab (by norm_num))
  obtain ⟨f2, e2⟩ := mul_ok hc hd (lt_of_le_of_lt hcd (by norm_num))
  have d1 : |(rv (a * b) - rv (c * d)) - (rv a * rv b - rv c * rv d)| ≤ ν * (|rv a * rv b| + |rv c * rv d|) + 2 * η := by
    have : (rv (a * b) - rv (c * d)) - (rv a * rv b - rv c * rv d) = (rv (a * b) - rv a * rv b) - (rv (c * d) - rv c * rv d) := by ring
    rw [this]
    refine (abs_sub _ _).trans ?_
    linarith
  have d2 : ν * (|rv a * rv b| + |rv c * rv d|) ≤ ν * 1.01 := mul_le_mul_of_nonneg_left hsum hν.le
  have d3 : |rv (a * b) - rv (c * d)| ≤ 1.011 := by
    have : rv (a * b) - rv (c * d) = ((rv (a * b) - rv (c * d)) - (rv a * rv b - rv c * rv d)) + (rv a * rv b - rv c * rv d) := by ring
    rw [this]
    refine (abs_add_le _ _).trans ?_
    have := abs_sub (rv a * rv b) (rv c * rv d)
    linarith
  obtain ⟨f3, e3⟩ := sub_ok f1 f2 (lt_of_le_of_lt d3 (by norm_num))
  refine ⟨f3, ?_⟩
  have d4 : ν * |rv (a * b) - rv (c * d)| ≤ ν * 1.011 := mul_le_mul_of_nonneg_left d3 hν.le
  have : rv (a * b - c * d) - (rv a * rv b - rv c * rv d) = (rv (a * b - c * d) - (rv (a * b) - rv (c * d))) + ((rv (a * b) - rv (c * d)) - (rv a * rv b - rv c * rv d)) := by ring
  rw [this]
  refine (abs_add_le _ _).trans ?_
  linarith

/-! ### Exact operations -/

theorem mul_exact' {a b c : F32} (ha : Fin' a) (hb : Fin' b) (hc : Fin' c) (h : rv c = rv a * rv b) (hl : |rv c| ≤ 2) :
    Fin' (a * b) ∧ rv (a * b) = rv c := by
  obtain ⟨f, -⟩ := mul_ok ha hb (by rw [← h]; exact lt_of_le_of_lt hl (by norm_num))
  have := mul_near ha hb f c hc
  rw [← h, sub_self, abs_zero] at this
  exact ⟨f, sub_eq_zero.1 (abs_nonpos_iff.1 this)⟩
theorem sub_exact' {a b c : F32} (ha : Fin' a) (hb : Fin' b) (hc : Fin' c) (h : rv c = rv a - rv b) (hl : |rv c| ≤ 2) :
    Fin' (a - b) ∧ rv (a - b) = rv c := by
  obtain ⟨f, -⟩ := sub_ok ha hb (by rw [← h]; exact lt_of_le_of_lt hl (by norm_num))
  have := sub_near ha hb f c hc
  rw [← h, sub_self, abs_zero] at this
  exact ⟨f, sub_eq_zero.1 (abs_nonpos_iff.1 this)⟩
theorem neg_ok {a : F32} (ha : Fin' a) : Fin' (-a) ∧ rv (-a) = -rv a := by
  obtain ⟨h1, h2⟩ := negate_spec fmt a.bits
  have hfin : Fin' (-a) := by
    show IsFinite 23 (Flt.negate a.bits)
    rw [finite_iff, h1]
    exact (finite_iff _).1 ha
  refine ⟨hfin, ?_⟩
  unfold rv
  rw [realVal_num (valueOf_finite hfin), realVal_num (valueOf_finite ha)]
  show (((if isNeg (Flt.negate a.bits) then -(magUnits 23 (magBits (Flt.negate a.bits)) : Int) else (magUnits 23 (magBits (Flt.negate a.bits)) : Int)) : Int) : ℝ) / _ = _
  rw [h1, h2]
  cases isNeg a.bits <;> simp [neg_div]

/-- Zero, one and another number: the products and differences of a cross product with an axis. -/
theorem axis_ops {z o t : F32} (hz : Fin' z) (z0 : rv z = 0) (ho : Fin' o) (o1 : rv o = 1) (ht : Fin' t) (hl : |rv t| ≤ 2) :
    (Fin' (z * t) ∧ rv (z * t) = 0) ∧ (Fin' (o * t) ∧ rv (o * t) = rv t) := by
  refine ⟨?_, mul_exact' ho ht ht (by rw [o1, one_mul]) hl⟩
  have := mul_exact' hz ht hz (by rw [z0, zero_mul]) (by rw [z0, abs_zero]; norm_num)
  rwa [z0] at this
theorem axis_subs {p q : F32} (hp : Fin' p) (hq : Fin' q) (hl : |rv p| ≤ 2) (hl' : |rv q| ≤ 2) :
    (rv q = 0 → Fin' (p - q) ∧ rv (p - q) = rv p) ∧ (rv p = 0 → Fin' (p - q) ∧ rv (p - q) = -rv q) := by
  refine ⟨fun h => sub_exact' hp hq hp (by rw [h, sub_zero]) hl, fun h => ?_⟩
  obtain ⟨f, e⟩ := neg_ok hq
  have := sub_exact' hp hq f (by rw [e, h, zero_sub]) (by rw [e, abs_neg]; exact hl')
  rwa [e] at this

section
variable (ma : F32 → F32 → F32 → F32) (sqrt sqrte sin cos : F32 → F32) (pi : F32) (scp : F32 → F32 × F32)

local notation "F" => f32 ma sqrt sqrte sin cos pi scp

theorem lit0 : Fin' ((F).lit 0) ∧ rv ((F).lit 0) = 0 := by
  have h : valueOf 23 ((F).lit 0).bits = .num 0 := by
    show valueOf 23 (Flt.roundInt 32 23 false (((0 : Rat).num) * 2 ^ 149) ((0 : Rat).den)) = _
    decide +kernel
  exact ⟨⟨_, h⟩, by unfold rv; rw [realVal_num h]; simp⟩
theorem lit1 : ((F).lit 1).bits = Flt.fromInt 32 23 1 := by
  show Flt.roundInt 32 23 false (((1 : Rat).num) * 2 ^ 149) ((1 : Rat).den) = _
  decide +kernel
theorem lit1_ok : Fin' ((F).lit 1) ∧ rv ((F).lit 1) = 1 := by
  have h : valueOf 23 ((F).lit 1).bits = .num (2 ^ 149) := by rw [lit1]; decide +kernel
  refine ⟨⟨_, h⟩, ?_⟩
  unfold rv
  rw [realVal_num h, show low 32 23 = 149 by decide]
  norm_num
theorem lit06 : Fin' ((F).lit 0.6) ∧ 0.6 ≤ rv ((F).lit 0.6) ∧ rv ((F).lit 0.6) ≤ 0.60001 := by
  have h : valueOf 23 ((F).lit 0.6).bits = .num (0x99999a * 2 ^ 125) := by
    show valueOf 23 (Flt.roundInt 32 23 false (((0.6 : Rat).num) * 2 ^ 149) ((0.6 : Rat).den)) = _
    decide +kernel
  refine ⟨⟨_, h⟩, ?_⟩
  unfold rv
  rw [realVal_num h, show low 32 23 = 149 by decide]
  norm_num
theorem lit06' : Fin' ((F).lit (-0.6)) ∧ rv ((F).lit (-0.6)) ≤ -0.6 ∧ -0.60001 ≤ rv ((F).lit (-0.6)) := by
  have h : valueOf 23 ((F).lit (-0.6)).bits = .num (-(0x99999a * 2 ^ 125)) := by
    show valueOf 23 (Flt.roundInt 32 23 false (((-0.6 : Rat).num) * 2 ^ 149) ((-0.6 : Rat).den)) = _
    decide +kernel
  refine ⟨⟨_, h⟩, ?_⟩
  unfold rv
  rw [realVal_num h, show low 32 23 = 149 by decide]
  norm_num

/-- The test that selects an axis. -/
theorem axis_test {t : F32} (ht : Fin' t) :
    (((F).lt t ((F).lit 0.6) && (F).gt t ((F).lit (-0.6))) = true → rv t * rv t ≤ 0.3601) ∧
    (((F).lt t ((F).lit 0.6) && (F).gt t ((F).lit (-0.6))) = false → 0.36 ≤ rv t * rv t) := by
  obtain ⟨f1, a1, a2⟩ := lit06 ma sqrt sqrte sin cos pi scp
  obtain ⟨f2, b1, b2⟩ := lit06' ma sqrt sqrte sin cos pi scp
  have e1 : (F).lt t ((F).lit 0.6) = true ↔ rv t < rv ((F).lit 0.6) := lt_iff ht f1
  have e2 : (F).gt t ((F).lit (-0.6)) = true ↔ rv ((F).lit (-0.6)) < rv t := gt_iff ht f2
  rw [Bool.and_eq_true, e1, e2]
  refine ⟨fun ⟨h1, h2⟩ => by nlinarith, fun h => ?_⟩
  rw [Bool.and_eq_false_iff, ← Bool.not_eq_true, ← Bool.not_eq_true, e1, e2, not_lt, not_lt] at h
  rcases h with h | h <;> nlinarith

/-- The cross product with the chosen axis is exact. -/
theorem axis_cross (n : V3 F32) (hn : AlmostUnit (1 / 1000) n) : FiniteV (V3.cross (V3.axis F n) n) ∧ ∃ a : V3 ℝ, IsUnit3 a ∧
    toReal (V3.cross (V3.axis F n) n) = V3.cross a (toReal n) ∧ inner a (toReal n) * inner a (toReal n) ≤ 0.3601 := by
  obtain ⟨⟨nx, ny, nz⟩, hu⟩ := hn
  obtain ⟨q1, q2, q3⟩ := sq_le_inner (toReal n)
  have hle := le_of_abs_le hu
  have hb : ∀ t : ℝ, t * t ≤ inner (toReal n) (toReal n) → |t| ≤ 2 := fun t ht => abs_le_of_sq_le_sq (by rw [sq]; linarith) (by norm_num)
  have lx : |rv n.x| ≤ 2 := hb _ q1
  have ly : |rv n.y| ≤ 2 := hb _ q2
  have lz : |rv n.z| ≤ 2 := hb _ q3
  obtain ⟨hz, z0⟩ := lit0 ma sqrt sqrte sin cos pi scp
  obtain ⟨ho, o1⟩ := lit1_ok ma sqrt sqrte sin cos pi scp
  obtain ⟨⟨zxf, zx⟩, ⟨oxf, ox⟩⟩ := axis_ops hz z0 ho o1 nx lx
  obtain ⟨⟨zyf, zy⟩, ⟨oyf, oy⟩⟩ := axis_ops hz z0 ho o1 ny ly
  obtain ⟨⟨zzf, zz⟩, ⟨ozf, oz⟩⟩ := axis_ops hz z0 ho o1 nz lz
  have l0 : ∀ {p : F32}, rv p = 0 → |rv p| ≤ 2 := fun h => by rw [h, abs_zero]; norm_num
  have cx : ∀ {p : F32}, rv p = rv n.x → |rv p| ≤ 2 := fun h => by rw [h]; exact lx
  have cy : ∀ {p : F32}, rv p = rv n.y → |rv p| ≤ 2 := fun h => by rw [h]; exact ly
  have cz : ∀ {p : F32}, rv p = rv n.z → |rv p| ≤ 2 := fun h => by rw [h]; exact lz
  have X : FiniteV (V3.cross ⟨(F).lit 1, (F).lit 0, (F).lit 0⟩ n) ∧ toReal (V3.cross ⟨(F).lit 1, (F).lit 0, (F).lit 0⟩ n) = V3.cross ⟨1, 0, 0⟩ (toReal n) := by
    have s1 := (axis_subs zzf zyf (l0 zz) (l0 zy)).1 zy
    have s2 := (axis_subs zxf ozf (l0 zx) (cz oz)).2 zx
    have s3 := (axis_subs oyf zxf (cy oy) (l0 zx)).1 zx
    refine ⟨⟨s1.1, s2.1, s3.1⟩, V3.ext' ?_ ?_ ?_⟩
    · refine (s1.2.trans zz).trans ?_; show _ = 0 * rv n.z - 0 * rv n.y; ring
    · refine (s2.2.trans (congrArg Neg.neg oz)).trans ?_; show -rv n.z = 0 * rv n.x - 1 * rv n.z; ring
    · refine (s3.2.trans oy).trans ?_; show rv n.y = 1 * rv n.y - 0 * rv n.x; ring
  have Y : FiniteV (V3.cross ⟨(F).lit 0, (F).lit 1, (F).lit 0⟩ n) ∧ toReal (V3.cross ⟨(F).lit 0, (F).lit 1, (F).lit 0⟩ n) = V3.cross ⟨0, 1, 0⟩ (toReal n) := by
    have s1 := (axis_subs ozf zyf (cz oz) (l0 zy)).1 zy
    have s2 := (axis_subs zxf zzf (l0 zx) (l0 zz)).1 zz
    have s3 := (axis_subs zyf oxf (l0 zy) (cx ox)).2 zy
    refine ⟨⟨s1.1, s2.1, s3.1⟩, V3.ext' ?_ ?_ ?_⟩
    · refine (s1.2.trans oz).trans ?_; show rv n.z = 1 * rv n.z - 0 * rv n.y; ring
    · refine (s2.2.trans zx).trans ?_; show _ = 0 * rv n.x - 0 * rv n.z; ring
    · refine (s3.2.trans (congrArg Neg.neg ox)).trans ?_; show -rv n.x = 0 * rv n.y - 1 * rv n.x; ring
  have Z : FiniteV (V3.cross ⟨(F).lit 0, (F).lit 0, (F).lit 1⟩ n) ∧ toReal (V3.cross ⟨(F).lit 0, (F).lit 0, (F).lit 1⟩ n) = V3.cross ⟨0, 0, 1⟩ (toReal n) := by
    have s1 := (axis_subs zzf oyf (l0 zz) (cy oy)).2 zz
    have s2 := (axis_subs oxf zzf (cx ox) (l0 zz)).1 zz
    have s3 := (axis_subs zyf zxf (l0 zy) (l0 zx)).1 zx
    refine ⟨⟨s1.1, s2.1, s3.1⟩, V3.ext' ?_ ?_ ?_⟩
    · refine (s1.2.trans (congrArg Neg.neg oy)).trans ?_; show -rv n.y = 0 * rv n.z - 1 * rv n.y; ring
    · refine (s2.2.trans ox).trans ?_; show rv n.x = 1 * rv n.x - 0 * rv n.z; ring
    · refine (s3.2.trans zy).trans ?_; show _ = 0 * rv n.y - 0 * rv n.x; ring
  obtain ⟨tx, tx'⟩ := axis_test ma sqrt sqrte sin cos pi scp nx
  obtain ⟨ty, ty'⟩ := axis_test ma sqrt sqrte sin cos pi scp ny
  obtain ⟨tz, tz'⟩ := axis_test ma sqrt sqrte sin cos pi scp nz
  have ix : inner (⟨1, 0, 0⟩ : V3 ℝ) (toReal n) = rv n.x := by show 1 * rv n.x + 0 * rv n.y + 0 * rv n.z = _; ring
  have iy : inner (⟨0, 1, 0⟩ : V3 ℝ) (toReal n) = rv n.y := by show 0 * rv n.x + 1 * rv n.y + 0 * rv n.z = _; ring
  have iz : inner (⟨0, 0, 1⟩ : V3 ℝ) (toReal n) = rv n.z := by show 0 * rv n.x + 0 * rv n.y + 1 * rv n.z = _; ring
  unfold V3.axis V3.zero
  cases bx : (F).lt n.x ((F).lit 0.6) && (F).gt n.x ((F).lit (-0.6)) with
  | true => exact ⟨X.1, _, by norm_num [IsUnit3, inner], X.2, by rw [ix]; exact tx bx⟩
  | false =>
    cases by' : (F).lt n.y ((F).lit 0.6) && (F).gt n.y ((F).lit (-0.6)) with
    | true => exact ⟨Y.1, _, by norm_num [IsUnit3, inner], Y.2, by rw [iy]; exact ty by'⟩
    | false =>
      cases bz : (F).lt n.z ((F).lit 0.6) && (F).gt n.z ((F).lit (-0.6)) with
      | true => exact ⟨Z.1, _, by norm_num [IsUnit3, inner], Z.2, by rw [iz]; exact tz bz⟩
      | false =>
        exfalso
        have h1 := tx' bx
        have h2 := ty' by'
        have h3 := tz' bz
        have : inner (toReal n) (toReal n) = rv n.x * rv n.x + rv n.y * rv n.y + rv n.z * rv n.z := rfl
        linarith

theorem inner_comm' (a b : V3 ℝ) : inner a b = inner b a := by simp only [inner]; ring

set_option maxHeartbeats 1000000 in
/-- The other two vectors of a basis. -/
theorem basis_ok {nrm : V3 F32 → V3 F32} (hN : NormOk nrm) (n b0 b1 : V3 F32) (hn : AlmostUnit (1 / 1000) n)
    (h0 : b0 = nrm (V3.cross (V3.axis F n) n)) (h1 : b1 = nrm (V3.cross n b0)) :
    AlmostUnit (9.5 * ν) b0 ∧ AlmostUnit (9.5 * ν) b1 ∧ |inner (toReal b0) (toReal n)| ≤ 12 * ν ∧ |inner (toReal b1) (toReal n)| ≤ 12 * ν ∧
    |inner (toReal b1) (toReal b0)| ≤ 12 * ν ∧ 0.9 ≤ inner (toReal b1) (V3.cross (toReal n) (toReal b0)) := by
  have hν := ν_pos
  have hνl := ν_le
  obtain ⟨cf, a, ha, hc, han⟩ := axis_cross ma sqrt sqrte sin cos pi scp n hn
  obtain ⟨nf, hu⟩ := hn
  obtain ⟨hu1, hu2⟩ := abs_le.1 hu
  -- the first vector
  have hS0 := cross_length a (toReal n)
  unfold IsUnit3 at ha
  rw [ha, ← hc] at hS0
  have p0 : 0 < inner (toReal (V3.cross (V3.axis F n) n)) (toReal (V3.cross (V3.axis F n) n)) := by rw [hS0]; linarith only [hu1, han]
  obtain ⟨b0f, b0c⟩ := hN _ cf (by rw [hS0]; norm_num; linarith only [hu1, han]) (by rw [hS0]; norm_num; linarith only [hu2, mul_self_nonneg (inner a (toReal n))])
  rw [← h0] at b0f b0c
  have e0 := scale_unit p0
  have U0 := close_unit e0 b0c
  obtain ⟨U01, U02⟩ := abs_le.1 U0
  have P0 : |inner (toReal b0) (toReal n)| ≤ 4.8 * ν := by
    have := close_inner e0 b0c (m := toReal n) (by linarith)
    rw [inner_scale, hc, cross_perp_right, mul_zero, sub_zero] at this
    exact this
  obtain ⟨P01, P02⟩ := abs_le.1 P0
  -- the second one before normalizing
  set N := toReal n with hN'
  set B := toReal b0 with hB
  set X := V3.cross N B with hX
  have hXX : inner X X = inner N N * inner B B - inner N B * inner N B := cross_length N B
  have hX1 : 0.99 ≤ inner X X := by
    have h1 : 0.999 * 0.999 ≤ inner N N * inner B B := mul_le_mul (by linarith only [hu1]) (by linarith only [U01, hνl]) (by norm_num) (by linarith only [hu1])
    have h2 : inner N B * inner N B ≤ 0.001 := by
      rw [inner_comm' N B, ← abs_mul_abs_self]
      have := mul_le_mul P0 P0 (abs_nonneg _) (by linarith only [hν])
      nlinarith only [this, hν, hνl]
    rw [hXX]
    norm_num at h1 h2 ⊢
    linarith only [h1, h2]
  have hX2 : inner X X ≤ 1.01 := by
    have h1 : inner N N * inner B B ≤ 1.001 * 1.001 := mul_le_mul (by linarith only [hu2]) (by linarith only [U02, hνl]) (by linarith only [U01, hνl]) (by norm_num)
    have h2 := mul_self_nonneg (inner N B)
    rw [hXX]
    norm_num at h1 h2 ⊢
    linarith only [h1, h2]
  have hsumN : inner N N = rv n.x * rv n.x + rv n.y * rv n.y + rv n.z * rv n.z := rfl
  have hsumB : inner B B = rv b0.x * rv b0.x + rv b0.y * rv b0.y + rv b0.z * rv b0.z := rfl
  have sx := mul_self_nonneg (rv n.x)
  have sy := mul_self_nonneg (rv n.y)
  have sz := mul_self_nonneg (rv n.z)
  have tx := mul_self_nonneg (rv b0.x)
  have ty := mul_self_nonneg (rv b0.y)
  have tz := mul_self_nonneg (rv b0.z)
  obtain ⟨fx, dx⟩ := cross_comp nf.2.1 b0f.2.2 nf.2.2 b0f.2.1 (by linarith)
  obtain ⟨fy, dy⟩ := cross_comp nf.2.2 b0f.1 nf.1 b0f.2.2 (by linarith)
  obtain ⟨fz, dz⟩ := cross_comp nf.1 b0f.2.1 nf.2.1 b0f.1 (by linarith)
  have cf1 : FiniteV (V3.cross n b0) := ⟨fx, fy, fz⟩
  set C := toReal (V3.cross n b0) with hC
  have dx : |C.x - X.x| ≤ 2.03 * ν := dx
  have dy : |C.y - X.y| ≤ 2.03 * ν := dy
  have dz : |C.z - X.z| ≤ 2.03 * ν := dz
  have dotC : ∀ m : V3 ℝ, inner m m ≤ 1.02 → |inner C m - inner X m| ≤ 6.17 * ν := fun m hm => by
    obtain ⟨q1, q2, q3⟩ := sq_le_inner m
    have hb : ∀ t : ℝ, t * t ≤ inner m m → |t| ≤ 1.01 := fun t ht => abs_le_of_sq_le_sq (by rw [sq]; norm_num at hm ⊢; linarith) (by norm_num)
    have : inner C m - inner X m = (C.x - X.x) * m.x + (C.y - X.y) * m.y + (C.z - X.z) * m.z := by simp only [inner]; ring
    rw [this]
    refine (abs_add_three _ _ _).trans ?_
    rw [abs_mul, abs_mul, abs_mul]
    have g1 := mul_le_mul dx (hb _ q1) (abs_nonneg _) (by linarith)
    have g2 := mul_le_mul dy (hb _ q2) (abs_nonneg _) (by linarith)
    have g3 := mul_le_mul dz (hb _ q3) (abs_nonneg _) (by linarith)
    linarith
  have hCC : |inner C C - inner X X| ≤ 0.001 := by
    have d1 := dotC X (by linarith)
    have : inner C C - inner X X = 2 * (inner C X - inner X X) + ((C.x - X.x) * (C.x - X.x) + (C.y - X.y) * (C.y - X.y) + (C.z - X.z) * (C.z - X.z)) := by
      simp only [inner]; ring
    rw [this]
    have sq' : ∀ d : ℝ, |d| ≤ 2.03 * ν → |d * d| ≤ 0.0001 := fun d hd => by
      rw [abs_mul]
      have := mul_le_mul hd hd (abs_nonneg _) (by linarith)
      nlinarith only [this, hν, hνl]
    have r1 := sq' _ dx
    have r2 := sq' _ dy
    have r3 := sq' _ dz
    refine (abs_add_le _ _).trans ?_
    have r4 := abs_add_three ((C.x - X.x) * (C.x - X.x)) ((C.y - X.y) * (C.y - X.y)) ((C.z - X.z) * (C.z - X.z))
    rw [abs_mul, abs_two]
    linarith
  obtain ⟨hC1, hC2⟩ := abs_le.1 hCC
  obtain ⟨b1f, b1c⟩ := hN _ cf1 (by rw [← hC]; norm_num; linarith) (by rw [← hC]; norm_num; linarith)
  rw [← h1, ← hC] at b1c
  rw [← h1] at b1f
  have e1 := scale_unit (v := C) (by linarith)
  have U1 := close_unit e1 b1c
  have hs : 0.98 ≤ √(inner C C) := Real.le_sqrt_of_sq_le (by norm_num; linarith)
  have hs' : √(inner C C) ≤ 1.02 := Real.sqrt_le_iff.2 ⟨by norm_num, by norm_num; linarith⟩
  have hk0 : 0 < 1 / √(inner C C) := by positivity [lt_of_lt_of_le (by norm_num : (0 : ℝ) < 0.98) hs]
  have hk1 : 1 / √(inner C C) ≤ 1.021 := by
    rw [div_le_iff₀ (by linarith)]
    linarith
  have hk2 : 0.98 ≤ 1 / √(inner C C) := by
    rw [le_div_iff₀ (by linarith)]
    linarith
  have perp : ∀ m : V3 ℝ, inner m m ≤ 1.01 → inner X m = 0 → |inner (toReal b1) m| ≤ 12 * ν := fun m hm hx => by
    have g1 := close_inner e1 b1c hm
    have g2 := dotC m (by linarith)
    rw [hx, sub_zero] at g2
    rw [inner_scale] at g1
    have g3 : |1 / √(inner C C) * inner C m| ≤ 1.021 * (6.17 * ν) := by
      rw [abs_mul, abs_of_pos hk0]
      exact mul_le_mul hk1 g2 (abs_nonneg _) (by norm_num)
    have : inner (toReal b1) m = (inner (toReal b1) m - 1 / √(inner C C) * inner C m) + 1 / √(inner C C) * inner C m := by ring
    rw [this]
    refine (abs_add_le _ _).trans ?_
    linarith
  refine ⟨⟨b0f, U0⟩, ⟨b1f, U1⟩, P0.trans (by linarith), perp N (by linarith) (cross_perp_left N B), perp B (by linarith) (cross_perp_right N B), ?_⟩
  have g1 := (abs_le.1 (close_inner e1 b1c (m := X) hX2)).1
  have g2 := (abs_le.1 (dotC X (by linarith))).1
  rw [inner_scale] at g1
  have g3 : 0.98 * 0.98 ≤ 1 / √(inner C C) * inner C X := mul_le_mul hk2 (by linarith only [g2, hX1, hνl]) (by norm_num) hk0.le
  linarith only [g1, g3, hνl]

end

end PackedSimd.F32R
