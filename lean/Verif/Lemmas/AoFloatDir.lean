import Verif.Lemmas.AoFloat
/-
aobench in `f32`: the sample directions.
-/
namespace PackedSimd.F32R
open Spec Ex Ex.Ao Spec.Ao

/-! ### The hemisphere -/

/-- Roots of numbers between 0 and 1. -/
theorem root_ok {sqrt : F32 → F32} (hs : RootOk sqrt) {x : F32} (hx : Fin' x) (h0 : 0 ≤ rv x) (h1 : rv x ≤ 1) :
    Fin' (sqrt x) ∧ 0 ≤ rv (sqrt x) ∧ rv (sqrt x) ≤ 1 ∧ |rv (sqrt x) - √(rv x)| ≤ ν * √(rv x) := by
  rcases h0.eq_or_lt with h0 | h0
  · obtain ⟨z, hz⟩ := hx
    have hv : rv x = (z : ℝ) / 2 ^ low 32 23 := realVal_num hz
    have z0 : z = 0 := by
      rw [← h0] at hv
      have hL : (2 : ℝ) ^ low 32 23 ≠ 0 := by positivity
      have : (z : ℝ) = 0 := by
        rcases div_eq_zero_iff.1 hv.symm with h | h
        · exact h
        · exact absurd h hL
      exact_mod_cast this
    have h := hs x
    unfold IsSqrt at h
    rw [hz] at h
    dsimp only at h
    rw [if_pos z0] at h
    have e : rv (sqrt x) = 0 := by unfold rv; rw [h]; exact h0.symm
    refine ⟨?_, by rw [e], by rw [e]; norm_num, by rw [e, ← h0]; simp⟩
    unfold Fin'
    rw [h]
    exact ⟨z, hz⟩
  · have h := hs x
    have hp : 0 < realVal 23 x.bits := h0
    obtain ⟨hs1, hf, hn⟩ := (isSqrt_pos_iff hp).1 h
    have he := isSqrt_error fmt roomy32.two_man hp h
    rw [u_eq] at he
    refine ⟨hf, (isSqrt_pos fmt roomy32.two_man hp h).le, ?_, he⟩
    obtain ⟨f1, e1⟩ := one_ok
    have := (hn (1 : F32).bits f1).1
    have e1' : realVal 23 (1 : F32).bits = 1 := e1
    rw [e1'] at this
    exact near_le this (Real.sqrt_le_one.2 h1)

/-- Squares of rounded numbers. -/
theorem sq_err {a b : ℝ} (hb : |b| ≤ 1.01) (h : |a - b| ≤ ν * |b| + η) : |a * a - b * b| ≤ 2.001 * (ν * (b * b)) + 0.001 * ν := by
  have hν := ν_pos
  have hνl := ν_le
  have hηl := η_le
  have hη := η_pos
  have hbb : |b| * |b| = b * b := abs_mul_abs_self b
  have h1 : a * a - b * b = (a - b) * (2 * b + (a - b)) := by ring
  rw [h1, abs_mul]
  have h0 : ν * |b| ≤ ν * 1.01 := mul_le_mul_of_nonneg_left hb hν.le
  have hd : |a - b| ≤ 2 * ν := by linarith
  have h2 : |2 * b + (a - b)| ≤ 2 * |b| + 2 * ν := by
    refine (abs_add_le _ _).trans ?_
    rw [abs_mul, abs_two]
    linarith
  calc |a - b| * |2 * b + (a - b)| ≤ (ν * |b| + η) * (2 * |b| + 2 * ν) := mul_le_mul h h2 (abs_nonneg _) (by positivity)
    _ = 2 * (ν * (b * b)) + 2 * (ν * (ν * |b|)) + 2 * (η * |b|) + 2 * (η * ν) := by rw [← hbb]; ring
    _ ≤ 2.001 * (ν * (b * b)) + 0.001 * ν := by
      have a1 : ν * (ν * |b|) ≤ 1 / 16000000 * (ν * 1.01) := mul_le_mul hνl h0 (by positivity) (by norm_num)
      have a2 : η * |b| ≤ η * 1.01 := mul_le_mul_of_nonneg_left hb hη.le
      have a3 : η * ν ≤ η := mul_le_of_le_one_right hη.le (by linarith)
      have a4 : 0 ≤ ν * (b * b) := mul_nonneg hν.le (mul_self_nonneg b)
      linarith

theorem root_sq {s z : ℝ} (hs : 0 ≤ s) (hs1 : s ≤ 1) (h : |z - √s| ≤ ν * √s) : |z * z - s| ≤ 2.001 * (ν * s) + 0.001 * ν := by
  have h0 : 0 ≤ √s := Real.sqrt_nonneg s
  have h1 : √s ≤ 1 := Real.sqrt_le_one.2 hs1
  have := sq_err (a := z) (b := √s) (by rw [abs_of_nonneg h0]; linarith) (by rw [abs_of_nonneg h0]; linarith [η_pos])
  rwa [Real.mul_self_sqrt hs] at this

/-- The vector in the hemisphere before it is turned. -/
theorem hemi_ok {sqrt sqrt' : F32 → F32} (hs : RootOk sqrt) (hs' : RootOk sqrt') {one : F32} (f1 : Fin' one) (e1 : rv one = 1) {r c s : F32} {ε : ℝ}
    (hr : Fin' r) (r0 : 0 ≤ rv r) (r1 : rv r < 1) (ht : TrigOk ε s c) (hε : ε ≤ 1 / 100) :
    let θ := sqrt' r
    let h : V3 F32 := ⟨c * θ, s * θ, sqrt (one - θ * θ)⟩
    AlmostUnit (ε + 4 * ν) h ∧ 0 ≤ rv h.z ∧ rv h.z ≤ 1 ∧ |rv h.z * rv h.z - (1 - rv r)| ≤ 4 * ν := by
  intro θ h
  have hν := ν_pos
  have hνl := ν_le
  have hηl := η_le
  have hη := η_pos
  obtain ⟨tf, t0, t1, te⟩ := root_ok hs' hr r0 r1.le
  change Fin' θ at tf
  change 0 ≤ rv θ at t0
  change rv θ ≤ 1 at t1
  change |rv θ - √(rv r)| ≤ _ at te
  have tt := root_sq r0 r1.le te
  have tt0 : 0 ≤ rv θ * rv θ := mul_self_nonneg _
  have tt1 : rv θ * rv θ ≤ 1 := by nlinarith
  -- the square
  obtain ⟨qf, qe⟩ := mul_ok tf tf (by rw [abs_of_nonneg tt0]; exact lt_of_le_of_lt tt1 (by norm_num))
  rw [abs_of_nonneg tt0] at qe
  obtain ⟨zf, ze⟩ := zero_ok
  have q0 : 0 ≤ rv (θ * θ) := by
    have := mul_near tf tf qf 0 zf
    rw [ze] at this
    exact near_ge this tt0
  have q1 : rv (θ * θ) ≤ 1 := by
    have := mul_near tf tf qf one f1
    rw [e1] at this
    exact near_le this tt1
  -- the difference
  obtain ⟨sf, se⟩ := sub_ok f1 qf (by rw [e1, abs_of_nonneg (by linarith)]; exact lt_of_le_of_lt (b := 1) (by linarith) (by norm_num))
  rw [e1, abs_of_nonneg (by linarith : 0 ≤ 1 - rv (θ * θ))] at se
  have s0 : 0 ≤ rv (one - θ * θ) := by
    have := sub_near f1 qf sf 0 zf
    rw [ze, e1] at this
    exact near_ge this (by linarith)
  have s1 : rv (one - θ * θ) ≤ 1 := by
    have := sub_near f1 qf sf one f1
    rw [e1] at this
    exact near_le this (by linarith)
  obtain ⟨zf, z0, z1, zerr⟩ := root_ok hs sf s0 s1
  have zz := root_sq s0 s1 zerr
  -- the other components
  obtain ⟨hsf, hcf, hs1, hc1, htr⟩ := ht
  change Fin' s at hsf
  change Fin' c at hcf
  change |rv s| ≤ 1 at hs1
  change |rv c| ≤ 1 at hc1
  change |rv s ^ 2 + rv c ^ 2 - 1| ≤ ε at htr
  have bt : |rv θ| ≤ 1 := by rw [abs_of_nonneg t0]; exact t1
  have bc : |rv c * rv θ| ≤ 1 := by rw [abs_mul]; exact mul_le_one₀ hc1 (abs_nonneg _) bt
  have bs : |rv s * rv θ| ≤ 1 := by rw [abs_mul]; exact mul_le_one₀ hs1 (abs_nonneg _) bt
  obtain ⟨xf, xe⟩ := mul_ok hcf tf (lt_of_le_of_lt bc (by norm_num))
  obtain ⟨yf, ye⟩ := mul_ok hsf tf (lt_of_le_of_lt bs (by norm_num))
  have xx := sq_err (by linarith) xe
  have yy := sq_err (by linarith) ye
  set t := rv θ * rv θ with htt
  set q := rv (θ * θ) with hq
  set σ := rv (one - θ * θ) with hσ
  set z := rv (sqrt (one - θ * θ)) with hz
  set T := rv s ^ 2 + rv c ^ 2 with hT
  obtain ⟨T1, T2⟩ := abs_le.1 htr
  have ex : rv c * rv θ * (rv c * rv θ) + rv s * rv θ * (rv s * rv θ) = T * t := by rw [hT, htt]; ring
  have hTt : |T * t - t| ≤ ε := by
    have : T * t - t = (T - 1) * t := by ring
    rw [this, abs_mul, abs_of_nonneg tt0]
    have := mul_le_mul_of_nonneg_left tt1 (abs_nonneg (T - 1))
    linarith
  have hνTt : ν * (T * t) ≤ 1.01 * (ν * t) := by
    have h1 : T * t ≤ 1.01 * t := mul_le_mul_of_nonneg_right (by linarith) tt0
    have := mul_le_mul_of_nonneg_left h1 hν.le
    linarith
  have hexν : ν * (rv c * rv θ * (rv c * rv θ)) + ν * (rv s * rv θ * (rv s * rv θ)) = ν * (T * t) := by rw [← mul_add, ex]
  -- bounds by ν
  have n1 : ν * t ≤ ν := mul_le_of_le_one_right hν.le tt1
  have n2 : |q - t| ≤ ν * t + η := qe
  obtain ⟨n21, n22⟩ := abs_le.1 n2
  obtain ⟨n31, n32⟩ := abs_le.1 se
  have n4 : ν * (1 - q) ≤ ν * (1 - t) + 0.001 * ν := by
    have h1 : ν * (1 - q) ≤ ν * (1 - t + 0.001) := mul_le_mul_of_nonneg_left (by linarith) hν.le
    linarith
  have n5 : ν * σ ≤ 1.001 * (ν * (1 - q)) := by
    have h1 : σ ≤ 1.001 * (1 - q) := by
      have : ν * (1 - q) ≤ 1 / 16000000 * (1 - q) := mul_le_mul_of_nonneg_right hνl (by linarith)
      linarith
    have := mul_le_mul_of_nonneg_left h1 hν.le
    linarith
  obtain ⟨tt1', tt2'⟩ := abs_le.1 tt
  have n6 : ν * rv r ≤ ν * t + 0.001 * ν := by
    have h1 : ν * rv r ≤ 1 / 16000000 * 1 := mul_le_mul hνl r1.le r0 (by norm_num)
    have h2 : ν * rv r ≤ ν * (t + 0.001) := mul_le_mul_of_nonneg_left (by linarith) hν.le
    linarith
  obtain ⟨zz1, zz2⟩ := abs_le.1 zz
  obtain ⟨xx1, xx2⟩ := abs_le.1 xx
  obtain ⟨yy1, yy2⟩ := abs_le.1 yy
  obtain ⟨ht1, ht2⟩ := abs_le.1 hTt
  have n0 : 0 ≤ ν * t := mul_nonneg hν.le tt0
  have n7 : 0 ≤ ν * (1 - q) := mul_nonneg hν.le (by linarith)
  refine ⟨⟨⟨xf, yf, zf⟩, ?_⟩, z0, z1, ?_⟩
  · show |rv (c * θ) * rv (c * θ) + rv (s * θ) * rv (s * θ) + z * z - 1| ≤ ε + 4 * ν
    rw [abs_le]
    constructor <;> linarith
  · show |z * z - (1 - rv r)| ≤ 4 * ν
    rw [abs_le]
    constructor <;> linarith

/-! ### Turning -/

theorem cs3 (a b c x y z : ℝ) : (|a * x| + |b * y| + |c * z|) * (|a * x| + |b * y| + |c * z|) ≤ (a * a + b * b + c * c) * (x * x + y * y + z * z) := by
  rw [abs_mul, abs_mul, abs_mul, ← abs_mul_abs_self a, ← abs_mul_abs_self b, ← abs_mul_abs_self c, ← abs_mul_abs_self x, ← abs_mul_abs_self y,
    ← abs_mul_abs_self z]
  nlinarith [sq_nonneg (|a| * |y| - |b| * |x|), sq_nonneg (|a| * |z| - |c| * |x|), sq_nonneg (|b| * |z| - |c| * |y|)]

/-- The square of one component of the product, and its product with a component of the normal. -/
theorem turn_comp {d D A m : ℝ} (hA : 0 ≤ A) (hA2 : A ≤ 2) (hD : |D| ≤ A) (h : |d - D| ≤ 3.001 * (ν * A) + 7 * η) (hm : |m| ≤ 2) :
    |d * d - D * D| ≤ 6.003 * (ν * (A * A)) + 0.001 * ν ∧ |(d - D) * m| ≤ 3.001 * (ν * ((A * A + m * m) / 2)) + 0.001 * ν := by
  have hν := ν_pos
  have hνl := ν_le
  have hηl := η_le
  have hη := η_pos
  have hνA : ν * A ≤ ν * 2 := mul_le_mul_of_nonneg_left hA2 hν.le
  have n0 : 0 ≤ ν * A := mul_nonneg hν.le hA
  constructor
  · have h1 : d * d - D * D = (d - D) * (2 * D + (d - D)) := by ring
    rw [h1, abs_mul]
    have hd : |d - D| ≤ 7 * ν := by linarith
    have h2 : |2 * D + (d - D)| ≤ 2 * A + 7 * ν := by
      refine (abs_add_le _ _).trans ?_
      rw [abs_mul, abs_two]
      linarith
    calc |d - D| * |2 * D + (d - D)| ≤ (3.001 * (ν * A) + 7 * η) * (2 * A + 7 * ν) := mul_le_mul h h2 (abs_nonneg _) (by positivity)
      _ = 6.002 * (ν * (A * A)) + 21.007 * (ν * (ν * A)) + 14 * (η * A) + 49 * (η * ν) := by ring
      _ ≤ 6.003 * (ν * (A * A)) + 0.001 * ν := by
        have a1 : ν * (ν * A) ≤ 1 / 16000000 * (ν * 2) := mul_le_mul hνl hνA n0 (by norm_num)
        have a2 : η * A ≤ η * 2 := mul_le_mul_of_nonneg_left hA2 hη.le
        have a3 : η * ν ≤ η := mul_le_of_le_one_right hη.le (by linarith)
        have a4 : 0 ≤ ν * (A * A) := mul_nonneg hν.le (mul_self_nonneg A)
        linarith
  · rw [abs_mul]
    have a1 : A * |m| ≤ (A * A + m * m) / 2 := by
      have := abs_prod_le A m
      rwa [abs_of_nonneg hA] at this
    have a2 := mul_le_mul_of_nonneg_left a1 hν.le
    have a3 : |d - D| * |m| ≤ (3.001 * (ν * A) + 7 * η) * |m| := mul_le_mul_of_nonneg_right h (abs_nonneg _)
    have a4 : η * |m| ≤ η * 2 := mul_le_mul_of_nonneg_left hm hη.le
    have a5 : (3.001 * (ν * A) + 7 * η) * |m| = 3.001 * (ν * (A * |m|)) + 7 * (η * |m|) := by ring
    linarith

set_option maxHeartbeats 1000000 in
/-- The product of a basis and a vector. -/
theorem turn_ok {dot : V3 F32 → V3 F32 → F32} (hd : DotOk dot) {b0 b1 n h : V3 F32} {δ κ : ℝ} (hδ : δ ≤ 1 / 1000) (hκ : κ ≤ 0.015)
    (B0 : AlmostUnit (9.5 * ν) b0) (B1 : AlmostUnit (9.5 * ν) b1) (N : AlmostUnit δ n) (p0 : |inner (toReal b0) (toReal n)| ≤ 12 * ν)
    (p1 : |inner (toReal b1) (toReal n)| ≤ 12 * ν) (p2 : |inner (toReal b1) (toReal b0)| ≤ 12 * ν) (H : AlmostUnit κ h) (hz : |rv h.z| ≤ 1) :
    let d : V3 F32 := ⟨dot h ⟨b0.x, b1.x, n.x⟩, dot h ⟨b0.y, b1.y, n.y⟩, dot h ⟨b0.z, b1.z, n.z⟩⟩
    AlmostUnit (κ + δ + 53 * ν) d ∧ |inner (toReal d) (toReal n) - rv h.z| ≤ δ + 31 * ν := by
  intro d
  have hν := ν_pos
  have hνl := ν_le
  obtain ⟨f0, g00⟩ := B0
  obtain ⟨f1, g11⟩ := B1
  obtain ⟨fn, g22⟩ := N
  obtain ⟨fh, gh⟩ := H
  set HH := inner (toReal h) (toReal h) with hHH
  set G00 := inner (toReal b0) (toReal b0) with hG00
  set G11 := inner (toReal b1) (toReal b1) with hG11
  set G22 := inner (toReal n) (toReal n) with hG22
  set G02 := inner (toReal b0) (toReal n) with hG02
  set G12 := inner (toReal b1) (toReal n) with hG12
  set G01 := inner (toReal b1) (toReal b0) with hG01
  obtain ⟨a1, a2⟩ := abs_le.1 g00
  obtain ⟨a3, a4⟩ := abs_le.1 g11
  obtain ⟨a5, a6⟩ := abs_le.1 g22
  obtain ⟨a7, a8⟩ := abs_le.1 gh
  have sHH : HH = rv h.x * rv h.x + rv h.y * rv h.y + rv h.z * rv h.z := rfl
  have s00 : G00 = rv b0.x * rv b0.x + rv b0.y * rv b0.y + rv b0.z * rv b0.z := rfl
  have s11 : G11 = rv b1.x * rv b1.x + rv b1.y * rv b1.y + rv b1.z * rv b1.z := rfl
  have s22 : G22 = rv n.x * rv n.x + rv n.y * rv n.y + rv n.z * rv n.z := rfl
  have s02 : G02 = rv b0.x * rv n.x + rv b0.y * rv n.y + rv b0.z * rv n.z := rfl
  have s12 : G12 = rv b1.x * rv n.x + rv b1.y * rv n.y + rv b1.z * rv n.z := rfl
  have s01 : G01 = rv b1.x * rv b0.x + rv b1.y * rv b0.y + rv b1.z * rv b0.z := rfl
  have hH : HH ≤ 1.02 := by linarith only [a8, hκ]
  -- one component
  have comp : ∀ p q m : F32, Fin' p → Fin' q → Fin' m → rv p * rv p ≤ G00 → rv q * rv q ≤ G11 → rv m * rv m ≤ G22 →
      Fin' (dot h ⟨p, q, m⟩) ∧ ∃ A D : ℝ, D = rv h.x * rv p + rv h.y * rv q + rv h.z * rv m ∧
        A * A ≤ HH * (rv p * rv p + rv q * rv q + rv m * rv m) ∧
        |rv (dot h ⟨p, q, m⟩) * rv (dot h ⟨p, q, m⟩) - D * D| ≤ 6.003 * (ν * (A * A)) + 0.001 * ν ∧
        |(rv (dot h ⟨p, q, m⟩) - D) * rv m| ≤ 3.001 * (ν * ((A * A + rv m * rv m) / 2)) + 0.001 * ν := by
    intro p q m fp fq fm lp lq lm
    have hcs := cs3 (rv h.x) (rv h.y) (rv h.z) (rv p) (rv q) (rv m)
    rw [← sHH] at hcs
    set A := |rv h.x * rv p| + |rv h.y * rv q| + |rv h.z * rv m| with hA
    have hA0 : 0 ≤ A := by positivity
    have hAA : A * A ≤ 1.02 * 3.01 := by
      refine hcs.trans (mul_le_mul hH (by linarith only [lp, lq, lm, a2, a4, a6, hνl, hδ]) (by linarith only [mul_self_nonneg (rv p), mul_self_nonneg (rv q), mul_self_nonneg (rv m)]) (by norm_num))
    have hA2 : A ≤ 2 := by nlinarith only [hAA, hA0]
    have hAi : absInner (toReal h) (toReal ⟨p, q, m⟩) = A := rfl
    obtain ⟨df, de⟩ := hd h ⟨p, q, m⟩ fh ⟨fp, fq, fm⟩ (by rw [hAi]; linarith only [hA2])
    rw [hAi] at de
    have hm2 : |rv m| ≤ 2 := abs_le_of_sq_le_sq (by rw [sq]; linarith only [lm, a6, hδ]) (by norm_num)
    have hD : |inner (toReal h) (toReal ⟨p, q, m⟩)| ≤ A := abs_add_three _ _ _
    obtain ⟨k1, k2⟩ := turn_comp hA0 hA2 hD de hm2
    exact ⟨df, A, _, rfl, hcs, k1, k2⟩
  have px := sq_le_inner (toReal b0)
  have py := sq_le_inner (toReal b1)
  have pz := sq_le_inner (toReal n)
  obtain ⟨fx, A1, D1, hD1, hA1, x1, y1⟩ := comp b0.x b1.x n.x f0.1 f1.1 fn.1 px.1 py.1 pz.1
  obtain ⟨fy, A2, D2, hD2, hA2, x2, y2⟩ := comp b0.y b1.y n.y f0.2.1 f1.2.1 fn.2.1 px.2.1 py.2.1 pz.2.1
  obtain ⟨fz, A3, D3, hD3, hA3, x3, y3⟩ := comp b0.z b1.z n.z f0.2.2 f1.2.2 fn.2.2 px.2.2 py.2.2 pz.2.2
  clear comp px py pz
  -- sums
  have hAs : A1 * A1 + A2 * A2 + A3 * A3 ≤ 3.08 := by
    have e : HH * (G00 + G11 + G22) ≤ 1.02 * 3.0011 :=
      mul_le_mul hH (by linarith only [a2, a4, a6, hνl, hδ]) (by linarith only [a1, a3, a5, hνl, hδ, s22, mul_self_nonneg (rv n.x), mul_self_nonneg (rv n.y), mul_self_nonneg (rv n.z)]) (by norm_num)
    have e2 : A1 * A1 + A2 * A2 + A3 * A3 ≤ HH * (G00 + G11 + G22) := by
      rw [s00, s11, s22]
      linarith only [hA1, hA2, hA3]
    norm_num at e ⊢
    linarith only [e, e2]
  have hνs : ν * (A1 * A1) + ν * (A2 * A2) + ν * (A3 * A3) ≤ 3.08 * ν := by
    have := mul_le_mul_of_nonneg_left hAs hν.le
    linarith only [this]
  have gram : D1 * D1 + D2 * D2 + D3 * D3 - HH = rv h.x * rv h.x * (G00 - 1) + rv h.y * rv h.y * (G11 - 1) + rv h.z * rv h.z * (G22 - 1) +
      2 * (rv h.x * rv h.y * G01 + rv h.x * rv h.z * G02 + rv h.y * rv h.z * G12) := by
    rw [hD1, hD2, hD3, sHH, s00, s11, s22, s01, s02, s12]; ring
  have mixed : ∀ p q G : ℝ, |G| ≤ 12 * ν → |p * q * G| ≤ 6 * (ν * (p * p + q * q)) := fun p q G hG => by
    rw [abs_mul, abs_mul]
    have := mul_le_mul (abs_prod_le p q) hG (abs_nonneg _) (by linarith only [mul_self_nonneg p, mul_self_nonneg q])
    linarith only [this]
  have diag : ∀ p G e : ℝ, |G| ≤ e → |p * p * G| ≤ p * p * e := fun p G e hG => by
    rw [abs_mul, abs_mul_self]
    exact mul_le_mul_of_nonneg_left hG (mul_self_nonneg p)
  have hzz : rv h.z * rv h.z ≤ 1 := by
    rw [← abs_mul_abs_self]
    exact mul_le_one₀ hz (abs_nonneg _) hz
  have δ0 : 0 ≤ δ := (abs_nonneg _).trans g22
  have m1 := mixed (rv h.x) (rv h.y) _ p2
  have m2 := mixed (rv h.x) (rv h.z) _ p0
  have m3 := mixed (rv h.y) (rv h.z) _ p1
  have q1 := diag (rv h.x) _ _ g00
  have q2 := diag (rv h.y) _ _ g11
  have q3 := diag (rv h.z) _ _ g22
  have q3' : rv h.z * rv h.z * δ ≤ δ := mul_le_of_le_one_left δ0 hzz
  have hνH : ν * (rv h.x * rv h.x) + ν * (rv h.y * rv h.y) + ν * (rv h.z * rv h.z) ≤ 1.02 * ν := by
    have := mul_le_mul_of_nonneg_left hH hν.le
    rw [sHH] at this
    linarith only [this]
  have hνz : 0 ≤ ν * (rv h.z * rv h.z) := mul_nonneg hν.le (mul_self_nonneg _)
  have hGram : |D1 * D1 + D2 * D2 + D3 * D3 - HH| ≤ δ + 34.2 * ν := by
    rw [gram]
    obtain ⟨m11, m12⟩ := abs_le.1 m1
    obtain ⟨m21, m22⟩ := abs_le.1 m2
    obtain ⟨m31, m32⟩ := abs_le.1 m3
    obtain ⟨q11, q12⟩ := abs_le.1 q1
    obtain ⟨q21, q22⟩ := abs_le.1 q2
    obtain ⟨q31, q32⟩ := abs_le.1 q3
    rw [abs_le]
    constructor <;> linarith only [m11, m12, m21, m22, m31, m32, q11, q12, q21, q22, q31, q32, q3', hνH, hνz]
  have hd' : inner (toReal d) (toReal d) = rv d.x * rv d.x + rv d.y * rv d.y + rv d.z * rv d.z := rfl
  refine ⟨⟨⟨fx, fy, fz⟩, ?_⟩, ?_⟩
  · rw [hd']
    change |rv d.x * rv d.x - D1 * D1| ≤ _ at x1
    change |rv d.y * rv d.y - D2 * D2| ≤ _ at x2
    change |rv d.z * rv d.z - D3 * D3| ≤ _ at x3
    obtain ⟨x11, x12⟩ := abs_le.1 x1
    obtain ⟨x21, x22⟩ := abs_le.1 x2
    obtain ⟨x31, x32⟩ := abs_le.1 x3
    obtain ⟨r1, r2⟩ := abs_le.1 hGram
    rw [abs_le]
    constructor <;> linarith only [x11, x12, x21, x22, x31, x32, r1, r2, hνs, a7, a8, hν]
  · have hdn : inner (toReal d) (toReal n) = rv d.x * rv n.x + rv d.y * rv n.y + rv d.z * rv n.z := rfl
    have e : inner (toReal d) (toReal n) - rv h.z = ((rv d.x - D1) * rv n.x + (rv d.y - D2) * rv n.y + (rv d.z - D3) * rv n.z) +
        (rv h.x * G02 + rv h.y * G12 + rv h.z * (G22 - 1)) := by
      rw [hdn, s02, s12, s22, hD1, hD2, hD3]; ring
    rw [e]
    change |(rv d.x - D1) * rv n.x| ≤ _ at y1
    change |(rv d.y - D2) * rv n.y| ≤ _ at y2
    change |(rv d.z - D3) * rv n.z| ≤ _ at y3
    have hb : ∀ t : ℝ, t * t ≤ HH → |t| ≤ 1.01 := fun t ht => abs_le_of_sq_le_sq (by rw [sq]; norm_num at hH ⊢; linarith only [hH, ht]) (by norm_num)
    obtain ⟨l1, l2, -⟩ := sq_le_inner (toReal h)
    have k1 : |rv h.x * G02| ≤ 1.01 * (12 * ν) := by rw [abs_mul]; exact mul_le_mul (hb _ l1) p0 (abs_nonneg _) (by norm_num)
    have k2 : |rv h.y * G12| ≤ 1.01 * (12 * ν) := by rw [abs_mul]; exact mul_le_mul (hb _ l2) p1 (abs_nonneg _) (by norm_num)
    have k3 : |rv h.z * (G22 - 1)| ≤ 1 * δ := by rw [abs_mul]; exact mul_le_mul hz g22 (abs_nonneg _) (by norm_num)
    have t1 := abs_add_three (rv h.x * G02) (rv h.y * G12) (rv h.z * (G22 - 1))
    have t2 := abs_add_three ((rv d.x - D1) * rv n.x) ((rv d.y - D2) * rv n.y) ((rv d.z - D3) * rv n.z)
    have hνn : ν * (rv n.x * rv n.x) + ν * (rv n.y * rv n.y) + ν * (rv n.z * rv n.z) ≤ 1.001 * ν := by
      have : G22 ≤ 1.001 := by linarith only [a6, hδ]
      have := mul_le_mul_of_nonneg_left this hν.le
      rw [s22] at this
      linarith only [this]
    refine (abs_add_le _ _).trans ?_
    linarith only [t1, t2, k1, k2, k3, y1, y2, y3, hνs, hνn, hν]

end PackedSimd.F32R
