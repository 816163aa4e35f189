import Verif.Lemmas.NbodyFloat
import Verif.Lemmas.MatrixFloat
/-
Rounding errors of `offset_momentum`.
-/
namespace PackedSimd.Ex.Nbody
open Spec F64R
open F64N (u u_pos)

/-! ### Roundings -/

theorem fin_div {a b : F64} (hb : Fin' b) (h : Fin' (a / b)) : Fin' a := by
  obtain ⟨z, hz⟩ := h
  obtain ⟨y, hy⟩ := hb
  have hr := div_rounds F64R.fmt a.bits b.bits
  have hz : valueOf 52 (Flt.div 52 a.bits b.bits) = .num z := hz
  unfold exactDiv at hr
  unfold Fin' IsFinite
  rcases hx : valueOf 52 a.bits with _ | p | x
  · rw [hx] at hr
    exact absurd (hz.symm.trans hr) (by simp)
  · rw [hx, hy] at hr
    exact absurd (hz.symm.trans hr) (by simp)
  · exact ⟨x, rfl⟩

theorem div_u {a b : F64} (hb : Fin' b) (h0 : rv b ≠ 0) (h : Fin' (a / b)) : |rv (a / b) - rv a / rv b| ≤ u * |rv a / rv b| + η := by
  have := (flt_div F64R.fmt (fin_div hb h) hb h0).2.1 h
  rw [F64N.u_eq, tiny_eq] at this
  have h3 : 0 ≤ u * |rv a / rv b| := mul_nonneg u_pos.le (abs_nonneg _)
  refine this.trans (max_le ?_ (by linarith))
  exact le_add_of_nonneg_right η_pos.le

theorem neg_fin {a : F64} (h : Fin' (-a)) : Fin' a ∧ rv (-a) = -rv a := by
  obtain ⟨h1, h2⟩ := negate_spec F64R.fmt a.bits
  have ha : Fin' a := by
    refine (finite_iff _).2 ?_
    rw [← h1]
    exact (finite_iff _).1 h
  refine ⟨ha, ?_⟩
  unfold rv
  rw [realVal_num (valueOf_finite h), realVal_num (valueOf_finite ha)]
  show ((if isNeg (Flt.negate a.bits) = true then _ else _ : ℤ) : ℝ) / _ = _
  have h1' : magBits (-a).bits = magBits a.bits := h1
  rw [h1', h2]
  cases isNeg a.bits <;> simp [neg_div]

/-! ### Sums -/

noncomputable def ρ : ℝ := 1 + u
theorem ρ_ge : 1 ≤ ρ := by unfold ρ; linarith [u_pos]
theorem ρ_pow (k : Nat) : 1 ≤ ρ ^ k := one_le_pow₀ ρ_ge

/-- `X` is the sum `S` of numbers of total size `M`, after `k` roundings and underflows of total size `T`. -/
def Summed (k : Nat) (M T S X : ℝ) : Prop := |S| ≤ M ∧ 0 ≤ T ∧ |X - S| ≤ (ρ ^ (k + 2) - 1) * M + ρ ^ k * T

theorem Summed.next {k : Nat} {M T S X Y d t X' : ℝ} (h : Summed k M T S X) (hY : |Y - d| ≤ (ρ ^ 2 - 1) * |d| + t) (ht : 0 ≤ t) (hX : |X' - (X + Y)| ≤ u * |X + Y|) :
    Summed (k + 1) (M + |d|) (T + t) (S + d) X' := by
  obtain ⟨hS, hT, he⟩ := h
  have hu := u_pos
  have hρ := ρ_ge
  have hk := ρ_pow k
  have hk2 := ρ_pow (k + 2)
  have hM : 0 ≤ M := (abs_nonneg _).trans hS
  have hd := abs_nonneg d
  have hS' : |S + d| ≤ M + |d| := (abs_add_le _ _).trans (by linarith)
  refine ⟨hS', by linarith, ?_⟩
  have e1 : |X + Y - (S + d)| ≤ (ρ ^ (k + 2) - 1) * M + ρ ^ k * T + ((ρ ^ 2 - 1) * |d| + t) := by
    have := abs_add_le (X - S) (Y - d)
    rw [show X - S + (Y - d) = X + Y - (S + d) by ring] at this
    linarith
  have e2 : |X + Y| ≤ |X + Y - (S + d)| + (M + |d|) := by
    have := abs_add_le (X + Y - (S + d)) (S + d)
    rw [sub_add_cancel] at this
    linarith
  have e3 := abs_sub_le X' (X + Y) (S + d)
  have e4 : |X' - (S + d)| ≤ ρ * ((ρ ^ (k + 2) - 1) * M + ρ ^ k * T + ((ρ ^ 2 - 1) * |d| + t)) + u * (M + |d|) := by
    have t1 := mul_le_mul_of_nonneg_left e2 hu.le
    have t2 := mul_le_mul_of_nonneg_left e1 (by linarith : 0 ≤ ρ)
    have : ρ * |X + Y - (S + d)| = |X + Y - (S + d)| + u * |X + Y - (S + d)| := by unfold ρ; ring
    linarith
  refine e4.trans ?_
  have hu' : u = ρ - 1 := by unfold ρ; ring
  have p3 : ρ ^ 3 ≤ ρ ^ (k + 1 + 2) := pow_le_pow_right₀ hρ (by omega)
  have p1 : ρ ≤ ρ ^ (k + 1) := by
    have := pow_le_pow_right₀ hρ (show 1 ≤ k + 1 by omega)
    rwa [pow_one] at this
  have q1 : ρ ^ 3 * |d| ≤ ρ ^ (k + 1 + 2) * |d| := mul_le_mul_of_nonneg_right p3 hd
  have q2 : ρ * t ≤ ρ ^ (k + 1) * t := mul_le_mul_of_nonneg_right p1 ht
  have r1 : ρ * ((ρ ^ (k + 2) - 1) * M + ρ ^ k * T + ((ρ ^ 2 - 1) * |d| + t)) + u * (M + |d|) =
      (ρ ^ (k + 1 + 2) - 1) * M + ρ ^ (k + 1) * T + (ρ ^ 3 * |d| - |d|) + ρ * t := by rw [hu']; ring
  rw [r1]
  have r2 : (ρ ^ (k + 1 + 2) - 1) * (M + |d|) + ρ ^ (k + 1) * (T + t) =
      (ρ ^ (k + 1 + 2) - 1) * M + ρ ^ (k + 1) * T + (ρ ^ (k + 1 + 2) * |d| - |d|) + ρ ^ (k + 1) * t := by ring
  rw [r2]
  linarith

theorem u_le_two : u ≤ ρ ^ 2 - 1 := by have := u_pos; unfold ρ; nlinarith

theorem ρ_bound {k : Nat} (hk : k ≤ 2 ^ 41) : ρ ^ k - 1 ≤ 101 / 100 * k / 2 ^ 53 ∧ ρ ^ k ≤ 101 / 100 := by
  have hu := u_pos
  have hk' : (k : ℝ) ≤ 2 ^ 41 := by exact_mod_cast hk
  have hku0 : 0 ≤ (k : ℝ) * u := by positivity
  have hku : (k : ℝ) * u ≤ 1 / 2500 := by
    have h1 : (k : ℝ) * u ≤ 2 ^ 41 * u := mul_le_mul_of_nonneg_right hk' hu.le
    have h2 : (2 : ℝ) ^ 41 * u ≤ 1 / 2500 := by unfold u; norm_num
    linarith
  have h1 : ρ ^ k ≤ Real.exp (k * u) := by
    rw [Real.exp_nat_mul]
    exact pow_le_pow_left₀ (by linarith [ρ_ge]) (by unfold ρ; linarith [Real.add_one_le_exp u]) k
  have h2 : Real.exp (k * u) ≤ 1 / (1 - k * u) := by
    have := Real.one_sub_le_exp_neg (k * u)
    rw [Real.exp_neg] at this
    rw [le_div_iff₀ (by linarith)]
    have h3 := Real.exp_pos (k * u)
    calc Real.exp (k * u) * (1 - k * u) ≤ Real.exp (k * u) * (Real.exp (k * u))⁻¹ := mul_le_mul_of_nonneg_left this h3.le
      _ = 1 := mul_inv_cancel₀ h3.ne'
  have h4 : 1 / (1 - (k : ℝ) * u) ≤ 1 + 101 / 100 * (k * u) := by
    rw [div_le_iff₀ (by linarith)]
    nlinarith
  have h5 : 101 / 100 * (k : ℝ) / 2 ^ 53 = 101 / 100 * (k * u) := by unfold u; ring
  rw [h5]
  exact ⟨by linarith, by linarith⟩

/-! ### scalar.rs -/

variable {c : Nat}

theorem fold_scalar (hc : c < 3) : ∀ (M : List (Body F64 3)) (p : Vector F64 3) (k : Nat) (Q T S : ℝ), Massive M → Summed k Q T S (rv p[c]) →
    Fin' (M.foldl (fun p bi => Vector.zipWith (fun p v => p + v * bi.mass) p bi.v) p)[c] →
    Summed (k + M.length) (Q + motion c hc M) (T + M.length * η) (S + momentum c hc M)
      (rv (M.foldl (fun p bi => Vector.zipWith (fun p v => p + v * bi.mass) p bi.v) p)[c]) ∧ Fin' p[c]
  | [], p, k, Q, T, S, _, h, hf => by simpa [motion, momentum] using ⟨h, hf⟩
  | b :: M, p, k, Q, T, S, hm, h, hf => by
    have hmb := hm b (by simp)
    rw [List.foldl_cons] at hf ⊢
    have step : ∀ p' : Vector F64 3, p' = Vector.zipWith (fun p v => p + v * b.mass) p b.v → Fin' p'[c] →
        Summed (k + 1) (Q + |rv b.v[c] * rv b.mass|) (T + η) (S + rv b.v[c] * rv b.mass) (rv p'[c]) ∧ Fin' p[c] := by
      intro p' hp' hf'
      rw [hp', Vector.getElem_zipWith] at hf' ⊢
      refine ⟨h.next ((mul_u (fin_add hf').2).trans (add_le_add (mul_le_mul_of_nonneg_right u_le_two (abs_nonneg _)) le_rfl)) η_pos.le (add_u hf'), (fin_add hf').1⟩
    have fin' : Fin' (Vector.zipWith (fun p v => p + v * b.mass) p b.v)[c] := by
      have key : ∀ (M : List (Body F64 3)) (p : Vector F64 3), Fin' (M.foldl (fun p bi => Vector.zipWith (fun p v => p + v * bi.mass) p bi.v) p)[c] → Fin' p[c] := by
        intro M
        induction M with
        | nil => intro p h; exact h
        | cons a M ih =>
          intro p h
          rw [List.foldl_cons] at h
          have := ih _ h
          rw [Vector.getElem_zipWith] at this
          exact (fin_add this).1
      exact key _ _ hf
    obtain ⟨s1, f1⟩ := step _ rfl fin'
    obtain ⟨s2, -⟩ := fold_scalar hc M _ (k + 1) _ _ _ (fun x hx => hm x (by simp [hx])) s1 hf
    refine ⟨?_, f1⟩
    convert s2 using 1
    · simp only [List.length_cons]; omega
    · simp only [motion, List.map_cons, List.sum_cons]
      rw [abs_mul, abs_of_nonneg (show 0 ≤ rv b.mass from hmb)]
      show Q + (toReal b.mass * |toReal b.v[c]| + _) = Q + |toReal b.v[c]| * toReal b.mass + _
      ring
    · simp only [List.length_cons]; push_cast; ring
    · simp only [momentum, List.map_cons, List.sum_cons]
      show S + (toReal b.mass * toReal b.v[c] + _) = S + toReal b.v[c] * toReal b.mass + _
      ring

theorem summed_zero : Summed 0 0 0 0 0 := by unfold Summed; simp

theorem offset_scalar (F : Fns F64) (h0 : F.lit 0 = 0) (sun : Body F64 3) (rest : List (Body F64 3)) (hm : Massive (sun :: rest)) (hc : c < 3)
    (hs : sun.mass = solarMass F) (hpos : 0 < toReal sun.mass) (hfin : IsFinite 52 sun.mass.bits) (hv : toReal sun.v[c] = 0) (hn : rest.length + 4 ≤ 2 ^ 40) :
    ∃ L', offsetScalar F (sun :: rest) = .ok L' ∧ L'.map Body.mass = (sun :: rest).map Body.mass ∧ (Sound c hc L' →
      |momentum c hc L'| ≤ 101 / 100 * (rest.length + 4) * motion c hc (sun :: rest) / 2 ^ 53 + (toReal sun.mass + 2 * (rest.length + 1)) / 2 ^ 1075) := by
  refine ⟨_, rfl, rfl, fun hS => ?_⟩
  have hf := hS _ (List.mem_cons_self ..)
  dsimp only at hf
  have hf : Fin' _ := hf
  obtain ⟨p, hp⟩ : ∃ p : Vector F64 3, p = (sun :: rest).foldl (fun p bi => Vector.zipWith (fun p v => p + v * bi.mass) p bi.v) (Vector.replicate 3 (F.lit 0)) := ⟨_, rfl⟩
  rw [← hp] at hf ⊢
  rw [Vector.getElem_map, ← hs] at hf
  have hmfin : Fin' sun.mass := hfin
  have hm0 : rv sun.mass ≠ 0 := ne_of_gt hpos
  have d1 := div_u hmfin hm0 hf
  have fneg := fin_div hmfin hf
  obtain ⟨fp, en⟩ := neg_fin fneg
  have z0 : rv (0 : F64) = 0 := by
    unfold rv; rw [realVal_num (z := 0) (by decide +kernel)]; simp
  obtain ⟨S, -⟩ := fold_scalar hc (sun :: rest) (Vector.replicate 3 (F.lit 0)) 0 0 0 0 hm (by
    rw [Vector.getElem_replicate, h0, z0]; exact summed_zero) (hp ▸ fp)
  rw [← hp] at S
  simp only [zero_add] at S
  obtain ⟨-, -, S⟩ := S
  generalize hmass : rv sun.mass = m at *
  have hpos : 0 < m := by rw [← hmass]; exact hpos
  have M0 : 0 ≤ motion c hc (sun :: rest) := motion_nonneg hm
  have eP : momentum c hc ({ sun with v := p.map fun p => -p / solarMass F } :: rest) = m * rv (-p[c] / sun.mass) + momentum c hc (sun :: rest) := by
    simp only [momentum, List.map_cons, List.sum_cons, hv, mul_zero, zero_add, Vector.getElem_map]
    rw [← hmass, hs]; rfl
  have aS : |momentum c hc (sun :: rest)| ≤ motion c hc (sun :: rest) := by
    unfold momentum motion
    have key : ∀ L : List (Body F64 3), Massive L → |(L.map fun b => toReal b.mass * toReal b.v[c]).sum| ≤ (L.map fun b => toReal b.mass * |toReal b.v[c]|).sum := by
      intro L
      induction L with
      | nil => intro _; simp
      | cons a L ih =>
        intro h
        simp only [List.map_cons, List.sum_cons]
        refine (abs_add_le _ _).trans (add_le_add ?_ (ih fun x hx => h x (by simp [hx])))
        rw [abs_mul, abs_of_nonneg (h a (by simp))]
    exact key _ hm
  rw [eP]
  rw [en] at d1
  generalize rv (-p[c] / sun.mass) = q at *
  generalize rv p[c] = P at *
  generalize momentum c hc (sun :: rest) = S0 at *
  generalize motion c hc (sun :: rest) = Q at *
  have d2 : |m * q + P| ≤ u * |P| + m * η := by
    have t := mul_le_mul_of_nonneg_left d1 hpos.le
    rw [← abs_of_pos hpos, ← abs_mul, abs_of_pos hpos] at t
    have e1 : m * (q - -P / m) = m * q + P := by field_simp; ring
    have e2 : m * (u * |-P / m| + η) = u * |P| + m * η := by
      rw [abs_div, abs_neg, abs_of_pos hpos]; field_simp
    rw [e1, e2] at t
    exact t
  have hu := u_pos
  have aP : |P| ≤ Q + |P - S0| := by
    have := abs_add_le (P - S0) S0
    rw [sub_add_cancel] at this
    linarith
  have tot : |m * q + S0| ≤ u * |P| + m * η + |P - S0| := by
    have := abs_sub (m * q + P) (P - S0)
    rw [show m * q + P - (P - S0) = m * q + S0 by ring] at this
    linarith
  have tot2 : |m * q + S0| ≤ u * Q + m * η + ρ * |P - S0| := by
    have := mul_le_mul_of_nonneg_left aP hu.le
    have e : ρ * |P - S0| = |P - S0| + u * |P - S0| := by unfold ρ; ring
    linarith
  have hl : (sun :: rest).length = rest.length + 1 := rfl
  rw [hl] at S
  generalize rest.length = n at *
  have tot3 : |m * q + S0| ≤ (ρ ^ (n + 4) - 1) * Q + m * η + ρ ^ (n + 2) * ((n + 1) * η) := by
    have t := mul_le_mul_of_nonneg_left S (by linarith [ρ_ge] : 0 ≤ ρ)
    have e : ρ * ((ρ ^ (n + 1 + 2) - 1) * Q + ρ ^ (n + 1) * (((n + 1 : ℕ) : ℝ) * η)) = (ρ ^ (n + 4) - 1) * Q - u * Q + ρ ^ (n + 2) * ((n + 1) * η) := by
      have : u = ρ - 1 := by unfold ρ; ring
      rw [this]; push_cast; ring
    rw [e] at t
    linarith
  refine tot3.trans ?_
  obtain ⟨b1, -⟩ := ρ_bound (k := n + 4) (by omega)
  obtain ⟨-, b2⟩ := ρ_bound (k := n + 2) (by omega)
  have c1 := mul_le_mul_of_nonneg_right b1 M0
  have c2 : ρ ^ (n + 2) * (((n : ℝ) + 1) * η) ≤ 2 * (((n : ℝ) + 1) * η) := mul_le_mul_of_nonneg_right (by linarith) (mul_nonneg (by positivity) η_pos.le)
  have e3 : 101 / 100 * ((n + 4 : ℕ) : ℝ) / 2 ^ 53 * Q = 101 / 100 * ((n : ℝ) + 4) * Q / 2 ^ 53 := by push_cast; ring
  rw [e3] at c1
  have e4 : (m + 2 * ((n : ℝ) + 1)) / 2 ^ 1075 = m * η + 2 * (((n : ℝ) + 1) * η) := by unfold η; ring
  have hmm : toReal sun.mass = m := hmass
  rw [hmm, e4]
  linarith

/-! ### simd.rs -/

theorem simd_share {v m M : F64} (hM : Fin' M) (hpos : 0 < rv M) (hm : 0 ≤ rv m) (h : Fin' (v * (m / M))) :
    |rv M * rv (v * (m / M)) - rv m * rv v| ≤ (ρ ^ 2 - 1) * |rv m * rv v| + rv M * (1 + 2 * |rv v|) * η := by
  have hu := u_pos
  have hul := u_small
  have hη := η_pos
  have d := div_u hM (ne_of_gt hpos) (fin_mul h).2
  have p := mul_u h
  generalize rv (v * (m / M)) = x at *
  generalize rv (m / M) = r at *
  generalize rv v = v at *
  generalize rv m = m at *
  generalize rv M = M at *
  have d' : |M * r - m| ≤ u * m + M * η := by
    have t := mul_le_mul_of_nonneg_left d hpos.le
    rw [← abs_of_pos hpos, ← abs_mul, abs_of_pos hpos] at t
    have e1 : M * (r - m / M) = M * r - m := by field_simp
    have e2 : M * (u * |m / M| + η) = u * m + M * η := by
      rw [abs_div, abs_of_nonneg hm, abs_of_pos hpos]; field_simp
    rw [e1, e2] at t
    exact t
  have p' : |M * x - M * r * v| ≤ u * |M * r * v| + M * η := by
    have t := mul_le_mul_of_nonneg_left p hpos.le
    rw [← abs_of_pos hpos, ← abs_mul, abs_of_pos hpos] at t
    have e1 : M * (x - v * r) = M * x - M * r * v := by ring
    have e2 : M * (u * |v * r| + η) = u * |M * r * v| + M * η := by
      rw [abs_mul, abs_mul, abs_mul, abs_of_pos hpos]; ring
    rw [e1, e2] at t
    exact t
  have hv := abs_nonneg v
  have q : |M * r * v - m * v| ≤ (u * m + M * η) * |v| := by
    rw [← sub_mul, abs_mul]; exact mul_le_mul_of_nonneg_right d' hv
  have q' : |M * r * v| ≤ m * |v| + (u * m + M * η) * |v| := by
    have := abs_add_le (M * r * v - m * v) (m * v)
    rw [sub_add_cancel, abs_mul m v, abs_of_nonneg hm] at this
    linarith
  have q'' := mul_le_mul_of_nonneg_left q' hu.le
  have t := abs_sub_le (M * x) (M * r * v) (m * v)
  rw [abs_mul m v, abs_of_nonneg hm]
  have k1 : u * (M * η * |v|) ≤ 1 * (M * η * |v|) := mul_le_mul_of_nonneg_right (by linarith) (mul_nonneg (mul_nonneg hpos.le hη.le) hv)
  have e1 : u * (m * |v| + (u * m + M * η) * |v|) = u * (m * |v|) + u ^ 2 * (m * |v|) + u * (M * η * |v|) := by ring
  have e2 : (ρ ^ 2 - 1) * (m * |v|) + M * (1 + 2 * |v|) * η = 2 * (u * (m * |v|)) + u ^ 2 * (m * |v|) + M * η + 2 * (M * η * |v|) := by unfold ρ; ring
  have e3 : (u * m + M * η) * |v| = u * (m * |v|) + M * η * |v| := by ring
  rw [e2]
  linarith

/-- `offset_momentum` of simd.rs. -/
theorem offset_simd {N : Nat} (F : Fns F64) (B : Vector (Body F64 4) (N + 1)) (hm : Massive B.toList) (hc : c < 4)
    (hs : B[0].mass = solarMass F) (hpos : (0 : ℝ) < toReal B[0].mass) (hfin : IsFinite 52 B[0].mass.bits) (hv : toReal B[0].v[c] = 0) (hn : N + 2 ≤ 2 ^ 40) :
    ∃ B', offsetSimd F B = .ok B' ∧ B'.toList.map Body.mass = B.toList.map Body.mass ∧ (Sound c hc B'.toList →
      |momentum c hc B'.toList| ≤ 101 / 100 * (N + 2) * motion c hc B.toList / 2 ^ 53 +
        (2 : ℝ) * toReal B[0].mass * (B.toList.map fun b => (1 : ℝ) + (2 : ℝ) * |toReal b.v[c]|).sum / 2 ^ 1075) := by
  have hmB : ∀ b (hb : b < N + 1), 0 ≤ toReal B[b].mass := fun b hb => hm _ (by simp)
  let P : Nat → ℝ := fun i => if h : i < N + 1 then toReal B[i].mass * toReal B[i].v[c] else 0
  let Z : Nat → ℝ := fun i => if h : i < N + 1 then 1 + 2 * |toReal B[i].v[c]| else 0
  have hZ : ∀ i, 0 ≤ Z i := fun i => by dsimp only [Z]; split <;> positivity
  obtain ⟨v, h, hv'⟩ := forRange_inv (fun i (v : Vec F64 4) => 1 ≤ i ∧ (Fin' v[c] →
      Summed (i - 1) (∑ q ∈ Finset.Ico 1 i, |P q|) (∑ q ∈ Finset.Ico 1 i, toReal B[0].mass * Z q * η) (-(∑ q ∈ Finset.Ico 1 i, P q)) (toReal B[0].mass * rv v[c])))
    (fun (v : Vec F64 4) i => do
    let body ← aget B i
    let m_ratio := body.mass / solarMass F
    return v - body.v * splat 4 m_ratio) (lo := 1) (hi := N + 1) (init := B[0].v) (by omega) (by
      refine ⟨le_rfl, fun _ => ?_⟩
      have : rv B[0].v[c] = 0 := hv
      rw [this]
      simpa using summed_zero) (by
    intro i v h1 hi ih
    rw [aget_lt _ hi]
    refine ⟨_, rfl, by omega, fun hf => ?_⟩
    rw [Mandel.vsub_get, Mandel.vmul_get, Mandel.splat_get, ← hs] at hf ⊢
    have S := ih.2 (fin_sub hf).1
    have sh := simd_share hfin hpos (hmB i hi) (fin_sub hf).2
    have su := sub_u hf
    rw [Finset.sum_Ico_succ_top h1, Finset.sum_Ico_succ_top h1, Finset.sum_Ico_succ_top h1, show i + 1 - 1 = i - 1 + 1 by omega, neg_add]
    have eP : P i = rv B[i].mass * rv B[i].v[c] := by dsimp only [P]; rw [dif_pos hi]; rfl
    have eZ : Z i = 1 + 2 * |rv B[i].v[c]| := by dsimp only [Z]; rw [dif_pos hi]; rfl
    have hz := hZ i
    rw [← abs_neg (P i)]
    refine S.next (Y := -(rv B[0].mass * rv (B[i].v[c] * (B[i].mass / B[0].mass)))) ?_ (mul_nonneg (mul_nonneg hpos.le hz) η_pos.le) ?_
    · rw [neg_sub_neg, abs_sub_comm, abs_neg, eP, eZ]; exact sh
    · have hpos' : (0 : ℝ) < rv B[0].mass := hpos
      have t := mul_le_mul_of_nonneg_left su hpos'.le
      show |rv B[0].mass * _ - (rv B[0].mass * _ + _)| ≤ u * |rv B[0].mass * _ + _|
      generalize rv B[0].mass = m at hpos' t ⊢
      generalize rv (B[i].v[c] * (B[i].mass / B[0].mass)) = y at t ⊢
      generalize rv (v[c] - B[i].v[c] * (B[i].mass / B[0].mass)) = x' at t ⊢
      generalize rv v[c] = x at t ⊢
      rw [show m * (u * |x - y|) = u * (m * |x - y|) by ring, ← abs_of_pos hpos', ← abs_mul, ← abs_mul] at t
      rwa [show m * x' - (m * x + -(m * y)) = m * (x' - (x - y)) by ring, show m * x + -(m * y) = m * (x - y) by ring])
  refine ⟨B.set 0 { B[0] with v }, ?_, ?_, ?_⟩
  · unfold offsetSimd
    rw [aget_lt _ (Nat.succ_pos N)]
    simp only [R_ok_bind]
    rw [h]
    simp only [R_ok_bind]
    rw [aset_lt _ _ (Nat.succ_pos N)]
  · refine List.ext_getElem (by simp) fun i h1 h2 => ?_
    simp only [List.getElem_map, Vector.getElem_toList, Vector.getElem_set]
    split
    · rename_i h; subst h; rfl
    · rfl
  · intro hS
    have f0 : Fin' v[c] := by
      have := hS ((B.set 0 { B[0] with v })[0]) (Vector.mem_toList_iff.2 (Vector.getElem_mem _))
      rw [Vector.getElem_set_self] at this
      exact this
    obtain ⟨-, -, S⟩ := hv'.2 f0
    have mom : momentum c hc (B.set 0 { B[0] with v }).toList = toReal B[0].mass * rv v[c] + ∑ q ∈ Finset.Ico 1 (N + 1), P q := by
      rw [momentum_fin, Fin.sum_univ_succ, Finset.sum_Ico_eq_sum_range, Nat.add_sub_cancel, Finset.sum_range]
      congr 1
      · have e : (B.set 0 { B[0] with v })[0] = { B[0] with v } := Vector.getElem_set_self _
        simp only [Fin.getElem_fin, Fin.val_zero, e]
        rfl
      · refine Finset.sum_congr rfl fun i _ => ?_
        dsimp only [P]
        rw [dif_pos (by omega)]
        have e : (B.set 0 { B[0] with v })[i.val + 1] = B[i.val + 1] := Vector.getElem_set_ne _ _ (by omega)
        have e2 : 1 + i.val = i.val + 1 := by omega
        simp only [Fin.getElem_fin, Fin.val_succ, e, e2]
    have mot : ∑ q ∈ Finset.Ico 1 (N + 1), |P q| = motion c hc B.toList := by
      rw [motion_fin, Fin.sum_univ_succ, Finset.sum_Ico_eq_sum_range, Nat.add_sub_cancel, Finset.sum_range]
      have : toReal B[(0 : Fin (N + 1))].mass * |toReal B[(0 : Fin (N + 1))].v[c]| = 0 := by
        have : toReal B[(0 : Fin (N + 1))].v[c] = 0 := hv
        rw [this]; simp
      rw [this, zero_add]
      refine Finset.sum_congr rfl fun i _ => ?_
      dsimp only [P]
      rw [dif_pos (by omega), abs_mul, abs_of_nonneg (hmB _ _)]
      have e2 : 1 + i.val = i.val + 1 := by omega
      simp only [Fin.getElem_fin, Fin.val_succ, e2]
    have dus : ∑ q ∈ Finset.Ico 1 (N + 1), Z q ≤ (B.toList.map fun b => (1 : ℝ) + (2 : ℝ) * |toReal b.v[c]|).sum := by
      rw [list_sum_eq (N := N + 1) B.toList (by simp), Fin.sum_univ_succ, Finset.sum_Ico_eq_sum_range, Nat.add_sub_cancel, Finset.sum_range]
      refine le_add_of_nonneg_of_le (add_nonneg zero_le_one (mul_nonneg zero_le_two (abs_nonneg _))) (le_of_eq (Finset.sum_congr rfl fun i _ => ?_))
      dsimp only [Z]
      rw [dif_pos (by omega)]
      have e2 : 1 + i.val = i.val + 1 := by omega
      simp only [Fin.getElem_fin, Fin.val_succ, e2, Vector.getElem_toList]
    rw [mom]
    rw [sub_neg_eq_add, mot, Nat.add_sub_cancel] at S
    refine S.trans ?_
    obtain ⟨b1, -⟩ := ρ_bound (k := N + 2) (by omega)
    obtain ⟨-, b2⟩ := ρ_bound (k := N) (by omega)
    have M0 : 0 ≤ motion c hc B.toList := motion_nonneg hm
    have c1 := mul_le_mul_of_nonneg_right b1 M0
    have e3 : 101 / 100 * ((N + 2 : ℕ) : ℝ) / 2 ^ 53 * motion c hc B.toList = 101 / 100 * ((N : ℝ) + 2) * motion c hc B.toList / 2 ^ 53 := by push_cast; ring
    rw [e3] at c1
    refine add_le_add c1 ?_
    have zs : 0 ≤ ∑ q ∈ Finset.Ico 1 (N + 1), Z q := Finset.sum_nonneg fun q _ => hZ q
    rw [← Finset.sum_mul, ← Finset.mul_sum]
    generalize (B.toList.map fun b => (1 : ℝ) + (2 : ℝ) * |toReal b.v[c]|).sum = D at dus ⊢
    generalize (∑ q ∈ Finset.Ico 1 (N + 1), Z q) = E at dus zs ⊢
    generalize toReal B[0].mass = m at hpos ⊢
    have e4 : 2 * m * D / 2 ^ 1075 = 2 * (m * D * η) := by unfold η; ring
    rw [e4]
    have hη := η_pos
    exact mul_le_mul (by linarith) (mul_le_mul_of_nonneg_right (mul_le_mul_of_nonneg_left dus hpos.le) hη.le) (mul_nonneg (mul_nonneg hpos.le zs) hη.le) (by norm_num)

end PackedSimd.Ex.Nbody
