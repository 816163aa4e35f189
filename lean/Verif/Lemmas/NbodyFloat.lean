import Mathlib.Analysis.Complex.Exponential
import Verif.Lemmas.Nbody
import Verif.Lemmas.F64Real
import Verif.Lemmas.F64Near
import Verif.Spec.NbodyFloat
/-
Rounding errors in the momentum of the nbody programs.
-/
namespace PackedSimd.Ex.Nbody
open Spec F64R
open F64N (u u_pos)

noncomputable def η : ℝ := 1 / 2 ^ 1075
theorem η_pos : 0 < η := by unfold η; positivity
theorem tiny_eq : tiny 64 52 = η := by unfold tiny η; rw [show low 64 52 = 1074 by decide]
theorem u_small : u ≤ 1 / 10 ^ 15 := by unfold u; norm_num

/-! ### Roundings -/

theorem add_u {a b : F64} (h : Fin' (a + b)) : |rv (a + b) - (rv a + rv b)| ≤ u * |rv a + rv b| := by
  have := (flt_add F64R.fmt (fin_add h).1 (fin_add h).2).2.1 h
  rwa [F64N.u_eq] at this
theorem sub_u {a b : F64} (h : Fin' (a - b)) : |rv (a - b) - (rv a - rv b)| ≤ u * |rv a - rv b| := by
  have := (flt_sub F64R.fmt (fin_sub h).1 (fin_sub h).2).2.1 h
  rwa [F64N.u_eq] at this
theorem mul_u {a b : F64} (h : Fin' (a * b)) : |rv (a * b) - rv a * rv b| ≤ u * |rv a * rv b| + η := by
  have := (flt_mul F64R.fmt (fin_mul h).1 (fin_mul h).2).2.1 h
  rw [F64N.u_eq, tiny_eq] at this
  have h3 : 0 ≤ u * |rv a * rv b| := mul_nonneg u_pos.le (abs_nonneg _)
  refine this.trans (max_le ?_ (by linarith))
  exact le_add_of_nonneg_right η_pos.le

/-- Two products. -/
noncomputable def κ : ℝ := 2 * u + u ^ 2
theorem κ_pos : 0 < κ := by unfold κ; have := u_pos; positivity

theorem two_err {p q r s x : ℝ} (h1 : |x - p * q| ≤ u * |p * q| + η) (h2 : |s - x * r| ≤ u * |x * r| + η) :
    |s - p * q * r| ≤ κ * |p * q * r| + η * (2 * |r| + 1) := by
  have hu := u_pos
  have hul := u_small
  have hη := η_pos
  have e1 : |x * r - p * q * r| ≤ u * |p * q * r| + η * |r| := by
    rw [← sub_mul, abs_mul]
    have := mul_le_mul_of_nonneg_right h1 (abs_nonneg r)
    rw [abs_mul (p * q) r]
    linarith
  have e2 : |x * r| ≤ |p * q * r| + (u * |p * q * r| + η * |r|) := by
    have := abs_add_le (x * r - p * q * r) (p * q * r)
    rw [sub_add_cancel] at this
    linarith
  have e3 := abs_sub_le s (x * r) (p * q * r)
  have e4 := mul_le_mul_of_nonneg_left e2 hu.le
  have e5 : u * (η * |r|) ≤ 1 * (η * |r|) := mul_le_mul_of_nonneg_right (by linarith) (mul_nonneg hη.le (abs_nonneg r))
  have e6 : u * (|p * q * r| + (u * |p * q * r| + η * |r|)) = u * |p * q * r| + u ^ 2 * |p * q * r| + u * (η * |r|) := by ring
  have e7 : κ * |p * q * r| = 2 * (u * |p * q * r|) + u ^ 2 * |p * q * r| := by unfold κ; ring
  linarith

/-! ### How errors accumulate -/

/-- After `p` exchanges of impulses of total size `W`, with underflow `τ`: the momentum `P` and the motion `Q` have become `P'` and `Q'`. -/
structure Drift (p : Nat) (W τ P Q P' Q' : ℝ) : Prop where
  grow : Q' ≤ (1 + u) ^ p * (Q + (2 * (1 + κ) * W + τ))
  drift : |P' - P| ≤ 2 * κ * W + τ + p * u * ((1 + u) ^ p * (Q + (2 * (1 + κ) * W + τ)))

theorem one_le_pow' (p : Nat) : 1 ≤ (1 + u) ^ p := one_le_pow₀ (by linarith [u_pos])

theorem Drift.none {P Q : ℝ} : Drift 0 0 0 P Q P Q := ⟨by simp, by simp⟩

theorem Drift.frame {p : Nat} {W τ P Q P' Q' : ℝ} (h : Drift p W τ P Q P' Q') (C : ℝ) {D : ℝ} (hD : 0 ≤ D) : Drift p W τ (P + C) (Q + D) (P' + C) (Q' + D) := by
  have h1 := one_le_pow' p
  have h2 : (1 + u) ^ p * (Q + (2 * (1 + κ) * W + τ)) + D ≤ (1 + u) ^ p * (Q + D + (2 * (1 + κ) * W + τ)) := by nlinarith
  refine ⟨by linarith [h.grow], ?_⟩
  rw [add_sub_add_right_eq_sub]
  refine h.drift.trans (add_le_add le_rfl (mul_le_mul_of_nonneg_left ?_ (mul_nonneg (Nat.cast_nonneg _) u_pos.le)))
  linarith

theorem Drift.trans {p q : Nat} {W W' τ τ' P Q P' Q' P'' Q'' : ℝ} (h : Drift p W τ P Q P' Q') (h' : Drift q W' τ' P' Q' P'' Q'')
    (hQ : 0 ≤ Q) (hW : 0 ≤ W) (hW' : 0 ≤ W') (hτ : 0 ≤ τ) (hτ' : 0 ≤ τ') : Drift (p + q) (W + W') (τ + τ') P Q P'' Q'' := by
  have hp := one_le_pow' p
  have hq := one_le_pow' q
  have hu := u_pos
  have hκ := κ_pos
  obtain ⟨X, hX⟩ : ∃ X, X = 2 * (1 + κ) * W + τ := ⟨_, rfl⟩
  obtain ⟨Y, hY⟩ : ∃ Y, Y = 2 * (1 + κ) * W' + τ' := ⟨_, rfl⟩
  have hX0 : 0 ≤ X := by rw [hX]; positivity
  have hY0 : 0 ≤ Y := by rw [hY]; positivity
  have hXY : 2 * (1 + κ) * (W + W') + (τ + τ') = X + Y := by rw [hX, hY]; ring
  obtain ⟨g1, d1⟩ := h
  obtain ⟨g2, d2⟩ := h'
  rw [← hX] at g1 d1
  rw [← hY] at g2 d2
  have key : (1 + u) ^ q * (Q' + Y) ≤ (1 + u) ^ (p + q) * (Q + (X + Y)) := by
    rw [pow_add]
    have h1 : (1 + u) ^ q * (Q' + Y) ≤ (1 + u) ^ q * ((1 + u) ^ p * (Q + X) + (1 + u) ^ p * Y) :=
      mul_le_mul_of_nonneg_left (add_le_add g1 (by nlinarith)) (by linarith)
    linarith
  have key2 : (1 + u) ^ p * (Q + X) ≤ (1 + u) ^ (p + q) * (Q + (X + Y)) := by
    rw [pow_add]
    have : (1 + u) ^ p * (Q + X) ≤ (1 + u) ^ p * (1 + u) ^ q * (Q + X) := by
      have : 0 ≤ (1 + u) ^ p * (Q + X) := by positivity
      nlinarith
    refine this.trans (mul_le_mul_of_nonneg_left (by linarith) (by positivity))
  refine ⟨by rw [hXY]; exact g2.trans key, ?_⟩
  rw [hXY]
  have t := abs_sub_le P'' P' P
  have pu : 0 ≤ (p : ℝ) * u := by positivity
  have qu : 0 ≤ (q : ℝ) * u := by positivity
  have t1 := mul_le_mul_of_nonneg_left key2 pu
  have t2 := mul_le_mul_of_nonneg_left key qu
  have e : ((p + q : ℕ) : ℝ) * u * ((1 + u) ^ (p + q) * (Q + (X + Y))) =
      (p : ℝ) * u * ((1 + u) ^ (p + q) * (Q + (X + Y))) + (q : ℝ) * u * ((1 + u) ^ (p + q) * (Q + (X + Y))) := by push_cast; ring
  rw [e]
  linarith

/-- One exchange: body `i` loses and body `j` gains the impulse `mi mj g`. -/
theorem exchange {mi mj vi vj vi' vj' a b g ti tj : ℝ} (hmi : 0 ≤ mi) (hmj : 0 ≤ mj)
    (ha : |a - mj * g| ≤ κ * |mj * g| + ti) (hb : |b - mi * g| ≤ κ * |mi * g| + tj)
    (hi : |vi' - (vi - a)| ≤ u * |vi - a|) (hj : |vj' - (vj + b)| ≤ u * |vj + b|) :
    Drift 1 (mi * mj * |g|) (mi * ti + mj * tj) (mi * vi + mj * vj) (mi * |vi| + mj * |vj|) (mi * vi' + mj * vj') (mi * |vi'| + mj * |vj'|) := by
  have hu := u_pos
  have hκ := κ_pos
  rw [abs_mul, abs_of_nonneg hmj] at ha
  rw [abs_mul, abs_of_nonneg hmi] at hb
  have a1 : |a| ≤ (1 + κ) * (mj * |g|) + ti := by
    have := abs_add_le (a - mj * g) (mj * g)
    rw [sub_add_cancel, abs_mul, abs_of_nonneg hmj] at this
    linarith
  have b1 : |b| ≤ (1 + κ) * (mi * |g|) + tj := by
    have := abs_add_le (b - mi * g) (mi * g)
    rw [sub_add_cancel, abs_mul, abs_of_nonneg hmi] at this
    linarith
  have a2 : |vi - a| ≤ |vi| + |a| := abs_sub _ _
  have b2 : |vj + b| ≤ |vj| + |b| := abs_add_le _ _
  have a3 : |vi'| ≤ (1 + u) * |vi - a| := by
    have := abs_add_le (vi' - (vi - a)) (vi - a)
    rw [sub_add_cancel] at this
    linarith
  have b3 : |vj'| ≤ (1 + u) * |vj + b| := by
    have := abs_add_le (vj' - (vj + b)) (vj + b)
    rw [sub_add_cancel] at this
    linarith
  have A1 := mul_le_mul_of_nonneg_left a1 hmi
  have B1 := mul_le_mul_of_nonneg_left b1 hmj
  have A2 := mul_le_mul_of_nonneg_left a2 hmi
  have B2 := mul_le_mul_of_nonneg_left b2 hmj
  have S : mi * |vi - a| + mj * |vj + b| ≤ mi * |vi| + mj * |vj| + (2 * (1 + κ) * (mi * mj * |g|) + (mi * ti + mj * tj)) := by linarith
  have S0 : 0 ≤ mi * |vi - a| + mj * |vj + b| := by positivity
  refine ⟨?_, ?_⟩
  · rw [pow_one]
    have A3 := mul_le_mul_of_nonneg_left a3 hmi
    have B3 := mul_le_mul_of_nonneg_left b3 hmj
    have := mul_le_mul_of_nonneg_left S (by linarith : 0 ≤ 1 + u)
    linarith
  · rw [pow_one, show mi * vi' + mj * vj' - (mi * vi + mj * vj) =
      (mi * (vi' - (vi - a)) + mj * (vj' - (vj + b))) + (mj * (b - mi * g) - mi * (a - mj * g)) by ring]
    have t1 : |mi * (vi' - (vi - a)) + mj * (vj' - (vj + b))| ≤ u * (mi * |vi - a| + mj * |vj + b|) := by
      refine (abs_add_le _ _).trans ?_
      rw [abs_mul, abs_mul, abs_of_nonneg hmi, abs_of_nonneg hmj]
      have := mul_le_mul_of_nonneg_left hi hmi
      have := mul_le_mul_of_nonneg_left hj hmj
      linarith
    have t2 : |mj * (b - mi * g) - mi * (a - mj * g)| ≤ 2 * κ * (mi * mj * |g|) + (mi * ti + mj * tj) := by
      refine (abs_sub _ _).trans ?_
      rw [abs_mul, abs_mul, abs_of_nonneg hmi, abs_of_nonneg hmj]
      have := mul_le_mul_of_nonneg_left ha hmi
      have := mul_le_mul_of_nonneg_left hb hmj
      linarith
    have t3 := mul_le_mul_of_nonneg_left S hu.le
    have t4 : u * (mi * |vi| + mj * |vj| + (2 * (1 + κ) * (mi * mj * |g|) + (mi * ti + mj * tj))) ≤
        (1 : ℕ) * u * ((1 + u) * (mi * |vi| + mj * |vj| + (2 * (1 + κ) * (mi * mj * |g|) + (mi * ti + mj * tj)))) := by
      have h0 := S0.trans S
      have : 0 ≤ u * (u * (mi * |vi| + mj * |vj| + (2 * (1 + κ) * (mi * mj * |g|) + (mi * ti + mj * tj)))) := by positivity
      push_cast
      linarith
    refine (abs_add_le _ _).trans ?_
    linarith

/-- The closed bound. -/
theorem Drift.bound {p : Nat} (hp : p ≤ 2 ^ 40) {W τ P Q P' Q' : ℝ} (h : Drift p W τ P Q P' Q') (hQ : 0 ≤ Q) (hW : 0 ≤ W) (hτ : 0 ≤ τ) :
    |P' - P| ≤ 101 / 100 * (p * Q + (2 * p + 4) * W) / 2 ^ 53 + 2 * τ := by
  have hu := u_pos
  have hul := u_small
  have hp' : (p : ℝ) ≤ 2 ^ 40 := by exact_mod_cast hp
  have hpu : (p : ℝ) * u ≤ 1 / 5000 := by
    have : (p : ℝ) * u ≤ 2 ^ 40 * u := mul_le_mul_of_nonneg_right hp' hu.le
    have : (2 : ℝ) ^ 40 * u ≤ 1 / 5000 := by unfold u; norm_num
    linarith
  have hpow : (1 + u) ^ p ≤ 1001 / 1000 := by
    have h1 : (1 + u) ^ p ≤ Real.exp (p * u) := by
      rw [Real.exp_nat_mul]
      exact pow_le_pow_left₀ (by linarith) (by linarith [Real.add_one_le_exp u]) p
    have h2 : Real.exp (p * u) ≤ 1 / (1 - p * u) := by
      have := Real.one_sub_le_exp_neg (p * u)
      rw [Real.exp_neg] at this
      rw [le_div_iff₀ (by linarith)]
      have h3 := Real.exp_pos (p * u)
      calc Real.exp (p * u) * (1 - p * u) ≤ Real.exp (p * u) * (Real.exp (p * u))⁻¹ := mul_le_mul_of_nonneg_left this h3.le
        _ = 1 := mul_inv_cancel₀ h3.ne'
    refine h1.trans (h2.trans ?_)
    rw [div_le_iff₀ (by linarith)]
    linarith
  have hκ : κ ≤ 2001 / 1000 * u := by unfold κ; nlinarith
  have hκ0 := κ_pos
  have hκ1 : κ ≤ 1 / 1000 := by linarith
  refine h.drift.trans ?_
  have pu0 : 0 ≤ (p : ℝ) * u := by positivity
  have e1 : (1 + u) ^ p * (Q + (2 * (1 + κ) * W + τ)) ≤ 1001 / 1000 * (Q + (2 * (1 + 1 / 1000) * W + τ)) := by
    refine mul_le_mul hpow ?_ (by positivity) (by norm_num)
    have : κ * W ≤ 1 / 1000 * W := mul_le_mul_of_nonneg_right hκ1 hW
    linarith
  have e2 := mul_le_mul_of_nonneg_left e1 pu0
  have e3 : κ * W ≤ 2001 / 1000 * u * W := mul_le_mul_of_nonneg_right hκ hW
  have e4 : (p : ℝ) * u * τ ≤ 1 / 5000 * τ := mul_le_mul_of_nonneg_right hpu hτ
  have e5 : 0 ≤ (p : ℝ) * u * Q := by positivity
  have e6 : 0 ≤ (p : ℝ) * u * W := by positivity
  have e7 : 0 ≤ u * W := by positivity
  have e8 : 101 / 100 * (p * Q + (2 * p + 4) * W) / 2 ^ 53 = 101 / 100 * (p * u * Q) + 101 / 100 * (2 * (p * u * W)) + 101 / 100 * (4 * (u * W)) := by unfold u; ring
  rw [e8]
  have e9 : (p : ℝ) * u * (1001 / 1000 * (Q + (2 * (1 + 1 / 1000) * W + τ))) =
      1001 / 1000 * (p * u * Q) + 1001 / 1000 * (2 * (1001 / 1000) * (p * u * W)) + 1001 / 1000 * (p * u * τ) := by ring
  rw [e9] at e2
  linarith

theorem Drift.mono {p : Nat} {W τ τ' P Q P' Q' : ℝ} (h : Drift p W τ P Q P' Q') (hτ : τ ≤ τ') : Drift p W τ' P Q P' Q' := by
  have hu := u_pos
  have hp := one_le_pow' p
  have e : (1 + u) ^ p * (Q + (2 * (1 + κ) * W + τ)) ≤ (1 + u) ^ p * (Q + (2 * (1 + κ) * W + τ')) :=
    mul_le_mul_of_nonneg_left (by linarith) (by linarith)
  exact ⟨h.grow.trans e, h.drift.trans (by
    have := mul_le_mul_of_nonneg_left e (by positivity : 0 ≤ (p : ℝ) * u)
    linarith)⟩

/-! ### Lists of bodies -/

section
variable {k : Nat} {c : Nat} {hc : c < k}

theorem motion_nonneg {L : List (Body F64 k)} (h : Massive L) : 0 ≤ motion c hc L := by
  refine List.sum_nonneg fun x hx => ?_
  obtain ⟨b, hb, rfl⟩ := List.mem_map.1 hx
  exact mul_nonneg (h b hb) (abs_nonneg _)

theorem impulse_nonneg (g : Body F64 k → Body F64 k → F64) {a b : Body F64 k} (ha : 0 ≤ toReal a.mass) (hb : 0 ≤ toReal b.mass) :
    0 ≤ impulse c hc g a b := mul_nonneg (mul_nonneg ha hb) (abs_nonneg _)

theorem dust_nonneg {a b : Body F64 k} (ha : 0 ≤ toReal a.mass) (hb : 0 ≤ toReal b.mass) : 0 ≤ dust c hc a b := by
  unfold dust; positivity

theorem map_sum_nonneg {β : Type} {f : β → ℝ} {L : List β} (h : ∀ b ∈ L, 0 ≤ f b) : 0 ≤ (L.map f).sum := by
  refine List.sum_nonneg fun x hx => ?_
  obtain ⟨b, hb, rfl⟩ := List.mem_map.1 hx
  exact h b hb

theorem pairSum_nonneg {f : Body F64 k → Body F64 k → ℝ} (hf : ∀ a b, 0 ≤ toReal a.mass → 0 ≤ toReal b.mass → 0 ≤ f a b) :
    ∀ {L : List (Body F64 k)}, Massive L → 0 ≤ pairSum f L
  | [], _ => le_rfl
  | a :: l, h => add_nonneg (map_sum_nonneg fun b hb => hf a b (h a (by simp)) (h b (by simp [hb]))) (pairSum_nonneg hf fun b hb => h b (by simp [hb]))

/-- A body without its velocity. -/
def strip (b : Body F64 k) : Body F64 k := { b with v := b.x }

theorem pairSum_map {β : Type} (f : β → β → ℝ) (s : β → β) (h : ∀ a b, f (s a) (s b) = f a b) : ∀ L : List β, pairSum f (L.map s) = pairSum f L
  | [] => rfl
  | a :: l => by simp only [List.map_cons, pairSum, List.map_map, pairSum_map f s h l]; congr 2; funext; simp [h]

theorem pairSum_strip {f : Body F64 k → Body F64 k → ℝ} (h : ∀ a b, f (strip a) (strip b) = f a b) {L L' : List (Body F64 k)} (e : L.map strip = L'.map strip) :
    pairSum f L = pairSum f L' := by
  rw [← pairSum_map f strip h L, e, pairSum_map f strip h L']

theorem massive_strip {L L' : List (Body F64 k)} (e : L'.map strip = L.map strip) (h : Massive L) : Massive L' := by
  intro b hb
  have : strip b ∈ L.map strip := e ▸ List.mem_map_of_mem hb
  obtain ⟨b', hb', e'⟩ := List.mem_map.1 this
  have : b'.mass = b.mass := by simpa [strip] using congrArg Body.mass e'
  rw [← this]; exact h b' hb'

end

/-! ### The scalar step -/

theorem scalar_term {d m g : F64} (h : Fin' (d * (m * g))) :
    |rv (d * (m * g)) - rv m * (rv d * rv g)| ≤ κ * |rv m * (rv d * rv g)| + η * (2 * |rv d| + 1) := by
  have h1 := mul_u (fin_mul h).2
  have h2 := mul_u h
  rw [mul_comm (rv d)] at h2
  have := two_err h1 h2
  rwa [show rv m * rv g * rv d = rv m * (rv d * rv g) by ring] at this

theorem pair_scalar (F : Fns F64) (dt : F64) (a b : Body F64 3) (c : Nat) (hc : c < 3) (ha : 0 ≤ toReal a.mass) (hb : 0 ≤ toReal b.mass)
    (fa : Fin' ((pairScalar F dt a b).1.v[c])) (fb : Fin' ((pairScalar F dt a b).2.v[c])) :
    Fin' a.v[c] ∧ Fin' b.v[c] ∧ Drift 1 (impulse c hc (factorScalar F dt) a b) (dust c hc a b / 2 ^ 1074)
      (toReal a.mass * toReal a.v[c] + toReal b.mass * toReal b.v[c]) (toReal a.mass * |toReal a.v[c]| + toReal b.mass * |toReal b.v[c]|)
      (toReal a.mass * toReal (pairScalar F dt a b).1.v[c] + toReal b.mass * toReal (pairScalar F dt a b).2.v[c])
      (toReal a.mass * |toReal (pairScalar F dt a b).1.v[c]| + toReal b.mass * |toReal (pairScalar F dt a b).2.v[c]|) := by
  have e1 : (pairScalar F dt a b).1.v[c] = a.v[c] - (a.x[c] - b.x[c]) * (b.mass * factorScalar F dt a b) := by
    simp [pairScalar, factorScalar]
  have e2 : (pairScalar F dt a b).2.v[c] = b.v[c] + (a.x[c] - b.x[c]) * (a.mass * factorScalar F dt a b) := by
    simp [pairScalar, factorScalar]
  rw [e1] at fa ⊢
  rw [e2] at fb ⊢
  refine ⟨(fin_sub fa).1, (fin_add fb).1, ?_⟩
  refine (exchange ha hb (scalar_term (fin_sub fa).2) (scalar_term (fin_add fb).2) (sub_u fa) (add_u fb)).mono ?_
  unfold dust
  have : η = 1 / 2 / 2 ^ 1074 := by unfold η; rw [pow_succ]; ring
  rw [this]
  have h0 : (0 : ℝ) < 1 / 2 ^ 1074 := by positivity
  show toReal a.mass * (1 / 2 / 2 ^ 1074 * (2 * |toReal (a.x[c] - b.x[c])| + 1)) + toReal b.mass * (1 / 2 / 2 ^ 1074 * (2 * |toReal (a.x[c] - b.x[c])| + 1)) ≤ _
  generalize |toReal (a.x[c] - b.x[c])| = d
  rw [div_eq_mul_one_div (_ + _) ((2 : ℝ) ^ 1074), div_eq_mul_one_div (1 / 2) ((2 : ℝ) ^ 1074)]
  generalize (1 : ℝ) / 2 ^ 1074 = z at h0 ⊢
  have := mul_nonneg ha hb
  nlinarith [mul_nonneg ha h0.le, mul_nonneg hb h0.le, mul_nonneg this h0.le]

theorem turn_scalar (F : Fns F64) (dt : F64) (c : Nat) (hc : c < 3) : ∀ (rest : List (Body F64 3)) (b : Body F64 3),
    Massive (b :: rest) → Sound c hc ((turn F dt b rest).1 :: (turn F dt b rest).2) →
    ((turn F dt b rest).1 :: (turn F dt b rest).2).map strip = (b :: rest).map strip ∧ Sound c hc (b :: rest) ∧
      Drift rest.length (rest.map (impulse c hc (factorScalar F dt) b)).sum ((rest.map (dust c hc b)).sum / 2 ^ 1074)
        (momentum c hc (b :: rest)) (motion c hc (b :: rest))
        (momentum c hc ((turn F dt b rest).1 :: (turn F dt b rest).2)) (motion c hc ((turn F dt b rest).1 :: (turn F dt b rest).2))
  | [], b, _, h => ⟨rfl, h, by simpa [turn] using Drift.none⟩
  | a :: rest, b, hm, h => by
    have hmb : 0 ≤ toReal b.mass := hm b (by simp)
    have hma : 0 ≤ toReal a.mass := hm a (by simp)
    have hmr : Massive (b :: rest) := fun x hx => hm x (by rcases List.mem_cons.1 hx with h | h <;> simp [h])
    have hmr' : Massive rest := fun x hx => hm x (by simp [hx])
    obtain ⟨b1, hb1⟩ : ∃ b1, b1 = (pairScalar F dt b a).1 := ⟨_, rfl⟩
    obtain ⟨a1, ha1⟩ : ∃ a1, a1 = (pairScalar F dt b a).2 := ⟨_, rfl⟩
    have sb : strip b1 = strip b := by rw [hb1]; rfl
    have sa : strip a1 = strip a := by rw [ha1]; rfl
    have mb : b1.mass = b.mass := by rw [hb1]; rfl
    have ma : a1.mass = a.mass := by rw [ha1]; rfl
    have e : turn F dt b (a :: rest) = ((turn F dt b1 rest).1, a1 :: (turn F dt b1 rest).2) := by rw [hb1, ha1]; rfl
    rw [e] at h ⊢
    dsimp only at h ⊢
    have hm1 : Massive (b1 :: rest) := by
      intro x hx
      rcases List.mem_cons.1 hx with h | h
      · rw [h, mb]; exact hmb
      · exact hmr' x h
    obtain ⟨es, s1, D1⟩ := turn_scalar F dt c hc rest b1 hm1
      (fun x hx => h x (by rcases List.mem_cons.1 hx with h | h <;> simp [h]))
    generalize (turn F dt b1 rest).1 = b2 at *
    generalize (turn F dt b1 rest).2 = r2 at *
    obtain ⟨fb, fa, D0⟩ := pair_scalar F dt b a c hc hmb hma (hb1 ▸ s1 b1 (by simp)) (ha1 ▸ h a1 (by simp))
    rw [← hb1, ← ha1] at D0
    refine ⟨?_, ?_, ?_⟩
    · simp only [List.map_cons, List.cons.injEq] at es ⊢
      exact ⟨es.1.trans sb, sa, es.2⟩
    · intro x hx
      rcases List.mem_cons.1 hx with h | h
      · rw [h]; exact fb
      rcases List.mem_cons.1 h with h | h
      · rw [h]; exact fa
      · exact s1 x (by simp [h])
    · have q0 : 0 ≤ motion c hc rest := motion_nonneg hmr'
      have D0' := D0.frame (momentum c hc rest) q0
      have D1' := D1.frame (toReal a1.mass * toReal a1.v[c]) (D := toReal a1.mass * |toReal a1.v[c]|) (mul_nonneg (ma ▸ hma) (abs_nonneg _))
      have i1 : ∀ x, impulse c hc (factorScalar F dt) b1 x = impulse c hc (factorScalar F dt) b x := fun x => by rw [hb1]; rfl
      have i2 : ∀ x, dust c hc b1 x = dust c hc b x := fun x => by rw [hb1]; rfl
      rw [List.map_congr_left (fun x _ => i1 x), List.map_congr_left (fun x _ => i2 x)] at D1'
      simp only [momentum, motion, List.map_cons, List.sum_cons, mb, ma] at D0' D1' ⊢
      have W0 : 0 ≤ impulse c hc (factorScalar F dt) b a := impulse_nonneg _ hmb hma
      have W1 : 0 ≤ (rest.map (impulse c hc (factorScalar F dt) b)).sum := map_sum_nonneg fun x hx => impulse_nonneg _ hmb (hmr' x hx)
      have T0 : 0 ≤ dust c hc b a / 2 ^ 1074 := div_nonneg (dust_nonneg hmb hma) (by positivity)
      have T1 : 0 ≤ (rest.map (dust c hc b)).sum / 2 ^ 1074 := div_nonneg (map_sum_nonneg fun x hx => dust_nonneg hmb (hmr' x hx)) (by positivity)
      have Q0 : (0 : ℝ) ≤ toReal b.mass * |toReal b.v[c]| + toReal a.mass * |toReal a.v[c]| + (rest.map fun b => toReal b.mass * |toReal b.v[c]|).sum := by
        unfold motion at q0
        exact add_nonneg (add_nonneg (mul_nonneg hmb (abs_nonneg _)) (mul_nonneg hma (abs_nonneg _))) q0
      have D1'' : Drift rest.length (rest.map (impulse c hc (factorScalar F dt) b)).sum ((rest.map (dust c hc b)).sum / 2 ^ 1074)
          (toReal b.mass * toReal b1.v[c] + toReal a.mass * toReal a1.v[c] + (rest.map fun b => toReal b.mass * toReal b.v[c]).sum)
          (toReal b.mass * |toReal b1.v[c]| + toReal a.mass * |toReal a1.v[c]| + (rest.map fun b => toReal b.mass * |toReal b.v[c]|).sum)
          (toReal b2.mass * toReal b2.v[c] + (toReal a.mass * toReal a1.v[c] + (r2.map fun b => toReal b.mass * toReal b.v[c]).sum))
          (toReal b2.mass * |toReal b2.v[c]| + (toReal a.mass * |toReal a1.v[c]| + (r2.map fun b => toReal b.mass * |toReal b.v[c]|).sum)) := by
        convert D1' using 1 <;> ring
      have := D0'.trans D1'' Q0 W0 W1 T0 T1
      rw [Nat.add_comm 1, ← add_div, add_assoc, add_assoc] at this
      exact this

theorem nPairs_succ (n : Nat) : nPairs (n + 1) = n + nPairs n := by
  unfold nPairs
  rcases n with _ | n
  · rfl
  · simp only [Nat.add_sub_cancel]
    have : (n + 1 + 1) * (n + 1) = 2 * (n + 1) + (n + 1) * n := by ring
    omega

theorem turns_scalar (F : Fns F64) (dt : F64) (c : Nat) (hc : c < 3) : ∀ (k : Nat) (L : List (Body F64 3)), L.length = k → Massive L →
    Sound c hc (turns F dt k L) →
    (turns F dt k L).map Body.mass = L.map Body.mass ∧ Sound c hc L ∧
      Drift (nPairs k) (pairSum (impulse c hc (factorScalar F dt)) L) (pairSum (dust c hc) L / 2 ^ 1074)
        (momentum c hc L) (motion c hc L) (momentum c hc (turns F dt k L)) (motion c hc (turns F dt k L))
  | 0, [], _, _, h => ⟨rfl, h, by simpa [turns, pairSum, nPairs] using Drift.none⟩
  | k + 1, b :: rest, hl, hm, h => by
    have hl' : rest.length = k := by simpa using hl
    obtain ⟨b1, hb1⟩ : ∃ b1, b1 = (turn F dt b rest).1 := ⟨_, rfl⟩
    obtain ⟨r1, hr1⟩ : ∃ r1, r1 = (turn F dt b rest).2 := ⟨_, rfl⟩
    obtain ⟨b2, hb2⟩ : ∃ b2 : Body F64 3, b2 = { b1 with x := Vector.zipWith (fun x v => x + dt * v) b1.x b1.v } := ⟨_, rfl⟩
    have e : turns F dt (k + 1) (b :: rest) = b2 :: turns F dt k r1 := by rw [hb2, hb1, hr1]; rfl
    rw [e] at h ⊢
    have T := turn_scalar F dt c hc rest b hm
    rw [← hb1, ← hr1] at T
    have lr : r1.length = rest.length := by
      rw [hr1]
      clear hb1 hr1 e hb2 T h hm hl hl'
      induction rest generalizing b with
      | nil => rfl
      | cons a rest ih => simp only [turn, List.length_cons]; rw [ih]
    have vb : b2.v = b1.v := by rw [hb2]
    have mb2 : b2.mass = b1.mass := by rw [hb2]
    have mr : Massive r1 := by
      intro x hx
      have hmm : ∀ (rest : List (Body F64 3)) (b : Body F64 3), (turn F dt b rest).2.map Body.mass = rest.map Body.mass := by
        intro rest
        induction rest with
        | nil => intro b; rfl
        | cons a rest ih => intro b; simp only [turn, List.map_cons]; rw [ih]; rfl
      have := hmm rest b
      rw [← hr1] at this
      have hx' : x.mass ∈ rest.map Body.mass := this ▸ List.mem_map_of_mem hx
      obtain ⟨y, hy, ey⟩ := List.mem_map.1 hx'
      rw [← ey]; exact hm y (by simp [hy])
    obtain ⟨E2, S2, D2⟩ := turns_scalar F dt c hc k r1 (by omega) mr (fun x hx => h x (by simp [hx]))
    obtain ⟨E1, S1, D1⟩ := T (by
      intro x hx
      rcases List.mem_cons.1 hx with hh | hh
      · have := h b2 (by simp)
        simp only [vb] at this
        rw [hh]; exact this
      · exact S2 x hh)
    simp only [List.map_cons, List.cons.injEq] at E1
    have mb1 : b1.mass = b.mass := by simpa [strip] using congrArg Body.mass E1.1
    refine ⟨?_, S1, ?_⟩
    · rw [List.map_cons, List.map_cons, E2, mb2, mb1]
      congr 1
      have := congrArg (List.map Body.mass) E1.2
      simpa [List.map_map, Function.comp_def, strip] using this
    · have i1 := pairSum_strip (f := impulse c hc (factorScalar F dt)) (fun _ _ => rfl) E1.2
      have i2 := pairSum_strip (f := dust c hc) (fun _ _ => rfl) E1.2
      rw [i1, i2] at D2
      have hmb : 0 ≤ toReal b.mass := hm b (by simp)
      have hmr' : Massive rest := fun x hx => hm x (by simp [hx])
      have D2' := D2.frame (toReal b1.mass * toReal b1.v[c]) (D := toReal b1.mass * |toReal b1.v[c]|) (mul_nonneg (mb1 ▸ hmb) (abs_nonneg _))
      have W0 : 0 ≤ (rest.map (impulse c hc (factorScalar F dt) b)).sum := map_sum_nonneg fun x hx => impulse_nonneg _ hmb (hmr' x hx)
      have T0 : 0 ≤ (rest.map (dust c hc b)).sum / 2 ^ 1074 := div_nonneg (map_sum_nonneg fun x hx => dust_nonneg hmb (hmr' x hx)) (by positivity)
      have W1 : 0 ≤ pairSum (impulse c hc (factorScalar F dt)) rest := pairSum_nonneg (fun _ _ => impulse_nonneg _) hmr'
      have T1 : 0 ≤ pairSum (dust c hc) rest / 2 ^ 1074 := div_nonneg (pairSum_nonneg (fun _ _ => dust_nonneg) hmr') (by positivity)
      have eP : ∀ r, momentum c hc (b2 :: r) = momentum c hc r + toReal b1.mass * toReal b1.v[c] := fun r => by
        simp only [momentum, List.map_cons, List.sum_cons, vb, mb2]; ring
      have eQ : ∀ r, motion c hc (b2 :: r) = motion c hc r + toReal b1.mass * |toReal b1.v[c]| := fun r => by
        simp only [motion, List.map_cons, List.sum_cons, vb, mb2]; ring
      have eP' : momentum c hc (b1 :: r1) = momentum c hc r1 + toReal b1.mass * toReal b1.v[c] := by
        simp only [momentum, List.map_cons, List.sum_cons]; ring
      have eQ' : motion c hc (b1 :: r1) = motion c hc r1 + toReal b1.mass * |toReal b1.v[c]| := by
        simp only [motion, List.map_cons, List.sum_cons]; ring
      rw [← eP', ← eQ', ← eP, ← eQ] at D2'
      have := D1.trans D2' (motion_nonneg hm) W0 W1 T0 T1
      rw [← add_div, hl', ← nPairs_succ] at this
      exact this

/-! ### Pairs by index -/

theorem pairs_succ (n : Nat) : pairs (n + 1) = (List.range' 1 n).map (0, ·) ++ (pairs n).map fun p => (p.1 + 1, p.2 + 1) := by
  unfold pairs
  rw [List.range_succ_eq_map, List.flatMap_cons, List.flatMap_map, List.map_flatMap]
  congr 1
  refine List.flatMap_congr fun j _ => ?_
  rw [List.map_map, show n + 1 - (j.succ + 1) = n - (j + 1) by omega, show j.succ + 1 = 1 + (j + 1) by omega, ← List.map_add_range', List.map_map]
  refine List.map_congr_left fun x _ => ?_
  simp [Function.comp, Nat.add_comm]

theorem pairSum_pairs {β : Type} (d : β) (f : β → β → ℝ) : ∀ L : List β,
    ((pairs L.length).map fun p => f (L.getD p.1 d) (L.getD p.2 d)).sum = pairSum f L
  | [] => by simp [pairs, pairSum]
  | a :: l => by
    rw [List.length_cons, pairs_succ, List.map_append, List.sum_append, List.map_map, List.map_map, pairSum, ← pairSum_pairs d f l]
    congr 1
    · congr 1
      refine List.ext_getElem (by simp) fun i h1 h2 => ?_
      have hi : i < l.length := by simpa using h1
      simp [Function.comp, Nat.add_comm 1 i, hi]

theorem two_sum {N : Nat} (f g : Fin N → ℝ) {j k : Fin N} (hjk : j ≠ k) (h : ∀ b, b ≠ j → b ≠ k → f b = g b) (h0 : ∀ b, b ≠ j → b ≠ k → 0 ≤ f b) : ∃ C, (∑ b, f b) = f j + f k + C ∧ (∑ b, g b) = g j + g k + C ∧ 0 ≤ C := by
  refine ⟨∑ b ∈ (Finset.univ.erase j).erase k, f b, ?_, ?_, ?_⟩
  · rw [← Finset.add_sum_erase _ _ (Finset.mem_univ j), ← Finset.add_sum_erase (Finset.univ.erase j) _ (Finset.mem_erase.2 ⟨hjk.symm, Finset.mem_univ k⟩), add_assoc]
  · rw [← Finset.add_sum_erase _ _ (Finset.mem_univ j), ← Finset.add_sum_erase (Finset.univ.erase j) _ (Finset.mem_erase.2 ⟨hjk.symm, Finset.mem_univ k⟩), add_assoc]
    congr 2
    refine Finset.sum_congr rfl fun b hb => (h b ?_ ?_).symm
    · exact (Finset.mem_erase.1 (Finset.mem_erase.1 hb).2).1
    · exact (Finset.mem_erase.1 hb).1
  · refine Finset.sum_nonneg fun b hb => h0 b ?_ ?_
    · exact (Finset.mem_erase.1 (Finset.mem_erase.1 hb).2).1
    · exact (Finset.mem_erase.1 hb).1

theorem two_sum' {N : Nat} (f g : Fin N → ℝ) {j k : Fin N} (hjk : j ≠ k) (h : ∀ b, b ≠ j → b ≠ k → f b = g b) :
    ∃ C, (∑ b, f b) = f j + f k + C ∧ (∑ b, g b) = g j + g k + C := by
  refine ⟨∑ b ∈ (Finset.univ.erase j).erase k, f b, ?_, ?_⟩
  · rw [← Finset.add_sum_erase _ _ (Finset.mem_univ j), ← Finset.add_sum_erase (Finset.univ.erase j) _ (Finset.mem_erase.2 ⟨hjk.symm, Finset.mem_univ k⟩), add_assoc]
  · rw [← Finset.add_sum_erase _ _ (Finset.mem_univ j), ← Finset.add_sum_erase (Finset.univ.erase j) _ (Finset.mem_erase.2 ⟨hjk.symm, Finset.mem_univ k⟩), add_assoc]
    congr 2
    refine Finset.sum_congr rfl fun b hb => (h b ?_ ?_).symm
    · exact (Finset.mem_erase.1 (Finset.mem_erase.1 hb).2).1
    · exact (Finset.mem_erase.1 hb).1

/-! ### The SIMD step -/

variable {N : Nat}

theorem simd_term {d m g : F64} (h : Fin' (d * g * m)) :
    |rv (d * g * m) - rv m * (rv d * rv g)| ≤ κ * |rv m * (rv d * rv g)| + η * (2 * |rv m| + 1) := by
  have := two_err (mul_u (fin_mul h).1) (mul_u h)
  rwa [show rv d * rv g * rv m = rv m * (rv d * rv g) by ring] at this

/-- The two changed bodies of `kick`. -/
theorem pair_simd (a b : Body F64 4) (c : Nat) (hc : c < 4) (g : F64) (r : Vec F64 4) (G : Body F64 4 → Body F64 4 → F64) (hr : r[c] = a.x[c] - b.x[c])
    (hg : g = G a b) (ha : 0 ≤ toReal a.mass) (hb : 0 ≤ toReal b.mass)
    (fa : Fin' ((a.v - r * splat 4 g * splat 4 b.mass)[c])) (fb : Fin' ((b.v + r * splat 4 g * splat 4 a.mass)[c])) :
    Fin' a.v[c] ∧ Fin' b.v[c] ∧ Drift 1 (impulse c hc G a b) (dust c hc a b / 2 ^ 1074)
      (toReal a.mass * toReal a.v[c] + toReal b.mass * toReal b.v[c]) (toReal a.mass * |toReal a.v[c]| + toReal b.mass * |toReal b.v[c]|)
      (toReal a.mass * toReal (a.v - r * splat 4 g * splat 4 b.mass)[c] + toReal b.mass * toReal (b.v + r * splat 4 g * splat 4 a.mass)[c])
      (toReal a.mass * |toReal (a.v - r * splat 4 g * splat 4 b.mass)[c]| + toReal b.mass * |toReal (b.v + r * splat 4 g * splat 4 a.mass)[c]|) := by
  have e1 : (a.v - r * splat 4 g * splat 4 b.mass)[c] = a.v[c] - (a.x[c] - b.x[c]) * G a b * b.mass := by
    rw [Mandel.vsub_get, Mandel.vmul_get, Mandel.vmul_get, Mandel.splat_get, Mandel.splat_get, hr, hg]
  have e2 : (b.v + r * splat 4 g * splat 4 a.mass)[c] = b.v[c] + (a.x[c] - b.x[c]) * G a b * a.mass := by
    rw [Mandel.vadd_get, Mandel.vmul_get, Mandel.vmul_get, Mandel.splat_get, Mandel.splat_get, hr, hg]
  rw [e1] at fa ⊢
  rw [e2] at fb ⊢
  refine ⟨(fin_sub fa).1, (fin_add fb).1, ?_⟩
  refine (exchange ha hb (simd_term (fin_sub fa).2) (simd_term (fin_add fb).2) (sub_u fa) (add_u fb)).mono ?_
  unfold dust
  have : η = 1 / 2 / 2 ^ 1074 := by unfold η; rw [pow_succ]; ring
  rw [this]
  have h0 : (0 : ℝ) < 1 / 2 ^ 1074 := by positivity
  show toReal a.mass * (1 / 2 / 2 ^ 1074 * (2 * |toReal b.mass| + 1)) + toReal b.mass * (1 / 2 / 2 ^ 1074 * (2 * |toReal a.mass| + 1)) ≤ _
  rw [abs_of_nonneg ha, abs_of_nonneg hb]
  have hd := abs_nonneg (toReal (a.x[c] - b.x[c]))
  generalize |toReal (a.x[c] - b.x[c])| = d at hd ⊢
  rw [div_eq_mul_one_div (_ + _) ((2 : ℝ) ^ 1074), div_eq_mul_one_div (1 / 2) ((2 : ℝ) ^ 1074)]
  generalize (1 : ℝ) / 2 ^ 1074 = z at h0 ⊢
  have h1 := mul_nonneg (mul_nonneg ha hd) h0.le
  have h2 := mul_nonneg (mul_nonneg hb hd) h0.le
  nlinarith [mul_nonneg ha h0.le, mul_nonneg hb h0.le]

/-- One component of one body's momentum, by index. -/
theorem momentum_fin (c : Nat) (hc : c < 4) (B : Vector (Body F64 4) N) : momentum c hc B.toList = ∑ b : Fin N, toReal B[b].mass * toReal B[b].v[c] := by
  unfold momentum; rw [list_sum_eq (N := N) B.toList (by simp)]; simp
theorem motion_fin (c : Nat) (hc : c < 4) (B : Vector (Body F64 4) N) : motion c hc B.toList = ∑ b : Fin N, toReal B[b].mass * |toReal B[b].v[c]| := by
  unfold motion; rw [list_sum_eq (N := N) B.toList (by simp)]; simp

theorem kick_step (B s : Vector (Body F64 4) N) (c : Nat) (hc : c < 4) (G : Body F64 4 → Body F64 4 → F64) (hGs : ∀ a b, G (strip a) (strip b) = G a b)
    (hm : Massive B.toList) (hs : ∀ b (hb : b < N), s[b].x = B[b].x ∧ s[b].mass = B[b].mass) {i j k : Nat} (hj : j < N) (hk : k < N) (hjk : j < k)
    (ri : Vec F64 4) (mi : F64) (hr' : ri = B[j].x - B[k].x) (hg' : mi = G B[j] B[k]) {Wi Zi : ℝ} (hWi : 0 ≤ Wi) (hZi : 0 ≤ Zi / 2 ^ 1074)
    (hD : Sound c hc s.toList → Sound c hc B.toList ∧ Drift i Wi (Zi / 2 ^ 1074)
      (momentum c hc B.toList) (motion c hc B.toList) (momentum c hc s.toList) (motion c hc s.toList)) :
    (∀ b (hb : b < N), ((s.set j { s[j] with v := s[j].v - ri * splat 4 mi * splat 4 s[k].mass }).set k
      { s[k] with v := s[k].v + ri * splat 4 mi * splat 4 s[j].mass })[b].x = B[b].x ∧
      ((s.set j { s[j] with v := s[j].v - ri * splat 4 mi * splat 4 s[k].mass }).set k
      { s[k] with v := s[k].v + ri * splat 4 mi * splat 4 s[j].mass })[b].mass = B[b].mass) ∧
    (Sound c hc ((s.set j { s[j] with v := s[j].v - ri * splat 4 mi * splat 4 s[k].mass }).set k
      { s[k] with v := s[k].v + ri * splat 4 mi * splat 4 s[j].mass }).toList → Sound c hc B.toList ∧
      Drift (i + 1) (Wi + impulse c hc G B[j] B[k]) ((Zi + dust c hc B[j] B[k]) / 2 ^ 1074)
      (momentum c hc B.toList) (motion c hc B.toList) (momentum c hc ((s.set j { s[j] with v := s[j].v - ri * splat 4 mi * splat 4 s[k].mass }).set k
      { s[k] with v := s[k].v + ri * splat 4 mi * splat 4 s[j].mass }).toList) (motion c hc ((s.set j { s[j] with v := s[j].v - ri * splat 4 mi * splat 4 s[k].mass }).set k
      { s[k] with v := s[k].v + ri * splat 4 mi * splat 4 s[j].mass }).toList)) := by
  have hmB : ∀ b (hb : b < N), 0 ≤ toReal B[b].mass := fun b hb => hm _ (by simp)
  have wi0 : 0 ≤ impulse c hc G B[j] B[k] := impulse_nonneg _ (hmB _ _) (hmB _ _)
  have zi0 : 0 ≤ dust c hc B[j] B[k] := dust_nonneg (hmB _ _) (hmB _ _)
  obtain ⟨vj, hvj⟩ : ∃ vj, vj = s[j].v - ri * splat 4 mi * splat 4 s[k].mass := ⟨_, rfl⟩
  obtain ⟨vk, hvk⟩ : ∃ vk, vk = s[k].v + ri * splat 4 mi * splat 4 s[j].mass := ⟨_, rfl⟩
  rw [← hvj, ← hvk]
  obtain ⟨s', hs'⟩ : ∃ s', s' = (s.set j { s[j] with v := vj }).set k { s[k] with v := vk } := ⟨_, rfl⟩
  rw [← hs']
  have gj : s'[j] = { s[j] with v := vj } := by rw [hs', Vector.getElem_set_ne hk hj (by omega), Vector.getElem_set_self]
  have gk : s'[k] = { s[k] with v := vk } := by rw [hs', Vector.getElem_set_self]
  have go : ∀ b (hb : b < N), b ≠ j → b ≠ k → s'[b] = s[b] := fun b hb h1 h2 => by
    rw [hs', Vector.getElem_set_ne hk hb (by omega), Vector.getElem_set_ne hj hb (by omega)]
  have hx' : ∀ b (hb : b < N), s'[b].x = B[b].x ∧ s'[b].mass = B[b].mass := by
    intro b hb
    by_cases h1 : b = j
    · subst h1; rw [gj]; exact hs b hb
    by_cases h2 : b = k
    · subst h2; rw [gk]; exact hs b hb
    rw [go b hb h1 h2]; exact hs b hb
  refine ⟨hx', fun hS => ?_⟩
  have fS : ∀ b (hb : b < N), Fin' s'[b].v[c] := fun b hb => hS _ (by simp)
  have fj := fS j hj
  have fk := fS k hk
  rw [gj] at fj
  rw [gk] at fk
  dsimp only at fj fk
  have sj : strip s[j] = strip B[j] := by simp only [strip, (hs j hj).1, (hs j hj).2]
  have sk : strip s[k] = strip B[k] := by simp only [strip, (hs k hk).1, (hs k hk).2]
  have hmj : 0 ≤ toReal s[j].mass := by rw [(hs j hj).2]; exact hmB j hj
  have hmk : 0 ≤ toReal s[k].mass := by rw [(hs k hk).2]; exact hmB k hk
  obtain ⟨f1, f2, D1⟩ := pair_simd s[j] s[k] c hc mi ri G (by rw [hr', Mandel.vsub_get, (hs j hj).1, (hs k hk).1])
    (by rw [hg', ← hGs, ← sj, ← sk, hGs]) hmj hmk (hvj ▸ fj) (hvk ▸ fk)
  rw [← hvj, ← hvk] at D1
  have i1 : impulse c hc G s[j] s[k] = impulse c hc G B[j] B[k] := by
    unfold impulse; rw [(hs j hj).1, (hs j hj).2, (hs k hk).1, (hs k hk).2, ← hGs s[j], sj, sk, hGs]
  have i2 : dust c hc s[j] s[k] = dust c hc B[j] B[k] := by
    unfold dust; rw [(hs j hj).1, (hs j hj).2, (hs k hk).1, (hs k hk).2]
  rw [i1, i2] at D1
  have hSs : Sound c hc s.toList := by
    intro x hx
    obtain ⟨b, hb, rfl⟩ := List.getElem_of_mem hx
    have hb' : b < N := by simpa using hb
    rw [Vector.getElem_toList]
    by_cases h1 : b = j
    · subst h1; exact f1
    by_cases h2 : b = k
    · subst h2; exact f2
    have := fS b hb'
    rw [go b hb' h1 h2] at this; exact this
  obtain ⟨SB, D0⟩ := hD hSs
  refine ⟨SB, ?_⟩
  have hjk' : (⟨j, hj⟩ : Fin N) ≠ ⟨k, hk⟩ := by intro h; have := congrArg Fin.val h; dsimp only at this; omega
  obtain ⟨C, hC1, hC2⟩ := two_sum' (fun b : Fin N => toReal s[b].mass * toReal s[b].v[c]) (fun b : Fin N => toReal s'[b].mass * toReal s'[b].v[c]) hjk'
    (fun b h1 h2 => by
      have := go b.val b.isLt (fun h => h1 (Fin.ext h)) (fun h => h2 (Fin.ext h))
      simp only [Fin.getElem_fin, this])
  obtain ⟨D, hD1, hD2, hD0⟩ := two_sum (fun b : Fin N => toReal s[b].mass * |toReal s[b].v[c]|) (fun b : Fin N => toReal s'[b].mass * |toReal s'[b].v[c]|) hjk'
    (fun b h1 h2 => by
      have := go b.val b.isLt (fun h => h1 (Fin.ext h)) (fun h => h2 (Fin.ext h))
      simp only [Fin.getElem_fin, this])
    (fun b _ _ => mul_nonneg (by
      have := (hs b.val b.isLt).2
      simp only [Fin.getElem_fin, this]; exact hmB b.val b.isLt) (abs_nonneg _))
  simp only [Fin.getElem_fin, gj, gk] at hC1 hC2 hD1 hD2
  have D1' := D1.frame C hD0
  have e1 := (momentum_fin c hc s).trans hC1
  have e2 := (momentum_fin c hc s').trans hC2
  have e3 := (motion_fin c hc s).trans hD1
  have e4 := (motion_fin c hc s').trans hD2
  rw [← e1, ← e2, ← e3, ← e4] at D1'
  have := D0.trans D1' (motion_nonneg hm) hWi wi0 hZi (div_nonneg zi0 (by positivity))
  rw [← add_div] at this
  exact this

theorem kicks_simd (B : Vector (Body F64 4) N) (r : Vector (Vec F64 4) (nPairs N)) (mag : Vector F64 (nPairs N)) (c : Nat) (hc : c < 4)
    (G : Body F64 4 → Body F64 4 → F64) (hGs : ∀ a b, G (strip a) (strip b) = G a b)
    (hr : ∀ q (h : q < nPairs N) (h' : q < (pairs N).length), r[q] = (B[(pairs N)[q].1]'(pair_lt h').1).x - (B[(pairs N)[q].2]'(pair_lt h').2.1).x)
    (hg : ∀ q (h : q < nPairs N) (h' : q < (pairs N).length), mag[q] = G (B[(pairs N)[q].1]'(pair_lt h').1) (B[(pairs N)[q].2]'(pair_lt h').2.1))
    (hm : Massive B.toList) :
    ∃ B', kicks B r mag = .ok B' ∧ (∀ b (hb : b < N), B'[b].x = B[b].x ∧ B'[b].mass = B[b].mass) ∧
      (Sound c hc B'.toList → Sound c hc B.toList ∧ Drift (nPairs N) (pairSum (impulse c hc G) B.toList) (pairSum (dust c hc) B.toList / 2 ^ 1074)
        (momentum c hc B.toList) (motion c hc B.toList) (momentum c hc B'.toList) (motion c hc B'.toList)) := by
  obtain ⟨d⟩ : Nonempty (Body F64 4) := ⟨⟨Vector.replicate 4 0, Vector.replicate 4 0, 0⟩⟩
  obtain ⟨w, hw⟩ : ∃ w : Nat × Nat → ℝ, w = fun p => impulse c hc G (B.toList.getD p.1 d) (B.toList.getD p.2 d) := ⟨_, rfl⟩
  obtain ⟨z, hz⟩ : ∃ z : Nat × Nat → ℝ, z = fun p => dust c hc (B.toList.getD p.1 d) (B.toList.getD p.2 d) := ⟨_, rfl⟩
  have hmB : ∀ b (hb : b < N), 0 ≤ toReal B[b].mass := fun b hb => hm _ (by simp)
  have getB : ∀ b (hb : b < N), B.toList.getD b d = B[b] := fun b hb => by simp [hb]
  have hw0 : ∀ p ∈ pairs N, 0 ≤ w p := fun p hp => by
    have := mem_pairs.1 hp
    rw [hw]; dsimp only; rw [getB _ (by omega), getB _ (by omega)]; exact impulse_nonneg _ (hmB _ _) (hmB _ _)
  have hz0 : ∀ p ∈ pairs N, 0 ≤ z p := fun p hp => by
    have := mem_pairs.1 hp
    rw [hz]; dsimp only; rw [getB _ (by omega), getB _ (by omega)]; exact dust_nonneg (hmB _ _) (hmB _ _)
  obtain ⟨B', e, hx, hD⟩ := forPairs_inv (N := N) (fun i (s : Vector (Body F64 4) N) => (∀ b (hb : b < N), s[b].x = B[b].x ∧ s[b].mass = B[b].mass) ∧
      (Sound c hc s.toList → Sound c hc B.toList ∧ Drift i (((pairs N).take i).map w).sum ((((pairs N).take i).map z).sum / 2 ^ 1074)
        (momentum c hc B.toList) (motion c hc B.toList) (momentum c hc s.toList) (motion c hc s.toList)))
    (kick r mag) B ⟨fun _ _ => ⟨rfl, rfl⟩, fun h => ⟨h, by simpa using Drift.none⟩⟩ (by
    intro i h s hs
    have hp := pair_lt h
    have hi : i < nPairs N := by rw [← length_pairs]; exact h
    refine ⟨_, kick_body s r mag hi hp.1 hp.2.1 (by omega), ?_⟩
    have hr' := hr i hi h
    have hg' := hg i hi h
    have wi : w (pairs N)[i] = impulse c hc G (B[(pairs N)[i].1]'hp.1) (B[(pairs N)[i].2]'hp.2.1) := by
      rw [hw]; dsimp only; rw [getB _ hp.1, getB _ hp.2.1]
    have zi : z (pairs N)[i] = dust c hc (B[(pairs N)[i].1]'hp.1) (B[(pairs N)[i].2]'hp.2.1) := by
      rw [hz]; dsimp only; rw [getB _ hp.1, getB _ hp.2.1]
    have hWi : 0 ≤ (((pairs N).take i).map w).sum := map_sum_nonneg fun p hp => hw0 p (List.mem_of_mem_take hp)
    have hZi : 0 ≤ (((pairs N).take i).map z).sum / 2 ^ 1074 := div_nonneg (map_sum_nonneg fun p hp => hz0 p (List.mem_of_mem_take hp)) (by positivity)
    rw [List.take_succ_eq_append_getElem h, List.map_append, List.map_append, List.sum_append, List.sum_append]
    simp only [List.map_cons, List.map_nil, List.sum_cons, List.sum_nil, add_zero]
    rw [wi, zi]
    exact kick_step B s c hc G hGs hm hs.1 hp.1 hp.2.1 hp.2.2 r[i] mag[i] hr' hg' hWi hZi hs.2)
  refine ⟨B', by unfold kicks; rw [e]; rfl, hx, fun hS => ?_⟩
  have := hD hS
  rw [List.take_length, length_pairs, hw, hz] at this
  have p1 := pairSum_pairs d (impulse c hc G) B.toList
  have p2 := pairSum_pairs d (dust c hc) B.toList
  rw [Vector.length_toList] at p1 p2
  rw [← p1, ← p2]
  exact this

/-- `advance` in SIMD. -/
theorem advance_simd (F : Fns F64) (t : Target) (dt : F64) (hN : nPairs N % 2 = 0) (B : Vector (Body F64 4) N) (c : Nat) (hc : c < 4) (hm : Massive B.toList) :
    ∃ B', advanceSimd F t dt B = .ok B' ∧ (∀ b (hb : b < N), B'[b].mass = B[b].mass) ∧
      (Sound c hc B'.toList → Sound c hc B.toList ∧ Drift (nPairs N) (pairSum (impulse c hc (factorSimd F t dt)) B.toList) (pairSum (dust c hc) B.toList / 2 ^ 1074)
        (momentum c hc B.toList) (motion c hc B.toList) (momentum c hc B'.toList) (motion c hc B'.toList)) := by
  obtain ⟨S, hS⟩ := sum4_fn (α := F64) t
  obtain ⟨r, hr, hr'⟩ := diffs_ok F B
  obtain ⟨m, hm', hm''⟩ := mags_ok F t S (fun v => (hS v).1) dt hN r
  obtain ⟨B1, hB, hx, hD⟩ := kicks_simd B r m c hc (factorSimd F t dt) (fun _ _ => rfl) hr' (by
    intro q h h'
    rw [hm'' q h, hr' q h h']
    unfold factorSimd
    rw [(hS _).1]) hm
  refine ⟨B1.map fun body => { body with x := body.x + splat 4 dt * body.v }, ?_, ?_, ?_⟩
  · unfold advanceSimd; rw [hr]; simp only [R_ok_bind]; rw [hm']; simp only [R_ok_bind]; rw [hB]; rfl
  · intro b hb; rw [Vector.getElem_map]; exact (hx b hb).2
  · intro hs
    have eP : momentum c hc (B1.map fun body => { body with x := body.x + splat 4 dt * body.v }).toList = momentum c hc B1.toList := by
      unfold momentum; rw [Vector.toList_map, List.map_map]; rfl
    have eQ : motion c hc (B1.map fun body => { body with x := body.x + splat 4 dt * body.v }).toList = motion c hc B1.toList := by
      unfold motion; rw [Vector.toList_map, List.map_map]; rfl
    rw [eP, eQ]
    refine hD fun b hb => ?_
    exact hs { b with x := b.x + splat 4 dt * b.v } (by rw [Vector.toList_map]; exact List.mem_map.2 ⟨b, hb, rfl⟩)

end PackedSimd.Ex.Nbody
