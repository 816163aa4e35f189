import Verif.Spec.NbodyStep
import Verif.Lemmas.NbodyEnergy
/-
Rounding errors in one step of the nbody programs.
-/
namespace PackedSimd.Ex.Nbody
open Spec F64N

/-! ### Signed products -/

/-- `x` is `y` up to `k` roundings, whatever the sign. -/
def SNear (k : Nat) (x : F64) (y : ℝ) : Prop := IsFinite 52 x.bits ∧ ∃ θ : ℝ, 1 ≤ θ * ρ ^ k ∧ θ ≤ ρ ^ k ∧ rv x = y * θ

theorem snear_of_near {k : Nat} {x : F64} {y : ℝ} (h : Near k x y) : SNear k x y := by
  refine ⟨h.1, ?_⟩
  have h1 : 1 ≤ ρ ^ k := one_le_pow₀ ρ_ge
  rcases h.2.1.eq_or_lt with h0 | h0
  · refine ⟨1, by rw [one_mul]; exact h1, h1, ?_⟩
    have a := h.2.2.1
    rw [← h0, zero_mul] at a
    rw [← h0, zero_mul]
    exact le_antisymm a h.nonneg
  · refine ⟨rv x / y, ?_, ?_, by field_simp⟩
    · rw [div_mul_eq_mul_div, le_div_iff₀ h0, one_mul]; exact h.2.2.2
    · rw [div_le_iff₀ h0, mul_comm]; exact h.2.2.1

theorem ρ_ge_u : 1 + u ≤ ρ := by
  have : ρ = 1 + u * ρ := by linear_combination ρ_mul
  have := mul_le_mul_of_nonneg_left ρ_ge u_pos.le
  linarith

/-- One more rounding. -/
theorem snear_round {k : Nat} {x : F64} {v y θ : ℝ} (hx : IsFinite 52 x.bits) (h1 : 1 ≤ θ * ρ ^ k) (h2 : θ ≤ ρ ^ k) (hv : v = y * θ) (he : |rv x - v| ≤ u * |v|) :
    SNear (k + 1) x y := by
  have hp := pow_pos ρ_pos k
  have hθ : 0 < θ := by
    by_contra hc
    have := mul_nonpos_of_nonpos_of_nonneg (not_lt.1 hc) hp.le
    linarith
  have hu := u_pos
  have hul := u_lt
  by_cases h0 : v = 0
  · rw [h0, abs_zero, mul_zero, sub_zero] at he
    have : rv x = 0 := abs_nonpos_iff.1 he
    have hy : y = 0 := by
      rw [h0] at hv
      rcases mul_eq_zero.1 hv.symm with h | h
      · exact h
      · exact absurd h hθ.ne'
    have h3 : 1 ≤ ρ ^ (k + 1) := one_le_pow₀ ρ_ge
    exact ⟨hx, 1, by rw [one_mul]; exact h3, h3, by rw [this, hy, zero_mul]⟩
  · have hd : |rv x / v - 1| ≤ u := by
      rw [show rv x / v - 1 = (rv x - v) / v by field_simp, abs_div, div_le_iff₀ (abs_pos.2 h0)]
      exact he
    obtain ⟨d1, d2⟩ := abs_le.1 hd
    set δ := rv x / v with hδ
    refine ⟨hx, θ * δ, ?_, ?_, by rw [← mul_assoc, ← hv, hδ]; field_simp⟩
    · have e : θ * δ * ρ ^ (k + 1) = (θ * ρ ^ k) * (δ * ρ) := by rw [pow_succ]; ring
      have : 1 ≤ δ * ρ := by
        have := mul_le_mul_of_nonneg_right (show 1 - u ≤ δ by linarith) ρ_pos.le
        rw [mul_comm (1 - u), ρ_mul] at this
        exact this
      rw [e]
      exact one_le_mul_of_one_le_of_one_le h1 this
    · rw [pow_succ]
      exact mul_le_mul h2 (by linarith [ρ_ge_u]) (by linarith) hp.le

theorem snear_sub {a b : F64} (ha : IsFinite 52 a.bits) (hb : IsFinite 52 b.bits) (h : |toReal a - toReal b| ≤ 2 ^ 100) : SNear 1 (a - b) (toReal a - toReal b) := by
  have hr := flt_sub fmt64 ha hb
  rw [show realVal 52 a.bits - realVal 52 b.bits = toReal a - toReal b from rfl, u_eq] at hr
  have hfin : IsFinite 52 (a - b).bits := hr.1.2 (lt_of_lt_of_le (lt_of_le_of_lt h (pow_lt_pow_right₀ (by norm_num) (by norm_num))) overflow64)
  exact snear_round (k := 0) (θ := 1) hfin (by simp) (by simp) (by rw [mul_one]) (hr.2.1 hfin)

theorem big_range {v : ℝ} {k : Nat} (hk : k ≤ 2 ^ 52) (h1 : v ≤ 2 ^ 700) (hv : 0 ≤ v) : v * ρ ^ k < 2 ^ 1023 := by
  have h2 := ρ_pow_two hk
  have h3 : v * ρ ^ k ≤ 2 ^ 700 * 2 := mul_le_mul h1 h2 (pow_pos ρ_pos k).le (by positivity)
  refine lt_of_le_of_lt h3 ?_
  rw [← pow_succ]
  exact pow_lt_pow_right₀ (by norm_num) (by norm_num)

theorem big_small {v : ℝ} {k : Nat} (hk : k ≤ 2 ^ 52) (h1 : 1 / 2 ^ 700 ≤ v) : 1 / 2 ^ 1022 * ρ ^ k ≤ v := by
  have h2 := ρ_pow_two hk
  have h3 : 1 / 2 ^ 1022 * ρ ^ k ≤ 1 / 2 ^ 1022 * 2 := mul_le_mul_of_nonneg_left h2 (by positivity)
  refine h3.trans (le_trans ?_ h1)
  rw [div_mul_eq_mul_div, div_le_div_iff₀ (by positivity) (by positivity), one_mul, one_mul, ← pow_succ']
  exact pow_le' (by norm_num)

theorem snear_zero_mul {k m j : Nat} {a b : F64} {α β : ℝ} (ha : SNear k a α) (hb : SNear m b β) (h : α * β = 0) : SNear j (a * b) 0 := by
  obtain ⟨fa, θ, -, -, ea⟩ := ha
  obtain ⟨fb, φ, -, -, eb⟩ := hb
  obtain ⟨za, hza⟩ := fa
  obtain ⟨zb, hzb⟩ := fb
  have : valueOf 52 (a * b).bits = .num 0 := by
    rcases mul_eq_zero.1 h with h | h
    · have := value_of_rv_zero ⟨za, hza⟩ (by rw [ea, h, zero_mul])
      exact mul_exact fmt64 this hzb (by simp) rep_zero
    · have := value_of_rv_zero ⟨zb, hzb⟩ (by rw [eb, h, zero_mul])
      exact mul_exact fmt64 hza this (by simp) rep_zero
  exact snear_of_near (near_of_zero this)

theorem snear_mul {k m : Nat} {a b : F64} {α β : ℝ} (ha : SNear k a α) (hb : SNear m b β) (hk : k + m ≤ 2 ^ 52)
    (hs : α * β = 0 ∨ 1 / 2 ^ 700 ≤ |α * β|) (hl : |α * β| ≤ 2 ^ 700) : SNear (k + m + 1) (a * b) (α * β) := by
  rcases hs with h0 | hs
  · rw [h0]; exact snear_zero_mul ha hb h0
  obtain ⟨fa, θ, t1, t2, ea⟩ := ha
  obtain ⟨fb, φ, p1, p2, eb⟩ := hb
  have hpk := pow_pos ρ_pos k
  have hpm := pow_pos ρ_pos m
  have hθ : 0 < θ := by
    by_contra hc
    have := mul_nonpos_of_nonpos_of_nonneg (not_lt.1 hc) hpk.le
    linarith
  have hφ : 0 < φ := by
    by_contra hc
    have := mul_nonpos_of_nonpos_of_nonneg (not_lt.1 hc) hpm.le
    linarith
  have e : rv a * rv b = α * β * (θ * φ) := by rw [ea, eb]; ring
  have q1 : 1 ≤ θ * φ * ρ ^ (k + m) := by
    rw [pow_add, show θ * φ * (ρ ^ k * ρ ^ m) = (θ * ρ ^ k) * (φ * ρ ^ m) by ring]
    exact one_le_mul_of_one_le_of_one_le t1 p1
  have q2 : θ * φ ≤ ρ ^ (k + m) := by
    rw [pow_add]; exact mul_le_mul t2 p2 hφ.le hpk.le
  have ab : |rv a * rv b| = |α * β| * (θ * φ) := by rw [e, abs_mul, abs_of_pos (mul_pos hθ hφ)]
  have g1 : |rv a * rv b| ≤ |α * β| * ρ ^ (k + m) := by rw [ab]; exact mul_le_mul_of_nonneg_left q2 (abs_nonneg _)
  have g2 : |α * β| ≤ |rv a * rv b| * ρ ^ (k + m) := by
    rw [ab, mul_assoc]
    exact le_mul_of_one_le_right (abs_nonneg _) q1
  have hv : 1 / 2 ^ 1022 ≤ |rv a * rv b| := le_of_mul_le_mul_right ((big_small hk hs).trans g2) (pow_pos ρ_pos _)
  have h := flt_mul fmt64 fa fb
  have hm := max_normal hv
  rw [abs_abs] at hm
  rw [show realVal 52 a.bits * realVal 52 b.bits = rv a * rv b from rfl, hm] at h
  have hfin : IsFinite 52 (a * b).bits := h.1.2 (lt_of_lt_of_le (lt_of_le_of_lt g1 (big_range hk hl (abs_nonneg _))) overflow64)
  exact snear_round hfin q1 q2 e (h.2.1 hfin)

theorem snear_err {k : Nat} {x : F64} {y : ℝ} (h : SNear k x y) : |rv x - y| ≤ (ρ ^ k - 1) * |y| := by
  obtain ⟨-, θ, h1, h2, e⟩ := h
  have hP : 1 ≤ ρ ^ k := one_le_pow₀ ρ_ge
  rw [e, show y * θ - y = (θ - 1) * y by ring, abs_mul]
  refine mul_le_mul_of_nonneg_right ?_ (abs_nonneg _)
  rw [abs_le]
  constructor
  · nlinarith
  · linarith

/-! ### Sums of signed terms -/

/-- `e` is `v` less all of `ts`, each with `c` roundings, subtracted one after the other. -/
structure Took (c : Nat) (ts : List ℝ) (v : ℝ) (e : F64) : Prop where
  fin : IsFinite 52 e.bits
  err : |rv e - (v - ts.sum)| ≤ (ρ ^ (c + ts.length) - 1) * (|v| + (ts.map abs).sum)
  start : |v| ≤ 2 ^ 600
  terms : ∀ t ∈ ts, |t| ≤ 2 ^ 600

theorem took_none {c : Nat} {e : F64} (h : IsFinite 52 e.bits) (hv : |toReal e| ≤ 2 ^ 600) : Took c [] (toReal e) e := by
  refine ⟨h, ?_, hv, by simp⟩
  rw [List.sum_nil, sub_zero, show rv e = toReal e from rfl, sub_self, abs_zero]
  exact mul_nonneg (sub_nonneg.2 (one_le_pow₀ ρ_ge)) (by simp)

theorem took_sum {c : Nat} {ts : List ℝ} {v : ℝ} {e : F64} (h : Took c ts v e) (hT : ts.length ≤ 2 ^ 40) :
    |v - ts.sum| ≤ |v| + (ts.map abs).sum ∧ |v| + (ts.map abs).sum ≤ 2 ^ 642 := by
  have h1 : |ts.sum| ≤ (ts.map abs).sum := by
    have : ∀ l : List ℝ, |l.sum| ≤ (l.map abs).sum := by
      intro l
      induction l with
      | nil => simp
      | cons a l ih => rw [List.sum_cons, List.map_cons, List.sum_cons]; exact (abs_add_le _ _).trans (by linarith)
    exact this ts
  have h2 : ∀ l : List ℝ, (∀ t ∈ l, |t| ≤ 2 ^ 600) → (l.map abs).sum ≤ l.length * 2 ^ 600 := by
    intro l
    induction l with
    | nil => intro _; simp
    | cons a l ih =>
      intro hl
      have a1 := hl a (by simp)
      have a2 := ih fun t ht => hl t (by simp [ht])
      rw [List.map_cons, List.sum_cons, List.length_cons]
      push_cast
      rw [add_mul, one_mul]
      linarith
  refine ⟨?_, ?_⟩
  · have := abs_sub v ts.sum
    linarith
  · have h3 := h2 ts h.terms
    have h4 : (ts.length : ℝ) ≤ 2 ^ 40 := by exact_mod_cast hT
    have h5 := mul_le_mul_of_nonneg_right h4 (show (0 : ℝ) ≤ 2 ^ 600 by positivity)
    have h6 : (2 : ℝ) ^ 642 = 4 * (2 ^ 40 * 2 ^ 600) := by rw [← pow_add, show (4 : ℝ) = 2 ^ 2 by norm_num, ← pow_add]
    have h7 : (2 : ℝ) ^ 600 ≤ 2 ^ 40 * 2 ^ 600 := le_mul_of_one_le_left (by positivity) (by norm_num)
    have := h.start
    generalize (2 : ℝ) ^ 642 = q1 at *
    generalize (2 : ℝ) ^ 40 * 2 ^ 600 = q2 at *
    generalize (2 : ℝ) ^ 600 = q3 at *
    have : 0 ≤ q2 := by linarith [abs_nonneg v]
    linarith

theorem took_size {c : Nat} {ts : List ℝ} {v : ℝ} {e : F64} (h : Took c ts v e) (hT : c + ts.length ≤ 2 ^ 40) : |rv e| ≤ 2 ^ 643 := by
  obtain ⟨s1, s2⟩ := took_sum h (by omega)
  have hP : ρ ^ (c + ts.length) ≤ 2 := ρ_pow_two (hT.trans (by norm_num))
  have h0 : 0 ≤ |v| + (ts.map abs).sum := (abs_nonneg _).trans s1
  have h1 := abs_sub_abs_le_abs_sub (rv e) (v - ts.sum)
  have h2 := mul_le_mul_of_nonneg_right (show ρ ^ (c + ts.length) - 1 ≤ 1 by linarith) h0
  have h3 : (2 : ℝ) ^ 643 = 2 * 2 ^ 642 := by rw [← pow_succ']
  have := h.err
  rw [h3]
  generalize (2 : ℝ) ^ 642 = q1 at *
  linarith

theorem took_next {c : Nat} {ts : List ℝ} {v : ℝ} {e r : F64} {y s : ℝ} (h : Took c ts v e) (hs : |s - -y| ≤ (ρ ^ c - 1) * |y|) (hy : |y| ≤ 2 ^ 600)
    (hfin : IsFinite 52 r.bits) (hr : |rv r - (rv e + s)| ≤ u * |rv e + s|) (hT : c + ts.length ≤ 2 ^ 40) : Took c (ts ++ [y]) v r := by
  obtain ⟨s1, s2⟩ := took_sum h (by omega)
  have hQ : ρ ^ c ≤ ρ ^ (c + ts.length) := pow_le_pow_right₀ ρ_ge (by omega)
  obtain ⟨g1, g2⟩ := acc_real (r := rv r) (y := -y) (x := s) hQ (one_le_pow₀ ρ_ge) h.err (by rwa [abs_neg]) s1 hr
  refine ⟨hfin, ?_, h.start, ?_⟩
  · rw [List.sum_append, List.sum_singleton, List.length_append, List.length_singleton, List.map_append, List.sum_append, List.map_singleton, List.sum_singleton,
      ← add_assoc, pow_succ, ← add_assoc, show v - (ts.sum + y) = v - ts.sum + -y by ring]
    rw [abs_neg] at g1
    exact g1
  · intro t ht
    rcases List.mem_append.1 ht with ht | ht
    · exact h.terms t ht
    · rw [List.mem_singleton.1 ht]; exact hy

theorem took_fin {c : Nat} {ts : List ℝ} {v : ℝ} {e x : F64} {y : ℝ} (h : Took c ts v e) (hx : SNear c x y) (hy : |y| ≤ 2 ^ 600) (hT : c + ts.length ≤ 2 ^ 40) :
    |rv e| + |rv x| < overflow 64 52 := by
  have h1 := took_size h hT
  have hP : ρ ^ c ≤ 2 := ρ_pow_two (by omega)
  have h2 : |rv x| ≤ 2 ^ 601 := by
    have a := abs_sub_abs_le_abs_sub (rv x) y
    have b := snear_err hx
    have d := mul_le_mul_of_nonneg_right (show ρ ^ c - 1 ≤ 1 by linarith) (abs_nonneg y)
    rw [show (2 : ℝ) ^ 601 = 2 * 2 ^ 600 by rw [← pow_succ']]
    generalize (2 : ℝ) ^ 600 = q1 at *
    linarith
  have h3 : (2 : ℝ) ^ 601 ≤ 2 ^ 643 := pow_le' (by norm_num)
  have h4 : (2 : ℝ) ^ 643 + 2 ^ 643 = 2 ^ 644 := by rw [← two_mul, ← pow_succ']
  have h5 : (2 : ℝ) ^ 644 < 2 ^ 1023 := pow_lt_pow_right₀ (by norm_num) (by norm_num)
  refine lt_of_lt_of_le ?_ overflow64
  generalize (2 : ℝ) ^ 1023 = x0 at *
  generalize (2 : ℝ) ^ 644 = x1 at *
  generalize (2 : ℝ) ^ 643 = x2 at *
  generalize (2 : ℝ) ^ 601 = x3 at *
  linarith

theorem took_sub {c : Nat} {ts : List ℝ} {v : ℝ} {e x : F64} {y : ℝ} (h : Took c ts v e) (hx : SNear c x y) (hy : |y| ≤ 2 ^ 600) (hT : c + ts.length ≤ 2 ^ 40) :
    Took c (ts ++ [y]) v (e - x) := by
  have hb := flt_sub fmt64 h.fin hx.1
  rw [show realVal 52 e.bits - realVal 52 x.bits = rv e + -rv x from sub_eq_add_neg _ _, u_eq] at hb
  have hfin : IsFinite 52 (e - x).bits := hb.1.2 (lt_of_le_of_lt (abs_add_le _ _) (by rw [abs_neg]; exact took_fin h hx hy hT))
  refine took_next h (s := -rv x) ?_ hy hfin (hb.2.1 hfin) hT
  rw [show -rv x - -y = -(rv x - y) by ring, abs_neg]
  exact snear_err hx

theorem took_add {c : Nat} {ts : List ℝ} {v : ℝ} {e x : F64} {y : ℝ} (h : Took c ts v e) (hx : SNear c x (-y)) (hy : |y| ≤ 2 ^ 600) (hT : c + ts.length ≤ 2 ^ 40) :
    Took c (ts ++ [y]) v (e + x) := by
  have hb := flt_add fmt64 h.fin hx.1
  rw [show realVal 52 e.bits + realVal 52 x.bits = rv e + rv x from rfl, u_eq] at hb
  have hfin : IsFinite 52 (e + x).bits := hb.1.2 (lt_of_le_of_lt (abs_add_le _ _) (took_fin h hx (by rwa [abs_neg]) hT))
  refine took_next h (s := rv x) ?_ hy hfin (hb.2.1 hfin) hT
  have := snear_err hx
  rwa [abs_neg] at this

/-! ### The pull of one body on another -/

/-- The step is a positive number of ordinary magnitude. -/
def GoodStep (dt : F64) : Prop := IsFinite 52 dt.bits ∧ 0 < toReal dt ∧ Ordinary (toReal dt)

theorem good_range {y : ℝ} (h0 : 0 < y) (h : Ordinary y) : 1 / 2 ^ 100 ≤ y ∧ y ≤ 2 ^ 100 := by
  rcases h with h | h
  · exact absurd h h0.ne'
  · rwa [abs_of_pos h0] at h

theorem near_exact {m : F64} (hm : IsFinite 52 m.bits) (hm0 : 0 < toReal m) : Near 0 m (toReal m) :=
  ⟨hm, hm0.le, by rw [pow_zero, mul_one]; rfl, by rw [pow_zero, mul_one]; rfl⟩

/-- `dt` over the third power of the distance. -/
theorem near_mag {dt s r : F64} {σ : ℝ} {k : Nat} (hk : k ≤ 10) (hdt : GoodStep dt) (hs : Near (2 * k) s σ) (hσ : 1 / 2 ^ 200 ≤ σ) (hσ' : σ ≤ 2 ^ 202)
    (hr : IsSqrt 52 s.bits r.bits) : Near (3 * k + 3) (dt / (s * r)) (toReal dt / (σ * √σ)) ∧ 1 / 2 ^ 403 ≤ toReal dt / (σ * √σ) ∧ toReal dt / (σ * √σ) ≤ 2 ^ 400 := by
  obtain ⟨d1, d2⟩ := good_range hdt.2.1 hdt.2.2
  have σ0 : 0 < σ := lt_of_lt_of_le (by positivity) hσ
  have q1 : 1 / 2 ^ 100 ≤ √σ := by
    apply Real.le_sqrt_of_sq_le
    rw [div_pow, one_pow, ← pow_mul]
    exact hσ
  have q2 : √σ ≤ 2 ^ 101 := by
    rw [Real.sqrt_le_left (by positivity), ← pow_mul]
    exact hσ'
  have q0 : 0 < √σ := Real.sqrt_pos.2 σ0
  have l1 : 1 / 2 ^ 300 ≤ σ * √σ := by
    refine le_trans ?_ (mul_le_mul hσ q1 (by positivity) σ0.le)
    rw [div_mul_div_comm, one_mul, ← pow_add]
  have l2 : σ * √σ ≤ 2 ^ 303 := by
    refine (mul_le_mul hσ' q2 q0.le (by positivity)).trans ?_
    rw [← pow_add]
  have p0 : 0 < σ * √σ := mul_pos σ0 q0
  have a := near_mul hs (near_sqrt hs σ0 hr) (big_range (by omega) (l2.trans (pow_le' (by norm_num))) p0.le) (big_small (by omega) ((inv_pow_le' (by norm_num)).trans l1))
  have top : toReal dt / (σ * √σ) ≤ 2 ^ 400 := by
    rw [div_le_iff₀ p0]
    refine d2.trans ?_
    calc (2 : ℝ) ^ 100 = 2 ^ 400 * (1 / 2 ^ 300) := by rw [mul_one_div, eq_div_iff (by positivity), ← pow_add]
      _ ≤ _ := mul_le_mul_of_nonneg_left l1 (by positivity)
  have bot : 1 / 2 ^ 403 ≤ toReal dt / (σ * √σ) := by
    rw [le_div_iff₀ p0]
    refine le_trans ?_ d1
    calc 1 / 2 ^ 403 * (σ * √σ) ≤ 1 / 2 ^ 403 * 2 ^ 303 := mul_le_mul_of_nonneg_left l2 (by positivity)
      _ = 1 / 2 ^ 100 := by rw [div_mul_eq_mul_div, one_mul, div_eq_div_iff (by positivity) (by positivity), one_mul, ← pow_add]
  have := near_div (near_exact hdt.1 hdt.2.1) a p0 (big_range (by omega) (top.trans (pow_le' (by norm_num))) (div_pos hdt.2.1 p0).le)
    (big_small (by omega) ((inv_pow_le' (by norm_num)).trans bot))
  exact ⟨this.mono (by omega), bot, top⟩

theorem ord_mul {y w : ℝ} {a b : Nat} (hy : Ordinary y) (h1 : 1 / 2 ^ a ≤ w) (h2 : w ≤ 2 ^ b) : (y * w = 0 ∨ 1 / 2 ^ (100 + a) ≤ |y * w|) ∧ |y * w| ≤ 2 ^ (100 + b) := by
  have w0 : 0 < w := lt_of_lt_of_le (by positivity) h1
  rw [abs_mul, abs_of_pos w0]
  rcases hy with h | ⟨h, h'⟩
  · rw [h, abs_zero, zero_mul]
    exact ⟨.inl rfl, by positivity⟩
  · refine ⟨.inr ?_, ?_⟩
    · refine le_trans ?_ (mul_le_mul h h1 (by positivity) (abs_nonneg _))
      rw [div_mul_div_comm, one_mul, ← pow_add]
    · refine (mul_le_mul h' h2 w0.le (by positivity)).trans ?_
      rw [← pow_add]

theorem Ordinary.le {y : ℝ} (h : Ordinary y) : |y| ≤ 2 ^ 100 := by
  rcases h with h | h
  · rw [h, abs_zero]; positivity
  · exact h.2

/-- As the scalar program multiplies. -/
theorem term_scalar {a b m g : F64} {γ : ℝ} {k : Nat} (hk : k ≤ 40) (ha : IsFinite 52 a.bits) (hb : IsFinite 52 b.bits) (hy : Ordinary (toReal a - toReal b))
    (hm : IsFinite 52 m.bits ∧ 0 < toReal m ∧ Ordinary (toReal m)) (hg : Near k g γ) (g1 : 1 / 2 ^ 403 ≤ γ) (g2 : γ ≤ 2 ^ 400) :
    SNear (k + 3) ((a - b) * (m * g)) ((toReal a - toReal b) * (toReal m * γ)) ∧ |(toReal a - toReal b) * (toReal m * γ)| ≤ 2 ^ 600 := by
  obtain ⟨m1, m2⟩ := good_range hm.2.1 hm.2.2
  have w1 : 1 / 2 ^ 503 ≤ toReal m * γ := by
    refine le_trans ?_ (mul_le_mul m1 g1 (by positivity) hm.2.1.le)
    rw [div_mul_div_comm, one_mul, ← pow_add]
  have w2 : toReal m * γ ≤ 2 ^ 500 := by
    refine (mul_le_mul m2 g2 (le_trans (by positivity) g1) (by positivity)).trans ?_
    rw [← pow_add]
  have n := near_mul (near_exact hm.1 hm.2.1) hg (big_range (by omega) (w2.trans (pow_le' (by norm_num))) (le_trans (by positivity) w1))
    (big_small (by omega) ((inv_pow_le' (by norm_num)).trans w1))
  obtain ⟨o1, o2⟩ := ord_mul hy w1 w2
  have := snear_mul (snear_sub ha hb hy.le) (snear_of_near n) (by omega) (o1.imp_right fun h => (inv_pow_le' (by norm_num)).trans h) (o2.trans (pow_le' (by norm_num)))
  rw [show 1 + (0 + k + 1) + 1 = k + 3 by omega] at this
  exact ⟨this, o2⟩

/-- As the vector program multiplies. -/
theorem term_simd {a b m g : F64} {γ : ℝ} {k : Nat} (hk : k ≤ 40) (ha : IsFinite 52 a.bits) (hb : IsFinite 52 b.bits) (hy : Ordinary (toReal a - toReal b))
    (hm : IsFinite 52 m.bits ∧ 0 < toReal m ∧ Ordinary (toReal m)) (hg : Near k g γ) (g1 : 1 / 2 ^ 403 ≤ γ) (g2 : γ ≤ 2 ^ 400) :
    SNear (k + 3) ((a - b) * g * m) ((toReal a - toReal b) * (toReal m * γ)) ∧ |(toReal a - toReal b) * (toReal m * γ)| ≤ 2 ^ 600 := by
  obtain ⟨m1, m2⟩ := good_range hm.2.1 hm.2.2
  have w1 : 1 / 2 ^ 503 ≤ toReal m * γ := by
    refine le_trans ?_ (mul_le_mul m1 g1 (by positivity) hm.2.1.le)
    rw [div_mul_div_comm, one_mul, ← pow_add]
  have w2 : toReal m * γ ≤ 2 ^ 500 := by
    refine (mul_le_mul m2 g2 (le_trans (by positivity) g1) (by positivity)).trans ?_
    rw [← pow_add]
  obtain ⟨o1, o2⟩ := ord_mul hy w1 w2
  obtain ⟨r1, r2⟩ := ord_mul hy g1 g2
  have n := snear_mul (snear_sub ha hb hy.le) (snear_of_near hg) (by omega) (r1.imp_right fun h => (inv_pow_le' (by norm_num)).trans h) (r2.trans (pow_le' (by norm_num)))
  have e : (toReal a - toReal b) * γ * toReal m = (toReal a - toReal b) * (toReal m * γ) := by ring
  have := snear_mul n (snear_of_near (near_exact hm.1 hm.2.1)) (by omega) (by rw [e]; exact o1.imp_right fun h => (inv_pow_le' (by norm_num)).trans h)
    (by rw [e]; exact o2.trans (pow_le' (by norm_num)))
  rw [e, show 1 + k + 1 + 0 + 1 = k + 3 by omega] at this
  exact ⟨this, o2⟩

/-! ### Positions -/

/-- The new position. -/
theorem moved_err {c : Nat} {ts : List ℝ} {v : ℝ} {e x dt : F64} (h : Took c ts v e) (hT : c + ts.length ≤ 2 ^ 40) (hdt : GoodStep dt) (hx : IsFinite 52 x.bits)
    (hx' : |toReal x| ≤ 2 ^ 1000) : IsFinite 52 (x + dt * e).bits ∧ |toReal (x + dt * e) - (toReal x + toReal dt * (v - ts.sum))| ≤
      (ρ ^ (c + ts.length + 2) - 1) * (|toReal x| + toReal dt * (|v| + (ts.map abs).sum)) + 1 / 2 ^ 1074 := by
  obtain ⟨s1, s2⟩ := took_sum h (by omega)
  have hsz := took_size h hT
  obtain ⟨-, d2⟩ := good_range hdt.2.1 hdt.2.2
  have d0 := hdt.2.1
  have hu := u_pos
  have hul := u_lt
  have err := h.err
  set S := |v| + (ts.map abs).sum with hS
  set P := ρ ^ (c + ts.length) with hP
  set V := v - ts.sum with hV
  have hP1 : 1 ≤ P := one_le_pow₀ ρ_ge
  have hS0 : 0 ≤ S := (abs_nonneg _).trans s1
  -- the product
  have hpe : |rv dt * rv e| ≤ 2 ^ 743 := by
    rw [abs_mul]
    refine (mul_le_mul (show |rv dt| ≤ 2 ^ 100 from hdt.2.2.le) hsz (abs_nonneg _) (by positivity)).trans ?_
    rw [← pow_add]
  have hb := flt_mul fmt64 hdt.1 h.fin
  have hpf : IsFinite 52 (dt * e).bits := hb.1.2 (lt_of_lt_of_le (lt_of_le_of_lt hpe (pow_lt_pow_right₀ (by norm_num) (by norm_num))) overflow64)
  have hp := mul_u (a := dt) (b := e) hpf
  have η0 := η_pos
  have eη : (1 : ℝ) / 2 ^ 1074 = 2 * η := by
    unfold η
    rw [mul_one_div, div_eq_div_iff (by positivity) (by positivity), one_mul, ← pow_succ']
  have η1 : η ≤ 1 := by
    unfold η
    rw [div_le_one (by positivity)]
    exact one_le_pow₀ (by norm_num)
  have hps : |rv (dt * e)| ≤ 2 ^ 745 := by
    have a1 := abs_sub_abs_le_abs_sub (rv (dt * e)) (rv dt * rv e)
    have a2 : u * |rv dt * rv e| ≤ |rv dt * rv e| := mul_le_of_le_one_left (abs_nonneg _) (by linarith)
    have a3 : (2 : ℝ) ^ 745 = 4 * 2 ^ 743 := by rw [show (4 : ℝ) = 2 ^ 2 by norm_num, ← pow_add]
    have a4 : (1 : ℝ) ≤ 2 ^ 743 := one_le_pow₀ (by norm_num)
    have hp' : |rv (dt * e) - rv dt * rv e| ≤ u * |rv dt * rv e| + η := hp
    rw [a3]
    generalize (2 : ℝ) ^ 743 = q at hpe a4 ⊢
    linarith only [a1, a2, a4, hp', hpe, η1]
  -- the sum
  have hc := flt_add fmt64 hx hpf
  rw [show realVal 52 x.bits + realVal 52 (dt * e).bits = rv x + rv (dt * e) from rfl, u_eq] at hc
  have hfin : IsFinite 52 (x + dt * e).bits := hc.1.2 (lt_of_lt_of_le (lt_of_le_of_lt (abs_add_le _ _) (by
    have b1 : (2 : ℝ) ^ 745 ≤ 2 ^ 1000 := pow_le' (by norm_num)
    have b2 : (2 : ℝ) ^ 1000 + 2 ^ 1000 = 2 ^ 1001 := by rw [← two_mul, ← pow_succ']
    have b3 : (2 : ℝ) ^ 1001 < 2 ^ 1023 := pow_lt_pow_right₀ (by norm_num) (by norm_num)
    have b4 : |rv x| ≤ 2 ^ 1000 := hx'
    generalize (2 : ℝ) ^ 1023 = x0 at *
    generalize (2 : ℝ) ^ 1001 = x1 at *
    generalize (2 : ℝ) ^ 1000 = x2 at *
    generalize (2 : ℝ) ^ 745 = x3 at *
    linarith)) overflow64)
  refine ⟨hfin, ?_⟩
  have hr : |rv (x + dt * e) - (rv x + rv (dt * e))| ≤ u * |rv x + rv (dt * e)| := hc.2.1 hfin
  rw [eη]
  have goal : |rv (x + dt * e) - (rv x + rv dt * V)| ≤ (P * (ρ * ρ) - 1) * (|rv x| + rv dt * S) + 2 * η := by
    have d0' : 0 < rv dt := d0
    have hp' : |rv (dt * e) - rv dt * rv e| ≤ u * |rv dt * rv e| + η := hp
    have k1 : |rv e| ≤ P * S := by
      have := abs_sub_abs_le_abs_sub (rv e) V
      linarith
    have k2 : |rv dt * rv e| ≤ rv dt * (P * S) := by
      rw [abs_mul, abs_of_pos d0']
      exact mul_le_mul_of_nonneg_left k1 d0'.le
    have k3 : |rv dt * rv e - rv dt * V| ≤ rv dt * ((P - 1) * S) := by
      rw [← mul_sub, abs_mul, abs_of_pos d0']
      exact mul_le_mul_of_nonneg_left err d0'.le
    have k4 := mul_le_mul_of_nonneg_left k2 hu.le
    have k5 : |rv (dt * e)| ≤ (1 + u) * (rv dt * (P * S)) + η := by
      have := abs_sub_abs_le_abs_sub (rv (dt * e)) (rv dt * rv e)
      linarith
    have k6 : |rv x + rv (dt * e)| ≤ |rv x| + ((1 + u) * (rv dt * (P * S)) + η) := (abs_add_le _ _).trans (by linarith)
    have k7 := mul_le_mul_of_nonneg_left k6 hu.le
    have k8 : |rv (x + dt * e) - (rv x + rv dt * V)| ≤ |rv (x + dt * e) - (rv x + rv (dt * e))| + (|rv (dt * e) - rv dt * rv e| + |rv dt * rv e - rv dt * V|) := by
      rw [show rv (x + dt * e) - (rv x + rv dt * V) = (rv (x + dt * e) - (rv x + rv (dt * e))) + ((rv (dt * e) - rv dt * rv e) + (rv dt * rv e - rv dt * V)) by ring]
      exact (abs_add_le _ _).trans (add_le_add le_rfl (abs_add_le _ _))
    have hρ := ρ_ge_u
    set D := rv dt * S with hD
    have hD0 : 0 ≤ D := mul_nonneg d0'.le hS0
    have f1 : rv dt * (P * S) = P * D := by rw [hD]; ring
    have f2 : rv dt * ((P - 1) * S) = P * D - D := by rw [hD]; ring
    rw [f1] at k4 k5 k6 k7
    rw [f2] at k3
    have hPD : 0 ≤ P * D := mul_nonneg (by linarith) hD0
    have hρρ : (1 + u) * (1 + u) ≤ ρ * ρ := mul_le_mul hρ hρ (by linarith) ρ_pos.le
    have f3 := mul_le_mul_of_nonneg_right hρρ hPD
    have hX := abs_nonneg (rv x)
    have f4 : (1 + u) * (1 + u) ≤ P * (ρ * ρ) := hρρ.trans (le_mul_of_one_le_left (mul_pos ρ_pos ρ_pos).le hP1)
    have f5 := mul_le_mul_of_nonneg_right f4 hX
    have f6 : u * η ≤ η := mul_le_of_le_one_left η0.le (by linarith)
    have f7 : 0 ≤ u * |rv x| := mul_nonneg hu.le hX
    have f8 : 0 ≤ u * u * |rv x| := mul_nonneg (mul_nonneg hu.le hu.le) hX
    have e1 : (P * (ρ * ρ) - 1) * (|rv x| + D) = P * (ρ * ρ) * |rv x| - |rv x| + (ρ * ρ * (P * D) - D) := by ring
    have e2 : (1 + u) * (1 + u) * (P * D) = P * D + 2 * (u * (P * D)) + u * u * (P * D) := by ring
    have e3 : (1 + u) * (1 + u) * |rv x| = |rv x| + 2 * (u * |rv x|) + u * u * |rv x| := by ring
    have e4 : u * (|rv x| + ((1 + u) * (P * D) + η)) = u * |rv x| + u * (P * D) + u * u * (P * D) + u * η := by ring
    rw [e1]
    rw [e2] at f3
    rw [e3] at f5
    rw [e4] at k7
    have t1 : |rv (x + dt * e) - (rv x + rv (dt * e))| ≤ u * |rv x| + u * (P * D) + u * u * (P * D) + u * η := hr.trans k7
    have t2 : |rv (dt * e) - rv dt * rv e| ≤ u * (P * D) + η := hp'.trans (add_le_add k4 le_rfl)
    clear hx' hpe hps hsz s2 d2 eη η1 hT
    linarith only [k8, t1, t2, k3, f3, f5, f6, f7, f8]
  rw [show ρ ^ (c + ts.length + 2) = P * (ρ * ρ) by rw [hP, pow_add, pow_two]]
  exact goal

/-! ### The scalar program -/

variable {F : Fns F64} {dt : F64}

/-- What the exact step takes off a component of the velocity of `a` because of `b`. -/
noncomputable def takes (dt : F64) (a b : Body F64 3) (c : Fin 3) : ℝ := (pull (RF Real.sqrt) (toReal dt) (realBody a) (realBody b))[c]

/-- `b` is `a` with the velocity changed by all of `M`. -/
structure Taken (dt : F64) (M : List (Body F64 3)) (a b : Body F64 3) : Prop where
  x : b.x = a.x
  mass : b.mass = a.mass
  v : ∀ c : Fin 3, Took 15 (M.map fun m => takes dt a m c) (toReal a.v[c]) b.v[c]

/-- Mass and position are good enough. -/
def GoodBody {k : Nat} (a : Body F64 k) : Prop := (IsFinite 52 a.mass.bits ∧ 0 < toReal a.mass ∧ Ordinary (toReal a.mass)) ∧ ∀ c (h : c < k), IsFinite 52 a.x[c].bits
def ApartBodies {k : Nat} (a b : Body F64 k) : Prop := (∀ c (h : c < k), Ordinary (toReal a.x[c] - toReal b.x[c])) ∧ ∃ c, ∃ h : c < k, toReal a.x[c] ≠ toReal b.x[c]

theorem pair_step (hF : RoundFns F) (hdt : GoodStep dt) {M M' : List (Body F64 3)} {a b a' b' : Body F64 3} (ha : GoodBody a) (hb : GoodBody b) (hab : ApartBodies a b)
    (h : Taken dt M a a') (h' : Taken dt M' b b') (hM : 15 + M.length ≤ 2 ^ 40) (hM' : 15 + M'.length ≤ 2 ^ 40) :
    Taken dt (M ++ [b]) a (pairScalar F dt a' b').1 ∧ Taken dt (M' ++ [a]) b (pairScalar F dt a' b').2 := by
  have e : ∀ c (h : c < 3), (Vector.zipWith (· - ·) (realBody a).x (realBody b).x)[c] = toReal a.x[c] - toReal b.x[c] := fun c h => by
    rw [Vector.getElem_zipWith]; simp [realBody]
  have hw : ∀ c (h : c < 3), Ordinary (Vector.zipWith (· - ·) (realBody a).x (realBody b).x)[c] := fun c h => by rw [e]; exact hab.1 c h
  obtain ⟨-, r2, r3⟩ := square_range hw
  obtain ⟨c, hc, hne⟩ := hab.2
  have r := r3 ⟨c, hc, by rw [e]; exact sub_ne_zero.2 hne⟩
  have n := near_square (k := 3) (by omega) (v := Vector.zipWith (· - ·) a.x b.x) (w := Vector.zipWith (· - ·) (realBody a).x (realBody b).x)
    (fun c h => by rw [e, Vector.getElem_zipWith]; exact near_sqdiff (ha.2 c h) (hb.2 c h) (hab.1 c h)) hw
  obtain ⟨g0, g1, g2⟩ := near_mag (k := 3) (by omega) hdt n r r2 (hF.sqrt _)
  have gx : ∀ (a : Body F64 3) (c : Fin 3), (realBody a).x[c.val] = toReal a.x[c.val] := fun a c => Vector.getElem_map ..
  refine ⟨⟨h.x, h.mass, fun c => ?_⟩, ⟨h'.x, h'.mass, fun c => ?_⟩⟩
  · obtain ⟨t1, t2⟩ := term_scalar (by omega) (ha.2 c c.2) (hb.2 c c.2) (hab.1 c c.2) hb.1 g0 g1 g2
    have e1 : takes dt a b c = (toReal a.x[c] - toReal b.x[c]) * (toReal b.mass * (toReal dt / (square (Vector.zipWith (· - ·) (realBody a).x (realBody b).x) *
        √(square (Vector.zipWith (· - ·) (realBody a).x (realBody b).x))))) := by
      unfold takes
      rw [Fin.getElem_fin, pull_get, gx, gx]
      rfl
    have := took_sub (h.v c) (y := takes dt a b c) (by rw [e1]; exact t1) (by rw [e1]; exact t2) (by rw [List.length_map]; exact hM)
    rw [List.map_append, List.map_singleton]
    simp only [pairScalar, Fin.getElem_fin, Vector.getElem_zipWith, h.x, h'.x, h'.mass]
    exact this
  · obtain ⟨t1, t2⟩ := term_scalar (by omega) (ha.2 c c.2) (hb.2 c c.2) (hab.1 c c.2) ha.1 g0 g1 g2
    have e1 : -takes dt b a c = (toReal a.x[c] - toReal b.x[c]) * (toReal a.mass * (toReal dt / (square (Vector.zipWith (· - ·) (realBody a).x (realBody b).x) *
        √(square (Vector.zipWith (· - ·) (realBody a).x (realBody b).x))))) := by
      unfold takes
      rw [Fin.getElem_fin, pull_get, gx, gx, square_comm (realBody b).x, ← neg_mul, neg_sub]
      rfl
    have := took_add (h'.v c) (y := takes dt b a c) (by rw [e1]; exact t1) (by rw [← abs_neg, e1]; exact t2) (by rw [List.length_map]; exact hM')
    rw [List.map_append, List.map_singleton]
    simp only [pairScalar, Fin.getElem_fin, Vector.getElem_zipWith, h.x, h'.x, h.mass]
    exact this

theorem turn_step (hF : RoundFns F) (hdt : GoodStep dt) {a : Body F64 3} (ha : GoodBody a) : ∀ {L L' : List (Body F64 3)} {M M' : List (Body F64 3)} {a' : Body F64 3},
    (∀ b ∈ L, GoodBody b ∧ ApartBodies a b) → Taken dt M a a' → List.Forall₂ (Taken dt M') L L' → 15 + M.length + L.length ≤ 2 ^ 40 → 15 + M'.length ≤ 2 ^ 40 →
    Taken dt (M ++ L) a (turn F dt a' L').1 ∧ List.Forall₂ (Taken dt (M' ++ [a])) L (turn F dt a' L').2
  | _, _, M, M', a', _, h, .nil, _, _ => by
    rw [List.append_nil]
    exact ⟨h, .nil⟩
  | b :: L, b' :: L', M, M', a', hL, h, .cons hb hr, hT, hT' => by
    rw [List.length_cons] at hT
    obtain ⟨g, g'⟩ := hL b (by simp)
    obtain ⟨p1, p2⟩ := pair_step hF hdt ha g g' h hb (by omega) hT'
    obtain ⟨q1, q2⟩ := turn_step hF hdt ha (fun x hx => hL x (by simp [hx])) p1 hr (by simp; omega) hT'
    rw [List.append_assoc] at q1
    exact ⟨q1, .cons p2 q2⟩

/-- A body at the end of the step: changed by all others, then moved. -/
def Stepped (dt : F64) (All : List (Body F64 3)) (a a' : Body F64 3) : Prop :=
  ∃ b M, a' = { b with x := Vector.zipWith (fun x v => x + dt * v) b.x b.v } ∧ Taken dt M a b ∧ (a :: M).Perm All

theorem turns_step (hF : RoundFns F) (hdt : GoodStep dt) : ∀ {k : Nat} {L L' M : List (Body F64 3)}, L.length = k → (∀ b ∈ L, GoodBody b) → L.Pairwise ApartBodies →
    List.Forall₂ (Taken dt M) L L' → 15 + M.length + L.length ≤ 2 ^ 40 → List.Forall₂ (Stepped dt (M ++ L)) L (turns F dt k L')
  | 0, _, _, M, _, _, _, .nil, _ => .nil
  | k + 1, a :: L, a' :: L', M, hk, hg, hp, .cons ha hr, hT => by
    rw [List.length_cons] at hT hk
    obtain ⟨p1, p2⟩ := List.pairwise_cons.1 hp
    obtain ⟨q1, q2⟩ := turn_step hF hdt (hg a (by simp)) (fun b hb => ⟨hg b (by simp [hb]), p1 b hb⟩) ha hr (by omega) (by omega)
    have := turns_step hF hdt (k := k) (by omega) (fun b hb => hg b (by simp [hb])) p2 q2 (by simp; omega)
    simp only [turns]
    refine .cons ⟨_, _, rfl, q1, List.perm_middle.symm⟩ ?_
    rw [List.append_assoc, List.singleton_append] at this
    exact this

theorem takes_self (a : Body F64 3) (c : Fin 3) : takes dt a a c = 0 := by unfold takes; exact pull_self _ _ _ _ c.2

variable {N : Nat}

theorem takes_sys (L : List (Body F64 3)) (h : L.length = N) (i j : Fin N) (c : Fin 3) : takes dt L[i] L[j] c =
    -(toReal dt * ((realSys le_rfl L h).mass j * ((realSys le_rfl L h).pos j c - (realSys le_rfl L h).pos i c) /
      ((realSys le_rfl L h).dist2 i j * √((realSys le_rfl L h).dist2 i j)))) := by
  have hl : (L.map realBody).length = N := by rw [List.length_map, h]
  have hs := square_dist2 (L.map realBody) hl i j
  simp only [Fin.getElem_fin, List.getElem_map] at hs
  unfold takes
  rw [Fin.getElem_fin, pull_get]
  simp only [Fin.getElem_fin]
  rw [hs]
  simp only [realSys, sysOf, Fin.getElem_fin, List.getElem_map, RF]
  ring

theorem exact_terms (L : List (Body F64 3)) (h : L.length = N) (hm : ∀ b ∈ L, 0 ≤ toReal b.mass) (hdt : 0 ≤ toReal dt) (i : Fin N) (c : Fin 3)
    {M : List (Body F64 3)} (hp : (L[i] :: M).Perm L) :
    toReal L[i].v[c] - (M.map fun m => takes dt L[i] m c).sum = ((realSys le_rfl L h).step Real.sqrt (toReal dt)).vel i c ∧
    |toReal L[i].v[c]| + ((M.map fun m => takes dt L[i] m c).map abs).sum = (realSys le_rfl L h).effort (toReal dt) i c := by
  have hv : (realSys le_rfl L h).vel i c = toReal L[i].v[c] := by simp [realSys, sysOf, realBody]
  constructor
  · have e1 : (M.map fun m => takes dt L[i] m c).sum = (L.map fun m => takes dt L[i] m c).sum := by
      rw [← (hp.map fun m => takes dt L[i] m c).sum_eq, List.map_cons, List.sum_cons, takes_self, zero_add]
    rw [e1, list_sum_eq L h]
    simp only [Sys.step, Sys.accel]
    rw [hv, sub_eq_add_neg, sum_erase_of_zero i _ (by simp), ← Finset.sum_neg_distrib, Finset.mul_sum]
    congr 1
    refine Finset.sum_congr rfl fun j _ => ?_
    rw [takes_sys L h, neg_neg]
  · have e1 : ((M.map fun m => takes dt L[i] m c).map abs).sum = (L.map fun m => |takes dt L[i] m c|).sum := by
      rw [← (hp.map fun m => |takes dt L[i] m c|).sum_eq, List.map_cons, List.sum_cons, takes_self, abs_zero, zero_add, List.map_map]
      rfl
    rw [e1, list_sum_eq L h]
    unfold Sys.effort
    rw [hv, sum_erase_of_zero i _ (by simp), Finset.mul_sum]
    congr 1
    refine Finset.sum_congr rfl fun j _ => ?_
    rw [takes_sys L h, abs_neg, abs_mul, abs_of_nonneg hdt, abs_div, abs_mul]
    have m0 : 0 ≤ (realSys le_rfl L h).mass j := by
      simp only [realSys, sysOf, realBody, Fin.getElem_fin, List.getElem_map]
      exact hm _ (List.getElem_mem _)
    have d0 : 0 ≤ (realSys le_rfl L h).dist2 i j := Finset.sum_nonneg fun c _ => sq_nonneg _
    rw [abs_of_nonneg m0, abs_of_nonneg (mul_nonneg d0 (Real.sqrt_nonneg _))]

/-- What is left once the terms are known. -/
theorem step_bounds {c : Nat} {ts : List ℝ} {v : ℝ} {e x : F64} (h : Took c ts v e) (hl : ts.length + 1 = N) (hN : c + 2 + N ≤ 2 ^ 40) (hdt : GoodStep dt)
    (hx : IsFinite 52 x.bits) (hx' : |toReal x| ≤ 2 ^ 1000) {V S : ℝ} (hV : v - ts.sum = V) (hS : |v| + (ts.map abs).sum = S) :
    IsFinite 52 e.bits ∧ |toReal e - V| ≤ (ρ ^ (N + c - 1) - 1) * S ∧ IsFinite 52 (x + dt * e).bits ∧
      |toReal (x + dt * e) - (toReal x + toReal dt * V)| ≤ (ρ ^ (N + c + 1) - 1) * (|toReal x| + toReal dt * S) + 1 / 2 ^ 1074 := by
  obtain ⟨p1, p2⟩ := moved_err h (by omega) hdt hx hx'
  have e1 := h.err
  rw [hV, hS] at e1 p2
  rw [show c + ts.length = N + c - 1 by omega] at e1
  rw [show c + ts.length + 2 = N + c + 1 by omega] at p2
  exact ⟨h.fin, e1, p1, p2⟩

theorem growth_step {k : Nat} (hk : k ≤ 2 ^ 40) : ρ ^ k - 1 ≤ 101 / 100 * k / 2 ^ 53 := by
  have hk' : (k : ℝ) ≤ 2 ^ 40 := by exact_mod_cast hk
  have h0 : (0 : ℝ) ≤ k := Nat.cast_nonneg k
  have h1 : (k : ℝ) * u ≤ 1 / 1000 := by
    have := mul_le_mul_of_nonneg_right hk' u_pos.le
    refine this.trans ?_
    unfold u
    norm_num
  have h2 := ρ_pow k (by linarith)
  have h3 : 0 ≤ (k : ℝ) * u := mul_nonneg h0 u_pos.le
  have h4 : 1 / (1 - (k : ℝ) * u) - 1 ≤ 101 / 100 * (k * u) := by
    rw [sub_le_iff_le_add, div_le_iff₀ (by linarith)]
    nlinarith
  have h5 : 101 / 100 * (k : ℝ) / 2 ^ 53 = 101 / 100 * (k * u) := by unfold u; ring
  rw [h5]
  linarith

theorem effort_nonneg {s : Sys ℝ N} {d : ℝ} (hd : 0 ≤ d) (hm : ∀ j, 0 ≤ s.mass j) (i : Fin N) (c : Fin 3) : 0 ≤ s.effort d i c := by
  unfold Sys.effort
  refine add_nonneg (abs_nonneg _) (mul_nonneg hd (Finset.sum_nonneg fun j _ => div_nonneg (mul_nonneg (hm j) (abs_nonneg _)) (mul_nonneg ?_ (Real.sqrt_nonneg _))))
  exact Finset.sum_nonneg fun c _ => sq_nonneg _

theorem nearStep_of {e : Nat} {s s' : Sys ℝ N} (hN : N + e + 2 ≤ 2 ^ 40) (hdt : GoodStep dt) (hs : ∀ j, 0 ≤ s.mass j) (hm : ∀ i, s'.mass i = s.mass i)
    (hv : ∀ i c, |s'.vel i c - (s.step Real.sqrt (toReal dt)).vel i c| ≤ (ρ ^ (N + e) - 1) * s.effort (toReal dt) i c)
    (hx : ∀ i c, |s'.pos i c - (s.step Real.sqrt (toReal dt)).pos i c| ≤ (ρ ^ (N + e + 2) - 1) * (|s.pos i c| + toReal dt * s.effort (toReal dt) i c) + 1 / 2 ^ 1074) :
    NearStep e (toReal dt) s s' := by
  have d0 := hdt.2.1.le
  refine ⟨hm, fun i c => (hv i c).trans ?_, fun i c => (hx i c).trans (add_le_add ?_ le_rfl)⟩
  · have g := growth_step (k := N + e) (by omega)
    push_cast at g
    exact mul_le_mul_of_nonneg_right g (effort_nonneg d0 hs i c)
  · have g := growth_step (k := N + e + 2) (by omega)
    push_cast at g
    exact mul_le_mul_of_nonneg_right g (add_nonneg (abs_nonneg _) (mul_nonneg d0 (effort_nonneg d0 hs i c)))

theorem goodBodies {k : Nat} {L : List (Body F64 k)} (hc : Calm L) : (∀ b ∈ L, GoodBody b) ∧ L.Pairwise ApartBodies :=
  ⟨fun b hb => ⟨hc.mass b hb, hc.pos b hb⟩, hc.apart⟩

/-- One step of the scalar program. -/
theorem advance_scalar (hF : RoundFns F) (hdt : GoodStep dt) {L : List (Body F64 3)} (h : L.length = N) (hc : Calm L) (hp : Placed L) (hN : N ≤ 2 ^ 39) :
    ∃ h' : (advanceScalar F dt L).length = N, Numbers (advanceScalar F dt L) ∧
      NearStep 14 (toReal dt) (realSys le_rfl L h) (realSys le_rfl (advanceScalar F dt L) h') := by
  have h0 : List.Forall₂ (Taken dt []) L L := by
    rw [List.forall₂_same]
    intro b hb
    exact ⟨rfl, rfl, fun c => took_none (hc.vel b hb c c.2).1 ((hc.vel b hb c c.2).2.le.trans (pow_le' (by norm_num)))⟩
  have H := turns_step hF hdt h (goodBodies hc).1 (goodBodies hc).2 h0 (by rw [List.length_nil]; omega)
  rw [List.nil_append, ← h] at H
  have hl : (advanceScalar F dt L).length = N := by rw [← h]; exact H.length_eq.symm
  have key : ∀ i : Fin N, GoodStep dt ∧ ∃ b M, (advanceScalar F dt L)[i] = { b with x := Vector.zipWith (fun x v => x + dt * v) b.x b.v } ∧ Taken dt M L[i] b ∧ (L[i] :: M).Perm L := by
    intro i
    have hi : i.val < (advanceScalar F dt L).length := by rw [hl]; exact i.2
    exact ⟨hdt, H.get (by rw [h]; exact i.2) hi⟩
  have bnd : ∀ (i : Fin N) (c : Fin 3), (advanceScalar F dt L)[i].mass = L[i].mass ∧ IsFinite 52 ((advanceScalar F dt L)[i].v[c]).bits ∧
      |toReal (advanceScalar F dt L)[i].v[c] - ((realSys le_rfl L h).step Real.sqrt (toReal dt)).vel i c| ≤ (ρ ^ (N + 15 - 1) - 1) * (realSys le_rfl L h).effort (toReal dt) i c ∧
      IsFinite 52 ((advanceScalar F dt L)[i].x[c]).bits ∧ |toReal (advanceScalar F dt L)[i].x[c] - ((realSys le_rfl L h).step Real.sqrt (toReal dt)).pos i c| ≤
        (ρ ^ (N + 15 + 1) - 1) * (|(realSys le_rfl L h).pos i c| + toReal dt * (realSys le_rfl L h).effort (toReal dt) i c) + 1 / 2 ^ 1074 := by
    intro i c
    obtain ⟨-, b, M, e, hT, hM⟩ := key i
    have mem : L[i] ∈ L := List.getElem_mem _
    obtain ⟨t1, t2⟩ := exact_terms L h (fun b hb => (hc.mass b hb).2.1.le) hdt.2.1.le i c hM
    have hlen : M.length + 1 = N := by have := hM.length_eq; rw [List.length_cons, h] at this; exact this
    obtain ⟨b1, b2, b3, b4⟩ := step_bounds (N := N) (x := L[i].x[c]) (hT.v c) (by rw [List.length_map]; exact hlen) (by omega) hdt (hc.pos _ mem c c.2) (hp _ mem c c.2) t1 t2
    have ex : (advanceScalar F dt L)[i].x[c] = L[i].x[c] + dt * b.v[c] := by
      rw [e]; simp [hT.x]
    have ev : (advanceScalar F dt L)[i].v[c] = b.v[c] := by rw [e]
    have px : (realSys le_rfl L h).pos i c = toReal L[i].x[c] := by simp [realSys, sysOf, realBody]
    rw [ex, ev]
    refine ⟨by rw [e]; exact hT.mass, b1, b2, b3, ?_⟩
    rw [show ((realSys le_rfl L h).step Real.sqrt (toReal dt)).pos i c = (realSys le_rfl L h).pos i c + toReal dt * ((realSys le_rfl L h).step Real.sqrt (toReal dt)).vel i c from rfl, px]
    exact b4
  refine ⟨hl, ?_, ?_⟩
  · intro b hb c hc
    obtain ⟨i, hi, rfl⟩ := List.mem_iff_getElem.1 hb
    have := bnd ⟨i, by rw [← hl]; exact hi⟩ ⟨c, hc⟩
    exact ⟨this.2.2.2.1, this.2.1⟩
  · exact nearStep_of (e := 14) (by omega) hdt (fun j => by
      simp only [realSys, sysOf, realBody, Fin.getElem_fin, List.getElem_map]
      exact (hc.mass _ (List.getElem_mem _)).2.1.le) (fun i => by
      have := (bnd i 0).1
      simp only [realSys, sysOf, realBody, Fin.getElem_fin, List.getElem_map] at this ⊢
      rw [this]) (fun i c => by
      have := (bnd i c).2.2.1
      rw [show (realSys le_rfl (advanceScalar F dt L) hl).vel i c = toReal (advanceScalar F dt L)[i].v[c] by simp [realSys, sysOf, realBody]]
      exact this) (fun i c => by
      have := (bnd i c).2.2.2.2
      rw [show (realSys le_rfl (advanceScalar F dt L) hl).pos i c = toReal (advanceScalar F dt L)[i].x[c] by simp [realSys, sysOf, realBody]]
      exact this)

/-! ### The vector program -/

/-- The other body of a pair. -/
def partner (b : Nat) (p : Nat × Nat) : Option Nat := if p.1 = b then some p.2 else if p.2 = b then some p.1 else none
/-- The bodies that have pulled at `b` after `i` pairs. -/
def partners (N i b : Nat) : List Nat := ((pairs N).take i).filterMap (partner b)

theorem sum_filterMap {M β γ : Type} [AddCommMonoid M] (g : β → Option γ) (f : γ → M) : ∀ L : List β,
    ((L.filterMap g).map f).sum = (L.map fun a => (g a).elim 0 f).sum
  | [] => rfl
  | a :: L => by
    have ih := sum_filterMap g f L
    rw [List.map_cons, List.sum_cons, ← ih]
    cases h : g a with
    | none => rw [List.filterMap_cons_none h, Option.elim_none, zero_add]
    | some x => rw [List.filterMap_cons_some h, List.map_cons, List.sum_cons, Option.elim_some]

theorem sum_partners {M : Type} [AddCommMonoid M] (f : Nat → M) {b : Nat} (hb : b < N) :
    ((partners N (pairs N).length b).map f).sum = ∑ k ∈ Finset.range N, if k = b then 0 else f k := by
  unfold partners
  rw [List.take_length, sum_filterMap, sum_pairs]
  have e : ∀ j k, (if j < k then (partner b (j, k)).elim 0 f else 0) =
      (if b = j then (if b < k then f k else 0) else 0) + (if b = k then (if j < b then f j else 0) else 0) := by
    intro j k
    unfold partner
    by_cases h1 : j = b
    · subst h1
      by_cases h2 : j < k
      · have : j ≠ k := by omega
        simp [h2, this]
      · simp [h2]
    · by_cases h2 : k = b
      · subst h2
        by_cases h3 : j < k <;> simp [h1, h3, Ne.symm h1]
      · simp [h1, h2, Ne.symm h1, Ne.symm h2]
  simp only [e, Finset.sum_add_distrib]
  rw [Finset.sum_comm]
  simp only [Finset.sum_ite_eq, Finset.mem_range, hb, if_true]
  rw [← Finset.sum_add_distrib]
  refine Finset.sum_congr rfl fun k _ => ?_
  rcases lt_trichotomy b k with h | h | h
  · simp [h, Nat.not_lt.2 (Nat.le_of_lt h), h.ne']
  · subst h; simp
  · simp [h, Nat.not_lt.2 (Nat.le_of_lt h), h.ne]

theorem partners_length {i b : Nat} (hb : b < N) : (partners N i b).length + 1 ≤ N ∧ (partners N (pairs N).length b).length + 1 = N := by
  have h1 : (partners N (pairs N).length b).length + 1 = N := by
    have := sum_partners (M := Nat) (fun _ => 1) hb
    rw [List.map_const', List.sum_replicate, smul_eq_mul, mul_one] at this
    rw [this]
    have e := Finset.add_sum_erase (Finset.range N) (fun k => if k = b then 0 else 1) (Finset.mem_range.2 hb)
    simp only [if_true, zero_add] at e
    rw [← e, Finset.sum_congr rfl (g := fun _ => 1) (fun k hk => if_neg (Finset.ne_of_mem_erase hk))]
    rw [Finset.sum_const, Finset.card_erase_of_mem (Finset.mem_range.2 hb), Finset.card_range, smul_eq_mul, mul_one]
    omega
  refine ⟨?_, h1⟩
  have : (partners N i b).Sublist (partners N (pairs N).length b) := by
    unfold partners
    rw [List.take_length]
    exact (List.take_sublist i _).filterMap _
  have := this.length_le
  omega

theorem partners_succ {i b : Nat} (h : i < (pairs N).length) : partners N (i + 1) b = partners N i b ++ (partner b (pairs N)[i]).toList := by
  unfold partners
  rw [← List.take_append_getElem h, List.filterMap_append]
  congr 1

/-- What the exact step takes off a component of the velocity of `b` because of `k`. -/
noncomputable def takes4 (dt : F64) (B : Vector (Body F64 4) N) (c b k : Nat) : ℝ :=
  (px (B.map realBody) b c - px (B.map realBody) k c) * (pm (B.map realBody) k * (toReal dt / (d2 (B.map realBody) b k * √(d2 (B.map realBody) b k))))

theorem px_real (B : Vector (Body F64 4) N) {j c : Nat} (hj : j < N) (hc : c < 4) : px (B.map realBody) j c = toReal B[j].x[c] := by
  rw [← px_eq _ hj hc]; simp [realBody]
theorem pm_real (B : Vector (Body F64 4) N) {j : Nat} (hj : j < N) : pm (B.map realBody) j = toReal B[j].mass := by
  rw [← pm_eq _ hj]; simp [realBody]

theorem apart_pair {k : Nat} {B : Vector (Body F64 k) N} (hc : Calm B.toList) {i j : Nat} (hij : i < j) (hj : j < N) : ApartBodies (B[i]'(by omega)) B[j] := by
  have := List.pairwise_iff_getElem.1 hc.apart i j (by simp; omega) (by simp; omega) hij
  simp only [Vector.getElem_toList] at this
  exact this

/-- The factor of a pair. -/
theorem mag_simd {S : Vec F64 4 → F64} (hS : ∀ v, SumOf (· + ·) 0 v.toList (S v)) (hq : ∀ x, IsSqrt 52 x.bits (F.sqrte x).bits) (hdt : GoodStep dt)
    {B : Vector (Body F64 4) N} (hc : Calm B.toList) {i j : Nat} (hij : i < j) (hj : j < N) {r : Vec F64 4} (hr : r = (B[i]'(by omega)).x - B[j].x) :
    Near 15 (dt / (S (r * r) * F.sqrte (S (r * r)))) (toReal dt / (d2 (B.map realBody) i j * √(d2 (B.map realBody) i j))) ∧
      1 / 2 ^ 403 ≤ toReal dt / (d2 (B.map realBody) i j * √(d2 (B.map realBody) i j)) ∧ toReal dt / (d2 (B.map realBody) i j * √(d2 (B.map realBody) i j)) ≤ 2 ^ 400 := by
  subst hr
  have hi : i < N := by omega
  have hab := apart_pair hc hij hj
  set a := B[i] with ha
  set b := B[j] with hb
  have ma : a ∈ B.toList := by rw [ha]; simp
  have mb : b ∈ B.toList := by rw [hb]; simp
  have e : ∀ c (h : c < 4), ((realBody a).x - (realBody b).x)[c] = toReal a.x[c] - toReal b.x[c] := fun c h => by
    rw [Mandel.vsub_get]; simp [realBody]
  have hw : ∀ c (h : c < 4), Ordinary ((realBody a).x - (realBody b).x)[c] := fun c h => by rw [e]; exact hab.1 c h
  obtain ⟨-, r2, r3⟩ := sum4R_range hw
  obtain ⟨c, hc', hne⟩ := hab.2
  have r := r3 ⟨c, hc', by rw [e]; exact sub_ne_zero.2 hne⟩
  have n := near_sum4 (k := 3) (v := (a.x - b.x) * (a.x - b.x)) (w := ((realBody a).x - (realBody b).x) * ((realBody a).x - (realBody b).x))
    (fun c h => by rw [Mandel.vmul_get, Mandel.vmul_get, e, Mandel.vsub_get]; exact near_sqdiff (hc.pos a ma c h) (hc.pos b mb c h) (hab.1 c h)) (by omega)
    (fun c h => by rw [Mandel.vmul_get]; exact (hw c h).sq_le) (hS _)
  have ed : d2 (B.map realBody) i j = sum4R (((realBody a).x - (realBody b).x) * ((realBody a).x - (realBody b).x)) := by
    unfold d2 sum4R
    simp only [Mandel.vmul_get, e]
    rw [px_real B hi (by omega : 0 < 4), px_real B hi (by omega : 1 < 4), px_real B hi (by omega : 2 < 4), px_real B hi (by omega : 3 < 4),
      px_real B hj (by omega : 0 < 4), px_real B hj (by omega : 1 < 4), px_real B hj (by omega : 2 < 4), px_real B hj (by omega : 3 < 4)]
    ring
  rw [ed]
  exact near_mag (k := 4) (by omega) hdt (n.mono (by omega)) r r2 (hq _)

theorem kicks_step {S : Vec F64 4 → F64} (hS : ∀ v, SumOf (· + ·) 0 v.toList (S v)) (hq : ∀ x, IsSqrt 52 x.bits (F.sqrte x).bits) (hdt : GoodStep dt)
    {B : Vector (Body F64 4) N} (hc : Calm B.toList) (hN : N ≤ 2 ^ 39) (r : Vector (Vec F64 4) (nPairs N)) (mag : Vector F64 (nPairs N))
    (hr : ∀ q (h : q < nPairs N) (h' : q < (pairs N).length), r[q] = (B[(pairs N)[q].1]'(pair_lt h').1).x - (B[(pairs N)[q].2]'(pair_lt h').2.1).x)
    (hm : ∀ q (h : q < nPairs N), mag[q] = dt / (S (r[q] * r[q]) * F.sqrte (S (r[q] * r[q])))) :
    ∃ B', kicks B r mag = .ok B' ∧ ∀ b (hb : b < N), B'[b].x = B[b].x ∧ B'[b].mass = B[b].mass ∧ ∀ c (hc : c < 4),
      Took 18 ((partners N (pairs N).length b).map (takes4 dt B c b)) (toReal B[b].v[c]) B'[b].v[c] := by
  have mem : ∀ {i : Nat} (h : i < N), B[i] ∈ B.toList := fun h => by simp
  obtain ⟨s, e, hs⟩ := forPairs_inv (N := N) (fun i (s : Vector (Body F64 4) N) => ∀ b (hb : b < N), s[b].x = B[b].x ∧ s[b].mass = B[b].mass ∧
      ∀ c (hc : c < 4), Took 18 ((partners N i b).map (takes4 dt B c b)) (toReal B[b].v[c]) s[b].v[c]) (kick r mag) B
    (fun b hb => ⟨rfl, rfl, fun c h => by
      have v := hc.vel _ (mem hb) c h
      exact took_none v.1 (v.2.le.trans (pow_le' (by norm_num)))⟩) (by
    intro i h s hs
    have hp := pair_lt h
    have hi : i < nPairs N := by rw [← length_pairs]; exact h
    refine ⟨_, kick_body s r mag hi hp.1 hp.2.1 (by omega), fun b hb => ?_⟩
    have hr0 := hr i hi h
    have hm' := hm i hi
    have hps := partners_succ (b := b) h
    generalize hjk : (pairs N)[i] = p at hp hps
    obtain ⟨j, k⟩ := p
    simp only at hp
    have hr' : r[i] = (B[j]'hp.1).x - (B[k]'hp.2.1).x := by
      simp only [hjk] at hr0
      exact hr0
    simp only [hjk]
    obtain ⟨hj, hk, hlt⟩ := hp
    obtain ⟨g0, g1, g2⟩ := mag_simd (F := F) hS hq hdt hc hlt hk hr'
    rw [← hm'] at g0
    have hab := apart_pair hc hlt hk
    have len : ∀ c, 18 + ((partners N i b).map (takes4 dt B c b)).length ≤ 2 ^ 40 := fun c => by
      rw [List.length_map]
      have := (partners_length (N := N) (i := i) hb).1
      omega
    obtain ⟨x1, x2, x3⟩ := hs b hb
    suffices H : ∀ y : Body F64 4, y = (if k = b then { s[k] with v := s[k].v + r[i] * splat 4 mag[i] * splat 4 s[j].mass } else
        if j = b then { s[j] with v := s[j].v - r[i] * splat 4 mag[i] * splat 4 s[k].mass } else s[b]) →
        y.x = B[b].x ∧ y.mass = B[b].mass ∧ ∀ c (hc : c < 4), Took 18 ((partners N (i + 1) b).map (takes4 dt B c b)) (toReal B[b].v[c]) y.v[c] from
      H _ (by simp only [Vector.getElem_set])
    intro y hy
    by_cases hkb : k = b
    · subst hkb
      rw [if_pos rfl] at hy
      subst hy
      refine ⟨x1, x2, fun c h => ?_⟩
      rw [hps, show partner k (j, k) = some j by unfold partner; rw [if_neg (by simp; omega), if_pos rfl], Option.toList_some, List.map_append, List.map_singleton]
      simp only [Mandel.vadd_get, Mandel.vmul_get, Mandel.splat_get]
      rw [hr', Mandel.vsub_get, (hs j hj).2.1]
      obtain ⟨t1, t2⟩ := term_simd (by omega) (hc.pos _ (mem hj) c h) (hc.pos _ (mem hk) c h) (hab.1 c h) (hc.mass _ (mem hj)) g0 g1 g2
      have ey : -takes4 dt B c k j = (toReal B[j].x[c] - toReal B[k].x[c]) * (toReal B[j].mass * (toReal dt / (d2 (B.map realBody) j k * √(d2 (B.map realBody) j k)))) := by
        unfold takes4
        rw [d2_comm _ k j, px_real B hj h, px_real B hk h, pm_real B hj, ← neg_mul, neg_sub]
      exact took_add (x3 c h) (by rw [ey]; exact t1) (by rw [← abs_neg, ey]; exact t2) (len c)
    · rw [if_neg hkb] at hy
      by_cases hjb : j = b
      · subst hjb
        rw [if_pos rfl] at hy
        subst hy
        refine ⟨x1, x2, fun c h => ?_⟩
        rw [hps, show partner j (j, k) = some k by unfold partner; rw [if_pos rfl], Option.toList_some, List.map_append, List.map_singleton]
        simp only [Mandel.vsub_get, Mandel.vmul_get, Mandel.splat_get]
        rw [hr', Mandel.vsub_get, (hs k hk).2.1]
        obtain ⟨t1, t2⟩ := term_simd (by omega) (hc.pos _ (mem hj) c h) (hc.pos _ (mem hk) c h) (hab.1 c h) (hc.mass _ (mem hk)) g0 g1 g2
        have ey : takes4 dt B c j k = (toReal B[j].x[c] - toReal B[k].x[c]) * (toReal B[k].mass * (toReal dt / (d2 (B.map realBody) j k * √(d2 (B.map realBody) j k)))) := by
          unfold takes4
          rw [px_real B hj h, px_real B hk h, pm_real B hk]
        exact took_sub (x3 c h) (by rw [ey]; exact t1) (by rw [ey]; exact t2) (len c)
      · rw [if_neg hjb] at hy
        subst hy
        refine ⟨x1, x2, fun c h => ?_⟩
        rw [hps, show partner b (j, k) = none by unfold partner; rw [if_neg hjb, if_neg hkb], Option.toList_none, List.append_nil]
        exact x3 c h)
  exact ⟨s, by unfold kicks; rw [e]; rfl, hs⟩

/-- The system of the vectors. -/
noncomputable def sys4 (B : Vector (Body F64 4) N) : Sys ℝ N := realSys (by omega) B.toList (by simp)

theorem sys4_eq (B : Vector (Body F64 4) N) : sysOf (by omega) (B.map realBody).toList (by simp : (B.map realBody).toList.length = N) = sys4 B := by
  unfold sys4 realSys
  simp only [Vector.toList_map]

theorem sys4_pos (B : Vector (Body F64 4) N) (i : Fin N) (c : Fin 3) : (sys4 B).pos i c = toReal B[i].x[c.val] := by simp [sys4, realSys, sysOf, realBody]
theorem sys4_vel (B : Vector (Body F64 4) N) (i : Fin N) (c : Fin 3) : (sys4 B).vel i c = toReal B[i].v[c.val] := by simp [sys4, realSys, sysOf, realBody]
theorem sys4_mass (B : Vector (Body F64 4) N) (i : Fin N) : (sys4 B).mass i = toReal B[i].mass := by simp [sys4, realSys, sysOf, realBody]

theorem takes4_sys (B : Vector (Body F64 4) N) (hP : Padded (B.map realBody)) (i j : Fin N) (c : Fin 3) : takes4 dt B c i j =
    -(toReal dt * ((sys4 B).mass j * ((sys4 B).pos j c - (sys4 B).pos i c) / ((sys4 B).dist2 i j * √((sys4 B).dist2 i j)))) := by
  unfold takes4
  rw [d2_dist2 _ hP, sys4_eq, px_real B i.2 (by omega), px_real B j.2 (by omega), pm_real B j.2, sys4_pos, sys4_pos, sys4_mass]
  simp only [Fin.getElem_fin]
  ring

theorem exact_terms4 (B : Vector (Body F64 4) N) (hP : Padded (B.map realBody)) (hm : ∀ b ∈ B.toList, 0 ≤ toReal b.mass) (hdt : 0 ≤ toReal dt) (i : Fin N) (c : Fin 3) :
    toReal B[i].v[c.val] - ((partners N (pairs N).length i).map (takes4 dt B c i)).sum = ((sys4 B).step Real.sqrt (toReal dt)).vel i c ∧
    |toReal B[i].v[c.val]| + (((partners N (pairs N).length i).map (takes4 dt B c i)).map abs).sum = (sys4 B).effort (toReal dt) i c := by
  have z : takes4 dt B c i i = 0 := by unfold takes4; rw [sub_self, zero_mul]
  have fin : ∀ f : Nat → ℝ, f i = 0 → (∑ k ∈ Finset.range N, if k = (i : Nat) then 0 else f k) = ∑ k : Fin N, f k := by
    intro f hf
    rw [← Fin.sum_univ_eq_sum_range (fun k => if k = (i : Nat) then 0 else f k) N]
    refine Finset.sum_congr rfl fun k _ => ?_
    by_cases h : (k : Nat) = i
    · rw [if_pos h, h, hf]
    · rw [if_neg h]
  constructor
  · rw [sum_partners _ i.2, fin _ z]
    simp only [Sys.step, Sys.accel]
    rw [sys4_vel, sub_eq_add_neg, sum_erase_of_zero i _ (by simp), ← Finset.sum_neg_distrib, Finset.mul_sum]
    congr 1
    refine Finset.sum_congr rfl fun j _ => ?_
    rw [takes4_sys B hP, neg_neg]
  · rw [List.map_map, sum_partners _ i.2, fin _ (by simp [z])]
    unfold Sys.effort
    rw [sys4_vel, sum_erase_of_zero i _ (by simp), Finset.mul_sum]
    congr 1
    refine Finset.sum_congr rfl fun j _ => ?_
    have m0 : 0 ≤ (sys4 B).mass j := by rw [sys4_mass]; exact hm _ (by simp)
    have d0 : 0 ≤ (sys4 B).dist2 i j := Finset.sum_nonneg fun c _ => sq_nonneg _
    rw [Function.comp, takes4_sys B hP, abs_neg, abs_mul, abs_of_nonneg hdt, abs_div, abs_mul, abs_of_nonneg m0, abs_of_nonneg (mul_nonneg d0 (Real.sqrt_nonneg _))]

/-- One step of the vector program. -/
theorem advance_simd_step (hq : ∀ x, IsSqrt 52 x.bits (F.sqrte x).bits) (hdt : GoodStep dt) (t : Target) (hE : nPairs N % 2 = 0) {B : Vector (Body F64 4) N} (hc : Calm B.toList)
    (hP : Padded (B.map realBody)) (hp : Placed B.toList) (hN : N ≤ 2 ^ 39) :
    ∃ B', advanceSimd F t dt B = .ok B' ∧ Numbers B'.toList ∧ NearStep 17 (toReal dt) (sys4 B) (sys4 B') := by
  obtain ⟨S, hS⟩ := sum4_fn (α := F64) t
  obtain ⟨r, hr, hr'⟩ := diffs_ok F B
  obtain ⟨m, hm, hm'⟩ := mags_ok F t S (fun v => (hS v).1) dt hE r
  obtain ⟨B1, hB, h1⟩ := kicks_step (F := F) (fun v => (hS v).2) hq hdt hc hN r m hr' hm'
  have mem : ∀ {i : Nat} (h : i < N), B[i] ∈ B.toList := fun h => by simp
  have bnd : ∀ b (hb : b < N) c (h : c < 4), IsFinite 52 (B1[b].v[c]).bits ∧ IsFinite 52 (B1[b].x[c] + dt * B1[b].v[c]).bits := by
    intro b hb c h
    obtain ⟨x1, x2, x3⟩ := h1 b hb
    obtain ⟨b1, -, b3, -⟩ := step_bounds (N := N) (x := B[b].x[c]) (x3 c h) (by rw [List.length_map]; exact (partners_length (i := 0) hb).2) (by omega) hdt
      (hc.pos _ (mem hb) c h) (hp _ (mem hb) c h) rfl rfl
    rw [x1]
    exact ⟨b1, b3⟩
  have bnd3 : ∀ (b : Fin N) (c : Fin 3), |toReal B1[b].v[c.val] - ((sys4 B).step Real.sqrt (toReal dt)).vel b c| ≤ (ρ ^ (N + 18 - 1) - 1) * (sys4 B).effort (toReal dt) b c ∧
      |toReal (B1[b].x[c.val] + dt * B1[b].v[c.val]) - ((sys4 B).step Real.sqrt (toReal dt)).pos b c| ≤
        (ρ ^ (N + 18 + 1) - 1) * (|(sys4 B).pos b c| + toReal dt * (sys4 B).effort (toReal dt) b c) + 1 / 2 ^ 1074 := by
    intro b c
    obtain ⟨x1, x2, x3⟩ := h1 b b.2
    obtain ⟨t1, t2⟩ := exact_terms4 (dt := dt) B hP (fun b hb => (hc.mass b hb).2.1.le) hdt.2.1.le b c
    obtain ⟨-, b2, -, b4⟩ := step_bounds (N := N) (x := B[b.val].x[c.val]) (x3 c (by omega)) (by rw [List.length_map]; exact (partners_length (i := 0) b.2).2) (by omega) hdt
      (hc.pos _ (mem b.2) c (by omega)) (hp _ (mem b.2) c (by omega)) t1 t2
    refine ⟨b2, ?_⟩
    rw [show ((sys4 B).step Real.sqrt (toReal dt)).pos b c = (sys4 B).pos b c + toReal dt * ((sys4 B).step Real.sqrt (toReal dt)).vel b c from rfl, sys4_pos]
    have ex : B1[b.val].x[c.val] = B[b.val].x[c.val] := by simp only [x1]
    have ep : toReal (B1[b.val].x[c.val] + dt * B1[b.val].v[c.val]) = toReal (B[b.val].x[c.val] + dt * B1[b.val].v[c.val]) := by rw [ex]
    rw [← ep] at b4
    exact b4
  refine ⟨B1.map fun body => { body with x := body.x + splat 4 dt * body.v }, ?_, ?_, ?_⟩
  · unfold advanceSimd; rw [hr]; simp only [R_ok_bind]; rw [hm]; simp only [R_ok_bind]; rw [hB]; rfl
  · intro b hb c h
    rw [Vector.toList_map] at hb
    obtain ⟨b', hb', rfl⟩ := List.mem_map.1 hb
    obtain ⟨i, hi, rfl⟩ := List.mem_iff_getElem.1 hb'
    have := bnd i (by simpa using hi) c h
    simp only [Mandel.vadd_get, Mandel.vmul_get, Mandel.splat_get, Vector.getElem_toList]
    exact ⟨this.2, this.1⟩
  · refine nearStep_of (e := 17) (by omega) hdt (fun j => by rw [sys4_mass]; exact (hc.mass _ (by simp)).2.1.le) (fun i => ?_) (fun i c => ?_) (fun i c => ?_)
    · rw [sys4_mass, sys4_mass]
      simp only [Fin.getElem_fin, Vector.getElem_map]
      rw [(h1 i i.2).2.1]
    · rw [sys4_vel]
      simp only [Fin.getElem_fin, Vector.getElem_map]
      exact (bnd3 i c).1
    · rw [sys4_pos]
      simp only [Fin.getElem_fin, Vector.getElem_map, Mandel.vadd_get, Mandel.vmul_get, Mandel.splat_get]
      exact (bnd3 i c).2

end PackedSimd.Ex.Nbody
