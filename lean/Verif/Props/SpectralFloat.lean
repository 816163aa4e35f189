import Verif.Lemmas.SpectralFloat
import Mathlib.Analysis.SpecialFunctions.Pow.Real
/-
C119: how close the spectral-norm example comes to the spectral norm, in `f64`.
-/
namespace PackedSimd.Props
open PackedSimd Spec Ex Ex.Spectral F64N SpecF
open Matrix hiding scalar

/-- What the program computes in exact arithmetic (`C68_exact`): after ten rounds, `√(u·v / v·v)` with `u = (MᵀM)²⁰ 1`, `v = (MᵀM)¹⁹ 1`. -/
noncomputable def exactNorm (n : Nat) : ℝ :=
  let B := (benchMatrix ℝ n)ᵀ * benchMatrix ℝ n
  √((((B ^ 20) *ᵥ 1) ⬝ᵥ ((B ^ 19) *ᵥ 1)) / (((B ^ 19) *ᵥ 1) ⬝ᵥ ((B ^ 19) *ᵥ 1)))

section
variable (t : Target) (checks : Bool) {n : Nat}

theorem bench_eq (i j : Fin n) : benchMatrix ℝ n i j = 1 / (den i j : ℝ) := rfl

theorem step_near (h2 : n % 2 = 0) (hn : n ≤ 2 ^ 31) (hs : 2 * n * (2 * n) ≤ 2 ^ (8 * t.ptrBytes)) (hw : n < 2 ^ (8 * t.ptrBytes)) {k m : Nat}
    (hk : k + (n / 2 + 3) ≤ 2 ^ 51) (hm : m + 1 ≤ 40) (f : Fin n → ℝ) (hf : Good m f) (v out tmp : List F64) (hv : NearL k v f)
    (ho : out.length = n) (ht : tmp.length = n) :
    ∃ out' tmp', multAtAv (multAvScalar t checks conv) (multAtvScalar t checks conv) v out tmp = .ok (out', tmp') ∧ tmp'.length = n ∧
      NearL (k + 2 * (n / 2 + 3)) out' (((benchMatrix ℝ n)ᵀ * benchMatrix ℝ n) *ᵥ f) ∧
      Good (m + 2) (((benchMatrix ℝ n)ᵀ * benchMatrix ℝ n) *ᵥ f) := by
  obtain ⟨r1, e1, n1⟩ := mult_near t checks h2 hn hw (A t checks conv) (benchMatrix ℝ n) den (fun i j hi hj => A_ok t checks _ hi hj hs)
    (fun i j => rfl) (fun i j hi hj => den_ok hn hi hj) (k := k) (m := m) (by omega) (by omega) f hf v tmp hv ht
  have g1 := good_step (benchMatrix ℝ n) den (fun i j => rfl) rfl (fun i j hi hj => den_lt hi hj) den_ge_row f hf
  obtain ⟨r2, e2, n2⟩ := mult_near t checks h2 hn hw (fun i j => A t checks conv j i) (benchMatrix ℝ n)ᵀ (fun i j => den j i)
    (fun i j hi hj => A_ok t checks _ hj hi hs) (fun i j => rfl) (fun i j hi hj => den_ok hn hj hi) hk hm _ g1 r1 out n1 ho
  have g2 := good_step (benchMatrix ℝ n)ᵀ (fun i j => den j i) (fun i j => rfl) rfl (fun i j hi hj => den_lt hj hi) (fun i j => den_ge_col i j) _ g1
  rw [mulVec_mulVec] at n2 g2
  refine ⟨r2, r1, ?_, ?_, ?_, g2⟩
  · unfold multAtAv multAvScalar multAtvScalar
    rw [e1, R_ok_bind, e2]
    rfl
  · obtain ⟨x, rfl, -⟩ := n1; simp
  · rwa [show k + 2 * (n / 2 + 3) = k + (n / 2 + 3) + (n / 2 + 3) by omega]

theorem norm_near (sqrt : F64 → F64) (hsqrt : ∀ x, IsSqrt 52 x.bits (sqrt x).bits) (h0 : 0 < n) (h2 : n % 2 = 0) (hn : n ≤ 2 ^ 31)
    (hs : 2 * n * (2 * n) ≤ 2 ^ (8 * t.ptrBytes)) (hw : n < 2 ^ (8 * t.ptrBytes)) :
    ∃ x, scalar t checks conv sqrt n = .ok x ∧ Near (40 * n + 234) x (exactNorm n) := by
  generalize hB : (benchMatrix ℝ n)ᵀ * benchMatrix ℝ n = B
  generalize hc : n / 2 + 3 = c
  have hc1 : c ≤ 2 ^ 31 := by omega
  have hstep := @step_near t checks n h2 hn hs hw
  rw [hB, hc] at hstep
  unfold Spectral.scalar spectralNorm
  rw [if_pos h2]
  have hone : List.replicate n (1 : F64) = List.ofFn (fun _ : Fin n => (1 : F64)) := by
    apply List.ext_getElem <;> simp
  obtain ⟨s, hs, ⟨hu, gu⟩, hv, _⟩ := forRange_inv (fun i (s : List F64 × List F64 × List F64) =>
      (NearL (4 * i * c) s.1 ((B ^ (2 * i)) *ᵥ (1 : Fin n → ℝ)) ∧ Good (4 * i) ((B ^ (2 * i)) *ᵥ (1 : Fin n → ℝ))) ∧
      (0 < i → NearL ((4 * i - 2) * c) s.2.1 ((B ^ (2 * i - 1)) *ᵥ (1 : Fin n → ℝ)) ∧ Good (4 * i - 2) ((B ^ (2 * i - 1)) *ᵥ (1 : Fin n → ℝ))) ∧
      s.2.1.length = n ∧ s.2.2.length = n)
    (fun (s : List F64 × List F64 × List F64) _ => do
      let (u, v, tmp) := s
      let (v, tmp) ← multAtAv (multAvScalar t checks conv) (multAtvScalar t checks conv) u v tmp
      let (u, tmp) ← multAtAv (multAvScalar t checks conv) (multAtvScalar t checks conv) v u tmp
      return (u, v, tmp)) (Nat.zero_le 10)
    (init := (List.replicate n 1, List.replicate n 1, List.replicate n 1))
    ⟨⟨⟨_, hone, fun i => by simpa using near_one⟩, by
        refine ⟨fun h => by simp, fun i => ⟨?_, by simp⟩⟩
        have n0 : (1 : ℝ) ≤ n := by exact_mod_cast h0
        simp only [Nat.mul_zero, pow_zero, one_mulVec, Pi.one_apply]
        rw [div_le_one (by positivity)]
        nlinarith⟩, fun h => absurd h (by omega), by simp, by simp⟩ (by
      rintro i ⟨u, v, tmp⟩ _ hi ⟨⟨hu, gu⟩, _, hv, ht⟩
      dsimp only at hu gu hv ht ⊢
      have hul : u.length = n := by obtain ⟨x, rfl, -⟩ := hu; simp
      have hk : 4 * i * c ≤ 36 * 2 ^ 31 := Nat.mul_le_mul (by omega) hc1
      obtain ⟨v', tmp', e1, l1, n1, g1⟩ := hstep (by omega) (by omega) _ gu u v tmp hu hv ht
      have hvl : v'.length = n := by obtain ⟨x, rfl, -⟩ := n1; simp
      obtain ⟨u', tmp'', e2, l2, n2, g2⟩ := hstep (by omega) (by omega) _ g1 v' u tmp' n1 hul l1
      rw [mulVec_mulVec, ← pow_succ'] at n1 g1
      rw [mulVec_mulVec, mulVec_mulVec, ← pow_two, ← pow_add, add_comm 2] at n2 g2
      refine ⟨(u', v', tmp''), ?_, ⟨?_, ?_⟩, fun _ => ⟨?_, ?_⟩, hvl, l2⟩
      · rw [e1]
        simp only [R_ok_bind]
        rw [e2]
        rfl
      · have e : 4 * (i + 1) * c = 4 * i * c + 2 * c + 2 * c := by ring
        rw [e]
        exact n2
      · exact g2
      · have e : (4 * (i + 1) - 2) * c = 4 * i * c + 2 * c := by
          rw [show 4 * (i + 1) - 2 = 4 * i + 2 by omega]
          ring
        rw [e]
        exact n1
      · rw [show 4 * (i + 1) - 2 = 4 * i + 2 by omega]
        exact g1)
  dsimp only at hs ⊢
  rw [hs]
  obtain ⟨u, v, tmp⟩ := s
  simp only [R_ok_bind]
  obtain ⟨hv, gv⟩ := hv (by decide)
  dsimp only at hu hv
  norm_num only at hu hv gu gv
  have ru := fun i => gu.range hn (by norm_num) i
  have rv := fun i => gv.range hn (by norm_num) i
  have d1 := near_dot hn (by omega) hu hv ru rv
  have d2 := near_dot hn (by omega) hv hv rv rv
  obtain ⟨b1, b2⟩ := dot_range hn h0 ru rv (gu.1 h0) (gv.1 h0)
  obtain ⟨b3, b4⟩ := dot_range hn h0 rv rv (gv.1 h0) (gv.1 h0)
  refine ⟨_, rfl, ?_⟩
  unfold exactNorm
  dsimp only
  rw [hB]
  generalize ((B ^ 20) *ᵥ (1 : Fin n → ℝ)) ⬝ᵥ ((B ^ 19) *ᵥ 1) = α at *
  generalize ((B ^ 19) *ᵥ (1 : Fin n → ℝ)) ⬝ᵥ ((B ^ 19) *ᵥ 1) = β at *
  have hβ : 0 < β := by linarith
  have q1 : α / β ≤ 2 ^ 500 := by
    rw [div_le_iff₀ hβ]
    exact b2.trans ((pow_le_pow_right₀ (by norm_num) (by norm_num)).trans (le_mul_of_one_le_right (by positivity) b3))
  have q2 : 1 / 2 ^ 500 ≤ α / β := by
    rw [div_le_div_iff₀ (by positivity) hβ]
    rw [one_mul]
    exact b4.trans ((pow_le_pow_right₀ (by norm_num) (by norm_num)).trans (le_mul_of_one_le_left (by positivity) b1))
  have q := near_div d1 d2 hβ (in_range (by omega) q1 (le_trans (by positivity) q2)) (not_small (by omega) q2)
  have := near_sqrt (k := 40 * n + 233) (q.mono (by omega)) (div_pos (by linarith) hβ) (hsqrt _)
  exact this

end

/-- In IEEE `f64` arithmetic with a correctly rounded square root, both programs return, for every even `n` up to 2³¹ whose index arithmetic fits a
`usize`, on every target, with and without overflow checks, a finite number whose relative distance from the exact value is about
`(40 n + 234) 2⁻⁵³`. -/
theorem C119_accurate (t : Target) (checks : Bool) (sqrt : F64 → F64) (hsqrt : ∀ x, IsSqrt 52 x.bits (sqrt x).bits) (n : Nat) (h0 : 0 < n) (h2 : n % 2 = 0)
    (hn : n ≤ 2 ^ 31) (hs : 2 * n * (2 * n) ≤ 2 ^ (8 * t.ptrBytes)) :
    ∃ x, scalar t checks (fun k => ⟨Flt.fromInt 64 52 k⟩) sqrt n = .ok x ∧ simd t checks (fun k => ⟨Flt.fromInt 64 52 k⟩) sqrt n = .ok x ∧
      IsFinite 52 x.bits ∧ (1 - (40 * n + 234) / 2 ^ 53) * exactNorm n ≤ realVal 52 x.bits ∧
      (1 - (40 * n + 234) / 2 ^ 53) * realVal 52 x.bits ≤ exactNorm n := by
  have hw : n < 2 ^ (8 * t.ptrBytes) := by
    refine lt_of_lt_of_le ?_ hs
    calc n < 2 * n * 1 := by omega
      _ ≤ _ := Nat.mul_le_mul_left _ (by omega)
  obtain ⟨x, hx, hfin, hy, h3, h4⟩ := norm_near t checks sqrt hsqrt h0 h2 hn hs hw
  refine ⟨x, hx, by rw [C67_float t checks _ sqrt n hw]; exact hx, hfin, ?_⟩
  have hn' : (n : ℝ) ≤ 2 ^ 31 := by exact_mod_cast hn
  have e : ((40 * n + 234 : Nat) : ℝ) * u = (40 * n + 234) / 2 ^ 53 := by unfold u; push_cast; ring
  have hd : (0 : ℝ) < 1 - (40 * n + 234) / 2 ^ 53 := by
    rw [sub_pos, div_lt_one (by positivity)]
    linarith [show (40 : ℝ) * 2 ^ 31 + 234 < 2 ^ 53 by norm_num]
  have hp := ρ_pow (40 * n + 234) (by rw [e]; linarith)
  rw [e] at hp
  have hx0 : 0 ≤ F64N.rv x := Near.nonneg ⟨hfin, hy, h3, h4⟩
  constructor
  · have := h4.trans (mul_le_mul_of_nonneg_left hp hx0)
    rw [mul_one_div, le_div_iff₀ hd] at this
    rw [mul_comm]
    exact this
  · have := h3.trans (mul_le_mul_of_nonneg_left hp hy)
    rw [mul_one_div, le_div_iff₀ hd] at this
    rw [mul_comm]
    exact this

/-! ### Against the spectral norm itself -/

/-- The exact value never exceeds the spectral norm, and falls short of it by a factor of at most the 78th root of `n`. -/
theorem C119_exact_norm (n : Nat) (h0 : 0 < n) (s : ℝ) (hs : IsSpectralNorm (benchMatrix ℝ n) s) : exactNorm n ≤ s ∧ s ^ 78 ≤ n * exactNorm n ^ 78 := by
  have hM0 : ∀ i j : Fin n, 0 ≤ benchMatrix ℝ n i j := fun i j => by rw [bench_eq]; positivity
  have h00 : benchMatrix ℝ n ⟨0, h0⟩ ⟨0, h0⟩ = 1 := by rw [bench_eq]; norm_num [den]
  set M := benchMatrix ℝ n with hM
  have hB0 : ∀ k (i j : Fin n), 0 ≤ ((Mᵀ * M) ^ k) i j := by
    intro k
    induction k with
    | zero => intro i j; rw [pow_zero, one_apply]; split <;> norm_num
    | succ k ih =>
      intro i j
      rw [pow_succ, mul_apply]
      refine Finset.sum_nonneg fun l _ => mul_nonneg (ih i l) ?_
      rw [mul_apply]
      exact Finset.sum_nonneg fun l' _ => mul_nonneg (hM0 _ _) (hM0 _ _)
  -- moments of the all-ones vector
  have hpos : ∀ k, 0 < moment M 1 k := by
    intro k
    have h1 : ∀ k, 1 ≤ ((Mᵀ * M) ^ k) ⟨0, h0⟩ ⟨0, h0⟩ := by
      intro k
      induction k with
      | zero => simp
      | succ k ih =>
        rw [pow_succ, mul_apply]
        refine le_trans ?_ (Finset.single_le_sum (f := fun l => ((Mᵀ * M) ^ k) ⟨0, h0⟩ l * (Mᵀ * M) l ⟨0, h0⟩)
          (fun l _ => mul_nonneg (hB0 k _ _) (by simpa using hB0 1 l ⟨0, h0⟩)) (Finset.mem_univ ⟨0, h0⟩))
        have h2 : 1 ≤ (Mᵀ * M) ⟨0, h0⟩ ⟨0, h0⟩ := by
          rw [mul_apply]
          refine le_trans ?_ (Finset.single_le_sum (f := fun l => Mᵀ ⟨0, h0⟩ l * M l ⟨0, h0⟩) (fun l _ => mul_nonneg (hM0 _ _) (hM0 _ _))
            (Finset.mem_univ ⟨0, h0⟩))
          rw [transpose_apply, h00]
          norm_num
        nlinarith
    unfold moment
    simp only [dotProduct, mulVec, Pi.one_apply, one_mul, mul_one]
    have h4 := Finset.single_le_sum (f := fun i => ∑ j, ((Mᵀ * M) ^ k) i j) (fun i _ => Finset.sum_nonneg fun j _ => hB0 k i j) (Finset.mem_univ (⟨0, h0⟩ : Fin n))
    have h3 := Finset.single_le_sum (f := fun j => ((Mᵀ * M) ^ k) ⟨0, h0⟩ j) (fun j _ => hB0 k _ j) (Finset.mem_univ (⟨0, h0⟩ : Fin n))
    exact lt_of_lt_of_le one_pos ((h1 k).trans (h3.trans h4))
  have hex : exactNorm n ^ 2 = moment M 1 39 / moment M 1 38 := by
    unfold exactNorm
    dsimp only
    rw [← hM, Real.sq_sqrt]
    · rw [show (39 : Nat) = 20 + 19 by norm_num, show (38 : Nat) = 19 + 19 by norm_num, moment_mid, moment_mid]
    · rw [← moment_mid, ← moment_mid]
      exact (div_pos (hpos _) (hpos _)).le
  have hex0 : 0 ≤ exactNorm n := Real.sqrt_nonneg _
  obtain ⟨⟨hs0, hs1⟩, hs2⟩ := hs
  constructor
  · refine le_of_sq_le_sq ?_ hs0
    rw [hex, div_le_iff₀ (hpos _), show (39 : Nat) = 19 + 19 + 1 by norm_num, moment_half, show (38 : Nat) = 19 + 19 by norm_num, moment_mid]
    exact hs1 _
  · -- the n-fold power bound holds for every vector
    have hpow : exactNorm n ^ 78 = (moment M 1 39 / moment M 1 38) ^ 39 := by rw [← hex, ← pow_mul]
    obtain ⟨-, -, hr⟩ := seq_ratio (moment M 1) hpos (fun k => moment_sq M 1 k) 39
    have hm0 : moment M 1 0 = n := by
      unfold moment
      simp [dotProduct]
    rw [hm0] at hr
    norm_num only at hr
    -- every vector's stretch is bounded by the 39th moment of the ones
    have hw : ∀ w : Fin n → ℝ, w ⬝ᵥ w = 1 → ((M *ᵥ w) ⬝ᵥ (M *ᵥ w)) ^ 39 ≤ moment M 1 39 := by
      intro w hw
      have m1 : moment M w 1 = (M *ᵥ w) ⬝ᵥ (M *ᵥ w) := by
        have := moment_half M w 0 0
        simpa using this
      have m0 : moment M w 0 = 1 := by unfold moment; simpa using hw
      have hle : moment M w 39 ≤ moment M 1 39 := by
        have hwi : ∀ i, |w i| ≤ 1 := by
          intro i
          have : w i * w i ≤ w ⬝ᵥ w := Finset.single_le_sum (f := fun i => w i * w i) (fun i _ => mul_self_nonneg _) (Finset.mem_univ i)
          rw [hw] at this
          exact abs_le_one_iff_mul_self_le_one.2 this
        unfold moment
        simp only [dotProduct, mulVec, Pi.one_apply, one_mul, mul_one]
        refine Finset.sum_le_sum fun i _ => ?_
        rw [Finset.mul_sum]
        refine Finset.sum_le_sum fun j _ => ?_
        have h1 : |w i * w j| ≤ 1 := by
          rw [abs_mul]
          exact mul_le_one₀ (hwi i) (abs_nonneg _) (hwi j)
        have h2 := (abs_le.1 h1).2
        calc w i * (((Mᵀ * M) ^ 39) i j * w j) = ((Mᵀ * M) ^ 39) i j * (w i * w j) := by ring
          _ ≤ ((Mᵀ * M) ^ 39) i j * 1 := mul_le_mul_of_nonneg_left h2 (hB0 39 i j)
          _ = _ := mul_one _
      refine le_trans ?_ hle
      rw [← m1]
      by_cases hz : moment M w 1 = 0
      · rw [hz]
        simpa using moment_nonneg M w 39
      -- all moments are positive
      have hp : ∀ k, 0 < moment M w k ∧ 0 < moment M w (k + 1) := by
        intro k
        induction k with
        | zero => exact ⟨by rw [m0]; norm_num, lt_of_le_of_ne (moment_nonneg M w 1) (Ne.symm hz)⟩
        | succ k ih =>
          refine ⟨ih.2, lt_of_le_of_ne (moment_nonneg M w _) fun h => ?_⟩
          have := moment_sq M w k
          rw [show k + 2 = k + 1 + 1 by omega, ← h, mul_zero] at this
          have := pow_pos ih.2 2
          linarith
      have := (seq_ratio (moment M w) (fun k => (hp k).1) (fun k => moment_sq M w k) 39).2.1
      rwa [m0, div_one, mul_one] at this
    -- so the 78th root of `n` times the exact value bounds the stretch
    obtain ⟨r, hr0, hr1⟩ : ∃ r : ℝ, 0 ≤ r ∧ r ^ 78 = n * exactNorm n ^ 78 :=
      ⟨(n * exactNorm n ^ 78) ^ ((1 : ℝ) / 78), by positivity, by
        rw [← Real.rpow_natCast, ← Real.rpow_mul (by positivity)]
        norm_num⟩
    have hmem : r ∈ {s | 0 ≤ s ∧ ∀ w, (M *ᵥ w) ⬝ᵥ (M *ᵥ w) ≤ s ^ 2 * (w ⬝ᵥ w)} := by
      refine ⟨hr0, fun w => ?_⟩
      by_cases hz : w ⬝ᵥ w = 0
      · have : w = 0 := dotProduct_self_eq_zero.1 hz
        subst this
        simp
      have hp : 0 < w ⬝ᵥ w := lt_of_le_of_ne (dot_self w) (Ne.symm hz)
      have hq : 0 < √(w ⬝ᵥ w) := Real.sqrt_pos.2 hp
      have hsq : √(w ⬝ᵥ w) * √(w ⬝ᵥ w) = w ⬝ᵥ w := Real.mul_self_sqrt hp.le
      have h1 := hw ((√(w ⬝ᵥ w))⁻¹ • w) (by
        rw [smul_dotProduct, dotProduct_smul, smul_eq_mul, smul_eq_mul, ← hsq]
        simp only [hsq]
        field_simp
        linarith)
      rw [mulVec_smul, smul_dotProduct, dotProduct_smul, smul_eq_mul, smul_eq_mul, ← mul_assoc, ← mul_inv, hsq] at h1
      have h2 : ((w ⬝ᵥ w)⁻¹ * ((M *ᵥ w) ⬝ᵥ (M *ᵥ w))) ^ 39 ≤ (r ^ 2) ^ 39 := by
        rw [← pow_mul, hr1, hpow, mul_comm (n : ℝ)]
        exact h1.trans hr
      have h3 := le_of_pow_le_pow_left₀ (by norm_num) (by positivity) h2
      rw [inv_mul_le_iff₀ hp] at h3
      linarith
    have := pow_le_pow_left₀ hs0 (hs2 hmem) 78
    rwa [hr1] at this

/-- Hence the number returned is at most the spectral norm of the benchmark's matrix, and at least that norm divided by the 78th root of `n`, both
up to the rounding error. -/
theorem C119_norm (t : Target) (checks : Bool) (sqrt : F64 → F64) (hsqrt : ∀ x, IsSqrt 52 x.bits (sqrt x).bits) (n : Nat) (h0 : 0 < n) (h2 : n % 2 = 0)
    (hn : n ≤ 2 ^ 31) (hs : 2 * n * (2 * n) ≤ 2 ^ (8 * t.ptrBytes)) (s : ℝ) (hsn : IsSpectralNorm (benchMatrix ℝ n) s) :
    ∃ x, scalar t checks (fun k => ⟨Flt.fromInt 64 52 k⟩) sqrt n = .ok x ∧ simd t checks (fun k => ⟨Flt.fromInt 64 52 k⟩) sqrt n = .ok x ∧
      (1 - (40 * n + 234) / 2 ^ 53) * realVal 52 x.bits ≤ s ∧ ((1 - (40 * n + 234) / 2 ^ 53) * s) ^ 78 ≤ n * realVal 52 x.bits ^ 78 := by
  obtain ⟨x, e1, e2, -, h3, h4⟩ := C119_accurate t checks sqrt hsqrt n h0 h2 hn hs
  obtain ⟨h5, h6⟩ := C119_exact_norm n h0 s hsn
  refine ⟨x, e1, e2, h4.trans h5, ?_⟩
  have hn' : (n : ℝ) ≤ 2 ^ 31 := by exact_mod_cast hn
  have hd : (0 : ℝ) ≤ 1 - (40 * n + 234) / 2 ^ 53 := by
    rw [sub_nonneg, div_le_one (by positivity)]
    linarith [show (40 : ℝ) * 2 ^ 31 + 234 < 2 ^ 53 by norm_num]
  have h7 := pow_le_pow_left₀ (mul_nonneg hd (Real.sqrt_nonneg _)) h3 78
  rw [mul_pow] at h7 ⊢
  calc _ ≤ (1 - (40 * (n : ℝ) + 234) / 2 ^ 53) ^ 78 * (n * exactNorm n ^ 78) := mul_le_mul_of_nonneg_left h6 (pow_nonneg hd _)
    _ = n * ((1 - (40 * (n : ℝ) + 234) / 2 ^ 53) ^ 78 * exactNorm n ^ 78) := by ring
    _ ≤ _ := mul_le_mul_of_nonneg_left h7 (by positivity)

/-! ### Concrete cases -/

-- the model's square root meets the condition
theorem sqrt_meets (x : F64) : IsSqrt 52 x.bits (⟨Flt.sqrt 52 x.bits⟩ : F64).bits := sqrt_isSqrt fmt64 x.bits

-- the benchmark's default size: the relative error is about 2^-35
example : ∃ x : F64, simd x64Avx true (fun k => ⟨Flt.fromInt 64 52 k⟩) (fun x => ⟨Flt.sqrt 52 x.bits⟩) 5500 = .ok x ∧
    (1 - 1 / 2 ^ 35) * exactNorm 5500 ≤ realVal 52 x.bits ∧ (1 - 1 / 2 ^ 35) * realVal 52 x.bits ≤ exactNorm 5500 := by
  obtain ⟨x, -, h, -, h1, h2⟩ := C119_accurate x64Avx true _ sqrt_meets 5500 (by norm_num) (by norm_num) (by norm_num) (by decide)
  have h0 : 0 ≤ exactNorm 5500 := Real.sqrt_nonneg _
  have h3 : (1 : ℝ) - 1 / 2 ^ 35 ≤ 1 - (40 * (5500 : Nat) + 234) / 2 ^ 53 := by norm_num
  have h4 : (0 : ℝ) ≤ 1 - (40 * (5500 : Nat) + 234) / 2 ^ 53 := by norm_num
  exact ⟨x, h, (mul_le_mul_of_nonneg_right h3 h0).trans h1, (mul_le_mul_of_nonneg_right h3 ((mul_nonneg h4 h0).trans h1)).trans h2⟩

-- a matrix of the benchmark has a spectral norm: the factors that bound it form a closed set
example : ∃ s, IsSpectralNorm (benchMatrix ℝ 2) s := by
  refine ⟨sInf {s | 0 ≤ s ∧ ∀ w, (benchMatrix ℝ 2 *ᵥ w) ⬝ᵥ (benchMatrix ℝ 2 *ᵥ w) ≤ s ^ 2 * (w ⬝ᵥ w)}, ?_⟩
  have hc : IsClosed {s : ℝ | 0 ≤ s ∧ ∀ w, (benchMatrix ℝ 2 *ᵥ w) ⬝ᵥ (benchMatrix ℝ 2 *ᵥ w) ≤ s ^ 2 * (w ⬝ᵥ w)} := by
    refine IsClosed.and ?_ ?_
    · exact isClosed_le continuous_const continuous_id
    · simp only [Set.ofPred_forall]
      exact isClosed_iInter fun w => isClosed_le continuous_const (by fun_prop)
  have hb : BddBelow {s : ℝ | 0 ≤ s ∧ ∀ w, (benchMatrix ℝ 2 *ᵥ w) ⬝ᵥ (benchMatrix ℝ 2 *ᵥ w) ≤ s ^ 2 * (w ⬝ᵥ w)} := ⟨0, fun s hs => hs.1⟩
  have hne : Set.Nonempty {s : ℝ | 0 ≤ s ∧ ∀ w, (benchMatrix ℝ 2 *ᵥ w) ⬝ᵥ (benchMatrix ℝ 2 *ᵥ w) ≤ s ^ 2 * (w ⬝ᵥ w)} := by
    refine ⟨2, by norm_num, fun w => ?_⟩
    simp only [mulVec, dotProduct, Fin.sum_univ_two, benchMatrix]
    norm_num
    nlinarith [mul_self_nonneg (w 0 - w 1), mul_self_nonneg (w 0), mul_self_nonneg (w 1), mul_self_nonneg (w 0 + w 1)]
  exact ⟨hc.csInf_mem hne hb, fun s hs => csInf_le hb hs⟩

-- two elements, all the way
example : (simd x64Avx true (fun n => (⟨Flt.fromInt 64 52 n⟩ : F64)) (fun x => ⟨Flt.sqrt 52 x.bits⟩) 2).toOption.map F64.bits =
    some 0x3ff2ef0098401544#64 := by decide +kernel

end PackedSimd.Props
