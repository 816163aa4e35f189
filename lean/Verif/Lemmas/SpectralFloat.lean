import Verif.Lemmas.F64Near
import Verif.Props.Spectral
import Verif.Spec.Spectral
import Mathlib.LinearAlgebra.Matrix.DotProduct
import Mathlib.Algebra.Order.BigOperators.Group.Finset
import Mathlib.Tactic.FieldSimp
import Mathlib.Algebra.Order.BigOperators.Ring.Finset
import Mathlib.Algebra.Order.Chebyshev
/-
Helper lemmas for C119.
-/
namespace PackedSimd.SpecF
open Spec Ex Ex.Spectral F64N Props

/-- `as f64` of an index. -/
abbrev conv : Nat → F64 := fun k => ⟨Flt.fromInt 64 52 k⟩

theorem two_le_big : (2 : ℝ) ^ 600 < 2 ^ 1023 := pow_lt_pow_right₀ (by norm_num) (by norm_num)
theorem small_le : (1 : ℝ) / 2 ^ 1022 ≤ 1 / 2 ^ 600 :=
  one_div_le_one_div_of_le (by positivity) (pow_le_pow_right₀ (by norm_num) (by norm_num))

/-- Numbers between `2^-500` and `2^500` stay in the normal range. -/
theorem in_range {v : ℝ} {k : Nat} (hk : k ≤ 2 ^ 52) (h1 : v ≤ 2 ^ 500) (hv : 0 ≤ v) : v * ρ ^ k < 2 ^ 1023 := by
  have h2 := ρ_pow_two hk
  have h3 : v * ρ ^ k ≤ 2 ^ 500 * 2 := mul_le_mul h1 h2 (pow_pos ρ_pos k).le (by positivity)
  refine lt_of_le_of_lt (h3.trans ?_) two_le_big
  rw [← pow_succ]
  exact pow_le_pow_right₀ (by norm_num) (by norm_num)

theorem not_small {v : ℝ} {k : Nat} (hk : k ≤ 2 ^ 52) (h1 : 1 / 2 ^ 500 ≤ v) : 1 / 2 ^ 1022 * ρ ^ k ≤ v := by
  have h2 := ρ_pow_two hk
  have h3 : 1 / 2 ^ 1022 * ρ ^ k ≤ 1 / 2 ^ 600 * 2 := mul_le_mul small_le h2 (pow_pos ρ_pos k).le (by positivity)
  refine h3.trans (le_trans ?_ h1)
  rw [div_mul_eq_mul_div, div_le_div_iff₀ (by positivity) (by positivity), one_mul, one_mul, ← pow_succ']
  exact pow_le_pow_right₀ (by norm_num) (by norm_num)

theorem term_bounds {F : ℝ} {b : Nat} (h1 : 1 / 2 ^ 64 ≤ F) (h2 : F ≤ 2 ^ 64) (hb : 1 ≤ b) (hb' : b < 2 ^ 64) :
    1 / 2 ^ 500 ≤ F / b ∧ F / b ≤ 2 ^ 64 := by
  have b1 : (1 : ℝ) ≤ b := by exact_mod_cast hb
  have b2 : (b : ℝ) ≤ 2 ^ 64 := by exact_mod_cast hb'.le
  constructor
  · rw [le_div_iff₀ (by linarith)]
    refine le_trans ?_ h1
    calc (1 : ℝ) / 2 ^ 500 * b ≤ 1 / 2 ^ 500 * 2 ^ 64 := mul_le_mul_of_nonneg_left b2 (by positivity)
      _ ≤ 1 / 2 ^ 64 := by
        rw [div_mul_eq_mul_div, div_le_div_iff₀ (by positivity) (by positivity), one_mul, one_mul, ← pow_add]
        exact pow_le_pow_right₀ (by norm_num) (by norm_num)
  · rw [div_le_iff₀ (by linarith)]
    exact h2.trans (le_mul_of_one_le_right (by positivity) b1)

theorem sum_bound (g : Nat → ℝ) (c : ℝ) (q : Nat) (h : ∀ k, k < q → g k ≤ c) : ∑ k ∈ Finset.range q, g k ≤ q * c := by
  have := Finset.sum_le_card_nsmul (Finset.range q) g c (fun k hk => h k (Finset.mem_range.1 hk))
  simpa using this

theorem nat_pow_bound {q : Nat} {e : Nat} (hq : q ≤ 2 ^ 32) (he : e ≤ 400) : (q : ℝ) * 2 ^ e ≤ 2 ^ 500 := by
  have h1 : (q : ℝ) ≤ 2 ^ 32 := by exact_mod_cast hq
  calc (q : ℝ) * 2 ^ e ≤ 2 ^ 32 * 2 ^ 400 := mul_le_mul h1 (pow_le_pow_right₀ (by norm_num) he) (by positivity) (by positivity)
    _ ≤ 2 ^ 500 := by rw [← pow_add]; exact pow_le_pow_right₀ (by norm_num) (by norm_num)

/-- A sum of positive terms, accumulated from zero. -/
theorem near_sum_step {k q : Nat} {s x : F64} {g : Nat → ℝ} (hs : Near (k + q) s (∑ j ∈ Finset.range q, g j)) (hx : Near k x (g q))
    (hk : k + q ≤ 2 ^ 52) (hg : ∀ j, j ≤ q → g j ≤ 2 ^ 400) (hq : q < 2 ^ 32) : Near (k + (q + 1)) (s + x) (∑ j ∈ Finset.range (q + 1), g j) := by
  have hb := sum_bound g (2 ^ 400) (q + 1) (fun j hj => hg j (by omega))
  rw [Finset.sum_range_succ] at hb ⊢
  have hx' := hx.mono (show k ≤ k + q by omega)
  exact near_add hs hx' (in_range hk (hb.trans (nat_pow_bound (by omega) (le_refl _))) (add_nonneg hs.2.1 hx.2.1))

theorem row_near (a : Nat → R F64) (b : Nat → Nat) (v : List F64) (F : Nat → ℝ) (k : Nat) (hv : ∀ j (h : j < v.length), Near k v[j] (F j))
    (ha : ∀ j, j < v.length → a j = .ok (conv (b j))) (hb : ∀ j, j < v.length → 1 ≤ b j ∧ b j < 2 ^ 64)
    (hF : ∀ j, j < v.length → 1 / 2 ^ 64 ≤ F j ∧ F j ≤ 2 ^ 64) (hl : v.length ≤ 2 ^ 31) (hk : k ≤ 2 ^ 51) : ∀ q, 2 * q ≤ v.length →
    ∃ s, (List.range q).foldlM (rowStep a v) (0, 0) = .ok s ∧ Near (k + 2 + q) s.1 (∑ j ∈ Finset.range q, F (2 * j) / b (2 * j)) ∧
      Near (k + 2 + q) s.2 (∑ j ∈ Finset.range q, F (2 * j + 1) / b (2 * j + 1))
  | 0, _ => ⟨(0, 0), rfl, by simpa using near_zero, by simpa using near_zero⟩
  | q + 1, h => by
    obtain ⟨s, hs, h1, h2⟩ := row_near a b v F k hv ha hb hF hl hk q (by omega)
    have term : ∀ j (hj : j < v.length), Near (k + 2) (v[j] / conv (b j)) (F j / b j) := by
      intro j hj
      have hbj := hb j hj
      have hFj := hF j hj
      obtain ⟨t1, t2⟩ := term_bounds hFj.1 hFj.2 hbj.1 hbj.2
      have hpos : (0 : ℝ) < b j := by exact_mod_cast hbj.1
      exact near_div (hv j hj) (near_ofNat hbj.2) hpos
        (in_range (by omega) (t2.trans (pow_le_pow_right₀ (by norm_num) (by norm_num))) (le_trans (by positivity) t1)) (not_small (by omega) t1)
    have tb : ∀ j, j < v.length → F j / b j ≤ 2 ^ 400 := fun j hj =>
      (term_bounds (hF j hj).1 (hF j hj).2 (hb j hj).1 (hb j hj).2).2.trans (pow_le_pow_right₀ (by norm_num) (by norm_num))
    refine ⟨(s.1 + v[2 * q] / conv (b (2 * q)), s.2 + v[2 * q + 1] / conv (b (2 * q + 1))), ?_, ?_, ?_⟩
    · rw [List.range_succ, List.foldlM_append, hs, R_ok_bind, List.foldlM_cons]
      unfold rowStep
      rw [lget_lt _ (show 2 * q < v.length by omega), lget_lt _ (show 2 * q + 1 < v.length by omega), ha _ (by omega), ha _ (by omega)]
      rfl
    · exact near_sum_step (g := fun j => F (2 * j) / b (2 * j)) h1 (term _ (by omega)) (by omega) (fun j hj => tb _ (by omega)) (by omega)
    · exact near_sum_step (g := fun j => F (2 * j + 1) / b (2 * j + 1)) h2 (term _ (by omega)) (by omega) (fun j hj => tb _ (by omega)) (by omega)

/-- The list `v` is the vector `f` up to `k` roundings. -/
def NearL {n : Nat} (k : Nat) (v : List F64) (f : Fin n → ℝ) : Prop := ∃ x : Fin n → F64, v = List.ofFn x ∧ ∀ i, Near k (x i) (f i)

/-- Vectors whose first component is at least one, and whose components lie within the range met in `m` products. -/
def Good {n : Nat} (m : Nat) (f : Fin n → ℝ) : Prop :=
  (∀ h : 0 < n, 1 ≤ f ⟨0, h⟩) ∧ ∀ i, 1 / (4 * (n : ℝ) ^ 2) ≤ f i ∧ f i ≤ 3 ^ m

theorem Good.range {n m : Nat} {f : Fin n → ℝ} (h : Good m f) (hn : n ≤ 2 ^ 31) (hm : m ≤ 40) (i : Fin n) : 1 / 2 ^ 64 ≤ f i ∧ f i ≤ 2 ^ 64 := by
  obtain ⟨h1, h2⟩ := h.2 i
  have n0 : (1 : ℝ) ≤ n := by exact_mod_cast (show 1 ≤ n from i.pos)
  have n1 : (n : ℝ) ≤ 2 ^ 31 := by exact_mod_cast hn
  constructor
  · refine le_trans (one_div_le_one_div_of_le (by positivity) ?_) h1
    have : (n : ℝ) ^ 2 ≤ (2 ^ 31) ^ 2 := pow_le_pow_left₀ (by linarith) n1 2
    linarith [show (4 : ℝ) * (2 ^ 31) ^ 2 = 2 ^ 64 by norm_num]
  · refine h2.trans ((pow_le_pow_right₀ (by norm_num) hm).trans ?_)
    norm_num

/-- One matrix-vector product. -/
theorem mult_near (t : Target) (checks : Bool) {n : Nat} (h2 : n % 2 = 0) (hn : n ≤ 2 ^ 31) (hw : n < 2 ^ (8 * t.ptrBytes)) (a : Nat → Nat → R F64)
    (M : Matrix (Fin n) (Fin n) ℝ) (b : Nat → Nat → Nat) (ha : ∀ i j, i < n → j < n → a i j = .ok (conv (b i j)))
    (hM : ∀ i j : Fin n, M i j = 1 / (b i j : ℝ)) (hb : ∀ i j, i < n → j < n → 1 ≤ b i j ∧ b i j < 2 ^ 64) {k m : Nat} (hk : k ≤ 2 ^ 51) (hm : m ≤ 40)
    (f : Fin n → ℝ) (hf : Good m f) (v out : List F64) (hv : NearL k v f) (ho : out.length = n) :
    ∃ r, multScalar t checks a 0 v out = .ok r ∧ NearL (k + (n / 2 + 3)) r (M.mulVec f) := by
  obtain ⟨x, rfl, hx⟩ := hv
  have hlen : (List.ofFn x).length = n := List.length_ofFn
  let F : Nat → ℝ := fun j => if h : j < n then f ⟨j, h⟩ else 0
  have hFr : ∀ j, j < n → 1 / 2 ^ 64 ≤ F j ∧ F j ≤ 2 ^ 64 := by
    intro j hj
    simp only [F, hj, dif_pos]
    exact hf.range hn hm ⟨j, hj⟩
  have row : ∀ i, i < n → ∃ s, (do
      let i ← usize t checks (i + 0)
      let sum ← (Tri.chunks 2 (List.ofFn x)).zipIdx.foldlM (rowStepScalar t checks a i) (0, 0)
      return sum.1 + sum.2 : R F64) = .ok s ∧ Near (k + (n / 2 + 3)) s (∑ j ∈ Finset.range n, F j / b i j) := by
    intro i hi
    obtain ⟨s, hs, s1, s2⟩ := row_near (a i) (b i) (List.ofFn x) F k
      (fun j h => by
        have : j < n := by rw [hlen] at h; exact h
        simp only [F, this, dif_pos, List.getElem_ofFn]
        exact hx _)
      (fun j h => ha i j hi (by rw [hlen] at h; exact h)) (fun j h => hb i j hi (by rw [hlen] at h; exact h))
      (fun j h => hFr j (by rw [hlen] at h; exact h)) (by rw [hlen]; exact hn) hk (n / 2) (by omega)
    refine ⟨s.1 + s.2, ?_, ?_⟩
    · rw [usize_ok (show i + 0 < _ by omega), R_ok_bind, row_scalar t checks _ _ _ (by rw [hlen]; exact h2) (by rw [hlen]; exact hw), Nat.add_zero, hlen, hs]
      rfl
    · have e := pair_sum (fun j => F j / (b i j : ℝ)) (n / 2)
      rw [show 2 * (n / 2) = n by omega] at e
      have hbnd : ∑ j ∈ Finset.range n, F j / b i j ≤ n * 2 ^ 64 := sum_bound _ _ _ fun j hj =>
        (term_bounds (hFr j hj).1 (hFr j hj).2 (hb i j hi hj).1 (hb i j hi hj).2).2
      have := near_add s1 s2 (in_range (by omega) (by
        rw [e]
        exact hbnd.trans (nat_pow_bound (by omega) (by norm_num))) (add_nonneg s1.2.1 s2.2.1))
      rw [e] at this
      exact this.mono (by omega)
  choose! g hg1 hg2 using row
  refine ⟨List.ofFn (fun i : Fin n => g i), ?_, ⟨_, rfl, fun i => ?_⟩⟩
  · unfold multScalar
    rw [ho, Math.mapM_ok _ g _ (fun i hi => hg1 i (by simpa using hi))]
    congr 1
    apply List.ext_getElem <;> simp
  · have := hg2 i i.isLt
    rw [Finset.sum_range] at this
    convert this using 1
    simp only [Matrix.mulVec, dotProduct]
    refine Finset.sum_congr rfl fun j _ => ?_
    rw [hM]
    simp only [F, j.isLt, dif_pos]
    ring

/-! ### The matrix -/

/-- The denominators of the matrix. -/
def den (i j : Nat) : Nat := (i + j) * (i + j + 1) / 2 + i + 1

theorem den_lt {n i j : Nat} (hi : i < n) (hj : j < n) : den i j ≤ 4 * n ^ 2 := by
  unfold den
  obtain ⟨m, rfl⟩ : ∃ m, n = m + 1 := ⟨n - 1, by omega⟩
  have h3 : (i + j) * (i + j + 1) ≤ (2 * m) * (2 * m + 1) := Nat.mul_le_mul (by omega) (by omega)
  have h4 : (i + j) * (i + j + 1) / 2 ≤ 2 * m * (2 * m + 1) := Nat.le_trans (Nat.div_le_self _ _) h3
  have h5 : 4 * (m + 1) ^ 2 = 2 * m * (2 * m + 1) + (6 * m + 4) := by ring
  omega

theorem den_ok {n i j : Nat} (hn : n ≤ 2 ^ 31) (hi : i < n) (hj : j < n) : 1 ≤ den i j ∧ den i j < 2 ^ 64 := by
  refine ⟨by unfold den; omega, ?_⟩
  have h1 : (i + j) * (i + j + 1) ≤ 2 ^ 32 * 2 ^ 32 := Nat.mul_le_mul (by omega) (by omega)
  have h2 : (2 : Nat) ^ 32 * 2 ^ 32 = 2 ^ 64 := by norm_num
  rw [h2] at h1
  unfold den
  generalize (i + j) * (i + j + 1) = p at h1 ⊢
  omega

/-- The sums of reciprocals of triangular numbers plus one stay below three. -/
theorem recip_sum : ∀ n : Nat, 0 < n → ∑ j ∈ Finset.range n, 1 / (((j * (j + 1) / 2 + 1 : Nat)) : ℝ) ≤ 3 - 2 / n
  | 1, _ => by norm_num
  | n + 2, _ => by
    rw [Finset.sum_range_succ]
    have ih := recip_sum (n + 1) (by omega)
    have ht : ((n + 1) * (n + 1 + 1) / 2 : Nat) * 2 = (n + 1) * (n + 2) := Nat.div_mul_cancel (Nat.even_mul_succ_self (n + 1)).two_dvd
    have hc : (((n + 1) * (n + 1 + 1) / 2 + 1 : Nat) : ℝ) = (n + 1) * (n + 2) / 2 + 1 := by
      have : ((((n + 1) * (n + 1 + 1) / 2 : Nat)) : ℝ) * 2 = (n + 1) * (n + 2) := by exact_mod_cast ht
      push_cast at this ⊢
      linarith
    rw [hc]
    have h0 : (0 : ℝ) ≤ n := by positivity
    have h1 : 1 / (((n : ℝ) + 1) * (n + 2) / 2 + 1) ≤ 2 / (n + 1) - 2 / (n + 2) := by
      have e : 2 / ((n : ℝ) + 1) - 2 / (n + 2) = 1 / (((n : ℝ) + 1) * (n + 2) / 2) := by
        field_simp
        ring
      rw [e]
      exact one_div_le_one_div_of_le (by positivity) (by linarith)
    push_cast at ih ⊢
    linarith

theorem den_ge_row (i j : Nat) : j * (j + 1) / 2 + 1 ≤ den i j := by
  unfold den
  have h : j * (j + 1) ≤ (i + j) * (i + j + 1) := Nat.mul_le_mul (by omega) (by omega)
  have := Nat.div_le_div_right (c := 2) h
  omega

theorem den_ge_col (i j : Nat) : j * (j + 1) / 2 + 1 ≤ den j i := by
  unfold den
  have h : j * (j + 1) ≤ (j + i) * (j + i + 1) := Nat.mul_le_mul (by omega) (by omega)
  have := Nat.div_le_div_right (c := 2) h
  omega

/-- Products with a matrix of reciprocals of such denominators keep vectors good. -/
theorem good_step {n m : Nat} (M : Matrix (Fin n) (Fin n) ℝ) (b : Nat → Nat → Nat) (hM : ∀ i j : Fin n, M i j = 1 / (b i j : ℝ))
    (h00 : b 0 0 = 1) (hbn : ∀ i j, i < n → j < n → b i j ≤ 4 * n ^ 2) (hb : ∀ i j, j * (j + 1) / 2 + 1 ≤ b i j) (f : Fin n → ℝ) (hf : Good m f) :
    Good (m + 1) (M.mulVec f) := by
  have hpos : ∀ i, 0 ≤ f i := fun i => le_trans (by positivity) (hf.2 i).1
  have hM0 : ∀ i j : Fin n, 0 ≤ M i j := fun i j => by rw [hM]; positivity
  have hfirst : ∀ (h : 0 < n) (i : Fin n), M i ⟨0, h⟩ * f ⟨0, h⟩ ≤ M.mulVec f i := by
    intro h i
    simp only [Matrix.mulVec, dotProduct]
    exact Finset.single_le_sum (f := fun j => M i j * f j) (fun j _ => mul_nonneg (hM0 i j) (hpos j)) (Finset.mem_univ _)
  constructor
  · intro h
    refine le_trans ?_ (hfirst h ⟨0, h⟩)
    rw [hM]
    simp only [h00, Nat.cast_one, div_one, one_mul]
    exact hf.1 h
  · intro i
    have hn : 0 < n := i.pos
    constructor
    · refine le_trans ?_ (hfirst hn i)
      refine le_trans ?_ (le_mul_of_one_le_right (hM0 _ _) (hf.1 hn))
      rw [hM]
      have h1 : (1 : ℝ) ≤ b i 0 := by exact_mod_cast (hb i 0)
      refine one_div_le_one_div_of_le (by linarith) ?_
      exact_mod_cast hbn i 0 i.isLt hn
    · have h1 : M.mulVec f i ≤ ∑ j : Fin n, M i j * 3 ^ m := by
        simp only [Matrix.mulVec, dotProduct]
        exact Finset.sum_le_sum fun j _ => mul_le_mul_of_nonneg_left (hf.2 j).2 (hM0 i j)
      have h2 : ∑ j : Fin n, M i j ≤ 3 := by
        have h3 : ∑ j : Fin n, M i j ≤ ∑ j : Fin n, 1 / (((j.val * (j.val + 1) / 2 + 1 : Nat)) : ℝ) := by
          refine Finset.sum_le_sum fun j _ => ?_
          rw [hM]
          refine one_div_le_one_div_of_le (by positivity) ?_
          exact_mod_cast hb i j
        rw [← Finset.sum_range (fun j => 1 / (((j * (j + 1) / 2 + 1 : Nat)) : ℝ))] at h3
        have h4 := recip_sum n hn
        have h5 : (0 : ℝ) ≤ 2 / n := by positivity
        linarith
      refine h1.trans ?_
      rw [← Finset.sum_mul, pow_succ, mul_comm]
      exact mul_le_mul_of_nonneg_left h2 (by positivity)

/-! ### The final quotient -/

theorem near_dot {n k m : Nat} (hn : n ≤ 2 ^ 31) (hk : k + m + 1 + n ≤ 2 ^ 52) {x y : List F64} {f g : Fin n → ℝ} (hx : NearL k x f) (hy : NearL m y g)
    (hf : ∀ i, 1 / 2 ^ 64 ≤ f i ∧ f i ≤ 2 ^ 64) (hg : ∀ i, 1 / 2 ^ 64 ≤ g i ∧ g i ≤ 2 ^ 64) : Near (k + m + 1 + n) (dot x y) (f ⬝ᵥ g) := by
  obtain ⟨x, rfl, hx⟩ := hx
  obtain ⟨y, rfl, hy⟩ := hy
  have hprod : ∀ i, 1 / 2 ^ 500 ≤ f i * g i ∧ f i * g i ≤ 2 ^ 400 := by
    intro i
    constructor
    · calc (1 : ℝ) / 2 ^ 500 ≤ 1 / 2 ^ 64 * (1 / 2 ^ 64) := by
            rw [div_mul_div_comm, one_mul, ← pow_add]
            exact one_div_le_one_div_of_le (by positivity) (pow_le_pow_right₀ (by norm_num) (by norm_num))
        _ ≤ _ := mul_le_mul (hf i).1 (hg i).1 (by positivity) (le_trans (by positivity) (hf i).1)
    · calc f i * g i ≤ 2 ^ 64 * 2 ^ 64 := mul_le_mul (hf i).2 (hg i).2 (le_trans (by positivity) (hg i).1) (by positivity)
        _ ≤ 2 ^ 400 := by rw [← pow_add]; exact pow_le_pow_right₀ (by norm_num) (by norm_num)
  have hterm : ∀ i, Near (k + m + 1) (x i * y i) (f i * g i) := fun i => near_mul (hx i) (hy i)
    (in_range (by omega) ((hprod i).2.trans (pow_le_pow_right₀ (by norm_num) (by norm_num))) (le_trans (by positivity) (hprod i).1))
    (not_small (by omega) (hprod i).1)
  let X : Nat → F64 := fun j => if h : j < n then x ⟨j, h⟩ * y ⟨j, h⟩ else 0
  let G : Nat → ℝ := fun j => if h : j < n then f ⟨j, h⟩ * g ⟨j, h⟩ else 0
  have hl : ((List.ofFn x).zip (List.ofFn y)).map (fun p => p.1 * p.2) = (List.range n).map X := by
    apply List.ext_getElem
    · simp
    · intro i h1 h2
      have : i < n := by simpa using h2
      simp [X, this]
  have hfold : ∀ q, q ≤ n → Near (k + m + 1 + q) (((List.range q).map X).foldl (· + ·) 0) (∑ j ∈ Finset.range q, G j) := by
    intro q
    induction q with
    | zero => intro _; simpa using near_zero
    | succ q ih =>
      intro hq
      rw [List.range_succ, List.map_append, List.foldl_append]
      refine near_sum_step (ih (by omega)) ?_ (by omega) (fun j hj => ?_) (by omega)
      · have : q < n := by omega
        simp only [X, G, this, dif_pos]
        exact hterm _
      · have : j < n := by omega
        simp only [G, this, dif_pos]
        exact (hprod _).2
  have := hfold n le_rfl
  unfold dot
  rw [hl]
  convert this using 1
  rw [Finset.sum_range]
  unfold dotProduct
  exact Finset.sum_congr rfl fun j _ => by simp [G]

theorem dot_range {n : Nat} (hn : n ≤ 2 ^ 31) (h0 : 0 < n) {f g : Fin n → ℝ} (hf : ∀ i, 1 / 2 ^ 64 ≤ f i ∧ f i ≤ 2 ^ 64)
    (hg : ∀ i, 1 / 2 ^ 64 ≤ g i ∧ g i ≤ 2 ^ 64) (hf0 : 1 ≤ f ⟨0, h0⟩) (hg0 : 1 ≤ g ⟨0, h0⟩) : 1 ≤ f ⬝ᵥ g ∧ f ⬝ᵥ g ≤ 2 ^ 160 := by
  have fp : ∀ i, 0 ≤ f i := fun i => le_trans (by positivity) (hf i).1
  have gp : ∀ i, 0 ≤ g i := fun i => le_trans (by positivity) (hg i).1
  constructor
  · refine le_trans ?_ (Finset.single_le_sum (f := fun i => f i * g i) (fun i _ => mul_nonneg (fp i) (gp i)) (Finset.mem_univ ⟨0, h0⟩))
    nlinarith
  · have h : f ⬝ᵥ g ≤ ∑ _i : Fin n, (2 : ℝ) ^ 128 := Finset.sum_le_sum fun i _ =>
      (mul_le_mul (hf i).2 (hg i).2 (gp i) (by positivity)).trans (by norm_num)
    rw [Finset.sum_const, Finset.card_univ, Fintype.card_fin, nsmul_eq_mul] at h
    have h1 : (n : ℝ) ≤ 2 ^ 31 := by exact_mod_cast hn
    refine h.trans ((mul_le_mul_of_nonneg_right h1 (by positivity)).trans ?_)
    norm_num

/-! ### Moments of a positive semidefinite matrix -/

open Matrix in
theorem cs {n : Nat} (x y : Fin n → ℝ) : (x ⬝ᵥ y) ^ 2 ≤ (x ⬝ᵥ x) * (y ⬝ᵥ y) := by
  have := Finset.sum_mul_sq_le_sq_mul_sq Finset.univ x y
  simpa [dotProduct, sq] using this

section moments
open Matrix hiding scalar
variable {n : Nat} (M : Matrix (Fin n) (Fin n) ℝ) (w : Fin n → ℝ)

/-- `w · (MᵀM)^k w`. -/
def moment (k : Nat) : ℝ := w ⬝ᵥ (((Mᵀ * M) ^ k) *ᵥ w)

theorem moment_even (j : Nat) : moment M w (2 * j) = (((Mᵀ * M) ^ j) *ᵥ w) ⬝ᵥ (((Mᵀ * M) ^ j) *ᵥ w) := by
  unfold moment
  have hs : ((Mᵀ * M) ^ j)ᵀ = (Mᵀ * M) ^ j := by rw [transpose_pow, transpose_mul, transpose_transpose]
  rw [two_mul, pow_add, ← mulVec_mulVec, dotProduct_mulVec, ← mulVec_transpose, hs]

theorem moment_mid (i j : Nat) : moment M w (i + j) = (((Mᵀ * M) ^ i) *ᵥ w) ⬝ᵥ (((Mᵀ * M) ^ j) *ᵥ w) := by
  unfold moment
  have hs : ((Mᵀ * M) ^ i)ᵀ = (Mᵀ * M) ^ i := by rw [transpose_pow, transpose_mul, transpose_transpose]
  rw [pow_add, ← mulVec_mulVec, dotProduct_mulVec, ← mulVec_transpose, hs]

theorem moment_half (i j : Nat) : moment M w (i + j + 1) = (M *ᵥ (((Mᵀ * M) ^ i) *ᵥ w)) ⬝ᵥ (M *ᵥ (((Mᵀ * M) ^ j) *ᵥ w)) := by
  rw [add_assoc, moment_mid, pow_succ', ← mulVec_mulVec, ← mulVec_mulVec, dotProduct_mulVec, ← mulVec_transpose, transpose_transpose]

theorem dot_self (x : Fin n → ℝ) : 0 ≤ x ⬝ᵥ x := Finset.sum_nonneg fun i _ => mul_self_nonneg (x i)

theorem moment_nonneg (k : Nat) : 0 ≤ moment M w k := by
  rcases Nat.even_or_odd' k with ⟨j, rfl | rfl⟩
  · rw [two_mul, moment_mid]; exact dot_self _
  · rw [two_mul, moment_half]; exact dot_self _

/-- Moments are log-convex. -/
theorem moment_sq (k : Nat) : moment M w (k + 1) ^ 2 ≤ moment M w k * moment M w (k + 2) := by
  rcases Nat.even_or_odd' k with ⟨j, rfl | rfl⟩
  · rw [show 2 * j + 1 = j + (j + 1) by omega, show 2 * j + 2 = (j + 1) + (j + 1) by omega, show 2 * j = j + j by omega, moment_mid, moment_mid, moment_mid]
    exact cs _ _
  · rw [show 2 * j + 1 + 1 = j + (j + 1) + 1 by omega, show 2 * j + 1 + 2 = (j + 1) + (j + 1) + 1 by omega, show 2 * j + 1 = j + j + 1 by omega,
      moment_half, moment_half, moment_half]
    exact cs _ _

end moments

/-- A log-convex sequence of non-negative numbers lies above its first ratio's powers and below its last one's. -/
theorem seq_ratio (m : Nat → ℝ) (h0 : ∀ k, 0 < m k) (hc : ∀ k, m (k + 1) ^ 2 ≤ m k * m (k + 2)) (k : Nat) :
    (∀ j, m 1 / m 0 ≤ m (j + 1) / m j) ∧ (m 1 / m 0) ^ k * m 0 ≤ m k ∧ m k ≤ (m k / m (k - 1)) ^ k * m 0 := by
  have step : ∀ j, m (j + 1) / m j ≤ m (j + 2) / m (j + 1) := by
    intro j
    rw [div_le_div_iff₀ (h0 _) (h0 _)]
    nlinarith [hc j]
  have mono : ∀ i d, m (i + 1) / m i ≤ m (i + d + 1) / m (i + d) := by
    intro i d
    induction d with
    | zero => exact le_rfl
    | succ d ih => exact ih.trans (step (i + d))
  refine ⟨fun j => by simpa using mono 0 j, ?_, ?_⟩
  · induction k with
    | zero => simp
    | succ k ih =>
      have h := mono 0 k
      simp only [Nat.zero_add] at h
      have h1 : m (k + 1) = m (k + 1) / m k * m k := by rw [div_mul_cancel₀ _ (h0 k).ne']
      rw [h1, pow_succ', mul_assoc]
      exact mul_le_mul h ih (mul_nonneg (pow_nonneg (div_pos (h0 _) (h0 _)).le _) (h0 _).le) (div_pos (h0 _) (h0 _)).le
  · cases k with
    | zero => simp
    | succ k =>
      rw [Nat.add_sub_cancel]
      have : ∀ q, q ≤ k + 1 → m q ≤ (m (k + 1) / m k) ^ q * m 0 := by
        intro q
        induction q with
        | zero => intro _; simp
        | succ q ih =>
          intro hq
          have h1 : m (q + 1) = m (q + 1) / m q * m q := by rw [div_mul_cancel₀ _ (h0 q).ne']
          have h := mono q (k - q)
          rw [show q + (k - q) = k by omega] at h
          rw [h1, pow_succ', mul_assoc]
          exact mul_le_mul h (ih (by omega)) (h0 _).le (div_pos (h0 _) (h0 _)).le
      exact this (k + 1) le_rfl

end PackedSimd.SpecF
