import Verif.Lemmas.Spectral
import Verif.Lemmas.FloatLaws
import Verif.Props.MaskReduce
import Mathlib.Data.Matrix.Mul
import Mathlib.Data.Matrix.Basic
import Mathlib.Algebra.Field.Basic
import Mathlib.Algebra.Field.Rat
import Mathlib.Algebra.BigOperators.Fin
import Mathlib.Tactic.Ring
/-
C67, C68: the spectral norm example.
-/
namespace PackedSimd.Props
open PackedSimd Ex Ex.Spectral

/-! ## C67: the vectorised program is the scalar program -/

/-- For every arithmetic in which adding zero to a sum built up from zero changes nothing, every target, every conversion and square-root
function, with and without overflow checks, and every `n: usize`: the vectorised program returns exactly what the scalar one returns (and
panics exactly when it does). -/
theorem C67_same {α : Type} [Zero α] [One α] [Add α] [Mul α] [Div α] (hz : ∀ l : List α, 0 + l.foldl (· + ·) 0 = l.foldl (· + ·) 0)
    (t : Target) (checks : Bool) (ofNat : Nat → α) (sqrt : α → α) (n : Nat) (hn : n < 2 ^ (8 * t.ptrBytes)) :
    simd t checks ofNat sqrt n = scalar t checks ofNat sqrt n := by
  unfold simd scalar
  apply spectralNorm_congr
  · intro v out r _ ho h; rw [multScalar_length t checks _ _ _ _ _ h, ho]
  · intro v out r _ ho h; rw [multScalar_length t checks _ _ _ _ _ h, ho]
  · intro h2 v out hv ho; exact mult_eq t checks hz _ v out (by omega) (by omega) (by omega)
  · intro h2 v out hv ho; exact mult_eq t checks hz _ v out (by omega) (by omega) (by omega)

theorem F64_fold (l : List F64) : (l.foldl (· + ·) 0).bits = (l.map F64.bits).foldl (Flt.add 52) 0 := by
  have : ∀ (l : List F64) (s : F64), (l.foldl (· + ·) s).bits = (l.map F64.bits).foldl (Flt.add 52) s.bits := by
    intro l
    induction l with
    | nil => intro s; rfl
    | cons x l ih => intro s; exact ih (s + x)
  exact this l 0

theorem F64_hz (l : List F64) : 0 + l.foldl (· + ·) 0 = l.foldl (· + ·) 0 := by
  have : (0 + l.foldl (· + ·) 0 : F64).bits = (l.foldl (· + ·) 0 : F64).bits := by
    show Flt.add 52 0 (l.foldl (· + ·) 0 : F64).bits = _
    rw [F64_fold]
    exact fold_zero_add (by constructor <;> decide) _
  generalize (0 + l.foldl (· + ·) 0 : F64) = a at this ⊢
  generalize (l.foldl (· + ·) 0 : F64) = b at this ⊢
  cases a; cases b; cases this; rfl

/-- In IEEE `f64` arithmetic the two programs return the same bits, on every target and for every `n: usize`. -/
theorem C67_float (t : Target) (checks : Bool) (ofNat : Nat → F64) (sqrt : F64 → F64) (n : Nat) (hn : n < 2 ^ (8 * t.ptrBytes)) :
    simd t checks ofNat sqrt n = scalar t checks ofNat sqrt n :=
  C67_same F64_hz t checks ofNat sqrt n hn

/-! ## C68: what it computes in exact arithmetic -/

/-- The matrix of the benchmark: entry `(i, j)` is the reciprocal of `(i + j) (i + j + 1) / 2 + i + 1`. -/
def benchMatrix (K : Type) [Field K] (n : Nat) : Matrix (Fin n) (Fin n) K :=
  fun i j => 1 / ((((i.val + j.val) * (i.val + j.val + 1) / 2 + i.val + 1 : Nat)) : K)

section exact
open Matrix hiding scalar
variable {K : Type} [Field K] (t : Target) (checks : Bool)

theorem A_ok {α : Type} (ofNat : Nat → α) {n i j : Nat} (hi : i < n) (hj : j < n) (hn : 2 * n * (2 * n) ≤ 2 ^ (8 * t.ptrBytes)) :
    A t checks ofNat i j = .ok (ofNat ((i + j) * (i + j + 1) / 2 + i + 1)) := by
  have h1 : (i + j) * (i + j + 1) < 2 ^ (8 * t.ptrBytes) := by
    refine Nat.lt_of_lt_of_le ?_ hn
    exact Nat.mul_lt_mul'' (by omega) (by omega)
  have h2 : (i + j) * (i + j + 1) / 2 + i + 1 < 2 ^ (8 * t.ptrBytes) := by
    refine Nat.lt_of_lt_of_le ?_ hn
    have h3 : (i + j) * (i + j + 1) ≤ (2 * n - 2) * (2 * n - 1) := Nat.mul_le_mul (by omega) (by omega)
    obtain ⟨m, rfl⟩ : ∃ m, n = m + 1 := ⟨n - 1, by omega⟩
    have e1 : 2 * (m + 1) - 2 = 2 * m := by omega
    have e2 : 2 * (m + 1) - 1 = 2 * m + 1 := by omega
    rw [e1, e2] at h3
    have h4 : (i + j) * (i + j + 1) / 2 ≤ 2 * m * (2 * m + 1) := Nat.le_trans (Nat.div_le_self _ _) h3
    have h5 : 2 * (m + 1) * (2 * (m + 1)) = 2 * m * (2 * m + 1) + (6 * m + 4) := by ring
    omega
  have h3 : i + j + 1 ≤ 2 ^ (8 * t.ptrBytes) := by
    refine Nat.le_trans ?_ hn
    have : 2 * n * 1 ≤ 2 * n * (2 * n) := Nat.mul_le_mul_left _ (by omega)
    omega
  unfold A
  rw [usize_ok (show i + j < _ by omega)]
  simp only [R_ok_bind]
  have h4 : i + j + 1 < 2 ^ (8 * t.ptrBytes) := by
    refine Nat.lt_of_lt_of_le ?_ hn
    have : 2 * n * 1 ≤ 2 * n * (2 * n) := Nat.mul_le_mul_left _ (by omega)
    omega
  rw [usize_ok h4]
  simp only [R_ok_bind]
  rw [usize_ok h1]
  simp only [R_ok_bind]
  rw [usize_ok (show (i + j) * (i + j + 1) / 2 + i < _ by omega)]
  simp only [R_ok_bind]
  rw [usize_ok h2]
  rfl

theorem row_sum (a : Nat → R K) (b : Nat → K) (F : Nat → K) (v : List K) (hv : ∀ j (h : j < v.length), v[j] = F j)
    (ha : ∀ j, j < v.length → a j = .ok (b j)) : ∀ q, 2 * q ≤ v.length →
    (List.range q).foldlM (rowStep a v) (0, 0) =
      .ok (∑ k ∈ Finset.range q, F (2 * k) / b (2 * k), ∑ k ∈ Finset.range q, F (2 * k + 1) / b (2 * k + 1))
  | 0, _ => rfl
  | q + 1, h => by
    rw [List.range_succ, List.foldlM_append, row_sum a b F v hv ha q (by omega), R_ok_bind, List.foldlM_cons]
    unfold rowStep
    rw [lget_lt _ (show 2 * q < v.length by omega), lget_lt _ (show 2 * q + 1 < v.length by omega), ha _ (by omega), ha _ (by omega),
      hv _ (by omega), hv _ (by omega), Finset.sum_range_succ, Finset.sum_range_succ]
    rfl

theorem pair_sum (g : Nat → K) : ∀ q, (∑ k ∈ Finset.range q, g (2 * k)) + (∑ k ∈ Finset.range q, g (2 * k + 1)) = ∑ j ∈ Finset.range (2 * q), g j
  | 0 => by simp
  | q + 1 => by
    rw [Finset.sum_range_succ, Finset.sum_range_succ, show 2 * (q + 1) = 2 * q + 1 + 1 by omega, Finset.sum_range_succ, Finset.sum_range_succ,
      ← pair_sum g q]
    ring

/-- A matrix-vector product of the scalar program. -/
theorem mult_exact {n : Nat} (h2 : n % 2 = 0) (hw : n < 2 ^ (8 * t.ptrBytes)) (a : Nat → Nat → R K) (M : Matrix (Fin n) (Fin n) K) (b : Nat → Nat → K)
    (ha : ∀ i j, i < n → j < n → a i j = .ok (b i j)) (hb : ∀ i j : Fin n, M i j = 1 / b i j)
    (f : Fin n → K) (out : List K) (ho : out.length = n) :
    multScalar t checks a 0 (List.ofFn f) out = .ok (List.ofFn (M *ᵥ f)) := by
  have hlen : (List.ofFn f).length = n := List.length_ofFn
  let F : Nat → K := fun j => if h : j < n then f ⟨j, h⟩ else 0
  unfold multScalar
  rw [Math.mapM_ok _ (fun i => ∑ j ∈ Finset.range n, F j / b i j)]
  · rw [ho]
    congr 1
    apply List.ext_getElem
    · simp
    · intro i h1 h2'
      have hi : i < n := by simpa using h1
      simp only [List.getElem_map, List.getElem_range, List.getElem_ofFn, mulVec, dotProduct]
      rw [Finset.sum_range]
      refine Finset.sum_congr rfl fun j _ => ?_
      rw [hb]
      simp only [F, j.isLt, dif_pos]
      ring
  · intro i hi
    have hi : i < n := by rw [ho] at hi; simpa using hi
    rw [usize_ok (show i + 0 < _ by omega), R_ok_bind, row_scalar t checks _ _ _ (by rw [hlen]; exact h2) (by rw [hlen]; exact hw),
      row_sum (a (i + 0)) (b i) F (List.ofFn f)
        (fun j h => by
          have : j < n := by rw [hlen] at h; exact h
          simp [F, this])
        (fun j h => by rw [hlen] at h; exact ha i j hi h) _ (by omega)]
    show Except.ok _ = Except.ok _
    rw [pair_sum (fun j => F j / b i j), hlen, show 2 * (n / 2) = n by omega]

/-- In exact arithmetic (any field) both programs return, for even `n`, `sqrt ((u · v) / (v · v))` where `u = (MᵀM)²⁰ 1`, `v = (MᵀM)¹⁹ 1` and `M`
is the benchmark's matrix, provided the index computations fit in a `usize`; for odd `n` they panic. -/
theorem C68_exact (sqrt : K → K) (n : Nat) (hn : 2 * n * (2 * n) ≤ 2 ^ (8 * t.ptrBytes)) (hw : n < 2 ^ (8 * t.ptrBytes)) :
    (n % 2 = 0 →
      let B := (benchMatrix K n)ᵀ * benchMatrix K n
      let u := (B ^ 20) *ᵥ 1
      let v := (B ^ 19) *ᵥ 1
      scalar t checks (Nat.cast : Nat → K) sqrt n = .ok (sqrt ((u ⬝ᵥ v) / (v ⬝ᵥ v))) ∧
      simd t checks (Nat.cast : Nat → K) sqrt n = .ok (sqrt ((u ⬝ᵥ v) / (v ⬝ᵥ v)))) ∧
    (n % 2 ≠ 0 → scalar t checks (Nat.cast : Nat → K) sqrt n = .error .panic ∧ simd t checks (Nat.cast : Nat → K) sqrt n = .error .panic) := by
  rw [C67_same (fun l => by simp) t checks (Nat.cast : Nat → K) sqrt n hw]
  constructor
  swap
  · intro h2
    unfold Spectral.scalar spectralNorm
    rw [if_neg h2]
    exact ⟨rfl, rfl⟩
  intro h2
  dsimp only
  generalize hB : (benchMatrix K n)ᵀ * benchMatrix K n = B
  suffices h : scalar t checks (Nat.cast : Nat → K) sqrt n =
      .ok (sqrt ((((B ^ 20) *ᵥ 1) ⬝ᵥ ((B ^ 19) *ᵥ 1)) / (((B ^ 19) *ᵥ 1) ⬝ᵥ ((B ^ 19) *ᵥ 1)))) from ⟨h, h⟩
  have hdot : ∀ f g : Fin n → K, dot (List.ofFn f) (List.ofFn g) = f ⬝ᵥ g := by
    intro f g
    unfold dot
    rw [← List.sum_eq_foldl]
    have : ((List.ofFn f).zip (List.ofFn g)).map (fun p => p.1 * p.2) = List.ofFn fun i => f i * g i := by
      apply List.ext_getElem <;> simp
    rw [this, List.sum_ofFn]
    rfl
  have hAv : ∀ (f : Fin n → K) (out : List K), out.length = n →
      multAvScalar t checks (Nat.cast : Nat → K) (List.ofFn f) out = .ok (List.ofFn (benchMatrix K n *ᵥ f)) := by
    intro f out ho
    exact mult_exact t checks h2 hw _ _ (fun i j => (((i + j) * (i + j + 1) / 2 + i + 1 : Nat) : K))
      (fun i j hi hj => A_ok t checks _ hi hj hn) (fun i j => rfl) f out ho
  have hAtv : ∀ (f : Fin n → K) (out : List K), out.length = n →
      multAtvScalar t checks (Nat.cast : Nat → K) (List.ofFn f) out = .ok (List.ofFn ((benchMatrix K n)ᵀ *ᵥ f)) := by
    intro f out ho
    exact mult_exact t checks h2 hw _ _ (fun j i => (((i + j) * (i + j + 1) / 2 + i + 1 : Nat) : K))
      (fun i j hi hj => A_ok t checks _ hj hi hn) (fun i j => rfl) f out ho
  have hstep : ∀ (f : Fin n → K) (out tmp : List K), out.length = n → tmp.length = n →
      multAtAv (multAvScalar t checks (Nat.cast : Nat → K)) (multAtvScalar t checks (Nat.cast : Nat → K)) (List.ofFn f) out tmp =
        .ok (List.ofFn (B *ᵥ f), List.ofFn (benchMatrix K n *ᵥ f)) := by
    intro f out tmp ho ht
    unfold multAtAv
    rw [hAv f tmp ht, R_ok_bind, hAtv _ out ho, R_ok_bind, ← hB, mulVec_mulVec]
    rfl
  have hone : List.replicate n (1 : K) = List.ofFn (1 : Fin n → K) := by
    apply List.ext_getElem <;> simp
  unfold Spectral.scalar spectralNorm
  rw [if_pos h2]
  obtain ⟨s, hs, h1, h3, _⟩ := forRange_inv (fun i (s : List K × List K × List K) =>
      s.1 = List.ofFn ((B ^ (2 * i)) *ᵥ (1 : Fin n → K)) ∧ (0 < i → s.2.1 = List.ofFn ((B ^ (2 * i - 1)) *ᵥ (1 : Fin n → K))) ∧
      s.2.1.length = n ∧ s.2.2.length = n)
    (fun (s : List K × List K × List K) _ => do
      let (u, v, tmp) := s
      let (v, tmp) ← multAtAv (multAvScalar t checks (Nat.cast : Nat → K)) (multAtvScalar t checks (Nat.cast : Nat → K)) u v tmp
      let (u, tmp) ← multAtAv (multAvScalar t checks (Nat.cast : Nat → K)) (multAtvScalar t checks (Nat.cast : Nat → K)) v u tmp
      return (u, v, tmp)) (Nat.zero_le 10)
    (init := (List.replicate n 1, List.replicate n 1, List.replicate n 1))
    ⟨by rw [hone]; simp, fun h => absurd h (by omega), by simp, by simp⟩ (by
      rintro i ⟨u, v, tmp⟩ _ _ ⟨hu, _, hv, ht⟩
      dsimp only at hu hv ht ⊢
      refine ⟨(List.ofFn (B *ᵥ (B *ᵥ ((B ^ (2 * i)) *ᵥ (1 : Fin n → K)))), List.ofFn (B *ᵥ ((B ^ (2 * i)) *ᵥ (1 : Fin n → K))),
        List.ofFn (benchMatrix K n *ᵥ (B *ᵥ ((B ^ (2 * i)) *ᵥ (1 : Fin n → K))))), ?_, ?_⟩
      · rw [hu, hstep _ v tmp hv ht]
        simp only [R_ok_bind]
        rw [hstep _ _ _ (by simp) (by simp)]
        rfl
      · refine ⟨?_, fun _ => ?_, by simp, by simp⟩
        · dsimp only
          rw [mulVec_mulVec, mulVec_mulVec, show 2 * (i + 1) = 2 * i + 1 + 1 by omega, pow_succ', pow_succ', Matrix.mul_assoc]
        · dsimp only
          rw [mulVec_mulVec, show 2 * (i + 1) - 1 = 2 * i + 1 by omega, pow_succ'])
  dsimp only at hs ⊢
  rw [hs]
  obtain ⟨u, v, tmp⟩ := s
  simp only [R_ok_bind]
  dsimp only at h1 h3
  rw [h1, h3 (by decide), hdot, hdot]
  rfl

end exact

/-! ### Concrete cases -/

-- the two programs on two elements, on x86-64: over the rationals (without the square root), and in `f64` arithmetic
example : simd x64Avx true (Nat.cast : Nat → Rat) id 2 =
    .ok (14994226104111430805351668536895201079530337771111607166196257333969560300477249419714931424834465099519069315542181036261 /
      10707732068860465878624875087815055615152174680725204635121691236078938021469500697781019530072071191542440461491217110900) := by
  decide +kernel
example : (simd x64Avx true (fun n => (⟨Flt.fromInt 64 52 n⟩ : F64)) id 2).toOption.map F64.bits = some 0x3ff667b37854affd#64 := by decide +kernel
-- odd sizes panic
example : (simd x64Avx true (Nat.cast : Nat → Rat) id 3).toOption = none := by decide +kernel
-- the size condition is met by every n up to 2^31 on a 64-bit target
example (n : Nat) (h : n ≤ 2 ^ 31) : 2 * n * (2 * n) ≤ 2 ^ (8 * x64Avx.ptrBytes) := by
  have h : 2 * n ≤ 2 ^ 32 := by omega
  exact Nat.le_trans (Nat.mul_le_mul h h) (by decide)


end PackedSimd.Props
