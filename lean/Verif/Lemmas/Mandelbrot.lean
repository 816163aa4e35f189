import Verif.Model.Examples.Mandelbrot
import Verif.Spec.Mandel
import Verif.Props.MaskReduce
import Verif.Props.Arith
import Verif.Lemmas.Matrix
import Verif.Lemmas.Math
import Mathlib.Tactic.Ring
import Mathlib.Tactic.Linarith
import Mathlib.Algebra.Order.Ring.Basic
/-
Helper lemmas for C53.
-/
namespace PackedSimd.Ex.Mandel
open PackedSimd Spec Intr Props

/-! Lanes of the lanewise operators. -/
theorem vadd_get {α : Type} [Add α] {n : Nat} (a b : Vec α n) (i : Nat) (h : i < n) : (a + b)[i] = a[i] + b[i] := Vector.getElem_zipWith ..
theorem vsub_get {α : Type} [Sub α] {n : Nat} (a b : Vec α n) (i : Nat) (h : i < n) : (a - b)[i] = a[i] - b[i] := Vector.getElem_zipWith ..
theorem vmul_get {α : Type} [Mul α] {n : Nat} (a b : Vec α n) (i : Nat) (h : i < n) : (a * b)[i] = a[i] * b[i] := Vector.getElem_zipWith ..
theorem vdiv_get {α : Type} [Div α] {n : Nat} (a b : Vec α n) (i : Nat) (h : i < n) : (a / b)[i] = a[i] / b[i] := Vector.getElem_zipWith ..

variable {α : Type} [Add α] [Sub α] [Mul α]

def ofPair {β : Type} (p : β × β) : Complex β := ⟨p.1, p.2⟩

theorem scalarLoop_spec (gt : α → α → Bool) (th : α) (c : α × α) (fuel i : Nat) :
    i ≤ countScalarLoop gt th (ofPair c) fuel i (ofPair (orbit c i)) (ofPair (orbit c i)) ∧
    countScalarLoop gt th (ofPair c) fuel i (ofPair (orbit c i)) (ofPair (orbit c i)) ≤ i + fuel ∧
    (∀ j, i ≤ j → j < countScalarLoop gt th (ofPair c) fuel i (ofPair (orbit c i)) (ofPair (orbit c i)) → gt (orbitNorm c j) th = false) ∧
    (countScalarLoop gt th (ofPair c) fuel i (ofPair (orbit c i)) (ofPair (orbit c i)) < i + fuel →
      gt (orbitNorm c (countScalarLoop gt th (ofPair c) fuel i (ofPair (orbit c i)) (ofPair (orbit c i)))) th = true) := by
  induction fuel generalizing i with
  | zero =>
    simp only [countScalarLoop]
    refine ⟨Nat.le_refl _, Nat.le_refl _, fun j h1 h2 => absurd h1 (by omega), fun h => absurd h (by omega)⟩
  | succ fuel ih =>
    rw [countScalarLoop]
    by_cases hd : diverged gt th (ofPair (orbit c i)) = true
    · rw [if_pos hd]
      exact ⟨Nat.le_refl _, by omega, fun j h1 h2 => absurd h1 (by omega), fun _ => hd⟩
    · rw [if_neg hd]
      obtain ⟨h1, h2, h3, h4⟩ := ih (i + 1)
      have hn : next (ofPair c) (ofPair (orbit c i)) = ofPair (orbit c (i + 1)) := rfl
      simp only [hn]
      refine ⟨by omega, by omega, fun j hj1 hj2 => ?_, fun h => h4 (by omega)⟩
      rcases Nat.eq_or_lt_of_le hj1 with rfl | hlt
      · simpa [diverged, orbitNorm, ofPair] using hd
      · exact h3 j hlt hj2

theorem countScalar_spec (gt : α → α → Bool) (th : α) (limit : Nat) (c : α × α) :
    EscapeCount (fun j => gt (orbitNorm c j) th = true) limit (countScalar gt th limit ⟨c.1, c.2⟩) := by
  obtain ⟨_, h2, h3, h4⟩ := scalarLoop_spec gt th c limit 0
  refine ⟨by simpa [countScalar, ofPair, orbit] using h2, fun j hj => ?_, fun h => ?_⟩
  · have h := h3 j (Nat.zero_le _) hj
    simp only [h, Bool.false_eq_true, not_false_eq_true]
  · exact h4 (by simpa [countScalar, ofPair, orbit] using h)

theorem escapeCount_unique {e : Nat → Prop} {limit a b : Nat} (ha : EscapeCount e limit a) (hb : EscapeCount e limit b) : a = b := by
  obtain ⟨a1, a2, a3⟩ := ha
  obtain ⟨b1, b2, b3⟩ := hb
  rcases Nat.lt_trichotomy a b with h | h | h
  · exact absurd (a3 (by omega)) (b2 a h)
  · exact h
  · exact absurd (b3 (by omega)) (a2 b h)

/-- The starting points of the lanes. -/
def lanePt {n : Nat} (s : Complex (Vec α n)) (l : Fin n) : α × α := (s.real[l], s.imag[l])

section
variable (t : Target) (ty : MaskTy)

/-- The vector state in iteration `i`. -/
def vecOrbit {n : Nat} (s : Complex (Vec α n)) (i : Nat) : Complex (Vec α n) :=
  ⟨Vector.ofFn fun l => (orbit (lanePt s l) i).1, Vector.ofFn fun l => (orbit (lanePt s l) i).2⟩

theorem vecOrbit_zero {n : Nat} (s : Complex (Vec α n)) : vecOrbit s 0 = s := by
  cases s
  simp [vecOrbit, orbit, lanePt]

theorem next_vecOrbit {n : Nat} (s : Complex (Vec α n)) (i : Nat) : next s (vecOrbit s i) = vecOrbit s (i + 1) := by
  simp only [next, vecOrbit, orbit, Complex.mk.injEq]
  constructor <;>
  · ext l hl
    simp [vadd_get, vsub_get, vmul_get, lanePt]

theorem undiverged_vecOrbit (le : α → α → Bool) (th : α) (s : Complex (Vec α ty.lanes)) (i : Nat) :
    undiverged t ty le th (vecOrbit s i) =
      (Vector.ofFn fun l => le (orbitNorm (lanePt s l) i) th).map (maskBits (8 * ty.laneBytes t)) := by
  ext l hl : 1
  simp [undiverged, vecOrbit, vadd_get, vmul_get, orbitNorm, splat]

theorem none_ofFn (ht : t.Supported) (f : Vec Bool ty.lanes) :
    Mask.none t ty (f.map (maskBits (8 * ty.laneBytes t))) = .ok (!f.toList.any id) := by
  unfold Mask.none
  rw [(mask_all_any_aux t ht ty f).2]
  rfl

theorem laneBits_pos (ht : t.Supported) : 0 < 8 * ty.laneBytes t := by
  have := laneBytes_pos ht ty
  omega

theorem splat_get {β : Type} {n : Nat} (x : β) (i : Nat) (h : i < n) : (splat n x)[i] = x := by simp [splat]

theorem count_step {w : Nat} (f : Nat → Bool) (c : BitVec w) (J : Nat) :
    c + BitVec.ofNat w ((List.range (J + 1)).countP f) =
      c + (if f 0 then 1#w else 0#w) + BitVec.ofNat w ((List.range J).countP fun j => f (j + 1)) := by
  have hc : (List.range (J + 1)).countP f = (if f 0 then 1 else 0) + (List.range J).countP fun j => f (j + 1) := by
    rw [List.range_succ_eq_map, List.countP_cons, List.countP_map, Nat.add_comm]
    rfl
  rw [hc, BitVec.ofNat_add, BitVec.add_assoc]
  cases f 0 <;> rfl

/-- What the vector loop computes, for any arithmetic: it stops after `J` steps, the first at which every lane has escaped, and each lane
has counted its bounded steps up to there. -/
theorem simdLoop_spec (ht : t.Supported) (le : α → α → Bool) (th : α) (s : Complex (Vec α ty.lanes)) (fuel i : Nat)
    (cnt : Vec (BitVec 64) ty.lanes) :
    ∃ J, J ≤ fuel ∧
      countSimdLoop t ty le th s fuel (vecOrbit s i) (vecOrbit s i) cnt =
        .ok (Vector.ofFn fun l => cnt[l] + BitVec.ofNat 64 ((List.range J).countP fun j => le (orbitNorm (lanePt s l) (i + j)) th)) ∧
      (∀ j, j < J → ∃ l, le (orbitNorm (lanePt s l) (i + j)) th = true) ∧
      (J < fuel → ∀ l, le (orbitNorm (lanePt s l) (i + J)) th = false) := by
  induction fuel generalizing i cnt with
  | zero =>
    refine ⟨0, Nat.le_refl _, ?_, fun j h => absurd h (by omega), fun h => absurd h (by omega)⟩
    simp [countSimdLoop]
  | succ fuel ih =>
    rw [countSimdLoop, undiverged_vecOrbit, none_ofFn t ty ht, select_spec _ (laneBits_pos t ty ht), next_vecOrbit]
    by_cases hn : (Vector.ofFn fun l => le (orbitNorm (lanePt s l) i) th).toList.any id = true
    · have hex : ∃ l, le (orbitNorm (lanePt s l) i) th = true := by
        rw [List.any_eq_true] at hn
        obtain ⟨x, hx, hxt⟩ := hn
        rw [Vector.mem_toList_iff, Vector.mem_ofFn] at hx
        obtain ⟨l, rfl⟩ := hx
        exact ⟨l, hxt⟩
      rw [hn]
      simp only [R_ok_bind, Bool.not_true, Bool.false_eq_true, if_false]
      obtain ⟨J, hJ, hr, hb, hs⟩ := ih (i + 1) (Ops.add cnt (Vector.ofFn fun l =>
        if (Vector.ofFn fun l => le (orbitNorm (lanePt s l) i) th)[l] then (splat ty.lanes 1#64)[l] else (splat ty.lanes 0#64)[l]))
      refine ⟨J + 1, by omega, ?_, ?_, ?_⟩
      · rw [hr]
        congr 1
        ext l hl : 1
        rw [Vector.getElem_ofFn, Vector.getElem_ofFn, count_step (fun j => le (orbitNorm (lanePt s ⟨l, hl⟩) (i + j)) th)]
        simp only [Ops.add, simdAdd, Fin.getElem_fin, Vector.getElem_zipWith, Vector.getElem_ofFn, splat_get, Nat.add_zero,
          Nat.add_assoc, Nat.add_comm 1]
      · intro j hj
        rcases j with _ | j
        · exact hex
        · obtain ⟨l, h⟩ := hb j (by omega)
          exact ⟨l, by rw [← h]; congr 2; omega⟩
      · intro hJ' l
        rw [← hs (by omega) l]; congr 2; omega
    · have hall : ∀ l, le (orbitNorm (lanePt s l) i) th = false := by
        intro l
        cases hl : le (orbitNorm (lanePt s l) i) th
        · rfl
        · exfalso; apply hn
          rw [List.any_eq_true]
          exact ⟨true, by rw [Vector.mem_toList_iff, Vector.mem_ofFn]; exact ⟨l, hl⟩, rfl⟩
      rw [Bool.not_eq_true] at hn
      rw [hn]
      refine ⟨0, by omega, ?_, fun j h => absurd h (by omega), fun _ l => hall l⟩
      simp only [R_ok_bind, Bool.not_false, if_true]
      simp [pure, Except.pure]

theorem countP_lt (f : Nat → Bool) (k J : Nat) (h : ∀ j, j < J → (f j = true ↔ j < k)) : (List.range J).countP f = min k J := by
  induction J with
  | zero => simp
  | succ J ih =>
    rw [List.range_succ, List.countP_append, ih (fun j hj => h j (by omega)), List.countP_singleton]
    have := h J (by omega)
    by_cases hk : J < k
    · rw [if_pos (this.2 hk)]; omega
    · rw [if_neg (fun hh => hk (this.1 hh))]; omega

end

theorem range_blocks {β : Type} (n q : Nat) (f : Nat → β) :
    (List.range (n * q)).map f = ((List.range q).map fun b => (Vector.ofFn fun l : Fin n => f (b * n + l.val)).toList).flatten := by
  induction q with
  | zero => simp
  | succ q ih =>
    rw [Nat.mul_succ, List.range_add, List.map_append, ih, List.range_succ (n := q), List.map_append, List.flatten_append]
    congr 1
    simp only [List.map_cons, List.map_nil, List.flatten_cons, List.flatten_nil, List.append_nil, Vector.toList_ofFn, List.map_map]
    apply List.ext_getElem
    · simp
    · intro i h1 h2
      simp [Nat.mul_comm]

/-- Escape is for ever: with `k ≤ s`, `4 < s` and `r² ≤ s²k` (Cauchy–Schwarz), `s < s² + k + 2r`. -/
theorem escape_step {K : Type} [CommRing K] [LinearOrder K] [IsStrictOrderedRing K] {s k r : K} (hk : 0 ≤ k) (hks : k ≤ s) (hs : 4 < s)
    (hr : r ^ 2 ≤ s ^ 2 * k) : s < s ^ 2 + k + 2 * r := by
  by_contra hlt
  rw [not_lt] at hlt
  have h1 : 0 ≤ s ^ 2 - s + k := by nlinarith
  have h2 : s ^ 2 - s + k ≤ -(2 * r) := by linarith
  have h3 : (s ^ 2 - s + k) ^ 2 ≤ (-(2 * r)) ^ 2 := pow_le_pow_left₀ h1 h2 2
  have h4 : (s ^ 2 - s + k) ^ 2 ≤ 4 * (s ^ 2 * k) := by nlinarith
  have h5 : (s ^ 2 - s + k) ^ 2 - 4 * (s ^ 2 * k) = (s - k) * (2 * (s ^ 2 + s) - (s + k)) + s ^ 3 * (s - 4) := by ring
  have h6 : 0 ≤ (s - k) * (2 * (s ^ 2 + s) - (s + k)) := mul_nonneg (by linarith) (by nlinarith)
  have h7 : 0 < s ^ 3 * (s - 4) := mul_pos (pow_pos (by linarith) 3) (by linarith)
  linarith

theorem norm_step {K : Type} [CommRing K] [LinearOrder K] [IsStrictOrderedRing K] (c : K × K) (n : Nat)
    (h1 : orbitNorm c 0 ≤ orbitNorm c n) (h2 : 4 < orbitNorm c n) : orbitNorm c n < orbitNorm c (n + 1) := by
  have hc : orbitNorm c 0 = c.1 * c.1 + c.2 * c.2 := rfl
  rw [hc] at h1
  simp only [orbitNorm, orbit] at *
  generalize (orbit c n).1 = x at *
  generalize (orbit c n).2 = y at *
  generalize c.1 = a at *
  generalize c.2 = b at *
  have := escape_step (s := x * x + y * y) (k := a * a + b * b) (r := (x * x - y * y) * a + 2 * (x * y) * b)
    (by nlinarith [mul_self_nonneg a, mul_self_nonneg b]) h1 h2 (by
      have : 0 ≤ ((x * x - y * y) * b - 2 * (x * y) * a) ^ 2 := sq_nonneg _
      nlinarith)
  calc x * x + y * y < (x * x + y * y) ^ 2 + (a * a + b * b) + 2 * ((x * x - y * y) * a + 2 * (x * y) * b) := this
    _ = _ := by ring

theorem norm_mono {K : Type} [CommRing K] [LinearOrder K] [IsStrictOrderedRing K] (c : K × K) {n : Nat}
    (h : 4 < orbitNorm c n) (hf : ∀ j, j < n → orbitNorm c j ≤ 4) (m : Nat) : orbitNorm c 0 ≤ orbitNorm c (n + m) ∧ 4 < orbitNorm c (n + m) := by
  induction m with
  | zero =>
    refine ⟨?_, h⟩
    rcases Nat.eq_zero_or_pos n with rfl | hp
    · exact le_refl _
    · exact le_trans (hf 0 hp) (le_of_lt h)
  | succ m ih =>
    have := norm_step c (n + m) ih.1 ih.2
    exact ⟨le_of_lt (lt_of_le_of_lt ih.1 this), lt_trans ih.2 this⟩

end PackedSimd.Ex.Mandel
