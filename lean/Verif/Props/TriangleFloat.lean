import Verif.Spec.TriangleFloat
import Verif.Lemmas.F32Real
import Verif.Props.Triangle
import Verif.Props.MatrixFloat
/-
C133: the triangle transformation in `f32` arithmetic.
-/
namespace PackedSimd.Props
open PackedSimd Spec Ex Ex.Tri F32R

/-- `p + q` in `f32`, `p` and `q` being approximations. -/
theorem add_step {p q : F32} {v w a b k l : ℝ} (fp : Fin' p) (fq : Fin' q) (hp : |rv p - v| ≤ k * (ν * a) + l * η) (hv : |v| ≤ a)
    (hq : |rv q - w| ≤ ν * b + η) (hw : |w| ≤ b) (hk' : k ≤ 4) (hl' : l ≤ 3) (hs : a + b ≤ 2 ^ 126) (hk1 : 1 ≤ k) :
    Fin' (p + q) ∧ |rv (p + q) - (v + w)| ≤ (k + 1 + 0.0001) * (ν * (a + b)) + (l + 1.001) * η := by
  have hν := ν_pos
  have hη := η_pos
  have ha : 0 ≤ a := (abs_nonneg _).trans hv
  have hb : 0 ≤ b := (abs_nonneg _).trans hw
  have h1 : |rv p + rv q - (v + w)| ≤ k * (ν * (a + b)) + (l + 1) * η := by
    rw [show rv p + rv q - (v + w) = (rv p - v) + (rv q - w) by ring]
    refine (abs_add_le _ _).trans ?_
    have : ν * b ≤ k * (ν * b) := le_mul_of_one_le_left (mul_nonneg hν.le hb) hk1
    have e1 : k * (ν * (a + b)) = k * (ν * a) + k * (ν * b) := by ring
    rw [e1]
    linarith
  have h2 : |rv p + rv q| ≤ (1 + k * ν) * (a + b) + (l + 1) * η := by
    rw [show rv p + rv q = (rv p + rv q - (v + w)) + (v + w) by ring]
    refine (abs_add_le _ _).trans ?_
    have := abs_add_le v w
    have e1 : (1 + k * ν) * (a + b) = (a + b) + k * (ν * (a + b)) := by ring
    rw [e1]
    linarith
  have hkν : k * ν ≤ 0.00001 := by
    calc k * ν ≤ 4 * ν := mul_le_mul_of_nonneg_right hk' hν.le
      _ ≤ _ := by unfold ν; norm_num
  have hη1 : (l + 1) * η ≤ 1 := by
    calc (l + 1) * η ≤ 4 * η := mul_le_mul_of_nonneg_right (by linarith) hη.le
      _ ≤ 1 := by unfold η; norm_num
  have hlt : |rv p + rv q| < 2 ^ 127 := by
    refine lt_of_le_of_lt h2 ?_
    have : (1 + k * ν) * (a + b) ≤ 1.5 * 2 ^ 126 := mul_le_mul (by linarith) hs (by linarith) (by norm_num)
    norm_num at this ⊢
    linarith
  obtain ⟨f, e⟩ := add_ok fp fq hlt
  refine ⟨f, ?_⟩
  rw [show rv (p + q) - (v + w) = (rv (p + q) - (rv p + rv q)) + (rv p + rv q - (v + w)) by ring]
  refine (abs_add_le _ _).trans ?_
  have h3 : ν * |rv p + rv q| ≤ 1.0001 * (ν * (a + b)) + 0.001 * η := by
    calc _ ≤ ν * ((1 + k * ν) * (a + b) + (l + 1) * η) := mul_le_mul_of_nonneg_left h2 hν.le
      _ = (1 + k * ν) * (ν * (a + b)) + ν * (l + 1) * η := by ring
      _ ≤ _ := by
        refine add_le_add (mul_le_mul_of_nonneg_right (by linarith) (mul_nonneg hν.le (by linarith))) (mul_le_mul_of_nonneg_right ?_ hη.le)
        calc ν * (l + 1) ≤ ν * 4 := mul_le_mul_of_nonneg_left (by linarith) hν.le
          _ ≤ _ := by unfold ν; norm_num
  have e2 : (k + 1 + 0.0001) * (ν * (a + b)) + (l + 1.001) * η = (1.0001 * (ν * (a + b)) + 0.001 * η) + (k * (ν * (a + b)) + (l + 1) * η) := by ring
  rw [e2]
  exact add_le_add (e.trans h3) h1

/-- One coordinate. -/
theorem coord_ok {a b c d x y z : F32} (ha : Fin' a) (hb : Fin' b) (hc : Fin' c) (hd : Fin' d) (hx : Fin' x) (hy : Fin' y) (hz : Fin' z)
    (hS : |rv a * rv x| + |rv b * rv y| + |rv c * rv z| + |rv d| ≤ 2 ^ 126) :
    Fin' (a * x + b * y + c * z + d) ∧ |rv (a * x + b * y + c * z + d) - (rv a * rv x + rv b * rv y + rv c * rv z + rv d)| ≤
      4.001 / 2 ^ 24 * (|rv a * rv x| + |rv b * rv y| + |rv c * rv z| + |rv d|) + 4 / 2 ^ 150 := by
  have n1 := abs_nonneg (rv a * rv x)
  have n2 := abs_nonneg (rv b * rv y)
  have n3 := abs_nonneg (rv c * rv z)
  have n4 := abs_nonneg (rv d)
  have hν := ν_pos
  have hη := η_pos
  have lt : ∀ {r : ℝ}, r ≤ 2 ^ 126 → r < 2 ^ 127 := fun h => lt_of_le_of_lt h (by norm_num)
  obtain ⟨f1, e1⟩ := mul_ok ha hx (lt (by linarith))
  obtain ⟨f2, e2⟩ := mul_ok hb hy (lt (by linarith))
  obtain ⟨f3, e3⟩ := mul_ok hc hz (lt (by linarith))
  obtain ⟨f4, e4⟩ := add_step (k := 1) (l := 1) f1 f2 (by rw [one_mul, one_mul]; exact e1) le_rfl e2 le_rfl (by norm_num) (by norm_num) (by linarith)
    le_rfl
  obtain ⟨f5, e5⟩ := add_step f4 f3 e4 (abs_add_le _ _) e3 le_rfl (by norm_num) (by norm_num) (by linarith) (by norm_num)
  have v5 := (abs_add_le (rv a * rv x + rv b * rv y) (rv c * rv z)).trans (add_le_add_left (abs_add_le (rv a * rv x) (rv b * rv y)) _)
  -- the last summand is exact
  have h1 := abs_add_le (rv a * rv x + rv b * rv y + rv c * rv z) (rv d)
  set V := rv a * rv x + rv b * rv y + rv c * rv z with hV
  set S := |rv a * rv x| + |rv b * rv y| + |rv c * rv z| with hSdef
  have hS0 : 0 ≤ S := by rw [hSdef]; linarith
  norm_num at e5
  have hνS : 0 ≤ ν * S := mul_nonneg hν.le hS0
  have e6 : |rv (a * x + b * y + c * z) - V| ≤ 3.0002 * (ν * S) + 3.002 * η := by
    refine e5.trans (le_of_eq ?_)
    norm_num
  have e7 : |rv (a * x + b * y + c * z) + rv d - (V + rv d)| ≤ 3.0002 * (ν * S) + 3.002 * η := by
    rw [show rv (a * x + b * y + c * z) + rv d - (V + rv d) = rv (a * x + b * y + c * z) - V by ring]; exact e6
  have e8 : |rv (a * x + b * y + c * z) + rv d| ≤ (S + |rv d|) + (3.0002 * (ν * S) + 3.002 * η) := by
    have := abs_sub_abs_le_abs_sub (rv (a * x + b * y + c * z) + rv d) (V + rv d)
    linarith
  have hsmall : 3.0002 * (ν * S) + 3.002 * η ≤ 0.0001 * (S + |rv d|) + 1 := by
    have t1 : 3.0002 * (ν * S) ≤ 0.0001 * S := by
      rw [← mul_assoc]
      exact mul_le_mul_of_nonneg_right (by unfold ν; norm_num) hS0
    have t2 : 3.002 * η ≤ 1 := by unfold η; norm_num
    linarith
  obtain ⟨f6, e9⟩ := add_ok f5 hd (by norm_num at hS ⊢; linarith)
  refine ⟨f6, ?_⟩
  rw [show rv (a * x + b * y + c * z + d) - (V + rv d) =
    (rv (a * x + b * y + c * z + d) - (rv (a * x + b * y + c * z) + rv d)) + (rv (a * x + b * y + c * z) + rv d - (V + rv d)) by ring]
  refine (abs_add_le _ _).trans ?_
  have e10 : ν * |rv (a * x + b * y + c * z) + rv d| ≤ 1.0001 * (ν * (S + |rv d|)) + 0.001 * η := by
    calc _ ≤ ν * ((S + |rv d|) + (3.0002 * (ν * S) + 3.002 * η)) := mul_le_mul_of_nonneg_left e8 hν.le
      _ = ν * (S + |rv d|) + (3.0002 * ν) * (ν * S) + (3.002 * ν) * η := by ring
      _ ≤ ν * (S + |rv d|) + 0.0001 * (ν * S) + 0.001 * η :=
        add_le_add (add_le_add le_rfl (mul_le_mul_of_nonneg_right (by unfold ν; norm_num) hνS)) (mul_le_mul_of_nonneg_right (by unfold ν; norm_num) hη.le)
      _ ≤ _ := by
        have : ν * S ≤ ν * (S + |rv d|) := mul_le_mul_of_nonneg_left (by linarith) hν.le
        linarith
  have e11 : ν * S ≤ ν * (S + |rv d|) := mul_le_mul_of_nonneg_left (by linarith) hν.le
  have e12 : 4.001 / 2 ^ 24 * (S + |rv d|) + 4 / 2 ^ 150 = 4.001 * (ν * (S + |rv d|)) + 4 * η := by unfold ν η; ring
  rw [e12]
  have : 0 ≤ ν * (S + |rv d|) := mul_nonneg hν.le (by linarith)
  linarith

theorem affine_ok {mat : Mat43 F32} (hm : FiniteMat mat) {t : Triangle F32} (ht : FiniteTri t) (hS : ∀ k j : Fin 3, magnitude mat t[k] j ≤ 2 ^ 126) :
    ImageOf mat t (t.map (affine mat)) := by
  intro k j
  have hS' := hS k j
  have e : (t.map (affine mat))[k][j] = mat[0][j] * t[k][0] + mat[1][j] * t[k][1] + mat[2][j] * t[k][2] + mat[3][j] := by
    rw [show (t.map (affine mat))[k] = affine mat t[k] from Vector.getElem_map ..]
    match j with
    | 0 => rfl
    | 1 => rfl
    | 2 => rfl
  rw [e]
  unfold magnitude at hS' ⊢
  unfold image
  simp only [Fin.sum_univ_three] at hS' ⊢
  exact coord_ok (hm 0 j) (hm 1 j) (hm 2 j) (hm 3 j) (ht k 0) (ht k 1) (ht k 2) hS'

/-- The scalar transformation maps every vertex to its image under the affine map, up to rounding, if the magnitudes are at most 2^126. -/
theorem C133_scalar {mat : Mat43 F32} (hm : FiniteMat mat) {t : Triangle F32} (ht : FiniteTri t) (hS : ∀ k j : Fin 3, magnitude mat t[k] j ≤ 2 ^ 126) :
    ∃ r, transformScalar t mat = .ok r ∧ ImageOf mat t r := ⟨_, C54_scalar t mat, affine_ok hm ht hS⟩

/-- So does the vector pipeline of packing, transforming and unpacking, for all vectors of lanes and all slices of whole vectors. -/
theorem C133_simd {n : ℕ} [LaneCount n] {mat : Mat43 F32} (hm : FiniteMat mat) {ts : List (Triangle F32)} (hl : ts.length % n = 0)
    (ht : ∀ t ∈ ts, FiniteTri t) (hS : ∀ t ∈ ts, ∀ k j : Fin 3, magnitude mat t[k] j ≤ 2 ^ 126) :
    ∃ rs, pipeline n ts mat = .ok rs ∧ List.Forall₂ (ImageOf mat) ts rs := by
  refine ⟨_, by rw [C54_pipeline, if_pos hl], ?_⟩
  rw [List.forall₂_map_right_iff, List.forall₂_same]
  exact fun t h => affine_ok hm (ht t h) (hS t h)

/-- A shear with a translation, applied to four triangles in vectors of two lanes. -/
def sampleMat : Mat43 F32 := Vector.ofFn fun i => Vector.ofFn fun j => F32.ofInt (!![2, 1, 0; 0, -3, 5; 7, 0, 1; 10, 20, -30] i j)
@[inherit_doc sampleMat] def sampleTri (k : Fin 4) : Triangle F32 := Vector.ofFn fun i => Vector.ofFn fun j => F32.ofInt (i.val * j.val + 100 * k.val)

theorem sample_bounds {z : ℤ} (hz : z.natAbs ≤ 1000) : Fin' (F32.ofInt z) ∧ |num (F32.ofInt z)| ≤ 1000 := by
  obtain ⟨f, e⟩ := ofInt_ok (z := z) (by omega)
  refine ⟨f, ?_⟩
  unfold num
  rw [e, ← Int.cast_abs, ← Nat.cast_natAbs]
  exact_mod_cast hz

theorem sampleMat_get (i : Fin 4) (j : Fin 3) : Fin' sampleMat[i][j] ∧ |num sampleMat[i][j]| ≤ 1000 := by
  have e : sampleMat[i][j] = F32.ofInt (!![2, 1, 0; 0, -3, 5; 7, 0, 1; 10, 20, -30] i j) := by simp [sampleMat]
  rw [e]
  exact sample_bounds (by revert i j; decide)

theorem sampleTri_get (k : Fin 4) (i j : Fin 3) : Fin' (sampleTri k)[i][j] ∧ |num (sampleTri k)[i][j]| ≤ 1000 := by
  have e : (sampleTri k)[i][j] = F32.ofInt (i.val * j.val + 100 * k.val) := by simp [sampleTri]
  rw [e]
  exact sample_bounds (by revert i j k; decide)

example : ∃ rs, pipeline 2 ((List.finRange 4).map sampleTri) sampleMat = .ok rs ∧
    List.Forall₂ (ImageOf sampleMat) ((List.finRange 4).map sampleTri) rs := by
  refine C133_simd (fun i j => (sampleMat_get i j).1) (by simp) (fun t h => ?_) (fun t h k j => ?_)
  · obtain ⟨q, -, rfl⟩ := List.mem_map.mp h
    exact fun i j => (sampleTri_get q i j).1
  · obtain ⟨q, -, rfl⟩ := List.mem_map.mp h
    unfold magnitude
    simp only [abs_mul]
    refine (add_le_add (Finset.sum_le_sum fun i _ => mul_le_mul (sampleMat_get _ j).2 (sampleTri_get q k i).2 (abs_nonneg _) (by norm_num))
      (sampleMat_get 3 j).2).trans ?_
    norm_num

end PackedSimd.Props
