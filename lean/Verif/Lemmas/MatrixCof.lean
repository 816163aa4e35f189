import Verif.Lemmas.MatrixInv
import Verif.Props.Matrix
/-
The matrix inverse example: the cofactors and the determinant are computed without rounding errors.
-/
namespace PackedSimd.F32R
open Spec Ex

variable {k : ℤ} {d b b' : ℕ} {u v w : Vec F32 4} {u' v' w' : Vec ℝ 4}

/-- Lane by lane. -/
def VRel (k : ℤ) (d b : ℕ) (u : Vec F32 4) (v : Vec ℝ 4) : Prop := ∀ i : Fin 4, IsMul k d b u[i] v[i]

theorem VRel.add (hk : |k| ≤ 24) (hd : d ≤ 4) (hx : VRel k d b u u') (hy : VRel k d b' v v') (hb : b + b' ≤ 2 ^ 24) :
    VRel k d (b + b') (u + v) (u' + v') := by
  intro i
  have e : (u + v)[i] = u[i] + v[i] := Vector.getElem_zipWith ..
  have e' : (u' + v')[i] = u'[i] + v'[i] := Vector.getElem_zipWith ..
  rw [e, e']
  exact (hx i).add hk (hy i) hd hb

theorem VRel.sub (hk : |k| ≤ 24) (hd : d ≤ 4) (hx : VRel k d b u u') (hy : VRel k d b' v v') (hb : b + b' ≤ 2 ^ 24) :
    VRel k d (b + b') (u - v) (u' - v') := by
  intro i
  have e : (u - v)[i] = u[i] - v[i] := Vector.getElem_zipWith ..
  have e' : (u' - v')[i] = u'[i] - v'[i] := Vector.getElem_zipWith ..
  rw [e, e']
  exact (hx i).sub hk (hy i) hd hb

theorem VRel.mul {d' : ℕ} (hk : |k| ≤ 24) (hx : VRel k d b u u') (hy : VRel k d' b' v v') (hd : d + d' ≤ 4) (hb : b * b' ≤ 2 ^ 24) :
    VRel k (d + d') (b * b') (u * v) (u' * v') := by
  intro i
  have e : (u * v)[i] = u[i] * v[i] := Vector.getElem_zipWith ..
  have e' : (u' * v')[i] = u'[i] * v'[i] := Vector.getElem_zipWith ..
  rw [e, e']
  exact (hx i).mul hk (hy i) hd hb

theorem VRel.sh2 (hx : VRel k d b u u') (hy : VRel k d b v v') (p q r s : Fin 8) : VRel k d b (sh2 u v p q r s) (sh2 u' v' p q r s) := by
  have at_ : ∀ j : Fin 8, IsMul k d b (if h : j.val < 4 then u[j.val] else v[j.val - 4]) (if h : j.val < 4 then u'[j.val] else v'[j.val - 4]) := by
    intro j
    by_cases h : j.val < 4
    · rw [dif_pos h, dif_pos h]; exact hx ⟨j, h⟩
    · rw [dif_neg h, dif_neg h]; exact hy ⟨j.val - 4, by omega⟩
  intro i
  match i with
  | 0 => exact at_ p
  | 1 => exact at_ q
  | 2 => exact at_ r
  | 3 => exact at_ s

theorem VRel.sh1 (hx : VRel k d b u u') (p q r s : Fin 8) : VRel k d b (sh1 u p q r s) (sh1 u' p q r s) := hx.sh2 hx p q r s

theorem VRel.mono (hx : VRel k d b u u') (h : b ≤ b') : VRel k d b' u u' := fun i => (hx i).mono h

/-- The statements of `simd::inv4x4` up to the determinant. -/
theorem minors_rel (hk : |k| ≤ 24) {M P : ℕ} (hP : P = M * (M * M)) (hM : 24 * (M * P) ≤ 2 ^ 24) (hM0 : 0 < M) {m : Mat F32} {m' : Mat ℝ}
    (h0 : VRel k 1 M m[0] m'[0]) (h1 : VRel k 1 M m[1] m'[1]) (h2 : VRel k 1 M m[2] m'[2]) (h3 : VRel k 1 M m[3] m'[3]) :
    VRel k 3 (6 * P) (minorsSimd m).minor0 (minorsSimd m').minor0 ∧ VRel k 3 (6 * P) (minorsSimd m).minor1 (minorsSimd m').minor1 ∧
    VRel k 3 (6 * P) (minorsSimd m).minor2 (minorsSimd m').minor2 ∧ VRel k 3 (6 * P) (minorsSimd m).minor3 (minorsSimd m').minor3 ∧
    VRel k 4 (24 * (M * P)) (minorsSimd m).det (minorsSimd m').det := by
  have hPP : P ≤ M * P := Nat.le_mul_of_pos_left _ hM0
  have hMM : M * M ≤ P := by rw [hP]; exact Nat.le_mul_of_pos_left _ hM0
  have mul2 {u v : Vec F32 4} {u' v' : Vec ℝ 4} (a : VRel k 1 M u u') (b : VRel k 1 M v v') : VRel k 2 (M * M) (u * v) (u' * v') :=
    a.mul hk b (by omega) (by omega)
  have mul3 {u v : Vec F32 4} {u' v' : Vec ℝ 4} (a : VRel k 1 M u u') (b : VRel k 2 (M * M) v v') : VRel k 3 P (u * v) (u' * v') := by
    rw [hP]
    exact a.mul hk b (by omega) (by omega)
  have tmp1 := h0.sh2 h1 0 1 4 5
  have row1 := h2.sh2 h3 0 1 4 5
  have row0 := tmp1.sh2 row1 0 2 4 6
  replace row1 := row1.sh2 tmp1 1 3 5 7
  have tmp1 := h0.sh2 h1 2 3 6 7
  have row3 := h2.sh2 h3 2 3 6 7
  have row2 := tmp1.sh2 row3 0 2 4 6
  replace row3 := row3.sh2 tmp1 1 3 5 7
  have tmp1 := (mul2 row2 row3).sh1 1 0 3 2
  have minor0 := mul3 row1 tmp1
  have minor1 := mul3 row0 tmp1
  replace tmp1 := tmp1.sh1 2 3 0 1
  replace minor0 := (mul3 row1 tmp1).sub hk (by omega) minor0 (by omega)
  replace minor1 := (mul3 row0 tmp1).sub hk (by omega) minor1 (by omega)
  replace minor1 := minor1.sh1 2 3 0 1
  have tmp1 := (mul2 row1 row2).sh1 1 0 3 2
  replace minor0 := (mul3 row3 tmp1).add hk (by omega) minor0 (by omega)
  have minor3 := mul3 row0 tmp1
  replace tmp1 := tmp1.sh1 2 3 0 1
  replace minor0 := minor0.sub hk (by omega) (mul3 row3 tmp1) (by omega)
  replace minor3 := (mul3 row0 tmp1).sub hk (by omega) minor3 (by omega)
  replace minor3 := minor3.sh1 2 3 0 1
  have tmp1 := (mul2 row3 (row1.sh1 2 3 0 1)).sh1 1 0 3 2
  replace row2 := row2.sh1 2 3 0 1
  replace minor0 := (mul3 row2 tmp1).add hk (by omega) minor0 (by omega)
  have minor2 := mul3 row0 tmp1
  replace tmp1 := tmp1.sh1 2 3 0 1
  replace minor0 := minor0.sub hk (by omega) (mul3 row2 tmp1) (by omega)
  replace minor2 := (mul3 row0 tmp1).sub hk (by omega) minor2 (by omega)
  replace minor2 := minor2.sh1 2 3 0 1
  have tmp1 := (mul2 row0 row1).sh1 1 0 3 2
  replace minor2 := minor2.add hk (by omega) (mul3 row3 tmp1) (by omega)
  replace minor3 := (mul3 row2 tmp1).sub hk (by omega) minor3 (by omega)
  replace tmp1 := tmp1.sh1 2 3 0 1
  replace minor2 := (mul3 row3 tmp1).sub hk (by omega) minor2 (by omega)
  replace minor3 := minor3.sub hk (by omega) (mul3 row2 tmp1) (by omega)
  have tmp1 := (mul2 row0 row3).sh1 1 0 3 2
  replace minor1 := minor1.sub hk (by omega) (mul3 row2 tmp1) (by omega)
  replace minor2 := (mul3 row1 tmp1).add hk (by omega) minor2 (by omega)
  replace tmp1 := tmp1.sh1 2 3 0 1
  replace minor1 := (mul3 row2 tmp1).add hk (by omega) minor1 (by omega)
  replace minor2 := minor2.sub hk (by omega) (mul3 row1 tmp1) (by omega)
  have tmp1 := (mul2 row0 row2).sh1 1 0 3 2
  replace minor1 := (mul3 row3 tmp1).add hk (by omega) minor1 (by omega)
  replace minor3 := minor3.sub hk (by omega) (mul3 row1 tmp1) (by omega)
  replace tmp1 := tmp1.sh1 2 3 0 1
  replace minor1 := minor1.sub hk (by omega) (mul3 row3 tmp1) (by omega)
  replace minor3 := (mul3 row1 tmp1).add hk (by omega) minor3 (by omega)
  have hm6 : M * (6 * P) = 6 * (M * P) := by ring
  have det := (row0.mul hk (minor0.mono (b' := 6 * P) (by omega)) (by omega) (by omega)).mono (b' := 6 * (M * P)) (by omega)
  replace det := (det.sh1 2 3 0 1).add hk (by omega) det (by omega)
  replace det := (det.sh1 1 0 3 2).add hk (by omega) det (by omega)
  exact ⟨minor0.mono (by omega), minor1.mono (by omega), minor2.mono (by omega), minor3.mono (by omega), det.mono (by omega)⟩

theorem zero_isMul : IsMul k d 0 0 0 := ⟨zero_ok.1, zero_ok.2, 0, by simp, by simp⟩

theorem sum_rel (hk : |k| ≤ 24) {D : ℝ} {l : List F32} {a : F32} (h : SumOf (· + ·) 0 l a) (hl : ∀ x ∈ l, IsMul k 4 b x D) (hb : l.length * b ≤ 2 ^ 24) :
    IsMul k 4 (l.length * b) a (l.length * D) := by
  induction h with
  | empty => simpa using zero_isMul
  | single x => simpa using hl x (by simp)
  | add h1 h2 ih1 ih2 =>
    rw [List.length_append, Nat.add_mul] at hb
    have := (ih1 (fun x hx => hl x (by simp [hx])) (by omega)).add hk (ih2 (fun x hx => hl x (by simp [hx])) (by omega)) (by omega) hb
    rw [List.length_append, Nat.add_mul, Nat.cast_add, add_mul]
    exact this
  | perm hp _ ih =>
    rw [← hp.length_eq] at hb ⊢
    exact ih (fun x hx => hl x (hp.mem_iff.1 hx)) hb

/-! ### scalar.rs -/

variable {M P : ℕ}

theorem t3 (hk : |k| ≤ 24) (hP : P = M * M * M) (hb : P ≤ 2 ^ 24) (hb' : M * M ≤ 2 ^ 24) {x y z : F32} {x' y' z' : ℝ} (hx : IsMul k 1 M x x') (hy : IsMul k 1 M y y')
    (hz : IsMul k 1 M z z') : IsMul k 3 P (x * y * z) (x' * y' * z') := by
  rw [hP] at hb ⊢
  exact (hx.mul hk hy (by omega) hb').mul hk hz (by omega) hb

theorem sixA (hk : |k| ≤ 24) (hb : 6 * P ≤ 2 ^ 24) {p q r s t u : F32} {p' q' r' s' t' u' : ℝ} (h1 : IsMul k 3 P p p') (h2 : IsMul k 3 P q q')
    (h3 : IsMul k 3 P r r') (h4 : IsMul k 3 P s s') (h5 : IsMul k 3 P t t') (h6 : IsMul k 3 P u u') :
    IsMul k 3 (6 * P) (p - q - r + s + t - u) (p' - q' - r' + s' + t' - u') :=
  (((((h1.sub hk h2 (by omega) (by omega)).sub hk h3 (by omega) (by omega)).add hk h4 (by omega) (by omega)).add hk h5 (by omega) (by omega)).sub hk h6
    (by omega) (by omega)).mono (by omega)

theorem sixB (hk : |k| ≤ 24) (hb : 6 * P ≤ 2 ^ 24) {p q r s t u : F32} {p' q' r' s' t' u' : ℝ} (h1 : IsMul k 3 P p p') (h2 : IsMul k 3 P q q')
    (h3 : IsMul k 3 P r r') (h4 : IsMul k 3 P s s') (h5 : IsMul k 3 P t t') (h6 : IsMul k 3 P u u') :
    IsMul k 3 (6 * P) (p + q + r - s - t + u) (p' + q' + r' - s' - t' + u') :=
  (((((h1.add hk h2 (by omega) (by omega)).add hk h3 (by omega) (by omega)).sub hk h4 (by omega) (by omega)).sub hk h5 (by omega) (by omega)).add hk h6
    (by omega) (by omega)).mono (by omega)

theorem VRel.lit {a b' c e : F32} {a' b'' c' e' : ℝ} (h0 : IsMul k d b a a') (h1 : IsMul k d b b' b'') (h2 : IsMul k d b c c') (h3 : IsMul k d b e e') :
    VRel k d b #v[a, b', c, e] #v[a', b'', c', e'] := by
  intro i
  match i with
  | 0 => exact h0
  | 1 => exact h1
  | 2 => exact h2
  | 3 => exact h3

section cof
variable (hk : |k| ≤ 24) (hP : P = M * M * M) (hb : 6 * P ≤ 2 ^ 24) (hb' : M * M ≤ 2 ^ 24)
  {x00 x01 x02 x03 x10 x11 x12 x13 x20 x21 x22 x23 x30 x31 x32 x33 : F32} {y00 y01 y02 y03 y10 y11 y12 y13 y20 y21 y22 y23 y30 y31 y32 y33 : ℝ}
  (h00 : IsMul k 1 M x00 y00) (h01 : IsMul k 1 M x01 y01) (h02 : IsMul k 1 M x02 y02) (h03 : IsMul k 1 M x03 y03)
  (h10 : IsMul k 1 M x10 y10) (h11 : IsMul k 1 M x11 y11) (h12 : IsMul k 1 M x12 y12) (h13 : IsMul k 1 M x13 y13)
  (h20 : IsMul k 1 M x20 y20) (h21 : IsMul k 1 M x21 y21) (h22 : IsMul k 1 M x22 y22) (h23 : IsMul k 1 M x23 y23)
  (h30 : IsMul k 1 M x30 y30) (h31 : IsMul k 1 M x31 y31) (h32 : IsMul k 1 M x32 y32) (h33 : IsMul k 1 M x33 y33)
include hk hP hb hb' h00 h01 h02 h03 h10 h11 h12 h13 h20 h21 h22 h23 h30 h31 h32 h33

theorem cof0_rel : VRel k 3 (6 * P) (cof0 x00 x01 x02 x03 x10 x11 x12 x13 x20 x21 x22 x23 x30 x31 x32 x33)
    (cof0 y00 y01 y02 y03 y10 y11 y12 y13 y20 y21 y22 y23 y30 y31 y32 y33) := by
  refine VRel.lit (sixA hk hb ?_ ?_ ?_ ?_ ?_ ?_) (sixB hk hb ?_ ?_ ?_ ?_ ?_ ?_) (sixA hk hb ?_ ?_ ?_ ?_ ?_ ?_) (sixB hk hb ?_ ?_ ?_ ?_ ?_ ?_) <;>
    refine t3 hk hP (by omega) hb' ?_ ?_ ?_ <;> first | assumption | (refine IsMul.neg ?_; assumption)
theorem cof1_rel : VRel k 3 (6 * P) (cof1 x00 x01 x02 x03 x10 x11 x12 x13 x20 x21 x22 x23 x30 x31 x32 x33)
    (cof1 y00 y01 y02 y03 y10 y11 y12 y13 y20 y21 y22 y23 y30 y31 y32 y33) := by
  refine VRel.lit (sixB hk hb ?_ ?_ ?_ ?_ ?_ ?_) (sixA hk hb ?_ ?_ ?_ ?_ ?_ ?_) (sixB hk hb ?_ ?_ ?_ ?_ ?_ ?_) (sixA hk hb ?_ ?_ ?_ ?_ ?_ ?_) <;>
    refine t3 hk hP (by omega) hb' ?_ ?_ ?_ <;> first | assumption | (refine IsMul.neg ?_; assumption)
theorem cof2_rel : VRel k 3 (6 * P) (cof2 x00 x01 x02 x03 x10 x11 x12 x13 x20 x21 x22 x23 x30 x31 x32 x33)
    (cof2 y00 y01 y02 y03 y10 y11 y12 y13 y20 y21 y22 y23 y30 y31 y32 y33) := by
  refine VRel.lit (sixA hk hb ?_ ?_ ?_ ?_ ?_ ?_) (sixB hk hb ?_ ?_ ?_ ?_ ?_ ?_) (sixA hk hb ?_ ?_ ?_ ?_ ?_ ?_) (sixB hk hb ?_ ?_ ?_ ?_ ?_ ?_) <;>
    refine t3 hk hP (by omega) hb' ?_ ?_ ?_ <;> first | assumption | (refine IsMul.neg ?_; assumption)
theorem cof3_rel : VRel k 3 (6 * P) (cof3 x00 x01 x02 x03 x10 x11 x12 x13 x20 x21 x22 x23 x30 x31 x32 x33)
    (cof3 y00 y01 y02 y03 y10 y11 y12 y13 y20 y21 y22 y23 y30 y31 y32 y33) := by
  refine VRel.lit (sixB hk hb ?_ ?_ ?_ ?_ ?_ ?_) (sixA hk hb ?_ ?_ ?_ ?_ ?_ ?_) (sixB hk hb ?_ ?_ ?_ ?_ ?_ ?_) (sixA hk hb ?_ ?_ ?_ ?_ ?_ ?_) <;>
    refine t3 hk hP (by omega) hb' ?_ ?_ ?_ <;> first | assumption | (refine IsMul.neg ?_; assumption)

end cof
end PackedSimd.F32R
