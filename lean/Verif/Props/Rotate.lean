import Verif.Lemmas.Rotate
/-
C15: rotates.

Full claim (false of the code for signed vectors):
  for every signedness `s`, all `a`, `b`:
  `∃ r, Ops.rotateLeft s a b = .ok r ∧ ∀ i < n, RotatedLeft b[i].toNat a[i] r[i]`, and the mirror image for `rotateRight`.
It is proved for unsigned vectors; for signed vectors it is refuted by witnesses, and proved for non-negative
lanes and amounts.  (`w` is a positive multiple of 8, as for every lane type of the crate.)
-/

namespace PackedSimd.Props
open PackedSimd Spec

variable {w n : Nat}

/-- Unsigned vectors: every bit of every lane moves cyclically, whatever the amounts. -/
theorem C15_rotate_left_unsigned_partial (hw : 0 < w) (h8 : 8 ∣ w) (a b : Vec (BitVec w) n) :
    ∃ r, Ops.rotateLeft false a b = .ok r ∧ ∀ i (h : i < n), RotatedLeft b[i].toNat a[i] r[i] := by
  refine ⟨_, rotateLeft_eq hw h8 false a b (fun i h => by rw [val_false]; omega), ?_⟩
  intro i h
  simp only [Vector.getElem_zipWith, Bool.false_eq_true, if_false]
  exact rotated_mod_left (rot_left_bits _ _ (Nat.mod_lt _ hw))

theorem C15_rotate_right_unsigned_partial (hw : 0 < w) (h8 : 8 ∣ w) (a b : Vec (BitVec w) n) :
    ∃ r, Ops.rotateRight false a b = .ok r ∧ ∀ i (h : i < n), RotatedRight b[i].toNat a[i] r[i] := by
  refine ⟨_, rotateRight_eq hw h8 false a b (fun i h => by rw [val_false]; omega), ?_⟩
  intro i h
  simp only [Vector.getElem_zipWith, Bool.false_eq_true, if_false]
  exact rotated_mod_right (rot_right_bits _ _ (Nat.mod_lt _ hw))

/-- Unsigned vectors: `rotate_right` undoes `rotate_left` and vice versa. -/
theorem C15_rotate_inverse_unsigned_partial (hw : 0 < w) (h8 : 8 ∣ w) (a b : Vec (BitVec w) n) :
    (Ops.rotateLeft false a b >>= fun r => Ops.rotateRight false r b) = .ok a ∧
    (Ops.rotateRight false a b >>= fun r => Ops.rotateLeft false r b) = .ok a := by
  obtain ⟨l, hl, hl'⟩ := C15_rotate_left_unsigned_partial hw h8 a b
  obtain ⟨r, hr, hr'⟩ := C15_rotate_right_unsigned_partial hw h8 a b
  obtain ⟨lr, hlr, hlr'⟩ := C15_rotate_right_unsigned_partial hw h8 l b
  obtain ⟨rl, hrl, hrl'⟩ := C15_rotate_left_unsigned_partial hw h8 r b
  constructor
  · rw [hl]; show Ops.rotateRight false l b = _; rw [hlr]; congr 1
    ext i hi : 1
    apply BitVec.eq_of_getLsbD_eq
    intro j hj
    rw [hlr' i hi j hj, hl' i hi j hj]
  · rw [hr]; show Ops.rotateLeft false r b = _; rw [hrl]; congr 1
    ext i hi : 1
    apply BitVec.eq_of_getLsbD_eq
    intro j hj
    -- position j of the result comes from position (j + w - b) mod w
    have hbm : b[i].toNat % w < w := Nat.mod_lt _ hw
    let p := (j + (w - b[i].toNat % w)) % w
    have hp : p < w := Nat.mod_lt _ hw
    have hpj : (p + b[i].toNat) % w = j := by
      have e1 : (p + b[i].toNat) % w = (j + (w - b[i].toNat % w) + b[i].toNat % w) % w := by
        simp only [p]; simp [Nat.add_mod]
      rw [e1, show j + (w - b[i].toNat % w) + b[i].toNat % w = j + w by omega]
      simp [Nat.mod_eq_of_lt hj]
    have h1 := hrl' i hi p hp
    rw [hpj] at h1
    rw [h1, hr' i hi p hp, hpj]

/-- Signed vectors: correct in every lane provided all amounts are non-negative and the lane is non-negative
(or the amount is a multiple of the width). -/
theorem C15_rotate_left_signed_partial (hw : 0 < w) (h8 : 8 ∣ w) (a b : Vec (BitVec w) n)
    (hb : ∀ i (_ : i < n), 0 ≤ val true b[i]) :
    ∃ r, Ops.rotateLeft true a b = .ok r ∧
      ∀ i (h : i < n), (0 ≤ val true a[i] ∨ b[i].toNat % w = 0) → RotatedLeft b[i].toNat a[i] r[i] := by
  refine ⟨_, rotateLeft_eq hw h8 true a b hb, ?_⟩
  intro i h hc
  simp only [Vector.getElem_zipWith, if_true]
  apply rotated_mod_left
  rcases hc with hc | hc
  · rw [sshiftRight_of_nonneg _ _ hc]
    exact rot_left_bits _ _ (Nat.mod_lt _ hw)
  · rw [hc]
    intro j hj
    simp [Nat.mod_eq_of_lt hj, hj]

theorem C15_rotate_right_signed_partial (hw : 0 < w) (h8 : 8 ∣ w) (a b : Vec (BitVec w) n)
    (hb : ∀ i (_ : i < n), 0 ≤ val true b[i]) :
    ∃ r, Ops.rotateRight true a b = .ok r ∧
      ∀ i (h : i < n), (0 ≤ val true a[i] ∨ b[i].toNat % w = 0) → RotatedRight b[i].toNat a[i] r[i] := by
  refine ⟨_, rotateRight_eq hw h8 true a b hb, ?_⟩
  intro i h hc
  simp only [Vector.getElem_zipWith, if_true]
  apply rotated_mod_right
  rcases hc with hc | hc
  · rw [sshiftRight_of_nonneg _ _ hc]
    exact rot_right_bits _ _ (Nat.mod_lt _ hw)
  · rw [hc]
    intro j hj
    simp [Nat.mod_eq_of_lt hj]

/-- The full claim fails for signed vectors: `i8x1::splat(-128).rotate_left(splat(1))` is `-1`, not `1`. -/
theorem C15_rotate_left_signed_fails :
    ∃ (a b r : Vec (BitVec 8) 1), Ops.rotateLeft true a b = .ok r ∧ ¬ RotatedLeft b[0].toNat a[0] r[0] := by
  refine ⟨#v[-128], #v[1], #v[-1], by decide +kernel, ?_⟩
  intro h
  have := h 0 (by decide)
  revert this; decide

theorem C15_rotate_right_signed_fails :
    ∃ (a b r : Vec (BitVec 8) 1), Ops.rotateRight true a b = .ok r ∧ ¬ RotatedRight b[0].toNat a[0] r[0] := by
  refine ⟨#v[-128], #v[1], #v[-64], by decide +kernel, ?_⟩
  intro h
  have := h 7 (by decide)
  revert this; decide

/-- The failure is not isolated: for every width, rotating any negative lane left by `m` with `0 < m < w` yields a
lane whose bits from `m` upward are all ones, whatever the lane was. -/
theorem C15_rotate_left_signed_negative_lane (hw : 0 < w) (h8 : 8 ∣ w) (a b : Vec (BitVec w) n)
    (hb : ∀ i (_ : i < n), 0 ≤ val true b[i]) :
    ∃ r, Ops.rotateLeft true a b = .ok r ∧
      ∀ i (h : i < n), val true a[i] < 0 → b[i].toNat % w ≠ 0 →
        ∀ j, b[i].toNat % w ≤ j → j < w → r[i].getLsbD j = true := by
  refine ⟨_, rotateLeft_eq hw h8 true a b hb, ?_⟩
  intro i h ha hm j hj1 hj2
  have hmw : b[i].toNat % w < w := Nat.mod_lt _ hw
  simp only [Vector.getElem_zipWith, if_true]
  rw [Nat.mod_eq_of_lt (by omega : w - b[i].toNat % w < w)]
  rw [BitVec.getLsbD_or, BitVec.getLsbD_sshiftRight]
  have hmsb : a[i].msb = true := by
    rw [val_true] at ha
    rw [BitVec.msb_eq_toInt]; simp [ha]
  rcases Nat.lt_or_ge (w - b[i].toNat % w + j) w with hh | hh
  · omega
  · have : ¬ (w ≤ j) := by omega
    have : ¬ (w - b[i].toNat % w + j < w) := by omega
    simp [*]

/-- Negative amounts (which the documentation does not exclude) shift by an over-long amount: undefined behaviour,
although the code means to protect against it. -/
theorem C15_rotate_signed_negative_amount_ub :
    Ops.rotateLeft true #v[(1 : BitVec 8)] #v[-1] = .error .ub ∧
    Ops.rotateRight true #v[(1 : BitVec 8)] #v[-1] = .error .ub := by decide +kernel

example : Ops.rotateLeft false #v[(0x81 : BitVec 8), 0x81] #v[1, 12] = .ok #v[0x03, 0x18] := by decide +kernel
example : ∀ i (_ : i < 2), 0 ≤ val true (#v[(3 : BitVec 8), 8])[i] := by decide +kernel

end PackedSimd.Props
