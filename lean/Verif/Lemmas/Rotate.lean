import Verif.Lemmas.Ops

namespace PackedSimd
open Intr Spec

variable {w n : Nat}

theorem laneWidth_toNat (h8 : 8 ∣ w) : (Ops.laneWidth w).toNat = w := by
  unfold Ops.laneWidth
  have h := Nat.lt_two_pow_self (n := w)
  rw [BitVec.toNat_mul, BitVec.toNat_ofNat, BitVec.toNat_ofNat, ← Nat.mul_mod, Nat.div_mul_cancel h8]
  exact Nat.mod_eq_of_lt h

theorem laneWidth_ne_zero (hw : 0 < w) (h8 : 8 ∣ w) : Ops.laneWidth w ≠ 0#w := by
  intro h
  have := congrArg BitVec.toNat h
  rw [laneWidth_toNat h8] at this
  simp at this; omega

theorem two_mul_lt_two_pow : ∀ {w : Nat}, 8 ≤ w → 2 * w < 2 ^ w := by
  intro w h
  induction w with
  | zero => omega
  | succ w ih =>
    rcases Nat.lt_or_ge w 8 with h' | h'
    · have : w = 7 := by omega
      subst this; decide
    · have := ih h'
      rw [Nat.pow_succ]; omega

theorem le_of_pos_dvd (hw : 0 < w) (h8 : 8 ∣ w) : 8 ≤ w := Nat.le_of_dvd hw h8

theorem laneWidth_toInt (hw : 0 < w) (h8 : 8 ∣ w) : (Ops.laneWidth w).toInt = w := by
  rw [BitVec.toInt_eq_toNat_of_lt, laneWidth_toNat h8]
  rw [laneWidth_toNat h8]; exact two_mul_lt_two_pow (le_of_pos_dvd hw h8)

/-- Remainder by `LANE_WIDTH` never faults. -/
theorem remVS_laneWidth (hw : 0 < w) (h8 : 8 ∣ w) (s : Bool) (a : Vec (BitVec w) n) :
    Ops.remVS s a (Ops.laneWidth w) =
      .ok (a.map fun x => if s then x.srem (Ops.laneWidth w) else x.umod (Ops.laneWidth w)) := by
  unfold Ops.remVS Ops.rem simdRem
  rw [if_neg]
  · congr 1; ext i h : 1; simp [splat]
  · intro h
    rw [Vector.any_eq_true] at h
    obtain ⟨i, hi, h⟩ := h
    simp only [Vector.getElem_zipWith, splat, Vector.getElem_ofFn, id] at h
    rw [divBad_iff] at h
    have hL : val s (Ops.laneWidth w) = w := by
      cases s
      · rw [val_false, laneWidth_toNat h8]
      · rw [val_true, laneWidth_toInt hw h8]
    rw [hL] at h
    rcases h with h | ⟨_, _, h⟩ <;> omega

/-- The rotation amount after reduction, for amounts that are non-negative in the lane type. -/
theorem rem_laneWidth_toNat (hw : 0 < w) (h8 : 8 ∣ w) (s : Bool) (x : BitVec w) (hx : 0 ≤ val s x) :
    (if s then x.srem (Ops.laneWidth w) else x.umod (Ops.laneWidth w)).toNat = x.toNat % w := by
  cases s
  · simp only [Bool.false_eq_true, if_false]
    rw [BitVec.umod_eq, BitVec.toNat_umod, laneWidth_toNat h8]
  · simp only [if_true]
    rw [val_true] at hx
    have hx2 : x.toInt = x.toNat := by
      rw [BitVec.toInt_eq_toNat_cond] at hx ⊢
      have := x.isLt
      split
      · rfl
      · rename_i h; rw [if_neg h] at hx; omega
    have h1 : (x.srem (Ops.laneWidth w)).toInt = ((x.toNat % w : Nat) : Int) := by
      rw [BitVec.toInt_srem, laneWidth_toInt hw h8, hx2]; exact (Int.ofNat_tmod _ _).symm
    have h2 : x.toNat % w < w := Nat.mod_lt _ hw
    have h3 := two_mul_lt_two_pow (le_of_pos_dvd hw h8)
    have h4 := (x.srem (Ops.laneWidth w)).isLt
    rw [BitVec.toInt_eq_toNat_cond] at h1
    split at h1 <;> omega

theorem shl_ok (a b : Vec (BitVec w) n) (h : ∀ i (_ : i < n), b[i].toNat < w) :
    Ops.shl a b = .ok (Vector.zipWith (fun x y => x <<< y.toNat) a b) := by
  unfold Ops.shl simdShl
  rw [if_neg]
  simp only [Vector.any_eq_true, decide_eq_true_eq, not_exists]
  intro i hi; have := h i hi; omega

theorem shr_ok (s : Bool) (a b : Vec (BitVec w) n) (h : ∀ i (_ : i < n), b[i].toNat < w) :
    Ops.shr s a b = .ok (Vector.zipWith (fun x y => if s then x.sshiftRight y.toNat else x >>> y.toNat) a b) := by
  unfold Ops.shr simdShr
  rw [if_neg]
  simp only [Vector.any_eq_true, decide_eq_true_eq, not_exists]
  intro i hi; have := h i hi; omega

/-- Closed form of the two shift amounts. -/
theorem rot_amounts (hw : 0 < w) (h8 : 8 ∣ w) (s : Bool) (b : Vec (BitVec w) n)
    (hb : ∀ i (_ : i < n), 0 ≤ val s b[i]) :
    ∃ m k : Vec (BitVec w) n,
      Ops.remVS s b (Ops.laneWidth w) = .ok m ∧
      Ops.remVS s (Ops.subSV (Ops.laneWidth w) m) (Ops.laneWidth w) = .ok k ∧
      ∀ i (_ : i < n), m[i].toNat = b[i].toNat % w ∧ k[i].toNat = (w - b[i].toNat % w) % w := by
  refine ⟨_, _, remVS_laneWidth hw h8 s b, remVS_laneWidth hw h8 s _, ?_⟩
  intro i hi
  have h1 := rem_laneWidth_toNat hw h8 s b[i] (hb i hi)
  have hmod : b[i].toNat % w < w := Nat.mod_lt _ hw
  have h3 := two_mul_lt_two_pow (le_of_pos_dvd hw h8)
  constructor
  · rw [Vector.getElem_map]; exact h1
  · rw [Vector.getElem_map]
    have hsub : (Ops.subSV (Ops.laneWidth w) (b.map fun x => if s then x.srem (Ops.laneWidth w) else x.umod (Ops.laneWidth w)))[i].toNat
        = w - b[i].toNat % w := by
      simp only [Ops.subSV, Ops.sub, simdSub, Vector.getElem_zipWith, splat, Vector.getElem_ofFn, Vector.getElem_map]
      rw [BitVec.toNat_sub_of_le, laneWidth_toNat h8, h1]
      rw [BitVec.le_def, laneWidth_toNat h8, h1]; omega
    rw [rem_laneWidth_toNat hw h8 s, hsub]
    cases s
    · rw [val_false]; omega
    · rw [val_true, BitVec.toInt_eq_toNat_cond, hsub, if_pos] <;> omega

theorem rotateLeft_eq (hw : 0 < w) (h8 : 8 ∣ w) (s : Bool) (a b : Vec (BitVec w) n)
    (hb : ∀ i (_ : i < n), 0 ≤ val s b[i]) :
    Ops.rotateLeft s a b = .ok (Vector.zipWith (fun (x y : BitVec w) => x <<< (y.toNat % w) |||
      (if s then x.sshiftRight ((w - y.toNat % w) % w) else x >>> ((w - y.toNat % w) % w))) a b) := by
  obtain ⟨m, k, hm, hk, hmk⟩ := rot_amounts hw h8 s b hb
  unfold Ops.rotateLeft
  rw [hm]
  show (Ops.shl a m >>= _) = _
  rw [shl_ok a m (fun i hi => by rw [(hmk i hi).1]; exact Nat.mod_lt _ hw)]
  show (Ops.remVS s (Ops.subSV (Ops.laneWidth w) m) (Ops.laneWidth w) >>= _) = _
  rw [hk]
  show (Ops.shr s a k >>= _) = _
  rw [shr_ok s a k (fun i hi => by rw [(hmk i hi).2]; exact Nat.mod_lt _ hw)]
  show Except.ok _ = _
  congr 1
  ext i hi : 1
  simp only [Ops.bitor, simdOr, Vector.getElem_zipWith, (hmk i hi).1, (hmk i hi).2]

theorem rotateRight_eq (hw : 0 < w) (h8 : 8 ∣ w) (s : Bool) (a b : Vec (BitVec w) n)
    (hb : ∀ i (_ : i < n), 0 ≤ val s b[i]) :
    Ops.rotateRight s a b = .ok (Vector.zipWith (fun (x y : BitVec w) =>
      (if s then x.sshiftRight (y.toNat % w) else x >>> (y.toNat % w)) ||| x <<< ((w - y.toNat % w) % w)) a b) := by
  obtain ⟨m, k, hm, hk, hmk⟩ := rot_amounts hw h8 s b hb
  unfold Ops.rotateRight
  rw [hm]
  show (Ops.shr s a m >>= _) = _
  rw [shr_ok s a m (fun i hi => by rw [(hmk i hi).1]; exact Nat.mod_lt _ hw)]
  show (Ops.remVS s (Ops.subSV (Ops.laneWidth w) m) (Ops.laneWidth w) >>= _) = _
  rw [hk]
  show (Ops.shl a k >>= _) = _
  rw [shl_ok a k (fun i hi => by rw [(hmk i hi).2]; exact Nat.mod_lt _ hw)]
  show Except.ok _ = _
  congr 1
  ext i hi : 1
  simp only [Ops.bitor, simdOr, Vector.getElem_zipWith, (hmk i hi).1, (hmk i hi).2]

/-- Bits of the shift/or combination, logical shift. -/
theorem rot_left_bits (x : BitVec w) (m : Nat) (hm : m < w) :
    RotatedLeft m x (x <<< m ||| x >>> ((w - m) % w)) := by
  intro j hj
  rcases Nat.eq_zero_or_pos m with h0 | h0
  · subst h0; simp [Nat.mod_eq_of_lt hj, hj]
  · rw [Nat.mod_eq_of_lt (by omega : w - m < w)]
    rw [BitVec.getLsbD_or, BitVec.getLsbD_shiftLeft, BitVec.getLsbD_ushiftRight]
    rcases Nat.lt_or_ge (j + m) w with h | h
    · rw [Nat.mod_eq_of_lt h]
      have e1 : j + m - m = j := by omega
      rw [e1, BitVec.getLsbD_of_ge x (w - m + (j + m)) (by omega)]
      simp [h]
    · have e : (j + m) % w = j + m - w := by
        rw [Nat.mod_eq_sub_mod h, Nat.mod_eq_of_lt (by omega)]
      rw [e]
      have e1 : w - m + (j + m - w) = j := by omega
      rw [e1]
      have e2 : j + m - w < m := by omega
      simp [e2]

theorem rot_right_bits (x : BitVec w) (m : Nat) (hm : m < w) :
    RotatedRight m x (x >>> m ||| x <<< ((w - m) % w)) := by
  intro j hj
  rcases Nat.eq_zero_or_pos m with h0 | h0
  · subst h0; simp [Nat.mod_eq_of_lt hj]
  · rw [Nat.mod_eq_of_lt (by omega : w - m < w)]
    rw [BitVec.getLsbD_or, BitVec.getLsbD_shiftLeft, BitVec.getLsbD_ushiftRight]
    rcases Nat.lt_or_ge (j + m) w with h | h
    · rw [Nat.mod_eq_of_lt h]
      have e2 : j < w - m := by omega
      simp [e2, Nat.add_comm]
    · have e : (j + m) % w = j + m - w := by
        rw [Nat.mod_eq_sub_mod h, Nat.mod_eq_of_lt (by omega)]
      rw [e, BitVec.getLsbD_of_ge x (m + j) (by omega)]
      have e1 : j - (w - m) = j + m - w := by omega
      rw [e1]
      have e2 : ¬ j < w - m := by omega
      simp [e2, hj]

theorem sshiftRight_of_nonneg (x : BitVec w) (k : Nat) (h : 0 ≤ val true x) : x.sshiftRight k = x >>> k := by
  apply BitVec.sshiftRight_eq_of_msb_false
  rw [val_true] at h
  rw [BitVec.msb_eq_toInt]; simp; omega

theorem rotated_mod_left {k : Nat} {x r : BitVec w} (h : RotatedLeft (k % w) x r) : RotatedLeft k x r := by
  intro j hj
  rw [← h j hj]; congr 1; simp [Nat.add_mod]

theorem rotated_mod_right {k : Nat} {x r : BitVec w} (h : RotatedRight (k % w) x r) : RotatedRight k x r := by
  intro j hj
  rw [h j hj]; congr 1; simp [Nat.add_mod]

end PackedSimd
