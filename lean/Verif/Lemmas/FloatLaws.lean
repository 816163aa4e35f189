import Verif.Lemmas.FloatOps
/-
Laws of the float operations that hold bit for bit.
-/
namespace PackedSimd
open Spec

variable {w man : Nat}

/-- A pattern that an operation can return: the only NaN is the canonical one. -/
def Canon (man : Nat) (x : BitVec w) : Prop := Flt.isNaN man x = true → x = Flt.qnan w man

theorem eq_of_sign_mag (hf : Format w man) {x y : BitVec w} (h1 : isNeg x = isNeg y) (h2 : magBits x = magBits y) : x = y := by
  rw [eq_mk hf x, eq_mk hf y, h1, h2]

theorem fadd_comm (hf : Format w man) (x y : BitVec w) : Flt.add man x y = Flt.add man y x := by
  unfold Flt.add
  rcases lane_cases (man := man) x with ⟨a1, a3, a4, a2⟩ | ⟨a1, a3, a4, a2⟩ | ⟨a1, a3, a4, a2⟩ <;>
  rcases lane_cases (man := man) y with ⟨b1, b3, b4, b2⟩ | ⟨b1, b3, b4, b2⟩ | ⟨b1, b3, b4, b2⟩ <;>
  simp only [a1, b1, a3, b3, Bool.or_true, Bool.or_false, Bool.true_or, Bool.false_or, if_true, Bool.false_eq_true, if_false, Bool.true_and,
    Bool.false_and]
  · cases h1 : isNeg x <;> cases h2 : isNeg y <;> simp
    · exact eq_of_sign_mag hf (by rw [h1, h2]) (by rw [a4, b4])
    · exact eq_of_sign_mag hf (by rw [h1, h2]) (by rw [a4, b4])
  · rw [Bool.and_comm, Int.add_comm]

theorem fmul_comm (x y : BitVec w) : Flt.mul man x y = Flt.mul man y x := by
  unfold Flt.mul
  have e : (isNeg x != isNeg y) = (isNeg y != isNeg x) := by cases isNeg x <;> cases isNeg y <;> rfl
  rcases lane_cases (man := man) x with ⟨a1, a3, a4, a2⟩ | ⟨a1, a3, a4, a2⟩ | ⟨a1, a3, a4, a2⟩ <;>
  rcases lane_cases (man := man) y with ⟨b1, b3, b4, b2⟩ | ⟨b1, b3, b4, b2⟩ | ⟨b1, b3, b4, b2⟩ <;>
  simp only [a1, b1, a3, b3, Bool.or_true, Bool.or_false, Bool.true_or, Bool.false_or, if_true, Bool.false_eq_true, if_false, e]
  · simp only [a4, b4]
  · rw [Nat.mul_comm]

/-- Rounding a representable magnitude does nothing. -/
theorem roundMag_self (hf : Format w man) {b : Nat} (hb : b ≤ infMag w man) : Flt.roundMag w man (magUnits man b) 1 = b :=
  nearest_exact (by decide) (roundMag_nearest hf.1 _ _ (by decide)) hb (by omega)

/-- Rounding a value that is a float does nothing; the sign of a zero is the one given. -/
theorem roundInt_units (hf : Format w man) (x : BitVec w) (hx : magBits x < infMag w man) (z : Bool) (hz : magBits x = 0 → isNeg x = z) :
    Flt.roundInt w man z (Flt.units man x) 1 = x := by
  unfold Flt.roundInt
  split
  · rename_i h
    have h0 := (units_eq_zero x).1 h
    rw [eq_mk hf x, h0, hz h0]
  · rename_i h
    have h0 : magBits x ≠ 0 := fun e => h ((units_eq_zero x).2 e)
    rw [units_neg x h0, units_natAbs, roundMag_self hf (by omega), ← eq_mk hf x]

/-- `0.0 + x` is `x` unless `x` is `-0.0`. -/
theorem fzero_add (hf : Format w man) (x : BitVec w) (hc : Canon man x) (hz : ¬ (magBits x = 0 ∧ isNeg x = true)) : Flt.add man 0 x = x := by
  have hI := infMag_pos hf
  have m0 : magBits (0 : BitVec w) = 0 := by simp [magBits]
  have n0 : isNeg (0 : BitVec w) = false := by
    unfold isNeg
    have := Nat.two_pow_pos (w - 1)
    simp
  have u0 : Flt.units man (0 : BitVec w) = 0 := (units_eq_zero _).2 m0
  have i0 : Flt.isNaN man (0 : BitVec w) = false := by unfold Flt.isNaN; rw [m0]; simp
  have j0 : Flt.isInf man (0 : BitVec w) = false := by unfold Flt.isInf; rw [m0]; simp; omega
  unfold Flt.add
  rcases lane_cases (man := man) x with ⟨b1, b3, b4, b2⟩ | ⟨b1, b3, b4, b2⟩ | ⟨b1, b3, b4, b2⟩ <;>
  simp only [i0, j0, b1, b3, Bool.or_true, Bool.or_false, if_true, Bool.false_eq_true, if_false]
  · exact (hc b1).symm
  · rw [n0, Bool.false_and, u0, Int.zero_add]
    refine roundInt_units hf x b4 _ fun h => ?_
    cases h' : isNeg x
    · rfl
    · exact absurd ⟨h, h'⟩ hz

theorem isNaN_mk (hf : Format w man) (neg : Bool) {b : Nat} (hb : b ≤ infMag w man) : Flt.isNaN man (Flt.mk w neg b) = false := by
  have hlt := infMag_lt hf
  have := Nat.two_pow_pos man
  unfold Flt.isNaN
  rw [(magBits_mk hf neg (show b < 2 ^ (w - 1) by omega)).1]
  simp; omega

theorem canon_qnan (man : Nat) : Canon man (Flt.qnan w man) := fun _ => rfl
theorem canon_mk (hf : Format w man) (neg : Bool) {b : Nat} (hb : b ≤ infMag w man) : Canon man (Flt.mk w neg b) := by
  intro h; rw [isNaN_mk hf neg hb] at h; cases h
theorem canon_roundInt (hf : Format w man) (z : Bool) (num : Int) (den : Nat) (hd : 0 < den) : Canon man (Flt.roundInt w man z num den) := by
  unfold Flt.roundInt
  split
  · exact canon_mk hf _ (Nat.zero_le _)
  · exact canon_mk hf _ (roundMag_le hf _ _ hd)

theorem canon_add (hf : Format w man) (x y : BitVec w) : Canon man (Flt.add man x y) := by
  unfold Flt.add
  rcases lane_cases (man := man) x with ⟨a1, a3, a4, a2⟩ | ⟨a1, a3, a4, a2⟩ | ⟨a1, a3, a4, a2⟩ <;>
  rcases lane_cases (man := man) y with ⟨b1, b3, b4, b2⟩ | ⟨b1, b3, b4, b2⟩ | ⟨b1, b3, b4, b2⟩ <;>
  simp only [a1, b1, a3, b3, Bool.or_true, Bool.or_false, Bool.true_or, Bool.false_or, if_true, Bool.false_eq_true, if_false, Bool.true_and,
    Bool.false_and] <;>
  first
    | exact canon_qnan man
    | exact canon_roundInt hf _ _ _ (by decide)
    | skip
  · split
    · exact canon_qnan man
    · intro h; rw [a1] at h; cases h
  · intro h; rw [a1] at h; cases h
  · intro h; rw [b1] at h; cases h

/-- A sum is `-0.0` only if both operands are. -/
theorem add_negzero (hf : Format w man) (x y : BitVec w) (hm : magBits (Flt.add man x y) = 0) (hs : isNeg (Flt.add man x y) = true) :
    magBits x = 0 ∧ isNeg x = true := by
  have hI := infMag_pos hf
  have hlt := infMag_lt hf
  have hp := Nat.two_pow_pos man
  have hq : magBits (Flt.qnan w man) ≠ 0 := by
    have := (isNaN_iff (man := man) (Flt.qnan w man)).2 (valueOf_qnan hf)
    unfold Flt.isNaN at this
    have := of_decide_eq_true this
    omega
  unfold Flt.add at hm hs
  rcases lane_cases (man := man) x with ⟨a1, a3, a4, a2⟩ | ⟨a1, a3, a4, a2⟩ | ⟨a1, a3, a4, a2⟩ <;>
  rcases lane_cases (man := man) y with ⟨b1, b3, b4, b2⟩ | ⟨b1, b3, b4, b2⟩ | ⟨b1, b3, b4, b2⟩ <;>
  simp only [a1, b1, a3, b3, Bool.or_true, Bool.or_false, Bool.true_or, Bool.false_or, if_true, Bool.false_eq_true, if_false, Bool.true_and,
    Bool.false_and] at hm hs
  all_goals first
    | exact absurd hm hq
    | skip
  · split at hm
    · exact absurd hm hq
    · omega
  · omega
  · omega
  · unfold Flt.roundInt at hm hs
    split at hm
    · rename_i h
      rw [if_pos h, (magBits_mk hf _ (by omega)).2] at hs
      simp only [Bool.and_eq_true] at hs
      refine ⟨?_, hs.1⟩
      rw [← units_eq_zero (man := man)]
      have hx : Flt.units man x ≤ 0 := by unfold Flt.units; rw [if_pos hs.1]; omega
      have hy : Flt.units man y ≤ 0 := by unfold Flt.units; rw [if_pos hs.2]; omega
      omega
    · rename_i h
      exfalso
      have hr := roundMag_nearest (w := w) hf.1 (Flt.units man x + Flt.units man y).natAbs 1 (by decide)
      rw [(magBits_mk hf _ (by have := hr.1; omega)).1] at hm
      rw [hm] at hr
      have := hr.2.1 1 (by omega)
      have m1 : magUnits man 1 = 1 := by
        have h1 : 1 < 2 ^ man := Nat.one_lt_two_pow (by have := hf.1; omega)
        simp [magUnits, Nat.div_eq_of_lt h1, Nat.mod_eq_of_lt h1]
      have m0 : magUnits man 0 = 0 := by simp [magUnits]
      rw [m0, m1] at this
      omega

/-- A sum built up from `0.0` does not change when `0.0` is added in front. -/
theorem fold_zero_add (hf : Format w man) (l : List (BitVec w)) :
    Flt.add man 0 (l.foldl (Flt.add man) 0) = l.foldl (Flt.add man) 0 := by
  have m0 : magBits (0 : BitVec w) = 0 := by simp [magBits]
  have n0 : isNeg (0 : BitVec w) = false := by
    unfold isNeg
    have := Nat.two_pow_pos (w - 1)
    simp
  have i0 : Flt.isNaN man (0 : BitVec w) = false := by unfold Flt.isNaN; rw [m0]; simp
  have key : ∀ (l : List (BitVec w)) (s : BitVec w), Canon man s → ¬ (magBits s = 0 ∧ isNeg s = true) →
      Canon man (l.foldl (Flt.add man) s) ∧ ¬ (magBits (l.foldl (Flt.add man) s) = 0 ∧ isNeg (l.foldl (Flt.add man) s) = true) := by
    intro l
    induction l with
    | nil => intro s h1 h2; exact ⟨h1, h2⟩
    | cons x l ih =>
      intro s h1 h2
      exact ih _ (canon_add hf s x) fun h => h2 (add_negzero hf s x h.1 h.2)
  obtain ⟨h1, h2⟩ := key l 0 (fun h => by rw [i0] at h; cases h) (fun h => by rw [n0] at h; cases h.2)
  exact fzero_add hf _ h1 h2

end PackedSimd
