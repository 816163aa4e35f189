import Verif.Model.Ops
import Verif.Spec.Int
import Verif.Lemmas.Lanes

namespace PackedSimd
open Intr Spec

variable {w n : Nat}

theorem val_true (x : BitVec w) : val true x = x.toInt := by
  unfold val BitVec.toInt
  simp only [Bool.true_and, decide_eq_true_eq]
  by_cases h : 2 ^ w ≤ 2 * x.toNat
  · rw [if_pos h, if_neg (by omega)]; simp
  · rw [if_neg h, if_pos (by omega)]

theorem val_false (x : BitVec w) : val false x = (x.toNat : Int) := by
  simp [val]

theorem val_inRange (s : Bool) (x : BitVec w) : InRange s w (val s x) := by
  have hx := x.isLt
  have e : ((2 ^ w : Nat) : Int) = (2 : Int) ^ w := by simp
  cases s
  · rw [val_false]; simp only [InRange, Bool.false_eq_true, if_false]; omega
  · unfold val InRange
    simp only [Bool.true_and, decide_eq_true_eq, if_true]
    split <;> omega

theorem val_dvd (s : Bool) (x : BitVec w) : (2 ^ w : Int) ∣ val s x - x.toNat := by
  unfold val
  split
  · exact ⟨-1, by omega⟩
  · exact ⟨0, by omega⟩

theorem val_injective {s : Bool} {x y : BitVec w} (h : val s x = val s y) : x = y := by
  have hx := x.isLt
  have hy := y.isLt
  have e : ((2 ^ w : Nat) : Int) = (2 : Int) ^ w := by simp
  apply BitVec.eq_of_toNat_eq
  cases s
  · rw [val_false, val_false] at h; omega
  · rw [val_true, val_true] at h
    exact congrArg _ (BitVec.eq_of_toInt_eq h)

theorem wrapsTo_iff {s : Bool} {z : Int} {x : BitVec w} : WrapsTo s w z x ↔ x = BitVec.ofInt w z := by
  have e : ((2 ^ w : Nat) : Int) = (2 : Int) ^ w := by simp
  have hx := x.isLt
  constructor
  · rintro ⟨_, h⟩
    have h2 : (2 ^ w : Int) ∣ (x.toNat : Int) - z := by
      have := Int.dvd_sub h (val_dvd s x)
      have e2 : val s x - z - (val s x - (x.toNat : Int)) = (x.toNat : Int) - z := by omega
      rwa [e2] at this
    apply BitVec.eq_of_toNat_eq
    rw [BitVec.toNat_ofInt, e]
    have h3 : (x.toNat : Int) % 2 ^ w = z % 2 ^ w := Int.emod_eq_emod_iff_emod_sub_eq_zero.2 (Int.emod_eq_zero_of_dvd h2)
    rw [← h3, Int.emod_eq_of_lt (by omega) (by omega)]; simp
  · rintro rfl
    refine ⟨val_inRange _ _, ?_⟩
    have h1 := val_dvd s (BitVec.ofInt w z)
    have h2 : (2 ^ w : Int) ∣ ((BitVec.ofInt w z).toNat : Int) - z := by
      rw [BitVec.toNat_ofInt, e, Int.toNat_of_nonneg (Int.emod_nonneg _ (by omega))]
      exact ⟨-(z / 2 ^ w), by have := Int.emod_add_mul_ediv z (2^w); rw [Int.mul_neg]; omega⟩
    have := Int.dvd_add h1 h2
    have e2 : val s (BitVec.ofInt w z) - ((BitVec.ofInt w z).toNat : Int) + (((BitVec.ofInt w z).toNat : Int) - z) = val s (BitVec.ofInt w z) - z := by omega
    rwa [e2] at this

theorem ofInt_val (s : Bool) (x : BitVec w) : BitVec.ofInt w (val s x) = x := by
  symm; rw [← wrapsTo_iff (s := s)]
  exact ⟨val_inRange s x, by simp⟩

theorem ofInt_val_add (s : Bool) (x y : BitVec w) : BitVec.ofInt w (val s x + val s y) = x + y := by
  rw [BitVec.ofInt_add, ofInt_val, ofInt_val]

theorem ofInt_val_mul (s : Bool) (x y : BitVec w) : BitVec.ofInt w (val s x * val s y) = x * y := by
  rw [BitVec.ofInt_mul, ofInt_val, ofInt_val]

theorem ofInt_val_sub (s : Bool) (x y : BitVec w) : BitVec.ofInt w (val s x - val s y) = x - y := by
  rw [Int.sub_eq_add_neg, BitVec.ofInt_add, BitVec.ofInt_neg, ofInt_val, ofInt_val, BitVec.sub_eq_add_neg]

theorem ofInt_val_neg (s : Bool) (x : BitVec w) : BitVec.ofInt w (-(val s x)) = -x := by
  rw [BitVec.ofInt_neg, ofInt_val]

end PackedSimd
