import Verif.Lemmas.FloatOps
import Verif.Lemmas.AoImage
/-
Lemmas for the values of pixels on `f32` and for image.rs.
-/
namespace PackedSimd
open Spec

variable {w man : Nat}

theorem mul_exact (hf : Format w man) {a b : BitVec w} {x y z : Int} (ha : valueOf man a = .num x) (hb : valueOf man b = .num y)
    (hz : x * y = z * 2 ^ low w man) (hr : Representable w man z) : valueOf man (Flt.mul man a b) = .num z := by
  have h := mul_rounds hf a b
  unfold exactMul at h
  rw [ha, hb] at h
  dsimp only at h
  rw [hz] at h
  exact value_of_exact hf (den := 2 ^ low w man) (by push_cast; exact h) hr

theorem div_exact (hf : Format w man) {a b : BitVec w} {x y z : Int} (ha : valueOf man a = .num x) (hb : valueOf man b = .num y) (hy : 0 < y)
    (hz : x * 2 ^ low w man = z * y) (hr : Representable w man z) : valueOf man (Flt.div man a b) = .num z := by
  have h := div_rounds hf a b
  unfold exactDiv at h
  rw [ha, hb] at h
  dsimp only at h
  rw [if_neg (by omega), if_neg (by omega), hz] at h
  refine value_of_exact hf (den := y.natAbs) ?_ hr
  rw [show ((y.natAbs : Nat) : Int) = y by omega]
  exact h

/-- Rounding is monotone. -/
theorem nearest_mono {num num' den b b' : Nat} (hd : 0 < den) (h : IsNearestEven w man num den b) (h' : IsNearestEven w man num' den b') (hn : num ≤ num') : b ≤ b' := by
  by_contra hlt
  have hlt : b' < b := by omega
  have h1 := h.2.1 b' h'.1
  have h2 := h'.2.1 b h.1
  have l := Nat.mul_lt_mul_of_pos_right (magUnits_lt (man := man) hlt) hd
  have : num = num' := by omega
  subst this
  have := nearest_unique hd h h'
  omega

end PackedSimd

namespace PackedSimd.Ex.Ao
open Spec

/-- What `clamp` does with the product. -/
theorem clamp_eq (x : F32) : let p := (x * ⟨Flt.roundInt 32 23 false (511 * 2 ^ 149) 2⟩ : F32).bits
    (clamp x).toNat = if infMag 32 23 < magBits p ∨ isNeg p = true then 0 else min 255 (magUnits 23 (magBits p) / 2 ^ 149) := by
  intro p
  have hc : clamp x = BitVec.ofInt 8 (if (if asIsize ⟨p⟩ < 0 then 0 else asIsize ⟨p⟩) > 255 then 255 else (if asIsize ⟨p⟩ < 0 then 0 else asIsize ⟨p⟩)) := rfl
  have hofInt : ∀ k : Nat, k ≤ 255 → (BitVec.ofInt 8 (k : Int)).toNat = k := by
    intro k hk
    rw [BitVec.toNat_ofInt]
    omega
  have fin : ∀ (i : Int) (k : Nat), asIsize ⟨p⟩ = i → (if (if i < 0 then 0 else i) > 255 then 255 else (if i < 0 then 0 else i)) = (k : Int) → k ≤ 255 → (clamp x).toNat = k := by
    intro i k h1 h2 h3
    rw [hc, h1, h2, hofInt k h3]
  have hneg : p.msb = isNeg p := by
    unfold isNeg
    rw [BitVec.msb_eq_decide]
  rcases lane_cases (man := 23) p with ⟨a1, a3, a4, a2⟩ | ⟨a1, a3, a4, a2⟩ | ⟨a1, a3, a4, a2⟩
  · rw [if_pos (Or.inl a4)]
    refine fin 0 0 ?_ (by decide) (by decide)
    unfold asIsize
    rw [if_pos a1]
  · by_cases hn : isNeg p = true
    · rw [if_pos (Or.inr hn)]
      refine fin (-2 ^ 63) 0 ?_ (by decide) (by decide)
      unfold asIsize
      rw [if_neg (by rw [a1]; decide), if_pos a3, if_pos (by rw [hneg]; exact hn)]
    · rw [if_neg (by rintro (h | h); · omega
                     · exact hn h)]
      rw [a4, show min 255 (magUnits 23 (infMag 32 23) / 2 ^ 149) = 255 by decide]
      refine fin (2 ^ 63 - 1) 255 ?_ (by decide) (by decide)
      unfold asIsize
      rw [if_neg (by rw [a1]; decide), if_pos a3, if_neg (by rw [hneg]; exact hn)]
  · have hi : asIsize ⟨p⟩ = max (-2 ^ 63) (min (2 ^ 63 - 1) (Int.tdiv (Flt.units 23 p) (2 ^ 149))) := by
      unfold asIsize
      rw [if_neg (by rw [a1]; decide), if_neg (by rw [a3]; decide)]
    by_cases hn : isNeg p = true
    · rw [if_pos (Or.inr hn)]
      have : Int.tdiv (Flt.units 23 p) (2 ^ 149) ≤ 0 := by
        unfold Flt.units
        rw [if_pos hn, Int.neg_tdiv]
        have : 0 ≤ Int.tdiv (magUnits 23 (magBits p) : Int) (2 ^ 149) := Int.tdiv_nonneg (by omega) (by decide)
        omega
      refine fin _ 0 hi ?_ (by decide)
      generalize Int.tdiv (Flt.units 23 p) (2 ^ 149) = d at *
      split <;> split <;> omega
    · rw [if_neg (by rintro (h | h); · omega
                     · exact hn h)]
      have : Int.tdiv (Flt.units 23 p) (2 ^ 149) = ((magUnits 23 (magBits p) / 2 ^ 149 : Nat) : Int) := by
        unfold Flt.units
        rw [if_neg hn, Int.tdiv_eq_ediv_of_nonneg (by omega)]
        push_cast
        rfl
      rw [this] at hi
      generalize magUnits 23 (magBits p) / 2 ^ 149 = d at *
      refine fin _ _ hi ?_ (by omega)
      split <;> split <;> omega

end PackedSimd.Ex.Ao
