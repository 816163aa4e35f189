import Verif.Lemmas.BitManip
import Verif.Props.MaskReduce
/-
C34: count_ones, count_zeros, leading_zeros, trailing_zeros.
-/
namespace PackedSimd.Props
open PackedSimd Spec Intr

namespace Spec34
/-- Number of bit positions holding `b`. -/
def bitCount {w : Nat} (b : Bool) (x : BitVec w) : Nat := (List.range w).countP fun j => x.getLsbD j == b
/-- `z` is the length of the run of zero bits starting at the least significant end. -/
def IsTrailing {w : Nat} (x : BitVec w) (z : Nat) : Prop :=
  z ≤ w ∧ (∀ j, j < z → x.getLsbD j = false) ∧ (z < w → x.getLsbD z = true)
/-- `z` is the length of the run of zero bits starting at the most significant end. -/
def IsLeading {w : Nat} (x : BitVec w) (z : Nat) : Prop :=
  z ≤ w ∧ (∀ j, j < z → x.getLsbD (w - 1 - j) = false) ∧ (z < w → x.getLsbD (w - 1 - z) = true)
end Spec34
open Spec34

variable {w n : Nat}

theorem val_ofNat_small (s : Bool) (hw : 8 ≤ w) {c : Nat} (hc : c ≤ w) : val s (BitVec.ofNat w c) = c := by
  have h1 : w < 2 ^ (w - 1) := by
    have : ∀ m, 7 ≤ m → m + 1 < 2 ^ m := by
      intro m hm
      induction m with
      | zero => omega
      | succ m ih =>
        by_cases h : m = 6
        · subst h; decide
        · have := ih (by omega)
          rw [Nat.pow_succ]; omega
    have := this (w - 1) (by omega)
    omega
  have h2 : 2 ^ w = 2 * 2 ^ (w - 1) := by
    rw [← Nat.pow_succ', show (w - 1).succ = w by omega]
  have h3 : (BitVec.ofNat w c).toNat = c := by
    rw [BitVec.toNat_ofNat, Nat.mod_eq_of_lt (by omega)]
  unfold val
  rw [h3]
  have h4 : ¬ 2 ^ w ≤ 2 * c := by omega
  simp [h4]

theorem scalarLoop_spec [LaneCount n] (f : BitVec w → BitVec 32) (v : Vec (BitVec w) n) :
    BitManip.scalarLoop f v = .ok (v.map fun x => (f x).setWidth w) := by
  unfold BitManip.scalarLoop
  have := forRange_replace (n := n) (fun i => do let x ← extract v i; .ok ((f x).setWidth w))
    (fun i => if hi : i < n then (f v[i]).setWidth w else 0#w) (by
      intro i hi
      rw [extract_of_lt v hi, dif_pos hi]; rfl) v
  have e : (fun (acc : Vec (BitVec w) n) i => do
      let x ← extract v i
      replace acc i ((f x).setWidth w)) = (fun acc i => do
      let x ← (do let x ← extract v i; .ok ((f x).setWidth w))
      replace acc i x) := by
    funext r i
    cases extract v i <;> rfl
  rw [e, this]
  congr 1
  ext i hi : 1
  simp

/-- Both implementations compute the count as a number of the lane type. -/
theorem setWidth_count (hw : 8 ≤ w) (hw2 : w ≤ 128) {c : Nat} (hc : c ≤ w) :
    (BitVec.ofNat 32 c).setWidth w = BitVec.ofNat w c := by
  apply BitVec.eq_of_toNat_eq
  rw [BitVec.toNat_setWidth, BitVec.toNat_ofNat, BitVec.toNat_ofNat, Nat.mod_eq_of_lt (a := c) (b := 2 ^ 32) (by omega)]

theorem viaUnsigned_spec (s : Bool) (f : Vec (BitVec w) n → Vec (BitVec w) n) (v : Vec (BitVec w) n) :
    BitManip.viaUnsigned s f v = .ok (f v) := by
  unfold BitManip.viaUnsigned simdCastInt
  have : v.map (fun x => if s then x.signExtend w else x.setWidth w) = v := by
    ext i hi : 1; cases s <;> simp
  dsimp only
  rw [this]
  congr 1
  ext i hi : 1; simp

theorem counts_spec [LaneCount n] (t : Target) (s : Bool) (hw : 8 ≤ w) (hw2 : w ≤ 128) (v : Vec (BitVec w) n) :
    BitManip.ctpop t s v = .ok (v.map fun x => BitVec.ofNat w (popcountNat w x.toNat)) ∧
    BitManip.ctlz t s v = .ok (v.map fun x => BitVec.ofNat w (clzNat w x.toNat)) ∧
    BitManip.cttz t s v = .ok (v.map fun x => BitVec.ofNat w (ctzNat w x.toNat)) := by
  have e1 : (fun x : BitVec w => (BitManip.countOnes x).setWidth w) = fun x => BitVec.ofNat w (popcountNat w x.toNat) :=
    funext fun x => setWidth_count hw hw2 (popcountNat_le _ _)
  have e2 : (fun x : BitVec w => (BitManip.leadingZeros x).setWidth w) = fun x => BitVec.ofNat w (clzNat w x.toNat) :=
    funext fun x => setWidth_count hw hw2 (clzNat_spec _ _ x.isLt).1
  have e3 : (fun x : BitVec w => (BitManip.trailingZeros x).setWidth w) = fun x => BitVec.ofNat w (ctzNat w x.toNat) :=
    funext fun x => setWidth_count hw hw2 (ctzNat_spec _ _).1
  refine ⟨?_, ?_, ?_⟩
  · unfold BitManip.ctpop; split
    · rw [scalarLoop_spec, e1]
    · rw [viaUnsigned_spec]; rfl
  · unfold BitManip.ctlz; split
    · rw [scalarLoop_spec, e2]
    · rw [viaUnsigned_spec]; rfl
  · unfold BitManip.cttz; split
    · rw [scalarLoop_spec, e3]
    · split
      · rw [scalarLoop_spec, e3]
      · rw [viaUnsigned_spec]; rfl

variable [LaneCount n] (t : Target) (s : Bool) (v : Vec (BitVec w) n)

/-- `count_ones`, `count_zeros`: lane `i` of the result is the number of one (zero) bits of lane `i`, on every target. -/
theorem C34_count (hw : 8 ≤ w) (hw2 : w ≤ 128) :
    (∃ r, countOnes t s v = .ok r ∧ ∀ i (hi : i < n), val s r[i] = bitCount true v[i]) ∧
    (∃ r, countZeros t s v = .ok r ∧ ∀ i (hi : i < n), val s r[i] = bitCount false v[i]) := by
  refine ⟨⟨_, (counts_spec t s hw hw2 v).1, fun i hi => ?_⟩, ⟨_, (counts_spec t s hw hw2 _).1, fun i hi => ?_⟩⟩
  · rw [Vector.getElem_map, val_ofNat_small s hw (popcountNat_le _ _), popcountNat_eq, bitCount]
    congr 2
    funext j; simp [BitVec.getLsbD]
  · rw [Vector.getElem_map, val_ofNat_small s hw (popcountNat_le _ _), popcountNat_eq, bitCount]
    congr 1
    apply List.countP_congr
    intro j hj
    have hj : j < w := by simpa using hj
    have e : (Ops.not v)[i] = ~~~ v[i] := by
      simp [Ops.not, Ops.bitxor, simdXor, splat]
    rw [e, ← BitVec.getLsbD, BitVec.getLsbD_not]
    simp [hj]

/-- The two counts of a lane add up to its width. -/
theorem C34_sum (hw : 8 ≤ w) (hw2 : w ≤ 128) : ∃ a b, countOnes t s v = .ok a ∧ countZeros t s v = .ok b ∧
    ∀ i (hi : i < n), val s a[i] + val s b[i] = w := by
  obtain ⟨⟨a, ha, h1⟩, ⟨b, hb, h2⟩⟩ := C34_count t s v hw hw2
  refine ⟨a, b, ha, hb, fun i hi => ?_⟩
  rw [h1 i hi, h2 i hi]
  unfold bitCount
  have := List.length_eq_countP_add_countP (fun j => v[i].getLsbD j == true) (l := List.range w)
  rw [List.length_range] at this
  have e : (List.range w).countP (fun a => decide ¬(v[i].getLsbD a == true) = true) =
      (List.range w).countP (fun j => v[i].getLsbD j == false) := by
    congr 1; funext j; cases v[i].getLsbD j <;> rfl
  rw [e] at this
  omega

/-- `leading_zeros`, `trailing_zeros`: the length of the maximal run of zeros at that end of the lane (the width for a zero lane). -/
theorem C34_zeros (hw : 8 ≤ w) (hw2 : w ≤ 128) :
    (∃ r, leadingZeros t s v = .ok r ∧ ∀ i (hi : i < n), ∃ z : Nat, val s r[i] = z ∧ IsLeading v[i] z) ∧
    (∃ r, trailingZeros t s v = .ok r ∧ ∀ i (hi : i < n), ∃ z : Nat, val s r[i] = z ∧ IsTrailing v[i] z) := by
  refine ⟨⟨_, (counts_spec t s hw hw2 v).2.1, fun i hi => ?_⟩, ⟨_, (counts_spec t s hw hw2 v).2.2, fun i hi => ?_⟩⟩
  · have h := clzNat_spec w v[i].toNat v[i].isLt
    exact ⟨_, by rw [Vector.getElem_map, val_ofNat_small s hw h.1], h⟩
  · have h := ctzNat_spec w v[i].toNat
    exact ⟨_, by rw [Vector.getElem_map, val_ofNat_small s hw h.1], h⟩

example : countOnes armNeon true #v[(-1 : BitVec 8), 0, 1, 0x80] = .ok #v[8, 0, 1, 1] ∧
    leadingZeros armNeon true #v[(-1 : BitVec 8), 0, 1, 0x80] = .ok #v[0, 8, 7, 0] ∧
    trailingZeros { armNeon with arch := .s390x } true #v[(-1 : BitVec 8), 0, 1, 0x80] = .ok #v[0, 8, 0, 7] ∧
    countZeros armNeon true #v[(-1 : BitVec 8), 0, 1, 0x80] = .ok #v[0, 8, 7, 7] := by decide +kernel

end PackedSimd.Props
