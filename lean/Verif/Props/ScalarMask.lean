import Verif.Lemmas.Lanes
import Verif.Model.Slices
/-
C56: scalar masks.
-/
namespace PackedSimd.Props
open PackedSimd Spec Intr

variable {w : Nat}

/-- `m*::new(b)` is a valid mask lane and `test` recovers `b`. -/
theorem C56_new_test (hw : 0 < w) (b : Bool) : IsMaskLane (MaskLane.new w b) b ∧ MaskLane.test (MaskLane.new w b) = b := by
  have e : MaskLane.new w b = maskBits w b := by cases b <;> simp [MaskLane.new, maskBits]
  rw [e, isMaskLane_iff]
  exact ⟨rfl, by simp only [MaskLane.test]; exact maskBits_ne_zero hw b⟩

theorem slt_mask (hw : 0 < w) (a b : Bool) : (maskBits w a).slt (maskBits w b) = (a && !b) := by
  have hne : BitVec.allOnes w ≠ 0#w := by
    intro h
    have h1 := congrArg BitVec.toNat h
    rw [BitVec.toNat_allOnes, BitVec.toNat_ofNat, Nat.zero_mod] at h1
    have := Nat.pow_le_pow_right (show 0 < 2 by decide) hw
    omega
  have h0 : (0#w).toInt = 0 := by simp
  have h1 : (BitVec.allOnes w).toInt = -1 := by
    rw [BitVec.toInt_allOnes]; simp [hw]
  cases a <;> cases b <;> simp [maskBits, BitVec.slt, h1]

/-- Every comparison of scalar masks is the comparison of the Booleans, with `false < true`. -/
theorem C56_compare (hw : 0 < w) (x y : BitVec w) (a b : Bool) (hx : IsMaskLane x a) (hy : IsMaskLane y b) :
    MaskLane.eq x y = (a == b) ∧ MaskLane.ne x y = (a != b) ∧
    MaskLane.lt x y = (!a && b) ∧ MaskLane.gt x y = (a && !b) ∧
    MaskLane.le x y = (!a || b) ∧ MaskLane.ge x y = (a || !b) ∧
    MaskLane.partialCmp x y = some (compare a b) ∧ MaskLane.cmp x y = .ok (compare a b) := by
  rw [isMaskLane_iff] at hx hy
  subst hx hy
  have heq : (maskBits w a == maskBits w b) = (a == b) := by
    have h1 := maskBits_ne_zero hw a
    have h2 := maskBits_ne_zero hw b
    by_cases h : a = b
    · subst h; simp
    · have : maskBits w a ≠ maskBits w b := by
        intro hc; rw [hc, h2] at h1; exact h h1.symm
      rw [beq_eq_false_iff_ne.2 this, beq_eq_false_iff_ne.2 h]
  have hsle : ∀ p q : Bool, (maskBits w p).sle (maskBits w q) = (p || !q) := by
    intro p q
    have := slt_mask hw q p
    rw [BitVec.sle_eq_not_slt, this]
    cases p <;> cases q <;> rfl
  have hc : MaskLane.partialCmp (maskBits w a) (maskBits w b) = some (compare a b) := by
    unfold MaskLane.partialCmp MaskLane.eq
    rw [heq, slt_mask hw]
    cases a <;> cases b <;> rfl
  refine ⟨heq, ?_, ?_, ?_, ?_, ?_, hc, ?_⟩
  · unfold MaskLane.ne; rw [bne, heq]; rfl
  · unfold MaskLane.lt; rw [slt_mask hw]; cases a <;> cases b <;> rfl
  · unfold MaskLane.gt; rw [slt_mask hw]
  · unfold MaskLane.le; rw [hsle]; cases a <;> cases b <;> rfl
  · unfold MaskLane.ge; rw [hsle]
  · unfold MaskLane.cmp; rw [hc]

/-- Hashing feeds exactly the Boolean to the hasher. -/
theorem C56_hash {σ : Type} (hw : 0 < w) (H : Hasher σ Bool) (x : BitVec w) (a : Bool) (hx : IsMaskLane x a) (st : σ) :
    MaskLane.hash H x st = H.writeElem st a := by
  rw [isMaskLane_iff] at hx
  subst hx
  unfold MaskLane.hash
  rw [maskBits_ne_zero hw]

example : IsMaskLane (MaskLane.new 8 true) true ∧ MaskLane.lt (MaskLane.new 8 false) (MaskLane.new 8 true) = true ∧
    MaskLane.cmp (MaskLane.new 8 true) (MaskLane.new 8 false) = .ok .gt :=
  ⟨(C56_new_test (by decide) true).1, by decide +kernel, by decide +kernel⟩

end PackedSimd.Props
