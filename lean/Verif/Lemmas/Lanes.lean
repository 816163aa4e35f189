import Verif.Model.Minimal
import Verif.Spec.Basic

namespace PackedSimd
open Intr

variable {α : Type} {w n : Nat}

theorem asU32_of_lt [LaneCount n] {i : Nat} (h : i < n) : asU32 i = i := by
  have := LaneCount.le (n := n)
  unfold asU32
  exact Nat.mod_eq_of_lt (by omega)

theorem extractUnchecked_of_lt [LaneCount n] (v : Vec α n) {i : Nat} (h : i < n) :
    extractUnchecked v i = .ok v[i] := by
  simp [extractUnchecked, simdExtract, asU32_of_lt h, h]

theorem extract_of_lt [LaneCount n] (v : Vec α n) {i : Nat} (h : i < n) : extract v i = .ok v[i] := by
  simp [extract, h, extractUnchecked_of_lt]

theorem extract_of_ge (v : Vec α n) {i : Nat} (h : n ≤ i) : extract v i = .error .panic := by
  simp [extract, Nat.not_lt.mpr h]

theorem replaceUnchecked_of_lt [LaneCount n] (v : Vec α n) {i : Nat} (h : i < n) (x : α) :
    replaceUnchecked v i x = .ok (v.set i x) := by
  simp [replaceUnchecked, simdInsert, asU32_of_lt h, h]

theorem replace_of_lt [LaneCount n] (v : Vec α n) {i : Nat} (h : i < n) (x : α) :
    replace v i x = .ok (v.set i x) := by
  simp [replace, h, replaceUnchecked_of_lt]

theorem replace_of_ge (v : Vec α n) {i : Nat} (h : n ≤ i) (x : α) : replace v i x = .error .panic := by
  simp [replace, Nat.not_lt.mpr h]

@[simp] theorem boolToInternal_eq (x : Bool) : Mask.boolToInternal w x = maskBits w x := by
  cases x <;> simp [Mask.boolToInternal, maskBits]
  all_goals rfl

theorem maskBits_ne_zero (hw : 0 < w) (x : Bool) : (maskBits w x != 0#w) = x := by
  cases x
  · simp [maskBits]
  · simp only [maskBits, if_true, bne_iff_ne]
    intro h
    have := congrArg (fun b : BitVec w => b.getLsbD 0) h
    simp at this
    omega

theorem getLsbD_maskBits (x : Bool) {j : Nat} (h : j < w) : (maskBits w x).getLsbD j = x := by
  cases x <;> simp [maskBits, h]

@[simp] theorem getElem_maskBits (x : Bool) {j : Nat} (h : j < w) : (maskBits w x)[j] = x := by
  cases x <;> simp [maskBits]

theorem isMaskLane_maskBits (x : Bool) : Spec.IsMaskLane (maskBits w x) x := fun _ h => getLsbD_maskBits x h

theorem isMaskLane_iff {x : BitVec w} {b : Bool} : Spec.IsMaskLane x b ↔ x = maskBits w b := by
  constructor
  · intro h
    apply BitVec.eq_of_getLsbD_eq
    intro j hj
    rw [h j hj, getLsbD_maskBits b hj]
  · rintro rfl; exact isMaskLane_maskBits b

theorem legalMaskLane_iff {x : BitVec w} : legalMaskLane x = true ↔ ∃ b, x = maskBits w b := by
  simp only [legalMaskLane, Bool.or_eq_true, beq_iff_eq]
  constructor
  · rintro (h | h)
    · exact ⟨false, by simpa [maskBits] using h⟩
    · exact ⟨true, by simpa [maskBits] using h⟩
  · rintro ⟨b, rfl⟩
    cases b <;> simp [maskBits]

theorem legalMaskLane_maskBits (b : Bool) : legalMaskLane (maskBits w b) = true := legalMaskLane_iff.2 ⟨b, rfl⟩

theorem validMask_iff {v : Vec (BitVec w) n} : Spec.ValidMask v ↔ v.all legalMaskLane = true := by
  simp only [Spec.ValidMask, Vector.all_eq_true, isMaskLane_iff, legalMaskLane_iff]

/-- The vector of truth values as a mask vector. -/
theorem validMask_iff_exists {v : Vec (BitVec w) n} :
    Spec.ValidMask v ↔ ∃ f : Vec Bool n, v = f.map (maskBits w) := by
  constructor
  · intro h
    have h' : ∀ i : Fin n, ∃ b, v[i.val] = maskBits w b := fun i => by
      obtain ⟨b, hb⟩ := h i i.2
      exact ⟨b, isMaskLane_iff.1 hb⟩
    refine ⟨Vector.ofFn fun i => (h' i).choose, ?_⟩
    ext i hi : 1
    simp only [Vector.getElem_map, Vector.getElem_ofFn]
    exact (h' ⟨i, hi⟩).choose_spec
  · rintro ⟨f, rfl⟩ i hi
    exact ⟨f[i], by simpa using isMaskLane_maskBits _⟩

theorem Mask.extract_of_lt [LaneCount n] (v : Vec (BitVec w) n) {i : Nat} (h : i < n) :
    Mask.extract v i = .ok (v[i] != 0#w) := by
  simp [Mask.extract, h, Mask.extractUnchecked, simdExtract, asU32_of_lt h, pure, Except.pure, bind, Except.bind]

theorem Mask.extract_of_ge (v : Vec (BitVec w) n) {i : Nat} (h : n ≤ i) :
    Mask.extract v i = .error .panic := by
  simp [Mask.extract, Nat.not_lt.mpr h]

theorem Mask.replace_of_lt [LaneCount n] (v : Vec (BitVec w) n) {i : Nat} (h : i < n) (x : Bool) :
    Mask.replace v i x = .ok (v.set i (maskBits w x)) := by
  simp [Mask.replace, h, Mask.replaceUnchecked, simdInsert, asU32_of_lt h]

theorem Mask.replace_of_ge (v : Vec (BitVec w) n) {i : Nat} (h : n ≤ i) (x : Bool) :
    Mask.replace v i x = .error .panic := by
  simp [Mask.replace, Nat.not_lt.mpr h]

end PackedSimd
