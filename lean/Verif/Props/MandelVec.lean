import Verif.Model.Examples.MandelVec
/-
C114: the unchecked `Vec` operations of the Mandelbrot example.
-/
namespace PackedSimd.Props
open PackedSimd.Ex.Mandel

/-- **C114** What holds: both programs hand out a buffer of exactly `width * height` counts, all of them inside the allocation and written. -/
theorem C114_inside_partial (slack width height : Nat) :
    (∃ v, scalarBuffer ⟨true, false, true⟩ slack width height = .ok v ∧ v.len = width * height ∧ v.len * v.elemSize ≤ v.allocSize ∧
      v.len * v.elemSize ≤ v.written ∧ v.drop ⟨true, true, true⟩ = .ok ()) ∧
    (width % 8 = 0 → ∃ v, simdBuffer ⟨false, false, false⟩ slack width height = .ok v ∧ v.len = width * height ∧ v.len * v.elemSize ≤ v.allocSize ∧
      v.len * v.elemSize ≤ v.written) := by
  constructor
  · have hs : scalarBuffer ⟨true, false, true⟩ slack width height =
        .ok ⟨(width * height + slack) * 4, 4, 4, 4, width * height + slack, width * height, width * height * 4⟩ := by
      unfold scalarBuffer RawVec.setLen RawVec.withCapacity RawVec.fill
      dsimp only
      rw [if_neg (by rintro ⟨_, h⟩; exact Nat.not_lt.2 (Nat.le_add_right _ _) h), if_neg (by rintro ⟨h, _⟩; exact Bool.noConfusion h)]
      rfl
    refine ⟨_, hs, rfl, Nat.mul_le_mul_right 4 (Nat.le_add_right _ _), Nat.le_refl _, ?_⟩
    unfold RawVec.drop
    rw [if_neg (by rintro ⟨_, _, h⟩; exact h ⟨rfl, rfl⟩)]
  · intro h8
    obtain ⟨q, rfl⟩ := Nat.dvd_of_mod_eq_zero h8
    have hs : simdBuffer ⟨false, false, false⟩ slack (8 * q) height =
        .ok ⟨(q * height + slack) * 32, 32, 4, 4, q * height + slack, 8 * q * height, q * height * 32⟩ := by
      unfold simdBuffer RawVec.setLen RawVec.withCapacity RawVec.fill RawVec.transmute
      dsimp only
      rw [if_neg (by rintro ⟨h, _⟩; exact Bool.noConfusion h), if_neg (by rintro ⟨h, _⟩; exact Bool.noConfusion h),
        Nat.mul_div_cancel_left q (by decide)]
      rfl
    refine ⟨_, hs, rfl, ?_, ?_⟩ <;> dsimp only <;> rw [Nat.mul_assoc 8] <;> omega

/-- **C114** fails: for every picture with a pixel both programs let a `Vec` have elements that have not been initialised. -/
theorem C114_uninitialised_fails (C : Checks) (hC : C.uninitialised = true) (slack width height : Nat) (hw : 0 < width) (hh : 0 < height) :
    scalarBuffer C slack width height = .error .uninitialised ∧ (width % 8 = 0 → simdBuffer C slack width height = .error .uninitialised) := by
  have hpos : 0 < width * height := Nat.mul_pos hw hh
  constructor
  · unfold scalarBuffer RawVec.setLen RawVec.withCapacity
    dsimp only
    rw [if_neg (by rintro ⟨_, h⟩; exact Nat.not_lt.2 (Nat.le_add_right _ _) h), if_pos ⟨hC, by omega⟩]
    rfl
  · intro h8
    have hq : 0 < width / 8 * height := Nat.mul_pos (by omega) hh
    unfold simdBuffer RawVec.setLen RawVec.withCapacity
    dsimp only
    rw [if_neg (by rintro ⟨_, h⟩; exact Nat.not_lt.2 (Nat.le_add_right _ _) h), if_pos ⟨hC, by omega⟩]
    rfl

/-- **C114** fails in the vector program also in two other ways: the length of the transmuted vector exceeds its capacity (unless the allocator gave
seven times more than was asked for), and its memory is freed with a wrong size and alignment. -/
theorem C114_transmute_fails (slack width height : Nat) (hw : 0 < width) (hh : 0 < height) (h8 : width % 8 = 0) :
    (slack < 7 * (width / 8 * height) → simdBuffer ⟨true, false, false⟩ slack width height = .error .capacity) ∧
    ∃ v, simdBuffer ⟨false, false, true⟩ slack width height = .ok v ∧ v.drop ⟨false, false, true⟩ = .error .layout := by
  obtain ⟨q, rfl⟩ := Nat.dvd_of_mod_eq_zero h8
  have hq : 0 < q * height := Nat.mul_pos (by omega) hh
  rw [Nat.mul_div_cancel_left q (by decide)]
  constructor
  · intro hs
    unfold simdBuffer RawVec.setLen RawVec.withCapacity RawVec.fill RawVec.transmute
    dsimp only
    rw [Nat.mul_div_cancel_left q (by decide), if_neg (by rintro ⟨_, h⟩; omega), if_neg (by rintro ⟨h, _⟩; exact Bool.noConfusion h)]
    show (if _ then _ else _) = _
    rw [if_pos ⟨rfl, by show q * height + slack < 8 * q * height; rw [Nat.mul_assoc]; omega⟩]
  · have hs : simdBuffer ⟨false, false, true⟩ slack (8 * q) height =
        .ok ⟨(q * height + slack) * 32, 32, 4, 4, q * height + slack, 8 * q * height, q * height * 32⟩ := by
      unfold simdBuffer RawVec.setLen RawVec.withCapacity RawVec.fill RawVec.transmute
      dsimp only
      rw [if_neg (by rintro ⟨h, _⟩; exact Bool.noConfusion h), if_neg (by rintro ⟨h, _⟩; exact Bool.noConfusion h),
        Nat.mul_div_cancel_left q (by decide)]
      rfl
    refine ⟨_, hs, ?_⟩
    unfold RawVec.drop
    rw [if_pos ⟨rfl, by dsimp only; omega, by rintro ⟨_, h⟩; exact absurd (show 32 = 4 from h) (by decide)⟩]

/-- The picture of the repository's test, 200 × 200: a `Vec<u32>` of capacity 5000 with length 40000. -/
example : (simdBuffer ⟨false, false, false⟩ 0 200 200).toOption.map (fun v => (v.cap, v.len)) = some (5000, 40000) := by decide

end PackedSimd.Props
