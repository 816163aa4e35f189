import Verif.Lemmas.MaskReduce
/-
C22: all / any / none on every target.
-/

namespace PackedSimd.Props
open PackedSimd Spec Intr

theorem mask_all_any_aux (t : Target) (ht : t.Supported) (ty : MaskTy)
    (f : Vec Bool ty.lanes) :
    Mask.all t ty (f.map (maskBits _)) = .ok (f.toList.all id) ∧
    Mask.any t ty (f.map (maskBits _)) = .ok (f.toList.any id) := by
  unfold Mask.all Mask.any
  rw [toBytes_maskVec _ _ _ (laneBytes_pos ht ty)]
  exact reduce_correct t ht 8 ty (resolves_all t ht ty) f.toList (by simp)

theorem denotes_vec {w n : Nat} {m : Vec (BitVec w) n} {b : Nat → Bool} (h : Denotes m b) :
    m = (Vector.ofFn fun i : Fin n => b i.val).map (maskBits w) := by
  ext i hi : 1
  rw [Vector.getElem_map, Vector.getElem_ofFn]
  exact isMaskLane_iff.1 (h i hi)

/-- `all()` returns `true` iff every lane is true, on every supported target. -/
theorem C22_all (t : Target) (ht : t.Supported) (ty : MaskTy)
    (m : Vec (BitVec (8 * ty.laneBytes t)) ty.lanes) (b : Nat → Bool) (hm : Denotes m b) :
    ∃ r, Mask.all t ty m = .ok r ∧ (r = true ↔ ∀ i, i < ty.lanes → b i = true) := by
  refine ⟨_, by rw [denotes_vec hm]; exact (mask_all_any_aux t ht ty _).1, ?_⟩
  rw [all_id_iff]
  constructor
  · intro h i hi
    exact h (b i) (by rw [Vector.mem_toList_iff, Vector.mem_ofFn]; exact ⟨⟨i, hi⟩, rfl⟩)
  · intro h x hx
    rw [Vector.mem_toList_iff, Vector.mem_ofFn] at hx
    obtain ⟨i, rfl⟩ := hx
    exact h i i.2

/-- `any()` returns `true` iff some lane is true, on every supported target. -/
theorem C22_any (t : Target) (ht : t.Supported) (ty : MaskTy)
    (m : Vec (BitVec (8 * ty.laneBytes t)) ty.lanes) (b : Nat → Bool) (hm : Denotes m b) :
    ∃ r, Mask.any t ty m = .ok r ∧ (r = true ↔ ∃ i, i < ty.lanes ∧ b i = true) := by
  refine ⟨_, by rw [denotes_vec hm]; exact (mask_all_any_aux t ht ty _).2, ?_⟩
  rw [List.any_eq_true]
  constructor
  · rintro ⟨x, hx, hxt⟩
    rw [Vector.mem_toList_iff, Vector.mem_ofFn] at hx
    obtain ⟨i, rfl⟩ := hx
    exact ⟨i, i.2, hxt⟩
  · rintro ⟨i, hi, h⟩
    exact ⟨b i, by rw [Vector.mem_toList_iff, Vector.mem_ofFn]; exact ⟨⟨i, hi⟩, rfl⟩, h⟩

/-- `none()` returns `true` iff no lane is true, on every supported target. -/
theorem C22_none (t : Target) (ht : t.Supported) (ty : MaskTy)
    (m : Vec (BitVec (8 * ty.laneBytes t)) ty.lanes) (b : Nat → Bool) (hm : Denotes m b) :
    ∃ r, Mask.none t ty m = .ok r ∧ (r = true ↔ ∀ i, i < ty.lanes → b i = false) := by
  obtain ⟨r, hr, h⟩ := C22_any t ht ty m b hm
  refine ⟨!r, by unfold Mask.none; rw [hr]; rfl, ?_⟩
  cases hrb : r
  · simp only [hrb, Bool.false_eq_true, false_iff, not_exists, not_and, Bool.not_eq_true] at h
    simpa using h
  · simp only [hrb, true_iff] at h
    obtain ⟨i, hi, hb⟩ := h
    simp only [Bool.not_true, Bool.false_eq_true, false_iff]
    intro hall
    rw [hall i hi] at hb; cases hb

/-- A 32-bit ARM target with v7 NEON (32-bit pointers), and an x86_64 target with AVX but not AVX2. -/
def armNeon : Target :=
  { arch := .arm, endian := .little, ptrBytes := 4, sse := false, sse2 := false, ssse3 := false, sse42 := false, avx := false,
    avx2 := false, v7 := true, neon := true, coreArch := true, sleef := false }
def x64Avx : Target :=
  { arch := .x86_64, endian := .little, ptrBytes := 8, sse := true, sse2 := true, ssse3 := true, sse42 := true, avx := true,
    avx2 := false, v7 := false, neon := false, coreArch := false, sleef := false }

example : armNeon.Supported := .inl rfl
/-- m16x8 on ARM NEON goes through the pairwise minimum; one false lane makes `all` false and leaves `any` true. -/
example : maskImpl armNeon .m16x8 = .pairwise .m16x4 ∧
    Mask.all armNeon .m16x8 #v[0xffff, 0xffff, 0xffff, 0xffff, 0xffff, 0, 0xffff, 0xffff] = .ok false ∧
    Mask.any armNeon .m16x8 #v[0, 0, 0, 0, 0, 0xffff, 0, 0] = .ok true := by decide +kernel
example : maskImpl x64Avx .m16x16 = .testcz ∧
    Mask.all x64Avx .m16x16 (Vector.replicate 16 0xffff) = .ok true := by decide +kernel

end PackedSimd.Props
