import Verif.Model.History
import Verif.Lemmas.ShuffleAny
import Verif.Props.Bits
import Verif.Props.Convert
import Verif.Props.Arith
import Verif.Props.MaskReduce
/-
C04: masks are always valid.  (Also a further fact for C31: no index vector makes `shuffle1_dyn` tear lanes.)
-/
namespace PackedSimd.Props
open PackedSimd Spec Intr Cast

theorem validMask_of_maskBits {w n : Nat} {v : Vec (BitVec w) n} (h : ∀ i (hi : i < n), ∃ b, v[i] = maskBits w b) : ValidMask v :=
  fun i hi => (h i hi).elim fun b hb => ⟨b, isMaskLane_iff.2 hb⟩

theorem denotes_of_valid {w n : Nat} {v : Vec (BitVec w) n} (h : ValidMask v) : ∃ f, Denotes v f :=
  ⟨fun i => if hi : i < n then (h i hi).choose else false, fun i hi => by dsimp only; rw [dif_pos hi]; exact (h i hi).choose_spec⟩

theorem valid_of_denotes {w n : Nat} {v : Vec (BitVec w) n} {f : Nat → Bool} (h : Denotes v f) : ValidMask v := fun i hi => ⟨f i, h i hi⟩

theorem valid_fromLanes {w n : Nat} {v r : Vec (BitVec w) n} (h : FromLanes v r) (hv : ValidMask v) : ValidMask r := by
  intro i hi
  rcases h i hi with e | ⟨j, hj, e⟩
  · rw [e]; exact ⟨false, fun _ _ => by simp⟩
  · rw [e]; exact hv j hj

theorem valid_select {w w' n : Nat} {m : Vec (BitVec w') n} {a b r : Vec (BitVec w) n} (ha : ValidMask a) (hb : ValidMask b)
    (h : select m a b = .ok r) : ValidMask r := by
  unfold select simdSelect at h
  split at h
  · cases h
    intro i hi
    rw [Vector.getElem_ofFn]
    split
    · exact ha i hi
    · exact hb i hi
  · cases h

theorem valid_shuffle {w n m : Nat} {a b : Vec (BitVec w) n} {idx : Vector Nat m} {r : Vec (BitVec w) m} (ha : ValidMask a) (hb : ValidMask b)
    (h : shuffle2 a b idx = some r) : ValidMask r := by
  unfold shuffle2 simdShuffle at h
  split at h
  · split at h
    · cases h
      intro i hi
      rw [Vector.getElem_ofFn]
      rw [Vector.getElem_append]
      split
      · exact ha _ _
      · exact hb _ _
    · cases h
  · cases h

theorem valid_replace {w n i : Nat} {v r : Vec (BitVec w) n} {b : Bool} (hv : ValidMask v) (h : Mask.replace v i b = .ok r) : ValidMask r := by
  unfold Mask.replace Mask.replaceUnchecked simdInsert at h
  split at h
  · split at h
    · cases h
      intro j hj
      rw [Vector.getElem_set]
      split
      · exact ⟨b, isMaskLane_iff.2 (boolToInternal_eq b)⟩
      · exact hv j hj
    · cases h
  · cases h

/-- Which casts keep the invariant: everything but a cast to `m128x1`. -/
def soundCast (dst _src : VTy) : Prop := dst ≠ ⟨.m128, 1⟩

theorem maskVec_valid {t : Target} (ht : t.Supported) {k n : Nat} {v : Vec (BitVec (8 * k)) n} (h : MaskVec soundCast t k n v) : ValidMask v := by
  induction h using MaskVec.rec (motive_1 := fun k x _ => ∃ b, IsMaskLane x b)
  · rename_i b; exact ⟨b, isMaskLane_iff.2 (by cases b <;> simp [MaskLane.new, maskBits])⟩
  · exact ⟨false, fun _ _ => by simp [MaskLane.default]⟩
  · rename_i v i hi _ ih
    have e : (toArray t.endian v)[i] = v[i] := by simp [toArray]
    rw [e]
    exact ih i hi
  · -- new
    intro xs
    exact validMask_of_maskBits fun i hi => ⟨xs[i], by simp [Mask.new]⟩
  · -- splat
    rename_i b
    exact validMask_of_maskBits fun i hi => ⟨b, by simp [Mask.splat]⟩
  · -- default
    intro n
    exact validMask_of_maskBits fun i hi => ⟨false, by simp [Mask.default, Mask.splat]⟩
  · -- replace
    rename_i b _ h hv
    exact valid_replace hv h
  · -- eq
    rename_i a b
    exact validMask_of_maskBits fun i hi => ⟨_, by simp only [Cmp.eq, simdEq, Vector.getElem_zipWith]; rfl⟩
  · -- ne
    rename_i a b
    exact validMask_of_maskBits fun i hi => ⟨_, by simp only [Cmp.ne, simdNe, Vector.getElem_zipWith]; rfl⟩
  · -- lt
    rename_i m s a b
    cases m <;> exact validMask_of_maskBits fun i hi => ⟨_, by simp only [Cmp.lt, simdLt, simdGt, if_true, if_false, Bool.false_eq_true, Vector.getElem_zipWith]; rfl⟩
  · -- le
    rename_i m s a b
    cases m <;> exact validMask_of_maskBits fun i hi => ⟨_, by simp only [Cmp.le, simdLe, simdGe, if_true, if_false, Bool.false_eq_true, Vector.getElem_zipWith]; rfl⟩
  · -- gt
    rename_i m s a b
    cases m <;> exact validMask_of_maskBits fun i hi => ⟨_, by simp only [Cmp.gt, simdLt, simdGt, if_true, if_false, Bool.false_eq_true, Vector.getElem_zipWith]; rfl⟩
  · -- ge
    rename_i m s a b
    cases m <;> exact validMask_of_maskBits fun i hi => ⟨_, by simp only [Cmp.ge, simdLe, simdGe, if_true, if_false, Bool.false_eq_true, Vector.getElem_zipWith]; rfl⟩
  · -- feq
    rename_i m a b
    exact validMask_of_maskBits fun i hi => ⟨_, by simp only [FVec.eq, Vector.getElem_zipWith]; rfl⟩
  · -- fne
    rename_i m a b
    exact validMask_of_maskBits fun i hi => ⟨_, by simp only [FVec.ne, Vector.getElem_zipWith]; rfl⟩
  · -- flt
    rename_i m a b
    exact validMask_of_maskBits fun i hi => ⟨_, by simp only [FVec.lt, Vector.getElem_zipWith]; rfl⟩
  · -- fle
    rename_i m a b
    exact validMask_of_maskBits fun i hi => ⟨_, by simp only [FVec.le, Vector.getElem_zipWith]; rfl⟩
  · -- fgt
    rename_i m a b
    exact validMask_of_maskBits fun i hi => ⟨_, by simp only [FVec.gt, Vector.getElem_zipWith]; rfl⟩
  · -- fge
    rename_i m a b
    exact validMask_of_maskBits fun i hi => ⟨_, by simp only [FVec.ge, Vector.getElem_zipWith]; rfl⟩
  · -- isNan
    rename_i m a
    exact validMask_of_maskBits fun i hi => ⟨_, by simp only [FVec.isNan, FVec.ne, Vector.getElem_zipWith]; rfl⟩
  · -- isInfinite
    rename_i m a
    obtain ⟨h1, h2⟩ : ValidMask (FVec.eq m a (FVec.infinity _ _ m)) ∧ ValidMask (FVec.eq m a (FVec.negInfinity _ _ m)) :=
      ⟨validMask_of_maskBits fun i hi => ⟨_, by simp only [FVec.eq, Vector.getElem_zipWith]; rfl⟩,
       validMask_of_maskBits fun i hi => ⟨_, by simp only [FVec.eq, Vector.getElem_zipWith]; rfl⟩⟩
    obtain ⟨f, hf⟩ := denotes_of_valid h1
    obtain ⟨g, hg⟩ := denotes_of_valid h2
    exact valid_of_denotes (C17_mask_ops _ _ f g hf hg).2.2.1
  · -- isFinite
    rename_i m a
    have h0 : ValidMask (FVec.isNan m a) := validMask_of_maskBits fun i hi => ⟨_, by simp only [FVec.isNan, FVec.ne, Vector.getElem_zipWith]; rfl⟩
    obtain ⟨h1, h2⟩ : ValidMask (FVec.eq m a (FVec.infinity _ _ m)) ∧ ValidMask (FVec.eq m a (FVec.negInfinity _ _ m)) :=
      ⟨validMask_of_maskBits fun i hi => ⟨_, by simp only [FVec.eq, Vector.getElem_zipWith]; rfl⟩,
       validMask_of_maskBits fun i hi => ⟨_, by simp only [FVec.eq, Vector.getElem_zipWith]; rfl⟩⟩
    obtain ⟨e, he⟩ := denotes_of_valid h0
    obtain ⟨f, hf⟩ := denotes_of_valid h1
    obtain ⟨g, hg⟩ := denotes_of_valid h2
    have h3 := (C17_mask_ops _ _ f g hf hg).2.2.1
    have h4 := (C17_mask_ops _ _ _ _ he h3).2.2.1
    exact valid_of_denotes (C17_mask_ops _ _ _ _ h4 h4).1
  · -- bitand
    rename_i _ _ ha hb
    obtain ⟨f, hf⟩ := denotes_of_valid ha
    obtain ⟨g, hg⟩ := denotes_of_valid hb
    exact valid_of_denotes (C17_mask_ops _ _ f g hf hg).2.1
  · -- bitor
    rename_i _ _ ha hb
    obtain ⟨f, hf⟩ := denotes_of_valid ha
    obtain ⟨g, hg⟩ := denotes_of_valid hb
    exact valid_of_denotes (C17_mask_ops _ _ f g hf hg).2.2.1
  · -- bitxor
    rename_i _ _ ha hb
    obtain ⟨f, hf⟩ := denotes_of_valid ha
    obtain ⟨g, hg⟩ := denotes_of_valid hb
    exact valid_of_denotes (C17_mask_ops _ _ f g hf hg).2.2.2
  · -- not
    rename_i _ ha
    obtain ⟨f, hf⟩ := denotes_of_valid ha
    exact valid_of_denotes (C17_mask_ops _ _ f f hf hf).1
  · -- bitandVS
    rename_i x _ ha
    obtain ⟨f, hf⟩ := denotes_of_valid ha
    exact valid_of_denotes (C17_mask_scalar_ops _ f hf x).1
  · -- bitandSV
    rename_i x _ ha
    obtain ⟨f, hf⟩ := denotes_of_valid ha
    exact valid_of_denotes (C17_mask_scalar_ops _ f hf x).2.1
  · -- bitorVS
    rename_i x _ ha
    obtain ⟨f, hf⟩ := denotes_of_valid ha
    exact valid_of_denotes (C17_mask_scalar_ops _ f hf x).2.2.1
  · -- bitorSV
    rename_i x _ ha
    obtain ⟨f, hf⟩ := denotes_of_valid ha
    exact valid_of_denotes (C17_mask_scalar_ops _ f hf x).2.2.2.1
  · -- bitxorVS
    rename_i x _ ha
    obtain ⟨f, hf⟩ := denotes_of_valid ha
    exact valid_of_denotes (C17_mask_scalar_ops _ f hf x).2.2.2.2.1
  · -- bitxorSV
    rename_i x _ ha
    obtain ⟨f, hf⟩ := denotes_of_valid ha
    exact valid_of_denotes (C17_mask_scalar_ops _ f hf x).2.2.2.2.2
  · -- select
    rename_i h hm ha hb
    exact valid_select ha hb h
  · -- shuffle
    rename_i _ _ h ha hb
    exact valid_shuffle ha hb h
  · -- shuffle1Dyn
    rename_i ty v idx r _ h hv
    exact valid_fromLanes (shuffle1DynNonU_from t ht ty _ _ _ h) hv
  · -- cast
    rename_i dst src f x y hc hallow hd _ h ih
    obtain ⟨-, y, b, hy, hden, -⟩ := C37_to_mask_partial ht hc hd hallow _
    rw [h] at hy
    cases hy
    exact valid_of_denotes hden
  · -- fromVector
    rename_i dst src x y hl hd _ h hs
    by_cases hk : src.elem.kind = .mask
    · obtain ⟨f, hf⟩ := denotes_of_valid (hs hk)
      obtain ⟨-, -, y, hy, hden⟩ := C35_mask ht dst src hl hk x f hf
      rw [h] at hy
      cases hy
      exact valid_of_denotes hden
    · exact absurd hd (C35_numeric ht dst src hl hk x).2.1
  · -- fromBits
    rename_i dst src x hsz hl hd _ hs
    obtain ⟨hk, hm⟩ := C38_mask ht t.endian dst src hl hd hsz x
    obtain ⟨f, hf⟩ := denotes_of_valid (hs hk)
    exact valid_of_denotes (hm f hf)
  · -- fromArray
    rename_i _ _ a _ ha
    intro i hi
    have e : (PackedSimd.fromArray t.endian a)[i] = a[i] := by simp [PackedSimd.fromArray]
    rw [e]
    exact ha i hi

theorem maskElem_valid {t : Target} (ht : t.Supported) {k : Nat} {x : BitVec (8 * k)} (h : MaskElem soundCast t k x) : ∃ b, IsMaskLane x b := by
  cases h with
  | new k b => exact ⟨b, isMaskLane_iff.2 (by cases b <;> simp [MaskLane.new, maskBits])⟩
  | default k => exact ⟨false, fun _ _ => by simp [MaskLane.default]⟩
  | @ofArray _ _ v i hi h =>
    have e : (toArray t.endian v)[i] = v[i] := by simp [toArray]
    rw [e]
    exact maskVec_valid ht h i hi

/-- Every mask element and mask vector obtained by safe calls, other than casts to `m128x1`, has all lanes all-zeros or all-ones.
Missing from the full claim: casts to `m128x1`, for which it is false (`C04_fails`). -/
theorem C04_valid_partial (t : Target) (ht : t.Supported) :
    (∀ (k : Nat) (x : BitVec (8 * k)), MaskElem (fun dst _ => dst ≠ ⟨.m128, 1⟩) t k x → ∃ b, IsMaskLane x b) ∧
    (∀ (k n : Nat) (v : Vec (BitVec (8 * k)) n), MaskVec (fun dst _ => dst ≠ ⟨.m128, 1⟩) t k n v → ValidMask v) :=
  ⟨fun _ _ h => maskElem_valid ht h, fun _ _ _ h => maskVec_valid ht h⟩

/-- With all casts of the crate, an invalid mask is reachable: `i128x1::splat(1).cast::<m128x1>()`. -/
theorem C04_fails (t : Target) : ∃ v, MaskVec (fun _ _ => True) t 16 1 v ∧ ¬ ValidMask v := by
  obtain ⟨f, hc, x, y, hy, hn⟩ := C37_m128x1_fails (p := t.ptrBytes)
  exact ⟨y, .cast hc trivial rfl (fun h => absurd h (by decide)) hy, hn⟩

theorem history_shuffle :
    shuffle1DynNonU x64Avx .m16x8 (#v[0xffff, 0xffff, 0xffff, 0xffff, 0xffff, 0xffff, 0xffff, 0] : Vec (BitVec (8 * 2)) 8)
      (#v[0, 0x40, 1, 1, 2, 3, 4, 7] : Vec (BitVec (8 * 2)) 8) =
      .ok (#v[0xffff, 0, 0xffff, 0xffff, 0xffff, 0xffff, 0xffff, 0] : Vec (BitVec (8 * 2)) 8) := by decide +kernel

/-- The invariant covers long histories: here a comparison, a negation, a dynamic shuffle with an out-of-range index (on a target where that gives
zero) and a conversion to an array. -/
example : MaskVec (fun dst _ => dst ≠ ⟨.m128, 1⟩) x64Avx 2 8 (#v[0xffff, 0, 0xffff, 0xffff, 0xffff, 0xffff, 0xffff, 0] : Vec (BitVec (8 * 2)) 8) := by
  have e : (#v[0xffff, 0xffff, 0xffff, 0xffff, 0xffff, 0xffff, 0xffff, 0] : Vec (BitVec (8 * 2)) 8) =
      Mask.not (Cmp.eq #v[0, 1, 2, 3, 4, 5, 6, 7] (splat 8 7)) := by decide +kernel
  exact .shuffle1Dyn .m16x8 (e ▸ .not (.eq _ _)) history_shuffle

/-- A further true part of C31: whatever the indices, if `shuffle1_dyn` returns, every lane is a whole lane of the vector or zero (never a mixture
of bytes of different lanes). -/
theorem C31_whole_lanes_partial (t : Target) (ht : t.Supported) (ty : MaskTy) (v idx r : Vec (BitVec (8 * ty.laneBytes t)) ty.lanes) :
    (shuffle1Dyn t ty v idx = .ok r ∨ shuffle1DynNonU t ty v idx = .ok r) →
      ∀ i (hi : i < ty.lanes), r[i] = 0#_ ∨ ∃ j, ∃ hj : j < ty.lanes, r[i] = v[j] := by
  rintro (h | h)
  · exact shuffle1Dyn_from t ht ty v idx r h
  · exact shuffle1DynNonU_from t ht ty v idx r h

end PackedSimd.Props
