import Verif.Lemmas.Cast
/-
Which lane conversions are lossless; conditions satisfied by all rows of the conversion tables.
-/
namespace PackedSimd
open Spec Intr Cast

variable {p : Nat}

theorem format_of_float {e : Elem} (h : e.kind = .float) : Format (e.bits p) e.man := by
  cases e <;> first | (exact absurd h (by decide)) | exact (⟨by decide, by decide⟩ : Format 32 23) | exact (⟨by decide, by decide⟩ : Format 64 52)

theorem val_resize {w : Nat} (s s' : Bool) (w' : Nat) (x : BitVec w) (h : InRange s' w' (val s x)) : val s' (resize s w' x) = val s x := by
  rw [resize_eq]
  have : WrapsTo s' w' (val s x) (BitVec.ofInt w' (val s x)) := wrapsTo_iff.2 rfl
  obtain ⟨h1, k, hk⟩ := this
  revert hk h h1
  generalize val s' (BitVec.ofInt w' (val s x)) = a
  generalize val s x = b
  generalize hP : (2 : Int) ^ w' = P
  have hPpos : 0 < P := by rw [← hP]; exact Int.pow_pos (by decide)
  intro hr h1 hk
  have hkk : k = 0 := by
    have : a - b < P ∧ -P < a - b := by
      unfold InRange at hr h1
      rw [hP] at hr h1
      cases s' <;> simp at hr h1 <;> omega
    rw [hk] at this
    have h2 : k < 1 := by
      apply Int.lt_of_mul_lt_mul_left (a := P) _ (Int.le_of_lt hPpos); omega
    have h3 : -1 < k := by
      apply Int.lt_of_mul_lt_mul_left (a := P) _ (Int.le_of_lt hPpos); omega
    omega
  rw [hkk] at hk; omega

theorem inRange_mono {s s' : Bool} {w w' : Nat} {z : Int} (h : InRange s w z) (hw : w ≤ w') (hs : s = s' ∨ (s' = true ∧ w < w')) :
    InRange s' w' z := by
  have hle : (2 : Int) ^ w ≤ 2 ^ w' := by
    have := Nat.pow_le_pow_right (n := 2) (by decide) hw
    exact_mod_cast this
  have hpos : (0 : Int) < 2 ^ w := Int.pow_pos (by decide)
  have hlt : w < w' → 2 * (2 : Int) ^ w ≤ 2 ^ w' := by
    intro h
    have := Nat.pow_le_pow_right (n := 2) (by decide) (show w + 1 ≤ w' from h)
    rw [Nat.pow_succ] at this
    have h2 : ((2 ^ w * 2 : Nat) : Int) ≤ ((2 ^ w' : Nat) : Int) := Int.ofNat_le.2 this
    simp at h2; omega
  unfold InRange at h ⊢
  rcases hs with rfl | ⟨rfl, hl⟩
  · cases s <;> simp at h ⊢ <;> omega
  · have := hlt hl
    cases s <;> simp at h ⊢ <;> omega

theorem natAbs_val_le {w : Nat} (s : Bool) (x : BitVec w) : (val s x).natAbs ≤ 2 ^ w := by
  have := val_inRange s x
  have hpos : (0 : Int) < 2 ^ w := Int.pow_pos (by decide)
  have e : ((2 ^ w : Nat) : Int) = 2 ^ w := by simp
  have : ((val s x).natAbs : Int) ≤ ((2 ^ w : Nat) : Int) := by
    unfold InRange at this
    cases s <;> simp at this <;> omega
  exact Int.ofNat_le.1 this

/-- The number of a lane that is not a float. -/
theorem numberOf_int {e : Elem} (he : e.kind ≠ .float) (x : BitVec (e.bits p)) : numberOf p e x = .rat (val e.signed x) 1 := by
  unfold numberOf Elem.signed
  cases hk : e.kind <;> first | exact absurd hk he | rfl

theorem numberOf_float {e : Elem} (he : e.kind = .float) (x : BitVec (e.bits p)) :
    numberOf p e x = match valueOf e.man x with
      | .nan => .nan
      | .inf neg => .inf neg
      | .num z => .rat z (2 ^ low (e.bits p) e.man) := by
  unfold numberOf; simp only [he]; cases valueOf e.man x <;> rfl

theorem castLane_lossless {dst src : Elem} (h : losslessB p dst src = true) (x : BitVec (src.bits p)) :
    ∃ y, castLane p dst src x = .ok y ∧ (numberOf p dst y).Same (numberOf p src x) := by
  have intCase : src.kind ≠ .float → dst.kind ≠ .float → src.bits p ≤ dst.bits p →
      (src.signed = dst.signed ∨ (dst.signed = true ∧ src.bits p < dst.bits p)) →
      ∃ y, castLane p dst src x = .ok y ∧ (numberOf p dst y).Same (numberOf p src x) := by
    intro hs hd hw hsg
    refine ⟨_, castLane_int p hs hd x, ?_⟩
    rw [numberOf_int hd, numberOf_int hs, val_resize]
    · rfl
    · exact inRange_mono (val_inRange _ _) hw hsg
  have floatCase : src.kind ≠ .float → dst.kind = .float → src.bits p ≤ dst.man + 1 →
      2 ^ (dst.man + 1) * 2 ^ low (dst.bits p) dst.man < magUnits dst.man (infMag (dst.bits p) dst.man) →
      ∃ y, castLane p dst src x = .ok y ∧ (numberOf p dst y).Same (numberOf p src x) := by
    intro hs hd hw hb
    have hv : (if src.signed then x.toInt else (x.toNat : Int)) = val src.signed x := by
      cases hsg : src.signed
      · rw [val_false]; rfl
      · rw [val_true]; rfl
    refine ⟨Flt.fromInt (dst.bits p) dst.man (val src.signed x), ?_, ?_⟩
    · unfold castLane
      rw [hd, hv]
      cases hk : src.kind <;> first | exact absurd hk hs | rfl
    · rw [numberOf_int hs, numberOf_float hd,
        fromInt_exact (format_of_float hd) _ (Nat.le_trans (natAbs_val_le _ _) (Nat.pow_le_pow_right (by decide) hw)) hb]
      simp [Num.Same]
  unfold losslessB at h
  cases hk : src.kind <;> cases hk' : dst.kind <;> rw [hk, hk'] at h <;> simp at h
  · exact intCase (by rw [hk]; decide) (by rw [hk']; decide) (by first | exact h | (show 8 * src.bytes p ≤ 8 * dst.bytes p; omega) | (show 8 * src.bytes p < 8 * dst.bytes p; omega)) (.inl (by simp [Elem.signed, hk, hk']))
  · exact floatCase (by rw [hk]; decide) hk' h.1 h.2
  · exact intCase (by rw [hk]; decide) (by rw [hk']; decide) (by first | exact h | (show 8 * src.bytes p ≤ 8 * dst.bytes p; omega) | (show 8 * src.bytes p < 8 * dst.bytes p; omega)) (.inr ⟨by simp [Elem.signed, hk'], by first | exact h | (show 8 * src.bytes p ≤ 8 * dst.bytes p; omega) | (show 8 * src.bytes p < 8 * dst.bytes p; omega)⟩)
  · exact intCase (by rw [hk]; decide) (by rw [hk']; decide) (by first | exact h | (show 8 * src.bytes p ≤ 8 * dst.bytes p; omega) | (show 8 * src.bytes p < 8 * dst.bytes p; omega)) (.inl (by simp [Elem.signed, hk, hk']))
  · exact floatCase (by rw [hk]; decide) hk' h.1 h.2
  · have hf := format_of_float (p := p) hk'
    refine ⟨Flt.convert src.man (dst.bits p) dst.man x, ?_, ?_⟩
    · unfold castLane; rw [hk, hk']
    · have hc := convert_spec (man := src.man) hf x
      rw [numberOf_float hk', numberOf_float hk]
      cases hv : valueOf src.man x with
      | nan => rw [hc.1 hv]; trivial
      | inf s => rw [hc.2.1 s hv]; rfl
      | num z =>
        rw [convert_exact hf h.1.1 h.1.2 h.2 x z hv]
        show z * 2 ^ (low (dst.bits p) dst.man - low (src.bits p) src.man) * ((2 ^ low (src.bits p) src.man : Nat) : Int) =
          z * ((2 ^ low (dst.bits p) dst.man : Nat) : Int)
        rw [Int.mul_assoc]
        congr 1
        have e1 : ((2 ^ low (src.bits p) src.man : Nat) : Int) = 2 ^ low (src.bits p) src.man := by simp
        have e2 : ((2 ^ low (dst.bits p) dst.man : Nat) : Int) = 2 ^ low (dst.bits p) dst.man := by simp
        rw [e1, e2, ← Int.pow_add]
        congr 1
        have := h.1.2
        omega

/-- Every row of the `From` table has equal lane counts, and is mask to mask or lossless (for both pointer sizes). -/
theorem fromTable_cond : ∀ r ∈ Tables.fromTable, ∀ s ∈ r.2, s.lanes = r.1.lanes ∧
    ((s.elem.kind = .mask ∧ r.1.elem.kind = .mask) ∨ (s.elem.kind ≠ .mask ∧ r.1.elem.kind ≠ .mask ∧ losslessB 4 r.1.elem s.elem = true ∧ losslessB 8 r.1.elem s.elem = true)) := by
  decide +kernel

/-! ## Masks -/

theorem resize_maskBits {w w' : Nat} (b : Bool) (hw : 0 < w) : resize true w' (maskBits w b) = maskBits w' b := by
  unfold resize
  rw [if_pos rfl]
  apply BitVec.eq_of_getLsbD_eq
  intro i hi
  rw [BitVec.getLsbD_signExtend, getLsbD_maskBits b hi]
  split
  · simp [hi, getLsbD_maskBits b (by assumption)]
  · cases b
    · simp [maskBits, hi]
    · simp only [maskBits, hi, if_true, decide_true, Bool.true_and]
      simp [BitVec.msb_allOnes, hw]

theorem bits_pos (hp : p = 4 ∨ p = 8) (e : Elem) : 0 < e.bits p := by
  rcases hp with rfl | rfl <;> cases e <;> decide

/-- `simd_cast` of a valid mask to a mask or integer vector: every lane is all ones / all zeros, as before. -/
theorem simdCast_mask (hp : p = 4 ∨ p = 8) {dst src : Elem} (hs : src.kind = .mask) (hd : dst.kind ≠ .float) {n : Nat}
    (x : Vec (BitVec (src.bits p)) n) (b : Nat → Bool) (hx : Denotes x b) :
    ∃ y, simdCast p dst src x = .ok y ∧ Denotes y b := by
  refine ⟨_, simdCast_ok p dst src x _ (castLane_int p (by rw [hs]; decide) hd), ?_⟩
  intro i hi
  rw [Vector.getElem_map, isMaskLane_iff, isMaskLane_iff.1 (hx i hi)]
  have : src.signed = true := by simp [Elem.signed, hs]
  rw [this, resize_maskBits _ (bits_pos hp src)]

theorem castTables_lanes : (∀ r ∈ Tables.castTable, ∀ s ∈ r.2, s.lanes = r.1.lanes) ∧
    (∀ r ∈ Tables.castMaskTable, ∀ s ∈ r.2, s.lanes = r.1.lanes ∧ r.1.elem.kind = .mask) := by decide +kernel

theorem castTable_complete : ∀ a ∈ Tables.vectorTypes, ∀ b ∈ Tables.vectorTypes, a.ty.lanes = b.ty.lanes → a.ty ≠ b.ty →
    (Tables.castTable.any (fun r => r.1 == a.ty && r.2.contains b.ty) != Tables.castMaskTable.any (fun r => r.1 == a.ty && r.2.contains b.ty)) = true := by
  decide +kernel

theorem listed_iff (T : List (VTy × List VTy)) (a b : VTy) : Listed T a b ↔ T.any (fun r => r.1 == a && r.2.contains b) = true := by
  unfold Listed
  rw [List.any_eq_true]
  constructor
  · rintro ⟨r, hr, h1, h2⟩; exact ⟨r, hr, by simp [h1, h2]⟩
  · rintro ⟨r, hr, h⟩; simp at h; exact ⟨r, hr, h.1, h.2⟩

/-- Numeric targets always use `simd_cast`. -/
theorem casts_numeric {dst src : VTy} {f} (h : Casts p dst src f) (hd : dst.elem.kind ≠ .mask) :
    f = fromCast p dst.elem src.elem ∧ src.lanes = dst.lanes := by
  cases h with
  | cast h => obtain ⟨r, hr, e, hs⟩ := h; rw [← e]; exact ⟨rfl, castTables_lanes.1 r hr _ hs⟩
  | mask h =>
    obtain ⟨r, hr, e, hs⟩ := h
    have := (castTables_lanes.2 r hr _ hs).2
    rw [e] at this
    exact absurd this hd

theorem select_splat {w w' n : Nat} (hw : 0 < w) (m : Vec (BitVec w) n) (b : Nat → Bool) (hm : Denotes m b) :
    ∃ y, select m (Mask.splat w' n true) (Mask.splat w' n false) = .ok y ∧ Denotes y b := by
  unfold select simdSelect
  rw [if_pos]
  · refine ⟨_, rfl, ?_⟩
    intro i hi
    simp only [Vector.getElem_ofFn, Mask.splat, Fin.getElem_fin, boolToInternal_eq]
    rw [isMaskLane_iff.1 (hm i hi), maskBits_ne_zero hw]
    cases b i <;> simp only [if_true, if_false, Bool.false_eq_true] <;> exact isMaskLane_maskBits _
  · rw [Vector.all_eq_true]
    intro i hi
    rw [isMaskLane_iff.1 (hm i hi)]
    cases b i <;> simp [legalMaskLane, maskBits]

theorem val_eq_zero {w : Nat} (s : Bool) (x : BitVec w) : val s x = 0 ↔ x = 0#w := by
  have h0 : val s (0#w) = 0 := by unfold val; have := Nat.two_pow_pos w; simp
  constructor
  · intro h; exact val_injective (h.trans h0.symm)
  · rintro rfl; exact h0

theorem nonzero_int {e : Elem} (hk : e.kind ≠ .float) (x : BitVec (e.bits p)) : Nonzero p e x ↔ x ≠ 0#_ := by
  unfold Nonzero
  rw [numberOf_int hk]
  show ¬ (val e.signed x * ((1 : Nat) : Int) = 0 * ((1 : Nat) : Int)) ↔ _
  rw [ne_eq, ← not_congr (val_eq_zero e.signed x)]
  simp

theorem valueOf_zero' {w man : Nat} (hf : Format w man) : valueOf man (0#w) = .num 0 := by
  have := infMag_pos hf
  have e : magBits (0#w) = 0 := by simp [magBits]
  unfold valueOf
  rw [e, if_neg (by omega), if_neg (by omega)]
  have : magUnits man 0 = 0 := by simp [magUnits]
  rw [this]; split <;> rfl

theorem nonzero_float {e : Elem} (hk : e.kind = .float) (x : BitVec (e.bits p)) : Nonzero p e x ↔ Flt.une e.man x (0#_) = true := by
  have hf := format_of_float (p := p) hk
  unfold Nonzero Flt.une
  rw [numberOf_float hk, Bool.not_eq_true', ← Bool.not_eq_true, oeq_iff hf, valueOf_zero' hf]
  apply not_congr
  cases hv : valueOf e.man x with
  | nan => simp [FVal.cmp, Num.Same]
  | inf s => cases s <;> simp [FVal.cmp, Num.Same]
  | num z =>
    simp only [FVal.cmp, Num.Same]
    rcases Int.lt_trichotomy z 0 with h | h | h
    · rw [compare_of_lt h]; simp; omega
    · subst h; rw [compare_refl]; simp
    · rw [compare_of_gt h]; simp; omega

/-- The `ne`-with-default comparison tests lanes for being different from zero. -/
theorem neDefault_denotes {src : Elem} {n : Nat} (x : Vec (BitVec (src.bits p)) n) :
    ∃ b : Nat → Bool, (∀ i (hi : i < n), b i = true ↔ Nonzero p src x[i]) ∧ Denotes (neDefault p src x) b := by
  classical
  refine ⟨fun i => if h : i < n then decide (Nonzero p src x[i]) else false, fun i hi => by simp [hi], ?_⟩
  intro i hi
  dsimp only
  rw [dif_pos hi, isMaskLane_iff]
  have key : ∀ b : Bool, (b = true ↔ Nonzero p src x[i]) → decide (Nonzero p src x[i]) = b := by
    intro b hb; rw [Bool.eq_iff_iff, hb]; simp
  unfold neDefault
  cases hk : src.kind with
  | sint => rw [key (x[i] != 0#_) (by rw [nonzero_int (by rw [hk]; decide)]; simp)]; simp [Cmp.ne, simdNe, default, splat]
  | uint => rw [key (x[i] != 0#_) (by rw [nonzero_int (by rw [hk]; decide)]; simp)]; simp [Cmp.ne, simdNe, default, splat]
  | mask => rw [key (x[i] != 0#_) (by rw [nonzero_int (by rw [hk]; decide)]; simp)]; simp [Cmp.ne, simdNe, Mask.default, Mask.splat, maskBits]
  | float => rw [key _ (nonzero_float hk _).symm]; simp [FVec.ne, default, splat]

end PackedSimd
