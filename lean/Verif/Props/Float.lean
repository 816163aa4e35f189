import Verif.Lemmas.FloatOps
import Verif.Props.Reduce
/-
Float vectors: C16, C18, C19, C21, C26, C45, C48 (floats), C57, C58.

`man` is the number of fraction bits; `Format w man` holds for binary32 (`Format 32 23`) and binary64 (`Format 64 52`).
-/
namespace PackedSimd.Props
open PackedSimd Spec Intr

variable {w n man : Nat}

theorem format_f32 : Format 32 23 := ⟨by decide, by decide⟩
theorem format_f64 : Format 64 52 := ⟨by decide, by decide⟩

/-! ## C18: comparisons -/

/-- Each comparison is the IEEE comparison of the lane values, as a valid mask: NaN is unequal to everything and unordered. -/
theorem C18_float (hf : Format w man) (a b : Vec (BitVec w) n) (i : Nat) (h : i < n) :
    let c := (valueOf man a[i]).cmp (valueOf man b[i])
    IsMaskLane (FVec.eq man a b)[i] (c == some .eq) ∧
    IsMaskLane (FVec.ne man a b)[i] (c != some .eq) ∧
    IsMaskLane (FVec.lt man a b)[i] (c == some .lt) ∧
    IsMaskLane (FVec.le man a b)[i] (c == some .lt || c == some .eq) ∧
    IsMaskLane (FVec.gt man a b)[i] (c == some .gt) ∧
    IsMaskLane (FVec.ge man a b)[i] (c == some .gt || c == some .eq) := by
  simp only [isMaskLane_iff, FVec.eq, FVec.ne, FVec.lt, FVec.le, FVec.gt, FVec.ge, Vector.getElem_zipWith, Flt.une, oeq_iff hf,
    olt_iff hf, ole_iff hf, ogt_iff hf, oge_iff hf, bne, and_self]

/-- 1.0 < NaN and 1.0 >= NaN are both false, 0.0 == -0.0, -inf < least subnormal. -/
example : FVec.lt 23 #v[(0x3f800000 : BitVec 32)] #v[0x7fc00000] = #v[0] ∧ FVec.ge 23 #v[(0x3f800000 : BitVec 32)] #v[0x7fc00000] = #v[0] ∧
    FVec.ne 23 #v[(0x3f800000 : BitVec 32)] #v[0x7fc00000] = #v[0xffffffff] ∧
    FVec.eq 23 #v[(0 : BitVec 32)] #v[0x80000000] = #v[0xffffffff] ∧
    FVec.lt 23 #v[(0xff800000 : BitVec 32)] #v[1] = #v[0xffffffff] := by decide +kernel

/-! ## C19: == and != -/

section
variable (t : Target) (ty : MaskTy)

/-- `a == b` holds iff in every lane the two values are equal and neither is NaN; `a != b` is its negation; on every supported target. -/
theorem C19_float (ht : t.Supported) (hf : Format (8 * ty.laneBytes t) man) (a b : Vec (BitVec (8 * ty.laneBytes t)) ty.lanes) :
    ∃ e, FVec.partialEq man t ty a b = .ok e ∧ FVec.partialNe man t ty a b = .ok (!e) ∧
      (e = true ↔ ∀ i (h : i < ty.lanes), valueOf man a[i] ≠ .nan ∧ valueOf man a[i] = valueOf man b[i]) := by
  have hE : Denotes (FVec.eq man a b) (fun i => if h : i < ty.lanes then Flt.oeq man a[i] b[i] else true) := by
    intro i hi
    simp only [hi, dif_pos, isMaskLane_iff, FVec.eq, Vector.getElem_zipWith]
  have hN : Denotes (FVec.ne man a b) (fun i => if h : i < ty.lanes then !Flt.oeq man a[i] b[i] else true) := by
    intro i hi
    simp only [hi, dif_pos, isMaskLane_iff, FVec.ne, Vector.getElem_zipWith, Flt.une]
  obtain ⟨e, he, he'⟩ := C22_all t ht ty _ _ hE
  obtain ⟨d, hd, hd'⟩ := C22_any t ht ty _ _ hN
  have hlane : ∀ x y : BitVec (8 * ty.laneBytes t), Flt.oeq man x y = true ↔ valueOf man x ≠ .nan ∧ valueOf man x = valueOf man y := by
    intro x y
    rw [oeq_iff hf, beq_iff_eq]
    constructor
    · intro h
      refine ⟨fun hn => ?_, cmp_eq_imp h⟩
      rw [hn] at h; cases h
    · rintro ⟨h1, h2⟩
      rw [← h2]
      cases hx : valueOf man x with
      | nan => exact absurd hx h1
      | inf p => cases p <;> rfl
      | num z => simp only [FVal.cmp, compare_refl]
  have k1 : e = true ↔ ∀ i (h : i < ty.lanes), Flt.oeq man a[i] b[i] = true := by
    rw [he']
    constructor
    · intro h i hi; have := h i hi; simpa [hi] using this
    · intro h i hi; rw [dif_pos hi]; exact h i hi
  have k2 : d = !e := by
    have : d = true ↔ ¬ e = true := by
      rw [hd', k1]
      constructor
      · rintro ⟨i, hi, h⟩ hall; simp [hi, hall i hi] at h
      · intro h
        apply Classical.byContradiction
        intro hne
        apply h
        intro i hi
        apply Classical.byContradiction
        intro hab
        exact hne ⟨i, hi, by simp [hi, hab]⟩
    clear k1 he he' hd hd' hE hN hlane
    cases e <;> cases d <;> simp_all
  refine ⟨e, he, by rw [← k2]; exact hd, k1.trans ?_⟩
  constructor
  · intro h i hi; exact (hlane _ _).1 (h i hi)
  · intro h i hi; exact (hlane _ _).2 (h i hi)

/-- A vector is equal to itself unless it contains NaN. -/
theorem C19_float_reflexive (ht : t.Supported) (hf : Format (8 * ty.laneBytes t) man) (a : Vec (BitVec (8 * ty.laneBytes t)) ty.lanes) :
    FVec.partialEq man t ty a a = .ok true ↔ ∀ i (h : i < ty.lanes), valueOf man a[i] ≠ .nan := by
  obtain ⟨e, he, -, hiff⟩ := C19_float t ty ht hf a a
  rw [he, Except.ok.injEq, hiff]
  exact ⟨fun h i hi => (h i hi).1, fun h i hi => ⟨h i hi, rfl⟩⟩

example : FVec.partialEq 23 armNeon .m32x2 #v[0, 0x3f800000] #v[0x80000000, 0x3f800000] = .ok true ∧
    FVec.partialEq 23 armNeon .m32x2 #v[0x7fc00000, 0] #v[0x7fc00000, 0] = .ok false ∧
    FVec.partialNe 23 armNeon .m32x2 #v[0x7fc00000, 0] #v[0x7fc00000, 0] = .ok true := by decide +kernel

/-! ## C21: partial lexicographic order -/

/-- Every comparison of `partial_lex_ord()` is that of the arrays of lane values: decided by the first lane pair that does not compare equal,
unordered iff that pair is. -/
theorem C21_lex (ht : t.Supported) (hf : Format (8 * ty.laneBytes t) man) (a b : Vec (BitVec (8 * ty.laneBytes t)) ty.lanes) :
    let c := arrayPartialCompare FVal.cmp (a.toList.map (valueOf man)) (b.toList.map (valueOf man))
    FVec.lexPartialCmp man t ty a b = .ok c ∧
    FVec.lexLt man t ty a b = .ok (c == some .lt) ∧ FVec.lexGt man t ty a b = .ok (c == some .gt) ∧
    FVec.lexLe man t ty a b = .ok (c == some .lt || c == some .eq) ∧ FVec.lexGe man t ty a b = .ok (c == some .gt || c == some .eq) := by
  intro c
  let pc : BitVec (8 * ty.laneBytes t) → BitVec (8 * ty.laneBytes t) → Option Ordering := fun x y => (valueOf man x).cmp (valueOf man y)
  have hc : c = arrayPartialCompare pc a.toList b.toList := by
    have : ∀ xs ys : List (BitVec (8 * ty.laneBytes t)),
        arrayPartialCompare FVal.cmp (xs.map (valueOf man)) (ys.map (valueOf man)) = arrayPartialCompare pc xs ys := by
      intro xs
      induction xs with
      | nil => intro ys; cases ys <;> rfl
      | cons x xs ih =>
        intro ys
        cases ys with
        | nil => rfl
        | cons y ys => simp only [List.map_cons, arrayPartialCompare, ih]; rfl
    exact this _ _
  have hw : 0 < 8 * ty.laneBytes t := by have := laneBytes_pos ht ty; omega
  have h18 := fun i (h : i < ty.lanes) => C18_float hf a b i h
  have hE : ∀ i (h : i < ty.lanes), IsMaskLane (FVec.eq man a b)[i] (pc a[i] b[i] == some .eq) := fun i h => (h18 i h).1
  have hL : ∀ i (h : i < ty.lanes), IsMaskLane (FVec.lt man a b)[i] (pc a[i] b[i] == some .lt) := fun i h => (h18 i h).2.2.1
  have hG : ∀ i (h : i < ty.lanes), IsMaskLane (FVec.gt man a b)[i] (pc a[i] b[i] == some .gt) := fun i h => (h18 i h).2.2.2.2.1
  have heq : ∃ r, FVec.partialEq man t ty a b = .ok r ∧ (r = true ↔ ∀ i (h : i < ty.lanes), pc a[i] b[i] = some .eq) := by
    obtain ⟨e, he, -, hiff⟩ := C19_float t ty ht hf a b
    refine ⟨e, he, hiff.trans ?_⟩
    constructor
    · intro h i hi
      obtain ⟨h1, h2⟩ := h i hi
      simp only [pc]; rw [← h2]
      cases hx : valueOf man a[i] with
      | nan => exact absurd hx h1
      | inf p => cases p <;> rfl
      | num z => simp only [FVal.cmp, compare_refl]
    · intro h i hi
      have h1 := h i hi
      refine ⟨fun hn => ?_, cmp_eq_imp h1⟩
      simp only [pc, hn] at h1; cases h1
  have key := lex_all_spec hw pc a b _ _ _ _ hE hL hG heq
  have hl := lexCompare_spec hw pc .lt (by decide) a b _ _ hE hL
  have hg := lexCompare_spec hw pc .gt (by decide) a b _ _ hE hG
  rw [hc]
  exact ⟨key.1, hl, hg, key.2.1, key.2.2⟩

/-- First lanes equal (as values), then decided / unordered; a later NaN does not matter. -/
example : FVec.lexPartialCmp 23 armNeon .m32x2 #v[0, 0x3f800000] #v[0x80000000, 0x40000000] = .ok (some .lt) ∧
    FVec.lexPartialCmp 23 armNeon .m32x2 #v[0, 0x7fc00000] #v[0x80000000, 0x40000000] = .ok none ∧
    FVec.lexPartialCmp 23 armNeon .m32x2 #v[0x3f800000, 0x7fc00000] #v[0, 0x40000000] = .ok (some .gt) := by decide +kernel

end

/-! ## C16: min and max -/

/-- Lane `i` of `min` / `max` is one of the operand lanes, and its value is the smaller / larger one; a NaN operand is ignored. -/
theorem C16_float (hf : Format w man) (pick : BitVec w → BitVec w → Bool) (a b : Vec (BitVec w) n) (i : Nat) (h : i < n) :
    valueOf man (FVec.min man pick a b)[i] = (valueOf man a[i]).min (valueOf man b[i]) ∧
    valueOf man (FVec.max man pick a b)[i] = (valueOf man a[i]).max (valueOf man b[i]) ∧
    ((FVec.min man pick a b)[i] = a[i] ∨ (FVec.min man pick a b)[i] = b[i]) ∧
    ((FVec.max man pick a b)[i] = a[i] ∨ (FVec.max man pick a b)[i] = b[i]) := by
  simp only [FVec.min, FVec.max, Vector.getElem_zipWith]
  exact ⟨(minNum_value hf pick _ _).1, (minNum_value hf pick _ _).2, minNum_mem pick _ _⟩

/-- Laws, as values: commutative, associative, idempotent; and of two numbers `min` and `max` are the two, in some order. -/
theorem C16_float_laws (x y z : FVal) :
    x.min y = y.min x ∧ x.max y = y.max x ∧ (x.min y).min z = x.min (y.min z) ∧ (x.max y).max z = x.max (y.max z) ∧
    x.min x = x ∧ x.max x = x ∧
    (x ≠ .nan → y ≠ .nan → (x.min y = x ∧ x.max y = y) ∨ (x.min y = y ∧ x.max y = x)) := by
  refine ⟨(fval_min_comm x y).1, (fval_min_comm x y).2, (fval_min_assoc x y z).1, (fval_min_assoc x y z).2, ?_, ?_, ?_⟩
  · rcases x with _ | (_ | _) | a <;> simp [FVal.min]
  · rcases x with _ | (_ | _) | a <;> simp [FVal.max]
  · intro hx hy
    rcases x with _ | (_ | _) | a <;> rcases y with _ | (_ | _) | b <;> simp [FVal.min, FVal.max] at hx hy ⊢
    omega

example : FVec.min 23 (fun _ _ => true) #v[(0x3f800000 : BitVec 32), 0x7fc00000] #v[0x40000000, 0x40000000] = #v[0x3f800000, 0x40000000] := by
  decide +kernel

/-! ## C45: classification -/

/-- With exponent field `E` and fraction `F`: NaN iff `E` all ones and `F ≠ 0`; infinite iff `E` all ones and `F = 0`; finite iff `E` is not
all ones.  The three predicates report exactly that, as valid masks. -/
theorem C45_classify (hf : Format w man) (a : Vec (BitVec w) n) (i : Nat) (h : i < n) :
    let E := magBits a[i] / 2 ^ man
    let F := magBits a[i] % 2 ^ man
    let ones := 2 ^ (w - 1 - man) - 1
    IsMaskLane (FVec.isNan man a)[i] (decide (E = ones ∧ F ≠ 0)) ∧
    IsMaskLane (FVec.isInfinite man a)[i] (decide (E = ones ∧ F = 0)) ∧
    IsMaskLane (FVec.isFinite man a)[i] (decide (E ≠ ones)) := by
  intro E F ones
  have hlt := infMag_lt hf
  have hpos := infMag_pos hf
  have hp := Nat.two_pow_pos man
  have hb : magBits a[i] < 2 ^ (w - 1) := Nat.mod_lt _ (Nat.two_pow_pos _)
  have hEF : magBits a[i] = ones * 2 ^ man + (magBits a[i] - infMag w man) ∨ magBits a[i] < ones * 2 ^ man := by
    have : infMag w man = ones * 2 ^ man := rfl
    omega
  have hIM : infMag w man = ones * 2 ^ man := rfl
  have hdm := Nat.div_add_mod (magBits a[i]) (2 ^ man)
  have hF : F < 2 ^ man := Nat.mod_lt _ hp
  have kE : E = ones ↔ infMag w man ≤ magBits a[i] := by
    rw [hIM]
    constructor
    · intro e
      have : ones * 2 ^ man ≤ magBits a[i] := by rw [← e]; exact Nat.div_mul_le_self _ _
      exact this
    · intro hle
      have h1 : ones ≤ E := (Nat.le_div_iff_mul_le hp).2 hle
      have h2 : E < ones + 1 := by
        apply Nat.div_lt_of_lt_mul
        rw [Nat.mul_comm, Nat.add_mul, ← hIM]; omega
      omega
  have kF : infMag w man ≤ magBits a[i] → (F = 0 ↔ magBits a[i] = infMag w man) := by
    intro hle
    have e := kE.2 hle
    have : 2 ^ man * ones + F = magBits a[i] := by rw [← e]; exact hdm
    rw [Nat.mul_comm] at this
    omega
  have kN : decide (E = ones ∧ F ≠ 0) = Flt.isNaN man a[i] := by
    unfold Flt.isNaN
    rw [decide_eq_decide, kE]
    constructor
    · rintro ⟨h1, h2⟩; have := kF h1; omega
    · intro h1; exact ⟨by omega, fun h0 => by have := (kF (by omega)).1 h0; omega⟩
  have kI : decide (E = ones ∧ F = 0) = Flt.isInf man a[i] := by
    unfold Flt.isInf
    rw [decide_eq_decide, kE]
    constructor
    · rintro ⟨h1, h2⟩; exact (kF h1).1 h2
    · intro h1; exact ⟨by omega, (kF (by omega)).2 h1⟩
  have kFin : decide (E ≠ ones) = !(Flt.isNaN man a[i] || Flt.isInf man a[i]) := by
    rw [← kN, ← kI]
    by_cases hE : E = ones <;> by_cases hF0 : F = 0 <;> simp [hE, hF0]
  have n1 : (FVec.isNan man a)[i] = maskBits w (Flt.isNaN man a[i]) := by
    simp only [FVec.isNan, FVec.ne, Vector.getElem_zipWith, Flt.une]
    congr 1
    unfold Flt.oeq
    cases Flt.isNaN man a[i] <;> simp
  have eqInf : ∀ s, Flt.oeq man a[i] (Flt.mk w s (infMag w man)) = (Flt.isInf man a[i] && (isNeg a[i] == s)) := by
    intro s
    rw [oeq_iff hf, valueOf_inf hf]
    rcases lane_cases (man := man) a[i] with ⟨a1, a3, a4, a2⟩ | ⟨a1, a3, a4, a2⟩ | ⟨a1, a3, a4, a2⟩ <;> rw [a2, a3]
    · rfl
    · cases isNeg a[i] <;> cases s <;> decide
    · cases s <;> rfl
  have n2 : (FVec.isInfinite man a)[i] = maskBits w (Flt.isInf man a[i]) := by
    simp only [FVec.isInfinite, Mask.bitor, simdOr, FVec.eq, FVec.infinity, FVec.negInfinity, PackedSimd.splat, Vector.getElem_zipWith,
      Vector.getElem_ofFn, eqInf]
    cases Flt.isInf man a[i] <;> cases isNeg a[i] <;> simp [maskBits]
  refine ⟨?_, ?_, ?_⟩ <;> rw [isMaskLane_iff]
  · rw [kN, n1]
  · rw [kI, n2]
  · rw [kFin]
    simp only [FVec.isFinite, Mask.not, Mask.bitxor, Mask.bitor, simdXor, simdOr, Mask.splat, Vector.getElem_zipWith, n1, n2,
      Vector.getElem_ofFn, boolToInternal_eq]
    cases Flt.isNaN man a[i] <;> cases Flt.isInf man a[i] <;> simp [maskBits]

/-- Signalling NaN, -infinity, largest finite number. -/
example : FVec.isNan 23 #v[(0x7f800001 : BitVec 32), 0xff800000, 0x7f7fffff] = #v[0xffffffff, 0, 0] ∧
    FVec.isInfinite 23 #v[(0x7f800001 : BitVec 32), 0xff800000, 0x7f7fffff] = #v[0, 0xffffffff, 0] ∧
    FVec.isFinite 23 #v[(0x7f800001 : BitVec 32), 0xff800000, 0x7f7fffff] = #v[0, 0, 0xffffffff] := by decide +kernel

/-! ## C57: arithmetic -/

/-- `+ - * / %`: each lane is the exact IEEE result of the two lanes, correctly rounded. -/
theorem C57_arith (hf : Format w man) (a b : Vec (BitVec w) n) (i : Nat) (h : i < n) :
    RoundsTo man (exactAdd man a[i] b[i]) (FVec.add man a b)[i] ∧ RoundsTo man (exactSub man a[i] b[i]) (FVec.sub man a b)[i] ∧
    RoundsTo man (exactMul man a[i] b[i]) (FVec.mul man a b)[i] ∧ RoundsTo man (exactDiv man a[i] b[i]) (FVec.div man a b)[i] ∧
    RoundsTo man (exactRem man a[i] b[i]) (FVec.rem man a b)[i] := by
  simp only [FVec.add, FVec.sub, FVec.mul, FVec.div, FVec.rem, Vector.getElem_zipWith]
  exact ⟨add_rounds hf _ _, sub_rounds hf _ _, mul_rounds hf _ _, div_rounds hf _ _, rem_rounds hf _ _⟩

/-- The specification determines the value of the result. -/
theorem C57_rounding_unique (hf : Format w man) (e : Exact) (x y : BitVec w) (hx : RoundsTo man e x) (hy : RoundsTo man e y) :
    valueOf man x = valueOf man y := roundsTo_value_unique hf hx hy

/-- When the exact sum or difference of two finite lanes is representable (in particular it is whenever it is a multiple of a power of two
with a significand that fits), it is returned without error. -/
theorem C57_add_exact (hf : Format w man) (a b : Vec (BitVec w) n) (i : Nat) (h : i < n) (y z : Int) (c : BitVec w)
    (ha : valueOf man a[i] = .num y) (hb : valueOf man b[i] = .num z) (hc : valueOf man c = .num (y + z)) :
    valueOf man (FVec.add man a b)[i] = .num (y + z) := by
  simp only [FVec.add, Vector.getElem_zipWith]
  exact add_exact hf ha hb (representable_units hc)

/-- Unary minus flips the sign bit of every lane that is not NaN (also of zeros and infinities), so the value is negated. -/
theorem C57_neg (hf : Format w man) (a : Vec (BitVec w) n) (i : Nat) (h : i < n) :
    (valueOf man a[i] = .nan → valueOf man (FVec.neg man a)[i] = .nan) ∧
    (valueOf man a[i] ≠ .nan → magBits (FVec.neg man a)[i] = magBits a[i] ∧ isNeg (FVec.neg man a)[i] = !isNeg a[i]) := by
  simp only [FVec.neg, FVec.mul, PackedSimd.splat, Vector.getElem_zipWith, Vector.getElem_ofFn]
  constructor
  · intro hn
    have h := mul_rounds hf (Flt.fromInt w man (-1)) a[i]
    unfold exactMul at h; rw [(valueOf_one hf).2.1, hn] at h; exact h
  · intro hn
    apply mul_minus_one hf
    cases hx : Flt.isNaN man a[i]
    · rfl
    · exact absurd ((isNaN_iff _).1 hx) hn

/-- Signs: of a product or quotient that is not NaN, the sign is the exclusive or of the operand signs; an exactly zero sum is `-0`
only if both operands are negative (zeros). -/
theorem C57_signs (hf : Format w man) (a b : Vec (BitVec w) n) (i : Nat) (h : i < n) :
    (valueOf man (FVec.mul man a b)[i] ≠ .nan → isNeg (FVec.mul man a b)[i] = (isNeg a[i] != isNeg b[i])) ∧
    (valueOf man (FVec.div man a b)[i] ≠ .nan → isNeg (FVec.div man a b)[i] = (isNeg a[i] != isNeg b[i])) ∧
    (∀ z : Int, valueOf man a[i] = .num z → valueOf man b[i] = .num (-z) →
      isNeg (FVec.add man a b)[i] = (isNeg a[i] && isNeg b[i]) ∧ magBits (FVec.add man a b)[i] = 0) := by
  have hlt := infMag_lt hf
  have hI := infMag_pos hf
  have hp := Nat.two_pow_pos man
  have hq := valueOf_qnan hf
  have hInf : ∀ s, isNeg (Flt.mk w s (infMag w man)) = s := fun s => (magBits_mk hf s (by omega)).2
  have h0 : ∀ s, isNeg (Flt.mk w s 0) = s ∧ magBits (Flt.mk w s 0) = 0 := fun s =>
    ⟨(magBits_mk hf s (by omega)).2, (magBits_mk hf s (by omega)).1⟩
  simp only [FVec.add, FVec.mul, FVec.div, Vector.getElem_zipWith]
  refine ⟨?_, ?_, ?_⟩
  · unfold Flt.mul
    intro hn
    dsimp only at hn ⊢
    repeat' split at hn
    all_goals first
      | exact absurd hq hn
      | skip
    all_goals (repeat' split)
    all_goals first
      | contradiction
      | exact hInf _
      | exact (magBits_round hf _ _ _ (Nat.two_pow_pos _)).2
  · unfold Flt.div
    intro hn
    dsimp only at hn ⊢
    repeat' split at hn
    all_goals first
      | exact absurd hq hn
      | skip
    all_goals (repeat' split)
    all_goals first
      | contradiction
      | exact hInf _
      | exact (h0 _).1
      | skip
    all_goals
      rename_i h' _
      refine (magBits_round hf _ _ _ ?_).2
      have : magUnits man (magBits b[i]) ≠ 0 := fun e => by
        have := magUnits_eq_zero.1 e; contradiction
      omega
  · intro z ha hb
    rcases lane_cases (man := man) a[i] with ⟨a1, a3, a4, a2⟩ | ⟨a1, a3, a4, a2⟩ | ⟨a1, a3, a4, a2⟩ <;> rw [a2] at ha
    · cases ha
    · cases ha
    rcases lane_cases (man := man) b[i] with ⟨b1, b3, b4, b2⟩ | ⟨b1, b3, b4, b2⟩ | ⟨b1, b3, b4, b2⟩ <;> rw [b2] at hb
    · cases hb
    · cases hb
    have e1 := FVal.num.inj ha
    have e2 := FVal.num.inj hb
    unfold Flt.add Flt.roundInt
    simp only [a1, b1, a3, b3, Bool.or_false, Bool.false_eq_true, if_false]
    rw [if_pos (by omega)]
    exact h0 _

/-- Signs, continued: an exactly zero difference is `-0` only for `-0 - (+0)`; a remainder has the sign of the dividend, even if zero. -/
theorem C57_signs_sub_rem (hf : Format w man) (a b : Vec (BitVec w) n) (i : Nat) (h : i < n) :
    (∀ z : Int, valueOf man a[i] = .num z → valueOf man b[i] = .num z →
      isNeg (FVec.sub man a b)[i] = (isNeg a[i] && !isNeg b[i]) ∧ magBits (FVec.sub man a b)[i] = 0) ∧
    (valueOf man (FVec.rem man a b)[i] ≠ .nan → isNeg (FVec.rem man a b)[i] = isNeg a[i]) := by
  constructor
  · intro z ha hb
    simp only [FVec.sub, Vector.getElem_zipWith]
    obtain ⟨hm, hs⟩ := negate_spec hf b[i]
    rcases lane_cases (man := man) b[i] with ⟨b1, b3, b4, b2⟩ | ⟨b1, b3, b4, b2⟩ | ⟨b1, b3, b4, b2⟩ <;> rw [b2] at hb
    · cases hb
    · cases hb
    have hnb : valueOf man (Flt.negate b[i]) = .num (-z) := by
      have e := FVal.num.inj hb
      unfold valueOf at b2 ⊢
      rw [hm, hs]
      rw [if_neg (by omega), if_neg (by omega)]
      congr 1
      unfold Flt.units at e
      cases hn : isNeg b[i] <;> rw [hn] at e <;> simp at e ⊢ <;> omega
    have := (C57_signs hf #v[a[i]] #v[Flt.negate b[i]] 0 (by omega)).2.2 z (by simpa using ha) (by simpa using hnb)
    simp only [FVec.add, Vector.getElem_zipWith] at this
    have hsub : Flt.sub man a[i] b[i] = Flt.add man a[i] (Flt.negate b[i]) := by
      unfold Flt.sub
      rw [if_neg (by rw [b1]; decide)]
    rw [hsub]
    have e1 : ∀ x : BitVec w, (#v[x] : Vec (BitVec w) 1)[0] = x := fun _ => rfl
    rw [e1, e1, hs] at this
    exact this
  · simp only [FVec.rem, Vector.getElem_zipWith]
    unfold Flt.rem
    intro hn
    have hq := valueOf_qnan hf
    repeat' split at hn
    all_goals first
      | exact absurd hq hn
      | skip
    all_goals (repeat' split)
    all_goals first
      | contradiction
      | rfl
      | exact (magBits_round hf _ _ _ (by omega)).2

/-- Scalar operands are broadcast. -/
theorem C57_broadcast (op : BitVec w → BitVec w → BitVec w) (a : Vec (BitVec w) n) (x : BitVec w) (i : Nat) (h : i < n) :
    (FVec.opVS (Vector.zipWith op) a x)[i] = op a[i] x ∧ (FVec.opSV (Vector.zipWith op) x a)[i] = op x a[i] := by
  simp [FVec.opVS, FVec.opSV, PackedSimd.splat]

/-- 1/3 rounded; overflow to infinity; 1/0; 0/0; -(0); 5 % -3. -/
example : FVec.div 23 #v[(0x3f800000 : BitVec 32), 0x3f800000, 0] #v[0x40400000, 0x80000000, 0] = #v[0x3eaaaaab, 0xff800000, 0x7fc00000] ∧
    FVec.add 23 #v[(0x7f7fffff : BitVec 32)] #v[0x7f7fffff] = #v[0x7f800000] ∧
    FVec.neg 23 #v[(0 : BitVec 32), 0x3f800000] = #v[0x80000000, 0xbf800000] ∧
    FVec.rem 23 #v[(0x40a00000 : BitVec 32)] #v[0xc0400000] = #v[0x40000000] := by decide +kernel

/-! ## C26: sum and product -/

/-- What is computed: on every target the lanes are combined from left to right, starting from lane 0 on aarch64 and from `+0` (`1`)
elsewhere.  (The documented tree-shaped evaluation is refuted below.) -/
theorem C26_left_to_right_partial [LaneCount n] (t : Target) (v : Vec (BitVec w) n) :
    (t.arch ≠ .aarch64 → FVec.sum man t v = .ok (v.toList.foldl (Flt.add man) (Flt.fromInt w man 0)) ∧
      FVec.product man t v = .ok (v.toList.foldl (Flt.mul man) (Flt.fromInt w man 1))) ∧
    (t.arch = .aarch64 → FVec.sum man t v = .ok (v.toList.tail.foldl (Flt.add man) (v[0]'LaneCount.pos)) ∧
      FVec.product man t v = .ok (v.toList.tail.foldl (Flt.mul man) (v[0]'LaneCount.pos))) := by
  unfold FVec.sum FVec.product
  constructor
  · intro h
    rw [if_pos h, if_pos h]; exact ⟨rfl, rfl⟩
  · intro h
    rw [if_neg (not_not_intro h), if_neg (not_not_intro h), laneLoop_eq, laneLoop_eq]
    have e := toList_eq_cons v LaneCount.pos
    rw [simdReduce_cons _ _ e, simdReduce_cons _ _ e, e]; exact ⟨rfl, rfl⟩

theorem foldl_add_value_congr (hf : Format w man) : ∀ (L : List (BitVec w)) (x y : BitVec w), valueOf man x = valueOf man y →
    valueOf man (L.foldl (Flt.add man) x) = valueOf man (L.foldl (Flt.add man) y)
  | [], _, _, h => h
  | z :: L, x, y, h => foldl_add_value_congr hf L _ _ (add_value_congr hf h rfl)

/-- All targets compute the same value for the sum (although not always the same sign of zero, see `C26_zero_sign_differs`). -/
theorem C26_sum_same_value_on_all_targets [LaneCount n] (hf : Format w man) (t t' : Target) (v : Vec (BitVec w) n) :
    ∃ r r', FVec.sum man t v = .ok r ∧ FVec.sum man t' v = .ok r' ∧ valueOf man r = valueOf man r' := by
  have key : ∀ t, ∃ r, FVec.sum man t v = .ok r ∧ valueOf man r = valueOf man (v.toList.tail.foldl (Flt.add man) (v[0]'LaneCount.pos)) := by
    intro t
    obtain ⟨h1, h2⟩ := C26_left_to_right_partial (man := man) t v
    by_cases ht : t.arch = .aarch64
    · exact ⟨_, (h2 ht).1, rfl⟩
    · refine ⟨_, (h1 ht).1, ?_⟩
      have e := toList_eq_cons v LaneCount.pos
      rw [e]
      exact foldl_add_value_congr hf _ _ _ (zero_add_value hf _)
  obtain ⟨r, hr, h1⟩ := key t
  obtain ⟨r', hr', h2⟩ := key t'
  exact ⟨r, r', hr, hr', h1.trans h2.symm⟩

theorem foldl_nan (op : BitVec w → BitVec w → BitVec w) (hl : ∀ x y, valueOf man x = .nan → valueOf man (op x y) = .nan)
    (hr : ∀ x y, valueOf man y = .nan → valueOf man (op x y) = .nan) :
    ∀ (L : List (BitVec w)) (x : BitVec w), (valueOf man x = .nan ∨ ∃ y ∈ L, valueOf man y = .nan) → valueOf man (L.foldl op x) = .nan
  | [], x, h => by simpa using h
  | y :: L, x, h => by
    apply foldl_nan op hl hr L
    rcases h with h | ⟨z, hz, h⟩
    · exact .inl (hl _ _ h)
    · rcases List.mem_cons.1 hz with rfl | hz
      · exact .inl (hr _ _ h)
      · exact .inr ⟨z, hz, h⟩

theorem add_nan (hf : Format w man) (x y : BitVec w) (h : valueOf man x = .nan ∨ valueOf man y = .nan) : valueOf man (Flt.add man x y) = .nan := by
  have := add_rounds hf x y
  unfold exactAdd at this
  rcases h with h | h
  · rw [h] at this; exact this
  · rw [h] at this
    cases hx : valueOf man x <;> rw [hx] at this <;> exact this

theorem mul_nan (hf : Format w man) (x y : BitVec w) (h : valueOf man x = .nan ∨ valueOf man y = .nan) : valueOf man (Flt.mul man x y) = .nan := by
  have := mul_rounds hf x y
  unfold exactMul at this
  rcases h with h | h
  · rw [h] at this; exact this
  · rw [h] at this
    cases hx : valueOf man x <;> rw [hx] at this <;> exact this

/-- As documented: if some lane is NaN, the sum and the product are NaN, on every target. -/
theorem C26_nan [LaneCount n] (hf : Format w man) (t : Target) (v : Vec (BitVec w) n) (i : Nat) (h : i < n)
    (hn : valueOf man v[i] = .nan) :
    (∃ r, FVec.sum man t v = .ok r ∧ valueOf man r = .nan) ∧ (∃ r, FVec.product man t v = .ok r ∧ valueOf man r = .nan) := by
  obtain ⟨h1, h2⟩ := C26_left_to_right_partial (man := man) t v
  have hmem : v[i] ∈ v.toList := Vector.mem_toList_iff.2 (Vector.getElem_mem h)
  have fa := foldl_nan (man := man) (Flt.add man (w := w)) (fun x y h => add_nan hf x y (.inl h)) (fun x y h => add_nan hf x y (.inr h))
  have fm := foldl_nan (man := man) (Flt.mul man (w := w)) (fun x y h => mul_nan hf x y (.inl h)) (fun x y h => mul_nan hf x y (.inr h))
  by_cases ht : t.arch = .aarch64
  · have hm : valueOf man (v[0]'LaneCount.pos) = .nan ∨ ∃ y ∈ v.toList.tail, valueOf man y = .nan := by
      rw [toList_eq_cons v LaneCount.pos] at hmem ⊢
      rcases List.mem_cons.1 hmem with e | e
      · left; rw [← e]; exact hn
      · right; exact ⟨_, e, hn⟩
    exact ⟨⟨_, (h2 ht).1, fa _ _ hm⟩, ⟨_, (h2 ht).2, fm _ _ hm⟩⟩
  · exact ⟨⟨_, (h1 ht).1, fa _ _ (.inr ⟨_, hmem, hn⟩)⟩, ⟨_, (h1 ht).2, fm _ _ (.inr ⟨_, hmem, hn⟩)⟩⟩

theorem natAbs_sum_le {α : Type} (z : α → Int) (L : List α) : ((L.map z).sum).natAbs ≤ (L.map fun x => (z x).natAbs).sum := by
  induction L with
  | nil => simp
  | cons x L ih => simp only [List.map_cons, List.sum_cons]; omega

theorem tree_sum_exact (hf : Format w man) (k : Nat) (hk : 2 ^ (man + 1) * 2 ^ k < magUnits man (infMag w man)) (z : BitVec w → Int) :
    ∀ T : Tree (BitVec w), (∀ x ∈ T.leaves, valueOf man x = .num (z x * 2 ^ k)) →
      (T.leaves.map fun x => (z x).natAbs).sum ≤ 2 ^ (man + 1) →
      valueOf man (T.eval (Flt.add man)) = .num ((T.leaves.map z).sum * 2 ^ k)
  | .leaf x, h, _ => by simpa [Tree.eval, Tree.leaves] using h x (by simp [Tree.leaves])
  | .node l r, h, hs => by
    simp only [Tree.leaves, List.mem_append, List.map_append, List.sum_append] at h hs ⊢
    have hl := tree_sum_exact hf k hk z l (fun x hx => h x (.inl hx)) (by omega)
    have hr := tree_sum_exact hf k hk z r (fun x hx => h x (.inr hx)) (by omega)
    rw [Int.add_mul]
    apply add_exact hf hl hr
    rw [← Int.add_mul]
    have a1 := natAbs_sum_le z l.leaves
    have a2 := natAbs_sum_le z r.leaves
    have hb : (((l.leaves.map z).sum + (r.leaves.map z).sum).natAbs) ≤ 2 ^ (man + 1) := by omega
    exact representable_of _ _ hb (Nat.lt_of_le_of_lt (Nat.mul_le_mul_right _ hb) hk)

theorem foldl_sum_exact (hf : Format w man) (k : Nat) (hk : 2 ^ (man + 1) * 2 ^ k < magUnits man (infMag w man)) (z : BitVec w → Int) :
    ∀ (L : List (BitVec w)) (x : BitVec w) (c : Int), (∀ x ∈ L, valueOf man x = .num (z x * 2 ^ k)) → valueOf man x = .num (c * 2 ^ k) →
      c.natAbs + (L.map fun x => (z x).natAbs).sum ≤ 2 ^ (man + 1) →
      valueOf man (L.foldl (Flt.add man) x) = .num ((c + (L.map z).sum) * 2 ^ k)
  | [], x, c, _, hx, _ => by simpa using hx
  | y :: L, x, c, h, hx, hs => by
    simp only [List.map_cons, List.sum_cons] at hs ⊢
    have hb : (c + z y).natAbs ≤ 2 ^ (man + 1) := by omega
    have hxy : valueOf man (Flt.add man x y) = .num ((c + z y) * 2 ^ k) := by
      rw [Int.add_mul]
      apply add_exact hf hx (h y (by simp))
      rw [← Int.add_mul]
      exact representable_of _ _ hb (Nat.lt_of_le_of_lt (Nat.mul_le_mul_right _ hb) hk)
    have := foldl_sum_exact hf k hk z L _ _ (fun x hx => h x (by simp [hx])) hxy (by omega)
    rw [List.foldl_cons, this, Int.add_assoc]

/-- The documented evaluation order is respected (in value) whenever the lanes are multiples `z x * 2^k` of one power of two whose
magnitudes add up to at most `2^(man+1)`: then the sum on every target, the documented tree, and any other bracketing of any permutation of
the lanes all give the exact sum.  Missing from the full claim: other inputs, for which it is false (`C26_tree_fails`). -/
theorem C26_exact_sum_partial [LaneCount n] (hf : Format w man) (t : Target) (v : Vec (BitVec w) n) (k : Nat)
    (hk : 2 ^ (man + 1) * 2 ^ k < magUnits man (infMag w man)) (z : BitVec w → Int)
    (hz : ∀ x ∈ v.toList, valueOf man x = .num (z x * 2 ^ k)) (hs : (v.toList.map fun x => (z x).natAbs).sum ≤ 2 ^ (man + 1))
    (T : Tree (BitVec w)) (hT : T.leaves.Perm v.toList) :
    ∃ r, FVec.sum man t v = .ok r ∧ valueOf man r = .num ((v.toList.map z).sum * 2 ^ k) ∧
      valueOf man (T.eval (Flt.add man)) = valueOf man r := by
  have hT' : valueOf man (T.eval (Flt.add man)) = .num ((v.toList.map z).sum * 2 ^ k) := by
    rw [tree_sum_exact hf k hk z T (fun x hx => hz x (hT.mem_iff.1 hx)) (by rw [(hT.map _).sum_eq]; exact hs), (hT.map z).sum_eq]
  obtain ⟨h1, h2⟩ := C26_left_to_right_partial (man := man) t v
  have hv0 : valueOf man (v.toList.foldl (Flt.add man) (Flt.fromInt w man 0)) = .num ((v.toList.map z).sum * 2 ^ k) := by
    have := foldl_sum_exact hf k hk z v.toList (Flt.fromInt w man 0) 0 hz (by rw [Int.zero_mul]; exact valueOf_zero hf) (by simpa using hs)
    rwa [Int.zero_add] at this
  by_cases ht : t.arch = .aarch64
  · have e := toList_eq_cons v LaneCount.pos
    refine ⟨_, (h2 ht).1, ?_, ?_⟩
    · rw [← hv0, e]
      exact (foldl_add_value_congr hf _ _ _ (zero_add_value hf _)).symm
    · rw [hT', ← hv0, e]
      exact foldl_add_value_congr hf _ _ _ (zero_add_value hf _)
  · exact ⟨_, (h1 ht).1, hv0, hT'.trans hv0.symm⟩

/-- The claim itself is false on every target: for the `f32x4` lanes 1e8, 1, -1e8, 1 the sum is 1, the documented tree gives 0. -/
theorem C26_tree_fails (t : Target) : ∃ v : Vec (BitVec 32) 4, ∃ r,
    FVec.sum 23 t v = .ok r ∧ valueOf 23 r ≠ valueOf 23 ((balanced (fun i => v.toList.getD i 0#32) 2 0).eval (Flt.add 23)) := by
  let v : Vec (BitVec 32) 4 := #v[0x4cbebc20, 0x3f800000, 0xccbebc20, 0x3f800000]
  obtain ⟨r, r', hr, hr', e⟩ := C26_sum_same_value_on_all_targets format_f32 t armNeon v
  refine ⟨v, r, hr, ?_⟩
  rw [e]
  have : FVec.sum 23 armNeon v = .ok 0x3f800000 := by decide +kernel
  rw [this] at hr'
  cases hr'
  decide +kernel

/-- The sign of a zero sum depends on the target. -/
theorem C26_zero_sign_differs :
    FVec.sum 23 x64Avx #v[(0x80000000 : BitVec 32), 0x80000000] = .ok 0 ∧
    FVec.sum 23 { x64Avx with arch := .aarch64 } #v[(0x80000000 : BitVec 32), 0x80000000] = .ok 0x80000000 := by decide +kernel

/-- The hypotheses of `C26_exact_sum_partial` are met by the lanes 3, -2, 7, 1000 (`k = 149`: ones). -/
example : 2 ^ (23 + 1) * 2 ^ 149 < magUnits 23 (infMag 32 23) ∧
    valueOf 23 (0x40400000 : BitVec 32) = .num (3 * 2 ^ 149) ∧ valueOf 23 (0xc0000000 : BitVec 32) = .num (-2 * 2 ^ 149) ∧
    FVec.sum 23 x64Avx #v[(0x40400000 : BitVec 32), 0xc0000000, 0x40e00000, 0x447a0000] = .ok 0x447c0000 := by decide +kernel

/-! ## C48: iterator sum and product of float vectors -/

/-- Lane `i` accumulates lane `i` of the items from left to right, starting from zero (one). -/
theorem C48_float (items : List (Vec (BitVec w) n)) (i : Nat) (h : i < n) :
    (FVec.iterSum man items)[i] = (items.map fun v => v[i]).foldl (Flt.add man) (Flt.fromInt w man 0) ∧
    (FVec.iterProduct man items)[i] = (items.map fun v => v[i]).foldl (Flt.mul man) (Flt.fromInt w man 1) := by
  constructor
  · exact (foldl_zipWith_lane (Flt.add man) n i h items _).trans (by simp [PackedSimd.splat])
  · exact (foldl_zipWith_lane (Flt.mul man) n i h items _).trans (by simp [PackedSimd.splat])

/-- For lanes that are multiples of a power of two with small enough sum of magnitudes, the sum is exact, whatever the order of the items. -/
theorem C48_float_exact (hf : Format w man) (items : List (Vec (BitVec w) n)) (i : Nat) (h : i < n) (k : Nat)
    (hk : 2 ^ (man + 1) * 2 ^ k < magUnits man (infMag w man)) (z : BitVec w → Int)
    (hz : ∀ v ∈ items, valueOf man v[i] = .num (z v[i] * 2 ^ k))
    (hs : (items.map fun v => (z v[i]).natAbs).sum ≤ 2 ^ (man + 1)) :
    valueOf man (FVec.iterSum man items)[i] = .num ((items.map fun v => z v[i]).sum * 2 ^ k) := by
  rw [(C48_float items i h).1]
  have := foldl_sum_exact hf k hk z (items.map fun v => v[i]) (Flt.fromInt w man 0) 0 ?_ (by rw [Int.zero_mul]; exact valueOf_zero hf) ?_
  · rw [this, Int.zero_add, List.map_map]; rfl
  · intro x hx
    obtain ⟨v, hv, rfl⟩ := List.mem_map.1 hx
    exact hz v hv
  · simpa [List.map_map, Function.comp_def] using hs

example : FVec.iterSum 23 [#v[(0x3f800000 : BitVec 32), 0], #v[0x40000000, 0x3f800000]] = #v[0x40400000, 0x3f800000] ∧
    FVec.iterProduct 23 ([] : List (Vec (BitVec 32) 1)) = #v[0x3f800000] := by decide +kernel

/-! ## C58: min_element and max_element of float vectors -/

theorem foldl_min_value (hf : Format w man) (pick : BitVec w → BitVec w → Bool) : ∀ (L : List (BitVec w)) (x : BitVec w),
    valueOf man (L.foldl (Flt.minNum man pick) x) = (L.map (valueOf man)).foldl FVal.min (valueOf man x) ∧
    valueOf man (L.foldl (Flt.maxNum man pick) x) = (L.map (valueOf man)).foldl FVal.max (valueOf man x)
  | [], _ => ⟨rfl, rfl⟩
  | y :: L, x => by
    rw [List.foldl_cons, List.foldl_cons, (foldl_min_value hf pick L _).1, (foldl_min_value hf pick L _).2, (minNum_value hf pick x y).1,
      (minNum_value hf pick x y).2]
    exact ⟨rfl, rfl⟩

theorem foldl_mem_of_pick {α : Type} (op : α → α → α) (h : ∀ x y, op x y = x ∨ op x y = y) : ∀ (L : List α) (x : α), L.foldl op x ∈ x :: L
  | [], x => by simp
  | y :: L, x => by
    have := foldl_mem_of_pick op h L (op x y)
    rw [List.foldl_cons]
    rcases List.mem_cons.1 this with e | e
    · rcases h x y with e' | e' <;> rw [e, e'] <;> simp
    · simp [e]

/-- `x` and `y` are not NaN, and `x` is less than or equal to `y`. -/
def FLe : FVal → FVal → Prop
  | .nan, _ => False
  | _, .nan => False
  | .inf true, _ => True
  | _, .inf false => True
  | .num a, .num b => a ≤ b
  | _, _ => False

theorem fle_min (x y : FVal) : (y ≠ .nan → FLe (x.min y) y) ∧ (x ≠ .nan → FLe (x.min y) x) ∧
    (y ≠ .nan → FLe y (x.max y)) ∧ (x ≠ .nan → FLe x (x.max y)) := by
  rcases x with _ | (_ | _) | a <;> rcases y with _ | (_ | _) | b <;> simp [FVal.min, FVal.max, FLe]
  omega

theorem fle_trans (x y z : FVal) (h1 : FLe x y) (h2 : FLe y z) : FLe x z := by
  revert h1 h2
  rcases x with _ | (_ | _) | a <;> rcases y with _ | (_ | _) | b <;> rcases z with _ | (_ | _) | c <;> simp [FLe]
  omega

/-- `min_element` returns (the bits of) some lane; it is NaN only if all lanes are NaN; otherwise it is a lane not greater than any other lane
that is not NaN.  `max_element` dually.  On every target. -/
theorem C58_min_max_element [LaneCount n] (hf : Format w man) (pick : BitVec w → BitVec w → Bool) (t : Target) (v : Vec (BitVec w) n) :
    (∃ r, FVec.minElement man pick t v = .ok r ∧ (∃ i, ∃ h : i < n, v[i] = r) ∧
      ∀ i (h : i < n), valueOf man v[i] ≠ .nan → FLe (valueOf man r) (valueOf man v[i])) ∧
    (∃ r, FVec.maxElement man pick t v = .ok r ∧ (∃ i, ∃ h : i < n, v[i] = r) ∧
      ∀ i (h : i < n), valueOf man v[i] ≠ .nan → FLe (valueOf man v[i]) (valueOf man r)) := by
  have emin : FVec.minElement man pick t v = simdReduce (Flt.minNum man pick) v := by
    unfold FVec.minElement; split; rw [laneLoop_eq]; rfl
  have emax : FVec.maxElement man pick t v = simdReduce (Flt.maxNum man pick) v := by
    unfold FVec.maxElement; split; rw [laneLoop_eq]; rfl
  obtain ⟨tl, hcons⟩ : ∃ tl, v.toList = (v[0]'LaneCount.pos) :: tl := ⟨_, toList_eq_cons v LaneCount.pos⟩
  have fold_le : ∀ (L : List FVal) (x : FVal), (∀ y ∈ x :: L, y ≠ .nan → FLe (L.foldl FVal.min x) y) ∧
      (∀ y ∈ x :: L, y ≠ .nan → FLe y (L.foldl FVal.max x)) := by
    have refl : ∀ x : FVal, x ≠ .nan → FLe x x := by
      intro x hx
      have := (fle_min x x).2.1 hx
      rw [(C16_float_laws x x x).2.2.2.2.1] at this; exact this
    have hmn : ∀ x y : FVal, x ≠ .nan → x.min y ≠ .nan ∧ x.max y ≠ .nan ∧ y.min x ≠ .nan ∧ y.max x ≠ .nan := by
      intro x y hx
      rcases x with _ | (_ | _) | a <;> rcases y with _ | (_ | _) | b <;> simp [FVal.min, FVal.max] at hx ⊢
    intro L
    induction L with
    | nil => intro x; simp only [List.mem_singleton, List.foldl_nil]; exact ⟨fun y e h => by rw [e] at h ⊢; exact refl x h, fun y e h => by rw [e] at h ⊢; exact refl x h⟩
    | cons z L ih =>
      intro x
      obtain ⟨i1, i2⟩ := ih (x.min z)
      obtain ⟨j1, j2⟩ := ih (x.max z)
      have f := fle_min x z
      constructor
      · intro y hy hn
        rw [List.foldl_cons]
        rcases List.mem_cons.1 hy with rfl | hy
        · exact fle_trans _ _ _ (i1 _ (by simp) (hmn y z hn).1) (f.2.1 hn)
        · rcases List.mem_cons.1 hy with rfl | hy
          · exact fle_trans _ _ _ (i1 _ (by simp) (hmn y x hn).2.2.1) (f.1 hn)
          · exact i1 y (by simp [hy]) hn
      · intro y hy hn
        rw [List.foldl_cons]
        rcases List.mem_cons.1 hy with rfl | hy
        · exact fle_trans _ _ _ (f.2.2.2 hn) (j2 _ (by simp) (hmn y z hn).2.1)
        · rcases List.mem_cons.1 hy with rfl | hy
          · exact fle_trans _ _ _ (f.2.2.1 hn) (j2 _ (by simp) (hmn y x hn).2.2.2)
          · exact j2 y (by simp [hy]) hn
  have memval : ∀ i (h : i < n), valueOf man v[i] ∈ (v.toList.map (valueOf man)) := fun i h =>
    List.mem_map.2 ⟨_, Vector.mem_toList_iff.2 (Vector.getElem_mem h), rfl⟩
  constructor
  · refine ⟨_, emin.trans (simdReduce_cons _ _ hcons), ?_, ?_⟩
    · have := foldl_mem_of_pick (Flt.minNum man pick) (fun x y => (minNum_mem pick x y).1) tl (v[0]'LaneCount.pos)
      rw [← hcons] at this
      exact Vector.mem_iff_getElem.1 (Vector.mem_toList_iff.1 this)
    · intro i h hn
      rw [(foldl_min_value hf pick _ _).1]
      have := memval i h
      rw [hcons, List.map_cons] at this
      exact (fold_le _ _).1 _ this hn
  · refine ⟨_, emax.trans (simdReduce_cons _ _ hcons), ?_, ?_⟩
    · have := foldl_mem_of_pick (Flt.maxNum man pick) (fun x y => (minNum_mem pick x y).2) tl (v[0]'LaneCount.pos)
      rw [← hcons] at this
      exact Vector.mem_iff_getElem.1 (Vector.mem_toList_iff.1 this)
    · intro i h hn
      rw [(foldl_min_value hf pick _ _).2]
      have := memval i h
      rw [hcons, List.map_cons] at this
      exact (fold_le _ _).2 _ this hn

example : FVec.minElement 23 (fun _ _ => true) x64Avx #v[(0xc0400000 : BitVec 32), 0xc0400000, 0x7fc00000, 0x7fc00000] = .ok 0xc0400000 ∧
    FVec.maxElement 23 (fun _ _ => true) armNeon #v[(0x7fc00000 : BitVec 32), 0xc0400000, 0x3f800000, 0x7fc00000] = .ok 0x3f800000 := by
  decide +kernel

end PackedSimd.Props
