import Verif.Lemmas.Float
import Verif.Model.FloatVec
/-
Comparison, arithmetic and rounding of single float lanes.
-/
namespace PackedSimd
open Spec

variable {w man : Nat}

theorem valueOf_qnan' (hf : Format w man) : valueOf man (Flt.qnan w man) = .nan := valueOf_qnan hf

/-! ### Comparisons -/

theorem cmp_nan_left (a b : BitVec w) (h : Flt.isNaN man a = true) : (valueOf man a).cmp (valueOf man b) = none := by
  rw [isNaN_iff] at h; rw [h]; rfl
theorem cmp_nan_right (a b : BitVec w) (h : Flt.isNaN man b = true) : (valueOf man a).cmp (valueOf man b) = none := by
  rw [isNaN_iff] at h; rw [h]; cases valueOf man a <;> rfl

theorem oeq_iff (hf : Format w man) (a b : BitVec w) :
    Flt.oeq man a b = ((valueOf man a).cmp (valueOf man b) == some .eq) := by
  unfold Flt.oeq
  cases ha : Flt.isNaN man a
  · cases hb : Flt.isNaN man b
    · rw [cmp_key hf a b ha hb]
      rcases Int.lt_trichotomy (Flt.key a) (Flt.key b) with h | h | h
      · rw [compare_of_lt h]; simp [Int.ne_of_lt h]
      · rw [h, compare_refl]; simp
      · rw [compare_of_gt h]; simp [Int.ne_of_gt h]
    · rw [cmp_nan_right a b hb]; simp
  · rw [cmp_nan_left a b ha]; simp

theorem olt_iff (hf : Format w man) (a b : BitVec w) :
    Flt.olt man a b = ((valueOf man a).cmp (valueOf man b) == some .lt) := by
  unfold Flt.olt
  cases ha : Flt.isNaN man a
  · cases hb : Flt.isNaN man b
    · rw [cmp_key hf a b ha hb]
      rcases Int.lt_trichotomy (Flt.key a) (Flt.key b) with h | h | h
      · rw [compare_of_lt h]; simp [h]
      · rw [h, compare_refl]; simp
      · rw [compare_of_gt h]; simp [Int.not_lt.2 (Int.le_of_lt h)]
    · rw [cmp_nan_right a b hb]; simp
  · rw [cmp_nan_left a b ha]; simp

theorem ogt_iff (hf : Format w man) (a b : BitVec w) :
    Flt.ogt man a b = ((valueOf man a).cmp (valueOf man b) == some .gt) := by
  unfold Flt.ogt Flt.olt
  cases ha : Flt.isNaN man a
  · cases hb : Flt.isNaN man b
    · rw [cmp_key hf a b ha hb]
      rcases Int.lt_trichotomy (Flt.key a) (Flt.key b) with h | h | h
      · rw [compare_of_lt h]; simp [Int.not_lt.2 (Int.le_of_lt h)]
      · rw [h, compare_refl]; simp
      · rw [compare_of_gt h]; simp [h]
    · rw [cmp_nan_right a b hb]; simp
  · rw [cmp_nan_left a b ha]; simp

theorem ole_iff (hf : Format w man) (a b : BitVec w) :
    Flt.ole man a b = ((valueOf man a).cmp (valueOf man b) == some .lt || (valueOf man a).cmp (valueOf man b) == some .eq) := by
  unfold Flt.ole
  cases ha : Flt.isNaN man a
  · cases hb : Flt.isNaN man b
    · rw [cmp_key hf a b ha hb]
      rcases Int.lt_trichotomy (Flt.key a) (Flt.key b) with h | h | h
      · rw [compare_of_lt h]; simp [Int.le_of_lt h]
      · rw [h, compare_refl]; simp
      · rw [compare_of_gt h]; simp [h]
    · rw [cmp_nan_right a b hb]; simp
  · rw [cmp_nan_left a b ha]; simp

theorem oge_iff (hf : Format w man) (a b : BitVec w) :
    Flt.oge man a b = ((valueOf man a).cmp (valueOf man b) == some .gt || (valueOf man a).cmp (valueOf man b) == some .eq) := by
  unfold Flt.oge Flt.ole
  cases ha : Flt.isNaN man a
  · cases hb : Flt.isNaN man b
    · rw [cmp_key hf a b ha hb]
      rcases Int.lt_trichotomy (Flt.key a) (Flt.key b) with h | h | h
      · rw [compare_of_lt h]; simp [h]
      · rw [h, compare_refl]; simp
      · rw [compare_of_gt h]; simp [Int.le_of_lt h]
    · rw [cmp_nan_right a b hb]; simp
  · rw [cmp_nan_left a b ha]; simp

/-! ### Rounding -/

theorem roundMag_le (hf : Format w man) (num den : Nat) (hd : 0 < den) : Flt.roundMag w man num den ≤ infMag w man :=
  (roundMag_nearest hf.1 num den hd).1

theorem magBits_round (hf : Format w man) (neg : Bool) (num den : Nat) (hd : 0 < den) :
    magBits (Flt.mk w neg (Flt.roundMag w man num den)) = Flt.roundMag w man num den ∧
    isNeg (Flt.mk w neg (Flt.roundMag w man num den)) = neg := by
  apply magBits_mk hf
  have := roundMag_le hf num den hd
  have := infMag_lt hf
  have := Nat.two_pow_pos man
  omega

theorem roundsTo_mk (hf : Format w man) (num : Int) (den : Nat) (hd : 0 < den) (neg : Bool) (hn : num ≠ 0 → neg = decide (num < 0)) :
    RoundsTo man (.frac num den) (Flt.mk w neg (Flt.roundMag w man num.natAbs den)) := by
  obtain ⟨h1, h2⟩ := magBits_round hf neg num.natAbs den hd
  refine ⟨hd, ?_, ?_⟩
  · rw [h1]; exact roundMag_nearest hf.1 _ _ hd
  · intro h; rw [h2, hn h]

theorem nearest_zero (hf : Format w man) (den : Nat) : IsNearestEven w man 0 den 0 := by
  refine ⟨Nat.zero_le _, ?_, ?_⟩
  · intro c _
    have : magUnits man 0 = 0 := by simp [magUnits]
    rw [this]; simp
  · intro c _ _ _; rfl

theorem roundsTo_roundInt (hf : Format w man) (num : Int) (den : Nat) (hd : 0 < den) (z : Bool) :
    RoundsTo man (.frac num den) (Flt.roundInt w man z num den) := by
  unfold Flt.roundInt
  split
  · rename_i h
    subst h
    have hI := infMag_pos hf
    have := infMag_lt hf
    have hp := Nat.two_pow_pos man
    obtain ⟨h1, -⟩ := magBits_mk hf z (show 0 < 2 ^ (w - 1) by omega)
    refine ⟨hd, ?_, fun h => absurd rfl h⟩
    rw [h1]; exact nearest_zero hf den
  · exact roundsTo_mk hf num den hd _ (fun _ => rfl)

theorem valueOf_inf (hf : Format w man) (neg : Bool) : valueOf man (Flt.mk w neg (infMag w man)) = .inf neg := by
  rw [valueOf_mk hf neg (Nat.le_refl _), if_pos rfl]

theorem negate_spec (hf : Format w man) (x : BitVec w) : magBits (Flt.negate x) = magBits x ∧ isNeg (Flt.negate x) = !isNeg x := by
  have h2 := two_pow_width hf
  have hx := x.isLt
  have key : Flt.negate x = Flt.mk w (!isNeg x) (magBits x) := by
    apply BitVec.eq_of_toNat_eq
    unfold Flt.negate Flt.mk isNeg magBits
    have hp := Nat.two_pow_pos (w - 1)
    rw [BitVec.toNat_xor, BitVec.toNat_ofNat, BitVec.toNat_ofNat, Nat.mod_eq_of_lt (show 2 ^ (w - 1) < 2 ^ w by omega)]
    by_cases h : 2 ^ (w - 1) ≤ x.toNat
    · obtain ⟨y, hy⟩ : ∃ y, x.toNat = y + 2 ^ (w - 1) := ⟨x.toNat - 2 ^ (w - 1), by omega⟩
      have hy' : y < 2 ^ (w - 1) := by omega
      rw [decide_eq_true h, hy]
      simp only [Bool.not_true, Bool.false_eq_true, if_false, Nat.add_mod_right, Nat.mod_eq_of_lt hy',
        Nat.mod_eq_of_lt (show y < 2 ^ w by omega)]
      have : (y + 2 ^ (w - 1)) = y ^^^ 2 ^ (w - 1) := by
        have := Nat.two_pow_add_eq_or_of_lt hy' 1
        rw [Nat.mul_one] at this
        rw [Nat.add_comm, this]
        apply Nat.eq_of_testBit_eq
        intro j
        rw [Nat.testBit_or, Nat.testBit_xor, Nat.testBit_two_pow]
        by_cases hj : w - 1 = j
        · subst hj; simp [Nat.testBit_lt_two_pow hy']
        · simp [hj]
      rw [this, Nat.xor_assoc, Nat.xor_self, Nat.xor_zero]
    · have hy' : x.toNat < 2 ^ (w - 1) := by omega
      rw [decide_eq_false h]
      simp only [Bool.not_false, if_true, Nat.mod_eq_of_lt hy', Nat.mod_eq_of_lt (show 2 ^ (w - 1) + x.toNat < 2 ^ w by omega)]
      have := Nat.two_pow_add_eq_or_of_lt hy' 1
      rw [Nat.mul_one] at this
      rw [this]
      apply Nat.eq_of_testBit_eq
      intro j
      rw [Nat.testBit_or, Nat.testBit_xor, Nat.testBit_two_pow]
      by_cases hj : w - 1 = j
      · subst hj; simp [Nat.testBit_lt_two_pow hy']
      · simp [hj]
  rw [key]
  have := Nat.two_pow_pos (w - 1)
  exact magBits_mk hf _ (Nat.mod_lt _ this)

/-- Case split on the value of a lane. -/
theorem lane_cases (x : BitVec w) :
    (Flt.isNaN man x = true ∧ Flt.isInf man x = false ∧ infMag w man < magBits x ∧ valueOf man x = .nan) ∨
    (Flt.isNaN man x = false ∧ Flt.isInf man x = true ∧ magBits x = infMag w man ∧ valueOf man x = .inf (isNeg x)) ∨
    (Flt.isNaN man x = false ∧ Flt.isInf man x = false ∧ magBits x < infMag w man ∧ valueOf man x = .num (Flt.units man x)) := by
  rcases valueOf_cases (man := man) x with h | ⟨h1, h2, h3⟩ | h
  · have h' : infMag w man < magBits x := by simpa [Flt.isNaN] using h.1
    refine .inl ⟨h.1, ?_, h', h.2⟩
    unfold Flt.isInf; rw [decide_eq_false]; omega
  · exact .inr (.inl ⟨h1, h2, by simpa [Flt.isInf] using h2, h3⟩)
  · exact .inr (.inr h)

set_option linter.unusedSimpArgs false

theorem add_rounds (hf : Format w man) (x y : BitVec w) : RoundsTo man (exactAdd man x y) (Flt.add man x y) := by
  unfold Flt.add exactAdd
  rcases lane_cases (man := man) x with ⟨a1, a3, a4, a2⟩ | ⟨a1, a3, a4, a2⟩ | ⟨a1, a3, a4, a2⟩ <;>
  rcases lane_cases (man := man) y with ⟨b1, b3, b4, b2⟩ | ⟨b1, b3, b4, b2⟩ | ⟨b1, b3, b4, b2⟩ <;>
  simp only [a1, a2, b1, b2, Bool.or_true, Bool.or_false, Bool.true_or, Bool.false_or, if_true, Bool.false_eq_true, if_false, a3, b3]
  all_goals first
    | exact valueOf_qnan hf
    | exact roundsTo_roundInt hf _ _ (by decide) _
    | skip
  · cases h1 : isNeg x <;> cases h2 : isNeg y <;> simp [RoundsTo, valueOf_qnan hf, a2, h1]
  · simp [RoundsTo, a2]
  · simp [RoundsTo, b2]

theorem isNaN_negate (hf : Format w man) (y : BitVec w) : Flt.isNaN man (Flt.negate y) = Flt.isNaN man y := by
  unfold Flt.isNaN; rw [(negate_spec hf y).1]
theorem isInf_negate (hf : Format w man) (y : BitVec w) : Flt.isInf man (Flt.negate y) = Flt.isInf man y := by
  unfold Flt.isInf; rw [(negate_spec hf y).1]
theorem units_negate (hf : Format w man) (y : BitVec w) : Flt.units man (Flt.negate y) = -Flt.units man y := by
  unfold Flt.units; rw [(negate_spec hf y).1, (negate_spec hf y).2]; cases isNeg y <;> simp

theorem sub_rounds (hf : Format w man) (x y : BitVec w) : RoundsTo man (exactSub man x y) (Flt.sub man x y) := by
  unfold Flt.sub
  by_cases hn : Flt.isNaN man y = true
  · rw [if_pos hn]
    have := (isNaN_iff y).1 hn
    unfold exactSub; rw [this]
    cases valueOf man x <;> exact valueOf_qnan hf
  · rw [if_neg hn]
    have h := add_rounds hf x (Flt.negate y)
    have e : exactAdd man x (Flt.negate y) = exactSub man x y := by
      unfold exactAdd exactSub
      rcases lane_cases (man := man) y with ⟨b1, b3, b4, b2⟩ | ⟨b1, b3, b4, b2⟩ | ⟨b1, b3, b4, b2⟩
      · exact absurd b1 hn
      · have : valueOf man (Flt.negate y) = .inf (!isNeg y) := by
          rcases lane_cases (man := man) (Flt.negate y) with ⟨c1, c3, c4, c2⟩ | ⟨c1, c3, c4, c2⟩ | ⟨c1, c3, c4, c2⟩
          · rw [isNaN_negate hf, b1] at c1; cases c1
          · rw [c2, (negate_spec hf y).2]
          · rw [isInf_negate hf, b3] at c3; cases c3
        rw [this, b2]
        cases valueOf man x with
        | nan => rfl
        | inf p => cases p <;> cases isNeg y <;> rfl
        | num z => rfl
      · have : valueOf man (Flt.negate y) = .num (-Flt.units man y) := by
          rcases lane_cases (man := man) (Flt.negate y) with ⟨c1, c3, c4, c2⟩ | ⟨c1, c3, c4, c2⟩ | ⟨c1, c3, c4, c2⟩
          · rw [isNaN_negate hf, b1] at c1; cases c1
          · rw [isInf_negate hf, b3] at c3; cases c3
          · rw [c2, units_negate hf]
        rw [this, b2]
        cases valueOf man x with
        | nan => rfl
        | inf p => rfl
        | num z => show Exact.frac _ _ = _; rw [← Int.sub_eq_add_neg]
    rwa [e] at h

theorem magUnits_eq_zero {b : Nat} : magUnits man b = 0 ↔ b = 0 := by
  constructor
  · intro h
    apply magUnits_inj (man := man)
    rw [h]; simp [magUnits]
  · rintro rfl; simp [magUnits]

theorem units_eq_zero (x : BitVec w) : Flt.units man x = 0 ↔ magBits x = 0 := by
  unfold Flt.units
  rw [← magUnits_eq_zero (man := man)]
  split <;> omega
theorem units_neg (x : BitVec w) (h : magBits x ≠ 0) : decide (Flt.units man x < 0) = isNeg x := by
  unfold Flt.units
  have : magUnits man (magBits x) ≠ 0 := fun e => h (magUnits_eq_zero.1 e)
  cases hx : isNeg x
  · simp
  · simp; omega
theorem units_natAbs (x : BitVec w) : (Flt.units man x).natAbs = magUnits man (magBits x) := by
  unfold Flt.units; split <;> omega

theorem sign_mul (a b : Int) (ha : a ≠ 0) (hb : b ≠ 0) : decide (a * b < 0) = (decide (a < 0) != decide (b < 0)) := by
  rcases Int.lt_or_lt_of_ne ha with h | h <;> rcases Int.lt_or_lt_of_ne hb with h' | h'
  · have := Int.mul_pos_of_neg_of_neg h h'
    simp [h, h', Int.not_lt.2 (Int.le_of_lt this)]
  · have := Int.mul_neg_of_neg_of_pos h h'
    simp [h, this, Int.not_lt.2 (Int.le_of_lt h')]
  · have := Int.mul_neg_of_pos_of_neg h h'
    simp [h', this, Int.not_lt.2 (Int.le_of_lt h)]
  · have := Int.mul_pos h h'
    simp [Int.not_lt.2 (Int.le_of_lt this), Int.not_lt.2 (Int.le_of_lt h), Int.not_lt.2 (Int.le_of_lt h')]

theorem mul_rounds (hf : Format w man) (x y : BitVec w) : RoundsTo man (exactMul man x y) (Flt.mul man x y) := by
  unfold Flt.mul exactMul
  rcases lane_cases (man := man) x with ⟨a1, a3, a4, a2⟩ | ⟨a1, a3, a4, a2⟩ | ⟨a1, a3, a4, a2⟩ <;>
  rcases lane_cases (man := man) y with ⟨b1, b3, b4, b2⟩ | ⟨b1, b3, b4, b2⟩ | ⟨b1, b3, b4, b2⟩ <;>
  simp only [a1, a2, b1, b2, Bool.or_true, Bool.or_false, Bool.true_or, Bool.false_or, if_true, Bool.false_eq_true, if_false, a3, b3]
  all_goals first
    | exact valueOf_qnan hf
    | skip
  · have := infMag_pos hf
    rw [if_neg (by omega)]
    exact valueOf_inf hf _
  · simp only [units_eq_zero]
    split
    · exact valueOf_qnan hf
    · rename_i h
      rw [units_neg y h]
      exact valueOf_inf hf _
  · simp only [units_eq_zero]
    split
    · exact valueOf_qnan hf
    · rename_i h
      rw [units_neg x h]
      exact valueOf_inf hf _
  · have := roundsTo_mk hf (Flt.units man x * Flt.units man y) (2 ^ low w man) (Nat.two_pow_pos _) (isNeg x != isNeg y) ?_
    · rwa [Int.natAbs_mul, units_natAbs, units_natAbs] at this
    · intro h
      have hx : Flt.units man x ≠ 0 := fun e => h (by rw [e, Int.zero_mul])
      have hy : Flt.units man y ≠ 0 := fun e => h (by rw [e, Int.mul_zero])
      rw [sign_mul _ _ hx hy, units_neg x ((not_congr (units_eq_zero x)).1 hx), units_neg y ((not_congr (units_eq_zero y)).1 hy)]

theorem div_rounds (hf : Format w man) (x y : BitVec w) : RoundsTo man (exactDiv man x y) (Flt.div man x y) := by
  unfold Flt.div exactDiv
  rcases lane_cases (man := man) x with ⟨a1, a3, a4, a2⟩ | ⟨a1, a3, a4, a2⟩ | ⟨a1, a3, a4, a2⟩ <;>
  rcases lane_cases (man := man) y with ⟨b1, b3, b4, b2⟩ | ⟨b1, b3, b4, b2⟩ | ⟨b1, b3, b4, b2⟩ <;>
  simp only [a1, a2, b1, b2, Bool.or_true, Bool.or_false, Bool.true_or, Bool.false_or, if_true, Bool.false_eq_true, if_false, a3, b3]
  all_goals first
    | exact valueOf_qnan hf
    | exact valueOf_inf hf _
    | skip
  · have hI := infMag_pos hf
    have := infMag_lt hf
    have hp := Nat.two_pow_pos man
    obtain ⟨h1, -⟩ := magBits_mk hf (isNeg x != isNeg y) (show 0 < 2 ^ (w - 1) by omega)
    refine ⟨by decide, ?_, fun h => absurd rfl h⟩
    rw [h1]; exact nearest_zero hf 1
  · simp only [units_eq_zero]
    split
    · split
      · exact valueOf_qnan hf
      · exact valueOf_inf hf _
    · rename_i hy
      have hyu : Flt.units man y ≠ 0 := (not_congr (units_eq_zero y)).2 hy
      have hden : 0 < (Flt.units man y).natAbs := by omega
      have hpos : (0 : Int) < 2 ^ low w man := by exact_mod_cast Nat.two_pow_pos (low w man)
      have hnat : ∀ z : Int, (z * 2 ^ low w man).natAbs = z.natAbs * 2 ^ low w man := by
        intro z; rw [Int.natAbs_mul, Int.natAbs_pow]; rfl
      have key := roundsTo_mk hf (if Flt.units man y < 0 then -Flt.units man x * 2 ^ low w man else Flt.units man x * 2 ^ low w man)
        (Flt.units man y).natAbs hden (isNeg x != isNeg y) ?_
      · have e : (if Flt.units man y < 0 then -Flt.units man x * 2 ^ low w man else Flt.units man x * 2 ^ low w man).natAbs =
            magUnits man (magBits x) * 2 ^ low w man := by
          split <;> rw [hnat] <;> simp only [Int.natAbs_neg, units_natAbs]
        rw [e] at key
        rw [units_natAbs] at key ⊢
        exact key
      · intro h
        have hx : Flt.units man x ≠ 0 := by
          intro e; apply h; rw [e]; simp
        rw [← units_neg (man := man) x ((not_congr (units_eq_zero x)).1 hx), ← units_neg (man := man) y hy]
        by_cases hs : Flt.units man y < 0
        · rw [if_pos hs, sign_mul _ _ (by omega) (by omega)]
          have : ¬ ((2 : Int) ^ low w man < 0) := by omega
          simp only [hs, this, decide_true, decide_false]
          by_cases hx0 : Flt.units man x < 0
          · have : ¬ (-Flt.units man x < 0) := by omega
            rw [decide_eq_true hx0, decide_eq_false this]; rfl
          · have : (-Flt.units man x < 0) := by omega
            rw [decide_eq_false hx0, decide_eq_true this]; rfl
        · rw [if_neg hs, sign_mul _ _ (by omega) (by omega)]
          have : ¬ ((2 : Int) ^ low w man < 0) := by omega
          simp only [hs, this, decide_false]

theorem rem_rounds (hf : Format w man) (x y : BitVec w) : RoundsTo man (exactRem man x y) (Flt.rem man x y) := by
  unfold Flt.rem exactRem
  rcases lane_cases (man := man) x with ⟨a1, a3, a4, a2⟩ | ⟨a1, a3, a4, a2⟩ | ⟨a1, a3, a4, a2⟩ <;>
  rcases lane_cases (man := man) y with ⟨b1, b3, b4, b2⟩ | ⟨b1, b3, b4, b2⟩ | ⟨b1, b3, b4, b2⟩ <;>
  simp only [a1, a2, b1, b2, Bool.or_true, Bool.or_false, Bool.true_or, Bool.false_or, if_true, Bool.false_eq_true, if_false, a3, b3]
  all_goals first
    | exact valueOf_qnan hf
    | skip
  · have := infMag_pos hf
    rw [if_neg (by simp; omega)]
    refine ⟨by decide, ?_, ?_⟩
    · rw [units_natAbs]
      have h := roundMag_nearest (w := w) hf.1 (magUnits man (magBits x)) 1 (by decide)
      have e := nearest_exact (by decide) h (Nat.le_of_lt a4) (Nat.mul_one _)
      rwa [e] at h
    · intro h
      exact (units_neg x ((not_congr (units_eq_zero x)).1 h)).symm
  · simp only [units_eq_zero, decide_eq_true_eq]
    split
    · exact valueOf_qnan hf
    · have key := roundsTo_mk hf ((Flt.units man x).tmod (Flt.units man y)) 1 (by decide) (isNeg x) ?_
      · rwa [Int.natAbs_tmod, units_natAbs, units_natAbs] at key
      · intro h
        have hx : Flt.units man x ≠ 0 := by
          intro e; apply h; rw [e]; simp
        rw [← units_neg (man := man) x ((not_congr (units_eq_zero x)).1 hx), decide_eq_decide]
        constructor
        · intro hn
          have := Int.tmod_nonneg (Flt.units man y) (a := -Flt.units man x) (by omega)
          rw [Int.neg_tmod] at this; omega
        · intro hn
          apply Classical.byContradiction
          intro hge
          have := Int.tmod_nonneg (Flt.units man y) (a := Flt.units man x) (by omega)
          omega

end PackedSimd

namespace PackedSimd
open Spec

variable {w man : Nat}

/-! ### Exact values -/

theorem exists_mag (k : Nat) : ∀ m, m ≤ 2 ^ (man + 1) → ∃ b, magUnits man b = m * 2 ^ k := by
  induction k with
  | zero => intro m hm; exact ⟨0 * 2 ^ man + m, magUnits_mk hm (.inl rfl)⟩
  | succ k ih =>
    intro m hm
    by_cases h : 2 ^ man ≤ m
    · exact ⟨(k + 1) * 2 ^ man + m, magUnits_mk hm (.inr h)⟩
    · obtain ⟨b, hb⟩ := ih (2 * m) (by rw [Nat.pow_succ]; omega)
      exact ⟨b, by rw [hb, Nat.pow_succ, Nat.mul_comm 2 m, Nat.mul_assoc, Nat.mul_comm 2]⟩

/-- The magnitude is one of a finite number. -/
def Representable (w man : Nat) (z : Int) : Prop := ∃ b, b < infMag w man ∧ magUnits man b = z.natAbs

theorem representable_of (m : Int) (k : Nat) (hm : m.natAbs ≤ 2 ^ (man + 1)) (hk : m.natAbs * 2 ^ k < magUnits man (infMag w man)) :
    Representable w man (m * 2 ^ k) := by
  have e : (m * 2 ^ k).natAbs = m.natAbs * 2 ^ k := by rw [Int.natAbs_mul, Int.natAbs_pow]; rfl
  obtain ⟨b, hb⟩ := exists_mag (man := man) k _ hm
  refine ⟨b, ?_, by rw [hb, e]⟩
  rw [← hb] at hk
  exact magUnits_lt_iff.1 hk

theorem representable_units {x : BitVec w} {z : Int} (h : valueOf man x = .num z) : Representable w man z := by
  rcases lane_cases (man := man) x with ⟨a1, a3, a4, a2⟩ | ⟨a1, a3, a4, a2⟩ | ⟨a1, a3, a4, a2⟩ <;> rw [a2] at h
  · cases h
  · cases h
  · cases h; exact ⟨_, a4, (units_natAbs x).symm⟩

theorem value_of_exact (hf : Format w man) {z : Int} {den : Nat} {x : BitVec w} (h : RoundsTo man (.frac (z * den) den) x)
    (hz : Representable w man z) : valueOf man x = .num z := by
  obtain ⟨hd, hn, hs⟩ := h
  obtain ⟨b, hb, hz⟩ := hz
  have e : (z * (den : Int)).natAbs = magUnits man b * den := by rw [hz, Int.natAbs_mul]; rfl
  rw [e] at hn
  have e2 := nearest_exact hd hn (Nat.le_of_lt hb) rfl
  rw [eq_mk hf x, e2, valueOf_mk hf _ (Nat.le_of_lt hb), if_neg (by omega)]
  by_cases h0 : z = 0
  · subst h0
    have : magUnits man b = 0 := by rw [hz]; rfl
    rw [this]; simp
  · have hd' : (den : Int) ≠ 0 := by omega
    rw [hs (Int.mul_ne_zero h0 hd'), sign_mul _ _ h0 hd', hz]
    have : ¬ ((den : Int) < 0) := by omega
    by_cases hz0 : z < 0
    · simp only [this, hz0, decide_true, decide_false]
      simp; omega
    · simp only [this, hz0, decide_false]
      simp; omega

/-- A correctly rounded result is determined as a value. -/
theorem roundsTo_value_unique (hf : Format w man) {e : Exact} {x y : BitVec w} (hx : RoundsTo man e x) (hy : RoundsTo man e y) :
    valueOf man x = valueOf man y := by
  cases e with
  | nan => exact hx.trans hy.symm
  | inf p => exact hx.trans hy.symm
  | frac num den =>
    obtain ⟨hd, hxn, hxs⟩ := hx
    obtain ⟨-, hyn, hys⟩ := hy
    have hb := nearest_unique hd hxn hyn
    by_cases h0 : num = 0
    · subst h0
      have h1 := nearest_exact hd hyn (Nat.zero_le _) (by simp [magUnits])
      rw [h1] at hb
      have z : ∀ v : BitVec w, magBits v = 0 → valueOf man v = .num 0 := by
        intro v hv
        rcases lane_cases (man := man) v with ⟨a1, a3, a4, a2⟩ | ⟨a1, a3, a4, a2⟩ | ⟨a1, a3, a4, a2⟩
        · omega
        · have := infMag_pos hf; omega
        · rw [a2, (units_eq_zero v).2 hv]
      rw [z x hb, z y h1]
    · rw [eq_mk hf x, eq_mk hf y, hb, hxs h0, hys h0]

/-! ### Addition on values -/

theorem exactAdd_congr {a a' b b' : BitVec w} (ha : valueOf man a = valueOf man a') (hb : valueOf man b = valueOf man b') :
    exactAdd man a b = exactAdd man a' b' := by unfold exactAdd; rw [ha, hb]

theorem add_value_congr (hf : Format w man) {a a' b b' : BitVec w} (ha : valueOf man a = valueOf man a')
    (hb : valueOf man b = valueOf man b') : valueOf man (Flt.add man a b) = valueOf man (Flt.add man a' b') := by
  have h1 := add_rounds hf a b
  rw [exactAdd_congr ha hb] at h1
  exact roundsTo_value_unique hf h1 (add_rounds hf a' b')

theorem add_exact (hf : Format w man) {a b : BitVec w} {y z : Int} (ha : valueOf man a = .num y) (hb : valueOf man b = .num z)
    (hr : Representable w man (y + z)) : valueOf man (Flt.add man a b) = .num (y + z) := by
  have h := add_rounds hf a b
  unfold exactAdd at h
  rw [ha, hb] at h
  apply value_of_exact hf (den := 1) _ hr
  simpa using h

theorem valueOf_zero (hf : Format w man) : valueOf man (Flt.fromInt w man 0) = .num 0 := by
  have h0 : Flt.roundMag w man 0 1 = 0 := by
    have := roundMag_nearest (w := w) hf.1 0 1 (by decide)
    exact nearest_exact (by decide) this (Nat.zero_le _) (by simp [magUnits])
  have hI := infMag_pos hf
  unfold Flt.fromInt
  simp only [Int.natAbs_zero, Nat.zero_mul, h0]
  rw [valueOf_mk hf _ (Nat.zero_le _), if_neg (by omega)]
  simp [magUnits]

theorem zero_add_value (hf : Format w man) (x : BitVec w) : valueOf man (Flt.add man (Flt.fromInt w man 0) x) = valueOf man x := by
  cases hx : valueOf man x with
  | num z =>
    have := add_exact hf (valueOf_zero hf) hx (by rw [Int.zero_add]; exact representable_units hx)
    rwa [Int.zero_add] at this
  | nan =>
    have h := add_rounds hf (Flt.fromInt w man 0) x
    unfold exactAdd at h; rw [valueOf_zero hf, hx] at h; exact h
  | inf p =>
    have h := add_rounds hf (Flt.fromInt w man 0) x
    unfold exactAdd at h; rw [valueOf_zero hf, hx] at h; exact h

/-- One, as a float. -/
theorem valueOf_one (hf : Format w man) : valueOf man (Flt.fromInt w man 1) = .num (2 ^ low w man) ∧
    valueOf man (Flt.fromInt w man (-1)) = .num (-(2 ^ low w man)) ∧ magBits (Flt.fromInt w man 1) = magBits (Flt.fromInt w man (-1)) ∧
    isNeg (Flt.fromInt w man 1) = false ∧ isNeg (Flt.fromInt w man (-1)) = true := by
  have hb : 1 * 2 ^ low w man < magUnits man (infMag w man) := by
    have hI : infMag w man = (2 ^ (w - 1 - man) - 2) * 2 ^ man + 2 ^ man := by
      unfold infMag
      have : 2 ^ 2 ≤ 2 ^ (w - 1 - man) := Nat.pow_le_pow_right (by decide) (by have := hf.2; omega)
      rw [← Nat.succ_mul]; congr 1; omega
    rw [hI, magUnits_mk (by rw [Nat.pow_succ]; omega) (.inr (Nat.le_refl _)), Nat.one_mul, ← Nat.pow_add]
    apply Nat.pow_lt_pow_right (by decide)
    unfold low
    have e : 2 ^ (w - 1 - man) = 2 * 2 ^ (w - 2 - man) := by
      have := hf.2
      rw [← Nat.pow_succ']; congr 1; omega
    have : 2 ^ 1 ≤ 2 ^ (w - 2 - man) := Nat.pow_le_pow_right (by decide) (by have := hf.2; omega)
    omega
  have hr := representable_of (w := w) (man := man) 1 (low w man) (Nat.one_le_two_pow) hb
  obtain ⟨h1, h2⟩ := magBits_round hf (decide ((1:Int) < 0)) (1 * 2 ^ low w man) 1 (by decide)
  obtain ⟨h3, h4⟩ := magBits_round hf (decide ((-1:Int) < 0)) (1 * 2 ^ low w man) 1 (by decide)
  refine ⟨?_, ?_, ?_, h2, h4⟩
  · have := value_of_exact hf (z := 2 ^ low w man) (den := 1) (x := Flt.fromInt w man 1) ⟨by decide, ?_, fun _ => ?_⟩
      (by rw [Int.one_mul] at hr; exact hr)
    · exact this
    · show IsNearestEven w man _ _ (magBits (Flt.mk w _ _))
      rw [show (Int.natAbs 1) = 1 from rfl, h1]
      have e : (((2:Int) ^ low w man) * ((1:Nat):Int)).natAbs = 1 * 2 ^ low w man := by
        rw [Int.natAbs_mul, Int.natAbs_pow, Nat.one_mul]; simp
      rw [e]
      exact roundMag_nearest hf.1 _ _ (by decide)
    · refine h2.trans ?_
      have : (0:Int) < 2 ^ low w man := by exact_mod_cast Nat.two_pow_pos (low w man)
      rw [decide_eq_decide]; simp; omega
  · have := value_of_exact hf (z := -(2 ^ low w man)) (den := 1) (x := Flt.fromInt w man (-1)) ⟨by decide, ?_, fun _ => ?_⟩
      (by obtain ⟨b, hb, h⟩ := hr; exact ⟨b, hb, by rw [h]; simp⟩)
    · exact this
    · show IsNearestEven w man _ _ (magBits (Flt.mk w _ _))
      rw [show (Int.natAbs (-1)) = 1 from rfl, h3]
      have e : (-((2:Int) ^ low w man) * ((1:Nat):Int)).natAbs = 1 * 2 ^ low w man := by
        rw [Int.natAbs_mul, Int.natAbs_neg, Int.natAbs_pow, Nat.one_mul]; simp
      rw [e]
      exact roundMag_nearest hf.1 _ _ (by decide)
    · refine h4.trans ?_
      have : (0:Int) < 2 ^ low w man := by exact_mod_cast Nat.two_pow_pos (low w man)
      rw [decide_eq_decide]; simp; omega
  · show magBits (Flt.mk w _ (Flt.roundMag w man ((Int.natAbs 1) * _) 1)) = magBits (Flt.mk w _ (Flt.roundMag w man ((Int.natAbs (-1)) * _) 1))
    rw [show (Int.natAbs 1) = 1 from rfl, show (Int.natAbs (-1)) = 1 from rfl, h1, h3]

/-- Multiplying by minus one flips the sign bit. -/
theorem mul_minus_one (hf : Format w man) (x : BitVec w) (hx : Flt.isNaN man x = false) :
    magBits (Flt.mul man (Flt.fromInt w man (-1)) x) = magBits x ∧ isNeg (Flt.mul man (Flt.fromInt w man (-1)) x) = !isNeg x := by
  obtain ⟨h1, h2, h3, h4, h5⟩ := valueOf_one hf
  have hlt := infMag_lt hf
  have hp := Nat.two_pow_pos man
  rcases lane_cases (man := man) (Flt.fromInt w man (-1)) with ⟨a1, a3, a4, a2⟩ | ⟨a1, a3, a4, a2⟩ | ⟨a1, a3, a4, a2⟩
  · rw [a2] at h2; cases h2
  · rw [a2] at h2; cases h2
  have hu : Flt.units man (Flt.fromInt w man (-1)) = -(2 ^ low w man) := by rw [a2] at h2; exact FVal.num.inj h2
  have hm : magUnits man (magBits (Flt.fromInt w man (-1))) = 2 ^ low w man := by
    rw [← units_natAbs, hu, Int.natAbs_neg, Int.natAbs_pow]; rfl
  unfold Flt.mul
  rcases lane_cases (man := man) x with ⟨b1, b3, b4, b2⟩ | ⟨b1, b3, b4, b2⟩ | ⟨b1, b3, b4, b2⟩
  · rw [hx] at b1; cases b1
  · have hne : magBits (Flt.fromInt w man (-1)) ≠ 0 := by
      intro e; rw [e] at hm
      have := Nat.two_pow_pos (low w man)
      simp [magUnits] at hm; omega
    simp only [a1, b1, a3, b3, Bool.or_false, if_true, Bool.false_eq_true, if_false, if_neg hne, h5, b4]
    obtain ⟨c1, c2⟩ := magBits_mk hf (true != isNeg x) (show infMag w man < 2 ^ (w - 1) by omega)
    rw [c1, c2]; exact ⟨rfl, by cases isNeg x <;> rfl⟩
  · simp only [a1, b1, a3, b3, Bool.or_false, Bool.false_eq_true, if_false, h5, hm]
    obtain ⟨c1, c2⟩ := magBits_round hf (true != isNeg x) (2 ^ low w man * magUnits man (magBits x)) (2 ^ low w man) (Nat.two_pow_pos _)
    rw [c1, c2]
    refine ⟨?_, by cases isNeg x <;> rfl⟩
    have := roundMag_nearest (w := w) hf.1 (2 ^ low w man * magUnits man (magBits x)) (2 ^ low w man) (Nat.two_pow_pos _)
    exact nearest_exact (Nat.two_pow_pos _) this (Nat.le_of_lt b4) (Nat.mul_comm _ _)

/-! ### Minimum, maximum -/

theorem cmp_eq_imp {x y : FVal} (h : x.cmp y = some .eq) : x = y := by
  cases x with
  | nan => cases h
  | inf p => cases y with
    | nan => cases h
    | inf q => revert h; cases p <;> cases q <;> simp [FVal.cmp] <;> decide
    | num z => revert h; cases p <;> simp [FVal.cmp]
  | num u => cases y with
    | nan => cases h
    | inf q => revert h; cases q <;> simp [FVal.cmp]
    | num z =>
      simp only [FVal.cmp, Option.some.injEq] at h
      rcases Int.lt_trichotomy u z with h' | h' | h'
      · rw [compare_of_lt h'] at h; cases h
      · rw [h']
      · rw [compare_of_gt h'] at h; cases h

theorem fval_min_of_cmp {x y : FVal} : (x.cmp y = some .lt → x.min y = x ∧ x.max y = y) ∧
    (x.cmp y = some .gt → x.min y = y ∧ x.max y = x) ∧ (x.cmp y = some .eq → x.min y = x ∧ x.max y = x) := by
  cases x with
  | nan => simp [FVal.cmp]
  | inf p => cases y with
    | nan => cases p <;> simp [FVal.cmp]
    | inf q => cases p <;> cases q <;> decide
    | num z => cases p <;> simp [FVal.cmp, FVal.min, FVal.max]
  | num u => cases y with
    | nan => simp [FVal.cmp]
    | inf q => cases q <;> simp [FVal.cmp, FVal.min, FVal.max]
    | num z =>
      simp only [FVal.cmp, Option.some.injEq, FVal.min, FVal.max, FVal.num.injEq]
      rcases Int.lt_trichotomy u z with h' | h' | h'
      · rw [compare_of_lt h']; simp; omega
      · rw [h', compare_refl]; simp
      · rw [compare_of_gt h']; simp; omega

theorem minNum_value (hf : Format w man) (pick : BitVec w → BitVec w → Bool) (a b : BitVec w) :
    valueOf man (Flt.minNum man pick a b) = (valueOf man a).min (valueOf man b) ∧
    valueOf man (Flt.maxNum man pick a b) = (valueOf man a).max (valueOf man b) := by
  unfold Flt.minNum Flt.maxNum
  cases ha : Flt.isNaN man a
  · cases hb : Flt.isNaN man b
    · have hc := cmp_key hf a b ha hb
      have hc' := cmp_key hf b a hb ha
      rw [olt_iff hf, olt_iff hf, hc, hc']
      obtain ⟨f1, f2, f3⟩ := fval_min_of_cmp (x := valueOf man a) (y := valueOf man b)
      rcases Int.lt_trichotomy (Flt.key a) (Flt.key b) with h | h | h
      · rw [compare_of_lt h] at hc ⊢; rw [compare_of_gt h]
        rw [(f1 hc).1, (f1 hc).2]; simp
      · rw [h, compare_refl] at hc; rw [h, compare_refl]
        rw [(f3 hc).1, (f3 hc).2]
        have := cmp_eq_imp hc
        cases pick a b <;> simp [this]
      · rw [compare_of_gt h] at hc ⊢; rw [compare_of_lt h]
        rw [(f2 hc).1, (f2 hc).2]; simp
    · rw [(isNaN_iff b).1 hb]
      simp only [Bool.false_eq_true, if_false, if_true]
      cases valueOf man a <;> exact ⟨rfl, rfl⟩
  · rw [(isNaN_iff a).1 ha]
    exact ⟨rfl, rfl⟩

/-- The result is one of the operands. -/
theorem minNum_mem (pick : BitVec w → BitVec w → Bool) (a b : BitVec w) :
    (Flt.minNum man pick a b = a ∨ Flt.minNum man pick a b = b) ∧ (Flt.maxNum man pick a b = a ∨ Flt.maxNum man pick a b = b) := by
  unfold Flt.minNum Flt.maxNum
  constructor <;> cases Flt.isNaN man a <;> cases Flt.isNaN man b <;> cases Flt.olt man a b <;> cases Flt.olt man b a <;>
    cases pick a b <;> simp

theorem fval_min_comm (x y : FVal) : x.min y = y.min x ∧ x.max y = y.max x := by
  cases x with
  | nan => cases y with
    | nan => exact ⟨rfl, rfl⟩
    | inf q => cases q <;> exact ⟨rfl, rfl⟩
    | num z => exact ⟨rfl, rfl⟩
  | inf p => cases y with
    | nan => cases p <;> exact ⟨rfl, rfl⟩
    | inf q => cases p <;> cases q <;> exact ⟨rfl, rfl⟩
    | num z => cases p <;> exact ⟨rfl, rfl⟩
  | num u => cases y with
    | nan => exact ⟨rfl, rfl⟩
    | inf q => cases q <;> exact ⟨rfl, rfl⟩
    | num z => exact ⟨congrArg FVal.num (Int.min_comm u z), congrArg FVal.num (Int.max_comm u z)⟩

theorem fval_min_assoc (x y z : FVal) : (x.min y).min z = x.min (y.min z) ∧ (x.max y).max z = x.max (y.max z) := by
  rcases x with _ | (_ | _) | a <;> rcases y with _ | (_ | _) | b <;> rcases z with _ | (_ | _) | c <;>
    first
      | exact ⟨rfl, rfl⟩
      | exact ⟨congrArg FVal.num (Int.min_assoc a b c), congrArg FVal.num (Int.max_assoc a b c)⟩

end PackedSimd
