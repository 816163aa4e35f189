import Verif.Model.Float
/-
Lemmas about floating-point patterns: monotonicity of the encoding, correctness of rounding.
-/
namespace PackedSimd
open Spec

variable {w man : Nat}

theorem two_pow_pos (k : Nat) : 0 < 2 ^ k := Nat.two_pow_pos k

/-- The pattern `s * 2^man + q` with significand `q` and exponent shift `s`. -/
theorem magUnits_mk {s q : Nat} (hq : q ≤ 2 ^ (man + 1)) (h : s = 0 ∨ 2 ^ man ≤ q) :
    magUnits man (s * 2 ^ man + q) = q * 2 ^ s := by
  have hp := two_pow_pos man
  rw [Nat.pow_succ] at hq
  unfold magUnits
  dsimp only
  by_cases h0 : q < 2 ^ man
  · have hs : s = 0 := by rcases h with h | h; exact h; omega
    subst hs
    rw [Nat.zero_mul, Nat.zero_add, Nat.div_eq_of_lt h0, if_pos rfl, Nat.mod_eq_of_lt h0, Nat.pow_zero, Nat.mul_one]
  · by_cases h1 : q = 2 ^ man * 2
    · subst h1
      have e : s * 2 ^ man + 2 ^ man * 2 = (s + 2) * 2 ^ man := by rw [Nat.add_mul]; omega
      rw [e, Nat.mul_div_cancel _ hp, Nat.mul_mod_left, if_neg (by omega)]
      rw [show s + 2 - 1 = s + 1 by omega, Nat.pow_succ, Nat.add_zero, Nat.mul_assoc, Nat.mul_comm 2]
    · obtain ⟨r, rfl⟩ : ∃ r, q = 2 ^ man + r := ⟨q - 2 ^ man, by omega⟩
      have hr : r < 2 ^ man := by omega
      have e : s * 2 ^ man + (2 ^ man + r) = r + (s + 1) * 2 ^ man := by rw [Nat.add_mul]; omega
      rw [e, Nat.add_mul_div_right _ _ hp, Nat.div_eq_of_lt hr, Nat.add_mul_mod_self_right, Nat.mod_eq_of_lt hr,
        if_neg (by omega)]
      congr 2; omega

/-- Every pattern has that form. -/
theorem exists_mk (b : Nat) : ∃ s q, b = s * 2 ^ man + q ∧ q < 2 ^ (man + 1) ∧ (s = 0 ∨ 2 ^ man ≤ q) := by
  have hp := two_pow_pos man
  have h1 := Nat.div_add_mod b (2 ^ man)
  have h2 := Nat.mod_lt b hp
  rw [Nat.mul_comm] at h1
  by_cases h : b / 2 ^ man = 0
  · refine ⟨0, b % 2 ^ man, ?_, ?_, Or.inl rfl⟩
    · rw [h] at h1; omega
    · rw [Nat.pow_succ]; omega
  · obtain ⟨e, he⟩ := Nat.exists_eq_succ_of_ne_zero h
    rw [Nat.succ_eq_add_one] at he
    refine ⟨e, 2 ^ man + b % 2 ^ man, ?_, ?_, Or.inr (by omega)⟩
    · rw [he, Nat.add_mul] at h1; omega
    · rw [Nat.pow_succ]; omega

theorem magUnits_succ (b : Nat) : magUnits man b < magUnits man (b + 1) := by
  obtain ⟨s, q, rfl, hq, h⟩ := exists_mk (man := man) b
  rw [magUnits_mk (by omega) h, Nat.add_assoc, magUnits_mk (by omega) (h.imp id (by omega))]
  exact Nat.mul_lt_mul_of_pos_right (by omega) (two_pow_pos s)

theorem magUnits_lt {b c : Nat} (h : b < c) : magUnits man b < magUnits man c := by
  induction c with
  | zero => omega
  | succ c ih =>
    rcases Nat.lt_succ_iff_lt_or_eq.1 h with h | rfl
    · exact Nat.lt_trans (ih h) (magUnits_succ c)
    · exact magUnits_succ b

theorem magUnits_le {b c : Nat} (h : b ≤ c) : magUnits man b ≤ magUnits man c := by
  rcases Nat.lt_or_eq_of_le h with h | rfl
  · exact Nat.le_of_lt (magUnits_lt h)
  · exact Nat.le_refl _

theorem magUnits_lt_iff {b c : Nat} : magUnits man b < magUnits man c ↔ b < c := by
  refine ⟨fun h => ?_, magUnits_lt⟩
  by_cases hc : b < c
  · exact hc
  · have := magUnits_le (man := man) (show c ≤ b by omega); omega

theorem magUnits_inj {b c : Nat} (h : magUnits man b = magUnits man c) : b = c := by
  rcases Nat.lt_trichotomy b c with h1 | h1 | h1
  · have := magUnits_lt (man := man) h1; omega
  · exact h1
  · have := magUnits_lt (man := man) h1; omega

@[simp] theorem magUnits_zero : magUnits man 0 = 0 := by
  simp [magUnits]

/-- `roundMag` rounds to nearest, ties to even. -/
theorem roundMag_nearest (hf : 1 ≤ man) (num den : Nat) (hd : 0 < den) :
    IsNearestEven w man num den (Flt.roundMag w man num den) := by
  unfold Flt.roundMag
  generalize hs : Nat.log2 (num / den) - man = s
  dsimp only
  generalize hD : den * 2 ^ s = D
  generalize hq : num / D = q
  generalize hr : num % D = r
  have hDpos : 0 < D := by rw [← hD]; exact Nat.mul_pos hd (two_pow_pos s)
  have hnum : num = D * q + r := by rw [← hq, ← hr]; exact (Nat.div_add_mod _ _).symm
  have hrD : r < D := by rw [← hr]; exact Nat.mod_lt _ hDpos
  have hqm : q = num / den / 2 ^ s := by rw [← hq, ← hD, Nat.div_div_eq_div_mul]
  -- size of the significand
  have hqlt : q < 2 ^ (man + 1) := by
    rw [hqm]
    by_cases h0 : num / den = 0
    · rw [h0, Nat.zero_div]; exact two_pow_pos _
    · have h1 : num / den < 2 ^ (Nat.log2 (num / den) + 1) := Nat.lt_log2_self
      rw [Nat.div_lt_iff_lt_mul (two_pow_pos s), ← Nat.pow_add]
      exact Nat.lt_of_lt_of_le h1 (Nat.pow_le_pow_right (by decide) (by omega))
  have hqge : s = 0 ∨ 2 ^ man ≤ q := by
    by_cases h0 : s = 0
    · exact Or.inl h0
    · right
      have hne : num / den ≠ 0 := by
        intro h; rw [h] at hs; simp at hs; omega
      have h1 : 2 ^ Nat.log2 (num / den) ≤ num / den := Nat.log2_self_le hne
      rw [hqm, Nat.le_div_iff_mul_le (two_pow_pos s), ← Nat.pow_add]
      rwa [show man + s = Nat.log2 (num / den) by omega]
  -- values of the two neighbours
  have hL : magUnits man (s * 2 ^ man + q) * den = D * q := by
    rw [magUnits_mk (by omega) hqge, ← hD, Nat.mul_assoc, Nat.mul_comm (2 ^ s) den, Nat.mul_comm]
  have hU : magUnits man (s * 2 ^ man + q + 1) * den = D * q + D := by
    rw [Nat.add_assoc, magUnits_mk (by omega) (hqge.imp id (by omega)), ← hD, Nat.mul_assoc, Nat.mul_comm (2 ^ s) den,
      Nat.mul_comm, Nat.mul_add, Nat.mul_one]
  have hpar : s * 2 ^ man % 2 = 0 := by
    obtain ⟨m', rfl⟩ : ∃ m', man = m' + 1 := ⟨man - 1, by omega⟩
    rw [Nat.pow_succ, ← Nat.mul_assoc, Nat.mul_mod_left]
  generalize hLL : s * 2 ^ man = B at *
  have below : ∀ c, c ≤ B + q → magUnits man c * den ≤ D * q := fun c hc => by
    rw [← hL]; exact Nat.mul_le_mul_right _ (magUnits_le hc)
  have belowS : ∀ c, c < B + q → magUnits man c * den < D * q := fun c hc => by
    rw [← hL]; exact Nat.mul_lt_mul_of_pos_right (magUnits_lt hc) hd
  have above : ∀ c, B + q + 1 ≤ c → D * q + D ≤ magUnits man c * den := fun c hc => by
    rw [← hU]; exact Nat.mul_le_mul_right _ (magUnits_le hc)
  have aboveS : ∀ c, B + q + 1 < c → D * q + D < magUnits man c * den := fun c hc => by
    rw [← hU]; exact Nat.mul_lt_mul_of_pos_right (magUnits_lt hc) hd
  generalize hI : infMag w man = I
  unfold IsNearestEven
  rw [hI]
  generalize D * q = P at *
  subst hnum
  by_cases hbig : I ≤ B + q
  · -- overflow: infinity
    have hres : min (B + (if 2 * r < D then q else if D < 2 * r then q + 1 else q + q % 2)) I = I := by
      apply Nat.min_eq_right
      split
      · exact hbig
      · split <;> omega
    rw [hres]
    have hIb := below I hbig
    refine ⟨Nat.le_refl _, fun c hc => ?_, fun c hc hne => ?_⟩
    · have := Nat.mul_le_mul_right den (magUnits_le (man := man) hc)
      have := below c (by omega)
      omega
    · have := Nat.mul_lt_mul_of_pos_right (magUnits_lt (man := man) (show c < I by omega)) hd
      have := below c (by omega)
      omega
  · rw [Nat.min_eq_left (by split; omega; split <;> omega)]
    by_cases h1 : 2 * r < D
    · rw [if_pos h1]
      refine ⟨by omega, fun c hc => ?_, fun c hc hne => ?_⟩
      · rw [hL]
        rcases Nat.lt_or_ge (B + q) c with h | h
        · have := above c h; omega
        · have := below c h; omega
      · rw [hL]
        rcases Nat.lt_or_ge (B + q) c with h | h
        · have := above c h; omega
        · have := belowS c (by omega); omega
    · rw [if_neg h1]
      by_cases h2 : D < 2 * r
      · rw [if_pos h2]
        have hU' : magUnits man (B + (q + 1)) * den = P + D := hU
        refine ⟨by omega, fun c hc => ?_, fun c hc hne => ?_⟩
        · rw [hU']
          rcases Nat.lt_or_ge (B + q) c with h | h
          · have := above c h; omega
          · have := below c h; omega
        · rw [hU']
          rcases Nat.lt_or_ge (B + q) c with h | h
          · have := aboveS c (by omega); omega
          · have := below c h; omega
      · rw [if_neg h2]
        have hval : magUnits man (B + (q + q % 2)) * den = P ∨ magUnits man (B + (q + q % 2)) * den = P + D := by
          rcases Nat.mod_two_eq_zero_or_one q with h | h
          · left; rw [h]; exact hL
          · right; rw [h]; exact hU
        have hdist : (((magUnits man (B + (q + q % 2)) * den : Nat) : Int) - ((P + r : Nat) : Int)).natAbs = r := by
          rcases hval with h | h <;> rw [h] <;> omega
        refine ⟨by omega, fun c hc => ?_, fun c hc hne _ => by omega⟩
        rw [hdist]
        rcases Nat.lt_or_ge (B + q) c with h | h
        · have := above c h; omega
        · have := below c h; omega

/-- An exactly representable magnitude is rounded to itself. -/
theorem nearest_exact {num den b c : Nat} (hd : 0 < den) (h : IsNearestEven w man num den b) (hc : c ≤ infMag w man)
    (he : magUnits man c * den = num) : b = c := by
  have := h.2.1 c hc
  rw [he] at this
  have h0 : magUnits man b * den = num := by omega
  exact magUnits_inj (Nat.eq_of_mul_eq_mul_right hd (h0.trans he.symm))

/-- Rounding is determined by the specification. -/
theorem nearest_unique {num den b c : Nat} (hd : 0 < den) (hb : IsNearestEven w man num den b) (hc : IsNearestEven w man num den c) :
    b = c := by
  by_cases hne : b = c
  · exact hne
  exfalso
  have h1 := hb.2.1 c hc.1
  have h2 := hc.2.1 b hb.1
  have e : _ = _ := Nat.le_antisymm h1 h2
  have pb := hb.2.2 c hc.1 (Ne.symm hne) e
  have pc := hc.2.2 b hb.1 hne e.symm
  -- a pattern strictly between two even ones would be closer
  rcases Nat.lt_or_gt_of_ne hne with h | h
  · have hm := hb.2.1 (b + 1) (by have := hc.1; omega)
    have l1 := Nat.mul_lt_mul_of_pos_right (magUnits_lt (man := man) (show b < b + 1 by omega)) hd
    have l2 := Nat.mul_lt_mul_of_pos_right (magUnits_lt (man := man) (show b + 1 < c by omega)) hd
    omega
  · have hm := hb.2.1 (c + 1) (by have := hb.1; omega)
    have l1 := Nat.mul_lt_mul_of_pos_right (magUnits_lt (man := man) (show c < c + 1 by omega)) hd
    have l2 := Nat.mul_lt_mul_of_pos_right (magUnits_lt (man := man) (show c + 1 < b by omega)) hd
    omega

/-! ### Patterns and their values -/

theorem infMag_lt (hf : Format w man) : infMag w man + 2 ^ man = 2 ^ (w - 1) := by
  obtain ⟨h1, h2⟩ := hf
  unfold infMag
  have hp := two_pow_pos (w - 1 - man)
  rw [Nat.sub_mul, Nat.one_mul, ← Nat.pow_add, show w - 1 - man + man = w - 1 by omega]
  have : 2 ^ man ≤ 2 ^ (w - 1) := Nat.pow_le_pow_right (by decide) (by omega)
  omega

theorem infMag_pos (hf : Format w man) : 0 < infMag w man := by
  obtain ⟨h1, h2⟩ := hf
  unfold infMag
  have : 2 ^ 2 ≤ 2 ^ (w - 1 - man) := Nat.pow_le_pow_right (by decide) (by omega)
  exact Nat.mul_pos (by omega) (two_pow_pos man)

theorem two_pow_width (hf : Format w man) : 2 ^ w = 2 * 2 ^ (w - 1) := by
  obtain ⟨h1, h2⟩ := hf
  rw [← Nat.pow_succ', show (w - 1).succ = w by omega]

theorem magBits_mk (hf : Format w man) (neg : Bool) {b : Nat} (hb : b < 2 ^ (w - 1)) :
    magBits (Flt.mk w neg b) = b ∧ isNeg (Flt.mk w neg b) = neg := by
  have h2 := two_pow_width hf
  have hlt : (if neg then 2 ^ (w - 1) + b else b) < 2 ^ w := by split <;> omega
  unfold magBits isNeg Flt.mk
  rw [BitVec.toNat_ofNat, Nat.mod_eq_of_lt hlt]
  cases neg
  · simp only [Bool.false_eq_true, if_false]
    exact ⟨Nat.mod_eq_of_lt hb, by simp [hb]⟩
  · simp only [if_true]
    exact ⟨by rw [Nat.add_mod_left, Nat.mod_eq_of_lt hb], by simp⟩

theorem eq_mk (hf : Format w man) (x : BitVec w) : x = Flt.mk w (isNeg x) (magBits x) := by
  have h2 := two_pow_width hf
  have hx := x.isLt
  apply BitVec.eq_of_toNat_eq
  unfold Flt.mk isNeg magBits
  rw [BitVec.toNat_ofNat]
  by_cases h : 2 ^ (w - 1) ≤ x.toNat
  · have e : x.toNat % 2 ^ (w - 1) = x.toNat - 2 ^ (w - 1) := by
      rw [Nat.mod_eq_sub_mod h, Nat.mod_eq_of_lt (by omega)]
    simp only [h, decide_true, if_true, e]
    rw [Nat.mod_eq_of_lt (by omega)]; omega
  · have e : x.toNat % 2 ^ (w - 1) = x.toNat := Nat.mod_eq_of_lt (by omega)
    simp only [h, decide_false, Bool.false_eq_true, if_false, e]
    rw [Nat.mod_eq_of_lt hx]

theorem valueOf_mk (hf : Format w man) (neg : Bool) {b : Nat} (hb : b ≤ infMag w man) :
    valueOf man (Flt.mk w neg b) =
      if b = infMag w man then .inf neg else .num (if neg then -(magUnits man b) else magUnits man b) := by
  have hlt := infMag_lt hf
  have hp := two_pow_pos man
  obtain ⟨h1, h2⟩ := magBits_mk hf neg (show b < 2 ^ (w - 1) by omega)
  unfold valueOf
  rw [h1, h2, if_neg (by omega)]

theorem valueOf_cases (x : BitVec w) :
    (Flt.isNaN man x = true ∧ valueOf man x = .nan) ∨
    (Flt.isNaN man x = false ∧ Flt.isInf man x = true ∧ valueOf man x = .inf (isNeg x)) ∨
    (Flt.isNaN man x = false ∧ Flt.isInf man x = false ∧ magBits x < infMag w man ∧
      valueOf man x = .num (if isNeg x then -(magUnits man (magBits x)) else magUnits man (magBits x))) := by
  unfold valueOf Flt.isNaN Flt.isInf
  by_cases h1 : infMag w man < magBits x
  · left; simp [h1]
  · by_cases h2 : magBits x = infMag w man
    · right; left; simp [h2]
    · right; right; simp [h1, h2]; omega

theorem isNaN_iff (x : BitVec w) : Flt.isNaN man x = true ↔ valueOf man x = .nan := by
  rcases valueOf_cases (man := man) x with ⟨h1, h2⟩ | ⟨h1, -, h2⟩ | ⟨h1, -, -, h2⟩ <;> rw [h1, h2] <;> simp

theorem valueOf_qnan (hf : Format w man) : valueOf man (Flt.qnan w man) = .nan := by
  rw [← isNaN_iff]
  have hlt := infMag_lt hf
  obtain ⟨h1, h2⟩ := hf
  have e : 2 ^ man = 2 * 2 ^ (man - 1) := by rw [← Nat.pow_succ', show (man - 1).succ = man by omega]
  have hp := two_pow_pos (man - 1)
  unfold Flt.qnan Flt.isNaN
  rw [(magBits_mk ⟨h1, h2⟩ false (by omega)).1]
  simp [hp]

theorem compare_of_lt {u v : Int} (h : u < v) : compare u v = .lt := by
  simp only [compare, compareOfLessAndEq, if_pos h]
theorem compare_of_gt {u v : Int} (h : v < u) : compare u v = .gt := by
  simp only [compare, compareOfLessAndEq]; rw [if_neg (by omega), if_neg (by omega)]
theorem compare_refl (u : Int) : compare u u = .eq := by
  simp only [compare, compareOfLessAndEq]; simp

/-- The order of the sign-magnitude keys is the order of the values. -/
theorem cmp_key (hf : Format w man) (a b : BitVec w) (ha : Flt.isNaN man a = false) (hb : Flt.isNaN man b = false) :
    (valueOf man a).cmp (valueOf man b) = some (compare (Flt.key a) (Flt.key b)) := by
  have hI := infMag_pos hf
  have num_cmp : ∀ (p q : Bool) (x y : Nat),
      compare (if p then -((magUnits man x : Nat) : Int) else magUnits man x) (if q then -((magUnits man y : Nat) : Int) else magUnits man y) =
        compare (if p then -(x : Int) else x) (if q then -(y : Int) else y) := by
    intro p q x y
    have h1 := magUnits_lt_iff (man := man) (b := x) (c := y)
    have h2 := magUnits_lt_iff (man := man) (b := y) (c := x)
    have h3 := magUnits_lt_iff (man := man) (b := 0) (c := x)
    have h4 := magUnits_lt_iff (man := man) (b := 0) (c := y)
    rw [magUnits_zero] at h3 h4
    generalize magUnits man x = X at *
    generalize magUnits man y = Y at *
    have key : ∀ (u v u' v' : Int), (u < v ↔ u' < v') → (v < u ↔ v' < u') → compare u v = compare u' v' := by
      intro u v u' v' e1 e2
      simp only [compare, compareOfLessAndEq]
      by_cases l : u < v
      · rw [if_pos l, if_pos (e1.1 l)]
      · rw [if_neg l, if_neg (fun h => l (e1.2 h))]
        by_cases m : u = v
        · rw [if_pos m, if_pos]
          have n1 : ¬ u' < v' := fun h => l (e1.2 h)
          have n2 : ¬ v' < u' := fun h => by have := e2.2 h; omega
          omega
        · rw [if_neg m, if_neg]
          intro h; have := e2.1 (by omega); omega
    apply key <;> cases p <;> cases q <;> simp only [Bool.false_eq_true, if_false, if_true] <;> omega
  unfold Flt.key
  rcases valueOf_cases (man := man) a with ⟨h, -⟩ | ⟨-, hi, hv⟩ | ⟨-, -, hi, hv⟩
  · rw [h] at ha; simp at ha
  · have hA : magBits a = infMag w man := by simpa [Flt.isInf] using hi
    rcases valueOf_cases (man := man) b with ⟨h, -⟩ | ⟨-, hi', hv'⟩ | ⟨-, -, hi', hv'⟩
    · rw [h] at hb; simp at hb
    · have hB : magBits b = infMag w man := by simpa [Flt.isInf] using hi'
      rw [hv, hv', hA, hB]
      cases isNeg a <;> cases isNeg b <;> simp only [FVal.cmp, Bool.false_eq_true, if_true, if_false] <;>
        first
          | exact congrArg some (compare_refl _).symm
          | exact congrArg some (compare_of_lt (by omega)).symm
          | exact congrArg some (compare_of_gt (by omega)).symm
    · rw [hv, hv', hA]
      cases isNeg a <;> cases isNeg b <;> simp only [FVal.cmp, Bool.false_eq_true, if_true, if_false] <;>
        first
          | exact congrArg some (compare_refl _).symm
          | exact congrArg some (compare_of_lt (by omega)).symm
          | exact congrArg some (compare_of_gt (by omega)).symm
  · rcases valueOf_cases (man := man) b with ⟨h, -⟩ | ⟨-, hi', hv'⟩ | ⟨-, -, hi', hv'⟩
    · rw [h] at hb; simp at hb
    · have hB : magBits b = infMag w man := by simpa [Flt.isInf] using hi'
      rw [hv, hv', hB]
      cases isNeg a <;> cases isNeg b <;> simp only [FVal.cmp, Bool.false_eq_true, if_true, if_false] <;>
        first
          | exact congrArg some (compare_refl _).symm
          | exact congrArg some (compare_of_lt (by omega)).symm
          | exact congrArg some (compare_of_gt (by omega)).symm
    · rw [hv, hv']
      show some _ = some _
      rw [num_cmp]

end PackedSimd
