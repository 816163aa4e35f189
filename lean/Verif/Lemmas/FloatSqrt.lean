import Verif.Model.FloatSqrt
import Verif.Spec.Sqrt
import Verif.Lemmas.FloatError
import Verif.Lemmas.FloatLaws
/-
Square roots: correct rounding and error.
-/
namespace PackedSimd
open Spec

variable {w man : Nat}

/-! ### The integer square root -/

theorem isqrtFrom_spec (n : Nat) : ∀ k r, r * r ≤ n → n < (r + 2 ^ k) * (r + 2 ^ k) →
    Flt.isqrtFrom n k r * Flt.isqrtFrom n k r ≤ n ∧ n < (Flt.isqrtFrom n k r + 1) * (Flt.isqrtFrom n k r + 1)
  | 0, r, h1, h2 => ⟨h1, by simpa [Flt.isqrtFrom] using h2⟩
  | k + 1, r, h1, h2 => by
    unfold Flt.isqrtFrom
    apply isqrtFrom_spec n k
    · split
      · assumption
      · exact h1
    · split
      · rw [Nat.add_assoc, ← Nat.two_mul, Nat.mul_comm 2, ← pow_succ]
        exact h2
      · omega

theorem isqrt_spec (n : Nat) : Flt.isqrt n * Flt.isqrt n ≤ n ∧ n < (Flt.isqrt n + 1) * (Flt.isqrt n + 1) := by
  apply isqrtFrom_spec n _ 0 (by omega)
  rw [Nat.zero_add, ← pow_add]
  exact lt_of_lt_of_le Nat.lt_log2_self (Nat.pow_le_pow_right (by decide) (by omega))

/-! ### Rounding -/

/-- A real `R` and a fraction `v` that lie in the same open interval between half integers, or are equal, are rounded to the same integers. -/
theorem sqrtMag_near (hf : Format w man) (m : Nat) :
    NearTo w man (Real.sqrt (m * 2 ^ low w man)) (Flt.sqrtMag w man m) ∧
    ∀ c, c ≤ infMag w man → c ≠ Flt.sqrtMag w man m →
      |(magUnits man (Flt.sqrtMag w man m) : ℝ) - Real.sqrt (m * 2 ^ low w man)| = |(magUnits man c : ℝ) - Real.sqrt (m * 2 ^ low w man)| →
      Flt.sqrtMag w man m % 2 = 0 := by
  set R := Real.sqrt (m * 2 ^ low w man) with hR
  have hR0 : 0 ≤ R := Real.sqrt_nonneg _
  have hRR : R * R = m * 2 ^ low w man := Real.mul_self_sqrt (by positivity)
  obtain ⟨s1, s2⟩ := isqrt_spec (4 * (m * 2 ^ low w man))
  have hrn := roundMag_nearest (w := w) hf.1 (2 * Flt.isqrt (4 * (m * 2 ^ low w man)) +
    if Flt.isqrt (4 * (m * 2 ^ low w man)) * Flt.isqrt (4 * (m * 2 ^ low w man)) = 4 * (m * 2 ^ low w man) then 0 else 1) 4 (by decide)
  have hb : Flt.sqrtMag w man m = Flt.roundMag w man (2 * Flt.isqrt (4 * (m * 2 ^ low w man)) +
    if Flt.isqrt (4 * (m * 2 ^ low w man)) * Flt.isqrt (4 * (m * 2 ^ low w man)) = 4 * (m * 2 ^ low w man) then 0 else 1) 4 := rfl
  rw [← hb] at hrn
  clear hb
  generalize Flt.sqrtMag w man m = b at hrn ⊢
  generalize Flt.isqrt (4 * (m * 2 ^ low w man)) = s at *
  have e1 : (s : ℝ) ≤ 2 * R := by
    have : (s : ℝ) * s ≤ (2 * R) * (2 * R) := by
      have : (s : ℝ) * s ≤ 4 * (m * 2 ^ low w man) := by exact_mod_cast s1
      linarith
    exact (mul_self_le_mul_self_iff (by positivity) (by linarith)).2 this
  have e2 : 2 * R < s + 1 := by
    have : (2 * R) * (2 * R) < ((s : ℝ) + 1) * (s + 1) := by
      have : (4 : ℝ) * (m * 2 ^ low w man) < (s + 1) * (s + 1) := by exact_mod_cast s2
      linarith
    exact lt_of_mul_self_lt_mul_self₀ (by positivity) this
  obtain ⟨hbI, hn, ht⟩ := hrn
  by_cases hex : s * s = 4 * (m * 2 ^ low w man)
  · -- exact
    rw [if_pos hex] at hn ht
    have eR : R = s / 2 := by
      have : (2 * R) * (2 * R) = (s : ℝ) * s := by
        have : (s : ℝ) * s = 4 * (m * 2 ^ low w man) := by exact_mod_cast hex
        linarith
      have := (mul_self_eq_mul_self_iff.1 this)
      rcases this with h | h
      · linarith
      · have : (0 : ℝ) ≤ s := by positivity
        linarith
    have key : ∀ c : Nat, |(magUnits man c : ℝ) - R| = (((magUnits man c * 4 : Nat) - (2 * s + 0 : Nat) : Int).natAbs : ℝ) / 4 := by
      intro c
      have h4 : |(4 : ℝ)| = 4 := abs_of_pos (by norm_num)
      rw [Nat.cast_natAbs, Int.cast_abs, eR]
      conv_rhs => rw [← h4]
      rw [← abs_div]
      congr 1
      push_cast
      ring
    refine ⟨⟨hbI, fun c hc => ?_⟩, fun c hc hne he => ?_⟩
    · rw [key, key]
      have := hn c hc
      exact div_le_div_of_nonneg_right (by exact_mod_cast this) (by norm_num)
    · rw [key, key] at he
      refine ht c hc hne ?_
      have := (div_left_inj' (show (4 : ℝ) ≠ 0 by norm_num)).1 he
      exact_mod_cast this
  · rw [if_neg hex] at hn ht
    have e1' : (s : ℝ) < 2 * R := by
      refine lt_of_le_of_ne e1 fun h => hex ?_
      have : (s : ℝ) * s = 4 * (m * 2 ^ low w man) := by rw [h]; linarith
      exact_mod_cast this
    -- whichever of two candidates is nearer to the fraction is nearer to the root
    have key : ∀ c, c ≤ infMag w man → c ≠ b → |(magUnits man b : ℝ) - R| < |(magUnits man c : ℝ) - R| := by
      intro c hc hne
      have h := hn c hc
      have hu : magUnits man b ≠ magUnits man c := fun h => hne (magUnits_inj h).symm
      rcases Nat.lt_or_gt_of_ne hu with hlt | hlt
      · have : s + 1 ≤ magUnits man b + magUnits man c := by omega
        have h' : (s : ℝ) + 1 ≤ magUnits man b + magUnits man c := by exact_mod_cast this
        have hlt' : (magUnits man b : ℝ) < magUnits man c := by exact_mod_cast hlt
        rw [abs_of_pos (show (0 : ℝ) < magUnits man c - R by linarith), abs_lt]
        constructor <;> linarith
      · have : magUnits man b + magUnits man c ≤ s := by omega
        have h' : (magUnits man b : ℝ) + magUnits man c ≤ s := by exact_mod_cast this
        have hlt' : (magUnits man c : ℝ) < magUnits man b := by exact_mod_cast hlt
        rw [abs_of_neg (show (magUnits man c : ℝ) - R < 0 by linarith), abs_lt]
        constructor <;> linarith
    refine ⟨⟨hbI, fun c hc => ?_⟩, fun c hc hne he => ?_⟩
    · by_cases hne : c = b
      · rw [hne]
      · exact (key c hc hne).le
    · exact absurd he (key c hc hne).ne

/-- Roots of finite numbers are finite. -/
theorem sqrtMag_lt (hf : Format w man) {a : Nat} (ha : a < infMag w man) : Flt.sqrtMag w man (magUnits man a) < infMag w man := by
  obtain ⟨⟨hbI, hn⟩, -⟩ := sqrtMag_near hf (magUnits man a)
  by_contra hlt
  have hb : Flt.sqrtMag w man (magUnits man a) = infMag w man := by omega
  rw [hb] at hn
  set R := Real.sqrt (magUnits man a * 2 ^ low w man) with hR
  -- a finite magnitude not below the root
  have hc : ∃ c, c < infMag w man ∧ R ≤ magUnits man c := by
    obtain ⟨v1, -⟩ := valueOf_one hf
    by_cases h1 : (magUnits man a : ℝ) ≤ 2 ^ low w man
    · have hfin : IsFinite man (Flt.fromInt w man 1) := ⟨_, v1⟩
      refine ⟨magBits (Flt.fromInt w man 1), (finite_iff _).1 hfin, ?_⟩
      have hv := valueOf_finite hfin
      rw [v1] at hv
      have hp := Nat.two_pow_pos (low w man)
      have : magUnits man (magBits (Flt.fromInt w man 1)) = 2 ^ low w man := by
        have := FVal.num.inj hv
        split at this
        · exfalso
          have h2 : (0 : Int) < 2 ^ low w man := by positivity
          omega
        · exact_mod_cast this.symm
      rw [this, hR]
      push_cast
      rw [Real.sqrt_le_left (by positivity), sq]
      exact mul_le_mul_of_nonneg_right h1 (by positivity)
    · refine ⟨a, ha, ?_⟩
      rw [hR, Real.sqrt_le_left (by positivity), sq]
      exact mul_le_mul_of_nonneg_left (not_le.1 h1).le (by positivity)
  obtain ⟨c, hcI, hcR⟩ := hc
  have h1 := hn c hcI.le
  have h2 : (magUnits man c : ℝ) < magUnits man (infMag w man) := by exact_mod_cast magUnits_lt hcI
  rw [abs_of_nonneg (by linarith), abs_of_nonneg (by linarith)] at h1
  linarith

/-! ### The specification -/

theorem realVal_nonneg_sign {y : BitVec w} (h : IsFinite man y) (hs : isNeg y = false) : realVal man y = magUnits man (magBits y) / 2 ^ low w man := by
  rw [realVal_num (valueOf_finite h), hs]
  simp

theorem abs_realVal {y : BitVec w} (h : IsFinite man y) : |realVal man y| = magUnits man (magBits y) / 2 ^ low w man := by
  rw [realVal_num (valueOf_finite h), abs_div, abs_of_pos (show (0 : ℝ) < 2 ^ low w man by positivity)]
  split <;> simp

theorem realVal_neg_sign {y : BitVec w} (h : IsFinite man y) (hs : isNeg y = true) : realVal man y = -(magUnits man (magBits y) / 2 ^ low w man) := by
  rw [realVal_num (valueOf_finite h), hs]
  simp [neg_div]

theorem sqrt_scale (m L : ℝ) (hL : 0 < L) (hm : 0 ≤ m) : Real.sqrt (m / L) = Real.sqrt (m * L) / L := by
  rw [show m / L = m * L / (L * L) by field_simp, Real.sqrt_div (by positivity), Real.sqrt_mul_self hL.le]

/-- Magnitudes nearest to a non-negative real give the nearest float. -/
theorem nearestReal_of (hf : Format w man) {V : ℝ} (hV : 0 ≤ V) {b : Nat} (hb : b < infMag w man) (h : NearTo w man V b)
    (ht : ∀ c, c ≤ infMag w man → c ≠ b → |(magUnits man b : ℝ) - V| = |(magUnits man c : ℝ) - V| → b % 2 = 0) {y : BitVec w}
    (hy : magBits y = b) (hs : isNeg y = false) : NearestReal man (V / 2 ^ low w man) y := by
  have hL : (0 : ℝ) < 2 ^ low w man := by positivity
  have hfin : IsFinite man y := by rw [finite_iff, hy]; exact hb
  have e1 : |realVal man y - V / 2 ^ low w man| = |(magUnits man b : ℝ) - V| / 2 ^ low w man := by
    rw [realVal_nonneg_sign hfin hs, hy, ← sub_div, abs_div, abs_of_pos hL]
  refine ⟨hfin, fun c hc => ?_⟩
  have hcI := (finite_iff c).1 hc
  have hn := h.2 _ hcI.le
  rw [e1]
  cases hcs : isNeg c with
  | false =>
    have e2 : |realVal man c - V / 2 ^ low w man| = |(magUnits man (magBits c) : ℝ) - V| / 2 ^ low w man := by
      rw [realVal_nonneg_sign hc hcs, ← sub_div, abs_div, abs_of_pos hL]
    rw [e2]
    refine ⟨div_le_div_of_nonneg_right hn hL.le, fun he hne => ?_⟩
    rw [hy]
    refine ht _ hcI.le (fun h => hne ?_) ((div_left_inj' hL.ne').1 he)
    rw [realVal_nonneg_sign hc hcs, realVal_nonneg_sign hfin hs, hy, h]
  | true =>
    have e2 : |realVal man c - V / 2 ^ low w man| = ((magUnits man (magBits c) : ℝ) + V) / 2 ^ low w man := by
      rw [realVal_neg_sign hc hcs, ← neg_div, ← sub_div, abs_div, abs_of_pos hL, ← neg_add', abs_neg, abs_of_nonneg (by positivity)]
    rw [e2]
    have h3 : |(magUnits man (magBits c) : ℝ) - V| ≤ magUnits man (magBits c) + V := by
      have : (0 : ℝ) ≤ magUnits man (magBits c) := by positivity
      rw [abs_le]; constructor <;> linarith
    refine ⟨div_le_div_of_nonneg_right (hn.trans h3) hL.le, fun he hne => ?_⟩
    have he' := (div_left_inj' hL.ne').1 he
    rw [hy]
    by_cases hcb : magBits c = b
    · -- then `V = 0` or both are zero
      exfalso
      rw [hcb] at he' h3
      have hu : (0 : ℝ) ≤ magUnits man b := by positivity
      have hcases : (magUnits man b : ℝ) = 0 ∨ V = 0 := by
        rcases abs_cases ((magUnits man b : ℝ) - V) with ⟨h1, -⟩ | ⟨h1, -⟩
        · right; linarith
        · left; linarith
      rcases hcases with h0 | h0
      · apply hne
        rw [realVal_neg_sign hc hcs, realVal_nonneg_sign hfin hs, hy, hcb, h0]; simp
      · have := h.2 0 (Nat.zero_le _)
        rw [h0, magUnits_zero] at this
        simp only [sub_zero, Nat.cast_zero, abs_zero] at this
        have h0 : (magUnits man b : ℝ) = 0 := by rw [abs_of_nonneg hu] at this; linarith
        apply hne
        rw [realVal_neg_sign hc hcs, realVal_nonneg_sign hfin hs, hy, hcb, h0]; simp
    · exact ht _ hcI.le hcb (le_antisymm hn (he'.symm ▸ h3))

/-- The model's square root is the IEEE square root. -/
theorem sqrt_isSqrt (hf : Format w man) (x : BitVec w) : IsSqrt man x (Flt.sqrt man x) := by
  have hq := valueOf_qnan (w := w) (man := man) hf
  have hI := infMag_pos hf
  unfold IsSqrt Flt.sqrt
  rcases lane_cases (man := man) x with ⟨a1, a3, a4, a2⟩ | ⟨a1, a3, a4, a2⟩ | ⟨a1, a3, a4, a2⟩
  · rw [a2, a1, if_pos rfl]; exact hq
  · rw [a1, a3, if_neg (by simp), if_neg (by omega), if_pos rfl]
    cases hs : isNeg x
    · simp only [Bool.false_eq_true, if_false]; rw [a2, hs]; rfl
    · simp only [if_true]; rw [a2, hs]; exact hq
  · rw [a1, a3, a2, if_neg (by simp)]
    dsimp only
    by_cases h0 : magBits x = 0
    · rw [if_pos h0, if_pos ((units_eq_zero x).2 h0)]
    · have hz : Flt.units man x ≠ 0 := fun h => h0 ((units_eq_zero x).1 h)
      rw [if_neg h0, if_neg hz]
      have hs := units_neg (man := man) x h0
      cases hn : isNeg x
      · rw [hn] at hs
        have hs' := of_decide_eq_false hs
        rw [if_neg hs', if_neg (by simp), if_neg (by simp)]
        have hfin : IsFinite man x := (finite_iff x).2 a4
        have hlt := sqrtMag_lt hf a4
        obtain ⟨m1, m2⟩ := magBits_mk hf false (b := Flt.sqrtMag w man (magUnits man (magBits x))) (by have := infMag_lt hf; have := Nat.two_pow_pos man; omega)
        obtain ⟨n1, n2⟩ := sqrtMag_near hf (magUnits man (magBits x))
        refine ⟨m2, ?_⟩
        rw [realVal_nonneg_sign hfin hn, sqrt_scale _ _ (by positivity) (by positivity)]
        exact nearestReal_of hf (Real.sqrt_nonneg _) hlt n1 n2 m1 m2
      · rw [hn] at hs
        rw [if_pos rfl, if_pos (of_decide_eq_true hs)]
        exact hq

/-- Non-negative floats nearest to the same real are the same. -/
theorem nearestReal_unique (hf : Format w man) {v : ℝ} {y y' : BitVec w} (h : NearestReal man v y) (h' : NearestReal man v y')
    (hs : isNeg y = false) (hs' : isNeg y' = false) : y = y' := by
  have key : ∀ {y y' : BitVec w}, NearestReal man v y → NearestReal man v y' → isNeg y = false → isNeg y' = false → ¬magBits y < magBits y' := by
    intro y y' h h' hs hs' hlt
    have hL : (0 : ℝ) < 2 ^ low w man := by positivity
    have hI := (finite_iff y').1 h'.1
    have hv1 := realVal_nonneg_sign h.1 hs
    have hv2 := realVal_nonneg_sign h'.1 hs'
    have hlt' : realVal man y < realVal man y' := by
      rw [hv1, hv2]
      exact div_lt_div_of_pos_right (by exact_mod_cast magUnits_lt hlt) hL
    have a1 := h.2 _ h'.1
    have a2 := h'.2 _ h.1
    have e := le_antisymm a1.1 a2.1
    have p1 := a1.2 e hlt'.ne'
    have p2 := a2.2 e.symm hlt'.ne
    -- the odd magnitude in between is nearer
    obtain ⟨m1, m2⟩ := magBits_mk hf false (b := magBits y + 1) (by have := infMag_lt hf; have := Nat.two_pow_pos man; omega)
    have hc : IsFinite man (Flt.mk w false (magBits y + 1)) := by rw [finite_iff, m1]; omega
    have hv3 := realVal_nonneg_sign hc m2
    rw [m1] at hv3
    have l1 : realVal man y < realVal man (Flt.mk w false (magBits y + 1)) := by
      rw [hv1, hv3]
      exact div_lt_div_of_pos_right (by exact_mod_cast magUnits_lt (by omega)) hL
    have l2 : realVal man (Flt.mk w false (magBits y + 1)) < realVal man y' := by
      rw [hv2, hv3]
      exact div_lt_div_of_pos_right (by exact_mod_cast magUnits_lt (by omega)) hL
    have b1 := (h.2 _ hc).1
    have b2 := (h'.2 _ hc).1
    rcases abs_cases (realVal man (Flt.mk w false (magBits y + 1)) - v) with ⟨c1, c2⟩ | ⟨c1, c2⟩ <;>
      rcases abs_cases (realVal man y - v) with ⟨d1, d2⟩ | ⟨d1, d2⟩ <;>
      rcases abs_cases (realVal man y' - v) with ⟨f1, f2⟩ | ⟨f1, f2⟩ <;> linarith
  have := key h h' hs hs'
  have := key h' h hs' hs
  exact eq_of_sign_mag hf (hs.trans hs'.symm) (by omega)

/-- The specification determines the root (up to the payload of NaN). -/
theorem isSqrt_unique (hf : Format w man) {x y y' : BitVec w} (h : IsSqrt man x y) (h' : IsSqrt man x y') :
    valueOf man y = valueOf man y' ∧ (valueOf man y ≠ .nan → y = y') := by
  unfold IsSqrt at h h'
  rcases hx : valueOf man x with _ | p | z <;> rw [hx] at h h' <;> dsimp only at h h'
  · exact ⟨h.trans h'.symm, fun hn => absurd h hn⟩
  · refine ⟨h.trans h'.symm, fun hn => ?_⟩
    cases p
    · simp only [Bool.false_eq_true, if_false] at h h'
      have hI := infMag_pos hf
      have key : ∀ y : BitVec w, valueOf man y = .inf false → magBits y = infMag w man ∧ isNeg y = false := by
        intro y hy
        rcases lane_cases (man := man) y with ⟨a1, a3, a4, a2⟩ | ⟨a1, a3, a4, a2⟩ | ⟨a1, a3, a4, a2⟩ <;> rw [a2] at hy <;> simp at hy
        exact ⟨a4, hy⟩
      exact eq_of_sign_mag hf ((key y h).2.trans (key y' h').2.symm) ((key y h).1.trans (key y' h').1.symm)
    · exact absurd (by simpa using h) hn
  · split at h
    · rw [if_pos (by assumption)] at h'
      subst h; subst h'; exact ⟨rfl, fun _ => rfl⟩
    · rw [if_neg (by assumption)] at h'
      split at h
      · rw [if_pos (by assumption)] at h'
        exact ⟨h.trans h'.symm, fun hn => absurd h hn⟩
      · rw [if_neg (by assumption)] at h'
        have := nearestReal_unique hf h.2 h'.2 h.1 h'.1
        subst this; exact ⟨rfl, fun _ => rfl⟩

/-! ### Error bounds -/

theorem isFinite_of_pos {x : BitVec w} (h : 0 < realVal man x) : IsFinite man x := by
  rcases finite_or (man := man) x with hx | hx | ⟨p, hx⟩
  · exact hx
  · unfold realVal at h; rw [hx] at h; exact absurd h (lt_irrefl _)
  · unfold realVal at h; rw [hx] at h; exact absurd h (lt_irrefl _)

/-- What the specification says about positive numbers. -/
theorem isSqrt_pos_iff {x y : BitVec w} (hx : 0 < realVal man x) :
    IsSqrt man x y ↔ isNeg y = false ∧ NearestReal man (Real.sqrt (realVal man x)) y := by
  obtain ⟨z, hz⟩ := isFinite_of_pos hx
  have hv := realVal_num hz
  have hL : (0 : ℝ) < 2 ^ low w man := by positivity
  have hz0 : 0 < z := by
    rw [hv] at hx
    have := (div_pos_iff_of_pos_right hL).1 hx
    exact_mod_cast this
  unfold IsSqrt
  rw [hz]
  dsimp only
  rw [if_neg (by omega), if_neg (by omega)]

theorem isNeg_of_pos {x : BitVec w} (hx : 0 < realVal man x) : isNeg x = false := by
  cases h : isNeg x
  · rfl
  · rw [realVal_neg_sign (isFinite_of_pos hx) h] at hx
    have : (0 : ℝ) ≤ magUnits man (magBits x) / 2 ^ low w man := by positivity
    linarith

theorem one_le_units_of_pos {x : BitVec w} (hx : 0 < realVal man x) : 1 ≤ magUnits man (magBits x) := by
  rcases Nat.eq_zero_or_pos (magUnits man (magBits x)) with h | h
  · rw [realVal_nonneg_sign (isFinite_of_pos hx) (isNeg_of_pos hx), h] at hx
    simp at hx
  · exact h

/-- The root of a positive number has only the relative error of rounding. -/
theorem isSqrt_error (hf : Format w man) (hl : 2 * man ≤ low w man) {x y : BitVec w} (hx : 0 < realVal man x) (h : IsSqrt man x y) :
    |realVal man y - Real.sqrt (realVal man x)| ≤ unitRoundoff man * Real.sqrt (realVal man x) := by
  have hfin := isFinite_of_pos hx
  have hs := isNeg_of_pos hx
  have hy : y = Flt.sqrt man x :=
    nearestReal_unique hf ((isSqrt_pos_iff hx).1 h).2 ((isSqrt_pos_iff hx).1 (sqrt_isSqrt hf x)).2 ((isSqrt_pos_iff hx).1 h).1
      ((isSqrt_pos_iff hx).1 (sqrt_isSqrt hf x)).1
  have hI := (finite_iff x).1 hfin
  have hm := one_le_units_of_pos hx
  have hlt := sqrtMag_lt hf hI
  have hyv : y = Flt.mk w false (Flt.sqrtMag w man (magUnits man (magBits x))) := by
    rw [hy]
    unfold Flt.sqrt
    have h0 : magBits x ≠ 0 := by intro h; rw [h, magUnits_zero] at hm; omega
    rcases lane_cases (man := man) x with ⟨a1, a3, a4, a2⟩ | ⟨a1, a3, a4, a2⟩ | ⟨a1, a3, a4, a2⟩
    · omega
    · omega
    · rw [a1, a3, hs, if_neg (by simp), if_neg h0, if_neg (by simp), if_neg (by simp)]
  obtain ⟨m1, m2⟩ := magBits_mk hf false (b := Flt.sqrtMag w man (magUnits man (magBits x)))
    (by have := infMag_lt hf; have := Nat.two_pow_pos man; omega)
  rw [← hyv] at m1 m2
  obtain ⟨n1, -⟩ := sqrtMag_near hf (magUnits man (magBits x))
  have herr := nearTo_error (Real.sqrt_nonneg _) n1 hlt
  have hL : (0 : ℝ) < 2 ^ low w man := by positivity
  have hR : (2 : ℝ) ^ man ≤ Real.sqrt (magUnits man (magBits x) * 2 ^ low w man) := by
    apply Real.le_sqrt_of_sq_le
    have h1 : (1 : ℝ) ≤ magUnits man (magBits x) := by exact_mod_cast hm
    have h2 : (2 : ℝ) ^ (2 * man) ≤ 2 ^ low w man := pow_le_pow_right₀ (by norm_num) hl
    rw [← pow_mul, Nat.mul_comm]
    nlinarith
  rw [realVal_nonneg_sign ((isSqrt_pos_iff hx).1 h).2.1 m2, m1, realVal_nonneg_sign hfin hs, sqrt_scale _ _ hL (by positivity), ← sub_div, abs_div, abs_of_pos hL,
    ← mul_div_assoc]
  refine div_le_div_of_nonneg_right (herr.trans (max_le (le_of_eq ?_) ?_)) hL.le
  · unfold unitRoundoff; ring
  · unfold unitRoundoff
    rw [div_mul_eq_mul_div, one_mul, le_div_iff₀ (by positivity), pow_succ]
    linarith

theorem unitRoundoff_pos : 0 < unitRoundoff man := by unfold unitRoundoff; positivity

theorem unitRoundoff_le (hf : Format w man) : unitRoundoff man ≤ 1 / 4 := by
  unfold unitRoundoff
  have : (2 : ℝ) ^ 2 ≤ 2 ^ (man + 1) := pow_le_pow_right₀ (by norm_num) (by have := hf.1; omega)
  exact one_div_le_one_div_of_le (by norm_num) (by linarith)

theorem isSqrt_pos (hf : Format w man) (hl : 2 * man ≤ low w man) {x y : BitVec w} (hx : 0 < realVal man x) (h : IsSqrt man x y) :
    0 < realVal man y := by
  have he := isSqrt_error hf hl hx h
  have hs : 0 < Real.sqrt (realVal man x) := Real.sqrt_pos.2 hx
  have hu := unitRoundoff_le hf
  have := (abs_le.1 he).1
  nlinarith

/-- Roots are monotone. -/
theorem isSqrt_mono {x x' y y' : BitVec w} (hx : 0 < realVal man x) (hxx : realVal man x < realVal man x')
    (h : IsSqrt man x y) (h' : IsSqrt man x' y') : realVal man y ≤ realVal man y' := by
  obtain ⟨-, n1⟩ := (isSqrt_pos_iff hx).1 h
  obtain ⟨-, n2⟩ := (isSqrt_pos_iff (hx.trans hxx)).1 h'
  have hlt : Real.sqrt (realVal man x) < Real.sqrt (realVal man x') := Real.sqrt_lt_sqrt hx.le hxx
  have a1 := (n1.2 _ n2.1).1
  have a2 := (n2.2 _ n1.1).1
  by_contra hc
  rw [not_le] at hc
  rcases abs_cases (realVal man y - √(realVal man x)) with ⟨c1, c2⟩ | ⟨c1, c2⟩ <;>
    rcases abs_cases (realVal man y' - √(realVal man x)) with ⟨d1, d2⟩ | ⟨d1, d2⟩ <;>
    rcases abs_cases (realVal man y - √(realVal man x')) with ⟨f1, f2⟩ | ⟨f1, f2⟩ <;>
    rcases abs_cases (realVal man y' - √(realVal man x')) with ⟨g1, g2⟩ | ⟨g1, g2⟩ <;> linarith

theorem abs_bits (hf : Format w man) (c : BitVec w) : magBits (Flt.abs c) = magBits c ∧ isNeg (Flt.abs c) = false :=
  magBits_mk hf false (Nat.mod_lt _ (Nat.two_pow_pos _))

theorem realVal_abs (hf : Format w man) {c : BitVec w} (hc : IsFinite man c) :
    IsFinite man (Flt.abs c) ∧ realVal man (Flt.abs c) = |realVal man c| := by
  obtain ⟨h1, h2⟩ := abs_bits hf c
  have hfin : IsFinite man (Flt.abs c) := by rw [finite_iff, h1]; exact (finite_iff c).1 hc
  exact ⟨hfin, by rw [realVal_nonneg_sign hfin h2, h1, abs_realVal hc]⟩

/-- If the root is a float it is returned. -/
theorem isSqrt_exact (hf : Format w man) {x y c : BitVec w} (hx : 0 < realVal man x) (h : IsSqrt man x y) (hc : IsFinite man c)
    (he : realVal man c * realVal man c = realVal man x) : realVal man y = |realVal man c| := by
  obtain ⟨hs, n1⟩ := (isSqrt_pos_iff hx).1 h
  have hr : Real.sqrt (realVal man x) = |realVal man c| := by rw [← he, Real.sqrt_mul_self_eq_abs]
  rw [hr] at n1
  obtain ⟨a1, a2⟩ := realVal_abs hf hc
  have := (n1.2 _ a1).1
  rw [a2, sub_self, abs_zero] at this
  have := abs_nonpos_iff.1 this
  linarith

/-- The root of a rounded square. -/
theorem sqrt_square (hf : Format w man) (hl : 2 * man ≤ low w man) {z y : BitVec w} (hz : IsFinite man z) (hp : IsFinite man (Flt.mul man z z))
    (hn : (2 : ℝ) ^ man / 2 ^ low w man ≤ realVal man z * realVal man z) (h : IsSqrt man (Flt.mul man z z) y) : y = Flt.abs z := by
  have hL : (0 : ℝ) < 2 ^ low w man := by positivity
  obtain ⟨ab1, ab2⟩ := abs_bits hf z
  have hzI := (finite_iff z).1 hz
  have hpI := (finite_iff _).1 hp
  have hA : (realVal man z) * realVal man z = (magUnits man (magBits z) : ℝ) * magUnits man (magBits z) / 2 ^ low w man / 2 ^ low w man := by
    rw [← abs_mul_abs_self, abs_realVal hz]
    field_simp
  -- the product, in units
  have hr := mul_rounds hf z z
  unfold exactMul at hr
  rw [valueOf_finite hz] at hr
  dsimp only at hr
  obtain ⟨hd, hnear, hsgn⟩ := hr
  set A := magUnits man (magBits z) with hAdef
  have hnum : ((if isNeg z = true then -(A : Int) else A) * if isNeg z = true then -(A : Int) else A).natAbs = A * A := by
    split <;> simp [Int.natAbs_mul]
  rw [hnum] at hnear
  have hn' : (2 : ℝ) ^ man * 2 ^ low w man ≤ (A : ℝ) * A := by
    rw [hA, div_le_div_iff_of_pos_right hL, le_div_iff₀ hL] at hn
    exact hn
  have hA2 : 2 ^ man * 2 ^ low w man ≤ A * A := by exact_mod_cast hn'
  have hAbig : 2 ^ man ≤ A := by
    by_contra hlt
    have h1 : A * A ≤ 2 ^ man * A := Nat.mul_le_mul_right _ (by omega)
    have h2 : 2 ^ man * A < 2 ^ man * 2 ^ man := Nat.mul_lt_mul_of_pos_left (by omega) (Nat.two_pow_pos _)
    have h3 : 2 ^ man ≤ 2 ^ low w man := Nat.pow_le_pow_right (by decide) (by omega)
    have h4 : 2 ^ man * 2 ^ man ≤ 2 ^ man * 2 ^ low w man := Nat.mul_le_mul_left _ h3
    omega
  have hA0 : 0 < A := lt_of_lt_of_le (Nat.two_pow_pos _) hAbig
  have herr := nearTo_error (by positivity) (nearTo_of (by positivity) hnear) hpI
  have hppos : isNeg (Flt.mul man z z) = false := by
    have : (if isNeg z = true then -(A : Int) else A) * (if isNeg z = true then -(A : Int) else A) = (A * A : Nat) := by
      split <;> simp
    rw [this] at hsgn
    have hAA : 0 < A * A := Nat.mul_pos hA0 hA0
    rw [hsgn (by omega)]
    exact decide_eq_false (by omega)
  have hP := realVal_nonneg_sign hp hppos
  set P := magUnits man (magBits (Flt.mul man z z)) with hPdef
  have hAR : (0 : ℝ) < A := by exact_mod_cast hA0
  have hu0 := unitRoundoff_pos (man := man)
  have hu1 := unitRoundoff_le hf
  -- relative error of the square
  have hrel : |(P : ℝ) * 2 ^ low w man - A * A| ≤ unitRoundoff man * (A * A) := by
    have hmax : (1 / 2 : ℝ) ≤ ((A * A : Nat) : ℝ) / ((2 ^ low w man : Nat) : ℝ) / 2 ^ (man + 1) := by
      push_cast
      rw [le_div_iff₀ (by positivity), le_div_iff₀ hL, pow_succ]
      linarith
    rw [max_eq_left hmax] at herr
    push_cast at herr
    have e : (P : ℝ) * 2 ^ low w man - A * A = ((P : ℝ) - A * A / 2 ^ low w man) * 2 ^ low w man := by field_simp
    rw [e, abs_mul, abs_of_pos hL]
    calc _ ≤ (A : ℝ) * A / 2 ^ low w man / 2 ^ (man + 1) * 2 ^ low w man := mul_le_mul_of_nonneg_right herr hL.le
      _ = _ := by unfold unitRoundoff; field_simp
  set V := Real.sqrt ((P : ℝ) * 2 ^ low w man) with hV
  have hV0 : 0 ≤ V := Real.sqrt_nonneg _
  have hVV : V * V = P * 2 ^ low w man := Real.mul_self_sqrt (by positivity)
  rw [← hVV] at hrel
  have hPpos : 0 < realVal man (Flt.mul man z z) := by
    rw [hP]
    have : (0 : ℝ) < V * V := by
      have := (abs_le.1 hrel).1
      nlinarith [mul_pos hAR hAR]
    rw [hVV] at this
    have : (0 : ℝ) < P := by
      rcases (mul_pos_iff.1 this) with ⟨h1, -⟩ | ⟨-, h1⟩
      · exact h1
      · linarith
    positivity
  obtain ⟨hy1, hy2⟩ := (isSqrt_pos_iff hPpos).1 h
  rw [hP, sqrt_scale _ _ hL (by positivity), ← hV] at hy2
  -- `|z|` is strictly nearest
  have key : ∀ c, c ≤ infMag w man → c ≠ magBits z → |(A : ℝ) - V| < |(magUnits man c : ℝ) - V| := by
    intro c hc hne
    obtain ⟨s, q, hzq, hq, hqs⟩ := exists_mk (man := man) (magBits z)
    have hAq : A = q * 2 ^ s := by rw [hAdef, hzq, magUnits_mk (by omega) hqs]
    have hq2 : 2 ^ man ≤ q := by
      rcases hqs with h0 | h0
      · rw [h0, pow_zero, Nat.mul_one] at hAq; omega
      · exact h0
    have hg : (0 : ℝ) < 2 ^ s := by positivity
    have hAg : (A : ℝ) = q * 2 ^ s := by exact_mod_cast hAq
    have huq : unitRoundoff man * q ≤ 1 - unitRoundoff man := by
      have : (q : ℝ) + 1 ≤ 2 ^ (man + 1) := by exact_mod_cast hq
      have hup : unitRoundoff man * 2 ^ (man + 1) = 1 := by unfold unitRoundoff; field_simp
      nlinarith
    have huq2 : 1 / 2 ≤ unitRoundoff man * q := by
      have : (2 : ℝ) ^ man ≤ q := by exact_mod_cast hq2
      have hup : unitRoundoff man * 2 ^ man = 1 / 2 := by unfold unitRoundoff; rw [pow_succ]; field_simp
      nlinarith
    obtain ⟨r1, r2⟩ := abs_le.1 hrel
    generalize unitRoundoff man = u at *
    rcases Nat.lt_or_gt_of_ne hne with hlt | hgt
    · -- below
      by_cases hpow : q = 2 ^ man ∧ s ≠ 0
      · -- a power of two: exact
        obtain ⟨hqe, hs0⟩ := hpow
        have hA' : A = 2 ^ (man + s) := by rw [hAq, hqe, ← pow_add]
        have hAA : A * A = 2 ^ (2 * man + 2 * s) := by rw [hA', ← pow_add]; congr 1; omega
        have hexp : man + low w man ≤ 2 * man + 2 * s := by
          rw [hAA, ← pow_add] at hA2
          exact (Nat.pow_le_pow_iff_right (by decide)).1 hA2
        obtain ⟨k, hk⟩ := Nat.exists_eq_add_of_le hexp
        obtain ⟨c', hc'⟩ := exists_mag (man := man) k (2 ^ man) (by rw [pow_succ]; omega)
        have hce : magUnits man c' * 2 ^ low w man = A * A := by
          rw [hc', hAA, hk, ← pow_add, ← pow_add]; congr 1; omega
        have hfi := (nearest_finite_iff hf hd hnear).1 hpI
        have hcI : c' < infMag w man := by
          rw [← magUnits_lt_iff (man := man)]
          have e1 : ((A * A : Nat) : ℝ) / ((2 ^ low w man : Nat) : ℝ) = magUnits man c' := by
            rw [← hce]; push_cast; field_simp
          rw [e1] at hfi
          have e2 : (magUnits man (infMag w man - 1) : ℝ) ≤ magUnits man (infMag w man) := by exact_mod_cast magUnits_le (Nat.sub_le _ _)
          have : (magUnits man c' : ℝ) < magUnits man (infMag w man) := by linarith
          exact_mod_cast this
        have hPe : magBits (Flt.mul man z z) = c' := nearest_exact hd hnear hcI.le hce
        have hPe' : P = magUnits man c' := by rw [hPdef, hPe]
        have hVA : V = A := by
          have : V * V = (A : ℝ) * A := by
            rw [hVV, hPe']
            exact_mod_cast hce
          rcases mul_self_eq_mul_self_iff.1 this with h1 | h1
          · exact h1
          · linarith
        rw [hVA, sub_self, abs_zero, abs_pos, sub_ne_zero]
        exact_mod_cast fun h => hne (magUnits_inj h)
      · have hcu : magUnits man c + 2 ^ s ≤ A := by
          have h1 : magUnits man c ≤ magUnits man (s * 2 ^ man + (q - 1)) := magUnits_le (by omega)
          rw [magUnits_mk (by omega) (by omega), Nat.sub_mul, Nat.one_mul, ← hAq] at h1
          have h2 : 2 ^ s ≤ A := by rw [hAq]; exact Nat.le_mul_of_pos_left _ (by have := Nat.two_pow_pos man; omega)
          omega
        have hcu' : (magUnits man c : ℝ) + 2 ^ s ≤ A := by exact_mod_cast hcu
        have hVlow : (A : ℝ) - 2 ^ s / 2 < V := by
          by_contra hle
          rw [not_lt] at hle
          have h1 : V * V ≤ ((A : ℝ) - 2 ^ s / 2) * (A - 2 ^ s / 2) := mul_self_le_mul_self hV0 hle
          have h2 : (A : ℝ) * A - u * (A * A) ≤ A * A - A * 2 ^ s + 2 ^ s * 2 ^ s / 4 := by nlinarith only [h1, r1]
          rw [hAg] at h2
          have h3 : 0 < (2 : ℝ) ^ s * 2 ^ s := by positivity
          have h5 : (u * q * q - q + 1 / 4) * (2 ^ s * 2 ^ s) ≥ 0 := by nlinarith only [h2]
          have h6 : u * q * q - q + 1 / 4 ≥ 0 := by
            by_contra hc
            rw [ge_iff_le, not_le] at hc
            have := mul_neg_of_neg_of_pos hc h3
            linarith
          have h7 : (u * q) * q ≤ (1 - u) * q := mul_le_mul_of_nonneg_right huq (by positivity)
          nlinarith only [h6, h7, huq2]
        rw [abs_of_neg (show (magUnits man c : ℝ) - V < 0 by linarith), abs_lt]
        constructor <;> linarith
    · -- above
      have hcu : A + 2 ^ s ≤ magUnits man c := by
        have h1 : magUnits man (s * 2 ^ man + (q + 1)) ≤ magUnits man c := magUnits_le (by omega)
        rw [magUnits_mk (by omega) (by omega), Nat.add_mul, Nat.one_mul, ← hAq] at h1
        exact h1
      have hcu' : (A : ℝ) + 2 ^ s ≤ magUnits man c := by exact_mod_cast hcu
      have hVhigh : V < (A : ℝ) + 2 ^ s / 2 := by
        by_contra hle
        rw [not_lt] at hle
        have h1 : ((A : ℝ) + 2 ^ s / 2) * (A + 2 ^ s / 2) ≤ V * V := mul_self_le_mul_self (by positivity) hle
        have h3 : 0 < (2 : ℝ) ^ s * 2 ^ s := by positivity
        have h4 : u * ((A : ℝ) * A) ≤ A * 2 ^ s := by
          rw [hAg]
          have : (u * q) * q ≤ 1 * q := mul_le_mul_of_nonneg_right (by linarith) (by positivity)
          nlinarith only [this, h3]
        nlinarith only [h1, r2, h3, h4]
      rw [abs_of_pos (show (0 : ℝ) < magUnits man c - V by linarith), abs_lt]
      constructor <;> linarith
  have hnr : NearestReal man (V / 2 ^ low w man) (Flt.abs z) :=
    nearestReal_of hf hV0 hzI ⟨hzI.le, fun c hc => by
      by_cases hcz : c = magBits z
      · rw [hcz]
      · exact (key c hc hcz).le⟩ (fun c hc hne he => absurd he (key c hc hne).ne) ab1 ab2
  exact nearestReal_unique hf hy2 hnr hy1 ab2

/-- The exponent range is wide enough for roots and their reciprocals: `K` bounds half the exponents. -/
structure Roomy (w man K : Nat) : Prop where
  two_man : 2 * man ≤ low w man
  least : low w man ≤ 2 * K
  greatest : magUnits man (infMag w man) ≤ 2 ^ (low w man + 2 * K)
  over : 2 ^ (low w man + (K + 1)) < magUnits man (infMag w man - 1)
  under : man + K + 1 ≤ low w man
  recip : 2 ^ (low w man + (low w man - man)) ≤ magUnits man (infMag w man - 1)

theorem Roomy.lt_overflow {K : Nat} (h : Roomy w man K) : (2 : ℝ) ^ (K + 1) < overflow w man := by
  have hL : (0 : ℝ) < 2 ^ low w man := by positivity
  have h1 : (2 : ℝ) ^ (low w man + (K + 1)) < magUnits man (infMag w man - 1) := by exact_mod_cast h.over
  have h2 : (magUnits man (infMag w man - 1) : ℝ) ≤ magUnits man (infMag w man) := by exact_mod_cast magUnits_le (Nat.sub_le _ _)
  unfold overflow
  rw [lt_div_iff₀ hL, ← pow_add, Nat.add_comm]
  linarith

theorem Roomy.recip_lt {K : Nat} (hf : Format w man) (h : Roomy w man K) : (2 : ℝ) ^ (low w man - man) < overflow w man := by
  have hL : (0 : ℝ) < 2 ^ low w man := by positivity
  have h1 : (2 : ℝ) ^ (low w man + (low w man - man)) ≤ magUnits man (infMag w man - 1) := by exact_mod_cast h.recip
  have h2 : (magUnits man (infMag w man - 1) : ℝ) < magUnits man (infMag w man) := by
    exact_mod_cast magUnits_lt (by have := infMag_pos hf; omega)
  unfold overflow
  rw [lt_div_iff₀ hL, ← pow_add, Nat.add_comm]
  linarith

theorem Roomy.root {K : Nat} (hr : Roomy w man K) {x : BitVec w} (hx : 0 < realVal man x) :
    1 / 2 ^ K ≤ Real.sqrt (realVal man x) ∧ Real.sqrt (realVal man x) ≤ 2 ^ K := by
  have hL : (0 : ℝ) < 2 ^ low w man := by positivity
  have hv := realVal_nonneg_sign (isFinite_of_pos hx) (isNeg_of_pos hx)
  constructor
  · apply Real.le_sqrt_of_sq_le
    rw [hv, le_div_iff₀ hL, div_pow, one_pow, ← pow_mul, div_mul_eq_mul_div, one_mul, div_le_iff₀ (by positivity)]
    have h1 : (1 : ℝ) ≤ magUnits man (magBits x) := by exact_mod_cast one_le_units_of_pos hx
    have h2 : (2 : ℝ) ^ low w man ≤ 2 ^ (K * 2) := pow_le_pow_right₀ (by norm_num) (by have := hr.least; omega)
    nlinarith
  · rw [Real.sqrt_le_left (by positivity), hv, div_le_iff₀ hL, ← pow_mul, ← pow_add]
    have h1 : magUnits man (magBits x) ≤ 2 ^ (low w man + 2 * K) :=
      (magUnits_le ((finite_iff x).1 (isFinite_of_pos hx)).le).trans hr.greatest
    rw [show K * 2 + low w man = low w man + 2 * K by omega]
    exact_mod_cast h1

theorem realVal_one (hf : Format w man) : realVal man (Flt.fromInt w man 1) = 1 := by
  rw [realVal_num (valueOf_one hf).1]
  push_cast
  exact div_self (by positivity)

/-- One divided by the rounded root. -/
theorem rsqrt_error (hf : Format w man) {K : Nat} (hr : Roomy w man K) {x y : BitVec w} (hx : 0 < realVal man x) (h : IsSqrt man x y) :
    IsFinite man (Flt.div man (Flt.fromInt w man 1) y) ∧
    |realVal man (Flt.div man (Flt.fromInt w man 1) y) - 1 / Real.sqrt (realVal man x)| ≤
      2 * unitRoundoff man / (1 - unitRoundoff man) * (1 / Real.sqrt (realVal man x)) := by
  have he := isSqrt_error hf hr.two_man hx h
  have hyp := isSqrt_pos hf hr.two_man hx h
  have hs : 0 < Real.sqrt (realVal man x) := Real.sqrt_pos.2 hx
  have hu := unitRoundoff_le hf
  have hu0 := unitRoundoff_pos (man := man)
  obtain ⟨r1, r2⟩ := hr.root hx
  have hdiv := flt_div hf (x := Flt.fromInt w man 1) ⟨_, (valueOf_one hf).1⟩ (isFinite_of_pos hyp) hyp.ne'
  rw [realVal_one hf] at hdiv
  obtain ⟨d1, d2, -⟩ := hdiv
  set s := Real.sqrt (realVal man x) with hsdef
  set y' := realVal man y with hy'
  set u := unitRoundoff man with hudef
  have b1 : s * (1 - u) ≤ y' := by have := (abs_le.1 he).1; linarith
  have b2 : y' ≤ s * (1 + u) := by have := (abs_le.1 he).2; linarith
  have hK : (0 : ℝ) < 2 ^ K := by positivity
  have hinv : 1 / y' ≤ 2 ^ (K + 1) := by
    rw [div_le_iff₀ hyp, pow_succ]
    have : 1 ≤ s * 2 ^ K := by rw [div_le_iff₀ hK] at r1; linarith
    have : s * 2 ^ K * (1 - u) ≤ y' * 2 ^ K := by nlinarith
    nlinarith
  have hinv2 : 1 / 2 ^ (K + 1) ≤ 1 / y' := by
    apply one_div_le_one_div_of_le hyp
    rw [pow_succ]
    nlinarith
  have hpos : 0 < 1 / y' := by positivity
  rw [abs_of_pos hpos] at d1 d2
  have hfin := d1.2 (lt_of_le_of_lt hinv hr.lt_overflow)
  refine ⟨hfin, ?_⟩
  have htiny : tiny w man ≤ u * (1 / y') := by
    have : tiny w man ≤ u * (1 / 2 ^ (K + 1)) := by
      rw [hudef]
      unfold tiny unitRoundoff
      rw [div_mul_div_comm, one_mul, ← pow_add]
      exact one_div_le_one_div_of_le (by positivity) (pow_le_pow_right₀ (by norm_num) (by have := hr.under; omega))
    exact this.trans (mul_le_mul_of_nonneg_left hinv2 hu0.le)
  have e1 := d2 hfin
  rw [max_eq_left htiny] at e1
  have e2 : |1 / y' - 1 / s| ≤ u * (1 / y') := by
    rw [div_sub_div _ _ hyp.ne' hs.ne', one_mul, mul_one, abs_div, abs_of_pos (mul_pos hyp hs), abs_sub_comm, div_le_iff₀ (mul_pos hyp hs)]
    refine he.trans (le_of_eq ?_)
    field_simp
  have e3 : 1 / y' ≤ 1 / (1 - u) * (1 / s) := by
    rw [div_mul_div_comm, one_mul]
    exact one_div_le_one_div_of_le (mul_pos (by linarith) hs) (by linarith)
  calc _ ≤ |realVal man (Flt.div man (Flt.fromInt w man 1) y) - 1 / y'| + |1 / y' - 1 / s| := abs_sub_le _ _ _
    _ ≤ 2 * u * (1 / y') := by linarith
    _ ≤ 2 * u * (1 / (1 - u) * (1 / s)) := mul_le_mul_of_nonneg_left e3 (by linarith)
    _ = _ := by ring

/-- One divided by the root of the other lanes. -/
theorem rsqrt_special (hf : Format w man) {x y : BitVec w} (h : IsSqrt man x y) :
    (valueOf man x = .nan → valueOf man (Flt.div man (Flt.fromInt w man 1) y) = .nan) ∧
    (realVal man x < 0 ∨ valueOf man x = .inf true → valueOf man (Flt.div man (Flt.fromInt w man 1) y) = .nan) ∧
    (valueOf man x = .num 0 → valueOf man (Flt.div man (Flt.fromInt w man 1) y) = .inf (isNeg x)) ∧
    (valueOf man x = .inf false → valueOf man (Flt.div man (Flt.fromInt w man 1) y) = .num 0) := by
  have hd := div_rounds hf (Flt.fromInt w man 1) y
  obtain ⟨v1, -, -, s1, -⟩ := valueOf_one hf
  unfold exactDiv at hd
  rw [v1] at hd
  have nan : valueOf man y = .nan → valueOf man (Flt.div man (Flt.fromInt w man 1) y) = .nan := by
    intro hy
    rw [hy] at hd
    exact hd
  unfold IsSqrt at h
  refine ⟨fun hx => ?_, fun hx => ?_, fun hx => ?_, fun hx => ?_⟩
  · rw [hx] at h; exact nan h
  · rcases hx with hx | hx
    · rcases hv : valueOf man x with _ | p | z <;> rw [hv] at h
      · exact nan h
      · unfold realVal at hx; rw [hv] at hx; exact absurd hx (lt_irrefl _)
      · rw [realVal_num hv] at hx
        have hz : z < 0 := by
          have hL : (0 : ℝ) < 2 ^ low w man := by positivity
          have : (z : ℝ) < 0 := by
            by_contra h0
            exact absurd hx (not_lt.2 (div_nonneg (not_lt.1 h0) hL.le))
          exact_mod_cast this
        dsimp only at h
        rw [if_neg (by omega), if_pos hz] at h
        exact nan h
    · rw [hx] at h
      exact nan (by simpa using h)
  · rw [hx] at h
    simp only [if_true] at h
    subst h
    rw [hx, s1] at hd
    dsimp only at hd
    rw [if_pos rfl, if_neg (by positivity), Bool.false_bne] at hd
    exact hd
  · rw [hx] at h
    simp only [Bool.false_eq_true, if_false] at h
    rw [h] at hd
    dsimp only at hd
    have h0 : magBits (Flt.div man (Flt.fromInt w man 1) y) = 0 := nearest_exact hd.1 hd.2.1 (Nat.zero_le _) (by simp)
    have hfin : IsFinite man (Flt.div man (Flt.fromInt w man 1) y) := by rw [finite_iff, h0]; exact infMag_pos hf
    rw [valueOf_finite hfin, h0]
    simp

/-- Reciprocals. -/
theorem recip_error (hf : Format w man) {K : Nat} (hr : Roomy w man K) {x : BitVec w} (hx : IsFinite man x) (h0 : realVal man x ≠ 0) :
    RealRound man (Flt.div man (Flt.fromInt w man 1) x) (1 / realVal man x) (relOrTiny w man (1 / realVal man x)) ∧
    (1 / 2 ^ (low w man - man) ≤ |realVal man x| → |realVal man x| ≤ 2 ^ (low w man - man) →
      RealRound man (Flt.div man (Flt.fromInt w man 1) x) (1 / realVal man x) (relErr man (1 / realVal man x)) ∧
      IsFinite man (Flt.div man (Flt.fromInt w man 1) x)) := by
  have hdiv := flt_div hf (x := Flt.fromInt w man 1) ⟨_, (valueOf_one hf).1⟩ hx h0
  rw [realVal_one hf] at hdiv
  refine ⟨hdiv, fun h1 h2 => ?_⟩
  have hp : (0 : ℝ) < 2 ^ (low w man - man) := by positivity
  have ha : 0 < |realVal man x| := abs_pos.2 h0
  have b1 : |1 / realVal man x| ≤ 2 ^ (low w man - man) := by
    rw [abs_div, abs_one, div_le_iff₀ ha]
    rw [div_le_iff₀ hp] at h1
    linarith
  have b2 : 1 / 2 ^ (low w man - man) ≤ |1 / realVal man x| := by
    rw [abs_div, abs_one]
    exact one_div_le_one_div_of_le ha h2
  have htiny : tiny w man ≤ unitRoundoff man * |1 / realVal man x| := by
    have : tiny w man = unitRoundoff man * (1 / 2 ^ (low w man - man)) := by
      unfold tiny unitRoundoff
      rw [div_mul_div_comm, one_mul, ← pow_add]
      congr 2
      have := hr.under
      omega
    rw [this]
    exact mul_le_mul_of_nonneg_left b2 unitRoundoff_pos.le
  obtain ⟨d1, d2, d3⟩ := hdiv
  rw [max_eq_left htiny] at d2
  exact ⟨⟨d1, d2, d3⟩, d1.2 (lt_of_le_of_lt b1 (hr.recip_lt hf))⟩

end PackedSimd
