import Verif.Spec.FloatReal
import Verif.Lemmas.FloatOps
import Mathlib.Tactic.Linarith
import Mathlib.Tactic.Positivity
import Mathlib.Tactic.FieldSimp
import Mathlib.Tactic.Ring
import Mathlib.Tactic.NormNum
import Mathlib.Data.Real.Archimedean
/-
The error of rounding to nearest, in real numbers.
-/
namespace PackedSimd
open Spec

variable {w man : Nat}

theorem le_magUnits (b : Nat) : b ≤ magUnits man b := by
  induction b with
  | zero => exact Nat.zero_le _
  | succ b ih => have := magUnits_succ (man := man) b; omega

/-- Every non-negative real lies between two neighbouring magnitudes. -/
theorem exists_bracket (V : ℝ) (hV : 0 ≤ V) : ∃ c, (magUnits man c : ℝ) ≤ V ∧ V < magUnits man (c + 1) := by
  have hex : ∃ n : Nat, V < magUnits man n := by
    obtain ⟨n, hn⟩ := exists_nat_gt V
    exact ⟨n, lt_of_lt_of_le hn (by exact_mod_cast le_magUnits n)⟩
  classical
  have h1 := Nat.find_spec hex
  have h2 : ∀ m, m < Nat.find hex → ¬V < magUnits man m := fun m hm => Nat.find_min hex hm
  rcases hc : Nat.find hex with _ | c
  · rw [hc, magUnits_zero] at h1
    exact absurd h1 (by push_cast; linarith)
  · rw [hc] at h1 h2
    exact ⟨c, not_lt.1 (h2 c (by omega)), h1⟩

/-- The gap to the next magnitude is one unit, or at most `2^-man` of the magnitude. -/
theorem gap_le (c : Nat) : magUnits man (c + 1) = magUnits man c + 1 ∧ magUnits man c < 2 ^ (man + 1) ∨
    (magUnits man (c + 1) - magUnits man c) * 2 ^ man ≤ magUnits man c := by
  obtain ⟨s, q, rfl, hq, h⟩ := exists_mk (man := man) c
  rw [magUnits_mk (by omega) h, Nat.add_assoc, magUnits_mk (by omega) (h.imp id (by omega))]
  rcases h with rfl | h
  · left
    constructor
    · simp
    · simpa using hq
  · right
    rw [← Nat.sub_mul, Nat.add_sub_cancel_left, Nat.one_mul, Nat.mul_comm]
    exact Nat.mul_le_mul_right _ h

/-- `b` is a magnitude nearest to `V` among those up to infinity. -/
def NearTo (w man : Nat) (V : ℝ) (b : Nat) : Prop :=
  b ≤ infMag w man ∧ ∀ c, c ≤ infMag w man → |(magUnits man b : ℝ) - V| ≤ |(magUnits man c : ℝ) - V|

theorem nearTo_of {num den b : Nat} (hd : 0 < den) (h : IsNearestEven w man num den b) : NearTo w man ((num : ℝ) / den) b := by
  refine ⟨h.1, fun c hc => ?_⟩
  have h' := h.2.1 c hc
  have hd' : (0 : ℝ) < den := by exact_mod_cast hd
  have key : ∀ m : Nat, |(magUnits man m : ℝ) - num / den| = (((magUnits man m * den : Nat) - num : Int).natAbs : ℝ) / den := by
    intro m
    rw [Nat.cast_natAbs, Int.cast_abs, ← abs_of_pos hd', ← abs_div, abs_of_pos hd']
    congr 1
    push_cast
    field_simp
  rw [key, key]
  exact div_le_div_of_nonneg_right (by exact_mod_cast h') hd'.le

/-- The two neighbours of `V` are candidates if the nearest magnitude is finite. -/
theorem nearTo_gap {V : ℝ} {b c : Nat} (h : NearTo w man V b) (hb : b < infMag w man) (h1 : (magUnits man c : ℝ) ≤ V)
    (h2 : V < magUnits man (c + 1)) : c < infMag w man ∧ 2 * |(magUnits man b : ℝ) - V| ≤ (magUnits man (c + 1) : ℝ) - magUnits man c := by
  have hc : c < infMag w man := by
    by_contra hc
    have a1 : (magUnits man (infMag w man) : ℝ) ≤ magUnits man c := by exact_mod_cast magUnits_le (Nat.le_of_not_lt hc)
    have a2 : (magUnits man b : ℝ) < magUnits man (infMag w man) := by exact_mod_cast magUnits_lt hb
    have a3 := h.2 _ (Nat.le_refl _)
    rw [abs_of_nonpos (by linarith), abs_of_nonpos (by linarith)] at a3
    linarith
  refine ⟨hc, ?_⟩
  have a1 := h.2 c (Nat.le_of_lt hc)
  have a2 := h.2 (c + 1) hc
  rw [abs_of_nonpos (show (magUnits man c : ℝ) - V ≤ 0 by linarith)] at a1
  rw [abs_of_nonneg (show 0 ≤ (magUnits man (c + 1) : ℝ) - V by linarith)] at a2
  linarith

theorem nearTo_error {V : ℝ} (hV : 0 ≤ V) {b : Nat} (h : NearTo w man V b) (hb : b < infMag w man) :
    |(magUnits man b : ℝ) - V| ≤ max (V / 2 ^ (man + 1)) (1 / 2) := by
  obtain ⟨c, h1, h2⟩ := exists_bracket (man := man) V hV
  obtain ⟨hc, h3⟩ := nearTo_gap h hb h1 h2
  rcases gap_le (man := man) c with ⟨h4, -⟩ | h4
  · rw [h4] at h3
    push_cast at h3
    exact le_max_of_le_right (by linarith)
  · apply le_max_of_le_left
    have h5 : magUnits man c ≤ magUnits man (c + 1) := (magUnits_succ c).le
    have h6 : ((magUnits man (c + 1) : ℝ) - magUnits man c) * 2 ^ man ≤ magUnits man c := by exact_mod_cast h4
    rw [le_div_iff₀ (by positivity), pow_succ]
    have hp : (0 : ℝ) < 2 ^ man := by positivity
    nlinarith

/-- No error at all for integers that are small enough, hence a purely relative error for all integers. -/
theorem nearTo_error_int {n b : Nat} (h : NearTo w man n b) (hb : b < infMag w man) :
    |(magUnits man b : ℝ) - n| ≤ n / 2 ^ (man + 1) := by
  obtain ⟨c, h1, h2⟩ := exists_bracket (man := man) (n : ℝ) (by positivity)
  obtain ⟨hc, h3⟩ := nearTo_gap h hb h1 h2
  have h1' : magUnits man c ≤ n := by exact_mod_cast h1
  have h2' : n < magUnits man (c + 1) := by exact_mod_cast h2
  rcases gap_le (man := man) c with ⟨h4, -⟩ | h4
  · have e : magUnits man c = n := by omega
    have := h.2 c hc.le
    rw [e] at this
    simp only [sub_self, abs_zero] at this
    exact le_trans this (by positivity)
  · have h5 : magUnits man c ≤ magUnits man (c + 1) := (magUnits_succ c).le
    have h6 : ((magUnits man (c + 1) : ℝ) - magUnits man c) * 2 ^ man ≤ magUnits man c := by exact_mod_cast h4
    rw [le_div_iff₀ (by positivity), pow_succ]
    have hp : (0 : ℝ) < 2 ^ man := by positivity
    nlinarith

/-- Finite exactly below the overflow threshold. -/
theorem nearest_finite_iff (hf : Format w man) {num den b : Nat} (hd : 0 < den) (h : IsNearestEven w man num den b) :
    b < infMag w man ↔ 2 * ((num : ℝ) / den) < magUnits man (infMag w man - 1) + magUnits man (infMag w man) := by
  have hI := infMag_pos hf
  have hd' : (0 : ℝ) < den := by exact_mod_cast hd
  have hn := nearTo_of hd h
  have hM : (magUnits man (infMag w man - 1) : ℝ) < magUnits man (infMag w man) := by exact_mod_cast magUnits_lt (by omega)
  constructor
  · intro hb
    by_contra hc
    rw [not_lt] at hc
    have hbM : (magUnits man b : ℝ) ≤ magUnits man (infMag w man - 1) := by exact_mod_cast magUnits_le (show b ≤ infMag w man - 1 by omega)
    have a1 := hn.2 _ (Nat.le_refl _)
    rw [abs_of_nonpos (show (magUnits man b : ℝ) - num / den ≤ 0 by linarith)] at a1
    -- the infinity pattern is at least as near: a tie, so `b` is even, but it is the odd pattern before infinity
    have hV : (num : ℝ) / den < magUnits man (infMag w man) := by
      by_contra hV
      rw [not_lt] at hV
      rw [abs_of_nonpos (by linarith)] at a1
      linarith
    rw [abs_of_pos (by linarith)] at a1
    have e1 : (magUnits man b : ℝ) = magUnits man (infMag w man - 1) := by linarith
    have e2 : 2 * ((num : ℝ) / den) = magUnits man (infMag w man - 1) + magUnits man (infMag w man) := by linarith
    have e3 : b = infMag w man - 1 := magUnits_inj (by exact_mod_cast e1)
    have tie := h.2.2 (infMag w man) (Nat.le_refl _) (by omega) (by
      rw [e3]
      have e4 : 2 * (num : ℝ) = (magUnits man (infMag w man - 1) + magUnits man (infMag w man)) * den := by
        rw [← e2]; field_simp
      have e5 : 2 * num = (magUnits man (infMag w man - 1) + magUnits man (infMag w man)) * den := by exact_mod_cast e4
      rw [Nat.add_mul] at e5
      have := Nat.mul_le_mul_right den (magUnits_le (man := man) (show infMag w man - 1 ≤ infMag w man by omega))
      omega)
    have even : infMag w man % 2 = 0 := by
      unfold infMag
      obtain ⟨k, rfl⟩ : ∃ k, man = k + 1 := ⟨man - 1, by have := hf.1; omega⟩
      rw [pow_succ, ← Nat.mul_assoc, Nat.mul_mod_left]
    omega
  · intro hlt
    by_contra hb
    have e : b = infMag w man := by have := h.1; omega
    subst e
    have a1 := hn.2 (infMag w man - 1) (by omega)
    have hV : (num : ℝ) / den < magUnits man (infMag w man) := by linarith
    rw [abs_of_pos (show 0 < (magUnits man (infMag w man) : ℝ) - num / den by linarith)] at a1
    rcases le_total ((magUnits man (infMag w man - 1) : ℝ)) (num / den) with h1 | h1
    · rw [abs_of_nonpos (by linarith)] at a1
      linarith
    · rw [abs_of_nonneg (by linarith)] at a1
      linarith

/-! ### Signed results -/

theorem finite_iff (x : BitVec w) : IsFinite man x ↔ magBits x < infMag w man := by
  unfold IsFinite
  rcases lane_cases (man := man) x with ⟨a1, a3, a4, a2⟩ | ⟨a1, a3, a4, a2⟩ | ⟨a1, a3, a4, a2⟩ <;> rw [a2] <;> simp <;> omega

theorem realVal_num {x : BitVec w} {z : Int} (h : valueOf man x = .num z) : realVal man x = (z : ℝ) / 2 ^ low w man := by
  unfold realVal; rw [h]

theorem valueOf_finite {x : BitVec w} (h : IsFinite man x) :
    valueOf man x = .num (if isNeg x then -(magUnits man (magBits x)) else magUnits man (magBits x)) := by
  rw [finite_iff] at h
  unfold valueOf
  rw [if_neg (by omega), if_neg (by omega)]

theorem finite_or (x : BitVec w) : IsFinite man x ∨ valueOf man x = .nan ∨ ∃ p, valueOf man x = .inf p := by
  rcases h : valueOf man x with _ | p | z
  · exact .inr (.inl rfl)
  · exact .inr (.inr ⟨p, rfl⟩)
  · exact .inl ⟨z, h⟩

/-- The error of the result is that of its magnitude. -/
theorem rounds_err {num : Int} {den : Nat} {x : BitVec w} (h : RoundsTo man (.frac num den) x) {v : ℝ} (hv : v = (num : ℝ) / den / 2 ^ low w man)
    (hx : IsFinite man x) (E : ℝ) (hE : |(magUnits man (magBits x) : ℝ) - num.natAbs / den| ≤ E) : |realVal man x - v| ≤ E / 2 ^ low w man := by
  obtain ⟨hd, hn, hs⟩ := h
  have hL : (0 : ℝ) < 2 ^ low w man := by positivity
  rw [realVal_num (valueOf_finite hx), hv, ← sub_div, abs_div, abs_of_pos hL]
  refine div_le_div_of_nonneg_right (le_trans (le_of_eq ?_) hE) hL.le
  by_cases h0 : num = 0
  · subst h0
    have : magBits x = 0 := by
      have := nearest_exact hd hn (Nat.zero_le _) (by simp [magUnits])
      exact this
    rw [this]
    simp
  · have hs' := hs h0
    rcases lt_or_gt_of_ne h0 with h1 | h1
    · rw [hs', decide_eq_true h1, if_pos rfl]
      have e : (num : ℝ) = -(num.natAbs : ℝ) := by
        have : num = -(num.natAbs : Int) := by omega
        calc (num : ℝ) = ((-(num.natAbs : Int) : Int) : ℝ) := by rw [← this]
          _ = _ := by rw [Int.cast_neg, Int.cast_natCast]
      rw [e, Int.cast_neg, Int.cast_natCast]
      rw [show -(magUnits man (magBits x) : ℝ) - -(num.natAbs : ℝ) / den = -((magUnits man (magBits x) : ℝ) - num.natAbs / den) by ring, abs_neg]
    · rw [hs', decide_eq_false (by omega), if_neg (by simp)]
      have e : (num : ℝ) = (num.natAbs : ℝ) := by
        have : num = (num.natAbs : Int) := by omega
        calc (num : ℝ) = (((num.natAbs : Int) : Int) : ℝ) := by rw [← this]
          _ = _ := Int.cast_natCast _
      rw [e, Int.cast_natCast]

/-- What correct rounding of a fraction means for real numbers. -/
theorem rounds_real (hf : Format w man) {num : Int} {den : Nat} {x : BitVec w} (h : RoundsTo man (.frac num den) x) {v : ℝ}
    (hv : v = (num : ℝ) / den / 2 ^ low w man) :
    (IsFinite man x ↔ |v| < overflow w man) ∧ (IsFinite man x → |realVal man x - v| ≤ max (unitRoundoff man * |v|) (tiny w man)) ∧
    (den = 1 → IsFinite man x → |realVal man x - v| ≤ unitRoundoff man * |v|) ∧ (¬IsFinite man x → valueOf man x = .inf (decide (num < 0))) := by
  obtain ⟨hd, hn, hs⟩ := h
  have hd' : (0 : ℝ) < den := by exact_mod_cast hd
  have hL : (0 : ℝ) < 2 ^ low w man := by positivity
  have hav : |v| = (num.natAbs : ℝ) / den / 2 ^ low w man := by
    rw [hv, abs_div, abs_div, abs_of_pos hL, abs_of_pos hd', Nat.cast_natAbs, Int.cast_abs]
  have hfin : IsFinite man x ↔ |v| < overflow w man := by
    rw [finite_iff, nearest_finite_iff hf hd hn, hav, overflow, div_lt_div_iff_of_pos_right hL]
    constructor <;> intro h <;> linarith
  have herr := rounds_err ⟨hd, hn, hs⟩ hv
  refine ⟨hfin, fun hx => ?_, fun h1 hx => ?_, fun hx => ?_⟩
  · have hV : (0 : ℝ) ≤ num.natAbs / den := by positivity
    have := herr hx _ (nearTo_error hV (nearTo_of hd hn) ((finite_iff x).1 hx))
    refine le_trans this (le_of_eq ?_)
    rw [hav, unitRoundoff, tiny, ← max_div_div_right hL.le, pow_succ, pow_succ]
    congr 1
    · field_simp
    · field_simp
  · subst h1
    have hn' := nearTo_of hd hn
    rw [Nat.cast_one, div_one] at hn'
    have := herr hx (num.natAbs / 2 ^ (man + 1)) (by rw [Nat.cast_one, div_one]; exact nearTo_error_int hn' ((finite_iff x).1 hx))
    refine le_trans this (le_of_eq ?_)
    rw [hav, unitRoundoff, Nat.cast_one, div_one]
    field_simp
  · rw [finite_iff] at hx
    have hI := infMag_pos hf
    have e : magBits x = infMag w man := by have := hn.1; omega
    unfold valueOf
    rw [if_neg (by omega), if_pos e]
    congr 1
    apply hs
    intro h0
    subst h0
    have := nearest_exact hd hn (Nat.zero_le _) (by simp [magUnits])
    omega

/-! ### The operations -/

theorem realRound_of (hf : Format w man) {num : Int} {den : Nat} {x : BitVec w} (h : RoundsTo man (.frac num den) x) {v : ℝ}
    (hv : v = (num : ℝ) / den / 2 ^ low w man) : RealRound man x v (max (unitRoundoff man * |v|) (tiny w man)) ∧
    (den = 1 → RealRound man x v (unitRoundoff man * |v|)) := by
  obtain ⟨h1, h2, h3, h4⟩ := rounds_real hf h hv
  have hd : (0 : ℝ) < den := by exact_mod_cast h.1
  have hL : (0 : ℝ) < 2 ^ low w man := by positivity
  have h5 : ¬IsFinite man x → ∃ p, valueOf man x = .inf p ∧ (p = true ↔ v < 0) := by
    intro hx
    refine ⟨_, h4 hx, ?_⟩
    rw [decide_eq_true_iff, hv, div_div, div_neg_iff]
    have hp : (0 : ℝ) < den * 2 ^ low w man := by positivity
    constructor
    · intro h; exact .inr ⟨by exact_mod_cast h, hp⟩
    · rintro (⟨-, h⟩ | ⟨h, -⟩)
      · linarith
      · exact_mod_cast h
  exact ⟨⟨h1, h2, h5⟩, fun hd => ⟨h1, h3 hd, h5⟩⟩

theorem flt_add (hf : Format w man) {x y : BitVec w} (hx : IsFinite man x) (hy : IsFinite man y) :
    RealRound man (Flt.add man x y) (realVal man x + realVal man y) (unitRoundoff man * |realVal man x + realVal man y|) := by
  obtain ⟨a, ha⟩ := hx
  obtain ⟨b, hb⟩ := hy
  have h := add_rounds hf x y
  unfold exactAdd at h
  rw [ha, hb] at h
  rw [realVal_num ha, realVal_num hb]
  exact (realRound_of hf h (by push_cast; ring)).2 rfl

theorem flt_sub (hf : Format w man) {x y : BitVec w} (hx : IsFinite man x) (hy : IsFinite man y) :
    RealRound man (Flt.sub man x y) (realVal man x - realVal man y) (unitRoundoff man * |realVal man x - realVal man y|) := by
  obtain ⟨a, ha⟩ := hx
  obtain ⟨b, hb⟩ := hy
  have h := sub_rounds hf x y
  unfold exactSub at h
  rw [ha, hb] at h
  rw [realVal_num ha, realVal_num hb]
  exact (realRound_of hf h (by push_cast; ring)).2 rfl

theorem flt_mul (hf : Format w man) {x y : BitVec w} (hx : IsFinite man x) (hy : IsFinite man y) :
    RealRound man (Flt.mul man x y) (realVal man x * realVal man y) (max (unitRoundoff man * |realVal man x * realVal man y|) (tiny w man)) := by
  obtain ⟨a, ha⟩ := hx
  obtain ⟨b, hb⟩ := hy
  have h := mul_rounds hf x y
  unfold exactMul at h
  rw [ha, hb] at h
  rw [realVal_num ha, realVal_num hb]
  exact (realRound_of hf h (by push_cast; field_simp)).1

theorem flt_div (hf : Format w man) {x y : BitVec w} (hx : IsFinite man x) (hy : IsFinite man y) (h0 : realVal man y ≠ 0) :
    RealRound man (Flt.div man x y) (realVal man x / realVal man y) (max (unitRoundoff man * |realVal man x / realVal man y|) (tiny w man)) := by
  obtain ⟨a, ha⟩ := hx
  obtain ⟨b, hb⟩ := hy
  have h := div_rounds hf x y
  unfold exactDiv at h
  rw [ha, hb] at h
  rw [realVal_num ha, realVal_num hb] at *
  have hb0 : b ≠ 0 := by rintro rfl; simp at h0
  have hbR : (b : ℝ) ≠ 0 := by exact_mod_cast hb0
  dsimp only at h
  rw [if_neg hb0] at h
  refine (realRound_of hf h ?_).1
  have hL : (2 : ℝ) ^ low w man ≠ 0 := by positivity
  rw [Nat.cast_natAbs, Int.cast_abs]
  split
  · rename_i hneg
    have : (b : ℝ) < 0 := by exact_mod_cast hneg
    rw [abs_of_neg this]
    push_cast
    field_simp
  · rename_i hneg
    have : (0 : ℝ) < b := by
      have : 0 < b := by omega
      exact_mod_cast this
    rw [abs_of_pos this]
    push_cast
    field_simp

theorem real_fma (hf : Format w man) {x y z r : BitVec w} (hx : IsFinite man x) (hy : IsFinite man y) (hz : IsFinite man z)
    (h : RoundsTo man (exactFma man x y z) r) :
    RealRound man r (realVal man x * realVal man y + realVal man z) (max (unitRoundoff man * |realVal man x * realVal man y + realVal man z|) (tiny w man)) := by
  obtain ⟨a, ha⟩ := hx
  obtain ⟨b, hb⟩ := hy
  obtain ⟨c, hc⟩ := hz
  unfold exactFma exactMul at h
  rw [ha, hb, hc] at h
  rw [realVal_num ha, realVal_num hb, realVal_num hc]
  exact (realRound_of hf h (by push_cast; field_simp)).1

/-! ### Comparisons -/

theorem cmp_real {x y : BitVec w} (hx : IsFinite man x) (hy : IsFinite man y) :
    ((valueOf man x).cmp (valueOf man y) = some .lt ↔ realVal man x < realVal man y) ∧
    ((valueOf man x).cmp (valueOf man y) = some .eq ↔ realVal man x = realVal man y) ∧
    ((valueOf man x).cmp (valueOf man y) = some .gt ↔ realVal man y < realVal man x) := by
  obtain ⟨a, ha⟩ := hx
  obtain ⟨b, hb⟩ := hy
  have hL : (0 : ℝ) < 2 ^ low w man := by positivity
  rw [realVal_num ha, realVal_num hb, ha, hb, div_lt_div_iff_of_pos_right hL, div_lt_div_iff_of_pos_right hL, div_left_inj' hL.ne']
  simp only [FVal.cmp, Option.some.injEq, Int.compare_eq_lt, Int.compare_eq_gt, Int.compare_eq_eq, Int.cast_lt, Int.cast_inj]
  exact ⟨trivial, trivial, trivial⟩

end PackedSimd
