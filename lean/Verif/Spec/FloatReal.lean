import Verif.Spec.Float
import Mathlib.Data.Real.Basic
/-
Floats as real numbers.
-/
namespace PackedSimd.Spec

/-- Neither infinite nor NaN. -/
def IsFinite {w : Nat} (man : Nat) (x : BitVec w) : Prop := ∃ z : Int, valueOf man x = .num z

/-- The real number a finite float stands for (0 for the others). -/
noncomputable def realVal {w : Nat} (man : Nat) (x : BitVec w) : ℝ :=
  match valueOf man x with
  | .num z => (z : ℝ) / 2 ^ low w man
  | _ => 0

/-- Half the distance from 1 to the next float: the relative error of rounding to nearest. -/
noncomputable def unitRoundoff (man : Nat) : ℝ := 1 / 2 ^ (man + 1)

/-- Half the least positive float: the absolute error of rounding when the result is subnormal. -/
noncomputable def tiny (w man : Nat) : ℝ := 1 / 2 ^ (low w man + 1)

/-- The midpoint of the greatest finite float and the power of two that would follow it: where overflow starts. -/
noncomputable def overflow (w man : Nat) : ℝ :=
  (magUnits man (infMag w man - 1) + magUnits man (infMag w man)) / 2 / 2 ^ low w man

/-- `x` is the real number `v` rounded: finite below the overflow threshold, with the error `E`; otherwise infinite with the sign of `v`. -/
def RealRound {w : Nat} (man : Nat) (x : BitVec w) (v E : ℝ) : Prop :=
  (IsFinite man x ↔ |v| < overflow w man) ∧ (IsFinite man x → |realVal man x - v| ≤ E) ∧
  (¬IsFinite man x → ∃ p, valueOf man x = .inf p ∧ (p = true ↔ v < 0))

/-- The relative error only. -/
noncomputable def relErr (man : Nat) (v : ℝ) : ℝ := unitRoundoff man * |v|

/-- The relative error, or half the least positive float for results too small for it. -/
noncomputable def relOrTiny (w man : Nat) (v : ℝ) : ℝ := max (unitRoundoff man * |v|) (tiny w man)

/-- The exact sum of a list of floats, and of their absolute values. -/
noncomputable def realSum {w : Nat} (man : Nat) (l : List (BitVec w)) : ℝ := (l.map (realVal man)).sum
noncomputable def absSum {w : Nat} (man : Nat) (l : List (BitVec w)) : ℝ := (l.map fun x => |realVal man x|).sum

/-- The exact dot product of two lists of floats, and of their absolute values. -/
noncomputable def realDot {w : Nat} (man : Nat) (a b : List (BitVec w)) : ℝ := (List.zipWith (fun x y => realVal man x * realVal man y) a b).sum
noncomputable def absDot {w : Nat} (man : Nat) (a b : List (BitVec w)) : ℝ := (List.zipWith (fun x y => |realVal man x * realVal man y|) a b).sum

/-- `r` is the sum of the list up to the accumulated rounding error, and does not overflow needlessly. -/
def SumAccurate {w : Nat} (man : Nat) (l : List (BitVec w)) (r : BitVec w) : Prop :=
  (IsFinite man r → (∀ x ∈ l, IsFinite man x) ∧ |realVal man r - realSum man l| ≤ ((1 + unitRoundoff man) ^ (l.length - 1) - 1) * absSum man l) ∧
  ((∀ x ∈ l, IsFinite man x) → (1 + unitRoundoff man) ^ (l.length - 1) * absSum man l < overflow w man → IsFinite man r)

end PackedSimd.Spec
