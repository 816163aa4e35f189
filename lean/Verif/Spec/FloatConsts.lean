import Verif.Spec.Float
import Mathlib.Data.Real.Basic
/-
When a float is the nearest one to a real number.
-/
namespace PackedSimd.Spec

/-- The float `x` is finite, and every finite float with another value is farther from the real number `r` than `x` is. -/
def Nearest {w : Nat} (man : Nat) (x : BitVec w) (r : ℝ) : Prop :=
  ∃ z : Int, valueOf man x = .num z ∧ ∀ (y : BitVec w) (z' : Int), valueOf man y = .num z' → z' ≠ z →
    |(z : ℝ) / 2 ^ low w man - r| < |(z' : ℝ) / 2 ^ low w man - r|

/-- Neither zero nor subnormal nor infinite nor NaN: the exponent field is neither all zeros nor all ones. -/
def Normal {w : Nat} (man : Nat) (x : BitVec w) : Prop := 2 ^ man ≤ magBits x ∧ magBits x < infMag w man

end PackedSimd.Spec
