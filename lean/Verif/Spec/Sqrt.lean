import Verif.Spec.FloatReal
import Mathlib.Analysis.Real.Sqrt
/-
Square roots of floats, as IEEE 754 defines them.
-/
namespace PackedSimd.Spec

/-- `y` is the real number `v` rounded to nearest: no finite float is nearer, and if another one is equally near, `y` is the even one of the two. -/
def NearestReal {w : Nat} (man : Nat) (v : ℝ) (y : BitVec w) : Prop :=
  IsFinite man y ∧ ∀ c : BitVec w, IsFinite man c → |realVal man y - v| ≤ |realVal man c - v| ∧
    (|realVal man y - v| = |realVal man c - v| → realVal man c ≠ realVal man y → magBits y % 2 = 0)

/-- `y` is the square root of `x`: zeros keep their sign, a negative number has none, and otherwise it is the real square root rounded. -/
def IsSqrt {w : Nat} (man : Nat) (x y : BitVec w) : Prop :=
  match valueOf man x with
  | .nan => valueOf man y = .nan
  | .inf neg => valueOf man y = if neg then .nan else .inf false
  | .num z => if z = 0 then y = x else if z < 0 then valueOf man y = .nan else isNeg y = false ∧ NearestReal man (Real.sqrt (realVal man x)) y

end PackedSimd.Spec
