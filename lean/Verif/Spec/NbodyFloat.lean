import Verif.Spec.Nbody
import Verif.Spec.FloatReal
/-
Momentum of the bodies of the nbody programs, which compute in `f64`.
-/
namespace PackedSimd.Ex.Nbody
open Spec

/-- The number a float stands for. -/
noncomputable def toReal (x : F64) : ℝ := realVal 52 x.bits

/-- The sum of `f a b` over every two bodies of a list. -/
def pairSum {β : Type} (f : β → β → ℝ) : List β → ℝ
  | [] => 0
  | a :: l => (l.map (f a)).sum + pairSum f l

variable {k : Nat} (c : Nat) (hc : c < k)

/-- One component of the total momentum, and the sum of its absolute values. -/
noncomputable def momentum (L : List (Body F64 k)) : ℝ := (L.map fun b => toReal b.mass * toReal b.v[c]).sum
noncomputable def motion (L : List (Body F64 k)) : ℝ := (L.map fun b => toReal b.mass * |toReal b.v[c]|).sum

/-- The impulse two bodies exchange in one step, by the computed distance and the computed factor `g` (`dt` over the third power of the distance). -/
noncomputable def impulse (g : Body F64 k → Body F64 k → F64) (a b : Body F64 k) : ℝ :=
  toReal a.mass * toReal b.mass * |toReal (a.x[c] - b.x[c]) * toReal (g a b)|

/-- What underflow can contribute, in units of the least positive float. -/
noncomputable def dust (a b : Body F64 k) : ℝ :=
  (toReal a.mass + toReal b.mass) * (1 + |toReal (a.x[c] - b.x[c])|) + 2 * (toReal a.mass * toReal b.mass)

/-- How much one step with `p` pairs of bodies may change a component of the total momentum. -/
noncomputable def stepDrift (p : Nat) (g : Body F64 k → Body F64 k → F64) (L : List (Body F64 k)) : ℝ :=
  101 / 100 * (p * motion c hc L + (2 * p + 4) * pairSum (impulse c hc g) L) / 2 ^ 53 + 2 * pairSum (dust c hc) L / 2 ^ 1074

/-- The factor as the two programs compute it. -/
def factorScalar (F : Fns F64) (dt : F64) (a b : Body F64 3) : F64 :=
  let d2 := square (Vector.zipWith (· - ·) a.x b.x)
  dt / (d2 * F.sqrt d2)
def factorSimd (F : Fns F64) (t : Target) (dt : F64) (a b : Body F64 4) : F64 :=
  match sum4 t ((a.x - b.x) * (a.x - b.x)) with
  | .ok d2 => dt / (d2 * F.sqrte d2)
  | .error _ => 0

/-- Every component of every velocity is a number, and no mass is negative. -/
def Sound (L : List (Body F64 k)) : Prop := ∀ b ∈ L, IsFinite 52 (b.v[c]).bits
def Massive (L : List (Body F64 k)) : Prop := ∀ b ∈ L, 0 ≤ toReal b.mass

end PackedSimd.Ex.Nbody
