import Verif.Spec.Stencil
import Verif.Spec.AoFloat
/-
What the stencil programs, which compute in `f32`, should approximate: the same time steps in exact arithmetic, on the real numbers that the floats stand for.
-/
namespace PackedSimd.Ex.Stencil
open Spec

/-- The number a float stands for. -/
noncomputable def toReal (x : F32) : ℝ := realVal 23 x.bits

/-- The same grid, coefficients and velocities, with exact arithmetic. -/
noncomputable def exactEnv (E : Env F32) : Env ℝ :=
  { t := E.t, dbg := E.dbg, two := 2, negOne := -1, fma := fun a b c => a * b + c, x0 := E.x0, x1 := E.x1, y0 := E.y0, y1 := E.y1, nx := E.nx, ny := E.ny,
    coef := E.coef.map toReal, vsq := E.vsq.map toReal }

/-- The grid the step at time `t` reads, and the one it updates. -/
def reads {α : Type} (t : Int) (s : List α × List α) : List α := if t % 2 = 0 then s.1 else s.2
def writes {α : Type} (t : Int) (s : List α × List α) : List α := if t % 2 = 0 then s.2 else s.1

/-- All elements are finite and of absolute value at most `b`. -/
def Within (b : ℝ) (l : List F32) : Prop := ∀ x ∈ l, IsFinite 23 x.bits ∧ |toReal x| ≤ b

/-- `l` consists of finite numbers that are within `e` of those of `l'`. -/
def Close (e : ℝ) (l : List F32) (l' : List ℝ) : Prop :=
  l.length = l'.length ∧ ∀ (k : Nat) (h : k < l.length) (h' : k < l'.length), IsFinite 23 l[k].bits ∧ |toReal l[k] - l'[k]| ≤ e

/-- The sum of the absolute values of the weights of a cell and its eighteen neighbours. -/
noncomputable def weight (coef : Vector F32 4) : ℝ := |toReal coef[0]| + (6 : ℝ) * (|toReal coef[1]| + |toReal coef[2]| + |toReal coef[3]|)

/-- The arithmetic is that of the programs: the literals, a `mul_adde` that rounds once or twice, finite coefficients, and velocities up to `V`. -/
structure Tame (E : Env F32) (V : ℝ) : Prop where
  two : E.two = F32.ofInt 2
  negOne : E.negOne = F32.ofInt (-1)
  fma : Ao.MulAddOk E.fma
  coef : ∀ (i : Nat) (h : i < 4), IsFinite 23 E.coef[i].bits
  vsq : Within V E.vsq
  nonneg : 0 ≤ V
  small : V ≤ 2 ^ 64

/-- The initial grids and the number of steps `m`: the grid read first is at most `M ρ`, the other at most `M`, where `ρ` bounds the growth of the exact
evolution per step, and nothing comes near the largest float. -/
structure Regime (E : Env F32) (V M ρ : ℝ) (t0 : Int) (m : Nat) (s : List F32 × List F32) : Prop where
  reads : Within (M * ρ) (reads t0 s)
  writes : Within M (writes t0 s)
  notTiny : 1 / 2 ^ 50 ≤ M
  rho : 1 ≤ ρ
  growth : (2 + V * weight E.coef) * ρ + 1 ≤ ρ ^ 2
  room : (weight E.coef + 8) * (M * ρ ^ (m + 1)) ≤ 2 ^ 120

/-- The rounding error of `m` steps: fifteen half units in the last place of the largest value, per step. -/
noncomputable def stepsError (M ρ : ℝ) (m : Nat) : ℝ := 15 * m / 2 ^ 24 * (M * ρ ^ (m + 1))

end PackedSimd.Ex.Stencil
