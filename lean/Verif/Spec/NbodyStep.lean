import Verif.Spec.NbodyEnergy
/-
One step of the nbody programs, which compute in `f64`, beside the exact step.
-/
namespace PackedSimd.Ex.Nbody
open Spec
variable {N : Nat}

/-- A component of the velocity of a body and of everything the others add to it in one step, in magnitude. -/
noncomputable def Sys.effort (s : Sys ℝ N) (dt : ℝ) (i : Fin N) (c : Fin 3) : ℝ :=
  |s.vel i c| + dt * ∑ j ∈ Finset.univ.erase i, s.mass j * |s.pos j c - s.pos i c| / (s.dist2 i j * √(s.dist2 i j))

/-- `s'` is the exact step from `s`, but for about `N + e` roundings in every velocity, two more in every position, and underflow. -/
structure NearStep (e : Nat) (dt : ℝ) (s s' : Sys ℝ N) : Prop where
  mass : ∀ i, s'.mass i = s.mass i
  vel : ∀ i c, |s'.vel i c - (s.step Real.sqrt dt).vel i c| ≤ 101 / 100 * (N + e) / 2 ^ 53 * s.effort dt i c
  pos : ∀ i c, |s'.pos i c - (s.step Real.sqrt dt).pos i c| ≤ 101 / 100 * (N + e + 2) / 2 ^ 53 * (|s.pos i c| + dt * s.effort dt i c) + 1 / 2 ^ 1074

/-- Positions and velocities are numbers. -/
def Numbers {k : Nat} (L : List (Body F64 k)) : Prop := ∀ b ∈ L, ∀ c (h : c < k), IsFinite 52 b.x[c].bits ∧ IsFinite 52 b.v[c].bits

/-- No position is near overflow. -/
def Placed {k : Nat} (L : List (Body F64 k)) : Prop := ∀ b ∈ L, ∀ c (h : c < k), |toReal b.x[c]| ≤ 2 ^ 1000

end PackedSimd.Ex.Nbody
