import Verif.Spec.NbodyFloat
import Verif.Spec.Sqrt
/-
The energy of the bodies of the nbody programs, which compute in `f64`.
-/
namespace PackedSimd.Ex.Nbody
open Spec

/-- The body with the numbers its floats stand for. -/
noncomputable def realBody {k : Nat} (b : Body F64 k) : Body ℝ k := ⟨b.x.map toReal, b.v.map toReal, toReal b.mass⟩

/-- The system of bodies, over the real numbers. -/
noncomputable def realSys {k N : Nat} (hk : 3 ≤ k) (L : List (Body F64 k)) (h : L.length = N) : Sys ℝ N := sysOf hk (L.map realBody) (by rw [List.length_map, h])

/-- Kinetic energy plus (instead of minus) the magnitude of the potential energy. -/
noncomputable def Sys.activity {N : Nat} (s : Sys ℝ N) : ℝ :=
  ∑ i, (s.mass i * (∑ c, s.vel i c ^ 2) / 2 + ∑ j ∈ Finset.univ.filter (i < ·), s.mass i * s.mass j / √(s.dist2 i j))

/-- Zero or between `2^-100` and `2^100` in magnitude. -/
def Ordinary (y : ℝ) : Prop := y = 0 ∨ 1 / 2 ^ 100 ≤ |y| ∧ |y| ≤ 2 ^ 100

/-- No two bodies collide, masses are positive, and velocities, masses and differences of positions are numbers of ordinary magnitude. -/
structure Calm {k : Nat} (L : List (Body F64 k)) : Prop where
  mass : ∀ b ∈ L, IsFinite 52 b.mass.bits ∧ 0 < toReal b.mass ∧ Ordinary (toReal b.mass)
  vel : ∀ b ∈ L, ∀ c (h : c < k), IsFinite 52 b.v[c].bits ∧ Ordinary (toReal b.v[c])
  pos : ∀ b ∈ L, ∀ c (h : c < k), IsFinite 52 b.x[c].bits
  apart : L.Pairwise fun a b => (∀ c (h : c < k), Ordinary (toReal a.x[c] - toReal b.x[c])) ∧ ∃ c, ∃ h : c < k, toReal a.x[c] ≠ toReal b.x[c]

/-- The literals 0, 2 and 0.5 are exact and `sqrt` rounds to nearest. -/
structure RoundFns (F : Fns F64) : Prop where
  zero : F.lit 0 = 0
  two : IsFinite 52 (F.lit 2).bits ∧ toReal (F.lit 2) = 2
  half : IsFinite 52 (F.lit 0.5).bits ∧ toReal (F.lit 0.5) = 1 / 2
  sqrt : ∀ x, IsSqrt 52 x.bits (F.sqrt x).bits

end PackedSimd.Ex.Nbody
