import Verif.Model.Examples.Nbody
import Mathlib.Algebra.Field.Defs
import Mathlib.Algebra.CharZero.Defs
import Mathlib.Algebra.BigOperators.Group.Finset.Basic
import Mathlib.Data.Fintype.BigOperators
/-
The system the nbody programs simulate, in exact arithmetic.
-/
namespace PackedSimd.Ex.Nbody

/-- `N` bodies in space. -/
structure Sys (K : Type) (N : Nat) where
  pos : Fin N → Fin 3 → K
  vel : Fin N → Fin 3 → K
  mass : Fin N → K

variable {K : Type} [Field K] {N : Nat} (sqrt : K → K)

/-- The square of the distance of two bodies. -/
def Sys.dist2 (s : Sys K N) (i j : Fin N) : K := ∑ c, (s.pos i c - s.pos j c) ^ 2

/-- The attraction on body `i`: every other body pulls with its mass over the square of the distance. -/
def Sys.accel (s : Sys K N) (i : Fin N) (c : Fin 3) : K :=
  ∑ j ∈ Finset.univ.erase i, s.mass j * (s.pos j c - s.pos i c) / (s.dist2 i j * sqrt (s.dist2 i j))

/-- One step: new velocities from the old positions, new positions from the new velocities. -/
def Sys.step (dt : K) (s : Sys K N) : Sys K N where
  vel i c := s.vel i c + dt * s.accel sqrt i c
  pos i c := s.pos i c + dt * (s.vel i c + dt * s.accel sqrt i c)
  mass := s.mass

/-- Kinetic energy and, for every two bodies, potential energy. -/
def Sys.energy (s : Sys K N) : K :=
  ∑ i, (s.mass i * (∑ c, s.vel i c ^ 2) / 2 - ∑ j ∈ Finset.univ.filter (i < ·), s.mass i * s.mass j / sqrt (s.dist2 i j))

/-- Total momentum. -/
def Sys.momentum (s : Sys K N) (c : Fin 3) : K := ∑ i, s.mass i * s.vel i c

/-- The same bodies seen from their centre of mass: body 0 gets the velocity that cancels the momentum of the others. -/
def Sys.centred (s : Sys K (N + 1)) : Sys K (N + 1) :=
  { s with vel := fun i c => if i = 0 then -(∑ j ∈ Finset.univ.erase 0, s.mass j * s.vel j c) / s.mass 0 else s.vel i c }

/-- `n` steps. -/
def Sys.after (dt : K) (s : Sys K N) : Nat → Sys K N
  | 0 => s
  | n + 1 => (s.after dt n).step sqrt dt

/-- The system held by an array of bodies: the first three lanes of the position and the velocity. -/
def sysOf {k : Nat} (hk : 3 ≤ k) (L : List (Body K k)) (h : L.length = N) : Sys K N where
  pos i c := L[i].x[c.val]
  vel i c := L[i].v[c.val]
  mass i := L[i].mass

/-- The Sun, Jupiter, Saturn, Uranus and Neptune: position (AU), velocity (AU per day), mass (solar masses). -/
def planets : List (List Rat × List Rat × Rat) :=
  [([0, 0, 0], [0, 0, 0], 1),
   ([4.84143144246472090, -1.16032004402742839, -0.103622044471123109],
    [0.00166007664274403694, 0.00769901118419740425, -0.0000690460016972063023], 0.000954791938424326609),
   ([8.34336671824457987, 4.12479856412430479, -0.403523417114321381],
    [-0.00276742510726862411, 0.00499852801234917238, 0.0000230417297573763929], 0.000285885980666130812),
   ([12.8943695621391310, -15.1111514016986312, -0.223307578892655734],
    [0.00296460137564761618, 0.00237847173959480950, -0.0000296589568540237556], 0.0000436624404335156298),
   ([15.3796971148509165, -25.9193146099879641, 0.179258772950371181],
    [0.00268067772490389322, 0.00162824170038242295, -0.0000951592254519715870], 0.0000515138902046611451)]

/-- These bodies in units of AU and years, where the mass of the Sun is `4 π²`. -/
def solarSystem (pi : K) : Sys K 5 where
  pos i c := ((planets[i].1.getD c 0 : Rat) : K)
  vel i c := ((planets[i].2.1.getD c 0 * 365.24 : Rat) : K)
  mass i := ((planets[i].2.2 : Rat) : K) * (4 * pi ^ 2)

/-- The arithmetic is exact: literals denote rationals and the square-root estimate is the square root. -/
structure Exact [CharZero K] (F : Fns K) : Prop where
  lit : ∀ q : Rat, F.lit q = (q : K)
  sqrte : ∀ x, F.sqrte x = F.sqrt x

end PackedSimd.Ex.Nbody
