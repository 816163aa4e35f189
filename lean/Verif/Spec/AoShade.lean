import Verif.Spec.AoCast
import Verif.Model.Examples.AoOcclusion
/-
What ambient occlusion computed in `f32` stands for.
-/
namespace PackedSimd.Spec.Ao
open Ex Ex.Ao

/-- At least 0 and less than 1. -/
def InUnit (x : F32) : Prop := IsFinite 23 x.bits ∧ 0 ≤ realVal 23 x.bits ∧ realVal 23 x.bits < 1

/-- The ray starts 0.0001 above the surface, up to rounding, and its direction is that of a sample of the hemisphere for the number `r` drawn, from 0 to 1. -/
structure LeavesSurface (δ ε : ℝ) (s : Isect F32) (r : F32) (ray : Ray F32) : Prop where
  origin : ∃ t : ℝ, |t - 1 / 10000| ≤ 1 / 10 ^ 11 ∧ PointAt (realRay ⟨s.p, s.n⟩) t ray.origin
  drawn : InUnit r
  dir : AlmostSample δ ε s.n (realVal 23 r.bits) ray.dir

/-- `a` is exactly the share of 64 rays leaving the surface at `s`, one for each pair of numbers drawn, that hit nothing in the scene;
what is hit is right up to rounding. -/
def Occlusion (δ ε : ℝ) (drawn : List (F32 × F32)) (pl : Plane F32) (ss : List (Sphere F32)) (s : Isect F32) (a : F32) : Prop :=
  ∃ rays : List (Ray F32 × Isect F32), rays.length = 64 ∧ IsFinite 23 a.bits ∧ realVal 23 a.bits = (rays.countP fun r => !r.2.hit : ℕ) / 64 ∧
    List.Forall₂ (fun p r => LeavesSurface δ ε s p.1 r.1 ∧ Nearest (δ + ε + 60 * ulp) r.1 pl ss r.2) drawn rays

end PackedSimd.Spec.Ao
