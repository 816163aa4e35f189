import Verif.Spec.AoHit
/-
The nearest surface of a scene, as found in `f32`.
-/
namespace PackedSimd.Spec.Ao
open Ex Ex.Ao

/-- What is recorded before any surface has been hit: a distance of `10^17`, rounded to `f32`. -/
def noHit : Isect F32 := ⟨⟨0x5bb1a2bc⟩, ⟨0, 0, 0⟩, ⟨0, 0, 0⟩, false⟩

/-- The sphere's numbers are of magnitude at most `2^30`. -/
def ModerateSphere (s : Sphere F32) : Prop := Moderate s.center ∧ IsFinite 23 s.radius.bits ∧ |realVal 23 s.radius.bits| ≤ 2 ^ 30

/-- `s` is the nearest hit of the scene, up to rounding: no surface is hit nearer, and it is a hit of some surface nearer than `10^17`, or no hit. -/
structure Nearest (δ : ℝ) (ray : Ray F32) (pl : Plane F32) (ss : List (Sphere F32)) (s : Isect F32) : Prop where
  spheres : ∀ sp ∈ ss, MissesSphere δ ray sp s
  plane : MissesPlane ray pl s
  which : s = noHit ∨ (∃ sp ∈ ss, HitsSphere δ ray sp noHit s) ∨ HitsPlane ray pl noHit s

end PackedSimd.Spec.Ao
