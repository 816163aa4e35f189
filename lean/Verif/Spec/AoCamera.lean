import Verif.Spec.AoCast
import Verif.Model.Examples.AoImage
/-
The rays from the camera, as computed in `f32`.
-/
namespace PackedSimd.Spec.Ao
open Ex Ex.Ao

/-- The point at which sample `(u, v)` of pixel `(x, y)` is seen: the camera is at the origin, looks along `-z` and sees the image of width `2 w / h`
and height 2, row 0 on top, in the plane `z = -1`. -/
noncomputable def camera (z : Size) (x y u v : Nat) : V3 ℝ :=
  ⟨((x + u / z.ns : ℝ) - z.w / 2) / (z.w / 2) * (z.w / z.h), -(((y + v / z.ns : ℝ) - z.h / 2) / (z.h / 2)), -1⟩

/-- The pixel and the sample exist, and all the numbers are exact in `f32`. -/
structure InImage (z : Size) (x y u v : Nat) : Prop where
  x : x < z.w
  y : y < z.h
  u : u < z.ns
  v : v < z.ns
  w : z.w ≤ 2 ^ 24
  h : z.h ≤ 2 ^ 24
  ns : z.ns ≤ 2 ^ 24

/-- `d` is the direction, normalized up to rounding, to a point that differs from the one of the sample by at most 15 roundings of the size of the
image. -/
def Through (z : Size) (x y u v : Nat) (d : V3 F32) : Prop := AlmostUnit (9.5 * ulp) d ∧
  ∃ p : V3 ℝ, |p.x - (camera z x y u v).x| ≤ 15 * ulp * (z.w / z.h) ∧ |p.y - (camera z x y u v).y| ≤ 15 * ulp ∧ p.z = -1 ∧ Close 4.7 d (direction p)

end PackedSimd.Spec.Ao
