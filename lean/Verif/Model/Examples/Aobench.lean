import Verif.Model.Examples.Triangle
import Verif.Model.Examples.Matrix
/-
examples/aobench/src/{geometry,intersection}, over an arbitrary lane arithmetic and any number `n` of lanes (`f32xN` is `f32x4`, or `f32x8`
with the feature `256bit`, geometry/mod.rs:21-41).  Comparison masks are vectors of `Bool` (C21: `any` on mask types), the math methods of
vectors apply one function to every lane (C46, C63).  The foreign implementation ispc_.rs is not modelled.
-/
namespace PackedSimd.Ex.Ao

/-- What the programs use besides `+ - * /` and unary minus. -/
structure Fns (α : Type) where
  /-- a literal of the source, rounded to `f32` -/
  lit : Rat → α
  /-- `usize as f32` -/
  ofUsize : Nat → α
  abs : α → α
  sqrt : α → α
  /-- the lane function of `f32xN::sqrte` -/
  sqrte : α → α
  /-- the lane function of `f32xN::mul_adde` (C48: `a * b + c`, rounded once or twice) -/
  mulAdde : α → α → α → α
  /-- `f32::sin`, `f32::cos`, `std::f32::consts::PI` -/
  sin : α → α
  cos : α → α
  pi : α
  /-- the lane function of `f32xN::sin_cos_pi` -/
  sinCosPi : α → α × α
  lt : α → α → Bool
  gt : α → α → Bool
  ge : α → α → Bool

/-- `V3D` (geometry/vec.rs:6-10) with `β = f32`, `V3DxN` (geometry/vecxN.rs:8-12) with `β = f32xN`. -/
structure V3 (β : Type) where
  x : β
  y : β
  z : β

variable {α : Type} {n : Nat} [Add α] [Sub α] [Mul α] [Div α] [Neg α] (F : Fns α)

/-! ### geometry/vec.rs -/
namespace V3

/-- `V3D::default` (12-22). -/
def zero : V3 α := ⟨F.lit 0, F.lit 0, F.lit 0⟩
/-- `cross` (29-35; vecxN.rs:68-74 is the same text on vectors). -/
def cross {β : Type} [Sub β] [Mul β] (a o : V3 β) : V3 β := ⟨a.y * o.z - a.z * o.y, a.z * o.x - a.x * o.z, a.x * o.y - a.y * o.x⟩
/-- `Add` (74-84; vecxN.rs:77-87), `Sub` (vec.rs:86-96). -/
def add {β : Type} [Add β] (a o : V3 β) : V3 β := ⟨a.x + o.x, a.y + o.y, a.z + o.z⟩
def sub (a o : V3 α) : V3 α := ⟨a.x - o.x, a.y - o.y, a.z - o.z⟩
/-- `V3D * f32` (109-119), `f32 * V3D` (121-127). -/
def mulS (a : V3 α) (k : α) : V3 α := ⟨a.x * k, a.y * k, a.z * k⟩
def smul (k : α) (a : V3 α) : V3 α := mulS a k
/-- `dot` (159-165). -/
def dot (a o : V3 α) : α := a.x * o.x + a.y * o.y + a.z * o.z
/-- `normalized` (38-42); `recip` is `1. / self`. -/
def normalized (a : V3 α) : V3 α :=
  let len2 := dot a a
  let invlen := F.lit 1 / F.sqrt len2
  smul invlen a
/-- The vector `basis[1]` chosen by `ortho_basis` (46-57). -/
def axis (n : V3 α) : V3 α :=
  let b : V3 α := zero F
  if F.lt n.x (F.lit 0.6) && F.gt n.x (F.lit (-0.6)) then { b with x := F.lit 1 }
  else if F.lt n.y (F.lit 0.6) && F.gt n.y (F.lit (-0.6)) then { b with y := F.lit 1 }
  else if F.lt n.z (F.lit 0.6) && F.gt n.z (F.lit (-0.6)) then { b with z := F.lit 1 }
  else { b with x := F.lit 1 }
/-- `M3x3 = [V3D; 3]` (24), `[V3DxN; 3]`. -/
structure Basis (β : Type) where
  b0 : V3 β
  b1 : V3 β
  b2 : V3 β
/-- `ortho_basis` (45-62). -/
def orthoBasis (n : V3 α) : Basis α :=
  let b0 := normalized F (cross (axis F n) n)
  let b1 := normalized F (cross n b0)
  ⟨b0, b1, n⟩
/-- `M3x3 * V3D` (129-151). -/
def mulM (m : Basis α) (o : V3 α) : V3 α :=
  ⟨dot o ⟨m.b0.x, m.b1.x, m.b2.x⟩, dot o ⟨m.b0.y, m.b1.y, m.b2.y⟩, dot o ⟨m.b0.z, m.b1.z, m.b2.z⟩⟩
/-- `almost_eq` (66-71). -/
def almostEq (a b : V3 α) : Bool :=
  F.lt (F.abs (a.x - b.x)) (F.lit 0.001) && F.lt (F.abs (a.y - b.y)) (F.lit 0.001) && F.lt (F.abs (a.z - b.z)) (F.lit 0.001)

end V3

/-! ### geometry/vecxN.rs -/
namespace V3N

abbrev V3N (α : Type) (n : Nat) := V3 (Vec α n)

/-- `-v` (src/api/ops/vector_neg.rs:5-11). -/
def vneg (v : Vec α n) : Vec α n := splat n (F.lit (-1)) * v
/-- `a.mul_adde(b, c)`. -/
def vmulAdde (a b c : Vec α n) : Vec α n := Vector.ofFn fun i => F.mulAdde a[i] b[i] c[i]
/-- Lanewise comparison, giving a mask. -/
def vcmp (p : α → α → Bool) (a b : Vec α n) : Vec Bool n := Vector.zipWith p a b
/-- `&`, `|`, `!` of masks. -/
def mand (a b : Vec Bool n) : Vec Bool n := Vector.zipWith (· && ·) a b
def mor (a b : Vec Bool n) : Vec Bool n := Vector.zipWith (· || ·) a b
def mnot (a : Vec Bool n) : Vec Bool n := a.map (!·)
/-- `m.any()`. -/
def many (m : Vec Bool n) : Bool := m.toList.any id
/-- `m.sel(a, b)` on `f32xN` (173-179). -/
def sel (m : Vec Bool n) (a b : Vec α n) : Vec α n := Vector.ofFn fun i => if m[i] then a[i] else b[i]

/-- `V3DxN::default` (14-24). -/
def zero (n : Nat) : V3N α n := ⟨splat n (F.lit 0), splat n (F.lit 0), splat n (F.lit 0)⟩
/-- All lanes the same vector. -/
def splat3 (n : Nat) (a : V3 α) : V3N α n := ⟨splat n a.x, splat n a.y, splat n a.z⟩
/-- `f32xN * V3DxN` (101-111). -/
def smul (k : Vec α n) (a : V3N α n) : V3N α n := ⟨k * a.x, k * a.y, k * a.z⟩
/-- `V3DxN - V3D` (137-147). -/
def subV (a : V3N α n) (o : V3 α) : V3N α n := ⟨a.x - splat n o.x, a.y - splat n o.y, a.z - splat n o.z⟩
/-- `V3DxN · V3DxN` (149-155). -/
def dot (a o : V3N α n) : Vec α n := vmulAdde F a.x o.x (vmulAdde F a.y o.y (a.z * o.z))
/-- `V3DxN · V3D` (157-166). -/
def dotV (a : V3N α n) (o : V3 α) : Vec α n := vmulAdde F a.x (splat n o.x) (vmulAdde F a.y (splat n o.y) (a.z * splat n o.z))
/-- `normalized` (29-33); `rsqrte` is `splat(1.) / sqrt` (src/api/math/float/rsqrte.rs). -/
def normalized (a : V3N α n) : V3N α n :=
  let len2 := dot F a a
  let invlen := splat n (F.lit 1) / len2.map F.sqrt
  smul invlen a
/-- `get` (35-41). -/
def get (a : V3N α n) (i : Nat) : R (V3 α) := do return ⟨← aget a.x i, ← aget a.y i, ← aget a.z i⟩
/-- The vector `basis[1]` chosen by `ortho_basis` (46-59). -/
def axis (v : V3N α n) : V3N α n :=
  let max := splat n (F.lit 0.6)
  let min := splat n (F.lit (-0.6))
  let one := splat n (F.lit 1)
  let mx := mand (vcmp F.lt v.x max) (vcmp F.gt v.x min)
  let my := mand (vcmp F.lt v.y max) (vcmp F.gt v.y min)
  let mz := mand (vcmp F.lt v.z max) (vcmp F.gt v.z min)
  ⟨sel (mor mx (mand (mand (mnot mx) (mnot my)) (mnot mz))) one (splat n (F.lit 0)), sel (mand (mnot mx) my) one (splat n (F.lit 0)),
    sel (mand (mand (mnot mx) (mnot my)) mz) one (splat n (F.lit 0))⟩
/-- `ortho_basis` (45-64). -/
def orthoBasis (v : V3N α n) : V3.Basis (Vec α n) :=
  let b0 := normalized F (V3.cross (axis F v) v)
  let b1 := normalized F (V3.cross v b0)
  ⟨b0, b1, v⟩
/-- `[V3DxN; 3] * V3DxN` (113-135). -/
def mulMN (m : V3.Basis (Vec α n)) (o : V3N α n) : V3N α n :=
  ⟨dot F o ⟨m.b0.x, m.b1.x, m.b2.x⟩, dot F o ⟨m.b0.y, m.b1.y, m.b2.y⟩, dot F o ⟨m.b0.z, m.b1.z, m.b2.z⟩⟩
/-- `M3x3 * V3DxN` (205-233). -/
def mulM (m : V3.Basis α) (o : V3N α n) : V3N α n :=
  ⟨vmulAdde F o.x (splat n m.b0.x) (vmulAdde F o.y (splat n m.b1.x) (o.z * splat n m.b2.x)),
    vmulAdde F o.x (splat n m.b0.y) (vmulAdde F o.y (splat n m.b1.y) (o.z * splat n m.b2.y)),
    vmulAdde F o.x (splat n m.b0.z) (vmulAdde F o.y (splat n m.b1.z) (o.z * splat n m.b2.z))⟩
/-- `m.sel(a, b)` on `V3DxN` (181-191); with `a: V3D` (193-203) it is this on `splat3 n a`. -/
def sel3 (m : Vec Bool n) (a b : V3N α n) : V3N α n := ⟨sel m a.x b.x, sel m a.y b.y, sel m a.z b.z⟩

end V3N

open V3N

/-! ### geometry/{ray,rayxN,plane,sphere}.rs -/

/-- `Ray` (ray.rs:7-10) with `β = f32`, `RayxN` (rayxN.rs:7-10) with `β = f32xN`. -/
structure Ray (β : Type) where
  origin : V3 β
  dir : V3 β
/-- `Plane` (plane.rs:6-9). -/
structure Plane (α : Type) where
  p : V3 α
  n : V3 α
/-- `Sphere` (sphere.rs:6-9). -/
structure Sphere (α : Type) where
  center : V3 α
  radius : α

/-- `RayxN::get` (rayxN.rs:13-18). -/
def Ray.get (r : Ray (Vec α n)) (i : Nat) : R (Ray α) := do return ⟨← V3N.get r.origin i, ← V3N.get r.dir i⟩

/-! ### intersection/{single,packet}.rs -/

/-- `Isect` (single.rs:7-12). -/
structure Isect (α : Type) where
  t : α
  p : V3 α
  n : V3 α
  hit : Bool

/-- `Isect::default` (single.rs:14-24). -/
def Isect.default : Isect α := ⟨F.lit 100000000000000000, V3.zero F, V3.zero F, false⟩
/-- `Isect::almost_eq` (single.rs:29-35). -/
def Isect.almostEq (a b : Isect α) : Bool :=
  F.lt (F.abs (a.t - b.t)) (F.lit 0.001) && V3.almostEq F a.p b.p && V3.almostEq F a.n b.n && a.hit == b.hit

/-- `IsectxN` (packet.rs:8-13). -/
structure IsectN (α : Type) (k : Nat) where
  t : Vec α k
  p : V3 (Vec α k)
  n : V3 (Vec α k)
  hit : Vec Bool k

/-- `IsectxN::default` (packet.rs:15-25). -/
def IsectN.default (n : Nat) : IsectN α n := ⟨splat n (F.lit 100000000000000000), V3N.zero F n, V3N.zero F n, splat n false⟩
/-- `IsectxN::get` (packet.rs:28-35). -/
def IsectN.get (s : IsectN α n) (i : Nat) : R (Isect α) := do
  return ⟨← aget s.t i, ← V3N.get s.p i, ← V3N.get s.n i, ← aget s.hit i⟩

/-! ### intersection/ray_plane.rs -/

/-- `Ray::intersect(&Plane)` (10-29). -/
def rayPlane (ray : Ray α) (plane : Plane α) (isect : Isect α) : Isect α :=
  let d := -V3.dot plane.p plane.n
  let v := V3.dot ray.dir plane.n
  if F.lt (F.abs v) (F.lit (1 / 100000000000000000)) then isect
  else
    let t := -(V3.dot ray.origin plane.n + d) / v
    if F.gt t (F.lit 0) && F.lt t isect.t then ⟨t, V3.add ray.origin (V3.smul t ray.dir), plane.n, true⟩
    else isect

/-- `RayxN::intersect(&Plane)` without the debug assertions (36-54, 68). -/
def rayPlaneN (ray : Ray (Vec α n)) (plane : Plane α) (isect : IsectN α n) : IsectN α n :=
  let d := -V3.dot plane.p plane.n
  let v := dotV F ray.dir plane.n
  let m := vcmp F.ge (v.map F.abs) (splat n (F.lit (1 / 100000000000000000)))
  if many m then
    let t := sel m (vneg F (dotV F ray.origin plane.n + splat n d) / v) isect.t
    let m := mand (mand m (vcmp F.gt t (splat n (F.lit 0)))) (vcmp F.lt t isect.t)
    if many m then
      ⟨sel m t isect.t, sel3 m (V3.add ray.origin (V3N.smul t ray.dir)) isect.p, sel3 m (splat3 n plane.n) isect.n, mor isect.hit m⟩
    else isect
  else isect

/-- One debug assertion (60-65; ray_sphere.rs:66-71): lane `i` of the result against the scalar algorithm `scalar` on lane `i`. -/
def checkLane (scalar : Ray α → Isect α → Isect α) (ray : Ray (Vec α n)) (old new : IsectN α n) (_ : Unit) (i : Nat) : R Unit := do
  let oldI ← old.get i
  let rayI ← ray.get i
  let isectI := scalar rayI oldI
  let newI ← new.get i
  if isectI.almostEq F newI then return () else .error .panic

/-- The debug assertions (56-67; ray_sphere.rs:62-72), present if `dbg`. -/
def debugCheck (dbg : Bool) (scalar : Ray α → Isect α → Isect α) (ray : Ray (Vec α n)) (old new : IsectN α n) : R (IsectN α n) := do
  if dbg then forRange 0 n (checkLane F scalar ray old new) ()
  return new

/-- `RayxN::intersect(&Plane)` (36-69). -/
def intersectPlaneN (dbg : Bool) (ray : Ray (Vec α n)) (plane : Plane α) (isect : IsectN α n) : R (IsectN α n) :=
  debugCheck F dbg (fun r s => rayPlane F r plane s) ray isect (rayPlaneN F ray plane isect)

/-! ### intersection/ray_sphere.rs -/

/-- `Ray::intersect(&Sphere)` (10-30). -/
def raySphere (ray : Ray α) (sphere : Sphere α) (isect : Isect α) : Isect α :=
  let rs := V3.sub ray.origin sphere.center
  let b := V3.dot rs ray.dir
  let c := V3.dot rs rs - sphere.radius * sphere.radius
  let d := b * b - c
  if F.gt d (F.lit 0) then
    let t := -b - F.sqrt d
    if F.gt t (F.lit 0) && F.lt t isect.t then
      let p := V3.add ray.origin (V3.smul t ray.dir)
      ⟨t, p, V3.normalized F (V3.sub p sphere.center), true⟩
    else isect
  else isect

/-- `RayxN::intersect(&Sphere)` without the debug assertions (37-60, 75). -/
def raySphereN (ray : Ray (Vec α n)) (sphere : Sphere α) (isect : IsectN α n) : IsectN α n :=
  let rs := subV ray.origin sphere.center
  let b := V3N.dot F rs ray.dir
  let radius := splat n sphere.radius
  let c := vmulAdde F radius (vneg F radius) (V3N.dot F rs rs)
  let d := vmulAdde F b b (vneg F c)
  let m := vcmp F.gt d (splat n (F.lit 0))
  if many m then
    let t := sel m (vneg F b - d.map F.sqrt) isect.t
    let m := mand (mand m (vcmp F.gt t (splat n (F.lit 0)))) (vcmp F.lt t isect.t)
    if many m then
      let p := sel3 m (V3.add ray.origin (V3N.smul t ray.dir)) isect.p
      ⟨sel m t isect.t, p, sel3 m (V3N.normalized F (subV p sphere.center)) isect.n, mor isect.hit m⟩
    else isect
  else isect

/-- `RayxN::intersect(&Sphere)` (37-75). -/
def intersectSphereN (dbg : Bool) (ray : Ray (Vec α n)) (sphere : Sphere α) (isect : IsectN α n) : R (IsectN α n) :=
  debugCheck F dbg (fun r s => raySphere F r sphere s) ray isect (raySphereN F ray sphere isect)

end PackedSimd.Ex.Ao

namespace PackedSimd.Ex.Ao

/-- `f32` arithmetic; the other functions are given. -/
def f32 (mulAdde : F32 → F32 → F32 → F32) (sqrt sqrte sin cos : F32 → F32) (pi : F32) (sinCosPi : F32 → F32 × F32) : Fns F32 where
  lit q := ⟨Flt.roundInt 32 23 false (q.num * 2 ^ 149) q.den⟩
  ofUsize k := ⟨Flt.fromInt 32 23 k⟩
  abs x := ⟨Flt.abs x.bits⟩
  sqrt := sqrt
  sqrte := sqrte
  mulAdde := mulAdde
  sin := sin
  cos := cos
  pi := pi
  sinCosPi := sinCosPi
  lt a b := Flt.olt 23 a.bits b.bits
  gt a b := Flt.ogt 23 a.bits b.bits
  ge a b := Flt.oge 23 a.bits b.bits

end PackedSimd.Ex.Ao
