import Verif.Spec.AoFloat
/-
Where rays computed in `f32` hit planes and spheres.
-/
namespace PackedSimd.Spec.Ao
open Ex Ex.Ao

/-- The ray in real space. -/
noncomputable def realRay (r : Ray F32) : Ray ℝ := ⟨toReal r.origin, toReal r.dir⟩
@[inherit_doc realRay] noncomputable def realPlane (p : Plane F32) : Plane ℝ := ⟨toReal p.p, toReal p.n⟩

/-- The scalar product with all terms positive. -/
noncomputable def weight (a b : V3 ℝ) : ℝ := |a.x * b.x| + |a.y * b.y| + |a.z * b.z|

/-- All components are numbers of magnitude at most `2^30`. -/
def Moderate (v : V3 F32) : Prop := FiniteV v ∧ |(toReal v).x| ≤ 2 ^ 30 ∧ |(toReal v).y| ≤ 2 ^ 30 ∧ |(toReal v).z| ≤ 2 ^ 30

/-- The plane is met at parameter `t` up to `c` roundings of the magnitudes that are added up to find it. -/
def MeetsAt (c : ℝ) (r : Ray ℝ) (pl : Plane ℝ) (t : ℝ) : Prop :=
  |inner (minus (at_ r t) pl.p) pl.n| ≤ c * ulp * (weight r.origin pl.n + weight pl.p pl.n + |t| * weight r.dir pl.n) + (1 + |t|) / 2 ^ 80

/-- Every component of `a` is the point of the ray at `t`, up to two roundings. -/
def PointAt (r : Ray ℝ) (t : ℝ) (a : V3 F32) : Prop := FiniteV a ∧
  |(toReal a).x - (at_ r t).x| ≤ 2.01 * ulp * (|r.origin.x| + |t * r.dir.x|) + 2 / 2 ^ 150 ∧
  |(toReal a).y - (at_ r t).y| ≤ 2.01 * ulp * (|r.origin.y| + |t * r.dir.y|) + 2 / 2 ^ 150 ∧
  |(toReal a).z - (at_ r t).z| ≤ 2.01 * ulp * (|r.origin.z| + |t * r.dir.z|) + 2 / 2 ^ 150

/-- `s` is a hit of the plane nearer than `old`: its parameter is positive and less than the old one, the ray at this parameter and the point
recorded are on the plane, up to rounding, and the normal is the plane's. -/
structure HitsPlane (ray : Ray F32) (pl : Plane F32) (old s : Isect F32) : Prop where
  hit : s.hit = true
  n : s.n = pl.n
  fin : IsFinite 23 s.t.bits
  pos : 0 < realVal 23 s.t.bits
  nearer : realVal 23 s.t.bits < realVal 23 old.t.bits
  meets : MeetsAt 5.01 (realRay ray) (realPlane pl) (realVal 23 s.t.bits)
  point : PointAt (realRay ray) (realVal 23 s.t.bits) s.p
  onPlane : |inner (minus (toReal s.p) (toReal pl.p)) (toReal pl.n)| ≤
    7.1 * ulp * (weight (toReal ray.origin) (toReal pl.n) + weight (toReal pl.p) (toReal pl.n) + realVal 23 s.t.bits * weight (toReal ray.dir) (toReal pl.n)) +
      (2 + realVal 23 s.t.bits) / 2 ^ 80

/-- There is no hit nearer than `old`, up to rounding: the ray is parallel to the plane, or it meets it behind its origin or no nearer. -/
def MissesPlane (ray : Ray F32) (pl : Plane F32) (old : Isect F32) : Prop :=
  |inner (toReal ray.dir) (toReal pl.n)| ≤ 1.001 / 10 ^ 17 + 3.01 * ulp * weight (toReal ray.dir) (toReal pl.n) ∨
  ∃ t, (t ≤ 0 ∨ realVal 23 old.t.bits ≤ t) ∧ MeetsAt 5.01 (realRay ray) (realPlane pl) t

/-! ### Spheres -/

/-- The squared length of `a`. -/
noncomputable def len2 (a : V3 ℝ) : ℝ := inner a a

/-- The ray is on the sphere with centre `c` and radius `r` at parameter `t`, up to 19 roundings of the magnitudes that are added up and the deviation `δ`
of the squared length of its direction from 1, and this is the smaller of the two parameters, up to 5 roundings. -/
def EntersAt (δ : ℝ) (ray : Ray ℝ) (c : V3 ℝ) (r t : ℝ) : Prop :=
  |len2 (minus (at_ ray t) c) - r ^ 2| ≤ 19 * ulp * (len2 (minus ray.origin c) + r ^ 2 + t ^ 2) + δ * t ^ 2 + (1 + |t|) / 2 ^ 70 ∧
  t + inner (minus ray.origin c) ray.dir ≤ 5 * ulp * (weight (minus ray.origin c) ray.dir + |t|) + 1 / 2 ^ 70

/-- `s` is a hit of the sphere nearer than `old`. -/
structure HitsSphere (δ : ℝ) (ray : Ray F32) (sp : Sphere F32) (old s : Isect F32) : Prop where
  hit : s.hit = true
  fin : IsFinite 23 s.t.bits
  pos : 0 < realVal 23 s.t.bits
  nearer : realVal 23 s.t.bits < realVal 23 old.t.bits
  enters : EntersAt δ (realRay ray) (toReal sp.center) (realVal 23 sp.radius.bits) (realVal 23 s.t.bits)
  point : PointAt (realRay ray) (realVal 23 s.t.bits) s.p

/-- There is no hit nearer than `old`, up to rounding: the line of the ray passes the sphere by or only grazes it (the discriminant of the quadratic
equation is not positive, up to 18 roundings), or it enters it behind its origin or no nearer. -/
def MissesSphere (δ : ℝ) (ray : Ray F32) (sp : Sphere F32) (old : Isect F32) : Prop :=
  inner (minus (toReal ray.origin) (toReal sp.center)) (toReal ray.dir) ^ 2 - (len2 (minus (toReal ray.origin) (toReal sp.center)) - realVal 23 sp.radius.bits ^ 2) ≤
    18 * ulp * (len2 (minus (toReal ray.origin) (toReal sp.center)) + realVal 23 sp.radius.bits ^ 2) + 1 / 2 ^ 70 ∨
  ∃ t, (t ≤ 0 ∨ realVal 23 old.t.bits ≤ t) ∧ EntersAt δ (realRay ray) (toReal sp.center) (realVal 23 sp.radius.bits) t

end PackedSimd.Spec.Ao
