import Verif.Model.Examples.Aobench
import Mathlib.Algebra.Order.Field.Basic
import Mathlib.Analysis.Real.Sqrt
import Mathlib.Analysis.SpecialFunctions.Trigonometric.Basic
/-
Exact arithmetic for aobench, and the geometry of rays, planes and spheres.
-/
namespace PackedSimd.Spec.Ao
open Ex.Ao

/-- The functions used by the programs without rounding errors, in an ordered field; the square root, sine and cosine may be any
functions. -/
structure Exact {K : Type} [Field K] [LinearOrder K] (F : Fns K) : Prop where
  lit : ∀ q, F.lit q = (q : K)
  ofUsize : ∀ k, F.ofUsize k = (k : K)
  abs : ∀ x, F.abs x = max x (-x)
  sqrte : ∀ x, F.sqrte x = F.sqrt x
  mulAdde : ∀ a b c, F.mulAdde a b c = a * b + c
  lt : ∀ a b, F.lt a b = true ↔ a < b
  gt : ∀ a b, F.gt a b = true ↔ b < a
  ge : ∀ a b, F.ge a b = true ↔ b ≤ a
  sinCosPi : ∀ x, F.sinCosPi x = (F.sin (x * F.pi), F.cos (x * F.pi))

/-- Real arithmetic. -/
structure IsReal (F : Fns ℝ) : Prop extends Exact F where
  sqrt : ∀ x, F.sqrt x = Real.sqrt x
  sin : ∀ x, F.sin x = Real.sin x
  cos : ∀ x, F.cos x = Real.cos x
  pi : F.pi = Real.pi

/-! ### Vectors -/

variable {K : Type} [Field K]

def inner (a b : V3 K) : K := a.x * b.x + a.y * b.y + a.z * b.z
def minus (a b : V3 K) : V3 K := ⟨a.x - b.x, a.y - b.y, a.z - b.z⟩
def scale (k : K) (a : V3 K) : V3 K := ⟨k * a.x, k * a.y, k * a.z⟩
def IsUnit3 (a : V3 K) : Prop := inner a a = 1

/-- The point of the ray with parameter `t`. -/
def at_ (r : Ray K) (t : K) : V3 K := ⟨r.origin.x + t * r.dir.x, r.origin.y + t * r.dir.y, r.origin.z + t * r.dir.z⟩

def OnSphere (s : Sphere K) (q : V3 K) : Prop := inner (minus q s.center) (minus q s.center) = s.radius ^ 2
def OnPlane (pl : Plane K) (q : V3 K) : Prop := inner (minus q pl.p) pl.n = 0

/-! ### Rays in real space -/

/-- The ray enters the sphere at parameter `t > 0`: `t` is the smaller of two parameters at which it is on the sphere. -/
def Enters (r : Ray ℝ) (s : Sphere ℝ) (t : ℝ) : Prop := 0 < t ∧ OnSphere s (at_ r t) ∧ ∃ t', t < t' ∧ OnSphere s (at_ r t')
/-- The ray, not almost parallel to the plane, meets it at parameter `t > 0`. -/
def Meets (r : Ray ℝ) (pl : Plane ℝ) (t : ℝ) : Prop := 0 < t ∧ OnPlane pl (at_ r t) ∧ 1 / 10 ^ 17 ≤ |inner r.dir pl.n|
/-- The ray meets the scene at parameter `t`. -/
def MeetsScene (r : Ray ℝ) (pl : Plane ℝ) (ss : List (Sphere ℝ)) (t : ℝ) : Prop := (∃ s ∈ ss, Enters r s t) ∨ Meets r pl t
/-- `n` is a unit vector perpendicular to the sphere in `q`, pointing outwards. -/
def OutwardNormal (s : Sphere ℝ) (q n : V3 ℝ) : Prop := IsUnit3 n ∧ scale |s.radius| n = minus q s.center

end PackedSimd.Spec.Ao
