import Verif.Lemmas.AoExact
import Verif.Props.MulAdd
/-
examples/aobench/src/intersection: C91 (lanes of a packet are independent), C92 (a packet is its rays, exact arithmetic), C93 (debug
assertions).
-/
namespace PackedSimd.Props
open Ex Ex.Ao Spec.Ao

/-! ### C91 -/

section
variable {α : Type} [Add α] [Sub α] [Mul α] [Div α] [Neg α] {n n' : Nat}

/-- C91: for any arithmetic (any rounding, NaN, infinities) what a packet intersection computes in a lane depends only on that lane of
the rays and of the previous result: two packets, possibly of different widths, that agree in lane `i` resp. `i'` before agree there
afterwards. -/
theorem C91_plane (F : Fns α) (plane : Plane α) (ray : Ray (Vec α n)) (s : IsectN α n) (ray' : Ray (Vec α n')) (s' : IsectN α n')
    (i i' : Nat) (h : i < n) (h' : i' < n') (hr : ray.get i = ray'.get i') (hs : s.get i = s'.get i') :
    (rayPlaneN F ray plane s).get i = (rayPlaneN F ray' plane s').get i' := by
  rw [Ray.get_lane _ _ h, Ray.get_lane _ _ h'] at hr
  rw [IsectN.get_lane _ _ h, IsectN.get_lane _ _ h'] at hs
  rw [IsectN.get_lane _ _ h, IsectN.get_lane _ _ h', rayPlaneN_lane, rayPlaneN_lane, Except.ok.inj hr, Except.ok.inj hs]

theorem C91_sphere (F : Fns α) (sphere : Sphere α) (ray : Ray (Vec α n)) (s : IsectN α n) (ray' : Ray (Vec α n')) (s' : IsectN α n')
    (i i' : Nat) (h : i < n) (h' : i' < n') (hr : ray.get i = ray'.get i') (hs : s.get i = s'.get i') :
    (raySphereN F ray sphere s).get i = (raySphereN F ray' sphere s').get i' := by
  rw [Ray.get_lane _ _ h, Ray.get_lane _ _ h'] at hr
  rw [IsectN.get_lane _ _ h, IsectN.get_lane _ _ h'] at hs
  rw [IsectN.get_lane _ _ h, IsectN.get_lane _ _ h', raySphereN_lane, raySphereN_lane, Except.ok.inj hr, Except.ok.inj hs]

theorem ite_hit (F : Fns α) (m g : Bool) (t t0 : α) (p nn : V3 α) (s : Isect α) :
    Except.ok (ε := Fault) (if (m && g && F.lt t t0) = true then (⟨t, p, nn, true⟩ : Isect α) else s) = .ok s ∨
    ∃ r, Except.ok (ε := Fault) (if (m && g && F.lt t t0) = true then (⟨t, p, nn, true⟩ : Isect α) else s) = .ok r ∧ r.hit = true ∧
      F.lt r.t t0 = true := by
  by_cases h : (m && g && F.lt t t0) = true
  · right
    rw [if_pos h]
    simp only [Bool.and_eq_true] at h
    exact ⟨_, rfl, rfl, h.2⟩
  · left; rw [if_neg h]

/-- C91: a ray that does not get closer keeps its previous result bit for bit, whatever the other lanes do. -/
theorem C91_unhit_lanes_kept (F : Fns α) (plane : Plane α) (sphere : Sphere α) (ray : Ray (Vec α n)) (s : IsectN α n) (i : Nat) (h : i < n) :
    ((rayPlaneN F ray plane s).get i = s.get i ∨ ∃ r, (rayPlaneN F ray plane s).get i = .ok r ∧ r.hit = true ∧ F.lt r.t s.t[i] = true) ∧
    ((raySphereN F ray sphere s).get i = s.get i ∨ ∃ r, (raySphereN F ray sphere s).get i = .ok r ∧ r.hit = true ∧ F.lt r.t s.t[i] = true) := by
  rw [IsectN.get_lane _ _ h, IsectN.get_lane _ _ h, IsectN.get_lane _ _ h, rayPlaneN_lane, raySphereN_lane]
  constructor
  · unfold lanePlane
    dsimp only
    exact ite_hit F _ _ _ _ _ _ _
  · unfold laneSphere
    dsimp only
    exact ite_hit F _ _ _ _ _ _ _

end

/-! ### C92 -/

section
variable {K : Type} [Field K] [LinearOrder K] [IsStrictOrderedRing K] {n : Nat}

/-- C92: in exact arithmetic intersecting a packet of rays with a plane or a sphere gives in every lane what intersecting that ray gives,
in release and in debug builds (the debug assertions pass). -/
theorem C92_packet_is_rays (F : Fns K) (E : Exact F) (dbg : Bool) (plane : Plane K) (sphere : Sphere K) (ray : Ray (Vec K n)) (s : IsectN K n) :
    (∃ r, intersectPlaneN F dbg ray plane s = .ok r ∧ ∀ i, i < n → ∃ q o, ray.get i = .ok q ∧ s.get i = .ok o ∧ r.get i = .ok (rayPlane F q plane o)) ∧
    (∃ r, intersectSphereN F dbg ray sphere s = .ok r ∧ ∀ i, i < n → ∃ q o, ray.get i = .ok q ∧ s.get i = .ok o ∧ r.get i = .ok (raySphere F q sphere o)) := by
  refine ⟨⟨rayPlaneN F ray plane s, ?_, fun i h => ⟨_, _, Ray.get_lane _ _ h, IsectN.get_lane _ _ h, ?_⟩⟩,
    ⟨raySphereN F ray sphere s, ?_, fun i h => ⟨_, _, Ray.get_lane _ _ h, IsectN.get_lane _ _ h, ?_⟩⟩⟩
  · exact debugCheck_ok F dbg _ ray s _ fun i h => by rw [rayPlaneN_lane, lanePlane_eq E]; exact almostEq_self E _
  · rw [IsectN.get_lane _ _ h, rayPlaneN_lane, lanePlane_eq E]
  · exact debugCheck_ok F dbg _ ray s _ fun i h => by rw [raySphereN_lane, laneSphere_eq E]; exact almostEq_self E _
  · rw [IsectN.get_lane _ _ h, raySphereN_lane, laneSphere_eq E]

/-- Exact arithmetic exists: the rationals with, say, the constant 1 as "square root". -/
def ratFns : Fns ℚ where
  lit q := q
  ofUsize k := k
  abs x := max x (-x)
  sqrt _ := 1
  sqrte _ := 1
  mulAdde a b c := a * b + c
  sin x := x
  cos x := x
  pi := 3
  sinCosPi x := (x * 3, x * 3)
  lt a b := decide (a < b)
  gt a b := decide (b < a)
  ge a b := decide (b ≤ a)

theorem ratFns_exact : Exact ratFns := by
  constructor <;> intros <;> simp [ratFns]

-- a ray along -z meets the plane z = -10 at parameter 10
example : (rayPlane ratFns ⟨⟨0, 0, 0⟩, ⟨0, 0, -1⟩⟩ ⟨⟨0, 0, -10⟩, ⟨0, 0, 1⟩⟩ (Isect.default ratFns)).t = 10 ∧
    (rayPlane ratFns ⟨⟨0, 0, 0⟩, ⟨0, 0, -1⟩⟩ ⟨⟨0, 0, -10⟩, ⟨0, 0, 1⟩⟩ (Isect.default ratFns)).hit = true := by
  decide +kernel

end

/-! ### C93 -/

section
variable {α : Type} [Add α] [Sub α] [Mul α] [Div α] [Neg α] {n : Nat}

/-- C93: a debug build returns what the release build returns, or panics; it panics exactly if in some lane the result differs (in the sense of
`almost_eq`) from the scalar algorithm on that lane. -/
theorem C93_debug_partial (F : Fns α) (plane : Plane α) (sphere : Sphere α) (ray : Ray (Vec α n)) (s : IsectN α n) :
    (intersectPlaneN F true ray plane s = intersectPlaneN F false ray plane s ∨ intersectPlaneN F true ray plane s = .error .panic) ∧
    (intersectPlaneN F true ray plane s = .error .panic ↔ ∃ i, i < n ∧ ∃ q o r, ray.get i = .ok q ∧ s.get i = .ok o ∧
      (rayPlaneN F ray plane s).get i = .ok r ∧ (rayPlane F q plane o).almostEq F r = false) ∧
    (intersectSphereN F true ray sphere s = intersectSphereN F false ray sphere s ∨ intersectSphereN F true ray sphere s = .error .panic) ∧
    (intersectSphereN F true ray sphere s = .error .panic ↔ ∃ i, i < n ∧ ∃ q o r, ray.get i = .ok q ∧ s.get i = .ok o ∧
      (raySphereN F ray sphere s).get i = .ok r ∧ (raySphere F q sphere o).almostEq F r = false) := by
  have key : ∀ sc new, (debugCheck F true sc ray s new = debugCheck F false sc ray s new ∨ debugCheck F true sc ray s new = .error .panic) ∧
      (debugCheck F true sc ray s new = .error .panic ↔ ∃ i, i < n ∧ ∃ q o r, ray.get i = .ok q ∧ s.get i = .ok o ∧
        new.get i = .ok r ∧ (sc q o).almostEq F r = false) := by
    intro sc new
    by_cases hs : ∀ i (h : i < n), (sc (ray.lane i h) (s.lane i h)).almostEq F (new.lane i h) = true
    · rw [debugCheck_ok F true sc ray s new hs]
      refine ⟨.inl rfl, ⟨fun h => by simp at h, ?_⟩⟩
      rintro ⟨i, h, q, o, r, h1, h2, h3, h4⟩
      rw [Ray.get_lane _ i h] at h1
      rw [IsectN.get_lane _ i h] at h2 h3
      have := hs i h
      rw [Except.ok.inj h1, Except.ok.inj h2, Except.ok.inj h3, h4] at this
      simp at this
    · refine ⟨.inr (debugCheck_panic F sc ray s new hs), ⟨fun _ => ?_, fun _ => debugCheck_panic F sc ray s new hs⟩⟩
      push Not at hs
      obtain ⟨i, h, hi⟩ := hs
      exact ⟨i, h, _, _, _, Ray.get_lane _ i h, IsectN.get_lane _ i h, IsectN.get_lane _ i h, by simpa using hi⟩
  exact ⟨(key _ _).1, (key _ _).2, (key _ _).1, (key _ _).2⟩

/-- The sphere number 1 of the scenes (scene/test.rs:36-43, scene/random.rs:33-40), a ray starting on the plane of the scenes, in a
direction (of length one up to rounding) that just touches the sphere. -/
def touchingSphere : Sphere F32 := ⟨⟨⟨0xbf000000⟩, ⟨0⟩, ⟨0xc0400000⟩⟩, ⟨0x3f000000⟩⟩
def touchingRay : Ray F32 := ⟨⟨⟨0x3f400000⟩, ⟨0xbf000000⟩, ⟨0xbfc00000⟩⟩, ⟨⟨0xbf047b1f⟩, ⟨0x3d466814⟩, ⟨0xbf5ab3fc⟩⟩⟩

/-- `a.mul_adde(b, c)` with two roundings and with one. -/
def unfused (a b c : F32) : F32 := ⟨Flt.add 23 (Flt.mul 23 a.bits b.bits) c.bits⟩
def fused (a b c : F32) : F32 := ⟨fma 23 a.bits b.bits c.bits⟩

/-- The discriminant the packet version computes for the touching ray is not positive. -/
def touchingDisc (ma : F32 → F32 → F32 → F32) : F32 :=
  let F := f32 ma id id id id ⟨0⟩ fun x => (x, x)
  let rs := touchingRay.origin.sub touchingSphere.center
  ma (mdot F rs touchingRay.dir) (mdot F rs touchingRay.dir)
    (F.lit (-1) * ma touchingSphere.radius (F.lit (-1) * touchingSphere.radius) (mdot F rs rs))

theorem touching_unfused : (f32 unfused id id id id ⟨0⟩ fun x => (x, x)).gt (touchingDisc unfused) ((f32 unfused id id id id ⟨0⟩ fun x => (x, x)).lit 0) = false := by
  decide +kernel

theorem touching_fused : (f32 fused id id id id ⟨0⟩ fun x => (x, x)).gt (touchingDisc fused) ((f32 fused id id id id ⟨0⟩ fun x => (x, x)).lit 0) = false := by
  decide +kernel

def touchingF : Fns F32 := f32 unfused id id id id ⟨0⟩ fun x => (x, x)

/-- The discriminant the scalar version computes. -/
theorem touching_disc : V3.dot (touchingRay.origin.sub touchingSphere.center) touchingRay.dir *
      V3.dot (touchingRay.origin.sub touchingSphere.center) touchingRay.dir -
    (V3.dot (touchingRay.origin.sub touchingSphere.center) (touchingRay.origin.sub touchingSphere.center) -
      touchingSphere.radius * touchingSphere.radius) = ⟨0x34800000⟩ := by
  decide +kernel

theorem touching_disc_pos : touchingF.gt ⟨0x34800000⟩ (touchingF.lit 0) = true := by
  decide +kernel

theorem touching_near :
    (touchingF.gt (-V3.dot (touchingRay.origin.sub touchingSphere.center) touchingRay.dir - ⟨0x3a000000⟩) (touchingF.lit 0) &&
      touchingF.lt (-V3.dot (touchingRay.origin.sub touchingSphere.center) touchingRay.dir - ⟨0x3a000000⟩)
        (touchingF.lit 100000000000000000)) = true := by
  decide +kernel

/-- C93 fails on `f32`: whether `mul_adde` rounds once or twice, for this ray the scalar algorithm reports a hit and a packet containing
the ray (in any lane) reports none; in a debug build the packet version panics.  The only fact used about the square root is
`sqrt(2^-22) = 2^-11`. -/
theorem C93_f32_fails (hn : 0 < n) (ma : F32 → F32 → F32 → F32) (hma : ma = unfused ∨ ma = fused) (sqrt sqrte sin cos : F32 → F32) (pi : F32)
    (scp : F32 → F32 × F32) (hsqrt : sqrt ⟨0x34800000⟩ = ⟨0x3a000000⟩) :
    let F := f32 ma sqrt sqrte sin cos pi scp
    let ray : Ray (Vec F32 n) := ⟨V3N.splat3 n touchingRay.origin, V3N.splat3 n touchingRay.dir⟩
    (raySphere F touchingRay touchingSphere (Isect.default F)).hit = true ∧
    (∀ i, i < n → ∃ r, (raySphereN F ray touchingSphere (IsectN.default F n)).get i = .ok r ∧ r.hit = false) ∧
    intersectSphereN F true ray touchingSphere (IsectN.default F n) = .error .panic := by
  intro F ray
  have hray : ∀ i (h : i < n), ray.lane i h = touchingRay := by
    intro i h
    simp only [ray, Ray.lane, V3.lane, V3N.splat3, Mandel.splat_get]
  have hdef : ∀ i (h : i < n), (IsectN.default F n).lane i h = Isect.default F := by
    intro i h
    simp only [IsectN.lane, V3.lane, IsectN.default, Isect.default, V3N.zero, V3.zero, Mandel.splat_get]
  have h1 : (raySphere F touchingRay touchingSphere (Isect.default F)).hit = true := by
    unfold raySphere
    dsimp only
    rw [touching_disc, show F.gt = touchingF.gt from rfl, show F.lit = touchingF.lit from rfl, touching_disc_pos, if_pos rfl,
      show F.sqrt ⟨0x34800000⟩ = ⟨0x3a000000⟩ from hsqrt, show F.lt = touchingF.lt from rfl,
      show (Isect.default F).t = touchingF.lit 100000000000000000 from rfl, touching_near]
    rfl
  have h2 : ∀ i (h : i < n), ((raySphereN F ray touchingSphere (IsectN.default F n)).lane i h).hit = false := by
    intro i h
    rw [raySphereN_lane, hray, hdef]
    unfold laneSphere
    dsimp only
    have hg : F.gt (F.mulAdde (mdot F (touchingRay.origin.sub touchingSphere.center) touchingRay.dir)
        (mdot F (touchingRay.origin.sub touchingSphere.center) touchingRay.dir)
        (F.lit (-1) * F.mulAdde touchingSphere.radius (F.lit (-1) * touchingSphere.radius)
          (mdot F (touchingRay.origin.sub touchingSphere.center) (touchingRay.origin.sub touchingSphere.center)))) (F.lit 0) = false := by
      rw [show mdot F = mdot (f32 ma id id id id ⟨0⟩ fun x => (x, x)) from rfl, show F.mulAdde = ma from rfl]
      rcases hma with rfl | rfl
      · exact touching_unfused
      · exact touching_fused
    rw [hg]
    rfl
  refine ⟨h1, fun i h => ⟨_, IsectN.get_lane _ _ h, h2 i h⟩, ?_⟩
  refine debugCheck_panic F _ _ _ _ ?_
  intro hall
  have := hall 0 hn
  rw [hray, hdef] at this
  simp only [Isect.almostEq, h1, h2] at this
  simp at this

end

end PackedSimd.Props
