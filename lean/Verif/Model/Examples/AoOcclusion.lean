import Verif.Model.Examples.Aobench
import Verif.Model.Examples.AoRandom
import Verif.Model.Examples.Sums
/-
examples/aobench/src/{scene,ambient_occlusion.rs}, over an arbitrary lane arithmetic.
-/
namespace PackedSimd.Ex.Ao
open V3N

/-- `trait Scene` (scene/mod.rs:4-53); `σ` is the state the random numbers come from.  `NAO_SAMPLES` is a constant (8 in both scenes);
`rand_f32xN` (9-52) has a default (`defaultRandN`). -/
structure Scene (α σ : Type) (n : Nat) where
  nao : Nat
  rand : σ → R (α × σ)
  plane : Plane α
  spheres : List (Sphere α)
  randN : σ → R (Vec α n × Vec α n × σ)

variable {α σ : Type} {n : Nat}

/-- `k` successive draws. -/
def draws (rand : σ → R (α × σ)) : Nat → σ → R (List α × σ)
  | 0, s => .ok ([], s)
  | k + 1, s => do
    let (x, s) ← rand s
    let (l, s) ← draws rand k s
    return (x :: l, s)

/-- `f32xN::new(f(0), f(1), …)`. -/
def newLanes : (n : Nat) → (Nat → R α) → R (Vec α n)
  | 0, _ => .ok #v[]
  | n + 1, f => do
    let v ← newLanes n f
    let x ← f n
    return v.push x

/-- The default `rand_f32xN` (scene/mod.rs:9-52): `2 * n` draws `r`, the even ones to the first and the odd ones to the second vector (the
source writes this out for 4 and 8 lanes). -/
def defaultRandN (n : Nat) (rand : σ → R (α × σ)) (s : σ) : R (Vec α n × Vec α n × σ) := do
  let (r, s) ← draws rand (2 * n) s
  let a ← newLanes n fun i => lget r (2 * i)
  let b ← newLanes n fun i => lget r (2 * i + 1)
  return (a, b, s)

/-- The plane and the spheres of both scenes (scene/test.rs:17-54, scene/random.rs:14-51). -/
def scenePlane (F : Fns α) : Plane α := ⟨⟨F.lit 0, F.lit (-0.5), F.lit 0⟩, ⟨F.lit 0, F.lit 1, F.lit 0⟩⟩
def sceneSpheres (F : Fns α) : List (Sphere α) :=
  [⟨⟨F.lit (-2), F.lit 0, F.lit (-3.5)⟩, F.lit 0.5⟩, ⟨⟨F.lit (-0.5), F.lit 0, F.lit (-3)⟩, F.lit 0.5⟩,
    ⟨⟨F.lit 1, F.lit 0, F.lit (-2.2)⟩, F.lit 0.5⟩]

/-- The changing part of `scene::Test` (scene/test.rs:11-12). -/
structure TestState (α : Type) where
  rands : List α
  step : BitVec 64

/-- `NAO_SAMPLES` (test.rs:71; scene/random.rs:57). -/
def naoSamples : Nat := 8

/-- `Test::rand` (test.rs:72-81). -/
def TestState.rand (s : TestState α) : R (α × TestState α) := do
  let v ← lget s.rands s.step.toNat
  let step := s.step + 1
  let step := if BitVec.ofNat 64 (2 * naoSamples * naoSamples) ≤ step then 0 else step
  return (v, { s with step := step })

/-- `scene::Test` (test.rs). -/
def testScene (F : Fns α) (n : Nat) : Scene α (TestState α) n :=
  ⟨naoSamples, TestState.rand, scenePlane F, sceneSpheres F, defaultRandN n TestState.rand⟩

/-- The draws of `Test::default` (test.rs:55-59) from the generator of the thread, as bits of `f32`. -/
def testRands : Nat → AoRandom.Rng → List (BitVec 32) × AoRandom.Rng
  | 0, r => ([], r)
  | k + 1, r =>
    let (x, r) := r.gen
    let (l, r) := testRands k r
    (x :: l, r)

/-- `Test::default` (test.rs:15-68). -/
def TestState.default (r : AoRandom.Rng) : TestState F32 × AoRandom.Rng :=
  let (l, r) := testRands (2 * naoSamples * naoSamples) r
  (⟨l.map F32.mk, 0⟩, r)

/-- The state behind `scene::Random` (scene/random.rs): the two generators of the thread. -/
structure RandomState (n : Nat) where
  scalar : AoRandom.Rng
  vector : AoRandom.RngV n

/-- `scene::Random` (scene/random.rs:56-75). -/
def randomScene (F : Fns F32) (n : Nat) : Scene F32 (RandomState n) n where
  nao := naoSamples
  rand s := let (x, r) := s.scalar.gen; .ok (⟨x⟩, { s with scalar := r })
  plane := scenePlane F
  spheres := sceneSpheres F
  randN s := do
    let (a, r) ← s.vector.gen
    let (b, r) ← r.gen
    return (a.map F32.mk, b.map F32.mk, { s with vector := r })

variable [Add α] [Sub α] [Mul α] [Div α] [Neg α] (F : Fns α)

/-! ### ambient_occlusion.rs -/

/-- The intersection of a ray with the scene (ambient_occlusion.rs:32-36; scalar.rs:37-41 and others): the spheres, then the plane. -/
def castRay (plane : Plane α) (spheres : List (Sphere α)) (ray : Ray α) : Isect α :=
  let isect := spheres.foldl (fun isect s => raySphere F ray s isect) (Isect.default F)
  rayPlane F ray plane isect

/-- The same on packets (77-81; tiled.rs:50-54). -/
def castN (dbg : Bool) (plane : Plane α) (spheres : List (Sphere α)) (ray : Ray (Vec α n)) : R (IsectN α n) := do
  let isect ← spheres.foldlM (fun isect s => intersectSphereN F dbg ray s isect) (IsectN.default F n)
  intersectPlaneN F dbg ray plane isect

/-- The direction of a sample (21-29). -/
def sampleDir (basis : V3.Basis α) (r1 r2 : α) : V3 α :=
  let theta := F.sqrt r1
  let phi := F.lit 2 * F.pi * r2
  V3.mulM basis ⟨F.cos phi * theta, F.sin phi * theta, F.sqrt (F.lit 1 - theta * theta)⟩

/-- The origin of the sample rays (14-15). -/
def aoOrigin (isect : Isect α) : V3 α := V3.add isect.p (V3.smul (F.lit 0.0001) isect.n)

/-- One sample (21-40): the number of occluded samples so far and the scene are updated. -/
def aoSample (S : Scene α σ n) (basis : V3.Basis α) (origin : V3 α) (st : α × σ) : R (α × σ) := do
  let (occlusion, s) := st
  let (r1, s) ← S.rand s
  let (r2, s) ← S.rand s
  let ray : Ray α := ⟨origin, sampleDir F basis r1 r2⟩
  let isect := castRay F S.plane S.spheres ray
  return (if isect.hit then occlusion + F.lit 1 else occlusion, s)

/-- `ambient_occlusion::scalar` (10-45). -/
def aoScalar (S : Scene α σ n) (s : σ) (isect : Isect α) : R (α × σ) := do
  let basis := V3.orthoBasis F isect.n
  let origin := aoOrigin F isect
  let (occlusion, s) ← forRange 0 S.nao (fun st _ => forRange 0 S.nao (fun st _ => aoSample F S basis origin st) st) (F.lit 0, s)
  return (F.lit 1 - occlusion / F.ofUsize (S.nao * S.nao), s)

/-- The unit vectors of a packet of samples (65-73; 103-111). -/
def hemi (theta phi : Vec α n) : V3N α n :=
  let theta := theta.map F.sqrte
  let sc := (splat n (F.lit 2) * phi).map F.sinCosPi
  let sin := sc.map Prod.fst
  let cos := sc.map Prod.snd
  ⟨cos * theta, sin * theta, (splat n (F.lit 1) - theta * theta).map F.sqrt⟩

/-- One packet of samples (65-83). -/
def aoSampleN (dbg : Bool) (S : Scene α σ n) (basis : V3.Basis α) (origin : V3N α n) (st : Vec α n × σ) : R (Vec α n × σ) := do
  let (occlusion, s) := st
  let (theta, phi, s) ← S.randN s
  let ray : Ray (Vec α n) := ⟨origin, V3N.mulM F basis (hemi F theta phi)⟩
  let isect ← castN F dbg S.plane S.spheres ray
  return (occlusion + sel isect.hit (splat n (F.lit 1)) (splat n (F.lit 0)), s)

/-- `ambient_occlusion::vector` (49-88); `step_by(n)` over `0..nphi` makes `⌈nphi / n⌉` steps. -/
def aoVector (t : Target) (dbg : Bool) (S : Scene α σ n) (s : σ) (isect : Isect α) : R (α × σ) := do
  let basis := V3.orthoBasis F isect.n
  let origin := V3N.splat3 n (aoOrigin F isect)
  let (occlusion, s) ← forRange 0 S.nao (fun st _ => forRange 0 ((S.nao + n - 1) / n) (fun st _ => aoSampleN F dbg S basis origin st) st)
    (splat n (F.lit 0), s)
  let sum ← vsum t ⟨F.lit 0, (· + ·), (· * ·)⟩ occlusion
  return (F.lit 1 - sum / F.ofUsize (S.nao * S.nao), s)

/-- One packet of samples of `vector_tiled` (103-121). -/
def aoSampleT (dbg : Bool) (S : Scene α σ n) (basis : V3.Basis (Vec α n)) (origin : V3N α n) (st : Vec α n × σ) : R (Vec α n × σ) := do
  let (occlusion, s) := st
  let (theta, phi, s) ← S.randN s
  let ray : Ray (Vec α n) := ⟨origin, V3N.mulMN F basis (hemi F theta phi)⟩
  let isect ← castN F dbg S.plane S.spheres ray
  return (occlusion + sel isect.hit (splat n (F.lit 1)) (splat n (F.lit 0)), s)

/-- `ambient_occlusion::vector_tiled` (92-126). -/
def aoTiled (dbg : Bool) (S : Scene α σ n) (s : σ) (isect : IsectN α n) : R (Vec α n × σ) := do
  let basis := V3N.orthoBasis F isect.n
  let origin := V3.add isect.p (V3N.smul (splat n (F.lit 0.0001)) isect.n)
  let (occlusion, s) ← forRange 0 S.nao (fun st _ => forRange 0 S.nao (fun st _ => aoSampleT F dbg S basis origin st) st)
    (splat n (F.lit 0), s)
  return (splat n (F.lit 1) - occlusion / splat n (F.ofUsize (S.nao * S.nao)), s)

end PackedSimd.Ex.Ao
