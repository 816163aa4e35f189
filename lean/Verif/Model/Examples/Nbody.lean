import Verif.Model.Examples.Triangle
import Verif.Model.Examples.Matrix
/-
examples/nbody/src/{scalar,simd,lib}.rs, over an arbitrary arithmetic and any number `N` of bodies (`N_BODIES = 5`).
-/
namespace PackedSimd.Ex.Nbody

/-- `Body` (scalar.rs:11-15 with `k = 3`, simd.rs:9-13 with `k = 4`). -/
structure Body (α : Type) (k : Nat) where
  x : Vector α k
  v : Vector α k
  mass : α

/-- What the programs use besides `+ - * /` and unary minus. -/
structure Fns (α : Type) where
  /-- a literal of the source, rounded to `f64` -/
  lit : Rat → α
  /-- `std::f64::consts::PI` -/
  pi : α
  /-- `f64::sqrt` -/
  sqrt : α → α
  /-- the lane function of `f64x2::sqrte` (C46, C63) -/
  sqrte : α → α

variable {α : Type} [Zero α] [Add α] [Sub α] [Mul α] [Div α] [Neg α] (F : Fns α)

/-- `SOLAR_MASS` (scalar.rs:8, simd.rs:6). -/
def solarMass : α := F.lit 4 * F.pi * F.pi
/-- `DAYS_PER_YEAR` (scalar.rs:9, simd.rs:7). -/
def daysPerYear : α := F.lit 365.24

/-! ### scalar.rs -/

/-- A planet of the table: position, velocity in AU per day, mass in solar masses. -/
def planet (x0 x1 x2 v0 v1 v2 m : Rat) : Body α 3 :=
  ⟨#v[F.lit x0, F.lit x1, F.lit x2], #v[F.lit v0 * daysPerYear F, F.lit v1 * daysPerYear F, F.lit v2 * daysPerYear F], F.lit m * solarMass F⟩

/-- `BODIES` (scalar.rs:19-78).  A negative literal is written as such: negation is exact. -/
def bodiesScalar : List (Body α 3) :=
  [⟨#v[F.lit 0, F.lit 0, F.lit 0], #v[F.lit 0, F.lit 0, F.lit 0], solarMass F⟩,
   planet F 4.84143144246472090e+00 (-1.16032004402742839e+00) (-1.03622044471123109e-01)
    1.66007664274403694e-03 7.69901118419740425e-03 (-6.90460016972063023e-05) 9.54791938424326609e-04,
   planet F 8.34336671824457987e+00 4.12479856412430479e+00 (-4.03523417114321381e-01)
    (-2.76742510726862411e-03) 4.99852801234917238e-03 2.30417297573763929e-05 2.85885980666130812e-04,
   planet F 1.28943695621391310e+01 (-1.51111514016986312e+01) (-2.23307578892655734e-01)
    2.96460137564761618e-03 2.37847173959480950e-03 (-2.96589568540237556e-05) 4.36624404335156298e-05,
   planet F 1.53796971148509165e+01 (-2.59193146099879641e+01) 1.79258772950371181e-01
    2.68067772490389322e-03 1.62824170038242295e-03 (-9.51592254519715870e-05) 5.15138902046611451e-05]

/-- `let mut d2 = 0.; for dx in &dx { d2 += dx * dx; }` (scalar.rs:91-94; also 116-119, 122-126). -/
def square (dx : Vector α 3) : α := dx.toList.foldl (fun d2 dx => d2 + dx * dx) 0

/-- The body of the inner loop of `advance` (scalar.rs:84-104): the new `bi`, `bj`. -/
def pairScalar (dt : α) (bi bj : Body α 3) : Body α 3 × Body α 3 :=
  let dx := Vector.zipWith (· - ·) bi.x bj.x
  let d2 := square dx
  let mag := dt / (d2 * F.sqrt d2)
  let massi_mag := bi.mass * mag
  let massj_mag := bj.mass * mag
  ({ bi with v := Vector.zipWith (fun v dx => v - dx * massj_mag) bi.v dx }, { bj with v := Vector.zipWith (fun v dx => v + dx * massi_mag) bj.v dx })

/-- The inner loop (scalar.rs:83-105). -/
def turn (dt : α) : Body α 3 → List (Body α 3) → Body α 3 × List (Body α 3)
  | bi, [] => (bi, [])
  | bi, bj :: rest =>
    let (bi, bj) := pairScalar F dt bi bj
    let (bi, rest) := turn dt bi rest
    (bi, bj :: rest)

/-- The outer loop (scalar.rs:82-109), at most `k` turns: `shift_mut_ref` (149-157) takes the first body off the slice. -/
def turns (dt : α) : Nat → List (Body α 3) → List (Body α 3)
  | 0, bodies => bodies
  | _ + 1, [] => []
  | k + 1, bi :: rest =>
    let (bi, rest) := turn F dt bi rest
    { bi with x := Vector.zipWith (fun x v => x + dt * v) bi.x bi.v } :: turns dt k rest

/-- `advance` (scalar.rs:80-110). -/
def advanceScalar (dt : α) (bodies : List (Body α 3)) : List (Body α 3) := turns F dt bodies.length bodies

/-- The loop of `energy` (scalar.rs:115-129) with `e` so far. -/
def energyFrom : α → List (Body α 3) → α
  | e, [] => e
  | e, bi :: rest =>
    let e := e + square bi.v * bi.mass / F.lit 2
    energyFrom (rest.foldl (fun e bj => e - bi.mass * bj.mass / F.sqrt (square (Vector.zipWith (· - ·) bi.x bj.x))) e) rest

/-- `energy` (scalar.rs:112-131). -/
def energyScalar (bodies : List (Body α 3)) : α := energyFrom F (F.lit 0) bodies

/-- `offset_momentum` (scalar.rs:133-144). -/
def offsetScalar (bodies : List (Body α 3)) : R (List (Body α 3)) :=
  let p := bodies.foldl (fun p bi => Vector.zipWith (fun p v => p + v * bi.mass) p bi.v) (Vector.replicate 3 (F.lit 0))
  match bodies with
  | [] => .error .panic
  | sun :: rest => .ok ({ sun with v := p.map fun p => -p / solarMass F } :: rest)

/-- `scalar::run` (scalar.rs:159-168) from given bodies. -/
def runScalarFrom (bodies : List (Body α 3)) (n : Nat) : R (α × α) := do
  let bodies ← offsetScalar F bodies
  let a := energyScalar F bodies
  let bodies := Nat.repeat (advanceScalar F (F.lit 0.01)) n bodies
  return (a, energyScalar F bodies)

/-! ### simd.rs -/

variable {N : Nat}

/-- `Body { x: f64x4::new(.., 0.), v: f64x4::new(.., 0.), mass }`. -/
def planetSimd (x0 x1 x2 v0 v1 v2 m : Rat) : Body α 4 :=
  ⟨#v[F.lit x0, F.lit x1, F.lit x2, F.lit 0], #v[F.lit v0 * daysPerYear F, F.lit v1 * daysPerYear F, F.lit v2 * daysPerYear F, F.lit 0], F.lit m * solarMass F⟩

/-- `BODIES` (simd.rs:16-87). -/
def bodiesSimd : Vector (Body α 4) 5 :=
  #v[⟨#v[F.lit 0, F.lit 0, F.lit 0, F.lit 0], #v[F.lit 0, F.lit 0, F.lit 0, F.lit 0], solarMass F⟩,
   planetSimd F 4.84143144246472090e+00 (-1.16032004402742839e+00) (-1.03622044471123109e-01)
    1.66007664274403694e-03 7.69901118419740425e-03 (-6.90460016972063023e-05) 9.54791938424326609e-04,
   planetSimd F 8.34336671824457987e+00 4.12479856412430479e+00 (-4.03523417114321381e-01)
    (-2.76742510726862411e-03) 4.99852801234917238e-03 2.30417297573763929e-05 2.85885980666130812e-04,
   planetSimd F 1.28943695621391310e+01 (-1.51111514016986312e+01) (-2.23307578892655734e-01)
    2.96460137564761618e-03 2.37847173959480950e-03 (-2.96589568540237556e-05) 4.36624404335156298e-05,
   planetSimd F 1.53796971148509165e+01 (-2.59193146099879641e+01) 1.79258772950371181e-01
    2.68067772490389322e-03 1.62824170038242295e-03 (-9.51592254519715870e-05) 5.15138902046611451e-05]

/-- `v.sum()` (simd.rs:102, 105, 129). -/
def sum4 (t : Target) (v : Vec α 4) : R α := vsum t ⟨0, (· + ·), (· * ·)⟩ v

/-- `offset_momentum` (simd.rs:89-96). -/
def offsetSimd (bodies : Vector (Body α 4) N) : R (Vector (Body α 4) N) := do
  let sun ← aget bodies 0
  let v ← forRange 1 N (fun (v : Vec α 4) i => do
    let body ← aget bodies i
    let m_ratio := body.mass / solarMass F
    return v - body.v * splat 4 m_ratio) sun.v
  aset bodies 0 { sun with v }

/-- `energy` (simd.rs:98-109). -/
def energySimd (t : Target) (bodies : Vector (Body α 4) N) : R α :=
  forRange 0 N (fun e i => do
    let bi ← aget bodies i
    let e := e + bi.mass * (← sum4 t (bi.v * bi.v)) * F.lit 0.5
    forRange (i + 1) N (fun e k => do
      let bj ← aget bodies k
      let dx := bi.x - bj.x
      return e - bi.mass * bj.mass / F.sqrt (← sum4 t (dx * dx))) e) (F.lit 0)

/-- `N * (N - 1) / 2` (simd.rs:112). -/
def nPairs (N : Nat) : Nat := N * (N - 1) / 2

/-- `for j in 0..N { for k in j + 1..N { body; i += 1 } }` (simd.rs:117-123, 135-143). -/
def forPairs {σ : Type} (N : Nat) (body : σ → Nat → Nat → Nat → R σ) (init : σ) : R (σ × Nat) :=
  forRange 0 N (fun s j => forRange (j + 1) N (fun (s : σ × Nat) k => do return (← body s.1 s.2 j k, s.2 + 1)) s) (init, 0)

/-- `r` (simd.rs:115-124). -/
def diffs (bodies : Vector (Body α 4) N) : R (Vector (Vec α 4) (nPairs N)) := do
  let (r, _) ← forPairs N (fun r i j k => do
    let bj ← aget bodies j
    let bk ← aget bodies k
    aset r i (bj.x - bk.x)) (Vector.replicate (nPairs N) (splat 4 (F.lit 0)))
  return r

/-- `mag` (simd.rs:126-133); `i` runs through the even numbers below the number of pairs. -/
def mags (t : Target) (dt : α) {P : Nat} (r : Vector (Vec α 4) P) : R (Vector α P) :=
  forRange 0 ((P + 1) / 2) (fun mag q => do
    let i := 2 * q
    let a ← aget r i
    let b ← aget r (i + 1)
    let d2s : Vec α 2 := #v[← sum4 t (a * a), ← sum4 t (b * b)]
    let dmags : Vec α 2 := splat 2 dt / (d2s * d2s.map F.sqrte)
    -- dmags.write_to_slice_unaligned(&mut mag[i..])
    if i + 2 ≤ P then aset (← aset mag i dmags[0]) (i + 1) dmags[1] else .error .panic) (Vector.replicate P (F.lit 0))

/-- The body of the loop over pairs (simd.rs:138-140). -/
def kick {P : Nat} (r : Vector (Vec α 4) P) (mag : Vector α P) (bodies : Vector (Body α 4) N) (i j k : Nat) : R (Vector (Body α 4) N) := do
  let ri ← aget r i
  let mi ← aget mag i
  let f := ri * splat 4 mi
  let bj ← aget bodies j
  let bk ← aget bodies k
  let bodies ← aset bodies j { bj with v := bj.v - f * splat 4 bk.mass }
  let bj ← aget bodies j
  let bk ← aget bodies k
  aset bodies k { bk with v := bk.v + f * splat 4 bj.mass }

/-- The velocity updates (simd.rs:135-143). -/
def kicks (bodies : Vector (Body α 4) N) (r : Vector (Vec α 4) (nPairs N)) (mag : Vector α (nPairs N)) : R (Vector (Body α 4) N) := do
  let (bodies, _) ← forPairs N (kick r mag) bodies
  return bodies

/-- `advance` (simd.rs:111-147). -/
def advanceSimd (t : Target) (dt : α) (bodies : Vector (Body α 4) N) : R (Vector (Body α 4) N) := do
  let r ← diffs F bodies
  let mag ← mags F t dt r
  let bodies ← kicks bodies r mag
  return bodies.map fun body => { body with x := body.x + splat 4 dt * body.v }

/-- `for _ in 0..n { k(&mut bodies, 0.01); }` (simd.rs:156-158). -/
def steps {σ : Type} (k : σ → R σ) : Nat → σ → R σ
  | 0, s => .ok s
  | n + 1, s => do steps k n (← k s)

/-- `run_k` (simd.rs:149-162) from given bodies. -/
def runSimdFrom (t : Target) (bodies : Vector (Body α 4) N) (n : Nat) : R (α × α) := do
  let bodies ← offsetSimd F bodies
  let before ← energySimd F t bodies
  let bodies ← steps (advanceSimd F t (F.lit 0.01)) n bodies
  return (before, ← energySimd F t bodies)

/-! ### lib.rs -/

/-- `run` (lib.rs:14-20). -/
def run (t : Target) (n alg : Nat) : R (α × α) :=
  match alg with
  | 0 => runScalarFrom F (bodiesScalar F) n
  | 1 => runSimdFrom F t (bodiesSimd F) n
  | _ => .error .panic

end PackedSimd.Ex.Nbody
