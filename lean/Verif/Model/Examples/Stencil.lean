import Verif.Model.Examples.Options
/-
examples/stencil/src/{scalar,simd,simd_par,lib}.rs, over an arbitrary lane arithmetic and any number of lanes (`f32x8`).  `two` and `negOne` are the
literal `2.` and the `-1` of vector negation, `fma` is one lane of `mul_adde`.  The wrappers choosing target features at run time (`x8_impl_avx2`
.., simd.rs:108-203, simd_par.rs:46-144) all call the same function and are left out, as is the foreign ispc_loops.rs.
-/
namespace PackedSimd.Ex

/-- The result of an `i32` operation whose exact value is `v`: on overflow it panics in builds with overflow checks (`dbg`), and wraps otherwise. -/
def i32 (dbg : Bool) (v : Int) : R Int :=
  if -2 ^ 31 ≤ v ∧ v < 2 ^ 31 then .ok v else if dbg then .error .panic else .ok (v.bmod (2 ^ 32))

/-- `v as usize` for `v: i32`: negative values wrap around. -/
def asUsize (t : Target) (v : Int) : Nat := if 0 ≤ v then v.toNat else (2 ^ (8 * t.ptrBytes) + v).toNat

/-- `for i in lo..hi` over `i32`. -/
def forInt {σ : Type} (lo hi : Int) (body : σ → Int → R σ) (init : σ) : R σ :=
  ((List.range (hi - lo).toNat).map fun (k : Nat) => lo + (k : Int)).foldlM body init

namespace Stencil
open Options (loadAt storeAt lset)

variable {α : Type} {n : Nat} [Add α] [Sub α] [Mul α]

/-- The parameters that stay the same: target, build profile, `2.`, `-1.`, `mul_adde`, the grid, the coefficients and `vsq`. -/
structure Env (α : Type) where
  t : Target
  dbg : Bool
  two : α
  negOne : α
  fma : α → α → α → α
  x0 : Int
  x1 : Int
  y0 : Int
  y1 : Int
  nx : Int
  ny : Int
  coef : Vector α 4
  vsq : List α

variable (E : Env α)

/-- `(index + $x + $y * n_x + $z * n_xy)` (scalar.rs:16, 22; simd.rs:24). -/
def offset (nxy index dx dy dz : Int) : R Int := do
  let a ← i32 E.dbg (index + dx)
  let b ← i32 E.dbg (dy * E.nx)
  let c ← i32 E.dbg (a + b)
  let d ← i32 E.dbg (dz * nxy)
  i32 E.dbg (c + d)

/-! ### scalar.rs -/

/-- `a_cur!(dx, dy, dz)` (scalar.rs:14-18). -/
def curScalar (aIn : List α) (nxy index dx dy dz : Int) : R α := do
  lget aIn (asUsize E.t (← offset E nxy index dx dy dz))

/-- One iteration of `for i in 1..4` (scalar.rs:27-35). -/
def divScalar (aIn : List α) (nxy index : Int) (div : α) (i : Int) : R α := do
  let c ← aget E.coef (asUsize E.t i)
  let a1 ← curScalar E aIn nxy index i 0 0
  let a2 ← curScalar E aIn nxy index (-i) 0 0
  let a3 ← curScalar E aIn nxy index 0 i 0
  let a4 ← curScalar E aIn nxy index 0 (-i) 0
  let a5 ← curScalar E aIn nxy index 0 0 i
  let a6 ← curScalar E aIn nxy index 0 0 (-i)
  return div + c * (a1 + a2 + a3 + a4 + a5 + a6)

/-- The body of the loops of `step` (scalar.rs:12-37). -/
def cellScalar (aIn : List α) (nxy z y : Int) (aOut : List α) (x : Int) : R (List α) := do
  let zi ← i32 E.dbg (z * nxy)
  let yi ← i32 E.dbg (y * E.nx)
  let zy ← i32 E.dbg (zi + yi)
  let index ← i32 E.dbg (zy + x)
  let c0 ← aget E.coef 0
  let cur ← curScalar E aIn nxy index 0 0 0
  let div ← forInt 1 4 (divScalar E aIn nxy index) (c0 * cur)
  let o ← offset E nxy index 0 0 0
  let next ← lget aOut (asUsize E.t o)
  let v ← lget E.vsq (asUsize E.t index)
  lset aOut (asUsize E.t o) (E.two * cur - next + v * div)

/-- `step` (scalar.rs:3-41): the new contents of `a_out`. -/
def stepScalar (z0 z1 : Int) (aIn aOut : List α) : R (List α) := do
  let nxy ← i32 E.dbg (E.nx * E.ny)
  forInt z0 z1 (fun aOut z => forInt E.y0 E.y1 (fun aOut y => forInt E.x0 E.x1 (cellScalar E aIn nxy z y) aOut) aOut) aOut

/-- `scalar` (scalar.rs:43-61): the new contents of `a_even` and `a_odd`. -/
def runScalar (t0 t1 z0 z1 : Int) (even odd : List α) : R (List α × List α) :=
  forInt t0 t1 (fun (s : List α × List α) t =>
    if t % 2 = 0 then do return (s.1, ← stepScalar E z0 z1 s.1 s.2)
    else do return (← stepScalar E z0 z1 s.2 s.1, s.2)) (even, odd)

/-! ### simd.rs -/

/-- `from_slice_unaligned_unchecked(xs.get_unchecked(i as usize..))`: a start past the end is undefined behaviour. -/
def loadU (n : Nat) (xs : List α) (i : Int) : R (Vec α n) :=
  if asUsize E.t i ≤ xs.length then loadAt E.dbg n xs (asUsize E.t i) else .error .ub

/-- `v.write_to_slice_unaligned_unchecked(xs.get_unchecked_mut(i as usize..))`. -/
def storeU (v : Vec α n) (xs : List α) (i : Int) : R (List α) :=
  if asUsize E.t i ≤ xs.length then storeAt E.dbg v xs (asUsize E.t i) else .error .ub

/-- `mul_adde` (src/api/math/float/mul_adde.rs), lane by lane. -/
def vfma (a b c : Vec α n) : Vec α n := Vector.ofFn fun i => E.fma a[i] b[i] c[i]

/-- `a_cur!(dx, dy, dz)` (simd.rs:20-29). -/
def curSimd (n : Nat) (aIn : List α) (nxy index dx dy dz : Int) : R (Vec α n) := do
  loadU E n aIn (← offset E nxy index dx dy dz)

/-- One iteration of `for i in 1..4` (simd.rs:34-48). -/
def divSimd (aIn : List α) (nxy index : Int) (div : Vec α n) (i : Int) : R (Vec α n) := do
  let c ← aget E.coef (asUsize E.t i)
  let a1 ← curSimd E n aIn nxy index i 0 0
  let a2 ← curSimd E n aIn nxy index (-i) 0 0
  let a3 ← curSimd E n aIn nxy index 0 i 0
  let a4 ← curSimd E n aIn nxy index 0 (-i) 0
  let a5 ← curSimd E n aIn nxy index 0 0 i
  let a6 ← curSimd E n aIn nxy index 0 0 (-i)
  return vfma E (splat n c) (a1 + a2 + a3 + a4 + a5 + a6) div

/-- The body of the loops of `step_x8` (simd.rs:18-64); `aOut` starts at plane `z`. -/
def blockSimd (n : Nat) (aIn : List α) (nxy zIdx yIdx : Int) (aOut : List α) (x : Int) : R (List α) := do
  let outIdx ← i32 E.dbg (x + yIdx)
  let index ← i32 E.dbg (zIdx + outIdx)
  let cur0 ← curSimd E n aIn nxy index 0 0 0
  let c0 ← aget E.coef 0
  let div ← forInt 1 4 (divSimd E aIn nxy index) (splat n c0 * cur0)
  let vsq ← loadU E n E.vsq index
  let next ← loadU E n aOut outIdx
  let sum := vfma E cur0 (splat n E.two) (splat n E.negOne * next)
  storeU E (vfma E vsq div sum) aOut outIdx

/-- `for x in (x0..x1).step_by(n)` over `i32`. -/
def forStep {σ : Type} (lo hi : Int) (n : Nat) (body : σ → Int → R σ) (init : σ) : R σ :=
  ((List.range (((hi - lo).toNat + n - 1) / n)).map fun (k : Nat) => lo + (k : Int) * n).foldlM body init

/-- `step_x8` (simd.rs:6-69).  `%` of Rust truncates. -/
def stepSimd (n : Nat) (z0 z1 : Int) (aIn aOut : List α) : R (List α) := do
  let dx ← i32 E.dbg (E.x1 - E.x0)
  if dx.tmod n = 0 then
    let nxy ← i32 E.dbg (E.nx * E.ny)
    forInt z0 z1 (fun aOut z => do
      let zIdx ← i32 E.dbg (z * nxy)
      forInt E.y0 E.y1 (fun aOut y => do
        let yIdx ← i32 E.dbg (y * E.nx)
        forStep E.x0 E.x1 n (blockSimd E n aIn nxy zIdx yIdx) aOut) aOut) aOut
  else .error .panic

/-- The closure of the `for_each` (simd.rs:84-90) on chunk `z` of `a_out`, which is replaced by its new contents. -/
def planeSimd (n : Nat) (aIn : List α) (size : Nat) (aOut : List α) (z : Nat) : R (List α) := do
  let z1 ← i32 E.dbg ((z : Int) + 1)
  let c ← stepSimd E n z z1 aIn ((aOut.drop (z * size)).take size)
  return aOut.take (z * size) ++ c ++ aOut.drop (z * size + size)

/-- `a_out.chunks_mut((n_x * n_y) as usize).enumerate().skip(z0 as usize).take((z1 - z0) as usize)`: the numbers of the chunks.  A chunk size of
zero panics. -/
def planes (z0 z1 : Int) (len : Nat) : R (Nat × List Nat) := do
  let size := asUsize E.t (← i32 E.dbg (E.nx * E.ny))
  if size = 0 then .error .panic
  else
    let dz ← i32 E.dbg (z1 - z0)
    return (size, ((List.range ((len + size - 1) / size)).drop (asUsize E.t z0)).take (asUsize E.t dz))

/-- One time step of `x8_impl` (simd.rs:79-90, 92-103). -/
def halfSimd (n : Nat) (z0 z1 : Int) (aIn aOut : List α) : R (List α) := do
  let (size, zs) ← planes E z0 z1 aOut.length
  zs.foldlM (planeSimd E n aIn size) aOut

/-- `x8_impl` (simd.rs:72-106). -/
def runSimd (n : Nat) (t0 t1 z0 z1 : Int) (even odd : List α) : R (List α × List α) :=
  forInt t0 t1 (fun (s : List α × List α) t =>
    if t % 2 = 0 then do return (s.1, ← halfSimd E n z0 z1 s.1 s.2)
    else do return (← halfSimd E n z0 z1 s.2 s.1, s.2)) (even, odd)

/-! ### simd_par.rs -/

/-- One time step of `x8_par_impl` (simd_par.rs:14-26, 28-40): the planes are processed in some order, `order` of the list of planes.  Each task
writes its own chunk and only reads the rest, so tasks running at the same time do not interfere. -/
def halfPar (n : Nat) (order : List Nat → List Nat) (z0 z1 : Int) (aIn aOut : List α) : R (List α) := do
  let (size, zs) ← planes E z0 z1 aOut.length
  (order zs).foldlM (planeSimd E n aIn size) aOut

/-- `x8_par_impl` (simd_par.rs:6-43); `order t` is the order at time `t`. -/
def runPar (n : Nat) (nz : Int) (order : Int → List Nat → List Nat) (t0 t1 z0 z1 : Int) (even odd : List α) : R (List α × List α) := do
  let dz ← i32 E.dbg (z1 - z0)
  if dz ≤ nz then
    forInt t0 t1 (fun (s : List α × List α) t =>
      if t % 2 = 0 then do return (s.1, ← halfPar E n (order t) z0 z1 s.1 s.2)
      else do return (← halfPar E n (order t) z0 z1 s.2 s.1, s.2)) (even, odd)
  else .error .panic

/-! ### lib.rs -/

/-- Write through `get_unchecked_mut(offset)`: out of bounds is undefined behaviour. -/
def setU (l : List α) (k : Nat) (x : α) : R (List α) := if k < l.length then .ok (l.set k x) else .error .ub

/-- What `reinit` changes. -/
structure Grid (α : Type) where
  even : List α
  odd : List α
  vsq : List α
  offset : Nat

/-- The body of the loops of `Data::reinit` (lib.rs:80-92); `ofInt` is `as f32`. -/
def initCell [Div α] [Zero α] (dbg : Bool) (ofInt : Int → α) (nx ny nz z y : Int) (g : Grid α) (x : Int) : R (Grid α) := do
  let v := if x < nx.tdiv 2 then ofInt x / ofInt nx else ofInt y / ofInt ny
  let even ← setU g.even g.offset v
  let odd ← setU g.odd g.offset 0
  let xy ← i32 dbg (x * y)
  let xyz ← i32 dbg (xy * z)
  let nxy ← i32 dbg (nx * ny)
  let nxyz ← i32 dbg (nxy * nz)
  let vsq ← setU g.vsq g.offset (ofInt xyz / ofInt nxyz)
  return ⟨even, odd, vsq, g.offset + 1⟩

/-- `Data::reinit` (lib.rs:75-96). -/
def reinit [Div α] [Zero α] (dbg : Bool) (ofInt : Int → α) (nx ny nz : Int) (g : Grid α) : R (Grid α) :=
  forInt 0 nz (fun g z => forInt 0 ny (fun g y => forInt 0 nx (initCell dbg ofInt nx ny nz z y) g) g) { g with offset := 0 }

/-- `Data::new` (lib.rs:55-73).  `vec![0_f32; n]` panics if the size in bytes exceeds `isize::MAX`; running out of memory is ignored. -/
def dataNew [Div α] [Zero α] (t : Target) (dbg : Bool) (ofInt : Int → α) (nx ny nz : Int) : R (Grid α) := do
  let nxy ← i32 dbg (nx * ny)
  let nxyz ← i32 dbg (nxy * nz)
  let n := asUsize t nxyz
  if n * 4 < 2 ^ (8 * t.ptrBytes - 1) then
    reinit dbg ofInt nx ny nz ⟨List.replicate n 0, List.replicate n 0, List.replicate n 0, 0⟩
  else .error .panic

end Stencil
end PackedSimd.Ex
