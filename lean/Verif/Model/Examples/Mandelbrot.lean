import Verif.Model.Examples.Matrix
import Verif.Model.MaskReduce
/-
examples/mandelbrot/src/{scalar_par,simd_par}.rs, over an arbitrary lane arithmetic: `le`/`gt` are the comparisons of the lane type and
`threshold` is the constant `THRESHOLD` (lib.rs:173); `limit` is `ITER_LIMIT` (lib.rs:179).
-/
namespace PackedSimd
open Intr

namespace Ex.Mandel

variable {α : Type} [Add α] [Sub α] [Mul α]

/-- `struct Complex { real, imag }` (scalar_par.rs:8-11, simd_par.rs:15-18). -/
structure Complex (β : Type) where
  real : β
  imag : β

/-- Body of `Iterator::next` (scalar_par.rs:61-75; simd_par.rs:84-98 is the same text on vectors): the next value of `self.current`. -/
def next {β : Type} [Add β] [Sub β] [Mul β] (start current : Complex β) : Complex β :=
  let xx := current.real * current.real
  let yy := current.imag * current.imag
  let xy := current.real * current.imag
  ⟨start.real + (xx - yy), start.imag + (xy + xy)⟩

/-! ### scalar_par.rs -/

/-- `Complex::diverged` (scalar_par.rs:16-24). -/
def diverged (gt : α → α → Bool) (threshold : α) (z : Complex α) : Bool :=
  gt (z.real * z.real + z.imag * z.imag) threshold

/-- The loop of `count` (scalar_par.rs:45-52) with `fuel` iterations left, in iteration `i`. -/
def countScalarLoop (gt : α → α → Bool) (threshold : α) (start : Complex α) : (fuel : Nat) → (i : Nat) → (z current : Complex α) → Nat
  | 0, i, _, _ => i                                     -- ITER_LIMIT
  | fuel + 1, i, z, current =>
    if diverged gt threshold z then i
    else
      let current := next start current
      countScalarLoop gt threshold start fuel (i + 1) current current

/-- `MandelbrotIter::count` (scalar_par.rs:43-53). -/
def countScalar (gt : α → α → Bool) (threshold : α) (limit : Nat) (start : Complex α) : Nat :=
  countScalarLoop gt threshold start limit 0 start start

/-! ### simd_par.rs, for vectors with the lanes of mask type `ty` (`f64x8`, `m64x8`, `u64x8`) -/

variable (t : Target) (ty : MaskTy)

/-- `Complex::undiverged` (simd_par.rs:24-32): a lanewise comparison, giving a mask. -/
def undiverged (le : α → α → Bool) (threshold : α) (z : Complex (Vec α ty.lanes)) : Vec (BitVec (8 * ty.laneBytes t)) ty.lanes :=
  let xx := z.real * z.real
  let yy := z.imag * z.imag
  let sum := xx + yy
  Vector.zipWith (fun a b => maskBits (8 * ty.laneBytes t) (le a b)) sum (splat ty.lanes threshold)

/-- The loop of `count` (simd_par.rs:58-74) with `fuel` iterations left. -/
def countSimdLoop (le : α → α → Bool) (threshold : α) (start : Complex (Vec α ty.lanes)) :
    (fuel : Nat) → (z current : Complex (Vec α ty.lanes)) → (count : Vec (BitVec 64) ty.lanes) → R (Vec (BitVec 64) ty.lanes)
  | 0, _, _, count => .ok count
  | fuel + 1, z, current, count => do
    let und := undiverged t ty le threshold z
    if ← Mask.none t ty und then return count            -- break
    else
      let inc ← select und (splat ty.lanes 1#64) (splat ty.lanes 0#64)
      let count := Ops.add count inc
      let current := next start current
      countSimdLoop le threshold start fuel current current count

/-- `MandelbrotIter::count` (simd_par.rs:55-76); `count.cast()` to `u32` lanes truncates (C35). -/
def countSimd (le : α → α → Bool) (threshold : α) (limit : Nat) (start : Complex (Vec α ty.lanes)) : R (Vec (BitVec 32) ty.lanes) := do
  let count ← countSimdLoop t ty le threshold start limit start start (splat ty.lanes 0#64)
  return count.map (BitVec.setWidth 32)

/-! ### The images -/

/-- What `generate` needs of the lane type besides the operators: division, and `as f64` of an index. -/
structure Grid (α : Type) where
  xStart : α
  yStart : α
  dx : α
  dy : α
  ofIndex : Nat → α

/-- `scalar_par::generate` (scalar_par.rs:78-112) with `dx`, `dy` computed; pixels row by row.  `par_chunks_mut(0)` panics.  Each row and each
pixel is computed independently of the others, so the order in which rayon runs them does not matter. -/
def generateScalar (gt : α → α → Bool) (threshold : α) (limit : Nat) (g : Grid α) (width height : Nat) : R (List (BitVec 32)) :=
  if width = 0 then .error .panic
  else
    let xs := (List.range width).map fun j => g.xStart + g.dx * g.ofIndex j
    .ok ((List.range height).flatMap fun i =>
      let y := g.yStart + g.dy * g.ofIndex i
      xs.map fun x => BitVec.ofNat 32 (countScalar gt threshold limit ⟨x, y⟩))

/-- `simd_par::generate` (simd_par.rs:101-156): the start values of a row are computed as scalars in a buffer of vectors, each block of a row is
counted, and the buffer of `u32` vectors is read as `u32`s. -/
def generateSimd (le : α → α → Bool) (threshold : α) (limit : Nat) (g : Grid α) (width height : Nat) : R (List (BitVec 32)) :=
  if width % ty.lanes = 0 then
    if width / ty.lanes = 0 then .error .panic
    else do
      let xs := (List.range (width / ty.lanes)).map fun b =>
        (Vector.ofFn fun l : Fin ty.lanes => g.xStart + g.dx * g.ofIndex (b * ty.lanes + l.val) : Vec α ty.lanes)
      let rows ← (List.range height).mapM fun i => do
        let y := splat ty.lanes (g.yStart + g.dy * g.ofIndex i)
        let row ← xs.mapM fun x => countSimd t ty le threshold limit ⟨x, y⟩
        return (row.map Vector.toList).flatten
      return rows.flatten
  else .error .panic

end Ex.Mandel
end PackedSimd
