import Verif.Model.Slices
import Verif.Model.Reduce
import Verif.Model.FloatVec
/-
The slice-summing idiom documented in src/lib.rs:51-58 and the example programs examples/slice_sum/src/main.rs and
examples/dot_product/src/{scalar,simd}.rs.

The integer idiom is modelled on memory.  The float programs are written once over an arbitrary lane arithmetic `Arith α` (so that they can be
run in exact arithmetic or in IEEE arithmetic, `fltArith`), and on the list of slice elements instead of memory: `from_slice_unaligned` on a
list is what the memory version does by `C05_from_slice_unaligned`.
-/
namespace PackedSimd
open Intr

namespace Ex

/-! ### Rust slices as lists -/

/-- `x.chunks_exact(n)` of the core library: the `len / n` consecutive chunks of exactly `n` elements; a shorter remainder is left out. -/
def chunksExact (n : Nat) (xs : List α) : List (List α) :=
  (List.range (xs.length / n)).map fun j => (xs.drop (j * n)).take n

/-- `V::from_slice_unaligned` (src/api/slice/from_slice.rs:28-33), on the elements of the slice. -/
def fromSlice (n : Nat) (xs : List α) : R (Vec α n) :=
  if h : n ≤ xs.length then .ok (Vector.ofFn fun i => xs[i.val]) else .error .panic

/-! ### Lane arithmetic -/

/-- The scalar operations an example program uses. -/
structure Arith (α : Type) where
  zero : α
  add : α → α → α
  mul : α → α → α

/-- IEEE arithmetic on floats with `man` fraction bits, as used for the lanes of float vectors. -/
def fltArith (w man : Nat) : Arith (BitVec w) := ⟨Flt.fromInt w man 0, Flt.add man, Flt.mul man⟩

variable {α : Type} {n : Nat}

/-- `Add for V` (src/api/ops/vector_arithmetic.rs:5-12). -/
def vadd (A : Arith α) (a b : Vec α n) : Vec α n := Vector.zipWith A.add a b
/-- `Mul for V` (src/api/ops/vector_arithmetic.rs:23-30). -/
def vmul (A : Arith α) (a b : Vec α n) : Vec α n := Vector.zipWith A.mul a b
/-- `V::sum` (src/api/reductions/float_arithmetic.rs:17-33). -/
def vsum (t : Target) (A : Arith α) (v : Vec α n) : R α :=
  if t.arch ≠ .aarch64 then .ok (simdReduceOrdered A.add v A.zero) else Reduce.laneLoop A.add v
/-- `Iterator::sum` of vectors (src/api/reductions/float_arithmetic.rs:65-70). -/
def iterSum (A : Arith α) (n : Nat) (items : List (Vec α n)) : Vec α n := items.foldl (vadd A) (splat n A.zero)
/-- `Iterator::sum::<f32>` of scalars (core library): a left fold from `0.0`. -/
def scalarSum (A : Arith α) (xs : List α) : α := xs.foldl A.add A.zero

/-! ### src/lib.rs:51-58 -/

/-- `reduce` (src/lib.rs:51-58) for a vector type of `n` lanes of `k` bytes (`i32x4`: `n = k = 4`).  The loop runs over
`(0..x.len()).step_by(n)`; `&x[i..]` panics for `i > x.len()`. -/
def reduce (t : Target) (k n : Nat) (m : Mem) (x : Slice) : R (BitVec (8 * k)) :=
  if x.len % n = 0 then do
    let sum ← (List.range' 0 (x.len / n) n).foldlM
      (fun sum i => do
        let s ← if i ≤ x.len then .ok (⟨x.addr + i * k, x.len - i⟩ : Slice) else .error .panic
        return Ops.add sum (← SliceIO.fromSliceUnaligned t.endian k n m s))
      (splat n 0#(8 * k))
    Reduce.wrappingSum t sum
  else .error .panic

/-! ### examples/slice_sum/src/main.rs -/

/-- `sum_ver` (main.rs:12-19); `f32s = f32x8`, `n = 8`. -/
def sumVer (t : Target) (A : Arith α) (n : Nat) (x : List α) : R α :=
  if x.length % n = 0 then do
    let vs ← (chunksExact n x).mapM (fromSlice n)
    vsum t A (iterSum A n vs)
  else .error .panic

/-- `sum_hor` (main.rs:21-28). -/
def sumHor (t : Target) (A : Arith α) (n : Nat) (x : List α) : R α :=
  if x.length % n = 0 then do
    let vs ← (chunksExact n x).mapM (fromSlice n)
    let ss ← vs.mapM (vsum t A)
    return scalarSum A ss
  else .error .panic

/-- How rayon may split the items of a parallel iterator between threads: a task either sums its items in order or splits them in two
at any position, for any task tree (rayon-core decides at run time). -/
inductive Sched where
  | seq
  | split (at_ : Nat) (l r : Sched)

/-- `into_par_iter().sum::<V>()` (rayon `ParallelIterator::sum`): a sequential piece is folded with `Iterator::sum`, two pieces are combined
with `Iterator::sum` of the pair. -/
def parSum (A : Arith α) (n : Nat) : Sched → List (Vec α n) → Vec α n
  | .seq, items => iterSum A n items
  | .split i l r, items => iterSum A n [parSum A n l (items.take i), parSum A n r (items.drop i)]

/-- `x.iter().enumerate().find(|y| address % align == 0)` (main.rs:36-42): index of the first aligned element. -/
def firstAligned (addr elemBytes align len : Nat) : Option Nat :=
  (List.range len).find? fun i => (addr + i * elemBytes) % align == 0

/-- `sum_ver_par` (main.rs:30-56) on a slice starting at `addr` with elements `x` of `elemBytes` bytes, for a vector type of `n` lanes of
alignment `align` (`f32x8`: 4 bytes, 8 lanes, 32).  `unwrap` panics if no element is aligned. -/
def sumVerPar (t : Target) (A : Arith α) (n elemBytes align : Nat) (sched : Sched) (addr : Nat) (x : List α) : R α :=
  if x.length % n = 0 then
    match firstAligned addr elemBytes align x.length with
    | none => .error .panic
    | some i => do
      let head := x.take i
      let tail := x.drop i
      let headSum := scalarSum A head
      -- slice::from_raw_parts(tail.as_ptr() as *const f32s, tail.len() / f32s::lanes()): element j of it is the j-th group of n floats
      let tailV ← ((List.range (tail.length / n)).map fun j => tail.drop (j * n)).mapM (fromSlice n)
      return A.add headSum (← vsum t A (parSum A n sched tailV))
  else .error .panic

/-! ### examples/dot_product -/

/-- `scalar::dot_prod` (scalar.rs:3-6). -/
def dotScalar (A : Arith α) (a b : List α) : R α :=
  if a.length = b.length then .ok (scalarSum A ((a.zip b).map fun v => A.mul v.1 v.2)) else .error .panic

/-- `simd::dot_prod` (simd.rs:5-15), `n = 4`. -/
def dotSimd (t : Target) (A : Arith α) (n : Nat) (a b : List α) : R α :=
  if a.length = b.length then
    if a.length % n = 0 then do
      let va ← (chunksExact n a).mapM (fromSlice n)
      let vb ← (chunksExact n b).mapM (fromSlice n)
      vsum t A (iterSum A n ((va.zip vb).map fun v => vmul A v.1 v.2))
    else .error .panic
  else .error .panic

end Ex
end PackedSimd
