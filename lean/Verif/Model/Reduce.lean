import Verif.Model.Ops
/-
src/api/reductions/bitwise.rs, integer_arithmetic.rs, min_max.rs (integer instances).
-/

namespace PackedSimd
open Intr

namespace Reduce

variable {α : Type} {w n : Nat}

/-- The aarch64 loops: `x = self.extract(0); for i in 1..lanes() { x = op(x, self.extract(i)) }`. -/
def laneLoop (op : α → α → α) (v : Vec α n) : R α := do
  let x ← extract v 0
  forRange 1 n (fun x i => do return op x (← extract v i)) x

/-- `wrapping_sum` (integer_arithmetic.rs:17-34). -/
def wrappingSum (t : Target) (v : Vec (BitVec w) n) : R (BitVec w) :=
  if t.arch ≠ .aarch64 then .ok (simdReduceOrdered (· + ·) v 0#w) else laneLoop (· + ·) v

/-- `wrapping_product` (integer_arithmetic.rs:46-63). -/
def wrappingProduct (t : Target) (v : Vec (BitVec w) n) : R (BitVec w) :=
  if t.arch ≠ .aarch64 then .ok (simdReduceOrdered (· * ·) v (BitVec.ofNat w 1)) else laneLoop (· * ·) v

/-- `and` (bitwise.rs:17-34), integer vectors (`$convert` is the identity). -/
def and (t : Target) (v : Vec (BitVec w) n) : R (BitVec w) :=
  if t.arch ≠ .aarch64 then simdReduce (· &&& ·) v else laneLoop (· &&& ·) v
/-- `or` (bitwise.rs:41-58). -/
def or (t : Target) (v : Vec (BitVec w) n) : R (BitVec w) :=
  if t.arch ≠ .aarch64 then simdReduce (· ||| ·) v else laneLoop (· ||| ·) v
/-- `xor` (bitwise.rs:65-82). -/
def xor (t : Target) (v : Vec (BitVec w) n) : R (BitVec w) :=
  if t.arch ≠ .aarch64 then simdReduce (· ^^^ ·) v else laneLoop (· ^^^ ·) v

/-- Scalar `Ord::max` / `Ord::min` of the lane type (`core::cmp`), also the lane operation of `simd_reduce_max/min`. -/
def scalarMax (s : Bool) (x y : BitVec w) : BitVec w := if laneLt s y x then x else y
def scalarMin (s : Bool) (x y : BitVec w) : BitVec w := if laneLt s y x then y else x

/-- Targets on which `max_element` uses the loop (min_max.rs:9-38). -/
def maxUsesLoop (t : Target) : Bool :=
  t.arch == .aarch64 || t.arch == .arm || t.arch == .powerpc64 || t.arch == .wasm32
/-- Targets on which `min_element` uses the loop (min_max.rs:42-75). -/
def minUsesLoop (t : Target) : Bool := maxUsesLoop t || (t.arch == .x86 && !t.sse2)

/-- `max_element` (min_max.rs:9-38). -/
def maxElement (t : Target) (s : Bool) (v : Vec (BitVec w) n) : R (BitVec w) :=
  if maxUsesLoop t then laneLoop (scalarMax s) v else simdReduce (scalarMax s) v
/-- `min_element` (min_max.rs:42-75). -/
def minElement (t : Target) (s : Bool) (v : Vec (BitVec w) n) : R (BitVec w) :=
  if minUsesLoop t then laneLoop (scalarMin s) v else simdReduce (scalarMin s) v

end Reduce

namespace Mask

variable {w n : Nat}

/-- The aarch64 loop of the mask instance of bitwise.rs: `extract` returns `bool`. -/
def laneLoop (op : Bool → Bool → Bool) (v : Vec (BitVec w) n) : R Bool := do
  let x ← extract v 0
  forRange 1 n (fun x i => do return op x (← extract v i)) x

/-- `$convert` for masks is `|x| x != 0` (src/api.rs:245-248). -/
def convert (r : R (BitVec w)) : R Bool := do return (← r) != 0#w

/-- `and` / `or` / `xor` of a mask (bitwise.rs:17-82). -/
def reduceAnd (t : Target) (v : Vec (BitVec w) n) : R Bool :=
  if t.arch ≠ .aarch64 then convert (simdReduce (· &&& ·) v) else laneLoop (· && ·) v
def reduceOr (t : Target) (v : Vec (BitVec w) n) : R Bool :=
  if t.arch ≠ .aarch64 then convert (simdReduce (· ||| ·) v) else laneLoop (· || ·) v
def reduceXor (t : Target) (v : Vec (BitVec w) n) : R Bool :=
  if t.arch ≠ .aarch64 then convert (simdReduce (· ^^^ ·) v) else laneLoop Bool.xor v

end Mask

/-! ### `Iterator::sum` / `product` of vectors (integer_arithmetic.rs:66-92) -/

/-- `iter.fold(splat(0), Add::add)`; the borrowed variant dereferences each item first and is the same fold. -/
def iterSum {w n : Nat} (items : List (Vec (BitVec w) n)) : Vec (BitVec w) n := items.foldl Ops.add (splat n 0#w)
/-- `iter.fold(splat(1), Mul::mul)`. -/
def iterProduct {w n : Nat} (items : List (Vec (BitVec w) n)) : Vec (BitVec w) n :=
  items.foldl Ops.mul (splat n (BitVec.ofNat w 1))

end PackedSimd
