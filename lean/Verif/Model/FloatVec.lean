import Verif.Model.Float
import Verif.Model.Reduce
import Verif.Model.Compare
/-
Float vectors: the parts of src/api/ops, cmp, reductions and math/float.rs instantiated by `impl_f!` (src/api.rs:170-228).
`man` = number of fraction bits of the lane type.
-/
namespace PackedSimd.FVec
open Intr

variable {w n : Nat} (man : Nat)

/-! ### Operators (src/api/ops/vector_arithmetic.rs:5-48, scalar_arithmetic.rs, vector_neg.rs, vector_float_min_max.rs) -/

/-- `Add` (vector_arithmetic.rs:5-12): `simd_add` on floats is `fadd` on each lane; likewise `Sub` (14-21), `Mul` (23-30), `Div` (32-39),
`Rem` (41-48). -/
def add (a b : Vec (BitVec w) n) : Vec (BitVec w) n := Vector.zipWith (Flt.add man) a b
def sub (a b : Vec (BitVec w) n) : Vec (BitVec w) n := Vector.zipWith (Flt.sub man) a b
def mul (a b : Vec (BitVec w) n) : Vec (BitVec w) n := Vector.zipWith (Flt.mul man) a b
def div (a b : Vec (BitVec w) n) : Vec (BitVec w) n := Vector.zipWith (Flt.div man) a b
def rem (a b : Vec (BitVec w) n) : Vec (BitVec w) n := Vector.zipWith (Flt.rem man) a b

/-- `v op x` and `x op v` (scalar_arithmetic.rs:5-78): broadcast, then the vector operator. -/
def opVS (op : Vec (BitVec w) n → Vec (BitVec w) n → Vec (BitVec w) n) (a : Vec (BitVec w) n) (x : BitVec w) : Vec (BitVec w) n :=
  op a (splat n x)
def opSV (op : Vec (BitVec w) n → Vec (BitVec w) n → Vec (BitVec w) n) (x : BitVec w) (a : Vec (BitVec w) n) : Vec (BitVec w) n :=
  op (splat n x) a

/-- `Neg` (vector_neg.rs:5-11): `splat(-1 as elem) * self`. -/
def neg (a : Vec (BitVec w) n) : Vec (BitVec w) n := mul man (splat n (Flt.fromInt w man (-1))) a

/-- `min` (vector_float_min_max.rs:11-14), `max` (21-24). -/
def min (pick : BitVec w → BitVec w → Bool) (a b : Vec (BitVec w) n) : Vec (BitVec w) n := Vector.zipWith (Flt.minNum man pick) a b
def max (pick : BitVec w → BitVec w → Bool) (a b : Vec (BitVec w) n) : Vec (BitVec w) n := Vector.zipWith (Flt.maxNum man pick) a b

/-! ### Comparisons (src/api/cmp/vertical.rs:13-67 with `$is_mask = false`) -/

def eq (a b : Vec (BitVec w) n) : Vec (BitVec w) n := Vector.zipWith (fun x y => maskBits w (Flt.oeq man x y)) a b
def ne (a b : Vec (BitVec w) n) : Vec (BitVec w) n := Vector.zipWith (fun x y => maskBits w (Flt.une man x y)) a b
def lt (a b : Vec (BitVec w) n) : Vec (BitVec w) n := Vector.zipWith (fun x y => maskBits w (Flt.olt man x y)) a b
def le (a b : Vec (BitVec w) n) : Vec (BitVec w) n := Vector.zipWith (fun x y => maskBits w (Flt.ole man x y)) a b
def gt (a b : Vec (BitVec w) n) : Vec (BitVec w) n := Vector.zipWith (fun x y => maskBits w (Flt.ogt man x y)) a b
def ge (a b : Vec (BitVec w) n) : Vec (BitVec w) n := Vector.zipWith (fun x y => maskBits w (Flt.oge man x y)) a b

section
variable (t : Target) (ty : MaskTy) (a b : Vec (BitVec (8 * ty.laneBytes t)) ty.lanes)

/-- `a == b` (src/api/cmp/partial_eq.rs:13-15), `a != b` (17-19). -/
def partialEq : R Bool := Cmp.partialEq t ty (eq man a b)
def partialNe : R Bool := Cmp.partialNe t ty (ne man a b)
/-- `PartialOrd` of `partial_lex_ord()` (src/api/cmp/partial_ord.rs:15-60). -/
def lexLt : R Bool := Cmp.lexCompare (lt man a b) (eq man a b)
def lexGt : R Bool := Cmp.lexCompare (gt man a b) (eq man a b)
def lexLe : R Bool := Cmp.lexOrEq (lexLt man t ty a b) (partialEq man t ty a b)
def lexGe : R Bool := Cmp.lexOrEq (lexGt man t ty a b) (partialEq man t ty a b)
def lexPartialCmp : R (Option Ordering) :=
  Cmp.lexPartialCmp (partialEq man t ty a b) (lexLt man t ty a b) (lexGt man t ty a b)
end

/-! ### Classification (src/api/math/float.rs:45-64) -/

/-- `INFINITY`, `NEG_INFINITY` (src/api/math/float/consts.rs): `splat` of the scalar constants. -/
def infinity (w n man : Nat) : Vec (BitVec w) n := splat n (Flt.mk w false (Spec.infMag w man))
def negInfinity (w n man : Nat) : Vec (BitVec w) n := splat n (Flt.mk w true (Spec.infMag w man))

/-- `is_nan` (float.rs:49-51). -/
def isNan (a : Vec (BitVec w) n) : Vec (BitVec w) n := ne man a a
/-- `is_infinite` (float.rs:54-56). -/
def isInfinite (a : Vec (BitVec w) n) : Vec (BitVec w) n :=
  Mask.bitor (eq man a (infinity w n man)) (eq man a (negInfinity w n man))
/-- `is_finite` (float.rs:59-61). -/
def isFinite (a : Vec (BitVec w) n) : Vec (BitVec w) n := Mask.not (Mask.bitor (isNan man a) (isInfinite man a))

/-! ### Reductions (src/api/reductions/float_arithmetic.rs, min_max.rs) -/

/-- `sum` (float_arithmetic.rs:17-33). -/
def sum (t : Target) (v : Vec (BitVec w) n) : R (BitVec w) :=
  if t.arch ≠ .aarch64 then .ok (simdReduceOrdered (Flt.add man) v (Flt.fromInt w man 0)) else Reduce.laneLoop (Flt.add man) v

/-- `product` (float_arithmetic.rs:46-62). -/
def product (t : Target) (v : Vec (BitVec w) n) : R (BitVec w) :=
  if t.arch ≠ .aarch64 then .ok (simdReduceOrdered (Flt.mul man) v (Flt.fromInt w man 1)) else Reduce.laneLoop (Flt.mul man) v

/-- `max_element`, `min_element` on floats (min_max.rs:9-38, 42-75): the scalar `f32::max` of the loop is `maxnum` as well. -/
def maxElement (pick : BitVec w → BitVec w → Bool) (t : Target) (v : Vec (BitVec w) n) : R (BitVec w) :=
  if Reduce.maxUsesLoop t then Reduce.laneLoop (Flt.maxNum man pick) v else simdReduce (Flt.maxNum man pick) v
def minElement (pick : BitVec w → BitVec w → Bool) (t : Target) (v : Vec (BitVec w) n) : R (BitVec w) :=
  if Reduce.minUsesLoop t then Reduce.laneLoop (Flt.minNum man pick) v else simdReduce (Flt.minNum man pick) v

/-- `Iterator::sum` / `product` of float vectors (float_arithmetic.rs:65-91). -/
def iterSum (items : List (Vec (BitVec w) n)) : Vec (BitVec w) n := items.foldl (add man) (splat n (Flt.fromInt w man 0))
def iterProduct (items : List (Vec (BitVec w) n)) : Vec (BitVec w) n := items.foldl (mul man) (splat n (Flt.fromInt w man 1))

/-- `recpre` (src/api/math/float/recpre.rs:10-12): `splat(1.) / self`. -/
def recpre (a : Vec (BitVec w) n) : Vec (BitVec w) n := div man (splat n (Flt.fromInt w man 1)) a

end PackedSimd.FVec
