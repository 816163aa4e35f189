import Verif.Model.Basic
/-
Lane semantics of rustc's "platform intrinsics" declared in src/codegen/llvm.rs:8-122.
These are assumptions about rustc/LLVM (trusted base), not code of the crate.
`signed : Bool` is the signedness of the lane type, which rustc reads off the vector type.
-/

namespace PackedSimd.Intr
open PackedSimd

variable {α : Type} {w n : Nat}

/-- The value stored in a comparison-result / mask lane: `sext i1`. -/
def maskBits (w : Nat) (b : Bool) : BitVec w := if b then BitVec.allOnes w else 0#w

/-- `simd_extract(x, idx)` (llvm.rs:81): out-of-range index is undefined behaviour. -/
def simdExtract (v : Vec α n) (idx : Nat) : R α :=
  if h : idx < n then .ok v[idx] else .error .ub

/-- `simd_insert(x, idx, val)` (llvm.rs:80). -/
def simdInsert (v : Vec α n) (idx : Nat) (x : α) : R (Vec α n) :=
  if h : idx < n then .ok (v.set idx x) else .error .ub

/-- Integer comparison of two lanes according to signedness. -/
def laneLt (signed : Bool) (a b : BitVec w) : Bool := if signed then a.slt b else a.ult b
/-- Integer `<=` of two lanes according to signedness. -/
def laneLe (signed : Bool) (a b : BitVec w) : Bool := if signed then a.sle b else a.ule b

/-- `simd_eq` .. `simd_ge` on integer lanes (llvm.rs:73-78). -/
def simdEq (a b : Vec (BitVec w) n) : Vec (BitVec w) n := Vector.zipWith (fun x y => maskBits w (x == y)) a b
def simdNe (a b : Vec (BitVec w) n) : Vec (BitVec w) n := Vector.zipWith (fun x y => maskBits w (x != y)) a b
def simdLt (s : Bool) (a b : Vec (BitVec w) n) : Vec (BitVec w) n :=
  Vector.zipWith (fun x y => maskBits w (laneLt s x y)) a b
def simdLe (s : Bool) (a b : Vec (BitVec w) n) : Vec (BitVec w) n :=
  Vector.zipWith (fun x y => maskBits w (laneLe s x y)) a b
def simdGt (s : Bool) (a b : Vec (BitVec w) n) : Vec (BitVec w) n :=
  Vector.zipWith (fun x y => maskBits w (laneLt s y x)) a b
def simdGe (s : Bool) (a b : Vec (BitVec w) n) : Vec (BitVec w) n :=
  Vector.zipWith (fun x y => maskBits w (laneLe s y x)) a b

/-- `simd_cast` between integer lanes (llvm.rs:83): truncate, or extend by the source's signedness. -/
def simdCastInt (srcSigned : Bool) (w' : Nat) (a : Vec (BitVec w) n) : Vec (BitVec w') n :=
  a.map (fun x => if srcSigned then x.signExtend w' else x.setWidth w')

/-- `simd_add`, `simd_sub`, `simd_mul` on integers (llvm.rs:85-87): no `nsw`/`nuw`, i.e. wrapping. -/
def simdAdd (a b : Vec (BitVec w) n) : Vec (BitVec w) n := Vector.zipWith (· + ·) a b
def simdSub (a b : Vec (BitVec w) n) : Vec (BitVec w) n := Vector.zipWith (· - ·) a b
def simdMul (a b : Vec (BitVec w) n) : Vec (BitVec w) n := Vector.zipWith (· * ·) a b

/-- Lane operands for which LLVM `sdiv/udiv/srem/urem` is undefined: zero divisor, and
`MIN / -1` for signed lanes. -/
def divBad (signed : Bool) (x y : BitVec w) : Bool :=
  y == 0#w || (signed && x == BitVec.intMin w && y == BitVec.allOnes w)

/-- `simd_div` (llvm.rs:88): LLVM `sdiv` / `udiv` on every lane. -/
def simdDiv (s : Bool) (a b : Vec (BitVec w) n) : R (Vec (BitVec w) n) :=
  if (Vector.zipWith (divBad s) a b).any id then .error .ub
  else .ok (Vector.zipWith (fun x y => if s then x.sdiv y else x.udiv y) a b)

/-- `simd_rem` (llvm.rs:89): LLVM `srem` / `urem` on every lane. -/
def simdRem (s : Bool) (a b : Vec (BitVec w) n) : R (Vec (BitVec w) n) :=
  if (Vector.zipWith (divBad s) a b).any id then .error .ub
  else .ok (Vector.zipWith (fun x y => if s then x.srem y else x.umod y) a b)

/-- `simd_shl` (llvm.rs:90): a lane amount `>= w` (as an unsigned number) is poison. -/
def simdShl (a b : Vec (BitVec w) n) : R (Vec (BitVec w) n) :=
  if b.any (fun y => decide (w ≤ y.toNat)) then .error .ub
  else .ok (Vector.zipWith (fun x y => x <<< y.toNat) a b)

/-- `simd_shr` (llvm.rs:91): `ashr` for signed, `lshr` for unsigned lanes. -/
def simdShr (s : Bool) (a b : Vec (BitVec w) n) : R (Vec (BitVec w) n) :=
  if b.any (fun y => decide (w ≤ y.toNat)) then .error .ub
  else .ok (Vector.zipWith (fun x y => if s then x.sshiftRight y.toNat else x >>> y.toNat) a b)

/-- `simd_and/or/xor` (llvm.rs:92-94). -/
def simdAnd (a b : Vec (BitVec w) n) : Vec (BitVec w) n := Vector.zipWith (· &&& ·) a b
def simdOr  (a b : Vec (BitVec w) n) : Vec (BitVec w) n := Vector.zipWith (· ||| ·) a b
def simdXor (a b : Vec (BitVec w) n) : Vec (BitVec w) n := Vector.zipWith (· ^^^ ·) a b

/-- `simd_reduce_add_ordered(x, acc)` / `simd_reduce_mul_ordered` (llvm.rs:98-99):
left-to-right accumulation starting from `acc`, with the lane operation `op`. -/
def simdReduceOrdered (op : α → α → α) (v : Vec α n) (acc : α) : α := v.toList.foldl op acc

/-- `simd_reduce_and/or/xor/min/max` (llvm.rs:100-106): an associative-commutative lane operation
folded over all lanes; specified here as the left fold starting from lane 0. -/
def simdReduce (op : α → α → α) (v : Vec α n) : R α :=
  match v.toList with
  | [] => .error .ub
  | x :: xs => .ok (xs.foldl op x)

/-- Is the lane a legal mask lane (all zeros or all ones)? -/
def legalMaskLane (x : BitVec w) : Bool := x == 0#w || x == BitVec.allOnes w

/-- `simd_reduce_all` (llvm.rs:107): lanes must be legal mask lanes. -/
def simdReduceAll (v : Vec (BitVec w) n) : R Bool :=
  if v.all legalMaskLane then .ok (v.all (fun x => x != 0#w)) else .error .ub

/-- `simd_reduce_any` (llvm.rs:108). -/
def simdReduceAny (v : Vec (BitVec w) n) : R Bool :=
  if v.all legalMaskLane then .ok (v.any (fun x => x != 0#w)) else .error .ub

/-- `simd_select(m, a, b)` (llvm.rs:110): lanes of `m` must be legal mask lanes. -/
def simdSelect (m : Vec (BitVec w) n) (a b : Vec α n) : R (Vec α n) :=
  if m.all legalMaskLane then
    .ok (Vector.ofFn fun i => if m[i] != 0#w then a[i] else b[i])
  else .error .ub

/-- `simd_bitmask` (llvm.rs:121): the most significant bit of lane `i` becomes bit `i` of an unsigned integer with
`r` bits (`r >= n`); remaining bits are zero. -/
def simdBitmask (r : Nat) (v : Vec (BitVec w) n) : BitVec r :=
  BitVec.ofNat r (v.toList.foldr (fun x acc => (if x.msb then 1 else 0) + 2 * acc) 0)

/-- `simd_shuffle(x, y, IDX)` (llvm.rs:9, 12-70): lane `k` of the result is lane `IDX[k]` of the concatenation
of `x` and `y`; rustc rejects constant indices outside `0..2n` at compile time (`none`). -/
def simdShuffle {m : Nat} (x y : Vec α n) (idx : Vector Nat m) : Option (Vec α m) :=
  if h : ∀ k : Fin m, idx[k] < n + n then
    some (Vector.ofFn fun k => (x ++ y)[idx[k]]'(h k))
  else none

end PackedSimd.Intr
