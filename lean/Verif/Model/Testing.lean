import Verif.Model.FloatVec
/-
src/testing/utils.rs: the checks the crate's own tests of the lexicographic comparisons go through.
-/
namespace PackedSimd.Testing

/-- `assert!(e)`. -/
def assert (e : R Bool) : R Unit := do if ← e then return () else .error .panic
/-- `assert!(!e)`. -/
def assertNot (e : R Bool) : R Unit := do if ← e then .error .panic else return ()
/-- `assert_eq!` of two outcomes of a comparison. -/
def assertSame (p q : Option Ordering) : R Unit := if p = q then .ok () else .error .panic

/-- The comparisons of `LexicographicallyOrdered<T>`: `PartialEq` and `PartialOrd`. -/
structure Ops (V : Type) where
  eq : V → V → R Bool
  ne : V → V → R Bool
  lt : V → V → R Bool
  le : V → V → R Bool
  gt : V → V → R Bool
  ge : V → V → R Bool
  cmp : V → V → R (Option Ordering)

variable {V E : Type} (o : Ops V)

/-- `test_lt` (utils.rs:10-36); `assert_ne!` is `!(a == b)`. -/
def testLt (a b : V) : R Unit := do
  assert (o.lt a b)
  assert (o.gt b a)
  assertNot (o.eq a b)
  assertNot (o.eq a b)
  assert (o.le a b)
  assert (o.ge b a)
  assertNot (o.lt a a)
  assertNot (o.lt b b)
  assertNot (o.gt a a)
  assertNot (o.gt b b)
  assert (o.le a a)
  assert (o.le b b)

/-- `test_le` (utils.rs:39-58). -/
def testLe (a b : V) : R Unit := do
  assert (o.le a b)
  assert (o.ge b a)
  assert (o.le a b)
  assert (o.ge b a)
  if ← o.eq a b then
    assertNot (o.lt a b)
    assertNot (o.gt b a)
    assertNot (o.ne a b)
  else
    assertNot (o.eq a b)
    testLt o a b

/-- The array of 64 elements (utils.rs:71-75) whose first elements are overwritten with the lanes of a vector. -/
def padded (dflt : E) (lanes : List E) : List E := lanes ++ List.replicate (64 - lanes.length) dflt

/-- `partial_cmp` of slices, as documented: the first pair that does not compare equal decides, then the lengths. -/
def slicePartialCmp (pc : E → E → Option Ordering) : List E → List E → Option Ordering
  | x :: xs, y :: ys => match pc x y with
    | some .eq => slicePartialCmp pc xs ys
    | r => r
  | xs, ys => some (compare xs.length ys.length)

/-- `test_cmp` (utils.rs:61-113) on vectors of `n` lanes; `lanes` are the elements of a vector, `pc` their `partial_cmp`, `dflt` their default. -/
def testCmp (n : Nat) (lanes : V → List E) (pc : E → E → Option Ordering) (dflt : E) (a b : V) (exp : Option Ordering) : R Unit := do
  assert (.ok (n ≤ 64))
  let expected := slicePartialCmp pc ((padded dflt (lanes a)).take n) ((padded dflt (lanes b)).take n)
  let result ← o.cmp a b
  assertSame expected result
  assertSame exp result
  match exp with
  | some .lt => do
    testLt o a b
    testLe o a b
  | some .gt => do
    testLt o b a
    testLe o b a
  | some .eq => do
    assert (o.eq a b)
    assertNot (o.ne a b)
    assertNot (o.lt a b)
    assertNot (o.lt b a)
    assertNot (o.gt a b)
    assertNot (o.gt b a)
    testLe o a b
    testLe o b a
  | none => do
    assertNot (o.eq a b)
    assertNot (o.ne a b)
    assertNot (o.lt a b)
    assertNot (o.gt a b)
    assertNot (o.lt b a)
    assertNot (o.gt b a)
    assertNot (o.le a b)
    assertNot (o.le b a)
    assertNot (o.ge a b)
    assertNot (o.ge b a)

/-- The comparisons of integer and mask vectors. -/
def intOps (t : Target) (ty : MaskTy) (isMask s : Bool) : Ops (Vec (BitVec (8 * ty.laneBytes t)) ty.lanes) :=
  ⟨intEq t ty, intNe t ty, lexLt t ty isMask s, lexLe t ty isMask s, lexGt t ty isMask s, lexGe t ty isMask s, lexPartialCmp t ty isMask s⟩

/-- The comparisons of float vectors. -/
def fltOps (man : Nat) (t : Target) (ty : MaskTy) : Ops (Vec (BitVec (8 * ty.laneBytes t)) ty.lanes) :=
  ⟨FVec.partialEq man t ty, FVec.partialNe man t ty, FVec.lexLt man t ty, FVec.lexLe man t ty, FVec.lexGt man t ty, FVec.lexGe man t ty,
    FVec.lexPartialCmp man t ty⟩

/-- `partial_cmp` of Rust's integers. -/
def intElemCmp {w : Nat} (s : Bool) (x y : BitVec w) : Option Ordering :=
  some (if Intr.laneLt s x y then .lt else if x == y then .eq else .gt)
/-- `partial_cmp` of Rust's floats. -/
def fltElemCmp {w : Nat} (man : Nat) (x y : BitVec w) : Option Ordering :=
  if Flt.olt man x y then some .lt else if Flt.oeq man x y then some .eq else if Flt.ogt man x y then some .gt else none

/-- `test_cmp` on integer vectors. -/
def testCmpInt (t : Target) (ty : MaskTy) (s : Bool) (a b : Vec (BitVec (8 * ty.laneBytes t)) ty.lanes) (exp : Option Ordering) : R Unit :=
  testCmp (intOps t ty false s) ty.lanes Vector.toList (intElemCmp s) 0 a b exp
/-- `test_cmp` on mask vectors. -/
def testCmpMask (t : Target) (ty : MaskTy) (a b : Vec (BitVec (8 * ty.laneBytes t)) ty.lanes) (exp : Option Ordering) : R Unit :=
  testCmp (intOps t ty true true) ty.lanes Vector.toList MaskLane.partialCmp (MaskLane.default _) a b exp
/-- `test_cmp` on float vectors. -/
def testCmpFlt (man : Nat) (t : Target) (ty : MaskTy) (a b : Vec (BitVec (8 * ty.laneBytes t)) ty.lanes) (exp : Option Ordering) : R Unit :=
  testCmp (fltOps man t ty) ty.lanes Vector.toList (fltElemCmp man) 0 a b exp

end PackedSimd.Testing
