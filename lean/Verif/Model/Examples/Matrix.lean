import Verif.Model.Examples.Sums
import Verif.Model.Shuffle
/-
examples/matrix_inverse/src/{simd,scalar}.rs, over an arbitrary lane arithmetic.
-/
namespace PackedSimd
open Intr

namespace Ex

variable {α : Type}

/-- `Matrix4x4([[f32; 4]; 4])` (examples/matrix_inverse/src/lib.rs:10). -/
abbrev Mat (α : Type) := Vector (Vector α 4) 4

/-- Lanewise operators of float vectors (src/api/ops/vector_arithmetic.rs:5-39). -/
scoped instance (priority := high) vecAdd [Add α] {n : Nat} : Add (Vec α n) := ⟨Vector.zipWith (· + ·)⟩
@[inherit_doc vecAdd] scoped instance (priority := high) vecSub [Sub α] {n : Nat} : Sub (Vec α n) := ⟨Vector.zipWith (· - ·)⟩
@[inherit_doc vecAdd] scoped instance (priority := high) vecMul [Mul α] {n : Nat} : Mul (Vec α n) := ⟨Vector.zipWith (· * ·)⟩
@[inherit_doc vecAdd] scoped instance (priority := high) vecDiv [Div α] {n : Nat} : Div (Vec α n) := ⟨Vector.zipWith (· / ·)⟩

/-- `recpre` (src/api/math/float/recpre.rs:10-12). -/
def vrecpre [One α] [Div α] {n : Nat} (v : Vec α n) : Vec α n := (splat n 1 : Vec α n) / v

/-- `shuffle!(a, b, [i, j, k, l])` with literal indices (src/api/shuffle.rs:75-178); `sh2_eq` shows that it is `shuffle2`, whose indices are
checked at compile time. -/
def sh2 (a b : Vec α 4) (i j k l : Fin 8) : Vec α 4 :=
  let at_ (i : Fin 8) : α := if h : i.val < 4 then a[i.val] else b[i.val - 4]
  Vector.ofFn fun p => if p = 0 then at_ i else if p = 1 then at_ j else if p = 2 then at_ k else at_ l
/-- `shuffle!(v, [i, j, k, l])` (src/api/shuffle.rs:179-183). -/
def sh1 (v : Vec α 4) (i j k l : Fin 8) : Vec α 4 := sh2 v v i j k l

variable [Zero α] [One α] [Add α] [Sub α] [Mul α] [Div α] [Neg α]

/-- The values `minor0..minor3` and `det` of `simd::inv4x4` at line 82. -/
structure Minors (α : Type) where
  minor0 : Vec α 4
  minor1 : Vec α 4
  minor2 : Vec α 4
  minor3 : Vec α 4
  det : Vec α 4

/-- `simd::inv4x4`, lines 8-81 of simd.rs, statement by statement (each `let` shadows as in the source).  The slices `m[k]` have four
elements, so `from_slice_unaligned` never panics (C05); it is the identity here. -/
def minorsSimd (m : Mat α) : Minors α :=
  let m_0 : Vec α 4 := m[0]
  let m_1 : Vec α 4 := m[1]
  let m_2 : Vec α 4 := m[2]
  let m_3 : Vec α 4 := m[3]
  let tmp1 := sh2 m_0 m_1 0 1 4 5
  let row1 := sh2 m_2 m_3 0 1 4 5
  let row0 := sh2 tmp1 row1 0 2 4 6
  let row1 := sh2 row1 tmp1 1 3 5 7
  let tmp1 := sh2 m_0 m_1 2 3 6 7
  let row3 := sh2 m_2 m_3 2 3 6 7
  let row2 := sh2 tmp1 row3 0 2 4 6
  let row3 := sh2 row3 tmp1 1 3 5 7
  let tmp1 := row2 * row3
  let tmp1 := sh1 tmp1 1 0 3 2
  let minor0 := row1 * tmp1
  let minor1 := row0 * tmp1
  let tmp1 := sh1 tmp1 2 3 0 1
  let minor0 := (row1 * tmp1) - minor0
  let minor1 := (row0 * tmp1) - minor1
  let minor1 := sh1 minor1 2 3 0 1
  let tmp1 := row1 * row2
  let tmp1 := sh1 tmp1 1 0 3 2
  let minor0 := (row3 * tmp1) + minor0
  let minor3 := row0 * tmp1
  let tmp1 := sh1 tmp1 2 3 0 1
  let minor0 := minor0 - row3 * tmp1
  let minor3 := row0 * tmp1 - minor3
  let minor3 := sh1 minor3 2 3 0 1
  let tmp1 := row3 * sh1 row1 2 3 0 1
  let tmp1 := sh1 tmp1 1 0 3 2
  let row2 := sh1 row2 2 3 0 1
  let minor0 := row2 * tmp1 + minor0
  let minor2 := row0 * tmp1
  let tmp1 := sh1 tmp1 2 3 0 1
  let minor0 := minor0 - row2 * tmp1
  let minor2 := row0 * tmp1 - minor2
  let minor2 := sh1 minor2 2 3 0 1
  let tmp1 := row0 * row1
  let tmp1 := sh1 tmp1 1 0 3 2
  let minor2 := minor2 + row3 * tmp1
  let minor3 := row2 * tmp1 - minor3
  let tmp1 := sh1 tmp1 2 3 0 1
  let minor2 := row3 * tmp1 - minor2
  let minor3 := minor3 - row2 * tmp1
  let tmp1 := row0 * row3
  let tmp1 := sh1 tmp1 1 0 3 2
  let minor1 := minor1 - row2 * tmp1
  let minor2 := row1 * tmp1 + minor2
  let tmp1 := sh1 tmp1 2 3 0 1
  let minor1 := row2 * tmp1 + minor1
  let minor2 := minor2 - row1 * tmp1
  let tmp1 := row0 * row2
  let tmp1 := sh1 tmp1 1 0 3 2
  let minor1 := row3 * tmp1 + minor1
  let minor3 := minor3 - row1 * tmp1
  let tmp1 := sh1 tmp1 2 3 0 1
  let minor1 := minor1 - row3 * tmp1
  let minor3 := row1 * tmp1 + minor3
  let det := row0 * minor0
  let det := sh1 det 2 3 0 1 + det
  let det := sh1 det 1 0 3 2 + det
  ⟨minor0, minor1, minor2, minor3, det⟩

/-- `simd::inv4x4` (simd.rs:7-102); lines 83-101.  `isZero x` is `x == 0.`; `write_to_slice_unaligned` to four elements never panics (C06). -/
def invSimd (t : Target) (isZero : α → Bool) (m : Mat α) : R (Option (Mat α)) := do
  let ⟨minor0, minor1, minor2, minor3, det⟩ := minorsSimd m
  let s ← vsum t ⟨0, (· + ·), (· * ·)⟩ det
  if isZero s then return none
  else
    let tmp1 := vrecpre det
    let det := tmp1 + tmp1 - det * tmp1 * tmp1
    let res0 := minor0 * det
    let res1 := minor1 * det
    let res2 := minor2 * det
    let res3 := minor3 * det
    return some #v[res0, res1, res2, res3]

set_option linter.unusedVariables false

/-- Row 0 of the cofactors `inv` (scalar.rs:10-39); `mij` is `m[i][j]`. -/
def cof0 (m00 m01 m02 m03 m10 m11 m12 m13 m20 m21 m22 m23 m30 m31 m32 m33 : α) : Vector α 4 :=
  #v[m11 * m22 * m33 - m11 * m23 * m32 - m21 * m12 * m33 + m21 * m13 * m32 + m31 * m12 * m23 - m31 * m13 * m22,
     (-m01) * m22 * m33 + m01 * m23 * m32 + m21 * m02 * m33 - m21 * m03 * m32 - m31 * m02 * m23 + m31 * m03 * m22,
     m01 * m12 * m33 - m01 * m13 * m32 - m11 * m02 * m33 + m11 * m03 * m32 + m31 * m02 * m13 - m31 * m03 * m12,
     (-m01) * m12 * m23 + m01 * m13 * m22 + m11 * m02 * m23 - m11 * m03 * m22 - m21 * m02 * m13 + m21 * m03 * m12]

/-- Row 1 of the cofactors `inv` (scalar.rs:40-69); `mij` is `m[i][j]`. -/
def cof1 (m00 m01 m02 m03 m10 m11 m12 m13 m20 m21 m22 m23 m30 m31 m32 m33 : α) : Vector α 4 :=
  #v[(-m10) * m22 * m33 + m10 * m23 * m32 + m20 * m12 * m33 - m20 * m13 * m32 - m30 * m12 * m23 + m30 * m13 * m22,
     m00 * m22 * m33 - m00 * m23 * m32 - m20 * m02 * m33 + m20 * m03 * m32 + m30 * m02 * m23 - m30 * m03 * m22,
     (-m00) * m12 * m33 + m00 * m13 * m32 + m10 * m02 * m33 - m10 * m03 * m32 - m30 * m02 * m13 + m30 * m03 * m12,
     m00 * m12 * m23 - m00 * m13 * m22 - m10 * m02 * m23 + m10 * m03 * m22 + m20 * m02 * m13 - m20 * m03 * m12]

/-- Row 2 of the cofactors `inv` (scalar.rs:70-99); `mij` is `m[i][j]`. -/
def cof2 (m00 m01 m02 m03 m10 m11 m12 m13 m20 m21 m22 m23 m30 m31 m32 m33 : α) : Vector α 4 :=
  #v[m10 * m21 * m33 - m10 * m23 * m31 - m20 * m11 * m33 + m20 * m13 * m31 + m30 * m11 * m23 - m30 * m13 * m21,
     (-m00) * m21 * m33 + m00 * m23 * m31 + m20 * m01 * m33 - m20 * m03 * m31 - m30 * m01 * m23 + m30 * m03 * m21,
     m00 * m11 * m33 - m00 * m13 * m31 - m10 * m01 * m33 + m10 * m03 * m31 + m30 * m01 * m13 - m30 * m03 * m11,
     (-m00) * m11 * m23 + m00 * m13 * m21 + m10 * m01 * m23 - m10 * m03 * m21 - m20 * m01 * m13 + m20 * m03 * m11]

/-- Row 3 of the cofactors `inv` (scalar.rs:100-129); `mij` is `m[i][j]`. -/
def cof3 (m00 m01 m02 m03 m10 m11 m12 m13 m20 m21 m22 m23 m30 m31 m32 m33 : α) : Vector α 4 :=
  #v[(-m10) * m21 * m32 + m10 * m22 * m31 + m20 * m11 * m32 - m20 * m12 * m31 - m30 * m11 * m22 + m30 * m12 * m21,
     m00 * m21 * m32 - m00 * m22 * m31 - m20 * m01 * m32 + m20 * m02 * m31 + m30 * m01 * m22 - m30 * m02 * m21,
     (-m00) * m11 * m32 + m00 * m12 * m31 + m10 * m01 * m32 - m10 * m02 * m31 - m30 * m01 * m12 + m30 * m02 * m11,
     m00 * m11 * m22 - m00 * m12 * m21 - m10 * m01 * m22 + m10 * m02 * m21 + m20 * m01 * m12 - m20 * m02 * m11]

/-- `inv` before scaling (scalar.rs:9-130). -/
def invScalarCofactors (m : Mat α) : Mat α :=
  let f (g : α → α → α → α → α → α → α → α → α → α → α → α → α → α → α → α → Vector α 4) : Vector α 4 :=
    g m[0][0] m[0][1] m[0][2] m[0][3] m[1][0] m[1][1] m[1][2] m[1][3] m[2][0] m[2][1] m[2][2] m[2][3] m[3][0] m[3][1] m[3][2] m[3][3]
  #v[f cof0, f cof1, f cof2, f cof3]

/-- `scalar::inv4x4` (scalar.rs:6-145). -/
def invScalar (isZero : α → Bool) (m : Mat α) : Option (Mat α) :=
  let inv := invScalarCofactors m
  let det := m[0][0] * inv[0][0] + m[0][1] * inv[1][0] + m[0][2] * inv[2][0] + m[0][3] * inv[3][0]
  if isZero det then none
  else
    let det_inv := 1 / det
    some (inv.map fun row => row.map fun elem => elem * det_inv)

end Ex
end PackedSimd

namespace PackedSimd.Ex

/-- `f32` with IEEE arithmetic (Model/Float.lean), for running example programs on the repository's test inputs. -/
structure F32 where
  bits : BitVec 32
deriving DecidableEq

instance : Zero F32 := ⟨⟨0⟩⟩
instance : One F32 := ⟨⟨0x3f800000⟩⟩
instance : Add F32 := ⟨fun a b => ⟨Flt.add 23 a.bits b.bits⟩⟩
instance : Sub F32 := ⟨fun a b => ⟨Flt.sub 23 a.bits b.bits⟩⟩
instance : Mul F32 := ⟨fun a b => ⟨Flt.mul 23 a.bits b.bits⟩⟩
instance : Div F32 := ⟨fun a b => ⟨Flt.div 23 a.bits b.bits⟩⟩
instance : Neg F32 := ⟨fun a => ⟨Flt.negate a.bits⟩⟩
/-- `x == 0.` -/
def F32.isZero (x : F32) : Bool := Flt.oeq 23 x.bits 0
/-- Integer constants. -/
def F32.ofInt (z : Int) : F32 := ⟨Flt.fromInt 32 23 z⟩

/-- `f64` likewise. -/
structure F64 where
  bits : BitVec 64
deriving DecidableEq

instance : Zero F64 := ⟨⟨0⟩⟩
instance : One F64 := ⟨⟨0x3ff0000000000000⟩⟩
instance : Add F64 := ⟨fun a b => ⟨Flt.add 52 a.bits b.bits⟩⟩
instance : Sub F64 := ⟨fun a b => ⟨Flt.sub 52 a.bits b.bits⟩⟩
instance : Mul F64 := ⟨fun a b => ⟨Flt.mul 52 a.bits b.bits⟩⟩
instance : Div F64 := ⟨fun a b => ⟨Flt.div 52 a.bits b.bits⟩⟩
instance : Neg F64 := ⟨fun a => ⟨Flt.negate a.bits⟩⟩
/-- `a <= b`, `a > b`. -/
def F64.le (a b : F64) : Bool := Flt.ole 52 a.bits b.bits
def F64.gt (a b : F64) : Bool := Flt.ogt 52 a.bits b.bits
/-- Integer constants. -/
def F64.ofInt (z : Int) : F64 := ⟨Flt.fromInt 64 52 z⟩

end PackedSimd.Ex
