import Verif.Model.Tables
import Verif.Model.FloatVec
import Verif.Model.Bytes
/-
src/api/cast.rs, src/api/cast/macros.rs, src/api/from/from_vector.rs, src/api/into_bits.rs, src/api/into_bits/macros.rs.
`p` = size of a pointer in bytes.
-/
namespace PackedSimd
open Intr

namespace Intr

/-- A vector instruction whose result is undefined as soon as one lane is. -/
def lanesOrUb {α : Type} {n : Nat} (v : Vec (R α) n) : R (Vec α n) :=
  if h : ∀ i : Fin n, (v[i]).toOption.isSome then .ok (Vector.ofFn fun i => (v[i]).toOption.get (h i)) else .error .ub

/-- `simd_cast` on one lane (src/codegen/llvm.rs:83): rustc emits `trunc`/`sext`/`zext`, `sitofp`/`uitofp`, `fptosi`/`fptoui`,
`fptrunc`/`fpext` according to the stored lane types. -/
def castLane (p : Nat) (dst src : Elem) (x : BitVec (src.bits p)) : R (BitVec (dst.bits p)) :=
  match src.kind, dst.kind with
  | .float, .float => .ok (Flt.convert src.man (dst.bits p) dst.man x)
  | .float, _ => Flt.toInt src.man dst.signed (dst.bits p) x
  | _, .float => .ok (Flt.fromInt (dst.bits p) dst.man (if src.signed then x.toInt else x.toNat))
  | _, _ => .ok (if src.signed then x.signExtend (dst.bits p) else x.setWidth (dst.bits p))

/-- `simd_cast` on vectors. -/
def simdCast (p : Nat) (dst src : Elem) {n : Nat} (v : Vec (BitVec (src.bits p)) n) : R (Vec (BitVec (dst.bits p)) n) :=
  lanesOrUb (v.map (castLane p dst src))

end Intr

namespace Cast
variable {n : Nat} (p : Nat)

/-- `FromCast` by `impl_from_cast_!` (cast/macros.rs:5-12). -/
def fromCast (dst src : Elem) (x : Vec (BitVec (src.bits p)) n) : R (Vec (BitVec (dst.bits p)) n) := simdCast p dst src x

/-- `x.ne($from_ty::default())` (cast/macros.rs:43): the float comparison for float vectors. -/
def neDefault (src : Elem) (x : Vec (BitVec (src.bits p)) n) : Vec (BitVec (src.bits p)) n :=
  match src.kind with
  | .float => FVec.ne src.man x (default _ n)
  | .mask => Cmp.ne x (Mask.default _ n)
  | _ => Cmp.ne x (default _ n)

/-- `FromCast` by `impl_from_cast_mask_!` (cast/macros.rs:39-46): `x.ne(default()).select(splat(true), splat(false))`. -/
def fromCastMask (dst src : Elem) (x : Vec (BitVec (src.bits p)) n) : R (Vec (BitVec (dst.bits p)) n) :=
  select (neDefault p src x) (Mask.splat (dst.bits p) n true) (Mask.splat (dst.bits p) n false)

/-- The reflexive `FromCast` (cast.rs:82-87). -/
def fromCastRefl {α : Type} (x : α) : α := x

/-- `From` between vectors (from/from_vector.rs:8-18). -/
def fromVector (dst src : Elem) (x : Vec (BitVec (src.bits p)) n) : R (Vec (BitVec (dst.bits p)) n) := simdCast p dst src x

/-- An impl row: (target, source) listed in a table. -/
def Listed (table : List (VTy × List VTy)) (dst src : VTy) : Prop := ∃ r ∈ table, r.1 = dst ∧ src ∈ r.2

/-- `x.cast()` (cast.rs:70-79) for the impl that the tables provide; the two kinds of impl differ in how they compute. -/
inductive Casts (dst src : VTy) : (Vec (BitVec (src.elem.bits p)) src.lanes → R (Vec (BitVec (dst.elem.bits p)) src.lanes)) → Prop
  | cast : Listed Tables.castTable dst src → Casts dst src (fromCast p dst.elem src.elem)
  | mask : Listed Tables.castMaskTable dst src → Casts dst src (fromCastMask p dst.elem src.elem)

/-- `FromBits` by `impl_from_bits_!` (into_bits/macros.rs:5-10): `mem::transmute`; sizes must agree for it to compile. -/
def fromBits (e : Endian) (dst src : VTy) (h : src.bytes p = dst.bytes p) (x : src.Val p) : dst.Val p :=
  transmute e (dst.elem.bytes p) dst.lanes h x

/-- `FromBits` between a vector type and an architecture-specific type of the same size (into_bits/arch_specific.rs:15-79): `mem::transmute`.  A value
of an architecture-specific type is modelled by its bytes in memory order. -/
def toArch (e : Endian) {v : VTy} (x : v.Val p) : Vector Byte (v.bytes p) := toBytes e x
def fromArch (e : Endian) (v : VTy) (b : Vector Byte (v.bytes p)) : v.Val p := fromBytes e (v.elem.bytes p) v.lanes b

end Cast
end PackedSimd
