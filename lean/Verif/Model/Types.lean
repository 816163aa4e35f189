import Verif.Model.Basic
/-
The lane types and vector types of the crate (src/lib.rs, src/api.rs, src/masks.rs, src/codegen/pointer_sized_int.rs).
-/
namespace PackedSimd

/-- Lane types.  (`m*`: the mask element types of src/masks.rs; pointer-sized types depend on the target.) -/
inductive Elem where
  | i8 | u8 | m8 | i16 | u16 | m16 | i32 | u32 | m32 | f32 | i64 | u64 | m64 | f64 | i128 | u128 | m128 | isize | usize | msize
deriving DecidableEq

inductive Kind where
  | sint | uint | mask | float
deriving DecidableEq

def Elem.kind : Elem → Kind
  | .i8 | .i16 | .i32 | .i64 | .i128 | .isize => .sint
  | .u8 | .u16 | .u32 | .u64 | .u128 | .usize => .uint
  | .m8 | .m16 | .m32 | .m64 | .m128 | .msize => .mask
  | .f32 | .f64 => .float

/-- Size in bytes; `p` is the size of a pointer (src/codegen/pointer_sized_int.rs:5-28 maps `isize` to `i32`/`i64`). -/
def Elem.bytes (p : Nat) : Elem → Nat
  | .i8 | .u8 | .m8 => 1
  | .i16 | .u16 | .m16 => 2
  | .i32 | .u32 | .m32 | .f32 => 4
  | .i64 | .u64 | .m64 | .f64 => 8
  | .i128 | .u128 | .m128 => 16
  | .isize | .usize | .msize => p

/-- Width in bits. -/
abbrev Elem.bits (p : Nat) (e : Elem) : Nat := 8 * e.bytes p

/-- Signedness of the stored integer: masks are stored as signed integers (src/codegen/v*.rs). -/
def Elem.signed (e : Elem) : Bool := match e.kind with | .sint | .mask => true | _ => false

/-- Fraction bits of the float types. -/
def Elem.man : Elem → Nat
  | .f32 => 23
  | .f64 => 52
  | _ => 0

/-- A vector type: lane type and number of lanes. -/
structure VTy where
  elem : Elem
  lanes : Nat
deriving DecidableEq

/-- Size in bytes. -/
def VTy.bytes (p : Nat) (v : VTy) : Nat := v.lanes * v.elem.bytes p

/-- A value of a vector type. -/
abbrev VTy.Val (p : Nat) (v : VTy) : Type := Vec (BitVec (v.elem.bits p)) v.lanes

/-- One `impl_i!` / `impl_u!` / `impl_f!` / `impl_m!` invocation. -/
structure VectorRow where
  ty : VTy
  elem : Elem
  lanes : Nat
  mask : VTy
  args : Nat
  bitmask : Nat

/-- One architecture-specific type with its conversions (src/api/into_bits/arch_specific.rs). -/
structure ArchRow where
  arch : String
  name : String
  bytes : Nat
  boolLane : Nat
  from_ : List VTy
  into : List VTy

end PackedSimd
