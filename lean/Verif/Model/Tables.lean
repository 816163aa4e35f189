import Verif.Model.Types
/-
GENERATED by tools/gen_tables.py from the macro invocations in /repo/src.  Do not edit.
-/
namespace PackedSimd.Tables

/-- `impl_i!`, `impl_u!`, `impl_f!`, `impl_m!` (src/v16.rs .. v512.rs, vSize.rs): the vector type, the declared element type and count, its mask
type, the number of constructor arguments of `new`, and the width of the bitmask type (0: none). -/
def vectorTypes : List VectorRow := [
  ⟨⟨.i8, 2⟩, .i8, 2, ⟨.m8, 2⟩, 2, 8⟩,
  ⟨⟨.u8, 2⟩, .u8, 2, ⟨.m8, 2⟩, 2, 8⟩,
  ⟨⟨.m8, 2⟩, .m8, 2, ⟨.m8, 2⟩, 2, 8⟩,
  ⟨⟨.i8, 4⟩, .i8, 4, ⟨.m8, 4⟩, 4, 8⟩,
  ⟨⟨.i16, 2⟩, .i16, 2, ⟨.m16, 2⟩, 2, 8⟩,
  ⟨⟨.u8, 4⟩, .u8, 4, ⟨.m8, 4⟩, 4, 8⟩,
  ⟨⟨.u16, 2⟩, .u16, 2, ⟨.m16, 2⟩, 2, 8⟩,
  ⟨⟨.m8, 4⟩, .m8, 4, ⟨.m8, 4⟩, 4, 8⟩,
  ⟨⟨.m16, 2⟩, .m16, 2, ⟨.m16, 2⟩, 2, 8⟩,
  ⟨⟨.i8, 8⟩, .i8, 8, ⟨.m8, 8⟩, 8, 8⟩,
  ⟨⟨.i16, 4⟩, .i16, 4, ⟨.m16, 4⟩, 4, 8⟩,
  ⟨⟨.i32, 2⟩, .i32, 2, ⟨.m32, 2⟩, 2, 8⟩,
  ⟨⟨.u8, 8⟩, .u8, 8, ⟨.m8, 8⟩, 8, 8⟩,
  ⟨⟨.u16, 4⟩, .u16, 4, ⟨.m16, 4⟩, 4, 8⟩,
  ⟨⟨.u32, 2⟩, .u32, 2, ⟨.m32, 2⟩, 2, 8⟩,
  ⟨⟨.f32, 2⟩, .f32, 2, ⟨.m32, 2⟩, 2, 0⟩,
  ⟨⟨.m8, 8⟩, .m8, 8, ⟨.m8, 8⟩, 8, 8⟩,
  ⟨⟨.m16, 4⟩, .m16, 4, ⟨.m16, 4⟩, 4, 8⟩,
  ⟨⟨.m32, 2⟩, .m32, 2, ⟨.m32, 2⟩, 2, 8⟩,
  ⟨⟨.i8, 16⟩, .i8, 16, ⟨.m8, 16⟩, 16, 16⟩,
  ⟨⟨.i16, 8⟩, .i16, 8, ⟨.m16, 8⟩, 8, 8⟩,
  ⟨⟨.i32, 4⟩, .i32, 4, ⟨.m32, 4⟩, 4, 8⟩,
  ⟨⟨.i64, 2⟩, .i64, 2, ⟨.m64, 2⟩, 2, 8⟩,
  ⟨⟨.i128, 1⟩, .i128, 1, ⟨.m128, 1⟩, 1, 8⟩,
  ⟨⟨.u8, 16⟩, .u8, 16, ⟨.m8, 16⟩, 16, 16⟩,
  ⟨⟨.u16, 8⟩, .u16, 8, ⟨.m16, 8⟩, 8, 8⟩,
  ⟨⟨.u32, 4⟩, .u32, 4, ⟨.m32, 4⟩, 4, 8⟩,
  ⟨⟨.u64, 2⟩, .u64, 2, ⟨.m64, 2⟩, 2, 8⟩,
  ⟨⟨.u128, 1⟩, .u128, 1, ⟨.m128, 1⟩, 1, 8⟩,
  ⟨⟨.f32, 4⟩, .f32, 4, ⟨.m32, 4⟩, 4, 0⟩,
  ⟨⟨.f64, 2⟩, .f64, 2, ⟨.m64, 2⟩, 2, 0⟩,
  ⟨⟨.m8, 16⟩, .m8, 16, ⟨.m8, 16⟩, 16, 16⟩,
  ⟨⟨.m16, 8⟩, .m16, 8, ⟨.m16, 8⟩, 8, 8⟩,
  ⟨⟨.m32, 4⟩, .m32, 4, ⟨.m32, 4⟩, 4, 8⟩,
  ⟨⟨.m64, 2⟩, .m64, 2, ⟨.m64, 2⟩, 2, 8⟩,
  ⟨⟨.m128, 1⟩, .m128, 1, ⟨.m128, 1⟩, 1, 8⟩,
  ⟨⟨.i8, 32⟩, .i8, 32, ⟨.m8, 32⟩, 32, 32⟩,
  ⟨⟨.i16, 16⟩, .i16, 16, ⟨.m16, 16⟩, 16, 16⟩,
  ⟨⟨.i32, 8⟩, .i32, 8, ⟨.m32, 8⟩, 8, 8⟩,
  ⟨⟨.i64, 4⟩, .i64, 4, ⟨.m64, 4⟩, 4, 8⟩,
  ⟨⟨.i128, 2⟩, .i128, 2, ⟨.m128, 2⟩, 2, 8⟩,
  ⟨⟨.u8, 32⟩, .u8, 32, ⟨.m8, 32⟩, 32, 32⟩,
  ⟨⟨.u16, 16⟩, .u16, 16, ⟨.m16, 16⟩, 16, 16⟩,
  ⟨⟨.u32, 8⟩, .u32, 8, ⟨.m32, 8⟩, 8, 8⟩,
  ⟨⟨.u64, 4⟩, .u64, 4, ⟨.m64, 4⟩, 4, 8⟩,
  ⟨⟨.u128, 2⟩, .u128, 2, ⟨.m128, 2⟩, 2, 8⟩,
  ⟨⟨.f32, 8⟩, .f32, 8, ⟨.m32, 8⟩, 8, 0⟩,
  ⟨⟨.f64, 4⟩, .f64, 4, ⟨.m64, 4⟩, 4, 0⟩,
  ⟨⟨.m8, 32⟩, .m8, 32, ⟨.m8, 32⟩, 32, 32⟩,
  ⟨⟨.m16, 16⟩, .m16, 16, ⟨.m16, 16⟩, 16, 16⟩,
  ⟨⟨.m32, 8⟩, .m32, 8, ⟨.m32, 8⟩, 8, 8⟩,
  ⟨⟨.m64, 4⟩, .m64, 4, ⟨.m64, 4⟩, 4, 8⟩,
  ⟨⟨.m128, 2⟩, .m128, 2, ⟨.m128, 2⟩, 2, 8⟩,
  ⟨⟨.i8, 64⟩, .i8, 64, ⟨.m8, 64⟩, 64, 64⟩,
  ⟨⟨.i16, 32⟩, .i16, 32, ⟨.m16, 32⟩, 32, 32⟩,
  ⟨⟨.i32, 16⟩, .i32, 16, ⟨.m32, 16⟩, 16, 16⟩,
  ⟨⟨.i64, 8⟩, .i64, 8, ⟨.m64, 8⟩, 8, 8⟩,
  ⟨⟨.i128, 4⟩, .i128, 4, ⟨.m128, 4⟩, 4, 8⟩,
  ⟨⟨.u8, 64⟩, .u8, 64, ⟨.m8, 64⟩, 64, 64⟩,
  ⟨⟨.u16, 32⟩, .u16, 32, ⟨.m16, 32⟩, 32, 32⟩,
  ⟨⟨.u32, 16⟩, .u32, 16, ⟨.m32, 16⟩, 16, 16⟩,
  ⟨⟨.u64, 8⟩, .u64, 8, ⟨.m64, 8⟩, 8, 8⟩,
  ⟨⟨.u128, 4⟩, .u128, 4, ⟨.m128, 4⟩, 4, 8⟩,
  ⟨⟨.f32, 16⟩, .f32, 16, ⟨.m32, 16⟩, 16, 0⟩,
  ⟨⟨.f64, 8⟩, .f64, 8, ⟨.m64, 8⟩, 8, 0⟩,
  ⟨⟨.m8, 64⟩, .m8, 64, ⟨.m8, 64⟩, 64, 64⟩,
  ⟨⟨.m16, 32⟩, .m16, 32, ⟨.m16, 32⟩, 32, 32⟩,
  ⟨⟨.m32, 16⟩, .m32, 16, ⟨.m32, 16⟩, 16, 16⟩,
  ⟨⟨.m64, 8⟩, .m64, 8, ⟨.m64, 8⟩, 8, 8⟩,
  ⟨⟨.m128, 4⟩, .m128, 4, ⟨.m128, 4⟩, 4, 8⟩,
  ⟨⟨.isize, 2⟩, .isize, 2, ⟨.msize, 2⟩, 2, 8⟩,
  ⟨⟨.isize, 4⟩, .isize, 4, ⟨.msize, 4⟩, 4, 8⟩,
  ⟨⟨.isize, 8⟩, .isize, 8, ⟨.msize, 8⟩, 8, 8⟩,
  ⟨⟨.usize, 2⟩, .usize, 2, ⟨.msize, 2⟩, 2, 8⟩,
  ⟨⟨.usize, 4⟩, .usize, 4, ⟨.msize, 4⟩, 4, 8⟩,
  ⟨⟨.usize, 8⟩, .usize, 8, ⟨.msize, 8⟩, 8, 8⟩,
  ⟨⟨.msize, 2⟩, .msize, 2, ⟨.msize, 2⟩, 2, 8⟩,
  ⟨⟨.msize, 4⟩, .msize, 4, ⟨.msize, 4⟩, 4, 8⟩,
  ⟨⟨.msize, 8⟩, .msize, 8, ⟨.msize, 8⟩, 8, 8⟩]

/-- `From` between vector types (the `From:` lists of src/v*.rs): target, sources. -/
def fromTable : List (VTy × List VTy) := [
  (⟨.m8, 2⟩, [⟨.m16, 2⟩, ⟨.m32, 2⟩, ⟨.m64, 2⟩, ⟨.m128, 2⟩]),
  (⟨.i16, 2⟩, [⟨.i8, 2⟩, ⟨.u8, 2⟩]),
  (⟨.u16, 2⟩, [⟨.u8, 2⟩]),
  (⟨.m8, 4⟩, [⟨.m16, 4⟩, ⟨.m32, 4⟩, ⟨.m64, 4⟩]),
  (⟨.m16, 2⟩, [⟨.m8, 2⟩, ⟨.m32, 2⟩, ⟨.m64, 2⟩, ⟨.m128, 2⟩]),
  (⟨.i16, 4⟩, [⟨.i8, 4⟩, ⟨.u8, 4⟩]),
  (⟨.i32, 2⟩, [⟨.i8, 2⟩, ⟨.u8, 2⟩, ⟨.i16, 2⟩, ⟨.u16, 2⟩]),
  (⟨.u16, 4⟩, [⟨.u8, 4⟩]),
  (⟨.u32, 2⟩, [⟨.u8, 2⟩, ⟨.u16, 2⟩]),
  (⟨.f32, 2⟩, [⟨.i8, 2⟩, ⟨.u8, 2⟩, ⟨.i16, 2⟩, ⟨.u16, 2⟩]),
  (⟨.m8, 8⟩, [⟨.m16, 8⟩, ⟨.m32, 8⟩]),
  (⟨.m16, 4⟩, [⟨.m8, 4⟩, ⟨.m32, 4⟩, ⟨.m64, 4⟩]),
  (⟨.m32, 2⟩, [⟨.m8, 2⟩, ⟨.m16, 2⟩, ⟨.m64, 2⟩, ⟨.m128, 2⟩]),
  (⟨.i16, 8⟩, [⟨.i8, 8⟩, ⟨.u8, 8⟩]),
  (⟨.i32, 4⟩, [⟨.i8, 4⟩, ⟨.u8, 4⟩, ⟨.i16, 4⟩, ⟨.u16, 4⟩]),
  (⟨.i64, 2⟩, [⟨.i8, 2⟩, ⟨.u8, 2⟩, ⟨.i16, 2⟩, ⟨.u16, 2⟩, ⟨.i32, 2⟩, ⟨.u32, 2⟩]),
  (⟨.u16, 8⟩, [⟨.u8, 8⟩]),
  (⟨.u32, 4⟩, [⟨.u8, 4⟩, ⟨.u16, 4⟩]),
  (⟨.u64, 2⟩, [⟨.u8, 2⟩, ⟨.u16, 2⟩, ⟨.u32, 2⟩]),
  (⟨.f32, 4⟩, [⟨.i8, 4⟩, ⟨.u8, 4⟩, ⟨.i16, 4⟩, ⟨.u16, 4⟩]),
  (⟨.f64, 2⟩, [⟨.i8, 2⟩, ⟨.u8, 2⟩, ⟨.i16, 2⟩, ⟨.u16, 2⟩, ⟨.i32, 2⟩, ⟨.u32, 2⟩, ⟨.f32, 2⟩]),
  (⟨.m8, 16⟩, [⟨.m16, 16⟩]),
  (⟨.m16, 8⟩, [⟨.m8, 8⟩, ⟨.m32, 8⟩]),
  (⟨.m32, 4⟩, [⟨.m8, 4⟩, ⟨.m16, 4⟩, ⟨.m64, 4⟩]),
  (⟨.m64, 2⟩, [⟨.m8, 2⟩, ⟨.m16, 2⟩, ⟨.m32, 2⟩, ⟨.m128, 2⟩]),
  (⟨.i16, 16⟩, [⟨.i8, 16⟩, ⟨.u8, 16⟩]),
  (⟨.i32, 8⟩, [⟨.i8, 8⟩, ⟨.u8, 8⟩, ⟨.i16, 8⟩, ⟨.u16, 8⟩]),
  (⟨.i64, 4⟩, [⟨.i8, 4⟩, ⟨.u8, 4⟩, ⟨.i16, 4⟩, ⟨.u16, 4⟩, ⟨.i32, 4⟩, ⟨.u32, 4⟩]),
  (⟨.i128, 2⟩, [⟨.i8, 2⟩, ⟨.u8, 2⟩, ⟨.i16, 2⟩, ⟨.u16, 2⟩, ⟨.i32, 2⟩, ⟨.u32, 2⟩, ⟨.i64, 2⟩, ⟨.u64, 2⟩]),
  (⟨.u16, 16⟩, [⟨.u8, 16⟩]),
  (⟨.u32, 8⟩, [⟨.u8, 8⟩, ⟨.u16, 8⟩]),
  (⟨.u64, 4⟩, [⟨.u8, 4⟩, ⟨.u16, 4⟩, ⟨.u32, 4⟩]),
  (⟨.u128, 2⟩, [⟨.u8, 2⟩, ⟨.u16, 2⟩, ⟨.u32, 2⟩, ⟨.u64, 2⟩]),
  (⟨.f32, 8⟩, [⟨.i8, 8⟩, ⟨.u8, 8⟩, ⟨.i16, 8⟩, ⟨.u16, 8⟩]),
  (⟨.f64, 4⟩, [⟨.i8, 4⟩, ⟨.u8, 4⟩, ⟨.i16, 4⟩, ⟨.u16, 4⟩, ⟨.i32, 4⟩, ⟨.u32, 4⟩, ⟨.f32, 4⟩]),
  (⟨.m16, 16⟩, [⟨.m8, 16⟩]),
  (⟨.m32, 8⟩, [⟨.m8, 8⟩, ⟨.m16, 8⟩]),
  (⟨.m64, 4⟩, [⟨.m8, 4⟩, ⟨.m16, 4⟩, ⟨.m32, 4⟩]),
  (⟨.m128, 2⟩, [⟨.m8, 2⟩, ⟨.m16, 2⟩, ⟨.m32, 2⟩, ⟨.m64, 2⟩]),
  (⟨.i16, 32⟩, [⟨.i8, 32⟩, ⟨.u8, 32⟩]),
  (⟨.i32, 16⟩, [⟨.i8, 16⟩, ⟨.u8, 16⟩, ⟨.i16, 16⟩, ⟨.u16, 16⟩]),
  (⟨.i64, 8⟩, [⟨.i8, 8⟩, ⟨.u8, 8⟩, ⟨.i16, 8⟩, ⟨.u16, 8⟩, ⟨.i32, 8⟩, ⟨.u32, 8⟩]),
  (⟨.i128, 4⟩, [⟨.i8, 4⟩, ⟨.u8, 4⟩, ⟨.i16, 4⟩, ⟨.u16, 4⟩, ⟨.i32, 4⟩, ⟨.u32, 4⟩, ⟨.i64, 4⟩, ⟨.u64, 4⟩]),
  (⟨.u16, 32⟩, [⟨.u8, 32⟩]),
  (⟨.u32, 16⟩, [⟨.u8, 16⟩, ⟨.u16, 16⟩]),
  (⟨.u64, 8⟩, [⟨.u8, 8⟩, ⟨.u16, 8⟩, ⟨.u32, 8⟩]),
  (⟨.u128, 4⟩, [⟨.u8, 4⟩, ⟨.u16, 4⟩, ⟨.u32, 4⟩, ⟨.u64, 4⟩]),
  (⟨.f32, 16⟩, [⟨.i8, 16⟩, ⟨.u8, 16⟩, ⟨.i16, 16⟩, ⟨.u16, 16⟩]),
  (⟨.f64, 8⟩, [⟨.i8, 8⟩, ⟨.u8, 8⟩, ⟨.i16, 8⟩, ⟨.u16, 8⟩, ⟨.i32, 8⟩, ⟨.u32, 8⟩, ⟨.f32, 8⟩]),
  (⟨.m16, 32⟩, [⟨.m8, 32⟩]),
  (⟨.m32, 16⟩, [⟨.m8, 16⟩, ⟨.m16, 16⟩]),
  (⟨.m64, 8⟩, [⟨.m8, 8⟩, ⟨.m16, 8⟩, ⟨.m32, 8⟩]),
  (⟨.m128, 4⟩, [⟨.m8, 4⟩, ⟨.m16, 4⟩, ⟨.m32, 4⟩, ⟨.m64, 4⟩])]

/-- `impl_from_cast!` (src/api/cast/v*.rs): target, sources; implemented by `simd_cast`. -/
def castTable : List (VTy × List VTy) := [
  (⟨.i8, 2⟩, [⟨.u8, 2⟩, ⟨.m8, 2⟩, ⟨.i16, 2⟩, ⟨.u16, 2⟩, ⟨.m16, 2⟩, ⟨.i32, 2⟩, ⟨.u32, 2⟩, ⟨.f32, 2⟩, ⟨.m32, 2⟩, ⟨.i64, 2⟩, ⟨.u64, 2⟩, ⟨.f64, 2⟩, ⟨.m64, 2⟩, ⟨.i128, 2⟩, ⟨.u128, 2⟩, ⟨.m128, 2⟩, ⟨.isize, 2⟩, ⟨.usize, 2⟩, ⟨.msize, 2⟩]),
  (⟨.u8, 2⟩, [⟨.i8, 2⟩, ⟨.m8, 2⟩, ⟨.i16, 2⟩, ⟨.u16, 2⟩, ⟨.m16, 2⟩, ⟨.i32, 2⟩, ⟨.u32, 2⟩, ⟨.f32, 2⟩, ⟨.m32, 2⟩, ⟨.i64, 2⟩, ⟨.u64, 2⟩, ⟨.f64, 2⟩, ⟨.m64, 2⟩, ⟨.i128, 2⟩, ⟨.u128, 2⟩, ⟨.m128, 2⟩, ⟨.isize, 2⟩, ⟨.usize, 2⟩, ⟨.msize, 2⟩]),
  (⟨.i8, 4⟩, [⟨.u8, 4⟩, ⟨.m8, 4⟩, ⟨.i16, 4⟩, ⟨.u16, 4⟩, ⟨.m16, 4⟩, ⟨.i32, 4⟩, ⟨.u32, 4⟩, ⟨.f32, 4⟩, ⟨.m32, 4⟩, ⟨.i64, 4⟩, ⟨.u64, 4⟩, ⟨.f64, 4⟩, ⟨.m64, 4⟩, ⟨.i128, 4⟩, ⟨.u128, 4⟩, ⟨.m128, 4⟩, ⟨.isize, 4⟩, ⟨.usize, 4⟩, ⟨.msize, 4⟩]),
  (⟨.u8, 4⟩, [⟨.i8, 4⟩, ⟨.m8, 4⟩, ⟨.i16, 4⟩, ⟨.u16, 4⟩, ⟨.m16, 4⟩, ⟨.i32, 4⟩, ⟨.u32, 4⟩, ⟨.f32, 4⟩, ⟨.m32, 4⟩, ⟨.i64, 4⟩, ⟨.u64, 4⟩, ⟨.f64, 4⟩, ⟨.m64, 4⟩, ⟨.i128, 4⟩, ⟨.u128, 4⟩, ⟨.m128, 4⟩, ⟨.isize, 4⟩, ⟨.usize, 4⟩, ⟨.msize, 4⟩]),
  (⟨.i16, 2⟩, [⟨.i8, 2⟩, ⟨.u8, 2⟩, ⟨.m8, 2⟩, ⟨.u16, 2⟩, ⟨.m16, 2⟩, ⟨.i32, 2⟩, ⟨.u32, 2⟩, ⟨.f32, 2⟩, ⟨.m32, 2⟩, ⟨.i64, 2⟩, ⟨.u64, 2⟩, ⟨.f64, 2⟩, ⟨.m64, 2⟩, ⟨.i128, 2⟩, ⟨.u128, 2⟩, ⟨.m128, 2⟩, ⟨.isize, 2⟩, ⟨.usize, 2⟩, ⟨.msize, 2⟩]),
  (⟨.u16, 2⟩, [⟨.i8, 2⟩, ⟨.u8, 2⟩, ⟨.m8, 2⟩, ⟨.i16, 2⟩, ⟨.m16, 2⟩, ⟨.i32, 2⟩, ⟨.u32, 2⟩, ⟨.f32, 2⟩, ⟨.m32, 2⟩, ⟨.i64, 2⟩, ⟨.u64, 2⟩, ⟨.f64, 2⟩, ⟨.m64, 2⟩, ⟨.i128, 2⟩, ⟨.u128, 2⟩, ⟨.m128, 2⟩, ⟨.isize, 2⟩, ⟨.usize, 2⟩, ⟨.msize, 2⟩]),
  (⟨.i8, 8⟩, [⟨.u8, 8⟩, ⟨.m8, 8⟩, ⟨.i16, 8⟩, ⟨.u16, 8⟩, ⟨.m16, 8⟩, ⟨.i32, 8⟩, ⟨.u32, 8⟩, ⟨.f32, 8⟩, ⟨.m32, 8⟩, ⟨.i64, 8⟩, ⟨.u64, 8⟩, ⟨.f64, 8⟩, ⟨.m64, 8⟩, ⟨.isize, 8⟩, ⟨.usize, 8⟩, ⟨.msize, 8⟩]),
  (⟨.u8, 8⟩, [⟨.i8, 8⟩, ⟨.m8, 8⟩, ⟨.i16, 8⟩, ⟨.u16, 8⟩, ⟨.m16, 8⟩, ⟨.i32, 8⟩, ⟨.u32, 8⟩, ⟨.f32, 8⟩, ⟨.m32, 8⟩, ⟨.i64, 8⟩, ⟨.u64, 8⟩, ⟨.f64, 8⟩, ⟨.m64, 8⟩, ⟨.isize, 8⟩, ⟨.usize, 8⟩, ⟨.msize, 8⟩]),
  (⟨.i16, 4⟩, [⟨.i8, 4⟩, ⟨.u8, 4⟩, ⟨.m8, 4⟩, ⟨.u16, 4⟩, ⟨.m16, 4⟩, ⟨.i32, 4⟩, ⟨.u32, 4⟩, ⟨.f32, 4⟩, ⟨.m32, 4⟩, ⟨.i64, 4⟩, ⟨.u64, 4⟩, ⟨.f64, 4⟩, ⟨.m64, 4⟩, ⟨.i128, 4⟩, ⟨.u128, 4⟩, ⟨.m128, 4⟩, ⟨.isize, 4⟩, ⟨.usize, 4⟩, ⟨.msize, 4⟩]),
  (⟨.u16, 4⟩, [⟨.i8, 4⟩, ⟨.u8, 4⟩, ⟨.m8, 4⟩, ⟨.i16, 4⟩, ⟨.m16, 4⟩, ⟨.i32, 4⟩, ⟨.u32, 4⟩, ⟨.f32, 4⟩, ⟨.m32, 4⟩, ⟨.i64, 4⟩, ⟨.u64, 4⟩, ⟨.f64, 4⟩, ⟨.m64, 4⟩, ⟨.i128, 4⟩, ⟨.u128, 4⟩, ⟨.m128, 4⟩, ⟨.isize, 4⟩, ⟨.usize, 4⟩, ⟨.msize, 4⟩]),
  (⟨.i32, 2⟩, [⟨.i8, 2⟩, ⟨.u8, 2⟩, ⟨.m8, 2⟩, ⟨.i16, 2⟩, ⟨.u16, 2⟩, ⟨.m16, 2⟩, ⟨.u32, 2⟩, ⟨.f32, 2⟩, ⟨.m32, 2⟩, ⟨.i64, 2⟩, ⟨.u64, 2⟩, ⟨.f64, 2⟩, ⟨.m64, 2⟩, ⟨.i128, 2⟩, ⟨.u128, 2⟩, ⟨.m128, 2⟩, ⟨.isize, 2⟩, ⟨.usize, 2⟩, ⟨.msize, 2⟩]),
  (⟨.u32, 2⟩, [⟨.i8, 2⟩, ⟨.u8, 2⟩, ⟨.m8, 2⟩, ⟨.i16, 2⟩, ⟨.u16, 2⟩, ⟨.m16, 2⟩, ⟨.i32, 2⟩, ⟨.f32, 2⟩, ⟨.m32, 2⟩, ⟨.i64, 2⟩, ⟨.u64, 2⟩, ⟨.f64, 2⟩, ⟨.m64, 2⟩, ⟨.i128, 2⟩, ⟨.u128, 2⟩, ⟨.m128, 2⟩, ⟨.isize, 2⟩, ⟨.usize, 2⟩, ⟨.msize, 2⟩]),
  (⟨.f32, 2⟩, [⟨.i8, 2⟩, ⟨.u8, 2⟩, ⟨.m8, 2⟩, ⟨.i16, 2⟩, ⟨.u16, 2⟩, ⟨.m16, 2⟩, ⟨.i32, 2⟩, ⟨.u32, 2⟩, ⟨.m32, 2⟩, ⟨.i64, 2⟩, ⟨.u64, 2⟩, ⟨.f64, 2⟩, ⟨.m64, 2⟩, ⟨.i128, 2⟩, ⟨.u128, 2⟩, ⟨.m128, 2⟩, ⟨.isize, 2⟩, ⟨.usize, 2⟩, ⟨.msize, 2⟩]),
  (⟨.i8, 16⟩, [⟨.u8, 16⟩, ⟨.m8, 16⟩, ⟨.i16, 16⟩, ⟨.u16, 16⟩, ⟨.m16, 16⟩, ⟨.i32, 16⟩, ⟨.u32, 16⟩, ⟨.f32, 16⟩, ⟨.m32, 16⟩]),
  (⟨.u8, 16⟩, [⟨.i8, 16⟩, ⟨.m8, 16⟩, ⟨.i16, 16⟩, ⟨.u16, 16⟩, ⟨.m16, 16⟩, ⟨.i32, 16⟩, ⟨.u32, 16⟩, ⟨.f32, 16⟩, ⟨.m32, 16⟩]),
  (⟨.i16, 8⟩, [⟨.i8, 8⟩, ⟨.u8, 8⟩, ⟨.m8, 8⟩, ⟨.u16, 8⟩, ⟨.m16, 8⟩, ⟨.i32, 8⟩, ⟨.u32, 8⟩, ⟨.f32, 8⟩, ⟨.m32, 8⟩, ⟨.i64, 8⟩, ⟨.u64, 8⟩, ⟨.f64, 8⟩, ⟨.m64, 8⟩, ⟨.isize, 8⟩, ⟨.usize, 8⟩, ⟨.msize, 8⟩]),
  (⟨.u16, 8⟩, [⟨.i8, 8⟩, ⟨.u8, 8⟩, ⟨.m8, 8⟩, ⟨.i16, 8⟩, ⟨.m16, 8⟩, ⟨.i32, 8⟩, ⟨.u32, 8⟩, ⟨.f32, 8⟩, ⟨.m32, 8⟩, ⟨.i64, 8⟩, ⟨.u64, 8⟩, ⟨.f64, 8⟩, ⟨.m64, 8⟩, ⟨.isize, 8⟩, ⟨.usize, 8⟩, ⟨.msize, 8⟩]),
  (⟨.i32, 4⟩, [⟨.i8, 4⟩, ⟨.u8, 4⟩, ⟨.m8, 4⟩, ⟨.i16, 4⟩, ⟨.u16, 4⟩, ⟨.m16, 4⟩, ⟨.u32, 4⟩, ⟨.f32, 4⟩, ⟨.m32, 4⟩, ⟨.i64, 4⟩, ⟨.u64, 4⟩, ⟨.f64, 4⟩, ⟨.m64, 4⟩, ⟨.i128, 4⟩, ⟨.u128, 4⟩, ⟨.m128, 4⟩, ⟨.isize, 4⟩, ⟨.usize, 4⟩, ⟨.msize, 4⟩]),
  (⟨.u32, 4⟩, [⟨.i8, 4⟩, ⟨.u8, 4⟩, ⟨.m8, 4⟩, ⟨.i16, 4⟩, ⟨.u16, 4⟩, ⟨.m16, 4⟩, ⟨.i32, 4⟩, ⟨.f32, 4⟩, ⟨.m32, 4⟩, ⟨.i64, 4⟩, ⟨.u64, 4⟩, ⟨.f64, 4⟩, ⟨.m64, 4⟩, ⟨.i128, 4⟩, ⟨.u128, 4⟩, ⟨.m128, 4⟩, ⟨.isize, 4⟩, ⟨.usize, 4⟩, ⟨.msize, 4⟩]),
  (⟨.f32, 4⟩, [⟨.i8, 4⟩, ⟨.u8, 4⟩, ⟨.m8, 4⟩, ⟨.i16, 4⟩, ⟨.u16, 4⟩, ⟨.m16, 4⟩, ⟨.i32, 4⟩, ⟨.u32, 4⟩, ⟨.m32, 4⟩, ⟨.i64, 4⟩, ⟨.u64, 4⟩, ⟨.f64, 4⟩, ⟨.m64, 4⟩, ⟨.i128, 4⟩, ⟨.u128, 4⟩, ⟨.m128, 4⟩, ⟨.isize, 4⟩, ⟨.usize, 4⟩, ⟨.msize, 4⟩]),
  (⟨.i64, 2⟩, [⟨.i8, 2⟩, ⟨.u8, 2⟩, ⟨.m8, 2⟩, ⟨.i16, 2⟩, ⟨.u16, 2⟩, ⟨.m16, 2⟩, ⟨.i32, 2⟩, ⟨.u32, 2⟩, ⟨.f32, 2⟩, ⟨.m32, 2⟩, ⟨.u64, 2⟩, ⟨.f64, 2⟩, ⟨.m64, 2⟩, ⟨.i128, 2⟩, ⟨.u128, 2⟩, ⟨.m128, 2⟩, ⟨.isize, 2⟩, ⟨.usize, 2⟩, ⟨.msize, 2⟩]),
  (⟨.u64, 2⟩, [⟨.i8, 2⟩, ⟨.u8, 2⟩, ⟨.m8, 2⟩, ⟨.i16, 2⟩, ⟨.u16, 2⟩, ⟨.m16, 2⟩, ⟨.i32, 2⟩, ⟨.u32, 2⟩, ⟨.f32, 2⟩, ⟨.m32, 2⟩, ⟨.i64, 2⟩, ⟨.f64, 2⟩, ⟨.m64, 2⟩, ⟨.i128, 2⟩, ⟨.u128, 2⟩, ⟨.m128, 2⟩, ⟨.isize, 2⟩, ⟨.usize, 2⟩, ⟨.msize, 2⟩]),
  (⟨.f64, 2⟩, [⟨.i8, 2⟩, ⟨.u8, 2⟩, ⟨.m8, 2⟩, ⟨.i16, 2⟩, ⟨.u16, 2⟩, ⟨.m16, 2⟩, ⟨.i32, 2⟩, ⟨.u32, 2⟩, ⟨.f32, 2⟩, ⟨.m32, 2⟩, ⟨.i64, 2⟩, ⟨.u64, 2⟩, ⟨.m64, 2⟩, ⟨.i128, 2⟩, ⟨.u128, 2⟩, ⟨.m128, 2⟩, ⟨.isize, 2⟩, ⟨.usize, 2⟩, ⟨.msize, 2⟩]),
  (⟨.isize, 2⟩, [⟨.i8, 2⟩, ⟨.u8, 2⟩, ⟨.m8, 2⟩, ⟨.i16, 2⟩, ⟨.u16, 2⟩, ⟨.m16, 2⟩, ⟨.i32, 2⟩, ⟨.u32, 2⟩, ⟨.f32, 2⟩, ⟨.m32, 2⟩, ⟨.i64, 2⟩, ⟨.u64, 2⟩, ⟨.f64, 2⟩, ⟨.m64, 2⟩, ⟨.i128, 2⟩, ⟨.u128, 2⟩, ⟨.m128, 2⟩, ⟨.usize, 2⟩, ⟨.msize, 2⟩]),
  (⟨.usize, 2⟩, [⟨.i8, 2⟩, ⟨.u8, 2⟩, ⟨.m8, 2⟩, ⟨.i16, 2⟩, ⟨.u16, 2⟩, ⟨.m16, 2⟩, ⟨.i32, 2⟩, ⟨.u32, 2⟩, ⟨.f32, 2⟩, ⟨.m32, 2⟩, ⟨.i64, 2⟩, ⟨.u64, 2⟩, ⟨.f64, 2⟩, ⟨.m64, 2⟩, ⟨.i128, 2⟩, ⟨.u128, 2⟩, ⟨.m128, 2⟩, ⟨.isize, 2⟩, ⟨.msize, 2⟩]),
  (⟨.i128, 1⟩, [⟨.u128, 1⟩, ⟨.m128, 1⟩]),
  (⟨.u128, 1⟩, [⟨.i128, 1⟩, ⟨.m128, 1⟩]),
  (⟨.m128, 1⟩, [⟨.i128, 1⟩, ⟨.u128, 1⟩]),
  (⟨.i8, 32⟩, [⟨.u8, 32⟩, ⟨.m8, 32⟩, ⟨.i16, 32⟩, ⟨.u16, 32⟩, ⟨.m16, 32⟩]),
  (⟨.u8, 32⟩, [⟨.i8, 32⟩, ⟨.m8, 32⟩, ⟨.i16, 32⟩, ⟨.u16, 32⟩, ⟨.m16, 32⟩]),
  (⟨.i16, 16⟩, [⟨.i8, 16⟩, ⟨.u8, 16⟩, ⟨.m8, 16⟩, ⟨.u16, 16⟩, ⟨.m16, 16⟩, ⟨.i32, 16⟩, ⟨.u32, 16⟩, ⟨.f32, 16⟩, ⟨.m32, 16⟩]),
  (⟨.u16, 16⟩, [⟨.i8, 16⟩, ⟨.u8, 16⟩, ⟨.m8, 16⟩, ⟨.i16, 16⟩, ⟨.m16, 16⟩, ⟨.i32, 16⟩, ⟨.u32, 16⟩, ⟨.f32, 16⟩, ⟨.m32, 16⟩]),
  (⟨.i32, 8⟩, [⟨.i8, 8⟩, ⟨.u8, 8⟩, ⟨.m8, 8⟩, ⟨.i16, 8⟩, ⟨.u16, 8⟩, ⟨.m16, 8⟩, ⟨.u32, 8⟩, ⟨.f32, 8⟩, ⟨.m32, 8⟩, ⟨.i64, 8⟩, ⟨.u64, 8⟩, ⟨.f64, 8⟩, ⟨.m64, 8⟩, ⟨.isize, 8⟩, ⟨.usize, 8⟩, ⟨.msize, 8⟩]),
  (⟨.u32, 8⟩, [⟨.i8, 8⟩, ⟨.u8, 8⟩, ⟨.m8, 8⟩, ⟨.i16, 8⟩, ⟨.u16, 8⟩, ⟨.m16, 8⟩, ⟨.i32, 8⟩, ⟨.f32, 8⟩, ⟨.m32, 8⟩, ⟨.i64, 8⟩, ⟨.u64, 8⟩, ⟨.f64, 8⟩, ⟨.m64, 8⟩, ⟨.isize, 8⟩, ⟨.usize, 8⟩, ⟨.msize, 8⟩]),
  (⟨.f32, 8⟩, [⟨.i8, 8⟩, ⟨.u8, 8⟩, ⟨.m8, 8⟩, ⟨.i16, 8⟩, ⟨.u16, 8⟩, ⟨.m16, 8⟩, ⟨.i32, 8⟩, ⟨.u32, 8⟩, ⟨.m32, 8⟩, ⟨.i64, 8⟩, ⟨.u64, 8⟩, ⟨.f64, 8⟩, ⟨.m64, 8⟩, ⟨.isize, 8⟩, ⟨.usize, 8⟩, ⟨.msize, 8⟩]),
  (⟨.i64, 4⟩, [⟨.i8, 4⟩, ⟨.u8, 4⟩, ⟨.m8, 4⟩, ⟨.i16, 4⟩, ⟨.u16, 4⟩, ⟨.m16, 4⟩, ⟨.i32, 4⟩, ⟨.u32, 4⟩, ⟨.f32, 4⟩, ⟨.m32, 4⟩, ⟨.u64, 4⟩, ⟨.f64, 4⟩, ⟨.m64, 4⟩, ⟨.i128, 4⟩, ⟨.u128, 4⟩, ⟨.m128, 4⟩, ⟨.isize, 4⟩, ⟨.usize, 4⟩, ⟨.msize, 4⟩]),
  (⟨.u64, 4⟩, [⟨.i8, 4⟩, ⟨.u8, 4⟩, ⟨.m8, 4⟩, ⟨.i16, 4⟩, ⟨.u16, 4⟩, ⟨.m16, 4⟩, ⟨.i32, 4⟩, ⟨.u32, 4⟩, ⟨.f32, 4⟩, ⟨.m32, 4⟩, ⟨.i64, 4⟩, ⟨.f64, 4⟩, ⟨.m64, 4⟩, ⟨.i128, 4⟩, ⟨.u128, 4⟩, ⟨.m128, 4⟩, ⟨.isize, 4⟩, ⟨.usize, 4⟩, ⟨.msize, 4⟩]),
  (⟨.f64, 4⟩, [⟨.i8, 4⟩, ⟨.u8, 4⟩, ⟨.m8, 4⟩, ⟨.i16, 4⟩, ⟨.u16, 4⟩, ⟨.m16, 4⟩, ⟨.i32, 4⟩, ⟨.u32, 4⟩, ⟨.f32, 4⟩, ⟨.m32, 4⟩, ⟨.i64, 4⟩, ⟨.u64, 4⟩, ⟨.m64, 4⟩, ⟨.i128, 4⟩, ⟨.u128, 4⟩, ⟨.m128, 4⟩, ⟨.isize, 4⟩, ⟨.usize, 4⟩, ⟨.msize, 4⟩]),
  (⟨.i128, 2⟩, [⟨.i8, 2⟩, ⟨.u8, 2⟩, ⟨.m8, 2⟩, ⟨.i16, 2⟩, ⟨.u16, 2⟩, ⟨.m16, 2⟩, ⟨.i32, 2⟩, ⟨.u32, 2⟩, ⟨.f32, 2⟩, ⟨.m32, 2⟩, ⟨.i64, 2⟩, ⟨.u64, 2⟩, ⟨.f64, 2⟩, ⟨.m64, 2⟩, ⟨.u128, 2⟩, ⟨.m128, 2⟩, ⟨.isize, 2⟩, ⟨.usize, 2⟩, ⟨.msize, 2⟩]),
  (⟨.u128, 2⟩, [⟨.i8, 2⟩, ⟨.u8, 2⟩, ⟨.m8, 2⟩, ⟨.i16, 2⟩, ⟨.u16, 2⟩, ⟨.m16, 2⟩, ⟨.i32, 2⟩, ⟨.u32, 2⟩, ⟨.f32, 2⟩, ⟨.m32, 2⟩, ⟨.i64, 2⟩, ⟨.u64, 2⟩, ⟨.f64, 2⟩, ⟨.m64, 2⟩, ⟨.i128, 2⟩, ⟨.m128, 2⟩, ⟨.isize, 2⟩, ⟨.usize, 2⟩, ⟨.msize, 2⟩]),
  (⟨.isize, 4⟩, [⟨.i8, 4⟩, ⟨.u8, 4⟩, ⟨.m8, 4⟩, ⟨.i16, 4⟩, ⟨.u16, 4⟩, ⟨.m16, 4⟩, ⟨.i32, 4⟩, ⟨.u32, 4⟩, ⟨.f32, 4⟩, ⟨.m32, 4⟩, ⟨.i64, 4⟩, ⟨.u64, 4⟩, ⟨.f64, 4⟩, ⟨.m64, 4⟩, ⟨.i128, 4⟩, ⟨.u128, 4⟩, ⟨.m128, 4⟩, ⟨.usize, 4⟩, ⟨.msize, 4⟩]),
  (⟨.usize, 4⟩, [⟨.i8, 4⟩, ⟨.u8, 4⟩, ⟨.m8, 4⟩, ⟨.i16, 4⟩, ⟨.u16, 4⟩, ⟨.m16, 4⟩, ⟨.i32, 4⟩, ⟨.u32, 4⟩, ⟨.f32, 4⟩, ⟨.m32, 4⟩, ⟨.i64, 4⟩, ⟨.u64, 4⟩, ⟨.f64, 4⟩, ⟨.m64, 4⟩, ⟨.i128, 4⟩, ⟨.u128, 4⟩, ⟨.m128, 4⟩, ⟨.isize, 4⟩, ⟨.msize, 4⟩]),
  (⟨.i8, 64⟩, [⟨.u8, 64⟩, ⟨.m8, 64⟩]),
  (⟨.u8, 64⟩, [⟨.i8, 64⟩, ⟨.m8, 64⟩]),
  (⟨.i16, 32⟩, [⟨.i8, 32⟩, ⟨.u8, 32⟩, ⟨.m8, 32⟩, ⟨.u16, 32⟩, ⟨.m16, 32⟩]),
  (⟨.u16, 32⟩, [⟨.i8, 32⟩, ⟨.u8, 32⟩, ⟨.m8, 32⟩, ⟨.i16, 32⟩, ⟨.m16, 32⟩]),
  (⟨.i32, 16⟩, [⟨.i8, 16⟩, ⟨.u8, 16⟩, ⟨.m8, 16⟩, ⟨.i16, 16⟩, ⟨.u16, 16⟩, ⟨.m16, 16⟩, ⟨.u32, 16⟩, ⟨.f32, 16⟩, ⟨.m32, 16⟩]),
  (⟨.u32, 16⟩, [⟨.i8, 16⟩, ⟨.u8, 16⟩, ⟨.m8, 16⟩, ⟨.i16, 16⟩, ⟨.u16, 16⟩, ⟨.m16, 16⟩, ⟨.i32, 16⟩, ⟨.f32, 16⟩, ⟨.m32, 16⟩]),
  (⟨.f32, 16⟩, [⟨.i8, 16⟩, ⟨.u8, 16⟩, ⟨.m8, 16⟩, ⟨.i16, 16⟩, ⟨.u16, 16⟩, ⟨.m16, 16⟩, ⟨.i32, 16⟩, ⟨.u32, 16⟩, ⟨.m32, 16⟩]),
  (⟨.i64, 8⟩, [⟨.i8, 8⟩, ⟨.u8, 8⟩, ⟨.m8, 8⟩, ⟨.i16, 8⟩, ⟨.u16, 8⟩, ⟨.m16, 8⟩, ⟨.i32, 8⟩, ⟨.u32, 8⟩, ⟨.f32, 8⟩, ⟨.m32, 8⟩, ⟨.u64, 8⟩, ⟨.f64, 8⟩, ⟨.m64, 8⟩, ⟨.isize, 8⟩, ⟨.usize, 8⟩, ⟨.msize, 8⟩]),
  (⟨.u64, 8⟩, [⟨.i8, 8⟩, ⟨.u8, 8⟩, ⟨.m8, 8⟩, ⟨.i16, 8⟩, ⟨.u16, 8⟩, ⟨.m16, 8⟩, ⟨.i32, 8⟩, ⟨.u32, 8⟩, ⟨.f32, 8⟩, ⟨.m32, 8⟩, ⟨.i64, 8⟩, ⟨.f64, 8⟩, ⟨.m64, 8⟩, ⟨.isize, 8⟩, ⟨.usize, 8⟩, ⟨.msize, 8⟩]),
  (⟨.f64, 8⟩, [⟨.i8, 8⟩, ⟨.u8, 8⟩, ⟨.m8, 8⟩, ⟨.i16, 8⟩, ⟨.u16, 8⟩, ⟨.m16, 8⟩, ⟨.i32, 8⟩, ⟨.u32, 8⟩, ⟨.f32, 8⟩, ⟨.m32, 8⟩, ⟨.i64, 8⟩, ⟨.u64, 8⟩, ⟨.m64, 8⟩, ⟨.isize, 8⟩, ⟨.usize, 8⟩, ⟨.msize, 8⟩]),
  (⟨.i128, 4⟩, [⟨.i8, 4⟩, ⟨.u8, 4⟩, ⟨.m8, 4⟩, ⟨.i16, 4⟩, ⟨.u16, 4⟩, ⟨.m16, 4⟩, ⟨.i32, 4⟩, ⟨.u32, 4⟩, ⟨.f32, 4⟩, ⟨.m32, 4⟩, ⟨.i64, 4⟩, ⟨.u64, 4⟩, ⟨.f64, 4⟩, ⟨.m64, 4⟩, ⟨.u128, 4⟩, ⟨.m128, 4⟩, ⟨.isize, 4⟩, ⟨.usize, 4⟩, ⟨.msize, 4⟩]),
  (⟨.u128, 4⟩, [⟨.i8, 4⟩, ⟨.u8, 4⟩, ⟨.m8, 4⟩, ⟨.i16, 4⟩, ⟨.u16, 4⟩, ⟨.m16, 4⟩, ⟨.i32, 4⟩, ⟨.u32, 4⟩, ⟨.f32, 4⟩, ⟨.m32, 4⟩, ⟨.i64, 4⟩, ⟨.u64, 4⟩, ⟨.f64, 4⟩, ⟨.m64, 4⟩, ⟨.i128, 4⟩, ⟨.m128, 4⟩, ⟨.isize, 4⟩, ⟨.usize, 4⟩, ⟨.msize, 4⟩]),
  (⟨.isize, 8⟩, [⟨.i8, 8⟩, ⟨.u8, 8⟩, ⟨.m8, 8⟩, ⟨.i16, 8⟩, ⟨.u16, 8⟩, ⟨.m16, 8⟩, ⟨.i32, 8⟩, ⟨.u32, 8⟩, ⟨.f32, 8⟩, ⟨.m32, 8⟩, ⟨.i64, 8⟩, ⟨.u64, 8⟩, ⟨.f64, 8⟩, ⟨.m64, 8⟩, ⟨.usize, 8⟩, ⟨.msize, 8⟩]),
  (⟨.usize, 8⟩, [⟨.i8, 8⟩, ⟨.u8, 8⟩, ⟨.m8, 8⟩, ⟨.i16, 8⟩, ⟨.u16, 8⟩, ⟨.m16, 8⟩, ⟨.i32, 8⟩, ⟨.u32, 8⟩, ⟨.f32, 8⟩, ⟨.m32, 8⟩, ⟨.i64, 8⟩, ⟨.u64, 8⟩, ⟨.f64, 8⟩, ⟨.m64, 8⟩, ⟨.isize, 8⟩, ⟨.msize, 8⟩])]

/-- `impl_from_cast_mask!` (src/api/cast/v*.rs): target mask, sources; implemented by comparing with zero. -/
def castMaskTable : List (VTy × List VTy) := [
  (⟨.m8, 2⟩, [⟨.i8, 2⟩, ⟨.u8, 2⟩, ⟨.i16, 2⟩, ⟨.u16, 2⟩, ⟨.m16, 2⟩, ⟨.i32, 2⟩, ⟨.u32, 2⟩, ⟨.f32, 2⟩, ⟨.m32, 2⟩, ⟨.i64, 2⟩, ⟨.u64, 2⟩, ⟨.f64, 2⟩, ⟨.m64, 2⟩, ⟨.i128, 2⟩, ⟨.u128, 2⟩, ⟨.m128, 2⟩, ⟨.isize, 2⟩, ⟨.usize, 2⟩, ⟨.msize, 2⟩]),
  (⟨.m8, 4⟩, [⟨.i8, 4⟩, ⟨.u8, 4⟩, ⟨.i16, 4⟩, ⟨.u16, 4⟩, ⟨.m16, 4⟩, ⟨.i32, 4⟩, ⟨.u32, 4⟩, ⟨.f32, 4⟩, ⟨.m32, 4⟩, ⟨.i64, 4⟩, ⟨.u64, 4⟩, ⟨.f64, 4⟩, ⟨.m64, 4⟩, ⟨.i128, 4⟩, ⟨.u128, 4⟩, ⟨.m128, 4⟩, ⟨.isize, 4⟩, ⟨.usize, 4⟩, ⟨.msize, 4⟩]),
  (⟨.m16, 2⟩, [⟨.i8, 2⟩, ⟨.u8, 2⟩, ⟨.m8, 2⟩, ⟨.i16, 2⟩, ⟨.u16, 2⟩, ⟨.i32, 2⟩, ⟨.u32, 2⟩, ⟨.f32, 2⟩, ⟨.m32, 2⟩, ⟨.i64, 2⟩, ⟨.u64, 2⟩, ⟨.f64, 2⟩, ⟨.m64, 2⟩, ⟨.i128, 2⟩, ⟨.u128, 2⟩, ⟨.m128, 2⟩, ⟨.isize, 2⟩, ⟨.usize, 2⟩, ⟨.msize, 2⟩]),
  (⟨.m8, 8⟩, [⟨.i8, 8⟩, ⟨.u8, 8⟩, ⟨.i16, 8⟩, ⟨.u16, 8⟩, ⟨.m16, 8⟩, ⟨.i32, 8⟩, ⟨.u32, 8⟩, ⟨.f32, 8⟩, ⟨.m32, 8⟩, ⟨.i64, 8⟩, ⟨.u64, 8⟩, ⟨.f64, 8⟩, ⟨.m64, 8⟩, ⟨.isize, 8⟩, ⟨.usize, 8⟩, ⟨.msize, 8⟩]),
  (⟨.m16, 4⟩, [⟨.i8, 4⟩, ⟨.u8, 4⟩, ⟨.m8, 4⟩, ⟨.i16, 4⟩, ⟨.u16, 4⟩, ⟨.i32, 4⟩, ⟨.u32, 4⟩, ⟨.f32, 4⟩, ⟨.m32, 4⟩, ⟨.i64, 4⟩, ⟨.u64, 4⟩, ⟨.f64, 4⟩, ⟨.m64, 4⟩, ⟨.i128, 4⟩, ⟨.u128, 4⟩, ⟨.m128, 4⟩, ⟨.isize, 4⟩, ⟨.usize, 4⟩, ⟨.msize, 4⟩]),
  (⟨.m32, 2⟩, [⟨.i8, 2⟩, ⟨.u8, 2⟩, ⟨.m8, 2⟩, ⟨.i16, 2⟩, ⟨.u16, 2⟩, ⟨.m16, 2⟩, ⟨.i32, 2⟩, ⟨.u32, 2⟩, ⟨.f32, 2⟩, ⟨.i64, 2⟩, ⟨.u64, 2⟩, ⟨.f64, 2⟩, ⟨.m64, 2⟩, ⟨.i128, 2⟩, ⟨.u128, 2⟩, ⟨.m128, 2⟩, ⟨.isize, 2⟩, ⟨.usize, 2⟩, ⟨.msize, 2⟩]),
  (⟨.m8, 16⟩, [⟨.i8, 16⟩, ⟨.u8, 16⟩, ⟨.i16, 16⟩, ⟨.u16, 16⟩, ⟨.m16, 16⟩, ⟨.i32, 16⟩, ⟨.u32, 16⟩, ⟨.f32, 16⟩, ⟨.m32, 16⟩]),
  (⟨.m16, 8⟩, [⟨.i8, 8⟩, ⟨.u8, 8⟩, ⟨.m8, 8⟩, ⟨.i16, 8⟩, ⟨.u16, 8⟩, ⟨.i32, 8⟩, ⟨.u32, 8⟩, ⟨.f32, 8⟩, ⟨.m32, 8⟩, ⟨.i64, 8⟩, ⟨.u64, 8⟩, ⟨.f64, 8⟩, ⟨.m64, 8⟩, ⟨.isize, 8⟩, ⟨.usize, 8⟩, ⟨.msize, 8⟩]),
  (⟨.m32, 4⟩, [⟨.i8, 4⟩, ⟨.u8, 4⟩, ⟨.m8, 4⟩, ⟨.i16, 4⟩, ⟨.u16, 4⟩, ⟨.m16, 4⟩, ⟨.i32, 4⟩, ⟨.u32, 4⟩, ⟨.f32, 4⟩, ⟨.i64, 4⟩, ⟨.u64, 4⟩, ⟨.f64, 4⟩, ⟨.m64, 4⟩, ⟨.i128, 4⟩, ⟨.u128, 4⟩, ⟨.m128, 4⟩, ⟨.isize, 4⟩, ⟨.usize, 4⟩, ⟨.msize, 4⟩]),
  (⟨.m64, 2⟩, [⟨.i8, 2⟩, ⟨.u8, 2⟩, ⟨.m8, 2⟩, ⟨.i16, 2⟩, ⟨.u16, 2⟩, ⟨.m16, 2⟩, ⟨.i32, 2⟩, ⟨.u32, 2⟩, ⟨.f32, 2⟩, ⟨.m32, 2⟩, ⟨.i64, 2⟩, ⟨.u64, 2⟩, ⟨.f64, 2⟩, ⟨.i128, 2⟩, ⟨.u128, 2⟩, ⟨.m128, 2⟩, ⟨.isize, 2⟩, ⟨.usize, 2⟩, ⟨.msize, 2⟩]),
  (⟨.msize, 2⟩, [⟨.i8, 2⟩, ⟨.u8, 2⟩, ⟨.m8, 2⟩, ⟨.i16, 2⟩, ⟨.u16, 2⟩, ⟨.m16, 2⟩, ⟨.i32, 2⟩, ⟨.u32, 2⟩, ⟨.f32, 2⟩, ⟨.m32, 2⟩, ⟨.i64, 2⟩, ⟨.u64, 2⟩, ⟨.f64, 2⟩, ⟨.m64, 2⟩, ⟨.i128, 2⟩, ⟨.u128, 2⟩, ⟨.m128, 2⟩, ⟨.isize, 2⟩, ⟨.usize, 2⟩]),
  (⟨.m8, 32⟩, [⟨.i8, 32⟩, ⟨.u8, 32⟩, ⟨.i16, 32⟩, ⟨.u16, 32⟩, ⟨.m16, 32⟩]),
  (⟨.m16, 16⟩, [⟨.i8, 16⟩, ⟨.u8, 16⟩, ⟨.m8, 16⟩, ⟨.i16, 16⟩, ⟨.u16, 16⟩, ⟨.i32, 16⟩, ⟨.u32, 16⟩, ⟨.f32, 16⟩, ⟨.m32, 16⟩]),
  (⟨.m32, 8⟩, [⟨.i8, 8⟩, ⟨.u8, 8⟩, ⟨.m8, 8⟩, ⟨.i16, 8⟩, ⟨.u16, 8⟩, ⟨.m16, 8⟩, ⟨.i32, 8⟩, ⟨.u32, 8⟩, ⟨.f32, 8⟩, ⟨.i64, 8⟩, ⟨.u64, 8⟩, ⟨.f64, 8⟩, ⟨.m64, 8⟩, ⟨.isize, 8⟩, ⟨.usize, 8⟩, ⟨.msize, 8⟩]),
  (⟨.m64, 4⟩, [⟨.i8, 4⟩, ⟨.u8, 4⟩, ⟨.m8, 4⟩, ⟨.i16, 4⟩, ⟨.u16, 4⟩, ⟨.m16, 4⟩, ⟨.i32, 4⟩, ⟨.u32, 4⟩, ⟨.f32, 4⟩, ⟨.m32, 4⟩, ⟨.i64, 4⟩, ⟨.u64, 4⟩, ⟨.f64, 4⟩, ⟨.i128, 4⟩, ⟨.u128, 4⟩, ⟨.m128, 4⟩, ⟨.isize, 4⟩, ⟨.usize, 4⟩, ⟨.msize, 4⟩]),
  (⟨.m128, 2⟩, [⟨.i8, 2⟩, ⟨.u8, 2⟩, ⟨.m8, 2⟩, ⟨.i16, 2⟩, ⟨.u16, 2⟩, ⟨.m16, 2⟩, ⟨.i32, 2⟩, ⟨.u32, 2⟩, ⟨.f32, 2⟩, ⟨.m32, 2⟩, ⟨.i64, 2⟩, ⟨.u64, 2⟩, ⟨.m64, 2⟩, ⟨.f64, 2⟩, ⟨.i128, 2⟩, ⟨.u128, 2⟩, ⟨.isize, 2⟩, ⟨.usize, 2⟩, ⟨.msize, 2⟩]),
  (⟨.msize, 4⟩, [⟨.i8, 4⟩, ⟨.u8, 4⟩, ⟨.m8, 4⟩, ⟨.i16, 4⟩, ⟨.u16, 4⟩, ⟨.m16, 4⟩, ⟨.i32, 4⟩, ⟨.u32, 4⟩, ⟨.f32, 4⟩, ⟨.m32, 4⟩, ⟨.i64, 4⟩, ⟨.u64, 4⟩, ⟨.f64, 4⟩, ⟨.m64, 4⟩, ⟨.i128, 4⟩, ⟨.u128, 4⟩, ⟨.m128, 4⟩, ⟨.isize, 4⟩, ⟨.usize, 4⟩]),
  (⟨.m8, 64⟩, [⟨.i8, 64⟩, ⟨.u8, 64⟩]),
  (⟨.m16, 32⟩, [⟨.i8, 32⟩, ⟨.u8, 32⟩, ⟨.m8, 32⟩, ⟨.i16, 32⟩, ⟨.u16, 32⟩]),
  (⟨.m32, 16⟩, [⟨.i8, 16⟩, ⟨.u8, 16⟩, ⟨.m8, 16⟩, ⟨.i16, 16⟩, ⟨.u16, 16⟩, ⟨.m16, 16⟩, ⟨.i32, 16⟩, ⟨.u32, 16⟩, ⟨.f32, 16⟩]),
  (⟨.m64, 8⟩, [⟨.i8, 8⟩, ⟨.u8, 8⟩, ⟨.m8, 8⟩, ⟨.i16, 8⟩, ⟨.u16, 8⟩, ⟨.m16, 8⟩, ⟨.i32, 8⟩, ⟨.u32, 8⟩, ⟨.f32, 8⟩, ⟨.m32, 8⟩, ⟨.i64, 8⟩, ⟨.u64, 8⟩, ⟨.f64, 8⟩, ⟨.isize, 8⟩, ⟨.usize, 8⟩, ⟨.msize, 8⟩]),
  (⟨.m128, 4⟩, [⟨.i8, 4⟩, ⟨.u8, 4⟩, ⟨.m8, 4⟩, ⟨.i16, 4⟩, ⟨.u16, 4⟩, ⟨.m16, 4⟩, ⟨.i32, 4⟩, ⟨.u32, 4⟩, ⟨.f32, 4⟩, ⟨.m32, 4⟩, ⟨.i64, 4⟩, ⟨.u64, 4⟩, ⟨.m64, 4⟩, ⟨.f64, 4⟩, ⟨.i128, 4⟩, ⟨.u128, 4⟩, ⟨.isize, 4⟩, ⟨.usize, 4⟩, ⟨.msize, 4⟩]),
  (⟨.msize, 8⟩, [⟨.i8, 8⟩, ⟨.u8, 8⟩, ⟨.m8, 8⟩, ⟨.i16, 8⟩, ⟨.u16, 8⟩, ⟨.m16, 8⟩, ⟨.i32, 8⟩, ⟨.u32, 8⟩, ⟨.f32, 8⟩, ⟨.m32, 8⟩, ⟨.i64, 8⟩, ⟨.u64, 8⟩, ⟨.f64, 8⟩, ⟨.m64, 8⟩, ⟨.isize, 8⟩, ⟨.usize, 8⟩])]

/-- `impl_from_bits!` (src/api/into_bits/v*.rs): target, sources; implemented by `transmute`. -/
def bitsTable : List (VTy × List VTy) := [
  (⟨.i8, 2⟩, [⟨.u8, 2⟩, ⟨.m8, 2⟩]),
  (⟨.u8, 2⟩, [⟨.i8, 2⟩, ⟨.m8, 2⟩]),
  (⟨.i8, 4⟩, [⟨.u8, 4⟩, ⟨.m8, 4⟩, ⟨.i16, 2⟩, ⟨.u16, 2⟩, ⟨.m16, 2⟩]),
  (⟨.u8, 4⟩, [⟨.i8, 4⟩, ⟨.m8, 4⟩, ⟨.i16, 2⟩, ⟨.u16, 2⟩, ⟨.m16, 2⟩]),
  (⟨.m8, 4⟩, [⟨.m16, 2⟩]),
  (⟨.i16, 2⟩, [⟨.i8, 4⟩, ⟨.u8, 4⟩, ⟨.m8, 4⟩, ⟨.u16, 2⟩, ⟨.m16, 2⟩]),
  (⟨.u16, 2⟩, [⟨.i8, 4⟩, ⟨.u8, 4⟩, ⟨.m8, 4⟩, ⟨.i16, 2⟩, ⟨.m16, 2⟩]),
  (⟨.i8, 8⟩, [⟨.u8, 8⟩, ⟨.m8, 8⟩, ⟨.i16, 4⟩, ⟨.u16, 4⟩, ⟨.m16, 4⟩, ⟨.i32, 2⟩, ⟨.u32, 2⟩, ⟨.f32, 2⟩, ⟨.m32, 2⟩]),
  (⟨.u8, 8⟩, [⟨.i8, 8⟩, ⟨.m8, 8⟩, ⟨.i16, 4⟩, ⟨.u16, 4⟩, ⟨.m16, 4⟩, ⟨.i32, 2⟩, ⟨.u32, 2⟩, ⟨.f32, 2⟩, ⟨.m32, 2⟩]),
  (⟨.m8, 8⟩, [⟨.m16, 4⟩, ⟨.m32, 2⟩]),
  (⟨.i16, 4⟩, [⟨.i8, 8⟩, ⟨.u8, 8⟩, ⟨.m8, 8⟩, ⟨.u16, 4⟩, ⟨.m16, 4⟩, ⟨.i32, 2⟩, ⟨.u32, 2⟩, ⟨.f32, 2⟩, ⟨.m32, 2⟩]),
  (⟨.u16, 4⟩, [⟨.i8, 8⟩, ⟨.u8, 8⟩, ⟨.m8, 8⟩, ⟨.i16, 4⟩, ⟨.m16, 4⟩, ⟨.i32, 2⟩, ⟨.u32, 2⟩, ⟨.f32, 2⟩, ⟨.m32, 2⟩]),
  (⟨.m16, 4⟩, [⟨.m32, 2⟩]),
  (⟨.i32, 2⟩, [⟨.i8, 8⟩, ⟨.u8, 8⟩, ⟨.m8, 8⟩, ⟨.i16, 4⟩, ⟨.u16, 4⟩, ⟨.m16, 4⟩, ⟨.u32, 2⟩, ⟨.f32, 2⟩, ⟨.m32, 2⟩]),
  (⟨.u32, 2⟩, [⟨.i8, 8⟩, ⟨.u8, 8⟩, ⟨.m8, 8⟩, ⟨.i16, 4⟩, ⟨.u16, 4⟩, ⟨.m16, 4⟩, ⟨.i32, 2⟩, ⟨.f32, 2⟩, ⟨.m32, 2⟩]),
  (⟨.f32, 2⟩, [⟨.i8, 8⟩, ⟨.u8, 8⟩, ⟨.m8, 8⟩, ⟨.i16, 4⟩, ⟨.u16, 4⟩, ⟨.m16, 4⟩, ⟨.i32, 2⟩, ⟨.u32, 2⟩, ⟨.m32, 2⟩]),
  (⟨.i8, 16⟩, [⟨.u8, 16⟩, ⟨.m8, 16⟩, ⟨.i16, 8⟩, ⟨.u16, 8⟩, ⟨.m16, 8⟩, ⟨.i32, 4⟩, ⟨.u32, 4⟩, ⟨.f32, 4⟩, ⟨.m32, 4⟩, ⟨.i64, 2⟩, ⟨.u64, 2⟩, ⟨.f64, 2⟩, ⟨.m64, 2⟩, ⟨.i128, 1⟩, ⟨.u128, 1⟩, ⟨.m128, 1⟩]),
  (⟨.u8, 16⟩, [⟨.i8, 16⟩, ⟨.m8, 16⟩, ⟨.i16, 8⟩, ⟨.u16, 8⟩, ⟨.m16, 8⟩, ⟨.i32, 4⟩, ⟨.u32, 4⟩, ⟨.f32, 4⟩, ⟨.m32, 4⟩, ⟨.i64, 2⟩, ⟨.u64, 2⟩, ⟨.f64, 2⟩, ⟨.m64, 2⟩, ⟨.i128, 1⟩, ⟨.u128, 1⟩, ⟨.m128, 1⟩]),
  (⟨.m8, 16⟩, [⟨.m16, 8⟩, ⟨.m32, 4⟩, ⟨.m64, 2⟩, ⟨.m128, 1⟩]),
  (⟨.i16, 8⟩, [⟨.i8, 16⟩, ⟨.u8, 16⟩, ⟨.m8, 16⟩, ⟨.u16, 8⟩, ⟨.m16, 8⟩, ⟨.i32, 4⟩, ⟨.u32, 4⟩, ⟨.f32, 4⟩, ⟨.m32, 4⟩, ⟨.i64, 2⟩, ⟨.u64, 2⟩, ⟨.f64, 2⟩, ⟨.m64, 2⟩, ⟨.i128, 1⟩, ⟨.u128, 1⟩, ⟨.m128, 1⟩]),
  (⟨.u16, 8⟩, [⟨.i8, 16⟩, ⟨.u8, 16⟩, ⟨.m8, 16⟩, ⟨.i16, 8⟩, ⟨.m16, 8⟩, ⟨.i32, 4⟩, ⟨.u32, 4⟩, ⟨.f32, 4⟩, ⟨.m32, 4⟩, ⟨.i64, 2⟩, ⟨.u64, 2⟩, ⟨.f64, 2⟩, ⟨.m64, 2⟩, ⟨.i128, 1⟩, ⟨.u128, 1⟩, ⟨.m128, 1⟩]),
  (⟨.m16, 8⟩, [⟨.m32, 4⟩, ⟨.m64, 2⟩, ⟨.m128, 1⟩]),
  (⟨.i32, 4⟩, [⟨.i8, 16⟩, ⟨.u8, 16⟩, ⟨.m8, 16⟩, ⟨.i16, 8⟩, ⟨.u16, 8⟩, ⟨.m16, 8⟩, ⟨.u32, 4⟩, ⟨.f32, 4⟩, ⟨.m32, 4⟩, ⟨.i64, 2⟩, ⟨.u64, 2⟩, ⟨.f64, 2⟩, ⟨.m64, 2⟩, ⟨.i128, 1⟩, ⟨.u128, 1⟩, ⟨.m128, 1⟩]),
  (⟨.u32, 4⟩, [⟨.i8, 16⟩, ⟨.u8, 16⟩, ⟨.m8, 16⟩, ⟨.i16, 8⟩, ⟨.u16, 8⟩, ⟨.m16, 8⟩, ⟨.i32, 4⟩, ⟨.f32, 4⟩, ⟨.m32, 4⟩, ⟨.i64, 2⟩, ⟨.u64, 2⟩, ⟨.f64, 2⟩, ⟨.m64, 2⟩, ⟨.i128, 1⟩, ⟨.u128, 1⟩, ⟨.m128, 1⟩]),
  (⟨.f32, 4⟩, [⟨.i8, 16⟩, ⟨.u8, 16⟩, ⟨.m8, 16⟩, ⟨.i16, 8⟩, ⟨.u16, 8⟩, ⟨.m16, 8⟩, ⟨.i32, 4⟩, ⟨.u32, 4⟩, ⟨.m32, 4⟩, ⟨.i64, 2⟩, ⟨.u64, 2⟩, ⟨.f64, 2⟩, ⟨.m64, 2⟩, ⟨.i128, 1⟩, ⟨.u128, 1⟩, ⟨.m128, 1⟩]),
  (⟨.m32, 4⟩, [⟨.m64, 2⟩, ⟨.m128, 1⟩]),
  (⟨.i64, 2⟩, [⟨.i8, 16⟩, ⟨.u8, 16⟩, ⟨.m8, 16⟩, ⟨.i16, 8⟩, ⟨.u16, 8⟩, ⟨.m16, 8⟩, ⟨.i32, 4⟩, ⟨.u32, 4⟩, ⟨.f32, 4⟩, ⟨.m32, 4⟩, ⟨.u64, 2⟩, ⟨.f64, 2⟩, ⟨.m64, 2⟩, ⟨.i128, 1⟩, ⟨.u128, 1⟩, ⟨.m128, 1⟩]),
  (⟨.u64, 2⟩, [⟨.i8, 16⟩, ⟨.u8, 16⟩, ⟨.m8, 16⟩, ⟨.i16, 8⟩, ⟨.u16, 8⟩, ⟨.m16, 8⟩, ⟨.i32, 4⟩, ⟨.u32, 4⟩, ⟨.f32, 4⟩, ⟨.m32, 4⟩, ⟨.i64, 2⟩, ⟨.f64, 2⟩, ⟨.m64, 2⟩, ⟨.i128, 1⟩, ⟨.u128, 1⟩, ⟨.m128, 1⟩]),
  (⟨.f64, 2⟩, [⟨.i8, 16⟩, ⟨.u8, 16⟩, ⟨.m8, 16⟩, ⟨.i16, 8⟩, ⟨.u16, 8⟩, ⟨.m16, 8⟩, ⟨.i32, 4⟩, ⟨.u32, 4⟩, ⟨.f32, 4⟩, ⟨.m32, 4⟩, ⟨.i64, 2⟩, ⟨.u64, 2⟩, ⟨.m64, 2⟩, ⟨.i128, 1⟩, ⟨.u128, 1⟩, ⟨.m128, 1⟩]),
  (⟨.m64, 2⟩, [⟨.m128, 1⟩]),
  (⟨.i128, 1⟩, [⟨.i8, 16⟩, ⟨.u8, 16⟩, ⟨.m8, 16⟩, ⟨.i16, 8⟩, ⟨.u16, 8⟩, ⟨.m16, 8⟩, ⟨.i32, 4⟩, ⟨.u32, 4⟩, ⟨.f32, 4⟩, ⟨.m32, 4⟩, ⟨.i64, 2⟩, ⟨.u64, 2⟩, ⟨.f64, 2⟩, ⟨.m64, 2⟩, ⟨.u128, 1⟩, ⟨.m128, 1⟩]),
  (⟨.u128, 1⟩, [⟨.i8, 16⟩, ⟨.u8, 16⟩, ⟨.m8, 16⟩, ⟨.i16, 8⟩, ⟨.u16, 8⟩, ⟨.m16, 8⟩, ⟨.i32, 4⟩, ⟨.u32, 4⟩, ⟨.f32, 4⟩, ⟨.m32, 4⟩, ⟨.i64, 2⟩, ⟨.u64, 2⟩, ⟨.f64, 2⟩, ⟨.m64, 2⟩, ⟨.i128, 1⟩, ⟨.m128, 1⟩]),
  (⟨.i8, 32⟩, [⟨.u8, 32⟩, ⟨.m8, 32⟩, ⟨.i16, 16⟩, ⟨.u16, 16⟩, ⟨.m16, 16⟩, ⟨.i32, 8⟩, ⟨.u32, 8⟩, ⟨.f32, 8⟩, ⟨.m32, 8⟩, ⟨.i64, 4⟩, ⟨.u64, 4⟩, ⟨.f64, 4⟩, ⟨.m64, 4⟩, ⟨.i128, 2⟩, ⟨.u128, 2⟩, ⟨.m128, 2⟩]),
  (⟨.u8, 32⟩, [⟨.i8, 32⟩, ⟨.m8, 32⟩, ⟨.i16, 16⟩, ⟨.u16, 16⟩, ⟨.m16, 16⟩, ⟨.i32, 8⟩, ⟨.u32, 8⟩, ⟨.f32, 8⟩, ⟨.m32, 8⟩, ⟨.i64, 4⟩, ⟨.u64, 4⟩, ⟨.f64, 4⟩, ⟨.m64, 4⟩, ⟨.i128, 2⟩, ⟨.u128, 2⟩, ⟨.m128, 2⟩]),
  (⟨.m8, 32⟩, [⟨.m16, 16⟩, ⟨.m32, 8⟩, ⟨.m64, 4⟩, ⟨.m128, 2⟩]),
  (⟨.i16, 16⟩, [⟨.i8, 32⟩, ⟨.u8, 32⟩, ⟨.m8, 32⟩, ⟨.u16, 16⟩, ⟨.m16, 16⟩, ⟨.i32, 8⟩, ⟨.u32, 8⟩, ⟨.f32, 8⟩, ⟨.m32, 8⟩, ⟨.i64, 4⟩, ⟨.u64, 4⟩, ⟨.f64, 4⟩, ⟨.m64, 4⟩, ⟨.i128, 2⟩, ⟨.u128, 2⟩, ⟨.m128, 2⟩]),
  (⟨.u16, 16⟩, [⟨.i8, 32⟩, ⟨.u8, 32⟩, ⟨.m8, 32⟩, ⟨.i16, 16⟩, ⟨.m16, 16⟩, ⟨.i32, 8⟩, ⟨.u32, 8⟩, ⟨.f32, 8⟩, ⟨.m32, 8⟩, ⟨.i64, 4⟩, ⟨.u64, 4⟩, ⟨.f64, 4⟩, ⟨.m64, 4⟩, ⟨.i128, 2⟩, ⟨.u128, 2⟩, ⟨.m128, 2⟩]),
  (⟨.m16, 16⟩, [⟨.m32, 8⟩, ⟨.m64, 4⟩, ⟨.m128, 2⟩]),
  (⟨.i32, 8⟩, [⟨.i8, 32⟩, ⟨.u8, 32⟩, ⟨.m8, 32⟩, ⟨.i16, 16⟩, ⟨.u16, 16⟩, ⟨.m16, 16⟩, ⟨.u32, 8⟩, ⟨.f32, 8⟩, ⟨.m32, 8⟩, ⟨.i64, 4⟩, ⟨.u64, 4⟩, ⟨.f64, 4⟩, ⟨.m64, 4⟩, ⟨.i128, 2⟩, ⟨.u128, 2⟩, ⟨.m128, 2⟩]),
  (⟨.u32, 8⟩, [⟨.i8, 32⟩, ⟨.u8, 32⟩, ⟨.m8, 32⟩, ⟨.i16, 16⟩, ⟨.u16, 16⟩, ⟨.m16, 16⟩, ⟨.i32, 8⟩, ⟨.f32, 8⟩, ⟨.m32, 8⟩, ⟨.i64, 4⟩, ⟨.u64, 4⟩, ⟨.f64, 4⟩, ⟨.m64, 4⟩, ⟨.i128, 2⟩, ⟨.u128, 2⟩, ⟨.m128, 2⟩]),
  (⟨.f32, 8⟩, [⟨.i8, 32⟩, ⟨.u8, 32⟩, ⟨.m8, 32⟩, ⟨.i16, 16⟩, ⟨.u16, 16⟩, ⟨.m16, 16⟩, ⟨.i32, 8⟩, ⟨.u32, 8⟩, ⟨.m32, 8⟩, ⟨.i64, 4⟩, ⟨.u64, 4⟩, ⟨.f64, 4⟩, ⟨.m64, 4⟩, ⟨.i128, 2⟩, ⟨.u128, 2⟩, ⟨.m128, 2⟩]),
  (⟨.m32, 8⟩, [⟨.m64, 4⟩, ⟨.m128, 2⟩]),
  (⟨.i64, 4⟩, [⟨.i8, 32⟩, ⟨.u8, 32⟩, ⟨.m8, 32⟩, ⟨.i16, 16⟩, ⟨.u16, 16⟩, ⟨.m16, 16⟩, ⟨.i32, 8⟩, ⟨.u32, 8⟩, ⟨.f32, 8⟩, ⟨.m32, 8⟩, ⟨.u64, 4⟩, ⟨.f64, 4⟩, ⟨.m64, 4⟩, ⟨.i128, 2⟩, ⟨.u128, 2⟩, ⟨.m128, 2⟩]),
  (⟨.u64, 4⟩, [⟨.i8, 32⟩, ⟨.u8, 32⟩, ⟨.m8, 32⟩, ⟨.i16, 16⟩, ⟨.u16, 16⟩, ⟨.m16, 16⟩, ⟨.i32, 8⟩, ⟨.u32, 8⟩, ⟨.f32, 8⟩, ⟨.m32, 8⟩, ⟨.i64, 4⟩, ⟨.f64, 4⟩, ⟨.m64, 4⟩, ⟨.i128, 2⟩, ⟨.u128, 2⟩, ⟨.m128, 2⟩]),
  (⟨.f64, 4⟩, [⟨.i8, 32⟩, ⟨.u8, 32⟩, ⟨.m8, 32⟩, ⟨.i16, 16⟩, ⟨.u16, 16⟩, ⟨.m16, 16⟩, ⟨.i32, 8⟩, ⟨.u32, 8⟩, ⟨.f32, 8⟩, ⟨.m32, 8⟩, ⟨.i64, 4⟩, ⟨.u64, 4⟩, ⟨.m64, 4⟩, ⟨.i128, 2⟩, ⟨.u128, 2⟩, ⟨.m128, 2⟩]),
  (⟨.m64, 4⟩, [⟨.m128, 2⟩]),
  (⟨.i128, 2⟩, [⟨.i8, 32⟩, ⟨.u8, 32⟩, ⟨.m8, 32⟩, ⟨.i16, 16⟩, ⟨.u16, 16⟩, ⟨.m16, 16⟩, ⟨.i32, 8⟩, ⟨.u32, 8⟩, ⟨.f32, 8⟩, ⟨.m32, 8⟩, ⟨.i64, 4⟩, ⟨.u64, 4⟩, ⟨.f64, 4⟩, ⟨.m64, 4⟩, ⟨.u128, 2⟩, ⟨.m128, 2⟩]),
  (⟨.u128, 2⟩, [⟨.i8, 32⟩, ⟨.u8, 32⟩, ⟨.m8, 32⟩, ⟨.i16, 16⟩, ⟨.u16, 16⟩, ⟨.m16, 16⟩, ⟨.i32, 8⟩, ⟨.u32, 8⟩, ⟨.f32, 8⟩, ⟨.m32, 8⟩, ⟨.i64, 4⟩, ⟨.u64, 4⟩, ⟨.f64, 4⟩, ⟨.m64, 4⟩, ⟨.i128, 2⟩, ⟨.m128, 2⟩]),
  (⟨.i8, 64⟩, [⟨.u8, 64⟩, ⟨.m8, 64⟩, ⟨.i16, 32⟩, ⟨.u16, 32⟩, ⟨.m16, 32⟩, ⟨.i32, 16⟩, ⟨.u32, 16⟩, ⟨.f32, 16⟩, ⟨.m32, 16⟩, ⟨.i64, 8⟩, ⟨.u64, 8⟩, ⟨.f64, 8⟩, ⟨.m64, 8⟩, ⟨.i128, 4⟩, ⟨.u128, 4⟩, ⟨.m128, 4⟩]),
  (⟨.u8, 64⟩, [⟨.i8, 64⟩, ⟨.m8, 64⟩, ⟨.i16, 32⟩, ⟨.u16, 32⟩, ⟨.m16, 32⟩, ⟨.i32, 16⟩, ⟨.u32, 16⟩, ⟨.f32, 16⟩, ⟨.m32, 16⟩, ⟨.i64, 8⟩, ⟨.u64, 8⟩, ⟨.f64, 8⟩, ⟨.m64, 8⟩, ⟨.i128, 4⟩, ⟨.u128, 4⟩, ⟨.m128, 4⟩]),
  (⟨.m8, 64⟩, [⟨.m16, 32⟩, ⟨.m32, 16⟩, ⟨.m64, 8⟩, ⟨.m128, 4⟩]),
  (⟨.i16, 32⟩, [⟨.i8, 64⟩, ⟨.u8, 64⟩, ⟨.m8, 64⟩, ⟨.u16, 32⟩, ⟨.m16, 32⟩, ⟨.i32, 16⟩, ⟨.u32, 16⟩, ⟨.f32, 16⟩, ⟨.m32, 16⟩, ⟨.i64, 8⟩, ⟨.u64, 8⟩, ⟨.f64, 8⟩, ⟨.m64, 8⟩, ⟨.i128, 4⟩, ⟨.u128, 4⟩, ⟨.m128, 4⟩]),
  (⟨.u16, 32⟩, [⟨.i8, 64⟩, ⟨.u8, 64⟩, ⟨.m8, 64⟩, ⟨.i16, 32⟩, ⟨.m16, 32⟩, ⟨.i32, 16⟩, ⟨.u32, 16⟩, ⟨.f32, 16⟩, ⟨.m32, 16⟩, ⟨.i64, 8⟩, ⟨.u64, 8⟩, ⟨.f64, 8⟩, ⟨.m64, 8⟩, ⟨.i128, 4⟩, ⟨.u128, 4⟩, ⟨.m128, 4⟩]),
  (⟨.m16, 32⟩, [⟨.m32, 16⟩, ⟨.m64, 8⟩, ⟨.m128, 4⟩]),
  (⟨.i32, 16⟩, [⟨.i8, 64⟩, ⟨.u8, 64⟩, ⟨.m8, 64⟩, ⟨.i16, 32⟩, ⟨.u16, 32⟩, ⟨.m16, 32⟩, ⟨.u32, 16⟩, ⟨.f32, 16⟩, ⟨.m32, 16⟩, ⟨.i64, 8⟩, ⟨.u64, 8⟩, ⟨.f64, 8⟩, ⟨.m64, 8⟩, ⟨.i128, 4⟩, ⟨.u128, 4⟩, ⟨.m128, 4⟩]),
  (⟨.u32, 16⟩, [⟨.i8, 64⟩, ⟨.u8, 64⟩, ⟨.m8, 64⟩, ⟨.i16, 32⟩, ⟨.u16, 32⟩, ⟨.m16, 32⟩, ⟨.i32, 16⟩, ⟨.f32, 16⟩, ⟨.m32, 16⟩, ⟨.i64, 8⟩, ⟨.u64, 8⟩, ⟨.f64, 8⟩, ⟨.m64, 8⟩, ⟨.i128, 4⟩, ⟨.u128, 4⟩, ⟨.m128, 4⟩]),
  (⟨.f32, 16⟩, [⟨.i8, 64⟩, ⟨.u8, 64⟩, ⟨.m8, 64⟩, ⟨.i16, 32⟩, ⟨.u16, 32⟩, ⟨.m16, 32⟩, ⟨.i32, 16⟩, ⟨.u32, 16⟩, ⟨.m32, 16⟩, ⟨.i64, 8⟩, ⟨.u64, 8⟩, ⟨.f64, 8⟩, ⟨.m64, 8⟩, ⟨.i128, 4⟩, ⟨.u128, 4⟩, ⟨.m128, 4⟩]),
  (⟨.m32, 16⟩, [⟨.m64, 8⟩, ⟨.m128, 4⟩]),
  (⟨.i64, 8⟩, [⟨.i8, 64⟩, ⟨.u8, 64⟩, ⟨.m8, 64⟩, ⟨.i16, 32⟩, ⟨.u16, 32⟩, ⟨.m16, 32⟩, ⟨.i32, 16⟩, ⟨.u32, 16⟩, ⟨.f32, 16⟩, ⟨.m32, 16⟩, ⟨.u64, 8⟩, ⟨.f64, 8⟩, ⟨.m64, 8⟩, ⟨.i128, 4⟩, ⟨.u128, 4⟩, ⟨.m128, 4⟩]),
  (⟨.u64, 8⟩, [⟨.i8, 64⟩, ⟨.u8, 64⟩, ⟨.m8, 64⟩, ⟨.i16, 32⟩, ⟨.u16, 32⟩, ⟨.m16, 32⟩, ⟨.i32, 16⟩, ⟨.u32, 16⟩, ⟨.f32, 16⟩, ⟨.m32, 16⟩, ⟨.i64, 8⟩, ⟨.f64, 8⟩, ⟨.m64, 8⟩, ⟨.i128, 4⟩, ⟨.u128, 4⟩, ⟨.m128, 4⟩]),
  (⟨.f64, 8⟩, [⟨.i8, 64⟩, ⟨.u8, 64⟩, ⟨.m8, 64⟩, ⟨.i16, 32⟩, ⟨.u16, 32⟩, ⟨.m16, 32⟩, ⟨.i32, 16⟩, ⟨.u32, 16⟩, ⟨.f32, 16⟩, ⟨.m32, 16⟩, ⟨.i64, 8⟩, ⟨.u64, 8⟩, ⟨.m64, 8⟩, ⟨.i128, 4⟩, ⟨.u128, 4⟩, ⟨.m128, 4⟩]),
  (⟨.m64, 8⟩, [⟨.m128, 4⟩]),
  (⟨.i128, 4⟩, [⟨.i8, 64⟩, ⟨.u8, 64⟩, ⟨.m8, 64⟩, ⟨.i16, 32⟩, ⟨.u16, 32⟩, ⟨.m16, 32⟩, ⟨.i32, 16⟩, ⟨.u32, 16⟩, ⟨.f32, 16⟩, ⟨.m32, 16⟩, ⟨.i64, 8⟩, ⟨.u64, 8⟩, ⟨.f64, 8⟩, ⟨.m64, 8⟩, ⟨.u128, 4⟩, ⟨.m128, 4⟩]),
  (⟨.u128, 4⟩, [⟨.i8, 64⟩, ⟨.u8, 64⟩, ⟨.m8, 64⟩, ⟨.i16, 32⟩, ⟨.u16, 32⟩, ⟨.m16, 32⟩, ⟨.i32, 16⟩, ⟨.u32, 16⟩, ⟨.f32, 16⟩, ⟨.m32, 16⟩, ⟨.i64, 8⟩, ⟨.u64, 8⟩, ⟨.f64, 8⟩, ⟨.m64, 8⟩, ⟨.i128, 4⟩, ⟨.m128, 4⟩])]

/-- `impl_arch!` (src/api/into_bits/arch_specific.rs:81-345): architecture, architecture type (name, size in bytes, lane size if it is a Boolean
vector, else 0), portable types convertible into it (`from:`), portable types it converts into (`into:`). -/
def archTable : List ArchRow := [
  ⟨"arm", "int8x8_t", 8, 0, [⟨.i8, 8⟩, ⟨.u8, 8⟩, ⟨.m8, 8⟩, ⟨.i16, 4⟩, ⟨.u16, 4⟩, ⟨.m16, 4⟩, ⟨.i32, 2⟩, ⟨.u32, 2⟩, ⟨.f32, 2⟩, ⟨.m32, 2⟩], [⟨.i8, 8⟩, ⟨.u8, 8⟩, ⟨.i16, 4⟩, ⟨.u16, 4⟩, ⟨.i32, 2⟩, ⟨.u32, 2⟩, ⟨.f32, 2⟩]⟩,
  ⟨"arm", "uint8x8_t", 8, 0, [⟨.i8, 8⟩, ⟨.u8, 8⟩, ⟨.m8, 8⟩, ⟨.i16, 4⟩, ⟨.u16, 4⟩, ⟨.m16, 4⟩, ⟨.i32, 2⟩, ⟨.u32, 2⟩, ⟨.f32, 2⟩, ⟨.m32, 2⟩], [⟨.i8, 8⟩, ⟨.u8, 8⟩, ⟨.i16, 4⟩, ⟨.u16, 4⟩, ⟨.i32, 2⟩, ⟨.u32, 2⟩, ⟨.f32, 2⟩]⟩,
  ⟨"arm", "poly8x8_t", 8, 0, [⟨.i8, 8⟩, ⟨.u8, 8⟩, ⟨.m8, 8⟩, ⟨.i16, 4⟩, ⟨.u16, 4⟩, ⟨.m16, 4⟩, ⟨.i32, 2⟩, ⟨.u32, 2⟩, ⟨.f32, 2⟩, ⟨.m32, 2⟩], [⟨.i8, 8⟩, ⟨.u8, 8⟩, ⟨.i16, 4⟩, ⟨.u16, 4⟩, ⟨.i32, 2⟩, ⟨.u32, 2⟩, ⟨.f32, 2⟩]⟩,
  ⟨"arm", "int16x4_t", 8, 0, [⟨.i8, 8⟩, ⟨.u8, 8⟩, ⟨.m8, 8⟩, ⟨.i16, 4⟩, ⟨.u16, 4⟩, ⟨.m16, 4⟩, ⟨.i32, 2⟩, ⟨.u32, 2⟩, ⟨.f32, 2⟩, ⟨.m32, 2⟩], [⟨.i8, 8⟩, ⟨.u8, 8⟩, ⟨.i16, 4⟩, ⟨.u16, 4⟩, ⟨.i32, 2⟩, ⟨.u32, 2⟩, ⟨.f32, 2⟩]⟩,
  ⟨"arm", "uint16x4_t", 8, 0, [⟨.i8, 8⟩, ⟨.u8, 8⟩, ⟨.m8, 8⟩, ⟨.i16, 4⟩, ⟨.u16, 4⟩, ⟨.m16, 4⟩, ⟨.i32, 2⟩, ⟨.u32, 2⟩, ⟨.f32, 2⟩, ⟨.m32, 2⟩], [⟨.i8, 8⟩, ⟨.u8, 8⟩, ⟨.i16, 4⟩, ⟨.u16, 4⟩, ⟨.i32, 2⟩, ⟨.u32, 2⟩, ⟨.f32, 2⟩]⟩,
  ⟨"arm", "poly16x4_t", 8, 0, [⟨.i8, 8⟩, ⟨.u8, 8⟩, ⟨.m8, 8⟩, ⟨.i16, 4⟩, ⟨.u16, 4⟩, ⟨.m16, 4⟩, ⟨.i32, 2⟩, ⟨.u32, 2⟩, ⟨.f32, 2⟩, ⟨.m32, 2⟩], [⟨.i8, 8⟩, ⟨.u8, 8⟩, ⟨.i16, 4⟩, ⟨.u16, 4⟩, ⟨.i32, 2⟩, ⟨.u32, 2⟩, ⟨.f32, 2⟩]⟩,
  ⟨"arm", "int32x2_t", 8, 0, [⟨.i8, 8⟩, ⟨.u8, 8⟩, ⟨.m8, 8⟩, ⟨.i16, 4⟩, ⟨.u16, 4⟩, ⟨.m16, 4⟩, ⟨.i32, 2⟩, ⟨.u32, 2⟩, ⟨.f32, 2⟩, ⟨.m32, 2⟩], [⟨.i8, 8⟩, ⟨.u8, 8⟩, ⟨.i16, 4⟩, ⟨.u16, 4⟩, ⟨.i32, 2⟩, ⟨.u32, 2⟩, ⟨.f32, 2⟩]⟩,
  ⟨"arm", "uint32x2_t", 8, 0, [⟨.i8, 8⟩, ⟨.u8, 8⟩, ⟨.m8, 8⟩, ⟨.i16, 4⟩, ⟨.u16, 4⟩, ⟨.m16, 4⟩, ⟨.i32, 2⟩, ⟨.u32, 2⟩, ⟨.f32, 2⟩, ⟨.m32, 2⟩], [⟨.i8, 8⟩, ⟨.u8, 8⟩, ⟨.i16, 4⟩, ⟨.u16, 4⟩, ⟨.i32, 2⟩, ⟨.u32, 2⟩, ⟨.f32, 2⟩]⟩,
  ⟨"arm", "float32x2_t", 8, 0, [⟨.i8, 8⟩, ⟨.u8, 8⟩, ⟨.m8, 8⟩, ⟨.i16, 4⟩, ⟨.u16, 4⟩, ⟨.m16, 4⟩, ⟨.i32, 2⟩, ⟨.u32, 2⟩, ⟨.f32, 2⟩, ⟨.m32, 2⟩], [⟨.i8, 8⟩, ⟨.u8, 8⟩, ⟨.i16, 4⟩, ⟨.u16, 4⟩, ⟨.i32, 2⟩, ⟨.u32, 2⟩, ⟨.f32, 2⟩]⟩,
  ⟨"arm", "int64x1_t", 8, 0, [⟨.i8, 8⟩, ⟨.u8, 8⟩, ⟨.m8, 8⟩, ⟨.i16, 4⟩, ⟨.u16, 4⟩, ⟨.m16, 4⟩, ⟨.i32, 2⟩, ⟨.u32, 2⟩, ⟨.f32, 2⟩, ⟨.m32, 2⟩], [⟨.i8, 8⟩, ⟨.u8, 8⟩, ⟨.i16, 4⟩, ⟨.u16, 4⟩, ⟨.i32, 2⟩, ⟨.u32, 2⟩, ⟨.f32, 2⟩]⟩,
  ⟨"arm", "uint64x1_t", 8, 0, [⟨.i8, 8⟩, ⟨.u8, 8⟩, ⟨.m8, 8⟩, ⟨.i16, 4⟩, ⟨.u16, 4⟩, ⟨.m16, 4⟩, ⟨.i32, 2⟩, ⟨.u32, 2⟩, ⟨.f32, 2⟩, ⟨.m32, 2⟩], [⟨.i8, 8⟩, ⟨.u8, 8⟩, ⟨.i16, 4⟩, ⟨.u16, 4⟩, ⟨.i32, 2⟩, ⟨.u32, 2⟩, ⟨.f32, 2⟩]⟩,
  ⟨"aarch64", "int8x8_t", 8, 0, [⟨.i8, 8⟩, ⟨.u8, 8⟩, ⟨.m8, 8⟩, ⟨.i16, 4⟩, ⟨.u16, 4⟩, ⟨.m16, 4⟩, ⟨.i32, 2⟩, ⟨.u32, 2⟩, ⟨.f32, 2⟩, ⟨.m32, 2⟩], [⟨.i8, 8⟩, ⟨.u8, 8⟩, ⟨.i16, 4⟩, ⟨.u16, 4⟩, ⟨.i32, 2⟩, ⟨.u32, 2⟩, ⟨.f32, 2⟩]⟩,
  ⟨"aarch64", "uint8x8_t", 8, 0, [⟨.i8, 8⟩, ⟨.u8, 8⟩, ⟨.m8, 8⟩, ⟨.i16, 4⟩, ⟨.u16, 4⟩, ⟨.m16, 4⟩, ⟨.i32, 2⟩, ⟨.u32, 2⟩, ⟨.f32, 2⟩, ⟨.m32, 2⟩], [⟨.i8, 8⟩, ⟨.u8, 8⟩, ⟨.i16, 4⟩, ⟨.u16, 4⟩, ⟨.i32, 2⟩, ⟨.u32, 2⟩, ⟨.f32, 2⟩]⟩,
  ⟨"aarch64", "poly8x8_t", 8, 0, [⟨.i8, 8⟩, ⟨.u8, 8⟩, ⟨.m8, 8⟩, ⟨.i16, 4⟩, ⟨.u16, 4⟩, ⟨.m16, 4⟩, ⟨.i32, 2⟩, ⟨.u32, 2⟩, ⟨.f32, 2⟩, ⟨.m32, 2⟩], [⟨.i8, 8⟩, ⟨.u8, 8⟩, ⟨.i16, 4⟩, ⟨.u16, 4⟩, ⟨.i32, 2⟩, ⟨.u32, 2⟩, ⟨.f32, 2⟩]⟩,
  ⟨"aarch64", "int16x4_t", 8, 0, [⟨.i8, 8⟩, ⟨.u8, 8⟩, ⟨.m8, 8⟩, ⟨.i16, 4⟩, ⟨.u16, 4⟩, ⟨.m16, 4⟩, ⟨.i32, 2⟩, ⟨.u32, 2⟩, ⟨.f32, 2⟩, ⟨.m32, 2⟩], [⟨.i8, 8⟩, ⟨.u8, 8⟩, ⟨.i16, 4⟩, ⟨.u16, 4⟩, ⟨.i32, 2⟩, ⟨.u32, 2⟩, ⟨.f32, 2⟩]⟩,
  ⟨"aarch64", "uint16x4_t", 8, 0, [⟨.i8, 8⟩, ⟨.u8, 8⟩, ⟨.m8, 8⟩, ⟨.i16, 4⟩, ⟨.u16, 4⟩, ⟨.m16, 4⟩, ⟨.i32, 2⟩, ⟨.u32, 2⟩, ⟨.f32, 2⟩, ⟨.m32, 2⟩], [⟨.i8, 8⟩, ⟨.u8, 8⟩, ⟨.i16, 4⟩, ⟨.u16, 4⟩, ⟨.i32, 2⟩, ⟨.u32, 2⟩, ⟨.f32, 2⟩]⟩,
  ⟨"aarch64", "poly16x4_t", 8, 0, [⟨.i8, 8⟩, ⟨.u8, 8⟩, ⟨.m8, 8⟩, ⟨.i16, 4⟩, ⟨.u16, 4⟩, ⟨.m16, 4⟩, ⟨.i32, 2⟩, ⟨.u32, 2⟩, ⟨.f32, 2⟩, ⟨.m32, 2⟩], [⟨.i8, 8⟩, ⟨.u8, 8⟩, ⟨.i16, 4⟩, ⟨.u16, 4⟩, ⟨.i32, 2⟩, ⟨.u32, 2⟩, ⟨.f32, 2⟩]⟩,
  ⟨"aarch64", "int32x2_t", 8, 0, [⟨.i8, 8⟩, ⟨.u8, 8⟩, ⟨.m8, 8⟩, ⟨.i16, 4⟩, ⟨.u16, 4⟩, ⟨.m16, 4⟩, ⟨.i32, 2⟩, ⟨.u32, 2⟩, ⟨.f32, 2⟩, ⟨.m32, 2⟩], [⟨.i8, 8⟩, ⟨.u8, 8⟩, ⟨.i16, 4⟩, ⟨.u16, 4⟩, ⟨.i32, 2⟩, ⟨.u32, 2⟩, ⟨.f32, 2⟩]⟩,
  ⟨"aarch64", "uint32x2_t", 8, 0, [⟨.i8, 8⟩, ⟨.u8, 8⟩, ⟨.m8, 8⟩, ⟨.i16, 4⟩, ⟨.u16, 4⟩, ⟨.m16, 4⟩, ⟨.i32, 2⟩, ⟨.u32, 2⟩, ⟨.f32, 2⟩, ⟨.m32, 2⟩], [⟨.i8, 8⟩, ⟨.u8, 8⟩, ⟨.i16, 4⟩, ⟨.u16, 4⟩, ⟨.i32, 2⟩, ⟨.u32, 2⟩, ⟨.f32, 2⟩]⟩,
  ⟨"aarch64", "float32x2_t", 8, 0, [⟨.i8, 8⟩, ⟨.u8, 8⟩, ⟨.m8, 8⟩, ⟨.i16, 4⟩, ⟨.u16, 4⟩, ⟨.m16, 4⟩, ⟨.i32, 2⟩, ⟨.u32, 2⟩, ⟨.f32, 2⟩, ⟨.m32, 2⟩], [⟨.i8, 8⟩, ⟨.u8, 8⟩, ⟨.i16, 4⟩, ⟨.u16, 4⟩, ⟨.i32, 2⟩, ⟨.u32, 2⟩, ⟨.f32, 2⟩]⟩,
  ⟨"aarch64", "int64x1_t", 8, 0, [⟨.i8, 8⟩, ⟨.u8, 8⟩, ⟨.m8, 8⟩, ⟨.i16, 4⟩, ⟨.u16, 4⟩, ⟨.m16, 4⟩, ⟨.i32, 2⟩, ⟨.u32, 2⟩, ⟨.f32, 2⟩, ⟨.m32, 2⟩], [⟨.i8, 8⟩, ⟨.u8, 8⟩, ⟨.i16, 4⟩, ⟨.u16, 4⟩, ⟨.i32, 2⟩, ⟨.u32, 2⟩, ⟨.f32, 2⟩]⟩,
  ⟨"aarch64", "uint64x1_t", 8, 0, [⟨.i8, 8⟩, ⟨.u8, 8⟩, ⟨.m8, 8⟩, ⟨.i16, 4⟩, ⟨.u16, 4⟩, ⟨.m16, 4⟩, ⟨.i32, 2⟩, ⟨.u32, 2⟩, ⟨.f32, 2⟩, ⟨.m32, 2⟩], [⟨.i8, 8⟩, ⟨.u8, 8⟩, ⟨.i16, 4⟩, ⟨.u16, 4⟩, ⟨.i32, 2⟩, ⟨.u32, 2⟩, ⟨.f32, 2⟩]⟩,
  ⟨"aarch64", "float64x1_t", 8, 0, [⟨.i8, 8⟩, ⟨.u8, 8⟩, ⟨.m8, 8⟩, ⟨.i16, 4⟩, ⟨.u16, 4⟩, ⟨.m16, 4⟩, ⟨.i32, 2⟩, ⟨.u32, 2⟩, ⟨.f32, 2⟩, ⟨.m32, 2⟩], [⟨.i8, 8⟩, ⟨.u8, 8⟩, ⟨.i16, 4⟩, ⟨.u16, 4⟩, ⟨.i32, 2⟩, ⟨.u32, 2⟩, ⟨.f32, 2⟩]⟩,
  ⟨"x86", "__m128", 16, 0, [⟨.i8, 16⟩, ⟨.u8, 16⟩, ⟨.m8, 16⟩, ⟨.i16, 8⟩, ⟨.u16, 8⟩, ⟨.m16, 8⟩, ⟨.i32, 4⟩, ⟨.u32, 4⟩, ⟨.f32, 4⟩, ⟨.m32, 4⟩, ⟨.i64, 2⟩, ⟨.u64, 2⟩, ⟨.f64, 2⟩, ⟨.m64, 2⟩, ⟨.i128, 1⟩, ⟨.u128, 1⟩, ⟨.m128, 1⟩], [⟨.i8, 16⟩, ⟨.u8, 16⟩, ⟨.i16, 8⟩, ⟨.u16, 8⟩, ⟨.i32, 4⟩, ⟨.u32, 4⟩, ⟨.f32, 4⟩, ⟨.i64, 2⟩, ⟨.u64, 2⟩, ⟨.f64, 2⟩, ⟨.i128, 1⟩, ⟨.u128, 1⟩]⟩,
  ⟨"x86", "__m128i", 16, 0, [⟨.i8, 16⟩, ⟨.u8, 16⟩, ⟨.m8, 16⟩, ⟨.i16, 8⟩, ⟨.u16, 8⟩, ⟨.m16, 8⟩, ⟨.i32, 4⟩, ⟨.u32, 4⟩, ⟨.f32, 4⟩, ⟨.m32, 4⟩, ⟨.i64, 2⟩, ⟨.u64, 2⟩, ⟨.f64, 2⟩, ⟨.m64, 2⟩, ⟨.i128, 1⟩, ⟨.u128, 1⟩, ⟨.m128, 1⟩], [⟨.i8, 16⟩, ⟨.u8, 16⟩, ⟨.i16, 8⟩, ⟨.u16, 8⟩, ⟨.i32, 4⟩, ⟨.u32, 4⟩, ⟨.f32, 4⟩, ⟨.i64, 2⟩, ⟨.u64, 2⟩, ⟨.f64, 2⟩, ⟨.i128, 1⟩, ⟨.u128, 1⟩]⟩,
  ⟨"x86", "__m128d", 16, 0, [⟨.i8, 16⟩, ⟨.u8, 16⟩, ⟨.m8, 16⟩, ⟨.i16, 8⟩, ⟨.u16, 8⟩, ⟨.m16, 8⟩, ⟨.i32, 4⟩, ⟨.u32, 4⟩, ⟨.f32, 4⟩, ⟨.m32, 4⟩, ⟨.i64, 2⟩, ⟨.u64, 2⟩, ⟨.f64, 2⟩, ⟨.m64, 2⟩, ⟨.i128, 1⟩, ⟨.u128, 1⟩, ⟨.m128, 1⟩], [⟨.i8, 16⟩, ⟨.u8, 16⟩, ⟨.i16, 8⟩, ⟨.u16, 8⟩, ⟨.i32, 4⟩, ⟨.u32, 4⟩, ⟨.f32, 4⟩, ⟨.i64, 2⟩, ⟨.u64, 2⟩, ⟨.f64, 2⟩, ⟨.i128, 1⟩, ⟨.u128, 1⟩]⟩,
  ⟨"x86_64", "__m128", 16, 0, [⟨.i8, 16⟩, ⟨.u8, 16⟩, ⟨.m8, 16⟩, ⟨.i16, 8⟩, ⟨.u16, 8⟩, ⟨.m16, 8⟩, ⟨.i32, 4⟩, ⟨.u32, 4⟩, ⟨.f32, 4⟩, ⟨.m32, 4⟩, ⟨.i64, 2⟩, ⟨.u64, 2⟩, ⟨.f64, 2⟩, ⟨.m64, 2⟩, ⟨.i128, 1⟩, ⟨.u128, 1⟩, ⟨.m128, 1⟩], [⟨.i8, 16⟩, ⟨.u8, 16⟩, ⟨.i16, 8⟩, ⟨.u16, 8⟩, ⟨.i32, 4⟩, ⟨.u32, 4⟩, ⟨.f32, 4⟩, ⟨.i64, 2⟩, ⟨.u64, 2⟩, ⟨.f64, 2⟩, ⟨.i128, 1⟩, ⟨.u128, 1⟩]⟩,
  ⟨"x86_64", "__m128i", 16, 0, [⟨.i8, 16⟩, ⟨.u8, 16⟩, ⟨.m8, 16⟩, ⟨.i16, 8⟩, ⟨.u16, 8⟩, ⟨.m16, 8⟩, ⟨.i32, 4⟩, ⟨.u32, 4⟩, ⟨.f32, 4⟩, ⟨.m32, 4⟩, ⟨.i64, 2⟩, ⟨.u64, 2⟩, ⟨.f64, 2⟩, ⟨.m64, 2⟩, ⟨.i128, 1⟩, ⟨.u128, 1⟩, ⟨.m128, 1⟩], [⟨.i8, 16⟩, ⟨.u8, 16⟩, ⟨.i16, 8⟩, ⟨.u16, 8⟩, ⟨.i32, 4⟩, ⟨.u32, 4⟩, ⟨.f32, 4⟩, ⟨.i64, 2⟩, ⟨.u64, 2⟩, ⟨.f64, 2⟩, ⟨.i128, 1⟩, ⟨.u128, 1⟩]⟩,
  ⟨"x86_64", "__m128d", 16, 0, [⟨.i8, 16⟩, ⟨.u8, 16⟩, ⟨.m8, 16⟩, ⟨.i16, 8⟩, ⟨.u16, 8⟩, ⟨.m16, 8⟩, ⟨.i32, 4⟩, ⟨.u32, 4⟩, ⟨.f32, 4⟩, ⟨.m32, 4⟩, ⟨.i64, 2⟩, ⟨.u64, 2⟩, ⟨.f64, 2⟩, ⟨.m64, 2⟩, ⟨.i128, 1⟩, ⟨.u128, 1⟩, ⟨.m128, 1⟩], [⟨.i8, 16⟩, ⟨.u8, 16⟩, ⟨.i16, 8⟩, ⟨.u16, 8⟩, ⟨.i32, 4⟩, ⟨.u32, 4⟩, ⟨.f32, 4⟩, ⟨.i64, 2⟩, ⟨.u64, 2⟩, ⟨.f64, 2⟩, ⟨.i128, 1⟩, ⟨.u128, 1⟩]⟩,
  ⟨"arm", "int8x16_t", 16, 0, [⟨.i8, 16⟩, ⟨.u8, 16⟩, ⟨.m8, 16⟩, ⟨.i16, 8⟩, ⟨.u16, 8⟩, ⟨.m16, 8⟩, ⟨.i32, 4⟩, ⟨.u32, 4⟩, ⟨.f32, 4⟩, ⟨.m32, 4⟩, ⟨.i64, 2⟩, ⟨.u64, 2⟩, ⟨.f64, 2⟩, ⟨.m64, 2⟩, ⟨.i128, 1⟩, ⟨.u128, 1⟩, ⟨.m128, 1⟩], [⟨.i8, 16⟩, ⟨.u8, 16⟩, ⟨.i16, 8⟩, ⟨.u16, 8⟩, ⟨.i32, 4⟩, ⟨.u32, 4⟩, ⟨.f32, 4⟩, ⟨.i64, 2⟩, ⟨.u64, 2⟩, ⟨.f64, 2⟩, ⟨.i128, 1⟩, ⟨.u128, 1⟩]⟩,
  ⟨"arm", "uint8x16_t", 16, 0, [⟨.i8, 16⟩, ⟨.u8, 16⟩, ⟨.m8, 16⟩, ⟨.i16, 8⟩, ⟨.u16, 8⟩, ⟨.m16, 8⟩, ⟨.i32, 4⟩, ⟨.u32, 4⟩, ⟨.f32, 4⟩, ⟨.m32, 4⟩, ⟨.i64, 2⟩, ⟨.u64, 2⟩, ⟨.f64, 2⟩, ⟨.m64, 2⟩, ⟨.i128, 1⟩, ⟨.u128, 1⟩, ⟨.m128, 1⟩], [⟨.i8, 16⟩, ⟨.u8, 16⟩, ⟨.i16, 8⟩, ⟨.u16, 8⟩, ⟨.i32, 4⟩, ⟨.u32, 4⟩, ⟨.f32, 4⟩, ⟨.i64, 2⟩, ⟨.u64, 2⟩, ⟨.f64, 2⟩, ⟨.i128, 1⟩, ⟨.u128, 1⟩]⟩,
  ⟨"arm", "poly8x16_t", 16, 0, [⟨.i8, 16⟩, ⟨.u8, 16⟩, ⟨.m8, 16⟩, ⟨.i16, 8⟩, ⟨.u16, 8⟩, ⟨.m16, 8⟩, ⟨.i32, 4⟩, ⟨.u32, 4⟩, ⟨.f32, 4⟩, ⟨.m32, 4⟩, ⟨.i64, 2⟩, ⟨.u64, 2⟩, ⟨.f64, 2⟩, ⟨.m64, 2⟩, ⟨.i128, 1⟩, ⟨.u128, 1⟩, ⟨.m128, 1⟩], [⟨.i8, 16⟩, ⟨.u8, 16⟩, ⟨.i16, 8⟩, ⟨.u16, 8⟩, ⟨.i32, 4⟩, ⟨.u32, 4⟩, ⟨.f32, 4⟩, ⟨.i64, 2⟩, ⟨.u64, 2⟩, ⟨.f64, 2⟩, ⟨.i128, 1⟩, ⟨.u128, 1⟩]⟩,
  ⟨"arm", "int16x8_t", 16, 0, [⟨.i8, 16⟩, ⟨.u8, 16⟩, ⟨.m8, 16⟩, ⟨.i16, 8⟩, ⟨.u16, 8⟩, ⟨.m16, 8⟩, ⟨.i32, 4⟩, ⟨.u32, 4⟩, ⟨.f32, 4⟩, ⟨.m32, 4⟩, ⟨.i64, 2⟩, ⟨.u64, 2⟩, ⟨.f64, 2⟩, ⟨.m64, 2⟩, ⟨.i128, 1⟩, ⟨.u128, 1⟩, ⟨.m128, 1⟩], [⟨.i8, 16⟩, ⟨.u8, 16⟩, ⟨.i16, 8⟩, ⟨.u16, 8⟩, ⟨.i32, 4⟩, ⟨.u32, 4⟩, ⟨.f32, 4⟩, ⟨.i64, 2⟩, ⟨.u64, 2⟩, ⟨.f64, 2⟩, ⟨.i128, 1⟩, ⟨.u128, 1⟩]⟩,
  ⟨"arm", "uint16x8_t", 16, 0, [⟨.i8, 16⟩, ⟨.u8, 16⟩, ⟨.m8, 16⟩, ⟨.i16, 8⟩, ⟨.u16, 8⟩, ⟨.m16, 8⟩, ⟨.i32, 4⟩, ⟨.u32, 4⟩, ⟨.f32, 4⟩, ⟨.m32, 4⟩, ⟨.i64, 2⟩, ⟨.u64, 2⟩, ⟨.f64, 2⟩, ⟨.m64, 2⟩, ⟨.i128, 1⟩, ⟨.u128, 1⟩, ⟨.m128, 1⟩], [⟨.i8, 16⟩, ⟨.u8, 16⟩, ⟨.i16, 8⟩, ⟨.u16, 8⟩, ⟨.i32, 4⟩, ⟨.u32, 4⟩, ⟨.f32, 4⟩, ⟨.i64, 2⟩, ⟨.u64, 2⟩, ⟨.f64, 2⟩, ⟨.i128, 1⟩, ⟨.u128, 1⟩]⟩,
  ⟨"arm", "poly16x8_t", 16, 0, [⟨.i8, 16⟩, ⟨.u8, 16⟩, ⟨.m8, 16⟩, ⟨.i16, 8⟩, ⟨.u16, 8⟩, ⟨.m16, 8⟩, ⟨.i32, 4⟩, ⟨.u32, 4⟩, ⟨.f32, 4⟩, ⟨.m32, 4⟩, ⟨.i64, 2⟩, ⟨.u64, 2⟩, ⟨.f64, 2⟩, ⟨.m64, 2⟩, ⟨.i128, 1⟩, ⟨.u128, 1⟩, ⟨.m128, 1⟩], [⟨.i8, 16⟩, ⟨.u8, 16⟩, ⟨.i16, 8⟩, ⟨.u16, 8⟩, ⟨.i32, 4⟩, ⟨.u32, 4⟩, ⟨.f32, 4⟩, ⟨.i64, 2⟩, ⟨.u64, 2⟩, ⟨.f64, 2⟩, ⟨.i128, 1⟩, ⟨.u128, 1⟩]⟩,
  ⟨"arm", "int32x4_t", 16, 0, [⟨.i8, 16⟩, ⟨.u8, 16⟩, ⟨.m8, 16⟩, ⟨.i16, 8⟩, ⟨.u16, 8⟩, ⟨.m16, 8⟩, ⟨.i32, 4⟩, ⟨.u32, 4⟩, ⟨.f32, 4⟩, ⟨.m32, 4⟩, ⟨.i64, 2⟩, ⟨.u64, 2⟩, ⟨.f64, 2⟩, ⟨.m64, 2⟩, ⟨.i128, 1⟩, ⟨.u128, 1⟩, ⟨.m128, 1⟩], [⟨.i8, 16⟩, ⟨.u8, 16⟩, ⟨.i16, 8⟩, ⟨.u16, 8⟩, ⟨.i32, 4⟩, ⟨.u32, 4⟩, ⟨.f32, 4⟩, ⟨.i64, 2⟩, ⟨.u64, 2⟩, ⟨.f64, 2⟩, ⟨.i128, 1⟩, ⟨.u128, 1⟩]⟩,
  ⟨"arm", "uint32x4_t", 16, 0, [⟨.i8, 16⟩, ⟨.u8, 16⟩, ⟨.m8, 16⟩, ⟨.i16, 8⟩, ⟨.u16, 8⟩, ⟨.m16, 8⟩, ⟨.i32, 4⟩, ⟨.u32, 4⟩, ⟨.f32, 4⟩, ⟨.m32, 4⟩, ⟨.i64, 2⟩, ⟨.u64, 2⟩, ⟨.f64, 2⟩, ⟨.m64, 2⟩, ⟨.i128, 1⟩, ⟨.u128, 1⟩, ⟨.m128, 1⟩], [⟨.i8, 16⟩, ⟨.u8, 16⟩, ⟨.i16, 8⟩, ⟨.u16, 8⟩, ⟨.i32, 4⟩, ⟨.u32, 4⟩, ⟨.f32, 4⟩, ⟨.i64, 2⟩, ⟨.u64, 2⟩, ⟨.f64, 2⟩, ⟨.i128, 1⟩, ⟨.u128, 1⟩]⟩,
  ⟨"arm", "float32x4_t", 16, 0, [⟨.i8, 16⟩, ⟨.u8, 16⟩, ⟨.m8, 16⟩, ⟨.i16, 8⟩, ⟨.u16, 8⟩, ⟨.m16, 8⟩, ⟨.i32, 4⟩, ⟨.u32, 4⟩, ⟨.f32, 4⟩, ⟨.m32, 4⟩, ⟨.i64, 2⟩, ⟨.u64, 2⟩, ⟨.f64, 2⟩, ⟨.m64, 2⟩, ⟨.i128, 1⟩, ⟨.u128, 1⟩, ⟨.m128, 1⟩], [⟨.i8, 16⟩, ⟨.u8, 16⟩, ⟨.i16, 8⟩, ⟨.u16, 8⟩, ⟨.i32, 4⟩, ⟨.u32, 4⟩, ⟨.f32, 4⟩, ⟨.i64, 2⟩, ⟨.u64, 2⟩, ⟨.f64, 2⟩, ⟨.i128, 1⟩, ⟨.u128, 1⟩]⟩,
  ⟨"arm", "int64x2_t", 16, 0, [⟨.i8, 16⟩, ⟨.u8, 16⟩, ⟨.m8, 16⟩, ⟨.i16, 8⟩, ⟨.u16, 8⟩, ⟨.m16, 8⟩, ⟨.i32, 4⟩, ⟨.u32, 4⟩, ⟨.f32, 4⟩, ⟨.m32, 4⟩, ⟨.i64, 2⟩, ⟨.u64, 2⟩, ⟨.f64, 2⟩, ⟨.m64, 2⟩, ⟨.i128, 1⟩, ⟨.u128, 1⟩, ⟨.m128, 1⟩], [⟨.i8, 16⟩, ⟨.u8, 16⟩, ⟨.i16, 8⟩, ⟨.u16, 8⟩, ⟨.i32, 4⟩, ⟨.u32, 4⟩, ⟨.f32, 4⟩, ⟨.i64, 2⟩, ⟨.u64, 2⟩, ⟨.f64, 2⟩, ⟨.i128, 1⟩, ⟨.u128, 1⟩]⟩,
  ⟨"arm", "uint64x2_t", 16, 0, [⟨.i8, 16⟩, ⟨.u8, 16⟩, ⟨.m8, 16⟩, ⟨.i16, 8⟩, ⟨.u16, 8⟩, ⟨.m16, 8⟩, ⟨.i32, 4⟩, ⟨.u32, 4⟩, ⟨.f32, 4⟩, ⟨.m32, 4⟩, ⟨.i64, 2⟩, ⟨.u64, 2⟩, ⟨.f64, 2⟩, ⟨.m64, 2⟩, ⟨.i128, 1⟩, ⟨.u128, 1⟩, ⟨.m128, 1⟩], [⟨.i8, 16⟩, ⟨.u8, 16⟩, ⟨.i16, 8⟩, ⟨.u16, 8⟩, ⟨.i32, 4⟩, ⟨.u32, 4⟩, ⟨.f32, 4⟩, ⟨.i64, 2⟩, ⟨.u64, 2⟩, ⟨.f64, 2⟩, ⟨.i128, 1⟩, ⟨.u128, 1⟩]⟩,
  ⟨"aarch64", "int8x16_t", 16, 0, [⟨.i8, 16⟩, ⟨.u8, 16⟩, ⟨.m8, 16⟩, ⟨.i16, 8⟩, ⟨.u16, 8⟩, ⟨.m16, 8⟩, ⟨.i32, 4⟩, ⟨.u32, 4⟩, ⟨.f32, 4⟩, ⟨.m32, 4⟩, ⟨.i64, 2⟩, ⟨.u64, 2⟩, ⟨.f64, 2⟩, ⟨.m64, 2⟩, ⟨.i128, 1⟩, ⟨.u128, 1⟩, ⟨.m128, 1⟩], [⟨.i8, 16⟩, ⟨.u8, 16⟩, ⟨.i16, 8⟩, ⟨.u16, 8⟩, ⟨.i32, 4⟩, ⟨.u32, 4⟩, ⟨.f32, 4⟩, ⟨.i64, 2⟩, ⟨.u64, 2⟩, ⟨.f64, 2⟩, ⟨.i128, 1⟩, ⟨.u128, 1⟩]⟩,
  ⟨"aarch64", "uint8x16_t", 16, 0, [⟨.i8, 16⟩, ⟨.u8, 16⟩, ⟨.m8, 16⟩, ⟨.i16, 8⟩, ⟨.u16, 8⟩, ⟨.m16, 8⟩, ⟨.i32, 4⟩, ⟨.u32, 4⟩, ⟨.f32, 4⟩, ⟨.m32, 4⟩, ⟨.i64, 2⟩, ⟨.u64, 2⟩, ⟨.f64, 2⟩, ⟨.m64, 2⟩, ⟨.i128, 1⟩, ⟨.u128, 1⟩, ⟨.m128, 1⟩], [⟨.i8, 16⟩, ⟨.u8, 16⟩, ⟨.i16, 8⟩, ⟨.u16, 8⟩, ⟨.i32, 4⟩, ⟨.u32, 4⟩, ⟨.f32, 4⟩, ⟨.i64, 2⟩, ⟨.u64, 2⟩, ⟨.f64, 2⟩, ⟨.i128, 1⟩, ⟨.u128, 1⟩]⟩,
  ⟨"aarch64", "poly8x16_t", 16, 0, [⟨.i8, 16⟩, ⟨.u8, 16⟩, ⟨.m8, 16⟩, ⟨.i16, 8⟩, ⟨.u16, 8⟩, ⟨.m16, 8⟩, ⟨.i32, 4⟩, ⟨.u32, 4⟩, ⟨.f32, 4⟩, ⟨.m32, 4⟩, ⟨.i64, 2⟩, ⟨.u64, 2⟩, ⟨.f64, 2⟩, ⟨.m64, 2⟩, ⟨.i128, 1⟩, ⟨.u128, 1⟩, ⟨.m128, 1⟩], [⟨.i8, 16⟩, ⟨.u8, 16⟩, ⟨.i16, 8⟩, ⟨.u16, 8⟩, ⟨.i32, 4⟩, ⟨.u32, 4⟩, ⟨.f32, 4⟩, ⟨.i64, 2⟩, ⟨.u64, 2⟩, ⟨.f64, 2⟩, ⟨.i128, 1⟩, ⟨.u128, 1⟩]⟩,
  ⟨"aarch64", "int16x8_t", 16, 0, [⟨.i8, 16⟩, ⟨.u8, 16⟩, ⟨.m8, 16⟩, ⟨.i16, 8⟩, ⟨.u16, 8⟩, ⟨.m16, 8⟩, ⟨.i32, 4⟩, ⟨.u32, 4⟩, ⟨.f32, 4⟩, ⟨.m32, 4⟩, ⟨.i64, 2⟩, ⟨.u64, 2⟩, ⟨.f64, 2⟩, ⟨.m64, 2⟩, ⟨.i128, 1⟩, ⟨.u128, 1⟩, ⟨.m128, 1⟩], [⟨.i8, 16⟩, ⟨.u8, 16⟩, ⟨.i16, 8⟩, ⟨.u16, 8⟩, ⟨.i32, 4⟩, ⟨.u32, 4⟩, ⟨.f32, 4⟩, ⟨.i64, 2⟩, ⟨.u64, 2⟩, ⟨.f64, 2⟩, ⟨.i128, 1⟩, ⟨.u128, 1⟩]⟩,
  ⟨"aarch64", "uint16x8_t", 16, 0, [⟨.i8, 16⟩, ⟨.u8, 16⟩, ⟨.m8, 16⟩, ⟨.i16, 8⟩, ⟨.u16, 8⟩, ⟨.m16, 8⟩, ⟨.i32, 4⟩, ⟨.u32, 4⟩, ⟨.f32, 4⟩, ⟨.m32, 4⟩, ⟨.i64, 2⟩, ⟨.u64, 2⟩, ⟨.f64, 2⟩, ⟨.m64, 2⟩, ⟨.i128, 1⟩, ⟨.u128, 1⟩, ⟨.m128, 1⟩], [⟨.i8, 16⟩, ⟨.u8, 16⟩, ⟨.i16, 8⟩, ⟨.u16, 8⟩, ⟨.i32, 4⟩, ⟨.u32, 4⟩, ⟨.f32, 4⟩, ⟨.i64, 2⟩, ⟨.u64, 2⟩, ⟨.f64, 2⟩, ⟨.i128, 1⟩, ⟨.u128, 1⟩]⟩,
  ⟨"aarch64", "poly16x8_t", 16, 0, [⟨.i8, 16⟩, ⟨.u8, 16⟩, ⟨.m8, 16⟩, ⟨.i16, 8⟩, ⟨.u16, 8⟩, ⟨.m16, 8⟩, ⟨.i32, 4⟩, ⟨.u32, 4⟩, ⟨.f32, 4⟩, ⟨.m32, 4⟩, ⟨.i64, 2⟩, ⟨.u64, 2⟩, ⟨.f64, 2⟩, ⟨.m64, 2⟩, ⟨.i128, 1⟩, ⟨.u128, 1⟩, ⟨.m128, 1⟩], [⟨.i8, 16⟩, ⟨.u8, 16⟩, ⟨.i16, 8⟩, ⟨.u16, 8⟩, ⟨.i32, 4⟩, ⟨.u32, 4⟩, ⟨.f32, 4⟩, ⟨.i64, 2⟩, ⟨.u64, 2⟩, ⟨.f64, 2⟩, ⟨.i128, 1⟩, ⟨.u128, 1⟩]⟩,
  ⟨"aarch64", "int32x4_t", 16, 0, [⟨.i8, 16⟩, ⟨.u8, 16⟩, ⟨.m8, 16⟩, ⟨.i16, 8⟩, ⟨.u16, 8⟩, ⟨.m16, 8⟩, ⟨.i32, 4⟩, ⟨.u32, 4⟩, ⟨.f32, 4⟩, ⟨.m32, 4⟩, ⟨.i64, 2⟩, ⟨.u64, 2⟩, ⟨.f64, 2⟩, ⟨.m64, 2⟩, ⟨.i128, 1⟩, ⟨.u128, 1⟩, ⟨.m128, 1⟩], [⟨.i8, 16⟩, ⟨.u8, 16⟩, ⟨.i16, 8⟩, ⟨.u16, 8⟩, ⟨.i32, 4⟩, ⟨.u32, 4⟩, ⟨.f32, 4⟩, ⟨.i64, 2⟩, ⟨.u64, 2⟩, ⟨.f64, 2⟩, ⟨.i128, 1⟩, ⟨.u128, 1⟩]⟩,
  ⟨"aarch64", "uint32x4_t", 16, 0, [⟨.i8, 16⟩, ⟨.u8, 16⟩, ⟨.m8, 16⟩, ⟨.i16, 8⟩, ⟨.u16, 8⟩, ⟨.m16, 8⟩, ⟨.i32, 4⟩, ⟨.u32, 4⟩, ⟨.f32, 4⟩, ⟨.m32, 4⟩, ⟨.i64, 2⟩, ⟨.u64, 2⟩, ⟨.f64, 2⟩, ⟨.m64, 2⟩, ⟨.i128, 1⟩, ⟨.u128, 1⟩, ⟨.m128, 1⟩], [⟨.i8, 16⟩, ⟨.u8, 16⟩, ⟨.i16, 8⟩, ⟨.u16, 8⟩, ⟨.i32, 4⟩, ⟨.u32, 4⟩, ⟨.f32, 4⟩, ⟨.i64, 2⟩, ⟨.u64, 2⟩, ⟨.f64, 2⟩, ⟨.i128, 1⟩, ⟨.u128, 1⟩]⟩,
  ⟨"aarch64", "float32x4_t", 16, 0, [⟨.i8, 16⟩, ⟨.u8, 16⟩, ⟨.m8, 16⟩, ⟨.i16, 8⟩, ⟨.u16, 8⟩, ⟨.m16, 8⟩, ⟨.i32, 4⟩, ⟨.u32, 4⟩, ⟨.f32, 4⟩, ⟨.m32, 4⟩, ⟨.i64, 2⟩, ⟨.u64, 2⟩, ⟨.f64, 2⟩, ⟨.m64, 2⟩, ⟨.i128, 1⟩, ⟨.u128, 1⟩, ⟨.m128, 1⟩], [⟨.i8, 16⟩, ⟨.u8, 16⟩, ⟨.i16, 8⟩, ⟨.u16, 8⟩, ⟨.i32, 4⟩, ⟨.u32, 4⟩, ⟨.f32, 4⟩, ⟨.i64, 2⟩, ⟨.u64, 2⟩, ⟨.f64, 2⟩, ⟨.i128, 1⟩, ⟨.u128, 1⟩]⟩,
  ⟨"aarch64", "int64x2_t", 16, 0, [⟨.i8, 16⟩, ⟨.u8, 16⟩, ⟨.m8, 16⟩, ⟨.i16, 8⟩, ⟨.u16, 8⟩, ⟨.m16, 8⟩, ⟨.i32, 4⟩, ⟨.u32, 4⟩, ⟨.f32, 4⟩, ⟨.m32, 4⟩, ⟨.i64, 2⟩, ⟨.u64, 2⟩, ⟨.f64, 2⟩, ⟨.m64, 2⟩, ⟨.i128, 1⟩, ⟨.u128, 1⟩, ⟨.m128, 1⟩], [⟨.i8, 16⟩, ⟨.u8, 16⟩, ⟨.i16, 8⟩, ⟨.u16, 8⟩, ⟨.i32, 4⟩, ⟨.u32, 4⟩, ⟨.f32, 4⟩, ⟨.i64, 2⟩, ⟨.u64, 2⟩, ⟨.f64, 2⟩, ⟨.i128, 1⟩, ⟨.u128, 1⟩]⟩,
  ⟨"aarch64", "uint64x2_t", 16, 0, [⟨.i8, 16⟩, ⟨.u8, 16⟩, ⟨.m8, 16⟩, ⟨.i16, 8⟩, ⟨.u16, 8⟩, ⟨.m16, 8⟩, ⟨.i32, 4⟩, ⟨.u32, 4⟩, ⟨.f32, 4⟩, ⟨.m32, 4⟩, ⟨.i64, 2⟩, ⟨.u64, 2⟩, ⟨.f64, 2⟩, ⟨.m64, 2⟩, ⟨.i128, 1⟩, ⟨.u128, 1⟩, ⟨.m128, 1⟩], [⟨.i8, 16⟩, ⟨.u8, 16⟩, ⟨.i16, 8⟩, ⟨.u16, 8⟩, ⟨.i32, 4⟩, ⟨.u32, 4⟩, ⟨.f32, 4⟩, ⟨.i64, 2⟩, ⟨.u64, 2⟩, ⟨.f64, 2⟩, ⟨.i128, 1⟩, ⟨.u128, 1⟩]⟩,
  ⟨"aarch64", "float64x2_t", 16, 0, [⟨.i8, 16⟩, ⟨.u8, 16⟩, ⟨.m8, 16⟩, ⟨.i16, 8⟩, ⟨.u16, 8⟩, ⟨.m16, 8⟩, ⟨.i32, 4⟩, ⟨.u32, 4⟩, ⟨.f32, 4⟩, ⟨.m32, 4⟩, ⟨.i64, 2⟩, ⟨.u64, 2⟩, ⟨.f64, 2⟩, ⟨.m64, 2⟩, ⟨.i128, 1⟩, ⟨.u128, 1⟩, ⟨.m128, 1⟩], [⟨.i8, 16⟩, ⟨.u8, 16⟩, ⟨.i16, 8⟩, ⟨.u16, 8⟩, ⟨.i32, 4⟩, ⟨.u32, 4⟩, ⟨.f32, 4⟩, ⟨.i64, 2⟩, ⟨.u64, 2⟩, ⟨.f64, 2⟩, ⟨.i128, 1⟩, ⟨.u128, 1⟩]⟩,
  ⟨"powerpc", "vector_signed_char", 16, 0, [⟨.i8, 16⟩, ⟨.u8, 16⟩, ⟨.m8, 16⟩, ⟨.i16, 8⟩, ⟨.u16, 8⟩, ⟨.m16, 8⟩, ⟨.i32, 4⟩, ⟨.u32, 4⟩, ⟨.f32, 4⟩, ⟨.m32, 4⟩, ⟨.i64, 2⟩, ⟨.u64, 2⟩, ⟨.f64, 2⟩, ⟨.m64, 2⟩, ⟨.i128, 1⟩, ⟨.u128, 1⟩, ⟨.m128, 1⟩], [⟨.i8, 16⟩, ⟨.u8, 16⟩, ⟨.i16, 8⟩, ⟨.u16, 8⟩, ⟨.i32, 4⟩, ⟨.u32, 4⟩, ⟨.f32, 4⟩, ⟨.i64, 2⟩, ⟨.u64, 2⟩, ⟨.f64, 2⟩, ⟨.i128, 1⟩, ⟨.u128, 1⟩]⟩,
  ⟨"powerpc", "vector_unsigned_char", 16, 0, [⟨.i8, 16⟩, ⟨.u8, 16⟩, ⟨.m8, 16⟩, ⟨.i16, 8⟩, ⟨.u16, 8⟩, ⟨.m16, 8⟩, ⟨.i32, 4⟩, ⟨.u32, 4⟩, ⟨.f32, 4⟩, ⟨.m32, 4⟩, ⟨.i64, 2⟩, ⟨.u64, 2⟩, ⟨.f64, 2⟩, ⟨.m64, 2⟩, ⟨.i128, 1⟩, ⟨.u128, 1⟩, ⟨.m128, 1⟩], [⟨.i8, 16⟩, ⟨.u8, 16⟩, ⟨.i16, 8⟩, ⟨.u16, 8⟩, ⟨.i32, 4⟩, ⟨.u32, 4⟩, ⟨.f32, 4⟩, ⟨.i64, 2⟩, ⟨.u64, 2⟩, ⟨.f64, 2⟩, ⟨.i128, 1⟩, ⟨.u128, 1⟩]⟩,
  ⟨"powerpc", "vector_signed_short", 16, 0, [⟨.i8, 16⟩, ⟨.u8, 16⟩, ⟨.m8, 16⟩, ⟨.i16, 8⟩, ⟨.u16, 8⟩, ⟨.m16, 8⟩, ⟨.i32, 4⟩, ⟨.u32, 4⟩, ⟨.f32, 4⟩, ⟨.m32, 4⟩, ⟨.i64, 2⟩, ⟨.u64, 2⟩, ⟨.f64, 2⟩, ⟨.m64, 2⟩, ⟨.i128, 1⟩, ⟨.u128, 1⟩, ⟨.m128, 1⟩], [⟨.i8, 16⟩, ⟨.u8, 16⟩, ⟨.i16, 8⟩, ⟨.u16, 8⟩, ⟨.i32, 4⟩, ⟨.u32, 4⟩, ⟨.f32, 4⟩, ⟨.i64, 2⟩, ⟨.u64, 2⟩, ⟨.f64, 2⟩, ⟨.i128, 1⟩, ⟨.u128, 1⟩]⟩,
  ⟨"powerpc", "vector_unsigned_short", 16, 0, [⟨.i8, 16⟩, ⟨.u8, 16⟩, ⟨.m8, 16⟩, ⟨.i16, 8⟩, ⟨.u16, 8⟩, ⟨.m16, 8⟩, ⟨.i32, 4⟩, ⟨.u32, 4⟩, ⟨.f32, 4⟩, ⟨.m32, 4⟩, ⟨.i64, 2⟩, ⟨.u64, 2⟩, ⟨.f64, 2⟩, ⟨.m64, 2⟩, ⟨.i128, 1⟩, ⟨.u128, 1⟩, ⟨.m128, 1⟩], [⟨.i8, 16⟩, ⟨.u8, 16⟩, ⟨.i16, 8⟩, ⟨.u16, 8⟩, ⟨.i32, 4⟩, ⟨.u32, 4⟩, ⟨.f32, 4⟩, ⟨.i64, 2⟩, ⟨.u64, 2⟩, ⟨.f64, 2⟩, ⟨.i128, 1⟩, ⟨.u128, 1⟩]⟩,
  ⟨"powerpc", "vector_signed_int", 16, 0, [⟨.i8, 16⟩, ⟨.u8, 16⟩, ⟨.m8, 16⟩, ⟨.i16, 8⟩, ⟨.u16, 8⟩, ⟨.m16, 8⟩, ⟨.i32, 4⟩, ⟨.u32, 4⟩, ⟨.f32, 4⟩, ⟨.m32, 4⟩, ⟨.i64, 2⟩, ⟨.u64, 2⟩, ⟨.f64, 2⟩, ⟨.m64, 2⟩, ⟨.i128, 1⟩, ⟨.u128, 1⟩, ⟨.m128, 1⟩], [⟨.i8, 16⟩, ⟨.u8, 16⟩, ⟨.i16, 8⟩, ⟨.u16, 8⟩, ⟨.i32, 4⟩, ⟨.u32, 4⟩, ⟨.f32, 4⟩, ⟨.i64, 2⟩, ⟨.u64, 2⟩, ⟨.f64, 2⟩, ⟨.i128, 1⟩, ⟨.u128, 1⟩]⟩,
  ⟨"powerpc", "vector_unsigned_int", 16, 0, [⟨.i8, 16⟩, ⟨.u8, 16⟩, ⟨.m8, 16⟩, ⟨.i16, 8⟩, ⟨.u16, 8⟩, ⟨.m16, 8⟩, ⟨.i32, 4⟩, ⟨.u32, 4⟩, ⟨.f32, 4⟩, ⟨.m32, 4⟩, ⟨.i64, 2⟩, ⟨.u64, 2⟩, ⟨.f64, 2⟩, ⟨.m64, 2⟩, ⟨.i128, 1⟩, ⟨.u128, 1⟩, ⟨.m128, 1⟩], [⟨.i8, 16⟩, ⟨.u8, 16⟩, ⟨.i16, 8⟩, ⟨.u16, 8⟩, ⟨.i32, 4⟩, ⟨.u32, 4⟩, ⟨.f32, 4⟩, ⟨.i64, 2⟩, ⟨.u64, 2⟩, ⟨.f64, 2⟩, ⟨.i128, 1⟩, ⟨.u128, 1⟩]⟩,
  ⟨"powerpc", "vector_float", 16, 0, [⟨.i8, 16⟩, ⟨.u8, 16⟩, ⟨.m8, 16⟩, ⟨.i16, 8⟩, ⟨.u16, 8⟩, ⟨.m16, 8⟩, ⟨.i32, 4⟩, ⟨.u32, 4⟩, ⟨.f32, 4⟩, ⟨.m32, 4⟩, ⟨.i64, 2⟩, ⟨.u64, 2⟩, ⟨.f64, 2⟩, ⟨.m64, 2⟩, ⟨.i128, 1⟩, ⟨.u128, 1⟩, ⟨.m128, 1⟩], [⟨.i8, 16⟩, ⟨.u8, 16⟩, ⟨.i16, 8⟩, ⟨.u16, 8⟩, ⟨.i32, 4⟩, ⟨.u32, 4⟩, ⟨.f32, 4⟩, ⟨.i64, 2⟩, ⟨.u64, 2⟩, ⟨.f64, 2⟩, ⟨.i128, 1⟩, ⟨.u128, 1⟩]⟩,
  ⟨"powerpc64", "vector_signed_char", 16, 0, [⟨.i8, 16⟩, ⟨.u8, 16⟩, ⟨.m8, 16⟩, ⟨.i16, 8⟩, ⟨.u16, 8⟩, ⟨.m16, 8⟩, ⟨.i32, 4⟩, ⟨.u32, 4⟩, ⟨.f32, 4⟩, ⟨.m32, 4⟩, ⟨.i64, 2⟩, ⟨.u64, 2⟩, ⟨.f64, 2⟩, ⟨.m64, 2⟩, ⟨.i128, 1⟩, ⟨.u128, 1⟩, ⟨.m128, 1⟩], [⟨.i8, 16⟩, ⟨.u8, 16⟩, ⟨.i16, 8⟩, ⟨.u16, 8⟩, ⟨.i32, 4⟩, ⟨.u32, 4⟩, ⟨.f32, 4⟩, ⟨.i64, 2⟩, ⟨.u64, 2⟩, ⟨.f64, 2⟩, ⟨.i128, 1⟩, ⟨.u128, 1⟩]⟩,
  ⟨"powerpc64", "vector_unsigned_char", 16, 0, [⟨.i8, 16⟩, ⟨.u8, 16⟩, ⟨.m8, 16⟩, ⟨.i16, 8⟩, ⟨.u16, 8⟩, ⟨.m16, 8⟩, ⟨.i32, 4⟩, ⟨.u32, 4⟩, ⟨.f32, 4⟩, ⟨.m32, 4⟩, ⟨.i64, 2⟩, ⟨.u64, 2⟩, ⟨.f64, 2⟩, ⟨.m64, 2⟩, ⟨.i128, 1⟩, ⟨.u128, 1⟩, ⟨.m128, 1⟩], [⟨.i8, 16⟩, ⟨.u8, 16⟩, ⟨.i16, 8⟩, ⟨.u16, 8⟩, ⟨.i32, 4⟩, ⟨.u32, 4⟩, ⟨.f32, 4⟩, ⟨.i64, 2⟩, ⟨.u64, 2⟩, ⟨.f64, 2⟩, ⟨.i128, 1⟩, ⟨.u128, 1⟩]⟩,
  ⟨"powerpc64", "vector_signed_short", 16, 0, [⟨.i8, 16⟩, ⟨.u8, 16⟩, ⟨.m8, 16⟩, ⟨.i16, 8⟩, ⟨.u16, 8⟩, ⟨.m16, 8⟩, ⟨.i32, 4⟩, ⟨.u32, 4⟩, ⟨.f32, 4⟩, ⟨.m32, 4⟩, ⟨.i64, 2⟩, ⟨.u64, 2⟩, ⟨.f64, 2⟩, ⟨.m64, 2⟩, ⟨.i128, 1⟩, ⟨.u128, 1⟩, ⟨.m128, 1⟩], [⟨.i8, 16⟩, ⟨.u8, 16⟩, ⟨.i16, 8⟩, ⟨.u16, 8⟩, ⟨.i32, 4⟩, ⟨.u32, 4⟩, ⟨.f32, 4⟩, ⟨.i64, 2⟩, ⟨.u64, 2⟩, ⟨.f64, 2⟩, ⟨.i128, 1⟩, ⟨.u128, 1⟩]⟩,
  ⟨"powerpc64", "vector_unsigned_short", 16, 0, [⟨.i8, 16⟩, ⟨.u8, 16⟩, ⟨.m8, 16⟩, ⟨.i16, 8⟩, ⟨.u16, 8⟩, ⟨.m16, 8⟩, ⟨.i32, 4⟩, ⟨.u32, 4⟩, ⟨.f32, 4⟩, ⟨.m32, 4⟩, ⟨.i64, 2⟩, ⟨.u64, 2⟩, ⟨.f64, 2⟩, ⟨.m64, 2⟩, ⟨.i128, 1⟩, ⟨.u128, 1⟩, ⟨.m128, 1⟩], [⟨.i8, 16⟩, ⟨.u8, 16⟩, ⟨.i16, 8⟩, ⟨.u16, 8⟩, ⟨.i32, 4⟩, ⟨.u32, 4⟩, ⟨.f32, 4⟩, ⟨.i64, 2⟩, ⟨.u64, 2⟩, ⟨.f64, 2⟩, ⟨.i128, 1⟩, ⟨.u128, 1⟩]⟩,
  ⟨"powerpc64", "vector_signed_int", 16, 0, [⟨.i8, 16⟩, ⟨.u8, 16⟩, ⟨.m8, 16⟩, ⟨.i16, 8⟩, ⟨.u16, 8⟩, ⟨.m16, 8⟩, ⟨.i32, 4⟩, ⟨.u32, 4⟩, ⟨.f32, 4⟩, ⟨.m32, 4⟩, ⟨.i64, 2⟩, ⟨.u64, 2⟩, ⟨.f64, 2⟩, ⟨.m64, 2⟩, ⟨.i128, 1⟩, ⟨.u128, 1⟩, ⟨.m128, 1⟩], [⟨.i8, 16⟩, ⟨.u8, 16⟩, ⟨.i16, 8⟩, ⟨.u16, 8⟩, ⟨.i32, 4⟩, ⟨.u32, 4⟩, ⟨.f32, 4⟩, ⟨.i64, 2⟩, ⟨.u64, 2⟩, ⟨.f64, 2⟩, ⟨.i128, 1⟩, ⟨.u128, 1⟩]⟩,
  ⟨"powerpc64", "vector_unsigned_int", 16, 0, [⟨.i8, 16⟩, ⟨.u8, 16⟩, ⟨.m8, 16⟩, ⟨.i16, 8⟩, ⟨.u16, 8⟩, ⟨.m16, 8⟩, ⟨.i32, 4⟩, ⟨.u32, 4⟩, ⟨.f32, 4⟩, ⟨.m32, 4⟩, ⟨.i64, 2⟩, ⟨.u64, 2⟩, ⟨.f64, 2⟩, ⟨.m64, 2⟩, ⟨.i128, 1⟩, ⟨.u128, 1⟩, ⟨.m128, 1⟩], [⟨.i8, 16⟩, ⟨.u8, 16⟩, ⟨.i16, 8⟩, ⟨.u16, 8⟩, ⟨.i32, 4⟩, ⟨.u32, 4⟩, ⟨.f32, 4⟩, ⟨.i64, 2⟩, ⟨.u64, 2⟩, ⟨.f64, 2⟩, ⟨.i128, 1⟩, ⟨.u128, 1⟩]⟩,
  ⟨"powerpc64", "vector_float", 16, 0, [⟨.i8, 16⟩, ⟨.u8, 16⟩, ⟨.m8, 16⟩, ⟨.i16, 8⟩, ⟨.u16, 8⟩, ⟨.m16, 8⟩, ⟨.i32, 4⟩, ⟨.u32, 4⟩, ⟨.f32, 4⟩, ⟨.m32, 4⟩, ⟨.i64, 2⟩, ⟨.u64, 2⟩, ⟨.f64, 2⟩, ⟨.m64, 2⟩, ⟨.i128, 1⟩, ⟨.u128, 1⟩, ⟨.m128, 1⟩], [⟨.i8, 16⟩, ⟨.u8, 16⟩, ⟨.i16, 8⟩, ⟨.u16, 8⟩, ⟨.i32, 4⟩, ⟨.u32, 4⟩, ⟨.f32, 4⟩, ⟨.i64, 2⟩, ⟨.u64, 2⟩, ⟨.f64, 2⟩, ⟨.i128, 1⟩, ⟨.u128, 1⟩]⟩,
  ⟨"powerpc64", "vector_signed_long", 16, 0, [⟨.i8, 16⟩, ⟨.u8, 16⟩, ⟨.m8, 16⟩, ⟨.i16, 8⟩, ⟨.u16, 8⟩, ⟨.m16, 8⟩, ⟨.i32, 4⟩, ⟨.u32, 4⟩, ⟨.f32, 4⟩, ⟨.m32, 4⟩, ⟨.i64, 2⟩, ⟨.u64, 2⟩, ⟨.f64, 2⟩, ⟨.m64, 2⟩, ⟨.i128, 1⟩, ⟨.u128, 1⟩, ⟨.m128, 1⟩], [⟨.i8, 16⟩, ⟨.u8, 16⟩, ⟨.i16, 8⟩, ⟨.u16, 8⟩, ⟨.i32, 4⟩, ⟨.u32, 4⟩, ⟨.f32, 4⟩, ⟨.i64, 2⟩, ⟨.u64, 2⟩, ⟨.f64, 2⟩, ⟨.i128, 1⟩, ⟨.u128, 1⟩]⟩,
  ⟨"powerpc64", "vector_unsigned_long", 16, 0, [⟨.i8, 16⟩, ⟨.u8, 16⟩, ⟨.m8, 16⟩, ⟨.i16, 8⟩, ⟨.u16, 8⟩, ⟨.m16, 8⟩, ⟨.i32, 4⟩, ⟨.u32, 4⟩, ⟨.f32, 4⟩, ⟨.m32, 4⟩, ⟨.i64, 2⟩, ⟨.u64, 2⟩, ⟨.f64, 2⟩, ⟨.m64, 2⟩, ⟨.i128, 1⟩, ⟨.u128, 1⟩, ⟨.m128, 1⟩], [⟨.i8, 16⟩, ⟨.u8, 16⟩, ⟨.i16, 8⟩, ⟨.u16, 8⟩, ⟨.i32, 4⟩, ⟨.u32, 4⟩, ⟨.f32, 4⟩, ⟨.i64, 2⟩, ⟨.u64, 2⟩, ⟨.f64, 2⟩, ⟨.i128, 1⟩, ⟨.u128, 1⟩]⟩,
  ⟨"powerpc64", "vector_double", 16, 0, [⟨.i8, 16⟩, ⟨.u8, 16⟩, ⟨.m8, 16⟩, ⟨.i16, 8⟩, ⟨.u16, 8⟩, ⟨.m16, 8⟩, ⟨.i32, 4⟩, ⟨.u32, 4⟩, ⟨.f32, 4⟩, ⟨.m32, 4⟩, ⟨.i64, 2⟩, ⟨.u64, 2⟩, ⟨.f64, 2⟩, ⟨.m64, 2⟩, ⟨.i128, 1⟩, ⟨.u128, 1⟩, ⟨.m128, 1⟩], [⟨.i8, 16⟩, ⟨.u8, 16⟩, ⟨.i16, 8⟩, ⟨.u16, 8⟩, ⟨.i32, 4⟩, ⟨.u32, 4⟩, ⟨.f32, 4⟩, ⟨.i64, 2⟩, ⟨.u64, 2⟩, ⟨.f64, 2⟩, ⟨.i128, 1⟩, ⟨.u128, 1⟩]⟩,
  ⟨"powerpc", "vector_bool_char", 16, 1, [⟨.m8, 16⟩, ⟨.m16, 8⟩, ⟨.m32, 4⟩, ⟨.m64, 2⟩, ⟨.m128, 1⟩], [⟨.i8, 16⟩, ⟨.u8, 16⟩, ⟨.i16, 8⟩, ⟨.u16, 8⟩, ⟨.i32, 4⟩, ⟨.u32, 4⟩, ⟨.f32, 4⟩, ⟨.i64, 2⟩, ⟨.u64, 2⟩, ⟨.f64, 2⟩, ⟨.i128, 1⟩, ⟨.u128, 1⟩, ⟨.m8, 16⟩]⟩,
  ⟨"powerpc64", "vector_bool_char", 16, 1, [⟨.m8, 16⟩, ⟨.m16, 8⟩, ⟨.m32, 4⟩, ⟨.m64, 2⟩, ⟨.m128, 1⟩], [⟨.i8, 16⟩, ⟨.u8, 16⟩, ⟨.i16, 8⟩, ⟨.u16, 8⟩, ⟨.i32, 4⟩, ⟨.u32, 4⟩, ⟨.f32, 4⟩, ⟨.i64, 2⟩, ⟨.u64, 2⟩, ⟨.f64, 2⟩, ⟨.i128, 1⟩, ⟨.u128, 1⟩, ⟨.m8, 16⟩]⟩,
  ⟨"powerpc", "vector_bool_short", 16, 2, [⟨.m16, 8⟩, ⟨.m32, 4⟩, ⟨.m64, 2⟩, ⟨.m128, 1⟩], [⟨.i8, 16⟩, ⟨.u8, 16⟩, ⟨.i16, 8⟩, ⟨.u16, 8⟩, ⟨.i32, 4⟩, ⟨.u32, 4⟩, ⟨.f32, 4⟩, ⟨.i64, 2⟩, ⟨.u64, 2⟩, ⟨.f64, 2⟩, ⟨.i128, 1⟩, ⟨.u128, 1⟩, ⟨.m8, 16⟩, ⟨.m16, 8⟩]⟩,
  ⟨"powerpc64", "vector_bool_short", 16, 2, [⟨.m16, 8⟩, ⟨.m32, 4⟩, ⟨.m64, 2⟩, ⟨.m128, 1⟩], [⟨.i8, 16⟩, ⟨.u8, 16⟩, ⟨.i16, 8⟩, ⟨.u16, 8⟩, ⟨.i32, 4⟩, ⟨.u32, 4⟩, ⟨.f32, 4⟩, ⟨.i64, 2⟩, ⟨.u64, 2⟩, ⟨.f64, 2⟩, ⟨.i128, 1⟩, ⟨.u128, 1⟩, ⟨.m8, 16⟩, ⟨.m16, 8⟩]⟩,
  ⟨"powerpc", "vector_bool_int", 16, 4, [⟨.m32, 4⟩, ⟨.m64, 2⟩, ⟨.m128, 1⟩], [⟨.i8, 16⟩, ⟨.u8, 16⟩, ⟨.i16, 8⟩, ⟨.u16, 8⟩, ⟨.i32, 4⟩, ⟨.u32, 4⟩, ⟨.f32, 4⟩, ⟨.i64, 2⟩, ⟨.u64, 2⟩, ⟨.f64, 2⟩, ⟨.i128, 1⟩, ⟨.u128, 1⟩, ⟨.m8, 16⟩, ⟨.m16, 8⟩, ⟨.m32, 4⟩]⟩,
  ⟨"powerpc64", "vector_bool_int", 16, 4, [⟨.m32, 4⟩, ⟨.m64, 2⟩, ⟨.m128, 1⟩], [⟨.i8, 16⟩, ⟨.u8, 16⟩, ⟨.i16, 8⟩, ⟨.u16, 8⟩, ⟨.i32, 4⟩, ⟨.u32, 4⟩, ⟨.f32, 4⟩, ⟨.i64, 2⟩, ⟨.u64, 2⟩, ⟨.f64, 2⟩, ⟨.i128, 1⟩, ⟨.u128, 1⟩, ⟨.m8, 16⟩, ⟨.m16, 8⟩, ⟨.m32, 4⟩]⟩,
  ⟨"powerpc64", "vector_bool_long", 16, 8, [⟨.m64, 2⟩, ⟨.m128, 1⟩], [⟨.i8, 16⟩, ⟨.u8, 16⟩, ⟨.i16, 8⟩, ⟨.u16, 8⟩, ⟨.i32, 4⟩, ⟨.u32, 4⟩, ⟨.f32, 4⟩, ⟨.i64, 2⟩, ⟨.u64, 2⟩, ⟨.f64, 2⟩, ⟨.i128, 1⟩, ⟨.u128, 1⟩, ⟨.m8, 16⟩, ⟨.m16, 8⟩, ⟨.m32, 4⟩, ⟨.m64, 2⟩]⟩,
  ⟨"x86", "__m256", 32, 0, [⟨.i8, 32⟩, ⟨.u8, 32⟩, ⟨.m8, 32⟩, ⟨.i16, 16⟩, ⟨.u16, 16⟩, ⟨.m16, 16⟩, ⟨.i32, 8⟩, ⟨.u32, 8⟩, ⟨.f32, 8⟩, ⟨.m32, 8⟩, ⟨.i64, 4⟩, ⟨.u64, 4⟩, ⟨.f64, 4⟩, ⟨.m64, 4⟩, ⟨.i128, 2⟩, ⟨.u128, 2⟩, ⟨.m128, 2⟩], [⟨.i8, 32⟩, ⟨.u8, 32⟩, ⟨.i16, 16⟩, ⟨.u16, 16⟩, ⟨.i32, 8⟩, ⟨.u32, 8⟩, ⟨.f32, 8⟩, ⟨.i64, 4⟩, ⟨.u64, 4⟩, ⟨.f64, 4⟩, ⟨.i128, 2⟩, ⟨.u128, 2⟩]⟩,
  ⟨"x86", "__m256i", 32, 0, [⟨.i8, 32⟩, ⟨.u8, 32⟩, ⟨.m8, 32⟩, ⟨.i16, 16⟩, ⟨.u16, 16⟩, ⟨.m16, 16⟩, ⟨.i32, 8⟩, ⟨.u32, 8⟩, ⟨.f32, 8⟩, ⟨.m32, 8⟩, ⟨.i64, 4⟩, ⟨.u64, 4⟩, ⟨.f64, 4⟩, ⟨.m64, 4⟩, ⟨.i128, 2⟩, ⟨.u128, 2⟩, ⟨.m128, 2⟩], [⟨.i8, 32⟩, ⟨.u8, 32⟩, ⟨.i16, 16⟩, ⟨.u16, 16⟩, ⟨.i32, 8⟩, ⟨.u32, 8⟩, ⟨.f32, 8⟩, ⟨.i64, 4⟩, ⟨.u64, 4⟩, ⟨.f64, 4⟩, ⟨.i128, 2⟩, ⟨.u128, 2⟩]⟩,
  ⟨"x86", "__m256d", 32, 0, [⟨.i8, 32⟩, ⟨.u8, 32⟩, ⟨.m8, 32⟩, ⟨.i16, 16⟩, ⟨.u16, 16⟩, ⟨.m16, 16⟩, ⟨.i32, 8⟩, ⟨.u32, 8⟩, ⟨.f32, 8⟩, ⟨.m32, 8⟩, ⟨.i64, 4⟩, ⟨.u64, 4⟩, ⟨.f64, 4⟩, ⟨.m64, 4⟩, ⟨.i128, 2⟩, ⟨.u128, 2⟩, ⟨.m128, 2⟩], [⟨.i8, 32⟩, ⟨.u8, 32⟩, ⟨.i16, 16⟩, ⟨.u16, 16⟩, ⟨.i32, 8⟩, ⟨.u32, 8⟩, ⟨.f32, 8⟩, ⟨.i64, 4⟩, ⟨.u64, 4⟩, ⟨.f64, 4⟩, ⟨.i128, 2⟩, ⟨.u128, 2⟩]⟩,
  ⟨"x86_64", "__m256", 32, 0, [⟨.i8, 32⟩, ⟨.u8, 32⟩, ⟨.m8, 32⟩, ⟨.i16, 16⟩, ⟨.u16, 16⟩, ⟨.m16, 16⟩, ⟨.i32, 8⟩, ⟨.u32, 8⟩, ⟨.f32, 8⟩, ⟨.m32, 8⟩, ⟨.i64, 4⟩, ⟨.u64, 4⟩, ⟨.f64, 4⟩, ⟨.m64, 4⟩, ⟨.i128, 2⟩, ⟨.u128, 2⟩, ⟨.m128, 2⟩], [⟨.i8, 32⟩, ⟨.u8, 32⟩, ⟨.i16, 16⟩, ⟨.u16, 16⟩, ⟨.i32, 8⟩, ⟨.u32, 8⟩, ⟨.f32, 8⟩, ⟨.i64, 4⟩, ⟨.u64, 4⟩, ⟨.f64, 4⟩, ⟨.i128, 2⟩, ⟨.u128, 2⟩]⟩,
  ⟨"x86_64", "__m256i", 32, 0, [⟨.i8, 32⟩, ⟨.u8, 32⟩, ⟨.m8, 32⟩, ⟨.i16, 16⟩, ⟨.u16, 16⟩, ⟨.m16, 16⟩, ⟨.i32, 8⟩, ⟨.u32, 8⟩, ⟨.f32, 8⟩, ⟨.m32, 8⟩, ⟨.i64, 4⟩, ⟨.u64, 4⟩, ⟨.f64, 4⟩, ⟨.m64, 4⟩, ⟨.i128, 2⟩, ⟨.u128, 2⟩, ⟨.m128, 2⟩], [⟨.i8, 32⟩, ⟨.u8, 32⟩, ⟨.i16, 16⟩, ⟨.u16, 16⟩, ⟨.i32, 8⟩, ⟨.u32, 8⟩, ⟨.f32, 8⟩, ⟨.i64, 4⟩, ⟨.u64, 4⟩, ⟨.f64, 4⟩, ⟨.i128, 2⟩, ⟨.u128, 2⟩]⟩,
  ⟨"x86_64", "__m256d", 32, 0, [⟨.i8, 32⟩, ⟨.u8, 32⟩, ⟨.m8, 32⟩, ⟨.i16, 16⟩, ⟨.u16, 16⟩, ⟨.m16, 16⟩, ⟨.i32, 8⟩, ⟨.u32, 8⟩, ⟨.f32, 8⟩, ⟨.m32, 8⟩, ⟨.i64, 4⟩, ⟨.u64, 4⟩, ⟨.f64, 4⟩, ⟨.m64, 4⟩, ⟨.i128, 2⟩, ⟨.u128, 2⟩, ⟨.m128, 2⟩], [⟨.i8, 32⟩, ⟨.u8, 32⟩, ⟨.i16, 16⟩, ⟨.u16, 16⟩, ⟨.i32, 8⟩, ⟨.u32, 8⟩, ⟨.f32, 8⟩, ⟨.i64, 4⟩, ⟨.u64, 4⟩, ⟨.f64, 4⟩, ⟨.i128, 2⟩, ⟨.u128, 2⟩]⟩]

/-- `impl_shuffle!` (src/codegen/shuffle.rs): number of indices, element type, resulting vector type. -/
def shuffleTable : List (Nat × Elem × VTy) := [
  (2, .i8, ⟨.i8, 2⟩),
  (4, .i8, ⟨.i8, 4⟩),
  (8, .i8, ⟨.i8, 8⟩),
  (16, .i8, ⟨.i8, 16⟩),
  (32, .i8, ⟨.i8, 32⟩),
  (64, .i8, ⟨.i8, 64⟩),
  (2, .u8, ⟨.u8, 2⟩),
  (4, .u8, ⟨.u8, 4⟩),
  (8, .u8, ⟨.u8, 8⟩),
  (16, .u8, ⟨.u8, 16⟩),
  (32, .u8, ⟨.u8, 32⟩),
  (64, .u8, ⟨.u8, 64⟩),
  (2, .m8, ⟨.m8, 2⟩),
  (4, .m8, ⟨.m8, 4⟩),
  (8, .m8, ⟨.m8, 8⟩),
  (16, .m8, ⟨.m8, 16⟩),
  (32, .m8, ⟨.m8, 32⟩),
  (64, .m8, ⟨.m8, 64⟩),
  (2, .i16, ⟨.i16, 2⟩),
  (4, .i16, ⟨.i16, 4⟩),
  (8, .i16, ⟨.i16, 8⟩),
  (16, .i16, ⟨.i16, 16⟩),
  (32, .i16, ⟨.i16, 32⟩),
  (2, .u16, ⟨.u16, 2⟩),
  (4, .u16, ⟨.u16, 4⟩),
  (8, .u16, ⟨.u16, 8⟩),
  (16, .u16, ⟨.u16, 16⟩),
  (32, .u16, ⟨.u16, 32⟩),
  (2, .m16, ⟨.m16, 2⟩),
  (4, .m16, ⟨.m16, 4⟩),
  (8, .m16, ⟨.m16, 8⟩),
  (16, .m16, ⟨.m16, 16⟩),
  (2, .i32, ⟨.i32, 2⟩),
  (4, .i32, ⟨.i32, 4⟩),
  (8, .i32, ⟨.i32, 8⟩),
  (16, .i32, ⟨.i32, 16⟩),
  (2, .u32, ⟨.u32, 2⟩),
  (4, .u32, ⟨.u32, 4⟩),
  (8, .u32, ⟨.u32, 8⟩),
  (16, .u32, ⟨.u32, 16⟩),
  (2, .f32, ⟨.f32, 2⟩),
  (4, .f32, ⟨.f32, 4⟩),
  (8, .f32, ⟨.f32, 8⟩),
  (16, .f32, ⟨.f32, 16⟩),
  (2, .m32, ⟨.m32, 2⟩),
  (4, .m32, ⟨.m32, 4⟩),
  (8, .m32, ⟨.m32, 8⟩),
  (16, .m32, ⟨.m32, 16⟩),
  (2, .i64, ⟨.i64, 2⟩),
  (4, .i64, ⟨.i64, 4⟩),
  (8, .i64, ⟨.i64, 8⟩),
  (2, .u64, ⟨.u64, 2⟩),
  (4, .u64, ⟨.u64, 4⟩),
  (8, .u64, ⟨.u64, 8⟩),
  (2, .f64, ⟨.f64, 2⟩),
  (4, .f64, ⟨.f64, 4⟩),
  (8, .f64, ⟨.f64, 8⟩),
  (2, .m64, ⟨.m64, 2⟩),
  (4, .m64, ⟨.m64, 4⟩),
  (8, .m64, ⟨.m64, 8⟩),
  (2, .isize, ⟨.isize, 2⟩),
  (4, .isize, ⟨.isize, 4⟩),
  (8, .isize, ⟨.isize, 8⟩),
  (2, .usize, ⟨.usize, 2⟩),
  (4, .usize, ⟨.usize, 4⟩),
  (8, .usize, ⟨.usize, 8⟩),
  (2, .msize, ⟨.msize, 2⟩),
  (4, .msize, ⟨.msize, 4⟩),
  (8, .msize, ⟨.msize, 8⟩),
  (1, .i128, ⟨.i128, 1⟩),
  (2, .i128, ⟨.i128, 2⟩),
  (4, .i128, ⟨.i128, 4⟩),
  (1, .u128, ⟨.u128, 1⟩),
  (2, .u128, ⟨.u128, 2⟩),
  (4, .u128, ⟨.u128, 4⟩),
  (1, .m128, ⟨.m128, 1⟩),
  (2, .m128, ⟨.m128, 2⟩),
  (4, .m128, ⟨.m128, 4⟩)]

/-- `impl_simd_array!` (src/codegen/v*.rs): element type, count, vector type, stored lane type, number of stored lanes. -/
def storageTable : List (Elem × Nat × VTy × Elem × Nat) := [
  (.i8, 2, ⟨.i8, 2⟩, .i8, 2),
  (.u8, 2, ⟨.u8, 2⟩, .u8, 2),
  (.m8, 2, ⟨.m8, 2⟩, .i8, 2),
  (.i8, 4, ⟨.i8, 4⟩, .i8, 4),
  (.u8, 4, ⟨.u8, 4⟩, .u8, 4),
  (.m8, 4, ⟨.m8, 4⟩, .i8, 4),
  (.i16, 2, ⟨.i16, 2⟩, .i16, 2),
  (.u16, 2, ⟨.u16, 2⟩, .u16, 2),
  (.m16, 2, ⟨.m16, 2⟩, .i16, 2),
  (.i8, 8, ⟨.i8, 8⟩, .i8, 8),
  (.u8, 8, ⟨.u8, 8⟩, .u8, 8),
  (.m8, 8, ⟨.m8, 8⟩, .i8, 8),
  (.i16, 4, ⟨.i16, 4⟩, .i16, 4),
  (.u16, 4, ⟨.u16, 4⟩, .u16, 4),
  (.m16, 4, ⟨.m16, 4⟩, .i16, 4),
  (.i32, 2, ⟨.i32, 2⟩, .i32, 2),
  (.u32, 2, ⟨.u32, 2⟩, .u32, 2),
  (.f32, 2, ⟨.f32, 2⟩, .f32, 2),
  (.m32, 2, ⟨.m32, 2⟩, .i32, 2),
  (.i64, 1, ⟨.i64, 1⟩, .i64, 1),
  (.u64, 1, ⟨.u64, 1⟩, .u64, 1),
  (.f64, 1, ⟨.f64, 1⟩, .f64, 1),
  (.m64, 1, ⟨.m64, 1⟩, .i64, 1),
  (.i8, 16, ⟨.i8, 16⟩, .i8, 16),
  (.u8, 16, ⟨.u8, 16⟩, .u8, 16),
  (.m8, 16, ⟨.m8, 16⟩, .i8, 16),
  (.i16, 8, ⟨.i16, 8⟩, .i16, 8),
  (.u16, 8, ⟨.u16, 8⟩, .u16, 8),
  (.m16, 8, ⟨.m16, 8⟩, .i16, 8),
  (.i32, 4, ⟨.i32, 4⟩, .i32, 4),
  (.u32, 4, ⟨.u32, 4⟩, .u32, 4),
  (.f32, 4, ⟨.f32, 4⟩, .f32, 4),
  (.m32, 4, ⟨.m32, 4⟩, .i32, 4),
  (.i64, 2, ⟨.i64, 2⟩, .i64, 2),
  (.u64, 2, ⟨.u64, 2⟩, .u64, 2),
  (.f64, 2, ⟨.f64, 2⟩, .f64, 2),
  (.m64, 2, ⟨.m64, 2⟩, .i64, 2),
  (.i128, 1, ⟨.i128, 1⟩, .i128, 1),
  (.u128, 1, ⟨.u128, 1⟩, .u128, 1),
  (.m128, 1, ⟨.m128, 1⟩, .i128, 1),
  (.i8, 32, ⟨.i8, 32⟩, .i8, 32),
  (.u8, 32, ⟨.u8, 32⟩, .u8, 32),
  (.m8, 32, ⟨.m8, 32⟩, .i8, 32),
  (.i16, 16, ⟨.i16, 16⟩, .i16, 16),
  (.u16, 16, ⟨.u16, 16⟩, .u16, 16),
  (.m16, 16, ⟨.m16, 16⟩, .i16, 16),
  (.i32, 8, ⟨.i32, 8⟩, .i32, 8),
  (.u32, 8, ⟨.u32, 8⟩, .u32, 8),
  (.f32, 8, ⟨.f32, 8⟩, .f32, 8),
  (.m32, 8, ⟨.m32, 8⟩, .i32, 8),
  (.i64, 4, ⟨.i64, 4⟩, .i64, 4),
  (.u64, 4, ⟨.u64, 4⟩, .u64, 4),
  (.f64, 4, ⟨.f64, 4⟩, .f64, 4),
  (.m64, 4, ⟨.m64, 4⟩, .i64, 4),
  (.i128, 2, ⟨.i128, 2⟩, .i128, 2),
  (.u128, 2, ⟨.u128, 2⟩, .u128, 2),
  (.m128, 2, ⟨.m128, 2⟩, .i128, 2),
  (.i8, 64, ⟨.i8, 64⟩, .i8, 64),
  (.u8, 64, ⟨.u8, 64⟩, .u8, 64),
  (.m8, 64, ⟨.m8, 64⟩, .i8, 64),
  (.i16, 32, ⟨.i16, 32⟩, .i16, 32),
  (.u16, 32, ⟨.u16, 32⟩, .u16, 32),
  (.m16, 32, ⟨.m16, 32⟩, .i16, 32),
  (.i32, 16, ⟨.i32, 16⟩, .i32, 16),
  (.u32, 16, ⟨.u32, 16⟩, .u32, 16),
  (.f32, 16, ⟨.f32, 16⟩, .f32, 16),
  (.m32, 16, ⟨.m32, 16⟩, .i32, 16),
  (.i64, 8, ⟨.i64, 8⟩, .i64, 8),
  (.u64, 8, ⟨.u64, 8⟩, .u64, 8),
  (.f64, 8, ⟨.f64, 8⟩, .f64, 8),
  (.m64, 8, ⟨.m64, 8⟩, .i64, 8),
  (.i128, 4, ⟨.i128, 4⟩, .i128, 4),
  (.u128, 4, ⟨.u128, 4⟩, .u128, 4),
  (.m128, 4, ⟨.m128, 4⟩, .i128, 4),
  (.isize, 2, ⟨.isize, 2⟩, .isize, 2),
  (.usize, 2, ⟨.usize, 2⟩, .usize, 2),
  (.msize, 2, ⟨.msize, 2⟩, .isize, 2),
  (.isize, 4, ⟨.isize, 4⟩, .isize, 4),
  (.usize, 4, ⟨.usize, 4⟩, .usize, 4),
  (.msize, 4, ⟨.msize, 4⟩, .isize, 4),
  (.isize, 8, ⟨.isize, 8⟩, .isize, 8),
  (.usize, 8, ⟨.usize, 8⟩, .usize, 8),
  (.msize, 8, ⟨.msize, 8⟩, .isize, 8)]

end PackedSimd.Tables
