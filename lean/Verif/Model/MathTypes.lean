import Verif.Model.Basic
/-
Vocabulary for the dispatch tables of src/codegen/math/float/*.rs.
-/
namespace PackedSimd

/-- Float lane types. -/
inductive FTy where
  | f32 | f64
deriving DecidableEq

def FTy.bytes : FTy → Nat
  | .f32 => 4
  | .f64 => 8

/-- Fraction bits. -/
def FTy.man : FTy → Nat
  | .f32 => 23
  | .f64 => 52

/-- A float vector type. -/
structure FVTy where
  elem : FTy
  lanes : Nat
deriving DecidableEq

/-- The float vector types of the crate (`impl_f!` in src/v64.rs … src/v512.rs). -/
def floatTypes : List FVTy := [⟨.f32, 2⟩, ⟨.f32, 4⟩, ⟨.f32, 8⟩, ⟨.f32, 16⟩, ⟨.f64, 2⟩, ⟨.f64, 4⟩, ⟨.f64, 8⟩]

/-- What a library function computes (the name it is linked by). -/
inductive FOp where
  | fabs | cos | sin | cospi | sinpi | sincospi | exp | log | pow | fma | fmuladd | sqrt | tanh
deriving DecidableEq

/-- Where a library function comes from: an LLVM intrinsic, std (`num_traits::Float`), or SLEEF compiled for an instruction set. -/
inductive Isa where
  | llvm | std | sse2 | sse4 | avx | avx2 | avx2128
deriving DecidableEq

/-- A library function: operation, origin, accuracy suffix (`u10` = 10, none = 0), number of lanes (1: a scalar function). -/
structure Lib where
  op : FOp
  isa : Isa
  acc : Nat
  lanes : Nat
deriving DecidableEq

/-- A library function with its lane type. -/
structure Fn where
  elem : FTy
  lib : Lib
deriving DecidableEq

/-- How an impl evaluates its method (macros.rs): directly on the vector (`vec`, 6-17, and `gen`, 20-31), by a loop over scalars (32-50), on two halves
(52-73), on four quarters (75-98), on a vector twice as long (100-120); by multiplying with π first (`impl_def!` in sin_pi.rs, cos_pi.rs, sin_cos_pi.rs);
as `self * y + z` (`impl_broken!` in mul_add.rs and the s390x arm of mul_adde.rs). -/
inductive Strat where
  | vec (f : Fn)
  | scalar (elem : FTy) (count : Nat) (f : Fn)
  | halves (sub : FVTy) (f : Fn)
  | quarters (sub : FVTy) (f : Fn)
  | twice (big : FVTy) (f : Fn)
  | timesPi (elem : FTy)
  | mulThenAdd
deriving DecidableEq

/-- One impl: vector type and strategy. -/
structure MathRow where
  ty : FVTy
  strat : Strat

/-- What the `cfg_if!` conditions look at. -/
structure Cfg where
  s390x : Bool
  /-- `all(target_arch = "x86_64", feature = "sleef-sys")` -/
  x64Sleef : Bool
  avx2 : Bool
  avx : Bool
  sse42 : Bool
  sse2 : Bool
deriving DecidableEq

end PackedSimd
