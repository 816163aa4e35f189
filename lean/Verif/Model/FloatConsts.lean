import Verif.Model.Math
/-
src/api/math/float/consts.rs: the associated constants of the float vector types.  They are `splat`s of constants of `core`, which is not part of /repo: `Core`
transcribes the literals of `core::f32`, `core::f64`, `core::f32::consts` and `core::f64::consts` (the latter two have the same digits); a literal is the
float nearest to it.
-/
namespace PackedSimd.FConsts
open Math

/-- A decimal literal. -/
def lit (f : FTy) (q : Rat) : FLane f := Flt.roundInt _ f.man false (q.num * 2 ^ Spec.low (8 * f.bytes) f.man) q.den

namespace Core
def EPSILON : (f : FTy) → FLane f
  | .f32 => lit .f32 1.19209290e-07
  | .f64 => lit .f64 2.2204460492503131e-16
def MIN : (f : FTy) → FLane f
  | .f32 => lit .f32 (-3.40282347e+38)
  | .f64 => lit .f64 (-1.7976931348623157e+308)
def MIN_POSITIVE : (f : FTy) → FLane f
  | .f32 => lit .f32 1.17549435e-38
  | .f64 => lit .f64 2.2250738585072014e-308
def MAX : (f : FTy) → FLane f
  | .f32 => lit .f32 3.40282347e+38
  | .f64 => lit .f64 1.7976931348623157e+308
/-- `0.0 / 0.0`. -/
def NAN (f : FTy) : FLane f := Flt.div f.man (lit f 0) (lit f 0)
/-- `1.0 / 0.0`. -/
def INFINITY (f : FTy) : FLane f := Flt.div f.man (lit f 1) (lit f 0)
/-- `-1.0 / 0.0`. -/
def NEG_INFINITY (f : FTy) : FLane f := Flt.div f.man (lit f (-1)) (lit f 0)
def PI (f : FTy) : FLane f := lit f 3.14159265358979323846264338327950288
def FRAC_PI_2 (f : FTy) : FLane f := lit f 1.57079632679489661923132169163975144
def FRAC_PI_3 (f : FTy) : FLane f := lit f 1.04719755119659774615421446109316763
def FRAC_PI_4 (f : FTy) : FLane f := lit f 0.785398163397448309615660845819875721
def FRAC_PI_6 (f : FTy) : FLane f := lit f 0.52359877559829887307710723054658381
def FRAC_PI_8 (f : FTy) : FLane f := lit f 0.39269908169872415480783042290993786
def FRAC_1_PI (f : FTy) : FLane f := lit f 0.318309886183790671537767526745028724
def FRAC_2_PI (f : FTy) : FLane f := lit f 0.636619772367581343075535053490057448
def FRAC_2_SQRT_PI (f : FTy) : FLane f := lit f 1.12837916709551257389615890312154517
def SQRT_2 (f : FTy) : FLane f := lit f 1.41421356237309504880168872420969808
def FRAC_1_SQRT_2 (f : FTy) : FLane f := lit f 0.707106781186547524400844362104849039
def E (f : FTy) : FLane f := lit f 2.71828182845904523536028747135266250
def LOG2_E (f : FTy) : FLane f := lit f 1.44269504088896340735992468100189214
def LOG10_E (f : FTy) : FLane f := lit f 0.434294481903251827651128918916605082
def LN_2 (f : FTy) : FLane f := lit f 0.693147180559945309417232121458176568
def LN_10 (f : FTy) : FLane f := lit f 2.30258509299404568401799145468436421
end Core

variable (ty : FVTy)

/-- consts.rs:4-5. -/
def EPSILON : FV ty := splat ty.lanes (Core.EPSILON ty.elem)
/-- consts.rs:7-8. -/
def MIN : FV ty := splat ty.lanes (Core.MIN ty.elem)
/-- consts.rs:10-11. -/
def MIN_POSITIVE : FV ty := splat ty.lanes (Core.MIN_POSITIVE ty.elem)
/-- consts.rs:13-14. -/
def MAX : FV ty := splat ty.lanes (Core.MAX ty.elem)
/-- consts.rs:16-17. -/
def NAN : FV ty := splat ty.lanes (Core.NAN ty.elem)
/-- consts.rs:19-20. -/
def INFINITY : FV ty := splat ty.lanes (Core.INFINITY ty.elem)
/-- consts.rs:22-23. -/
def NEG_INFINITY : FV ty := splat ty.lanes (Core.NEG_INFINITY ty.elem)
/-- Archimedes' constant (consts.rs:25-26). -/
def PI : FV ty := splat ty.lanes (Core.PI ty.elem)
/-- π/2 (consts.rs:28-29). -/
def FRAC_PI_2 : FV ty := splat ty.lanes (Core.FRAC_PI_2 ty.elem)
/-- π/3 (consts.rs:31-32). -/
def FRAC_PI_3 : FV ty := splat ty.lanes (Core.FRAC_PI_3 ty.elem)
/-- π/4 (consts.rs:34-35). -/
def FRAC_PI_4 : FV ty := splat ty.lanes (Core.FRAC_PI_4 ty.elem)
/-- π/6 (consts.rs:37-38). -/
def FRAC_PI_6 : FV ty := splat ty.lanes (Core.FRAC_PI_6 ty.elem)
/-- π/8 (consts.rs:40-41). -/
def FRAC_PI_8 : FV ty := splat ty.lanes (Core.FRAC_PI_8 ty.elem)
/-- 1/π (consts.rs:43-44). -/
def FRAC_1_PI : FV ty := splat ty.lanes (Core.FRAC_1_PI ty.elem)
/-- 2/π (consts.rs:46-47). -/
def FRAC_2_PI : FV ty := splat ty.lanes (Core.FRAC_2_PI ty.elem)
/-- 2/sqrt(π) (consts.rs:49-50). -/
def FRAC_2_SQRT_PI : FV ty := splat ty.lanes (Core.FRAC_2_SQRT_PI ty.elem)
/-- sqrt(2) (consts.rs:52-53). -/
def SQRT_2 : FV ty := splat ty.lanes (Core.SQRT_2 ty.elem)
/-- 1/sqrt(2) (consts.rs:55-56). -/
def FRAC_1_SQRT_2 : FV ty := splat ty.lanes (Core.FRAC_1_SQRT_2 ty.elem)
/-- Euler's number (consts.rs:58-59). -/
def E : FV ty := splat ty.lanes (Core.E ty.elem)
/-- log2(e) (consts.rs:61-62). -/
def LOG2_E : FV ty := splat ty.lanes (Core.LOG2_E ty.elem)
/-- log10(e) (consts.rs:64-65). -/
def LOG10_E : FV ty := splat ty.lanes (Core.LOG10_E ty.elem)
/-- ln(2) (consts.rs:67-68). -/
def LN_2 : FV ty := splat ty.lanes (Core.LN_2 ty.elem)
/-- ln(10) (consts.rs:70-71). -/
def LN_10 : FV ty := splat ty.lanes (Core.LN_10 ty.elem)

end PackedSimd.FConsts
