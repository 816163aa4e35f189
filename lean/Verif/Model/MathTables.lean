import Verif.Model.MathTypes
/-
GENERATED by tools/gen_math.py from the cfg_if! tables in /repo/src/codegen/math/float.  Do not edit.
-/
namespace PackedSimd.MathTables

/-- src/codegen/math/float/abs.rs -/
def abs (c : Cfg) : List MathRow :=
  if c.s390x then
    [⟨⟨.f32, 2⟩, .scalar .f32 2 ⟨.f32, ⟨.fabs, .llvm, 0, 1⟩⟩⟩,
     ⟨⟨.f32, 4⟩, .scalar .f32 4 ⟨.f32, ⟨.fabs, .llvm, 0, 1⟩⟩⟩,
     ⟨⟨.f32, 8⟩, .scalar .f32 8 ⟨.f32, ⟨.fabs, .llvm, 0, 1⟩⟩⟩,
     ⟨⟨.f32, 16⟩, .scalar .f32 16 ⟨.f32, ⟨.fabs, .llvm, 0, 1⟩⟩⟩,
     ⟨⟨.f64, 2⟩, .scalar .f64 2 ⟨.f64, ⟨.fabs, .llvm, 0, 1⟩⟩⟩,
     ⟨⟨.f64, 4⟩, .scalar .f64 4 ⟨.f64, ⟨.fabs, .llvm, 0, 1⟩⟩⟩,
     ⟨⟨.f64, 8⟩, .scalar .f64 8 ⟨.f64, ⟨.fabs, .llvm, 0, 1⟩⟩⟩]
  else if c.x64Sleef then
    if c.avx2 then
      [⟨⟨.f32, 2⟩, .twice ⟨.f32, 4⟩ ⟨.f32, ⟨.fabs, .avx2128, 0, 4⟩⟩⟩,
       ⟨⟨.f32, 16⟩, .halves ⟨.f32, 8⟩ ⟨.f32, ⟨.fabs, .avx2, 0, 8⟩⟩⟩,
       ⟨⟨.f64, 8⟩, .halves ⟨.f64, 4⟩ ⟨.f64, ⟨.fabs, .avx2, 0, 4⟩⟩⟩,
       ⟨⟨.f32, 4⟩, .vec ⟨.f32, ⟨.fabs, .avx2128, 0, 4⟩⟩⟩,
       ⟨⟨.f32, 8⟩, .vec ⟨.f32, ⟨.fabs, .avx2, 0, 8⟩⟩⟩,
       ⟨⟨.f64, 2⟩, .vec ⟨.f64, ⟨.fabs, .avx2128, 0, 2⟩⟩⟩,
       ⟨⟨.f64, 4⟩, .vec ⟨.f64, ⟨.fabs, .avx2, 0, 4⟩⟩⟩]
    else if c.avx then
      [⟨⟨.f32, 2⟩, .twice ⟨.f32, 4⟩ ⟨.f32, ⟨.fabs, .sse4, 0, 4⟩⟩⟩,
       ⟨⟨.f32, 16⟩, .halves ⟨.f32, 8⟩ ⟨.f32, ⟨.fabs, .avx, 0, 8⟩⟩⟩,
       ⟨⟨.f64, 8⟩, .halves ⟨.f64, 4⟩ ⟨.f64, ⟨.fabs, .avx, 0, 4⟩⟩⟩,
       ⟨⟨.f32, 4⟩, .vec ⟨.f32, ⟨.fabs, .sse4, 0, 4⟩⟩⟩,
       ⟨⟨.f32, 8⟩, .vec ⟨.f32, ⟨.fabs, .avx, 0, 8⟩⟩⟩,
       ⟨⟨.f64, 2⟩, .vec ⟨.f64, ⟨.fabs, .sse4, 0, 2⟩⟩⟩,
       ⟨⟨.f64, 4⟩, .vec ⟨.f64, ⟨.fabs, .avx, 0, 4⟩⟩⟩]
    else if c.sse42 then
      [⟨⟨.f32, 2⟩, .twice ⟨.f32, 4⟩ ⟨.f32, ⟨.fabs, .sse4, 0, 4⟩⟩⟩,
       ⟨⟨.f32, 16⟩, .quarters ⟨.f32, 4⟩ ⟨.f32, ⟨.fabs, .sse4, 0, 4⟩⟩⟩,
       ⟨⟨.f64, 8⟩, .quarters ⟨.f64, 2⟩ ⟨.f64, ⟨.fabs, .sse4, 0, 2⟩⟩⟩,
       ⟨⟨.f32, 4⟩, .vec ⟨.f32, ⟨.fabs, .sse4, 0, 4⟩⟩⟩,
       ⟨⟨.f32, 8⟩, .halves ⟨.f32, 4⟩ ⟨.f32, ⟨.fabs, .sse4, 0, 4⟩⟩⟩,
       ⟨⟨.f64, 2⟩, .vec ⟨.f64, ⟨.fabs, .sse4, 0, 2⟩⟩⟩,
       ⟨⟨.f64, 4⟩, .halves ⟨.f64, 2⟩ ⟨.f64, ⟨.fabs, .sse4, 0, 2⟩⟩⟩]
    else [⟨⟨.f32, 2⟩, .scalar .f32 2 ⟨.f32, ⟨.fabs, .llvm, 0, 1⟩⟩⟩,
     ⟨⟨.f32, 16⟩, .vec ⟨.f32, ⟨.fabs, .llvm, 0, 16⟩⟩⟩,
     ⟨⟨.f64, 8⟩, .vec ⟨.f64, ⟨.fabs, .llvm, 0, 8⟩⟩⟩,
     ⟨⟨.f32, 4⟩, .vec ⟨.f32, ⟨.fabs, .llvm, 0, 4⟩⟩⟩,
     ⟨⟨.f32, 8⟩, .vec ⟨.f32, ⟨.fabs, .llvm, 0, 8⟩⟩⟩,
     ⟨⟨.f64, 2⟩, .vec ⟨.f64, ⟨.fabs, .llvm, 0, 2⟩⟩⟩,
     ⟨⟨.f64, 4⟩, .vec ⟨.f64, ⟨.fabs, .llvm, 0, 4⟩⟩⟩]
  else [⟨⟨.f32, 2⟩, .scalar .f32 2 ⟨.f32, ⟨.fabs, .llvm, 0, 1⟩⟩⟩,
   ⟨⟨.f32, 4⟩, .vec ⟨.f32, ⟨.fabs, .llvm, 0, 4⟩⟩⟩,
   ⟨⟨.f32, 8⟩, .vec ⟨.f32, ⟨.fabs, .llvm, 0, 8⟩⟩⟩,
   ⟨⟨.f32, 16⟩, .vec ⟨.f32, ⟨.fabs, .llvm, 0, 16⟩⟩⟩,
   ⟨⟨.f64, 2⟩, .vec ⟨.f64, ⟨.fabs, .llvm, 0, 2⟩⟩⟩,
   ⟨⟨.f64, 4⟩, .vec ⟨.f64, ⟨.fabs, .llvm, 0, 4⟩⟩⟩,
   ⟨⟨.f64, 8⟩, .vec ⟨.f64, ⟨.fabs, .llvm, 0, 8⟩⟩⟩]

/-- src/codegen/math/float/cos.rs -/
def cos (c : Cfg) : List MathRow :=
  if c.s390x then
    [⟨⟨.f32, 2⟩, .scalar .f32 2 ⟨.f32, ⟨.cos, .llvm, 0, 1⟩⟩⟩,
     ⟨⟨.f32, 4⟩, .scalar .f32 4 ⟨.f32, ⟨.cos, .llvm, 0, 1⟩⟩⟩,
     ⟨⟨.f32, 8⟩, .scalar .f32 8 ⟨.f32, ⟨.cos, .llvm, 0, 1⟩⟩⟩,
     ⟨⟨.f32, 16⟩, .scalar .f32 16 ⟨.f32, ⟨.cos, .llvm, 0, 1⟩⟩⟩,
     ⟨⟨.f64, 2⟩, .scalar .f64 2 ⟨.f64, ⟨.cos, .llvm, 0, 1⟩⟩⟩,
     ⟨⟨.f64, 4⟩, .scalar .f64 4 ⟨.f64, ⟨.cos, .llvm, 0, 1⟩⟩⟩,
     ⟨⟨.f64, 8⟩, .scalar .f64 8 ⟨.f64, ⟨.cos, .llvm, 0, 1⟩⟩⟩]
  else if c.x64Sleef then
    if c.avx2 then
      [⟨⟨.f32, 2⟩, .twice ⟨.f32, 4⟩ ⟨.f32, ⟨.cos, .avx2128, 10, 4⟩⟩⟩,
       ⟨⟨.f32, 16⟩, .halves ⟨.f32, 8⟩ ⟨.f32, ⟨.cos, .avx2, 10, 8⟩⟩⟩,
       ⟨⟨.f64, 8⟩, .halves ⟨.f64, 4⟩ ⟨.f64, ⟨.cos, .avx2, 10, 4⟩⟩⟩,
       ⟨⟨.f32, 4⟩, .vec ⟨.f32, ⟨.cos, .avx2128, 10, 4⟩⟩⟩,
       ⟨⟨.f32, 8⟩, .vec ⟨.f32, ⟨.cos, .avx2, 10, 8⟩⟩⟩,
       ⟨⟨.f64, 2⟩, .vec ⟨.f64, ⟨.cos, .avx2128, 10, 2⟩⟩⟩,
       ⟨⟨.f64, 4⟩, .vec ⟨.f64, ⟨.cos, .avx2, 10, 4⟩⟩⟩]
    else if c.avx then
      [⟨⟨.f32, 2⟩, .twice ⟨.f32, 4⟩ ⟨.f32, ⟨.cos, .sse4, 10, 4⟩⟩⟩,
       ⟨⟨.f32, 16⟩, .halves ⟨.f32, 8⟩ ⟨.f32, ⟨.cos, .avx, 10, 8⟩⟩⟩,
       ⟨⟨.f64, 8⟩, .halves ⟨.f64, 4⟩ ⟨.f64, ⟨.cos, .avx, 10, 4⟩⟩⟩,
       ⟨⟨.f32, 4⟩, .vec ⟨.f32, ⟨.cos, .sse4, 10, 4⟩⟩⟩,
       ⟨⟨.f32, 8⟩, .vec ⟨.f32, ⟨.cos, .avx, 10, 8⟩⟩⟩,
       ⟨⟨.f64, 2⟩, .vec ⟨.f64, ⟨.cos, .sse4, 10, 2⟩⟩⟩,
       ⟨⟨.f64, 4⟩, .vec ⟨.f64, ⟨.cos, .avx, 10, 4⟩⟩⟩]
    else if c.sse42 then
      [⟨⟨.f32, 2⟩, .twice ⟨.f32, 4⟩ ⟨.f32, ⟨.cos, .sse4, 10, 4⟩⟩⟩,
       ⟨⟨.f32, 16⟩, .quarters ⟨.f32, 4⟩ ⟨.f32, ⟨.cos, .sse4, 10, 4⟩⟩⟩,
       ⟨⟨.f64, 8⟩, .quarters ⟨.f64, 2⟩ ⟨.f64, ⟨.cos, .sse4, 10, 2⟩⟩⟩,
       ⟨⟨.f32, 4⟩, .vec ⟨.f32, ⟨.cos, .sse4, 10, 4⟩⟩⟩,
       ⟨⟨.f32, 8⟩, .halves ⟨.f32, 4⟩ ⟨.f32, ⟨.cos, .sse4, 10, 4⟩⟩⟩,
       ⟨⟨.f64, 2⟩, .vec ⟨.f64, ⟨.cos, .sse4, 10, 2⟩⟩⟩,
       ⟨⟨.f64, 4⟩, .halves ⟨.f64, 2⟩ ⟨.f64, ⟨.cos, .sse4, 10, 2⟩⟩⟩]
    else [⟨⟨.f32, 2⟩, .scalar .f32 2 ⟨.f32, ⟨.cos, .llvm, 0, 1⟩⟩⟩,
     ⟨⟨.f32, 16⟩, .vec ⟨.f32, ⟨.cos, .llvm, 0, 16⟩⟩⟩,
     ⟨⟨.f64, 8⟩, .vec ⟨.f64, ⟨.cos, .llvm, 0, 8⟩⟩⟩,
     ⟨⟨.f32, 4⟩, .vec ⟨.f32, ⟨.cos, .llvm, 0, 4⟩⟩⟩,
     ⟨⟨.f32, 8⟩, .vec ⟨.f32, ⟨.cos, .llvm, 0, 8⟩⟩⟩,
     ⟨⟨.f64, 2⟩, .vec ⟨.f64, ⟨.cos, .llvm, 0, 2⟩⟩⟩,
     ⟨⟨.f64, 4⟩, .vec ⟨.f64, ⟨.cos, .llvm, 0, 4⟩⟩⟩]
  else [⟨⟨.f32, 2⟩, .scalar .f32 2 ⟨.f32, ⟨.cos, .llvm, 0, 1⟩⟩⟩,
   ⟨⟨.f32, 4⟩, .vec ⟨.f32, ⟨.cos, .llvm, 0, 4⟩⟩⟩,
   ⟨⟨.f32, 8⟩, .vec ⟨.f32, ⟨.cos, .llvm, 0, 8⟩⟩⟩,
   ⟨⟨.f32, 16⟩, .vec ⟨.f32, ⟨.cos, .llvm, 0, 16⟩⟩⟩,
   ⟨⟨.f64, 2⟩, .vec ⟨.f64, ⟨.cos, .llvm, 0, 2⟩⟩⟩,
   ⟨⟨.f64, 4⟩, .vec ⟨.f64, ⟨.cos, .llvm, 0, 4⟩⟩⟩,
   ⟨⟨.f64, 8⟩, .vec ⟨.f64, ⟨.cos, .llvm, 0, 8⟩⟩⟩]

/-- src/codegen/math/float/cos_pi.rs -/
def cosPi (c : Cfg) : List MathRow :=
  if c.x64Sleef then
    if c.avx2 then
      [⟨⟨.f32, 2⟩, .twice ⟨.f32, 4⟩ ⟨.f32, ⟨.cospi, .avx2128, 5, 4⟩⟩⟩,
       ⟨⟨.f32, 16⟩, .halves ⟨.f32, 8⟩ ⟨.f32, ⟨.cospi, .avx2, 5, 8⟩⟩⟩,
       ⟨⟨.f64, 8⟩, .halves ⟨.f64, 4⟩ ⟨.f64, ⟨.cospi, .avx2, 5, 4⟩⟩⟩,
       ⟨⟨.f32, 4⟩, .vec ⟨.f32, ⟨.cospi, .avx2128, 5, 4⟩⟩⟩,
       ⟨⟨.f32, 8⟩, .vec ⟨.f32, ⟨.cospi, .avx2, 5, 8⟩⟩⟩,
       ⟨⟨.f64, 2⟩, .vec ⟨.f64, ⟨.cospi, .avx2128, 5, 2⟩⟩⟩,
       ⟨⟨.f64, 4⟩, .vec ⟨.f64, ⟨.cospi, .avx2, 5, 4⟩⟩⟩]
    else if c.avx then
      [⟨⟨.f32, 2⟩, .twice ⟨.f32, 4⟩ ⟨.f32, ⟨.cospi, .sse4, 5, 4⟩⟩⟩,
       ⟨⟨.f32, 16⟩, .halves ⟨.f32, 8⟩ ⟨.f32, ⟨.cospi, .avx, 5, 8⟩⟩⟩,
       ⟨⟨.f64, 8⟩, .halves ⟨.f64, 4⟩ ⟨.f64, ⟨.cospi, .avx, 5, 4⟩⟩⟩,
       ⟨⟨.f32, 4⟩, .vec ⟨.f32, ⟨.cospi, .sse4, 5, 4⟩⟩⟩,
       ⟨⟨.f32, 8⟩, .vec ⟨.f32, ⟨.cospi, .avx, 5, 8⟩⟩⟩,
       ⟨⟨.f64, 2⟩, .vec ⟨.f64, ⟨.cospi, .sse4, 5, 2⟩⟩⟩,
       ⟨⟨.f64, 4⟩, .vec ⟨.f64, ⟨.cospi, .avx, 5, 4⟩⟩⟩]
    else if c.sse42 then
      [⟨⟨.f32, 2⟩, .twice ⟨.f32, 4⟩ ⟨.f32, ⟨.cospi, .sse4, 5, 4⟩⟩⟩,
       ⟨⟨.f32, 16⟩, .quarters ⟨.f32, 4⟩ ⟨.f32, ⟨.cospi, .sse4, 5, 4⟩⟩⟩,
       ⟨⟨.f64, 8⟩, .quarters ⟨.f64, 2⟩ ⟨.f64, ⟨.cospi, .sse4, 5, 2⟩⟩⟩,
       ⟨⟨.f32, 4⟩, .vec ⟨.f32, ⟨.cospi, .sse4, 5, 4⟩⟩⟩,
       ⟨⟨.f32, 8⟩, .halves ⟨.f32, 4⟩ ⟨.f32, ⟨.cospi, .sse4, 5, 4⟩⟩⟩,
       ⟨⟨.f64, 2⟩, .vec ⟨.f64, ⟨.cospi, .sse4, 5, 2⟩⟩⟩,
       ⟨⟨.f64, 4⟩, .halves ⟨.f64, 2⟩ ⟨.f64, ⟨.cospi, .sse4, 5, 2⟩⟩⟩]
    else [⟨⟨.f32, 2⟩, .timesPi .f32⟩,
     ⟨⟨.f32, 4⟩, .timesPi .f32⟩,
     ⟨⟨.f32, 8⟩, .timesPi .f32⟩,
     ⟨⟨.f32, 16⟩, .timesPi .f32⟩,
     ⟨⟨.f64, 2⟩, .timesPi .f64⟩,
     ⟨⟨.f64, 4⟩, .timesPi .f64⟩,
     ⟨⟨.f64, 8⟩, .timesPi .f64⟩]
  else [⟨⟨.f32, 2⟩, .timesPi .f32⟩,
   ⟨⟨.f32, 4⟩, .timesPi .f32⟩,
   ⟨⟨.f32, 8⟩, .timesPi .f32⟩,
   ⟨⟨.f32, 16⟩, .timesPi .f32⟩,
   ⟨⟨.f64, 2⟩, .timesPi .f64⟩,
   ⟨⟨.f64, 4⟩, .timesPi .f64⟩,
   ⟨⟨.f64, 8⟩, .timesPi .f64⟩]

/-- src/codegen/math/float/exp.rs -/
def exp (c : Cfg) : List MathRow :=
  if c.s390x then
    [⟨⟨.f32, 2⟩, .scalar .f32 2 ⟨.f32, ⟨.exp, .llvm, 0, 1⟩⟩⟩,
     ⟨⟨.f32, 4⟩, .scalar .f32 4 ⟨.f32, ⟨.exp, .llvm, 0, 1⟩⟩⟩,
     ⟨⟨.f32, 8⟩, .scalar .f32 8 ⟨.f32, ⟨.exp, .llvm, 0, 1⟩⟩⟩,
     ⟨⟨.f32, 16⟩, .scalar .f32 16 ⟨.f32, ⟨.exp, .llvm, 0, 1⟩⟩⟩,
     ⟨⟨.f64, 2⟩, .scalar .f64 2 ⟨.f64, ⟨.exp, .llvm, 0, 1⟩⟩⟩,
     ⟨⟨.f64, 4⟩, .scalar .f64 4 ⟨.f64, ⟨.exp, .llvm, 0, 1⟩⟩⟩,
     ⟨⟨.f64, 8⟩, .scalar .f64 8 ⟨.f64, ⟨.exp, .llvm, 0, 1⟩⟩⟩]
  else if c.x64Sleef then
    if c.avx2 then
      [⟨⟨.f32, 2⟩, .twice ⟨.f32, 4⟩ ⟨.f32, ⟨.exp, .avx2128, 10, 4⟩⟩⟩,
       ⟨⟨.f32, 16⟩, .halves ⟨.f32, 8⟩ ⟨.f32, ⟨.exp, .avx2, 10, 8⟩⟩⟩,
       ⟨⟨.f64, 8⟩, .halves ⟨.f64, 4⟩ ⟨.f64, ⟨.exp, .avx2, 10, 4⟩⟩⟩,
       ⟨⟨.f32, 4⟩, .vec ⟨.f32, ⟨.exp, .avx2128, 10, 4⟩⟩⟩,
       ⟨⟨.f32, 8⟩, .vec ⟨.f32, ⟨.exp, .avx2, 10, 8⟩⟩⟩,
       ⟨⟨.f64, 2⟩, .vec ⟨.f64, ⟨.exp, .avx2128, 10, 2⟩⟩⟩,
       ⟨⟨.f64, 4⟩, .vec ⟨.f64, ⟨.exp, .avx2, 10, 4⟩⟩⟩]
    else if c.avx then
      [⟨⟨.f32, 2⟩, .twice ⟨.f32, 4⟩ ⟨.f32, ⟨.exp, .sse4, 10, 4⟩⟩⟩,
       ⟨⟨.f32, 16⟩, .halves ⟨.f32, 8⟩ ⟨.f32, ⟨.exp, .avx, 10, 8⟩⟩⟩,
       ⟨⟨.f64, 8⟩, .halves ⟨.f64, 4⟩ ⟨.f64, ⟨.exp, .avx, 10, 4⟩⟩⟩,
       ⟨⟨.f32, 4⟩, .vec ⟨.f32, ⟨.exp, .sse4, 10, 4⟩⟩⟩,
       ⟨⟨.f32, 8⟩, .vec ⟨.f32, ⟨.exp, .avx, 10, 8⟩⟩⟩,
       ⟨⟨.f64, 2⟩, .vec ⟨.f64, ⟨.exp, .sse4, 10, 2⟩⟩⟩,
       ⟨⟨.f64, 4⟩, .vec ⟨.f64, ⟨.exp, .avx, 10, 4⟩⟩⟩]
    else if c.sse42 then
      [⟨⟨.f32, 2⟩, .twice ⟨.f32, 4⟩ ⟨.f32, ⟨.exp, .sse4, 10, 4⟩⟩⟩,
       ⟨⟨.f32, 16⟩, .quarters ⟨.f32, 4⟩ ⟨.f32, ⟨.exp, .sse4, 10, 4⟩⟩⟩,
       ⟨⟨.f64, 8⟩, .quarters ⟨.f64, 2⟩ ⟨.f64, ⟨.exp, .sse4, 10, 2⟩⟩⟩,
       ⟨⟨.f32, 4⟩, .vec ⟨.f32, ⟨.exp, .sse4, 10, 4⟩⟩⟩,
       ⟨⟨.f32, 8⟩, .halves ⟨.f32, 4⟩ ⟨.f32, ⟨.exp, .sse4, 10, 4⟩⟩⟩,
       ⟨⟨.f64, 2⟩, .vec ⟨.f64, ⟨.exp, .sse4, 10, 2⟩⟩⟩,
       ⟨⟨.f64, 4⟩, .halves ⟨.f64, 2⟩ ⟨.f64, ⟨.exp, .sse4, 10, 2⟩⟩⟩]
    else if c.sse2 then
      [⟨⟨.f32, 2⟩, .twice ⟨.f32, 4⟩ ⟨.f32, ⟨.exp, .sse2, 10, 4⟩⟩⟩,
       ⟨⟨.f32, 16⟩, .quarters ⟨.f32, 4⟩ ⟨.f32, ⟨.exp, .sse2, 10, 4⟩⟩⟩,
       ⟨⟨.f64, 8⟩, .quarters ⟨.f64, 2⟩ ⟨.f64, ⟨.exp, .sse2, 10, 2⟩⟩⟩,
       ⟨⟨.f32, 4⟩, .vec ⟨.f32, ⟨.exp, .sse2, 10, 4⟩⟩⟩,
       ⟨⟨.f32, 8⟩, .halves ⟨.f32, 4⟩ ⟨.f32, ⟨.exp, .sse2, 10, 4⟩⟩⟩,
       ⟨⟨.f64, 2⟩, .vec ⟨.f64, ⟨.exp, .sse2, 10, 2⟩⟩⟩,
       ⟨⟨.f64, 4⟩, .halves ⟨.f64, 2⟩ ⟨.f64, ⟨.exp, .sse2, 10, 2⟩⟩⟩]
    else [⟨⟨.f32, 2⟩, .scalar .f32 2 ⟨.f32, ⟨.exp, .llvm, 0, 1⟩⟩⟩,
     ⟨⟨.f32, 16⟩, .vec ⟨.f32, ⟨.exp, .llvm, 0, 16⟩⟩⟩,
     ⟨⟨.f64, 8⟩, .vec ⟨.f64, ⟨.exp, .llvm, 0, 8⟩⟩⟩,
     ⟨⟨.f32, 4⟩, .vec ⟨.f32, ⟨.exp, .llvm, 0, 4⟩⟩⟩,
     ⟨⟨.f32, 8⟩, .vec ⟨.f32, ⟨.exp, .llvm, 0, 8⟩⟩⟩,
     ⟨⟨.f64, 2⟩, .vec ⟨.f64, ⟨.exp, .llvm, 0, 2⟩⟩⟩,
     ⟨⟨.f64, 4⟩, .vec ⟨.f64, ⟨.exp, .llvm, 0, 4⟩⟩⟩]
  else [⟨⟨.f32, 2⟩, .scalar .f32 2 ⟨.f32, ⟨.exp, .llvm, 0, 1⟩⟩⟩,
   ⟨⟨.f32, 4⟩, .vec ⟨.f32, ⟨.exp, .llvm, 0, 4⟩⟩⟩,
   ⟨⟨.f32, 8⟩, .vec ⟨.f32, ⟨.exp, .llvm, 0, 8⟩⟩⟩,
   ⟨⟨.f32, 16⟩, .vec ⟨.f32, ⟨.exp, .llvm, 0, 16⟩⟩⟩,
   ⟨⟨.f64, 2⟩, .vec ⟨.f64, ⟨.exp, .llvm, 0, 2⟩⟩⟩,
   ⟨⟨.f64, 4⟩, .vec ⟨.f64, ⟨.exp, .llvm, 0, 4⟩⟩⟩,
   ⟨⟨.f64, 8⟩, .vec ⟨.f64, ⟨.exp, .llvm, 0, 8⟩⟩⟩]

/-- src/codegen/math/float/ln.rs -/
def ln (c : Cfg) : List MathRow :=
  if c.s390x then
    [⟨⟨.f32, 2⟩, .scalar .f32 2 ⟨.f32, ⟨.log, .llvm, 0, 1⟩⟩⟩,
     ⟨⟨.f32, 4⟩, .scalar .f32 4 ⟨.f32, ⟨.log, .llvm, 0, 1⟩⟩⟩,
     ⟨⟨.f32, 8⟩, .scalar .f32 8 ⟨.f32, ⟨.log, .llvm, 0, 1⟩⟩⟩,
     ⟨⟨.f32, 16⟩, .scalar .f32 16 ⟨.f32, ⟨.log, .llvm, 0, 1⟩⟩⟩,
     ⟨⟨.f64, 2⟩, .scalar .f64 2 ⟨.f64, ⟨.log, .llvm, 0, 1⟩⟩⟩,
     ⟨⟨.f64, 4⟩, .scalar .f64 4 ⟨.f64, ⟨.log, .llvm, 0, 1⟩⟩⟩,
     ⟨⟨.f64, 8⟩, .scalar .f64 8 ⟨.f64, ⟨.log, .llvm, 0, 1⟩⟩⟩]
  else if c.x64Sleef then
    if c.avx2 then
      [⟨⟨.f32, 2⟩, .twice ⟨.f32, 4⟩ ⟨.f32, ⟨.log, .avx2128, 10, 4⟩⟩⟩,
       ⟨⟨.f32, 16⟩, .halves ⟨.f32, 8⟩ ⟨.f32, ⟨.log, .avx2, 10, 8⟩⟩⟩,
       ⟨⟨.f64, 8⟩, .halves ⟨.f64, 4⟩ ⟨.f64, ⟨.log, .avx2, 10, 4⟩⟩⟩,
       ⟨⟨.f32, 4⟩, .vec ⟨.f32, ⟨.log, .avx2128, 10, 4⟩⟩⟩,
       ⟨⟨.f32, 8⟩, .vec ⟨.f32, ⟨.log, .avx2, 10, 8⟩⟩⟩,
       ⟨⟨.f64, 2⟩, .vec ⟨.f64, ⟨.log, .avx2128, 10, 2⟩⟩⟩,
       ⟨⟨.f64, 4⟩, .vec ⟨.f64, ⟨.log, .avx2, 10, 4⟩⟩⟩]
    else if c.avx then
      [⟨⟨.f32, 2⟩, .twice ⟨.f32, 4⟩ ⟨.f32, ⟨.log, .sse4, 10, 4⟩⟩⟩,
       ⟨⟨.f32, 16⟩, .halves ⟨.f32, 8⟩ ⟨.f32, ⟨.log, .avx, 10, 8⟩⟩⟩,
       ⟨⟨.f64, 8⟩, .halves ⟨.f64, 4⟩ ⟨.f64, ⟨.log, .avx, 10, 4⟩⟩⟩,
       ⟨⟨.f32, 4⟩, .vec ⟨.f32, ⟨.log, .sse4, 10, 4⟩⟩⟩,
       ⟨⟨.f32, 8⟩, .vec ⟨.f32, ⟨.log, .avx, 10, 8⟩⟩⟩,
       ⟨⟨.f64, 2⟩, .vec ⟨.f64, ⟨.log, .sse4, 10, 2⟩⟩⟩,
       ⟨⟨.f64, 4⟩, .vec ⟨.f64, ⟨.log, .avx, 10, 4⟩⟩⟩]
    else if c.sse42 then
      [⟨⟨.f32, 2⟩, .twice ⟨.f32, 4⟩ ⟨.f32, ⟨.log, .sse4, 10, 4⟩⟩⟩,
       ⟨⟨.f32, 16⟩, .quarters ⟨.f32, 4⟩ ⟨.f32, ⟨.log, .sse4, 10, 4⟩⟩⟩,
       ⟨⟨.f64, 8⟩, .quarters ⟨.f64, 2⟩ ⟨.f64, ⟨.log, .sse4, 10, 2⟩⟩⟩,
       ⟨⟨.f32, 4⟩, .vec ⟨.f32, ⟨.log, .sse4, 10, 4⟩⟩⟩,
       ⟨⟨.f32, 8⟩, .halves ⟨.f32, 4⟩ ⟨.f32, ⟨.log, .sse4, 10, 4⟩⟩⟩,
       ⟨⟨.f64, 2⟩, .vec ⟨.f64, ⟨.log, .sse4, 10, 2⟩⟩⟩,
       ⟨⟨.f64, 4⟩, .halves ⟨.f64, 2⟩ ⟨.f64, ⟨.log, .sse4, 10, 2⟩⟩⟩]
    else if c.sse2 then
      [⟨⟨.f32, 2⟩, .twice ⟨.f32, 4⟩ ⟨.f32, ⟨.log, .sse2, 10, 4⟩⟩⟩,
       ⟨⟨.f32, 16⟩, .quarters ⟨.f32, 4⟩ ⟨.f32, ⟨.log, .sse2, 10, 4⟩⟩⟩,
       ⟨⟨.f64, 8⟩, .quarters ⟨.f64, 2⟩ ⟨.f64, ⟨.log, .sse2, 10, 2⟩⟩⟩,
       ⟨⟨.f32, 4⟩, .vec ⟨.f32, ⟨.log, .sse2, 10, 4⟩⟩⟩,
       ⟨⟨.f32, 8⟩, .halves ⟨.f32, 4⟩ ⟨.f32, ⟨.log, .sse2, 10, 4⟩⟩⟩,
       ⟨⟨.f64, 2⟩, .vec ⟨.f64, ⟨.log, .sse2, 10, 2⟩⟩⟩,
       ⟨⟨.f64, 4⟩, .halves ⟨.f64, 2⟩ ⟨.f64, ⟨.log, .sse2, 10, 2⟩⟩⟩]
    else [⟨⟨.f32, 2⟩, .scalar .f32 2 ⟨.f32, ⟨.log, .llvm, 0, 1⟩⟩⟩,
     ⟨⟨.f32, 16⟩, .vec ⟨.f32, ⟨.log, .llvm, 0, 16⟩⟩⟩,
     ⟨⟨.f64, 8⟩, .vec ⟨.f64, ⟨.log, .llvm, 0, 8⟩⟩⟩,
     ⟨⟨.f32, 4⟩, .vec ⟨.f32, ⟨.log, .llvm, 0, 4⟩⟩⟩,
     ⟨⟨.f32, 8⟩, .vec ⟨.f32, ⟨.log, .llvm, 0, 8⟩⟩⟩,
     ⟨⟨.f64, 2⟩, .vec ⟨.f64, ⟨.log, .llvm, 0, 2⟩⟩⟩,
     ⟨⟨.f64, 4⟩, .vec ⟨.f64, ⟨.log, .llvm, 0, 4⟩⟩⟩]
  else [⟨⟨.f32, 2⟩, .scalar .f32 2 ⟨.f32, ⟨.log, .llvm, 0, 1⟩⟩⟩,
   ⟨⟨.f32, 4⟩, .vec ⟨.f32, ⟨.log, .llvm, 0, 4⟩⟩⟩,
   ⟨⟨.f32, 8⟩, .vec ⟨.f32, ⟨.log, .llvm, 0, 8⟩⟩⟩,
   ⟨⟨.f32, 16⟩, .vec ⟨.f32, ⟨.log, .llvm, 0, 16⟩⟩⟩,
   ⟨⟨.f64, 2⟩, .vec ⟨.f64, ⟨.log, .llvm, 0, 2⟩⟩⟩,
   ⟨⟨.f64, 4⟩, .vec ⟨.f64, ⟨.log, .llvm, 0, 4⟩⟩⟩,
   ⟨⟨.f64, 8⟩, .vec ⟨.f64, ⟨.log, .llvm, 0, 8⟩⟩⟩]

/-- src/codegen/math/float/mul_add.rs -/
def mulAdd (c : Cfg) : List MathRow :=
  if c.s390x then
    [⟨⟨.f32, 2⟩, .mulThenAdd⟩,
     ⟨⟨.f32, 4⟩, .mulThenAdd⟩,
     ⟨⟨.f32, 8⟩, .mulThenAdd⟩,
     ⟨⟨.f32, 16⟩, .mulThenAdd⟩,
     ⟨⟨.f64, 2⟩, .mulThenAdd⟩,
     ⟨⟨.f64, 4⟩, .mulThenAdd⟩,
     ⟨⟨.f64, 8⟩, .mulThenAdd⟩]
  else if c.x64Sleef then
    if c.avx2 then
      [⟨⟨.f32, 2⟩, .twice ⟨.f32, 4⟩ ⟨.f32, ⟨.fma, .avx2128, 0, 4⟩⟩⟩,
       ⟨⟨.f32, 16⟩, .halves ⟨.f32, 8⟩ ⟨.f32, ⟨.fma, .avx2, 0, 8⟩⟩⟩,
       ⟨⟨.f64, 8⟩, .halves ⟨.f64, 4⟩ ⟨.f64, ⟨.fma, .avx2, 0, 4⟩⟩⟩,
       ⟨⟨.f32, 4⟩, .vec ⟨.f32, ⟨.fma, .avx2128, 0, 4⟩⟩⟩,
       ⟨⟨.f32, 8⟩, .vec ⟨.f32, ⟨.fma, .avx2, 0, 8⟩⟩⟩,
       ⟨⟨.f64, 2⟩, .vec ⟨.f64, ⟨.fma, .avx2128, 0, 2⟩⟩⟩,
       ⟨⟨.f64, 4⟩, .vec ⟨.f64, ⟨.fma, .avx2, 0, 4⟩⟩⟩]
    else if c.avx then
      [⟨⟨.f32, 2⟩, .twice ⟨.f32, 4⟩ ⟨.f32, ⟨.fma, .sse4, 0, 4⟩⟩⟩,
       ⟨⟨.f32, 16⟩, .halves ⟨.f32, 8⟩ ⟨.f32, ⟨.fma, .avx, 0, 8⟩⟩⟩,
       ⟨⟨.f64, 8⟩, .halves ⟨.f64, 4⟩ ⟨.f64, ⟨.fma, .avx, 0, 4⟩⟩⟩,
       ⟨⟨.f32, 4⟩, .vec ⟨.f32, ⟨.fma, .sse4, 0, 4⟩⟩⟩,
       ⟨⟨.f32, 8⟩, .vec ⟨.f32, ⟨.fma, .avx, 0, 8⟩⟩⟩,
       ⟨⟨.f64, 2⟩, .vec ⟨.f64, ⟨.fma, .sse4, 0, 2⟩⟩⟩,
       ⟨⟨.f64, 4⟩, .vec ⟨.f64, ⟨.fma, .avx, 0, 4⟩⟩⟩]
    else if c.sse42 then
      [⟨⟨.f32, 2⟩, .twice ⟨.f32, 4⟩ ⟨.f32, ⟨.fma, .sse4, 0, 4⟩⟩⟩,
       ⟨⟨.f32, 16⟩, .quarters ⟨.f32, 4⟩ ⟨.f32, ⟨.fma, .sse4, 0, 4⟩⟩⟩,
       ⟨⟨.f64, 8⟩, .quarters ⟨.f64, 2⟩ ⟨.f64, ⟨.fma, .sse4, 0, 2⟩⟩⟩,
       ⟨⟨.f32, 4⟩, .vec ⟨.f32, ⟨.fma, .sse4, 0, 4⟩⟩⟩,
       ⟨⟨.f32, 8⟩, .halves ⟨.f32, 4⟩ ⟨.f32, ⟨.fma, .sse4, 0, 4⟩⟩⟩,
       ⟨⟨.f64, 2⟩, .vec ⟨.f64, ⟨.fma, .sse4, 0, 2⟩⟩⟩,
       ⟨⟨.f64, 4⟩, .halves ⟨.f64, 2⟩ ⟨.f64, ⟨.fma, .sse4, 0, 2⟩⟩⟩]
    else [⟨⟨.f32, 2⟩, .vec ⟨.f32, ⟨.fma, .llvm, 0, 2⟩⟩⟩,
     ⟨⟨.f32, 16⟩, .vec ⟨.f32, ⟨.fma, .llvm, 0, 16⟩⟩⟩,
     ⟨⟨.f64, 8⟩, .vec ⟨.f64, ⟨.fma, .llvm, 0, 8⟩⟩⟩,
     ⟨⟨.f32, 4⟩, .vec ⟨.f32, ⟨.fma, .llvm, 0, 4⟩⟩⟩,
     ⟨⟨.f32, 8⟩, .vec ⟨.f32, ⟨.fma, .llvm, 0, 8⟩⟩⟩,
     ⟨⟨.f64, 2⟩, .vec ⟨.f64, ⟨.fma, .llvm, 0, 2⟩⟩⟩,
     ⟨⟨.f64, 4⟩, .vec ⟨.f64, ⟨.fma, .llvm, 0, 4⟩⟩⟩]
  else [⟨⟨.f32, 2⟩, .vec ⟨.f32, ⟨.fma, .llvm, 0, 2⟩⟩⟩,
   ⟨⟨.f32, 4⟩, .vec ⟨.f32, ⟨.fma, .llvm, 0, 4⟩⟩⟩,
   ⟨⟨.f32, 8⟩, .vec ⟨.f32, ⟨.fma, .llvm, 0, 8⟩⟩⟩,
   ⟨⟨.f32, 16⟩, .vec ⟨.f32, ⟨.fma, .llvm, 0, 16⟩⟩⟩,
   ⟨⟨.f64, 2⟩, .vec ⟨.f64, ⟨.fma, .llvm, 0, 2⟩⟩⟩,
   ⟨⟨.f64, 4⟩, .vec ⟨.f64, ⟨.fma, .llvm, 0, 4⟩⟩⟩,
   ⟨⟨.f64, 8⟩, .vec ⟨.f64, ⟨.fma, .llvm, 0, 8⟩⟩⟩]

/-- src/codegen/math/float/mul_adde.rs -/
def mulAdde (c : Cfg) : List MathRow :=
  if c.s390x then
    [⟨⟨.f32, 2⟩, .mulThenAdd⟩,
     ⟨⟨.f32, 4⟩, .mulThenAdd⟩,
     ⟨⟨.f32, 8⟩, .mulThenAdd⟩,
     ⟨⟨.f32, 16⟩, .mulThenAdd⟩,
     ⟨⟨.f64, 2⟩, .mulThenAdd⟩,
     ⟨⟨.f64, 4⟩, .mulThenAdd⟩,
     ⟨⟨.f64, 8⟩, .mulThenAdd⟩]
  else [⟨⟨.f32, 2⟩, .vec ⟨.f32, ⟨.fmuladd, .llvm, 0, 2⟩⟩⟩,
   ⟨⟨.f32, 4⟩, .vec ⟨.f32, ⟨.fmuladd, .llvm, 0, 4⟩⟩⟩,
   ⟨⟨.f32, 8⟩, .vec ⟨.f32, ⟨.fmuladd, .llvm, 0, 8⟩⟩⟩,
   ⟨⟨.f32, 16⟩, .vec ⟨.f32, ⟨.fmuladd, .llvm, 0, 16⟩⟩⟩,
   ⟨⟨.f64, 2⟩, .vec ⟨.f64, ⟨.fmuladd, .llvm, 0, 2⟩⟩⟩,
   ⟨⟨.f64, 4⟩, .vec ⟨.f64, ⟨.fmuladd, .llvm, 0, 4⟩⟩⟩,
   ⟨⟨.f64, 8⟩, .vec ⟨.f64, ⟨.fmuladd, .llvm, 0, 8⟩⟩⟩]

/-- src/codegen/math/float/powf.rs -/
def powf (c : Cfg) : List MathRow :=
  if c.s390x then
    [⟨⟨.f32, 2⟩, .scalar .f32 2 ⟨.f32, ⟨.pow, .llvm, 0, 1⟩⟩⟩,
     ⟨⟨.f32, 4⟩, .scalar .f32 4 ⟨.f32, ⟨.pow, .llvm, 0, 1⟩⟩⟩,
     ⟨⟨.f32, 8⟩, .scalar .f32 8 ⟨.f32, ⟨.pow, .llvm, 0, 1⟩⟩⟩,
     ⟨⟨.f32, 16⟩, .scalar .f32 16 ⟨.f32, ⟨.pow, .llvm, 0, 1⟩⟩⟩,
     ⟨⟨.f64, 2⟩, .scalar .f64 2 ⟨.f64, ⟨.pow, .llvm, 0, 1⟩⟩⟩,
     ⟨⟨.f64, 4⟩, .scalar .f64 4 ⟨.f64, ⟨.pow, .llvm, 0, 1⟩⟩⟩,
     ⟨⟨.f64, 8⟩, .scalar .f64 8 ⟨.f64, ⟨.pow, .llvm, 0, 1⟩⟩⟩]
  else if c.x64Sleef then
    if c.avx2 then
      [⟨⟨.f32, 2⟩, .twice ⟨.f32, 4⟩ ⟨.f32, ⟨.pow, .avx2128, 10, 4⟩⟩⟩,
       ⟨⟨.f32, 16⟩, .halves ⟨.f32, 8⟩ ⟨.f32, ⟨.pow, .avx2, 10, 8⟩⟩⟩,
       ⟨⟨.f64, 8⟩, .halves ⟨.f64, 4⟩ ⟨.f64, ⟨.pow, .avx2, 10, 4⟩⟩⟩,
       ⟨⟨.f32, 4⟩, .vec ⟨.f32, ⟨.pow, .avx2128, 10, 4⟩⟩⟩,
       ⟨⟨.f32, 8⟩, .vec ⟨.f32, ⟨.pow, .avx2, 10, 8⟩⟩⟩,
       ⟨⟨.f64, 2⟩, .vec ⟨.f64, ⟨.pow, .avx2128, 10, 2⟩⟩⟩,
       ⟨⟨.f64, 4⟩, .vec ⟨.f64, ⟨.pow, .avx2, 10, 4⟩⟩⟩]
    else if c.avx then
      [⟨⟨.f32, 2⟩, .twice ⟨.f32, 4⟩ ⟨.f32, ⟨.pow, .sse4, 10, 4⟩⟩⟩,
       ⟨⟨.f32, 16⟩, .halves ⟨.f32, 8⟩ ⟨.f32, ⟨.pow, .avx, 10, 8⟩⟩⟩,
       ⟨⟨.f64, 8⟩, .halves ⟨.f64, 4⟩ ⟨.f64, ⟨.pow, .avx, 10, 4⟩⟩⟩,
       ⟨⟨.f32, 4⟩, .vec ⟨.f32, ⟨.pow, .sse4, 10, 4⟩⟩⟩,
       ⟨⟨.f32, 8⟩, .vec ⟨.f32, ⟨.pow, .avx, 10, 8⟩⟩⟩,
       ⟨⟨.f64, 2⟩, .vec ⟨.f64, ⟨.pow, .sse4, 10, 2⟩⟩⟩,
       ⟨⟨.f64, 4⟩, .vec ⟨.f64, ⟨.pow, .avx, 10, 4⟩⟩⟩]
    else if c.sse42 then
      [⟨⟨.f32, 2⟩, .twice ⟨.f32, 4⟩ ⟨.f32, ⟨.pow, .sse4, 10, 4⟩⟩⟩,
       ⟨⟨.f32, 16⟩, .quarters ⟨.f32, 4⟩ ⟨.f32, ⟨.pow, .sse4, 10, 4⟩⟩⟩,
       ⟨⟨.f64, 8⟩, .quarters ⟨.f64, 2⟩ ⟨.f64, ⟨.pow, .sse4, 10, 2⟩⟩⟩,
       ⟨⟨.f32, 4⟩, .vec ⟨.f32, ⟨.pow, .sse4, 10, 4⟩⟩⟩,
       ⟨⟨.f32, 8⟩, .halves ⟨.f32, 4⟩ ⟨.f32, ⟨.pow, .sse4, 10, 4⟩⟩⟩,
       ⟨⟨.f64, 2⟩, .vec ⟨.f64, ⟨.pow, .sse4, 10, 2⟩⟩⟩,
       ⟨⟨.f64, 4⟩, .halves ⟨.f64, 2⟩ ⟨.f64, ⟨.pow, .sse4, 10, 2⟩⟩⟩]
    else if c.sse2 then
      [⟨⟨.f32, 2⟩, .twice ⟨.f32, 4⟩ ⟨.f32, ⟨.pow, .sse2, 10, 4⟩⟩⟩,
       ⟨⟨.f32, 16⟩, .quarters ⟨.f32, 4⟩ ⟨.f32, ⟨.pow, .sse2, 10, 4⟩⟩⟩,
       ⟨⟨.f64, 8⟩, .quarters ⟨.f64, 2⟩ ⟨.f64, ⟨.pow, .sse2, 10, 2⟩⟩⟩,
       ⟨⟨.f32, 4⟩, .vec ⟨.f32, ⟨.pow, .sse2, 10, 4⟩⟩⟩,
       ⟨⟨.f32, 8⟩, .halves ⟨.f32, 4⟩ ⟨.f32, ⟨.pow, .sse2, 10, 4⟩⟩⟩,
       ⟨⟨.f64, 2⟩, .vec ⟨.f64, ⟨.pow, .sse2, 10, 2⟩⟩⟩,
       ⟨⟨.f64, 4⟩, .halves ⟨.f64, 2⟩ ⟨.f64, ⟨.pow, .sse2, 10, 2⟩⟩⟩]
    else [⟨⟨.f32, 2⟩, .scalar .f32 2 ⟨.f32, ⟨.pow, .llvm, 0, 1⟩⟩⟩,
     ⟨⟨.f32, 4⟩, .vec ⟨.f32, ⟨.pow, .llvm, 0, 4⟩⟩⟩,
     ⟨⟨.f32, 8⟩, .vec ⟨.f32, ⟨.pow, .llvm, 0, 8⟩⟩⟩,
     ⟨⟨.f32, 16⟩, .vec ⟨.f32, ⟨.pow, .llvm, 0, 16⟩⟩⟩,
     ⟨⟨.f64, 2⟩, .vec ⟨.f64, ⟨.pow, .llvm, 0, 2⟩⟩⟩,
     ⟨⟨.f64, 4⟩, .vec ⟨.f64, ⟨.pow, .llvm, 0, 4⟩⟩⟩,
     ⟨⟨.f64, 8⟩, .vec ⟨.f64, ⟨.pow, .llvm, 0, 8⟩⟩⟩]
  else [⟨⟨.f32, 2⟩, .scalar .f32 2 ⟨.f32, ⟨.pow, .llvm, 0, 1⟩⟩⟩,
   ⟨⟨.f32, 4⟩, .vec ⟨.f32, ⟨.pow, .llvm, 0, 4⟩⟩⟩,
   ⟨⟨.f32, 8⟩, .vec ⟨.f32, ⟨.pow, .llvm, 0, 8⟩⟩⟩,
   ⟨⟨.f32, 16⟩, .vec ⟨.f32, ⟨.pow, .llvm, 0, 16⟩⟩⟩,
   ⟨⟨.f64, 2⟩, .vec ⟨.f64, ⟨.pow, .llvm, 0, 2⟩⟩⟩,
   ⟨⟨.f64, 4⟩, .vec ⟨.f64, ⟨.pow, .llvm, 0, 4⟩⟩⟩,
   ⟨⟨.f64, 8⟩, .vec ⟨.f64, ⟨.pow, .llvm, 0, 8⟩⟩⟩]

/-- src/codegen/math/float/sin.rs -/
def sin (c : Cfg) : List MathRow :=
  if c.s390x then
    [⟨⟨.f32, 2⟩, .scalar .f32 2 ⟨.f32, ⟨.sin, .llvm, 0, 1⟩⟩⟩,
     ⟨⟨.f32, 4⟩, .scalar .f32 4 ⟨.f32, ⟨.sin, .llvm, 0, 1⟩⟩⟩,
     ⟨⟨.f32, 8⟩, .scalar .f32 8 ⟨.f32, ⟨.sin, .llvm, 0, 1⟩⟩⟩,
     ⟨⟨.f32, 16⟩, .scalar .f32 16 ⟨.f32, ⟨.sin, .llvm, 0, 1⟩⟩⟩,
     ⟨⟨.f64, 2⟩, .scalar .f64 2 ⟨.f64, ⟨.sin, .llvm, 0, 1⟩⟩⟩,
     ⟨⟨.f64, 4⟩, .scalar .f64 4 ⟨.f64, ⟨.sin, .llvm, 0, 1⟩⟩⟩,
     ⟨⟨.f64, 8⟩, .scalar .f64 8 ⟨.f64, ⟨.sin, .llvm, 0, 1⟩⟩⟩]
  else if c.x64Sleef then
    if c.avx2 then
      [⟨⟨.f32, 2⟩, .twice ⟨.f32, 4⟩ ⟨.f32, ⟨.sin, .avx2128, 10, 4⟩⟩⟩,
       ⟨⟨.f32, 16⟩, .halves ⟨.f32, 8⟩ ⟨.f32, ⟨.sin, .avx2, 10, 8⟩⟩⟩,
       ⟨⟨.f64, 8⟩, .halves ⟨.f64, 4⟩ ⟨.f64, ⟨.sin, .avx2, 10, 4⟩⟩⟩,
       ⟨⟨.f32, 4⟩, .vec ⟨.f32, ⟨.sin, .avx2128, 10, 4⟩⟩⟩,
       ⟨⟨.f32, 8⟩, .vec ⟨.f32, ⟨.sin, .avx2, 10, 8⟩⟩⟩,
       ⟨⟨.f64, 2⟩, .vec ⟨.f64, ⟨.sin, .avx2128, 10, 2⟩⟩⟩,
       ⟨⟨.f64, 4⟩, .vec ⟨.f64, ⟨.sin, .avx2, 10, 4⟩⟩⟩]
    else if c.avx then
      [⟨⟨.f32, 2⟩, .twice ⟨.f32, 4⟩ ⟨.f32, ⟨.sin, .sse4, 10, 4⟩⟩⟩,
       ⟨⟨.f32, 16⟩, .halves ⟨.f32, 8⟩ ⟨.f32, ⟨.sin, .avx, 10, 8⟩⟩⟩,
       ⟨⟨.f64, 8⟩, .halves ⟨.f64, 4⟩ ⟨.f64, ⟨.sin, .avx, 10, 4⟩⟩⟩,
       ⟨⟨.f32, 4⟩, .vec ⟨.f32, ⟨.sin, .sse4, 10, 4⟩⟩⟩,
       ⟨⟨.f32, 8⟩, .vec ⟨.f32, ⟨.sin, .avx, 10, 8⟩⟩⟩,
       ⟨⟨.f64, 2⟩, .vec ⟨.f64, ⟨.sin, .sse4, 10, 2⟩⟩⟩,
       ⟨⟨.f64, 4⟩, .vec ⟨.f64, ⟨.sin, .avx, 10, 4⟩⟩⟩]
    else if c.sse42 then
      [⟨⟨.f32, 2⟩, .twice ⟨.f32, 4⟩ ⟨.f32, ⟨.sin, .sse4, 10, 4⟩⟩⟩,
       ⟨⟨.f32, 16⟩, .quarters ⟨.f32, 4⟩ ⟨.f32, ⟨.sin, .sse4, 10, 4⟩⟩⟩,
       ⟨⟨.f64, 8⟩, .quarters ⟨.f64, 2⟩ ⟨.f64, ⟨.sin, .sse4, 10, 2⟩⟩⟩,
       ⟨⟨.f32, 4⟩, .vec ⟨.f32, ⟨.sin, .sse4, 10, 4⟩⟩⟩,
       ⟨⟨.f32, 8⟩, .halves ⟨.f32, 4⟩ ⟨.f32, ⟨.sin, .sse4, 10, 4⟩⟩⟩,
       ⟨⟨.f64, 2⟩, .vec ⟨.f64, ⟨.sin, .sse4, 10, 2⟩⟩⟩,
       ⟨⟨.f64, 4⟩, .halves ⟨.f64, 2⟩ ⟨.f64, ⟨.sin, .sse4, 10, 2⟩⟩⟩]
    else [⟨⟨.f32, 2⟩, .scalar .f32 2 ⟨.f32, ⟨.sin, .llvm, 0, 1⟩⟩⟩,
     ⟨⟨.f32, 16⟩, .vec ⟨.f32, ⟨.sin, .llvm, 0, 16⟩⟩⟩,
     ⟨⟨.f64, 8⟩, .vec ⟨.f64, ⟨.sin, .llvm, 0, 8⟩⟩⟩,
     ⟨⟨.f32, 4⟩, .vec ⟨.f32, ⟨.sin, .llvm, 0, 4⟩⟩⟩,
     ⟨⟨.f32, 8⟩, .vec ⟨.f32, ⟨.sin, .llvm, 0, 8⟩⟩⟩,
     ⟨⟨.f64, 2⟩, .vec ⟨.f64, ⟨.sin, .llvm, 0, 2⟩⟩⟩,
     ⟨⟨.f64, 4⟩, .vec ⟨.f64, ⟨.sin, .llvm, 0, 4⟩⟩⟩]
  else [⟨⟨.f32, 2⟩, .scalar .f32 2 ⟨.f32, ⟨.sin, .llvm, 0, 1⟩⟩⟩,
   ⟨⟨.f32, 4⟩, .vec ⟨.f32, ⟨.sin, .llvm, 0, 4⟩⟩⟩,
   ⟨⟨.f32, 8⟩, .vec ⟨.f32, ⟨.sin, .llvm, 0, 8⟩⟩⟩,
   ⟨⟨.f32, 16⟩, .vec ⟨.f32, ⟨.sin, .llvm, 0, 16⟩⟩⟩,
   ⟨⟨.f64, 2⟩, .vec ⟨.f64, ⟨.sin, .llvm, 0, 2⟩⟩⟩,
   ⟨⟨.f64, 4⟩, .vec ⟨.f64, ⟨.sin, .llvm, 0, 4⟩⟩⟩,
   ⟨⟨.f64, 8⟩, .vec ⟨.f64, ⟨.sin, .llvm, 0, 8⟩⟩⟩]

/-- src/codegen/math/float/sin_pi.rs -/
def sinPi (c : Cfg) : List MathRow :=
  if c.x64Sleef then
    if c.avx2 then
      [⟨⟨.f32, 2⟩, .twice ⟨.f32, 4⟩ ⟨.f32, ⟨.sinpi, .avx2128, 5, 4⟩⟩⟩,
       ⟨⟨.f32, 16⟩, .halves ⟨.f32, 8⟩ ⟨.f32, ⟨.sinpi, .avx2, 5, 8⟩⟩⟩,
       ⟨⟨.f64, 8⟩, .halves ⟨.f64, 4⟩ ⟨.f64, ⟨.sinpi, .avx2, 5, 4⟩⟩⟩,
       ⟨⟨.f32, 4⟩, .vec ⟨.f32, ⟨.sinpi, .avx2128, 5, 4⟩⟩⟩,
       ⟨⟨.f32, 8⟩, .vec ⟨.f32, ⟨.sinpi, .avx2, 5, 8⟩⟩⟩,
       ⟨⟨.f64, 2⟩, .vec ⟨.f64, ⟨.sinpi, .avx2128, 5, 2⟩⟩⟩,
       ⟨⟨.f64, 4⟩, .vec ⟨.f64, ⟨.sinpi, .avx2, 5, 4⟩⟩⟩]
    else if c.avx then
      [⟨⟨.f32, 2⟩, .twice ⟨.f32, 4⟩ ⟨.f32, ⟨.sinpi, .sse4, 5, 4⟩⟩⟩,
       ⟨⟨.f32, 16⟩, .halves ⟨.f32, 8⟩ ⟨.f32, ⟨.sinpi, .avx, 5, 8⟩⟩⟩,
       ⟨⟨.f64, 8⟩, .halves ⟨.f64, 4⟩ ⟨.f64, ⟨.sinpi, .avx, 5, 4⟩⟩⟩,
       ⟨⟨.f32, 4⟩, .vec ⟨.f32, ⟨.sinpi, .sse4, 5, 4⟩⟩⟩,
       ⟨⟨.f32, 8⟩, .vec ⟨.f32, ⟨.sinpi, .avx, 5, 8⟩⟩⟩,
       ⟨⟨.f64, 2⟩, .vec ⟨.f64, ⟨.sinpi, .sse4, 5, 2⟩⟩⟩,
       ⟨⟨.f64, 4⟩, .vec ⟨.f64, ⟨.sinpi, .avx, 5, 4⟩⟩⟩]
    else if c.sse42 then
      [⟨⟨.f32, 2⟩, .twice ⟨.f32, 4⟩ ⟨.f32, ⟨.sinpi, .sse4, 5, 4⟩⟩⟩,
       ⟨⟨.f32, 16⟩, .quarters ⟨.f32, 4⟩ ⟨.f32, ⟨.sinpi, .sse4, 5, 4⟩⟩⟩,
       ⟨⟨.f64, 8⟩, .quarters ⟨.f64, 2⟩ ⟨.f64, ⟨.sinpi, .sse4, 5, 2⟩⟩⟩,
       ⟨⟨.f32, 4⟩, .vec ⟨.f32, ⟨.sinpi, .sse4, 5, 4⟩⟩⟩,
       ⟨⟨.f32, 8⟩, .halves ⟨.f32, 4⟩ ⟨.f32, ⟨.sinpi, .sse4, 5, 4⟩⟩⟩,
       ⟨⟨.f64, 2⟩, .vec ⟨.f64, ⟨.sinpi, .sse4, 5, 2⟩⟩⟩,
       ⟨⟨.f64, 4⟩, .halves ⟨.f64, 2⟩ ⟨.f64, ⟨.sinpi, .sse4, 5, 2⟩⟩⟩]
    else [⟨⟨.f32, 2⟩, .timesPi .f32⟩,
     ⟨⟨.f32, 4⟩, .timesPi .f32⟩,
     ⟨⟨.f32, 8⟩, .timesPi .f32⟩,
     ⟨⟨.f32, 16⟩, .timesPi .f32⟩,
     ⟨⟨.f64, 2⟩, .timesPi .f64⟩,
     ⟨⟨.f64, 4⟩, .timesPi .f64⟩,
     ⟨⟨.f64, 8⟩, .timesPi .f64⟩]
  else [⟨⟨.f32, 2⟩, .timesPi .f32⟩,
   ⟨⟨.f32, 4⟩, .timesPi .f32⟩,
   ⟨⟨.f32, 8⟩, .timesPi .f32⟩,
   ⟨⟨.f32, 16⟩, .timesPi .f32⟩,
   ⟨⟨.f64, 2⟩, .timesPi .f64⟩,
   ⟨⟨.f64, 4⟩, .timesPi .f64⟩,
   ⟨⟨.f64, 8⟩, .timesPi .f64⟩]

/-- src/codegen/math/float/sqrt.rs -/
def sqrt (c : Cfg) : List MathRow :=
  if c.s390x then
    [⟨⟨.f32, 2⟩, .scalar .f32 2 ⟨.f32, ⟨.sqrt, .llvm, 0, 1⟩⟩⟩,
     ⟨⟨.f32, 4⟩, .scalar .f32 4 ⟨.f32, ⟨.sqrt, .llvm, 0, 1⟩⟩⟩,
     ⟨⟨.f32, 8⟩, .scalar .f32 8 ⟨.f32, ⟨.sqrt, .llvm, 0, 1⟩⟩⟩,
     ⟨⟨.f32, 16⟩, .scalar .f32 16 ⟨.f32, ⟨.sqrt, .llvm, 0, 1⟩⟩⟩,
     ⟨⟨.f64, 2⟩, .scalar .f64 2 ⟨.f64, ⟨.sqrt, .llvm, 0, 1⟩⟩⟩,
     ⟨⟨.f64, 4⟩, .scalar .f64 4 ⟨.f64, ⟨.sqrt, .llvm, 0, 1⟩⟩⟩,
     ⟨⟨.f64, 8⟩, .scalar .f64 8 ⟨.f64, ⟨.sqrt, .llvm, 0, 1⟩⟩⟩]
  else if c.x64Sleef then
    if c.avx2 then
      [⟨⟨.f32, 2⟩, .twice ⟨.f32, 4⟩ ⟨.f32, ⟨.sqrt, .avx2128, 0, 4⟩⟩⟩,
       ⟨⟨.f32, 16⟩, .halves ⟨.f32, 8⟩ ⟨.f32, ⟨.sqrt, .avx2, 0, 8⟩⟩⟩,
       ⟨⟨.f64, 8⟩, .halves ⟨.f64, 4⟩ ⟨.f64, ⟨.sqrt, .avx2, 0, 4⟩⟩⟩,
       ⟨⟨.f32, 4⟩, .vec ⟨.f32, ⟨.sqrt, .avx2128, 0, 4⟩⟩⟩,
       ⟨⟨.f32, 8⟩, .vec ⟨.f32, ⟨.sqrt, .avx2, 0, 8⟩⟩⟩,
       ⟨⟨.f64, 2⟩, .vec ⟨.f64, ⟨.sqrt, .avx2128, 0, 2⟩⟩⟩,
       ⟨⟨.f64, 4⟩, .vec ⟨.f64, ⟨.sqrt, .avx2, 0, 4⟩⟩⟩]
    else if c.avx then
      [⟨⟨.f32, 2⟩, .twice ⟨.f32, 4⟩ ⟨.f32, ⟨.sqrt, .sse4, 0, 4⟩⟩⟩,
       ⟨⟨.f32, 16⟩, .halves ⟨.f32, 8⟩ ⟨.f32, ⟨.sqrt, .avx, 0, 8⟩⟩⟩,
       ⟨⟨.f64, 8⟩, .halves ⟨.f64, 4⟩ ⟨.f64, ⟨.sqrt, .avx, 0, 4⟩⟩⟩,
       ⟨⟨.f32, 4⟩, .vec ⟨.f32, ⟨.sqrt, .sse4, 0, 4⟩⟩⟩,
       ⟨⟨.f32, 8⟩, .vec ⟨.f32, ⟨.sqrt, .avx, 0, 8⟩⟩⟩,
       ⟨⟨.f64, 2⟩, .vec ⟨.f64, ⟨.sqrt, .sse4, 0, 2⟩⟩⟩,
       ⟨⟨.f64, 4⟩, .vec ⟨.f64, ⟨.sqrt, .avx, 0, 4⟩⟩⟩]
    else if c.sse42 then
      [⟨⟨.f32, 2⟩, .twice ⟨.f32, 4⟩ ⟨.f32, ⟨.sqrt, .sse4, 0, 4⟩⟩⟩,
       ⟨⟨.f32, 16⟩, .quarters ⟨.f32, 4⟩ ⟨.f32, ⟨.sqrt, .sse4, 0, 4⟩⟩⟩,
       ⟨⟨.f64, 8⟩, .quarters ⟨.f64, 2⟩ ⟨.f64, ⟨.sqrt, .sse4, 0, 2⟩⟩⟩,
       ⟨⟨.f32, 4⟩, .vec ⟨.f32, ⟨.sqrt, .sse4, 0, 4⟩⟩⟩,
       ⟨⟨.f32, 8⟩, .halves ⟨.f32, 4⟩ ⟨.f32, ⟨.sqrt, .sse4, 0, 4⟩⟩⟩,
       ⟨⟨.f64, 2⟩, .vec ⟨.f64, ⟨.sqrt, .sse4, 0, 2⟩⟩⟩,
       ⟨⟨.f64, 4⟩, .halves ⟨.f64, 2⟩ ⟨.f64, ⟨.sqrt, .sse4, 0, 2⟩⟩⟩]
    else [⟨⟨.f32, 2⟩, .scalar .f32 2 ⟨.f32, ⟨.sqrt, .llvm, 0, 1⟩⟩⟩,
     ⟨⟨.f32, 16⟩, .vec ⟨.f32, ⟨.sqrt, .llvm, 0, 16⟩⟩⟩,
     ⟨⟨.f64, 8⟩, .vec ⟨.f64, ⟨.sqrt, .llvm, 0, 8⟩⟩⟩,
     ⟨⟨.f32, 4⟩, .vec ⟨.f32, ⟨.sqrt, .llvm, 0, 4⟩⟩⟩,
     ⟨⟨.f32, 8⟩, .vec ⟨.f32, ⟨.sqrt, .llvm, 0, 8⟩⟩⟩,
     ⟨⟨.f64, 2⟩, .vec ⟨.f64, ⟨.sqrt, .llvm, 0, 2⟩⟩⟩,
     ⟨⟨.f64, 4⟩, .vec ⟨.f64, ⟨.sqrt, .llvm, 0, 4⟩⟩⟩]
  else [⟨⟨.f32, 2⟩, .scalar .f32 2 ⟨.f32, ⟨.sqrt, .llvm, 0, 1⟩⟩⟩,
   ⟨⟨.f32, 4⟩, .vec ⟨.f32, ⟨.sqrt, .llvm, 0, 4⟩⟩⟩,
   ⟨⟨.f32, 8⟩, .vec ⟨.f32, ⟨.sqrt, .llvm, 0, 8⟩⟩⟩,
   ⟨⟨.f32, 16⟩, .vec ⟨.f32, ⟨.sqrt, .llvm, 0, 16⟩⟩⟩,
   ⟨⟨.f64, 2⟩, .vec ⟨.f64, ⟨.sqrt, .llvm, 0, 2⟩⟩⟩,
   ⟨⟨.f64, 4⟩, .vec ⟨.f64, ⟨.sqrt, .llvm, 0, 4⟩⟩⟩,
   ⟨⟨.f64, 8⟩, .vec ⟨.f64, ⟨.sqrt, .llvm, 0, 8⟩⟩⟩]

/-- src/codegen/math/float/sqrte.rs -/
def sqrte (c : Cfg) : List MathRow :=
  if c.x64Sleef then
    if c.avx2 then
      [⟨⟨.f32, 2⟩, .twice ⟨.f32, 4⟩ ⟨.f32, ⟨.sqrt, .avx2128, 35, 4⟩⟩⟩,
       ⟨⟨.f32, 16⟩, .halves ⟨.f32, 8⟩ ⟨.f32, ⟨.sqrt, .avx2, 35, 8⟩⟩⟩,
       ⟨⟨.f64, 8⟩, .halves ⟨.f64, 4⟩ ⟨.f64, ⟨.sqrt, .avx2, 35, 4⟩⟩⟩,
       ⟨⟨.f32, 4⟩, .vec ⟨.f32, ⟨.sqrt, .avx2128, 35, 4⟩⟩⟩,
       ⟨⟨.f32, 8⟩, .vec ⟨.f32, ⟨.sqrt, .avx2, 35, 8⟩⟩⟩,
       ⟨⟨.f64, 2⟩, .vec ⟨.f64, ⟨.sqrt, .avx2128, 35, 2⟩⟩⟩,
       ⟨⟨.f64, 4⟩, .vec ⟨.f64, ⟨.sqrt, .avx2, 35, 4⟩⟩⟩]
    else if c.avx then
      [⟨⟨.f32, 2⟩, .twice ⟨.f32, 4⟩ ⟨.f32, ⟨.sqrt, .sse4, 35, 4⟩⟩⟩,
       ⟨⟨.f32, 16⟩, .halves ⟨.f32, 8⟩ ⟨.f32, ⟨.sqrt, .avx, 35, 8⟩⟩⟩,
       ⟨⟨.f64, 8⟩, .halves ⟨.f64, 4⟩ ⟨.f64, ⟨.sqrt, .avx, 35, 4⟩⟩⟩,
       ⟨⟨.f32, 4⟩, .vec ⟨.f32, ⟨.sqrt, .sse4, 35, 4⟩⟩⟩,
       ⟨⟨.f32, 8⟩, .vec ⟨.f32, ⟨.sqrt, .avx, 35, 8⟩⟩⟩,
       ⟨⟨.f64, 2⟩, .vec ⟨.f64, ⟨.sqrt, .sse4, 35, 2⟩⟩⟩,
       ⟨⟨.f64, 4⟩, .vec ⟨.f64, ⟨.sqrt, .avx, 35, 4⟩⟩⟩]
    else if c.sse42 then
      [⟨⟨.f32, 2⟩, .twice ⟨.f32, 4⟩ ⟨.f32, ⟨.sqrt, .sse4, 35, 4⟩⟩⟩,
       ⟨⟨.f32, 16⟩, .quarters ⟨.f32, 4⟩ ⟨.f32, ⟨.sqrt, .sse4, 35, 4⟩⟩⟩,
       ⟨⟨.f64, 8⟩, .quarters ⟨.f64, 2⟩ ⟨.f64, ⟨.sqrt, .sse4, 35, 2⟩⟩⟩,
       ⟨⟨.f32, 4⟩, .vec ⟨.f32, ⟨.sqrt, .sse4, 35, 4⟩⟩⟩,
       ⟨⟨.f32, 8⟩, .halves ⟨.f32, 4⟩ ⟨.f32, ⟨.sqrt, .sse4, 35, 4⟩⟩⟩,
       ⟨⟨.f64, 2⟩, .vec ⟨.f64, ⟨.sqrt, .sse4, 35, 2⟩⟩⟩,
       ⟨⟨.f64, 4⟩, .halves ⟨.f64, 2⟩ ⟨.f64, ⟨.sqrt, .sse4, 35, 2⟩⟩⟩]
    else [⟨⟨.f32, 2⟩, .vec ⟨.f32, ⟨.sqrt, .llvm, 0, 2⟩⟩⟩,
     ⟨⟨.f32, 16⟩, .vec ⟨.f32, ⟨.sqrt, .llvm, 0, 16⟩⟩⟩,
     ⟨⟨.f64, 8⟩, .vec ⟨.f64, ⟨.sqrt, .llvm, 0, 8⟩⟩⟩,
     ⟨⟨.f32, 4⟩, .vec ⟨.f32, ⟨.sqrt, .llvm, 0, 4⟩⟩⟩,
     ⟨⟨.f32, 8⟩, .vec ⟨.f32, ⟨.sqrt, .llvm, 0, 8⟩⟩⟩,
     ⟨⟨.f64, 2⟩, .vec ⟨.f64, ⟨.sqrt, .llvm, 0, 2⟩⟩⟩,
     ⟨⟨.f64, 4⟩, .vec ⟨.f64, ⟨.sqrt, .llvm, 0, 4⟩⟩⟩]
  else [⟨⟨.f32, 2⟩, .vec ⟨.f32, ⟨.sqrt, .llvm, 0, 2⟩⟩⟩,
   ⟨⟨.f32, 4⟩, .vec ⟨.f32, ⟨.sqrt, .llvm, 0, 4⟩⟩⟩,
   ⟨⟨.f32, 8⟩, .vec ⟨.f32, ⟨.sqrt, .llvm, 0, 8⟩⟩⟩,
   ⟨⟨.f32, 16⟩, .vec ⟨.f32, ⟨.sqrt, .llvm, 0, 16⟩⟩⟩,
   ⟨⟨.f64, 2⟩, .vec ⟨.f64, ⟨.sqrt, .llvm, 0, 2⟩⟩⟩,
   ⟨⟨.f64, 4⟩, .vec ⟨.f64, ⟨.sqrt, .llvm, 0, 4⟩⟩⟩,
   ⟨⟨.f64, 8⟩, .vec ⟨.f64, ⟨.sqrt, .llvm, 0, 8⟩⟩⟩]

/-- src/codegen/math/float/tanh.rs -/
def tanh (c : Cfg) : List MathRow :=
  if c.s390x then
    [⟨⟨.f32, 2⟩, .scalar .f32 2 ⟨.f32, ⟨.tanh, .std, 0, 1⟩⟩⟩,
     ⟨⟨.f32, 4⟩, .scalar .f32 4 ⟨.f32, ⟨.tanh, .std, 0, 1⟩⟩⟩,
     ⟨⟨.f32, 8⟩, .scalar .f32 8 ⟨.f32, ⟨.tanh, .std, 0, 1⟩⟩⟩,
     ⟨⟨.f32, 16⟩, .scalar .f32 16 ⟨.f32, ⟨.tanh, .std, 0, 1⟩⟩⟩,
     ⟨⟨.f64, 2⟩, .scalar .f64 2 ⟨.f64, ⟨.tanh, .std, 0, 1⟩⟩⟩,
     ⟨⟨.f64, 4⟩, .scalar .f64 4 ⟨.f64, ⟨.tanh, .std, 0, 1⟩⟩⟩,
     ⟨⟨.f64, 8⟩, .scalar .f64 8 ⟨.f64, ⟨.tanh, .std, 0, 1⟩⟩⟩]
  else if c.x64Sleef then
    if c.avx2 then
      [⟨⟨.f32, 2⟩, .twice ⟨.f32, 4⟩ ⟨.f32, ⟨.tanh, .avx2128, 10, 4⟩⟩⟩,
       ⟨⟨.f32, 16⟩, .halves ⟨.f32, 8⟩ ⟨.f32, ⟨.tanh, .avx2, 10, 8⟩⟩⟩,
       ⟨⟨.f64, 8⟩, .halves ⟨.f64, 4⟩ ⟨.f64, ⟨.tanh, .avx2, 10, 4⟩⟩⟩,
       ⟨⟨.f32, 4⟩, .vec ⟨.f32, ⟨.tanh, .avx2128, 10, 4⟩⟩⟩,
       ⟨⟨.f32, 8⟩, .vec ⟨.f32, ⟨.tanh, .avx2, 10, 8⟩⟩⟩,
       ⟨⟨.f64, 2⟩, .vec ⟨.f64, ⟨.tanh, .avx2128, 10, 2⟩⟩⟩,
       ⟨⟨.f64, 4⟩, .vec ⟨.f64, ⟨.tanh, .avx2, 10, 4⟩⟩⟩]
    else if c.avx then
      [⟨⟨.f32, 2⟩, .twice ⟨.f32, 4⟩ ⟨.f32, ⟨.tanh, .sse4, 10, 4⟩⟩⟩,
       ⟨⟨.f32, 16⟩, .halves ⟨.f32, 8⟩ ⟨.f32, ⟨.tanh, .avx, 10, 8⟩⟩⟩,
       ⟨⟨.f64, 8⟩, .halves ⟨.f64, 4⟩ ⟨.f64, ⟨.tanh, .avx, 10, 4⟩⟩⟩,
       ⟨⟨.f32, 4⟩, .vec ⟨.f32, ⟨.tanh, .sse4, 10, 4⟩⟩⟩,
       ⟨⟨.f32, 8⟩, .vec ⟨.f32, ⟨.tanh, .avx, 10, 8⟩⟩⟩,
       ⟨⟨.f64, 2⟩, .vec ⟨.f64, ⟨.tanh, .sse4, 10, 2⟩⟩⟩,
       ⟨⟨.f64, 4⟩, .vec ⟨.f64, ⟨.tanh, .avx, 10, 4⟩⟩⟩]
    else if c.sse42 then
      [⟨⟨.f32, 2⟩, .twice ⟨.f32, 4⟩ ⟨.f32, ⟨.tanh, .sse4, 10, 4⟩⟩⟩,
       ⟨⟨.f32, 16⟩, .quarters ⟨.f32, 4⟩ ⟨.f32, ⟨.tanh, .sse4, 10, 4⟩⟩⟩,
       ⟨⟨.f64, 8⟩, .quarters ⟨.f64, 2⟩ ⟨.f64, ⟨.tanh, .sse4, 10, 2⟩⟩⟩,
       ⟨⟨.f32, 4⟩, .vec ⟨.f32, ⟨.tanh, .sse4, 10, 4⟩⟩⟩,
       ⟨⟨.f32, 8⟩, .halves ⟨.f32, 4⟩ ⟨.f32, ⟨.tanh, .sse4, 10, 4⟩⟩⟩,
       ⟨⟨.f64, 2⟩, .vec ⟨.f64, ⟨.tanh, .sse4, 10, 2⟩⟩⟩,
       ⟨⟨.f64, 4⟩, .halves ⟨.f64, 2⟩ ⟨.f64, ⟨.tanh, .sse4, 10, 2⟩⟩⟩]
    else [⟨⟨.f32, 2⟩, .scalar .f32 2 ⟨.f32, ⟨.tanh, .std, 0, 1⟩⟩⟩,
     ⟨⟨.f32, 16⟩, .vec ⟨.f32, ⟨.tanh, .std, 0, 16⟩⟩⟩,
     ⟨⟨.f64, 8⟩, .vec ⟨.f64, ⟨.tanh, .std, 0, 8⟩⟩⟩,
     ⟨⟨.f32, 4⟩, .vec ⟨.f32, ⟨.tanh, .std, 0, 4⟩⟩⟩,
     ⟨⟨.f32, 8⟩, .vec ⟨.f32, ⟨.tanh, .std, 0, 8⟩⟩⟩,
     ⟨⟨.f64, 2⟩, .vec ⟨.f64, ⟨.tanh, .std, 0, 2⟩⟩⟩,
     ⟨⟨.f64, 4⟩, .vec ⟨.f64, ⟨.tanh, .std, 0, 4⟩⟩⟩]
  else [⟨⟨.f32, 2⟩, .scalar .f32 2 ⟨.f32, ⟨.tanh, .std, 0, 1⟩⟩⟩,
   ⟨⟨.f32, 4⟩, .vec ⟨.f32, ⟨.tanh, .std, 0, 4⟩⟩⟩,
   ⟨⟨.f32, 8⟩, .vec ⟨.f32, ⟨.tanh, .std, 0, 8⟩⟩⟩,
   ⟨⟨.f32, 16⟩, .vec ⟨.f32, ⟨.tanh, .std, 0, 16⟩⟩⟩,
   ⟨⟨.f64, 2⟩, .vec ⟨.f64, ⟨.tanh, .std, 0, 2⟩⟩⟩,
   ⟨⟨.f64, 4⟩, .vec ⟨.f64, ⟨.tanh, .std, 0, 4⟩⟩⟩,
   ⟨⟨.f64, 8⟩, .vec ⟨.f64, ⟨.tanh, .std, 0, 8⟩⟩⟩]

/-- src/codegen/math/float/sin_cos_pi.rs -/
def sinCosPi (c : Cfg) : List MathRow :=
  if c.x64Sleef then
    if c.avx2 then
      [⟨⟨.f32, 2⟩, .twice ⟨.f32, 4⟩ ⟨.f32, ⟨.sincospi, .avx2128, 5, 4⟩⟩⟩,
       ⟨⟨.f32, 16⟩, .halves ⟨.f32, 8⟩ ⟨.f32, ⟨.sincospi, .avx2, 5, 8⟩⟩⟩,
       ⟨⟨.f64, 8⟩, .halves ⟨.f64, 4⟩ ⟨.f64, ⟨.sincospi, .avx2, 5, 4⟩⟩⟩,
       ⟨⟨.f32, 4⟩, .vec ⟨.f32, ⟨.sincospi, .avx2128, 5, 4⟩⟩⟩,
       ⟨⟨.f32, 8⟩, .vec ⟨.f32, ⟨.sincospi, .avx2, 5, 8⟩⟩⟩,
       ⟨⟨.f64, 2⟩, .vec ⟨.f64, ⟨.sincospi, .avx2128, 5, 2⟩⟩⟩,
       ⟨⟨.f64, 4⟩, .vec ⟨.f64, ⟨.sincospi, .avx2, 5, 4⟩⟩⟩]
    else if c.avx then
      [⟨⟨.f32, 2⟩, .twice ⟨.f32, 4⟩ ⟨.f32, ⟨.sincospi, .sse4, 5, 4⟩⟩⟩,
       ⟨⟨.f32, 16⟩, .halves ⟨.f32, 8⟩ ⟨.f32, ⟨.sincospi, .avx, 5, 8⟩⟩⟩,
       ⟨⟨.f64, 8⟩, .halves ⟨.f64, 4⟩ ⟨.f64, ⟨.sincospi, .avx, 5, 4⟩⟩⟩,
       ⟨⟨.f32, 4⟩, .vec ⟨.f32, ⟨.sincospi, .sse4, 5, 4⟩⟩⟩,
       ⟨⟨.f32, 8⟩, .vec ⟨.f32, ⟨.sincospi, .avx, 5, 8⟩⟩⟩,
       ⟨⟨.f64, 2⟩, .vec ⟨.f64, ⟨.sincospi, .sse4, 5, 2⟩⟩⟩,
       ⟨⟨.f64, 4⟩, .vec ⟨.f64, ⟨.sincospi, .avx, 5, 4⟩⟩⟩]
    else if c.sse42 then
      [⟨⟨.f32, 2⟩, .twice ⟨.f32, 4⟩ ⟨.f32, ⟨.sincospi, .sse4, 5, 4⟩⟩⟩,
       ⟨⟨.f32, 16⟩, .quarters ⟨.f32, 4⟩ ⟨.f32, ⟨.sincospi, .sse4, 5, 4⟩⟩⟩,
       ⟨⟨.f64, 8⟩, .quarters ⟨.f64, 2⟩ ⟨.f64, ⟨.sincospi, .sse4, 5, 2⟩⟩⟩,
       ⟨⟨.f32, 4⟩, .vec ⟨.f32, ⟨.sincospi, .sse4, 5, 4⟩⟩⟩,
       ⟨⟨.f32, 8⟩, .halves ⟨.f32, 4⟩ ⟨.f32, ⟨.sincospi, .sse4, 5, 4⟩⟩⟩,
       ⟨⟨.f64, 2⟩, .vec ⟨.f64, ⟨.sincospi, .sse4, 5, 2⟩⟩⟩,
       ⟨⟨.f64, 4⟩, .halves ⟨.f64, 2⟩ ⟨.f64, ⟨.sincospi, .sse4, 5, 2⟩⟩⟩]
    else [⟨⟨.f32, 2⟩, .timesPi .f32⟩,
     ⟨⟨.f32, 4⟩, .timesPi .f32⟩,
     ⟨⟨.f32, 8⟩, .timesPi .f32⟩,
     ⟨⟨.f32, 16⟩, .timesPi .f32⟩,
     ⟨⟨.f64, 2⟩, .timesPi .f64⟩,
     ⟨⟨.f64, 4⟩, .timesPi .f64⟩,
     ⟨⟨.f64, 8⟩, .timesPi .f64⟩]
  else [⟨⟨.f32, 2⟩, .timesPi .f32⟩,
   ⟨⟨.f32, 4⟩, .timesPi .f32⟩,
   ⟨⟨.f32, 8⟩, .timesPi .f32⟩,
   ⟨⟨.f32, 16⟩, .timesPi .f32⟩,
   ⟨⟨.f64, 2⟩, .timesPi .f64⟩,
   ⟨⟨.f64, 4⟩, .timesPi .f64⟩,
   ⟨⟨.f64, 8⟩, .timesPi .f64⟩]

end PackedSimd.MathTables
