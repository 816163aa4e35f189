import Verif.Model.MathTables
import Verif.Model.Bytes
import Verif.Model.FloatVec
/-
Floating-point math methods: src/api/math/float/*.rs, dispatched by src/codegen/math/float/*.rs.

The library functions behind the methods (LLVM intrinsics, SLEEF, std) are not modelled: each is an arbitrary function of one lane (`World`), so what is
proved holds for whatever they compute.  That a library *vector* function acts lane by lane is an assumption about the library.
-/
namespace PackedSimd

/-- A lane of a float vector. -/
abbrev FLane (e : FTy) := BitVec (8 * e.bytes)
/-- A float vector. -/
abbrev FV (ty : FVTy) := Vec (FLane ty.elem) ty.lanes

/-- The libraries: what each function computes on one lane of each argument, and the two results of the `sincospi` functions. -/
structure World where
  fn : (e : FTy) → Lib → List (FLane e) → FLane e
  sc : (e : FTy) → Lib → FLane e → FLane e × FLane e

namespace Math

/-- What `cfg_if!` sees of the target. -/
def cfgOf (t : Target) : Cfg :=
  { s390x := t.arch = .s390x, x64Sleef := t.arch = .x86_64 && t.sleef, avx2 := t.avx2, avx := t.avx, sse42 := t.sse42, sse2 := t.sse2 }

/-- Whether code for the instruction set may run on the target. -/
def Isa.enabled (t : Target) : Isa → Bool
  | .llvm | .std => true
  | .sse2 => t.sse2
  | .sse4 => t.sse42
  | .avx => t.avx
  | .avx2 | .avx2128 => t.avx2

/-- Bytes of a vector in memory. -/
def bytesOf (e : Endian) {k n : Nat} (v : Vec (BitVec (8 * k)) n) : List Byte := (toBytes e v).toList

/-- `transmute` to a vector with `n` lanes of `k` bytes; between different sizes it is rejected (at compile time). -/
def decode (e : Endian) (k n : Nat) (bs : List Byte) : R (Vec (BitVec (8 * k)) n) :=
  if h : bs.length = n * k then .ok (fromBytes e k n ⟨bs.toArray, by simpa using h⟩) else .error .ub

/-- Size in bytes. -/
def size (ty : FVTy) : Nat := ty.lanes * ty.elem.bytes

variable (t : Target) (W : World)

/-- The library function computing one lane.  The `tanh_v…` functions (tanh.rs:15-26) are loops calling std's scalar `tanh` on each element. -/
def laneFn (f : Fn) : List (FLane f.elem) → FLane f.elem :=
  W.fn f.elem (if f.lib.isa = .std then { f.lib with lanes := 1 } else f.lib)

/-- Call a library function on arguments given as bytes (the `transmute`s around the call reinterpret them as the function's own vector type). -/
def call (f : Fn) (args : List (List Byte)) : R (List Byte) := do
  if Isa.enabled t f.lib.isa then
    let as ← args.mapM (decode t.endian f.elem.bytes f.lib.lanes)
    .ok (bytesOf t.endian (Vector.ofFn fun i : Fin f.lib.lanes => laneFn W f (as.map (·[i]))))
  else .error .ub

/-- Element `j` of an array of `sz`-byte elements. -/
def part (sz j : Nat) (bs : List Byte) : List Byte := (bs.drop (j * sz)).take sz

/-- The union `U { vec, parts: [sub; m] }`: the sizes agree. -/
def splits (ty sub : FVTy) (m : Nat) : Bool := size ty = m * size sub

/-- The bytes of `[v, uninitialized()]`; `junk` are the uninitialised bytes. -/
def padded (e : Endian) {ty : FVTy} (junk : Nat → Byte) (v : FV ty) : List Byte :=
  bytesOf e v ++ (List.range (size ty)).map junk

/-- The impls of src/codegen/math/float/macros.rs: `impl_unary_!` (4-121), `impl_binary_!` (317-445) and `impl_tertiary_!` (151-290) differ only in the
number of arguments.  `junk a` are the uninitialised bytes padding argument `a`. -/
def run (junk : Nat → Nat → Byte) (ty : FVTy) (xs : List (FV ty)) : Strat → R (FV ty)
  | .vec f => do decode t.endian _ _ (← call t W f (xs.map (bytesOf t.endian)))
  | .scalar el count f => do
    let ss ← xs.mapM fun x => decode t.endian el.bytes count (bytesOf t.endian x)
    let rs ← (List.finRange count).mapM fun i => call t W f (ss.map fun s => (laneBytes t.endian s[i]).toList)
    decode t.endian _ _ rs.flatten
  | .halves sub f => do
    if splits ty sub 2 then
      let r0 ← call t W f (xs.map fun x => part (size sub) 0 (bytesOf t.endian x))
      let r1 ← call t W f (xs.map fun x => part (size sub) 1 (bytesOf t.endian x))
      decode t.endian _ _ (r0 ++ r1)
    else .error .ub
  | .quarters sub f => do
    if splits ty sub 4 then
      let r0 ← call t W f (xs.map fun x => part (size sub) 0 (bytesOf t.endian x))
      let r1 ← call t W f (xs.map fun x => part (size sub) 1 (bytesOf t.endian x))
      let r2 ← call t W f (xs.map fun x => part (size sub) 2 (bytesOf t.endian x))
      let r3 ← call t W f (xs.map fun x => part (size sub) 3 (bytesOf t.endian x))
      decode t.endian _ _ (r0 ++ r1 ++ r2 ++ r3)
    else .error .ub
  | .twice big f => do
    if splits big ty 2 then
      let r ← call t W f (xs.mapIdx fun a x => padded t.endian (junk a) x)
      decode t.endian _ _ (part (size ty) 0 r)
    else .error .ub
  | .mulThenAdd =>
    match xs with
    | [x, y, z] => .ok (FVec.add ty.elem.man (FVec.mul ty.elem.man x y) z)
    | _ => .error .ub
  | .timesPi _ => .error .ub

/-- The methods (src/api/math/float/<method>.rs, each a call of the codegen trait method of the same name). -/
inductive Method where
  | abs | cos | cosPi | exp | ln | mulAdd | mulAdde | powf | sin | sinPi | sqrt | sqrte | tanh
deriving DecidableEq

/-- The impls of a method. -/
def Method.table : Method → Cfg → List MathRow
  | .abs => MathTables.abs | .cos => MathTables.cos | .cosPi => MathTables.cosPi | .exp => MathTables.exp | .ln => MathTables.ln
  | .mulAdd => MathTables.mulAdd | .mulAdde => MathTables.mulAdde | .powf => MathTables.powf | .sin => MathTables.sin
  | .sinPi => MathTables.sinPi | .sqrt => MathTables.sqrt | .sqrte => MathTables.sqrte | .tanh => MathTables.tanh

/-- The impl chosen for a type; exactly one must exist (none: unresolved method; two: conflicting impls). -/
def resolve (rows : List MathRow) (ty : FVTy) : R Strat :=
  match rows.filter (·.ty = ty) with
  | [r] => .ok r.strat
  | _ => .error .ub

/-- `core::f32::consts::PI`, `core::f64::consts::PI`. -/
def pi : (e : FTy) → FLane e
  | .f32 => (0x40490FDB : BitVec 32)
  | .f64 => (0x400921FB54442D18 : BitVec 64)

/-- `self * Self::splat(PI)` of `impl_def!` (sin_pi.rs, cos_pi.rs:14-23, sin_cos_pi.rs:19); `$PI` has the lane type. -/
def timesPi (el : FTy) (ty : FVTy) (x : FV ty) : R (FV ty) :=
  if el = ty.elem then .ok (FVec.mul ty.elem.man x (splat ty.lanes (pi ty.elem))) else .error .ub

/-- A math method applied to `self` and the further arguments. -/
def eval (junk : Nat → Nat → Byte) (m : Method) (ty : FVTy) (xs : List (FV ty)) : R (FV ty) := do
  match m, ← resolve (m.table (cfgOf t)) ty, xs with
  | .sinPi, .timesPi el, [x] => run t W junk ty [← timesPi el ty x] (← resolve (Method.sin.table (cfgOf t)) ty)
  | .cosPi, .timesPi el, [x] => run t W junk ty [← timesPi el ty x] (← resolve (Method.cos.table (cfgOf t)) ty)
  | _, s, xs => run t W junk ty xs s

/-! ### `sin_cos_pi` (src/codegen/math/float/sin_cos_pi.rs) -/

/-- Call a `sincospi` function: it returns a pair of vectors. -/
def call2 (f : Fn) (x : List Byte) : R (List Byte × List Byte) := do
  if Isa.enabled t f.lib.isa then
    let a ← decode t.endian f.elem.bytes f.lib.lanes x
    .ok (bytesOf t.endian (Vector.ofFn fun i : Fin f.lib.lanes => (W.sc f.elem f.lib a[i]).1),
         bytesOf t.endian (Vector.ofFn fun i : Fin f.lib.lanes => (W.sc f.elem f.lib a[i]).2))
  else .error .ub

/-- `sin_cos_pi`: `impl_def!` (13-24), direct (36-47), twice (49-73), halves (74-99), quarters (100-133).
The `twice` arm returns elements 0 and 1 of the *first* result (`r.0`), as in the source. -/
def sinCosPi (junk : Nat → Nat → Byte) (ty : FVTy) (x : FV ty) : R (FV ty × FV ty) := do
  let dec := decode t.endian ty.elem.bytes ty.lanes
  let bs := bytesOf t.endian x
  match ← resolve (MathTables.sinCosPi (cfgOf t)) ty with
  | .timesPi el =>
    let v ← timesPi el ty x
    .ok (← eval t W junk .sin ty [v], ← eval t W junk .cos ty [v])
  | .vec f =>
    let r ← call2 t W f bs
    .ok (← dec r.1, ← dec r.2)
  | .twice big f =>
    if splits big ty 2 then
      let r ← call2 t W f (padded t.endian (junk 0) x)
      .ok (← dec (part (size ty) 0 r.1), ← dec (part (size ty) 1 r.1))
    else .error .ub
  | .halves sub f =>
    if splits ty sub 2 then
      let r0 ← call2 t W f (part (size sub) 0 bs)
      let r1 ← call2 t W f (part (size sub) 1 bs)
      .ok (← dec (r0.1 ++ r1.1), ← dec (r0.2 ++ r1.2))
    else .error .ub
  | .quarters sub f =>
    if splits ty sub 4 then
      let r0 ← call2 t W f (part (size sub) 0 bs)
      let r1 ← call2 t W f (part (size sub) 1 bs)
      let r2 ← call2 t W f (part (size sub) 2 bs)
      let r3 ← call2 t W f (part (size sub) 3 bs)
      .ok (← dec (r0.1 ++ r1.1 ++ r2.1 ++ r3.1), ← dec (r0.2 ++ r1.2 ++ r2.2 ++ r3.2))
    else .error .ub
  | _ => .error .ub

/-- `rsqrte` (src/api/math/float/rsqrte.rs): `splat(1.) / simd_fsqrt(self.0)`. -/
def rsqrte (ty : FVTy) (x : FV ty) : FV ty :=
  FVec.div ty.elem.man (splat ty.lanes (Flt.fromInt _ ty.elem.man 1)) (Vector.ofFn fun i => W.fn ty.elem ⟨.sqrt, .llvm, 0, ty.lanes⟩ [x[i]])

end Math
end PackedSimd
