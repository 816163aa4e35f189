import Verif.Model.Examples.Triangle
/-
examples/options_pricing/src/{scalar,simd,simd_par,simd_kernels,sum,lib}.rs, over an arbitrary lane arithmetic and any number of lanes
(`f32s = f32x8`, lib.rs:14).  The math methods of vectors apply one function to every lane (C46, C63); comparison masks are vectors of `Bool`.
The foreign implementation ispc_.rs is not modelled.
-/
namespace PackedSimd.Ex.Options

/-- What the programs use besides `+ - * /` and unary minus. -/
structure Fns (α : Type) where
  /-- a literal of the source, rounded to the lane type -/
  lit : Rat → α
  abs : α → α
  exp : α → α
  ln : α → α
  sqrt : α → α
  powf : α → α → α
  max : α → α → α
  gt : α → α → Bool

variable {α β : Type} {n : Nat} [Add α] [Sub α] [Mul α] [Div α] (F : Fns α)

/-! ### scalar.rs, kernels -/

section
variable [Neg α]

/-- `cnd` (scalar.rs:5-25). -/
def cndScalar (x : α) : α :=
  let l := F.abs x
  let k := F.lit 1 / (F.lit 1 + F.lit 0.2316419 * l)
  let k2 := k * k
  let k3 := k2 * k
  let k4 := k2 * k2
  let k5 := k3 * k2
  let w := F.lit 0.31938153 * k - F.lit 0.356563782 * k2 + F.lit 1.781477937 * k3 + -F.lit 1.821255978 * k4 + F.lit 1.330274429 * k5
  let w := w * F.lit 0.39894228040 * F.exp (-l * l * F.lit 0.5)
  if F.gt x (F.lit 0) then F.lit 1 - w else w

/-- The body of the loop of `black_scholes` (scalar.rs:37-39). -/
def blackScholesScalar (s x t r v : α) : R α :=
  let d1 := (F.ln (s / x) + (r + v * v * F.lit 0.5) * t) / (v * F.sqrt t)
  let d2 := d1 - v * F.sqrt t
  .ok (s * cndScalar F d1 - x * F.exp (-r * t) * cndScalar F d2)

end

/-- One assignment of the inner loop of `binomial_put` (scalar.rs:72). -/
def foldStepScalar {N : Nat} (pu disc : α) (vs : Vector α N) (k : Nat) : R (Vector α N) := do
  let a ← aget vs k
  let b ← aget vs (k + 1)
  aset vs k (((F.lit 1 - pu) * a + pu * b) / disc)

/-- The body of the loop of `binomial_put` (scalar.rs:57-76); `N = BINOMIAL_NUM` (lib.rs:17). -/
def binomialScalar (N : Nat) (s x t r v : α) : R α := do
  let dt := t / F.lit N
  let u := F.exp (v * F.sqrt dt)
  let d := F.lit 1 / u
  let disc := F.exp (r * dt)
  let pu := (disc - d) / (u - d)
  -- for (j, v) in vs.iter_mut().enumerate()
  let vs : Vector α N := Vector.ofFn fun j =>
    let e : Int := 2 * (j.val : Int) - N
    let upow := F.powf u (F.lit e)
    F.max (F.lit 0) (x - s * upow)
  let vs ← (List.range N).reverse.foldlM (fun vs j => forRange 0 j (foldStepScalar F pu disc) vs) vs
  aget vs 0

/-! ### simd_kernels.rs -/

/-- `-v` (src/api/ops/vector_neg.rs:5-11). -/
def vneg (v : Vec α n) : Vec α n := splat n (F.lit (-1)) * v

section
variable [Neg α]

/-- `cnd` (simd_kernels.rs:5-21); `scalar * vector` broadcasts the scalar. -/
def cndSimd (x : Vec α n) : Vec α n :=
  let l := x.map F.abs
  let k := splat n (F.lit 1) / (splat n (F.lit 1) + splat n (F.lit 0.2316419) * l)
  let k2 := k * k
  let k3 := k2 * k
  let k4 := k2 * k2
  let k5 := k3 * k2
  let w := splat n (F.lit 0.31938153) * k - splat n (F.lit 0.356563782) * k2 + splat n (F.lit 1.781477937) * k3
    + splat n (-F.lit 1.821255978) * k4 + splat n (F.lit 1.330274429) * k5
  let w := w * splat n (F.lit 0.39894228040) * (vneg F l * l * splat n (F.lit 0.5)).map F.exp
  let m : Vec Bool n := Vector.zipWith F.gt x (splat n (F.lit 0))
  let o := splat n (F.lit 1) - w
  Vector.ofFn fun i => if m[i] then o[i] else w[i]

/-- `black_scholes` (simd_kernels.rs:24-28). -/
def blackScholesSimd (s x t r v : Vec α n) : R (Vec α n) :=
  let d1 := ((s / x).map F.ln + (r + v * v * splat n (F.lit 0.5)) * t) / (v * t.map F.sqrt)
  let d2 := d1 - v * t.map F.sqrt
  .ok (s * cndSimd F d1 - x * (vneg F r * t).map F.exp * cndSimd F d2)

end

/-- One assignment of the inner loop of `binomial_put` (simd_kernels.rs:51). -/
def foldStepSimd {N : Nat} (pu oMpu invDisc : Vec α n) (vs : Vector (Vec α n) N) (k : Nat) : R (Vector (Vec α n) N) := do
  let a ← aget vs k
  let b ← aget vs (k + 1)
  aset vs k ((oMpu * a + pu * b) * invDisc)

/-- `binomial_put` (simd_kernels.rs:31-56). -/
def binomialSimd (N : Nat) (s x t r v : Vec α n) : R (Vec α n) := do
  let dt := t / splat n (F.lit N)
  let u := (v * dt.map F.sqrt).map F.exp
  let d := splat n (F.lit 1) / u
  let disc := (r * dt).map F.exp
  let invDisc := splat n (F.lit 1) / disc
  let pu := (disc - d) / (u - d)
  let oMpu := splat n (F.lit 1) - pu
  let vs : Vector (Vec α n) N := Vector.ofFn fun j =>
    let e : Int := 2 * (j.val : Int) - N
    let upow := Vector.zipWith F.powf u (splat n (F.lit e))
    Vector.zipWith F.max (splat n (F.lit 0)) (x - s * upow)
  let vs ← (List.range N).reverse.foldlM (fun vs j => forRange 0 j (foldStepSimd pu oMpu invDisc) vs) vs
  aget vs 0

/-! ### Unchecked vector loads and stores -/

/-- `f32s::from_slice_unaligned_unchecked(&xs[i..])`: the indexing panics past the end; with fewer than `n` elements left the load is undefined
behaviour, or a panic in a build with debug assertions (src/api/slice/from_slice.rs:57-65). -/
def loadAt (dbg : Bool) (n : Nat) (xs : List α) (i : Nat) : R (Vec α n) :=
  if i ≤ xs.length then
    if h : i + n ≤ xs.length then .ok (Vector.ofFn fun l => xs[i + l.val])
    else .error (if dbg then .panic else .ub)
  else .error .panic

/-- `v.write_to_slice_unaligned_unchecked(&mut xs[i..])` (src/api/slice/write_to_slice.rs:61-66). -/
def storeAt (dbg : Bool) (v : Vec α n) (xs : List α) (i : Nat) : R (List α) :=
  if i ≤ xs.length then
    if i + n ≤ xs.length then .ok (xs.take i ++ v.toList ++ xs.drop (i + n))
    else .error (if dbg then .panic else .ub)
  else .error .panic

/-! ### sum.rs -/

/-- `slice_scalar` (sum.rs:20-26); `widen` is `f64::from`. -/
def sumScalar (B : Arith β) (widen : α → β) (x : List α) : β := x.foldl (fun s x => B.add s (widen x)) B.zero

/-- `slice` (sum.rs:5-18). -/
def sumSlice (t : Target) (dbg : Bool) (B : Arith β) (widen : α → β) (n : Nat) (x : List α) : R β :=
  if x.length % n = 0 then do
    let sum ← (List.range' 0 (x.length / n) n).foldlM (fun sum i => do
      let v ← loadAt dbg n x i
      return vadd B sum (v.map widen)) (splat n B.zero)
    vsum t B sum
  else .error .panic

/-! ### Drivers -/

/-- The five input slices. -/
structure Input (α : Type) where
  sa : List α
  xa : List α
  ta : List α
  ra : List α
  va : List α

/-- Assign to an element of a slice: panics out of bounds. -/
def lset (l : List α) (k : Nat) (x : α) : R (List α) := if k < l.length then .ok (l.set k x) else .error .panic

/-- `scalar::black_scholes` (scalar.rs:27-42), `scalar::binomial_put` (scalar.rs:44-79) with the loop body as `kernel`: the new contents of
`result` and the returned sum. -/
def runScalar (B : Arith β) (widen : α → β) (kernel : α → α → α → α → α → R α) (I : Input α) (result : List α) (count : Nat) : R (List α × β) := do
  let result ← forRange 0 count (fun result i => do
    let s ← lget I.sa i
    let x ← lget I.xa i
    let t ← lget I.ta i
    let r ← lget I.ra i
    let v ← lget I.va i
    lset result i (← kernel s x t r v)) result
  return (result, sumScalar B widen result)

/-- The body of the loops of `serial` (simd.rs:15-21) and `parallel` (simd_par.rs:18-24): load the five vectors at index `i` and store the
kernel's result at index `o`. -/
def block (dbg : Bool) (kernel : Vec α n → Vec α n → Vec α n → Vec α n → Vec α n → R (Vec α n)) (I : Input α) (i o : Nat) (result : List α) :
    R (List α) := do
  let s ← loadAt dbg n I.sa i
  let x ← loadAt dbg n I.xa i
  let t ← loadAt dbg n I.ta i
  let r ← loadAt dbg n I.ra i
  let v ← loadAt dbg n I.va i
  storeAt dbg (← kernel s x t r v) result o

/-- `simd::serial` (simd.rs:5-25). -/
def runSerial (t : Target) (dbg : Bool) (B : Arith β) (widen : α → β) (kernel : Vec α n → Vec α n → Vec α n → Vec α n → Vec α n → R (Vec α n))
    (I : Input α) (result : List α) (count : Nat) : R (List α × β) :=
  if count % n = 0 then do
    let result ← (List.range' 0 (count / n) n).foldlM (fun result i => block dbg kernel I i i result) result
    return (result, ← sumSlice t dbg B widen n result)
  else .error .panic

/-- `simd_par::parallel` (simd_par.rs:5-29): one task for every chunk of `result`; `order` is the order in which the tasks run.  (Tasks touch
disjoint chunks of `result` and only read the inputs, so running two of them at the same time is the same as running them one after the other.)
Task `i` reads its inputs at index `i` — not at `i * lanes` — as in the source; `debug_assert!(result.len() == 8)` panics in debug builds and
storing to a shorter chunk is undefined behaviour otherwise: both are covered by `storeAt`, since only the last chunk can be shorter. -/
def runParallel (t : Target) (dbg : Bool) (B : Arith β) (widen : α → β) (kernel : Vec α n → Vec α n → Vec α n → Vec α n → Vec α n → R (Vec α n))
    (order : List Nat) (I : Input α) (result : List α) (count : Nat) : R (List α × β) :=
  if count % n = 0 then do
    let result ← order.foldlM (fun result i => block dbg kernel I i (i * n) result) result
    return (result, ← sumSlice t dbg B widen n result)
  else .error .panic

/-! ### lib.rs -/

/-- `State::new(count)` (lib.rs:39-49): the input slices and `result`. -/
def stateNew (F : Fns α) (count : Nat) : Input α × List α :=
  (⟨List.replicate count (F.lit 100), List.replicate count (F.lit 98), List.replicate count (F.lit 2), List.replicate count (F.lit 0.02),
    List.replicate count (F.lit 5)⟩, List.replicate count (F.lit 0))

end PackedSimd.Ex.Options
