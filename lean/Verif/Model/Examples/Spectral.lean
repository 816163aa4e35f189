import Verif.Model.Examples.Triangle
/-
examples/spectral_norm/src/{lib,scalar,simd}.rs, over an arbitrary lane arithmetic: `ofNat` is `as f64` of an index and `sqrt` is `f64::sqrt`.
-/
namespace PackedSimd.Ex

/-- The result of an addition or multiplication in `usize` whose exact value is `v`: on overflow it panics if the program was compiled with
overflow checks (`checks`, the default of debug builds), and wraps otherwise. -/
def usize (t : Target) (checks : Bool) (v : Nat) : R Nat :=
  if v < 2 ^ (8 * t.ptrBytes) then .ok v else if checks then .error .panic else .ok (v % 2 ^ (8 * t.ptrBytes))

namespace Spectral

variable {α : Type} [Zero α] [One α] [Add α] [Mul α] [Div α]
variable (t : Target) (checks : Bool)

/-- `A` (lib.rs:12-14): `((i + j) * (i + j + 1) / 2 + i + 1) as f64`. -/
def A (ofNat : Nat → α) (i j : Nat) : R α := do
  let s ← usize t checks (i + j)
  let s1 ← usize t checks (i + j)
  let s1 ← usize t checks (s1 + 1)
  let p ← usize t checks (s * s1)
  let q ← usize t checks (p / 2 + i)
  let r ← usize t checks (q + 1)
  return ofNat r

/-- `dot` (scalar.rs:64-66, simd.rs:61-64). -/
def dot (x y : List α) : α := ((x.zip y).map fun p => p.1 * p.2).foldl (· + ·) 0

/-- `spectral_norm` (scalar.rs:23-33; simd.rs:47-59 is the same text), given `mult_AtAv`, which returns the new contents of `out` and `tmp`. -/
def spectralNorm (multAtAv : (v out tmp : List α) → R (List α × List α)) (sqrt : α → α) (n : Nat) : R α :=
  if n % 2 = 0 then do
    let u := List.replicate n (1 : α)
    let s ← forRange 0 10 (fun (s : List α × List α × List α) _ => do
      let (u, v, tmp) := s
      let (v, tmp) ← multAtAv u v tmp
      let (u, tmp) ← multAtAv v u tmp
      return (u, v, tmp)) (u, u, u)
    let (u, v, _) := s
    return sqrt (dot u v / dot v v)
  else .error .panic

/-- `mult_AtAv` (scalar.rs:35-38, simd.rs:42-45), given `mult_Av` and `mult_Atv`. -/
def multAtAv (multAv multAtv : (v out : List α) → R (List α)) (v out tmp : List α) : R (List α × List α) := do
  let tmp ← multAv v tmp
  let out ← multAtv tmp out
  return (out, tmp)

/-! ### scalar.rs -/

/-- Body of the inner loop of `mult` (scalar.rs:54-58); `j` has been doubled. -/
def rowStepScalar (a : Nat → Nat → R α) (i : Nat) (sum : α × α) (item : List α × Nat) : R (α × α) := do
  let j ← usize t checks (2 * item.2)
  let top := (← lget item.1 0, ← lget item.1 1)
  let j1 ← usize t checks (j + 1)
  let bot := (← a i j, ← a i j1)
  return (sum.1 + top.1 / bot.1, sum.2 + top.2 / bot.2)

/-- `mult` (scalar.rs:48-62): every element of `out` is overwritten. -/
def multScalar (a : Nat → Nat → R α) (start : Nat) (v out : List α) : R (List α) :=
  (List.range out.length).mapM fun i => do
    let i ← usize t checks (i + start)
    let sum ← (Tri.chunks 2 v).zipIdx.foldlM (rowStepScalar t checks a i) (0, 0)
    return sum.1 + sum.2

/-- `mult_Av` (scalar.rs:40-42) and `mult_Atv` (scalar.rs:44-46). -/
def multAvScalar (ofNat : Nat → α) (v out : List α) : R (List α) := multScalar t checks (A t checks ofNat) 0 v out
@[inherit_doc multAvScalar] def multAtvScalar (ofNat : Nat → α) (v out : List α) : R (List α) :=
  multScalar t checks (fun i j => A t checks ofNat j i) 0 v out

/-- `scalar::spectral_norm` (scalar.rs:23-33). -/
def scalar (ofNat : Nat → α) (sqrt : α → α) (n : Nat) : R α :=
  spectralNorm (multAtAv (multAvScalar t checks ofNat) (multAtvScalar t checks ofNat)) sqrt n

/-! ### simd.rs -/

/-- Body of the inner loop (simd.rs:15-18, 33-36); `a j` is the entry of the row (`A(i, j)`, or `A(j, i)`) at `j`. -/
def rowStepSimd (a : Nat → R α) (v : List α) (sum : Vec α 2) (j : Nat) : R (Vec α 2) := do
  let b ← fromSlice 2 (v.drop j)
  let a0 ← a j
  let j1 ← usize t checks (j + 1)
  let a1 ← a j1
  return sum + b / (#v[a0, a1] : Vec α 2)

/-- `mult_Av` (simd.rs:6-22) and `mult_Atv` (simd.rs:24-40), which differ only in the order of the arguments of `A`: `a i j` is `A(i, j)` or
`A(j, i)`.  `j` runs over `0, 2, ..` below `v.len()`. -/
def multSimd (a : Nat → Nat → R α) (v out : List α) : R (List α) :=
  if v.length = out.length then
    if v.length % 2 = 0 then
      (List.range out.length).mapM fun i => do
        let sum ← (List.range' 0 ((v.length + 1) / 2) 2).foldlM (rowStepSimd t checks (a i) v) (splat 2 0)
        vsum t ⟨0, (· + ·), (· * ·)⟩ sum
    else .error .panic
  else .error .panic

/-- `mult_Av` (simd.rs:6-22), `mult_Atv` (simd.rs:24-40). -/
def multAvSimd (ofNat : Nat → α) (v out : List α) : R (List α) := multSimd t checks (A t checks ofNat) v out
@[inherit_doc multAvSimd] def multAtvSimd (ofNat : Nat → α) (v out : List α) : R (List α) :=
  multSimd t checks (fun i j => A t checks ofNat j i) v out

/-- `simd::spectral_norm` (simd.rs:47-59). -/
def simd (ofNat : Nat → α) (sqrt : α → α) (n : Nat) : R α :=
  spectralNorm (multAtAv (multAvSimd t checks ofNat) (multAtvSimd t checks ofNat)) sqrt n

end Spectral
end PackedSimd.Ex
