import Verif.Model.Examples.Stencil
import Verif.Model.Examples.Spectral
import Verif.Model.Shuffle
/-
examples/fannkuch_redux/src/{scalar,simd,lib}.rs.  Arrays are lists or `Vector`s; `i32`, `u32`, `u8` counters are unbounded integers with the
overflow behaviour written out (`i32`, `u32`).
-/
namespace PackedSimd.Ex

/-- The result of a `u32` operation whose exact value is `v`. -/
def u32 (dbg : Bool) (v : Nat) : R Nat := if v < 2 ^ 32 then .ok v else if dbg then .error .panic else .ok (v % 2 ^ 32)

/-- `v as i32` for `v: u32` or `usize`. -/
def asI32 (v : Nat) : Int := (v : Int).bmod (2 ^ 32)

/-- Why a program with `while` loops has no result: a fault, or it is still running when the given number of iterations is used up. -/
inductive Stop where
  | fault (f : Fault)
  | running
  deriving DecidableEq

abbrev D (α : Type) := Except Stop α

/-- A part of the program without `while` loops. -/
def lift {α : Type} : R α → D α
  | .ok a => .ok a
  | .error f => .error (.fault f)

/-- `while cond { body }`, at most `fuel` iterations. -/
def whileN {σ : Type} (cond : σ → R Bool) (body : σ → D σ) : Nat → σ → D σ
  | 0, s => do if ← lift (cond s) then .error .running else return s
  | fuel + 1, s => do if ← lift (cond s) then whileN cond body fuel (← body s) else return s

namespace Fannkuch
open Options (lset)

/-! ### scalar.rs -/

/-- `rotate` (scalar.rs:6-11). -/
def rotate (x : List Int) : R (List Int) := do
  let prev ← lget x 0
  return (x.foldr (fun v (acc : List Int × Int) => (acc.2 :: acc.1, v)) ([], prev)).1

/-- `f(&mut p[..len])`: the new contents of `p`. -/
def onPrefix (len : Nat) (f : List Int → R (List Int)) (p : List Int) : R (List Int) :=
  if len ≤ p.length then do return (← f (p.take len)) ++ p.drop len else .error .panic

/-- The loop of `next_permutation` (scalar.rs:14-23) over the remaining values of `i`. -/
def nextLoop (dbg : Bool) : List Nat → List Int × List Int → R (List Int × List Int)
  | [], s => .ok s
  | i :: is, (perm, count) => do
    let perm ← onPrefix (i + 1) rotate perm
    let c ← lget count i
    if c ≥ (i : Int) then nextLoop dbg is (perm, ← lset count i 0)
    else return (perm, ← lset count i (← i32 dbg (c + 1)))

/-- `next_permutation` (scalar.rs:13-24). -/
def nextPermutation (dbg : Bool) (perm count : List Int) : R (List Int × List Int) :=
  nextLoop dbg (List.range' 1 (perm.length - 1)) (perm, count)

/-- `Perm` (scalar.rs:32-38). -/
structure Perm where
  cnt : List Int
  fact : List Nat
  n : Nat
  permcount : Nat
  perm : List Int
  deriving DecidableEq

/-- `Perm::new` (scalar.rs:41-47). -/
def Perm.new (dbg : Bool) (n : Nat) : R Perm := do
  let fact ← forRange 1 (n + 1) (fun fact i => do
    let f ← lget fact (i - 1)
    lset fact i (← u32 dbg (f * i))) (List.replicate 16 1)
  return ⟨List.replicate 16 0, fact, n, 0, List.replicate 16 0⟩

/-- `idx / m` and `idx % m` of `i32`: panics on division by zero and on overflow. -/
def divRem (a b : Int) : R (Int × Int) :=
  if b = 0 ∨ (a = -2 ^ 31 ∧ b = -1) then .error .panic else .ok (a.tdiv b, a.tmod b)

/-- The innermost loop of `get` (scalar.rs:65-71). -/
def getRow (t : Target) (dbg : Bool) (i d : Nat) (pp : List Nat) (perm : List Int) : R (List Int) :=
  forRange 0 (i + 1) (fun perm j => do
    let k ← usize t dbg (j + d)
    let v ← if k ≤ i then lget pp k else lget pp (k - i - 1)
    lset perm j v) perm

/-- One iteration of the loop of `get` (scalar.rs:56-72): state `idx`, `cnt`, `perm`, `pp`. -/
def getStep (t : Target) (dbg : Bool) (fact : List Nat) (s : Int × List Int × List Int × List Nat) (i : Nat) : R (Int × List Int × List Int × List Nat) := do
  let (idx, cnt, perm, pp) := s
  let f ← lget fact i
  let (d, idx) ← divRem idx (asI32 f)
  let cnt ← lset cnt i d
  if i + 1 ≤ perm.length then
    let pp := ((perm.take (i + 1)).map fun v => (v % 256).toNat) ++ pp.drop (i + 1)
    let perm ← getRow t dbg i (asUsize t d) pp perm
    return (idx, cnt, perm, pp)
  else .error .panic

/-- `Perm::get` (scalar.rs:49-75). -/
def Perm.get (t : Target) (dbg : Bool) (P : Perm) (idx : Int) : R Perm := do
  let perm := (List.range P.perm.length).map fun (i : Nat) => (i : Int) + 1
  let (_, cnt, perm, _) ← ((List.range' 1 (P.n - 1)).reverse).foldlM (getStep t dbg P.fact) (idx, P.cnt, perm, List.replicate 16 0)
  return { P with permcount := (idx % 2 ^ 32).toNat, cnt, perm }

/-- `Perm::max` (scalar.rs:80-82). -/
def Perm.max (P : Perm) : R Nat := lget P.fact P.n

/-- `Perm::next` (scalar.rs:84-89). -/
def Perm.next (dbg : Bool) (P : Perm) : R Perm := do
  let (perm, cnt) ← nextPermutation dbg P.perm P.cnt
  return { P with perm, cnt, permcount := ← u32 dbg (P.permcount + 1) }

/-- One flip (scalar.rs:106-108): state `p`, `flips`. -/
def flipStep (t : Target) (dbg : Bool) (s : List Int × Int) : R (List Int × Int) := do
  let k ← lget s.1 0
  let p ← onPrefix (asUsize t k) (fun x => .ok x.reverse) s.1
  return (p, ← i32 dbg (s.2 + 1))

/-- The flipping loop (scalar.rs:105-109). -/
def flipLoop (t : Target) (dbg : Bool) (fuel : Nat) (p : List Int) : D (List Int × Int) :=
  whileN (fun s => do return (← lget s.1 0) != 1) (fun s => lift (flipStep t dbg s)) fuel (p, 0)

/-- The body of the outer loop of `work` (scalar.rs:102-115): state generator, `checksum`, `maxflips`; `p` is always a copy of the generator's
permutation. -/
def workStep (t : Target) (dbg : Bool) (fuel : Nat) (s : Perm × Int × Int) : D (Perm × Int × Int) := do
  let (P, checksum, maxflips) := s
  let (_, flips) ← flipLoop t dbg fuel P.perm
  let f ← if P.permcount % 2 = 0 then pure flips else lift (i32 dbg (-flips))
  let checksum ← lift (i32 dbg (checksum + f))
  let P ← lift (P.next dbg)
  return (P, checksum, Max.max maxflips flips)

/-- `work` (scalar.rs:96-118). -/
def work (t : Target) (dbg : Bool) (fuel : Nat) (P : Perm) (n max : Nat) : D (Int × Int) := do
  let P ← lift (P.get t dbg (asI32 n))
  let (_, checksum, maxflips) ← whileN (fun s => pure (decide (s.1.permcount < max % 2 ^ 32))) (workStep t dbg fuel) fuel (P, 0, 0)
  return (checksum, maxflips)

/-- `scalar::fannkuch_redux` (scalar.rs:120-142) with `m` threads (the program has `m = 1`).  The threads share nothing and are joined in order;
`(0..).map(|x| x * k).take_while(|&j| j < k * m)` yields `0, k, .., (m - 1) * k`, or nothing if `k = 0`. -/
def scalarRun (t : Target) (dbg : Bool) (fuel m n : Nat) : D (Int × Int) := do
  let P ← lift (Perm.new dbg n)
  let max ← lift P.max
  let k := max / m
  (if k = 0 then [] else (List.range m).map (· * k)).foldlM (fun (acc : Int × Int) j => do
    let hi ← lift (u32 dbg (j + k))
    let (cs, mf) ← work t dbg fuel P j (min hi max)
    return (← lift (i32 dbg (acc.1 + cs)), Max.max acc.2 mf)) (0, 0)

/-! ### simd.rs -/

abbrev U8x16 := Vec (BitVec 8) 16

/-- `State` (simd.rs:5-13) without the masks. -/
structure State where
  s : U8x16
  maxflips : Int
  odd : BitVec 16
  checksum : Int

/-- `flip_masks`, `rotate_masks`. -/
structure Masks where
  flip : Vector U8x16 16
  rot : Vector U8x16 16

/-- `rotate_sisd` (simd.rs:30-36). -/
def rotateSisd (s : U8x16) (n : Nat) : R U8x16 := do
  let c ← aget s 0
  let s ← forRange 1 (n + 1) (fun s i => do aset s (i - 1) (← aget s i)) s
  aset s n c

/-- The array holding `0, 1, .., 15` as bytes (simd.rs:40-42, 50-52). -/
def iota : U8x16 := Vector.ofFn fun j => BitVec.ofNat 8 j.val

/-- `mask.swap(a, b)`. -/
def swap (v : U8x16) (a b : Nat) : R U8x16 := do
  let x ← aget v a
  let y ← aget v b
  aset (← aset v a y) b x

/-- `popmasks` (simd.rs:37-56): the masks and the new `s`.  Loading 16 bytes from an array of 16 gives the bytes. -/
def popmasks (s : U8x16) : R (Masks × U8x16) :=
  forRange 0 16 (fun (st : Masks × U8x16) i => do
    let mask ← forRange 0 ((i + 1) / 2) (fun mask x => swap mask x (i - x)) iota
    let flip ← aset st.1.flip i mask
    let s ← rotateSisd iota i
    let rot ← aset st.1.rot i s
    return (⟨flip, rot⟩, s)) (⟨Vector.replicate 16 (splat 16 0), Vector.replicate 16 (splat 16 0)⟩, s)

/-- `rotate` (simd.rs:57-61). -/
def State.rotate (t : Target) (M : Masks) (S : State) (n : Nat) : R State := do
  return { S with s := ← Shuf.u8x16 t S.s (← aget M.rot n) }

/-- The local `Perm` of `tk` (simd.rs:68-73). -/
structure Entry where
  perm : U8x16
  start : BitVec 8
  odd : BitVec 16

/-- The variables of `tk`. -/
structure Tk where
  st : State
  perms : Vector Entry 60
  i : Nat
  c : Vector Nat 16
  permMax : Nat
  odd : BitVec 16

/-- The body of the generating loop (simd.rs:85-109).  `c[i] += 1` cannot overflow: `c[i] < i < 16` there. -/
def genStep (t : Target) (dbg : Bool) (M : Masks) (T : Tk) : R Tk := do
  let st ← T.st.rotate t M T.i
  let ci ← aget T.c T.i
  if ci ≥ T.i then return { T with st, c := ← aset T.c T.i 0, i := T.i + 1 }
  else
    let T := { T with st, c := ← aset T.c T.i (ci + 1), i := 1, odd := ~~~T.odd }
    let s0 ← aget st.s 0
    if s0 ≠ 0#8 then
      let s00 ← aget st.s s0.toNat
      if s00 = 0#8 then
        let checksum ← i32 dbg (st.checksum + if T.odd = 0#16 then 1 else -1)
        return { T with st := { st with maxflips := if st.maxflips = 0 then 1 else st.maxflips, checksum } }
      else
        return { T with perms := ← aset T.perms T.permMax ⟨st.s, s0, T.odd⟩, permMax := T.permMax + 1 }
    else return T

/-- One flip (simd.rs:125-131, 135-138): `perm.shuffle1_dyn(flip_masks[toterm])`, its first lane and the flip count. -/
def flipSimd (t : Target) (dbg : Bool) (M : Masks) (s : U8x16 × BitVec 8 × Int) : R (U8x16 × BitVec 8 × Int) := do
  let perm ← Shuf.u8x16 t s.1 (← aget M.flip s.2.1.toNat)
  return (perm, ← extract perm 0, ← i32 dbg (s.2.2 + 1))

/-- `while toterm != 0 { .. }` (simd.rs:134-139, 140-145, 163-167). -/
def flipLoopSimd (t : Target) (dbg : Bool) (M : Masks) (fuel : Nat) (s : U8x16 × BitVec 8 × Int) : D (U8x16 × BitVec 8 × Int) :=
  whileN (fun s => pure (s.2.1 != 0#8)) (fun s => lift (flipSimd t dbg M s)) fuel s

/-- Count the flips `f` of an entry (simd.rs:147-154, 168-171). -/
def tally (dbg : Bool) (st : State) (e : Entry) (f : Int) : R State := do
  let g ← if e.odd = 0#16 then pure f else i32 dbg (-f)
  return { st with maxflips := if f > st.maxflips then f else st.maxflips, checksum := ← i32 dbg (st.checksum + g) }

/-- Two entries at once (simd.rs:112-157): state `k` and the program state.  `maxflips` is updated for both before the checksum, which makes no
difference. -/
def pairStep (t : Target) (dbg : Bool) (M : Masks) (fuel : Nat) (perms : Vector Entry 60) (s : Nat × State) : D (Nat × State) := do
  let e1 ← lift (aget perms s.1)
  let e2 ← lift (aget perms (s.1 + 1))
  let (a, b) ← whileN (fun (s : (U8x16 × BitVec 8 × Int) × (U8x16 × BitVec 8 × Int)) => pure (s.1.2.1 != 0#8 && s.2.2.1 != 0#8))
    (fun s => do return (← lift (flipSimd t dbg M s.1), ← lift (flipSimd t dbg M s.2))) fuel ((e1.perm, e1.start, 0), (e2.perm, e2.start, 0))
  let (_, _, f1) ← flipLoopSimd t dbg M fuel a
  let (_, _, f2) ← flipLoopSimd t dbg M fuel b
  let st ← lift (tally dbg s.2 e1 f1)
  let st ← lift (tally dbg st e2 f2)
  return (s.1 + 2, st)

/-- One entry (simd.rs:158-173). -/
def singleStep (t : Target) (dbg : Bool) (M : Masks) (fuel : Nat) (perms : Vector Entry 60) (s : Nat × State) : D (Nat × State) := do
  let e ← lift (aget perms s.1)
  let (_, _, f) ← flipLoopSimd t dbg M fuel (e.perm, e.start, 0)
  return (s.1 + 1, ← lift (tally dbg s.2 e f))

/-- The body of the outer loop of `tk` (simd.rs:84-175). -/
def tkStep (t : Target) (dbg : Bool) (M : Masks) (fuel n : Nat) (T : Tk) : D Tk := do
  let T ← whileN (fun (T : Tk) => pure (decide (T.i < n) && decide (T.permMax < 60))) (fun T => lift (genStep t dbg M T)) fuel T
  let (k, st) ← whileN (fun (s : Nat × State) => pure (decide (s.1 < max 1 T.permMax - 1))) (pairStep t dbg M fuel T.perms) fuel (0, T.st)
  let (_, st) ← whileN (fun (s : Nat × State) => pure (decide (s.1 < T.permMax))) (singleStep t dbg M fuel T.perms) fuel (k, st)
  return { T with st, permMax := 0 }

/-- `tk` (simd.rs:67-176). -/
def tk (t : Target) (dbg : Bool) (M : Masks) (fuel n : Nat) (st : State) : D Tk :=
  whileN (fun T => pure (decide (T.i < n))) (tkStep t dbg M fuel n) fuel
    { st, perms := Vector.replicate 60 ⟨splat 16 0, 0, 0⟩, i := 0, c := Vector.replicate 16 0, permMax := 0, odd := st.odd }

/-- `simd::fannkuch_redux` (simd.rs:179-189). -/
def simdRun (t : Target) (dbg : Bool) (fuel n : Nat) : D (Int × Int) := do
  let (M, s) ← lift (popmasks (splat 16 0))
  let s ← lift (forRange 0 n (fun s i => aset s i (BitVec.ofNat 8 i)) s)
  let T ← tk t dbg M fuel n ⟨s, 0, 0, 0⟩
  return (T.st.checksum, T.st.maxflips)

/-- `fannkuch_redux` (lib.rs:17-23). -/
def fannkuchRedux (t : Target) (dbg : Bool) (fuel n alg : Nat) : D (Int × Int) :=
  match alg with
  | 0 => simdRun t dbg fuel n
  | 1 => scalarRun t dbg fuel 1 n
  | _ => .error (.fault .panic)

/-- `main` (main.rs:10-21) after parsing the arguments; the two numbers are printed. -/
def main (t : Target) (dbg : Bool) (fuel n alg : Nat) : D (Int × Int) :=
  if 3 ≤ n ∧ n ≤ 14 then fannkuchRedux t dbg fuel n alg else .error (.fault .panic)

end Fannkuch
end PackedSimd.Ex
