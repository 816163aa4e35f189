import Verif.Model.Ops
import Verif.Model.FloatVec
/-
examples/aobench/src/random.rs: the LFSR113 generator, on bit patterns.  The scalar generator uses Rust's `u32` operators
(`BitVec 32`; every shift amount is a literal below 32), the vector generator those of `u32xN` (`u32x4`, or `u32x8` with the feature
`256bit`, geometry/mod.rs:21-41) for any number `n` of lanes.
-/
namespace PackedSimd.Ex.AoRandom

/-- A `u32` literal. -/
abbrev u (k : Nat) : BitVec 32 := BitVec.ofNat 32 k

/-! ### `scalar` (random.rs:12-73) -/

/-- `scalar::RngT` (17). -/
structure Rng where
  z0 : BitVec 32
  z1 : BitVec 32
  z2 : BitVec 32
  z3 : BitVec 32

/-- `RngT::from_seed` (20-29). -/
def Rng.fromSeed (x : BitVec 32) : Rng :=
  let z0 := x
  let z1 := x ^^^ u 0xbeeff00d
  let z2 := ((x &&& u 0xffff) <<< 16) ||| (x >>> 16)
  let z3 := ((x &&& u 0xff) <<< 24) ||| ((x &&& u 0xff00) <<< 8) ||| ((x &&& u 0x00ff0000) >>> 8) ||| ((x &&& u 0xff000000) >>> 24)
  ⟨z0, z1, z2, z3⟩

/-- `RngT::gen_u32` (31-41): the value and the new state. -/
def Rng.genU32 (r : Rng) : BitVec 32 × Rng :=
  let b := ((r.z0 <<< 6) ^^^ r.z0) >>> 13
  let z0 := ((r.z0 &&& u 4294967294) <<< 18) ^^^ b
  let b := ((r.z1 <<< 2) ^^^ r.z1) >>> 27
  let z1 := ((r.z1 &&& u 4294967288) <<< 2) ^^^ b
  let b := ((r.z2 <<< 13) ^^^ r.z2) >>> 21
  let z2 := ((r.z2 &&& u 4294967280) <<< 7) ^^^ b
  let b := ((r.z3 <<< 3) ^^^ r.z3) >>> 12
  let z3 := ((r.z3 &&& u 4294967168) <<< 13) ^^^ b
  (z0 ^^^ z1 ^^^ z2 ^^^ z3, ⟨z0, z1, z2, z3⟩)

/-- `RngT::gen` (43-48): the bits of the `f32`, and the new state. -/
def Rng.gen (r : Rng) : BitVec 32 × Rng :=
  let (v, r) := r.genU32
  let v := v &&& ((u 1 <<< 23) - u 1)
  let v := u 0x3F800000 ||| v
  (Flt.sub 23 v (Flt.fromInt 32 23 1), r)

/-- The generator of a thread when it is first used (62-66). -/
def Rng.thread : Rng := Rng.fromSeed (u 1)

/-! ### `vector` (random.rs:76-140) -/

/-- `vector::RngT` (80). -/
structure RngV (n : Nat) where
  z0 : Vec (BitVec 32) n
  z1 : Vec (BitVec 32) n
  z2 : Vec (BitVec 32) n
  z3 : Vec (BitVec 32) n

variable {n : Nat}

/-- `v << k`, `v >> k` for a literal `k: u32` (C11). -/
abbrev shl (a : Vec (BitVec 32) n) (k : Nat) : R (Vec (BitVec 32) n) := Ops.shlU32 a (u k)
abbrev shr (a : Vec (BitVec 32) n) (k : Nat) : R (Vec (BitVec 32) n) := Ops.shrU32 false a (u k)

/-- `RngT::from_seed` (83-92). -/
def RngV.fromSeed (x : Vec (BitVec 32) n) : R (RngV n) := do
  let z0 := x
  let z1 := Ops.bitxor x (splat n (u 0xbeeff00d))
  let z2 := Ops.bitor (← shl (Ops.bitand x (splat n (u 0xffff))) 16) (← shr x 16)
  let a ← shl (Ops.bitand x (splat n (u 0xff))) 24
  let b ← shl (Ops.bitand x (splat n (u 0xff00))) 8
  let c ← shr (Ops.bitand x (splat n (u 0x00ff0000))) 8
  let d ← shr (Ops.bitand x (splat n (u 0xff000000))) 24
  let z3 := Ops.bitor (Ops.bitor (Ops.bitor a b) c) d
  return ⟨z0, z1, z2, z3⟩

/-- `RngT::gen_u32` (95-105). -/
def RngV.genU32 (r : RngV n) : R (Vec (BitVec 32) n × RngV n) := do
  let b ← shr (Ops.bitxor (← shl r.z0 6) r.z0) 13
  let z0 := Ops.bitxor (← shl (Ops.bitand r.z0 (splat n (u 4294967294))) 18) b
  let b ← shr (Ops.bitxor (← shl r.z1 2) r.z1) 27
  let z1 := Ops.bitxor (← shl (Ops.bitand r.z1 (splat n (u 4294967288))) 2) b
  let b ← shr (Ops.bitxor (← shl r.z2 13) r.z2) 21
  let z2 := Ops.bitxor (← shl (Ops.bitand r.z2 (splat n (u 4294967280))) 7) b
  let b ← shr (Ops.bitxor (← shl r.z3 3) r.z3) 12
  let z3 := Ops.bitxor (← shl (Ops.bitand r.z3 (splat n (u 4294967168))) 13) b
  return (Ops.bitxor (Ops.bitxor (Ops.bitxor z0 z1) z2) z3, ⟨z0, z1, z2, z3⟩)

/-- `RngT::gen` (108-114).  The `transmute` keeps the bits of each lane. -/
def RngV.gen (r : RngV n) : R (Vec (BitVec 32) n × RngV n) := do
  let (v, r) ← r.genU32
  let v := Ops.bitand v (splat n ((u 1 <<< 23) - u 1))
  let v := Ops.bitor (splat n (u 0x3F800000)) v
  return (FVec.sub 23 v (splat n (Flt.fromInt 32 23 1)), r)

/-- `u32xN::incr(x, step)` (geometry/mod.rs:77-99): lane `i` is `x + i * step`; for the values used there is no overflow. -/
def incrU32 (n : Nat) (x step : Nat) : Vec (BitVec 32) n := Vector.ofFn fun i => u (x + i * step)

/-- The generator of a thread when it is first used (129-133). -/
def RngV.thread (n : Nat) : R (RngV n) := RngV.fromSeed (incrU32 n 0 1)

/-! ### Repeated use: `RngH::gen` (57-59, 124-126) advances the state of the thread -/

/-- The state after `t` calls of `gen`. -/
def Rng.after (r : Rng) : Nat → Rng
  | 0 => r
  | t + 1 => (r.after t).gen.2

def RngV.after (r : RngV n) : Nat → R (RngV n)
  | 0 => .ok r
  | t + 1 => do
    let r ← r.after t
    let (_, r) ← r.gen
    return r

end PackedSimd.Ex.AoRandom
