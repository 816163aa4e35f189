import Verif.Model.Minimal
/-
Byte-level representation: how lanes are laid out in memory, `mem::transmute` / unions, and memory access.

Layout assumption (rustc `repr(simd)` and arrays, documented in /repo/tests/endianness.rs): lane `i` occupies the
bytes `i*k .. (i+1)*k` where `k` is the lane size, on both byte orders; inside a lane bytes are in target order.
-/

namespace PackedSimd

abbrev Byte := BitVec 8

/-- Number with the given little-endian base-256 digits. -/
def numLE : List Byte → Nat
  | [] => 0
  | b :: bs => b.toNat + 256 * numLE bs

/-- Significance (0 = least) of the byte at memory offset `j` of a `k`-byte lane. -/
def bytePos (e : Endian) (k j : Nat) : Nat :=
  match e with
  | .little => j
  | .big => k - 1 - j

/-- The bytes of a lane, in memory order. -/
def laneBytes (e : Endian) {k : Nat} (x : BitVec (8 * k)) : Vector Byte k :=
  Vector.ofFn fun j => x.extractLsb' (8 * bytePos e k j) 8

/-- The lane whose bytes in memory order are `bs`. -/
def laneOfBytes (e : Endian) {k : Nat} (bs : Vector Byte k) : BitVec (8 * k) :=
  BitVec.ofNat (8 * k) (numLE (match e with | .little => bs.toList | .big => bs.toList.reverse))

/-- The bytes of a vector (or array) in memory order. -/
def toBytes (e : Endian) {k n : Nat} (v : Vec (BitVec (8 * k)) n) : Vector Byte (n * k) :=
  Vector.ofFn fun p => (laneBytes e (v[p.val / k]'(Nat.div_lt_of_lt_mul (Nat.mul_comm n k ▸ p.2))))[p.val % k]'(
    Nat.mod_lt _ (Nat.pos_of_ne_zero fun h => by have := p.2; subst h; simp at this))

/-- Byte `j` of lane `i` lies inside the vector. -/
theorem lane_byte_lt {k n i j : Nat} (hi : i < n) (hj : j < k) : i * k + j < n * k := by
  have h : (i + 1) * k ≤ n * k := Nat.mul_le_mul_right k hi
  rw [Nat.add_mul] at h; omega

/-- The vector whose bytes in memory order are `bs`. -/
def fromBytes (e : Endian) (k n : Nat) (bs : Vector Byte (n * k)) : Vec (BitVec (8 * k)) n :=
  Vector.ofFn fun i => laneOfBytes e (Vector.ofFn fun j : Fin k => bs[i.val * k + j.val]'(lane_byte_lt i.2 j.2))

/-- `mem::transmute` / union reinterpretation between vectors (or arrays) of equal size in bytes. -/
def transmute (e : Endian) {k n : Nat} (k' n' : Nat) (h : n * k = n' * k') (v : Vec (BitVec (8 * k)) n) :
    Vec (BitVec (8 * k')) n' :=
  fromBytes e k' n' ((toBytes e v).cast h)

/-! ### Memory -/

/-- Byte-addressed memory; `none` means that accessing the address is undefined behaviour. -/
abbrev Mem := Nat → Option Byte

/-- Read `len` consecutive bytes. -/
def Mem.load (m : Mem) (addr len : Nat) : R (Vector Byte len) :=
  if h : ∀ j : Fin len, (m (addr + j.val)).isSome then
    .ok (Vector.ofFn fun j => (m (addr + j.val)).get (h j))
  else .error .ub

/-- Overwrite `len` consecutive bytes. -/
def Mem.store (m : Mem) (addr : Nat) {len : Nat} (bs : Vector Byte len) : R Mem :=
  if ∀ j : Fin len, (m (addr + j.val)).isSome then
    .ok (fun p => if h : addr ≤ p ∧ p < addr + len then some (bs[p - addr]'(by omega)) else m p)
  else .error .ub

end PackedSimd
