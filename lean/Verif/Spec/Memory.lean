import Verif.Spec.Basic
/-
Specification of memory contents, in terms of base-256 digits.
-/
namespace PackedSimd.Spec

/-- The byte (as a number) at offset `j` of a `k`-byte integer stored in the given byte order. -/
def byteAt (e : Endian) (k : Nat) (x : BitVec (8 * k)) (j : Nat) : Nat :=
  match e with
  | .little => x.toNat / 256 ^ j % 256
  | .big => x.toNat / 256 ^ (k - 1 - j) % 256

/-- Memory (address → optional byte) holds the `k`-byte element `x` at `addr`. -/
def HoldsElem (e : Endian) {k : Nat} (m : Nat → Option (BitVec 8)) (addr : Nat) (x : BitVec (8 * k)) : Prop :=
  ∀ j, j < k → ∃ b : BitVec 8, m (addr + j) = some b ∧ b.toNat = byteAt e k x j

/-- Memory holds the elements `xs` consecutively from `addr`. -/
def HoldsElems (e : Endian) {k : Nat} (m : Nat → Option (BitVec 8)) (addr : Nat) (xs : List (BitVec (8 * k))) : Prop :=
  ∀ i (h : i < xs.length), HoldsElem e m (addr + i * k) xs[i]

end PackedSimd.Spec
