import Verif.Spec.Float
/-
LFSR113 (P. L'Ecuyer, "Tables of maximally equidistributed combined LFSR generators", 1999): four linear feedback shift registers,
combined by exclusive or.
-/
namespace PackedSimd.Spec

/-- A bit sequence with `x_{n+k} = x_n xor x_{n+q}` for every `n`: the output of a linear feedback shift register with characteristic
polynomial `z^k - z^q - 1`. -/
def Lfsr (k q : Nat) (x : Nat → Bool) : Prop := ∀ n, x (n + k) = (x n ^^ x (n + q))

/-- The first `k` elements of `x` are the `k` most significant bits of the seed `z`. -/
def StartsWith (k : Nat) (x : Nat → Bool) (z : BitVec 32) : Prop := ∀ p, p < k → x p = z.getMsbD p

/-- The published requirement on the seeds: no register is empty. -/
def GoodSeeds (z0 z1 z2 z3 : BitVec 32) : Prop := 1 < z0.toNat ∧ 7 < z1.toNat ∧ 15 < z2.toNat ∧ 127 < z3.toNat

/-- The four seeds derived from a 32-bit seed: itself, xored with a constant, with its halves swapped, with its bytes reversed. -/
def seed1 (x : BitVec 32) : BitVec 32 := x ^^^ 0xbeeff00d#32
def seed2 (x : BitVec 32) : BitVec 32 := x.extractLsb' 0 16 ++ x.extractLsb' 16 16
def seed3 (x : BitVec 32) : BitVec 32 :=
  x.extractLsb' 0 8 ++ x.extractLsb' 8 8 ++ x.extractLsb' 16 8 ++ x.extractLsb' 24 8

example : seed2 0x12345678#32 = 0x56781234#32 ∧ seed3 0x12345678#32 = 0x78563412#32 := by decide

/-- `P` is the length of the cycle of `x`: the sequence repeats after `P` elements from the start, and if any tail of it repeats after `m`
elements, then `m` is a multiple of `P`. -/
def CycleLength {α : Type} (x : Nat → α) (P : Nat) : Prop :=
  0 < P ∧ (∀ t, x (t + P) = x t) ∧ ∀ m T, (∀ t, T ≤ t → x (t + m) = x t) → P ∣ m

example : CycleLength (fun t => t % 3) 3 := by
  refine ⟨by omega, fun t => by simp, fun m T h => ?_⟩
  have := h (3 * T) (by omega)
  simp only [Nat.mul_add_mod, Nat.mul_mod_right] at this
  exact Nat.dvd_of_mod_eq_zero this

/-- The product of the cycle lengths `2^31 - 1`, `2^29 - 1`, `2^28 - 1`, `2^25 - 1` of the registers that are not empty. -/
def lfsrCycle (z0 z1 z2 z3 : BitVec 32) : Nat :=
  (if 1 < z0.toNat then 2 ^ 31 - 1 else 1) * (if 7 < z1.toNat then 2 ^ 29 - 1 else 1) * (if 15 < z2.toNat then 2 ^ 28 - 1 else 1) *
    (if 127 < z3.toNat then 2 ^ 25 - 1 else 1)

end PackedSimd.Spec
