import Verif.Lemmas.Memory
import Verif.Lemmas.Convert
/-
Reinterpreting the bytes of vectors and masks.
-/
namespace PackedSimd
open Spec Intr Cast

variable {k n k' n' : Nat}

/-- Byte `q` of a vector, counted from its start in memory, is byte `q % k` of lane `q / k`. -/
theorem byteAt_toBytes (e : Endian) (v : Vec (BitVec (8 * k)) n) {q : Nat} (hq : q < n * k) (hi : q / k < n) :
    byteAt e k v[q / k] (q % k) = ((toBytes e v)[q]).toNat := by
  have hk : 0 < k := Nat.pos_of_ne_zero fun h => by subst h; simp at hq
  have hj := Nat.mod_lt q hk
  rw [byteAt_eq e _ hj, ← getElem_toBytes e v hi hj]
  congr 1
  simp only [Nat.div_add_mod' q k]

theorem transmute_bytes (e : Endian) (h : n * k = n' * k') (v : Vec (BitVec (8 * k)) n) {q : Nat} (hq : q < n * k) (h1 : q / k < n)
    (h2 : q / k' < n') : byteAt e k' (transmute e k' n' h v)[q / k'] (q % k') = byteAt e k v[q / k] (q % k) := by
  rw [byteAt_toBytes e _ (by omega) h2, byteAt_toBytes e v hq h1]
  simp only [toBytes_transmute, Vector.getElem_cast]

/-- Lanes made of bytes that are all ones / all zeros. -/
theorem isMaskLane_of_bytes (e : Endian) (x : BitVec (8 * k)) (b : Bool) (h : ∀ j (hj : j < k), (laneBytes e x)[j] = maskBits 8 b) :
    IsMaskLane x b := by
  intro i hi
  have hj : i / 8 < k := by omega
  have := getLsbD_laneBytes e x (bytePos_lt (e := e) hj) (show i % 8 < 8 by omega)
  rw [bytePos_bytePos hj, show 8 * (i / 8) + i % 8 = i by omega] at this
  rw [← this, h _ (bytePos_lt hj), getLsbD_maskBits b (by omega)]

theorem bytes_of_isMaskLane (e : Endian) (x : BitVec (8 * k)) (b : Bool) (h : IsMaskLane x b) {j : Nat} (hj : j < k) :
    (laneBytes e x)[j] = maskBits 8 b := by
  apply BitVec.eq_of_getLsbD_eq
  intro i hi
  rw [getLsbD_laneBytes e x hj hi, getLsbD_maskBits b hi, h _ (by have := bytePos_lt (e := e) hj; omega)]

/-- Reinterpreting a valid mask with lanes of `k` bytes as one with narrower lanes: lane `i` has the value of the wide lane containing it. -/
theorem fromBytes_mask (e : Endian) (hd : k % k' = 0) (h : n * k = n' * k') (bs : Vector Byte (n' * k')) (f : Nat → Bool)
    (hv : ∀ q (hq : q < n' * k'), bs[q] = maskBits 8 (f (q / k))) : Denotes (fromBytes e k' n' bs) (fun i => f (i * k' / k)) := by
  intro i hi
  apply isMaskLane_of_bytes e
  intro j hj
  have hlt := lane_byte_lt hi hj
  rw [getElem_fromBytes e bs hi, laneBytes_laneOfBytes, Vector.getElem_ofFn, hv _ hlt]
  congr 2
  -- `k'` divides `k`, so a narrow lane does not cross the boundary of a wide one
  obtain ⟨c, rfl⟩ := Nat.dvd_of_mod_eq_zero hd
  rw [← Nat.div_div_eq_div_mul, ← Nat.div_div_eq_div_mul, Nat.mul_div_cancel _ (by omega : 0 < k')]
  congr 1
  rw [Nat.mul_comm, Nat.mul_add_div (by omega), Nat.div_eq_of_lt hj, Nat.add_zero]

theorem transmute_mask (e : Endian) (hd : k % k' = 0) (h : n * k = n' * k') (v : Vec (BitVec (8 * k)) n) (f : Nat → Bool) (hv : Denotes v f) :
    Denotes (transmute e k' n' h v) (fun i => f (i * k' / k)) := by
  apply fromBytes_mask (n := n) e hd h
  intro q hq
  rw [← h] at hq
  have hk : 0 < k := Nat.pos_of_ne_zero fun h => by subst h; simp at hq
  have hi : q / k < n := Nat.div_lt_of_lt_mul (Nat.mul_comm n k ▸ hq)
  have hj := Nat.mod_lt q hk
  have := getElem_toBytes e v hi hj
  simp only [Nat.div_add_mod' q k] at this
  rw [Vector.getElem_cast, this, bytes_of_isMaskLane e _ _ (hv _ hi) hj]

/-- All rows of the `FromBits` table. -/
theorem bitsTable_cond : ∀ r ∈ Tables.bitsTable, ∀ s ∈ r.2, s.bytes 4 = r.1.bytes 4 ∧ s.bytes 8 = r.1.bytes 8 ∧
    (r.1.elem.kind = .mask → s.elem.kind = .mask ∧ s.elem.bytes 4 % r.1.elem.bytes 4 = 0 ∧ s.elem.bytes 8 % r.1.elem.bytes 8 = 0) := by
  decide +kernel

theorem archTable_cond : ∀ r ∈ Tables.archTable, (∀ s ∈ r.from_, s.bytes 4 = r.bytes ∧ s.bytes 8 = r.bytes) ∧
    ∀ s ∈ r.into, s.bytes 4 = r.bytes ∧ s.bytes 8 = r.bytes ∧
      (s.elem.kind = .mask → r.boolLane ≠ 0 ∧ r.bytes % r.boolLane = 0 ∧ r.boolLane % s.elem.bytes 4 = 0 ∧ r.boolLane % s.elem.bytes 8 = 0) := by
  decide +kernel

end PackedSimd
