import Verif.Model.Slices
import Verif.Lemmas.Lanes

namespace PackedSimd

variable {k n : Nat}

theorem numLE_lt (bs : List Byte) : numLE bs < 2 ^ (8 * bs.length) := by
  induction bs with
  | nil => simp [numLE]
  | cons b bs ih =>
    have hb := b.isLt
    have : 2 ^ (8 * (b :: bs).length) = 256 * 2 ^ (8 * bs.length) := by
      rw [List.length_cons, Nat.mul_add, Nat.pow_add, Nat.mul_comm]
    rw [this, numLE]; omega

theorem numLE_testBit (bs : List Byte) (j b : Nat) (hj : j < bs.length) (hb : b < 8) :
    (numLE bs).testBit (8 * j + b) = bs[j].getLsbD b := by
  induction bs generalizing j with
  | nil => simp at hj
  | cons x bs ih =>
    have hx := x.isLt
    rw [numLE, Nat.add_comm, show 256 = 2 ^ 8 from rfl, Nat.testBit_two_pow_mul_add _ hx]
    cases j with
    | zero => simp [hb, BitVec.getLsbD]
    | succ j =>
      have h1 : ¬ (8 * (j + 1) + b < 8) := by omega
      rw [if_neg h1, show 8 * (j + 1) + b - 8 = 8 * j + b by omega,
        ih j (by simp only [List.length_cons] at hj; omega)]
      rfl

theorem bytePos_lt {e : Endian} {j : Nat} (hj : j < k) : bytePos e k j < k := by
  cases e <;> simp [bytePos] <;> omega

theorem bytePos_bytePos {e : Endian} {j : Nat} (hj : j < k) : bytePos e k (bytePos e k j) = j := by
  cases e <;> simp [bytePos]; omega

theorem getLsbD_laneOfBytes (e : Endian) (bs : Vector Byte k) {j b : Nat} (hj : j < k) (hb : b < 8) :
    (laneOfBytes e bs).getLsbD (8 * j + b) = (bs[bytePos e k j]'(bytePos_lt hj)).getLsbD b := by
  unfold laneOfBytes
  rw [BitVec.getLsbD_ofNat]
  have hlt : 8 * j + b < 8 * k := by omega
  simp only [hlt, decide_true, Bool.true_and]
  cases e
  · rw [numLE_testBit _ _ _ (by simpa using hj) hb]; simp [bytePos]
  · rw [numLE_testBit _ _ _ (by simpa using hj) hb]
    simp [bytePos, List.getElem_reverse]

theorem getElem_laneBytes (e : Endian) (x : BitVec (8 * k)) {j : Nat} (hj : j < k) :
    (laneBytes e x)[j] = x.extractLsb' (8 * bytePos e k j) 8 := by
  simp [laneBytes]

theorem getLsbD_laneBytes (e : Endian) (x : BitVec (8 * k)) {j b : Nat} (hj : j < k) (hb : b < 8) :
    ((laneBytes e x)[j]).getLsbD b = x.getLsbD (8 * bytePos e k j + b) := by
  rw [getElem_laneBytes _ _ hj]
  simp [hb]

/-- Two lanes with the same bytes are equal. -/
theorem eq_of_bytes {x y : BitVec (8 * k)}
    (h : ∀ j b, j < k → b < 8 → x.getLsbD (8 * j + b) = y.getLsbD (8 * j + b)) : x = y := by
  apply BitVec.eq_of_getLsbD_eq
  intro i hi
  have := h (i / 8) (i % 8) (by omega) (by omega)
  rwa [show 8 * (i / 8) + i % 8 = i by omega] at this

@[simp] theorem laneBytes_laneOfBytes (e : Endian) (bs : Vector Byte k) : laneBytes e (laneOfBytes e bs) = bs := by
  ext j hj : 1
  apply BitVec.eq_of_getLsbD_eq
  intro b hb
  rw [getLsbD_laneBytes _ _ hj hb, getLsbD_laneOfBytes _ _ (bytePos_lt hj) hb]
  congr 2; exact bytePos_bytePos hj

@[simp] theorem laneOfBytes_laneBytes (e : Endian) (x : BitVec (8 * k)) : laneOfBytes e (laneBytes e x) = x := by
  apply eq_of_bytes
  intro j b hj hb
  rw [getLsbD_laneOfBytes _ _ hj hb, getLsbD_laneBytes _ _ (bytePos_lt hj) hb, bytePos_bytePos hj]

theorem getElem_toBytes (e : Endian) (v : Vec (BitVec (8 * k)) n) {i j : Nat} (hi : i < n) (hj : j < k) :
    (toBytes e v)[i * k + j]'(lane_byte_lt hi hj) = (laneBytes e v[i])[j] := by
  have h1 : (i * k + j) / k = i := by
    rw [Nat.mul_comm, Nat.mul_add_div (by omega), Nat.div_eq_of_lt hj]; simp
  have h2 : (i * k + j) % k = j := by
    rw [Nat.mul_comm, Nat.mul_add_mod, Nat.mod_eq_of_lt hj]
  simp only [toBytes, Vector.getElem_ofFn, h1, h2]

theorem getElem_fromBytes (e : Endian) (bs : Vector Byte (n * k)) {i : Nat} (hi : i < n) :
    (fromBytes e k n bs)[i] =
      laneOfBytes e (Vector.ofFn fun j : Fin k => bs[i * k + j.val]'(lane_byte_lt hi j.2)) := by
  simp [fromBytes]

@[simp] theorem fromBytes_toBytes (e : Endian) (v : Vec (BitVec (8 * k)) n) : fromBytes e k n (toBytes e v) = v := by
  ext i hi : 1
  rw [getElem_fromBytes _ _ hi]
  have : (Vector.ofFn fun j : Fin k => (toBytes e v)[i * k + j.val]'(lane_byte_lt hi j.2)) = laneBytes e v[i] := by
    ext j hj : 1
    rw [Vector.getElem_ofFn, getElem_toBytes e v hi hj]
  rw [this]; simp

/-- Vectors of bytes are determined by their bytes addressed as (lane, offset). -/
theorem byteVec_ext {bs cs : Vector Byte (n * k)}
    (h : ∀ i j (hi : i < n) (hj : j < k), bs[i * k + j]'(lane_byte_lt hi hj) = cs[i * k + j]'(lane_byte_lt hi hj)) :
    bs = cs := by
  ext p hp : 1
  have hk : 0 < k := Nat.pos_of_ne_zero fun h0 => by subst h0; simp at hp
  have hi : p / k < n := Nat.div_lt_of_lt_mul (Nat.mul_comm n k ▸ hp)
  have := h (p / k) (p % k) hi (Nat.mod_lt _ hk)
  have e : p / k * k + p % k = p := by rw [Nat.mul_comm]; exact Nat.div_add_mod p k
  simp only [e] at this
  exact this

@[simp] theorem toBytes_fromBytes (e : Endian) (bs : Vector Byte (n * k)) : toBytes e (fromBytes e k n bs) = bs := by
  apply byteVec_ext
  intro i j hi hj
  rw [getElem_toBytes e _ hi hj, getElem_fromBytes _ _ hi]
  simp

theorem toBytes_injective {e : Endian} {v v' : Vec (BitVec (8 * k)) n} (h : toBytes e v = toBytes e v') : v = v' := by
  rw [← fromBytes_toBytes e v, h, fromBytes_toBytes]

@[simp] theorem transmute_self (e : Endian) (v : Vec (BitVec (8 * k)) n) (h : n * k = n * k) : transmute e k n h v = v := by
  simp [transmute]

theorem toBytes_transmute (e : Endian) {k' n' : Nat} (h : n * k = n' * k') (v : Vec (BitVec (8 * k)) n) :
    toBytes e (transmute e k' n' h v) = (toBytes e v).cast h := by
  simp [transmute]

theorem transmute_transmute (e : Endian) {k' n' k'' n'' : Nat} (h : n * k = n' * k') (h' : n' * k' = n'' * k'')
    (v : Vec (BitVec (8 * k)) n) :
    transmute e k'' n'' h' (transmute e k' n' h v) = transmute e k'' n'' (h.trans h') v := by
  apply toBytes_injective (e := e)
  rw [toBytes_transmute, toBytes_transmute, toBytes_transmute]
  simp

theorem transmute_inverse (e : Endian) {k' n' : Nat} (h : n * k = n' * k') (v : Vec (BitVec (8 * k)) n) :
    transmute e k n h.symm (transmute e k' n' h v) = v := by
  rw [transmute_transmute]; simp

end PackedSimd
