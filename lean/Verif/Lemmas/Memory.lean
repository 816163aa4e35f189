import Verif.Lemmas.Bytes
import Verif.Spec.Memory

namespace PackedSimd
open Spec

variable {k n : Nat}

theorem byteAt_eq (e : Endian) (x : BitVec (8 * k)) {j : Nat} (hj : j < k) :
    byteAt e k x j = ((laneBytes e x)[j]).toNat := by
  rw [getElem_laneBytes _ _ hj, BitVec.extractLsb'_toNat, Nat.shiftRight_eq_div_pow, Nat.pow_mul]
  cases e <;> simp [byteAt, bytePos]

theorem holdsElem_iff {e : Endian} {m : Mem} {addr : Nat} {x : BitVec (8 * k)} :
    HoldsElem e m addr x ↔ ∀ j (h : j < k), m (addr + j) = some ((laneBytes e x)[j]) := by
  constructor
  · intro h j hj
    obtain ⟨b, hb, hb'⟩ := h j hj
    rw [hb]; congr 1; apply BitVec.eq_of_toNat_eq; rw [hb', byteAt_eq e x hj]
  · intro h j hj
    exact ⟨_, h j hj, (byteAt_eq e x hj).symm⟩

theorem load_of {m : Mem} {addr len : Nat} {bs : Vector Byte len}
    (h : ∀ j (hj : j < len), m (addr + j) = some bs[j]) : m.load addr len = .ok bs := by
  unfold Mem.load
  have h1 : ∀ j : Fin len, (m (addr + j.val)).isSome := fun j => by rw [h j j.2]; rfl
  rw [dif_pos h1]
  congr 1
  ext j hj : 1
  rw [Vector.getElem_ofFn]
  simp [h j hj]

theorem load_eq_ok {m : Mem} {addr len : Nat} {bs : Vector Byte len} (h : m.load addr len = .ok bs) :
    ∀ j (hj : j < len), m (addr + j) = some bs[j] := by
  unfold Mem.load at h
  split at h
  · rename_i h1
    cases h
    intro j hj
    simp
  · cases h

theorem store_of {m : Mem} {addr len : Nat} {bs : Vector Byte len}
    (h : ∀ j (_ : j < len), (m (addr + j)).isSome) :
    m.store addr bs = .ok (fun p => if h : addr ≤ p ∧ p < addr + len then some (bs[p - addr]'(by omega)) else m p) := by
  unfold Mem.store
  rw [if_pos (fun (j : Fin len) => h j.val j.isLt)]

/-- A stretch of memory holding `n` elements holds the bytes of the vector of those elements. -/
theorem holds_bytes {e : Endian} {m : Mem} {addr : Nat} {xs : List (BitVec (8 * k))} (h : HoldsElems e m addr xs)
    (v : Vec (BitVec (8 * k)) n) (hn : n ≤ xs.length) (hv : ∀ i (hi : i < n), v[i] = xs[i]) :
    ∀ p (hp : p < n * k), m (addr + p) = some (toBytes e v)[p] := by
  intro p hp
  have hk : 0 < k := Nat.pos_of_ne_zero fun h0 => by subst h0; simp at hp
  have hi : p / k < n := Nat.div_lt_of_lt_mul (Nat.mul_comm n k ▸ hp)
  have hj : p % k < k := Nat.mod_lt _ hk
  have ep : p / k * k + p % k = p := by rw [Nat.mul_comm]; exact Nat.div_add_mod p k
  have h1 := holdsElem_iff.1 (h (p / k) (by omega)) (p % k) hj
  have h2 := getElem_toBytes e v hi hj
  simp only [ep] at h2
  rw [h2, hv _ hi, ← h1]
  congr 1; omega

theorem vec_of_list (xs : List α) (hn : n ≤ xs.length) : ∃ v : Vec α n, ∀ i (hi : i < n), v[i] = xs[i] :=
  ⟨Vector.ofFn fun i => xs[i.val], fun i hi => by simp⟩

theorem fromSliceUnalignedUnchecked_eq (e : Endian) (m : Mem) (s : Slice) :
    SliceIO.fromSliceUnalignedUnchecked e k n m s = (m.load s.addr (n * k)).map (fromBytes e k n) := by
  unfold SliceIO.fromSliceUnalignedUnchecked
  cases h : m.load s.addr (n * k) with
  | error f => rfl
  | ok bs =>
    show Except.ok _ = Except.ok _
    congr 2
    ext p hp : 1
    simp

theorem fromSliceAlignedUnchecked_eq (e : Endian) {align : Nat} (m : Mem) (s : Slice) (h : isAligned s.addr align = true) :
    SliceIO.fromSliceAlignedUnchecked e k n align m s = (m.load s.addr (n * k)).map (fromBytes e k n) := by
  unfold SliceIO.fromSliceAlignedUnchecked
  rw [if_pos h]
  cases h : m.load s.addr (n * k) <;> rfl

end PackedSimd
