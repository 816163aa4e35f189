import Verif.Lemmas.Memory
/-
C05, C06, C07, C08: slices, arrays, hashing.
-/

namespace PackedSimd.Props
open PackedSimd Spec SliceIO

variable {k n : Nat}

/-! ## C05 -/

/-- `from_slice_unaligned` returns the first `n` elements, and panics exactly when there are fewer. -/
theorem C05_from_slice_unaligned (e : Endian) (m : Mem) (s : Slice) (xs : List (BitVec (8 * k)))
    (hlen : s.len = xs.length) (hm : HoldsElems e m s.addr xs) :
    (∀ hn : n ≤ xs.length, ∃ v : Vec (BitVec (8 * k)) n,
      fromSliceUnaligned e k n m s = .ok v ∧ ∀ i (h : i < n), v[i] = xs[i]) ∧
    (xs.length < n → fromSliceUnaligned e k n m s = .error .panic) := by
  constructor
  · intro hn
    obtain ⟨v, hv⟩ := vec_of_list xs hn
    refine ⟨v, ?_, hv⟩
    unfold fromSliceUnaligned
    rw [if_pos (by omega), fromSliceUnalignedUnchecked_eq, load_of (holds_bytes hm v hn hv)]
    show Except.ok (fromBytes e k n (toBytes e v)) = _
    simp
  · intro hn
    unfold fromSliceUnaligned
    rw [if_neg (by omega)]

/-- `from_slice_aligned` returns the first `n` elements, and panics exactly when there are fewer or the start is
misaligned. -/
theorem C05_from_slice_aligned (e : Endian) (align : Nat) (m : Mem) (s : Slice) (xs : List (BitVec (8 * k)))
    (hlen : s.len = xs.length) (hm : HoldsElems e m s.addr xs) :
    (∀ hn : n ≤ xs.length, align ∣ s.addr → ∃ v : Vec (BitVec (8 * k)) n,
      fromSliceAligned e k n align m s = .ok v ∧ ∀ i (h : i < n), v[i] = xs[i]) ∧
    ((xs.length < n ∨ ¬ align ∣ s.addr) → fromSliceAligned e k n align m s = .error .panic) := by
  have hal : isAligned s.addr align = true ↔ align ∣ s.addr := by
    simp [isAligned, Nat.dvd_iff_mod_eq_zero]
  constructor
  · intro hn ha
    obtain ⟨v, hv⟩ := vec_of_list xs hn
    refine ⟨v, ?_, hv⟩
    unfold fromSliceAligned
    rw [if_pos (by omega), if_pos (hal.2 ha), fromSliceAlignedUnchecked_eq _ _ _ (hal.2 ha),
      load_of (holds_bytes hm v hn hv)]
    show Except.ok (fromBytes e k n (toBytes e v)) = _
    simp
  · intro h
    unfold fromSliceAligned
    split
    · rw [if_neg (by rw [hal]; rcases h with h | h; omega; exact h)]
    · rfl

/-- The unchecked readers agree with the checked ones whenever their documented preconditions hold. -/
theorem C05_unchecked_agree (e : Endian) (align : Nat) (m : Mem) (s : Slice) (hn : n ≤ s.len) :
    fromSliceUnalignedUnchecked e k n m s = fromSliceUnaligned e k n m s ∧
    (align ∣ s.addr → fromSliceAlignedUnchecked e k n align m s = fromSliceAligned e k n align m s) := by
  constructor
  · simp [fromSliceUnaligned, hn]
  · intro ha
    have : isAligned s.addr align = true := by simp [isAligned, Nat.mod_eq_zero_of_dvd ha]
    simp [fromSliceAligned, hn, this]

/-- On aligned slices the aligned reader agrees with the unaligned one. -/
theorem C05_aligned_eq_unaligned (e : Endian) (align : Nat) (m : Mem) (s : Slice) (ha : align ∣ s.addr) :
    fromSliceAligned e k n align m s = fromSliceUnaligned e k n m s := by
  have h : isAligned s.addr align = true := by simp [isAligned, Nat.mod_eq_zero_of_dvd ha]
  unfold fromSliceAligned fromSliceUnaligned
  rw [fromSliceAlignedUnchecked_eq _ _ _ h, fromSliceUnalignedUnchecked_eq, if_pos h]

/-- Only the `n * k` bytes of the first `n` elements matter: any other memory agreeing on them gives the same
outcome (so nothing else is read). -/
theorem C05_reads_only_first_n (e : Endian) (align : Nat) (m m' : Mem) (s : Slice)
    (h : ∀ p, s.addr ≤ p → p < s.addr + n * k → m p = m' p) :
    fromSliceUnaligned e k n m s = fromSliceUnaligned e k n m' s ∧
    fromSliceAligned e k n align m s = fromSliceAligned e k n align m' s := by
  have hl : m.load s.addr (n * k) = m'.load s.addr (n * k) := by
    have e1 : ∀ j : Fin (n * k), m (s.addr + j.val) = m' (s.addr + j.val) := fun j => h _ (by omega) (by omega)
    simp only [Mem.load, e1]
  constructor
  · unfold fromSliceUnaligned
    rw [fromSliceUnalignedUnchecked_eq, fromSliceUnalignedUnchecked_eq, hl]
  · unfold fromSliceAligned
    split
    · split
      · rename_i ha
        rw [fromSliceAlignedUnchecked_eq _ _ _ ha, fromSliceAlignedUnchecked_eq _ _ _ ha, hl]
      · rfl
    · rfl

/-- Concrete memory: 4 bytes `1,2,3,4` at address 10. -/
def exampleMem : Mem := fun p => if 10 ≤ p ∧ p < 14 then some (BitVec.ofNat 8 (p - 9)) else none

/-- It holds two 16-bit elements, whose values depend on the byte order; the premises of the theorems above are met. -/
example : HoldsElems (k := 2) .little exampleMem 10 [0x0201, 0x0403] ∧
    HoldsElems (k := 2) .big exampleMem 10 [0x0102, 0x0304] := by
  constructor <;> intro i h j hj <;>
    (match i, h, j, hj with
     | 0, _, 0, _ => exact ⟨_, rfl, by simp [byteAt]⟩
     | 0, _, 1, _ => exact ⟨_, rfl, by simp [byteAt]⟩
     | 1, _, 0, _ => exact ⟨_, rfl, by simp [byteAt]⟩
     | 1, _, 1, _ => exact ⟨_, rfl, by simp [byteAt]⟩)

/-! ## C06 -/

/-- Effect of the unaligned write on memory. -/
theorem C06_write_to_slice_unaligned (e : Endian) (m : Mem) (s : Slice) (xs : List (BitVec (8 * k)))
    (hlen : s.len = xs.length) (hm : HoldsElems e m s.addr xs) (v : Vec (BitVec (8 * k)) n) :
    (n ≤ xs.length → ∃ m', writeToSliceUnaligned e v m s = .ok m' ∧
      HoldsElems e m' s.addr (v.toList ++ xs.drop n) ∧
      ∀ p, p < s.addr ∨ s.addr + n * k ≤ p → m' p = m p) ∧
    (xs.length < n → writeToSliceUnaligned e v m s = .error .panic) := by
  constructor
  · intro hn
    obtain ⟨u, hu⟩ := vec_of_list xs hn
    have hsome := holds_bytes hm u hn hu
    refine ⟨fun p => if h : s.addr ≤ p ∧ p < s.addr + n * k then some ((toBytes e v)[p - s.addr]'(by omega)) else m p,
      ?_, ?_, ?_⟩
    · unfold writeToSliceUnaligned writeToSliceUnalignedUnchecked
      rw [if_pos (by omega)]
      exact store_of (fun j hj => by rw [hsome j hj]; rfl)
    · intro i hi
      rw [holdsElem_iff]
      intro j hj
      simp only [List.length_append, List.length_drop, Vector.length_toList] at hi
      by_cases hin : i < n
      · have hlt := lane_byte_lt hin hj
        have hc : s.addr ≤ s.addr + i * k + j ∧ s.addr + i * k + j < s.addr + n * k := by omega
        rw [dif_pos hc]
        have e1 : s.addr + i * k + j - s.addr = i * k + j := by omega
        simp only [e1]
        rw [getElem_toBytes e v hin hj]
        simp [hin]
      · have hge : n * k ≤ i * k := Nat.mul_le_mul_right k (by omega)
        have hc : ¬ (s.addr ≤ s.addr + i * k + j ∧ s.addr + i * k + j < s.addr + n * k) := by omega
        rw [dif_neg hc, holdsElem_iff.1 (hm i (by omega)) j hj]
        congr 2
        simp only [List.getElem_append, Vector.length_toList, hin, dite_false, List.getElem_drop]
        congr 2; omega
    · intro p hp
      have hc : ¬ (s.addr ≤ p ∧ p < s.addr + n * k) := by omega
      simp only [dif_neg hc]
  · intro hn
    unfold writeToSliceUnaligned
    rw [if_neg (by omega)]

/-- The aligned write is the unaligned write guarded by the alignment check. -/
theorem C06_write_to_slice_aligned (e : Endian) (align : Nat) (m : Mem) (s : Slice) (v : Vec (BitVec (8 * k)) n) :
    (align ∣ s.addr → writeToSliceAligned e align v m s = writeToSliceUnaligned e v m s) ∧
    (¬ align ∣ s.addr → writeToSliceAligned e align v m s = .error .panic) := by
  have hal : isAligned s.addr align = true ↔ align ∣ s.addr := by
    simp [isAligned, Nat.dvd_iff_mod_eq_zero]
  constructor
  · intro ha
    simp [writeToSliceAligned, writeToSliceUnaligned, writeToSliceAlignedUnchecked,
      writeToSliceUnalignedUnchecked, hal.2 ha]
  · intro ha
    unfold writeToSliceAligned
    rw [if_neg (fun h => ha (hal.1 h))]
    split <;> rfl

example : (writeToSliceUnaligned .little (k := 1) #v[(7 : BitVec 8)] exampleMem ⟨11, 2⟩).map
    (fun m' => [m' 10, m' 11, m' 12, m' 14]) = .ok [some 1, some 7, some 3, none] := by decide +kernel

/-- The unchecked writers agree with the checked ones whenever their documented preconditions hold. -/
theorem C06_unchecked_agree (e : Endian) (align : Nat) (m : Mem) (s : Slice) (v : Vec (BitVec (8 * k)) n) (hn : n ≤ s.len) :
    writeToSliceUnalignedUnchecked e v m s = writeToSliceUnaligned e v m s ∧
    (align ∣ s.addr → writeToSliceAlignedUnchecked e align v m s = writeToSliceAligned e align v m s) := by
  have hal : isAligned s.addr align = true ↔ align ∣ s.addr := by
    simp [isAligned, Nat.dvd_iff_mod_eq_zero]
  refine ⟨(if_pos hn).symm, fun ha => ?_⟩
  unfold writeToSliceAligned
  rw [if_pos hn, if_pos (hal.2 ha)]

/-- The alignment precondition of the unchecked aligned functions is needed: at a misaligned address they are undefined behaviour, whatever the memory
holds. -/
theorem C06_unchecked_misaligned (e : Endian) (align : Nat) (m : Mem) (s : Slice) (v : Vec (BitVec (8 * k)) n) (ha : ¬ align ∣ s.addr) :
    writeToSliceAlignedUnchecked e align v m s = .error .ub ∧ fromSliceAlignedUnchecked e k n align m s = .error .ub := by
  have hal : ¬ isAligned s.addr align = true := by
    simpa [isAligned, Nat.dvd_iff_mod_eq_zero] using ha
  exact ⟨if_neg hal, if_neg hal⟩

example : ¬ 4 ∣ (⟨10, 4⟩ : Slice).addr := by decide

/-! ## C07 -/

/-- Reading back what was written gives the same vector. -/
theorem C07_read_after_write (e : Endian) (m m' : Mem) (s : Slice) (v : Vec (BitVec (8 * k)) n)
    (h : writeToSliceUnaligned e v m s = .ok m') : fromSliceUnaligned e k n m' s = .ok v := by
  unfold writeToSliceUnaligned writeToSliceUnalignedUnchecked at h
  split at h
  · rename_i hn
    unfold Mem.store at h
    split at h
    · cases h
      unfold fromSliceUnaligned
      rw [if_pos hn, fromSliceUnalignedUnchecked_eq, load_of (bs := toBytes e v)]
      · show Except.ok _ = _; simp
      · intro j hj
        have hc : s.addr ≤ s.addr + j ∧ s.addr + j < s.addr + n * k := by omega
        rw [dif_pos hc]
        have e1 : s.addr + j - s.addr = j := by omega
        simp only [e1]
    · cases h
  · cases h

/-- Writing back what was read leaves memory as it was. -/
theorem C07_write_after_read (e : Endian) (m : Mem) (s : Slice) (v : Vec (BitVec (8 * k)) n)
    (h : fromSliceUnaligned e k n m s = .ok v) : writeToSliceUnaligned e v m s = .ok m := by
  unfold fromSliceUnaligned at h
  split at h
  · rename_i hn
    rw [fromSliceUnalignedUnchecked_eq] at h
    cases hl : m.load s.addr (n * k) with
    | error f => rw [hl] at h; cases h
    | ok bs =>
      rw [hl] at h
      cases h
      have hb := load_eq_ok hl
      unfold writeToSliceUnaligned writeToSliceUnalignedUnchecked
      rw [if_pos hn, store_of (fun j hj => by rw [hb j hj]; rfl)]
      congr 1
      funext p
      split
      · rename_i hc
        have := hb (p - s.addr) (by omega)
        rw [show s.addr + (p - s.addr) = p by omega] at this
        rw [this]; simp
      · rfl
  · cases h

/-- Array conversions keep every element in its lane and are mutually inverse. -/
theorem C07_array_roundtrip (e : Endian) (v : Vec (BitVec (8 * k)) n) (a : Vector (BitVec (8 * k)) n) :
    (∀ i (h : i < n), (fromArray e a)[i] = a[i]) ∧ (∀ i (h : i < n), (toArray e v)[i] = v[i]) ∧
    toArray e (fromArray e a) = a ∧ fromArray e (toArray e v) = v := by
  simp [fromArray, toArray]

example : toArray .big (k := 2) (fromArray .big #v[(0x1234 : BitVec 16), 0x5678]) = #v[0x1234, 0x5678] :=
  (C07_array_roundtrip (k := 2) .big #v[0, 0] #v[0x1234, 0x5678]).2.2.1

/-! ## C08 -/

/-- Hashing a vector drives any hasher exactly as hashing the array of its lanes. -/
theorem C08_hash_eq_array_hash {σ : Type} (e : Endian) (H : Hasher σ (BitVec (8 * k)))
    (v : Vec (BitVec (8 * k)) n) (st : σ) :
    hash e H v st = (List.ofFn fun i : Fin n => v[i]).foldl H.writeElem (H.writeLengthPrefix st n) := by
  unfold hash hashArray
  congr 1
  simp only [transmute_self]
  apply List.ext_getElem <;> simp

/-- Vectors with equal lanes hash equal, for every hasher and state. -/
theorem C08_equal_hash {σ : Type} (e : Endian) (H : Hasher σ (BitVec (8 * k))) (a b : Vec (BitVec (8 * k)) n) (st : σ)
    (h : ∀ i (_ : i < n), a[i] = b[i]) : hash e H a st = hash e H b st := by
  have : a = b := by ext i hi : 1; exact h i hi
  rw [this]

example : hash .little (k := 1) ⟨fun st len => st ++ [len], fun st (b : BitVec 8) => st ++ [b.toNat]⟩
    #v[(5 : BitVec 8), 6] [] = [2, 5, 6] := by
  rw [C08_hash_eq_array_hash]; rfl

end PackedSimd.Props
