import Verif.Model.Ptr
import Verif.Lemmas.Convert
import Verif.Props.Arith
import Verif.Props.Compare
import Verif.Props.Slices
import Verif.Props.MaskReduce
/-
C39: pointer arithmetic, C40: offset_from, C41: null and equality, C62: pointer order.
-/
namespace PackedSimd.Props
open PackedSimd Spec Intr

variable {n : Nat}

theorem usizeToIsize_eq (t : Target) (c : Vec (BitVec (8 * t.ptrBytes)) n) : Ptr.usizeToIsize t c = .ok c := by
  have hlane : ∀ z, castLane t.ptrBytes .isize .usize z = .ok z := by
    exact fun z => congrArg Except.ok (BitVec.setWidth_eq z)
  have := simdCast_ok t.ptrBytes .isize .usize c id hlane
  exact this.trans (congrArg Except.ok (Vector.map_id c))

theorem ptr_bits (w : Nat) (sz : Nat) (x c : BitVec w) :
    x + c * BitVec.ofNat w sz = BitVec.ofInt w (x.toNat + val true c * sz) := by
  rw [BitVec.ofInt_add, BitVec.ofInt_mul, ofInt_val]
  simp

theorem ptr_bits_nat (w : Nat) (sz : Nat) (x c : BitVec w) :
    x + c * BitVec.ofNat w sz = BitVec.ofInt w (x.toNat + c.toNat * sz) := by
  rw [BitVec.ofInt_add, BitVec.ofInt_mul]
  simp

theorem wrappingOffset_lane (t : Target) (sz : Nat) (v c : Vec (BitVec (8 * t.ptrBytes)) n) {i : Nat} (hi : i < n) :
    (Ptr.wrappingOffset t sz v c)[i] = v[i] + c[i] * BitVec.ofNat _ sz := by
  simp [Ptr.wrappingOffset, Ptr.ofInt, Ptr.toInt, Ops.add, simdAdd, Ops.mulVS, Ops.mul, simdMul, splat]

/-! ## C39 -/

/-- `offset` and `wrapping_offset` move the address of lane `i` by `c_i * size_of::<T>()` bytes (signed count), modulo the address space. -/
theorem C39_offset (t : Target) (sz : Nat) (v c : Vec (BitVec (8 * t.ptrBytes)) n) (i : Nat) (hi : i < n) :
    WrapsTo false (8 * t.ptrBytes) (v[i].toNat + val true c[i] * sz) (Ptr.offset t sz v c)[i] ∧
    WrapsTo false (8 * t.ptrBytes) (v[i].toNat + val true c[i] * sz) (Ptr.wrappingOffset t sz v c)[i] := by
  have h := (wrapsTo_iff (s := false)).2 ((wrappingOffset_lane t sz v c hi).trans (ptr_bits _ sz v[i] c[i]))
  exact ⟨h, h⟩

/-- `add` and `wrapping_add` (unsigned count) move forward, `sub` and `wrapping_sub` back, modulo the address space. -/
theorem C39_add_sub (t : Target) (sz : Nat) (v c : Vec (BitVec (8 * t.ptrBytes)) n) :
    (∃ r, Ptr.add t sz v c = .ok r ∧ Ptr.wrappingAdd t sz v c = .ok r ∧
      ∀ i (hi : i < n), WrapsTo false (8 * t.ptrBytes) (v[i].toNat + c[i].toNat * sz) r[i]) ∧
    (∃ r, Ptr.sub t sz v c = .ok r ∧ Ptr.wrappingSub t sz v c = .ok r ∧
      ∀ i (hi : i < n), WrapsTo false (8 * t.ptrBytes) (v[i].toNat - c[i].toNat * sz) r[i]) := by
  constructor
  · refine ⟨Ptr.wrappingOffset t sz v c, ?_, ?_, ?_⟩
    · unfold Ptr.add; rw [usizeToIsize_eq]; rfl
    · unfold Ptr.wrappingAdd; rw [usizeToIsize_eq]; rfl
    · exact fun i hi => (wrapsTo_iff (s := false)).2 ((wrappingOffset_lane t sz v c hi).trans (ptr_bits_nat _ sz v[i] c[i]))
  · refine ⟨Ptr.wrappingOffset t sz v (Ops.neg c), ?_, ?_, ?_⟩
    · unfold Ptr.sub; rw [usizeToIsize_eq]; rfl
    · unfold Ptr.wrappingSub; rw [usizeToIsize_eq]; rfl
    · intro i hi
      rw [wrapsTo_iff, wrappingOffset_lane t sz v _ hi]
      have e : (Ops.neg c)[i] = -c[i] := by simp [Ops.neg, Ops.mul, simdMul, splat, ofInt_neg_one_mul]
      rw [e, Int.sub_eq_add_neg, ← Int.neg_mul, BitVec.ofInt_add, BitVec.ofInt_mul, BitVec.ofInt_neg]
      simp

/-- `add` then `sub` (in either order, wrapping or not) gives the pointers back. -/
theorem C39_inverse (t : Target) (sz : Nat) (v c r : Vec (BitVec (8 * t.ptrBytes)) n) :
    (Ptr.add t sz v c = .ok r → Ptr.sub t sz r c = .ok v) ∧
    (Ptr.sub t sz v c = .ok r → Ptr.add t sz r c = .ok v) ∧
    (Ptr.wrappingAdd t sz v c = .ok r → Ptr.wrappingSub t sz r c = .ok v) ∧
    (Ptr.wrappingSub t sz v c = .ok r → Ptr.wrappingAdd t sz r c = .ok v) := by
  have key1 : Ptr.add t sz v c = .ok r → Ptr.sub t sz r c = .ok v := by
    intro h
    obtain ⟨⟨a, ha, -, h1⟩, -⟩ := C39_add_sub t sz v c
    rw [h] at ha; cases ha
    obtain ⟨-, ⟨b, hb, -, h2⟩⟩ := C39_add_sub t sz r c
    rw [hb]
    congr 1
    ext i hi : 1
    have e1 := wrapsTo_iff.1 (h1 i hi)
    have e2 := wrapsTo_iff.1 (h2 i hi)
    rw [e2, Int.sub_eq_add_neg, BitVec.ofInt_add, BitVec.ofInt_natCast, BitVec.ofNat_toNat, BitVec.setWidth_eq, e1, ← BitVec.ofInt_add, Int.add_neg_cancel_right,
      BitVec.ofInt_natCast, BitVec.ofNat_toNat, BitVec.setWidth_eq]
  have key2 : Ptr.sub t sz v c = .ok r → Ptr.add t sz r c = .ok v := by
    intro h
    obtain ⟨-, ⟨a, ha, -, h1⟩⟩ := C39_add_sub t sz v c
    rw [h] at ha; cases ha
    obtain ⟨⟨b, hb, -, h2⟩, -⟩ := C39_add_sub t sz r c
    rw [hb]
    congr 1
    ext i hi : 1
    have e1 := wrapsTo_iff.1 (h1 i hi)
    have e2 := wrapsTo_iff.1 (h2 i hi)
    rw [e2, BitVec.ofInt_add, BitVec.ofInt_natCast, BitVec.ofNat_toNat, BitVec.setWidth_eq, e1, ← BitVec.ofInt_add]
    simp
  have agree : ∀ u, Ptr.wrappingAdd t sz u c = Ptr.add t sz u c ∧ Ptr.wrappingSub t sz u c = Ptr.sub t sz u c := fun u => by
    obtain ⟨⟨a, ha, ha', -⟩, ⟨b, hb, hb', -⟩⟩ := C39_add_sub t sz u c
    exact ⟨by rw [ha, ha'], by rw [hb, hb']⟩
  refine ⟨key1, key2, ?_, ?_⟩
  · rw [(agree v).1, (agree r).2]; exact key1
  · rw [(agree v).2, (agree r).1]; exact key2

/-- `add` with an unsigned count agrees with `offset` by the same signed count, `sub` with `offset` by its negation. -/
theorem C39_add_is_offset (t : Target) (sz : Nat) (v c d : Vec (BitVec (8 * t.ptrBytes)) n) :
    ((∀ i (hi : i < n), val true d[i] = c[i].toNat) → Ptr.add t sz v c = .ok (Ptr.offset t sz v d)) ∧
    ((∀ i (hi : i < n), val true d[i] = -c[i].toNat) → Ptr.sub t sz v c = .ok (Ptr.offset t sz v d)) := by
  obtain ⟨⟨a, ha, -, h1⟩, ⟨b, hb, -, h2⟩⟩ := C39_add_sub t sz v c
  constructor
  · intro h
    rw [ha]; congr 1; ext i hi : 1
    rw [wrapsTo_iff.1 (h1 i hi), wrapsTo_iff.1 (C39_offset t sz v d i hi).1, h i hi]
  · intro h
    rw [hb]; congr 1; ext i hi : 1
    rw [wrapsTo_iff.1 (h2 i hi), wrapsTo_iff.1 (C39_offset t sz v d i hi).1, h i hi, Int.neg_mul, Int.sub_eq_add_neg]

/-- Offsets add up. -/
theorem C39_offset_offset (t : Target) (sz : Nat) (v c d : Vec (BitVec (8 * t.ptrBytes)) n) :
    Ptr.offset t sz (Ptr.offset t sz v c) d = Ptr.offset t sz v (Ops.add c d) := by
  unfold Ptr.offset
  ext i hi : 1
  rw [wrappingOffset_lane _ _ _ _ hi, wrappingOffset_lane _ _ _ _ hi, wrappingOffset_lane _ _ _ _ hi]
  simp only [Ops.add, simdAdd, Vector.getElem_zipWith]
  rw [BitVec.add_assoc, ← BitVec.add_mul]

/-- A 32-bit target, elements of 12 bytes: from address 24, one element forward is 36 and three back wraps to 2^32 - 12. -/
example : (Ptr.offset armNeon 12 (#v[24, 24] : Vec (BitVec (8 * 4)) 2) (#v[1, -3] : Vec (BitVec (8 * 4)) 2)).toList.map (·.toNat) =
    [36, 0xfffffff4] := by decide +kernel

/-! ## C40 -/

/-- What `offset_from` computes: the distance from `self` to `origin` (wrapped to `isize`, in units of `T`, rounded toward zero), i.e. the
negative of the documented distance.  Missing from the full claim: the sign, see `C40_sign_fails`. -/
theorem C40_swapped_partial (t : Target) (sz : Nat) (h0 : 0 < sz) (hsz : 2 * sz < 2 ^ (8 * t.ptrBytes))
    (v origin : Vec (BitVec (8 * t.ptrBytes)) n) :
    ∃ r, Ptr.offsetFrom t sz v origin = .ok r ∧ Ptr.wrappingOffsetFrom t sz v origin = .ok r ∧
      ∀ i (hi : i < n), ∃ d m : Int, InRange true (8 * t.ptrBytes) d ∧ (2 ^ (8 * t.ptrBytes) : Int) ∣ d - (origin[i].toNat - v[i].toNat) ∧
        TruncDiv d sz (val true r[i]) m := by
  have hs : val true (BitVec.ofNat (8 * t.ptrBytes) sz) = sz := by
    unfold val
    have e : (BitVec.ofNat (8 * t.ptrBytes) sz).toNat = sz := by rw [BitVec.toNat_ofNat]; exact Nat.mod_eq_of_lt (by omega)
    rw [e, Bool.true_and, decide_eq_false (by omega)]
    simp
  obtain ⟨-, h⟩ := C10_div true (Ops.sub origin v) (splat n (BitVec.ofNat (8 * t.ptrBytes) sz))
  obtain ⟨r, hr, hl⟩ := h (by
    rintro ⟨i, hi, hu⟩
    simp only [splat, Vector.getElem_ofFn, hs, DivUndefined] at hu
    omega)
  have e : Ptr.wrappingOffsetFrom t sz v origin = .ok r := by
    simpa [Ptr.wrappingOffsetFrom, Ptr.toInt, Ops.divVS] using hr
  refine ⟨r, e, e, fun i hi => ?_⟩
  obtain ⟨m, hm⟩ := hl i hi
  simp only [splat, Vector.getElem_ofFn, hs] at hm
  obtain ⟨h1, h2⟩ := C09_sub true origin v i hi
  refine ⟨val true (Ops.sub origin v)[i], m, h1, ?_, hm⟩
  obtain ⟨a, ha⟩ := h2
  obtain ⟨b, hb⟩ := val_dvd true origin[i]
  obtain ⟨c, hc⟩ := val_dvd true v[i]
  refine ⟨a + b - c, ?_⟩
  rw [Int.mul_sub, Int.mul_add]
  omega

theorem truncDiv_mul {c s q m : Int} (h : TruncDiv (c * s) s q m) : q = c := by
  obtain ⟨h1, h2, h3, h4⟩ := h
  have e : (c - q) * s = m := by rw [Int.sub_mul]; omega
  have : (c - q).natAbs * s.natAbs < s.natAbs := by rw [← Int.natAbs_mul, e]; exact h2
  have hz : (c - q).natAbs = 0 := by
    rcases Nat.eq_zero_or_pos (c - q).natAbs with h | h
    · exact h
    · have := Nat.le_mul_of_pos_left s.natAbs h; omega
  omega

theorem eq_of_inRange {w : Nat} {a b : Int} (ha : InRange true w a) (hb : InRange true w b) (h : (2 ^ w : Int) ∣ a - b) : a = b := by
  unfold InRange at ha hb
  rw [if_pos rfl] at ha hb
  have hp : (0 : Int) < 2 ^ w := Int.pow_pos (by decide)
  generalize (2 ^ w : Int) = W at *
  obtain ⟨k, hk⟩ := h
  have h1 : k < 1 := by
    rcases Int.lt_or_le k 1 with h | h
    · exact h
    · have := Int.mul_le_mul_of_nonneg_left h (Int.le_of_lt hp); omega
  have h2 : -1 < k := by
    rcases Int.lt_or_le (-1) k with h | h
    · exact h
    · have := Int.mul_le_mul_of_nonneg_left h (Int.le_of_lt hp); omega
  have : k = 0 := by omega
  subst this
  simp at hk
  omega

/-- With the arguments the other way round it is the inverse of `offset`: `p.offset_from(p.offset(c)) = c`, and
`p.offset(c).offset_from(p) = -c`, whenever the byte offset and its negation fit in an `isize`. -/
theorem C40_inverse_swapped_partial (t : Target) (sz : Nat) (h0 : 0 < sz) (hsz : 2 * sz < 2 ^ (8 * t.ptrBytes))
    (v c : Vec (BitVec (8 * t.ptrBytes)) n)
    (hc : ∀ i (hi : i < n), InRange true (8 * t.ptrBytes) (val true c[i] * sz) ∧ InRange true (8 * t.ptrBytes) (-(val true c[i] * sz))) :
    (∃ r, Ptr.offsetFrom t sz v (Ptr.offset t sz v c) = .ok r ∧ ∀ i (hi : i < n), val true r[i] = val true c[i]) ∧
    (∃ r, Ptr.offsetFrom t sz (Ptr.offset t sz v c) v = .ok r ∧ ∀ i (hi : i < n), val true r[i] = -val true c[i]) := by
  have hoff : ∀ i (hi : i < n), (2 ^ (8 * t.ptrBytes) : Int) ∣ ((Ptr.offset t sz v c)[i].toNat - v[i].toNat : Int) - val true c[i] * sz := by
    intro i hi
    obtain ⟨-, h⟩ := (C39_offset t sz v c i hi).1
    rw [val_false] at h
    rw [show ((Ptr.offset t sz v c)[i].toNat - v[i].toNat : Int) - val true c[i] * sz =
      (Ptr.offset t sz v c)[i].toNat - (v[i].toNat + val true c[i] * sz) by omega]
    exact h
  constructor
  · obtain ⟨r, hr, -, h⟩ := C40_swapped_partial t sz h0 hsz v (Ptr.offset t sz v c)
    refine ⟨r, hr, fun i hi => ?_⟩
    obtain ⟨d, m, hd, h1, h2⟩ := h i hi
    have e : d = val true c[i] * sz := eq_of_inRange hd (hc i hi).1 (by
      have := Int.dvd_add h1 (hoff i hi)
      rwa [show d - ((Ptr.offset t sz v c)[i].toNat - v[i].toNat : Int) + (((Ptr.offset t sz v c)[i].toNat - v[i].toNat : Int) - val true c[i] * sz)
        = d - val true c[i] * sz by omega] at this)
    rw [e] at h2
    exact truncDiv_mul h2
  · obtain ⟨r, hr, -, h⟩ := C40_swapped_partial t sz h0 hsz (Ptr.offset t sz v c) v
    refine ⟨r, hr, fun i hi => ?_⟩
    obtain ⟨d, m, hd, h1, h2⟩ := h i hi
    have e : d = -val true c[i] * sz := by
      rw [Int.neg_mul]
      refine eq_of_inRange hd (hc i hi).2 ?_
      have := Int.dvd_sub h1 (hoff i hi)
      rwa [show d - (v[i].toNat - (Ptr.offset t sz v c)[i].toNat : Int) - (((Ptr.offset t sz v c)[i].toNat - v[i].toNat : Int) - val true c[i] * sz)
        = d - -(val true c[i] * sz) by omega] at this
    rw [e] at h2
    exact truncDiv_mul h2

/-- The documented claim fails for every nonzero count: `p.offset(c).offset_from(p)` is never `c`. -/
theorem C40_sign_fails (t : Target) (sz : Nat) (h0 : 0 < sz) (hsz : 2 * sz < 2 ^ (8 * t.ptrBytes))
    (v c : Vec (BitVec (8 * t.ptrBytes)) n)
    (hc : ∀ i (hi : i < n), InRange true (8 * t.ptrBytes) (val true c[i] * sz) ∧ InRange true (8 * t.ptrBytes) (-(val true c[i] * sz)))
    (hne : ∃ i, ∃ hi : i < n, val true c[i] ≠ 0) : Ptr.offsetFrom t sz (Ptr.offset t sz v c) v ≠ .ok c := by
  intro h
  obtain ⟨-, r, hr, hl⟩ := C40_inverse_swapped_partial t sz h0 hsz v c hc
  rw [h] at hr; cases hr
  obtain ⟨i, hi, hn⟩ := hne
  have := hl i hi
  omega

/-- For zero-sized `T` the safe function `wrapping_offset_from` divides by zero. -/
theorem C40_zero_sized_fails (t : Target) (hn : 0 < n) (v origin : Vec (BitVec (8 * t.ptrBytes)) n) :
    Ptr.wrappingOffsetFrom t 0 v origin = .error .ub := by
  obtain ⟨h, -⟩ := C10_div true (Ops.sub origin v) (splat n (BitVec.ofNat (8 * t.ptrBytes) 0))
  have := h ⟨0, hn, .inl (by simp [splat, val])⟩
  simpa [Ptr.wrappingOffsetFrom, Ptr.toInt, Ops.divVS] using this

example : Ptr.offsetFrom x64Avx 4 (#v[0x1008, 0x1000] : Vec (BitVec (8 * 8)) 2) (#v[0x1000, 0x100b] : Vec (BitVec (8 * 8)) 2) =
    .ok (#v[-2, 2] : Vec (BitVec (8 * 8)) 2) := by decide +kernel

/-! ## C41, C62 -/

/-- Every lane of `null()` and `default()` is address 0, and `is_null` holds exactly in the lanes with address 0. -/
theorem C41_null (t : Target) (v : Vec (BitVec (8 * t.ptrBytes)) n) (i : Nat) (hi : i < n) :
    (Ptr.null t n)[i].toNat = 0 ∧ (Ptr.default t n)[i].toNat = 0 ∧ IsMaskLane (Ptr.isNull t v)[i] (decide (v[i].toNat = 0)) := by
  refine ⟨by simp [Ptr.null, splat], by simp [Ptr.default, Ptr.null, splat], ?_⟩
  have := (C18_int false v (Ptr.null t n) i hi).1
  rw [val_false, val_false] at this
  simpa [Ptr.isNull, Ptr.eq, Ptr.toInt, Cmp.eq, Ptr.null, splat] using this

/-- Vertical comparisons of pointers compare addresses as unsigned numbers. -/
theorem C62_compare (t : Target) (a b : Vec (BitVec (8 * t.ptrBytes)) n) (i : Nat) (hi : i < n) :
    IsMaskLane (Ptr.eq t a b)[i] (decide (a[i].toNat = b[i].toNat)) ∧ IsMaskLane (Ptr.ne t a b)[i] (decide (a[i].toNat ≠ b[i].toNat)) ∧
    IsMaskLane (Ptr.lt t a b)[i] (decide (a[i].toNat < b[i].toNat)) ∧ IsMaskLane (Ptr.le t a b)[i] (decide (a[i].toNat ≤ b[i].toNat)) ∧
    IsMaskLane (Ptr.gt t a b)[i] (decide (a[i].toNat > b[i].toNat)) ∧ IsMaskLane (Ptr.ge t a b)[i] (decide (a[i].toNat ≥ b[i].toNat)) := by
  have h := C18_int false a b i hi
  simp only [val_false, ne_eq, Int.natCast_inj, Int.ofNat_lt, Int.ofNat_le, gt_iff_lt, ge_iff_le] at h
  simpa [Ptr.eq, Ptr.ne, Ptr.lt, Ptr.le, Ptr.gt, Ptr.ge, Ptr.toInt, Cmp.eq, Cmp.ne, Cmp.lt, Cmp.le, Cmp.gt, Cmp.ge] using h

theorem ptrEq_eq (t : Target) (a b : Vec (BitVec (8 * t.ptrBytes)) n) : Ptr.eq t a b = Cmp.eq a b := by simp [Ptr.eq, Ptr.toInt, Cmp.eq]
theorem ptrNe_eq (t : Target) (a b : Vec (BitVec (8 * t.ptrBytes)) n) : Ptr.ne t a b = Cmp.ne a b := by simp [Ptr.ne, Ptr.toInt, Cmp.ne]

/-- `==` holds exactly when all addresses are equal, `!=` is its negation. -/
theorem C41_eq (t : Target) (ht : t.Supported) (c : Ptr.Count) (a b : Vec (BitVec (8 * c.mask.laneBytes t)) c.mask.lanes) :
    ∃ e, Ptr.partialEq t c a b = .ok e ∧ Ptr.partialNe t c a b = .ok (!e) ∧
      (e = true ↔ ∀ i (hi : i < c.mask.lanes), a[i].toNat = b[i].toNat) := by
  obtain ⟨e, d, h1, h2, h3, h4⟩ := C19_eq_ne t c.mask ht a b
  have e1 : Ptr.partialEq t c a b = intEq t c.mask a b := by
    cases c <;> exact congrArg (Mask.all t _) (ptrEq_eq t a b)
  have e2 : Ptr.partialNe t c a b = intNe t c.mask a b := by
    cases c <;> exact congrArg (Mask.any t _) (ptrNe_eq t a b)
  refine ⟨e, e1.trans h1, by rw [e2, h2, h4], h3.trans ?_⟩
  simp only [BitVec.toNat_inj]

/-- Arrays of pointers convert to vectors and back with the same lanes; hashing is that of the array of addresses. -/
theorem C41_array_hash {σ : Type} (t : Target) (v : Vec (BitVec (8 * t.ptrBytes)) n) (a : Vector (BitVec (8 * t.ptrBytes)) n)
    (H : Hasher σ (BitVec (8 * t.ptrBytes))) (st : σ) :
    Ptr.fromArray t a = a ∧ Ptr.intoArray t v = v ∧
    Ptr.hash t H v st = (List.ofFn fun i : Fin n => v[i]).foldl H.writeElem (H.writeLengthPrefix st n) := by
  refine ⟨by simp [Ptr.fromArray], by simp [Ptr.intoArray], ?_⟩
  unfold Ptr.hash Ptr.toInt
  rw [transmute_self]
  exact C08_hash_eq_array_hash t.endian H v st

example : Ptr.partialEq x64Avx .x2 (#v[0, 0x8000000000000000] : Vec (BitVec (8 * 8)) 2) (#v[0, 0x8000000000000000] : Vec (BitVec (8 * 8)) 2) = .ok true ∧
    (Ptr.lt x64Avx (#v[1, 0x8000000000000000] : Vec (BitVec (8 * 8)) 2) (#v[0x8000000000000000, 1] : Vec (BitVec (8 * 8)) 2)).toList.map (·.toNat) =
      [0xffffffffffffffff, 0] := by decide +kernel

end PackedSimd.Props
