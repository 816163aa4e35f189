import Verif.Lemmas.SwapBytes
import Verif.Lemmas.Compare
import Verif.Props.MaskReduce
import Verif.Spec.Memory
/-
C29 - C33.
-/
namespace PackedSimd.Props
open PackedSimd Spec Intr

/-! ## C29: `shuffle!` -/

section
variable {α : Type} {n m : Nat}

/-- Lengths of index lists the documentation allows. -/
def docArity (m : Nat) : Prop := ∃ d, 1 ≤ d ∧ d ≤ 6 ∧ m = 2 ^ d

theorem shuffleArity_iff (m : Nat) : shuffleArity m = true ↔ docArity m := by
  constructor
  · intro h
    simp only [shuffleArity, Bool.or_eq_true, beq_iff_eq] at h
    rcases h with ((((h | h) | h) | h) | h) | h
    · exact ⟨1, by decide, by decide, h⟩
    · exact ⟨2, by decide, by decide, h⟩
    · exact ⟨3, by decide, by decide, h⟩
    · exact ⟨4, by decide, by decide, h⟩
    · exact ⟨5, by decide, by decide, h⟩
    · exact ⟨6, by decide, by decide, h⟩
  · rintro ⟨d, h1, h2, rfl⟩
    have : d = 1 ∨ d = 2 ∨ d = 3 ∨ d = 4 ∨ d = 5 ∨ d = 6 := by omega
    rcases this with rfl | rfl | rfl | rfl | rfl | rfl <;> decide

/-- Two vectors: lane `k` is lane `idx[k]` of `a` for `idx[k] < n`, of `b` (minus `n`) otherwise. -/
theorem C29_two_vectors (a b : Vec α n) (idx : Vector Nat m) (ha : docArity m) (h : ∀ k (hk : k < m), idx[k] < 2 * n) :
    ∃ r, shuffle2 a b idx = some r ∧ ∀ k (hk : k < m),
      (∀ h1 : idx[k] < n, r[k] = a[idx[k]]) ∧ (∀ h1 : n ≤ idx[k], r[k] = b[idx[k] - n]'(by have := h k hk; omega)) := by
  unfold shuffle2
  rw [if_pos ((shuffleArity_iff m).2 ha), simdShuffle_some _ _ _ (fun k hk => by have := h k hk; omega)]
  refine ⟨_, rfl, ?_⟩
  intro k hk
  rw [Vector.getElem_ofFn]
  refine ⟨fun h1 => ?_, fun h1 => ?_⟩
  · rw [Vector.getElem_append_left]
  · rw [Vector.getElem_append_right _ h1]

/-- Index lists of another length, or with an index outside `0..2n`, do not compile. -/
theorem C29_rejected (a b : Vec α n) (idx : Vector Nat m) (h : ¬ docArity m ∨ ∃ k, ∃ hk : k < m, 2 * n ≤ idx[k]) :
    shuffle2 a b idx = none := by
  unfold shuffle2
  split
  · rename_i h1
    rcases h with h | ⟨k, hk, h⟩
    · exact absurd ((shuffleArity_iff m).1 h1) h
    · exact simdShuffle_none _ _ _ ⟨k, hk, by omega⟩
  · rfl

/-- One vector, documented indices (`< n`): lane `k` is lane `idx[k]`. -/
theorem C29_one_vector (v : Vec α n) (idx : Vector Nat m) (ha : docArity m) (h : ∀ k (hk : k < m), idx[k] < n) :
    ∃ r, shuffle1 v idx = some r ∧ ∀ k (hk : k < m), r[k] = v[idx[k]]'(h k hk) := by
  refine ⟨_, shuffle1_spec v idx ((shuffleArity_iff m).2 ha) h, ?_⟩
  intro k hk; rw [Vector.getElem_ofFn]

/-- Composition: shuffling a shuffled vector picks through the composed index map. -/
theorem C29_compose {l : Nat} (a b : Vec α n) (idx : Vector Nat m) (idx' : Vector Nat l) (ha : docArity m) (ha' : docArity l)
    (h : ∀ k (hk : k < m), idx[k] < 2 * n) (h' : ∀ k (hk : k < l), idx'[k] < m) :
    ((shuffle2 a b idx).bind fun r => shuffle1 r idx') =
      shuffle2 a b (Vector.ofFn fun k : Fin l => idx[idx'[k.val]]'(h' k.val k.2)) := by
  unfold shuffle2
  rw [if_pos ((shuffleArity_iff m).2 ha), if_pos ((shuffleArity_iff l).2 ha'),
    simdShuffle_some _ _ _ (fun k hk => by have := h k hk; omega),
    simdShuffle_some _ _ _ (fun k hk => by rw [Vector.getElem_ofFn]; have := h _ (h' k hk); dsimp only; omega)]
  show shuffle1 _ idx' = _
  rw [shuffle1_spec _ _ ((shuffleArity_iff l).2 ha') h']
  congr 1
  ext k hk : 1
  simp

/-- One vector: the documentation restricts the indices to `0..n`, but an out-of-range list such as `[4, 7]` for a four-lane vector is accepted
and wraps around: "an index list outside the range is rejected" is false for the one-vector form. -/
theorem C29_one_vector_rejection_fails :
    ¬ ∀ (n m : Nat) (v : Vec Nat n) (idx : Vector Nat m), (∃ k, ∃ hk : k < m, n ≤ idx[k]) → shuffle1 v idx = none := by
  intro h
  have := h 4 2 #v[10, 11, 12, 13] #v[4, 7] ⟨0, by decide, by decide⟩
  revert this; decide +kernel

/-- What is true instead: the one-vector form accepts exactly the indices below `2n`, reduced modulo `n`. -/
theorem C29_one_vector_partial (v : Vec α n) (idx : Vector Nat m) (ha : docArity m) :
    ((∃ k, ∃ hk : k < m, 2 * n ≤ idx[k]) → shuffle1 v idx = none) ∧
    (∀ h : ∀ k (hk : k < m), idx[k] < 2 * n, ∃ r, shuffle1 v idx = some r ∧
      ∀ k (hk : k < m), r[k] = v[idx[k] % n]'(Nat.mod_lt _ (by have := h k hk; omega))) := by
  refine ⟨fun h => C29_rejected v v idx (Or.inr h), fun h => ?_⟩
  obtain ⟨r, hr, hk⟩ := C29_two_vectors v v idx ha h
  refine ⟨r, hr, fun k hkm => ?_⟩
  obtain ⟨h1, h2⟩ := hk k hkm
  have hlt := h k hkm
  by_cases hc : idx[k] < n
  · rw [h1 hc]; simp only [Nat.mod_eq_of_lt hc]
  · rw [h2 (by omega)]
    have : idx[k] % n = idx[k] - n := by
      rw [Nat.mod_eq_sub_mod (by omega), Nat.mod_eq_of_lt (by omega)]
    simp only [this]

example : shuffle2 #v[1, 2, 3, 4] #v[5, 6, 7, 8] #v[4, 0, 5, 1] = some #v[5, 1, 6, 2] ∧
    shuffle2 #v[1, 2, 3, 4] #v[5, 6, 7, 8] #v[1, 8] = none ∧
    shuffle1 #v[1, 2, 3, 4] #v[2, 1, 3, 0] = some #v[3, 2, 4, 1] := by decide +kernel
end

/-! ## C30, C31: `shuffle1_dyn` -/

section
variable (t : Target) (ty : MaskTy)

/-- In-range indices: lane `k` is lane `idx[k]` of `v`, on every supported target. -/
theorem C30_unsigned (ht : t.Supported) (v idx : Vec (BitVec (8 * ty.laneBytes t)) ty.lanes)
    (h : ∀ (k : Nat) (hk : k < ty.lanes), idx[k].toNat < ty.lanes) :
    ∃ r, shuffle1Dyn t ty v idx = .ok r ∧ ∀ (k : Nat) (hk : k < ty.lanes), r[k] = v[idx[k].toNat]'(h k hk) := by
  refine ⟨Vector.ofFn fun i => v[idx[i.val].toNat]'(h i i.2), ?_, fun k hk => by rw [Vector.getElem_ofFn]⟩
  cases ty
  case m8x8 => exact Shuf.u8x8_spec t ht v idx h
  case m8x16 => exact Shuf.u8x16_spec t ht v idx h
  case m16x8 => exact Shuf.u16x8_spec t ht v idx h
  case m32x4 => exact Shuf.u32x4_spec t ht v idx h
  case m64x2 => exact Shuf.u64x2_spec t ht v idx h
  case m128x1 =>
    show Except.ok v = _
    congr 1
    ext k hk : 1
    have hk' : k < 1 := hk
    have h0 := h k hk
    have h1 : (idx[k]).toNat = k := by have : (idx[k]).toNat < 1 := h0; omega
    rw [Vector.getElem_ofFn]; dsimp only; congr 1; exact h1.symm
  all_goals exact Shuf.fallback_spec t ht v idx h

/-- The same for signed, mask, float and pointer vectors. -/
theorem C30_other_types (ht : t.Supported) (v idx : Vec (BitVec (8 * ty.laneBytes t)) ty.lanes)
    (h : ∀ (k : Nat) (hk : k < ty.lanes), idx[k].toNat < ty.lanes) :
    ∃ r, shuffle1DynNonU t ty v idx = .ok r ∧ ∀ (k : Nat) (hk : k < ty.lanes), r[k] = v[idx[k].toNat]'(h k hk) := by
  obtain ⟨r, hr, hk⟩ := C30_unsigned t ty ht v idx h
  refine ⟨r, ?_, hk⟩
  unfold shuffle1DynNonU
  rw [transmute_self]
  dsimp only
  rw [hr]
  show Except.ok _ = _
  rw [transmute_self]

/-- The hypotheses are met by a non-trivial index vector, on a target using the scaled byte shuffle and on one using AVX permutes. -/
example : shuffle1Dyn armNeon .m32x4 #v[0x11223344, 2, 3, 4] #v[3, 3, 0, 1] = .ok #v[4, 4, 0x11223344, 2] ∧
    shuffle1Dyn x64Avx .m32x4 #v[0x11223344, 2, 3, 4] #v[3, 3, 0, 1] = .ok #v[4, 4, 0x11223344, 2] ∧
    shuffle1Dyn { armNeon with endian := .big } .m16x8 #v[0x1122, 2, 3, 4, 5, 6, 7, 0xabcd] #v[7, 0, 7, 1, 2, 3, 4, 5] =
      .ok #v[0xabcd, 0x1122, 0xabcd, 2, 3, 4, 5, 6] := by decide +kernel

end

/-- Out-of-range indices: targets disagree (portable targets panic, SSSE3 wraps, AArch64 gives zero), so C31 is false. -/
theorem C31_same_outcome_fails :
    ¬ ∀ (t t' : Target), t.Supported → t'.Supported → ∀ (v idx : Vec (BitVec 8) 16),
      Shuf.u8x16 t v idx = Shuf.u8x16 t' v idx := by
  intro h
  have h1 := h armNeon { x64Avx with ssse3 := true } (Or.inl rfl) (Or.inr rfl) (splat 16 7#8) (splat 16 16#8)
  revert h1; decide +kernel

/-- The three different outcomes, for `v = splat(7)`, `idx = splat(16)`. -/
theorem C31_outcomes_fails :
    Shuf.u8x16 armNeon (splat 16 7#8) (splat 16 16#8) = .error .panic ∧
    Shuf.u8x16 { x64Avx with ssse3 := true } (splat 16 7#8) (splat 16 16#8) = .ok (splat 16 7#8) ∧
    Shuf.u8x16 { armNeon with arch := .aarch64 } (splat 16 7#8) (splat 16 16#8) = .ok (splat 16 0#8) := by decide +kernel

/-- Even the portable implementation does not always panic: the index is narrowed to `usize` first, so on a 64-bit target index `2^64` of a
`u128x2` selects lane 0. -/
theorem C31_narrowing_fails :
    shuffle1Dyn x64Avx .m128x2 #v[5, 6] #v[0x10000000000000000, 1] = .ok #v[5, 6] := by decide +kernel

/-- Shapes whose `shuffle1_dyn` is the portable loop on every target. -/
def portableShape : MaskTy → Bool
  | .m8x8 | .m8x16 | .m16x8 | .m32x4 | .m64x2 | .m128x1 => false
  | _ => true

/-- What is true: for the shapes that have only the portable implementation, and indices that fit 32 bits, an out-of-range index panics on every
supported target. -/
theorem C31_portable_partial (t : Target) (ht : t.Supported) (ty : MaskTy) (hp : portableShape ty = true)
    (v idx : Vec (BitVec (8 * ty.laneBytes t)) ty.lanes) (hfit : ∀ (k : Nat) (hk : k < ty.lanes), idx[k].toNat < 2 ^ 32)
    (hbad : ∃ (k : Nat) (hk : k < ty.lanes), ty.lanes ≤ idx[k].toNat) :
    shuffle1Dyn t ty v idx = .error .panic := by
  have hf : ∀ {w n : Nat} [LaneCount n] (v idx : Vec (BitVec w) n), (∀ (k : Nat) (hk : k < n), idx[k].toNat < 2 ^ 32) →
      (∃ (k : Nat) (hk : k < n), n ≤ idx[k].toNat) → Shuf.fallback t v idx = .error .panic := by
    intro w n _ v idx hfit hbad
    unfold Shuf.fallback forRange
    obtain ⟨k, hk, hbad⟩ := hbad
    have key : ∀ (L : List Nat) (acc : Vec (BitVec w) n), (∀ i ∈ L, i < n) → k ∈ L →
        L.foldlM (fun (result : Vec (BitVec w) n) i => do
          let j ← extract idx i
          let x ← extract v (Shuf.asUsize t j)
          replace result i x) acc = (.error .panic : R _) := by
      intro L
      induction L with
      | nil => intro _ _ h; simp at h
      | cons i L ih =>
        intro acc hL hkL
        have hi : i < n := hL i (by simp)
        have hus : Shuf.asUsize t idx[i] = idx[i].toNat := by
          unfold Shuf.asUsize
          rw [BitVec.toNat_setWidth]
          apply Nat.mod_eq_of_lt
          have := hfit i hi
          rcases ht with h' | h' <;> rw [h'] <;> omega
        rw [List.foldlM_cons, extract_of_lt idx hi]
        show (extract v (Shuf.asUsize t idx[i]) >>= fun x => replace acc i x) >>= _ = _
        rw [hus]
        by_cases hin : idx[i].toNat < n
        · rw [extract_of_lt v hin]
          show (replace acc i _ >>= _) = _
          rw [replace_of_lt acc hi]
          refine ih _ (fun j hj => hL j (by simp [hj])) ?_
          rcases List.mem_cons.1 hkL with rfl | h
          · omega
          · exact h
        · rw [extract_of_ge v (by omega)]; rfl
    exact key _ _ (fun i hi => by rw [List.mem_range'_1] at hi; omega) (by rw [List.mem_range'_1]; omega)
  cases ty
  case m8x8 => simp [portableShape] at hp
  case m8x16 => simp [portableShape] at hp
  case m16x8 => simp [portableShape] at hp
  case m32x4 => simp [portableShape] at hp
  case m64x2 => simp [portableShape] at hp
  case m128x1 => simp [portableShape] at hp
  all_goals exact hf v idx hfit hbad

example : shuffle1Dyn x64Avx .m32x8 (splat 8 1#32) (splat 8 8#32) = .error .panic := by decide +kernel

/-! ## C32, C33: byte order -/

section
variable (t : Target) (ty : MaskTy)

/-- `swap_bytes` reverses the bytes of the whole vector: byte `b` (counted by significance) of lane `i` of the result is byte `k-1-b` of lane
`n-1-i`. -/
theorem C32_swap_bytes (ht : t.Supported) (v : Vec (BitVec (8 * ty.laneBytes t)) ty.lanes) :
    ∃ r, swapBytes t ty v = some r ∧ ∀ i (hi : i < ty.lanes) b c, b < ty.laneBytes t → c < 8 →
      r[i].getLsbD (8 * b + c) = (v[ty.lanes - 1 - i]'(by omega)).getLsbD (8 * (ty.laneBytes t - 1 - b) + c) :=
  swapBytes_lane t ht ty v

/-- In memory: the `N` bytes of the result are the bytes of `v` backwards. -/
theorem C32_memory (ht : t.Supported) (v : Vec (BitVec (8 * ty.laneBytes t)) ty.lanes) :
    ∃ r, swapBytes t ty v = some r ∧ ∀ i (hi : i < ty.lanes) j, j < ty.laneBytes t →
      byteAt t.endian (ty.laneBytes t) r[i] j =
        byteAt t.endian (ty.laneBytes t) (v[ty.lanes - 1 - i]'(by omega)) (ty.laneBytes t - 1 - j) := by
  obtain ⟨r, hr, h⟩ := swapBytes_lane t ht ty v
  refine ⟨r, hr, ?_⟩
  intro i hi j hj
  have digit : ∀ (x y : BitVec (8 * ty.laneBytes t)) b b', (∀ c, c < 8 → x.getLsbD (8 * b + c) = y.getLsbD (8 * b' + c)) →
      x.toNat / 256 ^ b % 256 = y.toNat / 256 ^ b' % 256 := by
    intro x y b b' hxy
    have e : ∀ z : Nat, ∀ d, z / 256 ^ d % 256 = z >>> (8 * d) % 2 ^ 8 := by
      intro z d
      rw [Nat.shiftRight_eq_div_pow, Nat.pow_mul]
      rw [show (2 : Nat) ^ 8 = 256 from rfl]
    rw [e, e]
    apply Nat.eq_of_testBit_eq
    intro c
    rw [Nat.testBit_mod_two_pow, Nat.testBit_mod_two_pow, Nat.testBit_shiftRight, Nat.testBit_shiftRight]
    by_cases hc : c < 8
    · have := hxy c hc
      simp only [BitVec.getLsbD] at this
      simp [hc, this]
    · simp [hc]
  unfold byteAt
  cases t.endian
  · exact digit _ _ _ _ (fun c hc => h i hi j c hj hc)
  · refine digit _ _ _ _ (fun c hc => ?_)
    have := h i hi (ty.laneBytes t - 1 - j) c (by omega) hc
    exact this

theorem swapBytes_involutive (ht : t.Supported) (v : Vec (BitVec (8 * ty.laneBytes t)) ty.lanes) :
    (swapBytes t ty v).bind (swapBytes t ty) = some v := by
  obtain ⟨r, hr, h⟩ := swapBytes_lane t ht ty v
  obtain ⟨q, hq, h'⟩ := swapBytes_lane t ht ty r
  rw [hr]
  show swapBytes t ty r = _
  rw [hq]
  congr 1
  ext i hi : 1
  apply eq_of_bytes
  intro b c hb hc
  rw [h' i hi b c hb hc, h _ (by omega) _ c (by omega) hc]
  have e1 : ty.lanes - 1 - (ty.lanes - 1 - i) = i := by omega
  have e2 : ty.laneBytes t - 1 - (ty.laneBytes t - 1 - b) = b := by omega
  simp only [e1, e2]

/-- Applying it twice is the identity. -/
theorem C32_involution (ht : t.Supported) (v : Vec (BitVec (8 * ty.laneBytes t)) ty.lanes) :
    (swapBytes t ty v).bind (swapBytes t ty) = some v := swapBytes_involutive t ty ht v

/-- Endian conversions: mutually inverse, identity on the matching target, and exactly one of `to_le`, `to_be` swaps. -/
theorem C32_endian (ht : t.Supported) (v : Vec (BitVec (8 * ty.laneBytes t)) ty.lanes) :
    (toLe t ty v).bind (fromLe t ty) = some v ∧ (fromLe t ty v).bind (toLe t ty) = some v ∧
    (toBe t ty v).bind (fromBe t ty) = some v ∧ (fromBe t ty v).bind (toBe t ty) = some v ∧
    (t.endian = .big → toBe t ty v = some v ∧ toLe t ty v = swapBytes t ty v) ∧
    (t.endian = .little → toLe t ty v = some v ∧ toBe t ty v = swapBytes t ty v) := by
  have hs := swapBytes_involutive t ty ht
  unfold toLe fromLe toBe fromBe
  cases he : t.endian <;> simp [hs]

/-- The unsigned values of the lanes (for displaying examples). -/
def laneNats {w n : Nat} (v : Vec (BitVec w) n) : List Nat := v.toList.map BitVec.toNat

/-- As a scalar method would: `r[i]` is the byte reversal of `v[i]`. -/
def LaneSwapped {k n : Nat} (v r : Vec (BitVec (8 * k)) n) : Prop :=
  ∀ i (hi : i < n) b c, b < k → c < 8 → r[i].getLsbD (8 * b + c) = v[i].getLsbD (8 * (k - 1 - b) + c)

/-- C33 is false: `u8x2` lanes are exchanged although byte-reversing a one-byte lane does nothing. -/
theorem C33_lanewise_fails : ¬ ∀ (t : Target) (ty : MaskTy), t.Supported → ∀ v : Vec (BitVec (8 * ty.laneBytes t)) ty.lanes,
    ∃ r, swapBytes t ty v = some r ∧ LaneSwapped v r := by
  intro h
  obtain ⟨r, hr, hl⟩ := h armNeon .m8x2 (Or.inl rfl) #v[1, 2]
  have e : (swapBytes armNeon .m8x2 #v[1, 2]).map (fun r => r[0].getLsbD 0) = some false := by decide +kernel
  rw [hr] at e
  have := hl 0 (by decide) 0 0 (by decide) (by decide)
  have e' : r[0].getLsbD 0 = false := Option.some.inj e
  rw [show 8 * 0 + 0 = 0 from rfl, e'] at this
  revert this; decide +kernel

/-- What remains: `swap_bytes` is lane-wise byte reversal followed by reversing the lane order; for a single lane it is lane-wise. -/
theorem C33_lanewise_partial (ht : t.Supported) (v : Vec (BitVec (8 * ty.laneBytes t)) ty.lanes) :
    ∃ r, swapBytes t ty v = some r ∧ LaneSwapped v.reverse r ∧ (ty.lanes = 1 → LaneSwapped v r) := by
  obtain ⟨r, hr, h⟩ := swapBytes_lane t ht ty v
  refine ⟨r, hr, ?_, ?_⟩
  · intro i hi b c hb hc
    rw [h i hi b c hb hc, Vector.getElem_reverse]
  · intro h1 i hi b c hb hc
    rw [h i hi b c hb hc]
    have : ty.lanes - 1 - i = i := by omega
    simp only [this]

example : (swapBytes armNeon .m16x2 #v[0x1122, 0x3344]).map laneNats = some [0x4433, 0x2211] ∧
    (swapBytes { armNeon with endian := .big } .m16x2 #v[0x1122, 0x3344]).map laneNats = some [0x4433, 0x2211] := by decide +kernel

end
end PackedSimd.Props
