import Verif.Model.Shuffle
import Verif.Lemmas.Bytes
import Verif.Lemmas.Reduce
/-
Lemmas about static and dynamic shuffles.
-/
namespace PackedSimd
open Intr

variable {α : Type} {w n m k : Nat}

theorem simdShuffle_some (x y : Vec α n) (idx : Vector Nat m) (h : ∀ k (hk : k < m), idx[k] < n + n) :
    simdShuffle x y idx = some (Vector.ofFn fun k => (x ++ y)[idx[k.val]]'(h k k.2)) := by
  unfold simdShuffle
  exact dif_pos (fun k : Fin m => h k.val k.2)

theorem simdShuffle_none (x y : Vec α n) (idx : Vector Nat m) (h : ∃ k, ∃ hk : k < m, n + n ≤ idx[k]) :
    simdShuffle x y idx = none := by
  unfold simdShuffle
  rw [dif_neg]
  intro h'
  obtain ⟨k, hk, hle⟩ := h
  have := h' ⟨k, hk⟩
  simp at this
  omega

theorem shuffle1_spec (v : Vec α n) (idx : Vector Nat m) (ha : shuffleArity m = true) (h : ∀ k (hk : k < m), idx[k] < n) :
    shuffle1 v idx = some (Vector.ofFn fun k => v[idx[k.val]]'(h k k.2)) := by
  unfold shuffle1 shuffle2
  rw [if_pos ha, simdShuffle_some _ _ _ (fun k hk => by have := h k hk; omega)]
  congr 1
  ext i hi : 1
  rw [Vector.getElem_ofFn, Vector.getElem_ofFn, Vector.getElem_append_left]

/-! One-byte lanes: a lane is its byte. -/

theorem laneBytes_one (e : Endian) (x : BitVec (8 * 1)) : (laneBytes e x)[0] = (x : BitVec 8) := by
  rw [getElem_laneBytes e x (by decide)]
  have : bytePos e 1 0 = 0 := by cases e <;> rfl
  rw [this]
  apply BitVec.eq_of_getLsbD_eq
  intro i hi
  simp [hi]

theorem getElem_toBytes_one (e : Endian) (v : Vec (BitVec (8 * 1)) n) {p : Nat} (hp : p < n) :
    (toBytes e v)[p]'(by omega) = (v[p] : BitVec 8) := by
  have := getElem_toBytes e v (i := p) (j := 0) hp (by decide)
  simp only [Nat.mul_one, Nat.add_zero] at this
  rw [this, laneBytes_one]

theorem getElem_transmute_one (e : Endian) {N : Nat} (h : n * k = N * 1) (v : Vec (BitVec (8 * k)) n) {p : Nat} (hp : p < N) :
    ((transmute e 1 N h v)[p] : BitVec 8) = (toBytes e v)[p]'(by omega) := by
  rw [← getElem_toBytes_one e _ hp]
  have := toBytes_transmute e h v
  simp only [this]
  simp

/-- Shuffling whole lanes through their bytes. -/
theorem scaled_shuffle (e : Endian) {N : Nat} (h : n * k = N * 1) (v : Vec (BitVec (8 * k)) n) (idx : Nat → Nat)
    (hidx : ∀ q, q < n → idx q < n) (r : Vec (BitVec (8 * 1)) N)
    (hr : ∀ q j (hq : q < n) (hj : j < k), r[q * k + j]'(by have := lane_byte_lt hq hj; omega) =
      (transmute e 1 N h v)[idx q * k + j]'(by have := lane_byte_lt (hidx q hq) hj; omega))
    (q : Nat) (hq : q < n) :
    (transmute e k n h.symm r)[q] = v[idx q]'(hidx q hq) := by
  unfold transmute
  rw [getElem_fromBytes _ _ hq]
  have hv : (Vector.ofFn fun j : Fin k => ((toBytes e r).cast h.symm)[q * k + j.val]'(lane_byte_lt hq j.2)) =
      laneBytes e (v[idx q]'(hidx q hq)) := by
    ext j hj : 1
    have hb := lane_byte_lt hq hj
    have hb' := lane_byte_lt (hidx q hq) hj
    rw [Vector.getElem_ofFn, ← getElem_toBytes e v (hidx q hq) hj]
    simp only [Vector.getElem_cast]
    rw [getElem_toBytes_one e r (by omega), hr q j hq hj, getElem_transmute_one e h v (by omega)]
  rw [hv, laneOfBytes_laneBytes]

/-! The dynamic shuffles. -/

theorem forRange_replace [LaneCount n] (f : Nat → R α) (g : Nat → α) (hf : ∀ i, i < n → f i = .ok (g i)) (init : Vec α n) :
    forRange 0 n (fun result i => do let x ← f i; replace result i x) init = .ok (Vector.ofFn fun i => g i.val) := by
  rw [forRange_ok _ (fun (r : Vec α n) i => if h : i < n then r.set i (g i) else r)]
  · congr 1
    have key : ∀ m, m ≤ n → ∀ i (hi : i < n),
        ((List.range' 0 m).foldl (fun (r : Vec α n) i => if h : i < n then r.set i (g i) else r) init)[i] =
          if i < m then g i else init[i] := by
      intro m
      induction m with
      | zero => intro _ i hi; simp
      | succ m ih =>
        intro hm i hi
        rw [List.range'_1_concat, List.foldl_append, List.foldl_cons, List.foldl_nil]
        simp only [Nat.zero_add]
        have hmn : m < n := by omega
        simp only [hmn, dif_pos]
        rw [Vector.getElem_set, ih (by omega) i hi]
        by_cases h1 : m = i
        · subst h1; simp
        · rw [if_neg h1]
          by_cases h2 : i < m
          · rw [if_pos h2, if_pos (by omega)]
          · rw [if_neg h2, if_neg (by omega)]
    ext i hi : 1
    rw [Nat.sub_zero, key n (Nat.le_refl _) i hi, if_pos hi, Vector.getElem_ofFn]
  · intro s i _ hi
    rw [hf i hi]
    show replace s i (g i) = _
    rw [replace_of_lt s hi, dif_pos hi]

theorem Shuf.asUsize_of_lt (t : Target) (ht : t.Supported) (x : BitVec w) (h : x.toNat < 64) : Shuf.asUsize t x = x.toNat := by
  unfold Shuf.asUsize
  rw [BitVec.toNat_setWidth]
  apply Nat.mod_eq_of_lt
  rcases ht with h' | h' <;> rw [h'] <;> omega

theorem Shuf.fallback_spec [LaneCount n] (t : Target) (ht : t.Supported) (v idx : Vec (BitVec w) n)
    (h : ∀ (i : Nat) (hi : i < n), idx[i].toNat < n) :
    Shuf.fallback t v idx = .ok (Vector.ofFn fun i => v[idx[i.val].toNat]'(h i i.2)) := by
  have hle : n ≤ 64 := LaneCount.le
  have hpos : 0 < n := LaneCount.pos
  have := forRange_replace (n := n) (fun i => do let j ← extract idx i; extract v (Shuf.asUsize t j))
    (fun i => if hi : i < n then v[idx[i].toNat]'(h i hi) else v[0]) (by
      intro i hi
      rw [extract_of_lt idx hi]
      show extract v (Shuf.asUsize t idx[i]) = _
      have h1 := h i hi
      rw [Shuf.asUsize_of_lt t ht _ (by omega), extract_of_lt v h1, dif_pos hi]) (splat n 0#w)
  unfold Shuf.fallback
  have e : (fun (result : Vec (BitVec w) n) i => do
      let j ← extract idx i
      let x ← extract v (Shuf.asUsize t j)
      replace result i x) = (fun result i => do
      let x ← (do let j ← extract idx i; extract v (Shuf.asUsize t j))
      replace result i x) := by
    funext r i
    cases extract idx i <;> rfl
  rw [e, this]
  congr 1
  ext i hi : 1
  simp

theorem Shuf.neonTbl_spec (v idx : Vec (BitVec 8) n) (h : ∀ (i : Nat) (hi : i < n), idx[i].toNat < n) :
    Shuf.neonTbl v idx = Vector.ofFn fun i => v[idx[i.val].toNat]'(h i i.2) := by
  ext i hi : 1
  simp [Shuf.neonTbl, h i hi]

theorem Shuf.pshufb_spec (v idx : Vec (BitVec 8) 16) (h : ∀ (i : Nat) (hi : i < 16), idx[i].toNat < 16) :
    Shuf.pshufb v idx = Vector.ofFn fun i => v[idx[i.val].toNat]'(h i i.2) := by
  ext i hi : 1
  have h1 := h i hi
  have h2 : (idx[i]).msb = false := by
    rw [BitVec.msb_eq_decide]; simp; omega
  simp only [Shuf.pshufb, Vector.getElem_ofFn, h2, Bool.false_eq_true, if_false, Nat.mod_eq_of_lt h1]

theorem Shuf.u8x8_spec (t : Target) (ht : t.Supported) (v idx : Vec (BitVec 8) 8) (h : ∀ (i : Nat) (hi : i < 8), idx[i].toNat < 8) :
    Shuf.u8x8 t v idx = .ok (Vector.ofFn fun i => v[idx[i.val].toNat]'(h i i.2)) := by
  unfold Shuf.u8x8
  split
  · rw [Shuf.neonTbl_spec v idx h]
  · exact Shuf.fallback_spec t ht v idx h

theorem Shuf.u8x16_spec (t : Target) (ht : t.Supported) (v idx : Vec (BitVec 8) 16) (h : ∀ (i : Nat) (hi : i < 16), idx[i].toNat < 16) :
    Shuf.u8x16 t v idx = .ok (Vector.ofFn fun i => v[idx[i.val].toNat]'(h i i.2)) := by
  unfold Shuf.u8x16
  split
  · rw [Shuf.pshufb_spec v idx h]
  · split
    · rw [Shuf.neonTbl_spec v idx h]
    · exact Shuf.fallback_spec t ht v idx h

/-- The common shape of the `u16x8`, `u32x4`, `u64x2` implementations on top of `u8x16`. -/
theorem Shuf.scaled_spec (t : Target) (ht : t.Supported) (k n : Nat) (hk : 0 < k) (hkn : n * k = 16 * 1) (v : Vec (BitVec (8 * k)) n)
    (idx : Vec (BitVec (8 * k)) n) (h : ∀ (i : Nat) (hi : i < n), idx[i].toNat < n)
    (bi : Vec (BitVec 8) 16) (hbi : ∀ q j, (hq : q < n) → (hj : j < k) →
      (bi[q * k + j]'(by have := lane_byte_lt hq hj; omega)).toNat = idx[q].toNat * k + j) :
    (do let r ← Shuf.u8x16 t (transmute t.endian 1 16 hkn v) bi
        return transmute t.endian (k := 1) (n := 16) k n hkn.symm r : R _) =
      .ok (Vector.ofFn fun i => v[idx[i.val].toNat]'(h i i.2)) := by
  have hb : ∀ p (hp : p < 16), (bi[p]).toNat < 16 := by
    intro p hp
    have hq : p / k < n := Nat.div_lt_of_lt_mul (by rw [Nat.mul_comm]; omega)
    have hj : p % k < k := Nat.mod_lt _ hk
    have h1 := hbi (p / k) (p % k) hq hj
    have hpe : p / k * k + p % k = p := Nat.div_add_mod' p k
    have h2 := lane_byte_lt (h (p / k) hq) hj
    simp only [hpe] at h1
    omega
  rw [Shuf.u8x16_spec t ht _ bi hb]
  show Except.ok _ = _
  congr 1
  ext q hq : 1
  rw [Vector.getElem_ofFn]
  refine scaled_shuffle t.endian hkn v (fun q => if hq : q < n then idx[q].toNat else 0) ?_ _ ?_ q hq |>.trans ?_
  · intro q hq; simp only [hq, dif_pos]; exact h q hq
  · intro q j hq hj
    rw [Vector.getElem_ofFn]
    congr 1
    simp only [hbi q j hq hj, hq, dif_pos]
  · simp only [hq, dif_pos]

theorem Shuf.scaledIndex {wi : Nat} (x : BitVec wi) (k j n : Nat) (hx : x.toNat < n) (hn : n * k ≤ 16) (hj : j < k) (hwi : 8 ≤ wi) :
    (((x * BitVec.ofNat wi k).setWidth 8 + BitVec.ofNat 8 j) : BitVec 8).toNat = x.toNat * k + j := by
  have h1 : x.toNat * k + j < 16 := by
    have := lane_byte_lt hx hj; omega
  have h2 : x.toNat * k < 16 := by omega
  have h3 : k ≤ 16 := by
    have : 1 * k ≤ n * k := Nat.mul_le_mul_right k (by omega)
    omega
  have h4 : 2 ^ 8 ≤ 2 ^ wi := Nat.pow_le_pow_right (by decide) hwi
  simp only [BitVec.toNat_add, BitVec.toNat_setWidth, BitVec.toNat_mul, BitVec.toNat_ofNat]
  rw [Nat.mod_eq_of_lt (show k < 2 ^ wi by omega), Nat.mod_eq_of_lt (show x.toNat * k < 2 ^ wi by omega)]
  rw [Nat.mod_eq_of_lt (show x.toNat * k < 2 ^ 8 by omega), Nat.mod_eq_of_lt (show j < 2 ^ 8 by omega)]
  exact Nat.mod_eq_of_lt (by omega)

theorem Shuf.u16x8_spec (t : Target) (ht : t.Supported) (v idx : Vec (BitVec 16) 8) (h : ∀ (i : Nat) (hi : i < 8), idx[i].toNat < 8) :
    Shuf.u16x8 t v idx = .ok (Vector.ofFn fun i => v[idx[i.val].toNat]'(h i i.2)) := by
  unfold Shuf.u16x8
  dsimp only
  rw [shuffle1_spec _ _ (by decide) (by decide +kernel)]
  refine Shuf.scaled_spec t ht 2 8 (by decide) rfl v idx h _ ?_
  intro q j hq hj
  rw [← Shuf.scaledIndex idx[q] 2 j 8 (h q hq) (by decide) hj (by decide)]
  congr 1
  simp only [Ops.add, simdAdd, Vector.getElem_zipWith, Vector.getElem_ofFn, simdCastInt, Vector.getElem_map, Ops.mulVS, Ops.mul, simdMul,
    splat, new, Bool.false_eq_true, if_false]
  have e1 : ∀ q, q < 8 → ∀ j, j < 2 → ∀ hh, (#v[0, 0, 1, 1, 2, 2, 3, 3, 4, 4, 5, 5, 6, 6, 7, 7] : Vector Nat 16)[q * 2 + j]'hh = q := by
    decide +kernel
  have e2 : ∀ q, q < 8 → ∀ j, j < 2 → ∀ hh, (#v[0, 1, 0, 1, 0, 1, 0, 1, 0, 1, 0, 1, 0, 1, 0, 1] : Vec (BitVec 8) 16)[q * 2 + j]'hh = BitVec.ofNat 8 j := by
    decide +kernel
  simp only [Fin.getElem_fin, e1 q hq j hj, e2 q hq j hj]

theorem Shuf.u32x4_spec (t : Target) (ht : t.Supported) (v idx : Vec (BitVec 32) 4) (h : ∀ (i : Nat) (hi : i < 4), idx[i].toNat < 4) :
    Shuf.u32x4 t v idx = .ok (Vector.ofFn fun i => v[idx[i.val].toNat]'(h i i.2)) := by
  unfold Shuf.u32x4
  split
  · congr 1
    ext i hi : 1
    simp only [Shuf.permutevarPs, Vector.getElem_ofFn, Nat.mod_eq_of_lt (h i hi)]
  dsimp only
  rw [shuffle1_spec _ _ (by decide) (by decide +kernel)]
  refine Shuf.scaled_spec t ht 4 4 (by decide) rfl v idx h _ ?_
  intro q j hq hj
  rw [← Shuf.scaledIndex idx[q] 4 j 4 (h q hq) (by decide) hj (by decide)]
  congr 1
  simp only [Ops.add, simdAdd, Vector.getElem_zipWith, Vector.getElem_ofFn, simdCastInt, Vector.getElem_map, Ops.mulVS, Ops.mul, simdMul,
    splat, new, Bool.false_eq_true, if_false]
  have e1 : ∀ q, q < 4 → ∀ j, j < 4 → ∀ hh, (#v[0, 0, 0, 0, 1, 1, 1, 1, 2, 2, 2, 2, 3, 3, 3, 3] : Vector Nat 16)[q * 4 + j]'hh = q := by
    decide +kernel
  have e2 : ∀ q, q < 4 → ∀ j, j < 4 → ∀ hh, (#v[0, 1, 2, 3, 0, 1, 2, 3, 0, 1, 2, 3, 0, 1, 2, 3] : Vec (BitVec 8) 16)[q * 4 + j]'hh = BitVec.ofNat 8 j := by
    decide +kernel
  simp only [Fin.getElem_fin, e1 q hq j hj, e2 q hq j hj]

theorem Shuf.u64x2_spec (t : Target) (ht : t.Supported) (v idx : Vec (BitVec 64) 2) (h : ∀ (i : Nat) (hi : i < 2), idx[i].toNat < 2) :
    Shuf.u64x2 t v idx = .ok (Vector.ofFn fun i => v[idx[i.val].toNat]'(h i i.2)) := by
  unfold Shuf.u64x2
  split
  · have hs : Ops.shlU32 idx 1#32 = .ok (idx.map (fun x : BitVec 64 => x <<< 1)) := by
      unfold Ops.shlU32 Ops.shl simdShl
      rw [if_neg]
      · congr 1
        ext i hi : 1
        simp [splat]
      · simp only [splat]; decide +kernel
    rw [hs]
    show Except.ok _ = _
    congr 1
    ext i hi : 1
    have h1 := h i hi
    simp only [Shuf.permutevarPd, Vector.getElem_ofFn, Vector.getElem_map]
    have h2 : (idx[i] <<< 1).getLsbD 1 = decide (idx[i].toNat = 1) := by
      rw [BitVec.getLsbD_shiftLeft]
      have : idx[i].toNat = 0 ∨ idx[i].toNat = 1 := by omega
      rcases this with h' | h' <;> simp [BitVec.getLsbD, h']
    rw [h2]
    have : idx[i].toNat = 0 ∨ idx[i].toNat = 1 := by omega
    rcases this with h' | h' <;> simp [h']
  dsimp only
  rw [shuffle1_spec _ _ (by decide) (by decide +kernel)]
  refine Shuf.scaled_spec t ht 8 2 (by decide) rfl v idx h _ ?_
  intro q j hq hj
  rw [← Shuf.scaledIndex idx[q] 8 j 2 (h q hq) (by decide) hj (by decide)]
  congr 1
  simp only [Ops.add, simdAdd, Vector.getElem_zipWith, Vector.getElem_ofFn, simdCastInt, Vector.getElem_map, Ops.mulVS, Ops.mul, simdMul,
    splat, new, Bool.false_eq_true, if_false]
  have e1 : ∀ q, q < 2 → ∀ j, j < 8 → ∀ hh, (#v[0, 0, 0, 0, 0, 0, 0, 0, 1, 1, 1, 1, 1, 1, 1, 1] : Vector Nat 16)[q * 8 + j]'hh = q := by
    decide +kernel
  have e2 : ∀ q, q < 2 → ∀ j, j < 8 → ∀ hh, (#v[0, 1, 2, 3, 4, 5, 6, 7, 0, 1, 2, 3, 4, 5, 6, 7] : Vec (BitVec 8) 16)[q * 8 + j]'hh = BitVec.ofNat 8 j := by
    decide +kernel
  simp only [Fin.getElem_fin, e1 q hq j hj, e2 q hq j hj]

end PackedSimd
