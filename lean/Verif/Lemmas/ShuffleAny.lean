import Verif.Lemmas.Shuffle
import Verif.Lemmas.Compare
/-
`shuffle1_dyn` with arbitrary indices: when it returns, every lane is a whole source lane or zero.
-/
namespace PackedSimd
open Intr

variable {α : Type} {w n m k : Nat}

theorem scaled_lane (e : Endian) {N : Nat} (h : n * k = N * 1) (x : BitVec (8 * k)) (r : Vec (BitVec (8 * 1)) N) (q : Nat) (hq : q < n)
    (hr : ∀ j (hj : j < k), (r[q * k + j]'(by have := lane_byte_lt hq hj; omega) : BitVec 8) = (laneBytes e x)[j]) :
    (transmute e k n h.symm r)[q] = x := by
  unfold transmute
  rw [getElem_fromBytes _ _ hq]
  have hv : (Vector.ofFn fun j : Fin k => ((toBytes e r).cast h.symm)[q * k + j.val]'(lane_byte_lt hq j.2)) = laneBytes e x := by
    ext j hj : 1
    have hb := lane_byte_lt hq hj
    rw [Vector.getElem_ofFn]
    simp only [Vector.getElem_cast]
    rw [getElem_toBytes_one e r (by omega), hr j hj]
  rw [hv, laneOfBytes_laneBytes]

theorem laneBytes_zero (e : Endian) {j : Nat} (hj : j < k) : (laneBytes e (0#(8 * k)))[j] = 0#8 := by
  rw [getElem_laneBytes e _ hj]; simp

theorem foldlM_ne_ok {σ : Type} (step : σ → Nat → R σ) (i : Nat) (hbad : ∀ s s', step s i ≠ .ok s') :
    ∀ (L : List Nat) (acc : σ), i ∈ L → ∀ r, L.foldlM step acc ≠ .ok r := by
  intro L
  induction L with
  | nil => intro _ h; simp at h
  | cons a L ih =>
    intro acc hin r hr
    rw [List.foldlM_cons] at hr
    cases hs : step acc a with
    | error f => rw [hs] at hr; cases hr
    | ok s =>
      rcases List.mem_cons.1 hin with rfl | hin
      · exact hbad _ _ hs
      · rw [hs] at hr
        exact ih s hin r hr

/-- If the portable loop returns, lane `i` is the indexed lane. -/
theorem Shuf.fallback_ok [LaneCount n] (t : Target) (v idx r : Vec (BitVec w) n) (h : Shuf.fallback t v idx = .ok r) (i : Nat) (hi : i < n) :
    ∃ hj : Shuf.asUsize t idx[i] < n, r[i] = v[Shuf.asUsize t idx[i]] := by
  have hall : ∀ i (hi : i < n), Shuf.asUsize t idx[i] < n := by
    intro i hi
    apply Classical.byContradiction
    intro hbad
    unfold Shuf.fallback forRange at h
    refine foldlM_ne_ok _ i ?_ _ _ (by simp; omega) r h
    intro s s' hs
    rw [extract_of_lt idx hi] at hs
    have hs' : (do let x ← extract v (Shuf.asUsize t idx[i]); replace s i x : R _) = .ok s' := hs
    have : extract v (Shuf.asUsize t idx[i]) = .error .panic := by
      unfold extract; rw [if_neg hbad]
    rw [this] at hs'
    cases hs'
  refine ⟨hall i hi, ?_⟩
  have hpos : 0 < n := by omega
  have := forRange_replace (n := n) (fun i => do let j ← extract idx i; extract v (Shuf.asUsize t j))
    (fun i => if hi : i < n then v[Shuf.asUsize t idx[i]]'(hall i hi) else v[0]) (by
      intro i hi
      rw [extract_of_lt idx hi]
      show extract v (Shuf.asUsize t idx[i]) = _
      rw [extract_of_lt v (hall i hi), dif_pos hi]) (splat n 0#w)
  unfold Shuf.fallback at h
  have e : (fun (result : Vec (BitVec w) n) i => do
      let j ← extract idx i
      let x ← extract v (Shuf.asUsize t j)
      replace result i x) = (fun result i => do
      let x ← (do let j ← extract idx i; extract v (Shuf.asUsize t j))
      replace result i x) := by
    funext r i
    cases extract idx i <;> rfl
  rw [e, this] at h
  cases h
  rw [Vector.getElem_ofFn, dif_pos hi]

/-- Every lane of `r` is a lane of `v`, or zero. -/
def FromLanes (v r : Vec (BitVec w) n) : Prop := ∀ i (hi : i < n), r[i] = 0#w ∨ ∃ j, ∃ hj : j < n, r[i] = v[j]

theorem Shuf.fallback_from [LaneCount n] (t : Target) (v idx r : Vec (BitVec w) n) (h : Shuf.fallback t v idx = .ok r) : FromLanes v r := by
  intro i hi
  obtain ⟨hj, e⟩ := Shuf.fallback_ok t v idx r h i hi
  exact .inr ⟨_, hj, e⟩

theorem Shuf.neonTbl_from (v idx : Vec (BitVec 8) n) : FromLanes v (Shuf.neonTbl v idx) := by
  intro i hi
  simp only [Shuf.neonTbl, Vector.getElem_ofFn]
  split
  · rename_i h; exact .inr ⟨_, h, rfl⟩
  · exact .inl rfl

/-- All three `u8x16` implementations: whether a byte is zeroed depends on the upper four bits of its index only, otherwise the low four
select. -/
theorem Shuf.u8x16_pick (t : Target) (ht : t.Supported) (v idx r : Vec (BitVec 8) 16) (h : Shuf.u8x16 t v idx = .ok r) :
    ∃ keep : Nat → Bool, ∀ i (hi : i < 16), r[i] = if keep (idx[i].toNat / 16) then v[idx[i].toNat % 16]'(Nat.mod_lt _ (by decide)) else 0#8 := by
  unfold Shuf.u8x16 at h
  split at h
  · cases h
    refine ⟨fun x => decide (x < 8), fun i hi => ?_⟩
    simp only [Shuf.pshufb, Vector.getElem_ofFn, BitVec.msb_eq_decide]
    by_cases h8 : idx[i].toNat < 128
    · rw [if_neg (by simp; omega), if_pos (by simp; omega)]
    · rw [if_pos (by simp; omega), if_neg (by simp; omega)]
  · split at h
    · cases h
      refine ⟨fun x => decide (x < 1), fun i hi => ?_⟩
      simp only [Shuf.neonTbl, Vector.getElem_ofFn]
      by_cases h8 : idx[i].toNat < 16
      · rw [dif_pos h8, if_pos (by simp; omega)]; simp only [Nat.mod_eq_of_lt h8]
      · rw [dif_neg h8, if_neg (by simp; omega)]
    · refine ⟨fun x => true, fun i hi => ?_⟩
      obtain ⟨hj, e⟩ := Shuf.fallback_ok t v idx r h i hi
      have hu : Shuf.asUsize t idx[i] = idx[i].toNat := by
        unfold Shuf.asUsize
        rw [BitVec.toNat_setWidth]
        apply Nat.mod_eq_of_lt
        have := idx[i].isLt
        rcases ht with h' | h' <;> rw [h'] <;> omega
      simp only [hu] at hj e
      rw [if_pos rfl, e]
      simp only [Nat.mod_eq_of_lt hj]

/-- The `u16x8`, `u32x4`, `u64x2` implementations on top of `u8x16`. -/
theorem Shuf.scaled_from (t : Target) (ht : t.Supported) (k n : Nat) (hk : 0 < k) (hkn : n * k = 16 * 1) (v r : Vec (BitVec (8 * k)) n)
    (base : Nat → Nat) (hbase : ∀ q, q < n → base q % k = 0)
    (bi : Vec (BitVec 8) 16) (hbi : ∀ q j, (hq : q < n) → (hj : j < k) →
      (bi[q * k + j]'(by have := lane_byte_lt hq hj; omega)).toNat = base q + j)
    (h : (do let r ← Shuf.u8x16 t (transmute t.endian 1 16 hkn v) bi
             return transmute t.endian (k := 1) (n := 16) k n hkn.symm r : R _) = .ok r) :
    FromLanes v r := by
  cases hr : Shuf.u8x16 t (transmute t.endian 1 16 hkn v) bi with
  | error f => rw [hr] at h; cases h
  | ok s =>
    rw [hr] at h
    have h' : (.ok (transmute t.endian (k := 1) (n := 16) k n hkn.symm s) : R _) = .ok r := h
    cases h'
    obtain ⟨keep, hs⟩ := Shuf.u8x16_pick t ht _ _ _ hr
    intro q hq
    have hb := hbase q hq
    -- the byte index stays inside the block of 16 containing the base
    have hdvd : 16 % k = 0 := by rw [show (16 : Nat) = n * k by omega]; exact Nat.mul_mod_left n k
    have hbm : base q % 16 % k = 0 := by
      rw [Nat.mod_mod_of_dvd _ (Nat.dvd_of_mod_eq_zero hdvd)]; exact hb
    have hlane : ∀ j, j < k → (base q + j) / 16 = base q / 16 ∧ (base q + j) % 16 = base q % 16 / k * k + j := by
      intro j hj
      have e1 : base q % 16 = base q % 16 / k * k := by
        have := Nat.div_add_mod (base q % 16) k
        rw [hbm, Nat.add_zero, Nat.mul_comm] at this; exact this.symm
      have hlt : base q % 16 / k < n := Nat.div_lt_of_lt_mul (by rw [Nat.mul_comm]; have := Nat.mod_lt (base q) (show 16 > 0 by decide); omega)
      have h2 := lane_byte_lt hlt hj
      have h3 : base q % 16 + j < 16 := by omega
      have h4 := Nat.div_add_mod (base q) 16
      rw [← e1]
      omega
    have hlt : base q % 16 / k < n := Nat.div_lt_of_lt_mul (by rw [Nat.mul_comm]; have := Nat.mod_lt (base q) (show 16 > 0 by decide); omega)
    by_cases hkeep : keep (base q / 16) = true
    · right
      refine ⟨base q % 16 / k, hlt, ?_⟩
      refine scaled_lane t.endian hkn _ s q hq ?_
      intro j hj
      have hp := lane_byte_lt hq hj
      have hp' := lane_byte_lt hlt hj
      rw [hs _ (by omega)]
      simp only [hbi q j hq hj, (hlane j hj).1, (hlane j hj).2, hkeep, if_true]
      rw [getElem_transmute_one t.endian hkn v (by omega), getElem_toBytes t.endian v hlt hj]
    · left
      refine scaled_lane t.endian hkn _ s q hq ?_
      intro j hj
      have hp := lane_byte_lt hq hj
      rw [hs _ (by omega)]
      simp only [hbi q j hq hj, (hlane j hj).1, hkeep]
      rw [laneBytes_zero t.endian hj]; rfl

theorem Shuf.scaledIndexAny {wi : Nat} (x : BitVec wi) (k j : Nat) (hk : k = 2 ∨ k = 4 ∨ k = 8) (hj : j < k) (hwi : 8 ≤ wi) :
    (((x * BitVec.ofNat wi k).setWidth 8 + BitVec.ofNat 8 j) : BitVec 8).toNat = x.toNat * k % 256 + j ∧ x.toNat * k % 256 % k = 0 := by
  have h4 : 2 ^ 8 ∣ 2 ^ wi := Nat.pow_dvd_pow 2 hwi
  have h5 : 2 ^ 8 ≤ 2 ^ wi := Nat.pow_le_pow_right (by decide) hwi
  have hd : x.toNat * k % 256 % k = 0 := by
    rw [Nat.mod_mod_of_dvd]
    · exact Nat.mul_mod_left ..
    · rcases hk with rfl | rfl | rfl <;> decide
  refine ⟨?_, hd⟩
  simp only [BitVec.toNat_add, BitVec.toNat_setWidth, BitVec.toNat_mul, BitVec.toNat_ofNat]
  rw [Nat.mod_eq_of_lt (show k < 2 ^ wi by omega), Nat.mod_mod_of_dvd _ h4, Nat.mod_eq_of_lt (show j < 2 ^ 8 by omega)]
  apply Nat.mod_eq_of_lt
  have := Nat.mod_lt (x.toNat * k) (show 256 > 0 by decide)
  rcases hk with rfl | rfl | rfl <;> omega

theorem Shuf.u16x8_from (t : Target) (ht : t.Supported) (v idx r : Vec (BitVec 16) 8) (h : Shuf.u16x8 t v idx = .ok r) : FromLanes v r := by
  unfold Shuf.u16x8 at h
  dsimp only at h
  rw [shuffle1_spec _ _ (by decide) (by decide +kernel)] at h
  refine Shuf.scaled_from t ht 2 8 (by decide) rfl v r (fun q => if hq : q < 8 then idx[q].toNat * 2 % 256 else 0) ?_ _ ?_ h
  · intro q hq; simp only [hq, dif_pos]; exact (Shuf.scaledIndexAny idx[q] 2 0 (by decide) (by decide) (by decide)).2
  intro q j hq hj
  simp only [hq, dif_pos]
  rw [← (Shuf.scaledIndexAny idx[q] 2 j (by decide) hj (by decide)).1]
  congr 1
  simp only [Ops.add, simdAdd, Vector.getElem_zipWith, Vector.getElem_ofFn, simdCastInt, Vector.getElem_map, Ops.mulVS, Ops.mul, simdMul,
    splat, new, Bool.false_eq_true, if_false]
  have e1 : ∀ q, q < 8 → ∀ j, j < 2 → ∀ hh, (#v[0, 0, 1, 1, 2, 2, 3, 3, 4, 4, 5, 5, 6, 6, 7, 7] : Vector Nat 16)[q * 2 + j]'hh = q := by
    decide +kernel
  have e2 : ∀ q, q < 8 → ∀ j, j < 2 → ∀ hh, (#v[0, 1, 0, 1, 0, 1, 0, 1, 0, 1, 0, 1, 0, 1, 0, 1] : Vec (BitVec 8) 16)[q * 2 + j]'hh = BitVec.ofNat 8 j := by
    decide +kernel
  simp only [Fin.getElem_fin, e1 q hq j hj, e2 q hq j hj]

theorem Shuf.u32x4_from (t : Target) (ht : t.Supported) (v idx r : Vec (BitVec 32) 4) (h : Shuf.u32x4 t v idx = .ok r) : FromLanes v r := by
  unfold Shuf.u32x4 at h
  split at h
  · cases h
    intro i hi
    exact .inr ⟨idx[i].toNat % 4, Nat.mod_lt _ (by decide), by simp only [Shuf.permutevarPs, Vector.getElem_ofFn]⟩
  dsimp only at h
  rw [shuffle1_spec _ _ (by decide) (by decide +kernel)] at h
  refine Shuf.scaled_from t ht 4 4 (by decide) rfl v r (fun q => if hq : q < 4 then idx[q].toNat * 4 % 256 else 0) ?_ _ ?_ h
  · intro q hq; simp only [hq, dif_pos]; exact (Shuf.scaledIndexAny idx[q] 4 0 (by decide) (by decide) (by decide)).2
  intro q j hq hj
  simp only [hq, dif_pos]
  rw [← (Shuf.scaledIndexAny idx[q] 4 j (by decide) hj (by decide)).1]
  congr 1
  simp only [Ops.add, simdAdd, Vector.getElem_zipWith, Vector.getElem_ofFn, simdCastInt, Vector.getElem_map, Ops.mulVS, Ops.mul, simdMul,
    splat, new, Bool.false_eq_true, if_false]
  have e1 : ∀ q, q < 4 → ∀ j, j < 4 → ∀ hh, (#v[0, 0, 0, 0, 1, 1, 1, 1, 2, 2, 2, 2, 3, 3, 3, 3] : Vector Nat 16)[q * 4 + j]'hh = q := by
    decide +kernel
  have e2 : ∀ q, q < 4 → ∀ j, j < 4 → ∀ hh, (#v[0, 1, 2, 3, 0, 1, 2, 3, 0, 1, 2, 3, 0, 1, 2, 3] : Vec (BitVec 8) 16)[q * 4 + j]'hh = BitVec.ofNat 8 j := by
    decide +kernel
  simp only [Fin.getElem_fin, e1 q hq j hj, e2 q hq j hj]

theorem Shuf.u64x2_from (t : Target) (ht : t.Supported) (v idx r : Vec (BitVec 64) 2) (h : Shuf.u64x2 t v idx = .ok r) : FromLanes v r := by
  unfold Shuf.u64x2 at h
  split at h
  · cases hs : Ops.shlU32 idx 1#32 with
    | error f => rw [hs] at h; cases h
    | ok s =>
      rw [hs] at h
      have h' : (.ok (Shuf.permutevarPd v s) : R _) = .ok r := h
      cases h'
      intro i hi
      simp only [Shuf.permutevarPd, Vector.getElem_ofFn]
      right
      split
      · exact ⟨1, by decide, rfl⟩
      · exact ⟨0, by decide, rfl⟩
  dsimp only at h
  rw [shuffle1_spec _ _ (by decide) (by decide +kernel)] at h
  refine Shuf.scaled_from t ht 8 2 (by decide) rfl v r (fun q => if hq : q < 2 then idx[q].toNat * 8 % 256 else 0) ?_ _ ?_ h
  · intro q hq; simp only [hq, dif_pos]; exact (Shuf.scaledIndexAny idx[q] 8 0 (by decide) (by decide) (by decide)).2
  intro q j hq hj
  simp only [hq, dif_pos]
  rw [← (Shuf.scaledIndexAny idx[q] 8 j (by decide) hj (by decide)).1]
  congr 1
  simp only [Ops.add, simdAdd, Vector.getElem_zipWith, Vector.getElem_ofFn, simdCastInt, Vector.getElem_map, Ops.mulVS, Ops.mul, simdMul,
    splat, new, Bool.false_eq_true, if_false]
  have e1 : ∀ q, q < 2 → ∀ j, j < 8 → ∀ hh, (#v[0, 0, 0, 0, 0, 0, 0, 0, 1, 1, 1, 1, 1, 1, 1, 1] : Vector Nat 16)[q * 8 + j]'hh = q := by
    decide +kernel
  have e2 : ∀ q, q < 2 → ∀ j, j < 8 → ∀ hh, (#v[0, 1, 2, 3, 4, 5, 6, 7, 0, 1, 2, 3, 4, 5, 6, 7] : Vec (BitVec 8) 16)[q * 8 + j]'hh = BitVec.ofNat 8 j := by
    decide +kernel
  simp only [Fin.getElem_fin, e1 q hq j hj, e2 q hq j hj]

theorem shuffle1Dyn_from (t : Target) (ht : t.Supported) (ty : MaskTy) (v idx r : Vec (BitVec (8 * ty.laneBytes t)) ty.lanes)
    (h : shuffle1Dyn t ty v idx = .ok r) : FromLanes v r := by
  cases ty
  case m8x8 =>
    have h' : Shuf.u8x8 t v idx = .ok r := h
    unfold Shuf.u8x8 at h'
    split at h'
    · cases h'; exact Shuf.neonTbl_from (n := 8) v idx
    · exact Shuf.fallback_from (n := 8) t v idx r h'
  case m8x16 =>
    have h' : Shuf.u8x16 t v idx = .ok r := h
    obtain ⟨keep, hk⟩ := Shuf.u8x16_pick t ht v idx r h'
    intro i hi
    have := hk i hi
    split at this
    · exact .inr ⟨_, Nat.mod_lt _ (by decide), this⟩
    · exact .inl this
  case m16x8 => exact Shuf.u16x8_from t ht v idx r h
  case m32x4 => exact Shuf.u32x4_from t ht v idx r h
  case m64x2 => exact Shuf.u64x2_from t ht v idx r h
  case m128x1 =>
    have h' : (.ok v : R _) = .ok r := h
    cases h'
    exact fun i hi => .inr ⟨i, hi, rfl⟩
  all_goals exact Shuf.fallback_from t v idx r h

theorem shuffle1DynNonU_from (t : Target) (ht : t.Supported) (ty : MaskTy) (v idx r : Vec (BitVec (8 * ty.laneBytes t)) ty.lanes)
    (h : shuffle1DynNonU t ty v idx = .ok r) : FromLanes v r := by
  unfold shuffle1DynNonU at h
  rw [transmute_self] at h
  dsimp only at h
  cases hs : shuffle1Dyn t ty v idx with
  | error f => rw [hs] at h; cases h
  | ok s =>
    rw [hs] at h
    have h' : (.ok (transmute t.endian (ty.laneBytes t) ty.lanes rfl s) : R _) = .ok r := h
    rw [transmute_self] at h'
    obtain rfl : s = r := by injection h'
    exact shuffle1Dyn_from t ht ty v idx s hs

end PackedSimd
