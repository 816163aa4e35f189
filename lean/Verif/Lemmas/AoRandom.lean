import Verif.Model.Examples.AoRandom
import Verif.Spec.AoRandom
import Verif.Lemmas.FloatOps
import Mathlib.Tactic.IntervalCases
/-
Lemmas about the generator of examples/aobench/src/random.rs.
-/
namespace PackedSimd.Ex.AoRandom
open Spec

/-! ### Lanes of the vector generator -/

variable {n : Nat}

theorem R_bind {α β : Type} (a : α) (f : α → R β) : (Except.ok a >>= f : R β) = f a := by simp only [bind, Except.bind]

theorem shl_ok (a : Vec (BitVec 32) n) {k : Nat} (hk : k < 32) : shl a k = .ok (Vector.ofFn fun i : Fin n => a[i] <<< k) := by
  have e : ((u k).setWidth 32).toNat = k := by
    simp only [u, BitVec.setWidth_eq, BitVec.toNat_ofNat]; omega
  unfold shl Ops.shlU32 Ops.shl Intr.simdShl
  rw [if_neg]
  · congr 1
    ext i h : 1
    simp only [splat, Vector.getElem_zipWith, Vector.getElem_ofFn, e, Fin.getElem_fin]
  · simp only [Vector.any_eq_true, decide_eq_true_eq, not_exists]
    intro i h
    simp only [splat, Vector.getElem_ofFn, e]; omega

theorem shr_ok (a : Vec (BitVec 32) n) {k : Nat} (hk : k < 32) : shr a k = .ok (Vector.ofFn fun i : Fin n => a[i] >>> k) := by
  have e : ((u k).setWidth 32).toNat = k := by
    simp only [u, BitVec.setWidth_eq, BitVec.toNat_ofNat]; omega
  unfold shr Ops.shrU32 Ops.shr Intr.simdShr
  rw [if_neg]
  · congr 1
    ext i h : 1
    simp only [splat, Vector.getElem_zipWith, Vector.getElem_ofFn, e, Fin.getElem_fin, Bool.false_eq_true, if_false]
  · simp only [Vector.any_eq_true, decide_eq_true_eq, not_exists]
    intro i h
    simp only [splat, Vector.getElem_ofFn, e]; omega

theorem xor_get (a b : Vec (BitVec 32) n) (i : Nat) (h : i < n) : (Ops.bitxor a b)[i] = a[i] ^^^ b[i] := by
  simp [Ops.bitxor, Intr.simdXor]
theorem and_get (a b : Vec (BitVec 32) n) (i : Nat) (h : i < n) : (Ops.bitand a b)[i] = a[i] &&& b[i] := by
  simp [Ops.bitand, Intr.simdAnd]
theorem or_get (a b : Vec (BitVec 32) n) (i : Nat) (h : i < n) : (Ops.bitor a b)[i] = a[i] ||| b[i] := by
  simp [Ops.bitor, Intr.simdOr]
theorem splat_get' (x : BitVec 32) (i : Nat) (h : i < n) : (splat n x)[i] = x := by
  simp [splat]

/-- The lanes `i` of the four components. -/
def RngV.lane (r : RngV n) (i : Nat) (h : i < n) : Rng := ⟨r.z0[i], r.z1[i], r.z2[i], r.z3[i]⟩

theorem shl_lane (a : Vec (BitVec 32) n) {k : Nat} (hk : k < 32) : ∃ r, shl a k = .ok r ∧ ∀ i (h : i < n), r[i] = a[i] <<< k :=
  ⟨_, shl_ok a hk, fun i h => by simp only [Vector.getElem_ofFn, Fin.getElem_fin]⟩
theorem shr_lane (a : Vec (BitVec 32) n) {k : Nat} (hk : k < 32) : ∃ r, shr a k = .ok r ∧ ∀ i (h : i < n), r[i] = a[i] >>> k :=
  ⟨_, shr_ok a hk, fun i h => by simp only [Vector.getElem_ofFn, Fin.getElem_fin]⟩

theorem fromSeed_lane (x : Vec (BitVec 32) n) : ∃ r, RngV.fromSeed x = .ok r ∧ ∀ i (h : i < n), r.lane i h = Rng.fromSeed x[i] := by
  unfold RngV.fromSeed
  obtain ⟨r1, e1, h1⟩ := shl_lane (Ops.bitand x (splat n (u 0xffff))) (show 16 < 32 by omega)
  obtain ⟨r2, e2, h2⟩ := shr_lane x (show 16 < 32 by omega)
  obtain ⟨r3, e3, h3⟩ := shl_lane (Ops.bitand x (splat n (u 0xff))) (show 24 < 32 by omega)
  obtain ⟨r4, e4, h4⟩ := shl_lane (Ops.bitand x (splat n (u 0xff00))) (show 8 < 32 by omega)
  obtain ⟨r5, e5, h5⟩ := shr_lane (Ops.bitand x (splat n (u 0x00ff0000))) (show 8 < 32 by omega)
  obtain ⟨r6, e6, h6⟩ := shr_lane (Ops.bitand x (splat n (u 0xff000000))) (show 24 < 32 by omega)
  rw [e1, R_bind, e2, R_bind, e3, R_bind, e4, R_bind, e5, R_bind, e6, R_bind]
  refine ⟨_, rfl, fun i h => ?_⟩
  simp only [RngV.lane, Rng.fromSeed, xor_get, or_get, h1, h2, h3, h4, h5, h6, and_get, splat_get']

theorem genU32_lane (r : RngV n) : ∃ v r', r.genU32 = .ok (v, r') ∧ ∀ i (h : i < n), (v[i], r'.lane i h) = (r.lane i h).genU32 := by
  unfold RngV.genU32
  obtain ⟨r1, e1, h1⟩ := shl_lane r.z0 (show 6 < 32 by omega)
  obtain ⟨r2, e2, h2⟩ := shr_lane (Ops.bitxor r1 r.z0) (show 13 < 32 by omega)
  obtain ⟨r3, e3, h3⟩ := shl_lane (Ops.bitand r.z0 (splat n (u 4294967294))) (show 18 < 32 by omega)
  obtain ⟨r4, e4, h4⟩ := shl_lane r.z1 (show 2 < 32 by omega)
  obtain ⟨r5, e5, h5⟩ := shr_lane (Ops.bitxor r4 r.z1) (show 27 < 32 by omega)
  obtain ⟨r6, e6, h6⟩ := shl_lane (Ops.bitand r.z1 (splat n (u 4294967288))) (show 2 < 32 by omega)
  obtain ⟨r7, e7, h7⟩ := shl_lane r.z2 (show 13 < 32 by omega)
  obtain ⟨r8, e8, h8⟩ := shr_lane (Ops.bitxor r7 r.z2) (show 21 < 32 by omega)
  obtain ⟨r9, e9, h9⟩ := shl_lane (Ops.bitand r.z2 (splat n (u 4294967280))) (show 7 < 32 by omega)
  obtain ⟨ra, ea, ha⟩ := shl_lane r.z3 (show 3 < 32 by omega)
  obtain ⟨rb, eb, hb⟩ := shr_lane (Ops.bitxor ra r.z3) (show 12 < 32 by omega)
  obtain ⟨rc, ec, hc⟩ := shl_lane (Ops.bitand r.z3 (splat n (u 4294967168))) (show 13 < 32 by omega)
  rw [e1, R_bind, e2, R_bind, e3, R_bind, e4, R_bind, e5, R_bind, e6, R_bind, e7, R_bind, e8, R_bind, e9, R_bind, ea, R_bind, eb, R_bind,
    ec, R_bind]
  refine ⟨_, _, rfl, fun i h => ?_⟩
  simp only [RngV.lane, Rng.genU32, h1, h2, h3, h4, h5, h6, h7, h8, h9, ha, hb, hc, xor_get, and_get, splat_get']

theorem gen_lane (r : RngV n) : ∃ v r', r.gen = .ok (v, r') ∧ ∀ i (h : i < n), (v[i], r'.lane i h) = (r.lane i h).gen := by
  obtain ⟨v, r', e, hv⟩ := genU32_lane r
  unfold RngV.gen
  rw [e]
  refine ⟨_, _, rfl, fun i h => ?_⟩
  have := hv i h
  simp only [Rng.gen, FVec.sub, Vector.getElem_zipWith, or_get, and_get, splat_get', ← hv i h]

theorem after_lane (r : RngV n) (t : Nat) : ∃ r', r.after t = .ok r' ∧ ∀ i (h : i < n), r'.lane i h = (r.lane i h).after t := by
  induction t with
  | zero => exact ⟨r, rfl, fun _ _ => rfl⟩
  | succ t ih =>
    obtain ⟨r', e, h'⟩ := ih
    obtain ⟨v, r'', e2, h2⟩ := gen_lane r'
    refine ⟨r'', by simp only [RngV.after, e, R_bind, e2]; rfl, fun i h => ?_⟩
    simp only [Rng.after, ← h' i h, ← h2 i h]

/-! ### One register -/

/-- One step of a register as the code computes it. -/
def lstep (mask : BitVec 32) (q s d : Nat) (z : BitVec 32) : BitVec 32 := ((z &&& mask) <<< s) ^^^ (((z <<< q) ^^^ z) >>> d)

theorem lstep_bit {mask : BitVec 32} {k q s : Nat} (hs : s < k) (hk : k ≤ 32) (hq : q ≤ k - s) (hm : ∀ p, p < 32 → mask.getMsbD p = decide (p < k))
    (z : BitVec 32) {p : Nat} (hp : p < 32) :
    (lstep mask q s (k - s) z).getMsbD p = if p < k - s then z.getMsbD (p + s) else (z.getMsbD (p - (k - s)) ^^ z.getMsbD (p - (k - s) + q)) := by
  unfold lstep
  rw [BitVec.getMsbD_xor, BitVec.getMsbD_shiftLeft, BitVec.getMsbD_ushiftRight, BitVec.getMsbD_xor, BitVec.getMsbD_shiftLeft,
    BitVec.getMsbD_and]
  by_cases h : p < k - s
  · rw [if_pos h, hm _ (by omega)]
    have : p + s < k := by omega
    simp [h, this]
  · rw [if_neg h]
    by_cases h2 : p + s < 32
    · rw [hm _ h2]
      have : ¬ (p + s < k) := by omega
      simp [this, Bool.xor_comm, hp, h]
    · have : ¬ (p + s < 32) := h2
      have : mask.getMsbD (p + s) = false := BitVec.getMsbD_of_ge _ _ (by omega)
      simp [this, Bool.xor_comm, hp, h]

/-- The sequence generated from `f 0`, …, `f (k - 1)`. -/
def lseq (k q : Nat) (f : Nat → Bool) (n : Nat) : Bool :=
  if h : n < k ∨ k ≤ q ∨ k = 0 then f n else lseq k q f (n - k) ^^ lseq k q f (n - k + q)
termination_by n
decreasing_by all_goals omega

theorem lseq_lt {k q : Nat} {f : Nat → Bool} {n : Nat} (h : n < k) : lseq k q f n = f n := by
  rw [lseq, dif_pos (.inl h)]

theorem lseq_lfsr {k q : Nat} (hq : q < k) (f : Nat → Bool) : Lfsr k q (lseq k q f) := by
  intro n
  rw [lseq, dif_neg (by omega), Nat.add_sub_cancel]

/-- The register after a step shows the sequence `s` places further, in all 32 bits. -/
theorem lstep_seq {mask : BitVec 32} {k q s : Nat} (hs : s < k) (hk : k ≤ 32) (hq : q ≤ k - s) (hk2 : 31 - (k - s) + q < k)
    (hm : ∀ p, p < 32 → mask.getMsbD p = decide (p < k)) {x : Nat → Bool} (hx : Lfsr k q x) {z : BitVec 32} {m : Nat}
    (hz : ∀ p, p < k → z.getMsbD p = x (m + p)) {p : Nat} (hp : p < 32) :
    (lstep mask q s (k - s) z).getMsbD p = x (m + s + p) := by
  rw [lstep_bit hs hk hq hm z hp]
  by_cases h : p < k - s
  · rw [if_pos h, hz _ (by omega)]; congr 1; omega
  · rw [if_neg h, hz _ (by omega), hz _ (by omega), ← Nat.add_assoc, ← hx]; congr 1; omega

/-- An empty register only comes from an empty register. -/
theorem lstep_alive {mask : BitVec 32} {k q s : Nat} (hs : s < k) (hk : k ≤ 32) (hq0 : 0 < q) (hq : q ≤ k - s)
    (hm : ∀ p, p < 32 → mask.getMsbD p = decide (p < k)) {z : BitVec 32}
    (h : ∀ p, p < k → (lstep mask q s (k - s) z).getMsbD p = false) : ∀ p, p < k → z.getMsbD p = false := by
  have key : ∀ j p, k - p = j → p < k → z.getMsbD p = false := by
    intro j
    induction j using Nat.strongRecOn with
    | ind j ih =>
      intro p hj hp
      by_cases h2 : s ≤ p
      · have := h (p - s) (by omega)
        rw [lstep_bit hs hk hq hm z (by omega), if_pos (by omega)] at this
        rwa [Nat.sub_add_cancel h2] at this
      · have := h (p + (k - s)) (by omega)
        rw [lstep_bit hs hk hq hm z (by omega), if_neg (by omega), Nat.add_sub_cancel] at this
        rw [ih (k - (p + q)) (by omega) (p + q) rfl (by omega)] at this
        simpa using this
  exact fun p hp => key _ p rfl hp

end PackedSimd.Ex.AoRandom

namespace PackedSimd.Ex.AoRandom
open Spec

theorem empty_iff {k : Nat} (hk : k ≤ 32) (z : BitVec 32) : (∀ p, p < k → z.getMsbD p = false) ↔ z.toNat < 2 ^ (32 - k) := by
  constructor
  · intro h
    have e : z >>> (32 - k) = 0#32 := by
      apply BitVec.eq_of_getLsbD_eq
      intro i hi
      rw [BitVec.getLsbD_ushiftRight, BitVec.getLsbD_zero]
      by_cases h2 : 32 - k + i < 32
      · have := h (31 - (32 - k + i)) (by omega)
        rw [BitVec.getMsbD_eq_getLsbD] at this
        have e2 : 32 - 1 - (31 - (32 - k + i)) = 32 - k + i := by omega
        rw [e2] at this
        simpa using (by simpa [show 31 - (32 - k + i) < 32 by omega] using this : z.getLsbD (32 - k + i) = false)
      · exact BitVec.getLsbD_of_ge _ _ (by omega)
    have e2 := congrArg BitVec.toNat e
    rw [BitVec.toNat_ushiftRight, Nat.shiftRight_eq_div_pow] at e2
    have h0 : z.toNat / 2 ^ (32 - k) = 0 := e2
    exact (Nat.div_eq_zero_iff_lt (Nat.two_pow_pos _)).1 h0
  · intro h p hp
    rw [BitVec.getMsbD_eq_getLsbD]
    have : z.getLsbD (32 - 1 - p) = false := by
      unfold BitVec.getLsbD
      exact Nat.testBit_lt_two_pow (Nat.lt_of_lt_of_le h (Nat.pow_le_pow_right (by omega) (by omega)))
    rw [this]; simp

/-! ### The four registers -/

theorem mask0 : ∀ p, p < 32 → (u 4294967294).getMsbD p = decide (p < 31) := by decide +kernel
theorem mask1 : ∀ p, p < 32 → (u 4294967288).getMsbD p = decide (p < 29) := by decide +kernel
theorem mask2 : ∀ p, p < 32 → (u 4294967280).getMsbD p = decide (p < 28) := by decide +kernel
theorem mask3 : ∀ p, p < 32 → (u 4294967168).getMsbD p = decide (p < 25) := by decide +kernel

theorem gen_state (r : Rng) : r.gen.2 = r.genU32.2 := rfl
theorem gen_z0 (r : Rng) : r.gen.2.z0 = lstep (u 4294967294) 6 18 (31 - 18) r.z0 := rfl
theorem gen_z1 (r : Rng) : r.gen.2.z1 = lstep (u 4294967288) 2 2 (29 - 2) r.z1 := rfl
theorem gen_z2 (r : Rng) : r.gen.2.z2 = lstep (u 4294967280) 13 7 (28 - 7) r.z2 := rfl
theorem gen_z3 (r : Rng) : r.gen.2.z3 = lstep (u 4294967168) 3 13 (25 - 13) r.z3 := rfl
theorem gen_out (r : Rng) : r.genU32.1 = r.gen.2.z0 ^^^ r.gen.2.z1 ^^^ r.gen.2.z2 ^^^ r.gen.2.z3 := rfl

/-- Register `j` after `t` steps. -/
theorem after_seq {mask : BitVec 32} {k q s : Nat} (hs : s < k) (hk : k ≤ 32) (hq : q ≤ k - s) (hk2 : 31 - (k - s) + q < k)
    (hm : ∀ p, p < 32 → mask.getMsbD p = decide (p < k)) (f : Rng → BitVec 32) (hf : ∀ r : Rng, f r.gen.2 = lstep mask q s (k - s) (f r))
    (r : Rng) : ∃ x, Lfsr k q x ∧ StartsWith k x (f r) ∧ ∀ t p, p < 32 → (f (r.after (t + 1))).getMsbD p = x (s * (t + 1) + p) := by
  have hqk : q < k := by omega
  refine ⟨lseq k q (f r).getMsbD, lseq_lfsr hqk _, fun p hp => lseq_lt hp, ?_⟩
  intro t
  induction t with
  | zero =>
    intro p hp
    have := lstep_seq hs hk hq hk2 hm (lseq_lfsr hqk (f r).getMsbD) (z := f r) (m := 0) (fun p hp => by rw [Nat.zero_add, lseq_lt hp]) hp
    simp only [Rng.after, hf]
    rw [this]; congr 1
  | succ t ih =>
    intro p hp
    have := lstep_seq hs hk hq hk2 hm (lseq_lfsr hqk (f r).getMsbD) (z := f (r.after (t + 1))) (m := s * (t + 1))
      (fun p hp => ih p (by omega)) hp
    rw [Rng.after, hf, this]; congr 1

theorem after_alive {mask : BitVec 32} {k q s : Nat} (hs : s < k) (hk : k ≤ 32) (hq0 : 0 < q) (hq : q ≤ k - s)
    (hm : ∀ p, p < 32 → mask.getMsbD p = decide (p < k)) (f : Rng → BitVec 32) (hf : ∀ r : Rng, f r.gen.2 = lstep mask q s (k - s) (f r))
    (r : Rng) (h : 2 ^ (32 - k) ≤ (f r).toNat) (t : Nat) : 2 ^ (32 - k) ≤ (f (r.after t)).toNat := by
  induction t with
  | zero => exact h
  | succ t ih =>
    refine Decidable.byContradiction fun hc => ?_
    have h1 := (empty_iff hk _).2 (Nat.lt_of_not_le hc)
    rw [Rng.after, hf] at h1
    have h2 := (empty_iff hk _).1 (lstep_alive hs hk hq0 hq hm h1)
    omega

theorem lfsr_zero {k q : Nat} (hq : q < k) {x : Nat → Bool} (hx : Lfsr k q x) (h : ∀ p, p < k → x p = false) : ∀ n, x n = false := by
  intro n
  induction n using Nat.strongRecOn with
  | ind n ih =>
    by_cases hn : n < k
    · exact h n hn
    · have := hx (n - k)
      rw [Nat.sub_add_cancel (by omega)] at this
      rw [this, ih _ (by omega), ih _ (by omega)]; rfl

/-! ### Seeds -/

theorem swap16 (x : BitVec 32) : (Rng.fromSeed x).z2 = seed2 x := by
  apply BitVec.eq_of_getLsbD_eq
  intro i hi
  simp only [Rng.fromSeed, seed2, BitVec.getLsbD_or, BitVec.getLsbD_shiftLeft, BitVec.getLsbD_and, BitVec.getLsbD_ushiftRight,
    BitVec.getLsbD_append, BitVec.getLsbD_extractLsb', u]
  interval_cases i <;> simp <;> decide

theorem swap8 (x : BitVec 32) : (Rng.fromSeed x).z3 = seed3 x := by
  apply BitVec.eq_of_getLsbD_eq
  intro i hi
  simp only [Rng.fromSeed, seed3, BitVec.getLsbD_or, BitVec.getLsbD_shiftLeft, BitVec.getLsbD_and, BitVec.getLsbD_ushiftRight,
    BitVec.getLsbD_append, BitVec.getLsbD_extractLsb', u]
  interval_cases i <;> simp <;> decide

/-! ### Values -/

theorem low_mask (v : BitVec 32) : (v &&& ((u 1 <<< 23) - u 1)).toNat = v.toNat % 2 ^ 23 := by
  rw [BitVec.toNat_and, show (((u 1 <<< 23) - u 1) : BitVec 32).toNat = 2 ^ 23 - 1 from by decide +kernel, Nat.and_two_pow_sub_one_eq_mod]

theorem one_or (v : BitVec 32) (h : v.toNat < 2 ^ 23) : (u 0x3F800000 ||| v).toNat = 0x3F800000 + v.toNat := by
  rw [BitVec.toNat_or, show (u 0x3F800000).toNat = 2 ^ 23 * 127 from by decide +kernel, ← Nat.two_pow_add_eq_or_of_lt h]

theorem gen_value (v : BitVec 32) (h : v.toNat < 2 ^ 23) :
    valueOf 23 (Flt.sub 23 (u 0x3F800000 ||| v) (Flt.fromInt 32 23 1)) = .num (v.toNat * 2 ^ 126) := by
  have hf : Format 32 23 := by unfold Format; omega
  have e1 : valueOf 23 (u 0x3F800000 ||| v) = .num (2 ^ 149 + v.toNat * 2 ^ 126) := by
    have hm : magBits (u 0x3F800000 ||| v) = 127 * 2 ^ 23 + v.toNat := by
      unfold magBits; rw [one_or v h]; omega
    unfold valueOf
    have hi : infMag 32 23 = 255 * 2 ^ 23 := by decide +kernel
    have hn : isNeg (u 0x3F800000 ||| v) = false := by
      unfold isNeg; rw [one_or v h]; simp; omega
    have hu : magUnits 23 (magBits (u 0x3F800000 ||| v)) = 2 ^ 149 + v.toNat * 2 ^ 126 := by
      unfold magUnits
      have a : (127 * 2 ^ 23 + v.toNat) / 2 ^ 23 = 127 := by omega
      have b : (127 * 2 ^ 23 + v.toNat) % 2 ^ 23 = v.toNat := by omega
      simp only [hm, a, b]
      rw [if_neg (by omega), Nat.add_mul, ← Nat.pow_add]
    rw [hn, hu, hm, hi, if_neg (by omega), if_neg (by omega), if_neg (by simp)]
    rfl
  have e2 := (valueOf_one hf).1
  have h := sub_rounds hf (u 0x3F800000 ||| v) (Flt.fromInt 32 23 1)
  unfold exactSub at h
  rw [e1, e2] at h
  have hl : low 32 23 = 149 := by decide
  rw [hl] at h
  have ez : ((2 ^ 149 + v.toNat * 2 ^ 126 : Int) - 2 ^ 149) = v.toNat * 2 ^ 126 := by omega
  apply value_of_exact hf (den := 1)
  · have h' := h
    dsimp only at h'
    rw [ez] at h'
    simpa using h'
  · apply representable_of
    · simp; omega
    · have h3 : 2 ^ 23 * 2 ^ 126 ≤ magUnits 23 (infMag 32 23) := by decide +kernel
      refine Nat.lt_of_lt_of_le ?_ h3
      have h4 : (v.toNat : Int).natAbs = v.toNat := rfl
      rw [h4]
      exact Nat.mul_lt_mul_of_pos_right (by assumption) (Nat.two_pow_pos _)

end PackedSimd.Ex.AoRandom
