import Verif.Lemmas.AoRandom
/-
examples/aobench/src/random.rs: C87 (vector generator = scalar generators), C88 (LFSR113), C89 (seeding), C90 (values).
-/
namespace PackedSimd.Props
open Spec Ex.AoRandom

variable {n : Nat}

/-! ### C87 -/

/-- C87: the vector generator never fails, and call number `t` returns in lane `i` what call number `t` of the scalar generator
seeded with lane `i` of the seed returns, bit for bit, forever. -/
theorem C87_vector_is_scalar (x : Vec (BitVec 32) n) : ∃ r, RngV.fromSeed x = .ok r ∧ ∀ t, ∃ rt v r', r.after t = .ok rt ∧ rt.gen = .ok (v, r') ∧
    ∀ i (h : i < n), v[i] = ((Rng.fromSeed x[i]).after t).gen.1 := by
  obtain ⟨r, e, hr⟩ := fromSeed_lane x
  refine ⟨r, e, fun t => ?_⟩
  obtain ⟨rt, et, ht⟩ := after_lane r t
  obtain ⟨v, r', ev, hv⟩ := gen_lane rt
  refine ⟨rt, v, r', et, ev, fun i h => ?_⟩
  rw [← hr i h, ← ht i h, ← hv i h]

/-- C87: lane 1 of the generator of a thread produces the numbers of the scalar generator of a thread. -/
theorem C87_thread (hn : 1 < n) : ∃ r, RngV.thread n = .ok r ∧ ∀ t, ∃ rt v r', r.after t = .ok rt ∧ rt.gen = .ok (v, r') ∧
    v[1] = (Rng.thread.after t).gen.1 := by
  obtain ⟨r, e, h⟩ := C87_vector_is_scalar (incrU32 n 0 1)
  refine ⟨r, e, fun t => ?_⟩
  obtain ⟨rt, v, r', h1, h2, h3⟩ := h t
  refine ⟨rt, v, r', h1, h2, ?_⟩
  rw [h3 1 hn]
  simp only [incrU32, Vector.getElem_ofFn]; rfl

-- the first two values of the scalar generator of a thread (0.49466… and 0.99612…), as bits of `f32`
example : Rng.thread.gen.1 = 0x3efd44a0#32 ∧ (Rng.thread.after 1).gen.1 = 0x3f7f01cc#32 := by decide +kernel

/-! ### C88 -/

/-- C88: how the four registers are seeded. -/
theorem C88_seeds (x : BitVec 32) : (Rng.fromSeed x).z0 = x ∧ (Rng.fromSeed x).z1 = seed1 x ∧ (Rng.fromSeed x).z2 = seed2 x ∧
    (Rng.fromSeed x).z3 = seed3 x := by
  refine ⟨rfl, rfl, ?_, ?_⟩
  · exact swap16 x
  · exact swap8 x

/-- C88: from any state, the generator is LFSR113: there are four bit sequences, produced by linear feedback shift registers of lengths
31, 29, 28, 25 and starting with the seeds, such that bit `p` of output number `t` (both counted from zero, the most significant bit
first) is the exclusive or of their elements number `18 (t+1) + p`, `2 (t+1) + p`, `7 (t+1) + p` and `13 (t+1) + p`. -/
theorem C88_lfsr113 (r : Rng) : ∃ x0 x1 x2 x3, (Lfsr 31 6 x0 ∧ StartsWith 31 x0 r.z0) ∧ (Lfsr 29 2 x1 ∧ StartsWith 29 x1 r.z1) ∧
    (Lfsr 28 13 x2 ∧ StartsWith 28 x2 r.z2) ∧ (Lfsr 25 3 x3 ∧ StartsWith 25 x3 r.z3) ∧
    ∀ t p, p < 32 → ((r.after t).genU32.1).getMsbD p =
      (x0 (18 * (t + 1) + p) ^^ x1 (2 * (t + 1) + p) ^^ x2 (7 * (t + 1) + p) ^^ x3 (13 * (t + 1) + p)) := by
  obtain ⟨x0, a0, b0, c0⟩ := after_seq (by omega) (by omega) (by omega) (by omega) mask0 Rng.z0 gen_z0 r
  obtain ⟨x1, a1, b1, c1⟩ := after_seq (by omega) (by omega) (by omega) (by omega) mask1 Rng.z1 gen_z1 r
  obtain ⟨x2, a2, b2, c2⟩ := after_seq (by omega) (by omega) (by omega) (by omega) mask2 Rng.z2 gen_z2 r
  obtain ⟨x3, a3, b3, c3⟩ := after_seq (by omega) (by omega) (by omega) (by omega) mask3 Rng.z3 gen_z3 r
  refine ⟨x0, x1, x2, x3, ⟨a0, b0⟩, ⟨a1, b1⟩, ⟨a2, b2⟩, ⟨a3, b3⟩, fun t p hp => ?_⟩
  rw [gen_out]
  simp only [BitVec.getMsbD_xor]
  have d0 := c0 t p hp
  have d1 := c1 t p hp
  have d2 := c2 t p hp
  have d3 := c3 t p hp
  simp only [Rng.after] at d0 d1 d2 d3
  rw [d0, d1, d2, d3, Bool.xor_assoc, Bool.xor_assoc]

/-! ### C89 -/

/-- C89: a properly seeded generator never loses a register. -/
theorem C89_alive_partial (r : Rng) (h : GoodSeeds r.z0 r.z1 r.z2 r.z3) (t : Nat) :
    GoodSeeds (r.after t).z0 (r.after t).z1 (r.after t).z2 (r.after t).z3 := by
  obtain ⟨h0, h1, h2, h3⟩ := h
  exact ⟨after_alive (by omega) (by omega) (by omega) (by omega) mask0 Rng.z0 gen_z0 r h0 t,
    after_alive (by omega) (by omega) (by omega) (by omega) mask1 Rng.z1 gen_z1 r h1 t,
    after_alive (by omega) (by omega) (by omega) (by omega) mask2 Rng.z2 gen_z2 r h2 t,
    after_alive (by omega) (by omega) (by omega) (by omega) mask3 Rng.z3 gen_z3 r h3 t⟩

/-- C89: the lanes 2, 3, … of the generator of a thread are properly seeded. -/
theorem C89_other_lanes_partial : ∀ i, i < 8 → 2 ≤ i →
    GoodSeeds (Rng.fromSeed (u i)).z0 (Rng.fromSeed (u i)).z1 (Rng.fromSeed (u i)).z2 (Rng.fromSeed (u i)).z3 := by
  unfold GoodSeeds; decide +kernel

/-- C89 fails: the seed 1 of the scalar generator of every thread leaves the first register empty, and its output never depends on it:
it is the combination of three registers only. -/
theorem C89_scalar_thread_fails : ¬ GoodSeeds Rng.thread.z0 Rng.thread.z1 Rng.thread.z2 Rng.thread.z3 ∧
    ∃ x1 x2 x3, Lfsr 29 2 x1 ∧ Lfsr 28 13 x2 ∧ Lfsr 25 3 x3 ∧ ∀ t p, p < 32 → ((Rng.thread.after t).genU32.1).getMsbD p =
      (x1 (2 * (t + 1) + p) ^^ x2 (7 * (t + 1) + p) ^^ x3 (13 * (t + 1) + p)) := by
  refine ⟨by unfold GoodSeeds; decide +kernel, ?_⟩
  obtain ⟨x0, x1, x2, x3, ⟨a0, b0⟩, ⟨a1, -⟩, ⟨a2, -⟩, ⟨a3, -⟩, h⟩ := C88_lfsr113 Rng.thread
  refine ⟨x1, x2, x3, a1, a2, a3, fun t p hp => ?_⟩
  have z := lfsr_zero (by omega) a0 (fun p hp => by
    rw [b0 p hp]; exact (empty_iff (by omega) _).2 (by decide +kernel) p hp)
  rw [h t p hp, z, Bool.false_xor]

/-- C89 fails: lane 0 of the vector generator of every thread is seeded with 0, which leaves three registers empty: each 32-bit output is
the previous one shifted by two bits. -/
theorem C89_vector_thread_fails (hn : 0 < n) : ∃ r, RngV.thread n = .ok r ∧
    ∀ t, ∃ r1 v1 r2 v2 r3, r.after t = .ok r1 ∧ r1.genU32 = .ok (v1, r2) ∧ r2.genU32 = .ok (v2, r3) ∧
      ∀ p, p < 30 → v2[0].getMsbD p = v1[0].getMsbD (p + 2) := by
  obtain ⟨r, e, hr⟩ := fromSeed_lane (incrU32 n 0 1)
  refine ⟨r, e, fun t => ?_⟩
  obtain ⟨r1, e1, h1⟩ := after_lane r t
  obtain ⟨v1, r2, e2, h2⟩ := genU32_lane r1
  obtain ⟨v2, r3, e3, h3⟩ := genU32_lane r2
  refine ⟨r1, v1, r2, v2, r3, e1, e2, e3, fun p hp => ?_⟩
  have h1 := h1 0 hn
  have h2 := h2 0 hn
  have h3 := h3 0 hn
  have hs : (incrU32 n 0 1)[0] = 0#32 := by simp only [incrU32, Vector.getElem_ofFn, Nat.zero_mul]
  rw [hr 0 hn, hs] at h1
  have e1 : v1[0] = ((Rng.fromSeed 0#32).after t).genU32.1 := by rw [← h1, ← h2]
  have e2 : v2[0] = ((Rng.fromSeed 0#32).after (t + 1)).genU32.1 := by
    rw [Rng.after, gen_state, ← h1, ← h2, ← h3]
  obtain ⟨x0, x1, x2, x3, ⟨a0, b0⟩, ⟨a1, -⟩, ⟨a2, b2⟩, ⟨a3, b3⟩, h⟩ := C88_lfsr113 (Rng.fromSeed 0#32)
  have z0 := lfsr_zero (by omega) a0 (fun p hp => by rw [b0 p hp]; exact (empty_iff (by omega) _).2 (by decide +kernel) p hp)
  have z2 := lfsr_zero (by omega) a2 (fun p hp => by rw [b2 p hp]; exact (empty_iff (by omega) _).2 (by decide +kernel) p hp)
  have z3 := lfsr_zero (by omega) a3 (fun p hp => by rw [b3 p hp]; exact (empty_iff (by omega) _).2 (by decide +kernel) p hp)
  rw [e1, e2, h _ _ (by omega), h _ _ (by omega)]
  simp only [z0, z2, z3]
  congr 4; omega

example : GoodSeeds (Rng.fromSeed (u 2)).z0 (Rng.fromSeed (u 2)).z1 (Rng.fromSeed (u 2)).z2 (Rng.fromSeed (u 2)).z3 := by
  unfold GoodSeeds; decide +kernel

/-! ### C90 -/

/-- C90: from any state `gen` returns exactly `k / 2^23`, where `k` are the low 23 bits of the 32-bit output (the unit is `2^-149`). -/
theorem C90_value (r : Rng) : valueOf 23 r.gen.1 = .num ((r.genU32.1.toNat % 2 ^ 23 : Nat) * 2 ^ 126) := by
  have := gen_value (r.genU32.1 &&& ((u 1 <<< 23) - u 1)) (by rw [low_mask]; omega)
  rw [low_mask] at this
  exact this

/-- C90: it is never NaN, and lies in the interval from 0 (included) to 1 (excluded). -/
theorem C90_unit_interval (r : Rng) : ∃ z : Int, valueOf 23 r.gen.1 = .num z ∧ 0 ≤ z ∧ z < 2 ^ low 32 23 := by
  refine ⟨_, C90_value r, by omega, ?_⟩
  rw [show low 32 23 = 149 from by decide]
  omega

-- 0.5 is one of the values: the output 0x00400000
example : valueOf 23 (Flt.sub 23 (u 0x3F800000 ||| (0x00400000#32 &&& ((u 1 <<< 23) - u 1))) (Flt.fromInt 32 23 1)) = .num (2 ^ 148) := by
  decide +kernel

end PackedSimd.Props
