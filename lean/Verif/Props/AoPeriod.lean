import Verif.Lemmas.AoPeriod
import Verif.Props.AoRandom
/-
examples/aobench/src/random.rs: C122 (how long the generator takes to repeat itself).
-/
namespace PackedSimd.Props
open Spec Ex.AoRandom

variable {n : Nat}

/-- C122: from any state, the numbers returned by `gen` come round again after exactly the product of the cycle lengths of the registers that
are not empty, and not sooner, at any point of the sequence. -/
theorem C122_numbers (r : Rng) : CycleLength (fun t => (r.after t).gen.1) (lfsrCycle r.z0 r.z1 r.z2 r.z3) := by
  have h : ∀ t, (r.after (t + lfsrCycle r.z0 r.z1 r.z2 r.z3)).gen.1 = (r.after t).gen.1 := fun t => by
    rw [gen_eq_iff, cycle_out, BitVec.xor_self]; rfl
  exact ⟨cycle_pos _ _ _ _, h, fun m T hm => cycle_dvd r m fun t => tail_repeats (x := fun t => (r.after t).gen.1) (cycle_pos _ _ _ _) h hm t⟩

/-- C122: the same for the 32-bit outputs. -/
theorem C122_outputs (r : Rng) : CycleLength (fun t => (r.after t).genU32.1) (lfsrCycle r.z0 r.z1 r.z2 r.z3) := by
  refine ⟨cycle_pos _ _ _ _, cycle_out r, fun m T hm => (C122_numbers r).2.2 m T fun t ht => ?_⟩
  have e : (r.after (t + m)).genU32.1 = (r.after t).genU32.1 := hm t ht
  rw [gen_eq_iff, e, BitVec.xor_self]; rfl

/-- C122: properly seeded, the generator repeats itself after `(2^31 - 1) (2^29 - 1) (2^28 - 1) (2^25 - 1)` calls, about `10^34`. -/
theorem C122_full (r : Rng) (h : GoodSeeds r.z0 r.z1 r.z2 r.z3) :
    CycleLength (fun t => (r.after t).gen.1) ((2 ^ 31 - 1) * (2 ^ 29 - 1) * (2 ^ 28 - 1) * (2 ^ 25 - 1)) := by
  have := C122_numbers r
  rwa [lfsrCycle, if_pos h.1, if_pos h.2.1, if_pos h.2.2.1, if_pos h.2.2.2] at this

/-- C122: the scalar generator of every thread, whose first register is empty (C89), repeats itself `2^31 - 1` times sooner. -/
theorem C122_scalar_thread : CycleLength (fun t => (Rng.thread.after t).gen.1) ((2 ^ 29 - 1) * (2 ^ 28 - 1) * (2 ^ 25 - 1)) := by
  have := C122_numbers Rng.thread
  rwa [show lfsrCycle Rng.thread.z0 Rng.thread.z1 Rng.thread.z2 Rng.thread.z3 = (2 ^ 29 - 1) * (2 ^ 28 - 1) * (2 ^ 25 - 1) from by
    decide +kernel] at this

/-- C122: every lane of the vector generator has the cycle of the scalar generator with the seed of the lane. -/
theorem C122_vector (x : Vec (BitVec 32) n) : ∃ r, RngV.fromSeed x = .ok r ∧ ∃ v : Nat → Vec (BitVec 32) n,
    (∀ t, ∃ rt r', r.after t = .ok rt ∧ rt.gen = .ok (v t, r')) ∧ ∀ i (h : i < n), CycleLength (fun t => (v t)[i])
      (lfsrCycle x[i] (seed1 x[i]) (seed2 x[i]) (seed3 x[i])) := by
  obtain ⟨r, e, h⟩ := C87_vector_is_scalar x
  refine ⟨r, e, fun t => (h t).choose_spec.choose, fun t => ?_, fun i hi => ?_⟩
  · obtain ⟨r', h1, h2, -⟩ := (h t).choose_spec.choose_spec
    exact ⟨_, r', h1, h2⟩
  · have hv : (fun t => ((h t).choose_spec.choose)[i]) = fun t => ((Rng.fromSeed x[i]).after t).gen.1 := by
      funext t
      obtain ⟨r', -, -, h3⟩ := (h t).choose_spec.choose_spec
      exact h3 i hi
    rw [hv]
    have := C122_numbers (Rng.fromSeed x[i])
    obtain ⟨s0, s1, s2, s3⟩ := C88_seeds x[i]
    rwa [s0, s1, s2, s3] at this

/-- C122: lane 0 of the vector generator of every thread, which is left with one register (C89), repeats itself after `2^29 - 1` calls. -/
theorem C122_vector_thread (hn : 0 < n) : ∃ r, RngV.thread n = .ok r ∧ ∃ v : Nat → Vec (BitVec 32) n,
    (∀ t, ∃ rt r', r.after t = .ok rt ∧ rt.gen = .ok (v t, r')) ∧ CycleLength (fun t => (v t)[0]) (2 ^ 29 - 1) := by
  obtain ⟨r, e, v, h1, h2⟩ := C122_vector (incrU32 n 0 1)
  refine ⟨r, e, v, h1, ?_⟩
  have := h2 0 hn
  rw [show (incrU32 n 0 1)[0] = 0#32 by simp only [incrU32, Vector.getElem_ofFn, Nat.zero_mul]] at this
  rwa [show lfsrCycle 0#32 (seed1 0#32) (seed2 0#32) (seed3 0#32) = 2 ^ 29 - 1 from by decide +kernel] at this

-- seed 2 is a good seed: the full cycle
example : lfsrCycle (Rng.fromSeed (u 2)).z0 (Rng.fromSeed (u 2)).z1 (Rng.fromSeed (u 2)).z2 (Rng.fromSeed (u 2)).z3 =
    10384593344720504788331840650870785 := by decide +kernel

end PackedSimd.Props
