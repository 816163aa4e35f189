import Verif.Lemmas.NbodyOffset
import Verif.Model.FloatSqrt
import Verif.Props.MaskReduce
/-
C131: the total momentum of the nbody programs in `f64`.

`momentum`, `motion`, `impulse`, `dust` and `stepDrift` are in Spec/NbodyFloat.lean.  Nothing is assumed of the square root or of the literals.
-/
namespace PackedSimd.Ex.Nbody
open Spec PackedSimd.Props
variable {N : Nat}

/-! ### Steps -/

/-- C131, one step of the scalar program. -/
theorem C131_scalar_step (F : Fns F64) (dt : F64) (L : List (Body F64 3)) (c : Nat) (hc : c < 3) (hm : Massive L) (hp : L.length * (L.length - 1) / 2 ≤ 2 ^ 40)
    (hs : Sound c hc (advanceScalar F dt L)) :
    |momentum c hc (advanceScalar F dt L) - momentum c hc L| ≤ stepDrift c hc (L.length * (L.length - 1) / 2) (factorScalar F dt) L := by
  obtain ⟨-, -, D⟩ := turns_scalar F dt c hc _ L rfl hm hs
  have := D.bound hp (motion_nonneg hm) (pairSum_nonneg (fun _ _ => impulse_nonneg _) hm)
    (div_nonneg (pairSum_nonneg (fun _ _ => dust_nonneg) hm) (by positivity))
  unfold stepDrift
  rw [mul_div_assoc 2]
  exact this

theorem massive_masses {k : Nat} {L L' : List (Body F64 k)} (e : L'.map Body.mass = L.map Body.mass) (h : Massive L) : Massive L' := by
  intro b hb
  have : b.mass ∈ L.map Body.mass := e ▸ List.mem_map_of_mem hb
  obtain ⟨b', hb', e'⟩ := List.mem_map.1 this
  rw [← e']; exact h b' hb'

theorem repeat_scalar (F : Fns F64) (dt : F64) (L : List (Body F64 3)) (c : Nat) (hc : c < 3) (hm : Massive L) (hp : L.length * (L.length - 1) / 2 ≤ 2 ^ 40) :
    ∀ n, (Nat.repeat (advanceScalar F dt) n L).length = L.length ∧ Massive (Nat.repeat (advanceScalar F dt) n L) ∧
      (Sound c hc (Nat.repeat (advanceScalar F dt) n L) → Sound c hc L ∧ |momentum c hc (Nat.repeat (advanceScalar F dt) n L) - momentum c hc L| ≤
        ∑ i ∈ Finset.range n, stepDrift c hc (L.length * (L.length - 1) / 2) (factorScalar F dt) (Nat.repeat (advanceScalar F dt) i L))
  | 0 => ⟨rfl, hm, fun h => ⟨h, by simp [Nat.repeat]⟩⟩
  | n + 1 => by
    obtain ⟨l1, m1, s1⟩ := repeat_scalar F dt L c hc hm hp n
    rw [show Nat.repeat (advanceScalar F dt) (n + 1) L = advanceScalar F dt (Nat.repeat (advanceScalar F dt) n L) from rfl]
    have masses : ∀ (k : Nat) (L : List (Body F64 3)), (turns F dt k L).map Body.mass = L.map Body.mass := by
      intro k
      induction k with
      | zero => intro L; rfl
      | succ k ih =>
        intro L
        cases L with
        | nil => rfl
        | cons b rest =>
          have tm : ∀ (rest : List (Body F64 3)) (b : Body F64 3), (turn F dt b rest).1.mass = b.mass ∧ (turn F dt b rest).2.map Body.mass = rest.map Body.mass := by
            intro rest
            induction rest with
            | nil => intro b; exact ⟨rfl, rfl⟩
            | cons a rest ih => intro b; simp only [turn, List.map_cons]; rw [(ih _).1, (ih _).2]; exact ⟨rfl, rfl⟩
          simp only [turns, List.map_cons]
          rw [ih, (tm rest b).1, (tm rest b).2]
    have ms : (advanceScalar F dt (Nat.repeat (advanceScalar F dt) n L)).map Body.mass = (Nat.repeat (advanceScalar F dt) n L).map Body.mass := masses _ _
    refine ⟨?_, massive_masses ms m1, fun hS => ?_⟩
    · have := congrArg List.length ms
      rw [List.length_map, List.length_map] at this
      rw [this, l1]
    · obtain ⟨-, S0, -⟩ := turns_scalar F dt c hc _ _ rfl m1 hS
      have h1 := C131_scalar_step F dt (Nat.repeat (advanceScalar F dt) n L) c hc m1 (by rw [l1]; exact hp) hS
      rw [l1] at h1
      rw [Finset.sum_range_succ]
      have := abs_sub_le (momentum c hc (advanceScalar F dt (Nat.repeat (advanceScalar F dt) n L))) (momentum c hc (Nat.repeat (advanceScalar F dt) n L)) (momentum c hc L)
      exact ⟨(s1 S0).1, by linarith [(s1 S0).2]⟩

/-- C131, scalar: over any number of steps, as long as the velocities are numbers at the end, every component of the total momentum changes by no
more than the sum of the bounds of the steps. -/
theorem C131_scalar (F : Fns F64) (dt : F64) (L : List (Body F64 3)) (c : Nat) (hc : c < 3) (hm : Massive L) (hp : L.length * (L.length - 1) / 2 ≤ 2 ^ 40) (n : Nat)
    (hs : Sound c hc (Nat.repeat (advanceScalar F dt) n L)) :
    |momentum c hc (Nat.repeat (advanceScalar F dt) n L) - momentum c hc L| ≤
      ∑ i ∈ Finset.range n, stepDrift c hc (L.length * (L.length - 1) / 2) (factorScalar F dt) (Nat.repeat (advanceScalar F dt) i L) :=
  ((repeat_scalar F dt L c hc hm hp n).2.2 hs).2

/-- C131, one step of the SIMD program: it does not stop, and the bound is the same; the number of pairs has to be even (it is 10). -/
theorem C131_simd_step (F : Fns F64) (t : Target) (dt : F64) (hN : N * (N - 1) / 2 % 2 = 0) (B : Vector (Body F64 4) N) (c : Nat) (hc : c < 4)
    (hm : Massive B.toList) (hp : N * (N - 1) / 2 ≤ 2 ^ 40) :
    ∃ B', advanceSimd F t dt B = .ok B' ∧ B'.toList.map Body.mass = B.toList.map Body.mass ∧ (Sound c hc B'.toList → Sound c hc B.toList ∧
      |momentum c hc B'.toList - momentum c hc B.toList| ≤ stepDrift c hc (N * (N - 1) / 2) (factorSimd F t dt) B.toList) := by
  obtain ⟨B', e, ms, h⟩ := advance_simd F t dt hN B c hc hm
  refine ⟨B', e, ?_, fun hs => ?_⟩
  · refine List.ext_getElem (by simp) fun i h1 h2 => ?_
    simp only [List.getElem_map, Vector.getElem_toList]
    exact ms i (by simpa using h1)
  · obtain ⟨S, D⟩ := h hs
    refine ⟨S, ?_⟩
    have := D.bound hp (motion_nonneg hm) (pairSum_nonneg (fun _ _ => impulse_nonneg _) hm)
      (div_nonneg (pairSum_nonneg (fun _ _ => dust_nonneg) hm) (by positivity))
    unfold stepDrift
    rw [mul_div_assoc 2]
    exact this

/-- C131, SIMD: any number of steps; `states` are the arrays of bodies along the way. -/
theorem C131_simd (F : Fns F64) (t : Target) (dt : F64) (hN : N * (N - 1) / 2 % 2 = 0) (hp : N * (N - 1) / 2 ≤ 2 ^ 40) (c : Nat) (hc : c < 4) :
    ∀ (n : Nat) (B : Vector (Body F64 4) N), Massive B.toList →
    ∃ states : Nat → Vector (Body F64 4) N, (∀ i ≤ n, steps (advanceSimd F t dt) i B = .ok (states i)) ∧ (Sound c hc (states n).toList → Sound c hc B.toList ∧
      |momentum c hc (states n).toList - momentum c hc B.toList| ≤
        ∑ i ∈ Finset.range n, stepDrift c hc (N * (N - 1) / 2) (factorSimd F t dt) (states i).toList)
  | 0, B, _ => ⟨fun _ => B, fun i hi => by obtain rfl : i = 0 := by omega
                                           rfl, fun hs => ⟨hs, by simp⟩⟩
  | n + 1, B, hm => by
    obtain ⟨B1, e1, ms, h1⟩ := C131_simd_step F t dt hN B c hc hm hp
    obtain ⟨st, e, h⟩ := C131_simd F t dt hN hp c hc n B1 (massive_masses ms hm)
    refine ⟨fun i => if i = 0 then B else st (i - 1), fun i hi => ?_, fun hs => ?_⟩
    · rcases i with _ | i
      · rfl
      · simp only [Nat.add_sub_cancel, if_neg (Nat.succ_ne_zero i)]
        rw [steps, e1]
        exact e i (by omega)
    · simp only [Nat.add_sub_cancel, if_neg (Nat.succ_ne_zero n)] at hs ⊢
      obtain ⟨s1, b1⟩ := h hs
      obtain ⟨s0, b0⟩ := h1 s1
      refine ⟨s0, ?_⟩
      rw [Finset.sum_range_succ']
      simp only [Nat.add_sub_cancel, Nat.succ_ne_zero, if_false, if_true]
      have := abs_sub_le (momentum c hc (st n).toList) (momentum c hc B1.toList) (momentum c hc B.toList)
      linarith

/-! ### `offset_momentum` -/

/-- C131: after the scalar `offset_momentum`, the sun having been at rest, the total momentum is zero up to rounding. -/
theorem C131_offset_scalar (F : Fns F64) (h0 : F.lit 0 = 0) (sun : Body F64 3) (rest : List (Body F64 3)) (hm : Massive (sun :: rest)) (c : Nat) (hc : c < 3)
    (hs : sun.mass = solarMass F) (hpos : 0 < toReal sun.mass) (hfin : IsFinite 52 sun.mass.bits) (hv : toReal sun.v[c] = 0) (hn : rest.length + 4 ≤ 2 ^ 40) :
    ∃ L', offsetScalar F (sun :: rest) = .ok L' ∧ L'.map Body.mass = (sun :: rest).map Body.mass ∧ (Sound c hc L' →
      |momentum c hc L'| ≤ 101 / 100 * (rest.length + 4) * motion c hc (sun :: rest) / 2 ^ 53 + (toReal sun.mass + 2 * (rest.length + 1)) / 2 ^ 1075) :=
  offset_scalar F h0 sun rest hm hc hs hpos hfin hv hn

/-- C131: the same for the SIMD program. -/
theorem C131_offset_simd (F : Fns F64) (B : Vector (Body F64 4) (N + 1)) (hm : Massive B.toList) (c : Nat) (hc : c < 4)
    (hs : B[0].mass = solarMass F) (hpos : (0 : ℝ) < toReal B[0].mass) (hfin : IsFinite 52 B[0].mass.bits) (hv : toReal B[0].v[c] = 0) (hn : N + 2 ≤ 2 ^ 40) :
    ∃ B', offsetSimd F B = .ok B' ∧ B'.toList.map Body.mass = B.toList.map Body.mass ∧ (Sound c hc B'.toList →
      |momentum c hc B'.toList| ≤ 101 / 100 * (N + 2) * motion c hc B.toList / 2 ^ 53 +
        (2 : ℝ) * toReal B[0].mass * (B.toList.map fun b => (1 : ℝ) + (2 : ℝ) * |toReal b.v[c]|).sum / 2 ^ 1075) :=
  offset_simd F B hm hc hs hpos hfin hv hn

/-- C131: a whole scalar run.  After `offset_momentum` and any number of steps the total momentum is zero up to rounding. -/
theorem C131_run_scalar (F : Fns F64) (h0 : F.lit 0 = 0) (dt : F64) (sun : Body F64 3) (rest : List (Body F64 3)) (hm : Massive (sun :: rest)) (c : Nat) (hc : c < 3)
    (hs : sun.mass = solarMass F) (hpos : 0 < toReal sun.mass) (hfin : IsFinite 52 sun.mass.bits) (hv : toReal sun.v[c] = 0)
    (hp : (rest.length + 1) * rest.length / 2 ≤ 2 ^ 39) :
    ∃ L', offsetScalar F (sun :: rest) = .ok L' ∧ ∀ n, Sound c hc (Nat.repeat (advanceScalar F dt) n L') →
      |momentum c hc (Nat.repeat (advanceScalar F dt) n L')| ≤
        101 / 100 * (rest.length + 4) * motion c hc (sun :: rest) / 2 ^ 53 + (toReal sun.mass + 2 * (rest.length + 1)) / 2 ^ 1075 +
        ∑ i ∈ Finset.range n, stepDrift c hc ((rest.length + 1) * rest.length / 2) (factorScalar F dt) (Nat.repeat (advanceScalar F dt) i L') := by
  have hn : rest.length + 4 ≤ 2 ^ 40 := by
    by_contra hn
    have h1 : 2 ^ 40 - 3 ≤ rest.length := by omega
    have h2 : (2 ^ 40 - 3) * (2 ^ 40 - 3) ≤ (rest.length + 1) * rest.length := Nat.mul_le_mul (by omega) h1
    omega
  obtain ⟨L', e, ms, b⟩ := C131_offset_scalar F h0 sun rest hm c hc hs hpos hfin hv hn
  refine ⟨L', e, fun n hS => ?_⟩
  have hl : L'.length = rest.length + 1 := by
    have := congrArg List.length ms
    simpa using this
  obtain ⟨-, -, h⟩ := repeat_scalar F dt L' c hc (massive_masses ms hm) (by rw [hl, Nat.add_sub_cancel]; omega) n
  obtain ⟨s0, b1⟩ := h hS
  rw [hl, Nat.add_sub_cancel] at b1
  have b0 := b s0
  have := abs_add_le (momentum c hc (Nat.repeat (advanceScalar F dt) n L') - momentum c hc L') (momentum c hc L')
  rw [sub_add_cancel] at this
  linarith

/-- C131: a whole SIMD run. -/
theorem C131_run_simd (F : Fns F64) (t : Target) (dt : F64) (B : Vector (Body F64 4) (N + 1)) (hm : Massive B.toList) (c : Nat) (hc : c < 4)
    (hs : B[0].mass = solarMass F) (hpos : (0 : ℝ) < toReal B[0].mass) (hfin : IsFinite 52 B[0].mass.bits) (hv : toReal B[0].v[c] = 0)
    (hN : (N + 1) * N / 2 % 2 = 0) (hp : (N + 1) * N / 2 ≤ 2 ^ 39) (n : Nat) :
    ∃ states : Nat → Vector (Body F64 4) (N + 1), offsetSimd F B = .ok (states 0) ∧ (∀ i ≤ n, steps (advanceSimd F t dt) i (states 0) = .ok (states i)) ∧
      (Sound c hc (states n).toList → |momentum c hc (states n).toList| ≤
        101 / 100 * (N + 2) * motion c hc B.toList / 2 ^ 53 + (2 : ℝ) * toReal B[0].mass * (B.toList.map fun b => (1 : ℝ) + (2 : ℝ) * |toReal b.v[c]|).sum / 2 ^ 1075 +
        ∑ i ∈ Finset.range n, stepDrift c hc ((N + 1) * N / 2) (factorSimd F t dt) (states i).toList) := by
  have hn : N + 2 ≤ 2 ^ 40 := by
    by_contra hn
    have h1 : 2 ^ 40 - 1 ≤ N := by omega
    have h2 : (2 ^ 40 - 1) * (2 ^ 40 - 1) ≤ (N + 1) * N := Nat.mul_le_mul (by omega) h1
    omega
  obtain ⟨B', e, ms, b⟩ := C131_offset_simd F B hm c hc hs hpos hfin hv hn
  obtain ⟨st, es, h⟩ := C131_simd (N := N + 1) F t dt (by rw [Nat.add_sub_cancel]; exact hN) (by rw [Nat.add_sub_cancel]; omega) c hc n B' (massive_masses ms hm)
  have h00 : st 0 = B' := by
    have := es 0 (Nat.zero_le n)
    rw [steps] at this
    exact (Except.ok.inj this).symm
  refine ⟨st, by rw [h00]; exact e, by rw [h00]; exact es, fun hS => ?_⟩
  obtain ⟨s0, b1⟩ := h hS
  rw [Nat.add_sub_cancel] at b1
  have b0 := b s0
  have := abs_add_le (momentum c hc (st n).toList - momentum c hc B'.toList) (momentum c hc B'.toList)
  rw [sub_add_cancel] at this
  linarith

/-! ### The planets -/

/-- Literals and square roots rounded to nearest. -/
def roundFns : Fns F64 :=
  ⟨fun q => ⟨Flt.roundInt 64 52 false (q.num * 2 ^ 1074) q.den⟩, ⟨0x400921fb54442d18⟩, fun x => ⟨Flt.sqrt 52 x.bits⟩, fun x => ⟨Flt.sqrt 52 x.bits⟩⟩

/-- Velocities that are numbers, by their bits. -/
def soundBits {k : Nat} (L : List (Body F64 k)) : Bool := L.all fun b => b.v.toList.all fun x => decide (magBits x.bits < infMag 64 52)

theorem sound_of_bits {k : Nat} (c : Nat) (hc : c < k) {L : List (Body F64 k)} (h : soundBits L = true) : Sound c hc L := by
  intro b hb
  have h1 := List.all_eq_true.1 h b hb
  have h2 := List.all_eq_true.1 h1 b.v[c] (by simp)
  exact (finite_iff _).2 (of_decide_eq_true h2)

def massBits {k : Nat} (L : List (Body F64 k)) : Bool := L.all fun b => decide (magBits b.mass.bits < infMag 64 52) && !isNeg b.mass.bits

theorem massive_of_bits {k : Nat} {L : List (Body F64 k)} (h : massBits L = true) : Massive L := by
  intro b hb
  have h1 := List.all_eq_true.1 h b hb
  simp only [Bool.and_eq_true, decide_eq_true_eq, Bool.not_eq_true'] at h1
  unfold toReal
  rw [realVal_num (valueOf_finite ((finite_iff _).2 h1.1)), h1.2]
  simp only [Bool.false_eq_true, if_false]
  positivity

/-- Three steps of the planets. -/
example (c : Nat) (hc : c < 3) : |momentum c hc (Nat.repeat (advanceScalar roundFns (roundFns.lit 0.01)) 3 (bodiesScalar roundFns)) - momentum c hc (bodiesScalar roundFns)| ≤
    ∑ i ∈ Finset.range 3, stepDrift c hc 10 (factorScalar roundFns (roundFns.lit 0.01)) (Nat.repeat (advanceScalar roundFns (roundFns.lit 0.01)) i (bodiesScalar roundFns)) :=
  C131_scalar roundFns _ (bodiesScalar roundFns) c hc (massive_of_bits (by decide +kernel)) (by decide +kernel) 3 (sound_of_bits c hc (by decide +kernel))

example (c : Nat) (hc : c < 4) : ∃ states : Nat → Vector (Body F64 4) 5, (∀ i ≤ 3, steps (advanceSimd roundFns x64Avx (roundFns.lit 0.01)) i (bodiesSimd roundFns) = .ok (states i)) ∧
    |momentum c hc (states 3).toList - momentum c hc (bodiesSimd roundFns).toList| ≤
      ∑ i ∈ Finset.range 3, stepDrift c hc 10 (factorSimd roundFns x64Avx (roundFns.lit 0.01)) (states i).toList := by
  obtain ⟨st, e, h⟩ := C131_simd roundFns x64Avx (roundFns.lit 0.01) (by decide) (by decide) c hc 3 (bodiesSimd roundFns) (massive_of_bits (by decide +kernel))
  refine ⟨st, e, (h (sound_of_bits c hc ?_)).2⟩
  have e3 := e 3 le_rfl
  have key : (match steps (advanceSimd roundFns x64Avx (roundFns.lit 0.01)) 3 (bodiesSimd roundFns) with | .ok B => soundBits B.toList | .error _ => false) = true := by
    decide +kernel
  rw [e3] at key
  exact key

theorem pos_of_bits {x : F64} (h : (decide (magBits x.bits < infMag 64 52) && !isNeg x.bits && decide (0 < magUnits 52 (magBits x.bits))) = true) :
    IsFinite 52 x.bits ∧ 0 < toReal x := by
  simp only [Bool.and_eq_true, decide_eq_true_eq, Bool.not_eq_true'] at h
  have hf : IsFinite 52 x.bits := (finite_iff _).2 h.1.1
  refine ⟨hf, ?_⟩
  unfold toReal
  rw [realVal_num (valueOf_finite hf), h.1.2]
  simp only [Bool.false_eq_true, if_false]
  have := h.2
  positivity

theorem of_bits {x : F64} (h : x.bits = 0) : x = 0 := by
  cases x
  exact congrArg F64.mk h

theorem toReal_zero : toReal 0 = 0 := by
  unfold toReal
  rw [realVal_num (z := 0) (by decide +kernel)]
  simp

/-- The planets satisfy the hypotheses on the initial bodies. -/
example (n : Nat) : ∃ states : Nat → Vector (Body F64 4) 5, offsetSimd roundFns (bodiesSimd roundFns) = .ok (states 0) ∧
    (∀ i ≤ n, steps (advanceSimd roundFns armNeon (roundFns.lit 0.01)) i (states 0) = .ok (states i)) := by
  obtain ⟨B, hB⟩ : ∃ B : Vector (Body F64 4) (4 + 1), B = bodiesSimd roundFns := ⟨_, rfl⟩
  have m : Massive B.toList := massive_of_bits (by rw [hB]; decide +kernel)
  have e : B[0].mass = solarMass roundFns := by rw [hB]; rfl
  have fp : IsFinite 52 B[0].mass.bits ∧ (0 : ℝ) < toReal B[0].mass := pos_of_bits (by rw [hB]; decide +kernel)
  have z : B[0].v[0] = 0 := of_bits (by rw [hB]; decide +kernel)
  obtain ⟨st, h1, h2, -⟩ := C131_run_simd (N := 4) roundFns armNeon (roundFns.lit 0.01) B m 0 (by omega) e fp.2 fp.1 (by rw [z]; exact toReal_zero) (by decide) (by decide) n
  exact ⟨st, by rw [← hB]; exact h1, h2⟩

example : ∃ L', offsetScalar roundFns (bodiesScalar roundFns) = .ok L' ∧ soundBits (Nat.repeat (advanceScalar roundFns (roundFns.lit 0.01)) 2 L') = true := by
  obtain ⟨L, hL⟩ : ∃ L, L = bodiesScalar roundFns := ⟨_, rfl⟩
  obtain ⟨sun, rest, hs⟩ : ∃ sun rest, L = sun :: rest := ⟨_, _, hL⟩
  have m : Massive (sun :: rest) := massive_of_bits (by rw [← hs, hL]; decide +kernel)
  have hd : sun = (bodiesScalar roundFns).head (by decide) := by simp [← hL, hs]
  have fp : IsFinite 52 sun.mass.bits ∧ 0 < toReal sun.mass := pos_of_bits (by rw [hd]; decide +kernel)
  have z : sun.v[0] = 0 := of_bits (by rw [hd]; decide +kernel)
  have lit0 : roundFns.lit 0 = 0 := of_bits (by decide +kernel)
  have hl : rest.length = 4 := by
    have : (bodiesScalar roundFns).length = rest.length + 1 := by rw [← hL, hs]; rfl
    have : 5 = rest.length + 1 := this
    omega
  obtain ⟨L', h, -⟩ := C131_run_scalar roundFns lit0 (roundFns.lit 0.01) sun rest m 0 (by omega) (by rw [hd]; rfl) fp.2 fp.1 (by rw [z]; exact toReal_zero)
    (by rw [hl]; decide)
  rw [← hs, hL] at h
  refine ⟨L', h, ?_⟩
  have key : (match offsetScalar roundFns (bodiesScalar roundFns) with
    | .ok L => soundBits (Nat.repeat (advanceScalar roundFns (roundFns.lit 0.01)) 2 L)
    | .error _ => false) = true := by decide +kernel
  rw [h] at key
  exact key

end PackedSimd.Ex.Nbody
