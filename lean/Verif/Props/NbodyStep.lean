import Verif.Lemmas.NbodyStep
import Verif.Props.NbodyEnergy
/-
C135: one step of the nbody programs in `f64` is the exact step up to rounding.

`Sys.step` is the exact step (Spec/Nbody.lean); `Sys.effort`, `NearStep`, `Numbers` and `Placed` are in Spec/NbodyStep.lean.
-/
namespace PackedSimd.Ex.Nbody
open PackedSimd.Props Spec
variable {N : Nat} {F : Fns F64}

/-- The scalar program: every velocity is within `1.01 (N + 14) 2^-53` of the exact one, relative to the magnitudes of everything added up, and every
position within `1.01 (N + 16) 2^-53`, but for `2^-1074` for underflow. -/
theorem C135_scalar (hF : RoundFns F) {dt : F64} (hdt : IsFinite 52 dt.bits ∧ 0 < toReal dt ∧ Ordinary (toReal dt)) {L : List (Body F64 3)} (h : L.length = N)
    (hc : Calm L) (hp : Placed L) (hN : N ≤ 2 ^ 39) :
    ∃ h' : (advanceScalar F dt L).length = N, Numbers (advanceScalar F dt L) ∧
      NearStep 14 (toReal dt) (realSys le_rfl L h) (realSys le_rfl (advanceScalar F dt L) h') := advance_scalar hF hdt h hc hp hN

/-- The vector program on any target, if `sqrte` rounds to nearest (C117) and the number of pairs is even (it is 10); the fourth components are zero. -/
theorem C135_simd (hq : ∀ x, IsSqrt 52 x.bits (F.sqrte x).bits) {dt : F64} (hdt : IsFinite 52 dt.bits ∧ 0 < toReal dt ∧ Ordinary (toReal dt)) (t : Target)
    (hE : N * (N - 1) / 2 % 2 = 0) {B : Vector (Body F64 4) N} (hc : Calm B.toList) (hB : ∀ b ∈ B.toList, toReal b.x[3] = 0 ∧ toReal b.v[3] = 0)
    (hp : Placed B.toList) (hN : N ≤ 2 ^ 39) :
    ∃ B', advanceSimd F t dt B = .ok B' ∧ Numbers B'.toList ∧
      NearStep 17 (toReal dt) (realSys (by omega) B.toList (by simp : B.toList.length = N)) (realSys (by omega) B'.toList (by simp : B'.toList.length = N)) := by
  refine advance_simd_step hq hdt t hE hc (fun b hb => ?_) hp hN
  have := hB B[b] (by simp)
  have g : (B.map realBody)[b] = realBody B[b] := Vector.getElem_map ..
  rw [g]
  simpa [realBody] using this

theorem nearStep_agree {e e' : Nat} {dt : ℝ} {s a b : Sys ℝ N} (ha : NearStep e dt s a) (hb : NearStep e' dt s b) (i : Fin N) (c : Fin 3) :
    |a.vel i c - b.vel i c| ≤ 101 / 100 * (2 * N + e + e') / 2 ^ 53 * s.effort dt i c ∧
    |a.pos i c - b.pos i c| ≤ 101 / 100 * (2 * N + e + e' + 4) / 2 ^ 53 * (|s.pos i c| + dt * s.effort dt i c) + 1 / 2 ^ 1073 := by
  have e1 : ∀ x y z p q : ℝ, |x - z| ≤ p → |y - z| ≤ q → |x - y| ≤ p + q := fun x y z p q h1 h2 => by
    rw [abs_sub_comm] at h2
    have := abs_sub_le x z y
    linarith
  constructor
  · refine (e1 _ _ _ _ _ (ha.vel i c) (hb.vel i c)).trans (le_of_eq ?_)
    ring
  · refine (e1 _ _ _ _ _ (ha.pos i c) (hb.pos i c)).trans (le_of_eq ?_)
    have : (1 : ℝ) / 2 ^ 1073 = 1 / 2 ^ 1074 + 1 / 2 ^ 1074 := by
      rw [← add_div, div_eq_div_iff (by positivity) (by positivity), one_mul, show (1 + 1 : ℝ) = 2 by norm_num, ← pow_succ']
    rw [this]
    generalize (1 : ℝ) / 2 ^ 1074 = q
    ring

/-- From the same bodies, the two programs go on with velocities and positions that differ by no more than both bounds. -/
theorem C135_agree (hF : RoundFns F) (hq : ∀ x, IsSqrt 52 x.bits (F.sqrte x).bits) {dt : F64} (hdt : IsFinite 52 dt.bits ∧ 0 < toReal dt ∧ Ordinary (toReal dt))
    (t : Target) (hE : N * (N - 1) / 2 % 2 = 0) {L : List (Body F64 3)} (h : L.length = N) {B : Vector (Body F64 4) N} (hc : Calm L) (hp : Placed L)
    (hc' : Calm B.toList) (hB : ∀ b ∈ B.toList, toReal b.x[3] = 0 ∧ toReal b.v[3] = 0) (hp' : Placed B.toList) (hN : N ≤ 2 ^ 39)
    (hs : realSys (by omega) B.toList (by simp : B.toList.length = N) = realSys le_rfl L h) :
    ∃ B', advanceSimd F t dt B = .ok B' ∧ ∃ h' : (advanceScalar F dt L).length = N, ∀ i c,
      |(realSys le_rfl (advanceScalar F dt L) h').vel i c - (realSys (by omega) B'.toList (by simp : B'.toList.length = N)).vel i c| ≤
        101 / 100 * (2 * N + 31) / 2 ^ 53 * (realSys le_rfl L h).effort (toReal dt) i c ∧
      |(realSys le_rfl (advanceScalar F dt L) h').pos i c - (realSys (by omega) B'.toList (by simp : B'.toList.length = N)).pos i c| ≤
        101 / 100 * (2 * N + 35) / 2 ^ 53 * (|(realSys le_rfl L h).pos i c| + toReal dt * (realSys le_rfl L h).effort (toReal dt) i c) + 1 / 2 ^ 1073 := by
  obtain ⟨h', -, a⟩ := C135_scalar hF hdt h hc hp hN
  obtain ⟨B', e, -, b⟩ := C135_simd hq hdt t hE hc' hB hp' hN
  rw [hs] at b
  refine ⟨B', e, h', fun i c => ?_⟩
  have e1 : (2 * N + 31 : ℝ) = 2 * N + (14 : ℕ) + (17 : ℕ) := by push_cast; ring
  have e2 : (2 * N + 35 : ℝ) = 2 * N + (14 : ℕ) + (17 : ℕ) + 4 := by push_cast; ring
  rw [e1, e2]
  exact nearStep_agree a b i c

/-! ### The planets -/

theorem placed_of_bits {k : Nat} {L : List (Body F64 k)} (h : (L.all fun b => (List.finRange k).all fun c => finBits b.x[c] && decide ((units b.x[c]).natAbs ≤ 2 ^ 2074)) = true) :
    Placed L := by
  simp only [List.all_eq_true, Bool.and_eq_true, decide_eq_true_eq, List.mem_finRange, forall_const] at h
  intro b hb c hc
  obtain ⟨f, g⟩ := h b hb ⟨c, hc⟩
  have e : toReal b.x[c] = units b.x[c] / 2 ^ 1074 := (finite_of_finBits f).2
  rw [e, abs_div, abs_of_pos (by positivity : (0 : ℝ) < 2 ^ 1074), div_le_iff₀ (by positivity), ← pow_add]
  have e2 : |(units b.x[c] : ℝ)| = ((units b.x[c]).natAbs : ℝ) := by rw [Nat.cast_natAbs, Int.cast_abs]
  rw [e2]
  exact_mod_cast g

theorem dt_good : IsFinite 52 (roundFns.lit 0.01).bits ∧ 0 < toReal (roundFns.lit 0.01) ∧ Ordinary (toReal (roundFns.lit 0.01)) := by
  obtain ⟨f, e⟩ := finite_of_finBits (x := roundFns.lit 0.01) (by decide +kernel)
  rw [e]
  refine ⟨f, ?_, ordinary_of_bits (by decide +kernel)⟩
  have : 0 < units (roundFns.lit 0.01) := by decide +kernel
  have : (0 : ℝ) < units (roundFns.lit 0.01) := by exact_mod_cast this
  positivity

/-- The first step of the planets, with either program, and how far they can be apart. -/
example : ∃ h' : (advanceScalar roundFns (roundFns.lit 0.01) (bodiesScalar roundFns)).length = 5,
    NearStep 14 (toReal (roundFns.lit 0.01)) (realSys le_rfl (bodiesScalar roundFns) rfl) (realSys le_rfl (advanceScalar roundFns (roundFns.lit 0.01) (bodiesScalar roundFns)) h') := by
  obtain ⟨h', -, h⟩ := C135_scalar (N := 5) roundFns_ok dt_good (L := bodiesScalar roundFns) rfl (calm_of_bits (by decide +kernel)) (placed_of_bits (by decide +kernel)) (by norm_num)
  exact ⟨h', h⟩

example : ∃ B', advanceSimd roundFns x64Avx (roundFns.lit 0.01) (bodiesSimd roundFns) = .ok B' ∧
    ∃ h' : (advanceScalar roundFns (roundFns.lit 0.01) (bodiesScalar roundFns)).length = 5, ∀ i c,
      |(realSys le_rfl (advanceScalar roundFns (roundFns.lit 0.01) (bodiesScalar roundFns)) h').vel i c -
        (realSys (by omega) B'.toList (by simp : B'.toList.length = 5)).vel i c| ≤
      101 / 100 * 41 / 2 ^ 53 * (realSys le_rfl (bodiesScalar roundFns) rfl).effort (toReal (roundFns.lit 0.01)) i c := by
  obtain ⟨B', e, h', h⟩ := C135_agree (N := 5) roundFns_ok (fun x => C117_computed .f64 x.bits) dt_good x64Avx (by decide) (L := bodiesScalar roundFns) rfl
    (B := bodiesSimd roundFns) (calm_of_bits (by decide +kernel)) (placed_of_bits (by decide +kernel)) (calm_of_bits (by decide +kernel)) planets_padded
    (placed_of_bits (by decide +kernel)) (by norm_num) planets_same
  refine ⟨B', e, h', fun i c => ?_⟩
  have := (h i c).1
  norm_num at this ⊢
  exact this

end PackedSimd.Ex.Nbody
