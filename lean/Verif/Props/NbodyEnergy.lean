import Verif.Spec.NbodyEnergy
import Verif.Lemmas.NbodyEnergy
import Verif.Props.NbodyFloat
import Verif.Props.Sqrt
/-
C134: the energy the nbody programs print, computed in `f64`.
-/
namespace PackedSimd.Ex.Nbody
open PackedSimd.Props Spec F64N

theorem activity_eq {N : Nat} (s : Sys ℝ N) : s.activity = s.energy fun x => -√x := by
  unfold Sys.activity Sys.energy
  simp only [div_neg, Finset.sum_neg_distrib, sub_neg_eq_add]

theorem growth {k : Nat} (hk : k ≤ 2 ^ 40) : F64N.ρ ^ k - 1 ≤ 101 / 100 * k / 2 ^ 53 := by
  have hk' : (k : ℝ) ≤ 2 ^ 40 := by exact_mod_cast hk
  have h0 : (0 : ℝ) ≤ k := Nat.cast_nonneg k
  have h1 : (k : ℝ) * F64N.u ≤ 1 / 1000 := by
    have := mul_le_mul_of_nonneg_right hk' F64N.u_pos.le
    refine this.trans ?_
    unfold F64N.u
    norm_num
  have h2 := F64N.ρ_pow k (by linarith)
  have h3 : 0 ≤ (k : ℝ) * F64N.u := mul_nonneg h0 F64N.u_pos.le
  have h4 : 1 / (1 - (k : ℝ) * F64N.u) - 1 ≤ 101 / 100 * (k * F64N.u) := by
    rw [sub_le_iff_le_add, div_le_iff₀ (by linarith)]
    nlinarith
  have h5 : 101 / 100 * (k : ℝ) / 2 ^ 53 = 101 / 100 * (k * F64N.u) := by unfold F64N.u; ring
  rw [h5]
  linarith

theorem Acc.bound {c T : Nat} {e : F64} {E S : ℝ} (h : Acc c T e E S) (hT : c + T ≤ 2 ^ 40) :
    IsFinite 52 e.bits ∧ |toReal e - E| ≤ 101 / 100 * (T + c) / 2 ^ 53 * S := by
  refine ⟨h.1, h.2.1.trans (mul_le_mul_of_nonneg_right ((growth hT).trans (le_of_eq ?_)) ((abs_nonneg _).trans h.2.2.1))⟩
  push_cast
  ring

variable {N : Nat} {F : Fns F64}

/-- The scalar program: for `N` bodies, the computed energy is a number within `1.01 (N (N + 1) / 2 + 6) 2^-53` of the true energy, relative to the sum
of the magnitudes of kinetic and potential energy. -/
theorem C134_scalar (hF : RoundFns F) {L : List (Body F64 3)} (h : L.length = N) (hc : Calm L) (hN : N * (N + 1) / 2 ≤ 2 ^ 39) :
    IsFinite 52 (energyScalar F L).bits ∧ |toReal (energyScalar F L) - (realSys le_rfl L h).energy Real.sqrt| ≤
      101 / 100 * ((N * (N + 1) / 2 : Nat) + 6) / 2 ^ 53 * (realSys le_rfl L h).activity := by
  have z := near_zero (k := 0)
  have l0 : ∀ s : ℝ → ℝ, (RF s).lit 0 = 0 := fun s => by simp [RF]
  have l2 : ∀ s : ℝ → ℝ, (RF s).lit 2 = 2 := fun s => by simp [RF]
  have h0 : Acc 6 0 (0 : F64) 0 0 := by
    refine ⟨z.1, ?_, by simp, by simp⟩
    rw [show rv (0 : F64) = 0 from le_antisymm (by simpa using z.2.2.1) z.nonneg]
    simp
  have hA := from_scalar hF L hc 0 0 0 0 (by rw [h]; omega) h0
  rw [h, Nat.zero_add] at hA
  have e1 : energyScalar F L = energyFrom F 0 L := by unfold energyScalar; rw [hF.zero]
  have e2 : ∀ s, energyFrom (RF s) 0 (L.map realBody) = (realSys le_rfl L h).energy s := fun s => by
    rw [← l0 s]
    exact energyScalar_eq (RF s) (l0 s) (l2 s) (L.map realBody) (by rw [List.length_map, h])
  rw [e2, e2, ← activity_eq, ← e1] at hA
  exact hA.bound (by omega)

/-- The vector program, whose bodies have a fourth component of zero: the same with 7 for 6. -/
theorem C134_simd (hF : RoundFns F) (t : Target) {B : Vector (Body F64 4) N} (hc : Calm B.toList) (hB : ∀ b ∈ B.toList, toReal b.x[3] = 0 ∧ toReal b.v[3] = 0)
    (hN : N * (N + 1) / 2 ≤ 2 ^ 39) :
    ∃ e, energySimd F t B = .ok e ∧ IsFinite 52 e.bits ∧ |toReal e - (realSys (by omega) B.toList (by simp : B.toList.length = N)).energy Real.sqrt| ≤
      101 / 100 * ((N * (N + 1) / 2 : Nat) + 7) / 2 ^ 53 * (realSys (by omega) B.toList (by simp : B.toList.length = N)).activity := by
  obtain ⟨e, E, S, h1, h2, h3, hA⟩ := energy_simd hF t B hc (by omega)
  have l0 : ∀ s : ℝ → ℝ, (RF s).lit 0 = 0 := fun s => by simp [RF]
  have l5 : ∀ s : ℝ → ℝ, (RF s).lit 0.5 = 1 / 2 := fun s => by simp only [RF]; norm_num
  have hP : Padded (B.map realBody) := by
    intro b hb
    have := hB B[b] (by simp)
    have g : (B.map realBody)[b] = realBody B[b] := Vector.getElem_map ..
    rw [g]
    simpa [realBody] using this
  have e2 : ∀ s, energySimd (RF s) t (B.map realBody) = .ok ((realSys (by omega) B.toList (by simp : B.toList.length = N)).energy s) := fun s => by
    rw [energySimd_eq (RF s) (l0 s) (l5 s) t (B.map realBody) hP]
    unfold realSys
    simp only [Vector.toList_map]
    rfl
  rw [e2] at h2 h3
  injection h2 with h2
  injection h3 with h3
  subst h2 h3
  rw [← activity_eq] at hA
  exact ⟨e, h1, hA.bound (by omega)⟩

/-- On the same system the two programs print energies that differ by no more than the two bounds. -/
theorem C134_agree (hF : RoundFns F) (t : Target) {L : List (Body F64 3)} (h : L.length = N) (hL : Calm L) {B : Vector (Body F64 4) N} (hB : Calm B.toList)
    (hP : ∀ b ∈ B.toList, toReal b.x[3] = 0 ∧ toReal b.v[3] = 0) (hN : N * (N + 1) / 2 ≤ 2 ^ 39)
    (hs : realSys (by omega) B.toList (by simp : B.toList.length = N) = realSys le_rfl L h) :
    ∃ e, energySimd F t B = .ok e ∧ |toReal e - toReal (energyScalar F L)| ≤ 101 / 100 * (2 * (N * (N + 1) / 2 : Nat) + 13) / 2 ^ 53 * (realSys le_rfl L h).activity := by
  obtain ⟨-, a⟩ := C134_scalar hF h hL hN
  obtain ⟨e, h1, -, b⟩ := C134_simd hF t hB hP hN
  rw [hs] at b
  refine ⟨e, h1, ?_⟩
  rw [abs_sub_comm] at a
  have := abs_add_le (toReal e - (realSys le_rfl L h).energy Real.sqrt) ((realSys le_rfl L h).energy Real.sqrt - toReal (energyScalar F L))
  rw [sub_add_sub_cancel] at this
  refine this.trans ((add_le_add b a).trans (le_of_eq ?_))
  ring

/-! ### The planets -/

/-- A float in units of the least positive one. -/
def units (x : F64) : Int := match valueOf 52 x.bits with | .num z => z | _ => 0
def finBits (x : F64) : Bool := match valueOf 52 x.bits with | .num _ => true | _ => false
def ordBits (z : Int) : Bool := z == 0 || (decide (2 ^ 974 ≤ z.natAbs) && decide (z.natAbs ≤ 2 ^ 1174))

theorem finite_of_finBits {x : F64} (h : finBits x = true) : IsFinite 52 x.bits ∧ toReal x = units x / 2 ^ 1074 := by
  unfold finBits at h
  unfold units toReal
  split at h
  · rename_i z hz
    refine ⟨⟨z, hz⟩, ?_⟩
    rw [realVal_num hz, show low 64 52 = 1074 by decide]
  · simp at h

theorem ordinary_of_bits {z : Int} (h : ordBits z = true) : Ordinary ((z : ℝ) / 2 ^ 1074) := by
  unfold ordBits at h
  simp only [Bool.or_eq_true, beq_iff_eq, Bool.and_eq_true, decide_eq_true_eq] at h
  rcases h with rfl | ⟨h1, h2⟩
  · exact .inl (by simp)
  · right
    have e : |(z : ℝ)| = (z.natAbs : ℝ) := by rw [Nat.cast_natAbs, Int.cast_abs]
    have g1 : (2 : ℝ) ^ 974 ≤ z.natAbs := by exact_mod_cast h1
    have g2 : (z.natAbs : ℝ) ≤ 2 ^ 1174 := by exact_mod_cast h2
    rw [abs_div, e, abs_of_pos (by positivity : (0 : ℝ) < 2 ^ 1074)]
    constructor
    · rw [div_le_div_iff₀ (by positivity) (by positivity), one_mul]
      calc (2 : ℝ) ^ 1074 = 2 ^ 974 * 2 ^ 100 := by rw [← pow_add]
        _ ≤ _ := mul_le_mul_of_nonneg_right g1 (by positivity)
    · rw [div_le_iff₀ (by positivity), ← pow_add]
      exact g2

def pairwiseB {β : Type} (p : β → β → Bool) : List β → Bool
  | [] => true
  | a :: l => l.all (p a) && pairwiseB p l

theorem pairwise_of_bits {β : Type} {p : β → β → Bool} : ∀ {L : List β}, pairwiseB p L = true → L.Pairwise fun a b => p a b = true
  | [], _ => List.Pairwise.nil
  | a :: l, h => by
    simp only [pairwiseB, Bool.and_eq_true, List.all_eq_true] at h
    exact List.pairwise_cons.2 ⟨h.1, pairwise_of_bits h.2⟩

/-- Differences of ordinary magnitude, not all zero. -/
def apartBits {k : Nat} (a b : Body F64 k) : Bool :=
  (List.finRange k).all (fun c => ordBits (units a.x[c] - units b.x[c])) && (List.finRange k).any fun c => units a.x[c] != units b.x[c]

def calmBits {k : Nat} (L : List (Body F64 k)) : Bool :=
  L.all (fun b => finBits b.mass && decide (0 < units b.mass) && ordBits (units b.mass) &&
    (List.finRange k).all fun c => finBits b.v[c] && ordBits (units b.v[c]) && finBits b.x[c]) && pairwiseB apartBits L

theorem calm_of_bits {k : Nat} {L : List (Body F64 k)} (h : calmBits L = true) : Calm L := by
  simp only [calmBits, Bool.and_eq_true, List.all_eq_true, decide_eq_true_eq, List.mem_finRange, forall_const] at h
  obtain ⟨h1, h2⟩ := h
  have pos : ∀ b ∈ L, ∀ c (hc : c < k), IsFinite 52 b.x[c].bits ∧ toReal b.x[c] = units b.x[c] / 2 ^ 1074 :=
    fun b hb c hc => finite_of_finBits ((h1 b hb).2 ⟨c, hc⟩).2
  refine ⟨fun b hb => ?_, fun b hb c hc => ?_, fun b hb c hc => (pos b hb c hc).1, ?_⟩
  · obtain ⟨⟨⟨f, p⟩, o⟩, -⟩ := h1 b hb
    obtain ⟨f1, f2⟩ := finite_of_finBits f
    rw [f2]
    refine ⟨f1, ?_, ordinary_of_bits o⟩
    have : (0 : ℝ) < units b.mass := by exact_mod_cast p
    positivity
  · obtain ⟨⟨f, o⟩, -⟩ := (h1 b hb).2 ⟨c, hc⟩
    obtain ⟨f1, f2⟩ := finite_of_finBits f
    exact ⟨f1, f2 ▸ ordinary_of_bits o⟩
  · refine List.Pairwise.imp_of_mem ?_ (pairwise_of_bits h2)
    intro a b ha hb hab
    simp only [apartBits, Bool.and_eq_true, List.all_eq_true, List.any_eq_true, List.mem_finRange, forall_const, true_and, bne_iff_ne] at hab
    refine ⟨fun c hc => ?_, ?_⟩
    · rw [(pos a ha c hc).2, (pos b hb c hc).2, ← sub_div, ← Int.cast_sub]
      exact ordinary_of_bits (hab.1 ⟨c, hc⟩)
    · obtain ⟨c, hc⟩ := hab.2
      refine ⟨c, c.2, fun e => hc ?_⟩
      rw [(pos a ha c c.2).2, (pos b hb c c.2).2, div_left_inj' (by positivity)] at e
      exact_mod_cast e

theorem roundFns_ok : RoundFns roundFns where
  zero := of_bits (by decide +kernel)
  two := by
    obtain ⟨f, e⟩ := finite_of_finBits (x := roundFns.lit 2) (by decide +kernel)
    refine ⟨f, ?_⟩
    rw [e, show units (roundFns.lit 2) = 2 ^ 1075 by decide +kernel, div_eq_iff (by positivity), Int.cast_pow, Int.cast_ofNat, ← pow_succ']
  half := by
    obtain ⟨f, e⟩ := finite_of_finBits (x := roundFns.lit 0.5) (by decide +kernel)
    refine ⟨f, ?_⟩
    rw [e, show units (roundFns.lit 0.5) = 2 ^ 1073 by decide +kernel, div_eq_div_iff (by positivity) (by norm_num), Int.cast_pow, Int.cast_ofNat, one_mul, ← pow_succ]
  sqrt x := C117_computed .f64 x.bits

theorem planets_padded : ∀ b ∈ (bodiesSimd roundFns).toList, toReal b.x[3] = 0 ∧ toReal b.v[3] = 0 := by
  have : ((bodiesSimd roundFns).toList.all fun b => b.x[3].bits == 0 && b.v[3].bits == 0) = true := by decide +kernel
  intro b hb
  have := List.all_eq_true.1 this b hb
  simp only [Bool.and_eq_true, beq_iff_eq] at this
  have h1 : b.x[3] = 0 := of_bits this.1
  have h2 : b.v[3] = 0 := of_bits this.2
  rw [h1, h2]
  exact ⟨toReal_zero, toReal_zero⟩

/-- Both programs hold the same planets. -/
theorem planets_same : realSys (by omega) (bodiesSimd roundFns).toList (by simp : (bodiesSimd roundFns).toList.length = 5) =
    realSys le_rfl (bodiesScalar roundFns) rfl := by
  have h : ∀ i : Fin 5, (∀ c : Fin 3, (bodiesSimd roundFns)[i].x[c.val].bits = ((bodiesScalar roundFns)[i.val]'i.2).x[c.val].bits ∧
      (bodiesSimd roundFns)[i].v[c.val].bits = ((bodiesScalar roundFns)[i.val]'i.2).v[c.val].bits) ∧
      (bodiesSimd roundFns)[i].mass.bits = ((bodiesScalar roundFns)[i.val]'i.2).mass.bits := by decide +kernel
  refine Sys.ext' (fun i c => ?_) (fun i c => ?_) fun i => ?_
  · have := congrArg (realVal 52) ((h i).1 c).1
    simp [realSys, sysOf, realBody, toReal]
    exact this
  · have := congrArg (realVal 52) ((h i).1 c).2
    simp [realSys, sysOf, realBody, toReal]
    exact this
  · have := congrArg (realVal 52) (h i).2
    simp [realSys, sysOf, realBody, toReal]
    exact this

/-- The energy of the planets: 15 terms, so 21 and 22 roundings. -/
example : |toReal (energyScalar roundFns (bodiesScalar roundFns)) - (realSys le_rfl (bodiesScalar roundFns) rfl).energy Real.sqrt| ≤
    101 / 100 * 21 / 2 ^ 53 * (realSys le_rfl (bodiesScalar roundFns) rfl).activity := by
  have := (C134_scalar (N := 5) roundFns_ok (L := bodiesScalar roundFns) rfl (calm_of_bits (by decide +kernel)) (by norm_num)).2
  norm_num at this ⊢
  exact this

example : ∃ e, energySimd roundFns x64Avx (bodiesSimd roundFns) = .ok e ∧
    |toReal e - (realSys (by omega) (bodiesSimd roundFns).toList (by simp : (bodiesSimd roundFns).toList.length = 5)).energy Real.sqrt| ≤
      101 / 100 * 22 / 2 ^ 53 * (realSys (by omega) (bodiesSimd roundFns).toList (by simp : (bodiesSimd roundFns).toList.length = 5)).activity := by
  obtain ⟨e, h1, -, h2⟩ := C134_simd (N := 5) roundFns_ok x64Avx (B := bodiesSimd roundFns) (calm_of_bits (by decide +kernel))
    planets_padded (by norm_num)
  refine ⟨e, h1, ?_⟩
  norm_num at h2 ⊢
  exact h2

example : ∃ e, energySimd roundFns x64Avx (bodiesSimd roundFns) = .ok e ∧ |toReal e - toReal (energyScalar roundFns (bodiesScalar roundFns))| ≤
    101 / 100 * 43 / 2 ^ 53 * (realSys le_rfl (bodiesScalar roundFns) rfl).activity := by
  obtain ⟨e, h1, h2⟩ := C134_agree (N := 5) roundFns_ok x64Avx (L := bodiesScalar roundFns) rfl (calm_of_bits (by decide +kernel))
    (calm_of_bits (by decide +kernel)) planets_padded (by norm_num) planets_same
  refine ⟨e, h1, ?_⟩
  norm_num at h2 ⊢
  exact h2

/-- Nor does setting the momentum to zero, which the programs do first, make the planets any less calm. -/
example {L : List (Body F64 3)} (h : offsetScalar roundFns (bodiesScalar roundFns) = .ok L) : Calm L := by
  have : (match offsetScalar roundFns (bodiesScalar roundFns) with | .ok L => calmBits L | .error _ => false) = true := by decide +kernel
  rw [h] at this
  exact calm_of_bits this

end PackedSimd.Ex.Nbody
