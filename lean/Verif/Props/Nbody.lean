import Verif.Lemmas.NbodyRun
import Verif.Props.MaskReduce
/-
C82-C86: examples/nbody.

The exact-arithmetic statements hold over every field and for every function in the place of the square root.  `Sys` (Spec/Nbody.lean) is the
system of bodies the programs hold; `sysOf` reads it off an array of bodies.
-/
namespace PackedSimd.Ex.Nbody
open PackedSimd.Props
variable {K : Type} [Field K] {N : Nat}

/-! ### Concrete cases -/

/-- Rationals, with `22 / 7` for π and `x / 2 + 1 / 2` for the square root. -/
def ratFns : Fns Rat := ⟨fun q => q, 22 / 7, fun x => x / 2 + 1 / 2, fun x => x / 2 + 1 / 2⟩

theorem ratFns_exact : Exact ratFns := ⟨fun q => by simp [ratFns], fun _ => rfl⟩

theorem bodiesSimd_padded [CharZero K] (F : Fns K) (hF : Exact F) : Padded (bodiesSimd F) := by
  have h0 : F.lit 0 = 0 := by rw [hF.lit]; simp
  intro b hb
  match b, hb with
  | 0, _ => exact ⟨h0, h0⟩
  | 1, _ => exact ⟨h0, h0⟩
  | 2, _ => exact ⟨h0, h0⟩
  | 3, _ => exact ⟨h0, h0⟩
  | 4, _ => exact ⟨h0, h0⟩

/-! ### C82: one step -/

/-- C82, scalar: `advance` takes every system to the next one, for any number of bodies. -/
theorem C82_scalar (F : Fns K) (dt : K) (L : List (Body K 3)) (h : L.length = N) :
    ∃ h', sysOf (Nat.le_refl 3) (advanceScalar F dt L) h' = (sysOf (Nat.le_refl 3) L h).step F.sqrt dt := advanceScalar_sys F dt L h

/-- C82, SIMD: so does the SIMD `advance`, without stopping, and it keeps the padding lanes zero; the number of pairs has to be even (it is 10). -/
theorem C82_simd (F : Fns K) (hF : ∀ x, F.sqrte x = F.sqrt x) (t : Target) (dt : K) (hN : N * (N - 1) / 2 % 2 = 0) (B : Vector (Body K 4) N)
    (hB : ∀ b (hb : b < N), B[b].x[3] = 0 ∧ B[b].v[3] = 0) :
    ∃ B', advanceSimd F t dt B = .ok B' ∧ (∀ b (hb : b < N), B'[b].x[3] = 0 ∧ B'[b].v[3] = 0) ∧
      sysOf (by omega) B'.toList (by simp) = (sysOf (by omega) B.toList (by simp : B.toList.length = N)).step F.sqrt dt :=
  advanceSimd_exact F hF t dt hN B hB

/-- The planets. -/
example : ∃ B', advanceSimd ratFns x64Avx (1 / 100) (bodiesSimd ratFns) = .ok B' ∧
    (sysOf (by omega) B'.toList (by simp : B'.toList.length = 5)).mass 0 = 4 * (22 / 7) * (22 / 7) := by
  obtain ⟨B', h, -, e⟩ := C82_simd ratFns (fun _ => rfl) x64Avx (1 / 100) (by decide) (bodiesSimd ratFns) (bodiesSimd_padded _ ratFns_exact)
  exact ⟨B', h, by rw [e]; rfl⟩

/-! ### C83: momentum -/

/-- C83, scalar: after `offset_momentum` and any number of steps of any length, the momenta add up to zero. -/
theorem C83_scalar [CharZero K] (F : Fns K) (hF : Exact F) (L : List (Body K 3)) (h : L.length = N + 1)
    (hv : ∀ c (hc : c < 3), L[0].v[c] = 0) (hm : L[0].mass = solarMass F) (hs : solarMass F ≠ 0) :
    ∃ L', offsetScalar F L = .ok L' ∧ ∀ dt n, ∃ h', ∀ c, (sysOf (N := N + 1) (Nat.le_refl 3) (Nat.repeat (advanceScalar F dt) n L') h').momentum c = 0 := by
  obtain ⟨L', h', e, s⟩ := offsetScalar_eq F (by rw [hF.lit]; simp) L h hv hm
  refine ⟨L', e, fun dt n => ?_⟩
  obtain ⟨h'', e'⟩ := repeat_sys F dt L' h' n
  refine ⟨h'', fun c => ?_⟩
  rw [e', Sys.momentum_after, s, Sys.momentum_centred]
  show L[0].mass ≠ 0
  rw [hm]; exact hs

/-- C83, SIMD. -/
theorem C83_simd [CharZero K] (F : Fns K) (hF : Exact F) (t : Target) (hN : (N + 1) * N / 2 % 2 = 0) (B : Vector (Body K 4) (N + 1))
    (hB : ∀ b (hb : b < N + 1), B[b].x[3] = 0 ∧ B[b].v[3] = 0)
    (hv : ∀ c (hc : c < 3), B[0].v[c] = 0) (hm : B[0].mass = solarMass F) (hs : solarMass F ≠ 0) :
    ∃ B', offsetSimd F B = .ok B' ∧ ∀ dt n, ∃ Bn, steps (advanceSimd F t dt) n B' = .ok Bn ∧
      ∀ c, (sysOf (by omega) Bn.toList (by simp : Bn.toList.length = N + 1)).momentum c = 0 := by
  obtain ⟨B', e, p, s⟩ := offsetSimd_eq F B hB hv hm
  refine ⟨B', e, fun dt n => ?_⟩
  obtain ⟨Bn, h'', -, e'⟩ := steps_sys F hF.sqrte t dt (by simpa [nPairs] using hN) n B' p
  refine ⟨Bn, h'', fun c => ?_⟩
  rw [e', Sys.momentum_after, s, Sys.momentum_centred]
  have : (sysOf (by omega : 3 ≤ 4) B.toList (by simp : B.toList.length = N + 1)).mass 0 = B[0].mass := by simp [sysOf]
  rw [this, hm]; exact hs

example : ∃ B', offsetSimd ratFns (bodiesSimd ratFns) = .ok B' ∧ ∃ Bn, steps (advanceSimd ratFns armNeon (1 / 100)) 1000 B' = .ok Bn ∧
    ∀ c, (sysOf (by omega) Bn.toList (by simp : Bn.toList.length = 5)).momentum c = 0 := by
  obtain ⟨B', h, H⟩ := C83_simd ratFns ratFns_exact armNeon (by decide) (bodiesSimd ratFns) (bodiesSimd_padded _ ratFns_exact)
    (fun c hc => by match c, hc with | 0, _ => rfl | 1, _ => rfl | 2, _ => rfl) rfl (by norm_num [solarMass, ratFns])
  exact ⟨B', h, H _ _⟩

/-! ### C84: energy -/

/-- C84: both `energy` functions return the kinetic plus the potential energy of the system. -/
theorem C84_scalar [CharZero K] (F : Fns K) (hF : Exact F) (L : List (Body K 3)) (h : L.length = N) :
    energyScalar F L = (sysOf (Nat.le_refl 3) L h).energy F.sqrt :=
  energyScalar_eq F (by rw [hF.lit]; simp) (by rw [hF.lit]; simp) L h

@[inherit_doc C84_scalar]
theorem C84_simd [CharZero K] (F : Fns K) (hF : Exact F) (t : Target) (B : Vector (Body K 4) N) (hB : ∀ b (hb : b < N), B[b].x[3] = 0 ∧ B[b].v[3] = 0) :
    energySimd F t B = .ok ((sysOf (by omega) B.toList (by simp : B.toList.length = N)).energy F.sqrt) :=
  energySimd_eq F (by rw [hF.lit]; simp) (by rw [hF.lit]; norm_num) t B hB

/-- Two unit masses at distance 2, one at speed 1; the "square root" of 4 is 5/2. -/
example : energyScalar ratFns [⟨#v[0, 0, 0], #v[0, 1, 0], 1⟩, ⟨#v[0, 0, 2], #v[0, 0, 0], 1⟩] = 1 / 10 := by
  norm_num [energyScalar, energyFrom, square, ratFns]

/-! ### C85: runs -/

theorem sysOf_bodiesScalar [CharZero K] (F : Fns K) (hF : Exact F) (h : (bodiesScalar F).length = 5) :
    sysOf (Nat.le_refl 3) (bodiesScalar F) h = solarSystem F.pi := by
  have hpi : (4 : K) * F.pi * F.pi = 4 * F.pi ^ 2 := by ring
  have h4 : F.lit 4 = 4 := by rw [hF.lit]; simp
  have hq : ∀ a b : Rat, a = b → F.lit a = (b : K) := fun a b h => by rw [h, hF.lit]
  have hv : ∀ a b : Rat, a = b → F.lit a * daysPerYear F = ((b * 365.24 : Rat) : K) := fun a b h => by
    rw [h, daysPerYear, hF.lit, hF.lit, Rat.cast_mul]
  have hm : ∀ a b : Rat, a = b → F.lit a * solarMass F = (b : K) * (4 * F.pi ^ 2) := fun a b h => by rw [h, hF.lit, solarMass, h4, hpi]
  refine Sys.ext' (fun i c => ?_) (fun i c => ?_) (fun i => ?_)
  · match i, c with
    | 0, 0 | 0, 1 | 0, 2 | 1, 0 | 1, 1 | 1, 2 | 2, 0 | 2, 1 | 2, 2 | 3, 0 | 3, 1 | 3, 2 | 4, 0 | 4, 1 | 4, 2 => exact hq _ _ (by norm_num [planets])
  · match i, c with
    | 0, 0 | 0, 1 | 0, 2 => exact hq _ _ (by norm_num [planets])
    | 1, 0 | 1, 1 | 1, 2 | 2, 0 | 2, 1 | 2, 2 | 3, 0 | 3, 1 | 3, 2 | 4, 0 | 4, 1 | 4, 2 => exact hv _ _ (by norm_num [planets])
  · match i with
    | 0 => show solarMass F = ((1 : Rat) : K) * (4 * F.pi ^ 2); rw [solarMass, h4, hpi]; simp
    | 1 | 2 | 3 | 4 => exact hm _ _ (by norm_num [planets])

/-- C85: in exact arithmetic, both algorithms return, for every number of steps, the energies of the same system: the solar system seen from its
centre of mass, before and after that number of steps of 0.01. -/
theorem C85_run [CharZero K] (F : Fns K) (hF : Exact F) (t : Target) (n : Nat) :
    run F t n 0 = .ok ((solarSystem F.pi).centred.energy F.sqrt, ((solarSystem F.pi).centred.after F.sqrt (1 / 100) n).energy F.sqrt) ∧ run F t n 1 = run F t n 0 := by
  have h0 : F.lit 0 = 0 := by rw [hF.lit]; simp
  have dt : F.lit 0.01 = 1 / 100 := by rw [hF.lit]; norm_num
  have hs : run F t n 0 = .ok ((solarSystem F.pi).centred.energy F.sqrt, ((solarSystem F.pi).centred.after F.sqrt (1 / 100) n).energy F.sqrt) := by
    obtain ⟨L', h', e, s⟩ := offsetScalar_eq (N := 4) F h0 (bodiesScalar F) rfl
      (fun c hc => by match c, hc with | 0, _ => exact h0 | 1, _ => exact h0 | 2, _ => exact h0) rfl
    obtain ⟨h'', e'⟩ := repeat_sys F (F.lit 0.01) L' h' n
    simp only [run, runScalarFrom, e, R_ok_bind]
    have hsol : sysOf (N := 4 + 1) (Nat.le_refl 3) (bodiesScalar F) rfl = solarSystem F.pi := sysOf_bodiesScalar F hF rfl
    rw [C84_scalar F hF _ h', C84_scalar F hF _ h'', e', s, dt, hsol]
    rfl
  refine ⟨hs, ?_⟩
  rw [hs]
  have view : sysOf (by omega : 3 ≤ 4) (bodiesSimd F).toList (by simp : (bodiesSimd F).toList.length = 5) = solarSystem F.pi := by
    rw [← sysOf_bodiesScalar F hF rfl]
    refine Sys.ext' (fun i c => ?_) (fun i c => ?_) (fun i => ?_)
    · match i, c with
      | 0, 0 | 0, 1 | 0, 2 | 1, 0 | 1, 1 | 1, 2 | 2, 0 | 2, 1 | 2, 2 | 3, 0 | 3, 1 | 3, 2 | 4, 0 | 4, 1 | 4, 2 => rfl
    · match i, c with
      | 0, 0 | 0, 1 | 0, 2 | 1, 0 | 1, 1 | 1, 2 | 2, 0 | 2, 1 | 2, 2 | 3, 0 | 3, 1 | 3, 2 | 4, 0 | 4, 1 | 4, 2 => rfl
    · match i with
      | 0 | 1 | 2 | 3 | 4 => rfl
  obtain ⟨B', e, p, s⟩ := offsetSimd_eq (N := 4) F (bodiesSimd F) (bodiesSimd_padded F hF)
    (fun c hc => by match c, hc with | 0, _ => exact h0 | 1, _ => exact h0 | 2, _ => exact h0) rfl
  obtain ⟨Bn, h'', p', e'⟩ := steps_sys F hF.sqrte t (F.lit 0.01) (by decide) n B' p
  rw [dt] at h'' e'
  simp only [run, runSimdFrom, e, R_ok_bind, C84_simd F hF t B' p, h'', C84_simd F hF t Bn p', e', s, view, dt]
  rfl

/-- C85: any other algorithm number panics. -/
theorem C85_unknown {α : Type} [Zero α] [Add α] [Sub α] [Mul α] [Div α] [Neg α] (F : Fns α) (t : Target) (n alg : Nat) (h : 2 ≤ alg) :
    run F t n alg = .error .panic := by
  obtain ⟨k, rfl⟩ := Nat.exists_eq_add_of_le' h
  rfl

example : run ratFns armNeon 1000 1 = run ratFns armNeon 1000 0 := (C85_run ratFns ratFns_exact armNeon 1000).2

/-- The energies are not trivial: half a unit mass moving at speed 2 has energy 1. -/
example : (⟨fun _ _ => 0, fun _ c => if c = 0 then 2 else 0, fun _ => 1 / 2⟩ : Sys Rat 1).energy id = 1 := by
  norm_num [energy_eq, Fin.sum_univ_three]

/-! ### C86: no run stops -/

/-- C86: whatever the arithmetic, on every target, a run of either algorithm ends with two energies. -/
theorem C86_total {α : Type} [Zero α] [Add α] [Sub α] [Mul α] [Div α] [Neg α] (F : Fns α) (t : Target) (n alg : Nat) (h : alg < 2) :
    ∃ r, run F t n alg = .ok r := by
  match alg, h with
  | 0, _ => exact ⟨_, rfl⟩
  | 1, _ => exact runSimd_total (N := 4) F t (bodiesSimd F) (by decide) n

/-- In `f64`. -/
example (F : Fns F64) : ∃ r, run F x64Avx 50000000 1 = .ok r := C86_total F x64Avx _ 1 (by omega)

end PackedSimd.Ex.Nbody
