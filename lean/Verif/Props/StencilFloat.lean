import Verif.Lemmas.StencilFloat
import Verif.Props.StencilData
import Verif.Props.MulAdd
/-
C128: how far the stencil programs, computing in `f32`, can be from the exact evolution.
-/
namespace PackedSimd.Props
open PackedSimd Ex Ex.Stencil Spec F32R

variable {E : Env F32} {z0 z1 nz : Int} {V M ρ : ℝ} {n : Nat} {even odd : List F32}

theorem stepsError_eq (M ρ : ℝ) (m : Nat) : stepsError M ρ m = 15 * m * ν * (M * ρ ^ (m + 1)) := by
  unfold stepsError ν
  ring

/-- A run whose steps update the cells of the box as the vector programs do. -/
theorem run_close (T : Tame E V) (G : Geometry E z0 z1 nz) {t0 t1 : Int} (he : even.length = (E.nx * E.ny * nz).toNat)
    (ho : odd.length = (E.nx * E.ny * nz).toNat) (H : Regime E V M ρ t0 (t1 - t0).toNat (even, odd)) (step : Int → List F32 → List F32 → R (List F32))
    (hstep : ∀ t aIn aOut, aIn.length = (E.nx * E.ny * nz).toNat → aOut.length = (E.nx * E.ny * nz).toNat → ∃ out, step t aIn aOut = .ok out ∧
      Updates (fun j old => newValueSimd E (E.nx * E.ny) aIn j old) (InBox E z0 z1) aOut out) :
    ∃ r r', forInt t0 t1 (fun (s : List F32 × List F32) t =>
        if t % 2 = 0 then do return (s.1, ← step t s.1 s.2) else do return (← step t s.2 s.1, s.2)) (even, odd) = .ok r ∧
      Evolves (exactEnv E) z0 z1 t0 (t1 - t0).toNat (even.map toReal, odd.map toReal) r' ∧
      Close (stepsError M ρ (t1 - t0).toNat) r.1 r'.1 ∧ Close (stepsError M ρ (t1 - t0).toNat) r.2 r'.2 := by
  obtain ⟨r, r', h1, h2, h3⟩ := run_float T G rfl T.nonneg H.notTiny H.rho H.growth (K := (t1 - t0).toNat) H.room step hstep (t1 - t0).toNat 0 t0 (even, odd) _
    (by omega) (After.start he ho H.reads H.writes)
  rw [Nat.zero_add] at h3
  have hM : 0 ≤ M := le_trans (by norm_num) H.notTiny
  rw [stepsError_eq]
  exact ⟨r, r', h1, h2, h3.close hM H.rho⟩

/-- The vector program, whether `mul_adde` is fused or not: it succeeds, all values stay finite, and every cell of both grids is within
`stepsError` of the exact evolution of the same initial grids. -/
theorem C128_simd (T : Tame E V) (G : Geometry E z0 z1 nz) (hn : 1 ≤ n) (hdvd : (n : Int) ∣ E.x1 - E.x0) {t0 t1 : Int}
    (he : even.length = (E.nx * E.ny * nz).toNat) (ho : odd.length = (E.nx * E.ny * nz).toNat) (H : Regime E V M ρ t0 (t1 - t0).toNat (even, odd)) :
    ∃ r r', runSimd E n t0 t1 z0 z1 even odd = .ok r ∧ Evolves (exactEnv E) z0 z1 t0 (t1 - t0).toNat (even.map toReal, odd.map toReal) r' ∧
      Close (stepsError M ρ (t1 - t0).toNat) r.1 r'.1 ∧ Close (stepsError M ρ (t1 - t0).toNat) r.2 r'.2 :=
  run_close T G he ho H (fun _ => halfSimd E n z0 z1) fun _ _ _ h1 h2 => halfPar_ok G hn hdvd (order := id) (fun _ => .refl _) h1 h2

/-- The parallel program, whatever order the tasks of each step run in. -/
theorem C128_par (T : Tame E V) (G : Geometry E z0 z1 nz) (hn : 1 ≤ n) (hdvd : (n : Int) ∣ E.x1 - E.x0) {t0 t1 : Int} (order : Int → List Nat → List Nat)
    (hord : ∀ t l, (order t l).Perm l)
    (he : even.length = (E.nx * E.ny * nz).toNat) (ho : odd.length = (E.nx * E.ny * nz).toNat) (H : Regime E V M ρ t0 (t1 - t0).toNat (even, odd)) :
    ∃ r r', runPar E n nz order t0 t1 z0 z1 even odd = .ok r ∧ Evolves (exactEnv E) z0 z1 t0 (t1 - t0).toNat (even.map toReal, odd.map toReal) r' ∧
      Close (stepsError M ρ (t1 - t0).toNat) r.1 r'.1 ∧ Close (stepsError M ρ (t1 - t0).toNat) r.2 r'.2 := by
  rw [(C75_schedule G hn hdvd t0 t1 order hord he ho).1]
  exact C128_simd T G hn hdvd he ho H

/-- Multiplying and adding with two roundings. -/
theorem twice_ok : Spec.Ao.MulAddOk fun a b c => a * b + c := fun a b c => .inr ⟨_, mul_rounds fmt a.bits b.bits, add_rounds fmt _ c.bits⟩

/-- The scalar program. -/
theorem C128_scalar (T : Tame E V) (G : Geometry E z0 z1 nz) {t0 t1 : Int}
    (he : even.length = (E.nx * E.ny * nz).toNat) (ho : odd.length = (E.nx * E.ny * nz).toNat) (H : Regime E V M ρ t0 (t1 - t0).toNat (even, odd)) :
    ∃ r r', runScalar E t0 t1 z0 z1 even odd = .ok r ∧ Evolves (exactEnv E) z0 z1 t0 (t1 - t0).toNat (even.map toReal, odd.map toReal) r' ∧
      Close (stepsError M ρ (t1 - t0).toNat) r.1 r'.1 ∧ Close (stepsError M ρ (t1 - t0).toNat) r.2 r'.2 := by
  let E' : Env F32 := { E with fma := fun a b c => a * b + c }
  have T' : Tame E' V := ⟨T.two, T.negOne, twice_ok, T.coef, T.vsq, T.nonneg, T.small⟩
  have G' : Geometry E' z0 z1 nz := ⟨G.hx0, G.hx01, G.hx1, G.hy0, G.hy1, G.hz0, G.hz01, G.hz1, G.hnx, G.hny, G.hsize, G.hvsq⟩
  have L : Laws E' := C74_f32 E' (fun _ _ _ => rfl) T.negOne
  refine run_close (E := E') T' G' he ho ⟨H.reads, H.writes, H.notTiny, H.rho, H.growth, H.room⟩ (fun _ => stepScalar E' z0 z1) fun t aIn aOut h1 h2 => ?_
  obtain ⟨out, e, u⟩ := stepScalar_ok G' h1 h2
  refine ⟨out, e, ?_⟩
  unfold TimeStep at u
  rw [show (fun (j : Nat) old => newValueSimd E' (E'.nx * E'.ny) aIn j old) = _ from funext fun j => funext fun old => newValue_eq L aIn j old]
  exact u

/-- So the scalar and the vector program agree up to twice that, even where `mul_adde` is fused. -/
theorem C128_agree (T : Tame E V) (G : Geometry E z0 z1 nz) (hn : 1 ≤ n) (hdvd : (n : Int) ∣ E.x1 - E.x0) {t0 t1 : Int}
    (he : even.length = (E.nx * E.ny * nz).toNat) (ho : odd.length = (E.nx * E.ny * nz).toNat) (H : Regime E V M ρ t0 (t1 - t0).toNat (even, odd)) :
    ∃ r q, runScalar E t0 t1 z0 z1 even odd = .ok r ∧ runSimd E n t0 t1 z0 z1 even odd = .ok q ∧
      Close (2 * stepsError M ρ (t1 - t0).toNat) q.1 (r.1.map toReal) ∧ Close (2 * stepsError M ρ (t1 - t0).toNat) q.2 (r.2.map toReal) := by
  obtain ⟨r, r', h1, h2, h3, h4⟩ := C128_scalar T G he ho H
  obtain ⟨q, q', g1, g2, g3, g4⟩ := C128_simd T G hn hdvd he ho H
  obtain rfl := h2.unique g2
  have key : ∀ {l k : List F32} {m : List ℝ}, Close (stepsError M ρ (t1 - t0).toNat) l m → Close (stepsError M ρ (t1 - t0).toNat) k m →
      Close (2 * stepsError M ρ (t1 - t0).toNat) k (l.map toReal) := by
    rintro l k m ⟨a1, a2⟩ ⟨b1, b2⟩
    refine ⟨by rw [List.length_map, a1, b1], fun i p q => ?_⟩
    rw [List.length_map] at q
    obtain ⟨c1, c2⟩ := a2 i q (by omega)
    obtain ⟨d1, d2⟩ := b2 i p (by omega)
    refine ⟨d1, ?_⟩
    rw [List.getElem_map]
    have e := abs_sub_comm (toReal l[i]) (m[i]'(by omega))
    have t := abs_add_le (toReal k[i] - m[i]'(by omega)) (m[i]'(by omega) - toReal l[i])
    rw [sub_add_sub_cancel] at t
    linarith
  exact ⟨r, q, h1, g1, key h3 g3, key h4 g4⟩

/-! ### The data of the example -/

/-- `f32` on a target whose `mul_adde` is `fma`. -/
def floatSetting (t : Target) (dbg : Bool) (fma : F32 → F32 → F32 → F32) : Setting F32 := { f32Setting t dbg with fma }

theorem coef_value : let c := (f32Setting x64Avx true).coeff
    (∀ (i : Nat) (h : i < 4), IsFinite 23 c[i].bits) ∧ weight c = 25 / 8 := by
  have h0 : valueOf 23 (0x3f000000#32) = .num (2 ^ 148) := by decide +kernel
  have h1 : valueOf 23 (0xbe800000#32) = .num (-2 ^ 147) := by decide +kernel
  have h2 : valueOf 23 (0x3e000000#32) = .num (2 ^ 146) := by decide +kernel
  have h3 : valueOf 23 (0xbd800000#32) = .num (-2 ^ 145) := by decide +kernel
  refine ⟨fun i h => ?_, ?_⟩
  · rcases i with _ | _ | _ | _ | i
    · exact ⟨_, h0⟩
    · exact ⟨_, h1⟩
    · exact ⟨_, h2⟩
    · exact ⟨_, h3⟩
    · omega
  · show |realVal 23 (0x3f000000#32)| + (6 : ℝ) * (|realVal 23 (0xbe800000#32)| + |realVal 23 (0x3e000000#32)| + |realVal 23 (0xbd800000#32)|) = 25 / 8
    rw [realVal_num h0, realVal_num h1, realVal_num h2, realVal_num h3, show low 32 23 = 149 by decide]
    simp only [abs_div]
    norm_num

/-- The data the example builds from bounds, any grid with a margin of at least three cells, for up to 48 steps: the three programs succeed, and
after `m` steps every cell is within `15 m 2^-24 5.32^m` of the exact evolution. -/
theorem C128_from_bounds (t : Target) (dbg : Bool) {fma : F32 → F32 → F32 → F32} (hma : Spec.Ao.MulAddOk fma) (m : Nat) (hm : m ≤ 48) (width nx ny nz : Int)
    (hw : 3 ≤ width) (hx : 2 * width ≤ nx) (hy : 2 * width ≤ ny) (hz : 2 * width ≤ nz) (hN : nx * ny * nz < 2 ^ 31)
    (hmem : nx * ny * nz * 4 < 2 ^ (8 * t.ptrBytes - 1)) (lanes : Nat) (hl : 1 ≤ lanes) (hdvd : (lanes : Int) ∣ nx - 2 * width)
    (order : Int → List Nat → List Nat) (hord : ∀ t l, (order t l).Perm l) :
    ∃ d r q x, Data.fromBounds (floatSetting t dbg fma) m width nx ny nz = .ok d ∧
      d.exec (scalarProgram (floatSetting t dbg fma)) = .ok { d with a := r } ∧
      d.exec (simdProgram (floatSetting t dbg fma) lanes) = .ok { d with a := q } ∧
      d.exec (parProgram (floatSetting t dbg fma) lanes order) = .ok { d with a := q } ∧
      Evolves (exactEnv (envOf (floatSetting t dbg fma) d)) width (nz - width) 0 m (d.a.1.map toReal, d.a.2.map toReal) x ∧
      Close (15 * m / 2 ^ 24 * 5.32 ^ m) r.1 x.1 ∧ Close (15 * m / 2 ^ 24 * 5.32 ^ m) r.2 x.2 ∧
      Close (15 * m / 2 ^ 24 * 5.32 ^ m) q.1 x.1 ∧ Close (15 * m / 2 ^ 24 * 5.32 ^ m) q.2 x.2 := by
  generalize hS : floatSetting t dbg fma = S
  have hSt : S.t = t := by rw [← hS]; rfl
  have hSo : S.ofInt = F32.ofInt := by rw [← hS]; rfl
  have hSc : S.coeff = (f32Setting x64Avx true).coeff := by rw [← hS]; rfl
  obtain ⟨d, e, hi, hc, hn, ht, hdx, hdy, hdz⟩ := C120_from_bounds S m width nx ny nz hw hx hy hz hN (by rw [hSt]; exact hmem)
  obtain ⟨a, vsq, coeff, n, tt, x, y, z⟩ := d
  dsimp only at hi hn ht hdx hdy hdz hc
  subst hn ht hdx hdy hdz hc
  rw [hSo] at hi
  obtain ⟨w1, w2, w3⟩ := initialised_within hi (by omega) (by omega) (by omega) hN
  dsimp only at w1 w2 w3
  let E : Env F32 := envOf S ⟨a, vsq, S.coeff, (nx, ny, nz), (0, m), (width, nx - width), (width, ny - width), (width, nz - width)⟩
  have hwt : weight E.coef = 25 / 8 := by
    show weight S.coeff = _
    rw [hSc]
    exact coef_value.2
  have T : Tame E 1 := by
    refine ⟨by show S.two = _; rw [← hS]; rfl, by show S.negOne = _; rw [← hS]; rfl, by show Spec.Ao.MulAddOk S.fma; rw [← hS]; exact hma, ?_, w3, by norm_num, by norm_num⟩
    show ∀ (i : Nat) (h : i < 4), IsFinite 23 S.coeff[i].bits
    rw [hSc]
    exact coef_value.1
  have G : Geometry E width (nz - width) nz := by
    have := hi.vsq_len
    exact ⟨by show 0 ≤ width; omega, by show width ≤ nx - width; omega, by show nx - width ≤ nx; omega, by show 0 ≤ width; omega,
      by show ny - width ≤ ny; omega, by omega, by omega, by omega, by show 0 < nx; omega, by show 0 < ny; omega, hN,
      by show vsq.length = (nx * ny * nz).toNat; dsimp only at this; omega⟩
  have he : a.1.length = (E.nx * E.ny * nz).toNat := by have := hi.even_len; dsimp only at this; show _ = (nx * ny * nz).toNat; omega
  have ho : a.2.length = (E.nx * E.ny * nz).toNat := by have := hi.odd_len; dsimp only at this; show _ = (nx * ny * nz).toNat; omega
  have em : ((m : Int) - 0).toNat = m := by omega
  have pw : (1 / 5.32 : ℝ) * 5.32 ^ (m + 1) = 5.32 ^ m := by rw [pow_succ]; norm_num; ring
  have H : Regime E 1 (1 / 5.32) 5.32 0 ((m : Int) - 0).toNat (a.1, a.2) := by
    rw [em]
    refine ⟨?_, ?_, by norm_num, by norm_num, by rw [hwt]; norm_num, ?_⟩
    · show Within _ a.1
      norm_num
      exact w1
    · show Within _ a.2
      exact fun x hx => ⟨(w2 x hx).1, (w2 x hx).2.trans (by norm_num)⟩
    · rw [hwt, pw]
      have : (5.32 : ℝ) ^ m ≤ 5.32 ^ 48 := pow_le_pow_right₀ (by norm_num) hm
      have h48 : (25 / 8 + 8) * (5.32 : ℝ) ^ 48 ≤ 2 ^ 120 := by norm_num
      linarith
  have hse : stepsError (1 / 5.32) 5.32 m = 15 * m / 2 ^ 24 * 5.32 ^ m := by
    unfold stepsError
    rw [pw]
  have hd' : (lanes : Int) ∣ E.x1 - E.x0 := by show (lanes : Int) ∣ nx - width - width; rwa [show nx - width - width = nx - 2 * width by omega]
  obtain ⟨r, r', h1, h2, h3, h4⟩ := C128_scalar T G he ho H
  obtain ⟨q, q', g1, g2, g3, g4⟩ := C128_simd T G hl hd' he ho H
  have hp := (C75_schedule G hl hd' 0 m order hord he ho).1
  obtain rfl := h2.unique g2
  rw [em, hse] at h3 h4 g3 g4
  rw [em] at h2
  refine ⟨_, r, q, r', e, ?_, ?_, ?_, h2, h3, h4, g3, g4⟩
  · show (runScalar E 0 m width (nz - width) a.1 a.2 >>= fun b => pure (Data.mk b vsq S.coeff (nx, ny, nz) (0, (m : Int)) (width, nx - width) (width, ny - width) (width, nz - width))) = _
    rw [h1]
    rfl
  · show (runSimd E lanes 0 m width (nz - width) a.1 a.2 >>= fun b => pure (Data.mk b vsq S.coeff (nx, ny, nz) (0, (m : Int)) (width, nx - width) (width, ny - width) (width, nz - width))) = _
    rw [g1]
    rfl
  · show (runPar E lanes nz order 0 m width (nz - width) a.1 a.2 >>= fun b => pure (Data.mk b vsq S.coeff (nx, ny, nz) (0, (m : Int)) (width, nx - width) (width, ny - width) (width, nz - width))) = _
    rw [hp.trans g1]
    rfl

/-- `Data::default()` on a 64-bit target with a fused or unfused `mul_adde`: after its six steps all cells are within 1/8 of the exact evolution. -/
theorem C128_default (t : Target) (ht : t.ptrBytes = 8) (dbg : Bool) {fma : F32 → F32 → F32 → F32} (hma : Spec.Ao.MulAddOk fma) :
    ∃ d r q x, Data.default (floatSetting t dbg fma) = .ok d ∧
      d.exec (scalarProgram (floatSetting t dbg fma)) = .ok { d with a := r } ∧ d.exec (simdProgram (floatSetting t dbg fma) 8) = .ok { d with a := q } ∧
      Evolves (exactEnv (envOf (floatSetting t dbg fma) d)) 4 124 0 6 (d.a.1.map toReal, d.a.2.map toReal) x ∧
      Close (1 / 8) r.1 x.1 ∧ Close (1 / 8) r.2 x.2 ∧ Close (1 / 8) q.1 x.1 ∧ Close (1 / 8) q.2 x.2 := by
  obtain ⟨d, r, q, x, h1, h2, h3, -, h4, c1, c2, c3, c4⟩ := C128_from_bounds t dbg hma 6 (by norm_num) 4 128 128 128 (by decide) (by decide) (by decide) (by decide)
    (by decide) (by rw [ht]; decide) 8 (by decide) (by decide) (fun _ => id) (fun _ _ => .refl _)
  have key : ∀ {l : List F32} {l' : List ℝ}, Close (15 * (6 : Nat) / 2 ^ 24 * 5.32 ^ 6) l l' → Close (1 / 8) l l' :=
    fun h => ⟨h.1, fun k p q => ⟨(h.2 k p q).1, (h.2 k p q).2.trans (by norm_num)⟩⟩
  exact ⟨d, r, q, x, h1, h2, h3, h4, key c1, key c2, key c3, key c4⟩

/-- A fused `mul_adde`. -/
theorem fused_ok : Spec.Ao.MulAddOk fun a b c => ⟨Props.fma 23 a.bits b.bits c.bits⟩ := fun a b c => .inl (fma_rounds fmt a.bits b.bits c.bits)

example : ∃ d r q x, Data.default (floatSetting x64Avx true fun a b c => ⟨Props.fma 23 a.bits b.bits c.bits⟩) = .ok d ∧
    d.exec (scalarProgram (floatSetting x64Avx true fun a b c => ⟨Props.fma 23 a.bits b.bits c.bits⟩)) = .ok { d with a := r } ∧
    d.exec (simdProgram (floatSetting x64Avx true fun a b c => ⟨Props.fma 23 a.bits b.bits c.bits⟩) 8) = .ok { d with a := q } ∧
    Evolves (exactEnv (envOf (floatSetting x64Avx true fun a b c => ⟨Props.fma 23 a.bits b.bits c.bits⟩) d)) 4 124 0 6 (d.a.1.map toReal, d.a.2.map toReal) x ∧
    Close (1 / 8) r.1 x.1 ∧ Close (1 / 8) r.2 x.2 ∧ Close (1 / 8) q.1 x.1 ∧ Close (1 / 8) q.2 x.2 := C128_default x64Avx rfl true fused_ok

/-- The small box of C74, one step, from a grid of ones: coefficients and velocities are larger there, and so is the growth. -/
theorem smallBox_regime : Tame (smallBox fun a b c => a * b + c) 255 ∧ Regime (smallBox fun a b c => a * b + c) 255 1 16000 0 1 (.replicate 256 1, .replicate 256 0) := by
  have hv : ∀ z : Int, z.natAbs ≤ 2 ^ 24 → IsFinite 23 (F32.ofInt z).bits ∧ realVal 23 (F32.ofInt z).bits = z := by
    intro z hz
    have h : valueOf 23 (F32.ofInt z).bits = _ := fromInt_exact fmt z hz (by decide +kernel)
    refine ⟨⟨_, h⟩, ?_⟩
    rw [realVal_num h]
    push_cast
    exact mul_div_cancel_right₀ _ (by positivity)
  have hw : weight (smallBox fun a b c => a * b + c).coef = 61 := by
    show |realVal 23 (F32.ofInt 1).bits| + (6 : ℝ) * (|realVal 23 (F32.ofInt (-2)).bits| + |realVal 23 (F32.ofInt 3).bits| + |realVal 23 (F32.ofInt 5).bits|) = 61
    rw [(hv 1 (by decide)).2, (hv (-2) (by decide)).2, (hv 3 (by decide)).2, (hv 5 (by decide)).2]
    norm_num
  constructor
  · refine ⟨rfl, rfl, twice_ok, fun i h => ?_, ?_, by norm_num, by norm_num⟩
    · rcases i with _ | _ | _ | _ | i
      · exact (hv 1 (by decide)).1
      · exact (hv (-2) (by decide)).1
      · exact (hv 3 (by decide)).1
      · exact (hv 5 (by decide)).1
      · omega
    · intro x hx
      unfold smallBox at hx
      obtain ⟨k, hk, rfl⟩ := List.mem_map.1 hx
      rw [List.mem_range] at hk
      obtain ⟨h1, h2⟩ := hv (k : Int) (by omega)
      refine ⟨h1, ?_⟩
      show |realVal 23 (F32.ofInt (k : Int)).bits| ≤ 255
      rw [h2, abs_of_nonneg (by positivity)]
      exact_mod_cast (by omega : k ≤ 255)
  · refine ⟨?_, ?_, by norm_num, by norm_num, by rw [hw]; norm_num, by rw [hw]; norm_num⟩
    · intro x hx
      obtain rfl := List.eq_of_mem_replicate (show x ∈ List.replicate 256 (1 : F32) from hx)
      exact ⟨one_ok.1, by rw [show toReal 1 = 1 from one_ok.2]; norm_num⟩
    · intro x hx
      obtain rfl := List.eq_of_mem_replicate (show x ∈ List.replicate 256 (0 : F32) from hx)
      exact ⟨zero_ok.1, by rw [show toReal 0 = 0 from zero_ok.2]; norm_num⟩

example := C128_agree (n := 8) smallBox_regime.1 (smallBox_geometry _) (by decide) (by decide) (t1 := 1) (by decide +kernel) (by decide +kernel) smallBox_regime.2

end PackedSimd.Props
