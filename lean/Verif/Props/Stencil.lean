import Verif.Lemmas.Stencil
import Verif.Lemmas.FloatLaws
import Verif.Props.MaskReduce
import Mathlib.Algebra.Ring.Basic
/-
C74-C77: the stencil example.
-/
namespace PackedSimd.Props
open PackedSimd Ex Ex.Stencil Spec

set_option linter.unusedSectionVars false

variable {α : Type} {n : Nat} [Add α] [Sub α] [Mul α] {E : Env α} {z0 z1 nz : Int}

/-! ## C74: every version computes the wave equation steps -/

/-- The scalar program: for every box inside the grid it succeeds, and what it leaves in the two grids is what the time steps prescribe. -/
theorem C74_scalar (G : Geometry E z0 z1 nz) (t0 t1 : Int) {even odd : List α} (he : even.length = (E.nx * E.ny * nz).toNat)
    (ho : odd.length = (E.nx * E.ny * nz).toNat) :
    ∃ r, runScalar E t0 t1 z0 z1 even odd = .ok r ∧ Evolves E z0 z1 t0 (t1 - t0).toNat (even, odd) r :=
  run_ok (fun _ => stepScalar E z0 z1) (fun _ _ _ h1 h2 => stepScalar_ok G h1 h2) _ _ _ he ho

/-- The parallel vector program, whatever order the tasks of each step run in. -/
theorem C74_par (G : Geometry E z0 z1 nz) (hn : 1 ≤ n) (hdvd : (n : Int) ∣ E.x1 - E.x0) (L : Laws E) (t0 t1 : Int) (order : Int → List Nat → List Nat)
    (hord : ∀ t l, (order t l).Perm l) {even odd : List α} (he : even.length = (E.nx * E.ny * nz).toNat) (ho : odd.length = (E.nx * E.ny * nz).toNat) :
    ∃ r, runPar E n nz order t0 t1 z0 z1 even odd = .ok r ∧ Evolves E z0 z1 t0 (t1 - t0).toNat (even, odd) r := by
  have hb : z1 - z0 ≤ nz ∧ -2 ^ 31 ≤ z1 - z0 ∧ z1 - z0 < 2 ^ 31 := by
    have h1 := G.hz0; have h2 := G.hz01; have h3 := G.hz1; have h4 := G.hsize
    have hpos : 0 < E.nx * E.ny := Int.mul_pos G.hnx G.hny
    have h5 := Int.mul_le_mul_of_nonneg_right (show 1 ≤ E.nx * E.ny by omega) (show 0 ≤ nz by omega)
    omega
  unfold runPar
  rw [i32_ok hb.2, R_ok_bind, if_pos hb.1]
  exact run_ok (fun t => halfPar E n (order t) z0 z1) (fun t _ _ h1 h2 => halfPar_step G hn hdvd L (hord t) h1 h2) _ _ _ he ho

/-- The vector program. -/
theorem C74_simd (G : Geometry E z0 z1 nz) (hn : 1 ≤ n) (hdvd : (n : Int) ∣ E.x1 - E.x0) (L : Laws E) (t0 t1 : Int) {even odd : List α}
    (he : even.length = (E.nx * E.ny * nz).toNat) (ho : odd.length = (E.nx * E.ny * nz).toNat) :
    ∃ r, runSimd E n t0 t1 z0 z1 even odd = .ok r ∧ Evolves E z0 z1 t0 (t1 - t0).toNat (even, odd) r :=
  run_ok (fun _ => halfSimd E n z0 z1) (fun _ _ _ h1 h2 => halfPar_step G hn hdvd L (order := id) (fun _ => .refl _) h1 h2) _ _ _ he ho

/-- The time steps have only one outcome, so the three programs leave the same values. -/
theorem C74_agree (G : Geometry E z0 z1 nz) (hn : 1 ≤ n) (hdvd : (n : Int) ∣ E.x1 - E.x0) (L : Laws E) (t0 t1 : Int) (order : Int → List Nat → List Nat)
    (hord : ∀ t l, (order t l).Perm l) {even odd : List α} (he : even.length = (E.nx * E.ny * nz).toNat) (ho : odd.length = (E.nx * E.ny * nz).toNat) :
    runSimd E n t0 t1 z0 z1 even odd = runScalar E t0 t1 z0 z1 even odd ∧
    runPar E n nz order t0 t1 z0 z1 even odd = runScalar E t0 t1 z0 z1 even odd := by
  obtain ⟨r, h1, h2⟩ := C74_scalar G t0 t1 he ho
  obtain ⟨r', h3, h4⟩ := C74_simd G hn hdvd L t0 t1 he ho
  obtain ⟨r'', h5, h6⟩ := C74_par G hn hdvd L t0 t1 order hord he ho
  rw [h1, h3, h5, h4.unique h2, h6.unique h2]
  exact ⟨rfl, rfl⟩

/-- IEEE binary32 meets the laws when `mul_adde` rounds twice, so the programs agree bit for bit, NaNs and signed zeros included. -/
theorem C74_f32 (E : Env F32) (hfma : ∀ a b c, E.fma a b c = a * b + c) (hneg : E.negOne = F32.ofInt (-1)) : Laws E := by
  have hf : Format 32 23 := ⟨by decide, by decide⟩
  refine ⟨hfma, fun a b => ?_, fun a b => ?_, fun a b => ?_⟩
  · show F32.mk _ = F32.mk _
    rw [fadd_comm hf]
  · show F32.mk _ = F32.mk _
    rw [fmul_comm]
  · rw [hneg]
    obtain ⟨a⟩ := a
    obtain ⟨b⟩ := b
    show F32.mk (Flt.sub 23 a b) = F32.mk (Flt.add 23 a (Flt.mul 23 (Flt.fromInt 32 23 (-1)) b))
    congr 1
    unfold Flt.sub
    cases hb : Flt.isNaN 23 b
    · rw [if_neg (by simp)]
      congr 1
      obtain ⟨h1, h2⟩ := mul_minus_one hf b hb
      obtain ⟨h3, h4⟩ := negate_spec hf b
      exact eq_of_sign_mag hf (by rw [h2, h4]) (by rw [h1, h3])
    · have h1 : Flt.mul 23 (Flt.fromInt 32 23 (-1)) b = Flt.qnan 32 23 := by
        unfold Flt.mul; simp [hb]
      have h3 : Flt.isNaN 23 (Flt.qnan 32 23) = true := by decide
      rw [h1]
      unfold Flt.add
      simp [h3]

/-- So does exact arithmetic, where fused and unfused are the same. -/
theorem C74_exact {β : Type} [CommRing β] (E : Env β) (hfma : ∀ a b c, E.fma a b c = a * b + c) (hneg : E.negOne = -1) : Laws E :=
  ⟨hfma, add_comm, mul_comm, fun a b => by rw [hneg, neg_one_mul, sub_eq_add_neg]⟩

/-- A grid of 16 x 2 x 8 cells with the box 4..12 x 0..2 x 3..5. -/
def smallBox (fma : F32 → F32 → F32 → F32) : Env F32 :=
  { t := x64Avx, dbg := true, two := F32.ofInt 2, negOne := F32.ofInt (-1), fma, x0 := 4, x1 := 12, y0 := 0, y1 := 2, nx := 16, ny := 2,
    coef := #v[F32.ofInt 1, F32.ofInt (-2), F32.ofInt 3, F32.ofInt 5], vsq := (List.range 256).map fun k : Nat => F32.ofInt (k : Int) }

theorem smallBox_geometry (fma : F32 → F32 → F32 → F32) : Geometry (smallBox fma) 3 5 8 := by
  refine ⟨?_, ?_, ?_, ?_, ?_, ?_, ?_, ?_, ?_, ?_, ?_, ?_⟩
  case refine_12 =>
    simp only [List.length_map, List.length_range, smallBox]
    decide
  all_goals simp [smallBox]

example : runSimd (smallBox fun a b c => a * b + c) 8 0 6 3 5 (.replicate 256 1) (.replicate 256 0) =
    runScalar (smallBox fun a b c => a * b + c) 0 6 3 5 (.replicate 256 1) (.replicate 256 0) :=
  (C74_agree (smallBox_geometry _) (by decide) (by decide) (C74_f32 _ (fun _ _ _ => rfl) rfl) 0 6 (fun _ => List.reverse) (fun _ => List.reverse_perm)
    (by decide +kernel) (by decide +kernel)).1

/-! ## C75: the schedule does not matter -/

/-- Whatever the lane arithmetic does (fused `mul_adde` included), the order in which the tasks of a step run has no influence on the result, which is
that of the sequential vector program. -/
theorem C75_schedule (G : Geometry E z0 z1 nz) (hn : 1 ≤ n) (hdvd : (n : Int) ∣ E.x1 - E.x0) (t0 t1 : Int) (order : Int → List Nat → List Nat)
    (hord : ∀ t l, (order t l).Perm l) {even odd : List α} (he : even.length = (E.nx * E.ny * nz).toNat) (ho : odd.length = (E.nx * E.ny * nz).toNat) :
    runPar E n nz order t0 t1 z0 z1 even odd = runSimd E n t0 t1 z0 z1 even odd ∧ ∃ r, runSimd E n t0 t1 z0 z1 even odd = .ok r := by
  have hb : z1 - z0 ≤ nz ∧ -2 ^ 31 ≤ z1 - z0 ∧ z1 - z0 < 2 ^ 31 := by
    have h1 := G.hz0; have h2 := G.hz01; have h3 := G.hz1; have h4 := G.hsize
    have hpos : 0 < E.nx * E.ny := Int.mul_pos G.hnx G.hny
    have h5 := Int.mul_le_mul_of_nonneg_right (show 1 ≤ E.nx * E.ny by omega) (show 0 ≤ nz by omega)
    omega
  unfold runPar runSimd forInt
  rw [i32_ok hb.2, R_ok_bind, if_pos hb.1]
  generalize ((List.range (t1 - t0).toNat).map fun (k : Nat) => t0 + (k : Int)) = ts
  suffices h : ∀ (ts : List Int) (s : List α × List α), s.1.length = (E.nx * E.ny * nz).toNat → s.2.length = (E.nx * E.ny * nz).toNat →
      ∃ r, ts.foldlM (fun (s : List α × List α) t =>
        if t % 2 = 0 then do return (s.1, ← halfPar E n (order t) z0 z1 s.1 s.2) else do return (← halfPar E n (order t) z0 z1 s.2 s.1, s.2)) s = .ok r ∧
      ts.foldlM (fun (s : List α × List α) t =>
        if t % 2 = 0 then do return (s.1, ← halfSimd E n z0 z1 s.1 s.2) else do return (← halfSimd E n z0 z1 s.2 s.1, s.2)) s = .ok r by
    obtain ⟨r, h1, h2⟩ := h ts (even, odd) he ho
    exact ⟨h1.trans h2.symm, r, h2⟩
  intro ts
  induction ts with
  | nil => exact fun s _ _ => ⟨s, rfl, rfl⟩
  | cons t ts ih =>
    intro s h1 h2
    have step : ∀ {aIn aOut : List α}, aIn.length = (E.nx * E.ny * nz).toNat → aOut.length = (E.nx * E.ny * nz).toNat →
        ∃ out, halfPar E n (order t) z0 z1 aIn aOut = .ok out ∧ halfSimd E n z0 z1 aIn aOut = .ok out ∧ out.length = (E.nx * E.ny * nz).toNat := by
      intro aIn aOut ha ho
      obtain ⟨o1, e1, u1⟩ := halfPar_ok (n := n) G hn hdvd (hord t) ha ho
      obtain ⟨o2, e2, u2⟩ := halfPar_ok (n := n) G hn hdvd (order := id) (fun _ => .refl _) ha ho
      refine ⟨o1, e1, ?_, by rw [u1.length, ho]⟩
      rw [u1.unique u2]
      exact e2
    rw [List.foldlM_cons, List.foldlM_cons]
    by_cases ht : t % 2 = 0
    · obtain ⟨o, e1, e2, hl⟩ := step h1 h2
      rw [if_pos ht, if_pos ht, e1, e2]
      exact ih (s.1, o) h1 hl
    · obtain ⟨o, e1, e2, hl⟩ := step h2 h1
      rw [if_neg ht, if_neg ht, e1, e2]
      exact ih (o, s.2) hl h2

example (fma : F32 → F32 → F32 → F32) : runPar (smallBox fma) 8 8 (fun _ => List.reverse) 0 6 3 5 (.replicate 256 1) (.replicate 256 0) =
    runSimd (smallBox fma) 8 0 6 3 5 (.replicate 256 1) (.replicate 256 0) :=
  (C75_schedule (smallBox_geometry _) (by decide) ⟨1, rfl⟩ 0 6 (fun _ => List.reverse) (fun _ => List.reverse_perm)
    (List.length_replicate ..) (List.length_replicate ..)).1

/-! ## C76: what happens outside the grid -/

theorem safe_bind {β γ : Type} {m : R β} {f : β → R γ} (h1 : m ≠ .error .ub) (h2 : ∀ b, f b ≠ .error .ub) : (m >>= f) ≠ .error .ub := by
  cases m with
  | error e => exact fun h => h1 (by cases h; rfl)
  | ok b => exact h2 b

theorem safe_forInt {σ : Type} {f : σ → Int → R σ} (hf : ∀ s i, f s i ≠ .error .ub) (lo hi : Int) (s : σ) : forInt lo hi f s ≠ .error .ub := by
  unfold forInt
  generalize ((List.range (hi - lo).toNat).map fun (k : Nat) => lo + (k : Int)) = l
  induction l generalizing s with
  | nil => intro h; cases h
  | cons a l ih => rw [List.foldlM_cons]; exact safe_bind (hf s a) ih

theorem safe_i32 (dbg : Bool) (v : Int) : i32 dbg v ≠ .error .ub := by
  unfold i32
  split
  · intro h; cases h
  · split <;> intro h <;> cases h

theorem safe_lget (l : List α) (k : Nat) : lget l k ≠ .error .ub := by
  unfold lget
  split <;> intro h <;> cases h

theorem safe_aget {m : Nat} (l : Vector α m) (k : Nat) : aget l k ≠ .error .ub := by
  unfold aget
  split <;> intro h <;> cases h

theorem safe_lset (l : List α) (k : Nat) (x : α) : Options.lset l k x ≠ .error .ub := by
  unfold Options.lset
  split <;> intro h <;> cases h

theorem safe_pure {β : Type} (b : β) : (pure b : R β) ≠ .error .ub := by intro h; cases h

theorem safe_offset (E : Env α) (nxy index dx dy dz : Int) : offset E nxy index dx dy dz ≠ .error .ub :=
  safe_bind (safe_i32 _ _) fun _ => safe_bind (safe_i32 _ _) fun _ => safe_bind (safe_i32 _ _) fun _ => safe_bind (safe_i32 _ _) fun _ => safe_i32 _ _

theorem safe_cur (E : Env α) (aIn : List α) (nxy index dx dy dz : Int) : curScalar E aIn nxy index dx dy dz ≠ .error .ub :=
  safe_bind (safe_offset E _ _ _ _ _) fun _ => safe_lget _ _

/-- The scalar program never has undefined behaviour, whatever the box, the grid and the slices; at worst it panics. -/
theorem C76_scalar_partial (E : Env α) (t0 t1 z0 z1 : Int) (even odd : List α) : runScalar E t0 t1 z0 z1 even odd ≠ .error .ub := by
  have cell : ∀ (aIn : List α) (nxy z y : Int) (aOut : List α) (x : Int), cellScalar E aIn nxy z y aOut x ≠ .error .ub := by
    intro aIn nxy z y aOut x
    refine safe_bind (safe_i32 _ _) fun _ => safe_bind (safe_i32 _ _) fun _ => safe_bind (safe_i32 _ _) fun _ => safe_bind (safe_i32 _ _) fun _ =>
      safe_bind (safe_aget _ _) fun _ => safe_bind (safe_cur E _ _ _ _ _ _) fun _ => safe_bind (safe_forInt (fun d i => ?_) _ _ _) fun _ =>
      safe_bind (safe_offset E _ _ _ _ _) fun _ => safe_bind (safe_lget _ _) fun _ => safe_bind (safe_lget _ _) fun _ => safe_lset _ _ _
    exact safe_bind (safe_aget _ _) fun _ => safe_bind (safe_cur E _ _ _ _ _ _) fun _ => safe_bind (safe_cur E _ _ _ _ _ _) fun _ =>
      safe_bind (safe_cur E _ _ _ _ _ _) fun _ => safe_bind (safe_cur E _ _ _ _ _ _) fun _ => safe_bind (safe_cur E _ _ _ _ _ _) fun _ =>
      safe_bind (safe_cur E _ _ _ _ _ _) fun _ => safe_pure _
  have step : ∀ aIn aOut, stepScalar E z0 z1 aIn aOut ≠ .error .ub := fun aIn aOut => safe_bind (safe_i32 _ _) fun _ =>
    safe_forInt (fun _ _ => safe_forInt (fun _ _ => safe_forInt (fun _ _ => cell _ _ _ _ _ _) _ _ _) _ _ _) _ _ _
  refine safe_forInt (fun s t => ?_) _ _ _
  split
  · exact safe_bind (step _ _) fun _ => safe_pure _
  · exact safe_bind (step _ _) fun _ => safe_pure _

/-- The vector program succeeds, in particular without undefined behaviour, for every box inside the grid. -/
theorem C76_inside_partial (G : Geometry E z0 z1 nz) (hn : 1 ≤ n) (hdvd : (n : Int) ∣ E.x1 - E.x0) (t0 t1 : Int) {even odd : List α}
    (he : even.length = (E.nx * E.ny * nz).toNat) (ho : odd.length = (E.nx * E.ny * nz).toNat) :
    ∃ r, runSimd E n t0 t1 z0 z1 even odd = .ok r :=
  (C75_schedule G hn hdvd t0 t1 (fun _ => id) (fun _ _ => .refl _) he ho).2

/-- But it is a safe function, and calling it with a box that touches the edge of the grid is undefined behaviour, even in builds with debug
assertions; the scalar program panics. -/
theorem C76_outside_fails : ∃ (E : Env F32) (even odd : List F32), even.length = 256 ∧ odd.length = 256 ∧ E.vsq.length = 256 ∧ E.dbg = true ∧
    runSimd E 8 0 1 0 1 even odd = .error .ub ∧ runScalar E 0 1 0 1 even odd = .error .panic :=
  ⟨smallBox fun a b c => a * b + c, .replicate 256 1, .replicate 256 0, by decide +kernel, by decide +kernel, by decide +kernel, rfl,
    by decide +kernel, by decide +kernel⟩

/-- Nor does it check that the z range is not reversed: `z1 - z0` is converted to a huge number of planes.  The scalar program does nothing. -/
theorem C76_reversed_fails : ∃ (E : Env F32) (even odd : List F32), even.length = 256 ∧ odd.length = 256 ∧ E.vsq.length = 256 ∧ E.dbg = true ∧
    runSimd E 8 0 1 5 4 even odd = .error .ub ∧ runPar E 8 8 (fun _ => id) 0 1 5 4 even odd = .error .ub ∧
    runScalar E 0 1 5 4 even odd = .ok (even, odd) :=
  ⟨smallBox fun a b c => a * b + c, .replicate 256 1, .replicate 256 0, by decide +kernel, by decide +kernel, by decide +kernel, rfl,
    by decide +kernel, by decide +kernel, by decide +kernel⟩

/-! ## C77: creating the data -/

/-- `Data::new` and `reinit` initialise every cell of every grid that can be indexed by `i32` and allocated. -/
theorem C77_new_partial [Div α] [Zero α] (t : Target) (dbg : Bool) (ofInt : Int → α) {nx ny nz : Int} (hx : 0 ≤ nx) (hy : 0 ≤ ny) (hz : 0 ≤ nz)
    (hxy : nx * ny < 2 ^ 31) (hN : nx * ny * nz < 2 ^ 31) (hmem : nx * ny * nz * 4 < 2 ^ (8 * t.ptrBytes - 1)) :
    ∃ g, dataNew t dbg ofInt nx ny nz = .ok g ∧ Initialised ofInt nx ny nz g := by
  have p1 : 0 ≤ nx * ny := Int.mul_nonneg hx hy
  have p2 : 0 ≤ nx * ny * nz := Int.mul_nonneg p1 hz
  have hm' : (nx * ny * nz).toNat * 4 < 2 ^ (8 * t.ptrBytes - 1) := by
    have : ((2 ^ (8 * t.ptrBytes - 1) : Nat) : Int) = 2 ^ (8 * t.ptrBytes - 1) := by norm_cast
    omega
  have hlt : ∀ x y z : Nat, (x : Int) < nx → (y : Int) < ny → (z : Int) < nz → ∀ k : Nat, (k : Int) = z * (nx * ny) + y * nx + x →
      (k : Int) < (nx * ny * nz).toNat := by
    intro x y z a b c k e
    have p4 : ((y : Int) + 1) * nx ≤ ny * nx := Int.mul_le_mul_of_nonneg_right (by omega) (by omega)
    have p5 : ((z : Int) + 1) * (nx * ny) ≤ nz * (nx * ny) := Int.mul_le_mul_of_nonneg_right (by omega) (by omega)
    rw [Int.add_mul] at p4 p5
    rw [Int.mul_comm ny] at p4
    rw [Int.mul_comm nz] at p5
    omega
  unfold dataNew
  rw [i32_ok (by omega), R_ok_bind, i32_ok (by omega), R_ok_bind, asUsize_nonneg p2]
  dsimp only
  rw [if_pos hm']
  obtain ⟨g, h1, h2⟩ := reinit_ok (dbg := dbg) (ofInt := ofInt) (N := (nx * ny * nz).toNat)
    (g := ⟨List.replicate (nx * ny * nz).toNat 0, List.replicate (nx * ny * nz).toNat 0, List.replicate (nx * ny * nz).toNat 0, 0⟩)
    hx hy hz (by omega) (by omega) (by simp) (by simp) (by simp)
  refine ⟨g, h1, by rw [h2.even_len]; omega, by rw [h2.odd_len]; omega, by rw [h2.vsq_len]; omega, ?_, ?_, ?_⟩
  · intro x y z a b c k e
    rw [h2.even x y z a b c k (hlt x y z a b c k e) e, Int.tdiv_eq_ediv_of_nonneg hx]
  · exact fun x y z a b c k e => h2.odd k (hlt x y z a b c k e)
  · exact fun x y z a b c k e => h2.vsq x y z a b c k (hlt x y z a b c k e) e

example : ∃ g, dataNew x64Avx false F32.ofInt 16 2 8 = .ok g ∧ Initialised F32.ofInt 16 2 8 g :=
  C77_new_partial x64Avx false F32.ofInt (by decide) (by decide) (by decide) (by decide) (by decide) (by decide)

/-- With overflow checks on, `Data::new` never has undefined behaviour. -/
theorem C77_debug_partial [Div α] [Zero α] (t : Target) (hptr : t.ptrBytes = 4 ∨ t.ptrBytes = 8) (ofInt : Int → α) (nx ny nz : Int) :
    dataNew t true ofInt nx ny nz ≠ .error .ub := by
  have hi : ∀ v, i32 true v = .ok v ∧ -2 ^ 31 ≤ v ∧ v < 2 ^ 31 ∨ i32 true v = .error .panic := by
    intro v
    by_cases h : -2 ^ 31 ≤ v ∧ v < 2 ^ 31
    · exact .inl ⟨i32_ok h, h⟩
    · exact .inr (by unfold i32; rw [if_neg h]; rfl)
  unfold dataNew
  rcases hi (nx * ny) with ⟨e1, b1⟩ | e1
  swap
  · rw [e1]; intro h; cases h
  rw [e1, R_ok_bind]
  rcases hi (nx * ny * nz) with ⟨e2, b2⟩ | e2
  swap
  · rw [e2]; intro h; cases h
  rw [e2, R_ok_bind]
  dsimp only
  split
  swap
  · intro h; cases h
  rename_i hmem
  have hnn : 0 ≤ nx * ny * nz := by
    by_contra h
    unfold asUsize at hmem
    rw [if_neg h] at hmem
    rcases hptr with hp | hp <;> rw [hp] at hmem <;> omega
  by_cases hz : nz ≤ 0
  · unfold reinit
    rw [forInt_empty hz]
    intro h; cases h
  by_cases hy : ny ≤ 0
  · refine safe_forInt (fun s i => ?_) _ _ _
    rw [forInt_empty hy]
    intro h; cases h
  by_cases hx : nx ≤ 0
  · refine safe_forInt (fun s i => safe_forInt (fun s i => ?_) _ _ _) _ _ _
    rw [forInt_empty hx]
    intro h; cases h
  rw [asUsize_nonneg hnn]
  obtain ⟨g, h1, _⟩ := reinit_ok (dbg := true) (ofInt := ofInt) (nx := nx) (ny := ny) (nz := nz) (N := (nx * ny * nz).toNat)
    (g := ⟨List.replicate (nx * ny * nz).toNat 0, List.replicate (nx * ny * nz).toNat 0, List.replicate (nx * ny * nz).toNat 0, 0⟩)
    (by omega) (by omega) (by omega) (by omega) (by omega) (by simp) (by simp) (by simp)
  rw [h1]
  intro h; cases h

example : dataNew x64Avx true F32.ofInt 65536 65536 1 ≠ .error .ub := C77_debug_partial x64Avx (.inr rfl) _ _ _ _

/-- Without them the number of cells may wrap around, and the initialisation writes past the end of the vectors: undefined behaviour in a safe
function. -/
theorem C77_wrap_fails (ofInt : Int → F32) : dataNew x64Avx false ofInt 65536 65536 1 = .error .ub := by
  have e1 : i32 false (65536 * 65536) = .ok 0 := by decide
  have e2 : i32 false (0 * 1) = .ok 0 := by decide
  unfold dataNew
  rw [e1, R_ok_bind, e2, R_ok_bind]
  dsimp only
  rw [if_pos (by decide)]
  unfold reinit
  rw [forInt_cons (by decide), forInt_cons (by decide), forInt_cons (by decide)]
  rfl

/-- C74: the parallel program asserts that the range of planes is not longer than the grid, and panics if it is. -/
theorem C74_par_panics {α : Type} [Add α] [Sub α] [Mul α] (E : Env α) (n : Nat) (order : Int → List Nat → List Nat) (t0 t1 z0 z1 nz : Int)
    (hlo : 0 ≤ z0) (hhi : z1 < 2 ^ 31) (hnz : 0 ≤ nz) (h : nz < z1 - z0) (even odd : List α) :
    runPar E n nz order t0 t1 z0 z1 even odd = .error .panic := by
  unfold runPar
  rw [i32_ok (by omega), R_ok_bind, if_neg (by omega)]

example : (0 : Int) ≤ 4 ∧ (20 : Int) < 2 ^ 31 ∧ (0 : Int) ≤ 8 ∧ (8 : Int) < 20 - 4 := by decide

end PackedSimd.Props
