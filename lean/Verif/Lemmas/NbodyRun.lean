import Verif.Lemmas.NbodySimd
import Mathlib.Tactic.LinearCombination
/-
Energy, momentum and whole runs of the nbody programs.
-/
namespace PackedSimd.Ex.Nbody
open Spec
variable {K : Type} [Field K] {N : Nat}

/-! ### Momentum of the system -/

theorem Sys.dist2_comm (s : Sys K N) (i j : Fin N) : s.dist2 i j = s.dist2 j i := by
  unfold Sys.dist2
  exact Finset.sum_congr rfl fun c _ => by ring

theorem Sys.momentum_step [CharZero K] (sqrt : K → K) (dt : K) (s : Sys K N) (c : Fin 3) : (s.step sqrt dt).momentum c = s.momentum c := by
  have h : ∑ i, s.mass i * (dt * s.accel sqrt i c) = 0 := by
    unfold Sys.accel
    have e : ∀ i : Fin N, s.mass i * (dt * ∑ j ∈ Finset.univ.erase i, s.mass j * (s.pos j c - s.pos i c) / (s.dist2 i j * sqrt (s.dist2 i j))) =
        ∑ j, dt * (s.mass i * s.mass j) * (s.pos j c - s.pos i c) / (s.dist2 i j * sqrt (s.dist2 i j)) := by
      intro i
      rw [sum_erase_of_zero i _ (by simp), Finset.mul_sum, Finset.mul_sum]
      exact Finset.sum_congr rfl fun j _ => by ring
    simp only [e]
    have anti : ∑ i, ∑ j, dt * (s.mass i * s.mass j) * (s.pos j c - s.pos i c) / (s.dist2 i j * sqrt (s.dist2 i j)) =
        -∑ i, ∑ j, dt * (s.mass i * s.mass j) * (s.pos j c - s.pos i c) / (s.dist2 i j * sqrt (s.dist2 i j)) := by
      conv_lhs => rw [Finset.sum_comm]
      rw [← Finset.sum_neg_distrib]
      refine Finset.sum_congr rfl fun i _ => ?_
      rw [← Finset.sum_neg_distrib]
      refine Finset.sum_congr rfl fun j _ => ?_
      rw [s.dist2_comm j i]; ring
    exact self_eq_neg.1 anti
  unfold Sys.momentum
  simp only [Sys.step, mul_add, Finset.sum_add_distrib]
  rw [h, add_zero]

theorem Sys.momentum_centred (s : Sys K (N + 1)) (h : s.mass 0 ≠ 0) (c : Fin 3) : s.centred.momentum c = 0 := by
  unfold Sys.momentum
  rw [← Finset.add_sum_erase _ _ (Finset.mem_univ 0)]
  have e : ∑ j ∈ Finset.univ.erase (0 : Fin (N + 1)), s.centred.mass j * s.centred.vel j c = ∑ j ∈ Finset.univ.erase 0, s.mass j * s.vel j c := by
    refine Finset.sum_congr rfl fun j hj => ?_
    simp [Sys.centred, (Finset.mem_erase.1 hj).1]
  rw [e]
  simp only [Sys.centred, if_true]
  field_simp
  ring

theorem Sys.momentum_after [CharZero K] (sqrt : K → K) (dt : K) (s : Sys K N) (c : Fin 3) : ∀ n, (s.after sqrt dt n).momentum c = s.momentum c
  | 0 => rfl
  | n + 1 => by rw [Sys.after, Sys.momentum_step, Sys.momentum_after sqrt dt s c n]

theorem Sys.after_step (sqrt : K → K) (dt : K) (s : Sys K N) : ∀ n, (s.step sqrt dt).after sqrt dt n = s.after sqrt dt (n + 1)
  | 0 => rfl
  | n + 1 => by rw [Sys.after, Sys.after_step sqrt dt s n]; rfl

/-! ### Energy, scalar -/

theorem energy_eq (sqrt : K → K) (s : Sys K N) : s.energy sqrt =
    ∑ i, (s.mass i * (∑ c, s.vel i c ^ 2) / 2 - ∑ j, if i < j then s.mass i * s.mass j / sqrt (s.dist2 i j) else 0) := by
  unfold Sys.energy
  refine Finset.sum_congr rfl fun i _ => ?_
  rw [Finset.sum_filter]

theorem foldl_sub {β : Type} (f : β → K) : ∀ (L : List β) (e : K), L.foldl (fun e b => e - f b) e = e - (L.map f).sum
  | [], e => by simp
  | b :: L, e => by rw [List.foldl_cons, foldl_sub f L, List.map_cons, List.sum_cons]; ring

theorem energyFrom_eq (F : Fns K) (h2 : F.lit 2 = 2) : ∀ (N : Nat) (L : List (Body K 3)) (h : L.length = N) (e : K),
    energyFrom F e L = e + (sysOf (Nat.le_refl 3) L h).energy F.sqrt
  | 0, [], _, e => by simp [energyFrom, Sys.energy]
  | N + 1, b :: rest, h, e => by
    have h' : rest.length = N := by simpa using h
    simp only [energyFrom]
    rw [foldl_sub, energyFrom_eq F h2 N rest h', energy_eq, energy_eq, Fin.sum_univ_succ (n := N), list_sum_eq rest h']
    have hd : ∀ j : Fin N, square (Vector.zipWith (· - ·) b.x rest[j].x) = (sysOf (Nat.le_refl 3) (b :: rest) h).dist2 0 j.succ := by
      intro j
      rw [← square_dist2]; rfl
    have hm : ∀ j : Fin N, rest[j].mass = (sysOf (Nat.le_refl 3) (b :: rest) h).mass j.succ := fun j => rfl
    simp only [hd, hm, h2, Fin.sum_univ_succ (n := N), Fin.succ_lt_succ_iff, Fin.succ_pos, if_true, lt_self_iff_false, Fin.not_lt_zero, if_false, zero_add]
    have hs : square b.v = ∑ c, (sysOf (Nat.le_refl 3) (b :: rest) h).vel 0 c ^ 2 := by
      rw [square_eq, Fin.sum_univ_three]; rfl
    have hm0 : b.mass = (sysOf (Nat.le_refl 3) (b :: rest) h).mass 0 := rfl
    rw [hs, hm0]
    have tail : ∀ i : Fin N, ((sysOf (Nat.le_refl 3) rest h').mass i * (∑ c, (sysOf (Nat.le_refl 3) rest h').vel i c ^ 2) / 2 -
        ∑ j, if i < j then (sysOf (Nat.le_refl 3) rest h').mass i * (sysOf (Nat.le_refl 3) rest h').mass j /
          F.sqrt ((sysOf (Nat.le_refl 3) rest h').dist2 i j) else 0) =
        ((sysOf (Nat.le_refl 3) (b :: rest) h).mass i.succ * (∑ c, (sysOf (Nat.le_refl 3) (b :: rest) h).vel i.succ c ^ 2) / 2 -
        ∑ j, if i < j then (sysOf (Nat.le_refl 3) (b :: rest) h).mass i.succ * (sysOf (Nat.le_refl 3) (b :: rest) h).mass j.succ /
          F.sqrt ((sysOf (Nat.le_refl 3) (b :: rest) h).dist2 i.succ j.succ) else 0) := fun i => rfl
    simp only [tail]
    ring

theorem energyScalar_eq (F : Fns K) (h0 : F.lit 0 = 0) (h2 : F.lit 2 = 2) (L : List (Body K 3)) (h : L.length = N) :
    energyScalar F L = (sysOf (Nat.le_refl 3) L h).energy F.sqrt := by
  rw [energyScalar, energyFrom_eq F h2 N L h, h0, zero_add]

/-! ### Energy, SIMD -/

section
variable {α : Type} [Zero α] [Add α] [Sub α] [Mul α] [Div α]

theorem energySimd_total (F : Fns α) (t : Target) (B : Vector (Body α 4) N) : ∃ e, energySimd F t B = .ok e := by
  obtain ⟨S, hS⟩ := sum4_fn (α := α) t
  obtain ⟨e, h, -⟩ := forRange_inv (fun _ (_ : α) => True) (fun e i => do
        let bi ← aget B i
        let e := e + bi.mass * (← sum4 t (bi.v * bi.v)) * F.lit 0.5
        forRange (i + 1) N (fun e k => do
          let bj ← aget B k
          let dx := bi.x - bj.x
          return e - bi.mass * bj.mass / F.sqrt (← sum4 t (dx * dx))) e) (lo := 0) (hi := N) (init := F.lit 0) (Nat.zero_le _) trivial (by
    intro i e _ hi _
    obtain ⟨e', h', -⟩ := forRange_inv (fun _ (_ : α) => True) (fun e k => do
      let bj ← aget B k
      let dx := B[i].x - bj.x
      return e - B[i].mass * bj.mass / F.sqrt (← sum4 t (dx * dx))) (lo := i + 1) (hi := N)
      (init := e + B[i].mass * S (B[i].v * B[i].v) * F.lit 0.5) (by omega) trivial (by
      intro k e _ hk _
      rw [aget_lt _ hk]
      simp only [R_ok_bind, (hS _).1]
      exact ⟨_, rfl, trivial⟩)
    refine ⟨e', ?_, trivial⟩
    · dsimp only
      rw [aget_lt _ hi]
      simp only [R_ok_bind, (hS _).1] at h' ⊢
      exact h')
  exact ⟨e, h⟩

theorem offsetSimd_total (F : Fns α) (B : Vector (Body α 4) (N + 1)) : ∃ B', offsetSimd F B = .ok B' := by
  unfold offsetSimd
  rw [aget_lt _ (Nat.succ_pos N)]
  simp only [R_ok_bind]
  obtain ⟨v, h, -⟩ := forRange_inv (fun _ (_ : Vec α 4) => True) (fun (v : Vec α 4) i => do
    let body ← aget B i
    let m_ratio := body.mass / solarMass F
    return v - body.v * splat 4 m_ratio) (lo := 1) (hi := N + 1) (init := B[0].v) (by omega) trivial (by
    intro i v _ hi _
    rw [aget_lt _ hi]
    exact ⟨_, rfl, trivial⟩)
  rw [h]
  simp only [R_ok_bind]
  rw [aset_lt _ _ (Nat.succ_pos N)]
  exact ⟨_, rfl⟩

theorem steps_total {σ : Type} (k : σ → R σ) (h : ∀ s, ∃ s', k s = .ok s') : ∀ n s, ∃ s', steps k n s = .ok s'
  | 0, s => ⟨s, rfl⟩
  | n + 1, s => by
    obtain ⟨s', e⟩ := h s
    obtain ⟨s'', e'⟩ := steps_total k h n s'
    exact ⟨s'', by rw [steps, e]; exact e'⟩

theorem runSimd_total [Neg α] (F : Fns α) (t : Target) (B : Vector (Body α 4) (N + 1)) (hN : nPairs (N + 1) % 2 = 0) (n : Nat) :
    ∃ r, runSimdFrom F t B n = .ok r := by
  obtain ⟨B1, h1⟩ := offsetSimd_total F B
  obtain ⟨e1, h2⟩ := energySimd_total F t B1
  obtain ⟨B2, h3⟩ := steps_total (advanceSimd F t (F.lit 0.01)) (fun s => advanceSimd_total F t (F.lit 0.01) hN s) n B1
  obtain ⟨e2, h4⟩ := energySimd_total F t B2
  refine ⟨(e1, e2), ?_⟩
  unfold runSimdFrom
  rw [h1]; simp only [R_ok_bind]
  rw [h2]; simp only [R_ok_bind]
  rw [h3]; simp only [R_ok_bind]
  rw [h4]; rfl
end

theorem energySimd_eq (F : Fns K) (h0 : F.lit 0 = 0) (h2 : F.lit 0.5 = 1 / 2) (t : Target) (B : Vector (Body K 4) N) (hB : Padded B) :
    energySimd F t B = .ok ((sysOf (by omega) B.toList (by simp : B.toList.length = N)).energy F.sqrt) := by
  obtain ⟨S, hS⟩ := sum4_fn (α := K) t
  let U : Nat → Nat → K := fun i k => pm B i * pm B k / F.sqrt (d2 B i k)
  let T : Nat → K := fun i => (if h : i < N then B[i].mass * (B[i].v[0] ^ 2 + B[i].v[1] ^ 2 + B[i].v[2] ^ 2) / 2 else 0) -
    ∑ k ∈ Finset.range N, if i < k then U i k else 0
  obtain ⟨e, h, he⟩ := forRange_inv (fun i (e : K) => e = ∑ q ∈ Finset.range i, T q) (fun e i => do
        let bi ← aget B i
        let e := e + bi.mass * (← sum4 t (bi.v * bi.v)) * F.lit 0.5
        forRange (i + 1) N (fun e k => do
          let bj ← aget B k
          let dx := bi.x - bj.x
          return e - bi.mass * bj.mass / F.sqrt (← sum4 t (dx * dx))) e) (lo := 0) (hi := N) (init := F.lit 0) (Nat.zero_le _) (by simp [h0]) (by
    intro i e _ hi he
    obtain ⟨e', h', he'⟩ := forRange_inv (fun k (e' : K) => e' = e + B[i].mass * S (B[i].v * B[i].v) * F.lit 0.5 - ∑ q ∈ Finset.Ico (i + 1) k, U i q)
      (fun e k => do
      let bj ← aget B k
      let dx := B[i].x - bj.x
      return e - B[i].mass * bj.mass / F.sqrt (← sum4 t (dx * dx))) (lo := i + 1) (hi := N)
      (init := e + B[i].mass * S (B[i].v * B[i].v) * F.lit 0.5) (by omega) (by simp) (by
      intro k e'' hk1 hk he''
      rw [aget_lt _ hk]
      simp only [R_ok_bind, (hS _).1]
      refine ⟨_, rfl, ?_⟩
      have hd : S ((B[i].x - B[k].x) * (B[i].x - B[k].x)) = d2 B i k := by
        rw [sum4_eq (hS _).2]
        simp only [Mandel.vmul_get, Mandel.vsub_get, px_eq, d2]
        ring
      rw [he'', hd, Finset.sum_Ico_succ_top hk1, pm_eq, pm_eq]
      simp only [U]; ring)
    refine ⟨e', ?_, ?_⟩
    · dsimp only
      rw [aget_lt _ hi]
      simp only [R_ok_bind, (hS _).1] at h' ⊢
      exact h'
    · rw [he', he, Finset.sum_range_succ, sum4_eq (hS _).2, h2]
      have hI : ∑ q ∈ Finset.Ico (i + 1) N, U i q = ∑ k ∈ Finset.range N, if i < k then U i k else 0 := by
        rw [← Finset.sum_filter]
        refine Finset.sum_congr ?_ fun _ _ => rfl
        ext q; simp; omega
      simp only [T, hI, dif_pos hi, Mandel.vmul_get, (hB i hi).2]
      ring)
  unfold energySimd
  rw [h, he, energy_eq, Finset.sum_range]
  congr 1
  refine Finset.sum_congr rfl fun i _ => ?_
  simp only [T, U]
  rw [dif_pos i.isLt, Finset.sum_range, Fin.sum_univ_three]
  congr 1
  refine Finset.sum_congr rfl fun j _ => ?_
  rw [d2_dist2 B hB i j, ← pm_eq B i.isLt, ← pm_eq B j.isLt]
  simp [sysOf]

/-! ### Offset -/

theorem offsetScalar_eq (F : Fns K) (h0 : F.lit 0 = 0) (L : List (Body K 3)) (h : L.length = N + 1)
    (hv : ∀ c (hc : c < 3), L[0].v[c] = 0) (hm : L[0].mass = solarMass F) :
    ∃ L' h', offsetScalar F L = .ok L' ∧ sysOf (Nat.le_refl 3) L' h' = (sysOf (Nat.le_refl 3) L h).centred := by
  match L, h with
  | sun :: rest, h =>
  have h' : rest.length = N := by simpa using h
  have fold : ∀ (M : List (Body K 3)) (p : Vector K 3) c (hc : c < 3),
      (M.foldl (fun p bi => Vector.zipWith (fun p v => p + v * bi.mass) p bi.v) p)[c] = p[c] + (M.map fun b => b.v[c] * b.mass).sum := by
    intro M
    induction M with
    | nil => intro p c hc; simp
    | cons b M ih => intro p c hc; rw [List.foldl_cons, ih, List.map_cons, List.sum_cons, Vector.getElem_zipWith]; ring
  have fold := fold (sun :: rest) (Vector.replicate 3 (F.lit 0))
  unfold offsetScalar
  dsimp only
  generalize List.foldl _ _ (sun :: rest) = p at fold
  refine ⟨_, ?_, rfl, ?_⟩
  · simpa using h
  · refine Sys.ext' (fun i c => ?_) (fun i c => ?_) (fun i => ?_)
    · refine Fin.cases ?_ (fun i => ?_) i <;> rfl
    · refine Fin.cases ?_ (fun i => ?_) i
      · show (p.map fun p => -p / solarMass F)[c.val] = _
        rw [Vector.getElem_map, fold, List.map_cons, List.sum_cons]
        have hv0 : sun.v[c.val] = 0 := hv c c.isLt
        have e : ∑ j ∈ Finset.univ.erase (0 : Fin (N + 1)), (sysOf (Nat.le_refl 3) (sun :: rest) h).mass j * (sysOf (Nat.le_refl 3) (sun :: rest) h).vel j c
            = (rest.map fun b => b.v[c.val] * b.mass).sum := by
          rw [sum_erase_of_zero 0 _ (by
            show sun.mass * sun.v[c.val] = 0
            rw [hv0, mul_zero]), Fin.sum_univ_succ, list_sum_eq rest h']
          show sun.mass * sun.v[c.val] + _ = _
          rw [hv0, mul_zero, zero_add]
          exact Finset.sum_congr rfl fun j _ => mul_comm _ _
        simp only [Sys.centred, if_true]
        rw [e, hv0, ← hm]
        simp [h0, sysOf]
      · rfl
    · refine Fin.cases ?_ (fun i => ?_) i <;> rfl

theorem offsetSimd_eq (F : Fns K) (B : Vector (Body K 4) (N + 1)) (hB : Padded B)
    (hv : ∀ c (hc : c < 3), B[0].v[c] = 0) (hm : B[0].mass = solarMass F) :
    ∃ B', offsetSimd F B = .ok B' ∧ Padded B' ∧
      sysOf (by omega) B'.toList (by simp) = (sysOf (by omega) B.toList (by simp : B.toList.length = N + 1)).centred := by
  let W : Nat → Nat → K := fun c i => if h : i < N + 1 ∧ c < 4 then (B[i]'h.1).mass * (B[i]'h.1).v[c]'h.2 else 0
  obtain ⟨v, h, hv'⟩ := forRange_inv (fun i (v : Vec K 4) => ∀ c (hc : c < 4), v[c] = B[0].v[c] - (∑ q ∈ Finset.Ico 1 i, W c q) / solarMass F)
    (fun (v : Vec K 4) i => do
    let body ← aget B i
    let m_ratio := body.mass / solarMass F
    return v - body.v * splat 4 m_ratio) (lo := 1) (hi := N + 1) (init := B[0].v) (by omega) (by simp) (by
    intro i v h1 hi ih
    rw [aget_lt _ hi]
    refine ⟨_, rfl, fun c hc => ?_⟩
    rw [Mandel.vsub_get, Mandel.vmul_get, Mandel.splat_get, ih c hc, Finset.sum_Ico_succ_top h1]
    simp only [W, dif_pos (show i < N + 1 ∧ c < 4 from ⟨hi, hc⟩)]
    ring)
  refine ⟨B.set 0 { B[0] with v }, ?_, ?_, ?_⟩
  · unfold offsetSimd
    rw [aget_lt _ (Nat.succ_pos N)]
    simp only [R_ok_bind]
    rw [h]
    simp only [R_ok_bind]
    rw [aset_lt _ _ (Nat.succ_pos N)]
  · intro b hb
    have v3 : v[3] = 0 := by
      rw [hv' 3 (by omega), (hB 0 (by omega)).2, Finset.sum_eq_zero]
      · simp
      · intro q hq
        have := Finset.mem_Ico.1 hq
        simp only [W, dif_pos (show q < N + 1 ∧ 3 < 4 by omega), (hB q this.2).2, mul_zero]
    suffices H : ∀ y : Body K 4, y = (if 0 = b then { B[0] with v } else B[b]) → y.x[3] = 0 ∧ y.v[3] = 0 from H _ (by rw [Vector.getElem_set])
    intro y hy
    by_cases c : 0 = b
    · rw [if_pos c] at hy; subst hy; exact ⟨(hB 0 (by omega)).1, v3⟩
    · rw [if_neg c] at hy; subst hy; exact hB b hb
  · have other : ∀ i : Fin N, (B.set 0 { B[0] with v }).toList[i.succ] = B.toList[i.succ] := by
      intro i; simp
    have first : (B.set 0 { B[0] with v }).toList[(0 : Fin (N + 1))] = { B[0] with v } := by simp
    refine Sys.ext' (fun i c => ?_) (fun i c => ?_) (fun i => ?_)
    · refine Fin.cases ?_ (fun i => ?_) i
      · show ((B.set 0 { B[0] with v }).toList[(0 : Fin (N + 1))]).x[c.val] = _
        rw [first]; rfl
      · show ((B.set 0 { B[0] with v }).toList[i.succ]).x[c.val] = _
        rw [other]; rfl
    · refine Fin.cases ?_ (fun i => ?_) i
      · show ((B.set 0 { B[0] with v }).toList[(0 : Fin (N + 1))]).v[c.val] = _
        rw [first]
        show v[c.val] = _
        rw [hv' c (by omega), hv c c.isLt, ← hm]
        simp only [Sys.centred, if_true]
        have e : ∑ j ∈ Finset.univ.erase (0 : Fin (N + 1)), (sysOf (by omega : 3 ≤ 4) B.toList (by simp : B.toList.length = N + 1)).mass j *
            (sysOf (by omega : 3 ≤ 4) B.toList (by simp : B.toList.length = N + 1)).vel j c = ∑ q ∈ Finset.Ico 1 (N + 1), W c q := by
          have z : (sysOf (by omega : 3 ≤ 4) B.toList (by simp : B.toList.length = N + 1)).mass 0 *
            (sysOf (by omega : 3 ≤ 4) B.toList (by simp : B.toList.length = N + 1)).vel 0 c = 0 := by
            have : (sysOf (by omega : 3 ≤ 4) B.toList (by simp : B.toList.length = N + 1)).vel 0 c = 0 := by simpa [sysOf] using hv c c.isLt
            rw [this, mul_zero]
          rw [sum_erase_of_zero 0 _ z, Fin.sum_univ_succ, z, zero_add, Finset.sum_Ico_eq_sum_range, Finset.sum_range]
          refine Finset.sum_congr rfl fun j _ => ?_
          simp only [W, dif_pos (show 1 + j.val < N + 1 ∧ c.val < 4 by omega)]
          simp [sysOf, Nat.add_comm 1]
        rw [e]
        simp [sysOf, neg_div]
      · show ((B.set 0 { B[0] with v }).toList[i.succ]).v[c.val] = _
        rw [other]; rfl
    · refine Fin.cases ?_ (fun i => ?_) i
      · show ((B.set 0 { B[0] with v }).toList[(0 : Fin (N + 1))]).mass = _
        rw [first]; rfl
      · show ((B.set 0 { B[0] with v }).toList[i.succ]).mass = _
        rw [other]; rfl

/-! ### Runs -/

theorem repeat_sys (F : Fns K) (dt : K) (L : List (Body K 3)) (h : L.length = N) : ∀ n,
    ∃ h', sysOf (Nat.le_refl 3) (Nat.repeat (advanceScalar F dt) n L) h' = (sysOf (Nat.le_refl 3) L h).after F.sqrt dt n
  | 0 => ⟨h, rfl⟩
  | n + 1 => by
    obtain ⟨h', e⟩ := repeat_sys F dt L h n
    obtain ⟨h'', e'⟩ := advanceScalar_sys F dt _ h'
    exact ⟨h'', by rw [Sys.after, ← e, ← e']; rfl⟩

theorem steps_sys (F : Fns K) (hF : ∀ x, F.sqrte x = F.sqrt x) (t : Target) (dt : K) (hN : nPairs N % 2 = 0) : ∀ n (B : Vector (Body K 4) N),
    Padded B → ∃ B', steps (advanceSimd F t dt) n B = .ok B' ∧ Padded B' ∧
      sysOf (by omega) B'.toList (by simp) = (sysOf (by omega) B.toList (by simp : B.toList.length = N)).after F.sqrt dt n
  | 0, B, hB => ⟨B, rfl, hB, rfl⟩
  | n + 1, B, hB => by
    obtain ⟨B1, h1, p1, e1⟩ := advanceSimd_exact F hF t dt hN B hB
    obtain ⟨B2, h2, p2, e2⟩ := steps_sys F hF t dt hN n B1 p1
    exact ⟨B2, by rw [steps, h1]; exact h2, p2, by rw [e2, e1, Sys.after_step]⟩

end PackedSimd.Ex.Nbody
