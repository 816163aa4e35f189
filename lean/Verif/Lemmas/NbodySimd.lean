import Verif.Lemmas.Nbody
/-
The SIMD nbody program in exact arithmetic.
-/
namespace PackedSimd.Ex.Nbody
open Spec
variable {K : Type} [Field K] {N : Nat}

theorem sum4_eq {v : Vec K 4} {s : K} (h : SumOf (· + ·) 0 v.toList s) : s = v[0] + v[1] + v[2] + v[3] := by
  rw [PackedSimd.SumOf.eq_sum h]
  obtain ⟨⟨l⟩, hl⟩ := v
  match l, hl with
  | [a, b, c, d], _ => simp; ring

/-- Position, mass as total functions. -/
def px (B : Vector (Body K 4) N) (j c : Nat) : K := if h : j < N ∧ c < 4 then (B[j]'h.1).x[c]'h.2 else 0
@[inherit_doc px] def pm (B : Vector (Body K 4) N) (j : Nat) : K := if h : j < N then B[j].mass else 0

theorem px_eq (B : Vector (Body K 4) N) {j c : Nat} (hj : j < N) (hc : c < 4) : B[j].x[c] = px B j c := by simp [px, hj, hc]
theorem pm_eq (B : Vector (Body K 4) N) {j : Nat} (hj : j < N) : B[j].mass = pm B j := by simp [pm, hj]

/-- The square of the distance, on all four lanes. -/
def d2 (B : Vector (Body K 4) N) (j k : Nat) : K :=
  (px B j 0 - px B k 0) ^ 2 + (px B j 1 - px B k 1) ^ 2 + (px B j 2 - px B k 2) ^ 2 + (px B j 3 - px B k 3) ^ 2

/-- The force between two bodies. -/
def G (F : Fns K) (dt : K) (B : Vector (Body K 4) N) (c j k : Nat) : K := (px B j c - px B k c) * (dt / (d2 B j k * F.sqrt (d2 B j k)))

theorem d2_comm (B : Vector (Body K 4) N) (j k : Nat) : d2 B j k = d2 B k j := by unfold d2; ring
theorem G_neg (F : Fns K) (dt : K) (B : Vector (Body K 4) N) (c j k : Nat) : G F dt B c j k = -G F dt B c k j := by
  unfold G; rw [d2_comm]; ring

/-- What one turn of the loop takes off the velocity of `b`. -/
def con (F : Fns K) (dt : K) (B : Vector (Body K 4) N) (c b : Nat) (p : Nat × Nat) : K :=
  (if b = p.1 then G F dt B c b p.2 * pm B p.2 else 0) + (if b = p.2 then G F dt B c b p.1 * pm B p.1 else 0)

theorem sum_range' {M : Type} [AddCommMonoid M] (f : Nat → M) (j : Nat) :
    ((List.range' (j + 1) (N - (j + 1))).map f).sum = ∑ k ∈ Finset.range N, if j < k then f k else 0 := by
  rw [List.range'_eq_map_range, List.map_map, sum_map_range, ← Finset.sum_filter]
  refine Finset.sum_bij (fun i _ => j + 1 + i) ?_ ?_ ?_ ?_
  · intro i hi; simp at hi ⊢; omega
  · intro a _ b _ h; omega
  · intro b hb; simp at hb; exact ⟨b - (j + 1), by simp; omega, by omega⟩
  · intro i _; rfl

theorem sum_flatMap' {M β : Type} [AddCommMonoid M] (g : β → List M) : ∀ L : List β, (L.flatMap g).sum = (L.map fun a => (g a).sum).sum
  | [] => rfl
  | a :: L => by rw [List.flatMap_cons, List.sum_append, List.map_cons, List.sum_cons, sum_flatMap' g L]

theorem sum_pairs {M : Type} [AddCommMonoid M] (f : Nat × Nat → M) :
    ((pairs N).map f).sum = ∑ j ∈ Finset.range N, ∑ k ∈ Finset.range N, if j < k then f (j, k) else 0 := by
  unfold pairs
  rw [List.map_flatMap, sum_flatMap', sum_map_range]
  refine Finset.sum_congr rfl fun j _ => ?_
  rw [List.map_map, sum_range']
  rfl

theorem sum_con (F : Fns K) (dt : K) (B : Vector (Body K 4) N) (c b : Nat) (hb : b < N) :
    ((pairs N).map (con F dt B c b)).sum = ∑ k ∈ Finset.range N, G F dt B c b k * pm B k := by
  have self : G F dt B c b b = 0 := by simp [G]
  rw [sum_pairs]
  have e : ∀ j k, (if j < k then con F dt B c b (j, k) else 0) =
      (if b = j then (if b < k then G F dt B c b k * pm B k else 0) else 0) +
      (if b = k then (if j < b then G F dt B c b j * pm B j else 0) else 0) := by
    intro j k
    unfold con
    by_cases h1 : b = j <;> by_cases h2 : b = k <;> by_cases h3 : j < k <;> simp [h1, h2, h3] <;> (intros; omega) 
  simp only [e, Finset.sum_add_distrib]
  rw [Finset.sum_comm]
  simp only [Finset.sum_ite_eq, Finset.mem_range, hb, if_true]
  rw [← Finset.sum_add_distrib]
  refine Finset.sum_congr rfl fun k _ => ?_
  rcases lt_trichotomy b k with h | h | h
  · simp [h, Nat.not_lt.2 (Nat.le_of_lt h)]
  · subst h; simp [self]
  · simp [h, Nat.not_lt.2 (Nat.le_of_lt h)]

theorem kicks_exact (F : Fns K) (dt : K) (B : Vector (Body K 4) N) (r : Vector (Vec K 4) (nPairs N)) (mag : Vector K (nPairs N))
    (hG : ∀ q (h : q < nPairs N) (h' : q < (pairs N).length) c (hc : c < 4), r[q][c] * mag[q] = G F dt B c (pairs N)[q].1 (pairs N)[q].2) :
    ∃ B', kicks B r mag = .ok B' ∧ ∀ b (hb : b < N), B'[b].x = B[b].x ∧ B'[b].mass = B[b].mass ∧ ∀ c (hc : c < 4),
      B'[b].v[c] = B[b].v[c] - ∑ k ∈ Finset.range N, G F dt B c b k * pm B k := by
  obtain ⟨s, e, hs⟩ := forPairs_inv (N := N) (fun i (s : Vector (Body K 4) N) => ∀ b (hb : b < N), s[b].x = B[b].x ∧ s[b].mass = B[b].mass ∧
      ∀ c (hc : c < 4), s[b].v[c] = B[b].v[c] - (((pairs N).take i).map (con F dt B c b)).sum) (kick r mag) B
    (fun b hb => ⟨rfl, rfl, fun c hc => by simp⟩) (by
    intro i h s hs
    have hp := pair_lt h
    have hi : i < nPairs N := by rw [← length_pairs]; exact h
    refine ⟨_, kick_body s r mag hi hp.1 hp.2.1 (by omega), fun b hb => ?_⟩
    have hG := fun c hc => hG i hi h c hc
    generalize hjk : (pairs N)[i] = p at hp hG
    obtain ⟨j, k⟩ := p
    simp only at hp hG
    have hsum : ∀ c, (((pairs N).take (i + 1)).map (con F dt B c b)).sum = (((pairs N).take i).map (con F dt B c b)).sum + con F dt B c b (j, k) := by
      intro c
      rw [← List.take_append_getElem h, List.map_append, List.sum_append, hjk]; simp
    simp only [hsum, hjk]
    obtain ⟨x1, x2, x3⟩ := hs b hb
    have mj : s[j].mass = pm B j := by rw [(hs j hp.1).2.1, pm_eq]
    have mk : s[k].mass = pm B k := by rw [(hs k hp.2.1).2.1, pm_eq]
    suffices H : ∀ y : Body K 4, y = (if k = b then { s[k] with v := s[k].v + r[i] * splat 4 mag[i] * splat 4 s[j].mass } else
        if j = b then { s[j] with v := s[j].v - r[i] * splat 4 mag[i] * splat 4 s[k].mass } else s[b]) →
        y.x = B[b].x ∧ y.mass = B[b].mass ∧ ∀ c (hc : c < 4), y.v[c] = B[b].v[c] - ((((pairs N).take i).map (con F dt B c b)).sum + con F dt B c b (j, k)) from
      H _ (by simp only [Vector.getElem_set])
    intro y hy
    by_cases hk : k = b
    · subst hk
      rw [if_pos rfl] at hy
      subst hy
      refine ⟨x1, x2, fun c hc => ?_⟩
      simp only [Mandel.vadd_get, Mandel.vmul_get, Mandel.splat_get]
      rw [x3 c hc, hG c hc, mj, con, if_neg (by simp; omega), if_pos rfl, G_neg F dt B c j k]
      ring
    · rw [if_neg hk] at hy
      by_cases hj : j = b
      · subst hj
        rw [if_pos rfl] at hy
        subst hy
        refine ⟨x1, x2, fun c hc => ?_⟩
        simp only [Mandel.vsub_get, Mandel.vmul_get, Mandel.splat_get]
        rw [x3 c hc, hG c hc, mk, con, if_pos rfl, if_neg (by simp; omega)]
        ring
      · rw [if_neg hj] at hy
        subst hy
        refine ⟨x1, x2, fun c hc => ?_⟩
        rw [x3 c hc, con, if_neg (by simp; omega), if_neg (by simp; omega)]
        ring)
  refine ⟨s, by unfold kicks; rw [e]; rfl, fun b hb => ?_⟩
  obtain ⟨x1, x2, x3⟩ := hs b hb
  refine ⟨x1, x2, fun c hc => ?_⟩
  rw [x3 c hc, List.take_length, sum_con _ _ _ _ _ hb]

/-- The padding lanes are zero. -/
def Padded (B : Vector (Body K 4) N) : Prop := ∀ b (hb : b < N), B[b].x[3] = 0 ∧ B[b].v[3] = 0

theorem d2_dist2 (B : Vector (Body K 4) N) (hB : Padded B) (i j : Fin N) :
    d2 B i j = (sysOf (by omega : 3 ≤ 4) B.toList (by simp : B.toList.length = N)).dist2 i j := by
  unfold d2 Sys.dist2
  rw [← px_eq B i.isLt (by omega : 3 < 4), ← px_eq B j.isLt (by omega : 3 < 4), (hB i i.isLt).1, (hB j j.isLt).1, Fin.sum_univ_three]
  simp [sysOf, ← px_eq]

theorem advanceSimd_exact (F : Fns K) (hF : ∀ x, F.sqrte x = F.sqrt x) (t : Target) (dt : K) (hN : nPairs N % 2 = 0) (B : Vector (Body K 4) N)
    (hB : Padded B) : ∃ B', advanceSimd F t dt B = .ok B' ∧ Padded B' ∧
      sysOf (by omega) B'.toList (by simp) = (sysOf (by omega) B.toList (by simp : B.toList.length = N)).step F.sqrt dt := by
  obtain ⟨S, hS⟩ := sum4_fn (α := K) t
  obtain ⟨r, hr, hr'⟩ := diffs_ok F B
  obtain ⟨m, hm, hm'⟩ := mags_ok F t S (fun v => (hS v).1) dt hN r
  obtain ⟨B', hk, hB'⟩ := kicks_exact F dt B r m (by
    intro q h h' c hc
    have e : S (r[q] * r[q]) = d2 B (pairs N)[q].1 (pairs N)[q].2 := by
      rw [sum4_eq (hS (r[q] * r[q])).2, hr' q h h']
      simp only [Mandel.vmul_get, Mandel.vsub_get, px_eq, d2]
      ring
    rw [hm', e, hF, hr' q h h']
    simp only [Mandel.vsub_get, px_eq, G])
  refine ⟨_, by unfold advanceSimd; rw [hr]; simp only [R_ok_bind]; rw [hm]; simp only [R_ok_bind]; rw [hk]; rfl, ?_, ?_⟩
  · intro b hb
    obtain ⟨x1, x2, x3⟩ := hB' b hb
    have v3 : B'[b].v[3] = 0 := by
      rw [x3 3 (by omega), (hB b hb).2, Finset.sum_eq_zero, sub_zero]
      intro k hk
      have hk := Finset.mem_range.1 hk
      simp [G, ← px_eq B hb (by omega : 3 < 4), ← px_eq B hk (by omega : 3 < 4), (hB b hb).1, (hB k hk).1]
    simp only [Vector.getElem_map, Mandel.vadd_get, Mandel.vmul_get, Mandel.splat_get, x1, (hB b hb).1, v3]
    simp
  · have vel : ∀ (i : Fin N) (c : Fin 3), B'[i].v[c.val] = (sysOf (by omega) B.toList (by simp : B.toList.length = N)).vel i c +
        dt * (sysOf (by omega) B.toList (by simp : B.toList.length = N)).accel F.sqrt i c := by
      intro i c
      obtain ⟨x1, x2, x3⟩ := hB' i i.isLt
      rw [Fin.getElem_fin, x3 c (by omega), Finset.sum_range]
      unfold Sys.accel
      rw [sum_erase_of_zero i _ (by simp), sub_eq_add_neg, ← Finset.sum_neg_distrib, Finset.mul_sum]
      congr 1
      refine Finset.sum_congr rfl fun k _ => ?_
      rw [G, d2_dist2 B hB i k, ← px_eq B i.isLt (by omega), ← px_eq B k.isLt (by omega), ← pm_eq B k.isLt]
      simp only [sysOf, Fin.getElem_fin, Vector.getElem_toList]
      ring
    refine Sys.ext' (fun i c => ?_) (fun i c => ?_) (fun i => ?_)
    · simp only [Sys.step]
      rw [← vel]
      simp [sysOf, Mandel.vadd_get, Mandel.vmul_get, Mandel.splat_get, (hB' i i.isLt).1]
    · simp only [Sys.step]
      rw [← vel]
      simp [sysOf]
    · simp [sysOf, Sys.step, (hB' i i.isLt).2.1]

end PackedSimd.Ex.Nbody
