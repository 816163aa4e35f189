import Verif.Spec.Nbody
import Verif.Lemmas.Mandelbrot
import Verif.Lemmas.Triangle
import Verif.Lemmas.Sums
import Mathlib.Tactic.Ring
import Mathlib.Tactic.FieldSimp
import Mathlib.Algebra.BigOperators.Fin
import Mathlib.Algebra.BigOperators.Intervals
import Mathlib.Algebra.BigOperators.Group.Finset.Piecewise
import Mathlib.Algebra.BigOperators.Ring.Finset
import Mathlib.Data.Rat.Cast.CharZero
/-
Lemmas on the nbody programs.
-/
namespace PackedSimd.Ex.Nbody
open Spec
variable {K : Type} [Field K] {N : Nat}

theorem square_eq (d : Vector K 3) : square d = d[0] ^ 2 + d[1] ^ 2 + d[2] ^ 2 := by
  obtain ⟨⟨l⟩, h⟩ := d
  match l, h with
  | [a, b, c], _ => simp [square]; ring

/-! ### The scalar step -/

/-- The change of velocity of `b` along `c` due to `b'`. -/
def pull (F : Fns K) (dt : K) (b b' : Body K 3) : Vector K 3 :=
  let dx := Vector.zipWith (· - ·) b.x b'.x
  dx.map fun d => d * (b'.mass * (dt / (square dx * F.sqrt (square dx))))

theorem pull_get (F : Fns K) (dt : K) (b b' : Body K 3) (c : Nat) (hc : c < 3) :
    (pull F dt b b')[c] = (b.x[c] - b'.x[c]) * (b'.mass * (dt / (square (Vector.zipWith (· - ·) b.x b'.x) *
      F.sqrt (square (Vector.zipWith (· - ·) b.x b'.x))))) := by
  simp [pull]

theorem square_comm (a b : Vector K 3) : square (Vector.zipWith (· - ·) a b) = square (Vector.zipWith (· - ·) b a) := by
  simp only [square_eq, Vector.getElem_zipWith]; ring

/-- `b` with the velocity changed by all of `L`. -/
def pulled (F : Fns K) (dt : K) (L : List (Body K 3)) (b : Body K 3) : Body K 3 :=
  { b with v := Vector.ofFn fun c => b.v[c] - (L.map fun b' => (pull F dt b b')[c]).sum }

theorem Body.ext' {k : Nat} {a b : Body K k} (hx : a.x = b.x) (hv : ∀ c (h : c < k), a.v[c] = b.v[c]) (hm : a.mass = b.mass) : a = b := by
  cases a; cases b
  simp only at hx hm hv
  subst hx hm
  congr
  exact Vector.ext fun i hi => hv i hi

theorem pairScalar_eq (F : Fns K) (dt : K) (a b : Body K 3) : pairScalar F dt a b = (pulled F dt [b] a, pulled F dt [a] b) := by
  unfold pairScalar
  refine Prod.ext (Body.ext' rfl (fun c hc => ?_) rfl) (Body.ext' rfl (fun c hc => ?_) rfl)
  · simp [pulled, pull_get]
  · simp only [pulled, Vector.getElem_zipWith, Vector.getElem_ofFn, List.map_cons, List.map_nil, List.sum_cons, List.sum_nil,
      Fin.getElem_fin, pull_get, square_comm b.x a.x]
    ring

theorem pulled_append (F : Fns K) (dt : K) (L M : List (Body K 3)) (b : Body K 3) :
    pulled F dt M (pulled F dt L b) = pulled F dt (L ++ M) b := by
  refine Body.ext' rfl (fun c hc => ?_) rfl
  have e : ∀ b', pull F dt (pulled F dt L b) b' = pull F dt b b' := fun b' => rfl
  simp only [pulled, Vector.getElem_ofFn, Fin.getElem_fin, List.map_append, List.sum_append]
  simp only [pull_get]
  ring

/-- Only positions and masses of the pulling bodies matter. -/
theorem pulled_map (F : Fns K) (dt : K) (f : Body K 3 → Body K 3) (hx : ∀ b, (f b).x = b.x) (hm : ∀ b, (f b).mass = b.mass)
    (L : List (Body K 3)) (b : Body K 3) : pulled F dt (L.map f) b = pulled F dt L b := by
  unfold pulled
  simp only [List.map_map]
  congr; funext c
  congr 2
  refine List.map_congr_left fun b' _ => ?_
  simp only [Function.comp, Fin.getElem_fin, pull_get, hx, hm]

theorem pull_self (F : Fns K) (dt : K) (b : Body K 3) (c : Nat) (hc : c < 3) : (pull F dt b b)[c] = 0 := by
  rw [pull_get]; simp

theorem turn_eq (F : Fns K) (dt : K) : ∀ (rest : List (Body K 3)) (b : Body K 3),
    turn F dt b rest = (pulled F dt rest b, rest.map (pulled F dt [b]))
  | [], b => by
    refine Prod.ext (Body.ext' rfl (fun c hc => ?_) rfl) rfl
    simp [turn, pulled]
  | a :: rest, b => by
    simp only [turn, pairScalar_eq, turn_eq F dt rest, List.map_cons]
    refine Prod.ext (by simp only [pulled_append, List.cons_append, List.nil_append]) ?_
    simp only
    congr 1

/-- A body after moving. -/
def moved (dt : K) (b : Body K 3) : Body K 3 := { b with x := Vector.zipWith (fun x v => x + dt * v) b.x b.v }

theorem turns_eq (F : Fns K) (dt : K) : ∀ (k : Nat) (L : List (Body K 3)), L.length = k →
    turns F dt k L = L.map fun b => moved dt (pulled F dt L b)
  | 0, [], _ => rfl
  | k + 1, b :: rest, h => by
    have h' : rest.length = k := by simpa using h
    simp only [turns, turn_eq]
    rw [turns_eq F dt k _ (by simpa using h'), List.map_map, List.map_cons]
    have self : pulled F dt (b :: rest) b = pulled F dt rest b := by
      refine Body.ext' rfl (fun c hc => ?_) rfl
      simp [pulled, pull_self]
    rw [self]
    congr 1
    refine List.map_congr_left fun x _ => ?_
    simp only [Function.comp]
    rw [pulled_map F dt (pulled F dt [b]) (fun _ => rfl) (fun _ => rfl), pulled_append]
    rfl

theorem advanceScalar_eq (F : Fns K) (dt : K) (L : List (Body K 3)) :
    advanceScalar F dt L = L.map fun b => moved dt (pulled F dt L b) := turns_eq F dt _ L rfl

theorem list_sum_eq {M : Type} [AddCommMonoid M] {β : Type} (L : List β) (h : L.length = N) (f : β → M) :
    (L.map f).sum = ∑ i : Fin N, f L[i] := by
  subst h
  rw [← List.sum_ofFn]
  congr 1
  refine List.ext_getElem (by simp) fun i h1 h2 => by simp

theorem sum_erase_of_zero {M : Type} [AddCommGroup M] (i : Fin N) (f : Fin N → M) (h : f i = 0) :
    ∑ j ∈ Finset.univ.erase i, f j = ∑ j, f j := by
  rw [← Finset.add_sum_erase _ _ (Finset.mem_univ i), h, zero_add]

theorem square_dist2 (L : List (Body K 3)) (h : L.length = N) (i j : Fin N) :
    square (Vector.zipWith (· - ·) L[i].x L[j].x) = (sysOf (Nat.le_refl 3) L h).dist2 i j := by
  simp [square_eq, Sys.dist2, sysOf, Fin.sum_univ_three]

theorem pulled_get (F : Fns K) (dt : K) (L : List (Body K 3)) (h : L.length = N) (i : Fin N) (c : Fin 3) :
    (pulled F dt L L[i]).v[c.val] = (sysOf (Nat.le_refl 3) L h).vel i c + dt * (sysOf (Nat.le_refl 3) L h).accel F.sqrt i c := by
  unfold Sys.accel
  rw [sum_erase_of_zero i _ (by simp)]
  simp only [pulled, Vector.getElem_ofFn, Fin.getElem_fin]
  rw [list_sum_eq L h, sub_eq_add_neg, ← Finset.sum_neg_distrib, Finset.mul_sum]
  congr 1
  refine Finset.sum_congr rfl fun j _ => ?_
  have := square_dist2 L h i j
  simp only [Fin.getElem_fin] at this
  rw [Fin.getElem_fin, pull_get, this]
  simp only [sysOf, Fin.getElem_fin]
  ring

theorem Sys.ext' {s s' : Sys K N} (hp : ∀ i c, s.pos i c = s'.pos i c) (hv : ∀ i c, s.vel i c = s'.vel i c) (hm : ∀ i, s.mass i = s'.mass i) :
    s = s' := by
  cases s; cases s'
  simp only at hp hv hm
  congr
  · funext i c; exact hp i c
  · funext i c; exact hv i c
  · funext i; exact hm i

theorem advanceScalar_sys (F : Fns K) (dt : K) (L : List (Body K 3)) (h : L.length = N) :
    ∃ h', sysOf (Nat.le_refl 3) (advanceScalar F dt L) h' = (sysOf (Nat.le_refl 3) L h).step F.sqrt dt := by
  have h' : (advanceScalar F dt L).length = N := by rw [advanceScalar_eq]; simpa using h
  refine ⟨h', ?_⟩
  have key : ∀ i : Fin N, (advanceScalar F dt L)[i] = moved dt (pulled F dt L L[i]) := fun i => by
    simp [advanceScalar_eq]
  refine Sys.ext' (fun i c => ?_) (fun i c => ?_) (fun i => ?_)
  · show (advanceScalar F dt L)[i].x[c.val] = _
    simp only [Sys.step]
    rw [key, ← pulled_get F dt L h i c]
    simp [moved, pulled, sysOf]
  · show (advanceScalar F dt L)[i].v[c.val] = _
    simp only [Sys.step]
    rw [key, ← pulled_get F dt L h i c]
    simp [moved]
  · show (advanceScalar F dt L)[i].mass = _
    rw [key]; rfl

/-! ### The nested loop over pairs -/

/-- The pairs in the order of the loop. -/
def pairs (N : Nat) : List (Nat × Nat) := (List.range N).flatMap fun j => (List.range' (j + 1) (N - (j + 1))).map (j, ·)

theorem mem_pairs {p : Nat × Nat} : p ∈ pairs N ↔ p.1 < p.2 ∧ p.2 < N := by
  obtain ⟨j, k⟩ := p
  simp only [pairs, List.mem_flatMap, List.mem_range, List.mem_map, List.mem_range'_1, Prod.mk.injEq]
  constructor
  · rintro ⟨a, ha, b, hb, rfl, rfl⟩; omega
  · rintro ⟨h1, h2⟩; exact ⟨j, by omega, k, by omega, rfl, rfl⟩

theorem sum_map_range {M : Type} [AddCommMonoid M] (f : Nat → M) (n : Nat) : ((List.range n).map f).sum = ∑ i ∈ Finset.range n, f i := by
  induction n with
  | zero => simp
  | succ n ih => simp [List.range_succ, Finset.sum_range_succ, ih]

theorem length_pairs : (pairs N).length = nPairs N := by
  unfold pairs nPairs
  rw [List.length_flatMap]
  simp only [List.length_map, List.length_range']
  rw [sum_map_range, ← Finset.sum_range_id, ← Finset.sum_range_reflect]
  exact Finset.sum_congr rfl fun j hj => by have := Finset.mem_range.1 hj; omega

theorem foldlM_flatMap' {σ β γ : Type} (f : σ → γ → R σ) (g : β → List γ) : ∀ (L : List β) (s : σ),
    (L.flatMap g).foldlM f s = L.foldlM (fun s a => (g a).foldlM f s) s
  | [], _ => rfl
  | a :: L, s => by
    rw [List.flatMap_cons, List.foldlM_append, List.foldlM_cons]
    congr 1; funext s'
    exact foldlM_flatMap' f g L s'

theorem foldlM_counted {σ β : Type} (P : Nat → σ → Prop) (f : σ → Nat → β → R σ) : ∀ (L pre : List β) (s : σ), P pre.length s →
    (∀ i (h : i < (pre ++ L).length) s, P i s → ∃ s', f s i (pre ++ L)[i] = .ok s' ∧ P (i + 1) s') →
    ∃ s', L.foldlM (fun (s : σ × Nat) p => do return (← f s.1 s.2 p, s.2 + 1)) (s, pre.length) = .ok (s', (pre ++ L).length) ∧ P (pre ++ L).length s'
  | [], pre, s, h0, _ => ⟨s, by simp; rfl, by simpa using h0⟩
  | a :: L, pre, s, h0, hstep => by
    obtain ⟨s', e, h'⟩ := hstep pre.length (by simp) s h0
    obtain ⟨s'', e', h''⟩ := foldlM_counted P f L (pre ++ [a]) s' (by simpa using h') (by
      simpa only [List.append_assoc, List.cons_append, List.nil_append] using hstep)
    refine ⟨s'', ?_, by simpa using h''⟩
    rw [List.foldlM_cons]
    simp only [List.getElem_append_right (Nat.le_refl _), Nat.sub_self, List.getElem_cons_zero] at e
    simp only [e, R_ok_bind]
    simp only [List.length_append, List.length_cons, List.length_nil, List.append_assoc, List.cons_append, List.nil_append] at e' ⊢
    exact e'

theorem forPairs_inv {σ : Type} (P : Nat → σ → Prop) (body : σ → Nat → Nat → Nat → R σ) (init : σ) (h0 : P 0 init)
    (hstep : ∀ i (h : i < (pairs N).length) s, P i s → ∃ s', body s i (pairs N)[i].1 (pairs N)[i].2 = .ok s' ∧ P (i + 1) s') :
    ∃ s, forPairs N body init = .ok (s, (pairs N).length) ∧ P (pairs N).length s := by
  obtain ⟨s', e, h⟩ := foldlM_counted P (fun s i p => body s i p.1 p.2) (pairs N) [] init h0 (by simpa using hstep)
  refine ⟨s', ?_, by simpa using h⟩
  rw [List.length_nil] at e
  simp only [List.nil_append] at e
  rw [← e]
  unfold forPairs pairs forRange
  rw [foldlM_flatMap', Nat.sub_zero, ← List.range_eq_range']
  congr 1; funext s j
  rw [List.foldlM_map]

/-! ### The SIMD step never stops -/

section
variable {α : Type} [Zero α] [Add α] [Sub α] [Mul α] [Div α]

/-- `sum` as a function. -/
theorem sum4_fn (t : Target) : ∃ S : Vec α 4 → α, ∀ v, sum4 t v = .ok (S v) ∧ SumOf (· + ·) 0 v.toList (S v) := by
  have := fun v : Vec α 4 => vsum_vec (t := t) (A := ⟨0, (· + ·), (· * ·)⟩) v
  choose S hS using this
  exact ⟨S, hS⟩

theorem pair_lt {i : Nat} (h : i < (pairs N).length) : (pairs N)[i].1 < N ∧ (pairs N)[i].2 < N ∧ (pairs N)[i].1 < (pairs N)[i].2 := by
  have := mem_pairs.1 (List.getElem_mem h); omega

theorem diffs_ok (F : Fns α) (B : Vector (Body α 4) N) : ∃ r, diffs F B = .ok r ∧ ∀ q (h : q < nPairs N) (h' : q < (pairs N).length),
    r[q] = (B[(pairs N)[q].1]'(pair_lt h').1).x - (B[(pairs N)[q].2]'(pair_lt h').2.1).x := by
  obtain ⟨r, e, hr⟩ := forPairs_inv (N := N) (fun i (r : Vector (Vec α 4) (nPairs N)) => ∀ q (h : q < nPairs N) (h' : q < (pairs N).length), q < i →
      r[q] = (B[(pairs N)[q].1]'(pair_lt h').1).x - (B[(pairs N)[q].2]'(pair_lt h').2.1).x)
    (fun r i j k => do
      let bj ← aget B j
      let bk ← aget B k
      aset r i (bj.x - bk.x)) (Vector.replicate (nPairs N) (splat 4 (F.lit 0))) (fun q _ _ h => absurd h (by omega)) (by
    intro i h s hs
    have hp := pair_lt h
    rw [aget_lt _ hp.1, aget_lt _ hp.2.1]
    simp only [R_ok_bind]
    rw [aset_lt _ _ (by rw [← length_pairs]; exact h)]
    refine ⟨_, rfl, fun q h1 h2 h3 => ?_⟩
    rw [Vector.getElem_set]
    by_cases c : i = q
    · subst c; simp
    · rw [if_neg c]; exact hs q h1 h2 (by omega))
  refine ⟨r, by unfold diffs; rw [e]; rfl, fun q h h' => hr q h h' h'⟩

theorem mags_ok (F : Fns α) (t : Target) (S : Vec α 4 → α) (hS : ∀ v, sum4 t v = .ok (S v)) (dt : α) {P : Nat} (hP : P % 2 = 0)
    (r : Vector (Vec α 4) P) : ∃ mag, mags F t dt r = .ok mag ∧ ∀ q (h : q < P),
      mag[q] = dt / (S (r[q] * r[q]) * F.sqrte (S (r[q] * r[q]))) := by
  obtain ⟨m, e, hm⟩ := forRange_inv (fun i (m : Vector α P) => ∀ q (h : q < P), q < 2 * i → m[q] = dt / (S (r[q] * r[q]) * F.sqrte (S (r[q] * r[q]))))
    (fun mag q => do
    let i := 2 * q
    let a ← aget r i
    let b ← aget r (i + 1)
    let d2s : Vec α 2 := #v[← sum4 t (a * a), ← sum4 t (b * b)]
    let dmags : Vec α 2 := splat 2 dt / (d2s * d2s.map F.sqrte)
    if i + 2 ≤ P then aset (← aset mag i dmags[0]) (i + 1) dmags[1] else .error .panic) (lo := 0) (hi := (P + 1) / 2)
    (init := Vector.replicate P (F.lit 0)) (Nat.zero_le _)
    (fun q _ h => absurd h (by omega)) (by
    intro i m _ hi hm
    have h1 : 2 * i + 1 < P := by omega
    dsimp only
    rw [aget_lt _ (by omega : 2 * i < P), aget_lt _ h1]
    simp only [R_ok_bind, hS, if_pos (show 2 * i + 2 ≤ P by omega)]
    rw [aset_lt _ _ (by omega : 2 * i < P)]
    simp only [R_ok_bind]
    rw [aset_lt _ _ h1]
    refine ⟨_, rfl, fun q h h' => ?_⟩
    rw [Vector.getElem_set, Vector.getElem_set]
    by_cases c : 2 * i + 1 = q
    · subst c; rw [if_pos rfl, Mandel.vdiv_get, Mandel.vmul_get, Mandel.splat_get]; simp
    · rw [if_neg c]
      by_cases c' : 2 * i = q
      · subst c'; rw [if_pos rfl, Mandel.vdiv_get, Mandel.vmul_get, Mandel.splat_get]; simp
      · rw [if_neg c']; exact hm q h (by omega))
  exact ⟨m, e, fun q h => hm q h (by omega)⟩

/-- The body of the loop of `kicks`. -/
theorem kick_body (s : Vector (Body α 4) N) {P : Nat} (r : Vector (Vec α 4) P) (mag : Vector α P) {i j k : Nat} (hi : i < P) (hj : j < N) (hk : k < N)
    (hjk : j ≠ k) : kick r mag s i j k =
    Except.ok ((s.set j { s[j] with v := s[j].v - r[i] * splat 4 mag[i] * splat 4 s[k].mass }).set k
      { s[k] with v := s[k].v + r[i] * splat 4 mag[i] * splat 4 s[j].mass }) := by
  unfold kick
  rw [aget_lt _ hi, aget_lt _ hi, aget_lt _ hj, aget_lt _ hk]
  simp only [R_ok_bind]
  rw [aset_lt _ _ hj]
  simp only [R_ok_bind]
  rw [aget_lt _ hj, aget_lt _ hk]
  simp only [R_ok_bind, Vector.getElem_set_self, Vector.getElem_set_ne hj hk hjk]
  rw [aset_lt _ _ hk]

theorem kicks_total (B : Vector (Body α 4) N) (r : Vector (Vec α 4) (nPairs N)) (mag : Vector α (nPairs N)) : ∃ B', kicks B r mag = .ok B' := by
  obtain ⟨s, e, -⟩ := forPairs_inv (N := N) (fun _ (_ : Vector (Body α 4) N) => True) (kick r mag) B trivial (by
    intro i h s _
    have hp := pair_lt h
    exact ⟨_, kick_body s r mag (by rw [← length_pairs]; exact h) hp.1 hp.2.1 (by omega), trivial⟩)
  exact ⟨s, by unfold kicks; rw [e]; rfl⟩

theorem advanceSimd_total (F : Fns α) (t : Target) (dt : α) (hN : nPairs N % 2 = 0) (B : Vector (Body α 4) N) :
    ∃ B', advanceSimd F t dt B = .ok B' := by
  obtain ⟨S, hS⟩ := sum4_fn (α := α) t
  obtain ⟨r, hr, -⟩ := diffs_ok F B
  obtain ⟨m, hm, -⟩ := mags_ok F t S (fun v => (hS v).1) dt hN r
  obtain ⟨B', hB⟩ := kicks_total B r m
  exact ⟨_, by unfold advanceSimd; rw [hr]; simp only [R_ok_bind]; rw [hm]; simp only [R_ok_bind]; rw [hB]; rfl⟩
end

end PackedSimd.Ex.Nbody
