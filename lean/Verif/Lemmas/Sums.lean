import Verif.Model.Examples.Sums
import Verif.Lemmas.Reduce
import Verif.Lemmas.Fmt
import Verif.Spec.Sum
import Mathlib.Algebra.Group.Defs
import Mathlib.Algebra.BigOperators.Group.List.Basic
/-
Lemmas for the summing examples.
-/
namespace PackedSimd
open Intr Spec Ex

variable {α : Type} {n : Nat}

theorem flatMap_append_perm' {β : Type} (f g : α → List β) : ∀ L : List α,
    (L.flatMap fun x => f x ++ g x).Perm (L.flatMap f ++ L.flatMap g)
  | [] => by simp
  | x :: L => by
    simp only [List.flatMap_cons]
    have ih := flatMap_append_perm' f g L
    calc (f x ++ g x ++ L.flatMap fun x => f x ++ g x)
        |>.Perm (f x ++ g x ++ (L.flatMap f ++ L.flatMap g)) := ih.append_left _
      _ |>.Perm _ := by
        rw [List.append_assoc, List.append_assoc]
        refine List.Perm.append_left _ ?_
        rw [← List.append_assoc, ← List.append_assoc]
        exact List.perm_append_comm.append_right _

theorem finRange_flatMap_single (v : Vec α n) : ((List.finRange n).flatMap fun i => [v[i]]) = v.toList := by
  have : ∀ L : List (Fin n), (L.flatMap fun i => [v[i]]) = L.map fun i => v[i] := by
    intro L; induction L with
    | nil => rfl
    | cons i L ih => rw [List.flatMap_cons, ih]; rfl
  rw [this]
  apply List.ext_getElem <;> simp

/-- Reading a list of rows column by column gives the same elements. -/
theorem columns_perm (n : Nat) : ∀ vs : List (Vec α n),
    ((List.finRange n).flatMap fun i => vs.map fun v => v[i]).Perm (vs.map Vector.toList).flatten
  | [] => by simp
  | v :: vs => by
    simp only [List.map_cons, List.flatten_cons]
    refine (flatMap_append_perm' (fun i : Fin n => [v[i]]) (fun i => vs.map fun v => v[i]) (List.finRange n)).trans ?_
    rw [finRange_flatMap_single]
    exact (columns_perm n vs).append_left _

variable {add : α → α → α} {zero : α}

theorem flatten_singletons : ∀ xs : List α, (xs.map fun x => [x]).flatten = xs
  | [] => rfl
  | x :: xs => by rw [List.map_cons, List.flatten_cons, flatten_singletons xs]; rfl

theorem SumOf.foldl : ∀ (ps : List (List α × α)) (a : α) (l : List α), SumOf add zero l a → (∀ p ∈ ps, SumOf add zero p.1 p.2) →
    SumOf add zero (l ++ (ps.map Prod.fst).flatten) ((ps.map Prod.snd).foldl add a)
  | [], a, l, h, _ => by simpa using h
  | p :: ps, a, l, h, hp => by
    have := SumOf.foldl ps _ _ (SumOf.add h (hp p (by simp))) (fun q hq => hp q (by simp [hq]))
    simpa [List.append_assoc] using this

theorem SumOf.foldl_elems {a : α} {l : List α} (h : SumOf add zero l a) (xs : List α) :
    SumOf add zero (l ++ xs) (xs.foldl add a) := by
  have := SumOf.foldl (add := add) (zero := zero) (xs.map fun x => ([x], x)) a l h
    (by intro p hp; obtain ⟨x, _, rfl⟩ := List.mem_map.1 hp; exact .single x)
  simpa [Function.comp_def, flatten_singletons] using this

/-- In a commutative monoid there is only one result. -/
theorem SumOf.eq_sum {M : Type} [AddCommMonoid M] {l : List M} {a : M} (h : SumOf (· + ·) 0 l a) : a = l.sum := by
  induction h with
  | empty => simp
  | single x => simp
  | add _ _ ih1 ih2 => rw [List.sum_append, ← ih1, ← ih2]
  | perm hp _ ih => rw [ih, hp.sum_eq]

namespace Ex

variable (t : Target) (A : Arith α)

theorem scalarSum_sumOf (xs : List α) : SumOf A.add A.zero xs (scalarSum A xs) := by
  simpa [scalarSum] using SumOf.foldl_elems (add := A.add) (zero := A.zero) .empty xs

theorem iterSum_lane (vs : List (Vec α n)) (i : Nat) (hi : i < n) :
    SumOf A.add A.zero (vs.map fun v => v[i]) (iterSum A n vs)[i] := by
  unfold iterSum vadd
  rw [foldl_zipWith_lane]
  simpa [splat] using SumOf.foldl_elems (add := A.add) (zero := A.zero) .empty (vs.map fun v => v[i])

theorem parSum_lane (n : Nat) : ∀ (sched : Sched) (vs : List (Vec α n)) (i : Nat) (hi : i < n),
    SumOf A.add A.zero (vs.map fun v => v[i]) (parSum A n sched vs)[i]
  | .seq, vs, i, hi => iterSum_lane A vs i hi
  | .split p l r, vs, i, hi => by
    have hl := parSum_lane n l (vs.take p) i hi
    have hr := parSum_lane n r (vs.drop p) i hi
    have e : (parSum A n (.split p l r) vs)[i] = A.add (A.add A.zero (parSum A n l (vs.take p))[i]) (parSum A n r (vs.drop p))[i] := by
      simp [parSum, iterSum, vadd, splat]
    rw [e]
    have := SumOf.add (SumOf.add (.empty (add := A.add) (zero := A.zero)) hl) hr
    simpa [← List.map_append] using this

theorem vsum_sumOf [LaneCount n] (v : Vec α n) (cols : Fin n → List α) (h : ∀ i : Fin n, SumOf A.add A.zero (cols i) v[i]) :
    ∃ r, vsum t A v = .ok r ∧ SumOf A.add A.zero ((List.finRange n).flatMap cols) r := by
  have hv : v.toList = (List.finRange n).map fun i => v[i] := by apply List.ext_getElem <;> simp
  unfold vsum
  by_cases ht : t.arch = .aarch64
  · rw [if_neg (by simpa using ht), laneLoop_eq]
    obtain ⟨m, rfl⟩ : ∃ m, n = m + 1 := ⟨n - 1, by have := LaneCount.pos (n := n); omega⟩
    rw [List.finRange_succ] at hv ⊢
    have := SumOf.foldl (add := A.add) (zero := A.zero) (((List.finRange m).map Fin.succ).map fun i => (cols i, v[i])) v[(0 : Fin (m + 1))]
      (cols 0) (h 0) (by intro p hp; obtain ⟨i, _, rfl⟩ := List.mem_map.1 hp; exact h i)
    refine ⟨_, by unfold simdReduce; rw [hv]; rfl, ?_⟩
    simpa [Function.comp_def, List.flatMap] using this
  · refine ⟨_, if_pos ht, ?_⟩
    unfold simdReduceOrdered
    have := SumOf.foldl (add := A.add) (zero := A.zero) ((List.finRange n).map fun i => (cols i, v[i])) A.zero [] .empty
      (by intro p hp; obtain ⟨i, _, rfl⟩ := List.mem_map.1 hp; exact h i)
    rw [hv]
    simpa [Function.comp_def, List.flatMap] using this

/-- Chunks of `n` elements, loaded as vectors, hold the elements of the list in order. -/
theorem load_chunks (h : 0 < n) : ∀ (q : Nat) (xs : List α), q * n ≤ xs.length →
    ∃ vs : List (Vec α n), ((List.range q).map fun j => xs.drop (j * n)).mapM (fromSlice n) = .ok vs ∧ vs.length = q ∧
      (vs.map Vector.toList).flatten = xs.take (q * n)
  | 0, xs, _ => ⟨[], by simp [pure, Except.pure]⟩
  | q + 1, xs, hq => by
    rw [Nat.add_mul, Nat.one_mul] at hq
    obtain ⟨vs, h1, h2, h3⟩ := load_chunks h q (xs.drop n) (by rw [List.length_drop]; omega)
    have hn : n ≤ xs.length := by omega
    refine ⟨(Vector.ofFn fun i => xs[i.val]) :: vs, ?_, by simp [h2], ?_⟩
    · rw [List.range_succ_eq_map, List.map_cons, List.map_map, List.mapM_cons]
      have e : ((List.range q).map ((fun j => xs.drop (j * n)) ∘ Nat.succ)) = (List.range q).map fun j => (xs.drop n).drop (j * n) := by
        apply List.map_congr_left
        intro j _
        simp only [Function.comp, List.drop_drop]
        congr 1
        rw [Nat.succ_mul]; omega
      rw [e, h1]
      have : fromSlice n (xs.drop (0 * n)) = .ok (Vector.ofFn fun i : Fin n => xs[i.val]) := by
        unfold fromSlice
        rw [dif_pos (by simpa using hn)]
        simp
      rw [this]; rfl
    · rw [List.map_cons, List.flatten_cons, h3]
      have : (Vector.ofFn fun i : Fin n => xs[i.val]).toList = xs.take n := by
        apply List.ext_getElem
        · simp [Nat.min_eq_left hn]
        · intro i h1 h2; simp
      rw [this, Nat.add_mul, Nat.one_mul, Nat.add_comm (q * n) n, List.take_add]

theorem fromSlice_take (xs : List α) : fromSlice n (xs.take n) = fromSlice n xs := by
  unfold fromSlice
  by_cases h : n ≤ xs.length
  · rw [dif_pos (by rw [List.length_take]; omega), dif_pos h]; simp
  · rw [dif_neg (by simp; omega), dif_neg h]

theorem chunksExact_load (h : 0 < n) (xs : List α) :
    ∃ vs : List (Vec α n), (chunksExact n xs).mapM (fromSlice n) = .ok vs ∧ vs.length = xs.length / n ∧
      (vs.map Vector.toList).flatten = xs.take (xs.length / n * n) := by
  obtain ⟨vs, h1, h2⟩ := load_chunks h (xs.length / n) xs (Nat.div_mul_le_self _ _)
  refine ⟨vs, ?_, h2⟩
  rw [← h1]
  unfold chunksExact
  have : ∀ L : List Nat, (L.map fun j => (xs.drop (j * n)).take n).mapM (fromSlice n) = (L.map fun j => xs.drop (j * n)).mapM (fromSlice n) := by
    intro L
    induction L with
    | nil => rfl
    | cons j L ih => rw [List.map_cons, List.map_cons, List.mapM_cons, List.mapM_cons, ih, fromSlice_take]
  exact this _

theorem take_all (h : xs.length % n = 0) : xs.take (xs.length / n * n) = (xs : List α) := by
  rw [Nat.div_mul_cancel (Nat.dvd_of_mod_eq_zero h), List.take_length]

/-- The horizontal sum of per-lane sums of rows is a sum of all elements. -/
theorem vsum_rows [LaneCount n] (vs : List (Vec α n)) (v : Vec α n)
    (h : ∀ i (hi : i < n), SumOf A.add A.zero (vs.map fun u => u[i]) v[i]) :
    ∃ r, vsum t A v = .ok r ∧ SumOf A.add A.zero (vs.map Vector.toList).flatten r := by
  obtain ⟨r, h1, h2⟩ := vsum_sumOf t A v (fun i => vs.map fun u => u[i]) (fun i => h i i.isLt)
  exact ⟨r, h1, .perm (columns_perm n vs) h2⟩

theorem vsum_vec [LaneCount n] (v : Vec α n) : ∃ r, vsum t A v = .ok r ∧ SumOf A.add A.zero v.toList r := by
  obtain ⟨r, h1, h2⟩ := vsum_sumOf t A v (fun i => [v[i]]) (fun i => .single _)
  exact ⟨r, h1, by rwa [finRange_flatMap_single] at h2⟩

theorem vsums_sumOf [LaneCount n] : ∀ vs : List (Vec α n),
    ∃ ps : List (List α × α), vs.mapM (vsum t A) = .ok (ps.map Prod.snd) ∧ (∀ p ∈ ps, SumOf A.add A.zero p.1 p.2) ∧
      ps.map Prod.fst = vs.map Vector.toList
  | [] => ⟨[], by simp [pure, Except.pure]⟩
  | v :: vs => by
    obtain ⟨ps, h1, h2, h3⟩ := vsums_sumOf vs
    obtain ⟨r, h4, h5⟩ := vsum_vec t A v
    refine ⟨(v.toList, r) :: ps, ?_, ?_, by simp [h3]⟩
    · rw [List.mapM_cons, h4, h1]; rfl
    · intro p hp
      rcases List.mem_cons.1 hp with rfl | hp
      · exact h5
      · exact h2 p hp

theorem rows_zip (f : α → α → α) : ∀ va vb : List (Vec α n), va.length = vb.length →
    (((va.zip vb).map fun v => Vector.zipWith f v.1 v.2).map Vector.toList).flatten =
      List.zipWith f (va.map Vector.toList).flatten (vb.map Vector.toList).flatten
  | [], [], _ => rfl
  | a :: va, b :: vb, h => by
    have ih := rows_zip f va vb (by simpa using h)
    simp only [List.zip_cons_cons, List.map_cons, List.flatten_cons]
    rw [ih, List.zipWith_append (by simp)]
    congr 1
    apply List.ext_getElem <;> simp

end Ex
end PackedSimd
