import Verif.Model.Examples.Spectral
import Verif.Lemmas.Triangle
/-
Helper lemmas for C67, C68.
-/
namespace PackedSimd

/-- Two loops over related items and states. -/
theorem foldlM_rel {σ τ ι κ : Type} (f : σ → ι → R σ) (f' : τ → κ → R τ) (g : τ → σ) (h : κ → ι) : ∀ (l : List κ) (s : τ),
    (∀ s, ∀ k ∈ l, f (g s) (h k) = (f' s k).map g) → (l.map h).foldlM f (g s) = (l.foldlM f' s).map g
  | [], s, _ => rfl
  | k :: l, s, hf => by
    rw [List.map_cons, List.foldlM_cons, List.foldlM_cons, hf s k (by simp)]
    cases hk : f' s k with
    | error e => rfl
    | ok s' => exact foldlM_rel f f' g h l s' fun s k hk => hf s k (by simp [hk])

theorem mapM_congr {α β : Type} (f g : α → R β) : ∀ (l : List α), (∀ x ∈ l, f x = g x) → l.mapM f = l.mapM g
  | [], _ => rfl
  | x :: l, h => by
    rw [List.mapM_cons, List.mapM_cons, h x (by simp), mapM_congr f g l fun y hy => h y (by simp [hy])]

theorem mapM_length {α β : Type} (f : α → R β) : ∀ (l : List α) (r : List β), l.mapM f = .ok r → r.length = l.length
  | [], r, h => by cases h; rfl
  | x :: l, r, h => by
    rw [List.mapM_cons] at h
    cases hx : f x with
    | error e => rw [hx] at h; cases h
    | ok y =>
      rw [hx] at h
      cases hl : l.mapM f with
      | error e => rw [R_ok_bind, hl] at h; cases h
      | ok ys =>
        rw [R_ok_bind, hl] at h
        cases h
        simp [mapM_length f l ys hl]

/-- Two loops with the same body on the states that occur. -/
theorem foldlM_congr_inv {σ ι : Type} (P : σ → Prop) (f g : σ → ι → R σ) : ∀ (l : List ι) (s : σ), P s →
    (∀ s i, P s → f s i = g s i ∧ ∀ s', g s i = .ok s' → P s') → l.foldlM f s = l.foldlM g s
  | [], _, _, _ => rfl
  | i :: l, s, h0, h => by
    rw [List.foldlM_cons, List.foldlM_cons, (h s i h0).1]
    cases hg : g s i with
    | error e => rfl
    | ok s' => exact foldlM_congr_inv P f g l s' ((h s i h0).2 s' hg) h

namespace Ex

theorem usize_ok {t : Target} {c : Bool} {v : Nat} (h : v < 2 ^ (8 * t.ptrBytes)) : usize t c v = .ok v := if_pos h

namespace Spectral
set_option linter.unusedSectionVars false
variable {α : Type} [Zero α] [Add α] [Mul α] [Div α]
variable (t : Target) (checks : Bool)

/-- The common step of both inner loops, for the `k`-th pair of elements. -/
def rowStep (a : Nat → R α) (v : List α) (s : α × α) (k : Nat) : R (α × α) := do
  let x ← lget v (2 * k)
  let y ← lget v (2 * k + 1)
  let a0 ← a (2 * k)
  let a1 ← a (2 * k + 1)
  return (s.1 + x / a0, s.2 + y / a1)

theorem pairs_zipIdx (v : List α) (h : v.length % 2 = 0) :
    (Tri.chunks 2 v).zipIdx = (List.range (v.length / 2)).map fun k => ((v.drop (k * 2)).take 2, k) := by
  unfold Tri.chunks
  rw [show (v.length + 2 - 1) / 2 = v.length / 2 by omega]
  apply List.ext_getElem <;> simp

theorem row_scalar (a : Nat → Nat → R α) (i : Nat) (v : List α) (h : v.length % 2 = 0) (hw : v.length < 2 ^ (8 * t.ptrBytes)) :
    (Tri.chunks 2 v).zipIdx.foldlM (rowStepScalar t checks a i) (0, 0) = (List.range (v.length / 2)).foldlM (rowStep (a i) v) (0, 0) := by
  rw [pairs_zipIdx v h]
  have := foldlM_rel (rowStepScalar t checks a i) (rowStep (a i) v) id (fun k => ((v.drop (k * 2)).take 2, k)) (List.range (v.length / 2)) (0, 0) (by
    intro s k hk
    have hk : k < v.length / 2 := by simpa using hk
    unfold rowStepScalar rowStep
    rw [usize_ok (show 2 * k < _ by omega), R_ok_bind, lget_lt _ (by simp; omega), lget_lt _ (by simp; omega), usize_ok (show 2 * k + 1 < _ by omega),
      lget_lt _ (by omega), lget_lt _ (by omega)]
    simp only [R_ok_bind, List.getElem_take, List.getElem_drop, Nat.add_zero, show k * 2 = 2 * k by omega]
    cases a i (2 * k) with
    | error e => rfl
    | ok a0 => cases a i (2 * k + 1) <;> rfl)
  simpa using this

theorem row_simd (a : Nat → R α) (v : List α) (h : v.length % 2 = 0) (hw : v.length < 2 ^ (8 * t.ptrBytes)) :
    (List.range' 0 ((v.length + 1) / 2) 2).foldlM (rowStepSimd t checks a v) (splat 2 0) =
      ((List.range (v.length / 2)).foldlM (rowStep a v) (0, 0)).map fun s => (#v[s.1, s.2] : Vec α 2) := by
  have hL : List.range' 0 ((v.length + 1) / 2) 2 = (List.range (v.length / 2)).map fun k => 2 * k := by
    rw [show (v.length + 1) / 2 = v.length / 2 by omega]
    apply List.ext_getElem
    · simp
    · intro i _ _; simp
  have h0 : (splat 2 (0 : α)) = (fun s : α × α => (#v[s.1, s.2] : Vec α 2)) (0, 0) := by
    ext i hi
    match i, hi with
    | 0, _ => rfl
    | 1, _ => rfl
  rw [hL, h0]
  refine foldlM_rel _ _ (fun s : α × α => (#v[s.1, s.2] : Vec α 2)) (fun k => 2 * k) _ _ ?_
  intro s k hk
  have hk : k < v.length / 2 := by simpa using hk
  unfold rowStepSimd rowStep
  have hf : fromSlice 2 (v.drop (2 * k)) = .ok (#v[v[2 * k]'(by omega), v[2 * k + 1]'(by omega)] : Vec α 2) := by
    unfold fromSlice
    rw [dif_pos (by simp; omega)]
    congr 1
    ext i hi
    match i, hi with
    | 0, _ => simp
    | 1, _ => simp
  rw [hf, usize_ok (show 2 * k + 1 < _ by omega), lget_lt _ (by omega), lget_lt _ (by omega)]
  simp only [R_ok_bind]
  cases a (2 * k) with
  | error e => rfl
  | ok a0 =>
    cases a (2 * k + 1) with
    | error e => rfl
    | ok a1 =>
      refine congrArg Except.ok ?_
      ext i hi
      rw [Mandel.vadd_get, Mandel.vdiv_get]
      match i, hi with
      | 0, _ => rfl
      | 1, _ => rfl

/-- Sums as the programs build them: starting from zero. -/
def Built (s : α) : Prop := ∃ l : List α, s = l.foldl (· + ·) 0

theorem row_built (a : Nat → R α) (v : List α) (l : List Nat) (s : α × α) (hs : Built s.1 ∧ Built s.2) (r : α × α)
    (hr : l.foldlM (rowStep a v) s = .ok r) : Built r.1 ∧ Built r.2 := by
  induction l generalizing s with
  | nil => cases hr; exact hs
  | cons k l ih =>
    rw [List.foldlM_cons] at hr
    cases hk : rowStep a v s k with
    | error e => rw [hk] at hr; cases hr
    | ok s' =>
      rw [hk] at hr
      refine ih s' ?_ hr
      unfold rowStep at hk
      cases h1 : lget v (2 * k) with
      | error e => rw [h1] at hk; cases hk
      | ok x =>
        cases h2 : lget v (2 * k + 1) with
        | error e => rw [h1, R_ok_bind, h2] at hk; cases hk
        | ok y =>
          cases h3 : a (2 * k) with
          | error e => rw [h1, R_ok_bind, h2, R_ok_bind, h3] at hk; cases hk
          | ok a0 =>
            cases h4 : a (2 * k + 1) with
            | error e => rw [h1, R_ok_bind, h2, R_ok_bind, h3, R_ok_bind, h4] at hk; cases hk
            | ok a1 =>
              rw [h1, R_ok_bind, h2, R_ok_bind, h3, R_ok_bind, h4] at hk
              cases hk
              obtain ⟨⟨l1, e1⟩, ⟨l2, e2⟩⟩ := hs
              exact ⟨⟨l1 ++ [x / a0], by rw [List.foldl_append, ← e1]; rfl⟩, ⟨l2 ++ [y / a1], by rw [List.foldl_append, ← e2]; rfl⟩⟩

theorem vsum_pair (A : Arith α) (x y : α) (h : A.add A.zero x = x) : vsum t A (#v[x, y] : Vec α 2) = .ok (A.add x y) := by
  unfold vsum
  split
  · show Except.ok (A.add (A.add A.zero x) y) = _
    rw [h]
  · rfl

/-- One matrix-vector product: the two programs agree. -/
theorem mult_eq (hz : ∀ l : List α, 0 + l.foldl (· + ·) 0 = l.foldl (· + ·) 0) (a : Nat → Nat → R α) (v out : List α)
    (hl : v.length = out.length) (h : v.length % 2 = 0) (hw : v.length < 2 ^ (8 * t.ptrBytes)) :
    multSimd t checks a v out = multScalar t checks a 0 v out := by
  unfold multSimd multScalar
  rw [if_pos hl, if_pos h]
  apply mapM_congr
  intro i hi
  have hi : i < out.length := by simpa using hi
  rw [row_simd t checks (a i) v h hw]
  rw [usize_ok (show i + 0 < _ by omega), R_ok_bind, Nat.add_zero, row_scalar t checks a i v h hw]
  cases hr : (List.range (v.length / 2)).foldlM (rowStep (a i) v) (0, 0) with
  | error e => rfl
  | ok s =>
    obtain ⟨⟨l, hb⟩, _⟩ := row_built (a i) v _ (0, 0) ⟨⟨[], rfl⟩, ⟨[], rfl⟩⟩ s hr
    show vsum t _ (#v[s.1, s.2] : Vec α 2) = .ok (s.1 + s.2)
    exact vsum_pair t ⟨0, (· + ·), (· * ·)⟩ s.1 s.2 (by rw [hb]; exact hz l)

theorem multScalar_length (a : Nat → Nat → R α) (start : Nat) (v out r : List α) (h : multScalar t checks a start v out = .ok r) :
    r.length = out.length := by
  have := mapM_length _ _ _ h
  simpa using this

theorem multAtAv_length {f g : List α → List α → R (List α)} {n : Nat}
    (hf : ∀ v out r, v.length = n → out.length = n → f v out = .ok r → r.length = n)
    (hg : ∀ v out r, v.length = n → out.length = n → g v out = .ok r → r.length = n) (v out tmp : List α)
    (hv : v.length = n) (ho : out.length = n) (ht : tmp.length = n) (r : List α × List α) (h : multAtAv f g v out tmp = .ok r) :
    r.1.length = n ∧ r.2.length = n := by
  unfold multAtAv at h
  cases h1 : f v tmp with
  | error e => rw [h1] at h; cases h
  | ok tmp' =>
    rw [h1, R_ok_bind] at h
    cases h2 : g tmp' out with
    | error e => rw [h2] at h; cases h
    | ok out' =>
      rw [h2] at h
      cases h
      have := hf v tmp tmp' hv ht h1
      exact ⟨hg tmp' out out' this ho h2, this⟩

/-- If two matrix products agree on vectors of length `n`, so do the programs. -/
theorem spectralNorm_congr [One α] {f f' g g' : List α → List α → R (List α)} (sqrt : α → α) (n : Nat)
    (hf : ∀ v out r, v.length = n → out.length = n → f v out = .ok r → r.length = n)
    (hg : ∀ v out r, v.length = n → out.length = n → g v out = .ok r → r.length = n)
    (h1 : n % 2 = 0 → ∀ v out, v.length = n → out.length = n → f' v out = f v out)
    (h2 : n % 2 = 0 → ∀ v out, v.length = n → out.length = n → g' v out = g v out) :
    spectralNorm (multAtAv f' g') sqrt n = spectralNorm (multAtAv f g) sqrt n := by
  unfold spectralNorm
  by_cases hn : n % 2 = 0
  swap
  · rw [if_neg hn, if_neg hn]
  rw [if_pos hn, if_pos hn]
  have hm : ∀ v out tmp : List α, v.length = n → out.length = n → tmp.length = n → multAtAv f' g' v out tmp = multAtAv f g v out tmp := by
    intro v out tmp hv ho ht
    unfold multAtAv
    rw [h1 hn v tmp hv ht]
    cases hr : f v tmp with
    | error e => rfl
    | ok tmp' =>
      rw [R_ok_bind, R_ok_bind, h2 hn tmp' out (hf v tmp tmp' hv ht hr) ho]
  unfold forRange
  dsimp only
  rw [foldlM_congr_inv (fun s : List α × List α × List α => s.1.length = n ∧ s.2.1.length = n ∧ s.2.2.length = n)
    (fun (s : List α × List α × List α) _ => do
      let (v, tmp) ← multAtAv f' g' s.1 s.2.1 s.2.2
      let (u, tmp) ← multAtAv f' g' v s.1 tmp
      return (u, v, tmp))
    (fun (s : List α × List α × List α) _ => do
      let (v, tmp) ← multAtAv f g s.1 s.2.1 s.2.2
      let (u, tmp) ← multAtAv f g v s.1 tmp
      return (u, v, tmp)) _ _ (by simp) ?_]
  rintro ⟨u, v, tmp⟩ i ⟨hu, hv, ht⟩
  dsimp only at hu hv ht ⊢
  rw [hm u v tmp hu hv ht]
  cases hr : multAtAv f g u v tmp with
  | error e => exact ⟨rfl, fun s' h => by cases h⟩
  | ok r =>
    obtain ⟨l1, l2⟩ := multAtAv_length hf hg u v tmp hu hv ht r hr
    obtain ⟨v', tmp'⟩ := r
    dsimp only at l1 l2
    simp only [R_ok_bind]
    rw [hm v' u tmp' l1 hu l2]
    refine ⟨rfl, fun s' h => ?_⟩
    cases hr2 : multAtAv f g v' u tmp' with
    | error e => rw [hr2] at h; cases h
    | ok r2 =>
      rw [hr2] at h
      obtain ⟨l3, l4⟩ := multAtAv_length hf hg v' u tmp' l1 hu l2 r2 hr2
      cases h
      exact ⟨l3, l1, l4⟩

end Spectral
end Ex
end PackedSimd
