import Verif.Lemmas.AoParallel
import Verif.Props.AoImage
/-
examples/aobench/src/{tiled,scalar_parallel,vector_parallel,tiled_parallel}.rs: C105 (accesses through raw pointers), C106 (parallel rendering).
-/
namespace PackedSimd.Props
open Spec Ex Ex.Ao Spec.Ao V3N Mandel Prog

/-! ### C105 -/

section
variable {α σ τ ρ : Type} {n : Nat} [Add α] [Sub α] [Mul α] [Div α] [Neg α] (F : Fns α)

/-- C105: whatever values it finds in the image and whatever the rays hit, the tiled program accesses only the first `3 * w * h` elements of the image
(all of them inside an image of the right size). -/
theorem C105_tiled_partial (hn : 0 < n) (dbg : Bool) (S : Scene α σ n) (z : Size) (s : σ) :
    Confined (fun i => i < 3 * z.w * z.h) (aoImageTiled F dbg S z s) := by
  unfold aoImageTiled loop
  split
  · next hw =>
    refine confined_foldlM _ _ (fun y hy s => Confined.mono _ ?_ (rowTiled_confined F hn dbg S z hw s y)) s
    rintro i ⟨-, h2⟩
    have : 3 * z.w * (y + 1) ≤ 3 * z.w * z.h := Nat.mul_le_mul_left _ (List.mem_range.1 hy)
    rw [Nat.mul_succ] at this
    dsimp only at h2
    omega
  · trivial

/-- C105: the parallel tiled program is safe for every length `len` of `fdata`, which its caller can change at will: whatever rows are given to which
threads, in every order of the accesses, there is no race and no access outside of the image. -/
theorem C105_parallel (hn : 0 < n) (dbg : Bool) (M : Maker τ σ ρ) (S : Scene α σ n) (z : Size) (len : Nat) (work : List (List Nat × τ))
    (hw : EachRowOnce (chunkCount z.w len) work) (ts : List (Prog α τ)) (ht : parTiled F dbg M S z len work = .ok ts) (m : List α) (hm : m.length = len) :
    AlwaysSafe ts m := by
  unfold parTiled parThreads at ht
  split at ht
  · next hz =>
    split at ht
    · cases ht
    · cases ht
      refine alwaysSafe (rows_disjoint z.w len work (hw.nodup_iff.2 List.nodup_range)) (threads_confined M z len _ (fun y s => rowTiled_confined F hn dbg S z hz s y) work) ?_
      rintro j i ⟨y, -, -, -, h⟩
      omega
  · cases ht

/-! ### C106 -/

/-- The work of all threads together: the result of running the threads one after the other is what every execution ends with. -/
theorem par_ends {γ : Type} (enc : List γ → List α) (M : Maker τ σ ρ) (z : Size) (hz : 0 < z.w) (pixels : Window → Nat → σ → Prog α σ)
    (row : Nat → List γ → σ → R (List γ × σ)) (h : RowRuns enc z.w z.h (fun y s => pixels ⟨3 * z.w * y, 3 * z.w⟩ y s) row)
    (hc : ∀ y s, Confined (Window.Has ⟨3 * z.w * y, 3 * z.w⟩) (pixels ⟨3 * z.w * y, 3 * z.w⟩ y s))
    (old : List (List γ)) (hh : old.length = z.h) (hl : ∀ r ∈ old, (enc r).length = z.w) (work : List (List Nat × τ)) (hw : EachRowOnce z.h work)
    (hok : ∀ p ∈ work, ∃ rs, rowsOf M row old p.1 p.2 = .ok rs) :
    ∃ (ts : List (Prog α τ)) (new : List (List γ)), parThreads M z (gray (old.flatMap enc)).length pixels work = .ok ts ∧
      AlwaysEndsWith ts (gray (old.flatMap enc)) (gray (new.flatMap enc)) ∧ new.length = z.h ∧
      ∀ p ∈ work, ∀ rs, rowsOf M row old p.1 p.2 = .ok rs → ∀ q ∈ rs, new[q.1]? = some q.2 := by
  have hlen : (gray (old.flatMap enc)).length = 3 * (z.w * z.h) := by rw [gray_length, rows_length enc z.w old hl, hh]
  have hnd : (work.flatMap Prod.fst).Nodup := hw.nodup_iff.2 List.nodup_range
  obtain ⟨new, h1, h2, -, h3⟩ := threads_run enc M z pixels row h old hh work old hnd (fun y hy => List.mem_range.1 (hw.mem_iff.1 hy)) hh hl (fun _ _ => rfl) hok
  refine ⟨work.map fun p => p.1.foldlM (rowTask M z (3 * (z.w * z.h)) pixels) p.2, new, ?_, ?_, h2, h3⟩
  · unfold parThreads
    rw [if_neg (by omega), hlen]
  · exact alwaysEndsWith (rows_disjoint z.w (3 * (z.w * z.h)) work hnd) (threads_confined M z _ pixels hc work) h1

/-- C106: the scalar program in parallel.  For every distribution of the rows of a grey image (with at least one column) to threads and every order in
which the threads make their accesses there is no race, the program ends, and in the end every row has the values computed as in C102 with the new
scene of the row (if no random number fails to be delivered). -/
theorem C106_scalar (M : Maker τ σ ρ) (S : Scene α σ n) (z : Size) (hz : 0 < z.w) (old : List (List α)) (hh : old.length = z.h) (hl : ∀ r ∈ old, r.length = z.w)
    (work : List (List Nat × τ)) (hw : EachRowOnce z.h work) :
    let row := fun y (r : List α) s => render (fun k c s => do
      let (sum, s) ← addUp (fun j s => shadeScalar F S (sampleOf z (dirScalar F z) k j) s) (z.ns * z.ns) c s
      return (sum / F.ofUsize (z.ns * z.ns), s)) (z.w * y) r s
    (∀ p ∈ work, ∃ rs, rowsOf M row old p.1 p.2 = .ok rs) →
    ∃ (ts : List (Prog α τ)) (new : List (List α)), parScalar F M S z (gray old.flatten).length work = .ok ts ∧
      AlwaysEndsWith ts (gray old.flatten) (gray new.flatten) ∧ new.length = z.h ∧
      ∀ p ∈ work, ∀ rs, rowsOf M row old p.1 p.2 = .ok rs → ∀ q ∈ rs, new[q.1]? = some q.2 := by
  intro row hok
  have hr : RowRuns id z.w z.h (fun y s => rowScalarPar F S z ⟨3 * z.w * y, 3 * z.w⟩ y s) row := by
    refine pixelRow_runs z.w z.h (fun x y s => pixelScalar F S z ⟨3 * z.w * y, 3 * z.w⟩ (3 * x) x y s) _ ?_
    intro x y hx hy
    have := pixelScalar_changes F S z ⟨3 * z.w * y, 3 * z.w⟩ (3 * x) x y (z.w * y + x) (z.w * z.h) (by dsimp only; ring) (by dsimp only; omega)
    unfold sampleOf
    rwa [Nat.mul_add_mod, Nat.mod_eq_of_lt hx, Nat.mul_add_div hz, Nat.div_eq_of_lt hx, Nat.add_zero]
  unfold parScalar
  have := par_ends id M z hz (rowScalarPar F S z) row hr
    (fun y s => confined_foldlM _ _ (fun x _ s => pixelScalar_confined F S z _ _ _ _ s) s) old hh hl work hw hok
  simpa only [List.flatMap_id] using this

/-- C106: the vectorized program in parallel. -/
theorem C106_vector (t : Target) (dbg : Bool) (M : Maker τ σ ρ) (S : Scene α σ n) (z : Size) (hz : 0 < z.w) (old : List (List α)) (hh : old.length = z.h)
    (hl : ∀ r ∈ old, r.length = z.w) (work : List (List Nat × τ)) (hw : EachRowOnce z.h work) :
    let row := fun y (r : List α) s => render (fun k c s =>
      addUp (fun j s => (shadeVector F t dbg S (sampleOf z (dirVectorPar F z) k j) s).map fun q => (q.1 * invNs F z * invNs F z, q.2)) (z.ns * z.ns) c s) (z.w * y) r s
    (∀ p ∈ work, ∃ rs, rowsOf M row old p.1 p.2 = .ok rs) →
    ∃ (ts : List (Prog α τ)) (new : List (List α)), parVector F t dbg M S z (gray old.flatten).length work = .ok ts ∧
      AlwaysEndsWith ts (gray old.flatten) (gray new.flatten) ∧ new.length = z.h ∧
      ∀ p ∈ work, ∀ rs, rowsOf M row old p.1 p.2 = .ok rs → ∀ q ∈ rs, new[q.1]? = some q.2 := by
  intro row hok
  have hr : RowRuns id z.w z.h (fun y s => rowVectorPar F t dbg S z ⟨3 * z.w * y, 3 * z.w⟩ y s) row := by
    refine pixelRow_runs z.w z.h (fun x y s => pixelVector F t dbg S z (dirVectorPar F z) ⟨3 * z.w * y, 3 * z.w⟩ (3 * x) x y s) _ ?_
    intro x y hx hy
    have := pixelVector_changes F t dbg S z (dirVectorPar F z) ⟨3 * z.w * y, 3 * z.w⟩ (3 * x) x y (z.w * y + x) (z.w * z.h) (by dsimp only; ring) (by dsimp only; omega)
    unfold sampleOf
    rwa [Nat.mul_add_mod, Nat.mod_eq_of_lt hx, Nat.mul_add_div hz, Nat.div_eq_of_lt hx, Nat.add_zero]
  unfold parVector
  have := par_ends id M z hz (rowVectorPar F t dbg S z) row hr
    (fun y s => confined_foldlM _ _ (fun x _ s => pixelVector_confined F t dbg S z _ _ _ _ _ s) s) old hh hl work hw hok
  simpa only [List.flatMap_id] using this

/-- C106: the tiled program in parallel, on images whose width is a multiple of the number of lanes (`q` packets in a row). -/
theorem C106_tiled (hn : 0 < n) (dbg : Bool) (M : Maker τ σ ρ) (S : Scene α σ n) (z : Size) (q : Nat) (hq : z.w = n * q) (hz : 0 < q) (old : List (List (Vec α n)))
    (hh : old.length = z.h) (hl : ∀ r ∈ old, r.length = q) (work : List (List Nat × τ)) (hw : EachRowOnce z.h work) :
    let row := fun y (r : List (Vec α n)) s => render (fun k c s =>
      changes (fun j => tiledSample F dbg S z (packetOf n z (dirTiled F n z) k j)) (z.ns * z.ns) c s) (q * y) r s
    (∀ p ∈ work, ∃ rs, rowsOf M row old p.1 p.2 = .ok rs) →
    ∃ (ts : List (Prog α τ)) (new : List (List (Vec α n))), parTiled F dbg M S z (gray (lanesOf old.flatten)).length work = .ok ts ∧
      AlwaysEndsWith ts (gray (lanesOf old.flatten)) (gray (lanesOf new.flatten)) ∧ new.length = z.h ∧
      ∀ p ∈ work, ∀ rs, rowsOf M row old p.1 p.2 = .ok rs → ∀ q ∈ rs, new[q.1]? = some q.2 := by
  intro row hok
  have hd : z.w % n = 0 := by rw [hq]; exact Nat.mul_mod_right n q
  have hwq : z.w / n = q := by rw [hq, Nat.mul_div_cancel_left _ hn]
  have hup : (z.w + n - 1) / n = q := by
    rw [hq, show n * q + n - 1 = n - 1 + n * q by omega, Nat.add_mul_div_left _ _ hn, Nat.div_eq_of_lt (by omega), Nat.zero_add]
  have hr : RowRuns lanesOf z.w z.h (fun y s => rowTiledPar F dbg S z ⟨3 * z.w * y, 3 * z.w⟩ y s) row := by
    unfold rowTiledPar rowTiled
    rw [hup]
    have := packetRow_runs hn q z.h (fun j y s => pixelTiled F dbg S z (3 * (y * z.w + j * n)) (j * n) y s)
      (fun k => changes (fun j => tiledSample F dbg S z (packetOf n z (dirTiled F n z) k j)) (z.ns * z.ns)) (by
        intro j y hj
        unfold pixelTiled loop
        intro D c l s hD
        dsimp only
        rw [nested_range z.ns (fun s u v => sampleTiled F dbg S z (3 * (y * z.w + j * n)) (j * n) y u s v)]
        refine packetSamples_run (fun i s => sampleTiled F dbg S z (3 * (y * z.w + j * n)) (j * n) y (i / z.ns) s (i % z.ns)) _ (q * y + j) ?_ (z.ns * z.ns) D c l s hD
        intro i
        unfold packetOf
        rw [hwq, Nat.mul_add_mod, Nat.mod_eq_of_lt hj, Nat.mul_add_div hz, Nat.div_eq_of_lt hj, Nat.add_zero]
        refine sampleTiled_changes F dbg S z _ _ _ _ _ _ ?_
        rw [hq]
        ring)
    rw [← hq] at this
    exact this
  have := par_ends lanesOf M z (by rw [hq]; exact Nat.mul_pos hn hz) (rowTiledPar F dbg S z) row hr (fun y s => rowTiled_confined F hn dbg S z hd s y) old hh
    (fun r hr => by rw [lanesOf_length, hl r hr, hq]) work hw hok
  unfold parTiled
  rw [if_pos hd]
  simpa only [lanesOf_flatten] using this

theorem render_append {γ : Type} (p : Nat → γ → σ → R (γ × σ)) : ∀ (a b : List γ) (k : Nat) (s : σ),
    render p k (a ++ b) s = (render p k a s >>= fun q => (render p (k + a.length) b q.2).map fun r => (q.1 ++ r.1, r.2)) := by
  intro a
  induction a with
  | nil =>
    intro b k s
    show render p k b s = (render p k b s).map fun r => ([] ++ r.1, r.2)
    cases render p k b s <;> rfl
  | cons c a ih =>
    intro b k s
    rw [List.cons_append, show render p k (c :: (a ++ b)) s = (p k c s >>= fun q => render p (k + 1) (a ++ b) q.2 >>= fun r => .ok (q.1 :: r.1, r.2)) from rfl,
      show render p k (c :: a) s = (p k c s >>= fun q => render p (k + 1) a q.2 >>= fun r => .ok (q.1 :: r.1, r.2)) from rfl]
    cases p k c s with
    | error e => rfl
    | ok q =>
      simp only [R_ok_bind]
      rw [ih, List.length_cons, show k + 1 + a.length = k + (a.length + 1) by omega]
      cases render p (k + 1) a q.2 with
      | error e => rfl
      | ok r =>
        simp only [R_ok_bind]
        cases render p (k + (a.length + 1)) b r.2 <;> rfl

/-- If no pixel changes the state of the scene, every row can be rendered separately. -/
theorem render_rows {γ : Type} (p : Nat → γ → σ → R (γ × σ)) (s0 : σ) (hp : ∀ k c, ∃ a, p k c s0 = .ok (a, s0)) (u : Nat) :
    (∀ (l : List γ) k, ∃ l', render p k l s0 = .ok (l', s0)) ∧
    ∀ (I : List (List γ)), (∀ r ∈ I, r.length = u) → ∀ k0, ∃ new : List (List γ), render p (u * k0) I.flatten s0 = .ok (new.flatten, s0) ∧ new.length = I.length ∧
      ∀ y (hy : y < I.length), ∃ r, render p (u * (k0 + y)) I[y] s0 = .ok (r, s0) ∧ new[y]? = some r := by
  have h1 : ∀ (l : List γ) k, ∃ l', render p k l s0 = .ok (l', s0) := by
    intro l
    induction l with
    | nil => intro k; exact ⟨[], rfl⟩
    | cons c l ih =>
      intro k
      obtain ⟨a, ha⟩ := hp k c
      obtain ⟨l', hl⟩ := ih (k + 1)
      exact ⟨a :: l', by unfold render; rw [ha, R_ok_bind]; dsimp only; rw [hl]; rfl⟩
  refine ⟨h1, fun I => ?_⟩
  induction I with
  | nil => intro _ k0; exact ⟨[], rfl, rfl, fun y hy => by simp at hy⟩
  | cons r I ih =>
    intro hu k0
    obtain ⟨r', hr⟩ := h1 r (u * k0)
    obtain ⟨new, e1, e2, e3⟩ := ih (fun r hr => hu r (by simp [hr])) (k0 + 1)
    refine ⟨r' :: new, ?_, by simp [e2], fun y hy => ?_⟩
    · rw [List.flatten_cons, render_append, hr, R_ok_bind, hu r (by simp)]
      dsimp only
      rw [show u * k0 + u = u * (k0 + 1) by ring, e1]
      rfl
    · cases y with
      | zero => exact ⟨r', hr, rfl⟩
      | succ y =>
        obtain ⟨r, f1, f2⟩ := e3 y (by simpa using hy)
        exact ⟨r, by rw [show k0 + (y + 1) = k0 + 1 + y by omega]; exact f1, f2⟩

theorem par_is_serial {γ : Type} (M : Maker τ σ ρ) (s0 : σ) (hM : ∀ g, (M.new g).1 = s0) (p : Nat → γ → σ → R (γ × σ))
    (hp : ∀ k c, ∃ a, p k c s0 = .ok (a, s0)) (u h : Nat) (old : List (List γ)) (hh : old.length = h) (hu : ∀ r ∈ old, r.length = u) (work : List (List Nat × τ))
    (hw : EachRowOnce h work) :
    (∀ q ∈ work, ∃ rs, rowsOf M (fun y r s => render p (u * y) r s) old q.1 q.2 = .ok rs) ∧
    ∃ new : List (List γ), render p 0 old.flatten s0 = .ok (new.flatten, s0) ∧ ∀ new' : List (List γ), new'.length = h →
      (∀ q ∈ work, ∀ rs, rowsOf M (fun y r s => render p (u * y) r s) old q.1 q.2 = .ok rs → ∀ q ∈ rs, new'[q.1]? = some q.2) → new' = new := by
  obtain ⟨h1, h2⟩ := render_rows p s0 hp u
  obtain ⟨new, e1, e2, e3⟩ := h2 old hu 0
  rw [Nat.mul_zero] at e1
  have hrows : ∀ ys : List Nat, (∀ y ∈ ys, y < h) → ∀ g, ∃ rs, rowsOf M (fun y r s => render p (u * y) r s) old ys g = .ok rs ∧ ∀ y ∈ ys, ∃ r, new[y]? = some r ∧ (y, r) ∈ rs := by
    intro ys
    induction ys with
    | nil => intro _ g; exact ⟨[], rfl, by simp⟩
    | cons y ys ih =>
      intro hlt g
      have hy : y < old.length := by rw [hh]; exact hlt y (by simp)
      obtain ⟨r, f1, f2⟩ := e3 y hy
      rw [Nat.zero_add] at f1
      obtain ⟨rs, g1, g2⟩ := ih (fun y hy => hlt y (by simp [hy])) (M.finish s0 (M.new g).2)
      refine ⟨(y, r) :: rs, ?_, ?_⟩
      · rw [show rowsOf M (fun y r s => render p (u * y) r s) old (y :: ys) g = (render p (u * y) (old[y]?.getD []) (M.new g).1 >>= fun q =>
          rowsOf M (fun y r s => render p (u * y) r s) old ys (M.finish q.2 (M.new g).2) >>= fun rest => .ok ((y, q.1) :: rest)) from rfl,
          List.getElem?_eq_getElem hy, Option.getD_some, hM, f1, R_ok_bind, g1]
        rfl
      · intro y' hy'
        rcases List.mem_cons.1 hy' with rfl | hy'
        · exact ⟨r, f2, by simp⟩
        · obtain ⟨r', k1, k2⟩ := g2 y' hy'
          exact ⟨r', k1, by simp [k2]⟩
  have hlt : ∀ q ∈ work, ∀ y ∈ q.1, y < h := fun q hq y hy => List.mem_range.1 (hw.mem_iff.1 (List.mem_flatMap.2 ⟨q, hq, hy⟩))
  refine ⟨fun q hq => (hrows q.1 (hlt q hq) q.2).imp fun _ h => h.1, new, e1, fun new' hl hnew => ?_⟩
  apply List.ext_getElem?
  intro y
  by_cases hy : y < h
  · obtain ⟨q, hq, hyq⟩ := List.mem_flatMap.1 (hw.mem_iff.2 (List.mem_range.2 hy))
    obtain ⟨rs, k1, k2⟩ := hrows q.1 (hlt q hq) q.2
    obtain ⟨r, k3, k4⟩ := k2 y hyq
    rw [hnew q hq rs k1 _ k4, k3]
  · rw [List.getElem?_eq_none (by omega), List.getElem?_eq_none (by omega)]

theorem addUp_stays (value : Nat → σ → R (α × σ)) (s0 : σ) (h : ∀ j, ∃ a, value j s0 = .ok (a, s0)) (m : Nat) (c : α) : ∃ a, addUp value m c s0 = .ok (a, s0) := by
  induction m with
  | zero => exact ⟨c, rfl⟩
  | succ m ih =>
    obtain ⟨a, ha⟩ := ih
    obtain ⟨b, hb⟩ := h m
    exact ⟨a + b, by unfold addUp; rw [ha, R_ok_bind]; dsimp only; rw [hb]; rfl⟩

/-- C106: if every ray leaves the scene as it was (C101: the test scene) and new scenes are all the same, then the parallel scalar program renders, in every
execution, the image rendered by the serial one.  (Any arithmetic.) -/
theorem C106_scalar_is_serial (M : Maker τ σ ρ) (S : Scene α σ n) (s0 : σ) (hM : ∀ g, (M.new g).1 = s0) (hS : ∀ dir, ∃ a, shadeScalar F S dir s0 = .ok (a, s0))
    (z : Size) (hz : 0 < z.w) (old : List (List α)) (hh : old.length = z.h) (hl : ∀ r ∈ old, r.length = z.w) (work : List (List Nat × τ)) (hw : EachRowOnce z.h work) :
    ∃ (ts : List (Prog α τ)) (final : List α), parScalar F M S z (gray old.flatten).length work = .ok ts ∧
      (aoImageScalar F S z (gray old.flatten).length s0).run (gray old.flatten) = .ok (s0, final) ∧ AlwaysEndsWith ts (gray old.flatten) final := by
  obtain ⟨h1, new, h2, h3⟩ := par_is_serial M s0 hM (fun k c s => do
      let (sum, s) ← addUp (fun j s => shadeScalar F S (sampleOf z (dirScalar F z) k j) s) (z.ns * z.ns) c s
      return (sum / F.ofUsize (z.ns * z.ns), s)) (fun k c => by
        obtain ⟨a, ha⟩ := addUp_stays (fun j s => shadeScalar F S (sampleOf z (dirScalar F z) k j) s) s0 (fun j => hS _) (z.ns * z.ns) c
        exact ⟨a / F.ofUsize (z.ns * z.ns), by rw [ha]; rfl⟩) z.w z.h old hh hl work hw
  obtain ⟨ts, new', e1, e2, e3, e4⟩ := C106_scalar F M S z hz old hh hl work hw h1
  refine ⟨ts, gray new'.flatten, e1, ?_, e2⟩
  rw [C102_scalar F S z s0 _ (by have := rows_length id z.w old hl; rw [List.flatMap_id, hh] at this; exact this), h2, h3 new' e3 e4]
  rfl

/-- C106: the same for the vectorized program, if its two ways to halve the width and the height agree (which they do in exact arithmetic, C103). -/
theorem C106_vector_is_serial (t : Target) (dbg : Bool) (M : Maker τ σ ρ) (S : Scene α σ n) (s0 : σ) (hM : ∀ g, (M.new g).1 = s0)
    (hS : ∀ dir, ∃ a, shadeVector F t dbg S dir s0 = .ok (a, s0)) (z : Size) (hd : dirVectorPar F z = dirVector F z) (hz : 0 < z.w) (old : List (List α))
    (hh : old.length = z.h) (hl : ∀ r ∈ old, r.length = z.w) (work : List (List Nat × τ)) (hw : EachRowOnce z.h work) :
    ∃ (ts : List (Prog α τ)) (final : List α), parVector F t dbg M S z (gray old.flatten).length work = .ok ts ∧
      (aoImageVector F t dbg S z (gray old.flatten).length s0).run (gray old.flatten) = .ok (s0, final) ∧ AlwaysEndsWith ts (gray old.flatten) final := by
  obtain ⟨h1, new, h2, h3⟩ := par_is_serial M s0 hM (fun k c s =>
      addUp (fun j s => (shadeVector F t dbg S (sampleOf z (dirVectorPar F z) k j) s).map fun q => (q.1 * invNs F z * invNs F z, q.2)) (z.ns * z.ns) c s)
      (fun k c => addUp_stays _ s0 (fun j => by
        obtain ⟨a, ha⟩ := hS (sampleOf z (dirVectorPar F z) k j)
        exact ⟨_, by rw [ha]; rfl⟩) (z.ns * z.ns) c) z.w z.h old hh hl work hw
  obtain ⟨ts, new', e1, e2, e3, e4⟩ := C106_vector F t dbg M S z hz old hh hl work hw h1
  refine ⟨ts, gray new'.flatten, e1, ?_, e2⟩
  rw [C103_vector F t dbg S z s0 _ (by have := rows_length id z.w old hl; rw [List.flatMap_id, hh] at this; exact this), ← hd, h2, h3 new' e3 e4]
  rfl

/-- C106: the same for the tiled program. -/
theorem C106_tiled_is_serial (hn : 0 < n) (dbg : Bool) (M : Maker τ σ ρ) (S : Scene α σ n) (s0 : σ) (hM : ∀ g, (M.new g).1 = s0) (z : Size)
    (hS : ∀ dir c, ∃ a, tiledSample F dbg S z dir c s0 = .ok (a, s0)) (q : Nat) (hq : z.w = n * q) (hz : 0 < q) (old : List (List (Vec α n)))
    (hh : old.length = z.h) (hl : ∀ r ∈ old, r.length = q) (work : List (List Nat × τ)) (hw : EachRowOnce z.h work) :
    ∃ (ts : List (Prog α τ)) (final : List α), parTiled F dbg M S z (gray (lanesOf old.flatten)).length work = .ok ts ∧
      (aoImageTiled F dbg S z s0).run (gray (lanesOf old.flatten)) = .ok (s0, final) ∧ AlwaysEndsWith ts (gray (lanesOf old.flatten)) final := by
  have hc : ∀ k (c : Vec α n) m, ∃ a, changes (fun j => tiledSample F dbg S z (packetOf n z (dirTiled F n z) k j)) m c s0 = .ok (a, s0) := by
    intro k c m
    induction m with
    | zero => exact ⟨c, rfl⟩
    | succ m ih =>
      obtain ⟨a, ha⟩ := ih
      unfold changes
      rw [ha, R_ok_bind]
      exact hS _ _
  obtain ⟨h1, new, h2, h3⟩ := par_is_serial M s0 hM (fun k c s =>
      changes (fun j => tiledSample F dbg S z (packetOf n z (dirTiled F n z) k j)) (z.ns * z.ns) c s) (fun k c => hc k c _) q z.h old hh hl work hw
  obtain ⟨ts, new', e1, e2, e3, e4⟩ := C106_tiled F hn dbg M S z q hq hz old hh hl work hw h1
  refine ⟨ts, gray (lanesOf new'.flatten), e1, ?_, e2⟩
  have hlen : n * old.flatten.length = z.w * z.h := by
    have := rows_length id q old hl
    rw [List.flatMap_id, hh] at this
    rw [this, hq, Nat.mul_assoc]
  rw [(C104_tiled F hn dbg S z s0).2 ⟨q, hq⟩ _ hlen, h2, h3 new' e3 e4]
  rfl

/-- C106: on an image without columns all three programs panic (`par_chunks_mut(0)`). -/
theorem C106_no_columns (t : Target) (dbg : Bool) (M : Maker τ σ ρ) (S : Scene α σ n) (z : Size) (hz : z.w = 0) (len : Nat) (work : List (List Nat × τ)) :
    parScalar F M S z len work = .error .panic ∧ parVector F t dbg M S z len work = .error .panic ∧ parTiled F dbg M S z len work = .error .panic := by
  have : ∀ pixels : Window → Nat → σ → Prog α σ, parThreads M z len pixels work = .error .panic := by
    intro pixels
    unfold parThreads
    rw [if_pos (by omega)]
  refine ⟨this _, this _, ?_⟩
  unfold parTiled
  rw [hz, Nat.zero_mod, if_pos rfl]
  exact this _

/-- C106: if the width is not a multiple of the number of lanes, the tiled program panics before it renders anything. -/
theorem C106_tiled_width (dbg : Bool) (M : Maker τ σ ρ) (S : Scene α σ n) (z : Size) (hz : ¬ n ∣ z.w) (len : Nat) (work : List (List Nat × τ)) :
    parTiled F dbg M S z len work = .error .panic :=
  if_neg fun h => hz (Nat.dvd_of_mod_eq_zero h)

end

/-! ### C105: an image that is too short -/

/-- A square root good enough for the example: rounded down in units of `2^-149`, then to `f32`. -/
def rootF (x : F32) : F32 := ⟨Flt.roundInt 32 23 false (Nat.sqrt ((Flt.units 23 x.bits).toNat * 2 ^ 149)) 1⟩
/-- `f32` arithmetic with this square root. -/
def sampleF32 : Fns F32 := f32 (fun a b c => a * b + c) rootF rootF id id ⟨0x40490fdb⟩ fun x => (x, x)

theorem gather_empty {α : Type} {n : Nat} (m : Vec Bool n) (p : Vec Nat n) (d : α) (h : many m = true) : (gather m p d).run ([] : List α) = .error .ub := by
  unfold gather
  have key : ∀ (L : List (Fin n)) (r : Vec α n), (∃ i ∈ L, m[i] = true) →
      (L.foldlM (fun (r : Vec α n) (i : Fin n) => if m[i] = true then (Prog.load p[i] fun x => .ret (r.set i x) : Prog α (Vec α n)) else .ret r) r).run [] = .error .ub := by
    intro L
    induction L with
    | nil => rintro r ⟨i, hi, -⟩; simp at hi
    | cons j L ih =>
      rintro r ⟨i, hi, hm⟩
      rw [List.foldlM_cons, run_bind]
      by_cases hj : m[j] = true
      · rw [if_pos hj]
        rfl
      · rw [if_neg hj]
        rcases List.mem_cons.1 hi with rfl | hi
        · exact (hj hm).elim
        · exact ih r ⟨i, hi, hm⟩
  obtain ⟨i, hi, hm⟩ := many_true.1 h
  exact key _ _ ⟨⟨i, hi⟩, List.mem_finRange _, hm⟩

/-- What the first rays of a packet do, of a 4 × 3 image. -/
def firstHit (y : Nat) : R (Vec Bool 4) := (castN sampleF32 false (scenePlane sampleF32) (sceneSpheres sampleF32) ⟨V3N.zero sampleF32 4, dirTiled sampleF32 4 ⟨4, 3, 1⟩ 0 y 0 0⟩).map IsectN.hit

theorem firstHit_eq : firstHit 0 = .ok #v[false, false, false, false] ∧ firstHit 1 = .ok #v[false, false, false, false] ∧ firstHit 2 = .ok #v[true, true, true, true] := by
  decide +kernel

/-- C105: if `fdata`, which is public, is shorter than the image, the tiled program has undefined behaviour: here a 4 × 3 image with empty `fdata`, the test scene,
one sample per pixel (release build). -/
theorem C105_short_fails (g : AoRandom.Rng) : (aoImageTiled sampleF32 false (testScene sampleF32 4) ⟨4, 3, 1⟩ (TestState.default g).1).run [] = .error .ub := by
  obtain ⟨h0, h1, h2⟩ := firstHit_eq
  have miss : ∀ y s, firstHit y = .ok #v[false, false, false, false] → (sampleTiled sampleF32 false (testScene sampleF32 4) ⟨4, 3, 1⟩ (3 * (y * 4 + 0 * 4)) (0 * 4) y 0 s 0).run [] = .ok (s, []) := by
    intro y s h
    unfold firstHit at h
    unfold sampleTiled
    rw [run_bind, run_lift]
    rw [show (testScene sampleF32 4).plane = scenePlane sampleF32 from rfl, show (testScene sampleF32 4).spheres = sceneSpheres sampleF32 from rfl, Nat.zero_mul]
    cases hc : castN sampleF32 false (scenePlane sampleF32) (sceneSpheres sampleF32) ⟨V3N.zero sampleF32 4, dirTiled sampleF32 4 ⟨4, 3, 1⟩ 0 y 0 0⟩ with
    | error e => rw [hc] at h; cases h
    | ok is =>
      rw [hc] at h
      have hh : is.hit = _ := Except.ok.inj h
      simp only [Except.map, R_ok_bind]
      rw [hh, if_neg (by decide)]
      rfl
  have hit : ∀ y s, GoodTest s → firstHit y = .ok #v[true, true, true, true] → (sampleTiled sampleF32 false (testScene sampleF32 4) ⟨4, 3, 1⟩ (3 * (y * 4 + 0 * 4)) (0 * 4) y 0 s 0).run [] = .error .ub := by
    intro y s hs h
    unfold firstHit at h
    unfold sampleTiled
    rw [run_bind, run_lift]
    rw [show (testScene sampleF32 4).plane = scenePlane sampleF32 from rfl, show (testScene sampleF32 4).spheres = sceneSpheres sampleF32 from rfl, Nat.zero_mul]
    cases hc : castN sampleF32 false (scenePlane sampleF32) (sceneSpheres sampleF32) ⟨V3N.zero sampleF32 4, dirTiled sampleF32 4 ⟨4, 3, 1⟩ 0 y 0 0⟩ with
    | error e => rw [hc] at h; cases h
    | ok is =>
      rw [hc] at h
      have hh : is.hit = _ := Except.ok.inj h
      have hm : many is.hit = true := by rw [hh]; decide
      simp only [Except.map, R_ok_bind]
      rw [if_pos hm, run_bind, run_lift]
      obtain ⟨r, hr⟩ := C101_tiled sampleF32 s hs is
      rw [hr]
      simp only [Except.map, R_ok_bind]
      rw [run_bind, gather_empty _ _ _ hm]
      rfl
  unfold aoImageTiled rowTiled pixelTiled loop
  simp only [
    show (4 + 4 - 1) / 4 = 1 from rfl, show List.range 1 = [0] from rfl, show List.range 3 = [0, 1, 2] from rfl, List.foldlM_cons, List.foldlM_nil, bind_pure]
  rw [if_pos trivial, run_bind, miss 0 _ h0, R_ok_bind, run_bind]
  dsimp only
  rw [miss 1 _ h1, R_ok_bind]
  dsimp only
  rw [hit 2 _ (C101_default g) h2]

/-! ### The hypotheses of C105 and C106 can be met -/

section
variable {α : Type} [Add α] [Sub α] [Mul α] [Div α] [Neg α] {n : Nat} (F : Fns α)

/-- No ray changes the test scene. -/
theorem test_shade (s : TestState α) (h : GoodTest s) (dir : V3 α) : ∃ a, shadeScalar F (testScene F n) dir s = .ok (a, s) := by
  unfold shadeScalar
  dsimp only
  split
  · exact C101_scalar F s h _
  · exact ⟨_, rfl⟩

theorem test_shadeVector [LaneCount n] (hn : n ∣ 8) (t : Target) (s : TestState α) (h : GoodTest s) (dir : V3 α) :
    ∃ a, shadeVector F t false (testScene F n) dir s = .ok (a, s) := by
  unfold shadeVector
  dsimp only
  split
  · exact C101_vector hn F t s h _
  · exact ⟨_, rfl⟩

theorem test_tiled (z : Size) (s : TestState α) (h : GoodTest s) (dir : V3N α n) (c : Vec α n) :
    ∃ a, tiledSample F false (testScene F n) z dir c s = .ok (a, s) := by
  unfold tiledSample
  obtain ⟨i, hi⟩ := castN_release F (testScene F n).plane (testScene F n).spheres (⟨V3N.zero F n, dir⟩ : Ray (Vec α n))
  rw [hi, R_ok_bind]
  split
  · obtain ⟨r, hr⟩ := C101_tiled F s h i
    rw [hr]
    exact ⟨_, rfl⟩
  · exact ⟨_, rfl⟩

-- C106_scalar_is_serial and the others: a test scene whose numbers do not change from row to row
example (s : TestState α) (h : GoodTest s) :
    (∀ g : Unit, ((⟨fun _ => (s, ()), fun _ _ => ()⟩ : Maker Unit (TestState α) Unit).new g).1 = s) ∧ (∀ dir, ∃ a, shadeScalar F (testScene F 4) dir s = .ok (a, s)) ∧
    EachRowOnce 3 [([2, 0], ()), ([1], ())] :=
  ⟨fun _ => rfl, test_shade F s h, by unfold EachRowOnce; decide⟩

/-- C106 applies to the test scene as it is, with new random numbers for every row. -/
theorem test_rowsOf (F : Fns F32) (z : Size) (old : List (List F32)) (ys : List Nat) : ∀ g, ∃ rs, rowsOf testMaker (fun y (r : List F32) s => render (fun k c s => do
      let (sum, s) ← addUp (fun j s => shadeScalar F (testScene F n) (sampleOf z (dirScalar F z) k j) s) (z.ns * z.ns) c s
      return (sum / F.ofUsize (z.ns * z.ns), s)) (z.w * y) r s) old ys g = .ok rs := by
  induction ys with
  | nil => intro g; exact ⟨[], rfl⟩
  | cons y ys ih =>
    intro g
    have hs : GoodTest (testMaker.new g).1 := C101_default g
    obtain ⟨h1, -⟩ := render_rows (fun k c s => do
      let (sum, s) ← addUp (fun j s => shadeScalar F (testScene F n) (sampleOf z (dirScalar F z) k j) s) (z.ns * z.ns) c s
      return (sum / F.ofUsize (z.ns * z.ns), s)) (testMaker.new g).1 (fun k c => by
        obtain ⟨a, ha⟩ := addUp_stays (fun j s => shadeScalar F (testScene F n) (sampleOf z (dirScalar F z) k j) s) _ (fun j => test_shade F _ hs _) (z.ns * z.ns) c
        exact ⟨a / F.ofUsize (z.ns * z.ns), by rw [ha]; rfl⟩) z.w
    obtain ⟨r, hr⟩ := h1 (old[y]?.getD []) (z.w * y)
    obtain ⟨rs, hrs⟩ := ih (testMaker.finish (testMaker.new g).1 (testMaker.new g).2)
    unfold rowsOf
    dsimp only
    rw [hr, R_ok_bind]
    dsimp only
    rw [hrs]
    exact ⟨_, rfl⟩

example (g g' : AoRandom.Rng) (F : Fns F32) : let old := List.replicate 3 (List.replicate 4 (F.lit 0))
    ∃ (ts : List (Prog F32 AoRandom.Rng)) (new : List (List F32)), parScalar F testMaker (testScene F 4) ⟨4, 3, 2⟩ (gray old.flatten).length [([2, 0], g), ([1], g')] = .ok ts ∧
      AlwaysEndsWith ts (gray old.flatten) (gray new.flatten) ∧ new.length = 3 := by
  intro old
  obtain ⟨ts, new, h1, h2, h3, -⟩ := C106_scalar F testMaker (testScene F 4) ⟨4, 3, 2⟩ (by decide) old (by simp [old])
    (fun r hr => by rw [List.eq_of_mem_replicate hr]; simp) [([2, 0], g), ([1], g')] (by unfold EachRowOnce; exact (by decide : [2, 0, 1].Perm (List.range 3)))
    (fun p hp => test_rowsOf F _ old p.1 p.2)
  exact ⟨ts, new, h1, h2, h3⟩

-- C105_parallel: a length which is no whole number of rows; the thread which gets the last chunk panics
example (g : AoRandom.Rng) : EachRowOnce (chunkCount 4 29) [([2, 0], g), ([1], g)] := by unfold EachRowOnce; exact (by decide : [2, 0, 1].Perm (List.range 3))

end

end PackedSimd.Props
