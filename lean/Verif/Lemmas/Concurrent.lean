import Verif.Spec.Concurrent
import Verif.Lemmas.Sums
/-
Threads that access disjoint parts of the memory.
-/
namespace PackedSimd
open Spec

namespace Prog
variable {α β γ : Type}

theorem run_bind (p : Prog α β) (f : β → Prog α γ) : ∀ m, (p >>= f).run m = (p.run m >>= fun q => (f q.1).run q.2) := by
  show ∀ m, (p.bind f).run m = _
  induction p with
  | ret b => intro m; rfl
  | fault e => intro m; rfl
  | load i k ih =>
    intro m
    show (if h : i < m.length then ((k m[i]).bind f).run m else .error .ub) = ((if h : i < m.length then (k m[i]).run m else .error .ub) >>= _)
    split
    · exact ih _ _
    · rfl
  | store i x k ih =>
    intro m
    show (if i < m.length then (k.bind f).run (m.set i x) else .error .ub) = ((if i < m.length then k.run (m.set i x) else .error .ub) >>= _)
    split
    · exact ih _
    · rfl

theorem run_pure (b : β) (m : List α) : (pure b : Prog α β).run m = .ok (b, m) := rfl
theorem run_lift (r : R β) (m : List α) : (lift r : Prog α β).run m = r.map fun b => (b, m) := by cases r <;> rfl

theorem run_foldlM {ι σ : Type} (body : σ → ι → Prog α σ) : ∀ (l : List ι) (s : σ) (m : List α),
    (l.foldlM body s).run m = l.foldlM (fun q i => (body q.1 i).run q.2) (s, m) := by
  intro l
  induction l with
  | nil => intro s m; rfl
  | cons i l ih =>
    intro s m
    rw [List.foldlM_cons, run_bind, List.foldlM_cons]
    cases (body s i).run m with
    | error e => rfl
    | ok q => exact ih q.1 q.2

/-! ### Confinement -/

theorem confined_bind {O : Nat → Prop} (p : Prog α β) (f : β → Prog α γ) (hp : Confined O p) (hf : ∀ b, Confined O (f b)) : Confined O (p >>= f) := by
  show Confined O (p.bind f)
  induction p with
  | ret b => exact hf b
  | fault e => trivial
  | load i k ih => exact ⟨hp.1, fun x => ih x (hp.2 x)⟩
  | store i x k ih => exact ⟨hp.1, ih hp.2⟩

theorem confined_lift {O : Nat → Prop} (r : R β) : Confined O (lift r : Prog α β) := by cases r <;> trivial

theorem confined_foldlM {O : Nat → Prop} {ι σ : Type} (body : σ → ι → Prog α σ) (l : List ι) (h : ∀ i ∈ l, ∀ s, Confined O (body s i)) :
    ∀ s, Confined O (l.foldlM body s) := by
  induction l with
  | nil => intro s; trivial
  | cons i l ih =>
    intro s
    rw [List.foldlM_cons]
    exact confined_bind _ _ (h i (by simp) s) fun b => ih (fun i hi => h i (by simp [hi])) b

theorem Confined.mono {O O' : Nat → Prop} (p : Prog α β) (h : ∀ i, O i → O' i) (hp : Confined O p) : Confined O' p := by
  induction p with
  | ret b => trivial
  | fault e => trivial
  | load i k ih => exact ⟨h _ hp.1, fun x => ih x (hp.2 x)⟩
  | store i x k ih => exact ⟨h _ hp.1, ih hp.2⟩

/-- A store outside of the part of the memory a thread uses commutes with the thread. -/
theorem run_set {O : Nat → Prop} (p : Prog α β) (hp : Confined O p) (i : Nat) (hi : ¬ O i) (x : α) : ∀ m,
    p.run (m.set i x) = (p.run m).map fun q => (q.1, q.2.set i x) := by
  induction p with
  | ret b => intro m; rfl
  | fault e => intro m; rfl
  | load a k ih =>
    intro m
    have hne : i ≠ a := fun h => hi (h ▸ hp.1)
    unfold run
    simp only [List.length_set]
    split
    · rw [List.getElem_set_ne hne, ih _ (hp.2 _)]
    · rfl
  | store a y k ih =>
    intro m
    have hne : i ≠ a := fun h => hi (h ▸ hp.1)
    unfold run
    simp only [List.length_set]
    split
    · rw [← List.set_comm _ _ hne.symm, ih hp.2]
    · rfl

/-- A thread leaves the elements it does not use alone. -/
theorem run_frame {O : Nat → Prop} (p : Prog α β) (hp : Confined O p) : ∀ m b m', p.run m = .ok (b, m') →
    m'.length = m.length ∧ ∀ i, ¬ O i → m'[i]? = m[i]? := by
  induction p with
  | ret b => intro m b m' h; cases h; exact ⟨rfl, fun _ _ => rfl⟩
  | fault e => intro m b m' h; cases h
  | load a k ih =>
    intro m b m' h
    unfold run at h
    split at h
    · exact ih _ (hp.2 _) _ _ _ h
    · cases h
  | store a y k ih =>
    intro m b m' h
    unfold run at h
    split at h
    · obtain ⟨h1, h2⟩ := ih hp.2 _ _ _ h
      refine ⟨by simpa using h1, fun i hi => ?_⟩
      rw [h2 i hi, List.getElem?_set_ne]
      rintro rfl
      exact hi hp.1
    · cases h

/-! ### One access can be moved to the front -/

theorem runAll_cons (t : Prog α β) (ts : List (Prog α β)) (m : List α) : runAll (t :: ts) m = (t.run m >>= fun q => runAll ts q.2) := by
  unfold runAll
  rw [List.foldlM_cons]
  cases t.run m <;> rfl

/-- Making the next access of thread `j` first does not change what running all threads one after the other does. -/
theorem runAll_step {O : Nat → Nat → Prop} (hd : Spec.Disjoint O) : ∀ (ts : List (Prog α β)) (m : List α) (c' : List (Prog α β) × List α),
    (∃ j0, ∀ (j : Nat) t, ts[j]? = some t → Confined (O (j + j0)) t) → Step (ts, m) c' → ∀ r, runAll ts m = .ok r → runAll c'.1 c'.2 = .ok r := by
  intro ts
  induction ts with
  | nil =>
    intro m c' _ hs
    cases hs with
    | load _ _ j i k h hi => simp at h
    | store _ _ j i x k h hi => simp at h
  | cons t ts ih =>
    intro m c' ⟨j0, hc⟩ hs r hr
    have hts : ∃ j0, ∀ (j : Nat) t, ts[j]? = some t → Confined (O (j + j0)) t :=
      ⟨1 + j0, fun j t' h => by rw [← Nat.add_assoc]; exact hc (j + 1) t' (by simpa using h)⟩
    have h0 : Confined (O j0) t := by simpa using hc 0 t (by simp)
    rw [runAll_cons] at hr
    cases ht : t.run m with
    | error e => rw [ht] at hr; cases hr
    | ok q =>
      rw [ht, R_ok_bind] at hr
      obtain ⟨f1, f2⟩ := run_frame t h0 m q.1 q.2 ht
      cases hs with
      | load _ _ j i k h hi =>
        cases j with
        | zero =>
          simp only [List.getElem?_cons_zero, Option.some.injEq] at h
          subst h
          unfold run at ht
          rw [dif_pos hi] at ht
          show runAll (k m[i] :: ts) m = _
          rw [runAll_cons, ht]
          exact hr
        | succ j =>
          simp only [List.getElem?_cons_succ] at h
          have hOi : O (j + 1 + j0) i := (hc (j + 1) (.load i k) (by simpa using h)).1
          have hne : ¬ O j0 i := fun h' => by have := hd _ _ _ hOi h'; omega
          have hi' : i < q.2.length := by omega
          have he : q.2[i] = m[i] := by
            have := f2 i hne
            rw [List.getElem?_eq_getElem hi, List.getElem?_eq_getElem hi'] at this
            exact Option.some.inj this
          show runAll (t :: ts.set j (k m[i])) m = _
          rw [runAll_cons, ht, R_ok_bind, ← he]
          exact ih q.2 _ hts (Step.load ts q.2 j i k h hi') r hr
      | store _ _ j i x k h hi =>
        cases j with
        | zero =>
          simp only [List.getElem?_cons_zero, Option.some.injEq] at h
          subst h
          unfold run at ht
          rw [if_pos hi] at ht
          show runAll (k :: ts) (m.set i x) = _
          rw [runAll_cons, ht]
          exact hr
        | succ j =>
          simp only [List.getElem?_cons_succ] at h
          have hOi : O (j + 1 + j0) i := (hc (j + 1) (.store i x k) (by simpa using h)).1
          have hne : ¬ O j0 i := fun h' => by have := hd _ _ _ hOi h'; omega
          have hi' : i < q.2.length := by omega
          show runAll (t :: ts.set j k) (m.set i x) = _
          rw [runAll_cons, run_set t h0 i hne, ht]
          exact ih q.2 _ hts (Step.store ts q.2 j i x k h hi') r hr

theorem allConfined_step {O : Nat → Nat → Prop} {c c' : List (Prog α β) × List α} (h : AllConfined O c.1) (hs : Step c c') : AllConfined O c'.1 := by
  cases hs with
  | load ts m j i k h' hi =>
    intro j' t ht
    have hj : j < ts.length := by
      by_contra hh
      rw [List.getElem?_eq_none (by omega)] at h'
      cases h'
    dsimp only at ht
    by_cases hjj : j = j'
    · subst hjj
      rw [List.getElem?_set_self hj] at ht
      cases ht
      exact (h j _ h').2 _
    · rw [List.getElem?_set_ne hjj] at ht
      exact h j' t ht
  | store ts m j i x k h' hi =>
    intro j' t ht
    have hj : j < ts.length := by
      by_contra hh
      rw [List.getElem?_eq_none (by omega)] at h'
      cases h'
    dsimp only at ht
    by_cases hjj : j = j'
    · subst hjj
      rw [List.getElem?_set_self hj] at ht
      cases ht
      exact (h j _ h').2
    · rw [List.getElem?_set_ne hjj] at ht
      exact h j' t ht

/-- Threads that succeed one after the other: some thread can go on, or all are done. -/
theorem progress : ∀ (ts : List (Prog α β)) (m r : List α), runAll ts m = .ok r → (∃ c', Step (ts, m) c') ∨ ((∀ t ∈ ts, Done t) ∧ r = m) := by
  intro ts
  induction ts with
  | nil => intro m r h; cases h; exact Or.inr ⟨by simp, rfl⟩
  | cons t ts ih =>
    intro m r h
    rw [runAll_cons] at h
    cases t with
    | ret b =>
      rcases ih m r h with ⟨c', hs⟩ | ⟨h1, h2⟩
      · left
        cases hs with
        | load _ _ j i k h' hi => exact ⟨_, Step.load _ m (j + 1) i k (by simpa using h') hi⟩
        | store _ _ j i x k h' hi => exact ⟨_, Step.store _ m (j + 1) i x k (by simpa using h') hi⟩
      · right
        refine ⟨?_, h2⟩
        intro t ht
        rcases List.mem_cons.1 ht with rfl | ht
        · exact ⟨b, rfl⟩
        · exact h1 t ht
    | fault e => cases h
    | load i k =>
      left
      unfold run at h
      by_cases hi : i < m.length
      · exact ⟨_, Step.load _ m 0 i k rfl hi⟩
      · rw [dif_neg hi] at h; cases h
    | store i x k =>
      left
      unfold run at h
      by_cases hi : i < m.length
      · exact ⟨_, Step.store _ m 0 i x k rfl hi⟩
      · rw [if_neg hi] at h; cases h

theorem steps_inv {O : Nat → Nat → Prop} (hd : Spec.Disjoint O) {c c' : List (Prog α β) × List α} (h : AllConfined O c.1) {r : List α}
    (hr : runAll c.1 c.2 = .ok r) (hs : Steps c c') : AllConfined O c'.1 ∧ runAll c'.1 c'.2 = .ok r := by
  induction hs with
  | refl => exact ⟨h, hr⟩
  | step b c'' _ hstep ih =>
    obtain ⟨i1, i2⟩ := ih
    exact ⟨allConfined_step i1 hstep, runAll_step hd b.1 b.2 _ ⟨0, i1⟩ hstep r i2⟩

theorem no_race {O : Nat → Nat → Prop} (hd : Spec.Disjoint O) {ts : List (Prog α β)} (h : AllConfined O ts) : ¬ Race ts := by
  rintro ⟨j, j', t, t', i, a, b, hne, h1, h2, h3, h4, _⟩
  have own : ∀ j t i a, ts[j]? = some t → nextAccess t = some (i, a) → O j i := by
    intro j t i a h1 h2
    have := h j t h1
    cases t with
    | ret b => cases h2
    | fault e => cases h2
    | load => cases h2; exact this.1
    | store => cases h2; exact this.1
  exact hne (hd _ _ _ (own _ _ _ _ h1 h3) (own _ _ _ _ h2 h4))

/-! ### Termination: every step makes the threads smaller -/

/-- What is left of a thread after an access. -/
def Rest (t' t : Prog α β) : Prop := (∃ i k x, t = .load i k ∧ t' = k x) ∨ (∃ i x, t = .store i x t')

theorem rest_acc (t : Prog α β) : Acc Rest t := by
  induction t with
  | ret b => exact ⟨_, by rintro _ (⟨_, _, _, h, _⟩ | ⟨_, _, h⟩) <;> cases h⟩
  | fault e => exact ⟨_, by rintro _ (⟨_, _, _, h, _⟩ | ⟨_, _, h⟩) <;> cases h⟩
  | load i k ih => exact ⟨_, by rintro _ (⟨_, _, x, h, rfl⟩ | ⟨_, _, h⟩) <;> cases h; exact ih x⟩
  | store i x k ih => exact ⟨_, by rintro _ (⟨_, _, _, h, _⟩ | ⟨_, _, h⟩) <;> cases h; exact ih⟩

def RestAt (ts' ts : List (Prog α β)) : Prop := ∃ (j : Nat) (t t' : Prog α β), ts[j]? = some t ∧ Rest t' t ∧ ts' = ts.set j t'

theorem restAt_acc : ∀ ts : List (Prog α β), Acc RestAt ts := by
  intro ts
  induction ts with
  | nil => exact ⟨_, by rintro _ ⟨j, t, t', h, _⟩; simp at h⟩
  | cons t ts ih =>
    have ht := rest_acc t
    induction ht generalizing ts with
    | intro t _ iht =>
      induction ih with
      | intro ts hts ihts =>
        constructor
        rintro _ ⟨j, a, a', h, hr, rfl⟩
        cases j with
        | zero =>
          simp only [List.getElem?_cons_zero, Option.some.injEq] at h
          subst h
          exact iht a' hr ts ⟨_, hts⟩
        | succ j => exact ihts (ts.set j a') ⟨j, a, a', by simpa using h, hr, rfl⟩

/-- There is no infinite execution. -/
theorem step_wf : WellFounded fun (c' c : List (Prog α β) × List α) => Step c c' := by
  have : ∀ c' c : List (Prog α β) × List α, Step c c' → RestAt c'.1 c.1 := by
    intro c' c h
    cases h with
    | load ts m j i k h hi => exact ⟨j, _, _, h, Or.inl ⟨i, k, _, rfl, rfl⟩, rfl⟩
    | store ts m j i x k h hi => exact ⟨j, _, _, h, Or.inr ⟨i, x, rfl⟩, rfl⟩
  exact Subrelation.wf (this _ _) (InvImage.wf Prod.fst ⟨restAt_acc⟩)

theorem alwaysEndsWith {O : Nat → Nat → Prop} (hd : Spec.Disjoint O) {ts : List (Prog α β)} (h : AllConfined O ts) {m r : List α}
    (hr : runAll ts m = .ok r) : AlwaysEndsWith ts m r := by
  constructor
  · intro c hc
    obtain ⟨h1, h2⟩ := steps_inv hd h hr hc
    refine ⟨no_race hd h1, ?_⟩
    rcases progress c.1 c.2 r h2 with h3 | ⟨h3, h4⟩
    · exact Or.inl h3
    · exact Or.inr ⟨h3, h4.symm⟩
  · rintro ⟨f, -, hf⟩
    have : ∀ c, ∀ k, f k ≠ c := by
      intro c
      induction c using step_wf.induction with
      | h c ih => intro k hk; exact ih (f (k + 1)) (hk ▸ hf k) (k + 1) rfl
    exact this _ 0 rfl

/-- A thread that has ended makes no access. -/
theorem done_stuck {ts : List (Prog α β)} (h : ∀ t ∈ ts, Done t) {m : List α} {c : List (Prog α β) × List α} : ¬ Step (ts, m) c := by
  intro hs
  cases hs with
  | load _ _ j i k hj hi => obtain ⟨b, e⟩ := h _ (List.mem_of_getElem? hj); cases e
  | store _ _ j i x k hj hi => obtain ⟨b, e⟩ := h _ (List.mem_of_getElem? hj); cases e

theorem _root_.PackedSimd.Spec.AlwaysEndsWith.final {ts ts' : List (Prog α β)} {m m' r : List α} (h : AlwaysEndsWith ts m r) (hs : Steps (ts, m) (ts', m'))
    (hd : ∀ t ∈ ts', Done t) : m' = r := by
  rcases (h.1 _ hs).2 with ⟨c, hc⟩ | ⟨-, e⟩
  · exact absurd hc (done_stuck hd)
  · exact e

theorem _root_.PackedSimd.Spec.AlwaysEndsWith.reached {ts : List (Prog α β)} {m r : List α} (h : AlwaysEndsWith ts m r) :
    ∃ ts', Steps (ts, m) (ts', r) ∧ ∀ t ∈ ts', Done t := by
  have : ∀ c : List (Prog α β) × List α, Steps (ts, m) c → ∃ ts', Steps (ts, m) (ts', r) ∧ ∀ t ∈ ts', Done t := by
    intro c
    induction c using step_wf.induction with
    | h c ih =>
      intro hc
      rcases (h.1 _ hc).2 with ⟨c', hc'⟩ | ⟨hd, e⟩
      · exact ih c' hc' (.step _ _ _ hc hc')
      · obtain ⟨ts', m'⟩ := c
        cases e
        exact ⟨ts', hc, hd⟩
  exact this _ (.refl _)

theorem alwaysSafe {O : Nat → Nat → Prop} (hd : Spec.Disjoint O) {ts : List (Prog α β)} (h : AllConfined O ts) {m : List α}
    (hm : ∀ j i, O j i → i < m.length) : AlwaysSafe ts m := by
  intro c hc
  have : AllConfined O c.1 ∧ c.2.length = m.length := by
    generalize hb : (ts, m) = b at hc
    induction hc with
    | refl => subst hb; exact ⟨h, rfl⟩
    | step b c _ hs ih =>
      obtain ⟨i1, i2⟩ := ih
      refine ⟨allConfined_step i1 hs, ?_⟩
      cases hs with
      | load => exact i2
      | store => simpa using i2
  obtain ⟨h1, h2⟩ := this
  refine ⟨no_race hd h1, h2, fun j t i a ht ha => ?_⟩
  have := h1 j t ht
  rw [h2]
  cases t with
  | ret b => cases ha
  | fault e => cases ha
  | load => cases ha; exact hm j _ this.1
  | store => cases ha; exact hm j _ this.1

end Prog
end PackedSimd
