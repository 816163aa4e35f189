import Verif.Lemmas.AoImage
/-
The parallel programs of aobench: what their threads access, and what running them one after the other does.
-/
namespace PackedSimd.Ex.Ao
open Spec Spec.Ao Prog V3N

variable {α σ τ ρ : Type} {n : Nat}

/-! ### Accesses -/

/-- The elements of a window. -/
def Window.Has (w : Window) (i : Nat) : Prop := w.base ≤ i ∧ i < w.base + w.len

theorem supdate_confined (w : Window) (j : Nat) (f : α → α) : Confined w.Has (supdate w j f) := by
  unfold supdate sload sstore
  by_cases h : j < w.len
  · simp only [if_pos h]
    exact ⟨⟨Nat.le_add_right _ _, by omega⟩, fun x => ⟨⟨Nat.le_add_right _ _, by omega⟩, trivial⟩⟩
  · simp only [if_neg h]
    trivial

theorem pixelUpdate_confined (w : Window) (o : Nat) (f : α → α) : Confined w.Has (pixelUpdate w o f) :=
  confined_bind _ _ (supdate_confined ..) fun _ => confined_bind _ _ (supdate_confined ..) fun _ => supdate_confined ..

theorem gather_confined (O : Nat → Prop) (m : Vec Bool n) (p : Vec Nat n) (d : α) (h : ∀ i : Fin n, O p[i]) : Confined O (gather m p d) := by
  unfold gather
  refine confined_foldlM _ _ (fun i _ r => ?_) _
  split
  · exact ⟨h i, fun _ => trivial⟩
  · trivial

theorem scatter_confined (O : Nat → Prop) (m : Vec Bool n) (p : Vec Nat n) (v : Vec α n) (h : ∀ i : Fin n, O p[i]) : Confined O (scatter m p v) := by
  unfold scatter
  refine confined_foldlM _ _ (fun i _ r => ?_) _
  split
  · exact ⟨h i, trivial⟩
  · trivial

section
variable [Add α] [Sub α] [Mul α] [Div α] [Neg α] (F : Fns α)

theorem pixelScalar_confined (S : Scene α σ n) (z : Size) (win : Window) (o x y : Nat) (s : σ) : Confined win.Has (pixelScalar F S z win o x y s) := by
  unfold pixelScalar loop
  refine confined_bind _ _ (confined_foldlM _ _ (fun u _ s => confined_foldlM _ _ (fun v _ s => ?_) s) s) fun s => ?_
  · exact confined_bind _ _ (confined_lift _) fun p => confined_bind _ _ (pixelUpdate_confined ..) fun _ => trivial
  · exact confined_bind _ _ (pixelUpdate_confined ..) fun _ => trivial

theorem pixelVector_confined (t : Target) (dbg : Bool) (S : Scene α σ n) (z : Size) (dir : Nat → Nat → Nat → Nat → V3 α) (win : Window) (o x y : Nat) (s : σ) :
    Confined win.Has (pixelVector F t dbg S z dir win o x y s) := by
  unfold pixelVector loop
  refine confined_foldlM _ _ (fun u _ s => confined_foldlM _ _ (fun v _ s => ?_) s) s
  exact confined_bind _ _ (confined_lift _) fun p => confined_bind _ _ (pixelUpdate_confined ..) fun _ => trivial

theorem pixelTiled_confined (O : Nat → Prop) (dbg : Bool) (S : Scene α σ n) (z : Size) (o x y : Nat) (s : σ) (h : ∀ i, i < 3 * n → O (o + i)) :
    Confined O (pixelTiled F dbg S z o x y s) := by
  unfold pixelTiled loop
  refine confined_foldlM _ _ (fun u _ s => confined_foldlM _ _ (fun v _ s => ?_) s) s
  have hp : ∀ c, c < 3 → ∀ i : Fin n, O (pixelPtrs n o c)[i] := by
    intro c hc i
    unfold pixelPtrs
    rw [Fin.getElem_fin, Vector.getElem_ofFn]
    exact h _ (by have := i.isLt; dsimp only; omega)
  unfold sampleTiled
  refine confined_bind _ _ (confined_lift _) fun is => ?_
  dsimp only
  split
  · refine confined_bind _ _ (confined_lift _) fun q => ?_
    refine confined_bind _ _ (gather_confined O _ _ _ (hp 0 (by omega))) fun _ => ?_
    refine confined_bind _ _ (gather_confined O _ _ _ (hp 1 (by omega))) fun _ => ?_
    refine confined_bind _ _ (gather_confined O _ _ _ (hp 2 (by omega))) fun _ => ?_
    refine confined_bind _ _ (scatter_confined O _ _ _ (hp 0 (by omega))) fun _ => ?_
    refine confined_bind _ _ (scatter_confined O _ _ _ (hp 1 (by omega))) fun _ => ?_
    exact confined_bind _ _ (scatter_confined O _ _ _ (hp 2 (by omega))) fun _ => trivial
  · trivial

/-- A row of packets accesses only elements of the row. -/
theorem rowTiled_confined (hn : 0 < n) (dbg : Bool) (S : Scene α σ n) (z : Size) (hw : z.w % n = 0) (s : σ) (y : Nat) :
    Confined (Window.Has ⟨3 * z.w * y, 3 * z.w⟩) (rowTiled F dbg S z s y) := by
  unfold rowTiled loop
  refine confined_foldlM _ _ (fun j hj s => pixelTiled_confined F _ dbg S z _ _ _ s fun i hi => ?_) s
  obtain ⟨q, hq⟩ := Nat.dvd_of_mod_eq_zero hw
  have hj := List.mem_range.1 hj
  rw [hq, show n * q + n - 1 = n - 1 + n * q by omega, Nat.add_mul_div_left _ _ hn, Nat.div_eq_of_lt (by omega), Nat.zero_add] at hj
  have h1 : n * (j + 1) ≤ n * q := Nat.mul_le_mul_left n hj
  have h2 : 3 * (y * z.w + j * n) = 3 * z.w * y + 3 * (n * j) := by ring
  unfold Window.Has
  dsimp only
  rw [h2]
  rw [Nat.mul_succ, ← hq] at h1
  omega

end

/-! ### Threads -/

/-- Elements of rows. -/
def OwnsRows (w len : Nat) (ys : List Nat) (i : Nat) : Prop := ∃ y ∈ ys, 3 * w * y ≤ i ∧ i < 3 * w * (y + 1) ∧ i < len

theorem rowTask_confined (M : Maker τ σ ρ) (z : Size) (len : Nat) (pixels : Window → Nat → σ → Prog α σ)
    (h : ∀ y s, Confined (Window.Has ⟨3 * z.w * y, 3 * z.w⟩) (pixels ⟨3 * z.w * y, 3 * z.w⟩ y s)) (ys : List Nat) (g : τ) (y : Nat) (hy : y ∈ ys) :
    Confined (OwnsRows z.w len ys) (rowTask M z len pixels g y) := by
  unfold rowTask
  dsimp only
  by_cases hc : (chunk z.w len y).len = 3 * z.w
  · rw [if_pos hc]
    have he : chunk z.w len y = ⟨3 * z.w * y, 3 * z.w⟩ := by
      show (⟨3 * z.w * y, (chunk z.w len y).len⟩ : Window) = _
      rw [hc]
    refine confined_bind _ _ ?_ fun _ => trivial
    rw [he]
    refine Confined.mono _ ?_ (h y _)
    rintro i ⟨h1, h2⟩
    have h3 : min (3 * z.w) (len - 3 * z.w * y) = 3 * z.w := hc
    dsimp only at h1 h2
    exact ⟨y, hy, h1, by rw [Nat.mul_succ]; omega, by omega⟩
  · rw [if_neg hc]
    trivial

theorem threads_confined (M : Maker τ σ ρ) (z : Size) (len : Nat) (pixels : Window → Nat → σ → Prog α σ)
    (h : ∀ y s, Confined (Window.Has ⟨3 * z.w * y, 3 * z.w⟩) (pixels ⟨3 * z.w * y, 3 * z.w⟩ y s)) (work : List (List Nat × τ)) :
    AllConfined (fun j => OwnsRows z.w len ((work[j]?.map Prod.fst).getD [])) (work.map fun p => p.1.foldlM (rowTask M z len pixels) p.2) := by
  intro j t ht
  rw [List.getElem?_map] at ht
  cases hj : work[j]? with
  | none => rw [hj] at ht; cases ht
  | some p =>
    rw [hj] at ht
    cases ht
    dsimp only
    rw [hj]
    exact confined_foldlM _ _ (fun y hy g => rowTask_confined M z len pixels h p.1 g y hy) _

theorem rows_disjoint (w len : Nat) (work : List (List Nat × τ)) (hw : (work.flatMap Prod.fst).Nodup) :
    Spec.Disjoint fun j => OwnsRows w len ((work[j]?.map Prod.fst).getD []) := by
  rintro j j' i ⟨y, hy, h1, h2, -⟩ ⟨y', hy', h1', h2', -⟩
  have hyy : y = y' := by
    rcases Nat.lt_trichotomy y y' with h | h | h
    · have := Nat.mul_le_mul_left (3 * w) (show y + 1 ≤ y' from h); omega
    · exact h
    · have := Nat.mul_le_mul_left (3 * w) (show y' + 1 ≤ y from h); omega
  subst hyy
  rw [List.nodup_flatMap, List.pairwise_iff_getElem] at hw
  obtain ⟨-, hw⟩ := hw
  have get : ∀ j : Nat, y ∈ ((work[j]?.map Prod.fst).getD []) → ∃ h : j < work.length, y ∈ work[j].1 := by
    intro j hy
    by_cases h : j < work.length
    · rw [List.getElem?_eq_getElem h] at hy
      exact ⟨h, hy⟩
    · rw [List.getElem?_eq_none (by omega)] at hy
      simp at hy
  obtain ⟨hj, hy⟩ := get j hy
  obtain ⟨hj', hy'⟩ := get j' hy'
  rcases Nat.lt_trichotomy j j' with h | h | h
  · exact (hw j j' hj hj' h hy hy').elim
  · exact h
  · exact (hw j' j hj' hj h hy' hy).elim

/-! ### Running the threads one after the other -/

section
variable {γ : Type} (enc : List γ → List α)

/-- The program of a row changes the row as `row` does (in images of `h` rows of `w` pixels). -/
def RowRuns (w h : Nat) (prog : Nat → σ → Prog α σ) (row : Nat → List γ → σ → R (List γ × σ)) : Prop :=
  ∀ (I : List (List γ)), I.length = h → (∀ r ∈ I, (enc r).length = w) → ∀ y (hy : y < I.length) s,
    (prog y s).run (gray (I.flatMap enc)) = (row y I[y] s).map (fun q => (q.2, gray ((I.set y q.1).flatMap enc))) ∧
    ∀ q, row y I[y] s = .ok q → (enc q.1).length = w

theorem thread_run (M : Maker τ σ ρ) (z : Size) (pixels : Window → Nat → σ → Prog α σ) (row : Nat → List γ → σ → R (List γ × σ))
    (h : RowRuns enc z.w z.h (fun y s => pixels ⟨3 * z.w * y, 3 * z.w⟩ y s) row) (old : List (List γ)) (hold : old.length = z.h) :
    ∀ (ys : List Nat) (g : τ) (rs : List (Nat × List γ)) (I : List (List γ)), ys.Nodup → (∀ y ∈ ys, y < z.h) → I.length = z.h →
      (∀ r ∈ I, (enc r).length = z.w) → (∀ y ∈ ys, I[y]? = old[y]?) → rowsOf M row old ys g = .ok rs →
      ∃ (g' : τ) (I' : List (List γ)), (ys.foldlM (rowTask M z (3 * (z.w * z.h)) pixels) g).run (gray (I.flatMap enc)) = .ok (g', gray (I'.flatMap enc)) ∧ I'.length = z.h ∧
        (∀ r ∈ I', (enc r).length = z.w) ∧ (∀ y, y ∉ ys → I'[y]? = I[y]?) ∧ ∀ q ∈ rs, I'[q.1]? = some q.2 := by
  intro ys
  induction ys with
  | nil =>
    intro g rs I _ _ hI hl _ hr
    cases hr
    exact ⟨g, I, rfl, hI, hl, fun _ _ => rfl, by simp⟩
  | cons y ys ih =>
    intro g rs I hnd hlt hI hl hsame hr
    have hyh : y < z.h := hlt y (by simp)
    have hy : y < I.length := by omega
    have hyo : old[y]?.getD [] = I[y] := by rw [← hsame y (by simp), List.getElem?_eq_getElem hy]; rfl
    rw [show rowsOf M row old (y :: ys) g = (row y (old[y]?.getD []) (M.new g).1 >>= fun q => rowsOf M row old ys (M.finish q.2 (M.new g).2) >>= fun rest =>
      .ok ((y, q.1) :: rest)) from rfl, hyo] at hr
    obtain ⟨h1, h2⟩ := h I hI hl y hy (M.new g).1
    cases hq : row y I[y] (M.new g).1 with
    | error e => rw [hq] at hr; cases hr
    | ok q =>
      rw [hq, R_ok_bind] at hr
      cases hrest : rowsOf M row old ys (M.finish q.2 (M.new g).2) with
      | error e => rw [hrest] at hr; cases hr
      | ok rest =>
        rw [hrest] at hr
        cases hr
        rw [List.nodup_cons] at hnd
        have hne : ∀ y' ∈ ys, y ≠ y' := fun y' hy' e => hnd.1 (e ▸ hy')
        obtain ⟨g', I', e1, e2, e3, e4, e5⟩ := ih (M.finish q.2 (M.new g).2) rest (I.set y q.1) hnd.2 (fun y hy => hlt y (by simp [hy])) (by simpa using hI)
          (by
            intro r hr
            rcases List.mem_or_eq_of_mem_set hr with hr | hr
            · exact hl r hr
            · rw [hr]; exact h2 q hq)
          (by
            intro y' hy'
            rw [List.getElem?_set_ne (hne y' hy')]
            exact hsame y' (by simp [hy'])) hrest
        refine ⟨g', I', ?_, e2, e3, ?_, ?_⟩
        · rw [List.foldlM_cons, run_bind]
          have hc : chunk z.w (3 * (z.w * z.h)) y = ⟨3 * z.w * y, 3 * z.w⟩ := by
            unfold chunk
            congr 1
            have : 3 * z.w * (y + 1) ≤ 3 * z.w * z.h := Nat.mul_le_mul_left _ hyh
            rw [Nat.mul_succ] at this
            rw [← Nat.mul_assoc]
            omega
          have hrun : (rowTask M z (3 * (z.w * z.h)) pixels g y).run (gray (I.flatMap enc)) = .ok (M.finish q.2 (M.new g).2, gray ((I.set y q.1).flatMap enc)) := by
            unfold rowTask
            dsimp only
            rw [hc]
            dsimp only
            rw [if_pos rfl, run_bind, h1, hq]
            rfl
          rw [hrun]
          exact e1
        · intro y' hy'
          rw [List.mem_cons, not_or] at hy'
          rw [e4 y' hy'.2, List.getElem?_set_ne (Ne.symm hy'.1)]
        · intro q' hq'
          rcases List.mem_cons.1 hq' with rfl | hq'
          · rw [e4 y hnd.1, List.getElem?_set_self hy]
          · exact e5 q' hq'

theorem threads_run (M : Maker τ σ ρ) (z : Size) (pixels : Window → Nat → σ → Prog α σ) (row : Nat → List γ → σ → R (List γ × σ))
    (h : RowRuns enc z.w z.h (fun y s => pixels ⟨3 * z.w * y, 3 * z.w⟩ y s) row) (old : List (List γ)) (hold : old.length = z.h) :
    ∀ (work : List (List Nat × τ)) (I : List (List γ)), (work.flatMap Prod.fst).Nodup → (∀ y ∈ work.flatMap Prod.fst, y < z.h) → I.length = z.h →
      (∀ r ∈ I, (enc r).length = z.w) → (∀ y ∈ work.flatMap Prod.fst, I[y]? = old[y]?) → (∀ p ∈ work, ∃ rs, rowsOf M row old p.1 p.2 = .ok rs) →
      ∃ I' : List (List γ), Prog.runAll (work.map fun p => p.1.foldlM (rowTask M z (3 * (z.w * z.h)) pixels) p.2) (gray (I.flatMap enc)) = .ok (gray (I'.flatMap enc)) ∧
        I'.length = z.h ∧ (∀ y, y ∉ work.flatMap Prod.fst → I'[y]? = I[y]?) ∧
        ∀ p ∈ work, ∀ rs, rowsOf M row old p.1 p.2 = .ok rs → ∀ q ∈ rs, I'[q.1]? = some q.2 := by
  intro work
  induction work with
  | nil => intro I _ _ hI _ _ _; exact ⟨I, rfl, hI, fun _ _ => rfl, by simp⟩
  | cons p work ih =>
    intro I hnd hlt hI hl hsame hok
    rw [List.flatMap_cons] at hnd hlt hsame
    obtain ⟨n1, n2, n3⟩ := List.nodup_append.1 hnd
    obtain ⟨rs, hrs⟩ := hok p (by simp)
    obtain ⟨g', I1, e1, e2, e3, e4, e5⟩ := thread_run enc M z pixels row h old hold p.1 p.2 rs I n1 (fun y hy => hlt y (by simp [hy])) hI hl
      (fun y hy => hsame y (by simp [hy])) hrs
    obtain ⟨I2, f1, f2, f3, f4⟩ := ih I1 n2 (fun y hy => hlt y (List.mem_append_right _ hy)) e2 e3
      (fun y hy => by rw [e4 y fun hy' => n3 y hy' y hy rfl]; exact hsame y (List.mem_append_right _ hy)) (fun p hp => hok p (by simp [hp]))
    refine ⟨I2, ?_, f2, ?_, ?_⟩
    · rw [List.map_cons, Prog.runAll_cons, e1]
      exact f1
    · intro y hy
      rw [List.flatMap_cons, List.mem_append, not_or] at hy
      rw [f3 y hy.2, e4 y hy.1]
    · intro p' hp' rs' hrs' q hq
      rcases List.mem_cons.1 hp' with rfl | hp'
      · rw [hrs] at hrs'
        cases hrs'
        have hmem : q.1 ∈ p'.1 := by
          have : ∀ ys g rs, rowsOf M row old ys g = .ok rs → ∀ q ∈ rs, q.1 ∈ ys := by
            intro ys
            induction ys with
            | nil => intro g rs h q hq; cases h; simp at hq
            | cons y ys ih =>
              intro g rs h q hq
              rw [show rowsOf M row old (y :: ys) g = (row y (old[y]?.getD []) (M.new g).1 >>= fun q => rowsOf M row old ys (M.finish q.2 (M.new g).2) >>= fun rest =>
                .ok ((y, q.1) :: rest)) from rfl] at h
              cases h1 : row y (old[y]?.getD []) (M.new g).1 with
              | error e => rw [h1] at h; cases h
              | ok r =>
                rw [h1, R_ok_bind] at h
                cases h2 : rowsOf M row old ys (M.finish r.2 (M.new g).2) with
                | error e => rw [h2] at h; cases h
                | ok rest =>
                  rw [h2] at h
                  cases h
                  rcases List.mem_cons.1 hq with rfl | hq
                  · simp
                  · exact List.mem_cons_of_mem _ (ih _ _ h2 q hq)
          exact this _ _ _ hrs q hq
        rw [f3 q.1 fun hy => n3 q.1 hmem q.1 hy rfl]
        exact e5 q hq
      · exact f4 p' hp' rs' hrs' q hq

/-! ### Rows -/

theorem render_length (p : Nat → γ → σ → R (γ × σ)) : ∀ (l : List γ) (k : Nat) (s : σ) (q : List γ × σ), render p k l s = .ok q → q.1.length = l.length := by
  intro l
  induction l with
  | nil => intro k s q h; cases h; rfl
  | cons c l ih =>
    intro k s q h
    rw [show render p k (c :: l) s = (p k c s >>= fun a => render p (k + 1) l a.2 >>= fun b => .ok (a.1 :: b.1, b.2)) from rfl] at h
    cases h1 : p k c s with
    | error e => rw [h1] at h; cases h
    | ok a =>
      rw [h1, R_ok_bind] at h
      cases h2 : render p (k + 1) l a.2 with
      | error e => rw [h2] at h; cases h
      | ok b => rw [h2] at h; cases h; exact congrArg (· + 1) (ih _ _ _ h2)

theorem flatMap_split (I : List (List γ)) (y : Nat) (hy : y < I.length) : I.flatMap enc = (I.take y).flatMap enc ++ enc I[y] ++ (I.drop (y + 1)).flatMap enc := by
  conv_lhs => rw [← List.take_append_drop y I, List.drop_eq_getElem_cons hy]
  rw [List.flatMap_append, List.flatMap_cons, List.append_assoc]

theorem flatMap_split_set (I : List (List γ)) (y : Nat) (hy : y < I.length) (r : List γ) :
    (I.set y r).flatMap enc = (I.take y).flatMap enc ++ enc r ++ (I.drop (y + 1)).flatMap enc := by
  rw [flatMap_split enc (I.set y r) y (by simpa using hy)]
  have h1 : (I.set y r).take y = I.take y := by
    rw [List.take_set]
    exact List.set_eq_of_length_le (by simp)
  have h2 : (I.set y r).drop (y + 1) = I.drop (y + 1) := by
    rw [List.drop_set, if_pos (by omega)]
  rw [h1, h2, List.getElem_set_self]

theorem rows_length (w : Nat) (I : List (List γ)) (h : ∀ r ∈ I, (enc r).length = w) : (I.flatMap enc).length = w * I.length := by
  induction I with
  | nil => simp
  | cons r I ih =>
    rw [List.flatMap_cons, List.length_append, h r (by simp), ih fun r hr => h r (by simp [hr]), List.length_cons]
    ring

end

theorem pixelRow_runs (w h : Nat) (prog : Nat → Nat → σ → Prog α σ) (pixel : Nat → α → σ → R (α × σ))
    (hp : ∀ x y, x < w → y < h → ChangesPixel (prog x y) (pixel (w * y + x)) (w * y + x) (w * h)) :
    RowRuns id w h (fun y s => loop w (fun s x => prog x y s) s) (fun y r s => render pixel (w * y) r s) := by
  intro I hI hl y hy s
  refine ⟨?_, fun q hq => ?_⟩
  · have hr : I[y].length = w := hl I[y] (List.getElem_mem hy)
    have hA : ((I.take y).flatMap id).length = w * y := by
      rw [rows_length id w _ fun r hr => hl r (List.mem_of_mem_take hr), List.length_take, Nat.min_eq_left (by omega)]
    have := pixels_run_at (fun k => prog (k - w * y) y) pixel (w * h) I[y] ((I.take y).flatMap id) ((I.drop (y + 1)).flatMap id) s
      (by
        intro k h1 h2
        rw [hA] at h1 h2
        have := hp (k - w * y) y (by omega) (by omega)
        rwa [show w * y + (k - w * y) = k by omega] at this)
      (by rw [← show id I[y] = I[y] from rfl, ← flatMap_split id I y hy, rows_length id w I hl, hI])
    rw [flatMap_split id I y hy]
    unfold loop
    rw [hA, hr, List.range'_eq_map_range, List.foldlM_map] at this
    simp only [Nat.add_sub_cancel_left] at this
    refine this.trans ?_
    congr 1
    funext q
    rw [flatMap_split_set id I y hy]
    rfl
  · exact (render_length pixel _ _ _ _ hq).trans (hl I[y] (List.getElem_mem hy))

theorem lanesOf_length (D : List (Vec α n)) : (lanesOf D).length = n * D.length := by
  unfold lanesOf
  rw [List.length_flatMap]
  simp [Nat.mul_comm]

theorem lanesOf_flatten : ∀ D : List (List (Vec α n)), lanesOf D.flatten = D.flatMap lanesOf := by
  intro D
  induction D with
  | nil => rfl
  | cons d D ih => rw [List.flatten_cons, List.flatMap_cons, ← ih]; unfold lanesOf; rw [List.flatMap_append]

theorem packetRow_runs (hn : 0 < n) (q h : Nat) (prog : Nat → Nat → σ → Prog α σ) (value : Nat → Vec α n → σ → R (Vec α n × σ))
    (hp : ∀ j y, j < q → ChangesPacket (prog j y) (value (q * y + j)) (q * y + j)) :
    RowRuns lanesOf (n * q) h (fun y s => loop q (fun s j => prog j y s) s) (fun y r s => render value (q * y) r s) := by
  intro I hI hl y hy s
  have hr : I[y].length = q := by
    have := hl I[y] (List.getElem_mem hy)
    rw [lanesOf_length] at this
    exact Nat.eq_of_mul_eq_mul_left hn this
  refine ⟨?_, fun p hq => ?_⟩
  · have hA : (I.take y).flatten.length = q * y := by
      apply Nat.eq_of_mul_eq_mul_left hn
      rw [← lanesOf_length, lanesOf_flatten,
        rows_length lanesOf (n * q) _ fun r hr => hl r (List.mem_of_mem_take hr), List.length_take, Nat.min_eq_left (by omega), Nat.mul_assoc]
    have := packets_run (fun k s => prog (k - q * y) y s) value I[y] (I.take y).flatten ((I.drop (y + 1)).flatMap lanesOf) s (by
      intro k h1 h2
      rw [hA] at h1 h2
      have := hp (k - q * y) y (by omega)
      rwa [show q * y + (k - q * y) = k by omega] at this)
    rw [flatMap_split lanesOf I y hy]
    unfold loop
    rw [hA, hr, List.range'_eq_map_range, List.foldlM_map, lanesOf_flatten] at this
    simp only [Nat.add_sub_cancel_left] at this
    refine this.trans ?_
    congr 1
    funext p
    rw [flatMap_split_set lanesOf I y hy]
  · rw [lanesOf_length, render_length value _ _ _ _ hq, hr]

end PackedSimd.Ex.Ao
