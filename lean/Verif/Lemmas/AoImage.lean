import Verif.Spec.AoImage
import Verif.Lemmas.AoOcclusion
import Verif.Lemmas.Concurrent
/-
Helper lemmas for the image loops of aobench.
-/
namespace PackedSimd.Ex.Ao
open Spec.Ao Prog Mandel

variable {α σ : Type} {n : Nat}

instance : LawfulMonad (Prog α) := LawfulMonad.mk' (Prog α)
  (id_map := by
    intro β x
    show x.bind (fun a => .ret a) = x
    induction x with
    | ret b => rfl
    | fault e => rfl
    | load i k ih => exact congrArg _ (funext ih)
    | store i x k ih => exact congrArg _ ih)
  (pure_bind := fun _ _ => rfl)
  (bind_assoc := by
    intro β γ δ x f g
    show (x.bind f).bind g = x.bind fun a => (f a).bind g
    induction x with
    | ret b => rfl
    | fault e => rfl
    | load i k ih => exact congrArg _ (funext ih)
    | store i x k ih => exact congrArg _ ih)

/-! ### Nested loops -/

theorem nested_range {τ : Type} {m : Type → Type} [Monad m] [LawfulMonad m] (b : Nat) (f : τ → Nat → Nat → m τ) : ∀ (a : Nat) (s : τ),
    (List.range a).foldlM (fun s y => (List.range b).foldlM (fun s x => f s y x) s) s =
      (List.range (b * a)).foldlM (fun s k => f s (k / b) (k % b)) s := by
  intro a
  induction a with
  | zero => intro s; rfl
  | succ a ih =>
    intro s
    rw [List.range_succ, List.foldlM_append, Nat.mul_succ, List.range_add, List.foldlM_append, ih]
    congr 1
    funext s'
    simp only [List.foldlM_cons, List.foldlM_nil, bind_pure, List.foldlM_map]
    have : ∀ (l : List Nat), (∀ x ∈ l, x < b) → ∀ s, l.foldlM (fun s x => f s a x) s = l.foldlM (fun s x => f s ((b * a + x) / b) ((b * a + x) % b)) s := by
      intro l
      induction l with
      | nil => intro _ s; rfl
      | cons x l ihl =>
        intro h s
        have hx := h x (by simp)
        rw [List.foldlM_cons, List.foldlM_cons, Nat.mul_add_mod, Nat.mod_eq_of_lt hx, Nat.mul_add_div (by omega), Nat.div_eq_of_lt hx, Nat.add_zero]
        congr 1
        funext s
        exact ihl (fun x hx => h x (by simp [hx])) s
    exact this _ (fun x hx => List.mem_range.1 hx) s'

/-! ### Grey images -/

theorem gray_length (C : List α) : (gray C).length = 3 * C.length := by
  unfold gray
  rw [List.length_flatMap]
  simp [Nat.mul_comm]

theorem gray_append (C D : List α) : gray (C ++ D) = gray C ++ gray D := List.flatMap_append

theorem gray_get? : ∀ (C : List α) (j : Nat), (gray C)[j]? = C[j / 3]? := by
  intro C
  induction C with
  | nil => intro j; simp [gray]
  | cons c C ih =>
    intro j
    show (c :: c :: c :: gray C)[j]? = _
    match j with
    | 0 => rfl
    | 1 => rfl
    | 2 => rfl
    | j + 3 =>
      simp only [List.getElem?_cons_succ]
      rw [ih, show (j + 3) / 3 = j / 3 + 1 by omega, List.getElem?_cons_succ]

theorem gray_get (C : List α) (j : Nat) (h : j < (gray C).length) : (gray C)[j] = C[j / 3]'(by rw [gray_length] at h; omega) := by
  have := gray_get? C j
  rw [List.getElem?_eq_getElem h, List.getElem?_eq_getElem (by rw [gray_length] at h; omega)] at this
  exact Option.some.inj this

theorem supdate_run (w : Window) (j : Nat) (f : α → α) (m : List α) (hj : j < w.len) (h : w.base + j < m.length) :
    (supdate w j f).run m = .ok ((), m.set (w.base + j) (f m[w.base + j])) := by
  unfold supdate sload sstore
  simp only [if_pos hj, run_bind]
  show ((if h : w.base + j < m.length then Except.ok (m[w.base + j], m) else Except.error Fault.ub) >>= fun q => (Prog.store (w.base + j) (f q.1) (.ret ())).run q.2) = _
  rw [dif_pos h, R_ok_bind]
  show (if w.base + j < m.length then _ else _) = _
  rw [if_pos h]
  rfl

/-- Updating a pixel of a grey image. -/
theorem pixelUpdate_run (w : Window) (offset : Nat) (f : α → α) (D l : List α) (c : α) (hb : w.base + offset = 3 * D.length)
    (ho : offset + 2 < w.len) : (pixelUpdate w offset f).run (gray (D ++ c :: l)) = .ok ((), gray (D ++ f c :: l)) := by
  have hlen : (gray (D ++ c :: l)).length = 3 * D.length + 3 * (l.length + 1) := by rw [gray_length]; simp; omega
  have hg : ∀ k, k < 3 → ∀ (h : w.base + (offset + k) < (gray (D ++ c :: l)).length), (gray (D ++ c :: l))[w.base + (offset + k)] = c := by
    intro k hk h
    rw [gray_get]
    have : (w.base + (offset + k)) / 3 = D.length := by omega
    simp [this]
  unfold pixelUpdate
  rw [run_bind, supdate_run w _ f _ (by omega) (by omega), R_ok_bind]
  dsimp only
  rw [run_bind, supdate_run w _ f _ (by omega) (by rw [List.length_set]; omega), R_ok_bind]
  dsimp only
  rw [supdate_run w _ f _ (by omega) (by rw [List.length_set, List.length_set]; omega)]
  refine congrArg (fun x => Except.ok ((), x)) ?_
  rw [List.getElem_set_ne (by omega), List.getElem_set_ne (by omega), List.getElem_set_ne (by omega), hg 0 (by omega), hg 1 (by omega), hg 2 (by omega)]
  apply List.ext_getElem?
  intro j
  rw [gray_get?]
  simp only [List.getElem?_set, List.length_set, gray_get?]
  rw [List.getElem?_append, List.getElem?_append]
  by_cases h1 : j / 3 < D.length
  · rw [if_neg (by omega), if_neg (by omega), if_neg (by omega), if_pos h1, if_pos h1]
  · rw [if_neg h1, if_neg h1]
    by_cases h2 : j / 3 = D.length
    · rw [h2, Nat.sub_self, List.getElem?_cons_zero, List.getElem?_cons_zero]
      have : j = 3 * D.length ∨ j = 3 * D.length + 1 ∨ j = 3 * D.length + 2 := by omega
      rcases this with h | h | h
      · rw [if_neg (by omega), if_neg (by omega), if_pos (by omega), if_pos (by omega)]
      · rw [if_neg (by omega), if_pos (by omega), if_pos (by omega)]
      · rw [if_pos (by omega), if_pos (by omega)]
    · rw [if_neg (by omega), if_neg (by omega), if_neg (by omega)]
      obtain ⟨d, hd⟩ : ∃ d, j / 3 - D.length = d + 1 := ⟨j / 3 - D.length - 1, by omega⟩
      rw [hd, List.getElem?_cons_succ, List.getElem?_cons_succ]

/-! ### Samples and pixels -/

/-- The program adds `value` to the grey value of the pixel after `D`, or fails as `value` does. -/
def AddsValue [Add α] (prog : σ → Prog α σ) (value : σ → R (α × σ)) (k : Nat) (N : Nat) : Prop :=
  ∀ D c l s, D.length = k → (D ++ c :: l).length = N → (prog s).run (gray (D ++ c :: l)) = (value s).map fun q => (q.2, gray (D ++ (c + q.1) :: l))

/-- The program changes the grey value of pixel `k` of `N` as `pixel` does. -/
def ChangesPixel (prog : σ → Prog α σ) (pixel : α → σ → R (α × σ)) (k : Nat) (N : Nat) : Prop :=
  ∀ D c l s, D.length = k → (D ++ c :: l).length = N → (prog s).run (gray (D ++ c :: l)) = (pixel c s).map fun q => (q.2, gray (D ++ q.1 :: l))

theorem samples_run [Add α] (prog : Nat → σ → Prog α σ) (value : Nat → σ → R (α × σ)) (k N : Nat) (h : ∀ j, AddsValue (prog j) (value j) k N) (m : Nat) :
    ChangesPixel (fun s => (List.range m).foldlM (fun s j => prog j s) s) (fun c s => addUp value m c s) k N := by
  intro D c l s hD hN
  induction m with
  | zero => rfl
  | succ m ih =>
    dsimp only at ih ⊢
    rw [List.range_succ, List.foldlM_append, run_bind, ih]
    show _ = Except.map _ (addUp value m c s >>= fun p => value m p.2 >>= fun q => Except.ok (p.1 + q.1, q.2))
    cases addUp value m c s with
    | error e => rfl
    | ok q =>
      show (_ : Prog α σ).run _ = _
      rw [List.foldlM_cons, run_bind, h m D q.1 l q.2 hD (by simpa using hN)]
      simp only [R_ok_bind]
      cases value m q.2 <;> rfl

theorem pixels_run_at (prog : Nat → σ → Prog α σ) (pixel : Nat → α → σ → R (α × σ)) (N : Nat) :
    ∀ (l D E : List α) (s : σ), (∀ k, D.length ≤ k → k < D.length + l.length → ChangesPixel (prog k) (pixel k) k N) → (D ++ l ++ E).length = N →
      ((List.range' D.length l.length).foldlM (fun s k => prog k s) s).run (gray (D ++ l ++ E)) =
        (render pixel D.length l s).map fun q => (q.2, gray (D ++ q.1 ++ E)) := by
  intro l
  induction l with
  | nil => intro D E s _ _; rfl
  | cons c l ih =>
    intro D E s h hN
    rw [List.length_cons, List.range'_succ, List.foldlM_cons, run_bind, List.append_assoc, List.cons_append,
      h D.length (Nat.le_refl _) (by simp) D c (l ++ E) s rfl (by simpa using hN)]
    unfold render
    cases pixel D.length c s with
    | error e => rfl
    | ok q =>
      have := ih (D ++ [q.1]) E q.2 (fun k h1 h2 => h k (by simp at h1; omega) (by simp at h2 ⊢; omega)) (by simp at hN ⊢; omega)
      simp only [List.length_append, List.length_cons, List.length_nil, Nat.zero_add, List.append_assoc, List.cons_append, List.nil_append] at this
      simp only [Except.map, R_ok_bind]
      rw [this]
      cases render pixel (D.length + 1) l q.2 with
      | error e => rfl
      | ok r => show Except.ok _ = Except.ok _; simp

theorem pixels_run (prog : Nat → σ → Prog α σ) (pixel : Nat → α → σ → R (α × σ)) (N : Nat) (h : ∀ k, k < N → ChangesPixel (prog k) (pixel k) k N)
    (l D : List α) (s : σ) (hN : (D ++ l).length = N) : ((List.range' D.length l.length).foldlM (fun s k => prog k s) s).run (gray (D ++ l)) =
      (render pixel D.length l s).map fun q => (q.2, gray (D ++ q.1)) := by
  have := pixels_run_at prog pixel N l D [] s (fun k _ hk => h k (by rw [List.length_append] at hN; omega)) (by simpa using hN)
  simpa using this

/-- A whole image, pixel by pixel in the order of the pixels. -/
theorem image_run (w h : Nat) (prog : Nat → Nat → σ → Prog α σ) (pixel : Nat → α → σ → R (α × σ))
    (hp : ∀ k, k < w * h → ChangesPixel (prog (k % w) (k / w)) (pixel k) k (w * h)) (old : List α) (hl : old.length = w * h) (s : σ) :
    (loop h (fun s y => loop w (fun s x => prog x y s) s) s).run (gray old) = (render pixel 0 old s).map fun q => (q.2, gray q.1) := by
  unfold loop
  rw [nested_range w (fun s y x => prog x y s) h s]
  have := pixels_run (fun k => prog (k % w) (k / w)) pixel (w * h) hp old [] s (by simpa using hl)
  rw [List.length_nil, hl, ← List.range_eq_range'] at this
  exact this

/-! ### Packets -/

theorem gather_run (m : Vec Bool n) (p : Vec Nat n) (d : α) (mem : List α) (h : ∀ i : Fin n, m[i] = true → p[i] < mem.length) :
    (gather m p d).run mem = .ok (Vector.ofFn fun i : Fin n => if m[i] then (mem[p[i]]?).getD d else d, mem) := by
  unfold gather
  have key : ∀ (L : List (Fin n)) (r : Vec α n),
      (L.foldlM (fun (r : Vec α n) (i : Fin n) => if m[i] = true then (Prog.load p[i] fun x => .ret (r.set i x) : Prog α (Vec α n)) else .ret r) r).run mem =
        .ok (Vector.ofFn fun i : Fin n => if i ∈ L ∧ m[i] = true then (mem[p[i]]?).getD d else r[i], mem) := by
    intro L
    induction L with
    | nil =>
      intro r
      show Except.ok _ = Except.ok _
      congr 2
      ext i hi
      simp
    | cons j L ih =>
      intro r
      rw [List.foldlM_cons, run_bind]
      by_cases hm : m[j] = true
      · rw [if_pos hm]
        show ((if h : p[j] < mem.length then Except.ok (r.set j mem[p[j]], mem) else Except.error Fault.ub) >>= fun q => _) = _
        rw [dif_pos (h j hm), R_ok_bind, ih]
        congr 2
        ext i hi
        rw [Vector.getElem_ofFn, Vector.getElem_ofFn]
        by_cases hij : j.val = i
        · subst hij
          have hm' : m[j.val] = true := hm
          have hp' : p[j.val] < mem.length := h j hm
          simp [hm', List.getElem?_eq_getElem hp']
        · have : (⟨i, hi⟩ : Fin n) ≠ j := fun h => hij (by rw [← h])
          simp only [List.mem_cons, this, false_or, Fin.getElem_fin]
          congr 1
          simp [Vector.getElem_set, hij]
      · rw [if_neg hm]
        show (Except.ok (r, mem) >>= fun q => _) = _
        rw [R_ok_bind, ih]
        congr 2
        ext i hi
        rw [Vector.getElem_ofFn, Vector.getElem_ofFn]
        by_cases hij : j.val = i
        · subst hij
          have hm' : ¬ m[j.val] = true := hm
          simp [hm']
        · have : (⟨i, hi⟩ : Fin n) ≠ j := fun h => hij (by rw [← h])
          simp only [List.mem_cons, this, false_or]
  rw [key]
  congr 2
  ext i hi
  simp [splat]

/-- The memory after a scatter. -/
def scattered (m : Vec Bool n) (p : Vec Nat n) (v : Vec α n) (L : List (Fin n)) (mem : List α) : List α :=
  L.foldl (fun mem i => if m[i] then mem.set p[i] v[i] else mem) mem

theorem scattered_length (m : Vec Bool n) (p : Vec Nat n) (v : Vec α n) : ∀ (L : List (Fin n)) (mem : List α), (scattered m p v L mem).length = mem.length := by
  intro L
  induction L with
  | nil => intro mem; rfl
  | cons j L ih =>
    intro mem
    show (scattered m p v L (if m[j] then mem.set p[j] v[j] else mem)).length = _
    rw [ih]
    split <;> simp

theorem scatter_run (m : Vec Bool n) (p : Vec Nat n) (v : Vec α n) (mem : List α) (h : ∀ i : Fin n, m[i] = true → p[i] < mem.length) :
    (scatter m p v).run mem = .ok ((), scattered m p v (List.finRange n) mem) := by
  unfold scatter
  have key : ∀ (L : List (Fin n)) (mem : List α), (∀ i : Fin n, m[i] = true → p[i] < mem.length) →
      (L.foldlM (fun (_ : Unit) (i : Fin n) => if m[i] = true then (Prog.store p[i] v[i] (.ret ()) : Prog α Unit) else .ret ()) ()).run mem = .ok ((), scattered m p v L mem) := by
    intro L
    induction L with
    | nil => intro mem _; rfl
    | cons j L ih =>
      intro mem h
      rw [List.foldlM_cons, run_bind]
      show _ = Except.ok ((), scattered m p v L (if m[j] then mem.set p[j] v[j] else mem))
      by_cases hm : m[j] = true
      · rw [if_pos hm, if_pos hm]
        show ((if p[j] < mem.length then Except.ok ((), mem.set p[j] v[j]) else Except.error Fault.ub) >>= fun q => _) = _
        rw [if_pos (h j hm), R_ok_bind]
        exact ih _ (by simpa using h)
      · rw [if_neg hm, if_neg hm]
        exact ih _ h
  exact key _ _ h

theorem scattered_other (m : Vec Bool n) (p : Vec Nat n) (v : Vec α n) (j : Nat) : ∀ (L : List (Fin n)) (mem : List α),
    (∀ i ∈ L, m[i] = true → p[i] ≠ j) → (scattered m p v L mem)[j]? = mem[j]? := by
  intro L
  induction L with
  | nil => intro mem _; rfl
  | cons i L ih =>
    intro mem h
    show (scattered m p v L (if m[i] then mem.set p[i] v[i] else mem))[j]? = _
    rw [ih _ fun i hi => h i (by simp [hi])]
    by_cases hm : m[i] = true
    · rw [if_pos hm, List.getElem?_set_ne (h i (by simp) hm)]
    · rw [if_neg hm]

theorem scattered_at (m : Vec Bool n) (p : Vec Nat n) (v : Vec α n) (i : Fin n) (hm : m[i] = true) (hp : ∀ i' : Fin n, p[i'] = p[i] → i' = i) :
    ∀ (L : List (Fin n)) (mem : List α), i ∈ L → p[i] < mem.length → (scattered m p v L mem)[p[i]]? = some v[i] := by
  intro L
  induction L with
  | nil => intro mem h; simp at h
  | cons j L ih =>
    intro mem h hl
    show (scattered m p v L (if m[j] then mem.set p[j] v[j] else mem))[p[i]]? = _
    by_cases hi : i ∈ L
    · exact ih _ hi (by split <;> simp <;> exact hl)
    · have hij : i = j := by simpa [hi] using h
      subst hij
      rw [scattered_other m p v _ L _ (fun i' hi' _ he => hi (hp i' he ▸ hi')), if_pos hm, List.getElem?_set_self hl]

/-- The lanes of the mask increased. -/
def increased [Add α] (m : Vec Bool n) (c ret : Vec α n) : Vec α n := Vector.ofFn fun i => if m[i] then c[i] + ret[i] else c[i]

theorem packet_get (D l : List α) (c : Vec α n) (i : Nat) (h : i < n) : (D ++ c.toList ++ l)[D.length + i]? = some c[i] := by
  rw [List.append_assoc, List.getElem?_append_right (by omega), show D.length + i - D.length = i by omega, List.getElem?_append_left (by simpa using h)]
  simp

/-- The six memory accesses of a packet of samples. -/
theorem packet_run [Add α] (m : Vec Bool n) (ret : Vec α n) (d : α) (D l : List α) (c : Vec α n) (s : σ) :
    (do
      let r ← gather m (pixelPtrs n (3 * D.length) 0) d
      let g ← gather m (pixelPtrs n (3 * D.length) 1) d
      let b ← gather m (pixelPtrs n (3 * D.length) 2) d
      scatter m (pixelPtrs n (3 * D.length) 0) (r + ret)
      scatter m (pixelPtrs n (3 * D.length) 1) (g + ret)
      scatter m (pixelPtrs n (3 * D.length) 2) (b + ret)
      return s : Prog α σ).run (gray (D ++ c.toList ++ l)) = .ok (s, gray (D ++ (increased m c ret).toList ++ l)) := by
  have hlen : (gray (D ++ c.toList ++ l)).length = 3 * D.length + 3 * n + 3 * l.length := by rw [gray_length]; simp; omega
  have hptr : ∀ (k : Nat) (i : Fin n), (pixelPtrs n (3 * D.length) k)[i] = 3 * D.length + k + 3 * i.val := by
    intro k i
    simp [pixelPtrs]
    omega
  have hin : ∀ k, k < 3 → ∀ i : Fin n, (pixelPtrs n (3 * D.length) k)[i] < (gray (D ++ c.toList ++ l)).length := by
    intro k hk i
    rw [hptr, hlen]
    have := i.isLt
    omega
  have hg : ∀ k, k < 3 → (gather m (pixelPtrs n (3 * D.length) k) d).run (gray (D ++ c.toList ++ l)) =
      .ok (Vector.ofFn fun i : Fin n => if m[i] then c[i] else d, gray (D ++ c.toList ++ l)) := by
    intro k hk
    rw [gather_run m _ d _ fun i _ => hin k hk i]
    congr 2
    ext i hi
    rw [Vector.getElem_ofFn, Vector.getElem_ofFn]
    have h1 := hptr k ⟨i, hi⟩
    rw [h1, gray_get?, show (3 * D.length + k + 3 * i) / 3 = D.length + i by omega, packet_get D l c i hi]
    rfl
  rw [run_bind, hg 0 (by omega), R_ok_bind]
  dsimp only
  rw [run_bind, hg 1 (by omega), R_ok_bind]
  dsimp only
  rw [run_bind, hg 2 (by omega), R_ok_bind]
  dsimp only
  generalize hv : (Vector.ofFn fun i : Fin n => if m[i] then c[i] else d) + ret = v
  have hvi : ∀ i : Fin n, m[i] = true → v[i] = c[i] + ret[i] := by
    intro i hm
    rw [← hv]
    show (_ + ret)[i.val] = _
    rw [vadd_get, Vector.getElem_ofFn, if_pos hm]
    rfl
  rw [run_bind, scatter_run m _ v _ fun i _ => hin 0 (by omega) i, R_ok_bind]
  dsimp only
  rw [run_bind, scatter_run m _ v _ fun i _ => by rw [scattered_length]; exact hin 1 (by omega) i, R_ok_bind]
  dsimp only
  rw [run_bind, scatter_run m _ v _ fun i _ => by rw [scattered_length, scattered_length]; exact hin 2 (by omega) i, R_ok_bind]
  refine congrArg (fun x => Except.ok (s, x)) ?_
  apply List.ext_getElem?
  intro j
  rw [gray_get?]
  -- a scatter of channel `k` changes only channel `k`
  have hother : ∀ k mem, k < 3 → j % 3 ≠ k → (scattered m (pixelPtrs n (3 * D.length) k) v (List.finRange n) mem)[j]? = mem[j]? := by
    intro k mem hk hj
    refine scattered_other _ _ _ _ _ _ fun i _ _ he => hj ?_
    rw [hptr] at he
    omega
  have hout : ∀ k mem, (∀ i : Fin n, j / 3 = D.length + i.val → m[i] = false) → (scattered m (pixelPtrs n (3 * D.length) k) v (List.finRange n) mem)[j]? = mem[j]? ∨ 3 ≤ k := by
    intro k mem h
    by_cases hk : 3 ≤ k
    · exact Or.inr hk
    · left
      refine scattered_other _ _ _ _ _ _ fun i _ hm he => ?_
      rw [hptr] at he
      rw [h i (by omega)] at hm
      cases hm
  have hat : ∀ k mem (i : Fin n), k < 3 → m[i] = true → j = 3 * D.length + k + 3 * i.val → mem.length = (gray (D ++ c.toList ++ l)).length →
      (scattered m (pixelPtrs n (3 * D.length) k) v (List.finRange n) mem)[j]? = some v[i] := by
    intro k mem i hk hm hj hml
    have := scattered_at m (pixelPtrs n (3 * D.length) k) v i hm (fun i' he => by rw [hptr, hptr] at he; ext; omega) (List.finRange n) mem
      (List.mem_finRange i) (by rw [hml]; exact hin k hk i)
    rw [hptr, ← hj] at this
    exact this
  by_cases hhit : ∃ i : Fin n, j / 3 = D.length + i.val ∧ m[i] = true
  · obtain ⟨i, hji, hm⟩ := hhit
    have hrhs : (D ++ (increased m c ret).toList ++ l)[j / 3]? = some v[i] := by
      rw [hji, packet_get D l _ i i.isLt, hvi i hm]
      unfold increased
      rw [Vector.getElem_ofFn, if_pos hm]
    rw [hrhs]
    have : j % 3 = 0 ∨ j % 3 = 1 ∨ j % 3 = 2 := by omega
    rcases this with h | h | h
    · rw [hother 2 _ (by omega) (by omega), hother 1 _ (by omega) (by omega)]
      exact hat 0 _ i (by omega) hm (by omega) rfl
    · rw [hother 2 _ (by omega) (by omega)]
      exact hat 1 _ i (by omega) hm (by omega) (by rw [scattered_length])
    · exact hat 2 _ i (by omega) hm (by omega) (by rw [scattered_length, scattered_length])
  · have hno : ∀ i : Fin n, j / 3 = D.length + i.val → m[i] = false := by
      intro i hi
      cases hm : m[i] with
      | false => rfl
      | true => exact absurd ⟨i, hi, hm⟩ hhit
    rw [(hout 2 _ hno).resolve_right (by omega), (hout 1 _ hno).resolve_right (by omega), (hout 0 _ hno).resolve_right (by omega), gray_get?]
    by_cases hr : D.length ≤ j / 3 ∧ j / 3 < D.length + n
    · obtain ⟨i, hi⟩ : ∃ i, j / 3 = D.length + i := ⟨j / 3 - D.length, by omega⟩
      have hin : i < n := by omega
      rw [hi, packet_get D l c i hin, packet_get D l _ i hin]
      unfold increased
      rw [Vector.getElem_ofFn]
      have := hno ⟨i, hin⟩ hi
      simp only [Fin.getElem_fin] at this ⊢
      simp [this]
    · rw [List.append_assoc, List.append_assoc]
      by_cases h1 : j / 3 < D.length
      · rw [List.getElem?_append_left h1, List.getElem?_append_left h1]
      · rw [List.getElem?_append_right (by omega), List.getElem?_append_right (by rw [Vector.length_toList]; omega), List.getElem?_append_right (by omega),
          List.getElem?_append_right (by rw [Vector.length_toList]; omega)]
        simp

/-- The program changes the grey values of the packet after `D` as `value` does. -/
def ChangesPacket (prog : σ → Prog α σ) (value : Vec α n → σ → R (Vec α n × σ)) (k : Nat) : Prop :=
  ∀ D c l s, D.length = n * k → (prog s).run (gray (D ++ c.toList ++ l)) = (value c s).map fun q => (q.2, gray (D ++ q.1.toList ++ l))

theorem packetSamples_run (prog : Nat → σ → Prog α σ) (value : Nat → Vec α n → σ → R (Vec α n × σ)) (k : Nat)
    (h : ∀ j, ChangesPacket (prog j) (value j) k) (m : Nat) :
    ChangesPacket (fun s => (List.range m).foldlM (fun s j => prog j s) s) (changes value m) k := by
  intro D c l s hD
  induction m with
  | zero => rfl
  | succ m ih =>
    dsimp only at ih ⊢
    rw [List.range_succ, List.foldlM_append, run_bind, ih]
    show _ = Except.map _ (changes value m c s >>= fun p => value m p.1 p.2)
    cases changes value m c s with
    | error e => rfl
    | ok q =>
      show (_ : Prog α σ).run _ = _
      rw [List.foldlM_cons, run_bind, h m D q.1 l q.2 hD]
      simp only [R_ok_bind]
      cases value m q.1 q.2 <;> rfl

theorem packets_run (prog : Nat → σ → Prog α σ) (value : Nat → Vec α n → σ → R (Vec α n × σ)) :
    ∀ (l D : List (Vec α n)) (E : List α) (s : σ), (∀ k, D.length ≤ k → k < D.length + l.length → ChangesPacket (prog k) (value k) k) → ((List.range' D.length l.length).foldlM (fun s k => prog k s) s).run (gray (lanesOf D ++ lanesOf l ++ E)) =
      (render value D.length l s).map fun q => (q.2, gray (lanesOf D ++ lanesOf q.1 ++ E)) := by
  intro l
  have hlen : ∀ D : List (Vec α n), (lanesOf D).length = n * D.length := by
    intro D
    unfold lanesOf
    rw [List.length_flatMap]
    simp [Nat.mul_comm]
  induction l with
  | nil => intro D E s _; rfl
  | cons c l ih =>
    intro D E s h
    rw [List.length_cons, List.range'_succ, List.foldlM_cons, run_bind,
      show lanesOf D ++ lanesOf (c :: l) ++ E = lanesOf D ++ c.toList ++ (lanesOf l ++ E) by simp [lanesOf], h D.length (Nat.le_refl _) (by simp) (lanesOf D) c _ s (hlen D)]
    show _ = Except.map _ (value D.length c s >>= fun p => render value (D.length + 1) l p.2 >>= fun q => Except.ok (p.1 :: q.1, q.2))
    cases value D.length c s with
    | error e => rfl
    | ok q =>
      have := ih (D ++ [q.1]) E q.2 (fun k h1 h2 => h k (by simp at h1; omega) (by simp at h2 ⊢; omega))
      simp only [List.length_append, List.length_cons, List.length_nil, Nat.zero_add] at this
      rw [show lanesOf (D ++ [q.1]) = lanesOf D ++ q.1.toList by simp [lanesOf]] at this
      simp only [Except.map, R_ok_bind]
      rw [show lanesOf D ++ q.1.toList ++ (lanesOf l ++ E) = lanesOf D ++ q.1.toList ++ lanesOf l ++ E by simp, this]
      cases render value (D.length + 1) l q.2 with
      | error e => rfl
      | ok r =>
        show Except.ok _ = Except.ok _
        simp [lanesOf]

end PackedSimd.Ex.Ao
