import Verif.Model.Examples.ParDrivers
import Verif.Lemmas.Concurrent
import Mathlib.Data.List.Nodup
/-
Tasks on their own part of the memory.
-/
namespace PackedSimd.Ex.Par
open Spec Prog
open Options (loadAt storeAt)

variable {α : Type} {n : Nat}

/-- The task does to the window of `L` elements at `b` what `f` does to a list. -/
def Sim (b L : Nat) (p : Prog α Unit) (f : List α → R (List α)) : Prop :=
  ∀ c c', c.length = L → f c = .ok c' → c'.length = L ∧ Confined (fun i => b ≤ i ∧ i < b + L) p ∧
    ∀ m : List α, b + L ≤ m.length → (m.drop b).take L = c → p.run m = .ok ((), m.take b ++ c' ++ m.drop (b + L))

theorem splice_id {m : List α} {b L : Nat} {c : List α} (h : b + L ≤ m.length) (hc : (m.drop b).take L = c) : m.take b ++ c ++ m.drop (b + L) = m := by
  rw [← hc, ← List.drop_drop, List.append_assoc, List.take_append_drop, List.take_append_drop]

theorem splice_facts {m : List α} {b L : Nat} {c : List α} (h : b + L ≤ m.length) (hc : c.length = L) :
    b + L ≤ (m.take b ++ c ++ m.drop (b + L)).length ∧ ((m.take b ++ c ++ m.drop (b + L)).drop b).take L = c ∧
    ∀ c', (m.take b ++ c ++ m.drop (b + L)).take b ++ c' ++ (m.take b ++ c ++ m.drop (b + L)).drop (b + L) = m.take b ++ c' ++ m.drop (b + L) := by
  have hb : (m.take b).length = b := by rw [List.length_take]; omega
  refine ⟨?_, ?_, fun c' => ?_⟩
  · simp only [List.length_append, hb, hc]; omega
  · rw [List.append_assoc, List.drop_left' hb, List.take_left' hc]
  · congr 1
    · congr 1
      rw [List.append_assoc, List.take_left' hb]
    · have : (m.take b ++ c).length = b + L := by simp [hb, hc]
      rw [List.drop_left' this]

theorem sim_lift {β : Type} {b L : Nat} (r : R β) (p : β → Prog α Unit) (f : β → List α → R (List α)) (h : ∀ x, r = .ok x → Sim b L (p x) (f x)) :
    Sim b L (lift r >>= p) (fun c => r >>= fun x => f x c) := by
  intro c c' hc hf
  cases r with
  | error e => cases hf
  | ok x => exact h x rfl c c' hc hf

theorem sim_fold {ι : Type} {b L : Nat} (p : ι → Prog α Unit) (f : ι → List α → R (List α)) : ∀ (l : List ι), (∀ x ∈ l, Sim b L (p x) (f x)) →
    Sim b L (l.foldlM (fun _ x => p x) ()) (fun c => l.foldlM (fun c x => f x c) c)
  | [], _ => by
    intro c c' hc hf
    cases hf
    exact ⟨hc, trivial, fun m hm he => by rw [splice_id hm he]; rfl⟩
  | x :: l, h => by
    intro c c' hc hf
    simp only [List.foldlM_cons] at hf
    cases hx : f x c with
    | error e => rw [hx] at hf; cases hf
    | ok c1 =>
      rw [hx] at hf
      obtain ⟨h1, h2, h3⟩ := h x (by simp) c c1 hc hx
      obtain ⟨g1, g2, g3⟩ := sim_fold p f l (fun y hy => h y (by simp [hy])) c1 c' h1 hf
      refine ⟨g1, ?_, fun m hm he => ?_⟩
      · rw [List.foldlM_cons]; exact confined_bind _ _ h2 fun _ => g2
      · rw [List.foldlM_cons, run_bind, h3 m hm he]
        obtain ⟨s1, s2, s3⟩ := splice_facts hm h1
        refine (g3 _ s1 s2).trans ?_
        rw [s3]

/-! ### Reading and writing vectors -/

theorem rawLoad_run (m : List α) (a : Nat) : ∀ n, ∀ h : a + n ≤ m.length, (rawLoad n a).run m = .ok ((Vector.ofFn fun l : Fin n => m[a + l.val]'(by omega) : Vec α n), m)
  | 0, h => by
    show Except.ok _ = Except.ok _
    congr 2
  | n + 1, h => by
    rw [rawLoad, run_bind, rawLoad_run m a n (by omega)]
    show (Prog.bind (Prog.load (a + n) Prog.ret) _).run m = _
    simp only [Prog.bind, Prog.run]
    rw [dif_pos (by omega)]
    show Except.ok _ = Except.ok _
    congr 2
    apply Vector.ext
    intro i hi
    rw [Vector.getElem_ofFn]
    rw [Vector.getElem_push]
    split
    · simp
    · have : i = n := by omega
      subst this; rfl

theorem rawLoad_confined {O : Nat → Prop} (a : Nat) : ∀ n, (∀ l, l < n → O (a + l)) → Confined O (rawLoad n a : Prog α (Vec α n))
  | 0, _ => trivial
  | n + 1, h => by
    rw [rawLoad]
    exact confined_bind _ _ (rawLoad_confined a n fun l hl => h l (by omega)) fun v => ⟨h n (by omega), fun _ => trivial⟩

theorem rawStore_run : ∀ (xs : List α) (a : Nat) (m : List α), a + xs.length ≤ m.length → (rawStore xs a).run m = .ok ((), m.take a ++ xs ++ m.drop (a + xs.length))
  | [], a, m, _ => by show Except.ok _ = _; simp
  | x :: xs, a, m, h => by
    simp only [List.length_cons] at h
    show (if a < m.length then (rawStore xs (a + 1)).run (m.set a x) else _) = _
    rw [if_pos (by omega), rawStore_run xs (a + 1) _ (by simp; omega)]
    congr 2
    have hl : (m.take a).length = a := by rw [List.length_take]; omega
    have e : (m.set a x).take (a + 1) = m.take a ++ [x] := by
      rw [List.take_add_one, List.take_set_of_le (Nat.le_refl a), List.getElem?_set_self (by omega)]; rfl
    rw [e, List.drop_set_of_lt (by omega)]
    simp only [List.length_cons, List.append_assoc, List.cons_append, List.nil_append, Nat.add_assoc, Nat.add_comm 1]

theorem rawStore_confined {O : Nat → Prop} : ∀ (xs : List α) (a : Nat), (∀ l, l < xs.length → O (a + l)) → Confined O (rawStore xs a)
  | [], _, _ => trivial
  | x :: xs, a, h => ⟨h 0 (by simp), rawStore_confined xs (a + 1) fun l hl => by
      have := h (l + 1) (by simpa using hl)
      rwa [show a + 1 + l = a + (l + 1) by omega]⟩

theorem loadAt_inv {dbg : Bool} {xs : List α} {i : Nat} {v : Vec α n} (h : loadAt dbg n xs i = .ok v) :
    ∃ h : i + n ≤ xs.length, v = Vector.ofFn fun l : Fin n => xs[i + l.val]'(by omega) := by
  unfold loadAt at h
  split at h
  · split at h
    · exact ⟨by assumption, (Except.ok.inj h).symm⟩
    · cases h
  · cases h

theorem storeAt_inv {dbg : Bool} {xs ys : List α} {i : Nat} {v : Vec α n} (h : storeAt dbg v xs i = .ok ys) :
    i + n ≤ xs.length ∧ ys = xs.take i ++ v.toList ++ xs.drop (i + n) := by
  unfold storeAt at h
  split at h
  · split at h
    · exact ⟨by assumption, (Except.ok.inj h).symm⟩
    · cases h
  · cases h

theorem loadChunk_eq {dbg : Bool} {b L i : Nat} (h : i + n ≤ L) : (loadChunk dbg n b L i : Prog α (Vec α n)) = rawLoad n (b + i) := by
  unfold loadChunk
  rw [if_neg (by simp [h])]

theorem storeChunk_eq {dbg : Bool} {b L i : Nat} (h : i + n ≤ L) (v : Vec α n) : storeChunk dbg v b L i = rawStore v.toList (b + i) := by
  unfold storeChunk
  rw [if_neg (by simp [h])]

/-- Replacing a vector of the window by a function of it. -/
theorem sim_update {dbg : Bool} {b L i : Nat} (g : List α → R (Vec α n)) (hg : ∀ c v, c.length = L → g c = .ok v → loadAt dbg n c i = .ok v)
    (st : Vec α n → List α → R (List α)) (hst : ∀ v c c', st v c = .ok c' → storeAt dbg v c i = .ok c') (F : Vec α n → Vec α n) :
    Sim b L (loadChunk dbg n b L i >>= fun v => storeChunk dbg (F v) b L i) (fun c => g c >>= fun v => st (F v) c) := by
  intro c c' hc hf
  dsimp only at hf
  cases hv : g c with
  | error e => rw [hv] at hf; cases hf
  | ok v =>
    rw [hv] at hf
    obtain ⟨hin, ev⟩ := loadAt_inv (hg c v hc hv)
    obtain ⟨-, ec⟩ := storeAt_inv (hst _ _ _ hf)
    have hin' : i + n ≤ L := by omega
    rw [loadChunk_eq hin']
    simp only [storeChunk_eq hin']
    have hlen : ∀ w : Vec α n, w.toList.length = n := fun w => by simp
    refine ⟨?_, ?_, fun m hm he => ?_⟩
    · rw [ec]; simp; omega
    · refine confined_bind _ _ (rawLoad_confined _ _ fun l hl => ⟨by omega, by omega⟩) fun w => ?_
      exact rawStore_confined _ _ fun l hl => by rw [hlen] at hl; exact ⟨by omega, by omega⟩
    · rw [run_bind, rawLoad_run m (b + i) n (by omega)]
      have e : (Vector.ofFn fun l : Fin n => m[b + i + l.val]'(by omega) : Vec α n) = v := by
        rw [ev]
        ext l hl
        simp only [Vector.getElem_ofFn]
        subst he
        simp [Nat.add_assoc]
      show (rawStore (F _).toList (b + i)).run m = _
      rw [e, rawStore_run _ _ _ (by rw [hlen]; omega), hlen, ec]
      congr 2
      have h1 : m.take (b + i) = m.take b ++ c.take i := by
        rw [List.take_add, ← he, List.take_take, Nat.min_eq_left (by omega)]
      have h2 : m.drop (b + i + n) = c.drop (i + n) ++ m.drop (b + L) := by
        have : m.drop b = c ++ m.drop (b + L) := by rw [← he, ← List.drop_drop, List.take_append_drop]
        rw [show b + i + n = b + (i + n) by omega, ← List.drop_drop, this, List.drop_append_of_le_length (by omega)]
      rw [h1, h2]
      simp only [List.append_assoc]

/-! ### Tasks of a parallel loop over chunks -/

/-- Chunk `z` of `size` elements of a memory of `len` elements. -/
def InChunk (size len z i : Nat) : Prop := z * size ≤ i ∧ i < z * size + size ∧ i < len

/-- Tasks that each do to the memory what `f` does, using their own chunk only. -/
theorem tasks_end (size len : Nat) (T : Nat → Prog α Unit) (f : List α → Nat → R (List α))
    {zs : List Nat} (H : ∀ z ∈ zs, ∀ m m', m.length = len → f m z = .ok m' → m'.length = len ∧ Confined (InChunk size len z) (T z) ∧ (T z).run m = .ok ((), m'))
    (hnd : zs.Nodup) {m r : List α} (hm : m.length = len) (h : zs.foldlM f m = .ok r) : AlwaysEndsWith (zs.map T) m r := by
  have key : ∀ (ys : List Nat) (m : List α), (∀ z ∈ ys, z ∈ zs) → m.length = len → ys.foldlM f m = .ok r → runAll (ys.map T) m = .ok r ∧ ∀ z ∈ ys, Confined (InChunk size len z) (T z) := by
    intro ys
    induction ys with
    | nil => intro m _ hm h; exact ⟨h, by simp⟩
    | cons z ys ih =>
      intro m hsub hm h
      rw [List.foldlM_cons] at h
      cases hz : f m z with
      | error e => rw [hz] at h; cases h
      | ok m1 =>
        rw [hz] at h
        obtain ⟨h1, h2, h3⟩ := H z (hsub z (by simp)) m m1 hm hz
        obtain ⟨i1, i2⟩ := ih m1 (fun y hy => hsub y (by simp [hy])) h1 h
        refine ⟨?_, ?_⟩
        · rw [List.map_cons, Prog.runAll_cons, h3]; exact i1
        · intro y hy
          rcases List.mem_cons.1 hy with rfl | hy
          · exact h2
          · exact i2 y hy
  obtain ⟨h1, h2⟩ := key zs m (fun _ h => h) hm h
  refine alwaysEndsWith (O := fun j i => ∃ z, zs[j]? = some z ∧ InChunk size len z i) ?_ ?_ h1
  · rintro j j' i ⟨z, hz, a1, a2, -⟩ ⟨z', hz', b1, b2, -⟩
    have e : z = z' := by
      rcases Nat.lt_trichotomy z z' with h | h | h
      · have := Nat.mul_le_mul_right size (show z + 1 ≤ z' from h); rw [Nat.add_mul] at this; omega
      · exact h
      · have := Nat.mul_le_mul_right size (show z' + 1 ≤ z from h); rw [Nat.add_mul] at this; omega
    subst e
    obtain ⟨l1, e1⟩ := List.getElem?_eq_some_iff.1 hz
    obtain ⟨l2, e2⟩ := List.getElem?_eq_some_iff.1 hz'
    exact (List.Nodup.getElem_inj_iff hnd).1 (e1.trans e2.symm)
  · intro j t ht
    rw [List.getElem?_map] at ht
    cases hz : zs[j]? with
    | none => rw [hz] at ht; cases ht
    | some z =>
      rw [hz] at ht
      cases ht
      exact Confined.mono _ (fun i hi => ⟨z, hz, hi⟩) (h2 z (List.mem_of_getElem? hz))

theorem chunk_lt {size len z : Nat} (hs : 0 < size) (h : z < (len + size - 1) / size) : z * size < len := by
  have := (Nat.le_div_iff_mul_le hs).1 (show z + 1 ≤ _ from h)
  rw [Nat.add_mul] at this
  omega

/-- A task that works on its chunk. -/
theorem chunk_task {size len z : Nat} {T : Prog α Unit} {f : List α → R (List α)} (hs : Sim (z * size) (min size (len - z * size)) T f) {m c' : List α}
    (hm : m.length = len) (h : f ((m.drop (z * size)).take size) = .ok c') (hz : z * size ≤ len) :
    (m.take (z * size) ++ c' ++ m.drop (z * size + size)).length = len ∧ Confined (InChunk size len z) T ∧
    T.run m = .ok ((), m.take (z * size) ++ c' ++ m.drop (z * size + size)) := by
  have e : (m.drop (z * size)).take size = (m.drop (z * size)).take (min size (len - z * size)) := by
    by_cases hl : size ≤ len - z * size
    · rw [Nat.min_eq_left hl]
    · rw [Nat.min_eq_right (by omega), List.take_of_length_le (by simp; omega), List.take_of_length_le (by simp; omega)]
  have e2 : m.drop (z * size + size) = m.drop (z * size + min size (len - z * size)) := by
    by_cases hl : size ≤ len - z * size
    · rw [Nat.min_eq_left hl]
    · rw [Nat.min_eq_right (by omega), List.drop_eq_nil_of_le (by omega), List.drop_eq_nil_of_le (by omega)]
  rw [e] at h
  obtain ⟨h1, h2, h3⟩ := hs _ c' (by simp; omega) h
  refine ⟨?_, Confined.mono _ (fun i hi => ⟨hi.1, by omega, by omega⟩) h2, ?_⟩
  · simp only [List.length_append, List.length_take, List.length_drop, h1, hm]; omega
  · rw [h3 m (by omega) rfl, e2]

/-! ### Filling rows -/

/-- Storing one element of the window. -/
theorem sim_store {b L j : Nat} (hj : j < L) (v : α) : Sim b L (Prog.store (b + j) v (.ret ())) (fun c => .ok (c.set j v)) := by
  intro c c' hc hf
  cases hf
  refine ⟨by simpa using hc, ⟨⟨by omega, by omega⟩, trivial⟩, fun m hm he => ?_⟩
  show (if b + j < m.length then Except.ok ((), m.set (b + j) v) else _) = _
  rw [if_pos (by omega)]
  congr 2
  have hb : (m.take b).length = b := by rw [List.length_take]; omega
  conv => lhs; rw [← splice_id hm he]
  rw [List.set_append_left _ _ (by simp only [List.length_append, hb, hc]; omega), List.set_append_right _ _ (by omega), hb, Nat.add_sub_cancel_left]

theorem fold_set (v : Nat → α) (c : List α) : ∀ k, k ≤ c.length →
    (List.range k).foldlM (fun c j => (.ok (c.set j (v j)) : R (List α))) c = .ok ((List.range k).map v ++ c.drop k)
  | 0, _ => rfl
  | k + 1, h => by
    rw [List.range_succ, List.foldlM_append, fold_set v c k (by omega)]
    show Except.ok _ = Except.ok _
    congr 1
    rw [List.set_append_right _ _ (by simp), List.map_append, List.append_assoc]
    congr 1
    have e := List.drop_eq_getElem_cons (l := c) (i := k) (by omega)
    rw [show k - ((List.range k).map v).length = 0 by simp, e]
    rfl

theorem splice_get {m row : List α} {w z : Nat} (hw : 0 < w) (hr : row.length = w) (hz : z * w + w ≤ m.length) (k : Nat) :
    (m.take (z * w) ++ row ++ m.drop (z * w + w))[k]? = if k / w = z then row[k % w]? else m[k]? := by
  have hk := Nat.div_add_mod' k w
  have hlt := Nat.mod_lt k hw
  have hl : (m.take (z * w)).length = z * w := by rw [List.length_take]; omega
  by_cases e : k / w = z
  · rw [if_pos e]
    subst e
    rw [List.append_assoc, List.getElem?_append_right (by omega), List.getElem?_append_left (by omega), hl]
    congr 1
    omega
  · rw [if_neg e]
    rcases Nat.lt_or_gt_of_ne e with h | h
    · have := Nat.mul_le_mul_right w (show k / w + 1 ≤ z from h)
      rw [Nat.add_mul] at this
      rw [List.append_assoc, List.getElem?_append_left (by omega), List.getElem?_take_of_lt (by omega)]
    · have := Nat.mul_le_mul_right w (show z + 1 ≤ k / w from h)
      rw [Nat.add_mul] at this
      rw [List.getElem?_append_right (by simp only [List.length_append]; omega), List.getElem?_drop, List.length_append, hl, hr]
      congr 1
      omega

/-- Replacing rows in any order. -/
theorem fold_rows {w len : Nat} (hw : 0 < w) (row : Nat → List α) (hr : ∀ z, (row z).length = w) : ∀ (zs : List Nat) (m : List α), m.length = len →
    (∀ z ∈ zs, z * w + w ≤ len) →
    ∃ r, zs.foldlM (fun m z => (.ok (m.take (z * w) ++ row z ++ m.drop (z * w + w)) : R (List α))) m = .ok r ∧ r.length = len ∧
      ∀ k, r[k]? = if k / w ∈ zs then (row (k / w))[k % w]? else m[k]?
  | [], m, hm, _ => ⟨m, rfl, hm, by simp⟩
  | z :: zs, m, hm, h => by
    have hz := h z (by simp)
    obtain ⟨r, e, hl, hg⟩ := fold_rows hw row hr zs (m.take (z * w) ++ row z ++ m.drop (z * w + w))
      (by simp only [List.length_append, List.length_take, List.length_drop, hr, hm]; omega) (fun y hy => h y (by simp [hy]))
    refine ⟨r, by rw [List.foldlM_cons]; exact e, hl, fun k => ?_⟩
    rw [hg, splice_get hw (hr z) (by omega)]
    by_cases h1 : k / w ∈ zs
    · rw [if_pos h1, if_pos (by simp [h1])]
    · rw [if_neg h1]
      by_cases h2 : k / w = z
      · rw [if_pos h2, if_pos (by simp [h2]), h2]
      · rw [if_neg h2, if_neg (by simp [h1, h2])]

theorem flatMap_get {w : Nat} (hw : 0 < w) (row : Nat → List α) (hr : ∀ z, (row z).length = w) (h : Nat) (k : Nat) :
    ((List.range h).flatMap row)[k]? = if k < h * w then (row (k / w))[k % w]? else none := by
  have hlen : ∀ h, ((List.range h).flatMap row).length = h * w := by
    intro h
    induction h with
    | zero => simp
    | succ h ih => rw [List.range_succ, List.flatMap_append, List.length_append, ih]; simp [hr, Nat.add_mul]
  induction h with
  | zero => simp
  | succ h ih =>
    rw [List.range_succ, List.flatMap_append]
    by_cases hk : k < h * w
    · rw [List.getElem?_append_left (by rw [hlen]; exact hk), ih, if_pos hk, if_pos (by rw [Nat.add_mul]; omega)]
    · rw [List.getElem?_append_right (by rw [hlen]; omega), hlen]
      simp only [List.flatMap_cons, List.flatMap_nil, List.append_nil]
      by_cases hk2 : k < (h + 1) * w
      · have e : k / w = h := by
          apply Nat.div_eq_of_lt_le
          · omega
          · exact hk2
        have := Nat.div_add_mod' k w
        rw [if_pos hk2, e]
        rw [e] at this
        congr 1
        omega
      · rw [if_neg hk2, List.getElem?_eq_none]
        rw [hr]
        rw [Nat.add_mul] at hk2
        omega

/-- Parallel rows: every pixel gets its value. -/
theorem fill_ends {γ : Type} {value : Nat → Nat → R γ} {w h : Nat} (hw : 0 < w) (v : Nat → Nat → γ) (hv : ∀ i j, i < h → j < w → value i j = .ok (v i j))
    {order : List Nat → List Nat} (ho : ∀ l, (order l).Perm l) {old : List γ} (hold : old.length = w * h) :
    ∃ ts, fillTasks value w old.length order = .ok ts ∧ AlwaysEndsWith ts old ((List.range h).flatMap fun i => (List.range w).map (v i)) := by
  have hc : (old.length + w - 1) / w = h := by
    rw [hold, show w * h + w - 1 = (w - 1) + w * h by omega, Nat.add_mul_div_left _ _ hw, Nat.div_eq_of_lt (by omega), Nat.zero_add]
  unfold fillTasks
  rw [if_neg (by omega), hc]
  refine ⟨_, rfl, ?_⟩
  have hmem : ∀ z, z ∈ order (List.range h) ↔ z < h := fun z => by rw [(ho _).mem_iff, List.mem_range]
  have hle : ∀ z, z < h → z * w + w ≤ old.length := by
    intro z hz
    have := Nat.mul_le_mul_right w (show z + 1 ≤ h from hz)
    rw [Nat.add_mul, Nat.mul_comm h w] at this
    omega
  obtain ⟨r, e, hl, hg⟩ := fold_rows hw (fun i => (List.range w).map (v i)) (fun _ => by simp) (order (List.range h)) old rfl
    (fun z hz => hle z ((hmem z).1 hz))
  have hr : r = (List.range h).flatMap fun i => (List.range w).map (v i) := by
    apply List.ext_getElem?
    intro k
    rw [hg, flatMap_get hw _ (fun _ => by simp)]
    simp only [hmem, Nat.div_lt_iff_lt_mul hw]
    by_cases hk : k < h * w
    · rw [if_pos hk, if_pos hk]
    · rw [if_neg hk, if_neg hk, List.getElem?_eq_none (by rw [hold, Nat.mul_comm]; omega)]
  rw [← hr]
  refine tasks_end w old.length _ _ (fun z hz m m' hm hf => ?_) ((ho _).nodup_iff.2 List.nodup_range) rfl e
  have hz' := (hmem z).1 hz
  have hzl := hle z hz'
  cases hf
  refine chunk_task (f := fun c => (List.range w).foldlM (fun c j => (.ok (c.set j (v z j)) : R (List γ))) c) ?_ hm ?_ (by omega)
  · rw [Nat.min_eq_left (by omega)]
    unfold fillTask
    rw [Nat.min_eq_left (by omega)]
    refine sim_fold _ (fun j c => .ok (c.set j (v z j))) _ fun j hj => ?_
    have hj := List.mem_range.1 hj
    rw [hv z j hz' hj]
    exact sim_store hj (v z j)
  · have : ((m.drop (z * w)).take w).length = w := by simp; omega
    rw [fold_set (v z) _ w (by omega), List.drop_eq_nil_of_le (by omega), List.append_nil]

end PackedSimd.Ex.Par
