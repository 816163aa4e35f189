import Verif.Spec.Stencil
import Verif.Lemmas.Options
import Mathlib.Tactic.Linarith
import Mathlib.Tactic.Ring
import Mathlib.Data.List.GetD
/-
Helper lemmas for C74-C77.
-/
namespace PackedSimd.Ex

theorem i32_ok {dbg : Bool} {v : Int} (h : -2 ^ 31 ≤ v ∧ v < 2 ^ 31) : i32 dbg v = .ok v := if_pos h
theorem asUsize_nonneg {t : Target} {v : Int} (h : 0 ≤ v) : asUsize t v = v.toNat := if_pos h

namespace Stencil
open PackedSimd Mandel Options

set_option linter.unusedSectionVars false

variable {α : Type} {n : Nat}

/-! ### Updates -/

theorem Updates.congr [Add α] [Sub α] [Mul α] {upd upd' : Nat → α → α} {P Q : Nat → Prop} {s s' : List α} (h : Updates upd P s s') (hP : ∀ j, P j ↔ Q j)
    (hu : ∀ j, Q j → ∀ v, upd j v = upd' j v) : Updates upd' Q s s' :=
  ⟨h.length, fun j hj => by rw [h.hit j ((hP j).2 hj)]; congr 1; funext v; exact hu j hj v, fun j hj => h.miss j (fun hc => hj ((hP j).1 hc))⟩

theorem Updates.unique {upd : Nat → α → α} {P : Nat → Prop} {s s' s'' : List α} (h : Updates upd P s s') (h' : Updates upd P s s'') : s' = s'' := by
  apply List.ext_getElem?
  intro j
  by_cases hj : P j
  · rw [h.hit j hj, h'.hit j hj]
  · rw [h.miss j hj, h'.miss j hj]

/-- Running steps that update pairwise disjoint parts. -/
theorem fold_updates {ι : Type} {upd : Nat → α → α} {N : Nat} (P : ι → Nat → Prop) (f : List α → ι → R (List α)) : ∀ (L : List ι),
    L.Nodup → (∀ c ∈ L, ∀ d ∈ L, c ≠ d → ∀ j, P c j → ¬ P d j) →
    (∀ c ∈ L, ∀ s, s.length = N → ∃ s', f s c = .ok s' ∧ Updates upd (P c) s s') →
    ∀ s, s.length = N → ∃ s', L.foldlM f s = .ok s' ∧ Updates upd (fun j => ∃ c ∈ L, P c j) s s'
  | [], _, _, _, s, _ => ⟨s, rfl, rfl, fun j h => by simp at h, fun _ _ => rfl⟩
  | c :: L, hnd, hdis, hf, s, hs => by
    obtain ⟨s1, e1, u1⟩ := hf c (by simp) s hs
    rw [List.nodup_cons] at hnd
    obtain ⟨s2, e2, u2⟩ := fold_updates P f L hnd.2 (fun c hc d hd => hdis c (by simp [hc]) d (by simp [hd]))
      (fun c hc => hf c (by simp [hc])) s1 (by rw [u1.length]; exact hs)
    refine ⟨s2, ?_, by rw [u2.length, u1.length], fun j hj => ?_, fun j hj => ?_⟩
    · rw [List.foldlM_cons, e1]
      exact e2
    · by_cases hc : P c j
      · rw [u2.miss j, u1.hit j hc]
        rintro ⟨d, hd, hdj⟩
        exact hdis c (by simp) d (by simp [hd]) (fun h => hnd.1 (h ▸ hd)) j hc hdj
      · obtain ⟨d, hd, hdj⟩ := hj
        have hdL : d ∈ L := by
          rcases List.mem_cons.1 hd with rfl | h
          · exact absurd hdj hc
          · exact h
        rw [u2.hit j ⟨d, hdL, hdj⟩, u1.miss j hc]
    · rw [u2.miss j (fun ⟨d, hd, hdj⟩ => hj ⟨d, by simp [hd], hdj⟩), u1.miss j (fun h => hj ⟨c, by simp, h⟩)]

theorem mem_ints {lo hi i : Int} : i ∈ ((List.range (hi - lo).toNat).map fun (k : Nat) => lo + (k : Int)) ↔ lo ≤ i ∧ i < hi := by
  simp only [List.mem_map, List.mem_range]
  constructor
  · rintro ⟨k, hk, rfl⟩; omega
  · intro h; exact ⟨(i - lo).toNat, by omega, by omega⟩

theorem nodup_ints (lo hi : Int) : ((List.range (hi - lo).toNat).map fun (k : Nat) => lo + (k : Int)).Nodup := by
  rw [List.nodup_iff_pairwise_ne, List.pairwise_map]
  exact (List.nodup_iff_pairwise_ne.1 List.nodup_range).imp (fun h hc => h (by omega))

theorem forInt_updates {upd : Nat → α → α} {N : Nat} (P : Int → Nat → Prop) (f : List α → Int → R (List α)) {lo hi : Int}
    (hdis : ∀ c d, lo ≤ c → c < hi → lo ≤ d → d < hi → c ≠ d → ∀ j, P c j → ¬ P d j)
    (hf : ∀ c, lo ≤ c → c < hi → ∀ s, s.length = N → ∃ s', f s c = .ok s' ∧ Updates upd (P c) s s') (s : List α) (hs : s.length = N) :
    ∃ s', forInt lo hi f s = .ok s' ∧ Updates upd (fun j => ∃ c, (lo ≤ c ∧ c < hi) ∧ P c j) s s' := by
  obtain ⟨s', h1, h2⟩ := fold_updates P f ((List.range (hi - lo).toNat).map fun (k : Nat) => lo + (k : Int)) (nodup_ints lo hi)
    (fun c hc d hd => by
      rw [mem_ints] at hc hd
      exact hdis c d hc.1 hc.2 hd.1 hd.2) (fun c hc => by rw [mem_ints] at hc; exact hf c hc.1 hc.2) s hs
  refine ⟨s', h1, h2.length, fun j ⟨c, hc, hj⟩ => h2.hit j ⟨c, mem_ints.2 hc, hj⟩, fun j hj => h2.miss j ?_⟩
  rintro ⟨c, hc, hcj⟩
  exact hj ⟨c, mem_ints.1 hc, hcj⟩

theorem forStep_updates {upd : Nat → α → α} {N : Nat} (P : Int → Nat → Prop) (f : List α → Int → R (List α)) {lo hi : Int} {n q : Nat} (hn : 1 ≤ n)
    (hq : hi - lo = n * q) (hdis : ∀ k l : Nat, k < q → l < q → k ≠ l → ∀ j, P (lo + (k : Int) * n) j → ¬ P (lo + (l : Int) * n) j)
    (hf : ∀ k : Nat, k < q → ∀ s, s.length = N → ∃ s', f s (lo + (k : Int) * n) = .ok s' ∧ Updates upd (P (lo + (k : Int) * n)) s s')
    (s : List α) (hs : s.length = N) :
    ∃ s', forStep lo hi n f s = .ok s' ∧ Updates upd (fun j => ∃ k : Nat, k < q ∧ P (lo + (k : Int) * n) j) s s' := by
  have hcount : ((hi - lo).toNat + n - 1) / n = q := by
    have : (hi - lo).toNat = n * q := by rw [hq, ← Int.natCast_mul, Int.toNat_natCast]
    rw [this, Nat.add_sub_assoc hn, Nat.mul_add_div hn, Nat.div_eq_of_lt (by omega), Nat.add_zero]
  unfold forStep
  rw [hcount, List.foldlM_map]
  obtain ⟨s', h1, h2⟩ := fold_updates (fun (k : Nat) => P (lo + (k : Int) * n)) (fun s k => f s (lo + (k : Int) * n)) (List.range q) List.nodup_range
    (fun c hc d hd => hdis c d (List.mem_range.1 hc) (List.mem_range.1 hd)) (fun c hc => hf c (List.mem_range.1 hc)) s hs
  refine ⟨s', h1, h2.length, fun j ⟨c, hc, hj⟩ => h2.hit j ⟨c, List.mem_range.2 hc, hj⟩, fun j hj => h2.miss j ?_⟩
  rintro ⟨c, hc, hcj⟩
  exact hj ⟨c, List.mem_range.1 hc, hcj⟩

theorem forInt_one {σ : Type} (z : Int) (f : σ → Int → R σ) (s : σ) : forInt z (z + 1) f s = f s z := by
  unfold forInt
  rw [show (z + 1 - z).toNat = 1 by omega]
  simp only [List.range_one, List.map_cons, List.map_nil, List.foldlM_cons, List.foldlM_nil, bind_pure, Int.natCast_zero, Int.add_zero]

theorem forInt_three {σ : Type} (f : σ → Int → R σ) (s : σ) : forInt 1 4 f s = (do let s ← f s 1; let s ← f s 2; f s 3) := by
  show List.foldlM f s [(1 : Int) + ((0 : Nat) : Int), 1 + ((1 : Nat) : Int), 1 + ((2 : Nat) : Int)] = _
  simp only [List.foldlM_cons, List.foldlM_nil, bind_pure]
  rfl

variable [Add α] [Sub α] [Mul α] {E : Env α}

/-! ### Element access -/

theorem lget_elem {d : α} {l : List α} {k : Int} {N : Nat} (hl : l.length = N) (h0 : 0 ≤ k) (h1 : k < N) :
    lget l (asUsize E.t k) = .ok (elem d l k) := by
  rw [asUsize_nonneg h0, lget_lt _ (by omega), elem, List.getD_eq_getElem _ _ (by omega)]

theorem loadU_elem {d : α} {l : List α} {k : Int} {N : Nat} (hl : l.length = N) (h0 : 0 ≤ k) (h1 : k + n ≤ N) :
    loadU E n l k = .ok (Vector.ofFn fun i : Fin n => elem d l (k + (i.val : Int))) := by
  unfold loadU loadAt
  rw [asUsize_nonneg h0, if_pos (by omega), if_pos (by omega), dif_pos (by omega)]
  congr 1
  ext i hi
  simp only [Vector.getElem_ofFn, elem]
  rw [List.getD_eq_getElem _ _ (by omega)]
  congr 1
  omega

theorem offset_ok {nxy index dx dy dz : Int} (h1 : -2 ^ 31 ≤ index + dx ∧ index + dx < 2 ^ 31) (h2 : -2 ^ 31 ≤ dy * E.nx ∧ dy * E.nx < 2 ^ 31)
    (h3 : -2 ^ 31 ≤ index + dx + dy * E.nx ∧ index + dx + dy * E.nx < 2 ^ 31) (h4 : -2 ^ 31 ≤ dz * nxy ∧ dz * nxy < 2 ^ 31)
    (h5 : -2 ^ 31 ≤ index + dx + dy * E.nx + dz * nxy ∧ index + dx + dy * E.nx + dz * nxy < 2 ^ 31) :
    offset E nxy index dx dy dz = .ok (index + dx + dy * E.nx + dz * nxy) := by
  unfold offset
  rw [i32_ok h1, R_ok_bind, i32_ok h2, R_ok_bind, i32_ok h3, R_ok_bind, i32_ok h4, R_ok_bind, i32_ok h5]

/-- All the neighbours of `index`, and those of the next `m - 1` elements, are in the grid of `N` cells. -/
structure Inner (E : Env α) (nxy index : Int) (m N : Nat) : Prop where
  hnx : 1 ≤ E.nx
  hnxy : E.nx ≤ nxy
  hlo : 3 * nxy ≤ index
  hhi : index + m + 3 * nxy ≤ N
  hm : 1 ≤ m
  hN : N < 2 ^ 31

theorem cell_div {nxy index : Int} {N : Nat} (hI : Inner E nxy index 1 N) {aIn : List α} (ha : aIn.length = N) (div : α) (i : Int)
    (hi : i = 1 ∨ i = 2 ∨ i = 3) :
    divScalar E aIn nxy index div i = (do
      let c ← aget E.coef (asUsize E.t i)
      return div + c * (elem E.two aIn (index + i) + elem E.two aIn (index - i) + elem E.two aIn (index + i * E.nx) + elem E.two aIn (index - i * E.nx) +
        elem E.two aIn (index + i * nxy) + elem E.two aIn (index - i * nxy))) := by
  obtain ⟨h1, h2, h3, h4, h5, h6⟩ := hI
  have hc : ∀ {dx dy dz r : Int}, offset E nxy index dx dy dz = .ok r → 0 ≤ r → r < N → curScalar E aIn nxy index dx dy dz = .ok (elem E.two aIn r) := by
    intro dx dy dz r ho h0 h1
    unfold curScalar
    rw [ho, R_ok_bind, lget_elem (d := E.two) ha h0 h1]
  unfold divScalar
  rcases hi with rfl | rfl | rfl
  all_goals
  · rw [hc (offset_ok (by omega) (by omega) (by omega) (by omega) (by omega)) (by omega) (by omega),
      hc (offset_ok (by omega) (by omega) (by omega) (by omega) (by omega)) (by omega) (by omega),
      hc (offset_ok (by omega) (by omega) (by omega) (by omega) (by omega)) (by omega) (by omega),
      hc (offset_ok (by omega) (by omega) (by omega) (by omega) (by omega)) (by omega) (by omega),
      hc (offset_ok (by omega) (by omega) (by omega) (by omega) (by omega)) (by omega) (by omega),
      hc (offset_ok (by omega) (by omega) (by omega) (by omega) (by omega)) (by omega) (by omega)]
    simp only [R_ok_bind, Int.zero_mul, Int.add_zero, Int.neg_mul, ← Int.sub_eq_add_neg]

theorem coef_get (t : Target) (coef : Vector α 4) : aget coef (asUsize t 1) = .ok coef[1] ∧ aget coef (asUsize t 2) = .ok coef[2] ∧
    aget coef (asUsize t 3) = .ok coef[3] := ⟨rfl, rfl, rfl⟩

theorem cellScalar_ok {nxy z y x : Int} {N : Nat} {aIn aOut : List α} (ha : aIn.length = N) (ho : aOut.length = N) (hv : E.vsq.length = N)
    (hI : Inner E nxy (z * nxy + y * E.nx + x) 1 N) (hz : 0 ≤ z * nxy) (hy : 0 ≤ y * E.nx) (hx : 0 ≤ x) (hxy : nxy = E.nx * E.ny) :
    ∃ out, cellScalar E aIn nxy z y aOut x = .ok out ∧
      Updates (fun j old => newValue E.two E.coef E.nx (E.nx * E.ny) (elem E.two E.vsq) (elem E.two aIn) j old)
        (fun j => (j : Int) = z * nxy + y * E.nx + x) aOut out := by
  obtain ⟨h1, h2, h3, h4, h5, h6⟩ := id hI
  generalize hidx : z * nxy + y * E.nx + x = index at *
  have hcur : curScalar E aIn nxy index 0 0 0 = .ok (elem E.two aIn index) := by
    unfold curScalar
    rw [offset_ok (by omega) (by omega) (by omega) (by omega) (by omega), R_ok_bind, lget_elem (d := E.two) ha (by omega) (by omega)]
    congr 2
    omega
  have hoff : offset E nxy index 0 0 0 = .ok index := by
    rw [offset_ok (by omega) (by omega) (by omega) (by omega) (by omega)]
    congr 1
    omega
  have hj : index.toNat < aOut.length := by omega
  refine ⟨aOut.set index.toNat (newValue E.two E.coef E.nx nxy (elem E.two E.vsq) (elem E.two aIn) index aOut[index.toNat]), ?_, ?_⟩
  · unfold cellScalar
    rw [i32_ok (by omega), R_ok_bind, i32_ok (by omega), R_ok_bind, i32_ok (by omega), R_ok_bind, i32_ok (by omega), R_ok_bind, hidx]
    rw [aget_lt _ (by decide : 0 < 4), R_ok_bind, hcur, R_ok_bind, forInt_three, cell_div hI ha _ 1 (by decide)]
    simp only [(coef_get E.t E.coef).1, (coef_get E.t E.coef).2.1, (coef_get E.t E.coef).2.2, cell_div hI ha _ 2 (by decide), cell_div hI ha _ 3 (by decide),
      R_ok_bind, pure, Except.pure, hoff]
    rw [asUsize_nonneg (by omega), lget_lt _ hj, R_ok_bind]
    have := lget_elem (E := E) (d := E.two) (k := index) hv (by omega) (by omega)
    rw [asUsize_nonneg (by omega)] at this
    rw [this, R_ok_bind]
    unfold lset
    rw [if_pos hj]
    rfl
  · refine ⟨by simp, fun j hj' => ?_, fun j hj' => ?_⟩
    · have : j = index.toNat := by omega
      subst this
      rw [List.getElem?_set_self hj, List.getElem?_eq_getElem hj]
      simp only [Option.map_some, ← hxy, hj']
    · rw [List.getElem?_set_ne (by omega)]

/-! ### Vectors -/

/-- New values as the vectorised program computes them. -/
def newValueSimd (E : Env α) (nxy : Int) (aIn : List α) (j : Int) (old : α) : α :=
  let a := elem E.two aIn
  let ring (i : Int) := a (j + i) + a (j - i) + a (j + i * E.nx) + a (j - i * E.nx) + a (j + i * nxy) + a (j - i * nxy)
  E.fma (elem E.two E.vsq j) (E.fma E.coef[3] (ring 3) (E.fma E.coef[2] (ring 2) (E.fma E.coef[1] (ring 1) (E.coef[0] * a j))))
    (E.fma (a j) E.two (E.negOne * old))

/-- The vector of elements `k, k + 1, ..`. -/
def elems (E : Env α) (n : Nat) (l : List α) (k : Int) : Vec α n := Vector.ofFn fun i : Fin n => elem E.two l (k + (i.val : Int))

theorem block_div {nxy index : Int} {N : Nat} (hI : Inner E nxy index n N) {aIn : List α} (ha : aIn.length = N) (div : Vec α n) (i : Int)
    (hi : i = 1 ∨ i = 2 ∨ i = 3) :
    divSimd E aIn nxy index div i = (do
      let c ← aget E.coef (asUsize E.t i)
      return vfma E (splat n c) (elems E n aIn (index + i) + elems E n aIn (index - i) + elems E n aIn (index + i * E.nx) + elems E n aIn (index - i * E.nx) +
        elems E n aIn (index + i * nxy) + elems E n aIn (index - i * nxy)) div) := by
  obtain ⟨h1, h2, h3, h4, h5, h6⟩ := hI
  have hc : ∀ {dx dy dz r : Int}, offset E nxy index dx dy dz = .ok r → 0 ≤ r → r + n ≤ N → curSimd E n aIn nxy index dx dy dz = .ok (elems E n aIn r) := by
    intro dx dy dz r ho h0 h1
    unfold curSimd
    rw [ho, R_ok_bind, loadU_elem (d := E.two) ha h0 h1]
    rfl
  unfold divSimd
  rcases hi with rfl | rfl | rfl
  all_goals
  · rw [hc (offset_ok (by omega) (by omega) (by omega) (by omega) (by omega)) (by omega) (by omega),
      hc (offset_ok (by omega) (by omega) (by omega) (by omega) (by omega)) (by omega) (by omega),
      hc (offset_ok (by omega) (by omega) (by omega) (by omega) (by omega)) (by omega) (by omega),
      hc (offset_ok (by omega) (by omega) (by omega) (by omega) (by omega)) (by omega) (by omega),
      hc (offset_ok (by omega) (by omega) (by omega) (by omega) (by omega)) (by omega) (by omega),
      hc (offset_ok (by omega) (by omega) (by omega) (by omega) (by omega)) (by omega) (by omega)]
    simp only [R_ok_bind, Int.zero_mul, Int.add_zero, Int.neg_mul, ← Int.sub_eq_add_neg]

theorem blockSimd_ok {nxy zIdx yIdx x : Int} {N S : Nat} {aIn aOut : List α} (ha : aIn.length = N) (hv : E.vsq.length = N) (ho : aOut.length = S)
    (hI : Inner E nxy (zIdx + (x + yIdx)) n N) (hz : 0 ≤ zIdx) (hy : 0 ≤ yIdx) (hx : 0 ≤ x) (hS : x + yIdx + n ≤ S) :
    ∃ out, blockSimd E n aIn nxy zIdx yIdx aOut x = .ok out ∧
      Updates (fun j old => newValueSimd E nxy aIn (zIdx + j) old) (fun j => x + yIdx ≤ (j : Int) ∧ (j : Int) < x + yIdx + n) aOut out := by
  obtain ⟨h1, h2, h3, h4, h5, h6⟩ := id hI
  generalize ho' : x + yIdx = outIdx at *
  generalize hidx : zIdx + outIdx = index at *
  have hcur : curSimd E n aIn nxy index 0 0 0 = .ok (elems E n aIn index) := by
    unfold curSimd
    rw [offset_ok (by omega) (by omega) (by omega) (by omega) (by omega), R_ok_bind, loadU_elem (d := E.two) ha (by omega) (by omega)]
    simp only [Int.add_zero, Int.zero_mul]
    rfl
  let old : Vec α n := Vector.ofFn fun i : Fin n => elem E.two aOut (outIdx + (i.val : Int))
  let new : Vec α n := vfma E (elems E n E.vsq index)
    (vfma E (splat n E.coef[3]) (elems E n aIn (index + 3) + elems E n aIn (index - 3) + elems E n aIn (index + 3 * E.nx) + elems E n aIn (index - 3 * E.nx) +
        elems E n aIn (index + 3 * nxy) + elems E n aIn (index - 3 * nxy))
      (vfma E (splat n E.coef[2]) (elems E n aIn (index + 2) + elems E n aIn (index - 2) + elems E n aIn (index + 2 * E.nx) + elems E n aIn (index - 2 * E.nx) +
        elems E n aIn (index + 2 * nxy) + elems E n aIn (index - 2 * nxy))
        (vfma E (splat n E.coef[1]) (elems E n aIn (index + 1) + elems E n aIn (index - 1) + elems E n aIn (index + 1 * E.nx) + elems E n aIn (index - 1 * E.nx) +
          elems E n aIn (index + 1 * nxy) + elems E n aIn (index - 1 * nxy)) (splat n E.coef[0] * elems E n aIn index))))
    (vfma E (elems E n aIn index) (splat n E.two) (splat n E.negOne * old))
  obtain ⟨out, e, hlen, hget⟩ := storeAt_ok (dbg := E.dbg) (v := new) (xs := aOut) (i := outIdx.toNat) (by omega)
  refine ⟨out, ?_, hlen, fun j hj => ?_, fun j hj => ?_⟩
  · unfold blockSimd
    rw [ho', i32_ok (by omega), R_ok_bind, hidx, i32_ok (by omega), R_ok_bind, hcur, R_ok_bind, aget_lt _ (by decide : 0 < 4), R_ok_bind, forInt_three,
      block_div hI ha _ 1 (by decide)]
    simp only [(coef_get E.t E.coef).1, (coef_get E.t E.coef).2.1, (coef_get E.t E.coef).2.2, block_div hI ha _ 2 (by decide),
      block_div hI ha _ 3 (by decide), R_ok_bind, pure, Except.pure]
    rw [loadU_elem (E := E) (d := E.two) (k := index) hv (by omega) (by omega), R_ok_bind,
      loadU_elem (E := E) (d := E.two) (k := outIdx) ho (by omega) (by omega), R_ok_bind]
    unfold storeU
    rw [asUsize_nonneg (by omega), if_pos (by omega)]
    exact e
  · rw [hget, if_neg (by omega), dif_pos (by omega), List.getElem?_eq_getElem (by omega), Option.map_some]
    congr 1
    have hl : (j - outIdx.toNat) < n := by omega
    have e1 : ∀ (l : List α) (k : Int), (elems E n l k)[j - outIdx.toNat] = elem E.two l (k + ((j - outIdx.toNat : Nat) : Int)) := by
      intro l k; simp [elems]
    have e2 : ∀ a b c : Vec α n, (vfma E a b c)[j - outIdx.toNat] = E.fma a[j - outIdx.toNat] b[j - outIdx.toNat] c[j - outIdx.toNat] := by
      intro a b c; simp [vfma]
    have e3 : old[j - outIdx.toNat] = aOut[j] := by
      simp only [old, Vector.getElem_ofFn, elem]
      rw [List.getD_eq_getElem _ _ (by omega)]
      congr 1
      omega
    simp only [new, e1, e2, vadd_get, vmul_get, splat_get, e3, newValueSimd]
    have e4 : ∀ d : Int, index + d + ((j - outIdx.toNat : Nat) : Int) = zIdx + (j : Int) + d := by intro d; omega
    have e5 : ∀ d : Int, index - d + ((j - outIdx.toNat : Nat) : Int) = zIdx + (j : Int) - d := by intro d; omega
    have e6 : index + ((j - outIdx.toNat : Nat) : Int) = zIdx + (j : Int) := by omega
    simp only [e4, e5, e6]
  · rw [hget]
    by_cases h : j < outIdx.toNat
    · rw [if_pos h]
    · rw [if_neg h, dif_neg (by omega)]

/-! ### One time step -/

theorem inner_of {z0 z1 nz z y x : Int} {m : Nat} (G : Geometry E z0 z1 nz) (hz : z0 ≤ z) (hz' : z < z1) (hy : E.y0 ≤ y) (hy' : y < E.y1) (hx : 0 ≤ x)
    (hx' : x + m ≤ E.nx) (hm : 1 ≤ m) :
    Inner E (E.nx * E.ny) (z * (E.nx * E.ny) + y * E.nx + x) m (E.nx * E.ny * nz).toNat ∧ 0 ≤ z * (E.nx * E.ny) ∧ 0 ≤ y * E.nx ∧
      y * E.nx + x + m ≤ E.nx * E.ny := by
  obtain ⟨g1, _, g2, g3, g4, g5, g6, g7, g8, g9, g10, g11⟩ := G
  have p1 : 0 < E.nx * E.ny := Int.mul_pos g8 g9
  have p2 : 3 * (E.nx * E.ny) ≤ z * (E.nx * E.ny) := Int.mul_le_mul_of_nonneg_right (by omega) (by omega)
  have p3 : 0 ≤ y * E.nx := Int.mul_nonneg (by omega) (by omega)
  have p4 : (y + 1) * E.nx ≤ E.ny * E.nx := Int.mul_le_mul_of_nonneg_right (by omega) (by omega)
  have p5 : (z + 4) * (E.nx * E.ny) ≤ nz * (E.nx * E.ny) := Int.mul_le_mul_of_nonneg_right (by omega) (by omega)
  have p6 : E.nx * 1 ≤ E.nx * E.ny := Int.mul_le_mul_of_nonneg_left (by omega) (by omega)
  rw [Int.add_mul] at p4 p5
  rw [Int.mul_comm E.ny] at p4
  rw [Int.mul_comm nz] at p5
  refine ⟨⟨by omega, by omega, by omega, by omega, hm, by omega⟩, by omega, p3, by omega⟩

theorem block_unique {m j a b : Int} (h1 : a * m ≤ j) (h2 : j < a * m + m) (h3 : b * m ≤ j) (h4 : j < b * m + m) (hm : 0 < m) : a = b := by
  rcases Int.lt_trichotomy a b with h | h | h
  · have := Int.mul_le_mul_of_nonneg_right (show a + 1 ≤ b by omega) (Int.le_of_lt hm)
    rw [Int.add_mul] at this
    omega
  · exact h
  · have := Int.mul_le_mul_of_nonneg_right (show b + 1 ≤ a by omega) (Int.le_of_lt hm)
    rw [Int.add_mul] at this
    omega

theorem stepScalar_ok {z0 z1 nz : Int} (G : Geometry E z0 z1 nz) {aIn aOut : List α} (ha : aIn.length = (E.nx * E.ny * nz).toNat)
    (ho : aOut.length = (E.nx * E.ny * nz).toNat) : ∃ out, stepScalar E z0 z1 aIn aOut = .ok out ∧ TimeStep E z0 z1 aIn aOut out := by
  have hx0 := G.hx0; have hx1 := G.hx1; have hnx := G.hnx; have hny := G.hny; have hsize := G.hsize
  have hpos : 0 < E.nx * E.ny := Int.mul_pos hnx hny
  have hnz : E.nx * E.ny * 1 ≤ E.nx * E.ny * nz := Int.mul_le_mul_of_nonneg_left (by have := G.hz0; have := G.hz01; have := G.hz1; omega) (by omega)
  unfold stepScalar
  rw [i32_ok (by omega), R_ok_bind]
  obtain ⟨out, h1, h2⟩ := forInt_updates (N := (E.nx * E.ny * nz).toNat)
    (upd := fun j old => newValue E.two E.coef E.nx (E.nx * E.ny) (elem E.two E.vsq) (elem E.two aIn) j old)
    (fun z j => ∃ y, (E.y0 ≤ y ∧ y < E.y1) ∧ ∃ x, (E.x0 ≤ x ∧ x < E.x1) ∧ (j : Int) = z * (E.nx * E.ny) + y * E.nx + x)
    (fun aOut z => forInt E.y0 E.y1 (fun aOut y => forInt E.x0 E.x1 (cellScalar E aIn (E.nx * E.ny) z y) aOut) aOut) (lo := z0) (hi := z1)
    (by
      rintro c d hc hc' hd hd' hne j ⟨y, hy, x, hx, e⟩ ⟨y', hy', x', hx', e'⟩
      obtain ⟨_, b1, b2, b3⟩ := inner_of G hc hc' hy.1 hy.2 (x := x) (m := 1) (by omega) (by omega) (Nat.le_refl 1)
      obtain ⟨_, b4, b5, b6⟩ := inner_of G hd hd' hy'.1 hy'.2 (x := x') (m := 1) (by omega) (by omega) (Nat.le_refl 1)
      exact hne (block_unique (m := E.nx * E.ny) (j := j) (by omega) (by omega) (by omega) (by omega) hpos))
    (by
      intro z hz hz' s hs
      refine forInt_updates _ _ ?_ ?_ s hs
      · rintro c d hc hc' hd hd' hne j ⟨x, hx, e⟩ ⟨x', hx', e'⟩
        exact hne (block_unique (m := E.nx) (j := j - z * (E.nx * E.ny)) (by omega) (by omega) (by omega) (by omega) hnx)
      · intro y hy hy' s hs
        refine forInt_updates (fun x j => (j : Int) = z * (E.nx * E.ny) + y * E.nx + x) _ ?_ ?_ s hs
        · intro c d _ _ _ _ hne j e e'
          omega
        · intro x hx hx' s hs
          obtain ⟨b0, b1, b2, _⟩ := inner_of G hz hz' hy hy' (x := x) (m := 1) (by omega) (by omega) (Nat.le_refl 1)
          exact cellScalar_ok ha hs G.hvsq b0 b1 b2 (by omega) rfl) aOut ho
  refine ⟨out, h1, h2.congr (fun j => ?_) (fun _ _ _ => rfl)⟩
  constructor
  · rintro ⟨z, hz, y, hy, x, hx, e⟩
    exact ⟨x, y, z, hx.1, hx.2, hy.1, hy.2, hz.1, hz.2, e⟩
  · rintro ⟨x, y, z, hx, hx', hy, hy', hz, hz', e⟩
    exact ⟨z, ⟨hz, hz'⟩, y, ⟨hy, hy'⟩, x, ⟨hx, hx'⟩, e⟩

/-- One plane of the vectorised program. -/
theorem stepSimd_ok {z0 z1 nz z : Int} (G : Geometry E z0 z1 nz) (hn : 1 ≤ n) (hdvd : (n : Int) ∣ E.x1 - E.x0) (hz : z0 ≤ z) (hz' : z < z1)
    {aIn c : List α} (ha : aIn.length = (E.nx * E.ny * nz).toNat) (hc : c.length = (E.nx * E.ny).toNat) :
    ∃ out, stepSimd E n z (z + 1) aIn c = .ok out ∧
      Updates (fun j old => newValueSimd E (E.nx * E.ny) aIn (z * (E.nx * E.ny) + j) old)
        (fun j => ∃ y, (E.y0 ≤ y ∧ y < E.y1) ∧ ∃ x, (E.x0 ≤ x ∧ x < E.x1) ∧ (j : Int) = y * E.nx + x) c out := by
  have hx0 := G.hx0; have hx1 := G.hx1; have hnx := G.hnx; have hny := G.hny; have hsize := G.hsize
  have hpos : 0 < E.nx * E.ny := Int.mul_pos hnx hny
  have hnxy : E.nx * 1 ≤ E.nx * E.ny := Int.mul_le_mul_of_nonneg_left (by omega) (by omega)
  have hnz : E.nx * E.ny * 1 ≤ E.nx * E.ny * nz := Int.mul_le_mul_of_nonneg_left (by have := G.hz0; have := G.hz01; have := G.hz1; omega) (by omega)
  have hx01 := G.hx01
  obtain ⟨q', hq'⟩ := hdvd
  have hq0 : 0 ≤ q' := by
    by_contra h
    have := Int.mul_le_mul_of_nonneg_left (show q' ≤ -1 by omega) (show (0 : Int) ≤ n by omega)
    omega
  obtain ⟨q, rfl⟩ := Int.eq_ofNat_of_zero_le hq0
  have hzb : 0 ≤ z * (E.nx * E.ny) ∧ z * (E.nx * E.ny) < 2 ^ 31 := by
    have := G.hz0; have := G.hz1
    have h1 := Int.mul_le_mul_of_nonneg_right (show z ≤ nz by omega) (Int.le_of_lt hpos)
    rw [Int.mul_comm nz] at h1
    exact ⟨Int.mul_nonneg (by omega) (by omega), by omega⟩
  have hkb : ∀ k : Nat, k < q → (k : Int) * n + n ≤ n * q := by
    intro k hk
    have h1 := Int.mul_le_mul_of_nonneg_right (show (k : Int) + 1 ≤ q by omega) (show (0 : Int) ≤ n by omega)
    rw [Int.add_mul, Int.one_mul, Int.mul_comm (q : Int)] at h1
    exact h1
  have hk0 : ∀ k : Nat, 0 ≤ (k : Int) * n := fun k => Int.mul_nonneg (by omega) (by omega)
  unfold stepSimd
  rw [i32_ok (by omega), R_ok_bind, if_pos (Int.tmod_eq_zero_of_dvd ⟨_, hq'⟩), i32_ok (by omega), R_ok_bind, forInt_one, i32_ok (by omega), R_ok_bind]
  obtain ⟨out, h1, h2⟩ := forInt_updates (N := (E.nx * E.ny).toNat)
    (upd := fun j old => newValueSimd E (E.nx * E.ny) aIn (z * (E.nx * E.ny) + j) old)
    (fun y j => ∃ k : Nat, k < q ∧ E.x0 + (k : Int) * n + y * E.nx ≤ (j : Int) ∧ (j : Int) < E.x0 + (k : Int) * n + y * E.nx + n)
    (fun aOut y => do
        let yIdx ← i32 E.dbg (y * E.nx)
        forStep E.x0 E.x1 n (blockSimd E n aIn (E.nx * E.ny) (z * (E.nx * E.ny)) yIdx) aOut) (lo := E.y0) (hi := E.y1)
    (by
      rintro c d hc hc' hd hd' hne j ⟨k, hk, e1, e2⟩ ⟨l, hl, e3, e4⟩
      have := hkb k hk; have := hkb l hl; have := hk0 k; have := hk0 l
      exact hne (block_unique (m := E.nx) (j := j) (by omega) (by omega) (by omega) (by omega) hnx))
    (by
      intro y hy hy' s hs
      have hb : ∀ k : Nat, k < q → _ := fun k hk => inner_of G hz hz' hy hy' (x := E.x0 + (k : Int) * n) (m := n) (by have := hk0 k; omega)
        (by have := hkb k hk; omega) hn
      have hyb : 0 ≤ y * E.nx ∧ y * E.nx < 2 ^ 31 := by
        have := G.hy0; have := G.hy1
        have h1 := Int.mul_le_mul_of_nonneg_right (show y ≤ E.ny by omega) (Int.le_of_lt hnx)
        rw [Int.mul_comm E.ny] at h1
        exact ⟨Int.mul_nonneg (by omega) (by omega), by omega⟩
      rw [i32_ok (by omega), R_ok_bind]
      refine forStep_updates (fun x j => x + y * E.nx ≤ (j : Int) ∧ (j : Int) < x + y * E.nx + n) _ hn hq' ?_ ?_ s hs
      · rintro k l hk hl hne j ⟨e1, e2⟩ ⟨e3, e4⟩
        exact hne (by
          have := block_unique (m := n) (j := j - E.x0 - y * E.nx) (a := k) (b := l) (by omega) (by omega) (by omega) (by omega) (by omega)
          omega)
      · intro k hk s hs
        obtain ⟨b0, b1, b2, b3⟩ := hb k hk
        have := hk0 k
        refine blockSimd_ok ha G.hvsq hs ?_ b1 b2 (by omega) (by omega)
        rw [show z * (E.nx * E.ny) + (E.x0 + (k : Int) * n + y * E.nx) = z * (E.nx * E.ny) + y * E.nx + (E.x0 + (k : Int) * n) by omega]
        exact b0) c hc
  refine ⟨out, h1, h2.congr (fun j => ?_) (fun _ _ _ => rfl)⟩
  constructor
  · rintro ⟨y, hy, k, hk, e1, e2⟩
    have := hkb k hk; have := hk0 k
    exact ⟨y, hy, j - y * E.nx, by omega, by omega⟩
  · rintro ⟨y, hy, x, hx, e⟩
    have hd := Int.mul_ediv_add_emod (x - E.x0) n
    have hm := Int.emod_nonneg (x - E.x0) (show (n : Int) ≠ 0 by omega)
    have hm' := Int.emod_lt_of_pos (x - E.x0) (show (0 : Int) < n by omega)
    have hd0 : 0 ≤ (x - E.x0) / n := Int.ediv_nonneg (by omega) (by omega)
    have hdq : (x - E.x0) / n < q := Int.ediv_lt_of_lt_mul (by omega) (by rw [Int.mul_comm]; omega)
    refine ⟨y, hy, ((x - E.x0) / n).toNat, by omega, ?_⟩
    rw [Int.toNat_of_nonneg hd0, Int.mul_comm _ (n : Int)]
    omega

/-- One chunk of the output replaced. -/
theorem planeSimd_ok {z0 z1 nz : Int} {z : Nat} (G : Geometry E z0 z1 nz) (hn : 1 ≤ n) (hdvd : (n : Int) ∣ E.x1 - E.x0) (hz : z0 ≤ z) (hz' : z < z1)
    {aIn aOut : List α} (ha : aIn.length = (E.nx * E.ny * nz).toNat) (ho : aOut.length = (E.nx * E.ny * nz).toNat) :
    ∃ out, planeSimd E n aIn (E.nx * E.ny).toNat aOut z = .ok out ∧
      Updates (fun j old => newValueSimd E (E.nx * E.ny) aIn j old)
        (fun j => ∃ y, (E.y0 ≤ y ∧ y < E.y1) ∧ ∃ x, (E.x0 ≤ x ∧ x < E.x1) ∧ (j : Int) = z * (E.nx * E.ny) + y * E.nx + x) aOut out := by
  have hx0 := G.hx0; have hx1 := G.hx1; have hnx := G.hnx; have hny := G.hny; have hsize := G.hsize; have hz1 := G.hz1
  have hpos : 0 < E.nx * E.ny := Int.mul_pos hnx hny
  have hzz : ((z : Int) + 1) * (E.nx * E.ny) ≤ nz * (E.nx * E.ny) := Int.mul_le_mul_of_nonneg_right (by omega) (by omega)
  have hnz1 : nz * 1 ≤ nz * (E.nx * E.ny) := Int.mul_le_mul_of_nonneg_left (by omega) (by have := G.hz0; omega)
  rw [Int.mul_comm nz, Int.add_mul] at hzz
  rw [Int.mul_comm nz (E.nx * E.ny)] at hnz1
  have hb : ((z * (E.nx * E.ny).toNat : Nat) : Int) = z * (E.nx * E.ny) := by
    rw [Int.natCast_mul, Int.toNat_of_nonneg (by omega)]
  have hbr : ∀ y x : Int, (E.y0 ≤ y ∧ y < E.y1) → (E.x0 ≤ x ∧ x < E.x1) → 0 ≤ y * E.nx + x ∧ y * E.nx + x < E.nx * E.ny := by
    intro y x hy hx
    obtain ⟨_, _, b2, b3⟩ := inner_of G hz hz' hy.1 hy.2 (x := x) (m := 1) (by omega) (by omega) (Nat.le_refl 1)
    omega
  obtain ⟨c, h1, h2⟩ := stepSimd_ok (n := n) G hn hdvd hz hz' ha
    (c := (aOut.drop (z * (E.nx * E.ny).toNat)).take (E.nx * E.ny).toNat) (by rw [List.length_take, List.length_drop]; omega)
  have hcl : c.length = (E.nx * E.ny).toNat := by rw [h2.length, List.length_take, List.length_drop]; omega
  unfold planeSimd
  rw [i32_ok (by omega), R_ok_bind, h1, R_ok_bind]
  generalize hB : z * (E.nx * E.ny).toNat = B at *
  generalize hS : (E.nx * E.ny).toNat = S at *
  have hget : ∀ j, (aOut.take B ++ c ++ aOut.drop (B + S))[j]? = if j < B then aOut[j]? else if j < B + S then c[j - B]? else aOut[j]? := by
    intro j
    by_cases h : j < B
    · rw [if_pos h, List.append_assoc, List.getElem?_append_left (by rw [List.length_take]; omega), List.getElem?_take, if_pos h]
    · rw [if_neg h]
      by_cases h' : j < B + S
      · rw [if_pos h', List.append_assoc, List.getElem?_append_right (by rw [List.length_take]; omega), List.length_take, Nat.min_eq_left (by omega),
          List.getElem?_append_left (by omega)]
      · rw [if_neg h', List.getElem?_append_right (by rw [List.length_append, List.length_take]; omega), List.length_append, List.length_take,
          Nat.min_eq_left (by omega), List.getElem?_drop]
        congr 1
        omega
  refine ⟨_, rfl, ?_, fun j hj => ?_, fun j hj => ?_⟩
  · simp only [List.length_append, List.length_take, List.length_drop]; omega
  · obtain ⟨y, hy, x, hx, e⟩ := hj
    have := hbr y x hy hx
    rw [hget, if_neg (by omega), if_pos (by omega), h2.hit (j - B) ⟨y, hy, x, hx, by omega⟩, List.getElem?_take, if_pos (by omega), List.getElem?_drop,
      show B + (j - B) = j by omega, show (z : Int) * (E.nx * E.ny) + ((j - B : Nat) : Int) = j by omega]
  · rw [hget]
    by_cases h : j < B
    · rw [if_pos h]
    · rw [if_neg h]
      by_cases h' : j < B + S
      · rw [if_pos h', h2.miss (j - B), List.getElem?_take, if_pos (by omega), List.getElem?_drop, show B + (j - B) = j by omega]
        rintro ⟨y, hy, x, hx, e⟩
        exact hj ⟨y, hy, x, hx, by omega⟩
      · rw [if_neg h']

theorem planes_ok {z0 z1 nz : Int} (G : Geometry E z0 z1 nz) {len : Nat} (hl : len = (E.nx * E.ny * nz).toNat) :
    planes E z0 z1 len = .ok ((E.nx * E.ny).toNat, List.range' z0.toNat (z1 - z0).toNat) := by
  have hnx := G.hnx; have hny := G.hny; have hsize := G.hsize; have hz0 := G.hz0; have hz1 := G.hz1; have hz01 := G.hz01
  have hpos : 0 < E.nx * E.ny := Int.mul_pos hnx hny
  have hnz1 : E.nx * E.ny * 1 ≤ E.nx * E.ny * nz := Int.mul_le_mul_of_nonneg_left (by omega) (by omega)
  have hnz2 : nz * 1 ≤ nz * (E.nx * E.ny) := Int.mul_le_mul_of_nonneg_left (by omega) (by omega)
  rw [Int.mul_comm nz (E.nx * E.ny)] at hnz2
  unfold planes
  rw [i32_ok (by omega), R_ok_bind, asUsize_nonneg (by omega), i32_ok (by omega), if_neg (by omega), R_ok_bind, asUsize_nonneg (by omega),
    asUsize_nonneg (by omega)]
  have hc : (len + (E.nx * E.ny).toNat - 1) / (E.nx * E.ny).toNat = nz.toNat := by
    have : (E.nx * E.ny * nz).toNat = (E.nx * E.ny).toNat * nz.toNat := by
      apply Int.ofNat.inj
      show (((E.nx * E.ny * nz).toNat : Nat) : Int) = (((E.nx * E.ny).toNat * nz.toNat : Nat) : Int)
      rw [Int.natCast_mul, Int.toNat_of_nonneg (by omega), Int.toNat_of_nonneg (by omega), Int.toNat_of_nonneg (by omega)]
    rw [hl, this, Nat.add_sub_assoc (by omega), Nat.mul_add_div (by omega), Nat.div_eq_of_lt (by omega), Nat.add_zero]
  dsimp only [pure, Except.pure]
  rw [hc, List.range_eq_range', List.drop_range', show nz.toNat - z0.toNat = (z1 - z0).toNat + (nz.toNat - z1.toNat) by omega, ← List.range'_append_1,
    List.take_left' (List.length_range' ..), Nat.mul_one, Nat.zero_add]

/-- One time step of the vectorised programs, the planes in any order. -/
theorem halfPar_ok {z0 z1 nz : Int} (G : Geometry E z0 z1 nz) (hn : 1 ≤ n) (hdvd : (n : Int) ∣ E.x1 - E.x0) {order : List Nat → List Nat}
    (hord : ∀ l, (order l).Perm l) {aIn aOut : List α} (ha : aIn.length = (E.nx * E.ny * nz).toNat) (ho : aOut.length = (E.nx * E.ny * nz).toNat) :
    ∃ out, halfPar E n order z0 z1 aIn aOut = .ok out ∧
      Updates (fun j old => newValueSimd E (E.nx * E.ny) aIn j old) (InBox E z0 z1) aOut out := by
  have hnx := G.hnx; have hny := G.hny; have hz0 := G.hz0; have hz01 := G.hz01; have hx0 := G.hx0; have hx1 := G.hx1
  have hpos : 0 < E.nx * E.ny := Int.mul_pos hnx hny
  have hmem : ∀ z, z ∈ order (List.range' z0.toNat (z1 - z0).toNat) ↔ z0 ≤ (z : Int) ∧ (z : Int) < z1 := by
    intro z
    rw [(hord _).mem_iff, List.mem_range'_1]
    omega
  unfold halfPar
  rw [planes_ok G ho, R_ok_bind]
  obtain ⟨out, h1, h2⟩ := fold_updates (N := (E.nx * E.ny * nz).toNat) (upd := fun j old => newValueSimd E (E.nx * E.ny) aIn j old)
    (fun (z : Nat) j => ∃ y, (E.y0 ≤ y ∧ y < E.y1) ∧ ∃ x, (E.x0 ≤ x ∧ x < E.x1) ∧ (j : Int) = z * (E.nx * E.ny) + y * E.nx + x)
    (planeSimd E n aIn (E.nx * E.ny).toNat) (order (List.range' z0.toNat (z1 - z0).toNat))
    ((hord _).nodup_iff.2 List.nodup_range')
    (by
      rintro c hc d hd hne j ⟨y, hy, x, hx, e⟩ ⟨y', hy', x', hx', e'⟩
      rw [hmem] at hc hd
      obtain ⟨_, b1, b2, b3⟩ := inner_of G hc.1 hc.2 hy.1 hy.2 (x := x) (m := 1) (by omega) (by omega) (Nat.le_refl 1)
      obtain ⟨_, b4, b5, b6⟩ := inner_of G hd.1 hd.2 hy'.1 hy'.2 (x := x') (m := 1) (by omega) (by omega) (Nat.le_refl 1)
      have := block_unique (m := E.nx * E.ny) (j := j) (a := c) (b := d) (by omega) (by omega) (by omega) (by omega) hpos
      omega)
    (by
      intro z hz s hs
      rw [hmem] at hz
      exact planeSimd_ok G hn hdvd hz.1 hz.2 ha hs) aOut ho
  refine ⟨out, h1, h2.congr (fun j => ?_) (fun _ _ _ => rfl)⟩
  constructor
  · rintro ⟨z, hz, y, hy, x, hx, e⟩
    rw [hmem] at hz
    exact ⟨x, y, z, hx.1, hx.2, hy.1, hy.2, hz.1, hz.2, e⟩
  · rintro ⟨x, y, z, hx, hx', hy, hy', hz, hz', e⟩
    refine ⟨z.toNat, (hmem _).2 (by omega), y, ⟨hy, hy'⟩, x, ⟨hx, hx'⟩, ?_⟩
    rw [Int.toNat_of_nonneg (by omega)]
    exact e

/-! ### Whole runs -/

theorem run_ok {z0 z1 : Int} {N : Nat} (step : Int → List α → List α → R (List α))
    (hstep : ∀ t aIn aOut, aIn.length = N → aOut.length = N → ∃ out, step t aIn aOut = .ok out ∧ TimeStep E z0 z1 aIn aOut out) :
    ∀ (m : Nat) (t : Int) (s : List α × List α), s.1.length = N → s.2.length = N →
      ∃ r, ((List.range m).map fun (k : Nat) => t + (k : Int)).foldlM (fun (s : List α × List α) t =>
        if t % 2 = 0 then do return (s.1, ← step t s.1 s.2) else do return (← step t s.2 s.1, s.2)) s = .ok r ∧ Evolves E z0 z1 t m s r
  | 0, t, s, _, _ => ⟨s, rfl, .zero t s⟩
  | m + 1, t, s, h1, h2 => by
    rw [List.range_succ_eq_map, List.map_cons, List.map_map, List.foldlM_cons, Int.natCast_zero, Int.add_zero,
      show ((fun (k : Nat) => t + (k : Int)) ∘ Nat.succ) = fun (k : Nat) => (t + 1) + (k : Int) by funext k; simp; omega]
    by_cases ht : t % 2 = 0
    · obtain ⟨o, e, u⟩ := hstep t s.1 s.2 h1 h2
      obtain ⟨r, e', ev⟩ := run_ok step hstep m (t + 1) (s.1, o) h1 (by rw [u.length]; exact h2)
      refine ⟨r, ?_, .even ht u ev⟩
      rw [if_pos ht, e]
      exact e'
    · obtain ⟨o, e, u⟩ := hstep t s.2 s.1 h2 h1
      obtain ⟨r, e', ev⟩ := run_ok step hstep m (t + 1) (o, s.2) (by rw [u.length]; exact h1) h2
      refine ⟨r, ?_, .odd ht u ev⟩
      rw [if_neg ht, e]
      exact e'

theorem Evolves.unique {z0 z1 : Int} {t : Int} {m : Nat} {s r r' : List α × List α} (h : Evolves E z0 z1 t m s r) :
    Evolves E z0 z1 t m s r' → r = r' := by
  induction h with
  | zero t s => intro h; cases h; rfl
  | even ht u _ ih =>
    intro h
    cases h with
    | even _ u' h' => rw [u.unique u'] at ih; exact ih h'
    | odd ht' _ _ => exact absurd ht ht'
  | odd ht u _ ih =>
    intro h
    cases h with
    | even ht' _ _ => exact absurd ht' ht
    | odd _ u' h' => rw [u.unique u'] at ih; exact ih h'

/-! ### Agreement of the two formulations -/

theorem newValue_eq (L : Laws E) (aIn : List α) (j : Int) (old : α) :
    newValueSimd E (E.nx * E.ny) aIn j old = newValue E.two E.coef E.nx (E.nx * E.ny) (elem E.two E.vsq) (elem E.two aIn) j old := by
  simp only [newValueSimd, newValue, laplacian, L.fma, L.sub]
  rw [L.mul_comm (elem E.two aIn j) E.two, L.add_comm (elem E.two E.vsq j * _)]
  congr 2
  rw [L.add_comm, L.add_comm (E.coef[2] * _), L.add_comm (E.coef[1] * _)]

theorem halfPar_step {z0 z1 nz : Int} (G : Geometry E z0 z1 nz) (hn : 1 ≤ n) (hdvd : (n : Int) ∣ E.x1 - E.x0) (L : Laws E) {order : List Nat → List Nat}
    (hord : ∀ l, (order l).Perm l) {aIn aOut : List α} (ha : aIn.length = (E.nx * E.ny * nz).toNat) (ho : aOut.length = (E.nx * E.ny * nz).toNat) :
    ∃ out, halfPar E n order z0 z1 aIn aOut = .ok out ∧ TimeStep E z0 z1 aIn aOut out := by
  obtain ⟨out, h1, h2⟩ := halfPar_ok G hn hdvd hord ha ho
  exact ⟨out, h1, h2.congr (fun _ => Iff.rfl) (fun j _ v => newValue_eq L aIn j v)⟩

/-! ### Initialisation -/

theorem forInt_empty {σ : Type} {lo hi : Int} (h : hi ≤ lo) (f : σ → Int → R σ) (s : σ) : forInt lo hi f s = .ok s := by
  unfold forInt
  rw [show (hi - lo).toNat = 0 by omega]
  rfl

theorem forInt_cons {σ : Type} {lo hi : Int} (h : lo < hi) (f : σ → Int → R σ) (s : σ) : forInt lo hi f s = f s lo >>= forInt (lo + 1) hi f := by
  unfold forInt
  rw [show (hi - lo).toNat = (hi - (lo + 1)).toNat + 1 by omega, List.range_succ_eq_map, List.map_cons, List.map_map, List.foldlM_cons,
    Int.natCast_zero, Int.add_zero, show ((fun (k : Nat) => lo + (k : Int)) ∘ Nat.succ) = fun (k : Nat) => (lo + 1) + (k : Int) by funext k; simp; omega]

theorem forInt_chain {σ : Type} {lo hi : Int} (I : Int → σ → Prop) (f : σ → Int → R σ)
    (hf : ∀ i s, lo ≤ i → i < hi → I i s → ∃ s', f s i = .ok s' ∧ I (i + 1) s') {s : σ} (h : I lo s) (hle : lo ≤ hi) :
    ∃ s', forInt lo hi f s = .ok s' ∧ I hi s' := by
  generalize hm : (hi - lo).toNat = m
  induction m generalizing lo s with
  | zero =>
    have : lo = hi := by omega
    subst this
    exact ⟨s, forInt_empty (Int.le_refl _) f s, h⟩
  | succ m ih =>
    obtain ⟨s', e, h'⟩ := hf lo s (Int.le_refl _) (by omega) h
    obtain ⟨r, e', hr⟩ := ih (lo := lo + 1) (fun i s hi => hf i s (by omega)) h' (by omega) (by omega)
    exact ⟨r, by rw [forInt_cons (by omega), e]; exact e', hr⟩

/-- The first `k` cells are initialised. -/
structure Filled [Div α] [Zero α] (ofInt : Int → α) (nx ny nz : Int) (N : Nat) (k : Int) (g : Grid α) : Prop where
  off : (g.offset : Int) = k
  even_len : g.even.length = N
  odd_len : g.odd.length = N
  vsq_len : g.vsq.length = N
  even : ∀ x y z : Nat, (x : Int) < nx → (y : Int) < ny → (z : Int) < nz → ∀ j : Nat, (j : Int) < k → (j : Int) = z * (nx * ny) + y * nx + x →
    g.even[j]? = some (if (x : Int) < nx.tdiv 2 then ofInt x / ofInt nx else ofInt y / ofInt ny)
  odd : ∀ j : Nat, (j : Int) < k → g.odd[j]? = some 0
  vsq : ∀ x y z : Nat, (x : Int) < nx → (y : Int) < ny → (z : Int) < nz → ∀ j : Nat, (j : Int) < k → (j : Int) = z * (nx * ny) + y * nx + x →
    g.vsq[j]? = some (ofInt ((x : Int) * y * z) / ofInt (nx * ny * nz))

theorem setU_ok {l : List α} {k : Nat} {x : α} (h : k < l.length) : setU l k x = .ok (l.set k x) := if_pos h

theorem initCell_ok [Div α] [Zero α] {dbg : Bool} {ofInt : Int → α} {nx ny nz x y z : Int} {N : Nat} {g : Grid α} (hx : 0 ≤ x) (hx' : x < nx) (hy : 0 ≤ y)
    (hy' : y < ny) (hz : 0 ≤ z) (hz' : z < nz) (hN : (N : Int) = nx * ny * nz) (hsize : N < 2 ^ 31)
    (h : Filled ofInt nx ny nz N (z * (nx * ny) + y * nx + x) g) :
    ∃ g', initCell dbg ofInt nx ny nz z y g x = .ok g' ∧ Filled ofInt nx ny nz N (z * (nx * ny) + y * nx + (x + 1)) g' := by
  have hpos : 0 < nx * ny := Int.mul_pos (by omega) (by omega)
  have p2 : 0 ≤ z * (nx * ny) := Int.mul_nonneg hz (by omega)
  have p3 : 0 ≤ y * nx := Int.mul_nonneg hy (by omega)
  have p4 : (y + 1) * nx ≤ ny * nx := Int.mul_le_mul_of_nonneg_right (by omega) (by omega)
  have p5 : (z + 1) * (nx * ny) ≤ nz * (nx * ny) := Int.mul_le_mul_of_nonneg_right (by omega) (by omega)
  have p6 : nx * ny * 1 ≤ nx * ny * nz := Int.mul_le_mul_of_nonneg_left (by omega) (by omega)
  have p7 : 0 ≤ x * y := Int.mul_nonneg hx hy
  have p8 : x * y ≤ nx * ny := Int.mul_le_mul (by omega) (by omega) hy (by omega)
  have p9 : 0 ≤ x * y * z := Int.mul_nonneg p7 hz
  have p10 : x * y * z ≤ nx * ny * nz := Int.mul_le_mul p8 (by omega) hz (by omega)
  rw [Int.add_mul] at p4 p5
  rw [Int.mul_comm ny] at p4
  rw [Int.mul_comm nz] at p5
  obtain ⟨h1, h2, h3, h4, h5, h6, h7⟩ := h
  have huniq : ∀ x' y' z' : Nat, (x' : Int) < nx → (y' : Int) < ny → (z' : Int) < nz →
      z * (nx * ny) + y * nx + x = z' * (nx * ny) + y' * nx + x' → (x' : Int) = x ∧ (y' : Int) = y ∧ (z' : Int) = z := by
    intro x' y' z' a b c e
    have q3 : 0 ≤ (y' : Int) * nx := Int.mul_nonneg (by omega) (by omega)
    have q4 : ((y' : Int) + 1) * nx ≤ ny * nx := Int.mul_le_mul_of_nonneg_right (by omega) (by omega)
    rw [Int.add_mul, Int.mul_comm ny] at q4
    have hz := block_unique (m := nx * ny) (j := z * (nx * ny) + y * nx + x) (a := z') (b := z) (by omega) (by omega) (by omega) (by omega) hpos
    rw [hz] at e
    have hy := block_unique (m := nx) (j := y * nx + x) (a := y') (b := y) (by omega) (by omega) (by omega) (by omega) (by omega)
    rw [hy] at e
    exact ⟨by omega, hy, hz⟩
  refine ⟨⟨g.even.set g.offset (if x < nx.tdiv 2 then ofInt x / ofInt nx else ofInt y / ofInt ny), g.odd.set g.offset 0,
    g.vsq.set g.offset (ofInt (x * y * z) / ofInt (nx * ny * nz)), g.offset + 1⟩, ?_, ?_⟩
  · unfold initCell
    dsimp only
    rw [setU_ok (by omega), R_ok_bind, setU_ok (by omega), R_ok_bind, i32_ok (by omega), R_ok_bind, i32_ok (by omega), R_ok_bind, i32_ok (by omega),
      R_ok_bind, i32_ok (by omega), R_ok_bind, setU_ok (by omega)]
    rfl
  · refine ⟨by dsimp only; omega, by simp [h2], by simp [h3], by simp [h4], fun x' y' z' a b c j hj e => ?_, fun j hj => ?_, fun x' y' z' a b c j hj e => ?_⟩
    · by_cases hjk : j = g.offset
      · obtain ⟨ex, ey, ez⟩ := huniq x' y' z' a b c (by omega)
        rw [hjk, List.getElem?_set_self (by omega), ex, ey]
      · dsimp only
        rw [List.getElem?_set_ne (by omega)]
        exact h5 x' y' z' a b c j (by omega) e
    · by_cases hjk : j = g.offset
      · rw [hjk, List.getElem?_set_self (by omega)]
      · dsimp only
        rw [List.getElem?_set_ne (by omega)]
        exact h6 j (by omega)
    · by_cases hjk : j = g.offset
      · obtain ⟨ex, ey, ez⟩ := huniq x' y' z' a b c (by omega)
        rw [hjk, List.getElem?_set_self (by omega), ex, ey, ez]
      · dsimp only
        rw [List.getElem?_set_ne (by omega)]
        exact h7 x' y' z' a b c j (by omega) e

theorem reinit_ok [Div α] [Zero α] {dbg : Bool} {ofInt : Int → α} {nx ny nz : Int} {N : Nat} {g : Grid α} (hx : 0 ≤ nx) (hy : 0 ≤ ny) (hz : 0 ≤ nz)
    (hN : (N : Int) = nx * ny * nz) (hsize : N < 2 ^ 31) (h1 : g.even.length = N) (h2 : g.odd.length = N) (h3 : g.vsq.length = N) :
    ∃ g', reinit dbg ofInt nx ny nz g = .ok g' ∧ Filled ofInt nx ny nz N N g' := by
  unfold reinit
  have := forInt_chain (lo := 0) (hi := nz) (fun z g => Filled ofInt nx ny nz N (z * (nx * ny)) g)
    (fun g z => forInt 0 ny (fun g y => forInt 0 nx (initCell dbg ofInt nx ny nz z y) g) g) (s := { g with offset := 0 }) (by
      intro z s hz hz' hs
      have := forInt_chain (lo := 0) (hi := ny) (fun y g => Filled ofInt nx ny nz N (z * (nx * ny) + y * nx) g)
        (fun g y => forInt 0 nx (initCell dbg ofInt nx ny nz z y) g) (s := s) (by
          intro y s hy hy' hs
          have := forInt_chain (lo := 0) (hi := nx) (fun x g => Filled ofInt nx ny nz N (z * (nx * ny) + y * nx + x) g)
            (initCell dbg ofInt nx ny nz z y) (s := s) (fun x s hx hx' hs => initCell_ok hx hx' hy hy' hz hz' hN hsize hs)
            (by rw [Int.add_zero]; exact hs) hx
          rw [Int.add_mul, Int.one_mul, ← Int.add_assoc]
          exact this) (by rw [Int.zero_mul, Int.add_zero]; exact hs) hy
      rw [Int.add_mul, Int.one_mul]
      rw [Int.mul_comm ny] at this
      exact this)
    (by
      rw [Int.zero_mul]
      exact ⟨rfl, h1, h2, h3, fun _ _ _ _ _ _ j hj => by omega, fun j hj => by omega, fun _ _ _ _ _ _ j hj => by omega⟩) hz
  rw [Int.mul_comm nz, ← hN] at this
  exact this

end Stencil
end PackedSimd.Ex
