import Verif.Model.Ptr
import Verif.Lemmas.Cast
import Verif.Lemmas.Memory
import Verif.Lemmas.Lanes
/- Masked gather and scatter. -/
namespace PackedSimd
open Spec Intr

variable {k a w n : Nat}

theorem maskLane_ne_zero (hw : 0 < w) {x : BitVec w} {b : Bool} (h : IsMaskLane x b) : (x != 0#w) = b := by
  rw [isMaskLane_iff.1 h]
  cases b with
  | false => simp [maskBits]
  | true =>
    rw [bne_iff_ne]
    intro e
    have := congrArg (fun z : BitVec w => z.getLsbD 0) e
    simp [getLsbD_maskBits, hw] at this

theorem all_legal {mask : Vec (BitVec w) n} {f : Nat → Bool} (h : Denotes mask f) : mask.all legalMaskLane = true :=
  validMask_iff.1 fun i hi => ⟨f i, h i hi⟩

theorem isAligned_iff {addr align : Nat} : isAligned addr align = true ↔ align ∣ addr := by
  simp [isAligned, Nat.dvd_iff_mod_eq_zero]

theorem loadElem_ok {e : Endian} {align : Nat} {m : Mem} {addr : Nat} {x : BitVec (8 * k)} (ha : align ∣ addr) (h : HoldsElem e m addr x) :
    loadElem e k align m addr = .ok x := by
  unfold loadElem
  rw [if_pos (isAligned_iff.2 ha), load_of (holdsElem_iff.1 h)]
  show Except.ok (laneOfBytes e (laneBytes e x)) = _
  rw [laneOfBytes_laneBytes]

theorem loadElem_ub {e : Endian} {align : Nat} {m : Mem} {addr : Nat} (h : ¬ align ∣ addr ∨ ∃ j, j < k ∧ m (addr + j) = none) :
    loadElem e k align m addr = .error .ub := by
  unfold loadElem
  split
  · rename_i ha
    rcases h with h | ⟨j, hj, h⟩
    · exact absurd (isAligned_iff.1 ha) h
    · have : m.load addr k = .error .ub := by
        unfold Mem.load
        rw [dif_neg]
        intro hs
        have := hs ⟨j, hj⟩
        rw [h] at this
        cases this
      rw [this]; rfl
  · rfl

theorem storeElem_ub {e : Endian} {align : Nat} {m : Mem} {addr : Nat} {x : BitVec (8 * k)}
    (h : ¬ align ∣ addr ∨ ∃ j, j < k ∧ m (addr + j) = none) : storeElem e align m addr x = .error .ub := by
  unfold storeElem
  split
  · rename_i ha
    rcases h with h | ⟨j, hj, h⟩
    · exact absurd (isAligned_iff.1 ha) h
    · unfold Mem.store
      rw [if_neg]
      intro hs
      have := hs ⟨j, hj⟩
      rw [h] at this
      cases this
  · rfl

/-- A successful store: the bytes of the element are written, nothing else changes, and no address becomes (in)accessible. -/
theorem storeElem_ok {e : Endian} {align : Nat} {m : Mem} {addr : Nat} (x : BitVec (8 * k)) (ha : align ∣ addr)
    (h : ∀ j, j < k → (m (addr + j)).isSome) :
    ∃ m', storeElem e align m addr x = .ok m' ∧ (∀ p, ¬ (addr ≤ p ∧ p < addr + k) → m' p = m p) ∧
      (∀ p (h1 : addr ≤ p) (h2 : p < addr + k), m' p = some ((laneBytes e x)[p - addr]'(by omega))) ∧
      (∀ p, (m' p).isSome = (m p).isSome) := by
  unfold storeElem
  rw [if_pos (isAligned_iff.2 ha), store_of h]
  refine ⟨_, rfl, fun p hp => dif_neg hp, fun p h1 h2 => dif_pos ⟨h1, h2⟩, fun p => ?_⟩
  split
  · rename_i hp
    have := h (p - addr) (by omega)
    rw [show addr + (p - addr) = p by omega] at this
    rw [this]; rfl
  · rfl

section
variable (e : Endian) (align : Nat) (value : Vec (BitVec (8 * k)) n) (ptrs : Vec (BitVec a) n) (en : Fin n → Bool)

/-- One step of the scatter loop. -/
def scatterStep (m : Mem) (i : Fin n) : R Mem := if en i then storeElem e align m (ptrs[i]).toNat value[i] else .ok m

/-- Lane `i` is enabled and its element covers address `p`. -/
def CoversAt (ptrs : Vec (BitVec a) n) (k : Nat) (en : Fin n → Bool) (i : Fin n) (p : Nat) : Prop :=
  en i = true ∧ (ptrs[i]).toNat ≤ p ∧ p < (ptrs[i]).toNat + k

theorem scatter_fold (l : List (Fin n)) : ∀ (m : Mem)
    (_ : ∀ i ∈ l, en i = true → align ∣ (ptrs[i]).toNat ∧ ∀ j, j < k → (m ((ptrs[i]).toNat + j)).isSome),
    ∃ m', l.foldlM (scatterStep e align value ptrs en) m = .ok m' ∧
      (∀ p, (∀ i ∈ l, ¬ CoversAt ptrs k en i p) → m' p = m p) ∧
      (∀ l1 i l2 p, l = l1 ++ i :: l2 → ∀ hc : CoversAt ptrs k en i p, (∀ i' ∈ l2, ¬ CoversAt ptrs k en i' p) →
        m' p = some ((laneBytes e value[i])[p - (ptrs[i]).toNat]'(by have := hc.2; omega))) ∧
      (∀ p, (m' p).isSome = (m p).isSome) := by
  induction l with
  | nil =>
    intro m _
    refine ⟨m, rfl, fun _ _ => rfl, ?_, fun _ => rfl⟩
    intro l1 i l2 p h
    simp at h
  | cons x xs ih =>
    intro m hm
    obtain ⟨m1, h1, hout, hin, hsome⟩ : ∃ m1, scatterStep e align value ptrs en m x = .ok m1 ∧ (∀ p, ¬ CoversAt ptrs k en x p → m1 p = m p) ∧
        (∀ p (hc : CoversAt ptrs k en x p), m1 p = some ((laneBytes e value[x])[p - (ptrs[x]).toNat]'(by have := hc.2; omega))) ∧
        (∀ p, (m1 p).isSome = (m p).isSome) := by
      unfold scatterStep
      by_cases hx : en x = true
      case neg =>
        refine ⟨m, if_neg hx, fun _ _ => rfl, ?_, fun _ => rfl⟩
        intro p hc
        exact absurd hc.1 hx
      case pos =>
        rw [if_pos hx]
        obtain ⟨ha, hs⟩ := hm x (by simp) hx
        obtain ⟨m1, g1, g2, g3, g4⟩ := storeElem_ok (e := e) (align := align) value[x] ha hs
        refine ⟨m1, g1, fun p hp => g2 p fun hh => hp ⟨hx, hh⟩, fun p hc => g3 p hc.2.1 hc.2.2, g4⟩
    obtain ⟨m', h2, hout', hin', hsome'⟩ := ih m1 fun i hi hen => by
      obtain ⟨ha, hs⟩ := hm i (by simp [hi]) hen
      exact ⟨ha, fun j hj => by rw [hsome]; exact hs j hj⟩
    refine ⟨m', ?_, ?_, ?_, fun p => (hsome' p).trans (hsome p)⟩
    · rw [List.foldlM_cons, h1]; exact h2
    · intro p hp
      rw [hout' p fun i hi => hp i (by simp [hi]), hout p (hp x (by simp))]
    · intro l1 i l2 p hl hc hno
      cases l1 with
      | nil =>
        injection hl with e1 e2
        subst e1 e2
        rw [hout' p hno, hin p hc]
      | cons y ys =>
        injection hl with e1 e2
        exact hin' ys i l2 p e2 hc hno

theorem scatter_fold_ub (l : List (Fin n)) : ∀ (m : Mem), (∃ i ∈ l, en i = true ∧ (¬ align ∣ (ptrs[i]).toNat ∨
      ∃ j, j < k ∧ m ((ptrs[i]).toNat + j) = none)) →
    l.foldlM (scatterStep e align value ptrs en) m = .error .ub := by
  induction l with
  | nil => rintro m ⟨i, hi, -⟩; simp at hi
  | cons x xs ih =>
    rintro m ⟨i, hi, hen, hbad⟩
    rw [List.foldlM_cons]
    by_cases hx : en x = true ∧ (¬ align ∣ (ptrs[x]).toNat ∨ ∃ j, j < k ∧ m ((ptrs[x]).toNat + j) = none)
    · have : scatterStep e align value ptrs en m x = .error .ub := by
        unfold scatterStep; rw [if_pos hx.1]; exact storeElem_ub hx.2
      rw [this]; rfl
    · have hne : i ∈ xs := by
        rcases List.mem_cons.1 hi with rfl | h
        · exact absurd ⟨hen, hbad⟩ hx
        · exact h
      obtain ⟨m1, h1, hs⟩ : ∃ m1, scatterStep e align value ptrs en m x = .ok m1 ∧ (∀ p, (m1 p).isSome = (m p).isSome) := by
        unfold scatterStep
        cases hex : en x with
        | false => exact ⟨m, rfl, fun _ => rfl⟩
        | true =>
          obtain ⟨m1, g1, -, -, g4⟩ := storeElem_ok (e := e) (align := align) (m := m) value[x]
            (Classical.byContradiction fun h => hx ⟨hex, .inl h⟩) (fun j hj => by
              cases hj' : m ((ptrs[x]).toNat + j) with
              | some _ => rfl
              | none => exact absurd ⟨hex, .inr ⟨j, hj, hj'⟩⟩ hx)
          exact ⟨m1, g1, g4⟩
      rw [h1]
      refine ih m1 ⟨i, hne, hen, hbad.imp id ?_⟩
      rintro ⟨j, hj, hn⟩
      refine ⟨j, hj, ?_⟩
      have := hs ((ptrs[i]).toNat + j)
      rw [hn] at this
      cases hm1 : m1 ((ptrs[i]).toNat + j) with
      | none => rfl
      | some _ => rw [hm1] at this; cases this

end

/-- `0, 1, …, n-1` split at `i`: what follows is larger. -/
theorem finRange_split (i : Fin n) : ∃ l1 l2, List.finRange n = l1 ++ i :: l2 ∧ ∀ j ∈ l2, i < j := by
  obtain ⟨l1, l2, h⟩ := List.append_of_mem (List.mem_finRange i)
  refine ⟨l1, l2, h, ?_⟩
  have hp : (List.finRange n).Pairwise (· < ·) := by
    rw [List.pairwise_iff_getElem]
    intro a b ha hb hab
    simpa using hab
  rw [h, List.pairwise_append] at hp
  exact fun j hj => (List.pairwise_cons.1 hp.2.1).1 j hj

theorem simdScatter_eq (e : Endian) (align : Nat) (hw : 0 < w) (value : Vec (BitVec (8 * k)) n) (ptrs : Vec (BitVec a) n) (mask : Vec (BitVec w) n)
    (f : Nat → Bool) (hf : Denotes mask f) (m : Mem) :
    simdScatter e align value ptrs mask m = (List.finRange n).foldlM (scatterStep e align value ptrs fun i => f i) m := by
  unfold simdScatter
  rw [if_pos (all_legal hf)]
  congr 1
  funext m i
  unfold scatterStep
  rw [show (mask[i] != 0#w) = f i from maskLane_ne_zero hw (hf i i.2)]

end PackedSimd
