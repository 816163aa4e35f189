import Verif.Lemmas.Shuffle
import Verif.Lemmas.MaskReduce
/-
Lemmas about `swap_bytes`.
-/
namespace PackedSimd
open Intr

theorem swapIndices_spec : ∀ c ∈ [2, 4, 8, 16, 32, 64], (swapIndices c).length = c ∧ shuffleArity c = true ∧
    ∀ p, p < c → (swapIndices c)[p]? = some (c - 1 - p) := by decide +kernel

theorem swapClass_spec (t : Target) (ht : t.Supported) (ty : MaskTy) :
    swapClass t ty = ty.lanes * ty.laneBytes t ∧ swapClass t ty ∈ [2, 4, 8, 16, 32, 64] := by
  rcases ht with h | h <;> cases ty <;> simp [swapClass, MaskTy.lanes, MaskTy.laneBytes, h]

theorem swapBytes_bytes (t : Target) (ht : t.Supported) (ty : MaskTy) (v : Vec (BitVec (8 * ty.laneBytes t)) ty.lanes) :
    swapBytes t ty v = some (fromBytes t.endian (ty.laneBytes t) ty.lanes
      (Vector.ofFn fun p => (toBytes t.endian v)[ty.lanes * ty.laneBytes t - 1 - p.val]'(by omega))) := by
  obtain ⟨hc, hm⟩ := swapClass_spec t ht ty
  obtain ⟨hl, ha, hp⟩ := swapIndices_spec _ hm
  have hlen : (swapIndices (swapClass t ty)).length = ty.lanes * ty.laneBytes t := hl.trans hc
  unfold swapBytes
  rw [dif_pos hlen]
  have hidx : ∀ p (h : p < ty.lanes * ty.laneBytes t),
      (⟨(swapIndices (swapClass t ty)).toArray, hlen⟩ : Vector Nat (ty.lanes * ty.laneBytes t))[p] =
        ty.lanes * ty.laneBytes t - 1 - p := by
    intro p h
    have := hp p (by omega)
    show (swapIndices (swapClass t ty)).toArray[p]'_ = _
    rw [List.getElem_toArray]
    rw [List.getElem?_eq_getElem (by omega)] at this
    rw [Option.some.inj this]; omega
  dsimp only
  rw [shuffle1_spec _ _ (by rw [← hc]; exact ha) (fun p h => by rw [hidx p h]; omega)]
  show some _ = some _
  congr 2
  ext p h : 1
  rw [Vector.getElem_ofFn, Vector.getElem_ofFn]
  congr 1
  exact hidx p h

theorem reverse_index {n k i j : Nat} (hi : i < n) (hj : j < k) :
    n * k - 1 - (i * k + j) = (n - 1 - i) * k + (k - 1 - j) := by
  obtain ⟨d, rfl⟩ : ∃ d, n = i + 1 + d := ⟨n - (i + 1), by omega⟩
  have h1 : i + 1 + d - 1 - i = d := by omega
  rw [h1, Nat.add_mul, Nat.add_mul]
  omega

/-- Lane `i` of the result consists of the bytes of lane `n-1-i`, in reverse. -/
theorem swapBytes_lane (t : Target) (ht : t.Supported) (ty : MaskTy) (v : Vec (BitVec (8 * ty.laneBytes t)) ty.lanes) :
    ∃ r, swapBytes t ty v = some r ∧ ∀ i (hi : i < ty.lanes) b c, b < ty.laneBytes t → c < 8 →
      r[i].getLsbD (8 * b + c) = (v[ty.lanes - 1 - i]'(by omega)).getLsbD (8 * (ty.laneBytes t - 1 - b) + c) := by
  refine ⟨_, swapBytes_bytes t ht ty v, ?_⟩
  intro i hi b c hb hc
  rw [getElem_fromBytes _ _ hi, getLsbD_laneOfBytes _ _ hb hc, Vector.getElem_ofFn]
  have hbp := bytePos_lt (e := t.endian) hb
  have hn : ty.lanes - 1 - i < ty.lanes := by omega
  have hk : ty.laneBytes t - 1 - bytePos t.endian (ty.laneBytes t) b < ty.laneBytes t := by omega
  have e1 := getElem_toBytes t.endian v hn hk
  simp only [Vector.getElem_ofFn, reverse_index hi hbp]
  rw [e1, getLsbD_laneBytes _ _ hk hc]
  congr 2
  cases t.endian <;> simp only [bytePos] <;> omega

end PackedSimd
