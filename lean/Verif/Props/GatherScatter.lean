import Verif.Lemmas.Gather
import Verif.Props.MaskReduce
/-
C42: masked gather (`read`), C43: masked scatter (`write`).
-/
namespace PackedSimd.Props
open PackedSimd Spec Intr

variable {k w n : Nat}

/-! ## C42 -/

/-- If the enabled lanes hold aligned addresses of elements `x i`, `read` returns those, and `value_i` in the disabled lanes.  Nothing is assumed
about the addresses in disabled lanes. -/
theorem C42_read (t : Target) (hw : 0 < w) (align : Nat) (m : Mem) (v : Vec (BitVec (8 * t.ptrBytes)) n) (mask : Vec (BitVec w) n) (f : Nat → Bool)
    (hf : Denotes mask f) (value : Vec (BitVec (8 * k)) n) (x : Nat → BitVec (8 * k))
    (hm : ∀ i (hi : i < n), f i = true → align ∣ v[i].toNat ∧ HoldsElem t.endian m v[i].toNat (x i)) :
    ∃ r, Ptr.read t align m v mask value = .ok r ∧ ∀ i (hi : i < n), r[i] = if f i then x i else value[i] := by
  refine ⟨Vector.ofFn fun i => if f i then x i else value[i], ?_, fun i hi => by simp⟩
  unfold Ptr.read simdGather
  rw [if_pos (all_legal hf)]
  apply lanesOrUb_ok
  intro i hi
  rw [Vector.getElem_ofFn, Vector.getElem_ofFn]
  have e : (mask[(⟨i, hi⟩ : Fin n)] != 0#w) = f i := maskLane_ne_zero hw (hf i hi)
  rw [e]
  cases hfi : f i with
  | false => rfl
  | true =>
    obtain ⟨ha, hh⟩ := hm i hi hfi
    exact loadElem_ok ha hh

/-- An enabled lane with a misaligned address, or an address where a byte of the element is not accessible, is undefined behaviour. -/
theorem C42_fault (t : Target) (hw : 0 < w) (align : Nat) (m : Mem) (v : Vec (BitVec (8 * t.ptrBytes)) n) (mask : Vec (BitVec w) n) (f : Nat → Bool)
    (hf : Denotes mask f) (value : Vec (BitVec (8 * k)) n) (i : Nat) (hi : i < n) (hfi : f i = true)
    (hbad : ¬ align ∣ v[i].toNat ∨ ∃ j, j < k ∧ m (v[i].toNat + j) = none) : Ptr.read t align m v mask value = .error .ub := by
  unfold Ptr.read simdGather
  rw [if_pos (all_legal hf)]
  apply lanesOrUb_ub hi (f := .ub)
  rw [Vector.getElem_ofFn]
  have e : (mask[(⟨i, hi⟩ : Fin n)] != 0#w) = f i := maskLane_ne_zero hw (hf i hi)
  rw [e, hfi]
  exact loadElem_ub hbad

/-- Only memory under enabled lanes is read: two memories that agree there, and two pointer vectors that agree in the enabled lanes, give the same
outcome. -/
theorem C42_reads_only_enabled (t : Target) (hw : 0 < w) (align : Nat) (m m' : Mem) (v v' : Vec (BitVec (8 * t.ptrBytes)) n) (mask : Vec (BitVec w) n)
    (f : Nat → Bool) (hf : Denotes mask f) (value : Vec (BitVec (8 * k)) n)
    (hv : ∀ i (hi : i < n), f i = true → v[i] = v'[i])
    (hm : ∀ i (hi : i < n), f i = true → ∀ j, j < k → m (v[i].toNat + j) = m' (v[i].toNat + j)) :
    Ptr.read t align m v mask value = Ptr.read t align m' v' mask value := by
  unfold Ptr.read simdGather
  congr 2
  ext i hi : 1
  rw [Vector.getElem_ofFn, Vector.getElem_ofFn]
  have e : (mask[(⟨i, hi⟩ : Fin n)] != 0#w) = f i := maskLane_ne_zero hw (hf i hi)
  rw [e]
  cases hfi : f i with
  | false => rfl
  | true =>
    rw [if_pos rfl, if_pos rfl]
    show loadElem _ _ _ _ v[i].toNat = loadElem _ _ _ _ v'[i].toNat
    rw [← hv i hi hfi]
    have hl : m.load v[i].toNat k = m'.load v[i].toNat k := by
      have e1 : ∀ j : Fin k, m (v[i].toNat + j.val) = m' (v[i].toNat + j.val) := fun j => hm i hi hfi _ j.2
      simp only [Mem.load, e1]
    unfold loadElem
    rw [hl]

/-- Memory with the four bytes 1, 2, 3, 4 at address 0x10 and nothing else. -/
def sampleMem : Mem := fun p => if 0x10 ≤ p ∧ p < 0x14 then some (BitVec.ofNat 8 (p - 0xf)) else none

/-- Lane 1 is disabled, so its null pointer is not dereferenced. -/
example : Ptr.read x64Avx 2 sampleMem (#v[0x12, 0] : Vec (BitVec (8 * 8)) 2) #v[(-1 : BitVec 8), 0] (#v[0x7777, 0x8888] : Vec (BitVec (8 * 2)) 2) =
    .ok #v[0x0403, 0x8888] := by decide +kernel

/-! ## C43 -/

/-- Lane `i` is enabled and the element it points to contains address `p`. -/
def Covers (v : Vec (BitVec w) n) (k : Nat) (f : Nat → Bool) (i : Nat) (p : Nat) : Prop :=
  ∃ hi : i < n, f i = true ∧ v[i].toNat ≤ p ∧ p < v[i].toNat + k

/-- `write` with accessible, aligned addresses in the enabled lanes: every address covered by enabled lanes receives the byte of the highest such
lane, all other memory is unchanged.  Nothing is assumed about disabled lanes, and elements may overlap. -/
theorem C43_write (t : Target) (hw : 0 < w) (align : Nat) (m : Mem) (v : Vec (BitVec (8 * t.ptrBytes)) n) (mask : Vec (BitVec w) n) (f : Nat → Bool)
    (hf : Denotes mask f) (value : Vec (BitVec (8 * k)) n)
    (hm : ∀ i (hi : i < n), f i = true → align ∣ v[i].toNat ∧ ∀ j, j < k → (m (v[i].toNat + j)).isSome) :
    ∃ m', Ptr.write t align v mask value m = .ok m' ∧
      (∀ p, (∀ i, ¬ Covers v k f i p) → m' p = m p) ∧
      (∀ i (hi : i < n) p, Covers v k f i p → (∀ i', i < i' → ¬ Covers v k f i' p) →
        ∃ b, m' p = some b ∧ b.toNat = byteAt t.endian k value[i] (p - v[i].toNat)) := by
  obtain ⟨m', h1, h2, h3, -⟩ := scatter_fold t.endian align value v (fun i => f i) (List.finRange n) m
    (fun i _ hen => hm i i.2 hen)
  refine ⟨m', ?_, ?_, ?_⟩
  · unfold Ptr.write; rw [simdScatter_eq _ _ hw _ _ _ f hf]; exact h1
  · intro p hp
    exact h2 p fun i _ hc => hp i ⟨i.2, hc⟩
  · rintro i hi p ⟨_, hc⟩ hno
    obtain ⟨l1, l2, hl, hgt⟩ := finRange_split (⟨i, hi⟩ : Fin n)
    have := h3 l1 ⟨i, hi⟩ l2 p hl hc fun j hj hcj => hno j (hgt j hj) ⟨j.2, hcj⟩
    exact ⟨_, this, (byteAt_eq _ _ _).symm⟩

/-- An enabled lane that no later enabled lane overlaps is stored whole (the highest enabled lane always is). -/
theorem C43_last_wins (t : Target) (hw : 0 < w) (align : Nat) (m m' : Mem) (v : Vec (BitVec (8 * t.ptrBytes)) n) (mask : Vec (BitVec w) n)
    (f : Nat → Bool) (hf : Denotes mask f) (value : Vec (BitVec (8 * k)) n)
    (hm : ∀ i (hi : i < n), f i = true → align ∣ v[i].toNat ∧ ∀ j, j < k → (m (v[i].toNat + j)).isSome)
    (h : Ptr.write t align v mask value m = .ok m') (i : Nat) (hi : i < n) (hfi : f i = true)
    (hlast : ∀ i' (hi' : i' < n), i < i' → f i' = true → v[i'].toNat + k ≤ v[i].toNat ∨ v[i].toNat + k ≤ v[i'].toNat) :
    HoldsElem t.endian m' v[i].toNat value[i] := by
  obtain ⟨m'', h1, -, h3⟩ := C43_write t hw align m v mask f hf value hm
  rw [h] at h1; cases h1
  intro j hj
  obtain ⟨b, hb, hb'⟩ := h3 i hi (v[i].toNat + j) ⟨hi, hfi, by omega, by omega⟩ (by
    rintro i' hlt ⟨hi', hf', h1, h2⟩
    have := hlast i' hi' hlt hf'
    omega)
  refine ⟨b, hb, ?_⟩
  rw [hb', Nat.add_sub_cancel_left]

/-- Undefined behaviour exactly from enabled lanes that are misaligned or not accessible. -/
theorem C43_fault (t : Target) (hw : 0 < w) (align : Nat) (m : Mem) (v : Vec (BitVec (8 * t.ptrBytes)) n) (mask : Vec (BitVec w) n) (f : Nat → Bool)
    (hf : Denotes mask f) (value : Vec (BitVec (8 * k)) n) (i : Nat) (hi : i < n) (hfi : f i = true)
    (hbad : ¬ align ∣ v[i].toNat ∨ ∃ j, j < k ∧ m (v[i].toNat + j) = none) : Ptr.write t align v mask value m = .error .ub := by
  unfold Ptr.write
  rw [simdScatter_eq _ _ hw _ _ _ f hf]
  exact scatter_fold_ub _ _ _ _ _ _ m ⟨⟨i, hi⟩, List.mem_finRange _, hfi, hbad⟩

/-- Addresses and values in disabled lanes are irrelevant. -/
theorem C43_ignores_disabled (t : Target) (hw : 0 < w) (align : Nat) (m : Mem) (v v' : Vec (BitVec (8 * t.ptrBytes)) n) (mask : Vec (BitVec w) n)
    (f : Nat → Bool) (hf : Denotes mask f) (value value' : Vec (BitVec (8 * k)) n)
    (hv : ∀ i (hi : i < n), f i = true → v[i] = v'[i] ∧ value[i] = value'[i]) :
    Ptr.write t align v mask value m = Ptr.write t align v' mask value' m := by
  unfold Ptr.write
  rw [simdScatter_eq _ _ hw _ _ _ f hf, simdScatter_eq _ _ hw _ _ _ f hf]
  congr 1
  funext m i
  unfold scatterStep
  by_cases hfi : f i = true
  case neg => rw [if_neg hfi, if_neg hfi]
  case pos =>
    rw [if_pos hfi, if_pos hfi]
    obtain ⟨e1, e2⟩ := hv i i.2 hfi
    dsimp only [Fin.getElem_fin]
    rw [e1, e2]

/-- Reading back: if the enabled elements do not overlap, a gather after the scatter returns the stored lanes. -/
theorem C43_read_back (t : Target) (hw : 0 < w) (align : Nat) (m m' : Mem) (v : Vec (BitVec (8 * t.ptrBytes)) n) (mask : Vec (BitVec w) n)
    (f : Nat → Bool) (hf : Denotes mask f) (value other : Vec (BitVec (8 * k)) n)
    (hm : ∀ i (hi : i < n), f i = true → align ∣ v[i].toNat ∧ ∀ j, j < k → (m (v[i].toNat + j)).isSome)
    (h : Ptr.write t align v mask value m = .ok m')
    (hdis : ∀ i i' (hi : i < n) (hi' : i' < n), i < i' → f i = true → f i' = true →
      v[i'].toNat + k ≤ v[i].toNat ∨ v[i].toNat + k ≤ v[i'].toNat) :
    ∃ r, Ptr.read t align m' v mask other = .ok r ∧ ∀ i (hi : i < n), r[i] = if f i then value[i] else other[i] := by
  obtain ⟨r, hr, hl⟩ := C42_read t hw align m' v mask f hf other (fun i => if hi : i < n then value[i] else 0) (fun i hi hfi => by
    refine ⟨(hm i hi hfi).1, ?_⟩
    rw [dif_pos hi]
    exact C43_last_wins t hw align m m' v mask f hf value hm h i hi hfi fun i' hi' hlt hf' => hdis i i' hi hi' hlt hfi hf')
  refine ⟨r, hr, fun i hi => ?_⟩
  rw [hl i hi]
  simp [hi]

/-- Both lanes point to the same element: lane 1 wins; the other half of memory is untouched. -/
example : ((Ptr.write x64Avx 2 (#v[0x12, 0x12] : Vec (BitVec (8 * 8)) 2) #v[(-1 : BitVec 8), -1] (#v[0x7777, 0x8899] : Vec (BitVec (8 * 2)) 2)
    sampleMem).toOption.map fun m => [m 0x10, m 0x11, m 0x12, m 0x13]) = some [some 1, some 2, some 0x99, some 0x88] := by decide +kernel

end PackedSimd.Props
