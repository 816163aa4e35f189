import Verif.Lemmas.Lanes
/-
C01, C02, C03: constructors and checked lane access.
(Pointer vectors: see Props/Pointers.lean.)
-/

namespace PackedSimd.Props
open PackedSimd

variable {α : Type} {w n : Nat}

/-! ## C01 -/

/-- `new(x0, ..).extract(i) == xi`. -/
theorem C01_new_extract [LaneCount n] (xs : Vec α n) (i : Nat) (h : i < n) :
    extract (new xs) i = .ok xs[i] := by
  rw [extract_of_lt _ h]; simp [new]

/-- `splat(x).extract(i) == x`. -/
theorem C01_splat_extract [LaneCount n] (x : α) (i : Nat) (h : i < n) :
    extract (splat n x) i = .ok x := by
  rw [extract_of_lt _ h]; simp [splat]

/-- A vector is determined by its lanes. -/
theorem C01_ext [LaneCount n] (a b : Vec α n) (h : ∀ i, i < n → extract a i = extract b i) : a = b := by
  ext i hi : 1
  have := h i hi
  rw [extract_of_lt _ hi, extract_of_lt _ hi] at this
  exact Except.ok.inj this

/-- Masks: `new(b0, ..).extract(i) == bi`. -/
theorem C01_mask_new_extract [LaneCount n] (hw : 0 < w) (bs : Vec Bool n) (i : Nat) (h : i < n) :
    Mask.extract (Mask.new w bs) i = .ok bs[i] := by
  rw [Mask.extract_of_lt _ h]; simp only [Mask.new, Vector.getElem_ofFn, boolToInternal_eq]
  rw [maskBits_ne_zero hw]; rfl

/-- Masks: `splat(b).extract(i) == b`. -/
theorem C01_mask_splat_extract [LaneCount n] (hw : 0 < w) (b : Bool) (i : Nat) (h : i < n) :
    Mask.extract (Mask.splat w n b) i = .ok b := by
  rw [Mask.extract_of_lt _ h]; simp only [Mask.splat, Vector.getElem_ofFn, boolToInternal_eq]
  rw [maskBits_ne_zero hw]

/-- A (valid) mask vector is determined by the Booleans its lanes read as. -/
theorem C01_mask_ext [LaneCount n] (hw : 0 < w) (a b : Vec (BitVec w) n)
    (ha : Spec.ValidMask a) (hb : Spec.ValidMask b)
    (h : ∀ i, i < n → Mask.extract a i = Mask.extract b i) : a = b := by
  ext i hi : 1
  have := h i hi
  rw [Mask.extract_of_lt _ hi, Mask.extract_of_lt _ hi] at this
  obtain ⟨x, hx⟩ := ha i hi
  obtain ⟨y, hy⟩ := hb i hi
  rw [isMaskLane_iff] at hx hy
  rw [hx, hy, maskBits_ne_zero hw, maskBits_ne_zero hw] at this
  rw [hx, hy, Except.ok.inj this]

/-- Masks built from Booleans are valid and hold exactly those Booleans. -/
theorem C01_mask_new_denotes (bs : Vec Bool n) (f : Nat → Bool) (hf : ∀ i (h : i < n), f i = bs[i]) :
    Spec.Denotes (Mask.new w bs) f := by
  intro i hi
  rw [hf i hi, isMaskLane_iff]
  simp [Mask.new]

/-- `Default`: every lane of a numeric vector is zero, every lane of a mask `false`; scalar masks default to `false` too. -/
theorem C01_default [LaneCount n] (hw : 0 < w) (i : Nat) (h : i < n) :
    extract (default w n) i = .ok (0#w) ∧ Mask.extract (Mask.default w n) i = .ok false ∧
    MaskLane.test (MaskLane.default w) = false ∧ Spec.IsMaskLane (MaskLane.default w) false := by
  refine ⟨C01_splat_extract _ i h, C01_mask_splat_extract hw false i h, ?_, ?_⟩
  · simp [MaskLane.test, MaskLane.default]
  · simp [isMaskLane_iff, MaskLane.default, Intr.maskBits]

example : extract (new #v[(7 : BitVec 32), 8, 9, 10]) 2 = .ok 9 := by
  exact C01_new_extract #v[(7 : BitVec 32), 8, 9, 10] 2 (by decide)
example : Spec.ValidMask (Mask.new 8 #v[true, false]) := by
  rw [validMask_iff]; decide +kernel

/-! ## C02 -/

/-- `replace` sets lane `i` and leaves every other lane alone. -/
theorem C02_replace [LaneCount n] (v : Vec α n) (i : Nat) (h : i < n) (x : α) :
    ∃ r, replace v i x = .ok r ∧ extract r i = .ok x ∧
      ∀ j, j < n → j ≠ i → extract r j = extract v j := by
  refine ⟨_, replace_of_lt v h x, ?_, ?_⟩
  · rw [extract_of_lt _ h]; simp
  · intro j hj hji
    rw [extract_of_lt _ hj, extract_of_lt _ hj]
    simp [Vector.getElem_set_ne, Ne.symm hji]

/-- Any finite sequence of in-range replacements behaves like a sequence of updates of an
index → value map (so the last write to a lane wins and writes to different lanes commute). -/
theorem C02_replace_sequence [LaneCount n] (v : Vec α n) (ops : List (Nat × α))
    (hops : ∀ p ∈ ops, p.1 < n) (f : Nat → α) (hf : ∀ i (h : i < n), f i = v[i]) :
    ∃ r, ops.foldlM (fun v p => replace v p.1 p.2) v = .ok r ∧
      ∀ i, i < n → extract r i = .ok (Spec.applyWrites f ops i) := by
  induction ops generalizing v f with
  | nil => exact ⟨v, rfl, fun i h => by rw [extract_of_lt _ h, Spec.applyWrites, hf i h]⟩
  | cons p ops ih =>
    have hp : p.1 < n := hops p (by simp)
    obtain ⟨r, hr, hr'⟩ := ih (v.set p.1 p.2) (fun q hq => hops q (by simp [hq]))
      (fun j => if j = p.1 then p.2 else f j) (by
        intro i hi
        by_cases hip : i = p.1
        · subst hip; simp
        · simp [hip, Vector.getElem_set_ne, Ne.symm hip, hf i hi])
    refine ⟨r, ?_, hr'⟩
    rw [List.foldlM_cons, replace_of_lt v hp]
    exact hr

/-- Two replacements of the same lane: the last one wins. -/
theorem C02_replace_replace_same [LaneCount n] (v : Vec α n) (i : Nat) (h : i < n) (x y : α) :
    (replace v i x >>= fun r => replace r i y) = replace v i y := by
  rw [replace_of_lt v h, replace_of_lt v h]
  show replace (v.set i x) i y = _
  rw [replace_of_lt _ h]; simp

/-- Replacements of different lanes commute. -/
theorem C02_replace_comm [LaneCount n] (v : Vec α n) (i j : Nat) (hi : i < n) (hj : j < n) (hij : i ≠ j)
    (x y : α) :
    (replace v i x >>= fun r => replace r j y) = (replace v j y >>= fun r => replace r i x) := by
  rw [replace_of_lt v hi, replace_of_lt v hj]
  show replace (v.set i x) j y = replace (v.set j y) i x
  rw [replace_of_lt _ hj, replace_of_lt _ hi]
  congr 1
  exact Vector.set_comm _ _ hij

/-- Masks: `replace` sets lane `i` to the given Boolean, leaves the others alone and keeps the mask valid. -/
theorem C02_mask_replace [LaneCount n] (hw : 0 < w) (v : Vec (BitVec w) n) (i : Nat) (h : i < n) (b : Bool) :
    ∃ r, Mask.replace v i b = .ok r ∧ Mask.extract r i = .ok b ∧
      (∀ j, j < n → j ≠ i → Mask.extract r j = Mask.extract v j) ∧
      (Spec.ValidMask v → Spec.ValidMask r) := by
  refine ⟨_, Mask.replace_of_lt v h b, ?_, ?_, ?_⟩
  · rw [Mask.extract_of_lt _ h]; simp [maskBits_ne_zero hw]
  · intro j hj hji
    rw [Mask.extract_of_lt _ hj, Mask.extract_of_lt _ hj]
    simp [Vector.getElem_set_ne, Ne.symm hji]
  · intro hv j hj
    by_cases hji : j = i
    · subst hji; exact ⟨b, by simpa using isMaskLane_maskBits b⟩
    · simpa [Vector.getElem_set_ne, Ne.symm hji] using hv j hj

example : [(0, 5), (1, 6), (0, 7)].foldlM (fun v p => replace v p.1 p.2) #v[(1 : BitVec 8), 2] = .ok #v[7, 6] := by
  rfl

/-! ## C03 -/

/-- `extract` panics exactly for out-of-range indices, whatever the 64-bit index. -/
theorem C03_extract_panics_iff [LaneCount n] (v : Vec α n) (i : Nat) :
    (extract v i = .error .panic ↔ n ≤ i) ∧ extract v i ≠ .error .ub := by
  by_cases h : i < n
  · rw [extract_of_lt _ h]; simp; omega
  · rw [extract_of_ge _ (by omega)]; simp; omega

/-- `lanes()` is the number of indices the checked accessors accept: index `i` is accepted exactly if `i < lanes()`. -/
theorem C03_lanes [LaneCount n] (v : Vec α n) (i : Nat) (x : α) :
    (i < lanes v ↔ ∃ y, extract v i = .ok y) ∧ (i < lanes v ↔ ∃ v', replace v i x = .ok v' ∧ lanes v' = lanes v) := by
  by_cases h : i < n
  · rw [extract_of_lt _ h, replace_of_lt _ h]
    exact ⟨⟨fun _ => ⟨_, rfl⟩, fun _ => h⟩, ⟨fun _ => ⟨_, rfl, rfl⟩, fun _ => h⟩⟩
  · rw [extract_of_ge _ (by omega), replace_of_ge _ (by omega)]
    refine ⟨⟨fun h' => absurd h' h, ?_⟩, ⟨fun h' => absurd h' h, ?_⟩⟩
    · rintro ⟨_, h'⟩; cases h'
    · rintro ⟨_, h', -⟩; cases h'

/-- `replace` panics exactly for out-of-range indices. -/
theorem C03_replace_panics_iff [LaneCount n] (v : Vec α n) (i : Nat) (x : α) :
    (replace v i x = .error .panic ↔ n ≤ i) ∧ replace v i x ≠ .error .ub := by
  by_cases h : i < n
  · rw [replace_of_lt _ h]; simp; omega
  · rw [replace_of_ge _ (by omega)]; simp; omega

theorem C03_mask_extract_panics_iff [LaneCount n] (v : Vec (BitVec w) n) (i : Nat) :
    (Mask.extract v i = .error .panic ↔ n ≤ i) ∧ Mask.extract v i ≠ .error .ub := by
  by_cases h : i < n
  · rw [Mask.extract_of_lt _ h]; simp; omega
  · rw [Mask.extract_of_ge _ (by omega)]; simp; omega

theorem C03_mask_replace_panics_iff [LaneCount n] (v : Vec (BitVec w) n) (i : Nat) (b : Bool) :
    (Mask.replace v i b = .error .panic ↔ n ≤ i) ∧ Mask.replace v i b ≠ .error .ub := by
  by_cases h : i < n
  · rw [Mask.replace_of_lt _ h]; simp; omega
  · rw [Mask.replace_of_ge _ (by omega)]; simp; omega

/-- The unchecked variants agree with the checked ones on in-range indices. -/
theorem C03_unchecked_agree [LaneCount n] (v : Vec α n) (i : Nat) (h : i < n) (x : α) :
    extractUnchecked v i = extract v i ∧ replaceUnchecked v i x = replace v i x := by
  simp [extract, replace, h]

theorem C03_mask_unchecked_agree [LaneCount n] (v : Vec (BitVec w) n) (i : Nat) (h : i < n) (b : Bool) :
    Mask.extractUnchecked v i = Mask.extract v i ∧ Mask.replaceUnchecked v i b = Mask.replace v i b := by
  simp [Mask.extract, Mask.replace, h]

/-- Without the bounds check the narrowing to `u32` would alias lanes: index `2^32` reads lane 0. -/
example : extractUnchecked #v[(7 : BitVec 8), 8] (2 ^ 32) = .ok 7 ∧
    extract #v[(7 : BitVec 8), 8] (2 ^ 32) = .error .panic := ⟨rfl, rfl⟩

end PackedSimd.Props
