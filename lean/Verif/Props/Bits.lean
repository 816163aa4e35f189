import Verif.Lemmas.Bits
/-
C38: `into_bits` / `FromBits`.
-/
namespace PackedSimd.Props
open PackedSimd Spec Intr Cast

variable {p : Nat}

/-- Every `FromBits` impl is between types of equal size. -/
theorem C38_same_size (hp : p = 4 ∨ p = 8) (dst src : VTy) (h : Listed Tables.bitsTable dst src) : src.bytes p = dst.bytes p := by
  obtain ⟨r, hr, rfl, hs⟩ := h
  have := bitsTable_cond r hr src hs
  rcases hp with rfl | rfl
  · exact this.1
  · exact this.2.1

/-- Byte `q` of the vector in memory is unchanged: it is byte `q % k'` of lane `q / k'` of the result and byte `q % k` of lane `q / k` of the
source, in either byte order. -/
theorem C38_bytes (e : Endian) (dst src : VTy) (h : src.bytes p = dst.bytes p) (x : src.Val p) (q : Nat) (hq : q < src.bytes p) :
    ∃ (h1 : q / src.elem.bytes p < src.lanes) (h2 : q / dst.elem.bytes p < dst.lanes),
      byteAt e (dst.elem.bytes p) (fromBits p e dst src h x)[q / dst.elem.bytes p] (q % dst.elem.bytes p) =
        byteAt e (src.elem.bytes p) x[q / src.elem.bytes p] (q % src.elem.bytes p) := by
  have h1 : q / src.elem.bytes p < src.lanes := Nat.div_lt_of_lt_mul (by rw [Nat.mul_comm]; exact hq)
  have h2 : q / dst.elem.bytes p < dst.lanes := Nat.div_lt_of_lt_mul (by rw [Nat.mul_comm]; rw [h] at hq; exact hq)
  exact ⟨h1, h2, transmute_bytes e h x hq h1 h2⟩

/-- There and back is the identity. -/
theorem C38_round_trip (e : Endian) (dst src : VTy) (h : src.bytes p = dst.bytes p) (x : src.Val p) :
    fromBits p e src dst h.symm (fromBits p e dst src h x) = x := transmute_inverse e h x

/-- Impls with a mask target have a mask source, and lane `i` of the result (a valid mask) has the value of the source lane that covers the
first (and every) byte of lane `i`. -/
theorem C38_mask (hp : p = 4 ∨ p = 8) (e : Endian) (dst src : VTy) (hl : Listed Tables.bitsTable dst src) (hm : dst.elem.kind = .mask)
    (h : src.bytes p = dst.bytes p) (x : src.Val p) :
    src.elem.kind = .mask ∧ ∀ f : Nat → Bool, Denotes x f →
      Denotes (fromBits p e dst src h x) (fun i => f (i * dst.elem.bytes p / src.elem.bytes p)) := by
  obtain ⟨r, hr, rfl, hs⟩ := hl
  have := (bitsTable_cond r hr src hs).2.2 hm
  refine ⟨this.1, fun f hf => ?_⟩
  refine transmute_mask e ?_ h x f hf
  rcases hp with rfl | rfl
  · exact this.2.1
  · exact this.2.2

/-- `FromBits` is provided between any two vector types of the same (target-independent) size, unless the target is a mask that is not a mask of
the same or wider lanes before. -/
theorem C38_complete : ∀ a ∈ Tables.vectorTypes, ∀ b ∈ Tables.vectorTypes, a.ty ≠ b.ty →
    a.ty.elem ∉ [.isize, .usize, .msize] → b.ty.elem ∉ [.isize, .usize, .msize] → a.ty.bytes 8 = b.ty.bytes 8 →
    (Tables.bitsTable.any (fun r => r.1 == a.ty && r.2.contains b.ty) =
      (a.ty.elem.kind != .mask || (b.ty.elem.kind == .mask && decide (a.ty.elem.bytes 8 ≤ b.ty.elem.bytes 8)))) := by decide +kernel

/-- Architecture-specific types (`__m128i`, `int8x16_t`, `vector_bool_int`, …): every conversion is between equal sizes. -/
theorem C38_arch_same_size (hp : p = 4 ∨ p = 8) (r : ArchRow) (hr : r ∈ Tables.archTable) (v : VTy) (hv : v ∈ r.from_ ∨ v ∈ r.into) :
    v.bytes p = r.bytes := by
  have := archTable_cond r hr
  rcases hv with hv | hv
  · have := this.1 v hv; exact hp.elim (fun e => e ▸ this.1) (fun e => e ▸ this.2)
  · have := this.2 v hv; exact hp.elim (fun e => e ▸ this.1) (fun e => e ▸ this.2.1)

/-- There and back is the identity, both ways. -/
theorem C38_arch_round_trip (e : Endian) (v : VTy) (x : v.Val p) (b : Vector Byte (v.bytes p)) :
    fromArch p e v (toArch p e x) = x ∧ toArch p e (fromArch p e v b) = b := ⟨fromBytes_toBytes e x, toBytes_fromBytes e b⟩

/-- An architecture-specific type converts to a mask only if it is itself a mask type (`vector_bool_*`) with the same or wider lanes (of `boolLane`
bytes); the result is then a valid mask.  `hb`: byte `q` of the source is all ones / all zeros according to its lane. -/
theorem C38_arch_mask (hp : p = 4 ∨ p = 8) (e : Endian) (r : ArchRow) (hr : r ∈ Tables.archTable) (v : VTy) (hv : v ∈ r.into) (hm : v.elem.kind = .mask)
    (b : Vector Byte (v.bytes p)) (f : Nat → Bool) (hb : ∀ q (hq : q < v.bytes p), IsMaskLane b[q] (f (q / r.boolLane))) :
    r.boolLane ≠ 0 ∧ Denotes (fromArch p e v b) (fun i => f (i * v.elem.bytes p / r.boolLane)) := by
  have hc := (archTable_cond r hr).2 v hv
  have hsz := C38_arch_same_size hp r hr v (.inr hv)
  refine ⟨(hc.2.2 hm).1, ?_⟩
  refine fromBytes_mask (n := r.bytes / r.boolLane) e ?_ ?_ b f (fun q hq => isMaskLane_iff.1 (hb q hq))
  · rcases hp with rfl | rfl
    · exact (hc.2.2 hm).2.2.1
    · exact (hc.2.2 hm).2.2.2
  · show _ = v.bytes p
    rw [hsz]
    exact Nat.div_mul_cancel (Nat.dvd_of_mod_eq_zero (hc.2.2 hm).2.1)

/-- Little and big endian reinterpretations, and a wide mask seen as a narrow one. -/
example : (fromBits 8 .little ⟨.u8, 4⟩ ⟨.u16, 2⟩ rfl #v[(0x1234 : BitVec 16), 0x5678]).toList.map (·.toNat) = [0x34, 0x12, 0x78, 0x56] ∧
    (fromBits 8 .big ⟨.u8, 4⟩ ⟨.u16, 2⟩ rfl #v[(0x1234 : BitVec 16), 0x5678]).toList.map (·.toNat) = [0x12, 0x34, 0x56, 0x78] ∧
    (fromBits 8 .big ⟨.m8, 4⟩ ⟨.m16, 2⟩ rfl #v[(0xffff : BitVec 16), 0]).toList.map (·.toNat) = [0xff, 0xff, 0, 0] := by decide +kernel

example : Listed Tables.bitsTable ⟨.u8, 4⟩ ⟨.u16, 2⟩ ∧ Listed Tables.bitsTable ⟨.m8, 4⟩ ⟨.m16, 2⟩ ∧
    (∃ r ∈ Tables.archTable, r.name = "vector_bool_int" ∧ ⟨.m16, 8⟩ ∈ r.into ∧ r.boolLane = 4) := by
  unfold Listed; decide +kernel

end PackedSimd.Props
