import Verif.Props.MandelFloat
import Verif.Lemmas.Math
/-
C113: the files written by the Mandelbrot program.
-/
namespace PackedSimd.Props
open PackedSimd Spec Spec.Netpbm Ex Ex.Mandel MandelIm

/-! ### A black and white picture -/

theorem outputPbm_capped (mb : Mandelbrot) (h8 : mb.data.length % 8 = 0) (k : Nat) :
    let file := (header mb.dims false).flatten ++ (chunks 8 mb.data).map pbmByte
    outputPbm (capped k) mb [] = (file.take k, if file.length ≤ k then .ok else .err) := by
  intro file
  unfold outputPbm
  rw [writePieces_capped k _ [] (Nat.zero_le _)]
  have hlen : file.length = (header mb.dims false).flatten.length + ((chunks 8 mb.data).map pbmByte).length := List.length_append ..
  by_cases h1 : (header mb.dims false).flatten.length ≤ k
  · simp only [List.nil_append, List.length_nil, Nat.zero_add, if_pos h1, if_true, if_pos h8]
    by_cases h2 : file.length ≤ k
    · have : (capped k).writeAll ((chunks 8 mb.data).map pbmByte) (header mb.dims false).flatten = (file, true) := by
        unfold capped
        dsimp only
        rw [if_pos (by omega)]
      have e := congrArg (fun r : List (BitVec 8) × Bool => (r.1, if r.2 = true then Ended.ok else Ended.err)) this
      refine e.trans ?_
      rw [if_pos h2, List.take_of_length_le h2]
      rfl
    · have : (capped k).writeAll ((chunks 8 mb.data).map pbmByte) (header mb.dims false).flatten = (file.take k, false) := by
        unfold capped
        dsimp only
        rw [if_neg (by omega)]
      have e := congrArg (fun r : List (BitVec 8) × Bool => (r.1, if r.2 = true then Ended.ok else Ended.err)) this
      refine e.trans ?_
      rw [if_neg h2]
      rfl
  · simp only [List.nil_append, List.length_nil, Nat.zero_add, if_neg h1]
    rw [if_neg (show ¬file.length ≤ k by omega), if_neg (by decide), List.take_append_of_le_length (by omega)]

/-- **C113** A picture whose width is a multiple of 8 is written as a PBM file which a reader understands: width, height, and the pixels black
exactly where the count is the limit.  When the disk is full after `k` bytes, the first `k` bytes are there and an error is returned. -/
theorem C113_pbm (w h : Nat) (data : List (BitVec 32)) (hd : data.length = w * h) (hw : w % 8 = 0) :
    ∃ file, parsePbm file = some (w, h, pixelRows w h fun i j => data.getD (w * i + j) 0 == 50) ∧
      ∀ k, outputPbm (capped k) ⟨(w, h), data⟩ [] = (file.take k, if file.length ≤ k then .ok else .err) := by
  obtain ⟨q, rfl⟩ := Nat.dvd_of_mod_eq_zero hw
  have h8 : data.length = 8 * (q * h) := by rw [hd, Nat.mul_assoc]
  refine ⟨_, ?_, outputPbm_capped ⟨(8 * q, h), data⟩ (by show data.length % 8 = 0; omega)⟩
  unfold parsePbm
  rw [show (⟨(8 * q, h), data⟩ : Mandelbrot).dims = (8 * q, h) from rfl, read_header]
  simp only [Option.bind_eq_bind, Option.bind_some]
  rw [readNumber_decimal _ _ rfl]
  simp only [Option.bind_some]
  rw [readNumber_decimal _ _ rfl]
  simp only [Option.bind_some]
  have hr : (8 * q + 7) / 8 = q := by omega
  rw [hr, if_pos (by rw [List.length_map, chunks_length 8 (by decide) (q * h) _ h8])]
  congr 3
  refine List.map_congr_left fun i hi => List.map_congr_left fun j hj => ?_
  have hi := List.mem_range.1 hi
  have hj := List.mem_range.1 hj
  have hk : q * i + j / 8 < q * h := by
    have := Nat.mul_le_mul_left q (show i + 1 ≤ h from hi)
    rw [Nat.mul_succ] at this
    omega
  rw [pbm_bit data (q * h) h8 (q * i + j / 8) (j % 8) hk (Nat.mod_lt _ (by decide))]
  have e : 8 * (q * i + j / 8) + j % 8 = 8 * q * i + j := by
    rw [Nat.mul_add, Nat.mul_assoc]
    omega
  rw [e]
  rfl

/-- **C113** fails for other widths: with a number of pixels that is not a multiple of 8 the program panics after having written the header, and
with one that is it reports success but has written a file that is too short for a reader (rows are not padded to whole bytes). -/
theorem C113_pbm_fails (w h : Nat) (data : List (BitVec 32)) (hd : data.length = w * h) (hw : w % 8 ≠ 0) (hh : 0 < h) :
    (w * h % 8 ≠ 0 → ∃ file, ∀ k, file.length ≤ k → outputPbm (capped k) ⟨(w, h), data⟩ [] = (file, .panic)) ∧
    (w * h % 8 = 0 → ∃ file, (∀ k, file.length ≤ k → outputPbm (capped k) ⟨(w, h), data⟩ [] = (file, .ok)) ∧ parsePbm file = none) := by
  constructor
  · intro h8
    refine ⟨(header (w, h) false).flatten, fun k hk => ?_⟩
    unfold outputPbm
    rw [writePieces_capped k _ [] (Nat.zero_le _), if_pos (by simpa using hk)]
    dsimp only
    rw [if_pos rfl, if_neg (by rw [hd]; exact h8)]
    rfl
  · intro h8
    obtain ⟨m, hm⟩ := Nat.dvd_of_mod_eq_zero h8
    have hb := outputPbm_capped ⟨(w, h), data⟩ (by show data.length % 8 = 0; rw [hd]; exact h8)
    refine ⟨(header (w, h) false).flatten ++ (chunks 8 data).map pbmByte, fun k hk => ?_, ?_⟩
    · rw [hb k, if_pos hk, List.take_of_length_le hk]
    · unfold parsePbm
      rw [read_header]
      simp only [Option.bind_eq_bind, Option.bind_some]
      rw [readNumber_decimal _ _ rfl]
      simp only [Option.bind_some]
      rw [readNumber_decimal _ _ rfl]
      simp only [Option.bind_some]
      rw [if_neg]
      rw [List.length_map, chunks_length 8 (by decide) m _ (hd.trans hm)]
      intro e
      have h1 : (w + 1) * h ≤ 8 * ((w + 7) / 8) * h := Nat.mul_le_mul_right h (by omega)
      rw [Nat.mul_assoc, ← e, ← hm, Nat.add_mul] at h1
      omega

/-! ### A colour picture -/

theorem color_ok (v : BitVec 32) : color v = .ok [(escapeColour v.toNat).1, (escapeColour v.toNat).2.1, (escapeColour v.toNat).2.2] := by
  have htab : ∀ m, m < 12 →
      (match COLORS[m * COLORS.length / SCALE % COLORS.length]?, COLORS[(m * COLORS.length / SCALE % COLORS.length + 1) % COLORS.length]? with
      | some (r1, g1, b1), some (r2, g2, b2) =>
        (.ok [asU8 (r1 + (r2 - r1) * F32.ofInt ((m * COLORS.length / SCALE - m * COLORS.length / SCALE % COLORS.length : Nat) : Int)),
          asU8 (g1 + (g2 - g1) * F32.ofInt ((m * COLORS.length / SCALE - m * COLORS.length / SCALE % COLORS.length : Nat) : Int)),
          asU8 (b1 + (b2 - b1) * F32.ofInt ((m * COLORS.length / SCALE - m * COLORS.length / SCALE % COLORS.length : Nat) : Int))] : R (List (BitVec 8)))
      | _, _ => .error .panic) = .ok [(escapeColour m).1, (escapeColour m).2.1, (escapeColour m).2.2] := by decide +kernel
  unfold color
  dsimp only
  by_cases h : v = BitVec.ofNat 32 ITER_LIMIT
  · subst h
    rfl
  · rw [if_neg h]
    have h50 : v.toNat ≠ 50 := fun e => h (BitVec.eq_of_toNat_eq e)
    have hm := htab (v.toNat % 12) (Nat.mod_lt _ (by decide))
    have e : escapeColour (v.toNat % 12) = escapeColour v.toNat := by
      unfold escapeColour
      rw [if_neg (by omega), if_neg h50, Nat.mod_mod]
    rw [e] at hm
    exact hm

theorem outputPpm_capped (mb : Mandelbrot) (k : Nat) :
    let file := (header mb.dims true).flatten ++
      (mb.data.map fun v => [(escapeColour v.toNat).1, (escapeColour v.toNat).2.1, (escapeColour v.toNat).2.2]).flatten
    outputPpm (capped k) mb [] = (file.take k, if file.length ≤ k then .ok else .err) := by
  intro file
  unfold outputPpm
  rw [writePieces_capped k _ [] (Nat.zero_le _), Math.mapM_ok _ _ _ (fun v _ => color_ok v)]
  obtain ⟨body, hbody⟩ : ∃ b, b = (mb.data.map fun v => [(escapeColour v.toNat).1, (escapeColour v.toNat).2.1, (escapeColour v.toNat).2.2]).flatten := ⟨_, rfl⟩
  have hfile : file = (header mb.dims true).flatten ++ body := by rw [hbody]
  have hlen : file.length = (header mb.dims true).flatten.length + body.length := by rw [hfile, List.length_append]
  rw [hfile] at hlen ⊢
  dsimp only
  rw [← hbody]
  clear hbody hfile
  by_cases h1 : (header mb.dims true).flatten.length ≤ k
  · simp only [List.nil_append, List.length_nil, Nat.zero_add, if_pos h1, if_true]
    by_cases h2 : ((header mb.dims true).flatten ++ body).length ≤ k
    · have : (capped k).writeAll body (header mb.dims true).flatten = ((header mb.dims true).flatten ++ body, true) := by
        unfold capped
        dsimp only
        rw [if_pos (by omega)]
      have e := congrArg (fun r : List (BitVec 8) × Bool => (r.1, if r.2 = true then Ended.ok else Ended.err)) this
      refine e.trans ?_
      rw [if_pos h2, List.take_of_length_le h2]
      rfl
    · have : (capped k).writeAll body (header mb.dims true).flatten = (((header mb.dims true).flatten ++ body).take k, false) := by
        unfold capped
        dsimp only
        rw [if_neg (by omega)]
      have e := congrArg (fun r : List (BitVec 8) × Bool => (r.1, if r.2 = true then Ended.ok else Ended.err)) this
      refine e.trans ?_
      rw [if_neg h2]
      rfl
  · simp only [List.nil_append, List.length_nil, Nat.zero_add, if_neg h1]
    rw [if_neg (show ¬((header mb.dims true).flatten ++ body).length ≤ k by omega), if_neg (by decide), List.take_append_of_le_length (by omega)]

/-- **C113** A colour picture of any size is written as a PPM file which a reader understands, with the colours of the counts. -/
theorem C113_ppm (w h : Nat) (data : List (BitVec 32)) (hd : data.length = w * h) :
    ∃ file, parsePpm file = some (w, h, 255, pixelRows w h fun i j => escapeColour (data.getD (w * i + j) 0).toNat) ∧
      ∀ k, outputPpm (capped k) ⟨(w, h), data⟩ [] = (file.take k, if file.length ≤ k then .ok else .err) := by
  refine ⟨_, ?_, outputPpm_capped ⟨(w, h), data⟩⟩
  unfold parsePpm
  rw [show (⟨(w, h), data⟩ : Mandelbrot).dims = (w, h) from rfl, read_header_color]
  simp only [Option.bind_eq_bind, Option.bind_some]
  rw [readNumber_decimal _ _ rfl]
  simp only [Option.bind_some]
  rw [readNumber_decimal _ _ rfl]
  simp only [Option.bind_some]
  rw [readNumber_decimal _ _ rfl]
  simp only [Option.bind_some]
  have h3 : ∀ x ∈ data.map fun v => [(escapeColour v.toNat).1, (escapeColour v.toNat).2.1, (escapeColour v.toNat).2.2], x.length = 3 := by
    intro x hx
    obtain ⟨v, -, rfl⟩ := List.mem_map.1 hx
    rfl
  have hlen : ((data.map fun v => [(escapeColour v.toNat).1, (escapeColour v.toNat).2.1, (escapeColour v.toNat).2.2]).flatten).length = 3 * (w * h) := by
    rw [← hd]
    clear h3 hd
    induction data with
    | nil => rfl
    | cons a l ih => simp only [List.map_cons, List.flatten_cons, List.length_append, ih, List.length_cons, List.length_nil]; omega
  rw [if_pos ⟨by decide, hlen⟩]
  congr 4
  refine List.map_congr_left fun i hi => List.map_congr_left fun j hj => ?_
  have hi := List.mem_range.1 hi
  have hj := List.mem_range.1 hj
  have hk : w * i + j < data.length := by
    have := Nat.mul_le_mul_left w (show i + 1 ≤ h from hi)
    rw [Nat.mul_succ] at this
    omega
  have hget : ∀ c, c < 3 → _ := fun c hc => flatten_three (0 : BitVec 8) _ h3 (w * i + j) c hc
  have e0 := hget 0 (by decide)
  have e1 := hget 1 (by decide)
  have e2 := hget 2 (by decide)
  rw [Nat.add_zero] at e0
  rw [e0, e1, e2]
  have hm : (data.map fun v => [(escapeColour v.toNat).1, (escapeColour v.toNat).2.1, (escapeColour v.toNat).2.2]).getD (w * i + j) [] =
      [(escapeColour (data.getD (w * i + j) 0).toNat).1, (escapeColour (data.getD (w * i + j) 0).toNat).2.1, (escapeColour (data.getD (w * i + j) 0).toNat).2.2] := by
    rw [List.getD_eq_getElem?_getD, List.getElem?_map, List.getD_eq_getElem?_getD, List.getElem?_eq_getElem hk]
    rfl
  rw [hm]
  rfl

/-- The colour tells the points that did not escape from those that did: only they are black. -/
theorem C113_black (c : Nat) : escapeColour c = (0, 0, 0) ↔ c = 50 := by
  unfold escapeColour
  by_cases h : c = 50
  · rw [if_pos h]; exact ⟨fun _ => h, fun _ => rfl⟩
  · rw [if_neg h]
    dsimp only
    constructor
    · intro e
      exfalso
      split at e <;> [skip; split at e <;> [skip; split at e <;> [skip; split at e]]] <;> exact absurd e (by decide)
    · intro e; exact absurd e h

/-! ### The program -/

/-- **C113** The whole program, with either algorithm, for a width that is a positive multiple of 8: the file on standard output is the picture of
the orbits computed in `f64`, black and white (black where 50 steps do not leave the circle of radius 2) or in colour; both algorithms write the
same bytes; a full disk leaves a prefix and a panic. -/
theorem C113_program (t : Target) (ht : t.Supported) (w h : Nat) (hw : w < 2 ^ 64) (hh : h < 2 ^ 64) (h0 : 0 < w) (h8 : w % 8 = 0) :
    ∃ (count : Nat → Nat → Nat) (bw colour : List Byte),
      (∀ i j, i < h → j < w → EscapeCount (fun k => F64.gt (orbitNorm (gridPoint w h i j) k) (F64.ofInt 4) = true) 50 (count i j)) ∧
      parsePbm bw = some (w, h, pixelRows w h fun i j => decide (count i j = 50)) ∧
      parsePpm colour = some (w, h, 255, pixelRows w h fun i j => escapeColour (count i j)) ∧
      ∀ algo ∈ ["scalar", "simd"], ∀ k,
        main t (capped k) algo w h false [] = (bw.take k, if bw.length ≤ k then .ok else .panic) ∧
        main t (capped k) algo w h true [] = (colour.take k, if colour.length ≤ k then .ok else .panic) := by
  obtain ⟨mb, hmb, hdims, hlen, hpix⟩ := C53_pixels t w h h0
  obtain ⟨bw, hb1, hb2⟩ := C113_pbm w h mb.data hlen h8
  obtain ⟨co, hc1, hc2⟩ := C113_ppm w h mb.data hlen
  have hmbeq : mb = ⟨(w, h), mb.data⟩ := by rw [← hdims]
  refine ⟨fun i j => (mb.data.getD (w * i + j) 0).toNat, bw, co, fun i j hi hj => hpix i j hi hj, ?_, hc1, ?_⟩
  · rw [hb1]
    congr 3
    unfold pixelRows
    refine List.map_congr_left fun i _ => List.map_congr_left fun j _ => ?_
    rw [Bool.eq_iff_iff, beq_iff_eq, decide_eq_true_eq]
    dsimp only
    exact ⟨fun e => by rw [e]; rfl, fun e => BitVec.eq_of_toNat_eq e⟩
  · intro algo halgo k
    have hsimd := C53_generate t ht w h hw hh
    rw [if_pos h8, hmb] at hsimd
    have hb := hb2 k
    have hc := hc2 k
    rw [← hmbeq] at hb hc
    have fin : ∀ (c : Bool) (a : Algorithm), generate t (w, h) a = .ok mb →
        (match generate t (w, h) a with
          | .error _ => (([] : List Byte), Ended.panic)
          | .ok mb =>
            let (stdout, e) := if c then outputPpm (capped k) mb [] else outputPbm (capped k) mb []
            (stdout, if e = .ok then .ok else .panic)) =
        if c then (co.take k, if co.length ≤ k then .ok else .panic) else (bw.take k, if bw.length ≤ k then .ok else .panic) := by
      intro c a ha
      rw [ha]
      dsimp only
      cases c
      · show ((outputPbm (capped k) mb []).1, if (outputPbm (capped k) mb []).2 = Ended.ok then Ended.ok else Ended.panic) = (bw.take k, if bw.length ≤ k then Ended.ok else Ended.panic)
        rw [hb]
        by_cases hk : bw.length ≤ k
        · rw [if_pos hk, if_pos hk]; rfl
        · rw [if_neg hk, if_neg hk]; rfl
      · show ((outputPpm (capped k) mb []).1, if (outputPpm (capped k) mb []).2 = Ended.ok then Ended.ok else Ended.panic) = (co.take k, if co.length ≤ k then Ended.ok else Ended.panic)
        rw [hc]
        by_cases hk : co.length ≤ k
        · rw [if_pos hk, if_pos hk]; rfl
        · rw [if_neg hk, if_neg hk]; rfl
    simp only [List.mem_cons, List.not_mem_nil, or_false] at halgo
    rcases halgo with rfl | rfl
    · exact ⟨fin false .scalar hmb, fin true .scalar hmb⟩
    · exact ⟨fin false .simd hsimd, fin true .simd hsimd⟩

/-- **C113** Otherwise the vector algorithm, an unknown algorithm name and `ispc` (not built in) panic with nothing written. -/
theorem C113_program_panics (t : Target) (ht : t.Supported) (w h : Nat) (hw : w < 2 ^ 64) (hh : h < 2 ^ 64) (c : Bool) {σ : Type} (W : Writer σ) (f : σ) :
    (w % 8 ≠ 0 → main t W "simd" w h c f = (f, .panic)) ∧ (∀ algo, w = 0 ∨ algo ∉ ["scalar", "simd"] → main t W algo w h c f = (f, .panic)) := by
  have hsimd := C53_generate t ht w h hw hh
  have hisp : generate t (w, h) .ispc = .error .panic := rfl
  constructor
  · intro h8
    rw [if_neg h8] at hsimd
    show (match generate t (w, h) .simd with
      | .error _ => (f, Ended.panic)
      | .ok mb => _) = _
    rw [hsimd]
  · intro algo halgo
    unfold main
    have hz : w = 0 → generate t (w, h) .scalar = .error .panic ∧ generate t (w, h) .simd = .error .panic := by
      rintro rfl
      exact ⟨rfl, hsimd.trans rfl⟩
    by_cases h1 : algo = "scalar"
    · have hw0 : w = 0 := by
        rcases halgo with h | h
        · exact h
        · exact absurd (h1 ▸ List.mem_cons_self ..) h
      rw [if_pos h1]
      dsimp only
      rw [(hz hw0).1]
    · rw [if_neg h1]
      by_cases h2 : algo = "simd"
      · have hw0 : w = 0 := by
          rcases halgo with h | h
          · exact h
          · exact absurd (h2 ▸ List.mem_cons_of_mem _ (List.mem_cons_self ..)) h
        rw [if_pos h2]
        dsimp only
        rw [(hz hw0).2]
      · rw [if_neg h2]
        by_cases h3 : algo = "ispc"
        · rw [if_pos h3]
          dsimp only
          rw [hisp]
        · rw [if_neg h3]

/-- Counts 50 and 3 in a 8 × 1 picture: `P4\n8 1\n` and the byte 1011_1111; the counts 1, 3, 50 in colour. -/
example : outputPbm (capped 100) ⟨(8, 1), [50, 3, 50, 50, 50, 50, 50, 50]⟩ [] = ([80, 52, 10, 56, 32, 49, 10, 0b10111111], .ok) ∧
    (outputPpm (capped 100) ⟨(3, 1), [1, 3, 50]⟩ []).1 = [80, 54, 10, 51, 32, 49, 32, 50, 53, 53, 10, 0, 7, 100, 32, 107, 203, 0, 0, 0] := by decide +kernel

/-- A 4 × 2 picture is written without an error and cannot be read. -/
example : outputPbm (capped 100) ⟨(4, 2), [1, 2, 3, 50, 50, 50, 50, 50]⟩ [] = ([80, 52, 10, 52, 32, 50, 10, 0b00011111], .ok) ∧
    parsePbm [80, 52, 10, 52, 32, 50, 10, 0b00011111] = none := by decide +kernel

end PackedSimd.Props
