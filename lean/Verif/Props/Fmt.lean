import Verif.Lemmas.Fmt
import Verif.Lemmas.IntVal
import Verif.Lemmas.Lanes
/-
C44: formatting.
-/
namespace PackedSimd.Props
open PackedSimd Spec Fmt

variable {σ α : Type} {w n : Nat}

/-- Any sink, any lane formatter: the pieces `name`, `(`, lane 0, `, `, lane 1, …, `)` are written in this order up to the first failing write, and the
result is `Ok` exactly if all of them succeed.  It never panics. -/
theorem C44_pieces [LaneCount n] (S : Sink σ) (name : List Char) (lane : α → σ → Outcome σ) (v : Vec α n) (f : σ) :
    fmtVec S name lane v f =
      .ok (runAll ([S.writeStr name, S.writeStr ['(']] ++ between (S.writeStr [',', ' ']) (v.toList.map lane) ++ [S.writeStr [')']]) f) :=
  fmtLanes_eq S [name, ['(']] (LaneCount.pos) (extract v) v (fun _ hi => extract_of_lt v hi) lane f

theorem C44_mask_pieces [LaneCount n] (S : Sink σ) (name : List Char) (lane : Bool → σ → Outcome σ) (hw : 0 < w) (v : Vec (BitVec w) n)
    (b : Nat → Bool) (hb : Denotes v b) (f : σ) :
    fmtMask S name lane v f =
      .ok (runAll ([S.writeStr name, S.writeStr ['(']] ++ between (S.writeStr [',', ' ']) ((Vector.ofFn fun i : Fin n => b i).toList.map lane) ++
        [S.writeStr [')']]) f) :=
  fmtLanes_eq S [name, ['(']] (LaneCount.pos) (Mask.extract v) (Vector.ofFn fun i : Fin n => b i) (fun i hi => by
    rw [Mask.extract_of_lt v hi, Vector.getElem_ofFn, isMaskLane_iff.1 (hb i hi), maskBits_ne_zero hw]) lane f

theorem C44_ptr_pieces [LaneCount n] (S : Sink σ) (name ty : List Char) (lane : α → σ → Outcome σ) (v : Vec α n) (f : σ) :
    fmtPtr S name ty lane v f =
      .ok (runAll ([S.writeStr name, S.writeStr ['<'], S.writeStr ty, S.writeStr ['>', '(']] ++ between (S.writeStr [',', ' ']) (v.toList.map lane) ++
        [S.writeStr [')']]) f) :=
  fmtLanes_eq S [name, ['<'], ty, ['>', '(']] (LaneCount.pos) (extract v) v (fun _ hi => extract_of_lt v hi) lane f

/-- Formatting into a string, with lanes that print as `text x`. -/
theorem C44_text [LaneCount n] (name : List Char) (text : α → List Char) (v : Vec α n) (s : List Char) :
    fmtVec stringSink name (fun x s => (s ++ text x, true)) v s = .ok (s ++ listing name (v.toList.map text), true) := by
  rw [C44_pieces]
  congr 1
  have h1 : (v.toList.map fun x s => (s ++ text x, true)) = (v.toList.map text).map stringSink.writeStr := by rw [List.map_map]; rfl
  rw [h1, map_between]
  have h2 := runAll_string ([name, ['(']] ++ between [',', ' '] (v.toList.map text) ++ [[')']]) s
  rw [List.map_append, List.map_append] at h2
  refine Eq.trans h2 ?_
  simp [listing, commaList]

theorem C44_mask_text [LaneCount n] (name : List Char) (hw : 0 < w) (v : Vec (BitVec w) n) (b : Nat → Bool) (hb : Denotes v b) (s : List Char) :
    fmtMask stringSink name (fun x s => (s ++ boolText x, true)) v s =
      .ok (s ++ listing name ((List.range n).map fun i => if b i then ['t', 'r', 'u', 'e'] else ['f', 'a', 'l', 's', 'e']), true) := by
  rw [C44_mask_pieces _ _ _ hw v b hb]
  congr 1
  have h0 : (Vector.ofFn fun i : Fin n => b i).toList = (List.range n).map b := by
    apply List.ext_getElem
    · simp
    · intro i h1 h2; simp
  have h1 : ((List.range n).map b).map (fun x s => (s ++ boolText x, true)) = (((List.range n).map b).map boolText).map stringSink.writeStr := by
    rw [List.map_map, List.map_map, List.map_map]; rfl
  rw [h0, h1, map_between]
  have h2 := runAll_string ([name, ['(']] ++ between [',', ' '] (((List.range n).map b).map boolText) ++ [[')']]) s
  rw [List.map_append, List.map_append] at h2
  refine Eq.trans h2 ?_
  rw [List.map_map]
  simp [listing, commaList]
  rfl

theorem C44_scalar_mask (name : List Char) (hw : 0 < w) (x : BitVec w) (b : Bool) (hb : IsMaskLane x b) (s : List Char) :
    fmtScalarMask stringSink name x s = .ok (s ++ listing name [if b then ['t', 'r', 'u', 'e'] else ['f', 'a', 'l', 's', 'e']], true) := by
  unfold fmtScalarMask
  rw [pieces_ok, runAll_string, isMaskLane_iff.1 hb, maskBits_ne_zero hw]
  simp [listing, commaList, between]
  rfl

/-- Lane texts without commas: equal output means equal lane texts. -/
theorem C44_injective (name : List Char) (l l' : List (List Char)) (hl : l.length = l'.length) (h1 : ∀ x ∈ l, ',' ∉ x) (h2 : ∀ x ∈ l', ',' ∉ x)
    (h : listing name l = listing name l') : l = l' := by
  unfold listing at h
  have := List.append_cancel_left (as := name ++ ['(']) (by simpa only [List.append_assoc] using h)
  exact commaList_inj l l' hl h1 h2 (List.append_cancel_right this)

/-- So the output determines the vector when the scalar formatter is injective and prints no comma. -/
theorem C44_determines [LaneCount n] (name : List Char) (text : α → List Char) (ht : ∀ x y, text x = text y → x = y) (hc : ∀ x, ',' ∉ text x)
    (a b : Vec α n) (h : fmtVec stringSink name (fun x s => (s ++ text x, true)) a [] = fmtVec stringSink name (fun x s => (s ++ text x, true)) b []) :
    a = b := by
  rw [C44_text, C44_text] at h
  injection h with h
  have h := (Prod.mk.inj h).1
  have comma : ∀ (v : Vec α n), ∀ x ∈ v.toList.map text, ',' ∉ x := by
    intro v x hx
    obtain ⟨y, -, rfl⟩ := List.mem_map.1 hx
    exact hc y
  have := C44_injective name (a.toList.map text) (b.toList.map text) (by simp) (comma a) (comma b) (by simpa using h)
  ext i hi : 1
  have := congrArg (fun l => l[i]?) this
  simp [hi] at this
  exact ht _ _ this

/-- Integer vectors printed with `{:?}` / `{:x}` / `{:o}` / `{:b}` are determined by the output. -/
theorem C44_debug_int [LaneCount n] (s : Bool) (name : List Char) (a b : Vec (BitVec w) n)
    (h : fmtVec stringSink name (fun x f => (f ++ decimal (val s x), true)) a [] = fmtVec stringSink name (fun x f => (f ++ decimal (val s x), true)) b []) :
    a = b :=
  C44_determines name (fun x : BitVec w => decimal (val s x)) (fun x y h => by rw [← ofInt_val s x, decimal_inj _ _ h, ofInt_val]) (fun _ => decimal_plain _) a b h

theorem C44_radix_int [LaneCount n] (radix : Nat) (hr : 1 < radix) (hr' : radix ≤ 16) (name : List Char) (a b : Vec (BitVec w) n)
    (h : fmtVec stringSink name (fun x f => (f ++ digits radix x.toNat, true)) a [] = fmtVec stringSink name (fun x f => (f ++ digits radix x.toNat, true)) b []) :
    a = b :=
  C44_determines name (fun x : BitVec w => digits radix x.toNat) (fun x y h => BitVec.eq_of_toNat_eq (toDigits_inj hr hr' x.toNat y.toNat h))
    (fun x h => (toDigits_plain hr hr' x.toNat _ h).1 rfl) a b h

/-- `i8x4(-1, 0, 42, 7)`. -/
example : fmtVec stringSink ['i', '8', 'x', '4'] (fun x f => (f ++ decimal (val true x), true)) (#v[-1, 0, 42, 7] : Vec (BitVec 8) 4) [] =
    .ok (['i', '8', 'x', '4', '(', '-', '1', ',', ' ', '0', ',', ' ', '4', '2', ',', ' ', '7', ')'], true) := by decide +kernel

/-- A sink with room for 6 characters keeps what fits and reports failure. -/
example : fmtVec ⟨fun p s => if s.length + p.length ≤ 6 then (s ++ p, true) else (s, false)⟩ ['i', '8', 'x', '2']
    (fun (_ : BitVec 8) f => if f.length + 1 ≤ 6 then (f ++ ['0'], true) else (f, false)) (#v[0, 0] : Vec (BitVec 8) 2) [] =
    .ok (['i', '8', 'x', '2', '(', '0'], false) := by decide +kernel

end PackedSimd.Props
