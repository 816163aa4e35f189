import Verif.Lemmas.MathTables
import Verif.Props.MaskReduce
import Verif.Model.Tables
/-
C46, C47: the floating-point math methods act lane by lane, however the target evaluates them.
-/
namespace PackedSimd.Props
open Math

/-- The scalar function named by each method, for libraries that offer several implementations of it. -/
inductive Named : Method → FOp → Prop
  | abs : Named .abs .fabs
  | cos : Named .cos .cos
  | cosPi : Named .cosPi .cospi
  | exp : Named .exp .exp
  | ln : Named .ln .log
  | mulAdd : Named .mulAdd .fma
  | mulAdde : Named .mulAdde .fmuladd
  | powf : Named .powf .pow
  | sin : Named .sin .sin
  | sinPi : Named .sinPi .sinpi
  | sqrt : Named .sqrt .sqrt
  | sqrte : Named .sqrte .sqrt
  | tanh : Named .tanh .tanh

/-- Number of vector arguments, `self` included. -/
def arity : Method → Nat
  | .mulAdd | .mulAdde => 3
  | .powf => 2
  | _ => 1

/-- The accuracy suffix of the library functions a method may use, in tenths of a unit in the last place (0: no suffix): the exactly specified operations
have none, only the estimate `sqrte` may be as bad as 3.5 units. -/
def worst : Method → Nat
  | .abs | .mulAdd | .mulAdde | .sqrt => 0
  | .sqrte => 35
  | _ => 10

/-- `S` is a scalar function the method may stand for: a library function of that name on that lane type, of sufficient accuracy; for `sin_pi` and `cos_pi` also the library's
sine or cosine of the rounded product `x * PI`; for `mul_add` and `mul_adde`, on s390x, the product rounded and then the sum rounded. -/
inductive Scalar (t : Target) (W : World) (e : FTy) : Method → (List (FLane e) → FLane e) → Prop
  | library {m op S} (lib : Lib) : Named m op → lib.op = op → lib.acc ≤ worst m → (∀ l, S l = W.fn e lib l) → Scalar t W e m S
  | sinOfTimesPi {S} (lib : Lib) : lib.op = .sin → lib.acc ≤ worst .sin → (∀ x, S [x] = W.fn e lib [Flt.mul e.man x (pi e)]) → Scalar t W e .sinPi S
  | cosOfTimesPi {S} (lib : Lib) : lib.op = .cos → lib.acc ≤ worst .cos → (∀ x, S [x] = W.fn e lib [Flt.mul e.man x (pi e)]) → Scalar t W e .cosPi S
  | mulThenAdd {S} : t.arch = .s390x → (∀ x y z, S [x, y, z] = Flt.add e.man (Flt.mul e.man x y) z) → Scalar t W e .mulAdd S
  | mulThenAdde {S} : t.arch = .s390x → (∀ x y z, S [x, y, z] = Flt.add e.man (Flt.mul e.man x y) z) → Scalar t W e .mulAdde S

/-- The instruction-set features of a target are closed under implication (rustc: `avx` enables `sse4.2`). -/
def FeaturesClosed (t : Target) : Prop := t.avx = true → t.sse42 = true

instance (t : Target) : Decidable (FeaturesClosed t) := inferInstanceAs (Decidable (_ → _))

theorem named_op (m : Method) : Named m m.op := by cases m <;> constructor

/-- `x * y + z` with two roundings. -/
def twoStep (e : FTy) : List (FLane e) → FLane e
  | [x, y, z] => Flt.add e.man (Flt.mul e.man x y) z
  | _ => 0

/-- A float lane type as a lane type of the table of all vector types. -/
def laneOf : FTy → Elem
  | .f32 => .f32
  | .f64 => .f64

/-- C46, C47 and the claims on float vectors range over all the float vector types the crate declares, and no others. -/
theorem C46_all_types (ty : FVTy) : ty ∈ floatTypes ↔ ∃ row ∈ Tables.vectorTypes, row.ty = ⟨laneOf ty.elem, ty.lanes⟩ := by
  constructor
  · exact (show ∀ ty ∈ floatTypes, ∃ row ∈ Tables.vectorTypes, row.ty = ⟨laneOf ty.elem, ty.lanes⟩ by decide +kernel) ty
  · rintro ⟨row, hr, h⟩
    have := (show ∀ row ∈ Tables.vectorTypes, (row.ty.elem = .f32 → (⟨.f32, row.ty.lanes⟩ : FVTy) ∈ floatTypes) ∧
      (row.ty.elem = .f64 → (⟨.f64, row.ty.lanes⟩ : FVTy) ∈ floatTypes) by decide +kernel) row hr
    obtain ⟨_ | _, l⟩ := ty
    · have := this.1; rw [h] at this; exact this rfl
    · have := this.2; rw [h] at this; exact this rfl

/-- **C46.** For every target, every library, every math method and every float vector type there is one scalar function, not depending on the
arguments nor on what uninitialised padding contains, such that the method returns (never faults) and lane `i` of the result is that function of lanes
`i` of the arguments. -/
theorem C46_lanewise (t : Target) (hf : FeaturesClosed t) (W : World) (m : Method) (ty : FVTy) (hty : ty ∈ floatTypes) :
    ∃ S, Scalar t W ty.elem m S ∧ ∀ (junk : Nat → Nat → Byte) (xs : List (FV ty)), xs.length = arity m →
      ∃ r, eval t W junk m ty xs = .ok r ∧ ∀ i (hi : i < ty.lanes), r[i] = S (xs.map (·[i])) := by
  have hent := entryOk_cfgOf t hf m hty
  unfold entryOk at hent
  have lib_case : ∀ s, resolve (m.table (cfgOf t)) ty = .ok s → (fits (cfgOf t) m.op ty s && decide (Strat.acc s ≤ m.worst)) = true →
      (∀ junk xs, eval t W junk m ty xs = run t W junk ty xs s) →
      ∃ S, Scalar t W ty.elem m S ∧ ∀ (junk : Nat → Nat → Byte) (xs : List (FV ty)), xs.length = arity m →
        ∃ r, eval t W junk m ty xs = .ok r ∧ ∀ i (hi : i < ty.lanes), r[i] = S (xs.map (·[i])) := by
    intro s _ hfit hev
    rw [Bool.and_eq_true, decide_eq_true_eq] at hfit
    obtain ⟨lib, hop, hacc, hrun⟩ := run_of_fits t W m.op ty s hfit.1
    refine ⟨W.fn ty.elem lib, .library lib (named_op m) hop (hacc ▸ hfit.2) (fun _ => rfl), fun junk xs _ => ⟨_, by rw [hev, hrun], fun i hi => ?_⟩⟩
    simp [lanewise]
  -- the `sin_pi` / `cos_pi` default
  have pi_case : ∀ (m' : Method), (m' = .sin ∨ m' = .cos) → ∃ lib : Lib, lib.op = m'.op ∧ lib.acc ≤ worst m' ∧
      ∃ s, resolve (m'.table (cfgOf t)) ty = .ok s ∧ ∀ junk xs, run t W junk ty xs s = .ok (lanewise (W.fn ty.elem lib) xs) := by
    intro m' hm'
    have h := entryOk_cfgOf t hf m' hty
    unfold entryOk at h
    split at h
    · rcases hm' with rfl | rfl <;> simp at h
    · rcases hm' with rfl | rfl <;> simp at h
    · rename_i s _ _ hs
      rw [Bool.and_eq_true, decide_eq_true_eq] at h
      obtain ⟨lib, hop, hacc, hrun⟩ := run_of_fits t W m'.op ty s h.1
      exact ⟨lib, hop, hacc ▸ h.2, s, hs, hrun⟩
    · simp at h
  cases hres : resolve (m.table (cfgOf t)) ty with
  | error e => rw [hres] at hent; simp at hent
  | ok s =>
    rw [hres] at hent
    cases s with
    | timesPi el =>
      simp only [Bool.and_eq_true, Bool.or_eq_true, decide_eq_true_eq] at hent
      obtain ⟨hm, rfl⟩ := hent
      rcases hm with rfl | rfl
      · obtain ⟨lib, hop, hacc, s, hs, hrun⟩ := pi_case .sin (.inl rfl)
        refine ⟨fun l => W.fn ty.elem lib (l.map fun x => Flt.mul ty.elem.man x (pi ty.elem)), .sinOfTimesPi lib hop hacc (fun _ => rfl),
          fun junk xs hl => ?_⟩
        obtain ⟨x, rfl⟩ : ∃ x, xs = [x] := by
          match xs, hl with
          | [x], _ => exact ⟨x, rfl⟩
        refine ⟨lanewise (W.fn ty.elem lib) [FVec.mul ty.elem.man x (splat ty.lanes (pi ty.elem))], ?_, ?_⟩
        · unfold eval
          rw [hres, R_ok_bind]
          simp only [timesPi, if_pos, R_ok_bind]
          rw [hs, R_ok_bind, hrun]
        · intro i hi
          simp [lanewise, FVec.mul, splat]
      · obtain ⟨lib, hop, hacc, s, hs, hrun⟩ := pi_case .cos (.inr rfl)
        refine ⟨fun l => W.fn ty.elem lib (l.map fun x => Flt.mul ty.elem.man x (pi ty.elem)), .cosOfTimesPi lib hop hacc (fun _ => rfl),
          fun junk xs hl => ?_⟩
        obtain ⟨x, rfl⟩ : ∃ x, xs = [x] := by
          match xs, hl with
          | [x], _ => exact ⟨x, rfl⟩
        refine ⟨lanewise (W.fn ty.elem lib) [FVec.mul ty.elem.man x (splat ty.lanes (pi ty.elem))], ?_, ?_⟩
        · unfold eval
          rw [hres, R_ok_bind]
          simp only [timesPi, if_pos, R_ok_bind]
          rw [hs, R_ok_bind, hrun]
        · intro i hi
          simp [lanewise, FVec.mul, splat]
    | mulThenAdd =>
      simp only [Bool.and_eq_true, Bool.or_eq_true, decide_eq_true_eq] at hent
      obtain ⟨hm, hs390⟩ := hent
      have harch : t.arch = .s390x := by simpa [cfgOf] using hs390
      have key : ∀ (junk : Nat → Nat → Byte) (xs : List (FV ty)), xs.length = 3 →
          ∃ r, eval t W junk m ty xs = .ok r ∧ ∀ i (hi : i < ty.lanes), r[i] =
            twoStep ty.elem (xs.map (·[i])) := by
        intro junk xs hl
        match xs, hl with
        | [x, y, z], _ =>
          refine ⟨FVec.add ty.elem.man (FVec.mul ty.elem.man x y) z, ?_, ?_⟩
          · unfold eval
            rw [hres, R_ok_bind]
            rcases hm with rfl | rfl <;> rfl
          · intro i hi
            simp [FVec.mul, FVec.add, twoStep]
      rcases hm with rfl | rfl
      · exact ⟨twoStep ty.elem, .mulThenAdd harch (fun _ _ _ => rfl), key⟩
      · exact ⟨twoStep ty.elem, .mulThenAdde harch (fun _ _ _ => rfl), key⟩
    | vec f => exact lib_case _ hres hent fun junk xs => by unfold eval; rw [hres, R_ok_bind]; cases m <;> rfl
    | scalar a b f => exact lib_case _ hres hent fun junk xs => by unfold eval; rw [hres, R_ok_bind]; cases m <;> rfl
    | halves a f => exact lib_case _ hres hent fun junk xs => by unfold eval; rw [hres, R_ok_bind]; cases m <;> rfl
    | quarters a f => exact lib_case _ hres hent fun junk xs => by unfold eval; rw [hres, R_ok_bind]; cases m <;> rfl
    | twice a f => exact lib_case _ hres hent fun junk xs => by unfold eval; rw [hres, R_ok_bind]; cases m <;> rfl

/-- **C46** (`rsqrte`). Lane by lane: one divided by the intrinsic square root. -/
theorem C46_rsqrte (W : World) (ty : FVTy) :
    ∃ S : FLane ty.elem → FLane ty.elem, ∀ (x : FV ty) i (hi : i < ty.lanes),
      (rsqrte W ty x)[i] = Flt.div ty.elem.man (Flt.fromInt _ ty.elem.man 1) (S x[i]) :=
  ⟨fun y => W.fn ty.elem ⟨.sqrt, .llvm, 0, ty.lanes⟩ [y], fun x i hi => by simp [rsqrte, FVec.div, splat]⟩

/-- Both results of `sin_cos_pi` are what they should be on each lane: the two results of a library `sincospi`, or the library's sine and cosine of the
rounded product `x * PI`. -/
def SinCosLanes (W : World) (ty : FVTy) (x : FV ty) (r : FV ty × FV ty) : Prop :=
  (∃ lib : Lib, lib.op = .sincospi ∧ ∀ i (hi : i < ty.lanes), r.1[i] = (W.sc ty.elem lib x[i]).1 ∧ r.2[i] = (W.sc ty.elem lib x[i]).2) ∨
  (∃ ls lc : Lib, ls.op = .sin ∧ lc.op = .cos ∧ ∀ i (hi : i < ty.lanes),
    r.1[i] = W.fn ty.elem ls [Flt.mul ty.elem.man x[i] (pi ty.elem)] ∧ r.2[i] = W.fn ty.elem lc [Flt.mul ty.elem.man x[i] (pi ty.elem)])

/-- **C47** (every type but `f32x2`, and `f32x2` without SLEEF). `sin_cos_pi` returns the sines and the cosines.
Missing: `f32x2` on x86_64 with the `sleef-sys` feature, where the claim is false (`C47_f32x2_fails`). -/
theorem C47_sin_cos_pi_partial (t : Target) (hf : FeaturesClosed t) (W : World) (ty : FVTy) (hty : ty ∈ floatTypes)
    (h : ty ≠ ⟨.f32, 2⟩ ∨ t.arch ≠ .x86_64 ∨ t.sleef = false) (junk : Nat → Nat → Byte) (x : FV ty) :
    ∃ r, sinCosPi t W junk ty x = .ok r ∧ SinCosLanes W ty x r := by
  have hp := pairOk_cfgOf t hf hty
  cases hres : resolve (MathTables.sinCosPi (cfgOf t)) ty with
  | error e => rw [pairOk, hres] at hp; simp at hp
  | ok s =>
    by_cases hpi : ∃ el, s = .timesPi el
    · obtain ⟨el, rfl⟩ := hpi
      have hel : el = ty.elem := by rw [pairOk, hres] at hp; simpa using hp
      subst hel
      have fin : ∀ (m : Method), m = .sin ∨ m = .cos → ∃ lib : Lib, lib.op = m.op ∧ ∀ v, eval t W junk m ty [v] = .ok (lanewise (W.fn ty.elem lib) [v]) := by
        intro m hm
        have h := entryOk_cfgOf t hf m hty
        unfold entryOk at h
        split at h
        · rcases hm with rfl | rfl <;> simp at h
        · rcases hm with rfl | rfl <;> simp at h
        · rename_i s _ _ hs
          rw [Bool.and_eq_true] at h
          obtain ⟨lib, hop, -, hrun⟩ := run_of_fits t W m.op ty s h.1
          refine ⟨lib, hop, fun v => ?_⟩
          rw [← hrun junk]
          unfold eval
          rw [hs, R_ok_bind]
          rcases hm with rfl | rfl <;> rfl
        · simp at h
      obtain ⟨ls, hls, es⟩ := fin .sin (.inl rfl)
      obtain ⟨lc, hlc, ec⟩ := fin .cos (.inr rfl)
      refine ⟨(lanewise (W.fn ty.elem ls) [FVec.mul ty.elem.man x (splat ty.lanes (pi ty.elem))],
        lanewise (W.fn ty.elem lc) [FVec.mul ty.elem.man x (splat ty.lanes (pi ty.elem))]), ?_, .inr ⟨ls, lc, hls, hlc, ?_⟩⟩
      · unfold sinCosPi
        rw [hres, R_ok_bind]
        simp only [timesPi, if_pos, R_ok_bind, es, ec]
      · intro i hi
        simp [lanewise, FVec.mul, splat]
    · obtain ⟨lib, hop, hr⟩ := sinCosPi_of_fits t W ty s hres hp (by
        rintro big f rfl
        rw [pairOk, hres] at hp
        simp only [Bool.and_eq_true, decide_eq_true_eq] at hp
        obtain ⟨⟨hty2, hsl⟩, _⟩ := hp
        simp [cfgOf] at hsl
        rcases h with h | h | h
        · exact h hty2
        · exact h hsl.1
        · rw [hsl.2] at h; cases h) (fun el he => hpi ⟨el, he⟩)
      refine ⟨_, hr junk x, .inl ⟨lib, hop, fun i hi => ?_⟩⟩
      simp

/-- A 64-bit x86 target with AVX and SLEEF. -/
def x64Sleef : Target := { x64Avx with sleef := true }

/-- A library whose `sincospi` returns the argument and its complement, and whose other functions are constantly one. -/
def echoWorld : World := ⟨fun _ _ _ => 1, fun _ _ x => (x, ~~~ x)⟩

/-- **C47 is false for `f32x2` with SLEEF**: the second result of `sin_cos_pi` is not the cosine, and depends on uninitialised memory. -/
theorem C47_f32x2_fails : ∃ (t : Target) (W : World) (x : FV ⟨.f32, 2⟩) (j₁ j₂ : Nat → Nat → Byte) (r₁ r₂ : FV ⟨.f32, 2⟩ × FV ⟨.f32, 2⟩),
    FeaturesClosed t ∧ sinCosPi t W j₁ ⟨.f32, 2⟩ x = .ok r₁ ∧ sinCosPi t W j₂ ⟨.f32, 2⟩ x = .ok r₂ ∧ r₁.2 ≠ r₂.2 ∧
    ¬ SinCosLanes W ⟨.f32, 2⟩ x r₁ := by
  refine ⟨x64Sleef, echoWorld, #v[0, 0], fun _ _ => 0, fun _ _ => 1, (#v[0, 0], #v[0, 0]), (#v[0, 0], #v[0x01010101, 0x01010101]), by decide +kernel,
    by decide +kernel, by decide +kernel, by decide +kernel, ?_⟩
  rintro (⟨lib, _, h⟩ | ⟨ls, lc, _, _, h⟩)
  · have : (0 : BitVec 32) = 0xFFFFFFFF := (h 0 (by decide)).2
    exact absurd this (by decide)
  · have : (0 : BitVec 32) = 1 := (h 0 (by decide)).2
    exact absurd this (by decide)

/-! ### Concrete cases -/

/-- `powf` of `f32x2` on AVX with SLEEF goes through `f32x4`; the padding does not reach the result. -/
example : eval x64Sleef ⟨fun _ _ l => l.foldl (· + ·) 0, fun _ _ x => (x, x)⟩ (fun a p => BitVec.ofNat 8 (17 * a + p)) .powf ⟨.f32, 2⟩ [#v[1, 2], #v[10, 20]] =
    .ok #v[11, 22] := by decide +kernel

example : FeaturesClosed x64Sleef ∧ (⟨.f32, 16⟩ : FVTy) ∈ floatTypes := by decide +kernel

/-- `sin_cos_pi` of `f64x8` on AVX with SLEEF: two halves. -/
example : sinCosPi x64Sleef echoWorld (fun _ _ => 0) ⟨.f64, 8⟩ #v[1, 2, 3, 4, 5, 6, 7, 8] =
    .ok (#v[1, 2, 3, 4, 5, 6, 7, 8], #v[~~~1, ~~~2, ~~~3, ~~~4, ~~~5, ~~~6, ~~~7, ~~~8]) := by decide +kernel

end PackedSimd.Props
