import Verif.Lemmas.Math
/-
The dispatch tables pick, for every target, method and float vector type, one impl whose strategy fits the type and the method.
-/
namespace PackedSimd.Math

/-- The scalar operation a method stands for (names of the linked functions). -/
def Method.op : Method → FOp
  | .abs => .fabs | .cos => .cos | .cosPi => .cospi | .exp => .exp | .ln => .log | .mulAdd => .fma | .mulAdde => .fmuladd
  | .powf => .pow | .sin => .sin | .sinPi => .sinpi | .sqrt => .sqrt | .sqrte => .sqrt | .tanh => .tanh

def Method.all : List Method := [.abs, .cos, .cosPi, .exp, .ln, .mulAdd, .mulAdde, .powf, .sin, .sinPi, .sqrt, .sqrte, .tanh]

theorem Method.mem_all (m : Method) : m ∈ Method.all := by cases m <;> decide

/-- `Isa.enabled` from the configuration. -/
def enabledC (c : Cfg) : Isa → Bool
  | .llvm | .std => true
  | .sse2 => c.sse2
  | .sse4 => c.sse42
  | .avx => c.avx
  | .avx2 | .avx2128 => c.avx2

/-- The strategy evaluates a library function for `op` and fits the type. -/
def fits (c : Cfg) (op : FOp) (ty : FVTy) : Strat → Bool
  | .vec f => f.elem = ty.elem && f.lib.lanes = ty.lanes && f.lib.op = op && enabledC c f.lib.isa
  | .scalar el n f => el = ty.elem && n = ty.lanes && f.elem = ty.elem && f.lib.lanes = 1 && f.lib.op = op && enabledC c f.lib.isa
  | .halves sub f => sub.elem = ty.elem && f.elem = ty.elem && ty.lanes = 2 * sub.lanes && f.lib.lanes = sub.lanes && f.lib.op = op && enabledC c f.lib.isa
  | .quarters sub f => sub.elem = ty.elem && f.elem = ty.elem && ty.lanes = 4 * sub.lanes && f.lib.lanes = sub.lanes && f.lib.op = op && enabledC c f.lib.isa
  | .twice big f => big.elem = ty.elem && f.elem = ty.elem && big.lanes = 2 * ty.lanes && f.lib.lanes = big.lanes && f.lib.op = op && enabledC c f.lib.isa
  | .timesPi _ => false
  | .mulThenAdd => false

/-- Accuracy suffix of the library function a strategy calls. -/
def Strat.acc : Strat → Nat
  | .vec f | .scalar _ _ f | .halves _ f | .quarters _ f | .twice _ f => f.lib.acc
  | .timesPi _ | .mulThenAdd => 0

/-- The worst accuracy suffix (tenths of a unit in the last place) a method may use. -/
def Method.worst : Method → Nat
  | .abs | .mulAdd | .mulAdde | .sqrt => 0
  | .sqrte => 35
  | _ => 10

/-- What is checked of each entry. -/
def entryOk (c : Cfg) (m : Method) (ty : FVTy) : Bool :=
  match resolve (m.table c) ty with
  | .ok (.timesPi el) => (m = .sinPi || m = .cosPi) && el = ty.elem
  | .ok .mulThenAdd => (m = .mulAdd || m = .mulAdde) && c.s390x
  | .ok s => fits c m.op ty s && decide (Strat.acc s ≤ m.worst)
  | .error _ => false

/-- What is checked of each `sin_cos_pi` entry. -/
def pairOk (c : Cfg) (ty : FVTy) : Bool :=
  match resolve (MathTables.sinCosPi c) ty with
  | .ok (.timesPi el) => el = ty.elem
  | .ok (.twice big f) => ty = ⟨.f32, 2⟩ && c.x64Sleef && fits c .sincospi ty (.twice big f)
  | .ok (.scalar ..) => false
  | .ok s => fits c .sincospi ty s
  | .error _ => false

theorem tables_ok : ∀ s x a2 a s4 s2 : Bool, (a = true → s4 = true) → ∀ m ∈ Method.all, ∀ ty ∈ floatTypes, entryOk ⟨s, x, a2, a, s4, s2⟩ m ty = true := by
  decide +kernel

theorem pairs_ok : ∀ s x a2 a s4 s2 : Bool, (a = true → s4 = true) → ∀ ty ∈ floatTypes, pairOk ⟨s, x, a2, a, s4, s2⟩ ty = true := by
  decide +kernel

theorem enabledC_cfgOf (t : Target) (i : Isa) : enabledC (cfgOf t) i = Isa.enabled t i := by cases i <;> rfl

theorem entryOk_cfgOf (t : Target) (hf : t.avx = true → t.sse42 = true) (m : Method) {ty : FVTy} (hty : ty ∈ floatTypes) :
    entryOk (cfgOf t) m ty = true := tables_ok _ _ _ _ _ _ hf m m.mem_all ty hty

theorem pairOk_cfgOf (t : Target) (hf : t.avx = true → t.sse42 = true) {ty : FVTy} (hty : ty ∈ floatTypes) :
    pairOk (cfgOf t) ty = true := pairs_ok _ _ _ _ _ _ hf ty hty

/-- A fitting strategy computes a library function for the operation on every lane. -/
theorem run_of_fits (t : Target) (W : World) (op : FOp) (ty : FVTy) (s : Strat) (h : fits (cfgOf t) op ty s = true) :
    ∃ lib : Lib, lib.op = op ∧ lib.acc = Strat.acc s ∧ ∀ junk xs, run t W junk ty xs s = .ok (lanewise (W.fn ty.elem lib) xs) := by
  obtain ⟨el, n⟩ := ty
  have key : ∀ lib : Lib, lib.op = op → (if lib.isa = .std then { lib with lanes := 1 } else lib).op = op := by
    intro lib h; split <;> exact h
  have acc : ∀ lib : Lib, (if lib.isa = .std then { lib with lanes := 1 } else lib).acc = lib.acc := by intro lib; split <;> rfl
  cases s with
  | vec f =>
    obtain ⟨fe, lib⟩ := f
    simp only [fits, Bool.and_eq_true, decide_eq_true_eq, enabledC_cfgOf] at h
    obtain ⟨⟨⟨rfl, h2⟩, h3⟩, h4⟩ := h
    exact ⟨_, key lib h3, acc lib, fun junk xs => run_vec t W junk fe lib h4 xs h2⟩
  | scalar sel m f =>
    obtain ⟨fe, lib⟩ := f
    simp only [fits, Bool.and_eq_true, decide_eq_true_eq, enabledC_cfgOf] at h
    obtain ⟨⟨⟨⟨⟨rfl, rfl⟩, rfl⟩, h2⟩, h3⟩, h4⟩ := h
    exact ⟨_, key lib h3, acc lib, fun junk xs => run_scalar t W junk fe lib h4 xs h2⟩
  | halves sub f =>
    obtain ⟨fe, lib⟩ := f
    obtain ⟨se, m⟩ := sub
    simp only [fits, Bool.and_eq_true, decide_eq_true_eq, enabledC_cfgOf] at h
    obtain ⟨⟨⟨⟨⟨rfl, rfl⟩, rfl⟩, h2⟩, h3⟩, h4⟩ := h
    exact ⟨_, key lib h3, acc lib, fun junk xs => run_halves t W junk fe lib h4 m xs h2⟩
  | quarters sub f =>
    obtain ⟨fe, lib⟩ := f
    obtain ⟨se, m⟩ := sub
    simp only [fits, Bool.and_eq_true, decide_eq_true_eq, enabledC_cfgOf] at h
    obtain ⟨⟨⟨⟨⟨rfl, rfl⟩, rfl⟩, h2⟩, h3⟩, h4⟩ := h
    exact ⟨_, key lib h3, acc lib, fun junk xs => run_quarters t W junk fe lib h4 m xs h2⟩
  | twice big f =>
    obtain ⟨fe, lib⟩ := f
    obtain ⟨se, m⟩ := big
    simp only [fits, Bool.and_eq_true, decide_eq_true_eq, enabledC_cfgOf] at h
    obtain ⟨⟨⟨⟨⟨rfl, rfl⟩, rfl⟩, h2⟩, h3⟩, h4⟩ := h
    exact ⟨_, key lib h3, acc lib, fun junk xs => run_twice t W junk fe lib h4 xs h2⟩
  | timesPi _ => simp [fits] at h
  | mulThenAdd => simp [fits] at h

/-! ### `sin_cos_pi` -/

theorem call2_ok (t : Target) (W : World) (el : FTy) (lib : Lib) (m : Nat) (hm : lib.lanes = m) (hisa : Isa.enabled t lib.isa = true)
    (x : Vec (FLane el) m) :
    call2 t W ⟨el, lib⟩ (bytesOf t.endian x) =
      .ok (bytesOf t.endian (Vector.ofFn fun i : Fin m => (W.sc el lib x[i]).1), bytesOf t.endian (Vector.ofFn fun i : Fin m => (W.sc el lib x[i]).2)) := by
  subst hm
  rw [call2, if_pos hisa, decode_bytesOf, R_ok_bind]

theorem call2_part (t : Target) (W : World) (el : FTy) (lib : Lib) (hisa : Isa.enabled t lib.isa = true) (n : Nat)
    (x : FV ⟨el, n⟩) (j h : Nat) (hn : (j + 1) * h ≤ n) (hl : lib.lanes = h) :
    call2 t W ⟨el, lib⟩ (part (size ⟨el, h⟩) j (bytesOf t.endian x)) =
      .ok (bytesOf t.endian (slice (x.map fun y => (W.sc el lib y).1) j h hn), bytesOf t.endian (slice (x.map fun y => (W.sc el lib y).2) j h hn)) := by
  rw [show size ⟨el, h⟩ = h * el.bytes from rfl, part_bytesOf _ _ j h hn, call2_ok t W el lib h hl hisa]
  congr 3 <;> (ext i hi : 1; simp [slice])

/-- A fitting strategy other than `twice` returns both results of the library function. -/
theorem sinCosPi_of_fits (t : Target) (W : World) (ty : FVTy) (s : Strat) (hs : resolve (MathTables.sinCosPi (cfgOf t)) ty = .ok s)
    (hp : pairOk (cfgOf t) ty = true) (hnt : ∀ big f, s ≠ .twice big f) (hnp : ∀ el, s ≠ .timesPi el) :
    ∃ lib : Lib, lib.op = .sincospi ∧ ∀ junk x, sinCosPi t W junk ty x =
      .ok (x.map fun y => (W.sc ty.elem lib y).1, x.map fun y => (W.sc ty.elem lib y).2) := by
  obtain ⟨el, n⟩ := ty
  rw [pairOk, hs] at hp
  unfold sinCosPi
  rw [hs]
  simp only [R_ok_bind]
  cases s with
  | vec f =>
    obtain ⟨fe, lib⟩ := f
    simp only [fits, Bool.and_eq_true, decide_eq_true_eq, enabledC_cfgOf] at hp
    obtain ⟨⟨⟨rfl, h2⟩, h3⟩, h4⟩ := hp
    refine ⟨lib, h3, fun junk x => ?_⟩
    simp only [call2_ok t W fe lib n h2 h4, R_ok_bind, decode_bytesOf]
    congr 2 <;> (ext i hi : 1; simp)
  | scalar sel m f => simp at hp
  | halves sub f =>
    obtain ⟨fe, lib⟩ := f
    obtain ⟨se, m⟩ := sub
    simp only [fits, Bool.and_eq_true, decide_eq_true_eq, enabledC_cfgOf] at hp
    obtain ⟨⟨⟨⟨⟨rfl, rfl⟩, rfl⟩, h2⟩, h3⟩, h4⟩ := hp
    refine ⟨lib, h3, fun junk x => ?_⟩
    simp only []
    rw [if_pos (by simp [splits, size, Nat.mul_assoc]), call2_part t W fe lib h4 _ x 0 m (by omega) h2, R_ok_bind,
      call2_part t W fe lib h4 _ x 1 m (by omega) h2, R_ok_bind]
    simp only [bytesOf_eq, ← enc_append, toList_eq_slices2]
    simp only [decode_enc _ _ _ rfl, R_ok_bind]
  | quarters sub f =>
    obtain ⟨fe, lib⟩ := f
    obtain ⟨se, m⟩ := sub
    simp only [fits, Bool.and_eq_true, decide_eq_true_eq, enabledC_cfgOf] at hp
    obtain ⟨⟨⟨⟨⟨rfl, rfl⟩, rfl⟩, h2⟩, h3⟩, h4⟩ := hp
    refine ⟨lib, h3, fun junk x => ?_⟩
    simp only []
    rw [if_pos (by simp [splits, size, Nat.mul_assoc]), call2_part t W fe lib h4 _ x 0 m (by omega) h2, R_ok_bind,
      call2_part t W fe lib h4 _ x 1 m (by omega) h2, R_ok_bind, call2_part t W fe lib h4 _ x 2 m (by omega) h2, R_ok_bind,
      call2_part t W fe lib h4 _ x 3 m (by omega) h2, R_ok_bind]
    simp only [bytesOf_eq, ← enc_append, toList_eq_slices4]
    simp only [decode_enc _ _ _ rfl, R_ok_bind]
  | twice big f => exact absurd rfl (hnt big f)
  | timesPi e => exact absurd rfl (hnp e)
  | mulThenAdd => simp [fits] at hp

end PackedSimd.Math
