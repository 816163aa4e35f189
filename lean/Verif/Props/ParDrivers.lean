import Verif.Lemmas.ParDrivers
import Verif.Props.Stencil
import Verif.Props.Options
import Verif.Props.Mandelbrot
/-
C116: the parallel example programs under every interleaving of the memory accesses of their tasks.
-/
namespace PackedSimd.Props
open Spec Prog Ex Ex.Par
open Options (loadAt storeAt)

variable {α : Type} {n : Nat}

/-! ### The tasks of the stencil -/

section
open Stencil
variable [Add α] [Sub α] [Mul α] {E : Env α}

theorem blockTask_sim (b L : Nat) (aIn : List α) (nxy zIdx yIdx x : Int) :
    Sim b L (blockTask E n aIn b L nxy zIdx yIdx x) (fun c => blockSimd E n aIn nxy zIdx yIdx c x) := by
  refine sim_lift _ _ (fun outIdx c => _) fun outIdx _ => sim_lift _ _ (fun index c => _) fun index _ => sim_lift _ _ (fun cur0 c => _) fun cur0 _ =>
    sim_lift _ _ (fun c0 c => _) fun c0 _ => sim_lift _ _ (fun div c => _) fun div _ => sim_lift _ _ (fun vsq c => _) fun vsq _ => ?_
  refine sim_update (fun c => loadU E n c outIdx) (fun c v hc h => ?_) (fun v c => storeU E v c outIdx) (fun v c c' h => ?_)
    (fun next => vfma E vsq div (vfma E cur0 (splat n E.two) (splat n E.negOne * next)))
  · unfold loadU at h
    split at h
    · exact h
    · cases h
  · unfold storeU at h
    split at h
    · exact h
    · cases h

theorem stepTask_sim (b L : Nat) (aIn : List α) (z0 z1 : Int) : Sim b L (stepTask E n aIn b L z0 z1) (fun c => stepSimd E n z0 z1 aIn c) := by
  refine sim_lift _ _ (fun dx c => _) fun dx _ => ?_
  by_cases h : dx.tmod n = 0
  · simp only [if_pos h]
    refine sim_lift _ _ (fun nxy c => _) fun nxy _ => ?_
    refine sim_fold _ _ _ fun z _ => ?_
    refine sim_lift _ _ (fun zIdx c => _) fun zIdx _ => ?_
    refine sim_fold _ _ _ fun y _ => ?_
    refine sim_lift _ _ (fun yIdx c => _) fun yIdx _ => ?_
    exact sim_fold _ _ _ fun x _ => blockTask_sim b L aIn nxy zIdx yIdx x
  · simp only [if_neg h]
    intro c c' _ hf
    cases hf

theorem half_ends {aIn aOut r : List α} {z0 z1 : Int} {order : List Nat → List Nat} (ho : ∀ l, (order l).Perm l)
    (h : halfPar E n order z0 z1 aIn aOut = .ok r) :
    ∃ ts, halfTasks E n order z0 z1 aIn aOut.length = .ok ts ∧ AlwaysEndsWith ts aOut r := by
  unfold halfPar at h
  unfold halfTasks
  cases hp : planes E z0 z1 aOut.length with
  | error e => rw [hp] at h; cases h
  | ok p =>
    obtain ⟨size, zs⟩ := p
    rw [hp] at h
    refine ⟨_, rfl, ?_⟩
    have hsub : zs.Sublist (List.range ((aOut.length + size - 1) / size)) ∧ 0 < size := by
      unfold planes at hp
      cases h1 : i32 E.dbg (E.nx * E.ny) with
      | error e => rw [h1] at hp; cases hp
      | ok q =>
        rw [h1, R_ok_bind] at hp
        dsimp only at hp
        split at hp
        · cases hp
        · cases h2 : i32 E.dbg (z1 - z0) with
          | error e => rw [h2] at hp; cases hp
          | ok dz =>
            rw [h2] at hp
            cases hp
            exact ⟨(List.take_sublist _ _).trans (List.drop_sublist _ _), by omega⟩
    have hnd : (order zs).Nodup := (ho zs).nodup_iff.2 (hsub.1.nodup List.nodup_range)
    refine tasks_end size aOut.length (planeTask E n aIn size aOut.length) _ (fun z hmem m m' hm hz => ?_) hnd rfl h
    have hzlt : z * size ≤ aOut.length := Nat.le_of_lt (chunk_lt hsub.2 (List.mem_range.1 (hsub.1.subset ((ho zs).mem_iff.1 hmem))))
    unfold planeSimd at hz
    cases h1 : i32 E.dbg ((z : Int) + 1) with
    | error e => rw [h1] at hz; cases hz
    | ok z1 =>
      rw [h1, R_ok_bind] at hz
      cases h2 : stepSimd E n z z1 aIn ((m.drop (z * size)).take size) with
      | error e => rw [h2] at hz; cases hz
      | ok c =>
        rw [h2] at hz
        cases hz
        have : planeTask E n aIn size aOut.length z = stepTask E n aIn (z * size) (min size (aOut.length - z * size)) z z1 := by
          unfold planeTask; rw [h1]; rfl
        rw [this]
        exact chunk_task (stepTask_sim _ _ aIn z z1) hm h2 hzlt

/-- C116, stencil, one time step: whenever the tasks succeed one after the other, they succeed in every interleaving, without race, with the same
values. -/
theorem C116_stencil_step {aIn aOut r : List α} {z0 z1 : Int} {order : List Nat → List Nat} (ho : ∀ l, (order l).Perm l)
    (h : halfPar E n order z0 z1 aIn aOut = .ok r) :
    ∃ ts, halfTasks E n order z0 z1 aIn aOut.length = .ok ts ∧ AlwaysEndsWith ts aOut r := half_ends ho h

variable {z0 z1 nz : Int}

/-- In the box of C74, every step of every execution is of that kind. -/
theorem step_ends (G : Geometry E z0 z1 nz) (hn : 1 ≤ n) (hdvd : (n : Int) ∣ E.x1 - E.x0) {aIn aOut : List α}
    (ha : aIn.length = (E.nx * E.ny * nz).toNat) (hb : aOut.length = (E.nx * E.ny * nz).toNat) :
    ∃ out, halfSimd E n z0 z1 aIn aOut = .ok out ∧ out.length = (E.nx * E.ny * nz).toNat ∧ ∀ order : List Nat → List Nat, (∀ l, (order l).Perm l) →
      ∃ ts, halfTasks E n order z0 z1 aIn aOut.length = .ok ts ∧ AlwaysEndsWith ts aOut out := by
  obtain ⟨o, e, u⟩ := halfPar_ok (n := n) G hn hdvd (order := id) (fun _ => .refl _) ha hb
  refine ⟨o, e, by rw [u.length, hb], fun order ho => ?_⟩
  obtain ⟨o', e', u'⟩ := halfPar_ok (n := n) G hn hdvd ho ha hb
  rw [u.unique u']
  exact half_ends ho e'

/-- C116, stencil: for a box inside the grid, the tasks of a time step never race, never get stuck and end with the values of the sequential program,
whatever the order of their accesses; so every execution of all time steps ends with the grids of the sequential vector program, and there is one. -/
theorem C116_stencil (G : Geometry E z0 z1 nz) (hn : 1 ≤ n) (hdvd : (n : Int) ∣ E.x1 - E.x0) (t0 t1 : Int) {even odd : List α}
    (he : even.length = (E.nx * E.ny * nz).toNat) (ho : odd.length = (E.nx * E.ny * nz).toNat) :
    ∃ r, runSimd E n t0 t1 z0 z1 even odd = .ok r ∧ ∀ r', StencilExec E n z0 z1 t1 t0 (even, odd) r' ↔ r' = r := by
  generalize hm : (t1 - t0).toNat = m
  unfold runSimd
  induction m generalizing t0 even odd with
  | zero =>
    refine ⟨_, forInt_empty (by omega) _ _, fun r' => ⟨fun h => ?_, fun h => ?_⟩⟩
    · cases h with
      | done _ => rfl
      | even h => omega
      | odd h => omega
    · subst h; exact .done (by omega)
  | succ m ih =>
    by_cases h2 : t0 % 2 = 0
    · obtain ⟨out, e, hl, hp⟩ := step_ends (n := n) G hn hdvd he ho
      obtain ⟨r, e1, e2⟩ := ih (t0 + 1) (even := even) (odd := out) he hl (by omega)
      refine ⟨r, ?_, fun r' => ⟨fun h => ?_, fun h => ?_⟩⟩
      · rw [forInt_cons (by omega), if_pos h2]
        dsimp only
        rw [e]
        exact e1
      · cases h with
        | done _ => omega
        | even _ _ order ho' ht hs hd hr =>
          obtain ⟨ts', ht', ha⟩ := hp order ho'
          cases ht.symm.trans ht'
          rw [ha.final hs hd] at hr
          exact (e2 r').1 hr
        | odd _ h2' => exact absurd h2 h2'
      · subst h
        obtain ⟨ts, ht, ha⟩ := hp id (fun _ => .refl _)
        obtain ⟨ts', hs, hd⟩ := ha.reached
        exact .even (by omega) h2 id (fun _ => .refl _) ht hs hd ((e2 r').2 rfl)
    · obtain ⟨out, e, hl, hp⟩ := step_ends (n := n) G hn hdvd ho he
      obtain ⟨r, e1, e2⟩ := ih (t0 + 1) (even := out) (odd := odd) hl ho (by omega)
      refine ⟨r, ?_, fun r' => ⟨fun h => ?_, fun h => ?_⟩⟩
      · rw [forInt_cons (by omega), if_neg h2]
        dsimp only
        rw [e]
        exact e1
      · cases h with
        | done _ => omega
        | even _ h2' => exact absurd h2' h2
        | odd _ _ order ho' ht hs hd hr =>
          obtain ⟨ts', ht', ha⟩ := hp order ho'
          cases ht.symm.trans ht'
          rw [ha.final hs hd] at hr
          exact (e2 r').1 hr
      · subst h
        obtain ⟨ts, ht, ha⟩ := hp id (fun _ => .refl _)
        obtain ⟨ts', hs, hd⟩ := ha.reached
        exact .odd (by omega) h2 id (fun _ => .refl _) ht hs hd ((e2 r').2 rfl)

/-- The hypotheses are met by the box of C74. -/
example (fma : F32 → F32 → F32 → F32) : Geometry (smallBox fma) 3 5 8 ∧ ((8 : Nat) : Int) ∣ (smallBox fma).x1 - (smallBox fma).x0 :=
  ⟨smallBox_geometry fma, ⟨1, rfl⟩⟩

end

/-! ### The tasks of the option pricing -/

section
open Options
variable {β : Type}

theorem price_ends {dbg : Bool} {kernel : Vec α n → Vec α n → Vec α n → Vec α n → Vec α n → R (Vec α n)} {I : Input α} {result out : List α} {order : List Nat}
    (ho : order.Nodup) (h : order.foldlM (fun result i => block dbg kernel I i (i * n) result) result = .ok out) :
    AlwaysEndsWith (priceTasks dbg kernel I order result.length) result out := by
  refine tasks_end n result.length _ _ (fun z _ m m' hm hz => ?_) ho rfl h
  unfold block at hz
  unfold priceTask
  cases h1 : loadAt dbg n I.sa z with
  | error e => rw [h1] at hz; cases hz
  | ok s =>
  cases h2 : loadAt dbg n I.xa z with
  | error e => rw [h1, h2] at hz; cases hz
  | ok x =>
  cases h3 : loadAt dbg n I.ta z with
  | error e => rw [h1, h2, h3] at hz; cases hz
  | ok t =>
  cases h4 : loadAt dbg n I.ra z with
  | error e => rw [h1, h2, h3, h4] at hz; cases hz
  | ok r =>
  cases h5 : loadAt dbg n I.va z with
  | error e => rw [h1, h2, h3, h4, h5] at hz; cases hz
  | ok v =>
  cases h6 : kernel s x t r v with
  | error e => rw [h1, h2, h3, h4, h5] at hz; simp only [R_ok_bind] at hz; rw [h6] at hz; cases hz
  | ok w =>
    rw [h1, h2, h3, h4, h5] at hz
    simp only [R_ok_bind] at hz
    rw [h6] at hz
    obtain ⟨g1, g2⟩ := storeAt_inv (show storeAt dbg w m (z * n) = .ok m' from hz)
    have hlen : min n (result.length - z * n) = n := by omega
    rw [hlen]
    dsimp only
    rw [if_neg (by simp)]
    show _ ∧ Confined _ (lift (kernel s x t r v) >>= fun w => storeChunk dbg w (z * n) n 0) ∧ (lift (kernel s x t r v) >>= fun w => storeChunk dbg w (z * n) n 0).run m = _
    rw [h6]
    show _ ∧ Confined _ (storeChunk dbg w (z * n) n 0) ∧ (storeChunk dbg w (z * n) n 0).run m = _
    have hwl : w.toList.length = n := by simp
    rw [storeChunk_eq (by omega), Nat.add_zero, rawStore_run _ _ _ (by omega), hwl]
    refine ⟨?_, rawStore_confined _ _ fun l hl => ⟨by omega, by omega, by omega⟩, by rw [g2]⟩
    rw [g2]
    simp only [List.length_append, List.length_take, List.length_drop, hwl]
    omega

theorem priceAt_unique {g : α → α → α → α → α → α} {I : Input α} {i : Nat} {y y' : Option α} (h : PriceAt g I i y) (h' : PriceAt g I i y') : y = y' := by
  obtain ⟨s, x, t, r, v, e1, e2, e3, e4, e5, rfl⟩ := h
  obtain ⟨s', x', t', r', v', e1', e2', e3', e4', e5', rfl⟩ := h'
  rw [e1] at e1'; rw [e2] at e2'; rw [e3] at e3'; rw [e4] at e4'; rw [e5] at e5'
  cases e1'; cases e2'; cases e3'; cases e4'; cases e5'
  rfl

/-- C116, option pricing: when the slices are long enough for what the tasks read (C71), the tasks of the parallel driver never race, never get stuck, and
end with exactly the result of the model in which they run one after the other; which of the inputs an element is computed from is C71's matter. -/
theorem C116_options [LaneCount n] (t : Target) (dbg : Bool) (B : Arith β) (widen : α → β)
    {kernel : Vec α n → Vec α n → Vec α n → Vec α n → Vec α n → R (Vec α n)} {g : α → α → α → α → α → α}
    (hk : ∀ s x t r v, ∃ w, kernel s x t r v = .ok w ∧ ∀ l (hl : l < n), w[l] = g s[l] x[l] t[l] r[l] v[l])
    {I : Input α} {result : List α} {count : Nat} (hI : Long I (result.length / n + n - 1)) (hc : count % n = 0) (hl : result.length % n = 0) :
    ∃ out sum, (∀ order : List Nat, order.Perm (List.range (result.length / n)) → AlwaysEndsWith (priceTasks dbg kernel I order result.length) result out ∧
        runParallel t dbg B widen kernel order I result count = .ok (out, sum)) ∧
      out.length = result.length ∧ (∀ j, j < result.length → PriceAt g I (j / n + j % n) out[j]?) ∧ SumOf B.add B.zero (out.map widen) sum := by
  obtain ⟨out, sum, h1, h2, h3, h4, h5⟩ := C71_parallel_reads t dbg B widen hk hI hc hl (order := List.range (result.length / n)) (.refl _)
  refine ⟨out, sum, fun order ho => ?_, h2, h3, h5⟩
  obtain ⟨out', sum', g1, g2, g3, g4, g5⟩ := C71_parallel_reads t dbg B widen hk hI hc hl ho
  have e : out' = out := by
    apply List.ext_getElem?
    intro j
    by_cases hj : j < result.length
    · exact priceAt_unique (g3 j hj) (h3 j hj)
    · rw [List.getElem?_eq_none (by omega), List.getElem?_eq_none (by omega)]
  subst e
  cases g4.symm.trans h4
  refine ⟨?_, g1⟩
  refine price_ends (ho.nodup_iff.2 List.nodup_range) ?_
  unfold runParallel at g1
  rw [if_pos hc] at g1
  cases hf : order.foldlM (fun result i => block dbg kernel I i (i * n) result) result with
  | error e => rw [hf] at g1; cases g1
  | ok o =>
    rw [hf, R_ok_bind] at g1
    cases hs : sumSlice t dbg B widen n o with
    | error e => rw [hs] at g1; cases g1
    | ok s => rw [hs] at g1; cases g1; rfl

/-- The hypotheses are met: five inputs of three elements price a `result` of four in two tasks; the second task reads elements 1 and 2 (C71). -/
example : let I : Input Int := ⟨[1, 2, 3], [10, 20, 30], [0, 0, 0], [0, 0, 0], [5, 6, 7]⟩
    Long I ([0, 0, 0, 0].length / 2 + 2 - 1) ∧ AlwaysEndsWith (priceTasks (n := 2) true (fun s x t r v => .ok (s + x + t + r + v)) I [1, 0] 4) [0, 0, 0, 0] [16, 28, 28, 40] := by
  intro I
  refine ⟨⟨by decide, by decide, by decide, by decide, by decide⟩, ?_⟩
  have := price_ends (n := 2) (dbg := true) (kernel := fun s x t r v => .ok (s + x + t + r + v)) (I := I) (result := [0, 0, 0, 0]) (out := [16, 28, 28, 40]) (order := [1, 0])
    (by decide) (by decide +kernel)
  exact this

end

/-! ### The tasks of the Mandelbrot programs -/

section
open Mandel
variable [Add α] [Sub α] [Mul α]

theorem columns_end (g : Grid α) (width : Nat) {order : List Nat → List Nat} (ho : ∀ l, (order l).Perm l) {old : List α} (hold : old.length = width) :
    AlwaysEndsWith (columnTasks g width order) old ((List.range width).map (columnStart g)) := by
  have hmem : ∀ z, z ∈ order (List.range width) ↔ z < width := fun z => by rw [(ho _).mem_iff, List.mem_range]
  obtain ⟨r, e, hl, hg⟩ := fold_rows (w := 1) Nat.one_pos (fun j => [columnStart g j]) (fun _ => rfl) (order (List.range width)) old rfl
    (fun z hz => by have := (hmem z).1 hz; omega)
  have hr : r = (List.range width).map (columnStart g) := by
    apply List.ext_getElem?
    intro k
    rw [hg]
    simp only [hmem, Nat.div_one, Nat.mod_one]
    by_cases hk : k < width
    · simp [hk]
    · rw [if_neg hk, List.getElem?_eq_none (by omega), List.getElem?_eq_none (by simp; omega)]
  rw [← hr]
  refine tasks_end 1 old.length _ _ (fun z hz m m' hm hf => ?_) ((ho _).nodup_iff.2 List.nodup_range) rfl e
  have hz := (hmem z).1 hz
  cases hf
  have := chunk_task (size := 1) (len := old.length) (z := z) (T := Prog.store z (columnStart g z) (.ret ())) (f := fun c => .ok (c.set 0 (columnStart g z)))
    (c' := [columnStart g z]) (by
      rw [show min 1 (old.length - z * 1) = 1 by omega]
      have := sim_store (α := α) (b := z * 1) (L := 1) Nat.one_pos (columnStart g z)
      rwa [show z * 1 + 0 = z by omega] at this) hm (by
      have : ((m.drop (z * 1)).take 1) = [m[z]'(by omega)] := by
        rw [Nat.mul_one, List.drop_eq_getElem_cons (by omega), List.take_succ_cons, List.take_zero]
      rw [this]; rfl) (by omega)
  exact this

/-- C116, Mandelbrot, scalar: the tasks that compute the columns' start values and then the tasks that compute the rows never race, never get stuck and,
whatever the buffers held before, end with the image of C53. -/
theorem C116_mandelbrot_scalar (gt : α → α → Bool) (threshold : α) (limit : Nat) (g : Grid α) {width height : Nat} (hw : 0 < width) :
    let xs := (List.range width).map fun j => g.xStart + g.dx * g.ofIndex j
    ∃ px, generateScalar gt threshold limit g width height = .ok px ∧ ∀ order : List Nat → List Nat, (∀ l, (order l).Perm l) →
      (∀ old : List α, old.length = width → AlwaysEndsWith (columnTasks g width order) old xs) ∧
      ∀ old : List (BitVec 32), old.length = width * height →
        ∃ ts, fillTasks (scalarPixel gt threshold limit g xs) width old.length order = .ok ts ∧ AlwaysEndsWith ts old px := by
  intro xs
  refine ⟨_, by unfold generateScalar; rw [if_neg (by omega)], fun order ho => ⟨fun old h => columns_end g width ho h, fun old h => ?_⟩⟩
  have := fill_ends (value := scalarPixel gt threshold limit g ((List.range width).map (columnStart g))) hw
    (fun i j => BitVec.ofNat 32 (countScalar gt threshold limit ⟨columnStart g j, g.yStart + g.dy * g.ofIndex i⟩)) (fun i j hi hj => by
      unfold scalarPixel lget
      simp [hj]) ho h
  change ∃ ts, fillTasks (scalarPixel gt threshold limit g ((List.range width).map (columnStart g))) width old.length order = .ok ts ∧ _
  simpa only [List.map_map, Function.comp_def, columnStart] using this

theorem flatten_rows {ι γ δ : Type} (f : ι → List γ) (g : γ → List δ) (l : List ι) :
    ((l.flatMap f).map g).flatten = (l.map fun i => ((f i).map g).flatten).flatten := by
  induction l with
  | nil => rfl
  | cons x l ih => rw [List.flatMap_cons, List.map_append, List.flatten_append, ih]; rfl

/-- C116, Mandelbrot, vectors: the same for the tasks that store vectors of counts; read as `u32`s they are the image of C53. -/
theorem C116_mandelbrot_simd (t : Target) (ht : t.Supported) (ty : MaskTy) (le : α → α → Bool) (threshold : α) (limit : Nat) (hl : limit < 2 ^ 32) (g : Grid α) {width height : Nat}
    (hw : width % ty.lanes = 0) (hw0 : 0 < width / ty.lanes) :
    ∃ px final, generateSimd t ty le threshold limit g width height = .ok px ∧ (final.map Vector.toList).flatten = px ∧
      ∀ order : List Nat → List Nat, (∀ l, (order l).Perm l) → ∀ old : List (Vec (BitVec 32) ty.lanes), old.length = width / ty.lanes * height →
        ∃ ts, fillTasks (simdBlock t ty le threshold limit g (simdColumns ty g width)) (width / ty.lanes) old.length order = .ok ts ∧
          AlwaysEndsWith ts old final := by
  have hc : ∀ (i : Nat) (x : Vec α ty.lanes), ∃ r, countSimd t ty le threshold limit ⟨x, splat ty.lanes (g.yStart + g.dy * g.ofIndex i)⟩ = .ok r :=
    fun i x => by obtain ⟨_, r, _, h, _⟩ := C53_lanes t ht ty le threshold limit hl x (splat ty.lanes (g.yStart + g.dy * g.ofIndex i)); exact ⟨r, h⟩
  choose F hF using hc
  have hm : ∀ i, ∀ xs : List (Vec α ty.lanes), (xs.mapM fun x => countSimd t ty le threshold limit ⟨x, splat ty.lanes (g.yStart + g.dy * g.ofIndex i)⟩) = .ok (xs.map (F i)) := by
    intro i xs
    induction xs with
    | nil => rfl
    | cons x xs ih => rw [List.mapM_cons, hF, R_ok_bind, ih]; rfl
  have hm2 : ∀ is : List Nat, (is.mapM fun i => (do
        let y := splat ty.lanes (g.yStart + g.dy * g.ofIndex i)
        let row ← (simdColumns ty g width).mapM fun x => countSimd t ty le threshold limit ⟨x, y⟩
        return (row.map Vector.toList).flatten : R (List (BitVec 32)))) = .ok (is.map fun i => (((simdColumns ty g width).map (F i)).map Vector.toList).flatten) := by
    intro is
    induction is with
    | nil => rfl
    | cons i is ih => rw [List.mapM_cons]; dsimp only; rw [hm, R_ok_bind]; dsimp only at ih; erw [ih]; rfl
  refine ⟨((List.range height).map fun i => (((simdColumns ty g width).map (F i)).map Vector.toList).flatten).flatten, (List.range height).flatMap fun i => (List.range (width / ty.lanes)).map fun j => F i (columnBlock ty g j), ?_, ?_, fun order ho old h => ?_⟩
  · unfold generateSimd
    rw [if_pos hw, if_neg (by omega)]
    have := congrArg (fun r : R (List (List (BitVec 32))) => r >>= fun rows => (pure rows.flatten : R (List (BitVec 32)))) (hm2 (List.range height))
    exact this
  · rw [flatten_rows]
    simp only [simdColumns, List.map_map, Function.comp_def]
  · refine fill_ends hw0 (fun i j => F i (columnBlock ty g j)) (fun i j hi hj => ?_) ho h
    unfold simdBlock lget
    simp [simdColumns, hj]
    exact hF _ _

/-- The hypotheses are met by an image of two rows of eight columns; the tasks of the rows are started in reverse order. -/
example (old : List (BitVec 32)) (h : old.length = 16) :
    let g : Grid Int := ⟨-3, -1, 1, 1, fun i => i⟩
    let xs := (List.range 8).map fun j => g.xStart + g.dx * g.ofIndex j
    ∃ ts, fillTasks (scalarPixel (fun a b => decide (a > b)) 4 4 g xs) 8 old.length List.reverse = .ok ts ∧
      AlwaysEndsWith ts old [0, 0, 2, 4, 1, 0, 0, 0, 0, 4, 4, 4, 2, 1, 0, 0] := by
  intro g xs
  obtain ⟨px, h1, h2⟩ := C116_mandelbrot_scalar (fun a b => decide (a > b)) 4 4 g (width := 8) (height := 2) (by decide)
  have e : generateScalar (fun a b => decide (a > b)) 4 4 g 8 2 = .ok [0, 0, 2, 4, 1, 0, 0, 0, 0, 4, 4, 4, 2, 1, 0, 0] := by decide +kernel
  cases h1.symm.trans e
  exact (h2 List.reverse (fun l => List.reverse_perm l)).2 old h

end
end PackedSimd.Props
