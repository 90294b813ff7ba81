import Verif.Lemmas.ObjElem
import Verif.Props.TextSolve

/-!
# C97: the statements of `homogenize.cpp` and of the Newton loop do what the model says

As C95 and C96, for `newton_raphson` (/repo/src/solve.cpp:46-66), the functions of
/repo/src/homogenize.cpp:26-217 and `get_nl_flag`, `get_elem_type2D`, `get_elem_type3D`
(/repo/src/micro.cpp:167-224).  What the source leaves open (the value behind a pointer that has left
its object, fields of a new Gauss point) is the same choice `env` on both sides; a run that does not
end within `env.fuel` passes is the fault `fuel` on both sides.
-/

namespace Verif.Props
open Text Spec

variable {α : Type} [Scalar α] {c : Cfg α}

/-- Both outcomes of a run in step with the model. -/
theorem _root_.Verif.Text.Agrees.split {β γ : Type} {r : M β} {m : M γ} {R : γ → β → Prop} (h : Agrees r m R) :
    (∀ z, m = .ok z → ∃ t, r = .ok t ∧ R z t) ∧ ∀ e, m = .error e → r = .error e := by
  cases m with
  | ok z => exact ⟨fun _ e => by cases e; exact h, fun _ e => by cases e⟩
  | error e => exact ⟨fun _ e => (by cases e), fun _ e => by cases e; exact h⟩

/-- C97: `newton_raphson` leaves the displacements, the number of iterations, the error and the flag of
the model; where the model faults, the text has the same fault. -/
theorem C97_newton (L : LitLaws α) (hc : c.Ok) {w : Work α} (hw : w.Ok c) (env : Env α) (l : Loc α) (k : Nat)
    (hk : 1 ≤ k) :
    (∀ z, newtonRaphson env c w = .ok z → ∃ t, oRun env c k .newton_raphson ⟨w, l⟩ = .ok t ∧ t.w = z.work ∧
      t.l.i .nl_flag = some (if z.nl = true then 1 else 0) ∧ t.l.i .its = some z.its ∧ t.l.d .err = some z.err) ∧
    ∀ e, newtonRaphson env c w = .error e → oRun env c k .newton_raphson ⟨w, l⟩ = .error e := by
  obtain ⟨n, rfl⟩ := Nat.exists_eq_add_of_le' hk
  exact ((run_newton (s := ⟨w, l⟩) L hc hw rfl n).mono (S := fun z t => t.w = z.work ∧
    t.l.i .nl_flag = some (if z.nl = true then 1 else 0) ∧ t.l.i .its = some z.its ∧ t.l.d .err = some z.err)
    fun z t _ h => ⟨h.1.w, h.1.nl, h.1.its, h.1.err⟩).split

/-- C97: `calc_ctan_lin` assigns the `nvoi * nvoi` entries of `ctan_lin`, an array of 36 without values
before, and they are those of the model. -/
theorem C97_ctan_lin (L : LitLaws α) (hc : c.Ok) {w : Work α} (hw : w.Ok c) (env : Env α) {l : Loc α}
    (hv : Room (l.v .ctan_lin) 36) (junk : Nat → α) (k : Nat) (hk : 2 ≤ k) :
    (∀ z, calcCtanLin env c junk w = .ok z → ∃ t, oRun env c k .calc_ctan_lin ⟨w, l⟩ = .ok t ∧ t.w = z.work ∧
      Filled (t.l.v .ctan_lin) (c.nvoi * c.nvoi) z.ctan) ∧
    ∀ e, calcCtanLin env c junk w = .error e → oRun env c k .calc_ctan_lin ⟨w, l⟩ = .error e := by
  obtain ⟨n, rfl⟩ := Nat.exists_eq_add_of_le' hk
  have n36 : c.nvoi * c.nvoi ≤ 36 := Nat.mul_le_mul (nvoi_le c) (nvoi_le c)
  have hv' : VecOn (l.v .ctan_lin) 36 (fun _ => False) junk := by
    obtain ⟨a, h1, h2, -⟩ := hv.on
    exact ⟨a, h1, h2, fun _ h => h.elim⟩
  refine ((run_calc_ctan_lin (s := ⟨w, l⟩) L hc hw rfl hv' n).mono (S := fun z t => t.w = z.work ∧
    Filled (t.l.v .ctan_lin) (c.nvoi * c.nvoi) z.ctan) fun z t _ h => ⟨h.1, ?_⟩).split
  obtain ⟨a, h1, h2, h3⟩ := h.2.2
  exact ⟨a, h1, n36.trans h2, fun q hq => h3 q (.inr hq)⟩

/-- C97: `is_linear` returns what the model says and leaves its `inv_max`; nothing else changes. -/
theorem C97_is_linear (L : LitLaws α) (hc : c.Ok) {w : Work α} (env : Env α) {l : Loc α} {eps : Nat → α}
    (hv : Filled (l.v .macro_strain) c.nvoi eps) (k : Nat) (hk : 2 ≤ k) :
    ∃ t r, oRun env c k .is_linear ⟨w, l⟩ = .ok t ∧ isLinear c w.invMax eps = .ok r ∧
      t.l.i .ret = some (if r.1 = true then 1 else 0) ∧ t.w = { w with invMax := r.2 } := by
  obtain ⟨n, rfl⟩ := Nat.exists_eq_add_of_le' hk
  obtain ⟨r, hr⟩ := isLinear_ok hc w.invMax eps
  obtain ⟨t, h1, h2, h3, -⟩ := run_is_linear (env := env) (s := ⟨w, l⟩) L hc rfl hr hv n
  exact ⟨t, r, h1, hr, h2, h3⟩

/-- C97: `get_inv_1` is the trace, with a failing assertion in other dimensions than 2 and 3. -/
theorem C97_inv1 {w : Work α} (env : Env α) {l : Loc α} {f : Nat → α} (hv : Filled (l.v .tensor) c.nvoi f)
    (k : Nat) (hk : 1 ≤ k) :
    (c.dim = 2 → ∃ t, oRun env c k .get_inv_1 ⟨w, l⟩ = .ok t ∧ t.w = w ∧ t.l.d .ret = some (f 0 + f 1)) ∧
    (c.dim = 3 → ∃ t, oRun env c k .get_inv_1 ⟨w, l⟩ = .ok t ∧ t.w = w ∧ t.l.d .ret = some (f 0 + f 1 + f 2)) ∧
    (c.dim ≠ 2 → c.dim ≠ 3 → oRun env c k .get_inv_1 ⟨w, l⟩ = .error .abort) := by
  obtain ⟨n, rfl⟩ := Nat.exists_eq_add_of_le' hk
  have h3 : 3 ≤ c.nvoi := by unfold Cfg.nvoi; split <;> omega
  have h := (run_inv1 (env := env) (c := c) (s := ⟨w, l⟩) (f := f)
    (hv.imp fun a h => ⟨h.1, h3.trans h.2.1, h.2.2⟩) n).split
  refine ⟨fun h2 => ?_, fun h3 => ?_, fun h2 h3 => ?_⟩
  · obtain ⟨t, h1, a, b⟩ := h.1 (f 0 + f 1) (by simp [getInv1, h2])
    exact ⟨t, h1, b, a⟩
  · obtain ⟨t, h1, a, b⟩ := h.1 (f 0 + f 1 + f 2) (by simp [getInv1, h3])
    exact ⟨t, h1, b, a⟩
  · exact h.2 .abort (by simp [getInv1, h2, h3])

/-- C97: `get_inv_2` is the second invariant in three dimensions and has no value otherwise. -/
theorem C97_inv2 {w : Work α} (env : Env α) {l : Loc α} {f : Nat → α} (hv : Filled (l.v .tensor) 6 f)
    (k : Nat) (hk : 1 ≤ k) :
    ∃ t, oRun env c k .get_inv_2 ⟨w, l⟩ = .ok t ∧ t.w = w ∧
      (c.dim = 3 → t.l.d .ret =
        some (f 0 * f 1 + f 0 * f 2 + f 1 * f 2 + f 3 * f 3 + f 4 * f 4 + f 5 * f 5)) ∧
      (c.dim ≠ 3 → t.l.d .ret = none) := by
  obtain ⟨n, rfl⟩ := Nat.exists_eq_add_of_le' hk
  obtain ⟨t, h1, a, b⟩ := run_inv2 (env := env) (c := c) (s := ⟨w, l⟩) (f := f) hv n
  exact ⟨t, h1, b, fun h => by rw [a]; simp [getInv2, h], fun h => by rw [a]; simp [getInv2, h]⟩

/-- C97: the material of an element is the one of the model, in both dimensions, with a failing
assertion for other values of `micro_type` than 0 and 1. -/
theorem C97_elem_type {w : Work α} (env : Env α) {l : Loc α} {ex ey ez : Nat} (hx : l.i .ex = some (ex : Int))
    (hy : l.i .ey = some (ey : Int)) (k : Nat) (hk : 1 ≤ k) :
    (∀ z, getElemType2D c ex ey = .ok z → ∃ t, oRun env c k .get_elem_type2D ⟨w, l⟩ = .ok t ∧
      t.l.i .ret = some z ∧ t.w = w) ∧
    (∀ e, getElemType2D c ex ey = .error e → oRun env c k .get_elem_type2D ⟨w, l⟩ = .error e) ∧
    (l.i .ez = some (ez : Int) →
      (∀ z, getElemType3D c ex ey ez = .ok z → ∃ t, oRun env c k .get_elem_type3D ⟨w, l⟩ = .ok t ∧
        t.l.i .ret = some z ∧ t.w = w) ∧
      ∀ e, getElemType3D c ex ey ez = .error e → oRun env c k .get_elem_type3D ⟨w, l⟩ = .error e) := by
  obtain ⟨n, rfl⟩ := Nat.exists_eq_add_of_le' hk
  have h := (run_elem2D (env := env) (c := c) (s := ⟨w, l⟩) hx hy n).split
  exact ⟨h.1, h.2, fun hz => (run_elem3D (env := env) (c := c) (s := ⟨w, l⟩) hx hy hz n).split⟩

/-- C97: `homogenize` is the homogenize of the model, faults included, whatever the local variables
contained before. -/
theorem C97_homogenize (L : LitLaws α) (env : Env α) {o : Obj α} (ho : o.Ok) (l : Loc α) :
    (fun t => t.obj) <$> tRun env .homogenize ⟨o, l⟩ = homogenize env o :=
  run_homogenize L ho l

/-- C97: `update_vars` is that of the model. -/
theorem C97_update_vars (env : Env α) {o : Obj α} (ho : o.Ok) (l : Loc α) :
    (fun t => t.obj) <$> tRun env .update_vars ⟨o, l⟩ = updateVars o :=
  run_update_vars ho l

/-- C97: `set_macro_strain` reads `nvoi` entries of the caller's array, and the object is that of the
model. -/
theorem C97_set_macro_strain (env : Env α) (o : Obj α) {l : Loc α} {id : Int} {eps : Nat → α}
    (hid : l.i .gp_id = some id) (hv : Filled (l.v .macro_strain) o.cfg.nvoi eps) :
    ∃ t, tRun env .set_macro_strain ⟨o, l⟩ = .ok t ∧ t.obj = setMacroStrain env o id eps :=
  run_set_macro_strain hid hv

theorem getter_on {v : Vec α} {o : Option (Vec α)} {N : Nat} {buf : Nat → α} (hv : o = some v) (hn : N ≤ v.n)
    (hb : ∀ q y, v.val q = some y → buf q = y) : VecOn o N (fun q => (v.val q).isSome = true) buf := by
  refine ⟨v, hv, hn, fun q hq => ?_⟩
  obtain ⟨y, hy⟩ := Option.isSome_iff_exists.1 hq
  rw [hy, hb q y hy]

theorem find_isSome {id : Int} {l : List (Gp α)} (h : ∃ gp ∈ l, gp.id = id) : (findGp id l).isSome = true := by
  induction l with
  | nil => obtain ⟨g, hg, -⟩ := h; cases hg
  | cons a l ih =>
    unfold findGp
    by_cases e : a.id = id
    · rw [if_pos e]; rfl
    · rw [if_neg e]
      obtain ⟨g, hg, hi⟩ := h
      rcases List.mem_cons.1 hg with rfl | hg
      · exact absurd hi e
      · exact ih ⟨g, hg, hi⟩

/-- C97: `get_macro_stress` leaves the object alone; the caller's array `v`, of at least `nvoi` entries,
holds afterwards the stress of the Gauss point in the first `nvoi` entries, if there is one with this
number, and what it held before everywhere else. -/
theorem C97_get_macro_stress (env : Env α) (o : Obj α) {l : Loc α} {id : Int} {v : Vec α} {buf : Nat → α}
    (hid : l.i .gp_id = some id) (hv : l.v .macro_stress = some v) (hn : o.cfg.nvoi ≤ v.n)
    (hb : ∀ q y, v.val q = some y → buf q = y) :
    ∃ t a, tRun env .get_macro_stress ⟨o, l⟩ = .ok t ∧ t.obj = o ∧ t.l.v .macro_stress = some a ∧
      ∀ q, ((v.val q).isSome = true ∨ ((∃ gp ∈ o.gauss, gp.id = id) ∧ q < o.cfg.nvoi)) →
        a.val q = some ((getMacroStress o id buf).2 q) := by
  obtain ⟨t, h1, h2, a, h3, -, h4⟩ := run_get_macro_stress (env := env) hid (getter_on hv hn hb) le_rfl
  refine ⟨t, a, h1, ?_, h3, fun q hq => h4 q (hq.imp (fun h => h) fun h => ⟨?_, h.2⟩)⟩
  · rw [h2]; unfold getMacroStress; split <;> rfl
  · exact find_isSome h.1

/-- C97: `get_macro_ctan`, in the same way. -/
theorem C97_get_macro_ctan (env : Env α) (o : Obj α) {l : Loc α} {id : Int} {v : Vec α} {buf : Nat → α}
    (hid : l.i .gp_id = some id) (hv : l.v .macro_ctan = some v) (hn : o.cfg.nvoi * o.cfg.nvoi ≤ v.n)
    (hb : ∀ q y, v.val q = some y → buf q = y) :
    ∃ t a, tRun env .get_macro_ctan ⟨o, l⟩ = .ok t ∧ t.obj = o ∧ t.l.v .macro_ctan = some a ∧
      ∀ q, ((v.val q).isSome = true ∨ ((∃ gp ∈ o.gauss, gp.id = id) ∧ q < o.cfg.nvoi * o.cfg.nvoi)) →
        a.val q = some ((getMacroCtan o id buf).2 q) := by
  obtain ⟨t, h1, h2, a, h3, -, h4⟩ := run_get_macro_ctan (env := env) hid (getter_on hv hn hb) le_rfl
  refine ⟨t, a, h1, ?_, h3, fun q hq => h4 q (hq.imp (fun h => h) fun h => ⟨?_, h.2⟩)⟩
  · rw [h2]; unfold getMacroCtan; split <;> rfl
  · exact find_isSome h.1

/-- C97: `get_nl_flag` returns 1 exactly for a Gauss point with internal variables and leaves the object
alone. -/
theorem C97_get_nl_flag (env : Env α) (o : Obj α) {l : Loc α} {id : Int} (hid : l.i .gp_id = some id) :
    ∃ t, tRun env .get_nl_flag ⟨o, l⟩ = .ok t ∧ t.obj = o ∧ t.l.i .non_linear = some (getNlFlag o id).2 := by
  obtain ⟨t, h1, h2, h3⟩ := run_get_nl_flag (env := env) (o := o) hid
  refine ⟨t, h1, ?_, h3⟩
  rw [h2]; unfold getNlFlag; split <;> rfl

/-- C97 for the objects of a program: in every state that constructor and calls lead to, executing the
text of `homogenize` and of `update_vars` is the call of the model. -/
theorem C97_reachable (L : LitLaws α) {env : Env α} {a : Args α} (ha : a.Ok) {j : Junk α}
    {calls : List (Call α)} {s : ObjFiles α} (h : Reach env a j calls s) (l : Loc α) :
    (fun t => t.obj) <$> tRun env .homogenize ⟨s.obj, l⟩ = homogenize env s.obj ∧
      (fun t => t.obj) <$> tRun env .update_vars ⟨s.obj, l⟩ = updateVars s.obj :=
  have ho := (reach_built ha h).2
  ⟨C97_homogenize L env ho l, C97_update_vars env ho l⟩

/-! ## Examples -/

/-- The hypotheses are met by an object that has been through a history of calls, in space, and the run
of the text ends. -/
example : ∃ s, Reach exEnv exArgsP exJunk exCalls s ∧
    ∃ t, tRun exEnv .homogenize ⟨s.obj, Loc.none⟩ = .ok t := by
  obtain ⟨s, hs⟩ := reach_exists exEnv_quick exArgsP_ok exJunk exCalls
  have hk := (reach_built exArgsP_ok hs).2
  obtain ⟨r, hr, -⟩ := (homogenizeList_safe (env := exEnv) hk.cfg hk.work hk.gauss).returns exEnv_quick
  have ho : homogenize exEnv s.obj = .ok { s.obj with gauss := r.gauss, work := r.work } := by
    unfold homogenize; rw [hr]; rfl
  have h := (C97_reachable litLaws_real exArgsP_ok hs Loc.none).1
  rw [ho] at h
  cases e : tRun exEnv .homogenize ⟨s.obj, Loc.none⟩ with
  | ok t => exact ⟨s, hs, t, e⟩
  | error f => rw [e] at h; cases h

/-- The same in the arithmetic with a relative error in every operation. -/
example (fp : Fp) {o : Obj (Fl fp)} (ho : o.Ok) (env : Env (Fl fp)) :
    (fun t => t.obj) <$> tRun env .homogenize ⟨o, Loc.none⟩ = homogenize env o :=
  C97_homogenize (litLaws_rounded fp) env ho Loc.none

/-- Without the number of the Gauss point the text faults. -/
example (env : Env ℝ) (o : Obj ℝ) (gp : Gp ℝ) (h : o.gauss = [gp]) :
    tRun env .get_macro_stress ⟨o, Loc.none⟩ = .error .uninit := by
  show ((findList _ _ o.gauss _ >>= _) >>= _) = _
  rw [h]
  rfl

/-- A caller's array of four entries, the last one assigned: after the call on an object with the Gauss
point 7, the first three hold the stress. -/
example (env : Env ℝ) (o : Obj ℝ) (h2 : o.cfg.dim = 2) (gp : Gp ℝ) (h : o.gauss = [gp]) (h7 : gp.id = 7) :
    ∃ t a, tRun env .get_macro_stress ⟨o, { (Loc.none : Loc ℝ) with
        i := upd (Loc.none (α := ℝ)).i .gp_id (some 7)
        v := upd (Loc.none (α := ℝ)).v .macro_stress (some ⟨4, fun q => if q = 3 then some 5 else none⟩) }⟩ = .ok t ∧
      t.l.v .macro_stress = some a ∧ a.val 1 = some (gp.macroStress 1) ∧ a.val 3 = some 5 := by
  have hn : o.cfg.nvoi = 3 := by simp [Cfg.nvoi, h2]
  obtain ⟨t, a, h1, -, h3, h4⟩ := C97_get_macro_stress env o (l := { (Loc.none : Loc ℝ) with
        i := upd (Loc.none (α := ℝ)).i .gp_id (some 7)
        v := upd (Loc.none (α := ℝ)).v .macro_stress (some ⟨4, fun q => if q = 3 then some 5 else none⟩) })
    (id := 7) (buf := fun _ => 5) rfl rfl (by rw [hn]; exact (by omega : 3 ≤ 4)) (by intro q y; simp only; split <;> simp)
  refine ⟨t, a, h1, h3, ?_, ?_⟩
  · rw [h4 1 (.inr ⟨⟨gp, by simp [h], h7⟩, by omega⟩)]
    simp [getMacroStress, h, findGp, h7, setFirst, hn]
  · rw [h4 3 (.inl rfl)]
    simp [getMacroStress, h, findGp, h7, setFirst, hn]

example : ∃ t, oRun exEnv exP.cfg 1 .newton_raphson ⟨exP.work, Loc.none⟩ = .ok t := by
  obtain ⟨z, hz, -⟩ := (newtonRaphson_safe (env := exEnv) exP_ok exP_work).returns exEnv_quick
  obtain ⟨t, h, -⟩ := (C97_newton litLaws_real exP_ok exP_work exEnv Loc.none 1 le_rfl).1 z hz
  exact ⟨t, h⟩

example : ∃ t r, oRun exEnv exP.cfg 2 .is_linear ⟨exP.work, exLoc .macro_strain 6 fun q => some q⟩ = .ok t ∧
    isLinear exP.cfg exP.work.invMax (fun q => (q : ℝ)) = .ok r ∧ t.w.invMax = r.2 := by
  obtain ⟨t, r, h1, h2, -, h3⟩ := C97_is_linear litLaws_real exP_ok exEnv (w := exP.work)
    (l := exLoc .macro_strain 6 fun q => some q) (eps := fun q => (q : ℝ)) ⟨_, rfl, nvoi_le _, fun _ _ => rfl⟩ 2 le_rfl
  exact ⟨t, r, h1, h2, by rw [h3]⟩

example : ∃ t, oRun exEnv exP.cfg 1 .get_inv_1 ⟨exP.work, exLoc .tensor 6 fun q => some (q + 1)⟩ = .ok t ∧
    t.l.d .ret = some 6 := by
  obtain ⟨t, h1, -, h2⟩ := (C97_inv1 (c := exP.cfg) (w := exP.work) exEnv (l := exLoc .tensor 6 fun q => some (q + 1))
    (f := fun q => (q : ℝ) + 1) ⟨_, rfl, nvoi_le _, fun _ _ => rfl⟩ 1 le_rfl).2.1 exP_dim
  exact ⟨t, h1, by rw [h2]; norm_num⟩

example : ∃ t, oRun exEnv exP.cfg 1 .get_inv_2 ⟨exP.work, exLoc .tensor 6 fun q => some (q + 1)⟩ = .ok t ∧
    t.l.d .ret = some 88 := by
  obtain ⟨t, h1, -, h2, -⟩ := C97_inv2 (c := exP.cfg) (w := exP.work) exEnv (l := exLoc .tensor 6 fun q => some (q + 1))
    (f := fun q => (q : ℝ) + 1) ⟨_, rfl, le_rfl, fun _ _ => rfl⟩ 1 le_rfl
  exact ⟨t, h1, by rw [h2 exP_dim]; norm_num⟩

example : ∃ t, oRun exEnv exP.cfg 2 .calc_ctan_lin ⟨exP.work, exLoc .ctan_lin 36 fun _ => none⟩ = .ok t := by
  obtain ⟨z, hz, -⟩ := (calcCtanLin_safe (env := exEnv) exP_ok exP_work fun _ => 0).returns exEnv_quick
  obtain ⟨t, h, -⟩ := (C97_ctan_lin litLaws_real exP_ok exP_work exEnv (l := exLoc .ctan_lin 36 fun _ => none)
    ⟨_, rfl, le_rfl⟩ (fun _ => 0) 2 le_rfl).1 z hz
  exact ⟨t, h⟩

/-- An element in a cell of layers whose lower part is the first. -/
example (c : Cfg ℝ) (w : Work ℝ) (h1 : c.microType = 1) (hy : c.dy = 1) (hw : c.width = 2) :
    ∃ t, oRun exEnv c 1 .get_elem_type3D ⟨w, { (Loc.none : Loc ℝ) with
      i := upd (upd (upd (Loc.none : Loc ℝ).i .ex (some 4)) .ey (some 1)) .ez (some 2) }⟩ = .ok t ∧ t.l.i .ret = some 1 := by
  obtain ⟨t, h, h2, -⟩ := ((C97_elem_type (c := c) (w := w) exEnv (l := { (Loc.none : Loc ℝ) with
      i := upd (upd (upd (Loc.none : Loc ℝ).i .ex (some 4)) .ey (some 1)) .ez (some 2) }) (ex := 4) (ey := 1) (ez := 2)
    rfl rfl 1 le_rfl).2.2 rfl).1 1 (by
      have : (Scalar.lt ((1 : ℝ) + 1 / 2) 2) = true := decide_eq_true (by norm_num)
      simp [getElemType3D, h1, hy, hw] at this ⊢
      exact this)
  exact ⟨t, h, h2⟩

example (l : Loc ℝ) : (fun t => t.obj) <$> tRun exEnv .update_vars ⟨exP, l⟩ = updateVars exP :=
  C97_update_vars exEnv exP_built.2 l

/-- A Gauss point is created by its first strain, read back, and has no history. -/
example : ∃ t, tRun exEnv .set_macro_strain ⟨exP, { exLoc .macro_strain 6 fun q => some q with
      i := upd (Loc.none : Loc ℝ).i .gp_id (some 7) }⟩ = .ok t ∧ t.obj = setMacroStrain exEnv exP 7 fun q => q :=
  C97_set_macro_strain exEnv exP rfl ⟨_, rfl, nvoi_le _, fun _ _ => rfl⟩

example (o : Obj ℝ) (h : o.gauss = []) : ∃ t, tRun exEnv .get_nl_flag ⟨o, { (Loc.none : Loc ℝ) with
      i := upd (Loc.none : Loc ℝ).i .gp_id (some 7) }⟩ = .ok t ∧ t.l.i .non_linear = some 0 := by
  obtain ⟨t, h1, -, h2⟩ := C97_get_nl_flag exEnv o (l := { (Loc.none : Loc ℝ) with
      i := upd (Loc.none : Loc ℝ).i .gp_id (some 7) }) (id := 7) rfl
  exact ⟨t, h1, by rw [h2]; simp [getNlFlag, h, findGp]⟩

example (o : Obj ℝ) (gp : Gp ℝ) (h : o.gauss = [gp]) (h7 : gp.id = 7) (h2 : o.cfg.dim = 2) :
    ∃ t a, tRun exEnv .get_macro_ctan ⟨o, { exLoc .macro_ctan 9 fun _ => none with
      i := upd (Loc.none : Loc ℝ).i .gp_id (some 7) }⟩ = .ok t ∧ t.l.v .macro_ctan = some a ∧
      a.val 8 = some (gp.macroCtan 8) := by
  have hn : o.cfg.nvoi = 3 := by simp [Cfg.nvoi, h2]
  obtain ⟨t, a, h1, -, h3, h4⟩ := C97_get_macro_ctan exEnv o (l := { exLoc .macro_ctan 9 fun _ => none with
      i := upd (Loc.none : Loc ℝ).i .gp_id (some 7) }) (id := 7) (buf := fun _ => 5) rfl rfl
    (by rw [hn]) (by intro q y e; cases e)
  refine ⟨t, a, h1, h3, ?_⟩
  rw [h4 8 (.inr ⟨⟨gp, by simp [h], h7⟩, by rw [hn]; decide⟩)]
  simp [getMacroCtan, h, findGp, h7, setFirst, hn]

end Verif.Props
