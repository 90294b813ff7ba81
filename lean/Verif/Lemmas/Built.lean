import Verif.Lemmas.SafeApi
import Verif.Lemmas.Cell

/-!
# Objects that the constructor returns

The hypotheses `Cfg.Ok`, `Work.Ok`, `Cfg.Geom`, `Cfg.Elastic` of the finite element theorems hold for
every object obtained from the constructor by any sequence of public calls, when the arguments of the
constructor are sensible.
-/

namespace Verif

variable {α : Type} [Scalar α]

/-- The state `s` is reached by constructing with `a` and making the calls. -/
def Reach (env : Env α) (a : Args α) (j : Junk α) (calls : List (Call α)) (s : ObjFiles α) : Prop :=
  ∃ f, (constructF env a j f >>= run env calls) = .ok s

theorem Sane.post {β : Type} {env : Env α} {P : β → Prop} {m : M β} (h : Sane env P m) {x : β}
    (hx : m = .ok x) : P x := by
  rcases h with ⟨y, hy, hp⟩ | ⟨h, -⟩ | ⟨h, -⟩
  · rw [hx] at hy; cases hy; exact hp
  · rw [hx] at h; cases h
  · rw [hx] at h; cases h

/-- What the object keeps from the constructor. -/
structure BuiltFrom (a : Args α) (j : Junk α) (c : Cfg α) : Prop where
  ok : c.Ok
  eq : ∃ et ct, c = { mkCfg a j et with ctanLin := ct }
  elem : ∀ ex ey ez, ex < c.nx - 1 → ey < c.ny - 1 → (c.dim = 2 → ez = 0) →
    (c.dim = 3 → ez < c.nz - 1) →
    c.elemType.val (gloElem3D c.nx c.ny ex ey ez) = elemTypeOf c ex ey ez

theorem construct_built {env : Env α} {a : Args α} (ha : a.Ok) {j : Junk α} {o : Obj α}
    (h : construct env a j = .ok o) : BuiltFrom a j o.cfg ∧ o.Ok := by
  refine ⟨?_, (construct_sane env ha j).post h⟩
  have hok := ((construct_sane env ha j).post h).cfg
  obtain ⟨et, A, hc, hw, hel, h1⟩ := construct_eq env ha j
  rw [h1] at h
  cases hr : calcCtanLin env (mkCfg a j et) j.ctanLin (startWork (mkCfg a j et) j A) with
  | error e => rw [hr] at h; cases h
  | ok r =>
    rw [hr] at h
    cases h
    refine ⟨hok, ⟨et, r.ctan, rfl⟩, fun ex ey ez hx hy hz2 hz3 => ?_⟩
    exact hel ex ey ez hx hy hz2 hz3

theorem reach_built {env : Env α} {a : Args α} (ha : a.Ok) {j : Junk α} {calls : List (Call α)}
    {s : ObjFiles α} (h : Reach env a j calls s) : BuiltFrom a j s.obj.cfg ∧ s.obj.Ok := by
  obtain ⟨f, h⟩ := h
  have h' := h
  simp only [bind_ok_iff, constructF, pure_ok_iff] at h
  obtain ⟨s0, ⟨o, h1, rfl⟩, h3⟩ := h
  obtain ⟨h4, h5⟩ := construct_built ha h1
  refine ⟨?_, (run_sane (s := { obj := o, files := ctorFiles o.cfg f }) calls h5).post h3⟩
  rw [run_cfg h3]
  exact h4

theorem reach_exists {env : Env α} (hq : env.Quick) {a : Args α} (ha : a.Ok) (j : Junk α)
    (calls : List (Call α)) : ∃ s, Reach env a j calls s := by
  have key : Sane env (fun _ => True) (constructF env a j ⟨[], [], [], [], fun _ _ => none⟩ >>=
      run env calls) := by
    refine Sane.bind (P := fun s : ObjFiles α => s.obj.Ok) ?_ fun s hs =>
      (run_sane calls hs).mono fun _ _ => trivial
    exact (construct_sane env ha j).bind fun o ho => Sane.ok ho
  obtain ⟨s, h, -⟩ := key.returns hq
  exact ⟨s, _, h⟩

/-! ## Exact arithmetic -/

/-- The cell has positive edges. -/
structure Args.Geom (a : Args ℝ) : Prop where
  lx : 0 < a.microParams 0
  ly : 0 < a.microParams 1
  lz : a.dim = 3 → 0 < a.microParams 2

/-- Both materials are elastic (type 0, or type 2: the damage flag is not used) with admissible
constants. -/
structure Args.Elastic (a : Args ℝ) : Prop where
  E : ∀ i, i < 2 → 0 < a.params (i * 10)
  lo : ∀ i, i < 2 → -1 < a.params (i * 10 + 1)
  hi : ∀ i, i < 2 → a.params (i * 10 + 1) < 1 / 2
  ty : a.dim = 3 → ∀ i, i < 2 → a.matTypes i = 0 ∨ a.matTypes i = 2

theorem BuiltFrom.geom {a : Args ℝ} (hg : a.Geom) {j : Junk ℝ} {c : Cfg ℝ}
    (h : BuiltFrom a j c) : c.Geom := by
  have hk := h.ok
  obtain ⟨et, ct, rfl⟩ := h.eq
  have hne : ∀ n : Nat, 2 ≤ n → ((n - 1 : Nat) : ℝ) ≠ 0 := fun n hn => by
    have : (n - 1 : Nat) ≠ 0 := by omega
    exact_mod_cast this
  refine ⟨⟨?_, ?_, fun hd => ?_⟩, hg.lx, hg.ly, fun hd => ?_⟩
  · exact div_mul_cancel₀ _ (hne _ hk.nx)
  · exact div_mul_cancel₀ _ (hne _ hk.ny)
  · exact div_mul_cancel₀ _ (hne _ (hk.nz3 hd))
  · have hd : a.dim = 3 := hd
    have : (mkCfg a j et).lz = a.microParams 2 := by simp [mkCfg, hd]
    show 0 < (mkCfg a j et).lz
    rw [this]
    exact hg.lz hd

theorem mkMaterial_admissible {p : Nat → ℝ} (hE : 0 < p 0) (hl : -1 < p 1) (hh : p 1 < 1 / 2)
    (ty : Int) (j : Material ℝ) : (mkMaterial p ty j).Admissible := by
  refine ⟨hE, hl, hh, ?_, ?_⟩
  · simp [mkMaterial]
  · simp [mkMaterial]

theorem BuiltFrom.elastic {a : Args ℝ} (hg : a.Elastic) {j : Junk ℝ} {c : Cfg ℝ}
    (h : BuiltFrom a j c) : c.Elastic := by
  obtain ⟨et, ct, rfl⟩ := h.eq
  refine ⟨fun i hi => ?_, fun hd i hi => ?_⟩
  · simp only [mkCfg, hi, if_true]
    exact mkMaterial_admissible (hg.E i hi) (hg.lo i hi) (hg.hi i hi) _ _
  · simp only [mkCfg, hi, if_true, mkMaterial]
    rcases hg.ty hd i hi with h | h <;> simp [h]

/-! ## Concrete objects for the examples -/

/-- A three-dimensional cell of `3 × 2 × 5` with `4 × 3 × 3` nodes, layered, of two materials. -/
noncomputable def exArgs3 : Args ℝ where
  dim := 3
  size := fun i => if i = 0 then 4 else 3
  microType := 1
  microParams := fun i => if i = 0 then 3 else if i = 1 then 2 else if i = 2 then 5 else 1
  matTypes := fun _ => 0
  params := fun i => if i = 0 then 10 else if i = 10 then 30 else if i = 1 then 1 / 4
    else if i = 11 then 1 / 5 else 1

/-- A two-dimensional cell of `3 × 2` with `4 × 3` nodes and an inclusion. -/
noncomputable def exArgs2 : Args ℝ := { exArgs3 with dim := 2, microType := 0 }

/-- As `exArgs3` with plastic materials. -/
noncomputable def exArgsP : Args ℝ := { exArgs3 with matTypes := fun _ => 1 }

/-- As `exArgs3` with equal materials. -/
noncomputable def exArgsU : Args ℝ :=
  { exArgs3 with params := fun i => if i % 10 = 0 then 10 else if i % 10 = 1 then 1 / 4 else 1 }

noncomputable def exMat : Material ℝ := ⟨0, 0, 0, 0, 0, 0, 0, true, true⟩

/-- Memory contents. -/
noncomputable def exJunk : Junk ℝ where
  invTol := 1
  mats := fun _ => exMat
  ctanLin := fun _ => 7
  invMax := 7
  b := fun _ => 7
  du := fun _ => 7
  u := fun i => i
  elemStress := fun _ => 7
  elemStrain := fun _ => 7
  elemType := fun _ => 7
  varsOld := fun _ => 0
  varsNew := fun _ => 7
  cols := fun _ => 7
  vals := fun _ => 7

/-- An environment: the memory behind `its` reads 40. -/
noncomputable def exEnv : Env ℝ where
  fuel := 3
  peek := fun _ => some 40
  cgJunk := fun _ _ _ => 7
  solverIts := fun _ => 7
  solverErr := fun _ => 7
  gpJunk := fun _ => ⟨7, fun _ => 7, none, none, fun _ => 7, fun _ => 7, fun _ => 7, fun _ => 7, 7⟩

theorem exEnv_quick : exEnv.Quick := ⟨by decide, fun _ => ⟨40, rfl, le_refl _⟩⟩

theorem exArgs3_ok : exArgs3.Ok := by
  refine ⟨Or.inr rfl, Or.inr rfl, ?_, ?_, fun _ => ?_⟩ <;> simp [exArgs3]

theorem exArgs2_ok : exArgs2.Ok := by
  refine ⟨Or.inl rfl, Or.inl rfl, ?_, ?_, fun h => ?_⟩ <;> simp [exArgs2, exArgs3]

theorem exArgsP_ok : exArgsP.Ok := by
  refine ⟨Or.inr rfl, Or.inr rfl, ?_, ?_, fun _ => ?_⟩ <;> simp [exArgsP, exArgs3]

theorem exArgsU_ok : exArgsU.Ok := by
  refine ⟨Or.inr rfl, Or.inr rfl, ?_, ?_, fun _ => ?_⟩ <;> simp [exArgsU, exArgs3]

theorem exArgs3_geom : exArgs3.Geom := by
  refine ⟨?_, ?_, fun _ => ?_⟩ <;> norm_num [exArgs3]

theorem exArgs2_geom : exArgs2.Geom := by
  refine ⟨?_, ?_, fun _ => ?_⟩ <;> norm_num [exArgs2, exArgs3]

theorem exArgsP_geom : exArgsP.Geom := by
  refine ⟨?_, ?_, fun _ => ?_⟩ <;> norm_num [exArgsP, exArgs3]

theorem exArgs3_elastic : exArgs3.Elastic := by
  refine ⟨?_, ?_, ?_, ?_⟩
  · intro i hi; obtain rfl | rfl : i = 0 ∨ i = 1 := by omega
    all_goals norm_num [exArgs3]
  · intro i hi; obtain rfl | rfl : i = 0 ∨ i = 1 := by omega
    all_goals norm_num [exArgs3]
  · intro i hi; obtain rfl | rfl : i = 0 ∨ i = 1 := by omega
    all_goals norm_num [exArgs3]
  · intro _ i _; exact Or.inl rfl

theorem exArgsU_geom : exArgsU.Geom := by
  refine ⟨?_, ?_, fun _ => ?_⟩ <;> norm_num [exArgsU, exArgs3]

theorem exArgsU_elastic : exArgsU.Elastic := by
  refine ⟨?_, ?_, ?_, ?_⟩
  · intro i hi; obtain rfl | rfl : i = 0 ∨ i = 1 := by omega
    all_goals norm_num [exArgsU, exArgs3]
  · intro i hi; obtain rfl | rfl : i = 0 ∨ i = 1 := by omega
    all_goals norm_num [exArgsU, exArgs3]
  · intro i hi; obtain rfl | rfl : i = 0 ∨ i = 1 := by omega
    all_goals norm_num [exArgsU, exArgs3]
  · intro _ i _; exact Or.inl rfl

theorem exArgs2_elastic : exArgs2.Elastic :=
  ⟨exArgs3_elastic.E, exArgs3_elastic.lo, exArgs3_elastic.hi, fun h => by simp [exArgs2] at h⟩

/-- An object in the middle of its life: two Gauss points, one solved non-linearly. -/
noncomputable def exCalls : List (Call ℝ) :=
  [.setStrain 4 (fun v => v + 1), .setStrain 9 (fun _ => 0), .homogenize, .updateVars]

noncomputable def ex3 : Obj ℝ :=
  (Classical.choose (reach_exists exEnv_quick exArgs3_ok exJunk exCalls)).obj

noncomputable def ex2 : Obj ℝ :=
  (Classical.choose (reach_exists exEnv_quick exArgs2_ok exJunk exCalls)).obj

noncomputable def exP : Obj ℝ :=
  (Classical.choose (reach_exists exEnv_quick exArgsP_ok exJunk exCalls)).obj

noncomputable def exU : Obj ℝ :=
  (Classical.choose (reach_exists exEnv_quick exArgsU_ok exJunk exCalls)).obj

theorem exU_built : BuiltFrom exArgsU exJunk exU.cfg ∧ exU.Ok :=
  reach_built exArgsU_ok (Classical.choose_spec (reach_exists exEnv_quick exArgsU_ok exJunk exCalls))

theorem ex3_built : BuiltFrom exArgs3 exJunk ex3.cfg ∧ ex3.Ok :=
  reach_built exArgs3_ok (Classical.choose_spec (reach_exists exEnv_quick exArgs3_ok exJunk exCalls))

theorem ex2_built : BuiltFrom exArgs2 exJunk ex2.cfg ∧ ex2.Ok :=
  reach_built exArgs2_ok (Classical.choose_spec (reach_exists exEnv_quick exArgs2_ok exJunk exCalls))

theorem exP_built : BuiltFrom exArgsP exJunk exP.cfg ∧ exP.Ok :=
  reach_built exArgsP_ok (Classical.choose_spec (reach_exists exEnv_quick exArgsP_ok exJunk exCalls))

theorem ex3_ok : ex3.cfg.Ok := ex3_built.1.ok
theorem ex2_ok : ex2.cfg.Ok := ex2_built.1.ok
theorem exP_ok : exP.cfg.Ok := exP_built.1.ok
theorem ex3_work : ex3.work.Ok ex3.cfg := ex3_built.2.work
theorem ex2_work : ex2.work.Ok ex2.cfg := ex2_built.2.work
theorem exP_work : exP.work.Ok exP.cfg := exP_built.2.work
theorem ex3_geom : ex3.cfg.Geom := ex3_built.1.geom exArgs3_geom
theorem ex2_geom : ex2.cfg.Geom := ex2_built.1.geom exArgs2_geom
theorem exP_geom : exP.cfg.Geom := exP_built.1.geom exArgsP_geom
theorem ex3_elastic : ex3.cfg.Elastic := ex3_built.1.elastic exArgs3_elastic
theorem ex2_elastic : ex2.cfg.Elastic := ex2_built.1.elastic exArgs2_elastic

theorem ex3_dim : ex3.cfg.dim = 3 := by obtain ⟨et, ct, h⟩ := ex3_built.1.eq; rw [h]; rfl
theorem ex2_dim : ex2.cfg.dim = 2 := by obtain ⟨et, ct, h⟩ := ex2_built.1.eq; rw [h]; rfl
theorem exP_dim : exP.cfg.dim = 3 := by obtain ⟨et, ct, h⟩ := exP_built.1.eq; rw [h]; rfl
theorem ex3_lz : ex3.cfg.lz = 5 := by
  obtain ⟨et, ct, h⟩ := ex3_built.1.eq; rw [h]; simp [mkCfg, exArgs3]
theorem ex3_size : ex3.cfg.nx = 4 ∧ ex3.cfg.ny = 3 ∧ ex3.cfg.nz = 3 := by
  obtain ⟨et, ct, h⟩ := ex3_built.1.eq; rw [h]; simp [mkCfg, exArgs3]
theorem ex2_size : ex2.cfg.nx = 4 ∧ ex2.cfg.ny = 3 ∧ ex2.cfg.nz = 1 := by
  obtain ⟨et, ct, h⟩ := ex2_built.1.eq; rw [h]; simp [mkCfg, exArgs2, exArgs3]

theorem exU_ok : exU.cfg.Ok := exU_built.1.ok
theorem exU_work : exU.work.Ok exU.cfg := exU_built.2.work
theorem exU_geom : exU.cfg.Geom := exU_built.1.geom exArgsU_geom
theorem exU_elastic : exU.cfg.Elastic := exU_built.1.elastic exArgsU_elastic
theorem exU_dim : exU.cfg.dim = 3 := by obtain ⟨et, ct, h⟩ := exU_built.1.eq; rw [h]; rfl
theorem exU_lz : exU.cfg.lz = 5 := by
  obtain ⟨et, ct, h⟩ := exU_built.1.eq; rw [h]; simp [mkCfg, exArgsU, exArgs3]
theorem exU_mats : exU.cfg.mats 1 = exU.cfg.mats 0 := by
  obtain ⟨et, ct, h⟩ := exU_built.1.eq; rw [h]; simp [mkCfg, exArgsU, exArgs3, mkMaterial]

end Verif
