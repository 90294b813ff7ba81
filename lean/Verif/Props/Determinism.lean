import Verif.Lemmas.SameStep
import Verif.Lemmas.Built

/-!
# C61: which unassigned memory the results can depend on
-/

namespace Verif.Props

section
variable {α : Type} [Scalar α]

/-- What a caller sees of a sequence of calls: everything returned, and the files at the end. -/
def seenFrom (env : Env α) : List (Call α) → ObjFiles α → M (List (Ret α) × Files α)
  | [], s => pure ([], s.files)
  | k :: l, s => do
    let r ← step env s k
    let q ← seenFrom env l r.state
    pure (r.ret :: q.1, q.2)

/-- What a caller sees of a program that constructs an object and makes the given calls. -/
def seen (env : Env α) (a : Args α) (j : Junk α) (f : Files α) (calls : List (Call α)) :
    M (List (Ret α) × Files α) := do
  let s ← constructF env a j f
  seenFrom env calls s

/-- The caller sees the state machine of `run`. -/
theorem seenFrom_run (env : Env α) (calls : List (Call α)) (s : ObjFiles α) :
    (run env calls s).map (·.files) = (seenFrom env calls s).map (·.2) := by
  induction calls generalizing s with
  | nil => rfl
  | cons k l ih =>
    unfold run seenFrom
    rcases step env s k with e | r
    · rfl
    · have := ih r.state
      rw [M_bind_ok', M_bind_ok', this]
      rcases seenFrom env l r.state with e | q <;> rfl

/-- C61.  Two programs that make the same calls with the same arguments see the same results, and
write the same files, even if fresh memory has other contents, as long as these five agree: the member
read for the tolerance, the displacement block, the two blocks of internal variables, and the new
Gauss-point records.  `env`, `env'` may differ in the work blocks of the solvers and in the
unassigned members of `ell_solver`; `j`, `j'` may differ in the matrix (values and columns), the
residual, the increment, the averages per element, the element types, the flags of the materials,
`ctan_lin` and `inv_max`.  Runs that fault do so alike. -/
theorem C61_independent {env env' : Env α} (h1 : env.fuel = env'.fuel) (h2 : env.peek = env'.peek)
    (h3 : env.gpJunk = env'.gpJunk) {a : Args α} (ha : a.Ok)
    (hm : ∀ i, i < 2 → a.matTypes i = 0 ∨ a.matTypes i = 1 ∨ a.matTypes i = 2) {j j' : Junk α}
    (k1 : j.invTol = j'.invTol) (k2 : j.u = j'.u) (k3 : j.varsOld = j'.varsOld)
    (k4 : j.varsNew = j'.varsNew) (f : Files α) (calls : List (Call α)) :
    seen env a j f calls = seen env' a j' f calls := by
  have he : EnvSame env env' := ⟨h1, h2, h3⟩
  have key : ∀ (l : List (Call α)) (s s' : ObjFiles α), StateSame s s' →
      Rel (fun x y => x = y) (seenFrom env l s) (seenFrom env' l s') := by
    intro l
    induction l with
    | nil =>
      intro s s' h
      refine Rel.pure ?_
      rw [h.files]
    | cons k l ih =>
      intro s s' h
      unfold seenFrom
      refine Rel.bind (step_same he h k) fun r r' hr => ?_
      refine Rel.bind (ih _ _ hr.1) fun q q' hq => Rel.pure ?_
      rw [hr.2, hq]
  refine Rel.eq ?_
  unfold seen constructF
  rw [bind_assoc, bind_assoc]
  refine Rel.bind (construct_same he ha hm ⟨k1, k2, k3, k4⟩) fun o o' ho => ?_
  rw [pure_bind, pure_bind]
  refine key _ _ _ ⟨ho, ?_⟩
  show ctorFiles o.cfg f = ctorFiles o'.cfg f
  unfold ctorFiles emitP
  simp [List.range_succ, ho.cfg.mats 0 (by omega), ho.cfg.mats 1 (by omega)]

/-- Consequence: with the five blocks cleared before use, what the caller sees is a function of the
arguments. -/
theorem C61_cleared {env env' : Env α} (h1 : env.fuel = env'.fuel) (h2 : env.peek = env'.peek)
    {a : Args α} (ha : a.Ok)
    (hm : ∀ i, i < 2 → a.matTypes i = 0 ∨ a.matTypes i = 1 ∨ a.matTypes i = 2) (j j' : Junk α)
    (g : Gp α) (tol : α) (f : Files α) (calls : List (Call α)) :
    seen { env with gpJunk := fun _ => g } a
        { j with invTol := tol, u := fun _ => 0, varsOld := fun _ => 0, varsNew := fun _ => 0 } f calls
      = seen { env' with gpJunk := fun _ => g } a
        { j' with invTol := tol, u := fun _ => 0, varsOld := fun _ => 0, varsNew := fun _ => 0 } f
        calls :=
  C61_independent (env := { env with gpJunk := fun _ => g })
    (env' := { env' with gpJunk := fun _ => g }) (j := { j with
      invTol := tol, u := fun _ => 0, varsOld := fun _ => 0, varsNew := fun _ => 0 })
    (j' := { j' with invTol := tol, u := fun _ => 0, varsOld := fun _ => 0, varsNew := fun _ => 0 })
    h1 h2 rfl ha hm rfl rfl rfl rfl f calls

/-- Programs return if the Newton loop does. -/
theorem seen_returns {env : Env α} (hq : env.Quick) {a : Args α} (ha : a.Ok) (j : Junk α)
    (f : Files α) (calls : List (Call α)) : ∃ x, seen env a j f calls = .ok x := by
  have key : ∀ (l : List (Call α)) (s : ObjFiles α), s.obj.Ok →
      Sane env (fun _ => True) (seenFrom env l s) := by
    intro l
    induction l with
    | nil => exact fun s _ => Sane.ok trivial
    | cons k l ih =>
      intro s hs
      unfold seenFrom
      refine (step_sane hs k).bind fun r hr => ?_
      exact (ih _ hr).bind fun q _ => Sane.ok trivial
  have h : Sane env (fun _ => True) (seen env a j f calls) := by
    unfold seen constructF
    rw [bind_assoc]
    exact (construct_sane env ha j).bind fun o ho => key _ _ ho
  obtain ⟨x, hx, -⟩ := h.returns hq
  exact ⟨x, hx⟩

/-- Stress of a point that was never evaluated. -/
theorem seen_unset {env : Env α} (hq : env.Quick) {a : Args α} (ha : a.Ok) (j : Junk α)
    (f : Files α) (s : Nat → α) (hs : ∀ t, (env.gpJunk t).macroStress = s) (e : Nat → α) :
    ∃ b g, seen env a j f [.setStrain 0 e, .getStress 0 fun _ => 0] = .ok ([.unit, .buf b], g) ∧
      b 0 = s 0 := by
  obtain ⟨o, ho, hok⟩ := (construct_sane env ha j).returns hq
  have hg : o.gauss = [] := by
    obtain ⟨et, A, -, -, -, h⟩ := construct_eq env ha j
    rw [h] at ho
    cases hr : calcCtanLin env (mkCfg a j et) j.ctanLin (startWork (mkCfg a j et) j A) with
    | error e => rw [hr] at ho; cases ho
    | ok r => rw [hr] at ho; cases ho; rfl
  have hn : 0 < o.cfg.nvoi := by unfold Cfg.nvoi; split <;> omega
  refine ⟨setFirst o.cfg.nvoi (env.gpJunk o.work.tick).macroStress fun _ => 0, ctorFiles o.cfg f, ?_,
    ?_⟩
  · unfold seen constructF
    rw [ho]
    simp only [M_bind_ok', pure_bind, seenFrom, step, setMacroStrain, getMacroStress, hg,
      setStrainList, findGp, if_pos]
    rfl
  · unfold setFirst
    rw [if_pos hn, hs]

end

/-- A memory that differs from `exJunk` in everything the theorem allows. -/
noncomputable def exJunkOther : Junk ℝ where
  invTol := 1
  mats := fun _ => { exMat with plasticity := true, damage := true, E := 5 }
  ctanLin := fun i => i
  invMax := 3
  b := fun i => i + 1
  du := fun i => i + 2
  u := fun i => i
  elemStress := fun i => i
  elemStrain := fun i => i
  elemType := fun i => i
  varsOld := fun _ => 0
  varsNew := fun _ => 7
  cols := fun _ => -5
  vals := fun _ => 9

/-- The calls of the example. -/
noncomputable def exCallsAll : List (Call ℝ) :=
  exCalls ++ [.getCtan 4 fun _ => 0, .getNl 4, .output 1 4, .writeInfo]

noncomputable def exEnvOther : Env ℝ :=
  { exEnv with cgJunk := fun t b k => ((t + b + k : Nat) : ℝ), solverErr := fun _ => 0 }

/-- A plastic cell, two Gauss points, three kinds of results and a file: the hypotheses hold and both
programs return. -/
example (f : Files ℝ) : ∃ x, seen exEnv exArgsP exJunk f exCallsAll = .ok x ∧
    seen exEnvOther exArgsP exJunkOther f exCallsAll = .ok x := by
  obtain ⟨x, hx⟩ := seen_returns exEnv_quick exArgsP_ok exJunk f exCallsAll
  refine ⟨x, hx, ?_⟩
  rw [← hx]
  refine (C61_independent (env := exEnv) (env' := exEnvOther) (a := exArgsP) (j := exJunk)
    (j' := exJunkOther) rfl rfl rfl exArgsP_ok ?_ rfl rfl rfl rfl f exCallsAll).symm
  intro i hi
  exact Or.inr (Or.inl rfl)

/-- Two environments and two memories that differ. -/
example (f : Files ℝ) (g : Gp ℝ) :
    seen { exEnv with gpJunk := fun _ => g } exArgsP
        { exJunk with invTol := 1, u := fun _ => 0, varsOld := fun _ => 0, varsNew := fun _ => 0 } f exCallsAll
      = seen { exEnvOther with gpJunk := fun _ => g } exArgsP
        { exJunkOther with invTol := 1, u := fun _ => 0, varsOld := fun _ => 0, varsNew := fun _ => 0 } f
        exCallsAll :=
  C61_cleared (env := exEnv) (env' := exEnvOther) rfl rfl exArgsP_ok (fun _ _ => Or.inr (Or.inl rfl)) exJunk
    exJunkOther g 1 f exCallsAll

noncomputable def exEnvGp : Env ℝ :=
  { exEnv with gpJunk := fun _ => { exEnv.gpJunk 0 with macroStress := fun _ => 8 } }

/-- The contents of a new Gauss-point record matter: stresses asked for before `homogenize` are
whatever the record held. -/
theorem C61_record_matters : ∃ (env env' : Env ℝ) (a : Args ℝ) (j : Junk ℝ) (f : Files ℝ)
    (calls : List (Call ℝ)), a.Ok ∧ env' = { env with gpJunk := env'.gpJunk } ∧
      seen env a j f calls ≠ seen env' a j f calls := by
  obtain ⟨b, g, h1, h2⟩ := seen_unset exEnv_quick exArgs3_ok exJunk ⟨[], [], [], [], fun _ _ => none⟩
    (fun _ => 7) (fun _ => rfl) (fun _ => 1)
  obtain ⟨b', g', h1', h2'⟩ := seen_unset
    (env := exEnvGp) ⟨exEnv_quick.1, exEnv_quick.2⟩ exArgs3_ok exJunk ⟨[], [], [], [], fun _ _ => none⟩
    (fun _ => 8) (fun _ => rfl) (fun _ => 1)
  refine ⟨exEnv, exEnvGp, exArgs3, exJunk, ⟨[], [], [], [], fun _ _ => none⟩,
    [.setStrain 0 fun _ => 1, .getStress 0 fun _ => 0], exArgs3_ok, rfl, ?_⟩
  · rw [h1, h1']
    intro h
    injection h with h
    injection h with h _
    injection h with _ h
    injection h with h _
    injection h with h
    rw [h, h2'] at h2
    norm_num at h2

end Verif.Props
