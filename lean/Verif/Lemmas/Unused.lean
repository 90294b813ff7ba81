import Verif.Lemmas.Built

/-!
# Members of a material that nothing reads

The model with another list of materials, equal in all members that are read.
-/

namespace Verif

variable {α : Type} [Scalar α] {env : Env α} {c : Cfg α} {ma : Nat → Material α}

/-- The same configuration with other materials. -/
def Cfg.remat (c : Cfg α) (ma : Nat → Material α) : Cfg α := { c with mats := ma }

/-- The same elastic constants; in three dimensions also the same law of plasticity. -/
structure Material.Alike (d : Nat) (m m' : Material α) : Prop where
  E : m'.E = m.E
  nu : m'.nu = m.nu
  k : m'.k = m.k
  mu : m'.mu = m.mu
  lambda : m'.lambda = m.lambda
  plast : d = 3 → m'.plasticity = m.plasticity
  step : d = 3 → m.plasticity = true → plasticStep m' = plasticStep m

/-- The materials of the elements have the same use. -/
def Cfg.Alike (c : Cfg α) (ma : Nat → Material α) : Prop :=
  ∀ e t, c.elemType.read e = .ok t →
    (c.mats (if t = 0 then 0 else 1)).Alike c.dim (ma (if t = 0 then 0 else 1))

omit [Scalar α] in
/-- What follows reads only members that are the same. -/
theorem getMaterial_remat {β : Type} (e : Nat) {f f' : Material α → M β}
    (h : ∀ t : Int, c.elemType.read e = .ok t →
      f' (ma (if t = 0 then 0 else 1)) = f (c.mats (if t = 0 then 0 else 1))) :
    (getMaterial (c.remat ma) e >>= f') = (getMaterial c e >>= f) := by
  unfold getMaterial
  by_cases hm : c.microType = 0 ∨ c.microType = 1
  · have hm' : (c.remat ma).microType = 0 ∨ (c.remat ma).microType = 1 := hm
    rw [if_pos hm, if_pos hm']
    show ((c.elemType.read e >>= fun t => pure (ma (if t = 0 then 0 else 1))) >>= f')
      = ((c.elemType.read e >>= fun t => pure (c.mats (if t = 0 then 0 else 1))) >>= f)
    cases hr : c.elemType.read e with
    | error x => rfl
    | ok t => exact h t hr
  · have hm' : ¬ ((c.remat ma).microType = 0 ∨ (c.remat ma).microType = 1) := hm
    rw [if_neg hm, if_neg hm']
    rfl

variable (h : c.Alike ma)
include h

theorem getStress3D_remat (hd : c.dim = 3) : getStress3D (c.remat ma) = getStress3D c := by
  funext vo vn ex ey ez gp eps
  unfold getStress3D
  refine getMaterial_remat _ fun t ht => ?_
  have k := h _ t ht
  cases hp : (c.mats (if t = 0 then 0 else 1)).plasticity with
  | true =>
    rw [k.plast hd, hp, if_pos rfl, if_pos rfl, k.step hd hp]
    rfl
  | false =>
    rw [k.plast hd, hp]
    have : elasticStress3D (ma (if t = 0 then 0 else 1)) eps
        = elasticStress3D (c.mats (if t = 0 then 0 else 1)) eps := by
      funext i
      unfold elasticStress3D
      rw [k.lambda, k.mu]
    rw [this]
    rfl

theorem ctan2D_remat {e : Nat} {t : Int} (ht : c.elemType.read e = .ok t) :
    ctan2D (ma (if t = 0 then 0 else 1)) = ctan2D (c.mats (if t = 0 then 0 else 1)) := by
  have k := h _ t ht
  funext i j
  unfold ctan2D
  rw [k.E, k.nu]

theorem getStress2D_remat : getStress2D (c.remat ma) = getStress2D c := by
  funext ex ey eps
  unfold getStress2D
  refine getMaterial_remat _ fun t ht => ?_
  rw [ctan2D_remat h ht]

theorem getElemMat2D_remat : getElemMat2D (c.remat ma) = getElemMat2D c := by
  funext ex ey
  unfold getElemMat2D
  refine getMaterial_remat _ fun t ht => ?_
  simp only [ctan2D_remat h ht]
  rfl

theorem getCtanPlastPert_remat (hd : c.dim = 3) : getCtanPlastPert (c.remat ma) = getCtanPlastPert c := by
  funext u vo vn ex ey ez gp
  unfold getCtanPlastPert
  rw [getStress3D_remat h hd]
  rfl

theorem getElemMat3D_remat (hd : c.dim = 3) : getElemMat3D (c.remat ma) = getElemMat3D c := by
  funext u vo vn ex ey ez
  unfold getElemMat3D
  refine getMaterial_remat _ fun t ht => ?_
  have k := h _ t ht
  have e : ctan3D (ma (if t = 0 then 0 else 1)) = ctan3D (c.mats (if t = 0 then 0 else 1)) := by
    funext i j
    unfold ctan3D
    rw [k.lambda, k.mu]
  rw [e, k.plast hd, getCtanPlastPert_remat h hd]
  rfl

theorem assemblyRhs_remat : assemblyRhs (c.remat ma) = assemblyRhs c := by
  funext w
  by_cases hd : c.dim = 3
  · unfold assemblyRhs rhsElem3D rhsElem2D getElemRhs3D getElemRhs2D
    rw [getStress3D_remat h hd, getStress2D_remat h]
    rfl
  · have hd' : (c.remat ma).dim ≠ 3 := hd
    unfold assemblyRhs rhsElem2D getElemRhs2D
    simp only [if_neg hd, if_neg hd']
    rw [getStress2D_remat h]
    rfl

theorem assemblyMat_remat : assemblyMat (c.remat ma) = assemblyMat c := by
  funext w
  by_cases hd : c.dim = 3
  · unfold assemblyMat
    rw [getElemMat3D_remat h hd, getElemMat2D_remat h]
    rfl
  · have hd' : (c.remat ma).dim ≠ 3 := hd
    unfold assemblyMat
    simp only [if_neg hd, if_neg hd']
    rw [getElemMat2D_remat h]
    rfl

theorem calcAveStress_remat : calcAveStress (c.remat ma) = calcAveStress c := by
  funext w
  by_cases hd : c.dim = 3
  · unfold calcAveStress aveStressElem3D aveStressElem2D
    rw [getStress3D_remat h hd, getStress2D_remat h]
    rfl
  · have hd' : (c.remat ma).dim ≠ 3 := hd
    unfold calcAveStress aveStressElem2D
    simp only [if_neg hd, if_neg hd']
    rw [getStress2D_remat h]
    rfl

theorem calcFields_remat : calcFields (c.remat ma) = calcFields c := by
  funext w
  by_cases hd : c.dim = 3
  · unfold calcFields fieldElem3D fieldElem2D
    rw [getStress3D_remat h hd, getStress2D_remat h]
    rfl
  · have hd' : (c.remat ma).dim ≠ 3 := hd
    unfold calcFields fieldElem2D
    simp only [if_neg hd, if_neg hd']
    rw [getStress2D_remat h]
    rfl

theorem nrCorrect_remat : nrCorrect env (c.remat ma) = nrCorrect env c := by
  funext w
  unfold nrCorrect
  rw [assemblyMat_remat h]
  rfl

theorem newtonRaphson_remat : newtonRaphson env (c.remat ma) = newtonRaphson env c := by
  have key : ∀ n, nrLoop env (c.remat ma) n = nrLoop env c n := by
    intro n
    induction n with
    | zero => rfl
    | succ n ih =>
      funext w
      unfold nrLoop
      rw [assemblyRhs_remat h, nrCorrect_remat h, ih]
  funext w
  unfold newtonRaphson
  rw [key]

theorem solveStrain_remat : solveStrain env (c.remat ma) = solveStrain env c := by
  funext w eps
  unfold solveStrain
  rw [newtonRaphson_remat h, calcAveStress_remat h]
  rfl

theorem calcCtanLin_remat : calcCtanLin env (c.remat ma) = calcCtanLin env c := by
  funext ct w
  unfold calcCtanLin
  rw [solveStrain_remat h]
  rfl

theorem homogenizeGp_remat : homogenizeGp env (c.remat ma) = homogenizeGp env c := by
  funext g w
  unfold homogenizeGp solveGp ctanGp
  rw [solveStrain_remat h]
  rfl

theorem homogenizeList_remat : homogenizeList env (c.remat ma) = homogenizeList env c := by
  funext l
  induction l with
  | nil => rfl
  | cons g l ih =>
    funext w
    unfold homogenizeList
    rw [homogenizeGp_remat h, ih]

omit h [Scalar α] in
theorem updateList_remat : updateList (c.remat ma) = updateList c := by
  funext l
  induction l with
  | nil => rfl
  | cons g l ih =>
    unfold updateList
    rw [ih]
    rfl

omit h in
theorem recVarsList_remat : recVarsList (c.remat ma) = recVarsList c := by
  funext l
  induction l with
  | nil => rfl
  | cons g l ih =>
    unfold recVarsList
    rw [ih]
    rfl

omit h

/-- The same state with other materials and another list of materials on file. -/
def ObjFiles.remat (s : ObjFiles α) (ma : Nat → Material α) (t : List (Tok α)) : ObjFiles α :=
  { obj := { s.obj with cfg := s.obj.cfg.remat ma }, files := { s.files with materials := t } }

theorem step_remat {s : ObjFiles α} (h : s.obj.cfg.Alike ma) (t : List (Tok α)) (k : Call α) :
    step env (s.remat ma t) k
      = (step env s k).map (fun r => { state := r.state.remat ma t, ret := r.ret }) := by
  have eg : (s.remat ma t).obj.gauss = s.obj.gauss := rfl
  cases k with
  | setStrain id eps => rfl
  | homogenize =>
    simp only [step, homogenize]
    show ((homogenizeList env (s.obj.cfg.remat ma) s.obj.gauss s.obj.work >>= _) >>= _) = _
    rw [homogenizeList_remat h]
    cases homogenizeList env s.obj.cfg s.obj.gauss s.obj.work <;> rfl
  | getStress id buf =>
    simp only [step, getMacroStress, eg]
    cases findGp id s.obj.gauss <;> rfl
  | getCtan id buf =>
    simp only [step, getMacroCtan, eg]
    cases findGp id s.obj.gauss <;> rfl
  | getNl id =>
    simp only [step, getNlFlag, eg]
    cases findGp id s.obj.gauss <;> rfl
  | updateVars =>
    simp only [step, updateVars]
    show ((updateList (s.obj.cfg.remat ma) s.obj.gauss >>= _) >>= _) = _
    rw [updateList_remat]
    cases updateList s.obj.cfg s.obj.gauss <;> rfl
  | output ts id =>
    simp only [step, output, eg]
    cases findGp id s.obj.gauss with
    | none => rfl
    | some g =>
      have e1 : loadVars (s.remat ma t).obj.cfg = loadVars s.obj.cfg := rfl
      have e2 : setDispl (s.remat ma t).obj.cfg = setDispl s.obj.cfg := rfl
      have e3 : newtonRaphson env (s.remat ma t).obj.cfg = newtonRaphson env s.obj.cfg := newtonRaphson_remat h
      have e4 : calcFields (s.remat ma t).obj.cfg = calcFields s.obj.cfg := calcFields_remat h
      have e5 : writeVtu (s.remat ma t).obj.cfg = writeVtu s.obj.cfg := rfl
      have e6 : (s.remat ma t).obj.work = s.obj.work := rfl
      simp only [e1, e2, e3, e4, e5, e6]
      cases loadVars s.obj.cfg g.intVarsN s.obj.work.varsOld with
      | error e => rfl
      | ok old =>
        simp only [M_bind_ok']
        cases setDispl s.obj.cfg { s.obj.work with varsOld := old } g.macroStrain with
        | error e => rfl
        | ok w =>
          simp only [M_bind_ok']
          cases newtonRaphson env s.obj.cfg w with
          | error e => rfl
          | ok r =>
            simp only [M_bind_ok']
            cases calcFields s.obj.cfg r.work with
            | error e => rfl
            | ok w =>
              simp only [M_bind_ok']
              cases writeVtu s.obj.cfg w <;> rfl
  | writeInfo =>
    simp only [step, writeInfoFiles]
    have e1 : recVarsList (s.remat ma t).obj.cfg = recVarsList s.obj.cfg := recVarsList_remat
    have e2 : recConv (s.remat ma t).obj.cfg = recConv s.obj.cfg := rfl
    have e3 : (s.remat ma t).obj.header = s.obj.header := rfl
    simp only [e1, e2, e3, eg]
    cases recVarsList s.obj.cfg s.obj.gauss with
    | error e => rfl
    | ok v =>
      cases s.obj.header <;> rfl

theorem run_remat {calls : List (Call α)} {s s' : ObjFiles α} (h : s.obj.cfg.Alike ma) (t : List (Tok α))
    (hr : run env calls s = .ok s') : run env calls (s.remat ma t) = .ok (s'.remat ma t) := by
  induction calls generalizing s with
  | nil => simp only [run, pure_ok_iff] at hr; subst hr; rfl
  | cons k l ih =>
    simp only [run, bind_ok_iff] at hr ⊢
    obtain ⟨r, h1, h2⟩ := hr
    refine ⟨_, (by rw [step_remat h, h1]; rfl), ?_⟩
    exact ih (by rw [step_cfg h1]; exact h) h2

/-- The materials the constructor makes. -/
def Args.mats (a : Args α) (j : Junk α) (i : Nat) : Material α :=
  if i < 2 then mkMaterial (fun k => a.params (i * 10 + k)) (a.matTypes i) (j.mats i) else j.mats i

theorem construct_remat {a : Args α} {ty : Nat → Int} {p : Nat → α} {j : Junk α} {o : Obj α}
    (h : o.cfg.Alike (Args.mats { a with matTypes := ty, params := p } j))
    (ho : construct env a j = .ok o) : construct env { a with matTypes := ty, params := p } j
      = .ok { o with cfg := o.cfg.remat (Args.mats { a with matTypes := ty, params := p } j) } := by
  unfold construct at ho ⊢
  show (if ¬ (a.dim = 2 ∨ a.dim = 3) then _ else if ¬ (a.microType = 0 ∨ a.microType = 1) then _ else _) = _
  split at ho
  · cases ho
  rename_i h1
  split at ho
  · cases ho
  rename_i h2
  rw [if_neg h1, if_neg h2]
  rw [bind_ok_iff] at ho ⊢
  obtain ⟨et, h3, ho⟩ := ho
  refine ⟨et, h3, ?_⟩
  by_cases hd : a.dim = 2
  · have hd' : (mkCfg a j et).dim = 2 := hd
    simp only [if_pos hd'] at ho
    show (if a.dim = 2 then _ else _) = _
    rw [if_pos hd]
    simp only [bind_ok_iff, pure_ok_iff] at ho ⊢
    obtain ⟨A, h4, r, h5, rfl⟩ := ho
    have e := calcCtanLin_remat (env := env) (c := mkCfg a j et) h
    exact ⟨A, h4, r, (congrFun (congrFun e _) _).trans h5, rfl⟩
  · have hd' : ¬ (mkCfg a j et).dim = 2 := hd
    simp only [if_neg hd'] at ho
    show (if a.dim = 2 then _ else _) = _
    rw [if_neg hd]
    simp only [bind_ok_iff, pure_ok_iff] at ho ⊢
    obtain ⟨A, h4, r, h5, rfl⟩ := ho
    have e := calcCtanLin_remat (env := env) (c := mkCfg a j et) h
    exact ⟨A, h4, r, (congrFun (congrFun e _) _).trans h5, rfl⟩

theorem reach_remat {a : Args α} {ty : Nat → Int} {p : Nat → α} {j : Junk α} {calls : List (Call α)}
    {s : ObjFiles α} (h : s.obj.cfg.Alike (Args.mats { a with matTypes := ty, params := p } j))
    (hs : Reach env a j calls s) :
    ∃ t, Reach env { a with matTypes := ty, params := p } j calls
      (s.remat (Args.mats { a with matTypes := ty, params := p } j) t) := by
  obtain ⟨f, hf⟩ := hs
  simp only [bind_ok_iff, constructF, pure_ok_iff] at hf
  obtain ⟨s0, ⟨o, h1, rfl⟩, h3⟩ := hf
  rw [run_cfg h3] at h
  refine ⟨(ctorFiles (o.cfg.remat (Args.mats { a with matTypes := ty, params := p } j)) f).materials, f, ?_⟩
  simp only [bind_ok_iff, constructF, pure_ok_iff]
  exact ⟨_, ⟨_, construct_remat h h1, rfl⟩, run_remat (s := { obj := o, files := ctorFiles o.cfg f }) h _ h3⟩

end Verif
