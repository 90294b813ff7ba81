import Verif.Model.Output
import Verif.Lemmas.Loop

/-!
# The damage flag is not used

Every function of the model gives the same result when the damage flags of the materials are
cleared.
-/

namespace Verif

variable {α : Type} [Scalar α]

/-- The material with its damage flag cleared. -/
def Material.undamaged (m : Material α) : Material α := { m with damage := false }

/-- The configuration with the damage flags cleared. -/
def Cfg.undamaged (c : Cfg α) : Cfg α := { c with mats := fun i => (c.mats i).undamaged }

/-- The object with the damage flags cleared. -/
def Obj.undamaged (o : Obj α) : Obj α := { o with cfg := o.cfg.undamaged }

/-- The state with the damage flags cleared. -/
def ObjFiles.undamaged (s : ObjFiles α) : ObjFiles α := { s with obj := s.obj.undamaged }

variable (c : Cfg α)

theorem getMaterial_undamaged (e : Nat) :
    getMaterial c.undamaged e = (getMaterial c e).map Material.undamaged := by
  unfold getMaterial
  show (if c.microType = 0 ∨ c.microType = 1 then _ else _) = _
  split
  · show (c.elemType.read e >>= fun t => pure (c.undamaged.mats (if t = 0 then 0 else 1))) = _
    cases c.elemType.read e <;> rfl
  · rfl

theorem map_bind_M {β γ : Type} (x : M β) (g : β → β) (f : β → M γ) :
    (x.map g >>= f) = x >>= fun y => f (g y) := by cases x <;> rfl

theorem getStress3D_undamaged : getStress3D c.undamaged = getStress3D c := by
  funext o n ex ey ez gp eps
  unfold getStress3D
  simp only [getMaterial_undamaged, map_bind_M]
  rfl

theorem getStress2D_undamaged : getStress2D c.undamaged = getStress2D c := by
  funext ex ey eps
  unfold getStress2D
  simp only [getMaterial_undamaged, map_bind_M]
  rfl

theorem getElemRhs2D_undamaged : getElemRhs2D c.undamaged = getElemRhs2D c := by
  funext u ex ey
  unfold getElemRhs2D
  rw [getStress2D_undamaged]
  rfl

theorem getElemRhs3D_undamaged : getElemRhs3D c.undamaged = getElemRhs3D c := by
  funext u o n ex ey ez nl
  unfold getElemRhs3D
  rw [getStress3D_undamaged]
  rfl

theorem assemblyRhs_undamaged : assemblyRhs c.undamaged = assemblyRhs c := by
  funext w
  unfold assemblyRhs rhsElem2D rhsElem3D
  rw [getElemRhs2D_undamaged, getElemRhs3D_undamaged]
  rfl

theorem getElemMat2D_undamaged : getElemMat2D c.undamaged = getElemMat2D c := by
  funext ex ey
  unfold getElemMat2D
  simp only [getMaterial_undamaged, map_bind_M]
  rfl

theorem getCtanPlastPert_undamaged : getCtanPlastPert c.undamaged = getCtanPlastPert c := by
  funext u o n ex ey ez gp
  unfold getCtanPlastPert
  rw [getStress3D_undamaged]
  rfl

theorem getElemMat3D_undamaged : getElemMat3D c.undamaged = getElemMat3D c := by
  funext u o n ex ey ez
  unfold getElemMat3D
  simp only [getMaterial_undamaged, map_bind_M, getCtanPlastPert_undamaged]
  rfl

theorem assemblyMat_undamaged : assemblyMat c.undamaged = assemblyMat c := by
  funext w
  unfold assemblyMat
  rw [getElemMat2D_undamaged, getElemMat3D_undamaged]
  rfl

theorem calcAveStress_undamaged : calcAveStress c.undamaged = calcAveStress c := by
  funext w
  unfold calcAveStress aveStressElem2D aveStressElem3D
  rw [getStress2D_undamaged, getStress3D_undamaged]
  rfl

theorem calcFields_undamaged : calcFields c.undamaged = calcFields c := by
  funext w
  unfold calcFields fieldElem2D fieldElem3D
  rw [getStress2D_undamaged, getStress3D_undamaged]
  rfl

theorem newtonRaphson_undamaged (env : Env α) :
    newtonRaphson env c.undamaged = newtonRaphson env c := by
  funext w
  unfold newtonRaphson
  have h1 : nrCorrect env c.undamaged = nrCorrect env c := by
    funext w
    unfold nrCorrect
    rw [assemblyMat_undamaged]
    rfl
  generalize env.fuel = n
  induction n generalizing w with
  | zero => rfl
  | succ n ih =>
    unfold nrLoop
    rw [assemblyRhs_undamaged, h1]
    simp only [ih]

theorem solveStrain_undamaged (env : Env α) :
    solveStrain env c.undamaged = solveStrain env c := by
  funext w eps
  unfold solveStrain
  rw [newtonRaphson_undamaged, calcAveStress_undamaged]
  rfl

theorem calcCtanLin_undamaged (env : Env α) :
    calcCtanLin env c.undamaged = calcCtanLin env c := by
  funext t w
  unfold calcCtanLin
  rw [solveStrain_undamaged]
  rfl

theorem homogenizeGp_undamaged (env : Env α) :
    homogenizeGp env c.undamaged = homogenizeGp env c := by
  funext gp w
  unfold homogenizeGp solveGp ctanGp
  rw [solveStrain_undamaged]
  rfl

theorem homogenizeList_undamaged (env : Env α) :
    homogenizeList env c.undamaged = homogenizeList env c := by
  funext l
  induction l with
  | nil => rfl
  | cons g l ih =>
    funext w
    unfold homogenizeList
    rw [homogenizeGp_undamaged, ih]

theorem updateList_undamaged : updateList c.undamaged = updateList c := by
  funext l
  induction l with
  | nil => rfl
  | cons g l ih =>
    unfold updateList
    rw [ih]; rfl

theorem recVarsList_undamaged : recVarsList c.undamaged = recVarsList c := by
  funext l
  induction l with
  | nil => rfl
  | cons g l ih =>
    unfold recVarsList
    rw [ih]; rfl

/-- What a call does to the state with cleared flags. -/
def Stepped.undamaged (r : Stepped α) : Stepped α := { r with state := r.state.undamaged }

theorem step_undamaged (env : Env α) (s : ObjFiles α) (k : Call α) :
    step env s.undamaged k = (step env s k).map Stepped.undamaged := by
  cases k with
  | setStrain id eps => rfl
  | homogenize =>
    show (homogenize env s.obj.undamaged >>= _) = _
    unfold step homogenize
    show ((homogenizeList env s.obj.cfg.undamaged s.obj.gauss s.obj.work >>= _) >>= _) = _
    rw [homogenizeList_undamaged]
    cases homogenizeList env s.obj.cfg s.obj.gauss s.obj.work <;> rfl
  | getStress id buf =>
    unfold step getMacroStress
    show (pure _ : M _) = _
    have : findGp id s.undamaged.obj.gauss = findGp id s.obj.gauss := rfl
    simp only [this]
    cases findGp id s.obj.gauss <;> rfl
  | getCtan id buf =>
    unfold step getMacroCtan
    have : findGp id s.undamaged.obj.gauss = findGp id s.obj.gauss := rfl
    simp only [this]
    cases findGp id s.obj.gauss <;> rfl
  | getNl id =>
    unfold step getNlFlag
    have : findGp id s.undamaged.obj.gauss = findGp id s.obj.gauss := rfl
    simp only [this]
    cases findGp id s.obj.gauss <;> rfl
  | updateVars =>
    unfold step updateVars
    show ((updateList s.obj.cfg.undamaged s.obj.gauss >>= _) >>= _) = _
    rw [updateList_undamaged]
    cases updateList s.obj.cfg s.obj.gauss <;> rfl
  | output t id =>
    unfold step output
    have : findGp id s.undamaged.obj.gauss = findGp id s.obj.gauss := rfl
    simp only [this]
    cases findGp id s.obj.gauss with
    | none => rfl
    | some gp =>
      simp only
      have e : s.undamaged.obj.cfg = s.obj.cfg.undamaged := rfl
      simp only [e, newtonRaphson_undamaged, calcFields_undamaged]
      show ((loadVars s.obj.cfg gp.intVarsN s.obj.work.varsOld >>= fun old =>
        setDispl s.obj.cfg { s.obj.work with varsOld := old } gp.macroStrain >>= fun w =>
        newtonRaphson env s.obj.cfg w >>= fun r => calcFields s.obj.cfg r.work >>= fun w =>
        writeVtu s.obj.cfg w >>= fun t' => pure _) >>= _) = _
      cases loadVars s.obj.cfg gp.intVarsN s.obj.work.varsOld with
      | error e => rfl
      | ok old =>
        simp only [M_bind_ok']
        cases setDispl s.obj.cfg { s.obj.work with varsOld := old } gp.macroStrain with
        | error e => rfl
        | ok w =>
          simp only [M_bind_ok']
          cases newtonRaphson env s.obj.cfg w with
          | error e => rfl
          | ok r =>
            simp only [M_bind_ok']
            cases calcFields s.obj.cfg r.work with
            | error e => rfl
            | ok w =>
              simp only [M_bind_ok']
              cases writeVtu s.obj.cfg w with
              | error e => rfl
              | ok t => rfl
  | writeInfo =>
    unfold step writeInfoFiles
    have e : s.undamaged.obj.cfg = s.obj.cfg.undamaged := rfl
    simp only [e, recVarsList_undamaged]
    show ((recVarsList s.obj.cfg s.obj.gauss >>= _) >>= _) = _
    cases recVarsList s.obj.cfg s.obj.gauss <;> rfl

theorem run_undamaged (env : Env α) (l : List (Call α)) (s : ObjFiles α) :
    run env l s.undamaged = (run env l s).map ObjFiles.undamaged := by
  induction l generalizing s with
  | nil => rfl
  | cons k l ih =>
    unfold run
    rw [step_undamaged]
    cases h : step env s k with
    | error e => rfl
    | ok r => exact ih r.state

end Verif
