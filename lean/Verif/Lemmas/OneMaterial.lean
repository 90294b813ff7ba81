import Verif.Lemmas.Built
import Verif.Lemmas.Vtu

/-!
# Cells whose two materials are equal

The model with another microstructure: other kind, other width, other types of the elements.
-/

namespace Verif

variable {α : Type} [Scalar α] {env : Env α} {c : Cfg α} {mt : Int} {wd : α} {et : Buf Int}

/-- The same configuration with another microstructure. -/
def Cfg.remicro (c : Cfg α) (mt : Int) (wd : α) (et : Buf Int) : Cfg α :=
  { c with microType := mt, width := wd, elemType := et }

/-- The microstructures are two of the library, and the materials are equal. -/
structure Cfg.Plain (c : Cfg α) (mt : Int) (et : Buf Int) : Prop where
  old : c.microType = 0 ∨ c.microType = 1
  new : mt = 0 ∨ mt = 1
  oldSize : c.elemType.size = c.nelem
  newSize : et.size = c.nelem
  mats : c.mats 1 = c.mats 0

variable (h : c.Plain mt et)
include h

omit [Scalar α] in
theorem getMaterial_remicro : getMaterial (c.remicro mt wd et) = getMaterial c := by
  funext e
  have hn : (c.remicro mt wd et).microType = 0 ∨ (c.remicro mt wd et).microType = 1 := h.new
  have key : ∀ t : Int, c.mats (if t = 0 then 0 else 1) = c.mats 0 := by
    intro t; split
    · rfl
    · exact h.mats
  have key' : ∀ t : Int, (c.remicro mt wd et).mats (if t = 0 then 0 else 1) = c.mats 0 := key
  unfold getMaterial
  rw [if_pos h.old, if_pos hn]
  simp only [key, key']
  show (et.read e >>= fun _ => _) = _
  unfold Buf.read
  rw [h.oldSize, h.newSize]
  by_cases he : e < c.nelem
  · rw [if_pos he, if_pos he]; rfl
  · rw [if_neg he, if_neg he]

theorem getStress3D_remicro : getStress3D (c.remicro mt wd et) = getStress3D c := by
  unfold getStress3D
  rw [getMaterial_remicro h]
  rfl

theorem getStress2D_remicro : getStress2D (c.remicro mt wd et) = getStress2D c := by
  unfold getStress2D
  rw [getMaterial_remicro h]
  rfl

theorem getElemMat2D_remicro : getElemMat2D (c.remicro mt wd et) = getElemMat2D c := by
  unfold getElemMat2D
  rw [getMaterial_remicro h]
  rfl

theorem getCtanPlastPert_remicro : getCtanPlastPert (c.remicro mt wd et) = getCtanPlastPert c := by
  unfold getCtanPlastPert
  rw [getStress3D_remicro h]
  rfl

theorem getElemMat3D_remicro : getElemMat3D (c.remicro mt wd et) = getElemMat3D c := by
  unfold getElemMat3D
  rw [getMaterial_remicro h, getCtanPlastPert_remicro h]
  rfl

theorem assemblyRhs_remicro : assemblyRhs (c.remicro mt wd et) = assemblyRhs c := by
  unfold assemblyRhs rhsElem3D rhsElem2D getElemRhs3D getElemRhs2D
  rw [getStress3D_remicro h, getStress2D_remicro h]
  rfl

theorem assemblyMat_remicro : assemblyMat (c.remicro mt wd et) = assemblyMat c := by
  unfold assemblyMat
  rw [getElemMat3D_remicro h, getElemMat2D_remicro h]
  rfl

theorem calcAveStress_remicro : calcAveStress (c.remicro mt wd et) = calcAveStress c := by
  unfold calcAveStress aveStressElem3D aveStressElem2D
  rw [getStress3D_remicro h, getStress2D_remicro h]
  rfl

theorem calcFields_remicro : calcFields (c.remicro mt wd et) = calcFields c := by
  unfold calcFields fieldElem3D fieldElem2D
  rw [getStress3D_remicro h, getStress2D_remicro h]
  rfl

theorem nrCorrect_remicro : nrCorrect env (c.remicro mt wd et) = nrCorrect env c := by
  funext w
  unfold nrCorrect
  rw [assemblyMat_remicro h]
  rfl

theorem newtonRaphson_remicro : newtonRaphson env (c.remicro mt wd et) = newtonRaphson env c := by
  have key : ∀ n, nrLoop env (c.remicro mt wd et) n = nrLoop env c n := by
    intro n
    induction n with
    | zero => rfl
    | succ n ih =>
      funext w
      unfold nrLoop
      rw [assemblyRhs_remicro h, nrCorrect_remicro h, ih]
  funext w
  unfold newtonRaphson
  rw [key]

theorem solveStrain_remicro : solveStrain env (c.remicro mt wd et) = solveStrain env c := by
  funext w eps
  unfold solveStrain
  rw [newtonRaphson_remicro h, calcAveStress_remicro h]
  rfl

theorem calcCtanLin_remicro : calcCtanLin env (c.remicro mt wd et) = calcCtanLin env c := by
  funext ct w
  unfold calcCtanLin
  rw [solveStrain_remicro h]
  rfl

theorem homogenizeGp_remicro : homogenizeGp env (c.remicro mt wd et) = homogenizeGp env c := by
  funext g w
  unfold homogenizeGp solveGp ctanGp
  rw [solveStrain_remicro h]
  rfl

theorem homogenizeList_remicro : homogenizeList env (c.remicro mt wd et) = homogenizeList env c := by
  funext l
  induction l with
  | nil => rfl
  | cons g l ih =>
    funext w
    unfold homogenizeList
    rw [homogenizeGp_remicro h, ih]

omit h [Scalar α] in
theorem updateList_remicro : updateList (c.remicro mt wd et) = updateList c := by
  funext l
  induction l with
  | nil => rfl
  | cons g l ih =>
    unfold updateList
    rw [ih]
    rfl

omit h in
theorem recVarsList_remicro : recVarsList (c.remicro mt wd et) = recVarsList c := by
  funext l
  induction l with
  | nil => rfl
  | cons g l ih =>
    unfold recVarsList
    rw [ih]
    rfl

omit h

theorem writeVtu_remicro (h : c.Plain mt et) {w : Work α} {t : List (Tok α)} (hw : writeVtu c w = .ok t) :
    ∃ t', writeVtu (c.remicro mt wd et) w = .ok t' := by
  have e1 : vtuNodal (c.remicro mt wd et) = vtuNodal c := rfl
  have e2 : vtuElem (c.remicro mt wd et) = vtuElem c := rfl
  have e3 : vtuPlasticity (c.remicro mt wd et) = vtuPlasticity c := rfl
  have e4 : vtuHardening (c.remicro mt wd et) = vtuHardening c := rfl
  have e5 := vtuElemType_eq (c := c.remicro mt wd et) h.newSize
  unfold writeVtu at hw ⊢
  simp only [bind_ok_iff, pure_ok_iff] at hw
  obtain ⟨a1, h1, a2, h2, a3, h3, a4, h4, a5, h5, a6, h6, a7, h7, -⟩ := hw
  rw [e1, h1, M_bind_ok', h2, M_bind_ok', e2, h3, M_bind_ok', h4, M_bind_ok', e5, M_bind_ok', e3, h6, M_bind_ok',
    e4, h7, M_bind_ok']
  exact ⟨_, rfl⟩

/-- The same state with another microstructure and other VTU files. -/
def ObjFiles.remicro (s : ObjFiles α) (mt : Int) (wd : α) (et : Buf Int)
    (v : Int → Int → Option (List (Tok α))) : ObjFiles α :=
  { obj := { s.obj with cfg := s.obj.cfg.remicro mt wd et }, files := { s.files with vtu := v } }

theorem step_remicro {s : ObjFiles α} (h : s.obj.cfg.Plain mt et) (v : Int → Int → Option (List (Tok α)))
    {k : Call α} {r : Stepped α} (hr : step env s k = .ok r) :
    ∃ v', step env (s.remicro mt wd et v) k = .ok { state := r.state.remicro mt wd et v', ret := r.ret } := by
  have eg : (s.remicro mt wd et v).obj.gauss = s.obj.gauss := rfl
  cases k with
  | setStrain id eps => cases hr; exact ⟨v, rfl⟩
  | homogenize =>
    simp only [step, homogenize, bind_ok_iff, pure_ok_iff] at hr
    obtain ⟨o, ⟨x, h1, rfl⟩, rfl⟩ := hr
    refine ⟨v, ?_⟩
    simp only [step, homogenize]
    show ((homogenizeList env (s.obj.cfg.remicro mt wd et) s.obj.gauss s.obj.work >>= _) >>= _) = _
    rw [homogenizeList_remicro h, h1]
    rfl
  | getStress id buf =>
    cases hr
    refine ⟨v, ?_⟩
    simp only [step, getMacroStress, eg]
    cases findGp id s.obj.gauss <;> rfl
  | getCtan id buf =>
    cases hr
    refine ⟨v, ?_⟩
    simp only [step, getMacroCtan, eg]
    cases findGp id s.obj.gauss <;> rfl
  | getNl id =>
    cases hr
    refine ⟨v, ?_⟩
    simp only [step, getNlFlag, eg]
    cases findGp id s.obj.gauss <;> rfl
  | updateVars =>
    simp only [step, updateVars, bind_ok_iff, pure_ok_iff] at hr
    obtain ⟨o, ⟨x, h1, rfl⟩, rfl⟩ := hr
    refine ⟨v, ?_⟩
    simp only [step, updateVars]
    show ((updateList (s.obj.cfg.remicro mt wd et) s.obj.gauss >>= _) >>= _) = _
    rw [updateList_remicro, h1]
    rfl
  | output ts id =>
    simp only [step, output, eg] at hr ⊢
    cases hf : findGp id s.obj.gauss with
    | none =>
      rw [hf] at hr
      cases hr
      exact ⟨v, rfl⟩
    | some g =>
      rw [hf] at hr
      have e1 : loadVars (s.remicro mt wd et v).obj.cfg = loadVars s.obj.cfg := rfl
      have e2 : setDispl (s.remicro mt wd et v).obj.cfg = setDispl s.obj.cfg := rfl
      have e3 : newtonRaphson env (s.remicro mt wd et v).obj.cfg = newtonRaphson env s.obj.cfg :=
        newtonRaphson_remicro h
      have e4 : calcFields (s.remicro mt wd et v).obj.cfg = calcFields s.obj.cfg := calcFields_remicro h
      have e6 : (s.remicro mt wd et v).obj.work = s.obj.work := rfl
      simp only [bind_ok_iff, pure_ok_iff] at hr
      obtain ⟨x, ⟨old, h1, w, h2, n, h3, w', h4, t, h5, rfl⟩, rfl⟩ := hr
      obtain ⟨t', h6⟩ := writeVtu_remicro (wd := wd) h h5
      have h7 : writeVtu (s.remicro mt wd et v).obj.cfg w' = .ok t' := h6
      simp only [e1, e2, e3, e4, e6, h1, h2, h3, h4, h7, M_bind_ok']
      exact ⟨_, rfl⟩
  | writeInfo =>
    simp only [step, writeInfoFiles] at hr ⊢
    have e1 : recVarsList (s.remicro mt wd et v).obj.cfg = recVarsList s.obj.cfg := recVarsList_remicro
    have e2 : recConv (s.remicro mt wd et v).obj.cfg = recConv s.obj.cfg := rfl
    have e3 : (s.remicro mt wd et v).obj.header = s.obj.header := rfl
    simp only [e1, e2, e3, eg]
    simp only [bind_ok_iff, pure_ok_iff] at hr
    obtain ⟨x, ⟨y, h1, rfl⟩, rfl⟩ := hr
    refine ⟨v, ?_⟩
    simp only [h1, M_bind_ok']
    cases s.obj.header <;> rfl

theorem run_remicro {calls : List (Call α)} {s s' : ObjFiles α} (h : s.obj.cfg.Plain mt et)
    (v : Int → Int → Option (List (Tok α))) (hr : run env calls s = .ok s') :
    ∃ v', run env calls (s.remicro mt wd et v) = .ok (s'.remicro mt wd et v') := by
  induction calls generalizing s v with
  | nil => simp only [run, pure_ok_iff] at hr; subst hr; exact ⟨v, rfl⟩
  | cons k l ih =>
    simp only [run, bind_ok_iff] at hr
    obtain ⟨r, h1, h2⟩ := hr
    obtain ⟨v1, h3⟩ := step_remicro (wd := wd) h v h1
    obtain ⟨v2, h4⟩ := ih (by rw [step_cfg h1]; exact h) v1 h2
    exact ⟨v2, by simp only [run, h3, M_bind_ok']; exact h4⟩

/-- The arguments with another kind of microstructure and another width. -/
def Args.remicro (a : Args α) (mt : Int) (wd : α) : Args α :=
  { a with microType := mt, microParams := fun i => if i = 3 then wd else a.microParams i }

theorem mkCfg_remicro (a : Args α) (j : Junk α) (mt : Int) (wd : α) (et et' : Buf Int) :
    mkCfg (a.remicro mt wd) j et' = (mkCfg a j et).remicro mt wd et' := rfl

theorem construct_remicro {a : Args α} (ha : a.Ok) {j : Junk α} {o : Obj α} (hmt : mt = 0 ∨ mt = 1) (wd : α)
    (hm : o.cfg.mats 1 = o.cfg.mats 0) (ho : construct env a j = .ok o) :
    ∃ et, o.cfg.Plain mt et ∧
      construct env (a.remicro mt wd) j = .ok { o with cfg := o.cfg.remicro mt wd et } := by
  have hd := ha.dim
  obtain ⟨et', h1, h2, -⟩ := fillElemType_eq (c := mkCfg (a.remicro mt wd) j ⟨0, j.elemType⟩) hmt hd
    (et := ⟨(mkCfg (a.remicro mt wd) j ⟨0, j.elemType⟩).nelem, j.elemType⟩) rfl
  have hb := (construct_built ha ho).1
  have hP : o.cfg.Plain mt et' := by
    obtain ⟨e1, ct, e2⟩ := hb.eq
    refine ⟨?_, hmt, hb.ok.elem, ?_, hm⟩
    · rw [e2]; exact ha.micro
    · rw [e2]; exact h2
  refine ⟨et', hP, ?_⟩
  unfold construct at ho ⊢
  rw [if_neg (not_not.mpr hd), if_neg (not_not.mpr ha.micro)] at ho
  have hd2 : ¬ ¬ ((a.remicro mt wd).dim = 2 ∨ (a.remicro mt wd).dim = 3) := not_not.mpr hd
  have hm2 : ¬ ¬ ((a.remicro mt wd).microType = 0 ∨ (a.remicro mt wd).microType = 1) := not_not.mpr hmt
  rw [if_neg hd2, if_neg hm2]
  rw [bind_ok_iff] at ho ⊢
  obtain ⟨et, h3, ho⟩ := ho
  refine ⟨et', h1, ?_⟩
  by_cases hd : a.dim = 2
  · have hd' : (mkCfg a j et).dim = 2 := hd
    simp only [if_pos hd'] at ho
    show (if a.dim = 2 then _ else _) = _
    rw [if_pos hd]
    simp only [bind_ok_iff, pure_ok_iff] at ho ⊢
    obtain ⟨A, h4, r, h5, rfl⟩ := ho
    have e := calcCtanLin_remicro (env := env) (c := mkCfg a j et) (wd := wd)
      ⟨hP.old, hP.new, hP.oldSize, hP.newSize, hP.mats⟩
    exact ⟨A, h4, r, (congrFun (congrFun e _) _).trans h5, rfl⟩
  · have hd' : ¬ (mkCfg a j et).dim = 2 := hd
    simp only [if_neg hd'] at ho
    show (if a.dim = 2 then _ else _) = _
    rw [if_neg hd]
    simp only [bind_ok_iff, pure_ok_iff] at ho ⊢
    obtain ⟨A, h4, r, h5, rfl⟩ := ho
    have e := calcCtanLin_remicro (env := env) (c := mkCfg a j et) (wd := wd)
      ⟨hP.old, hP.new, hP.oldSize, hP.newSize, hP.mats⟩
    exact ⟨A, h4, r, (congrFun (congrFun e _) _).trans h5, rfl⟩

theorem reach_remicro {a : Args α} (ha : a.Ok) {j : Junk α} {calls : List (Call α)} {s : ObjFiles α}
    (hmt : mt = 0 ∨ mt = 1) (wd : α) (hm : s.obj.cfg.mats 1 = s.obj.cfg.mats 0) (hs : Reach env a j calls s) :
    ∃ et v, s.obj.cfg.Plain mt et ∧ Reach env (a.remicro mt wd) j calls (s.remicro mt wd et v) := by
  obtain ⟨f, hf⟩ := hs
  simp only [bind_ok_iff, constructF, pure_ok_iff] at hf
  obtain ⟨s0, ⟨o, h1, rfl⟩, h3⟩ := hf
  have hc : s.obj.cfg = o.cfg := run_cfg h3
  rw [hc] at hm
  obtain ⟨et, hP, h2⟩ := construct_remicro ha hmt wd hm h1
  obtain ⟨v, h4⟩ := run_remicro (wd := wd) (s := { obj := o, files := ctorFiles o.cfg f }) hP
    (ctorFiles o.cfg f).vtu h3
  refine ⟨et, v, by rw [hc]; exact hP, f, ?_⟩
  simp only [bind_ok_iff, constructF, pure_ok_iff]
  exact ⟨_, ⟨_, h2, rfl⟩, h4⟩

end Verif
