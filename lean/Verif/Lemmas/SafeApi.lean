import Verif.Lemmas.Safe
import Verif.Model.Wrapper

/-!
# Every public call keeps the object in shape
-/

namespace Verif

variable {α : Type} [Scalar α]

/-- Shape of the object between public calls. -/
structure Obj.Ok (o : Obj α) : Prop where
  cfg : o.cfg.Ok
  work : o.work.Ok o.cfg
  gauss : ∀ g ∈ o.gauss, g.Ok o.cfg

theorem Work.Ok.ctan {c : Cfg α} {w : Work α} (h : w.Ok c) (t : Nat → α) :
    w.Ok { c with ctanLin := t } :=
  ⟨h.u, h.du, h.b, h.elemStress, h.elemStrain, h.varsOld, h.varsNew, h.A2, h.A3⟩

theorem Work.Ok.tickTo {c : Cfg α} {w : Work α} (h : w.Ok c) (t : Nat) :
    Work.Ok c { w with tick := t } :=
  ⟨h.u, h.du, h.b, h.elemStress, h.elemStrain, h.varsOld, h.varsNew, h.A2, h.A3⟩

theorem construct_sane (env : Env α) {a : Args α} (ha : a.Ok) (j : Junk α) :
    Sane env (fun o : Obj α => o.Ok) (construct env a j) := by
  obtain ⟨et, A, hc, hw, -, h⟩ := construct_eq env ha j
  rw [h]
  refine (calcCtanLin_safe hc hw j.ctanLin).bind fun r hr => ?_
  refine Sane.ok ⟨⟨hc.dim, hc.nx, hc.ny, hc.nz2, hc.nz3, hc.elem, hc.micro⟩, hr.ok.ctan _, ?_⟩
  intro g hg
  cases hg

theorem output_sane {env : Env α} {s : ObjFiles α} (hs : s.obj.Ok) (t id : Int) :
    Sane env (fun s : ObjFiles α => s.obj.Ok) (output env s t id) := by
  unfold output
  split
  · exact Sane.ok hs
  · rename_i g hg
    have hmem : g ∈ s.obj.gauss := by
      revert hg
      generalize s.obj.gauss = l
      induction l with
      | nil => intro h; cases h
      | cons x l ih =>
        intro h
        unfold findGp at h
        split at h
        · cases h; simp
        · exact List.mem_cons_of_mem _ (ih h)
    obtain ⟨old, h1, h2⟩ := loadVars_ok (hs.gauss g hmem) hs.work.varsOld
    have hw : Work.Ok s.obj.cfg { s.obj.work with varsOld := old } :=
      ⟨hs.work.u, hs.work.du, hs.work.b, hs.work.elemStress, hs.work.elemStrain, h2,
        hs.work.varsNew, hs.work.A2, hs.work.A3⟩
    obtain ⟨u, h3, h4⟩ := setDispl_ok hs.cfg hw g.macroStrain
    simp only
    rw [h1, M_bind_ok', h3, M_bind_ok']
    refine (newtonRaphson_safe hs.cfg h4.ok).bind fun r hr => ?_
    obtain ⟨w', h5, h6⟩ := calcFields_ok hs.cfg hr.ok
    obtain ⟨t', h7⟩ := writeVtu_ok hs.cfg h6
    rw [h5, M_bind_ok', h7]
    exact Sane.ok ⟨hs.cfg, h6, hs.gauss⟩

theorem step_sane {env : Env α} {s : ObjFiles α} (hs : s.obj.Ok) (k : Call α) :
    Sane env (fun r : Stepped α => r.state.obj.Ok) (step env s k) := by
  cases k with
  | setStrain id eps =>
    exact Sane.ok ⟨hs.cfg, hs.work.tickTo _, setStrainList_ok hs.gauss id eps _⟩
  | homogenize =>
    refine Sane.bind (P := fun o : Obj α => o.Ok) ?_ fun o ho => Sane.ok ho
    refine (homogenizeList_safe hs.cfg hs.work hs.gauss).bind fun r hr => ?_
    exact Sane.ok ⟨hs.cfg, hr.1, hr.2⟩
  | getStress id buf =>
    refine Sane.ok ?_
    show (getMacroStress s.obj id buf).1.Ok
    unfold getMacroStress
    split <;> exact hs
  | getCtan id buf =>
    refine Sane.ok ?_
    show (getMacroCtan s.obj id buf).1.Ok
    unfold getMacroCtan
    split <;> exact hs
  | getNl id =>
    refine Sane.ok ?_
    show (getNlFlag s.obj id).1.Ok
    unfold getNlFlag
    split <;> exact hs
  | updateVars =>
    obtain ⟨l, h1, h2⟩ := updateList_ok hs.gauss
    unfold step updateVars
    rw [h1]
    exact Sane.ok ⟨hs.cfg, hs.work, h2⟩
  | output t id => exact (output_sane hs t id).bind fun r hr => Sane.ok hr
  | writeInfo =>
    obtain ⟨v, h1⟩ := recVarsList_ok hs.gauss
    unfold step writeInfoFiles
    simp only
    rw [h1]
    exact Sane.ok ⟨hs.cfg, hs.work, hs.gauss⟩

theorem run_sane {env : Env α} (calls : List (Call α)) {s : ObjFiles α} (hs : s.obj.Ok) :
    Sane env (fun s : ObjFiles α => s.obj.Ok) (run env calls s) := by
  induction calls generalizing s with
  | nil => exact Sane.ok hs
  | cons k l ih =>
    unfold run
    exact (step_sane hs k).bind fun r hr => ih hr

end Verif
