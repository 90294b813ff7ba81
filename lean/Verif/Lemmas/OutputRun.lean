import Verif.Lemmas.Vtu
import Verif.Lemmas.History

/-! # The stages of `output` -/

namespace Verif
open Spec

variable {α : Type} [Scalar α] {env : Env α}

/-- The stages of a call of `output` that returns. -/
structure OutputStages (env : Env α) (s : ObjFiles α) (g : Gp α) (t id : Int) (s' : ObjFiles α)
    (w1 : Work α) (out : NrOut α) (ts : List (Tok α)) : Prop where
  old : ∀ k, k < s.obj.cfg.numIntVars →
    s'.obj.work.varsOld.val k = match g.intVarsN with | none => 0 | some b => b.val k
  start : Work.Ok s.obj.cfg w1
  displ : ∃ w0 : Work α, w0.Ok s.obj.cfg ∧ w0.u = s.obj.work.u ∧
    setDispl s.obj.cfg w0 g.macroStrain = .ok w1
  solve : newtonRaphson env s.obj.cfg w1 = .ok out
  solved : Work.Ok s.obj.cfg out.work
  fields : calcFields s.obj.cfg out.work = .ok s'.obj.work
  work : Work.Ok s.obj.cfg s'.obj.work
  written : writeVtu s.obj.cfg s'.obj.work = .ok ts
  cfg : s'.obj.cfg = s.obj.cfg
  file : s'.files.vtu id t = some ts
  others : ∀ g k, ¬ (g = id ∧ k = t) → s'.files.vtu g k = s.files.vtu g k

theorem calcFields_frame {c : Cfg α} (hc : c.Ok) {w w' : Work α} (hw : w.Ok c)
    (h : calcFields c w = .ok w') : w'.Ok c ∧ w'.u = w.u ∧ w'.varsOld = w.varsOld ∧ w'.b = w.b := by
  rcases hc.dim with hd | hd
  · obtain ⟨e, s, h1, h2, h3, -⟩ := calcFields2_eq hc hd hw
    rw [h1] at h; cases h
    exact ⟨⟨hw.u, hw.du, hw.b, h3, h2, hw.varsOld, hw.varsNew, hw.A2, hw.A3⟩, rfl, rfl, rfl⟩
  · obtain ⟨e, s, h1, h2, h3, -⟩ := calcFields3_eq hc hd hw
    rw [h1] at h; cases h
    exact ⟨⟨hw.u, hw.du, hw.b, h3, h2, hw.varsOld, by simpa using hw.varsNew, hw.A2, hw.A3⟩, rfl, rfl,
      rfl⟩

theorem output_stages {s s' : ObjFiles α} (hs : s.obj.Ok) {t id : Int} {g : Gp α}
    (hg : findGp id s.obj.gauss = some g) (h : output env s t id = .ok s') :
    ∃ w1 out ts, OutputStages env s g t id s' w1 out ts := by
  unfold output at h
  rw [hg] at h
  have hgo := hs.gauss g (findGp_mem' hg)
  obtain ⟨old, h1, h2⟩ := loadVars_ok hgo hs.work.varsOld
  have hold : ∀ k, k < s.obj.cfg.numIntVars →
      old.val k = match g.intVarsN with | none => 0 | some b => b.val k := by
    intro k hk
    unfold loadVars at h1
    split at h1
    · rename_i hb
      rw [zeroInto_eq (by rw [hs.work.varsOld])] at h1
      cases h1; simp [hk, hb]
    · rename_i b hb
      rw [copyInto_eq (by rw [hgo.n _ hb]) (by rw [hs.work.varsOld])] at h1
      cases h1; simp [hk, hb]
  have hw : Work.Ok s.obj.cfg { s.obj.work with varsOld := old } :=
    ⟨hs.work.u, hs.work.du, hs.work.b, hs.work.elemStress, hs.work.elemStrain, h2,
      hs.work.varsNew, hs.work.A2, hs.work.A3⟩
  obtain ⟨u, h3, h4⟩ := setDispl_ok hs.cfg hw g.macroStrain
  simp only at h
  rw [h1, M_bind_ok', h3, M_bind_ok'] at h
  simp only [bind_ok_iff, pure_ok_iff] at h
  obtain ⟨r, hr, w', hw', ts, hts, rfl⟩ := h
  have hr' := (newtonRaphson_safe hs.cfg h4.ok).post hr
  obtain ⟨k1, k2, k3, k4⟩ := calcFields_frame hs.cfg hr'.ok hw'
  refine ⟨_, r, ts, ?_, h4.ok, ⟨_, hw, rfl, h3⟩, hr, hr'.ok, hw', k1, hts, rfl, by simp,
    fun g k hn => by simp [hn]⟩
  intro k hk
  show w'.varsOld.val k = _
  rw [k3, hr'.varsOld, h4.varsOld]
  exact hold k hk

end Verif
