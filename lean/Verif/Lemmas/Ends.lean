import Verif.Props.Response

/-! # Public calls return when the solves of the cell do, in any arithmetic -/

namespace Verif
open Spec Finset

variable {α : Type} [Scalar α]

/-- For cells with `C`, displacements with `U` and macro strains with `V` the solves of the cell return;
they keep `U` and their answers satisfy `Ans`.  `Q` describes the strains that the caller prescribes. -/
structure Solves (env : Env α) (C : Cfg α → Prop) (U : Cfg α → Buf α → Prop) (V Q : Cfg α → (Nat → α) → Prop)
    (Ans : Cfg α → (Nat → α) → (Nat → α) → α → Prop) : Prop where
  ok : ∀ {c}, C c → c.Ok
  solve : ∀ {c w eps}, C c → w.Ok c → U c w.u → V c eps → ∃ w1 out, setDispl c w eps = .ok w1 ∧
    newtonRaphson env c w1 = .ok out ∧ Frame c w out.work ∧ U c out.work.u ∧
    ∀ a, calcAveStress c out.work = .ok a → Ans c eps a.ave out.err
  basis : ∀ {c} i, C c → V c fun v => if v = i then 0 + 1.0e-8 else 0
  plain : ∀ {c eps}, C c → Q c eps → V c eps
  bump : ∀ {c eps} i, C c → Q c eps → V c fun v => if v = i then eps v + 1.0e-8 else eps v
  first : ∀ {c eps a}, C c → Q c eps → Q c (setFirst c.nvoi eps a)

/-- What a solved Gauss point holds. -/
def Answered (c : Cfg α) (Ans : Cfg α → (Nat → α) → (Nat → α) → α → Prop) (g g' : Gp α) : Prop :=
  ∃ sig, Ans c g.macroStrain sig (g'.nrErr 0) ∧ (∀ v, v < c.nvoi → g'.macroStress v = sig v) ∧
    ∀ i, i < c.nvoi → ∃ sig', Ans c (fun v => if v = i then g.macroStrain v + 1.0e-8 else g.macroStrain v) sig'
      (g'.nrErr (1 + i))

namespace Solves

variable {env : Env α} {C : Cfg α → Prop} {U : Cfg α → Buf α → Prop} {V Q : Cfg α → (Nat → α) → Prop}
  {Ans : Cfg α → (Nat → α) → (Nat → α) → α → Prop} (hb : Solves env C U V Q Ans) {c : Cfg α} {w : Work α}
include hb

theorem strain (hl : C c) {eps : Nat → α} (hw : w.Ok c) (hu : U c w.u) (he : V c eps) :
    ∃ r, solveStrain env c w eps = .ok r ∧ Frame c w r.nr.work ∧ U c r.nr.work.u ∧ Ans c eps r.sig r.nr.err := by
  obtain ⟨w1, out, h1, h2, h3, h4, h7⟩ := hb.solve hl hw hu he
  obtain ⟨ave, vn, h5, h6⟩ := calcAveStress_ok (hb.ok hl) h3.ok
  have h8 := h7 _ h5
  unfold solveStrain
  rw [h1, M_bind_ok', h2, M_bind_ok', h5]
  exact ⟨_, rfl, h3.trans h6, h4, h8⟩

theorem ctanLin (hl : C c) (hw : w.Ok c) (hu : U c w.u) (ctan : Nat → α) :
    ∃ r, calcCtanLin env c ctan w = .ok r ∧ Frame c w r.work ∧ U c r.work.u := by
  unfold calcCtanLin
  refine loop_inv (fun _ (s : CtanState α) => Frame c w s.work ∧ U c s.work.u)
    ⟨Frame.rfl' hw, hu⟩ fun i s _ hs => ?_
  obtain ⟨r, h1, h2, h3, -⟩ := hb.strain hl hs.1.ok hs.2 (hb.basis i hl)
  rw [h1, M_bind_ok']
  exact ⟨_, rfl, hs.1.trans h2, h3⟩

theorem gp (hl : C c) {g : Gp α} (hw : w.Ok c) (hu : U c w.u) (hg : g.Ok c) (he : Q c g.macroStrain) :
    ∃ s, homogenizeGp env c g w = .ok s ∧ s.work.Ok c ∧ s.gp.Ok c ∧ U c s.work.u ∧
      s.gp.macroStrain = g.macroStrain ∧ (¬ Props.TakesLinearPath c g → Answered c Ans g s.gp) := by
  have hc := hb.ok hl
  obtain ⟨old, h1, h2⟩ := loadVars_ok hg hw.varsOld
  obtain ⟨l, h3⟩ := isLinear_ok hc (-1.0e10) g.macroStrain
  have hw' : Work.Ok c { w with varsOld := old, invMax := l.2 } :=
    ⟨hw.u, hw.du, hw.b, hw.elemStress, hw.elemStrain, h2, hw.varsNew, hw.A2, hw.A3⟩
  unfold homogenizeGp
  rw [h1, M_bind_ok', h3, M_bind_ok']
  simp only
  split
  · rename_i hlin
    refine ⟨_, rfl, hw', ⟨hg.n, hg.k, hg.both⟩, hu, rfl, fun hn => absurd ?_ hn⟩
    exact ⟨Option.isNone_iff_eq_none.mp hlin.2, Props.isLinear_eq h3 ▸ hlin.1⟩
  · obtain ⟨r, e1, e2, e3, eA⟩ := hb.strain hl hw' hu (hb.plain hl he)
    obtain ⟨g', e4, e5⟩ := storeVars_ok (g := { g with macroStress := setFirst c.nvoi r.sig g.macroStress })
      ⟨hg.n, hg.k, hg.both⟩ r.nr.nl e2.ok.varsNew
    have e6 : g'.macroStrain = g.macroStrain := (storeVars_inv e4).1.strain
    have e7 : g'.macroStress = setFirst c.nvoi r.sig g.macroStress := (storeVars_inv e4).2.1
    have key : ∃ s, solveGp env c g { w with varsOld := old, invMax := l.2 } = .ok s ∧
        Frame c { w with varsOld := old, invMax := l.2 } s.work ∧ U c s.work.u ∧ s.gp.Ok c ∧
        s.gp.macroStrain = g.macroStrain ∧ s.gp.macroStress = setFirst c.nvoi r.sig g.macroStress ∧
        s.gp.nrErr 0 = r.nr.err ∧ ∀ i, i < c.nvoi → ∃ sig', Ans c
          (fun v => if v = i then g.macroStrain v + 1.0e-8 else g.macroStrain v) sig' (s.gp.nrErr (1 + i)) := by
      unfold solveGp
      rw [e1, M_bind_ok']
      simp only
      rw [e4, M_bind_ok']
      refine loop_inv (fun n (s : GpWork α) => Frame c { w with varsOld := old, invMax := l.2 } s.work ∧
        U c s.work.u ∧ s.gp.Ok c ∧ s.gp.macroStrain = g.macroStrain ∧
        s.gp.macroStress = setFirst c.nvoi r.sig g.macroStress ∧ s.gp.nrErr 0 = r.nr.err ∧
        ∀ i, i < n → ∃ sig', Ans c (fun v => if v = i then g.macroStrain v + 1.0e-8 else g.macroStrain v) sig'
          (s.gp.nrErr (1 + i)))
        ⟨e2, e3, ⟨e5.n, e5.k, e5.both⟩, e6, e7, by simp, fun i hi => absurd hi (by omega)⟩ fun i s _ hs => ?_
      obtain ⟨a1, a2, a3, a4, a5, a6, a7⟩ := hs
      obtain ⟨r', f1, f2, f3, f4⟩ := hb.strain hl
        (eps := fun v => if v = i then s.gp.macroStrain v + 1.0e-8 else s.gp.macroStrain v)
        a1.ok a2 (hb.bump i hl (a4 ▸ he))
      unfold ctanGp
      simp only
      rw [f1, M_bind_ok']
      refine ⟨_, rfl, a1.trans f2, f3, ⟨a3.n, a3.k, a3.both⟩, a4, a5, ?_, fun k hk => ?_⟩
      · simp only; rw [if_neg (by omega)]; exact a6
      · simp only
        by_cases hki : k = i
        · subst hki
          rw [if_pos rfl]
          rw [a4] at f4
          exact ⟨_, f4⟩
        · rw [if_neg (by omega)]
          exact a7 k (by omega)
    obtain ⟨s, k1, k2, k3, k4, k5, k6, k7, k8⟩ := key
    rw [k1, M_bind_ok']
    refine ⟨_, rfl, k2.ok, ⟨k4.n, k4.k, k4.both⟩, k3, k5, fun _ => ⟨r.sig, ?_, fun v hv => ?_, k8⟩⟩
    · show Ans c g.macroStrain r.sig (s.gp.nrErr 0)
      rw [k7]; exact eA
    · show s.gp.macroStress v = _
      rw [k6]; unfold setFirst; rw [if_pos hv]

theorem list (hl : C c) {l : List (Gp α)} (hw : w.Ok c) (hu : U c w.u) (hg : ∀ g ∈ l, g.Ok c)
    (he : ∀ g ∈ l, Q c g.macroStrain) :
    ∃ r, homogenizeList env c l w = .ok r ∧ r.work.Ok c ∧ U c r.work.u ∧
      (∀ g ∈ r.gauss, g.Ok c) ∧ (∀ g ∈ r.gauss, Q c g.macroStrain) ∧
      List.Forall₂ (fun g g' => ¬ Props.TakesLinearPath c g → Answered c Ans g g') l r.gauss := by
  induction l generalizing w with
  | nil => exact ⟨_, rfl, hw, hu, by simp, by simp, .nil⟩
  | cons g l ih =>
    obtain ⟨s, h1, h2, h3, h4, h5, h6⟩ := hb.gp hl hw hu (hg g (by simp)) (he g (by simp))
    obtain ⟨r, k1, k2, k3, k4, k5, k6⟩ := ih h2 h4 (fun g h => hg g (by simp [h])) fun g h => he g (by simp [h])
    unfold homogenizeList
    rw [h1, M_bind_ok', k1, M_bind_ok']
    refine ⟨_, rfl, k2, k3, fun x hx => ?_, fun x hx => ?_, .cons h6 k6⟩
    · rcases List.mem_cons.mp hx with rfl | h
      · exact h3
      · exact k4 x h
    · rcases List.mem_cons.mp hx with rfl | h
      · rw [h5]; exact he g (by simp)
      · exact k5 x h

end Solves

/-- Objects for which the calls return. -/
structure Obj.Tame (C : Cfg α → Prop) (U : Cfg α → Buf α → Prop) (Q : Cfg α → (Nat → α) → Prop) (o : Obj α) :
    Prop where
  cell : C o.cfg
  ok : o.Ok
  work : U o.cfg o.work.u
  strain : ∀ g ∈ o.gauss, Q o.cfg g.macroStrain

/-- The strains that the caller prescribes. -/
def Call.Asks (Q : (Nat → α) → Prop) : Call α → Prop
  | .setStrain _ eps => Q eps
  | _ => True

theorem setStrainList_asks {l : List (Gp α)} {nvoi : Nat} {Q : (Nat → α) → Prop}
    (hl : ∀ g ∈ l, Q g.macroStrain) {eps : Nat → α} (he : ∀ a, Q (setFirst nvoi eps a)) (id : Int) (junk : Gp α) :
    ∀ g ∈ setStrainList nvoi id eps junk l, Q g.macroStrain := by
  induction l with
  | nil =>
    intro g hg
    simp only [setStrainList, List.mem_singleton] at hg
    subst hg
    exact he _
  | cons x l ih =>
    intro g hg
    unfold setStrainList at hg
    split at hg
    · rcases List.mem_cons.mp hg with rfl | h
      · exact he _
      · exact hl g (by simp [h])
    · rcases List.mem_cons.mp hg with rfl | h
      · exact hl g (by simp)
      · exact ih (fun g hg => hl g (by simp [hg])) g h

theorem updateList_asks {c : Cfg α} {Q : (Nat → α) → Prop} {l l' : List (Gp α)} (h : updateList c l = .ok l')
    (hl : ∀ g ∈ l, Q g.macroStrain) : ∀ g ∈ l', Q g.macroStrain := by
  induction l generalizing l' with
  | nil => cases h; simp
  | cons x l ih =>
    unfold updateList at h
    simp only [bind_ok_iff, pure_ok_iff] at h
    obtain ⟨g', h1, r, h2, rfl⟩ := h
    have hx : g'.macroStrain = x.macroStrain := by
      unfold updateGp at h1
      split at h1
      · cases h1; rfl
      · split at h1
        · split at h1
          · cases h1; rfl
          · cases h1
        · simp only [bind_ok_iff, pure_ok_iff] at h1
          obtain ⟨b, -, rfl⟩ := h1
          rfl
    intro g hg
    rcases List.mem_cons.mp hg with rfl | hm
    · rw [hx]; exact hl x (by simp)
    · exact ih h2 (fun g h => hl g (by simp [h])) g hm

namespace Solves

variable {env : Env α} {C : Cfg α → Prop} {U : Cfg α → Buf α → Prop} {V Q : Cfg α → (Nat → α) → Prop}
  {Ans : Cfg α → (Nat → α) → (Nat → α) → α → Prop} (hb : Solves env C U V Q Ans)
include hb

/-- Every public call returns. -/
theorem step {s : ObjFiles α} (hs : s.obj.Tame C U Q) {k : Call α} (hk : k.Asks (Q s.obj.cfg)) :
    ∃ r, Verif.step env s k = .ok r ∧ r.state.obj.cfg = s.obj.cfg ∧ r.state.obj.Tame C U Q ∧
      (k = .homogenize → List.Forall₂ (fun g g' => ¬ Props.TakesLinearPath s.obj.cfg g →
        Answered s.obj.cfg Ans g g') s.obj.gauss r.state.obj.gauss) := by
  have hget : ∀ r : Stepped α, k ≠ .homogenize → Verif.step env s k = .ok r → r.state.obj = s.obj →
      ∃ r, Verif.step env s k = .ok r ∧ r.state.obj.cfg = s.obj.cfg ∧ r.state.obj.Tame C U Q ∧
      (k = .homogenize → List.Forall₂ (fun g g' => ¬ Props.TakesLinearPath s.obj.cfg g →
        Answered s.obj.cfg Ans g g') s.obj.gauss r.state.obj.gauss) :=
    fun r hn h1 h2 => ⟨r, h1, by rw [h2], by rw [h2]; exact hs, fun h => absurd h hn⟩
  cases k with
  | setStrain id eps =>
    exact ⟨_, rfl, rfl, ⟨hs.cell, ⟨hs.ok.cfg, hs.ok.work.tickTo _, setStrainList_ok hs.ok.gauss id eps _⟩, hs.work,
      setStrainList_asks hs.strain (fun a => hb.first hs.cell hk) id _⟩, fun h => by cases h⟩
  | homogenize =>
    obtain ⟨r, h1, h2, h3, h4, h5, h6⟩ := hb.list hs.cell hs.ok.work hs.work hs.ok.gauss hs.strain
    refine ⟨{ state := { s with obj := { s.obj with gauss := r.gauss, work := r.work } }, ret := .unit },
      ?_, rfl, ⟨hs.cell, ⟨hs.ok.cfg, h2, h4⟩, h3, h5⟩, fun _ => h6⟩
    show (Verif.homogenize env s.obj >>= fun o => _) = _
    unfold Verif.homogenize
    rw [h1]
    rfl
  | getStress id buf =>
    refine hget _ (by simp) rfl ?_
    show (getMacroStress s.obj id buf).1 = _
    unfold getMacroStress
    split <;> rfl
  | getCtan id buf =>
    refine hget _ (by simp) rfl ?_
    show (getMacroCtan s.obj id buf).1 = _
    unfold getMacroCtan
    split <;> rfl
  | getNl id =>
    refine hget _ (by simp) rfl ?_
    show (getNlFlag s.obj id).1 = _
    unfold getNlFlag
    split <;> rfl
  | updateVars =>
    obtain ⟨l, h1, h2⟩ := updateList_ok hs.ok.gauss
    refine ⟨{ state := { s with obj := { s.obj with gauss := l } }, ret := .unit }, ?_, rfl,
      ⟨hs.cell, ⟨hs.ok.cfg, hs.ok.work, h2⟩, hs.work, updateList_asks h1 hs.strain⟩, fun h => by cases h⟩
    show (Verif.updateVars s.obj >>= fun r => _) = _
    unfold Verif.updateVars
    rw [h1]
    rfl
  | output t id =>
    have hc := hb.ok hs.cell
    cases hf : findGp id s.obj.gauss with
    | none =>
      refine hget ⟨s, .unit⟩ (by simp) ?_ rfl
      show (Verif.output env s t id >>= fun r => _) = _
      unfold Verif.output
      rw [hf]
      rfl
    | some g =>
      have hm := findGp_mem' hf
      obtain ⟨old, h1, h2⟩ := loadVars_ok (hs.ok.gauss g hm) hs.ok.work.varsOld
      have hw : Work.Ok s.obj.cfg { s.obj.work with varsOld := old } :=
        ⟨hs.ok.work.u, hs.ok.work.du, hs.ok.work.b, hs.ok.work.elemStress, hs.ok.work.elemStrain, h2,
          hs.ok.work.varsNew, hs.ok.work.A2, hs.ok.work.A3⟩
      obtain ⟨w1, out, e1, e2, e3, e4, -⟩ := hb.solve hs.cell hw hs.work (hb.plain hs.cell (hs.strain g hm))
      have hcf : ∃ w', calcFields s.obj.cfg out.work = .ok w' ∧ w'.Ok s.obj.cfg ∧ w'.u = out.work.u := by
        obtain ⟨w', k1, k2⟩ := calcFields_ok hc e3.ok
        refine ⟨w', k1, k2, ?_⟩
        rcases hc.dim with hd | hd
        · obtain ⟨_, _, k3, -⟩ := calcFields2_eq hc hd e3.ok
          rw [k1] at k3; cases k3; rfl
        · obtain ⟨_, _, k3, -⟩ := calcFields3_eq hc hd e3.ok
          rw [k1] at k3; cases k3; rfl
      obtain ⟨w', k1, k2, k3⟩ := hcf
      obtain ⟨t', k4⟩ := writeVtu_ok hc k2
      refine ⟨{ state := { obj := { s.obj with work := w' }
                           files := { s.files with vtu := fun g k =>
                             if g = id ∧ k = t then some t' else s.files.vtu g k } }, ret := .unit }, ?_, rfl,
        ⟨hs.cell, ⟨hs.ok.cfg, k2, hs.ok.gauss⟩, ?_, hs.strain⟩, fun h => by cases h⟩
      · show (Verif.output env s t id >>= fun r => _) = _
        unfold Verif.output
        rw [hf]
        simp only
        rw [h1, M_bind_ok', e1, M_bind_ok', e2, M_bind_ok', k1, M_bind_ok', k4]
        rfl
      · show U _ w'.u
        rw [k3]
        exact e4
  | writeInfo =>
    obtain ⟨v, h1⟩ := recVarsList_ok hs.ok.gauss
    have h2 : ∃ r, Verif.step env s .writeInfo = .ok r ∧ r.state.obj.cfg = s.obj.cfg ∧
        r.state.obj.work = s.obj.work ∧ r.state.obj.gauss = s.obj.gauss := by
      show ∃ r, (writeInfoFiles s >>= fun r => _) = .ok r ∧ _
      unfold writeInfoFiles
      simp only
      rw [h1]
      exact ⟨_, rfl, rfl, rfl, rfl⟩
    obtain ⟨r, k1, k2, k3, k4⟩ := h2
    refine ⟨r, k1, k2, ⟨?_, ⟨?_, ?_, ?_⟩, ?_, ?_⟩, fun h => by cases h⟩
    · rw [k2]; exact hs.cell
    · rw [k2]; exact hs.ok.cfg
    · rw [k2, k3]; exact hs.ok.work
    · rw [k2, k4]; exact hs.ok.gauss
    · rw [k2, k3]; exact hs.work
    · rw [k2, k4]; exact hs.strain

/-- Sequences of calls return. -/
theorem run {s : ObjFiles α} (hs : s.obj.Tame C U Q) {calls : List (Call α)}
    (hk : ∀ k ∈ calls, k.Asks (Q s.obj.cfg)) :
    ∃ s', Verif.run env calls s = .ok s' ∧ s'.obj.cfg = s.obj.cfg ∧ s'.obj.Tame C U Q := by
  induction calls generalizing s with
  | nil => exact ⟨s, rfl, rfl, hs⟩
  | cons k l ih =>
    obtain ⟨r, h1, h2, h3, -⟩ := hb.step hs (hk k (by simp))
    obtain ⟨s', k1, k2, k3⟩ := ih (s := r.state) h3 fun k h => by
      rw [h2]; exact hk k (by simp [h])
    unfold Verif.run
    rw [h1, M_bind_ok']
    exact ⟨s', k1, k2.trans h2, k3⟩

/-- Construction and every sequence of calls return. -/
theorem reach {a : Args α} (ha : a.Ok) {j : Junk α} (hC : ∀ c, BuiltFrom a j c → C c)
    (hU : ∀ c, BuiltFrom a j c → ∀ b : Buf α, b.val = j.u → U c b) (hct : ∀ c t b, U c b → U { c with ctanLin := t } b)
    {calls : List (Call α)}
    (hk : ∀ c, BuiltFrom a j c → ∀ k ∈ calls, k.Asks (Q c)) (f : Files α) :
    ∃ s, (constructF env a j f >>= Verif.run env calls) = .ok s ∧ s.obj.Tame C U Q := by
  obtain ⟨et, A, hc, hw, hty, h⟩ := construct_any ha j
  have hbf : BuiltFrom a j (mkCfg a j et) := ⟨hc, ⟨et, (mkCfg a j et).ctanLin, rfl⟩, hty⟩
  obtain ⟨r, e1, e2, e3⟩ := hb.ctanLin (hC _ hbf) hw (hU _ hbf (startWork (mkCfg a j et) j A).u rfl) j.ctanLin
  let o : Obj α := { cfg := { mkCfg a j et with ctanLin := r.ctan }, work := r.work, gauss := [], header := false }
  have hbf' : BuiltFrom a j o.cfg :=
    ⟨⟨hc.dim, hc.nx, hc.ny, hc.nz2, hc.nz3, hc.elem, hc.micro⟩, ⟨et, r.ctan, rfl⟩, hty⟩
  have ho : o.Tame C U Q := by
    refine ⟨hC _ hbf', ⟨hbf'.ok, ?_, by simp [o]⟩, hct _ _ _ e3, by simp [o]⟩
    exact ⟨e2.ok.u, e2.ok.du, e2.ok.b, e2.ok.elemStress, e2.ok.elemStrain, e2.ok.varsOld, e2.ok.varsNew,
      e2.ok.A2, e2.ok.A3⟩
  obtain ⟨s', k1, -, k3⟩ := hb.run (s := { obj := o, files := ctorFiles o.cfg f }) ho (hk _ hbf')
  unfold constructF
  rw [h env, e1]
  exact ⟨s', k1, k3⟩

end Solves

end Verif
