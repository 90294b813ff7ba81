import Verif.Lemmas.Aging
import Verif.Spec.Ieee

/-!
# Cells whose yield function is never positive
-/

namespace Verif
open Spec

section
variable {α : Type} [Scalar α] {env : Env α} {c : Cfg α}

/-- No plastic element yields from hardening variable zero. -/
def Cfg.Inert (c : Cfg α) : Prop :=
  ∀ e, (matOf c e).plasticity = true → ∀ eps epsP : Nat → α, Scalar.lt 0 (fTrial (matOf c e) eps epsP 0) = false

/-- `vars_old` is zero. -/
def Work.Virgin (c : Cfg α) (w : Work α) : Prop := ∀ k, k < c.numIntVars → w.varsOld.val k = 0

theorem rhs_nl_inert (hc : c.Ok) (hi : c.Inert) {w : Work α} (hw : w.Ok c) (hv : w.Virgin c) {r : RhsOut α}
    (h : assemblyRhs c w = .ok r) : r.nl = false := by
  rcases hc.dim with hd | hd
  · have hN : c.nn * c.dim = c.nx * c.ny * 2 := by rw [hc.nn2 hd, hd]
    rw [assemblyRhs2_eq hc hd (hw.u2 hc hd) (by rw [hw.b, hN])] at h
    cases h; rfl
  · have hN : c.nn * c.dim = c.nx * c.ny * c.nz * 3 := by rw [hd]; rfl
    rw [assemblyRhs3_eq hc hd (hw.u3 hd) (by rw [hw.b, hN]) hw.varsOld hw.varsNew] at h
    cases h
    show rhsNl c w.u.val w.varsOld = false
    by_contra hn
    rw [Bool.not_eq_false, rhsNl_iff] at hn
    obtain ⟨ex, h1, ey, h2, ez, h3, h4⟩ := hn
    have hel : c.el ex ey ez < (c.nx - 1) * (c.ny - 1) * (c.nz - 1) := gloElem3D_lt h1 h2 h3
    have ha : alphaAt w.varsOld (c.el ex ey ez) 7 = 0 := by
      unfold alphaAt intvarIx
      refine hv _ ?_
      rw [numIntVars3 hd]
      omega
    unfold gpNl nl3 at h4
    split at h4
    · rename_i hp
      rw [ha] at h4
      unfold plasticStep at h4
      simp only [hi _ hp, Bool.false_eq_true, if_false] at h4
    · cases h4

theorem nrLoop_inert (hc : c.Ok) (hi : c.Inert) (fuel : Nat) {w : Work α} (hw : w.Ok c) (hv : w.Virgin c)
    {r : NrOut α} (h : nrLoop env c fuel w = .ok r) : r.nl = false := by
  induction fuel generalizing w with
  | zero => cases h
  | succ fuel ih =>
    obtain ⟨b, vn, nm, nl, h1, h2⟩ := rhs_ok hc hw
    rw [nrLoop, h1, M_bind_ok'] at h
    simp only at h
    split at h
    · rw [pure_ok_iff] at h; subst h
      exact rhs_nl_inert hc hi hw hv h1
    · obtain ⟨A, vn', du, -, -, h3, h4⟩ := nrCorrect_eq (env := env) hc h2.ok
      rw [h3, M_bind_ok'] at h
      simp only at h
      split at h
      · cases h
      · split at h
        · have hf := (h2.trans h4).tick' (t := w.tick + 1 + 1) (by show w.tick + 1 ≤ _; omega)
          exact ih hf.ok (fun k hk => by rw [hf.varsOld]; exact hv k hk) h
        · rw [pure_ok_iff] at h; subst h
          exact rhs_nl_inert hc hi hw hv h1

theorem solveStrain_inert (hc : c.Ok) (hi : c.Inert) {w : Work α} (hw : w.Ok c) (hv : w.Virgin c)
    {eps : Nat → α} {r : PertOut α} (h : solveStrain env c w eps = .ok r) : r.nr.nl = false := by
  obtain ⟨u, h1, h2⟩ := setDispl_ok hc hw eps
  unfold solveStrain at h
  rw [h1, M_bind_ok'] at h
  simp only [bind_ok_iff, pure_ok_iff] at h
  obtain ⟨r1, h3, a, -, rfl⟩ := h
  show r1.nl = false
  exact nrLoop_inert hc hi env.fuel h2.ok hv h3

theorem homogenizeGp_inert (hc : c.Ok) (hi : c.Inert) {g : Gp α} {w : Work α} {s : GpWork α} (hw : w.Ok c)
    (hg : g.Ok c) (hn : g.intVarsN = none) (h : homogenizeGp env c g w = .ok s) : s.gp.intVarsN = none := by
  obtain ⟨old, l, hsz, hold, -, h⟩ := homogenizeGp_inv hc hw hg h
  rcases h with ⟨-, -, h2, -, -⟩ | ⟨-, r, g1, hs, -, -, -, hst, hn1, -, -⟩
  · exact h2
  · have hnl := solveStrain_inert hc hi
      (w := { w with varsOld := old, invMax := l.2 })
      ⟨hw.u, hw.du, hw.b, hw.elemStress, hw.elemStrain, hsz, hw.varsNew, hw.A2, hw.A3⟩
      (fun k hk => by
        have := hold k hk
        rw [hn] at this
        exact this) hs
    obtain ⟨-, -, -, -, -, -, h2, -⟩ := storeVars_inv hst
    rw [hn1, h2 hnl]
    exact hn

theorem homogenizeList_inert (hc : c.Ok) (hi : c.Inert) {l : List (Gp α)} {w : Work α} {r : ListWork α}
    (hw : w.Ok c) (hg : ∀ g ∈ l, g.Ok c) (hk : ∀ g ∈ l, g.intVarsN = none)
    (h : homogenizeList env c l w = .ok r) : ∀ g ∈ r.gauss, g.intVarsN = none := by
  induction l generalizing w r with
  | nil =>
    simp only [homogenizeList, pure_ok_iff] at h
    subst h
    simp
  | cons g l ih =>
    simp only [homogenizeList, bind_ok_iff, pure_ok_iff] at h
    obtain ⟨s, hs, r1, hr, rfl⟩ := h
    have hs' := (homogenizeGp_safe hc hw (hg g (by simp))).post hs
    have h1 := homogenizeGp_inert hc hi hw (hg g (by simp)) (hk g (by simp)) hs
    have h3 := ih hs'.1 (fun g h => hg g (by simp [h])) (fun g h => hk g (by simp [h])) hr
    intro g' hg'
    rcases List.mem_cons.mp hg' with rfl | h
    · exact h1
    · exact h3 g' h

theorem setStrainList_inert {l : List (Gp α)} (hk : ∀ g ∈ l, g.intVarsN = none) (nvoi : Nat) (id : Int)
    (eps : Nat → α) (junk : Gp α) : ∀ g ∈ setStrainList nvoi id eps junk l, g.intVarsN = none := by
  induction l with
  | nil =>
    intro g hg
    simp only [setStrainList, List.mem_singleton] at hg
    subst hg
    rfl
  | cons a l ih =>
    intro g hg
    unfold setStrainList at hg
    have ha := hk a (by simp)
    split at hg
    · rcases List.mem_cons.mp hg with rfl | h
      · exact ha
      · exact hk g (by simp [h])
    · rcases List.mem_cons.mp hg with rfl | h
      · exact ha
      · exact ih (fun g h => hk g (by simp [h])) g h

theorem updateList_inert {l l' : List (Gp α)} (hk : ∀ g ∈ l, g.intVarsN = none)
    (h : updateList c l = .ok l') : ∀ g ∈ l', g.intVarsN = none := by
  induction l generalizing l' with
  | nil => simp only [updateList, pure_ok_iff] at h; subst h; simp
  | cons a l ih =>
    simp only [updateList, bind_ok_iff, pure_ok_iff] at h
    obtain ⟨g1, h1, r, h2, rfl⟩ := h
    have ha := hk a (by simp)
    have hu := updateGp_inv h1
    intro g' hg'
    rcases List.mem_cons.mp hg' with rfl | h
    · rw [hu.lin ha, ha]
    · exact ih (fun g h => hk g (by simp [h])) h2 g' h

theorem output_gauss {s s' : ObjFiles α} {t id : Int} (h : output env s t id = .ok s') :
    s'.obj.gauss = s.obj.gauss := by
  unfold output at h
  split at h
  · rw [pure_ok_iff] at h; subst h; rfl
  · simp only [bind_ok_iff, pure_ok_iff] at h
    obtain ⟨_, -, _, -, r, hr, w', hw', t', -, rfl⟩ := h
    rfl

theorem step_inert {s : ObjFiles α} (hs : s.obj.Ok) (hi : s.obj.cfg.Inert)
    (hk : ∀ g ∈ s.obj.gauss, g.intVarsN = none) {k : Call α} {r : Stepped α} (h : step env s k = .ok r) :
    ∀ g ∈ r.state.obj.gauss, g.intVarsN = none := by
  cases k with
  | setStrain id eps =>
    simp only [step, pure_ok_iff] at h; subst h
    exact setStrainList_inert hk _ _ _ _
  | homogenize =>
    simp only [step, homogenize, bind_ok_iff, pure_ok_iff] at h
    obtain ⟨o, ⟨r1, h1, rfl⟩, rfl⟩ := h
    exact homogenizeList_inert hs.cfg hi hs.work hs.gauss hk h1
  | getStress id buf =>
    simp only [step, pure_ok_iff] at h; subst h
    show ∀ g ∈ (getMacroStress s.obj id buf).1.gauss, _
    unfold getMacroStress; split <;> exact hk
  | getCtan id buf =>
    simp only [step, pure_ok_iff] at h; subst h
    show ∀ g ∈ (getMacroCtan s.obj id buf).1.gauss, _
    unfold getMacroCtan; split <;> exact hk
  | getNl id =>
    simp only [step, pure_ok_iff] at h; subst h
    show ∀ g ∈ (getNlFlag s.obj id).1.gauss, _
    unfold getNlFlag; split <;> exact hk
  | updateVars =>
    simp only [step, updateVars, bind_ok_iff, pure_ok_iff] at h
    obtain ⟨o, ⟨r1, h1, rfl⟩, rfl⟩ := h
    exact updateList_inert hk h1
  | output t id =>
    simp only [step, bind_ok_iff, pure_ok_iff] at h
    obtain ⟨r1, h1, rfl⟩ := h
    rw [output_gauss h1]; exact hk
  | writeInfo =>
    simp only [step, writeInfoFiles, bind_ok_iff, pure_ok_iff] at h
    obtain ⟨r1, ⟨v, h1, rfl⟩, rfl⟩ := h
    exact hk

theorem run_inert {calls : List (Call α)} {s s' : ObjFiles α} (hs : s.obj.Ok) (hi : s.obj.cfg.Inert)
    (hk : ∀ g ∈ s.obj.gauss, g.intVarsN = none) (h : run env calls s = .ok s') :
    ∀ g ∈ s'.obj.gauss, g.intVarsN = none := by
  induction calls generalizing s with
  | nil => simp only [run, pure_ok_iff] at h; subst h; exact hk
  | cons k l ih =>
    have h' := h
    simp only [run, bind_ok_iff] at h
    obtain ⟨r, h1, h2⟩ := h
    have e : r.state.obj.cfg = s.obj.cfg := by
      refine run_cfg (env := env) (calls := [k]) ?_
      simp only [run, bind_ok_iff]
      exact ⟨r, h1, rfl⟩
    exact ih ((step_sane hs k).post h1) (by rw [e]; exact hi) (step_inert hs hi hk h1) h2

theorem construct_gauss {a : Args α} (ha : a.Ok) {j : Junk α} {o : Obj α} (h1 : construct env a j = .ok o) :
    o.gauss = [] := by
  obtain ⟨et, A, hc, hw, -, h2⟩ := construct_eq env ha j
  rw [h2] at h1
  cases hr : calcCtanLin env (mkCfg a j et) j.ctanLin (startWork (mkCfg a j et) j A) with
  | error e => rw [hr] at h1; cases h1
  | ok r => rw [hr] at h1; cases h1; rfl

theorem reach_inert {a : Args α} (ha : a.Ok) {j : Junk α} {calls : List (Call α)} {s : ObjFiles α}
    (h : Reach env a j calls s) (hi : s.obj.cfg.Inert) : ∀ g ∈ s.obj.gauss, g.intVarsN = none := by
  obtain ⟨f, h⟩ := h
  simp only [bind_ok_iff, constructF, pure_ok_iff] at h
  obtain ⟨s0, ⟨o, h1, rfl⟩, h3⟩ := h
  have e := run_cfg h3
  refine run_inert (s := { obj := o, files := ctorFiles o.cfg f }) (construct_built ha h1).2 ?_ ?_ h3
  · rw [← e]; exact hi
  · show ∀ g ∈ o.gauss, _
    rw [construct_gauss ha h1]; simp

/-- Point `q` of the internal variables belongs to a plastic element that cannot yield from hardening variable
zero. -/
def DeadPt (c : Cfg α) (q : Nat) : Prop :=
  PlasticPt c q ∧ ∀ eps epsP : Nat → α, Scalar.lt 0 (fTrial (matOf c (q / 8)) eps epsP 0) = false

theorem varAt_idle {u : Nat → α} {vo : Buf α} {q : Nat} (hq : DeadPt c q)
    (hz : ∀ i, i < 7 → vo.val (q * 7 + i) = 0) {i : Nat} (hi : i < 7) : varAt c u vo (q * 7 + i) = 0 := by
  have hix : ∀ i, intvarIx (q / 8) (q % 8) i = q * 7 + i := fun i => by unfold intvarIx; omega
  have ha : alphaAt vo (q / 8) (q % 8) = 0 := by unfold alphaAt; rw [hix]; exact hz 6 (by omega)
  unfold varAt
  simp only
  rw [show (q * 7 + i) / 56 = q / 8 by omega, show (q * 7 + i) / 7 % 8 = q % 8 by omega,
    show (q * 7 + i) % 7 = i by omega, ha]
  unfold plasticStep
  simp only [hq.2, Bool.false_eq_true, if_false]
  split
  · rfl
  · unfold epsPAt
    rw [if_pos (by omega), hix]
    exact hz i hi

/-- The history of a Gauss point is zero at such points. -/
structure Gp.Idle (c : Cfg α) (g : Gp α) : Prop where
  comm : ∀ n, g.intVarsN = some n → ∀ q, DeadPt c q → ∀ i, i < 7 → n.val (q * 7 + i) = 0
  trial : ∀ n k, g.intVarsN = some n → g.intVarsK = some k → ∀ q, DeadPt c q → ∀ i, i < 7 →
    k.val (q * 7 + i) = 0

theorem Gp.Idle.of_none {g : Gp α} (h : g.intVarsN = none) : g.Idle c :=
  ⟨fun n hn => (by rw [h] at hn; cases hn), fun n k hn => (by rw [h] at hn; cases hn)⟩

theorem homogenizeGp_idle (hc : c.Ok) (hd : c.dim = 3) {g : Gp α} {w : Work α} {s : GpWork α} (hw : w.Ok c)
    (hg : g.Ok c) (ha : g.Idle c) (h : homogenizeGp env c g w = .ok s) : s.gp.Idle c := by
  obtain ⟨old, l, hsz, hold, -, h⟩ := homogenizeGp_inv hc hw hg h
  rcases h with ⟨-, h1, h2, h3, -⟩ | ⟨-, r, g1, hsol, -, -, -, hst, hn, hkk, -⟩
  · exact Gp.Idle.of_none h2
  · obtain ⟨h1, -, -, -, -, -, h2, h3⟩ := storeVars_inv hst
    cases hnl : r.nr.nl with
    | false =>
      have e := h2 hnl
      rw [e] at hn hkk
      exact ⟨fun n h => ha.comm n (hn ▸ h), fun n k h h' => ha.trial n k (hn ▸ h) (hkk ▸ h')⟩
    | true =>
      obtain ⟨n, k, e1, e2, e3⟩ := h3 hnl
      have hw' : Work.Ok c { w with varsOld := old, invMax := l.2 } :=
        ⟨hw.u, hw.du, hw.b, hw.elemStress, hw.elemStrain, hsz, hw.varsNew, hw.A2, hw.A3⟩
      obtain ⟨u, hu⟩ := solveStrain_vars hc hd hw' hsol
      have hcomm : ∀ q, DeadPt c q → ∀ i, i < 7 → n.val (q * 7 + i) = 0 ∧ old.val (q * 7 + i) = 0 := by
        intro q hq i hi
        have hlt := hq.1.lt hi
        rw [hold _ hlt]
        cases hN : g.intVarsN with
        | some m =>
          have := h1.vars m hN
          rw [e1] at this
          cases this
          exact ⟨ha.comm _ hN q hq i hi, ha.comm _ hN q hq i hi⟩
        | none =>
          rcases h1.fresh hN with h | ⟨m, h, -, h0⟩
          · rw [e1] at h; cases h
          · rw [e1] at h; cases h
            exact ⟨h0 _, rfl⟩
      refine ⟨fun n' h => ?_, fun n' k' h h' q hq i hi => ?_⟩
      · rw [hn, e1] at h; cases h
        exact fun q hq i hi => (hcomm q hq i hi).1
      · rw [hkk, e2] at h'; cases h'
        rw [e3 _ (hq.1.lt hi), hu _ (hq.1.var hi)]
        exact varAt_idle hq (fun i hi => (hcomm q hq i hi).2) hi

theorem homogenizeList_idle (hc : c.Ok) (hd : c.dim = 3) {l : List (Gp α)} {w : Work α} {r : ListWork α}
    (hw : w.Ok c) (hg : ∀ g ∈ l, g.Ok c) (ha : ∀ g ∈ l, g.Idle c)
    (h : homogenizeList env c l w = .ok r) : ∀ g ∈ r.gauss, g.Idle c := by
  induction l generalizing w r with
  | nil =>
    simp only [homogenizeList, pure_ok_iff] at h
    subst h
    simp
  | cons g l ih =>
    simp only [homogenizeList, bind_ok_iff, pure_ok_iff] at h
    obtain ⟨s, hs, r1, hr, rfl⟩ := h
    have hs' := (homogenizeGp_safe hc hw (hg g (by simp))).post hs
    have h1 := homogenizeGp_idle hc hd hw (hg g (by simp)) (ha g (by simp)) hs
    have h2 := ih hs'.1 (fun g h => hg g (by simp [h])) (fun g h => ha g (by simp [h])) hr
    intro g' hg'
    rcases List.mem_cons.mp hg' with rfl | h
    · exact h1
    · exact h2 g' h

theorem setStrainList_idle {l : List (Gp α)} (ha : ∀ g ∈ l, g.Idle c) (nvoi : Nat)
    (id : Int) (eps : Nat → α) (junk : Gp α) : ∀ g ∈ setStrainList nvoi id eps junk l, g.Idle c := by
  induction l with
  | nil =>
    intro g hg
    simp only [setStrainList, List.mem_singleton] at hg
    subst hg
    exact Gp.Idle.of_none rfl
  | cons a l ih =>
    intro g hg
    unfold setStrainList at hg
    have h0 := ha a (by simp)
    split at hg
    · rcases List.mem_cons.mp hg with rfl | h
      · exact ⟨h0.comm, h0.trial⟩
      · exact ha g (by simp [h])
    · rcases List.mem_cons.mp hg with rfl | h
      · exact h0
      · exact ih (fun g h => ha g (by simp [h])) g h

theorem updateGp_idle {g g' : Gp α} (hg : g.Ok c) (ha : g.Idle c) (hu : GpUpdate c g g') : g'.Idle c := by
  cases hN : g.intVarsN with
  | none => rw [hu.lin hN]; exact ha
  | some n =>
    obtain ⟨n', h3, -, h4⟩ := hu.vars n hN
    have hb := hg.both
    rw [hN] at hb
    cases hK : g.intVarsK with
    | none => rw [hK] at hb; cases hb
    | some k =>
      refine ⟨fun m hm q hq i hi => ?_, fun m k' _ hk q hq i hi => ?_⟩
      · rw [h3] at hm; cases hm
        rw [h4 k hK _ (hq.1.lt hi)]
        exact ha.trial n k hN hK q hq i hi
      · rw [hu.trial] at hk
        exact ha.trial n k' hN hk q hq i hi

theorem updateList_idle {l l' : List (Gp α)} (hg : ∀ g ∈ l, g.Ok c)
    (ha : ∀ g ∈ l, g.Idle c) (h : updateList c l = .ok l') : ∀ g ∈ l', g.Idle c := by
  induction l generalizing l' with
  | nil => simp only [updateList, pure_ok_iff] at h; subst h; simp
  | cons a l ih =>
    simp only [updateList, bind_ok_iff, pure_ok_iff] at h
    obtain ⟨g1, h1, r, h2, rfl⟩ := h
    intro g' hg'
    rcases List.mem_cons.mp hg' with rfl | h
    · exact updateGp_idle (hg a (by simp)) (ha a (by simp)) (updateGp_inv h1)
    · exact ih (fun g h => hg g (by simp [h])) (fun g h => ha g (by simp [h])) h2 g' h

theorem step_idle {s : ObjFiles α} (hs : s.obj.Ok) (hd : s.obj.cfg.dim = 3)
    (ha : ∀ g ∈ s.obj.gauss, g.Idle s.obj.cfg) {k : Call α} {r : Stepped α} (h : step env s k = .ok r) :
    ∀ g ∈ r.state.obj.gauss, g.Idle s.obj.cfg := by
  have hgs := step_gauss h
  have same : r.state.obj.gauss = s.obj.gauss → ∀ g ∈ r.state.obj.gauss, g.Idle s.obj.cfg :=
    fun e g hg => ha g (e ▸ hg)
  cases k with
  | setStrain id eps =>
    intro g hg
    simp only at hgs
    rw [hgs] at hg
    exact setStrainList_idle ha _ _ _ _ g hg
  | homogenize =>
    obtain ⟨w, hw, hg, -⟩ := hgs
    intro g hg'
    rw [hg] at hg'
    exact homogenizeList_idle hs.cfg hd hs.work hs.gauss ha hw g hg'
  | updateVars => exact fun g hg' => updateList_idle hs.gauss ha hgs g hg'
  | getStress id buf => exact same hgs
  | getCtan id buf => exact same hgs
  | getNl id => exact same hgs
  | output t id => exact same hgs
  | writeInfo => exact same hgs

theorem run_idle {calls : List (Call α)} {s s' : ObjFiles α} (hs : s.obj.Ok) (hd : s.obj.cfg.dim = 3)
    (ha : ∀ g ∈ s.obj.gauss, g.Idle s.obj.cfg) (h : run env calls s = .ok s') :
    ∀ g ∈ s'.obj.gauss, g.Idle s'.obj.cfg := by
  induction calls generalizing s with
  | nil => simp only [run, pure_ok_iff] at h; subst h; exact ha
  | cons k l ih =>
    simp only [run, bind_ok_iff] at h
    obtain ⟨r, h1, h2⟩ := h
    have e := step_cfg h1
    exact ih ((step_sane hs k).post h1) (by rw [e]; exact hd) (by rw [e]; exact step_idle hs hd ha h1) h2

theorem reach_idle {a : Args α} (ha : a.Ok) (hd : a.dim = 3) {j : Junk α} {calls : List (Call α)}
    {s : ObjFiles α} (h : Reach env a j calls s) : ∀ g ∈ s.obj.gauss, g.Idle s.obj.cfg := by
  obtain ⟨f, h⟩ := h
  simp only [bind_ok_iff, constructF, pure_ok_iff] at h
  obtain ⟨s0, ⟨o, h1, rfl⟩, h3⟩ := h
  have hb := construct_built ha h1
  refine run_idle (s := { obj := o, files := ctorFiles o.cfg f }) hb.2 ?_ ?_ h3
  · obtain ⟨et, ct, e⟩ := hb.1.eq
    show o.cfg.dim = 3
    rw [e]; exact hd
  · show ∀ g ∈ o.gauss, _
    rw [construct_gauss ha h1]; simp

end

section
variable {fp : Range}

/-- NaN, or positive infinity. -/
def High (x : Dbl fp) : Prop := x = .nan ∨ x = .inf false

theorem High.add {x : Dbl fp} (h : High x) (y : Dbl fp) : High (x + y) := by
  rcases h with rfl | rfl
  · exact Or.inl rfl
  · cases y with
    | nan => exact Or.inl rfl
    | inf b => cases b with
      | false => exact Or.inr rfl
      | true => exact Or.inl rfl
    | fin y h1 h2 => exact Or.inr rfl

theorem High.root_mul {x : Dbl fp} (h : High x) (z : Dbl fp) : High (Scalar.sqrt z * x) := by
  have hr : ∀ y : ℝ, 0 ≤ y → High (Dbl.round fp y * x) := by
    intro y hy
    have h0 : 0 ≤ fp.rnd y := by
      have := fp.mono hy
      rwa [fp.fix 0 fp.zero] at this
    unfold Dbl.round
    split
    · rename_i hle
      rcases h with rfl | rfl
      · exact Or.inl rfl
      · show High (if fp.rnd y = 0 then Dbl.nan else Dbl.inf (decide (fp.rnd y < 0) ^^ false))
        split
        · exact Or.inl rfl
        · rw [decide_eq_false (not_lt.mpr h0)]; exact Or.inr rfl
    · rw [decide_eq_false (not_lt.mpr hy)]
      rcases h with rfl | rfl
      · exact Or.inl rfl
      · exact Or.inr rfl
  cases z with
  | nan => exact Or.inl rfl
  | inf b => cases b with
    | true => exact Or.inl rfl
    | false =>
      rcases h with rfl | rfl
      · exact Or.inl rfl
      · exact Or.inr rfl
  | fin y h1 h2 =>
    show High ((if y < 0 then Dbl.nan else Dbl.round fp (Real.sqrt y)) * x)
    split
    · exact Or.inl rfl
    · exact hr _ (Real.sqrt_nonneg _)

theorem High.not_yield {x : Dbl fp} (h : High x) (q : Dbl fp) : Scalar.lt 0 (q - x) = false := by
  rcases h with rfl | rfl <;> cases q with
  | nan => rfl
  | inf b => cases b <;> rfl
  | fin y h1 h2 => rfl

theorem fin_mul_zero (x : Dbl fp) (h : x.isFin = true) : x * 0 = (0 : Dbl fp) := by
  cases x with
  | nan => cases h
  | inf b => cases h
  | fin y h1 h2 =>
    show Dbl.round fp (y * 0) = _
    rw [mul_zero]
    unfold Dbl.round
    rw [dif_pos (by rw [fp.fix 0 fp.zero, abs_zero]; exact zero_le_one.trans fp.one_le)]
    show Dbl.fin _ _ _ = Dbl.fin 0 _ _
    congr 1
    exact fp.fix 0 fp.zero

theorem high_threshold {Sy Ka : Dbl fp} (h : High Sy ∨ Ka.isFin = false) : High (Sy + Ka * 0) := by
  cases hk : Ka.isFin with
  | true =>
    rw [fin_mul_zero Ka hk]
    exact High.add (h.resolve_right (by rw [hk]; simp)) _
  | false =>
    have : Ka * 0 = (Dbl.nan : Dbl fp) := by
      cases Ka with
      | nan => rfl
      | inf b =>
        show (if (0 : ℝ) = 0 then Dbl.nan else _) = _
        rw [if_pos rfl]
      | fin y h1 h2 => cases hk
    rw [this]
    left
    cases Sy <;> rfl

end
end Verif
