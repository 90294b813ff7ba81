import Verif.Lemmas.Aging
import Verif.Lemmas.FpNorm

/-!
# The hardening variable along a run, in any arithmetic

`R x y` is read as `x ≤ y`.  The only fact about the arithmetic that the induction over runs needs is
that one `plastic_step` does not lower the hardening variable.
-/

namespace Verif
open Spec

section
variable {α : Type} [Scalar α] {env : Env α} {c : Cfg α} {R : α → α → Prop}

/-- `plastic_step` with the materials of plastic elements does not lower the hardening variable. -/
structure Cfg.Hardens (c : Cfg α) (R : α → α → Prop) : Prop where
  dim : c.dim = 3
  refl : ∀ x, R x x
  trans : ∀ x y z, R x y → R y z → R x z
  step : ∀ e, e < c.nelem → (matOf c e).plasticity = true → ∀ eps epsP a,
    R a (plasticStep (matOf c e) eps epsP a).alpha

theorem varAt_hard (hJ : c.Hardens R) {u : Nat → α} {vo : Buf α} {q : Nat} (hq : PlasticPt c q) :
    R (vo.val (q * 7 + 6)) (varAt c u vo (q * 7 + 6)) := by
  have hix : ∀ i, intvarIx (q / 8) (q % 8) i = q * 7 + i := fun i => by unfold intvarIx; omega
  unfold varAt
  simp only
  rw [show (q * 7 + 6) / 56 = q / 8 by omega, show (q * 7 + 6) / 7 % 8 = q % 8 by omega,
    show (q * 7 + 6) % 7 = 6 by omega, if_pos rfl]
  have ha : alphaAt vo (q / 8) (q % 8) = vo.val (q * 7 + 6) := by unfold alphaAt; rw [hix]
  rw [← ha]
  exact hJ.step _ (by have := hq.1; omega) hq.2 _ _ _

/-- The committed hardening of the plastic elements is not below 0 and not above the trial one. -/
structure Gp.Hard (c : Cfg α) (R : α → α → Prop) (g : Gp α) : Prop where
  comm : ∀ n, g.intVarsN = some n → ∀ q, PlasticPt c q → R 0 (n.val (q * 7 + 6))
  trial : ∀ n k, g.intVarsN = some n → g.intVarsK = some k → ∀ q, PlasticPt c q →
    R (n.val (q * 7 + 6)) (k.val (q * 7 + 6))

/-- The same for all Gauss points of an object. -/
def Obj.Hard (R : α → α → Prop) (o : Obj α) : Prop := ∀ g ∈ o.gauss, g.Hard o.cfg R

theorem homogenizeGp_hard (hc : c.Ok) (hJ : c.Hardens R) {g : Gp α} {w : Work α} {s : GpWork α}
    (hw : w.Ok c) (hg : g.Ok c) (ha : g.Hard c R) (h : homogenizeGp env c g w = .ok s) :
    s.gp.Hard c R := by
  obtain ⟨old, l, hsz, hold, -, h⟩ := homogenizeGp_inv hc hw hg h
  rcases h with ⟨-, h1, h2, h3, -⟩ | ⟨-, r, g1, hsol, -, -, -, hst, hn, hkk, -⟩
  · exact ⟨fun n hn => by (rw [h2] at hn; cases hn), fun n k hn => by (rw [h2] at hn; cases hn)⟩
  · obtain ⟨h1, -, -, -, -, -, h2, h3⟩ := storeVars_inv hst
    cases hnl : r.nr.nl with
    | false =>
      have e := h2 hnl
      rw [e] at hn hkk
      exact ⟨fun n h => ha.comm n (hn ▸ h), fun n k h h' => ha.trial n k (hn ▸ h) (hkk ▸ h')⟩
    | true =>
      obtain ⟨n, k, e1, e2, e3⟩ := h3 hnl
      have hw' : Work.Ok c { w with varsOld := old, invMax := l.2 } :=
        ⟨hw.u, hw.du, hw.b, hw.elemStress, hw.elemStrain, hsz, hw.varsNew, hw.A2, hw.A3⟩
      obtain ⟨u, hu⟩ := solveStrain_vars hc hJ.dim hw' hsol
      have hno : ∀ i, i < c.numIntVars → n.val i = old.val i := by
        intro i hi
        rw [hold i hi]
        cases hN : g.intVarsN with
        | some m =>
          have := h1.vars m hN
          rw [e1] at this
          cases this
          rfl
        | none =>
          rcases h1.fresh hN with h | ⟨m, h, -, h0⟩
          · rw [e1] at h; cases h
          · rw [e1] at h; cases h
            exact h0 i
      have hcomm : ∀ q, PlasticPt c q → R 0 (n.val (q * 7 + 6)) := by
        intro q hq
        cases hN : g.intVarsN with
        | some m =>
          have := h1.vars m hN
          rw [e1] at this
          cases this
          exact ha.comm _ hN q hq
        | none =>
          rcases h1.fresh hN with h | ⟨m, h, -, h0⟩
          · rw [e1] at h; cases h
          · rw [e1] at h; cases h
            rw [h0]
            exact hJ.refl _
      refine ⟨fun n' h => ?_, fun n' k' h h' q hq => ?_⟩
      · rw [hn, e1] at h; cases h
        exact hcomm
      · rw [hn, e1] at h; cases h
        rw [hkk, e2] at h'; cases h'
        have v1 := varAt_hard (u := u) (vo := old) hJ hq
        have h6 : (6 : Nat) < 7 := by omega
        rw [e3 _ (hq.lt h6), hu _ (hq.var h6), hno _ (hq.lt h6)]
        exact v1

theorem homogenizeList_hard (hc : c.Ok) (hJ : c.Hardens R) {l : List (Gp α)} {w : Work α}
    {r : ListWork α} (hw : w.Ok c) (hg : ∀ g ∈ l, g.Ok c) (ha : ∀ g ∈ l, g.Hard c R)
    (h : homogenizeList env c l w = .ok r) : ∀ g ∈ r.gauss, g.Hard c R := by
  induction l generalizing w r with
  | nil =>
    simp only [homogenizeList, pure_ok_iff] at h
    subst h
    simp
  | cons g l ih =>
    simp only [homogenizeList, bind_ok_iff, pure_ok_iff] at h
    obtain ⟨s, hs, r1, hr, rfl⟩ := h
    have hs' := (homogenizeGp_safe hc hw (hg g (by simp))).post hs
    have h1 := homogenizeGp_hard hc hJ hw (hg g (by simp)) (ha g (by simp)) hs
    have h2 := ih hs'.1 (fun g h => hg g (by simp [h])) (fun g h => ha g (by simp [h])) hr
    intro g' hg'
    rcases List.mem_cons.mp hg' with rfl | h
    · exact h1
    · exact h2 g' h

theorem setStrainList_hard {l : List (Gp α)} (ha : ∀ g ∈ l, g.Hard c R) (nvoi : Nat)
    (id : Int) (eps : Nat → α) (junk : Gp α) : ∀ g ∈ setStrainList nvoi id eps junk l, g.Hard c R := by
  induction l with
  | nil =>
    intro g hg
    simp only [setStrainList, List.mem_singleton] at hg
    subst hg
    exact ⟨fun b hb => (by cases hb), fun b k hb => (by cases hb)⟩
  | cons a l ih =>
    intro g hg
    unfold setStrainList at hg
    have h0 := ha a (by simp)
    split at hg
    · rcases List.mem_cons.mp hg with rfl | h
      · exact ⟨h0.comm, h0.trial⟩
      · exact ha g (by simp [h])
    · rcases List.mem_cons.mp hg with rfl | h
      · exact h0
      · exact ih (fun g h => ha g (by simp [h])) g h

/-- `update_vars` for one Gauss point, in the plastic elements. -/
theorem updateGp_hard (hJ : c.Hardens R) {g g' : Gp α} (hg : g.Ok c) (ha : g.Hard c R)
    (hu : GpUpdate c g g') :
    g'.Hard c R ∧ ∀ n, g.intVarsN = some n → ∃ n', g'.intVarsN = some n' ∧
      ∀ q, PlasticPt c q → R (n.val (q * 7 + 6)) (n'.val (q * 7 + 6)) := by
  cases hN : g.intVarsN with
  | none =>
    refine ⟨?_, fun n h => by cases h⟩
    rw [hu.lin hN]; exact ha
  | some n =>
    obtain ⟨n', h3, -, h4⟩ := hu.vars n hN
    have hb := hg.both
    rw [hN] at hb
    cases hK : g.intVarsK with
    | none => rw [hK] at hb; cases hb
    | some k =>
      have ea : ∀ q, PlasticPt c q → n'.val (q * 7 + 6) = k.val (q * 7 + 6) := fun q hq =>
        h4 k hK _ (hq.lt (by omega))
      refine ⟨⟨fun m hm q hq => ?_, fun m k' hm hk q hq => ?_⟩, fun m hm => ⟨n', h3, fun q hq => ?_⟩⟩
      · rw [h3] at hm; cases hm
        rw [ea q hq]
        exact hJ.trans _ _ _ (ha.comm n hN q hq) (ha.trial n k hN hK q hq)
      · rw [h3] at hm; cases hm
        rw [hu.trial, hK] at hk; cases hk
        rw [ea q hq]
        exact hJ.refl _
      · cases hm
        rw [ea q hq]
        exact ha.trial n k hN hK q hq

theorem updateList_hard (hJ : c.Hardens R) {l l' : List (Gp α)} (hg : ∀ g ∈ l, g.Ok c)
    (ha : ∀ g ∈ l, g.Hard c R) (h : updateList c l = .ok l') : ∀ g ∈ l', g.Hard c R := by
  induction l generalizing l' with
  | nil => simp only [updateList, pure_ok_iff] at h; subst h; simp
  | cons a l ih =>
    simp only [updateList, bind_ok_iff, pure_ok_iff] at h
    obtain ⟨g1, h1, r, h2, rfl⟩ := h
    intro g' hg'
    rcases List.mem_cons.mp hg' with rfl | h
    · exact (updateGp_hard hJ (hg a (by simp)) (ha a (by simp)) (updateGp_inv h1)).1
    · exact ih (fun g h => hg g (by simp [h])) (fun g h => ha g (by simp [h])) h2 g' h

theorem step_hard {s : ObjFiles α} (hs : s.obj.Ok) (hJ : s.obj.cfg.Hardens R) (ha : s.obj.Hard R)
    {k : Call α} {r : Stepped α} (h : step env s k = .ok r) : r.state.obj.Hard R := by
  have hcfg := step_cfg h
  have hgs := step_gauss h
  have same : r.state.obj.gauss = s.obj.gauss → r.state.obj.Hard R := fun e g hg => by
    rw [hcfg]; exact ha g (e ▸ hg)
  cases k with
  | setStrain id eps =>
    intro g hg
    rw [hcfg]
    simp only at hgs
    rw [hgs] at hg
    exact setStrainList_hard ha _ _ _ _ g hg
  | homogenize =>
    obtain ⟨w, hw, hg, -⟩ := hgs
    intro g hg'
    rw [hcfg]
    rw [hg] at hg'
    exact homogenizeList_hard hs.cfg hJ hs.work hs.gauss ha hw g hg'
  | updateVars =>
    intro g hg'
    rw [hcfg]
    exact updateList_hard hJ hs.gauss ha hgs g hg'
  | getStress id buf => exact same hgs
  | getCtan id buf => exact same hgs
  | getNl id => exact same hgs
  | output t id => exact same hgs
  | writeInfo => exact same hgs

theorem run_hard {calls : List (Call α)} {s s' : ObjFiles α} (hs : s.obj.Ok)
    (hJ : s.obj.cfg.Hardens R) (ha : s.obj.Hard R) (h : run env calls s = .ok s') : s'.obj.Hard R := by
  induction calls generalizing s with
  | nil => simp only [run, pure_ok_iff] at h; subst h; exact ha
  | cons k l ih =>
    simp only [run, bind_ok_iff] at h
    obtain ⟨r, h1, h2⟩ := h
    exact ih ((step_sane hs k).post h1) (by rw [step_cfg h1]; exact hJ) (step_hard hs hJ ha h1) h2

theorem reach_hard {a : Args α} (ha : a.Ok) {j : Junk α} {calls : List (Call α)}
    {s : ObjFiles α} (h : Reach env a j calls s) (hJ : s.obj.cfg.Hardens R) : s.obj.Hard R := by
  obtain ⟨f, h⟩ := h
  simp only [bind_ok_iff, constructF, pure_ok_iff] at h
  obtain ⟨s0, ⟨o, h1, rfl⟩, h3⟩ := h
  have hb := construct_built ha h1
  rw [run_cfg h3] at hJ
  refine run_hard (s := { obj := o, files := ctorFiles o.cfg f }) hb.2 hJ ?_ h3
  obtain ⟨et, A, -, -, -, h2⟩ := construct_eq env ha j
  rw [h2] at h1
  cases hr : calcCtanLin env (mkCfg a j et) j.ctanLin (startWork (mkCfg a j et) j A) with
  | error e => rw [hr] at h1; cases h1
  | ok r =>
    rw [hr] at h1
    cases h1
    intro g hg
    cases hg

end

/-- In rounded arithmetic `plastic_step` does not lower the hardening variable: the divisor is at least
the shear modulus, and a monotone rounding keeps a sum with a term that is not negative above the
other term. -/
theorem plasticStep_alpha_rounded {fp : Fp} (m : Material (Fl fp)) (hmu : 0 < m.mu.val)
    (eps epsP : Nat → Fl fp) (alpha : Fl fp) :
    alpha.val ≤ (plasticStep m eps epsP alpha).alpha.val := by
  have hge : ∀ {x : ℝ} {a : Fl fp}, a.val ≤ x → a.val ≤ fp.rnd x := fun {x a} h => by
    rw [← fp.fix _ a.mem]; exact fp.mono h
  have hge0 : ∀ {x : ℝ}, 0 ≤ x → 0 ≤ fp.rnd x := fun h => by
    have := fp.mono h; rwa [fp.fix _ fp.zero] at this
  have hge1 : ∀ {x : ℝ}, 1 ≤ x → 1 ≤ fp.rnd x := fun h => by
    have := fp.mono h; rwa [fp.fix _ fp.one] at this
  unfold plasticStep
  simp only
  split
  · rename_i hf
    rw [Fl.lt_iff, Fl.val_zero] at hf
    generalize fTrial m eps epsP alpha = f at hf
    have h2 : 1 ≤ (((2 : Nat) : Fl fp)).val := hge1 (by norm_num)
    have h3 : 1 ≤ (((3 : Nat) : Fl fp)).val := hge1 (by norm_num)
    have e1 : ((1.0 : Fl fp)).val = 1 := by
      show fp.rnd _ = 1
      rw [show (OfScientific.ofScientific 10 true 1 : ℝ) = 1 by norm_num, fp.fix _ fp.one]
    have e0 : ((0.0 : Fl fp)).val = 0 := by
      show fp.rnd _ = 0
      rw [show (OfScientific.ofScientific 0 true 1 : ℝ) = 0 by norm_num, fp.fix _ fp.zero]
    have hm2 : m.mu.val ≤ (((2 : Nat) : Fl fp) * m.mu).val := hge (by nlinarith)
    have hm3 : m.mu.val ≤ (((3 : Nat) : Fl fp) * m.mu).val := hge (by nlinarith)
    have hz : (0.0 * m.Ka : Fl fp).val = 0 := by
      rw [Fl.val_mul, e0, zero_mul, fp.fix _ fp.zero]
    have hq : ((0.0 * m.Ka) / (((3 : Nat) : Fl fp) * m.mu)).val = 0 := by
      rw [Fl.val_div (by linarith), hz, zero_div, fp.fix _ fp.zero]
    have hs : (1.0 + (0.0 * m.Ka) / (((3 : Nat) : Fl fp) * m.mu)).val = 1 := by
      rw [Fl.val_add, e1, hq, add_zero, fp.fix _ fp.one]
    have hD : m.mu.val ≤ (((2 : Nat) : Fl fp) * m.mu
        * (1.0 + (0.0 * m.Ka) / (((3 : Nat) : Fl fp) * m.mu))).val := by
      rw [Fl.val_mul, hs, mul_one, fp.fix _ (Fl.mem _)]
      exact hm2
    generalize ((2 : Nat) : Fl fp) * m.mu
        * (1.0 + (0.0 * m.Ka) / (((3 : Nat) : Fl fp) * m.mu)) = D at hD
    have hdl : 0 ≤ (f / D).val := by
      rw [Fl.val_div (by linarith)]
      exact hge0 (div_nonneg hf.le (by linarith))
    rw [Fl.val_add]
    refine hge ?_
    rw [Fl.val_mul]
    have : 0 ≤ (Scalar.sqrt (2.0 / ((3 : Nat) : Fl fp))).val := by
      rw [Fl.val_sqrt]
      exact hge0 (Real.sqrt_nonneg _)
    have := hge0 (mul_nonneg this hdl)
    linarith
  · exact le_rfl

end Verif
