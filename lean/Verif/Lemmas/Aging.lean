import Verif.Lemmas.History
import Verif.Lemmas.PlasticCell

/-!
# The history of plastic elements along a run
-/

namespace Verif
open Spec

/-- Three-dimensional arguments: admissible elastic constants, and a positive yield stress and no
softening for the materials of type 1; the types are those of /repo/src/micro.cpp:100-112. -/
structure Args.J2 (a : Args ℝ) : Prop where
  dim : a.dim = 3
  E : ∀ i, i < 2 → 0 < a.params (i * 10)
  lo : ∀ i, i < 2 → -1 < a.params (i * 10 + 1)
  hi : ∀ i, i < 2 → a.params (i * 10 + 1) < 1 / 2
  ty : ∀ i, i < 2 → a.matTypes i = 0 ∨ a.matTypes i = 1 ∨ a.matTypes i = 2
  Sy : ∀ i, i < 2 → a.matTypes i = 1 → 0 < a.params (i * 10 + 2)
  Ka : ∀ i, i < 2 → a.matTypes i = 1 → 0 ≤ a.params (i * 10 + 3)

theorem BuiltFrom.j2 {a : Args ℝ} (hg : a.J2) {j : Junk ℝ} {c : Cfg ℝ} (h : BuiltFrom a j c) : c.J2 := by
  obtain ⟨et, ct, rfl⟩ := h.eq
  have adm : ∀ i, i < 2 → (mkMaterial (fun k => a.params (i * 10 + k)) (a.matTypes i)
      (j.mats i)).Admissible := fun i hi =>
    mkMaterial_admissible (hg.E i hi) (hg.lo i hi) (hg.hi i hi) _ _
  refine ⟨hg.dim, fun i hi => ?_, fun i hi hp => ?_⟩
  · simp only [mkCfg, hi, if_true]
    exact adm i hi
  · simp only [mkCfg, hi, if_true] at hp ⊢
    have h1 : a.matTypes i = 1 := by
      simp only [mkMaterial] at hp
      rcases hg.ty i hi with h | h | h
      · simp [h] at hp
      · exact h
      · simp [h] at hp
    refine ⟨adm i hi, ?_, hg.Sy i hi h1, hg.Ka i hi h1⟩
    simp [mkMaterial]

theorem exArgsP_j2 : exArgsP.J2 := by
  refine ⟨rfl, ?_, ?_, ?_, fun _ _ => Or.inr (Or.inl rfl), ?_, ?_⟩
  all_goals intro i hi; obtain rfl | rfl : i = 0 ∨ i = 1 := by omega
  all_goals norm_num [exArgsP, exArgs3]

theorem exP_j2 : exP.cfg.J2 := exP_built.1.j2 exArgsP_j2

variable {env : Env ℝ} {c : Cfg ℝ}

/-- Point `q = 8 e + gp` of the internal variables belongs to a plastic element. -/
def PlasticPt {α : Type} [Scalar α] (c : Cfg α) (q : Nat) : Prop :=
  q < c.nelem * 8 ∧ (matOf c (q / 8)).plasticity = true

section
variable {α : Type} [Scalar α] {c : Cfg α}

theorem PlasticPt.lt {q : Nat} (hq : PlasticPt c q) {i : Nat} (hi : i < 7) : q * 7 + i < c.numIntVars := by
  have := hq.1
  have e : c.numIntVars = c.nelem * 8 * 7 := rfl
  omega

theorem PlasticPt.var {q : Nat} (hq : PlasticPt c q) {i : Nat} (hi : i < 7) : PlasticVar c (q * 7 + i) := by
  refine ⟨hq.lt hi, ?_⟩
  rw [show (q * 7 + i) / 56 = q / 8 by omega]
  exact hq.2

end

/-- Trace of the plastic strain stored at point `q`. -/
noncomputable def trAt (v : Nat → ℝ) (q : Nat) : ℝ := v (q * 7) + v (q * 7 + 1) + v (q * 7 + 2)

theorem plasticStep_alpha_le (m : Material ℝ) (eps epsP : Nat → ℝ) (alpha : ℝ) (hmu : 0 < m.mu) :
    alpha ≤ (plasticStep m eps epsP alpha).alpha := by
  by_cases h : 0 < fTrial m eps epsP alpha
  · rw [plasticStep_flow m eps epsP alpha h]
    have : 0 < Real.sqrt (2 / 3) * (fTrial m eps epsP alpha / (2 * m.mu)) :=
      mul_pos sqrt_two_thirds_pos (by positivity)
    simp only; linarith
  · rw [plasticStep_elastic m eps epsP alpha h]

theorem varAt_older (hJ : c.J2) {u : Nat → ℝ} {vo : Buf ℝ} {q : Nat} :
    vo.val (q * 7 + 6) ≤ varAt c u vo (q * 7 + 6) ∧ trAt (varAt c u vo) q = trAt vo.val q := by
  have hix : ∀ i, intvarIx (q / 8) (q % 8) i = q * 7 + i := fun i => by unfold intvarIx; omega
  have hmu : 0 < (matOf c (q / 8)).mu := by
    unfold matOf
    split <;> exact (hJ.mats _ (by omega)).mu_pos
  let pt := fun e gp => strain3 c u (e % (c.nx - 1)) (e / (c.nx - 1) % (c.ny - 1))
    (e / (c.nx - 1) / (c.ny - 1)) gp
  have ha : alphaAt vo (q / 8) (q % 8) = vo.val (q * 7 + 6) := by unfold alphaAt; rw [hix]
  have hv : ∀ i, i < 7 → varAt c u vo (q * 7 + i) = if i = 6 then (plasticStep (matOf c (q / 8))
      (pt (q / 8) (q % 8)) (epsPAt vo (q / 8) (q % 8)) (alphaAt vo (q / 8) (q % 8))).alpha
      else (plasticStep (matOf c (q / 8)) (pt (q / 8) (q % 8)) (epsPAt vo (q / 8) (q % 8))
        (alphaAt vo (q / 8) (q % 8))).epsP i := by
    intro i hi
    unfold varAt
    simp only
    rw [show (q * 7 + i) / 56 = q / 8 by omega, show (q * 7 + i) / 7 % 8 = q % 8 by omega,
      show (q * 7 + i) % 7 = i by omega]
  constructor
  · rw [hv 6 (by omega), if_pos rfl]
    rw [← ha]
    exact plasticStep_alpha_le _ _ _ _ hmu
  · have h := plasticStep_eps_tr (matOf c (q / 8)) (pt (q / 8) (q % 8)) (epsPAt vo (q / 8) (q % 8))
      (alphaAt vo (q / 8) (q % 8))
    unfold trAt
    have h0 := hv 0 (by omega)
    rw [Nat.add_zero] at h0
    rw [h0, hv 1 (by omega), hv 2 (by omega)]
    unfold tr at h
    simp only [epsPAt, hix] at h
    simpa using h

/-- What is known of the internal variables of a Gauss point, in the plastic elements: the committed
hardening is not negative and not above the trial one, plastic strains have no trace. -/
structure Gp.Aged (c : Cfg ℝ) (g : Gp ℝ) : Prop where
  comm : ∀ n, g.intVarsN = some n → ∀ q, PlasticPt c q → 0 ≤ n.val (q * 7 + 6) ∧ trAt n.val q = 0
  trial : ∀ n k, g.intVarsN = some n → g.intVarsK = some k → ∀ q, PlasticPt c q →
    n.val (q * 7 + 6) ≤ k.val (q * 7 + 6) ∧ trAt k.val q = 0

/-- The same for all Gauss points of an object. -/
def Obj.Aged (o : Obj ℝ) : Prop := ∀ g ∈ o.gauss, g.Aged o.cfg

theorem solveStrain_vars {α : Type} [Scalar α] {env : Env α} {c : Cfg α} (hc : c.Ok) (hd : c.dim = 3)
    {w : Work α} (hw : w.Ok c) {eps : Nat → α}
    {r : PertOut α} (h : solveStrain env c w eps = .ok r) :
    ∃ u : Nat → α, ∀ k, PlasticVar c k → r.nr.work.varsNew.val k = varAt c u w.varsOld k := by
  obtain ⟨u, h1, h2⟩ := setDispl_ok hc hw eps
  unfold solveStrain at h
  rw [h1, M_bind_ok'] at h
  simp only [bind_ok_iff, pure_ok_iff] at h
  obtain ⟨r1, h3, a, h4, rfl⟩ := h
  have hf := h2.trans ((newtonRaphson_safe hc h2.ok).post h3)
  rw [calcAveStress3_eq hc hd (hf.ok.u3 hd) hf.ok.varsOld hf.ok.varsNew] at h4
  cases h4
  refine ⟨r1.work.u.val, fun k hk => ?_⟩
  rw [← hf.varsOld]
  exact (allPut_puts hd r1.work.varsNew k).1 hk

theorem homogenizeGp_aged (hc : c.Ok) (hJ : c.J2) {g : Gp ℝ} {w : Work ℝ} {s : GpWork ℝ} (hw : w.Ok c)
    (hg : g.Ok c) (ha : g.Aged c) (h : homogenizeGp env c g w = .ok s) : s.gp.Aged c := by
  obtain ⟨old, l, hsz, hold, -, h⟩ := homogenizeGp_inv hc hw hg h
  rcases h with ⟨-, h1, h2, h3, -⟩ | ⟨-, r, g1, hsol, -, -, -, hst, hn, hkk, -⟩
  · exact ⟨fun n hn => by (rw [h2] at hn; cases hn), fun n k hn => by (rw [h2] at hn; cases hn)⟩
  · obtain ⟨h1, -, -, -, -, -, h2, h3⟩ := storeVars_inv hst
    cases hnl : r.nr.nl with
    | false =>
      have e := h2 hnl
      rw [e] at hn hkk
      exact ⟨fun n h => ha.comm n (hn ▸ h), fun n k h h' => ha.trial n k (hn ▸ h) (hkk ▸ h')⟩
    | true =>
      obtain ⟨n, k, e1, e2, e3⟩ := h3 hnl
      have hw' : Work.Ok c { w with varsOld := old, invMax := l.2 } :=
        ⟨hw.u, hw.du, hw.b, hw.elemStress, hw.elemStrain, hsz, hw.varsNew, hw.A2, hw.A3⟩
      obtain ⟨u, hu⟩ := solveStrain_vars hc hJ.dim hw' hsol
      have hno : ∀ i, i < c.numIntVars → n.val i = old.val i := by
        intro i hi
        rw [hold i hi]
        cases hN : g.intVarsN with
        | some m =>
          have := h1.vars m hN
          rw [e1] at this
          cases this
          rfl
        | none =>
          rcases h1.fresh hN with h | ⟨m, h, -, h0⟩
          · rw [e1] at h; cases h
          · rw [e1] at h; cases h
            exact h0 i
      have hcomm : ∀ q, PlasticPt c q → 0 ≤ n.val (q * 7 + 6) ∧ trAt n.val q = 0 := by
        intro q hq
        cases hN : g.intVarsN with
        | some m =>
          have := h1.vars m hN
          rw [e1] at this
          cases this
          exact ha.comm _ hN q hq
        | none =>
          rcases h1.fresh hN with h | ⟨m, h, -, h0⟩
          · rw [e1] at h; cases h
          · rw [e1] at h; cases h
            unfold trAt
            simp [h0]
      refine ⟨fun n' h => ?_, fun n' k' h h' q hq => ?_⟩
      · rw [hn, e1] at h; cases h
        exact hcomm
      · rw [hn, e1] at h; cases h
        rw [hkk, e2] at h'; cases h'
        obtain ⟨v1, v2⟩ := varAt_older (u := u) (vo := old) hJ (q := q)
        have hk : ∀ i, i < 7 → k.val (q * 7 + i) = varAt c u old (q * 7 + i) := fun i hi => by
          rw [e3 _ (hq.lt hi), hu _ (hq.var hi)]
        have hk0 := hk 0 (by omega)
        rw [Nat.add_zero] at hk0
        have hn0 := hno (q * 7) (hq.lt (i := 0) (by omega))
        constructor
        · rw [hk 6 (by omega), hno _ (hq.lt (by omega))]; exact v1
        · rw [← (hcomm q hq).2]
          have : trAt k.val q = trAt (varAt c u old) q := by
            unfold trAt; rw [hk0, hk 1 (by omega), hk 2 (by omega)]
          rw [this, v2]
          unfold trAt
          rw [hn0, hno _ (hq.lt (i := 1) (by omega)), hno _ (hq.lt (i := 2) (by omega))]

theorem homogenizeList_aged (hc : c.Ok) (hJ : c.J2) {l : List (Gp ℝ)} {w : Work ℝ} {r : ListWork ℝ}
    (hw : w.Ok c) (hg : ∀ g ∈ l, g.Ok c) (ha : ∀ g ∈ l, g.Aged c)
    (h : homogenizeList env c l w = .ok r) : ∀ g ∈ r.gauss, g.Aged c := by
  induction l generalizing w r with
  | nil =>
    simp only [homogenizeList, pure_ok_iff] at h
    subst h
    simp
  | cons g l ih =>
    simp only [homogenizeList, bind_ok_iff, pure_ok_iff] at h
    obtain ⟨s, hs, r1, hr, rfl⟩ := h
    have hs' := (homogenizeGp_safe hc hw (hg g (by simp))).post hs
    have h1 := homogenizeGp_aged hc hJ hw (hg g (by simp)) (ha g (by simp)) hs
    have h2 := ih hs'.1 (fun g h => hg g (by simp [h])) (fun g h => ha g (by simp [h])) hr
    intro g' hg'
    rcases List.mem_cons.mp hg' with rfl | h
    · exact h1
    · exact h2 g' h

theorem setStrainList_aged {l : List (Gp ℝ)} (ha : ∀ g ∈ l, g.Aged c) (nvoi : Nat)
    (id : Int) (eps : Nat → ℝ) (junk : Gp ℝ) : ∀ g ∈ setStrainList nvoi id eps junk l, g.Aged c := by
  induction l with
  | nil =>
    intro g hg
    simp only [setStrainList, List.mem_singleton] at hg
    subst hg
    exact ⟨fun b hb => (by cases hb), fun b k hb => (by cases hb)⟩
  | cons a l ih =>
    intro g hg
    unfold setStrainList at hg
    have h0 := ha a (by simp)
    split at hg
    · rcases List.mem_cons.mp hg with rfl | h
      · exact ⟨h0.comm, h0.trial⟩
      · exact ha g (by simp [h])
    · rcases List.mem_cons.mp hg with rfl | h
      · exact h0
      · exact ih (fun g h => ha g (by simp [h])) g h

/-- `update_vars` for one Gauss point, in the plastic elements. -/
theorem updateGp_older {g g' : Gp ℝ} (hg : g.Ok c) (ha : g.Aged c) (hu : GpUpdate c g g') :
    g'.Aged c ∧ ∀ n, g.intVarsN = some n → ∃ n', g'.intVarsN = some n' ∧
      ∀ q, PlasticPt c q → n.val (q * 7 + 6) ≤ n'.val (q * 7 + 6) := by
  cases hN : g.intVarsN with
  | none =>
    refine ⟨?_, fun n h => by cases h⟩
    rw [hu.lin hN]; exact ha
  | some n =>
    obtain ⟨n', h3, -, h4⟩ := hu.vars n hN
    have hb := hg.both
    rw [hN] at hb
    cases hK : g.intVarsK with
    | none => rw [hK] at hb; cases hb
    | some k =>
      have e := h4 k hK
      have e0 : ∀ q, PlasticPt c q → n'.val (q * 7) = k.val (q * 7) := fun q hq =>
        e _ (hq.lt (i := 0) (by omega))
      have et : ∀ q, PlasticPt c q → trAt n'.val q = 0 := fun q hq => by
        rw [← (ha.trial n k hN hK q hq).2]
        unfold trAt
        rw [e0 q hq, e _ (hq.lt (i := 1) (by omega)), e _ (hq.lt (i := 2) (by omega))]
      have ea : ∀ q, PlasticPt c q → n'.val (q * 7 + 6) = k.val (q * 7 + 6) := fun q hq =>
        e _ (hq.lt (by omega))
      refine ⟨⟨fun m hm q hq => ?_, fun m k' hm hk q hq => ?_⟩, fun m hm => ⟨n', h3, fun q hq => ?_⟩⟩
      · rw [h3] at hm; cases hm
        rw [ea q hq]
        exact ⟨(ha.comm n hN q hq).1.trans (ha.trial n k hN hK q hq).1, et q hq⟩
      · rw [h3] at hm; cases hm
        rw [hu.trial, hK] at hk; cases hk
        exact ⟨(ea q hq).le, (ha.trial n k hN hK q hq).2⟩
      · cases hm
        rw [ea q hq]
        exact (ha.trial n k hN hK q hq).1

theorem updateList_aged {l l' : List (Gp ℝ)} (hg : ∀ g ∈ l, g.Ok c)
    (ha : ∀ g ∈ l, g.Aged c) (h : updateList c l = .ok l') : ∀ g ∈ l', g.Aged c := by
  induction l generalizing l' with
  | nil => simp only [updateList, pure_ok_iff] at h; subst h; simp
  | cons a l ih =>
    simp only [updateList, bind_ok_iff, pure_ok_iff] at h
    obtain ⟨g1, h1, r, h2, rfl⟩ := h
    intro g' hg'
    rcases List.mem_cons.mp hg' with rfl | h
    · exact (updateGp_older (hg a (by simp)) (ha a (by simp)) (updateGp_inv h1)).1
    · exact ih (fun g h => hg g (by simp [h])) (fun g h => ha g (by simp [h])) h2 g' h

theorem step_aged {s : ObjFiles ℝ} (hs : s.obj.Ok) (hJ : s.obj.cfg.J2) (ha : s.obj.Aged) {k : Call ℝ}
    {r : Stepped ℝ} (h : step env s k = .ok r) : r.state.obj.Aged := by
  have hcfg := step_cfg h
  have hgs := step_gauss h
  have same : r.state.obj.gauss = s.obj.gauss → r.state.obj.Aged := fun e g hg => by
    rw [hcfg]; exact ha g (e ▸ hg)
  cases k with
  | setStrain id eps =>
    intro g hg
    rw [hcfg]
    simp only at hgs
    rw [hgs] at hg
    exact setStrainList_aged ha _ _ _ _ g hg
  | homogenize =>
    obtain ⟨w, hw, hg, -⟩ := hgs
    intro g hg'
    rw [hcfg]
    rw [hg] at hg'
    exact homogenizeList_aged hs.cfg hJ hs.work hs.gauss ha hw g hg'
  | updateVars =>
    intro g hg'
    rw [hcfg]
    exact updateList_aged hs.gauss ha hgs g hg'
  | getStress id buf => exact same hgs
  | getCtan id buf => exact same hgs
  | getNl id => exact same hgs
  | output t id => exact same hgs
  | writeInfo => exact same hgs

theorem run_aged {calls : List (Call ℝ)} {s s' : ObjFiles ℝ} (hs : s.obj.Ok) (hJ : s.obj.cfg.J2)
    (ha : s.obj.Aged) (h : run env calls s = .ok s') : s'.obj.Aged := by
  induction calls generalizing s with
  | nil => simp only [run, pure_ok_iff] at h; subst h; exact ha
  | cons k l ih =>
    simp only [run, bind_ok_iff] at h
    obtain ⟨r, h1, h2⟩ := h
    exact ih ((step_sane hs k).post h1) (by rw [step_cfg h1]; exact hJ) (step_aged hs hJ ha h1) h2

theorem reach_aged {a : Args ℝ} (ha : a.Ok) (hJ : a.J2) {j : Junk ℝ} {calls : List (Call ℝ)}
    {s : ObjFiles ℝ} (h : Reach env a j calls s) : s.obj.Aged := by
  obtain ⟨f, h⟩ := h
  simp only [bind_ok_iff, constructF, pure_ok_iff] at h
  obtain ⟨s0, ⟨o, h1, rfl⟩, h3⟩ := h
  have hb := construct_built ha h1
  refine run_aged (s := { obj := o, files := ctorFiles o.cfg f }) hb.2 (hb.1.j2 hJ) ?_ h3
  obtain ⟨et, A, -, -, -, h2⟩ := construct_eq env ha j
  rw [h2] at h1
  cases hr : calcCtanLin env (mkCfg a j et) j.ctanLin (startWork (mkCfg a j et) j A) with
  | error e => rw [hr] at h1; cases h1
  | ok r =>
    rw [hr] at h1
    cases h1
    intro g hg
    cases hg

end Verif
