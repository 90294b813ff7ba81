import Verif.Lemmas.AgingAny
import Verif.Props.RoundedFlag
import Verif.Props.PlasticCell

/-!
# The hardening variable in rounded arithmetic: property C88
-/

namespace Verif.Props
open Verif Spec Finset

section
variable {α : Type} [Scalar α]

/-- The material of element number `e`, as `get_material` selects it. -/
def elemMat (c : Cfg α) (e : Nat) : Material α := c.mats (if c.elemType.val e = 0 then 0 else 1)

end

variable {fp : Fp}

/-- The computed shear modulus of every plastic element is positive. -/
def ShearPos (c : Cfg (Fl fp)) : Prop :=
  ∀ e, e < c.nelem → (elemMat c e).plasticity = true → 0 < (elemMat c e).mu.val

theorem hardens_fl {c : Cfg (Fl fp)} (hd : c.dim = 3) (hmu : ShearPos c) :
    c.Hardens fun x y => x.val ≤ y.val :=
  ⟨hd, fun _ => le_refl _, fun _ _ _ => le_trans, fun e he hp eps epsP a =>
    plasticStep_alpha_rounded _ (hmu e he hp) eps epsP a⟩

theorem plasticPt_num {c : Cfg (Fl fp)} {e gp : Nat} (he : e < c.nelem)
    (hp : (elemMat c e).plasticity = true) (hg : gp < 8) : PlasticPt c (e * 8 + gp) := by
  refine ⟨by omega, ?_⟩
  rw [show (e * 8 + gp) / 8 = e by omega]
  exact hp

/-- **C88**: in every rounded arithmetic, for a three-dimensional cell whose plastic materials have a
positive shear modulus, in every state reached from the constructor whatever the memory and the
environment, the committed hardening of the plastic elements is not negative. -/
theorem C88_history {env : Env (Fl fp)} {a : Args (Fl fp)} (ha : a.Ok) (hd : a.dim = 3) {j : Junk (Fl fp)}
    {calls : List (Call (Fl fp))} {s : ObjFiles (Fl fp)} (h : Reach env a j calls s)
    (hmu : ShearPos s.obj.cfg) {id : Int} {n : Buf (Fl fp)} (hn : committed s id = some n) :
    ∀ e, e < s.obj.cfg.nelem → (elemMat s.obj.cfg e).plasticity = true → ∀ gp, gp < 8 →
      0 ≤ (n.val (intvarIx e gp 6)).val := by
  intro e he hp gp hg
  have hdc : s.obj.cfg.dim = 3 := by obtain ⟨et, ct, h⟩ := (reach_built ha h).1.eq; rw [h]; exact hd
  have hag := reach_hard ha h (hardens_fl hdc hmu)
  unfold committed at hn
  cases hf : findGp id s.obj.gauss with
  | none => rw [hf] at hn; cases hn
  | some g =>
    rw [hf] at hn
    have h1 := (hag g (findGp_mem' hf)).comm n hn _ (plasticPt_num he hp hg)
    rw [Fl.val_zero] at h1
    rw [intvarIx_pt]
    exact h1

/-- **C88**: in every rounded arithmetic, along every run from a reached state, the committed hardening of
the plastic elements never decreases. -/
theorem C88_monotone {env : Env (Fl fp)} {a : Args (Fl fp)} (ha : a.Ok) (hd : a.dim = 3) {j : Junk (Fl fp)}
    {before calls : List (Call (Fl fp))} {s s' : ObjFiles (Fl fp)} (h : Reach env a j before s)
    (hmu : ShearPos s.obj.cfg) (hr : run env calls s = .ok s') {id : Int} {n : Buf (Fl fp)}
    (hn : committed s id = some n) :
    ∃ n', committed s' id = some n' ∧ ∀ e, e < s.obj.cfg.nelem →
      (elemMat s.obj.cfg e).plasticity = true → ∀ gp, gp < 8 →
        (n.val (intvarIx e gp 6)).val ≤ (n'.val (intvarIx e gp 6)).val := by
  have hb := reach_built ha h
  have hdc : s.obj.cfg.dim = 3 := by obtain ⟨et, ct, h⟩ := hb.1.eq; rw [h]; exact hd
  have hJc := hardens_fl hdc hmu
  have hag := reach_hard ha h hJc
  have hok := hb.2
  clear hb h hmu hdc
  induction calls generalizing s n with
  | nil =>
    simp only [run, pure_ok_iff] at hr; subst hr
    exact ⟨n, hn, fun _ _ _ _ _ => le_rfl⟩
  | cons k l ih =>
    simp only [run, bind_ok_iff] at hr
    obtain ⟨r, h1, h2⟩ := hr
    have hcfg := step_cfg h1
    have step1 : ∃ n1, committed r.state id = some n1 ∧ ∀ q, PlasticPt s.obj.cfg q →
        (n.val (q * 7 + 6)).val ≤ (n1.val (q * 7 + 6)).val := by
      by_cases hk : k = .updateVars
      · subst hk
        have hf := updateList_forall (step_gauss h1)
        unfold committed at hn ⊢
        rcases find_forall₂ hf (fun a b hab => hab.id) id with ⟨e1, -⟩ | ⟨g, g', e1, e2, hab⟩
        · rw [e1] at hn; cases hn
        · rw [e1] at hn
          have hm := findGp_mem' e1
          obtain ⟨n1, e3, e4⟩ := (updateGp_hard hJc (hok.gauss g hm) (hag g hm) hab).2 n hn
          rw [e2]
          exact ⟨n1, e3, e4⟩
      · obtain ⟨n1, e1, e2⟩ := (committed_step env s k r h1 id).1 n hn
        rw [e2 hk] at e1
        exact ⟨n, e1, fun _ _ => le_rfl⟩
    obtain ⟨n1, e1, e2⟩ := step1
    obtain ⟨n', e3, e4⟩ := ih h2 e1 (by rw [hcfg]; exact hJc) (step_hard hok hJc hag h1)
      ((step_sane hok k).post h1)
    refine ⟨n', e3, fun e he hp gp hg => ?_⟩
    rw [hcfg] at e4
    have e5 := e4 e he hp gp hg
    rw [intvarIx_pt] at e5 ⊢
    exact (e2 _ (plasticPt_num he hp hg)).trans e5

theorem tinyP_mu (hu3 : fp.u ≤ 1e-3) (heta : fp.eta ≤ fp.u ^ 2) (k : Nat) (j : Material (Fl fp)) :
    0 < (mkMaterial (fun i => (tinyArgsP (Fl fp)).params (k * 10 + i)) 1 j).mu.val := by
  have hp : ∀ k i, (tinyArgsP (Fl fp)).params (k * 10 + i) = if i % 10 = 1 then 0 else 1 := fun k i => by
    show (if (k * 10 + i) % 10 = 1 then (0 : Fl fp) else 1) = _
    rw [show (k * 10 + i) % 10 = i % 10 by omega]
  have h1 : fp.rnd (1 + 0) = 1 := by rw [add_zero]; exact fp.fix _ fp.one
  have h2 := abs_le.mp (fp.err 2)
  have h3 : fp.rnd (fp.rnd 2 * 1) = fp.rnd 2 := by rw [mul_one]; exact fp.fix _ (fp.mem _)
  have hu00 := fp.u_nonneg
  have heta' : fp.eta ≤ 1e-3 := heta.trans (by norm_num at hu3 ⊢; nlinarith)
  rw [abs_of_nonneg (by norm_num)] at h2
  have h4 : 1 ≤ fp.rnd 2 ∧ fp.rnd 2 ≤ 3 := by norm_num at *; constructor <;> linarith
  have h8 : (((2 : Nat) : Fl fp) * (1 + 0)).val = fp.rnd 2 := by
    rw [Fl.val_mul, Fl.val_nat, Fl.val_add, Fl.val_one, Fl.val_zero, h1]
    exact h3
  have e0 : (tinyArgsP (Fl fp)).params (k * 10 + 0) = 1 := by rw [hp]; rfl
  have e1 : (tinyArgsP (Fl fp)).params (k * 10 + 1) = 0 := by rw [hp]; rfl
  simp only [mkMaterial]
  rw [e0, e1, Fl.val_div (by rw [h8]; linarith [h4.1]), h8, Fl.val_one, one_div]
  have h5 := (abs_le.mp (fp.err (fp.rnd 2)⁻¹)).1
  have h6 : (1 / 3 : ℝ) ≤ (fp.rnd 2)⁻¹ := by rw [one_div]; exact inv_anti₀ (by linarith) h4.2
  have h7 : (fp.rnd 2)⁻¹ ≤ 1 := inv_le_one_of_one_le₀ h4.1
  rw [abs_of_nonneg (by linarith)] at h5
  norm_num at hu3 heta'
  nlinarith

/-- In precise formats the single plastic element of the tiny cell yields under a strain with all
components 1, and the Gauss point gets a history. -/
theorem tinyP_yields : ∃ u0 : ℝ, 0 < u0 ∧ ∀ (fp : Fp), fp.u ≤ u0 → fp.eta ≤ fp.u ^ 2 →
    ∃ (s : ObjFiles (Fl fp)) (n : Buf (Fl fp)),
      Reach (tinyEnv _) (tinyArgsP _) (tinyJunk _) [.setStrain 4 fun _ => 1, .homogenize] s ∧
      committed s 4 = some n ∧ ShearPos s.obj.cfg ∧ 0 < s.obj.cfg.nelem ∧
      (elemMat s.obj.cfg 0).plasticity = true := by
  obtain ⟨s0, w, q, hs0, hv0, -, -, -⟩ := tinyP_exact fun _ => 1
  obtain ⟨hb0, ho0⟩ := reach_built tinyP_ok hs0
  obtain ⟨u1, hu1, H1⟩ := built_elements tinyP_ok tinyP_noTie hb0
  have hJ0 := hb0.j2 tinyP_j2
  have hm0 : ∀ k, k < 2 → s0.obj.cfg.mats k
      = mkMaterial (fun i => (tinyArgsP ℝ).params (k * 10 + i)) 1 ((tinyJunk ℝ).mats k) := fun k hk => by
    obtain ⟨et, ct, h⟩ := hb0.eq
    rw [h]
    show (if k < 2 then _ else _) = _
    rw [if_pos hk]; rfl
  have hk0 : (if s0.obj.cfg.elemType.val (s0.obj.cfg.el 0 0 0) = 0 then 0 else 1) < 2 := by split <;> omega
  have hmat : s0.obj.cfg.matAt (0, 0, 0) = s0.obj.cfg.mats
      (if s0.obj.cfg.elemType.val (s0.obj.cfg.el 0 0 0) = 0 then 0 else 1) := rfl
  have hx : (0, 0, 0) ∈ s0.obj.cfg.fe.elems := by
    rw [Cfg.fe_3 hJ0.dim, Fe.mem_elems]
    obtain ⟨et, ct, h⟩ := hb0.eq
    rw [h]
    exact ⟨by show 0 < 1; omega, by show 0 < 1; omega, by show 0 < 1; omega⟩
  obtain ⟨u2, hu2, H2⟩ := plastic_loud (V := ⟨s0.obj.cfg.numIntVars, fun _ => 0⟩) (e := fun _ => 1) ho0.cfg
    (hb0.geom tinyP_geom) hJ0 (fun q hq => (onBdry_iff ho0.cfg q).mp (tinyP_allBdry hb0 q hq)) hx
    (by rw [hmat, hm0 _ hk0]; rfl) (gp := 7) (by omega) (by
      rw [hmat, hm0 _ hk0]
      have hp : ∀ k i, (tinyArgsP ℝ).params (k * 10 + i) = if i % 10 = 1 then 0 else 1 := fun k i => by
        show (if (k * 10 + i) % 10 = 1 then (0 : ℝ) else 1) = _
        rw [show (k * 10 + i) % 10 = i % 10 by omega]
      have e1 : ∀ m : Material ℝ, m.lambda = 0 → m.mu = 1 / 2 → m.Sy = 1 →
          0 < stressNorm (sigTrial m (fun _ => 1) (epsPAt ⟨s0.obj.cfg.numIntVars, fun _ => 0⟩
              (gloElem3D s0.obj.cfg.nx s0.obj.cfg.ny 0 0 0) 7))
            - yieldRadius m.Sy m.Ka (alphaAt ⟨s0.obj.cfg.numIntVars, fun _ => 0⟩
              (gloElem3D s0.obj.cfg.nx s0.obj.cfg.ny 0 0 0) 7) := by
        intro m h1 h2 h3
        have h4 : stressNorm (sigTrial m (fun _ => 1) (epsPAt ⟨s0.obj.cfg.numIntVars, fun _ => 0⟩
              (gloElem3D s0.obj.cfg.nx s0.obj.cfg.ny 0 0 0) 7)) = Real.sqrt (3 / 2) := by
          unfold stressNorm
          simp only [sigTrial_hooke, dev, hooke, tr, h1, h2, epsPAt]
          norm_num
        rw [h4, h3]
        unfold yieldRadius alphaAt
        have h5 : Real.sqrt (2 / 3) < Real.sqrt (3 / 2) := Real.sqrt_lt_sqrt (by norm_num) (by norm_num)
        simp only [mul_zero, add_zero, mul_one]
        linarith
      refine e1 _ ?_ ?_ ?_
      all_goals simp only [mkMaterial, hp]; norm_num)
  refine ⟨min u1 (min u2 1e-3), by positivity, fun fp hu heta => ?_⟩
  have hu3 : fp.u ≤ 1e-3 := le_trans hu (le_trans (min_le_right _ _) (min_le_right _ _))
  have hu2' : fp.u ≤ u2 := le_trans hu (le_trans (min_le_right _ _) (min_le_left _ _))
  obtain ⟨s, r, g, g', hs, hr, hg, hg', hid, hg1, hg2, hpath, herr⟩ := tinyP_setup fp fun _ => 1
  obtain ⟨hb, ho⟩ := reach_built tinyP_ok hs
  have hcomp := computedJ2_of_built tinyP_ok tinyP_j2 hb0 (tinyP_same fp) hb
    (H1 fp (le_trans hu (min_le_left _ _)) heta _ _ _ (tinyP_same fp) hb)
  have hcfg : r.state.obj.cfg = s.obj.cfg := step_cfg hr
  have hmat' : ∀ e, elemMat s.obj.cfg e = mkMaterial (fun i => (tinyArgsP (Fl fp)).params
      ((if s.obj.cfg.elemType.val e = 0 then 0 else 1) * 10 + i)) 1
      ((tinyJunk (Fl fp)).mats (if s.obj.cfg.elemType.val e = 0 then 0 else 1)) := by
    intro e
    unfold elemMat
    generalize hk : (if s.obj.cfg.elemType.val e = 0 then 0 else 1) = k
    have hk : k < 2 := by rw [← hk]; split <;> omega
    obtain ⟨et, ct, h⟩ := hb.eq
    rw [h]
    show (if k < 2 then _ else _) = _
    rw [if_pos hk]; rfl
  have hn : g'.id = 4 ∧ ∃ n, g'.intVarsN = some n := by
    simp only [step, homogenize, bind_ok_iff, pure_ok_iff] at hr
    obtain ⟨o, ⟨r1, h1, rfl⟩, rfl⟩ := hr
    have hf := homogenizeList_full ho.cfg ho.work ho.gauss h1
    have hg' : r1.1 = [g'] := hg'
    rw [hg, hg'] at hf
    cases hf with
    | cons hf1 hf2 =>
    obtain ⟨w0, s1, hw0, hgo, hs1, rfl⟩ := hf1
    refine ⟨(homogenizeGp_step hs1).id.trans hid, ?_⟩
    obtain ⟨old', l, h1, h2, h3, -⟩ := homogenizeGp_inv ho.cfg hw0 hgo hs1
    unfold homogenizeGp at hs1
    obtain ⟨old, h4, h5⟩ := loadVars_ok hgo hw0.varsOld
    have hold : ∀ k, k < s.obj.cfg.numIntVars → old.val k = 0 := by
      intro k hk
      unfold loadVars at h4
      rw [hg1] at h4
      simp only at h4
      rw [zeroInto_eq (by rw [hw0.varsOld])] at h4
      cases h4; simp [hk]
    rw [h4, M_bind_ok', h3, M_bind_ok'] at hs1
    have h6 := isLinear_eq h3
    rw [if_neg (fun hc => hpath ⟨Option.isNone_iff_eq_none.mp hc.2, h6 ▸ hc.1⟩)] at hs1
    simp only [bind_ok_iff, pure_ok_iff] at hs1
    obtain ⟨s2, h7, rfl⟩ := hs1
    have hw' : Work.Ok s.obj.cfg { w0 with varsOld := old, invMax := l.2 } :=
      ⟨hw0.u, hw0.du, hw0.b, hw0.elemStress, hw0.elemStrain, h5, hw0.varsNew, hw0.A2, hw0.A3⟩
    obtain ⟨w1, o, a, e1, e2, e3, e4, -, e5⟩ := solveGp_flag h7
    have e4' : s2.gp.nrErr 0 = o.err := e4
    have herr : s2.gp.nrErr 0 = 0 := herr
    have hok := ho.cfg
    have hw1 := setDispl_gen hok hw'.u e1
    have hw1ok : w1.Ok s.obj.cfg := by
      rw [hw1]
      exact ⟨rfl, hw'.du, hw'.b, hw'.elemStress, hw'.elemStrain, hw'.varsOld, hw'.varsNew, hw'.A2, hw'.A3⟩
    have hfin := (newtonRaphson_safe (env := tinyEnv (Fl fp)) hok hw1ok).post e2
    obtain ⟨r', q1, q2, q0⟩ := C27_truthful hok hw1ok e2 (by
      rw [Fl.lt_iff, nrMaxTol_fl, ← e4', herr]; exact tol_pos hu3 heta)
    have hd' : s.obj.cfg.dim = 3 := hcomp.toComputed.dim.trans hJ0.dim
    have hN : s.obj.cfg.nn * s.obj.cfg.dim = s.obj.cfg.nx * s.obj.cfg.ny * s.obj.cfg.nz * 3 := by rw [hd']; rfl
    rw [assemblyRhs3_eq hok hd' (hfin.ok.u3 hd') (by rw [hfin.ok.b, hN]) hfin.ok.varsOld hfin.ok.varsNew] at q1
    cases q1
    have hnl : rhsNl s.obj.cfg o.work.u.val o.work.varsOld = true := by
      rw [Cfg.fe_3 hJ0.dim, Fe.mem_elems] at hx
      refine rhsNl_iff.mpr ⟨0, by rw [hcomp.toComputed.nx]; exact hx.1, 0, by rw [hcomp.toComputed.ny]; exact hx.2.1,
        0, by rw [hcomp.toComputed.nz]; exact hx.2.2, ?_⟩
      refine H2 fp hu2' heta _ hcomp _ g.macroStrain w0.u.val _ ?_ ?_ (fun q hq => ?_)
      · intro ex ey ez hx hy hz gp hgp i hi
        rw [hfin.varsOld, hw1]
        show (old.val _).val = 0
        rw [hold _ ?_, Fl.val_zero]
        rw [numIntVars3 hd', hcomp.toComputed.nx, hcomp.toComputed.ny, hcomp.toComputed.nz]
        exact intvarIx_lt (gloElem3D_lt hx hy hz) hgp hi
      · intro v hv
        rw [hg2 v hv]; simp
      · have hq' : q < s.obj.cfg.nn * s.obj.cfg.dim := by rw [hcomp.toComputed.dofs]; exact hq
        rw [newtonRaphson_bdry hok hw1ok e2 hq' (tinyP_allBdry hb q hq'), hw1]
    obtain ⟨n, k, e6, -⟩ := e5 (by rw [← q0]; exact hnl)
    exact ⟨n, e6⟩
  obtain ⟨hid', n, hn⟩ := hn
  refine ⟨r.state, n, ?_, ?_, ?_, ?_, ?_⟩
  · exact (reach_snoc (calls := [.setStrain 4 fun _ => 1]) (k := .homogenize)).mpr ⟨s, r, hs, hr, rfl⟩
  · unfold committed
    rw [hg']
    simp [findGp, hid', hn]
  · intro e he hp
    rw [hcfg, hmat']
    exact tinyP_mu hu3 heta _ _
  · rw [hcfg]
    obtain ⟨et, ct, h⟩ := hb.eq
    rw [h]
    show 0 < 1
    omega
  · rw [hcfg, hmat']; rfl

/-- A cell that has yielded, in a binary format of finite precision: its hardening is not negative, and does
not decrease in a further run. -/
example : ∃ (p : Nat) (emin : ℤ) (hp : 1 ≤ p) (hem : emin ≤ 0)
    (s s' : ObjFiles (Fl (binary p emin hp hem))) (n n' : Buf (Fl (binary p emin hp hem))),
    committed s 4 = some n ∧ committed s' 4 = some n' ∧ (elemMat s.obj.cfg 0).plasticity = true ∧
    run (tinyEnv _) [.updateVars, .setStrain 4 fun _ => -1, .homogenize, .updateVars] s = .ok s' ∧
    0 ≤ (n.val (intvarIx 0 7 6)).val ∧ (n.val (intvarIx 0 7 6)).val ≤ (n'.val (intvarIx 0 7 6)).val := by
  obtain ⟨u0, hu0, H⟩ := tinyP_yields
  obtain ⟨p, emin, hp, hem, hpu, heta⟩ := exists_format hu0
  refine ⟨p, emin, hp, hem, ?_⟩
  generalize binary p emin hp hem = fp at hpu heta
  obtain ⟨s, n, hs, hn, hmu, he, hpl⟩ := H fp hpu heta
  have ho := (reach_built tinyP_ok hs).2
  obtain ⟨s', hs', -⟩ := (run_sane (env := tinyEnv (Fl fp))
    [.updateVars, .setStrain 4 fun _ => -1, .homogenize, .updateVars] ho).returns tinyEnv_quick
  obtain ⟨n', hn', hle⟩ := C88_monotone tinyP_ok rfl hs hmu hs' hn
  exact ⟨s, s', n, n', hn, hn', hpl, hs', C88_history tinyP_ok rfl hs hmu hn 0 he hpl 7 (by omega),
    hle 0 he hpl 7 (by omega)⟩

end Verif.Props
