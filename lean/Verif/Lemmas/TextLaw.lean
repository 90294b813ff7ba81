import Verif.Lemmas.TextLoops
import Verif.Model.Assembly

/-!
# The text of the material law
-/

namespace Verif.Text

variable {α : Type} [Scalar α]

/-- What the model assumes of literals: the `int` literals 0 and 1 and the `double` literal 0.0
are zero and one. -/
structure LitLaws (α : Type) [Scalar α] : Prop where
  zero : ((0 : Nat) : α) = 0
  one : ((1 : Nat) : α) = 1
  zeroD : (0.0 : α) = 0

theorem LitLaws.ofInt0 (L : LitLaws α) : (ofInt 0 : α) = 0 := L.zero
theorem LitLaws.ofInt1 (L : LitLaws α) : (ofInt 1 : α) = 1 := L.one

section
variable {c : Cfg α} {n : Nat}

theorem run_get_dev_tensor (L : LitLaws α) {s : St α} {w : Work α} {f g : Nat → α} (hw : s.w = w)
    (hT : VecOn (s.l.v .tensor) 6 (· < 6) f)
    (hD : VecOn (s.l.v .tensor_dev) 6 (fun _ => False) g) :
    Gives (run c (n + 1) .get_dev_tensor s) (fun t =>
      VecOn (t.l.v .tensor) 6 (· < 6) f ∧ VecOn (t.l.v .tensor_dev) 6 (· < 6) (devTensor f) ∧
      t.w = w) := by
  show Gives ((t_get_dev_tensor).exec c (run c n) s) _
  refine Gives.seq (Gives.map (m := 0) (N := 6) f hD (by omega) le_rfl rfl ?_) ?_
  · intro k t _ hk hs hi hP
    keep hs
    evs
    simp
  intro t hs hP
  keep hs
  refine (Gives.map (m := 0) (N := 3) (devTensor f) (hP.congr (T := (· < 6)) (g := f) le_rfl
    fun q hq => ⟨by omega, by simp [hq]⟩) (by omega) (by omega) rfl ?_).same.mono ?_
  · intro k t _ hk hs hi hP
    keep hs
    evs
    simp [devTensor, hk, L.ofInt1]
  · rintro t' ⟨hs, hP⟩
    keep hs
    refine ⟨hT, hP.congr le_rfl fun q hq => ⟨Or.inl hq, by simp [devTensor]; omega⟩, hw⟩

theorem Gives.initV6 {s : St α} {x : V} {e : DExp} {y : α} (h : e.eval c s = .ok y) :
    Gives ((Stmt.initV x [e, e, e, e, e, e]).exec c (run c n) s)
      (fun t => VecOn (t.l.v x) 6 (· < 6) (fun _ => y)) := by
  refine ⟨_, by simp [Stmt.exec, evalList, h]; rfl, ⟨_, if_pos rfl, le_refl _, ?_⟩⟩
  intro q hq
  interval_cases q <;> rfl

theorem run_plastic_step (L : LitLaws α) {s : St α} {w : Work α} {m : Material α}
    {eps ep g g' : Nat → α} {al : α} (hw : s.w = w)
    (hk : s.l.d .material_k = some m.k) (hmu : s.l.d .material_mu = some m.mu)
    (hKa : s.l.d .material_Ka = some m.Ka) (hSy : s.l.d .material_Sy = some m.Sy)
    (he : VecOn (s.l.v .eps) 6 (· < 6) eps) (hp : VecOn (s.l.v .eps_p_old) 6 (· < 6) ep)
    (hal : s.l.d .alpha_old = some al)
    (hn : VecOn (s.l.v .eps_p_new) 6 (fun _ => False) g)
    (hst : VecOn (s.l.v .stress) 6 (fun _ => False) g')
    (hnl : s.l.i .non_linear = some 0) :
    Gives (run c (n + 2) .plastic_step s) (fun t =>
      VecOn (t.l.v .eps) 6 (· < 6) eps ∧
      VecOn (t.l.v .eps_p_new) 6 (· < 6) (plasticStep m eps ep al).epsP ∧
      t.l.d .alpha_new = some (plasticStep m eps ep al).alpha ∧
      t.l.i .non_linear = some (if (plasticStep m eps ep al).nl = true then 1 else 0) ∧
      VecOn (t.l.v .stress) 6 (· < 6) (plasticStep m eps ep al).stress ∧
      t.w = w) := by
  show Gives (t_plastic_step.exec c (run c (n + 1)) s) _
  refine Gives.seq (Gives.declV (fun _ => 0)) ?_
  intro s hs hed; keep hs
  refine Gives.seq (Gives.declV (fun _ => 0)) ?_
  intro s hs hpd; keep hs
  refine Gives.seq (Gives.initV6 (ev_lit _ _ _)) ?_
  intro s hs hno; keep hs
  refine Gives.seq (Gives.setD (ev_lit _ _ _)) ?_
  intro s hs hdl; keep hs
  refine Gives.seq (Gives.declV (fun _ => 0)) ?_
  intro s hs hsig; keep hs
  refine Gives.seq Gives.declD ?_
  intro s hs _; keep hs
  refine Gives.seq (Gives.call (P := fun t => VecOn (t.l.v .eps_p_old) 6 (· < 6) ep ∧
    VecOn (t.l.v .eps_p_dev_1) 6 (· < 6) (devTensor ep) ∧ t.w = w) rfl
    (run_get_dev_tensor L hw hp hpd) (fun _ h => h)) ?_
  rintro s hs ⟨hp', hpd', hw'⟩; keep hs
  refine Gives.seq (Gives.call (P := fun t => VecOn (t.l.v .eps) 6 (· < 6) eps ∧
    VecOn (t.l.v .eps_dev) 6 (· < 6) (devTensor eps) ∧ t.w = w) rfl
    (run_get_dev_tensor L hw he hed) (fun _ h => h)) ?_
  rintro s hs ⟨he', hed', hw''⟩; keep hs
  -- the trial stress
  refine Gives.seq (Gives.map (m := 0) (N := 3) (sigTrial m eps ep) hsig (by omega) (by omega)
    rfl ?_) ?_
  · intro k t _ hk3 hs hi hP
    keep hs
    evs
    simp [sigTrial, hk3, ofInt_two]
  intro s hs hsig'; keep hs
  refine Gives.seq (Gives.map (m := 3) (N := 6) (sigTrial m eps ep) hsig' (by omega) (by omega)
    rfl ?_) ?_
  · intro k t hk3 hk6 hs hi hP
    keep hs
    evs
    simp [sigTrial, hk3]
  intro s hs hsig''; keep hs
  replace hsig : VecOn (s.l.v .sig_dev_trial) 6 (· < 6) (sigTrial m eps ep) :=
    hsig''.congr le_rfl fun q hq => ⟨by omega, by split; rfl; rw [if_pos]; omega⟩
  clear hsig''
  refine Gives.seq (Gives.setD (y := sigNorm (sigTrial m eps ep)) ?_) ?_
  · evs
    rfl
  intro s hs hnorm; keep hs
  refine Gives.seq (Gives.setD (y := fTrial m eps ep al) ?_) ?_
  · evs
    rfl
  intro s hs hf; keep hs
  -- the two branches
  refine Gives.seq (P := fun t => VecOn (t.l.v .eps_p_new) 6 (· < 6) (plasticStep m eps ep al).epsP ∧
      t.l.d .alpha_new = some (plasticStep m eps ep al).alpha ∧
      t.l.i .non_linear = some (if (plasticStep m eps ep al).nl = true then 1 else 0) ∧
      ∃ dl no, t.l.d .dl = some dl ∧ VecOn (t.l.v .normal) 6 (· < 6) no ∧
        (plasticStep m eps ep al).stress = plasticStress m eps (sigTrial m eps ep) dl no) ?_ ?_
  · by_cases hlt : Scalar.lt 0 (fTrial m eps ep al) = true
    · refine Gives.ite_pos (ok_to (ev_ltD (ev_ofInt (ev_ilit _)) (ev_var hf))
        (by rw [L.ofInt0, hlt])) ?_
      have hR : plasticStep m eps ep al = _ := if_pos hlt
      refine Gives.seq (Gives.setI (ev_ilit _)) ?_
      intro s hs hnl'; keep hs
      refine Gives.seq (Gives.map (m := 0) (N := 6)
        (fun i => sigTrial m eps ep i / sigNorm (sigTrial m eps ep)) hno (by omega) le_rfl rfl ?_) ?_
      · intro k t _ hk6 hs hi hP
        keep hs
        evs
        simp
      intro s hs hno'; keep hs
      refine Gives.seq (Gives.setD (by ev)) ?_
      intro s hs hdl'; keep hs
      refine Gives.seq (Gives.map (m := 0) (N := 6) (plasticStep m eps ep al).epsP hn (by omega)
        le_rfl rfl ?_) ?_
      · intro k t _ hk6 hs hi hP
        keep hs
        evs
        rw [hR]
        simp [ofInt_two, ofInt_three, hk6]
      intro s hs hn'; keep hs
      refine (Gives.setD (by ev)).same.mono ?_
      rintro t ⟨hs, ha⟩; keep hs
      refine ⟨hn'.congr le_rfl fun q hq => ⟨by omega, by simp; omega⟩, ?_, ?_, _,
        fun i => sigTrial m eps ep i / sigNorm (sigTrial m eps ep), hdl',
        hno'.congr le_rfl fun q hq => ⟨by omega, by simp; omega⟩, ?_⟩
      · rw [ha, hR]; rfl
      · rw [hnl', hR]; rfl
      · rw [hR]; rfl
    · refine Gives.ite_neg (ok_to (ev_ltD (ev_ofInt (ev_ilit _)) (ev_var hf))
        (by rw [L.ofInt0]; simpa using hlt)) ?_
      have hR : plasticStep m eps ep al = _ := if_neg hlt
      refine Gives.seq (Gives.map (m := 0) (N := 6) ep hn (by omega) le_rfl rfl ?_) ?_
      · intro k t _ hk6 hs hi hP
        keep hs
        evs
        simp
      intro s hs hn'; keep hs
      refine (Gives.setD (ev_var hal)).same.mono ?_
      rintro t ⟨hs, ha⟩; keep hs
      refine ⟨hn'.congr le_rfl fun q hq => ⟨by omega, by rw [hR]; simp; omega⟩, ?_, ?_, _, _, hdl,
        hno, ?_⟩
      · rw [ha, hR]
      · rw [hnl, hR]; rfl
      · rw [hR]
        have h0 : (OfScientific.ofScientific 00 true 1 : α) = 0 := L.zeroD
        rw [h0]
  rintro s hs ⟨hn', ha', hnl', dl, no, hdl', hno', hR⟩; keep hs
  rw [hR]
  -- the stress
  refine Gives.seq (Gives.map (m := 0) (N := 6) (sigTrial m eps ep) hst (by omega) le_rfl rfl ?_) ?_
  · intro k t _ hk6 hs hi hP
    keep hs
    evs
    simp
  intro s hs hst1; keep hs
  refine Gives.seq (Gives.map (m := 0) (N := 3)
    (fun i => sigTrial m eps ep i + m.k * (eps 0 + eps 1 + eps 2))
    (hst1.congr (T := (· < 6)) (g := sigTrial m eps ep) le_rfl
      fun q hq => ⟨by omega, by simp; omega⟩) (by omega) (by omega) rfl ?_) ?_
  · intro k t _ hk6 hs hi hP
    keep hs
    evs
    simp
  intro s hs hst2; keep hs
  refine (Gives.map (m := 0) (N := 6) (plasticStress m eps (sigTrial m eps ep) dl no)
    (hst2.congr (T := (· < 6)) (g := fun i => if i < 3 then
      sigTrial m eps ep i + m.k * (eps 0 + eps 1 + eps 2) else sigTrial m eps ep i)
      le_rfl fun q hq => ⟨by omega, by simp⟩) (by omega) le_rfl rfl ?_).same.mono ?_
  · intro k t _ hk6 hs hi hP
    keep hs
    evs
    simp [plasticStress, ofInt_two]
  rintro t ⟨hs, hst3⟩; keep hs
  exact ⟨he', hn', ha', hnl', hst3.congr le_rfl fun q hq => ⟨by omega, by simp; omega⟩, hw⟩

theorem run_get_material {s : St α} {w : Work α} {m : Material α} {e : Nat} (hw : s.w = w)
    (hm : getMaterial c e = .ok m) (he : s.l.i .e = some (e : Int)) :
    Gives (run c (n + 1) .get_material s) (fun t =>
      t.l.d .material_E = some m.E ∧ t.l.d .material_nu = some m.nu ∧
      t.l.d .material_Sy = some m.Sy ∧ t.l.d .material_Ka = some m.Ka ∧
      t.l.d .material_mu = some m.mu ∧ t.l.d .material_k = some m.k ∧
      t.l.d .material_lam = some m.lambda ∧
      t.l.i .material_plasticity = some (if m.plasticity = true then 1 else 0) ∧ t.w = w) := by
  show Gives (t_get_material.exec c (run c n) s) _
  unfold getMaterial at hm
  split at hm
  case isFalse => cases hm
  rename_i ht
  rw [bind_ok_iff] at hm
  obtain ⟨v, hv, hm⟩ := hm
  cases hm
  refine Gives.seq Gives.declI ?_
  intro s hs _; keep hs
  have hin : Gives ((Stmt.ite (.eqI (.elemType (.var .e)) (.lit 0)) (.setI .mat_num (.lit 0))
      (.setI .mat_num (.lit 1))).exec c (run c n) s)
      (fun t => t.l.i .mat_num = some ((if v = 0 then 0 else 1 : Nat) : Int)) := by
    have hb : (BExp.eqI (.elemType (.var .e)) (.lit 0)).eval c s = .ok (decide (v = 0)) :=
      ev_eqI (ev_elemType (ev_ivar he) rfl hv) (ev_ilit _)
    by_cases h0 : v = 0
    · refine Gives.ite_pos (hb.trans (by simp [h0])) ?_
      rw [if_pos h0]
      exact Gives.setI (ev_ilit _)
    · refine Gives.ite_neg (hb.trans (by simp [h0])) ?_
      rw [if_neg h0]
      exact Gives.setI (ev_ilit _)
  refine Gives.seq (P := fun t => t.l.i .mat_num = some ((if v = 0 then 0 else 1 : Nat) : Int))
    ?_ ?_
  · have hb : ∀ z, (BExp.eqI (.mem .micro_type) (.lit z)).eval c s
        = .ok (decide (c.microType = z)) := fun z => ev_eqI (ev_imem _) (ev_ilit _)
    by_cases h0 : c.microType = 0
    · exact Gives.ite_pos ((hb 0).trans (by simp [h0])) hin
    · refine Gives.ite_neg ((hb 0).trans (by simp [h0])) ?_
      exact Gives.ite_pos ((hb 1).trans (by simp [ht.resolve_left h0])) hin
  intro s hs hk; keep hs
  generalize hkk : (if v = 0 then 0 else 1 : Nat) = k at hk
  have hk10 : k < 10 := by rw [← hkk]; split <;> omega
  refine Gives.seq (Gives.setD (ev_mat (ev_ivar hk) hk10)) ?_
  intro s hs h1; keep hs
  refine Gives.seq (Gives.setD (ev_mat (ev_ivar hk) hk10)) ?_
  intro s hs h2; keep hs
  refine Gives.seq (Gives.setD (ev_mat (ev_ivar hk) hk10)) ?_
  intro s hs h3; keep hs
  refine Gives.seq (Gives.setD (ev_mat (ev_ivar hk) hk10)) ?_
  intro s hs h4; keep hs
  refine Gives.seq (Gives.setD (ev_mat (ev_ivar hk) hk10)) ?_
  intro s hs h5; keep hs
  refine Gives.seq (Gives.setD (ev_mat (ev_ivar hk) hk10)) ?_
  intro s hs h6; keep hs
  refine Gives.seq (Gives.setD (ev_mat (ev_ivar hk) hk10)) ?_
  intro s hs h7; keep hs
  refine (Gives.setI (ev_matPl (ev_ivar hk) hk10)).same.mono ?_
  rintro t ⟨hs, h8⟩; keep hs
  exact ⟨h1, h2, h3, h4, h5, h6, h7, h8, hw⟩

theorem run_get_stress3D (L : LitLaws α) {s : St α} {w : Work α} {ex ey ez gp : Nat}
    {eps g : Nat → α} {r : StressOut α} (hw : s.w = w)
    (hm : getStress3D c w.varsOld w.varsNew ex ey ez gp eps = .ok r)
    (hx : 1 ≤ c.nx) (hy : 1 ≤ c.ny)
    (hex : s.l.i .ex = some (ex : Int)) (hey : s.l.i .ey = some (ey : Int))
    (hez : s.l.i .ez = some (ez : Int)) (hgp : s.l.i .gp = some (gp : Int))
    (he : VecOn (s.l.v .eps) 6 (· < 6) eps)
    (hst : VecOn (s.l.v .stress_gp) 6 (fun _ => False) g) :
    Gives (run c (n + 3) .get_stress3D s) (fun t =>
      VecOn (t.l.v .eps) 6 (· < 6) eps ∧
      t.l.i .non_linear = some (if r.nl = true then 1 else 0) ∧
      VecOn (t.l.v .stress_gp) 6 (· < 6) r.stress ∧
      t.w = { w with varsNew := r.varsNew }) := by
  show Gives (t_get_stress3D.exec c (run c (n + 2)) s) _
  unfold getStress3D at hm
  simp only [] at hm
  rw [bind_ok_iff] at hm
  obtain ⟨m, hmat, hm⟩ := hm
  refine Gives.seq (Gives.setI (ev_ilit _)) ?_
  intro s hs hnl; keep hs
  refine Gives.seq (Gives.declM (fun _ _ => 0)) ?_
  intro s hs _; keep hs
  refine Gives.seq (Gives.setI (k := ((gloElem3D c.nx c.ny ex ey ez : Nat) : Int)) ?_) ?_
  · evs
    simp only [GI.get, gloElem3D]
    push_cast [hx, hy]
    ring
  intro s hs hee; keep hs
  generalize gloElem3D c.nx c.ny ex ey ez = e at *
  refine Gives.seq Gives.declMat ?_
  intro s hs _; keep hs
  refine Gives.seq (Gives.call' (P := fun t =>
      t.l.d .material_E = some m.E ∧ t.l.d .material_nu = some m.nu ∧
      t.l.d .material_Sy = some m.Sy ∧ t.l.d .material_Ka = some m.Ka ∧
      t.l.d .material_mu = some m.mu ∧ t.l.d .material_k = some m.k ∧
      t.l.d .material_lam = some m.lambda ∧
      t.l.i .material_plasticity = some (if m.plasticity = true then 1 else 0) ∧ t.w = w)
    (Q := _) ?_ (fun _ h => h)) ?_
  · refine ⟨_, by simp only [params, passAll, passIn, ev_ivar hee, M_bind_ok', M_pure]; rfl, ?_⟩
    exact run_get_material hw hmat rfl
  rintro s hs ⟨h1, h2, h3, h4, h5, h6, h7, h8, hw'⟩; keep hs
  have hb : (BExp.eqI (.var .material_plasticity) (.lit 1)).eval c s
      = .ok (decide (m.plasticity = true)) :=
    ok_to (ev_eqI (ev_ivar h8) (ev_ilit _)) (by split <;> simp_all)
  by_cases hpl : m.plasticity = true
  · refine Gives.ite_pos (hb.trans (by simp [hpl])) ?_
    rw [if_pos hpl] at hm
    simp only [bind_ok_iff, pure_ok_iff] at hm
    obtain ⟨ep, hep, al, hal, v, hv, v', hv', rfl⟩ := hm
    have hep' := gather_ok hep
    refine Gives.seq Gives.declD ?_
    intro s hs _; keep hs
    refine Gives.seq Gives.declD ?_
    intro s hs _; keep hs
    refine Gives.seq (Gives.declV (fun _ => 0)) ?_
    intro s hs hpo; keep hs
    refine Gives.seq (Gives.declV (fun _ => 0)) ?_
    intro s hs hpn; keep hs
    refine Gives.seq (Gives.map (m := 0) (N := 6) ep hpo (by omega) le_rfl rfl ?_) ?_
    · intro k t _ hk hs hi hP
      keep hs
      exact ev_memRead (by idx) (by rw [hw]; rfl) (hep' k hk)
    intro s hs hpo'; keep hs
    refine Gives.seq (Gives.setD (ev_memRead (by idx) (by rw [hw]; rfl) hal)) ?_
    intro s hs hal'; keep hs
    refine Gives.seq (Gives.call' (P := fun t =>
      VecOn (t.l.v .eps) 6 (· < 6) eps ∧
      VecOn (t.l.v .eps_p_new) 6 (· < 6) (plasticStep m eps ep al).epsP ∧
      t.l.d .alpha_new = some (plasticStep m eps ep al).alpha ∧
      t.l.i .non_linear = some (if (plasticStep m eps ep al).nl = true then 1 else 0) ∧
      VecOn (t.l.v .stress_gp) 6 (· < 6) (plasticStep m eps ep al).stress ∧
      t.w = w) (Q := _) ?_ (fun _ h => h)) ?_
    · refine ⟨_, by simp only [params, passAll, passIn, ev_var hal', M_bind_ok', M_pure]; rfl, ?_⟩
      exact run_plastic_step L hw h6 h5 h4 h3 he
        (hpo'.congr le_rfl fun q hq => ⟨by omega, by simp; omega⟩) rfl hpn hst hnl
    rintro s hs ⟨he', hn', ha', hnl', hst', hw'⟩; keep hs
    refine Gives.seq (Gives.memLoop (g := .vars_new) (N := 6) (p := v) (ix := fun i => intvarIx e gp i) hw rfl hv ?_) ?_
    · intro k t q q' hk hs hi hq hf
      keep hs
      exact ⟨_, by idx, by evs; rfl, hf⟩
    intro s hs hw''; keep hs
    refine (Gives.memSt (g := .vars_new) hw'' (k := intvarIx e gp 6) (by idx) (ev_var ha') hv').same.mono ?_
    rintro t ⟨hs, hw3⟩; keep hs
    exact ⟨he', hnl', hst', hw3⟩
  · refine Gives.ite_neg (hb.trans (by simp [hpl])) ?_
    rw [if_neg hpl] at hm
    cases hm
    refine Gives.seq (Gives.each1 (m := 0) (N := 3) (elasticStress3D m eps) hst (by omega) rfl ?_) ?_
    · intro k t _ hk hs hi hP
      keep hs
      refine Gives.seq (Gives.st1 (k := k) hP (ev_ivar hi) rfl (by omega) (by ev <;> side)) ?_
      intro s hs hP'; keep hs
      refine (Gives.st1 (k := k) hP' (ev_ivar hi) rfl (by omega) (y := elasticStress3D m eps k) ?_).mono ?_
      · evs
        simp [elasticStress3D, hk, ofInt_two]
      intro t h
      refine h.congr le_rfl fun q hq => ⟨by simp only [false_or] at hq ⊢; omega, ?_⟩
      by_cases e : q = k
      · subst e; simp
      · simp only [e, if_false]
        have : (0 ≤ q ∧ q < k + 1) ↔ (0 ≤ q ∧ q < k) := by omega
        simp only [this]
    intro s hs hst1; keep hs
    refine (Gives.map (m := 3) (N := 6) (elasticStress3D m eps) hst1 (by omega) le_rfl rfl ?_).same.mono ?_
    · intro k t hk3 hk hs hi hP
      keep hs
      evs
      simp [elasticStress3D, hk3]
    rintro t ⟨hs, hst2⟩; keep hs
    refine ⟨he, hnl, hst2.congr le_rfl fun q hq => ⟨by omega, ?_⟩, hw⟩
    split
    · rfl
    · rw [if_pos (by omega)]

end

end Verif.Text
