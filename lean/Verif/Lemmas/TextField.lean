import Verif.Lemmas.TextMat

/-!
# The source text of the averages and fields computes those of the model
-/

namespace Verif.Text

variable {α : Type} [Scalar α] {c : Cfg α} {n : Nat}

/-- After a loop over the first `N` entries, the others are as before. -/
theorem VecOn.tail {β : Type} {o : Option (Vec β)} {M N : Nat} {S S' : Nat → Prop} {f g h : Nat → β}
    (hv : VecOn o M (fun q => S' q ∨ (0 ≤ q ∧ q < N)) (fun q => if 0 ≤ q ∧ q < N then h q else f q))
    (hS : ∀ q, S q → S' q) (hf : ∀ q, S q → ¬ q < N → f q = g q) :
    VecOn o M (fun q => S q ∨ q < N) (fun q => if q < N then h q else g q) :=
  hv.congr le_rfl fun q hq => ⟨hq.imp (hS q) fun h => ⟨q.zero_le, h⟩, by
    by_cases e : q < N
    · simp [e]
    · simp [e, hf q (hq.resolve_right e) e]⟩

theorem run_calc_ave_stress2 (L : LitLaws α) {s : St α} {w : Work α} {r : AveState α} {S : Nat → Prop} {g : Nat → α}
    (hw : s.w = w)
    (hd : c.dim = 2) (hm : calcAveStress c w = .ok r)
    (hx : 1 ≤ c.nx) (hy : 1 ≤ c.ny) (hz1 : 1 ≤ c.nz)
    (hav : VecOn (s.l.v .stress_ave) 3 S g) :
    Gives (run c (n + 4) .calc_ave_stress s) (fun t =>
      VecOn (t.l.v .stress_ave) 3 (fun q => S q ∨ q < 3) (fun q => if q < 3 then r.ave q else g q) ∧ t.w = { w with varsNew := r.varsNew }) := by
  show Gives (t_calc_ave_stress.exec c (run c (n + 3)) s) _
  have hz : (OfScientific.ofScientific 0 true 1 : α) = 0 := L.zeroD
  unfold calcAveStress at hm
  rw [if_pos hd] at hm
  rw [bind_ok_iff] at hm
  obtain ⟨av, hm, hr⟩ := hm
  cases hr
  refine Gives.seq (Gives.declI) ?_
  intro s hs _; keep hs
  refine Gives.seq (Gives.map (m := 0) (N := 3) (fun _ => (0 : α)) hav (by omega) (by omega) (by idx) ?_) ?_
  · intro k t _ hk hs hi hP
    keep hs
    exact ok_to (ev_lit _ _ _) hz
  intro s hs hav; keep hs
  replace hav := hav.tail (S := S) (g := g) (fun _ h => h) (fun _ _ _ => rfl)
  refine Gives.seq (P := fun t => VecOn (t.l.v .stress_ave) 3 (fun q => S q ∨ q < 3)
      (fun q => if q < 3 then av q else g q) ∧ t.w = w) ?_ ?_
  · refine Gives.ite_pos (ok_to (ev_eqI (ev_imem _) (ev_ilit _)) (by simp [GI.get, hd])) ?_
    refine Gives.sim (fun (a : Nat → α) t => VecOn (t.l.v .stress_ave) 3 (fun q => S q ∨ q < 3)
      (fun q => if q < 3 then a q else g q) ∧
      t.w = w)
      (by intro _ _ _ h; exact h) (by idx) hm ⟨hav, hw⟩ ?_
    rintro ex t a a' hex' hs hex ⟨hav, hw⟩ hm
    keep hs
    refine Gives.sim (fun (a : Nat → α) t => VecOn (t.l.v .stress_ave) 3 (fun q => S q ∨ q < 3)
      (fun q => if q < 3 then a q else g q) ∧
      t.w = w)
      (by intro _ _ _ h; exact h) (by idx) hm ⟨hav, hw⟩ ?_
    rintro ey t a a' hey' hs hey ⟨hav, hw⟩ hm
    keep hs
    unfold aveStressElem2D at hm
    rw [bind_ok_iff] at hm
    obtain ⟨ax, hm, hr⟩ := hm
    cases hr
    refine Gives.seq (Gives.declV (fun _ => 0)) ?_
    intro s hs hax; keep hs
    refine Gives.seq (Gives.map (m := 0) (N := 3) (fun _ => (0 : α)) hax (by omega) (by omega) (by idx) ?_) ?_
    · intro k t _ hk hs hi hP
      keep hs
      exact ok_to (ev_lit _ _ _) hz
    intro s hs hax; keep hs
    replace hax := hax.congr (T := (· < 3)) (g := (fun _ => (0 : α))) le_rfl
      fun q hq => ⟨by omega, if_pos ⟨q.zero_le, hq⟩⟩
    refine Gives.seq (Gives.sim (fun (x : Nat → α) t => VecOn (t.l.v .stress_aux) 3 (· < 3) x ∧
      t.w = w)
      (by intro _ _ _ h; exact h) (by idx) hm ⟨hax, hw⟩ ?_) ?_
    · rintro gp t x x' hg hs hgp ⟨hax, hw⟩ hf
      keep hs
      simp only [bind_ok_iff, pure_ok_iff] at hf
      obtain ⟨eps, heps, sig, hsig, rfl⟩ := hf
      refine Gives.seq (Gives.declV (fun _ => 0)) ?_
      intro s hs hst; keep hs
      refine Gives.seq (Gives.setD (y := wg2D c) (by evs; rfl)) ?_
      intro s hs hwg; keep hs
      refine Gives.seq (Gives.declV (fun _ => 0)) ?_
      intro s hs hsn; keep hs
      refine Gives.seq (Gives.call' (P := fun t =>
          VecOn (t.l.v .strain_gp) 3 (· < 3) eps ∧
          t.w = w) (Q := _) ?_ (fun _ h => h)) ?_
      · refine ⟨_, by simp only [params, passAll, passIn, ev_ivar hex, ev_ivar hey, ev_ivar hgp, M_bind_ok', M_pure]; rfl, ?_⟩
        exact run_get_strain2D (w := w)
          L hw hd heps rfl rfl rfl hg hsn
      rintro s hs ⟨hsn, -⟩; keep hs
      refine Gives.seq (Gives.call' (P := fun t =>
          VecOn (t.l.v .strain_gp) 3 (· < 3) eps ∧ t.l.i .non_linear_flag = some 0 ∧
          VecOn (t.l.v .stress_gp) 6 (· < 3) sig ∧
          t.w = w) (Q := _) ?_ (fun _ h => h)) ?_
      · refine ⟨_, by simp only [params, passAll, passIn, ev_ivar hex, ev_ivar hey, ev_ivar hgp, M_bind_ok', M_pure]; rfl, ?_⟩
        exact run_get_stress2D (w := w)
          L hw hd hsig hx hy rfl rfl rfl hsn (by omega) hst
      rintro s hs ⟨hsn, -, hst, -⟩; keep hs
      refine ((Gives.map (m := 0) (N := 3) (fun v => x v + sig v * wg2D c) hax (by omega) (by omega) (by idx) ?_).same).mono ?_
      · intro k t _ hk hs hi hP
        keep hs
        evs
        simp
      · rintro t ⟨hs, h⟩
        keep hs
        replace h := h.congr (T := (· < 3)) (g := (fun v => x v + sig v * wg2D c)) le_rfl
          fun q hq => ⟨by omega, if_pos ⟨q.zero_le, hq⟩⟩
        exact ⟨h, hw⟩
    rintro s hs ⟨hax, hw⟩
    keep hs
    refine ((Gives.map (m := 0) (N := 3) (fun v => a v + ax v) hav (by omega) (by omega) (by idx) ?_).same).mono ?_
    · intro k t _ hk hs hi hP
      keep hs
      evs
      simp [hk]
    · rintro t ⟨hs, h⟩
      keep hs
      replace h := h.tail (S := S) (g := g) (fun _ h => Or.inl h) (fun _ _ h => if_neg h)
      exact ⟨h, hw⟩
  rintro s hs ⟨hav, hw⟩
  keep hs
  refine ((Gives.map (m := 0) (N := 3) (fun v => av v / (c.lx * c.ly)) hav (by omega) (by omega) (by idx) ?_).same).mono ?_
  · intro k t _ hk hs hi hP
    keep hs
    evs
    simp [GD.get, hk]
  · rintro t ⟨hs, h⟩
    keep hs
    replace h := h.tail (S := S) (g := g) (fun _ h => Or.inl h) (fun _ _ h => if_neg h)
    exact ⟨h, hw⟩

theorem run_calc_ave_stress3 (L : LitLaws α) {s : St α} {w : Work α} {r : AveState α} {S : Nat → Prop} {g : Nat → α}
    (hw : s.w = w)
    (hd : c.dim = 3) (hm : calcAveStress c w = .ok r)
    (hx : 1 ≤ c.nx) (hy : 1 ≤ c.ny) (hz1 : 1 ≤ c.nz)
    (hav : VecOn (s.l.v .stress_ave) 6 S g) :
    Gives (run c (n + 4) .calc_ave_stress s) (fun t =>
      VecOn (t.l.v .stress_ave) 6 (fun q => S q ∨ q < 6) (fun q => if q < 6 then r.ave q else g q) ∧ t.w = { w with varsNew := r.varsNew }) := by
  show Gives (t_calc_ave_stress.exec c (run c (n + 3)) s) _
  have hz : (OfScientific.ofScientific 0 true 1 : α) = 0 := L.zeroD
  unfold calcAveStress at hm
  rw [if_neg (by omega), if_pos hd] at hm
  rw [bind_ok_iff] at hm
  obtain ⟨av, hm, hr⟩ := hm
  cases hr
  refine Gives.seq (Gives.declI) ?_
  intro s hs _; keep hs
  refine Gives.seq (Gives.map (m := 0) (N := 6) (fun _ => (0 : α)) hav (by omega) (by omega) (by idx) ?_) ?_
  · intro k t _ hk hs hi hP
    keep hs
    exact ok_to (ev_lit _ _ _) hz
  intro s hs hav; keep hs
  replace hav := hav.tail (S := S) (g := g) (fun _ h => h) (fun _ _ _ => rfl)
  refine Gives.seq (P := fun t => VecOn (t.l.v .stress_ave) 6 (fun q => S q ∨ q < 6)
      (fun q => if q < 6 then av.ave q else g q) ∧ t.w = { w with varsNew := av.varsNew }) ?_ ?_
  · refine Gives.ite_neg (ok_to (ev_eqI (ev_imem _) (ev_ilit _)) (by simp [GI.get, hd])) ?_
    refine Gives.ite_pos (ok_to (ev_eqI (ev_imem _) (ev_ilit _)) (by simp [GI.get, hd])) ?_
    refine Gives.sim (fun (a : AveState α) t => VecOn (t.l.v .stress_ave) 6 (fun q => S q ∨ q < 6)
      (fun q => if q < 6 then a.ave q else g q) ∧
      t.w = { w with varsNew := a.varsNew })
      (by intro _ _ _ h; exact h) (by idx) hm ⟨hav, hw⟩ ?_
    rintro ex t a a' hex' hs hex ⟨hav, hw⟩ hm
    keep hs
    refine Gives.sim (fun (a : AveState α) t => VecOn (t.l.v .stress_ave) 6 (fun q => S q ∨ q < 6)
      (fun q => if q < 6 then a.ave q else g q) ∧
      t.w = { w with varsNew := a.varsNew })
      (by intro _ _ _ h; exact h) (by idx) hm ⟨hav, hw⟩ ?_
    rintro ey t a a' hey' hs hey ⟨hav, hw⟩ hm
    keep hs
    refine Gives.sim (fun (a : AveState α) t => VecOn (t.l.v .stress_ave) 6 (fun q => S q ∨ q < 6)
      (fun q => if q < 6 then a.ave q else g q) ∧
      t.w = { w with varsNew := a.varsNew })
      (by intro _ _ _ h; exact h) (by idx) hm ⟨hav, hw⟩ ?_
    rintro ez t a a' hez' hs hez ⟨hav, hw⟩ hm
    keep hs
    unfold aveStressElem3D at hm
    rw [bind_ok_iff] at hm
    obtain ⟨ax, hm, hr⟩ := hm
    cases hr
    refine Gives.seq (Gives.declV (fun _ => 0)) ?_
    intro s hs hax; keep hs
    refine Gives.seq (Gives.map (m := 0) (N := 6) (fun _ => (0 : α)) hax (by omega) (by omega) (by idx) ?_) ?_
    · intro k t _ hk hs hi hP
      keep hs
      exact ok_to (ev_lit _ _ _) hz
    intro s hs hax; keep hs
    replace hax := hax.congr (T := (· < 6)) (g := (fun _ => (0 : α))) le_rfl
      fun q hq => ⟨by omega, if_pos ⟨q.zero_le, hq⟩⟩
    refine Gives.seq (Gives.sim (fun (x : AveState α) t => VecOn (t.l.v .stress_aux) 6 (· < 6) x.ave ∧
      t.w = { w with varsNew := x.varsNew })
      (by intro _ _ _ h; exact h) (by idx) hm ⟨hax, hw⟩ ?_) ?_
    · rintro gp t x x' hg hs hgp ⟨hax, hw⟩ hf
      keep hs
      simp only [bind_ok_iff, pure_ok_iff] at hf
      obtain ⟨eps, heps, sig, hsig, rfl⟩ := hf
      refine Gives.seq (Gives.declV (fun _ => 0)) ?_
      intro s hs hst; keep hs
      refine Gives.seq (Gives.setD (y := wg3D c) (by evs; simp only [L.ofInt1]; rfl)) ?_
      intro s hs hwg; keep hs
      refine Gives.seq (Gives.declV (fun _ => 0)) ?_
      intro s hs hsn; keep hs
      refine Gives.seq (Gives.call' (P := fun t =>
          VecOn (t.l.v .strain_gp) 6 (· < 6) eps ∧
          t.w = { w with varsNew := x.varsNew }) (Q := _) ?_ (fun _ h => h)) ?_
      · refine ⟨_, by simp only [params, passAll, passIn, ev_ivar hex, ev_ivar hey, ev_ivar hez, ev_ivar hgp, M_bind_ok', M_pure]; rfl, ?_⟩
        exact run_get_strain3D (w := { w with varsNew := x.varsNew })
          L hw hd heps rfl rfl rfl rfl hg hsn
      rintro s hs ⟨hsn, -⟩; keep hs
      refine Gives.seq (Gives.call' (P := fun t =>
          VecOn (t.l.v .strain_gp) 6 (· < 6) eps ∧
          t.l.i .non_linear_flag = some (if sig.nl = true then 1 else 0) ∧
          VecOn (t.l.v .stress_gp) 6 (· < 6) sig.stress ∧
          t.w = { w with varsNew := sig.varsNew }) (Q := _) ?_ (fun _ h => h)) ?_
      · refine ⟨_, by simp only [params, passAll, passIn, ev_ivar hex, ev_ivar hey, ev_ivar hez, ev_ivar hgp, M_bind_ok', M_pure]; rfl, ?_⟩
        exact run_get_stress3D (w := { w with varsNew := x.varsNew })
          L hw hsig hx hy rfl rfl rfl rfl hsn hst
      rintro s hs ⟨hsn, -, hst, hw⟩; keep hs
      refine ((Gives.map (m := 0) (N := 6) (fun v => x.ave v + sig.stress v * wg3D c) hax (by omega) (by omega) (by idx) ?_).same).mono ?_
      · intro k t _ hk hs hi hP
        keep hs
        evs
        simp
      · rintro t ⟨hs, h⟩
        keep hs
        replace h := h.congr (T := (· < 6)) (g := (fun v => x.ave v + sig.stress v * wg3D c)) le_rfl
          fun q hq => ⟨by omega, if_pos ⟨q.zero_le, hq⟩⟩
        exact ⟨h, hw⟩
    rintro s hs ⟨hax, hw⟩
    keep hs
    refine ((Gives.map (m := 0) (N := 6) (fun v => a.ave v + ax.ave v) hav (by omega) (by omega) (by idx) ?_).same).mono ?_
    · intro k t _ hk hs hi hP
      keep hs
      evs
      simp [hk]
    · rintro t ⟨hs, h⟩
      keep hs
      replace h := h.tail (S := S) (g := g) (fun _ h => Or.inl h) (fun _ _ h => if_neg h)
      exact ⟨h, hw⟩
  rintro s hs ⟨hav, hw⟩
  keep hs
  refine ((Gives.map (m := 0) (N := 6) (fun v => av.ave v / (c.lx * c.ly)) hav (by omega) (by omega) (by idx) ?_).same).mono ?_
  · intro k t _ hk hs hi hP
    keep hs
    evs
    simp [GD.get, hk]
  · rintro t ⟨hs, h⟩
    keep hs
    replace h := h.tail (S := S) (g := g) (fun _ h => Or.inl h) (fun _ _ h => if_neg h)
    exact ⟨h, hw⟩

theorem run_calc_ave_strain2 (L : LitLaws α) {s : St α} {w : Work α} {r g : Nat → α} (hw : s.w = w)
    (hd : c.dim = 2) (hm : calcAveStrain c w.u = .ok r)
    (hx : 1 ≤ c.nx) (hy : 1 ≤ c.ny) (hz1 : 1 ≤ c.nz)
    (hav : VecOn (s.l.v .strain_ave) 3 (fun _ => False) g) :
    Gives (run c (n + 3) .calc_ave_strain s) (fun t =>
      VecOn (t.l.v .strain_ave) 3 (· < 3) r ∧ t.w = w) := by
  show Gives (t_calc_ave_strain.exec c (run c (n + 2)) s) _
  have hz : (OfScientific.ofScientific 0 true 1 : α) = 0 := L.zeroD
  unfold calcAveStrain at hm
  rw [if_pos hd] at hm
  rw [bind_ok_iff] at hm
  obtain ⟨av, hm, hr⟩ := hm
  cases hr
  refine Gives.seq (Gives.map (m := 0) (N := 3) (fun _ => (0 : α)) hav (by omega) (by omega) (by idx) ?_) ?_
  · intro k t _ hk hs hi hP
    keep hs
    exact ok_to (ev_lit _ _ _) hz
  intro s hs hav; keep hs
  replace hav := hav.congr (T := (· < 3)) (g := (fun _ => (0 : α))) le_rfl
    fun q hq => ⟨by omega, if_pos ⟨q.zero_le, hq⟩⟩
  refine Gives.seq (P := fun t => VecOn (t.l.v .strain_ave) 3 (· < 3) av ∧ t.w = w) ?_ ?_
  · refine Gives.ite_pos (ok_to (ev_eqI (ev_imem _) (ev_ilit _)) (by simp [GI.get, hd])) ?_
    refine Gives.sim (fun (a : Nat → α) t => VecOn (t.l.v .strain_ave) 3 (· < 3) a ∧
      t.w = w)
      (by intro _ _ _ h; exact h) (by idx) hm ⟨hav, hw⟩ ?_
    rintro ex t a a' hex' hs hex ⟨hav, hw⟩ hm
    keep hs
    refine Gives.sim (fun (a : Nat → α) t => VecOn (t.l.v .strain_ave) 3 (· < 3) a ∧
      t.w = w)
      (by intro _ _ _ h; exact h) (by idx) hm ⟨hav, hw⟩ ?_
    rintro ey t a a' hey' hs hey ⟨hav, hw⟩ hm
    keep hs
    rw [bind_ok_iff] at hm
    obtain ⟨ax, hm, hr⟩ := hm
    cases hr
    refine Gives.seq (Gives.declV (fun _ => 0)) ?_
    intro s hs hax; keep hs
    refine Gives.seq (Gives.map (m := 0) (N := 3) (fun _ => (0 : α)) hax (by omega) (by omega) (by idx) ?_) ?_
    · intro k t _ hk hs hi hP
      keep hs
      exact ok_to (ev_lit _ _ _) hz
    intro s hs hax; keep hs
    replace hax := hax.congr (T := (· < 3)) (g := (fun _ => (0 : α))) le_rfl
      fun q hq => ⟨by omega, if_pos ⟨q.zero_le, hq⟩⟩
    refine Gives.seq (Gives.sim (fun (x : Nat → α) t => VecOn (t.l.v .strain_aux) 3 (· < 3) x ∧
      t.w = w)
      (by intro _ _ _ h; exact h) (by idx) hm ⟨hax, hw⟩ ?_) ?_
    · rintro gp t x x' hg hs hgp ⟨hax, hw⟩ hf
      keep hs
      simp only [bind_ok_iff, pure_ok_iff] at hf
      obtain ⟨eps, heps, rfl⟩ := hf
      refine Gives.seq (Gives.declV (fun _ => 0)) ?_
      intro s hs hsn; keep hs
      refine Gives.seq (Gives.setD (y := wg2D c) (by evs; rfl)) ?_
      intro s hs hwg; keep hs
      refine Gives.seq (Gives.call' (P := fun t =>
          VecOn (t.l.v .strain_gp) 3 (· < 3) eps ∧
          t.w = w) (Q := _) ?_ (fun _ h => h)) ?_
      · refine ⟨_, by simp only [params, passAll, passIn, ev_ivar hex, ev_ivar hey, ev_ivar hgp, M_bind_ok', M_pure]; rfl, ?_⟩
        exact run_get_strain2D (w := w)
          L hw hd heps rfl rfl rfl hg (hsn.congr (by omega) fun _ h => ⟨h, rfl⟩)
      rintro s hs ⟨hsn, -⟩; keep hs
      refine ((Gives.map (m := 0) (N := 3) (fun v => x v + eps v * wg2D c) hax (by omega) (by omega) (by idx) ?_).same).mono ?_
      · intro k t _ hk hs hi hP
        keep hs
        evs
        simp
      · rintro t ⟨hs, h⟩
        keep hs
        replace h := h.congr (T := (· < 3)) (g := (fun v => x v + eps v * wg2D c)) le_rfl
          fun q hq => ⟨by omega, if_pos ⟨q.zero_le, hq⟩⟩
        exact ⟨h, hw⟩
    rintro s hs ⟨hax, hw⟩
    keep hs
    refine ((Gives.map (m := 0) (N := 3) (fun v => a v + ax v) hav (by omega) (by omega) (by idx) ?_).same).mono ?_
    · intro k t _ hk hs hi hP
      keep hs
      evs
      simp
    · rintro t ⟨hs, h⟩
      keep hs
      replace h := h.congr (T := (· < 3)) (g := (fun v => a v + ax v)) le_rfl
        fun q hq => ⟨by omega, if_pos ⟨q.zero_le, hq⟩⟩
      exact ⟨h, hw⟩
  rintro s hs ⟨hav, hw⟩
  keep hs
  refine ((Gives.map (m := 0) (N := 3) (fun v => av v / (c.lx * c.ly)) hav (by omega) (by omega) (by idx) ?_).same).mono ?_
  · intro k t _ hk hs hi hP
    keep hs
    evs
    simp [GD.get]
  · rintro t ⟨hs, h⟩
    keep hs
    replace h := h.congr (T := (· < 3)) (g := (fun v => av v / (c.lx * c.ly))) le_rfl
      fun q hq => ⟨by omega, if_pos ⟨q.zero_le, hq⟩⟩
    exact ⟨h, hw⟩

theorem run_calc_ave_strain3 (L : LitLaws α) {s : St α} {w : Work α} {r g : Nat → α} (hw : s.w = w)
    (hd : c.dim = 3) (hm : calcAveStrain c w.u = .ok r)
    (hx : 1 ≤ c.nx) (hy : 1 ≤ c.ny) (hz1 : 1 ≤ c.nz)
    (hav : VecOn (s.l.v .strain_ave) 6 (fun _ => False) g) :
    Gives (run c (n + 3) .calc_ave_strain s) (fun t =>
      VecOn (t.l.v .strain_ave) 6 (· < 6) r ∧ t.w = w) := by
  show Gives (t_calc_ave_strain.exec c (run c (n + 2)) s) _
  have hz : (OfScientific.ofScientific 0 true 1 : α) = 0 := L.zeroD
  unfold calcAveStrain at hm
  rw [if_neg (by omega), if_pos hd] at hm
  rw [bind_ok_iff] at hm
  obtain ⟨av, hm, hr⟩ := hm
  cases hr
  refine Gives.seq (Gives.map (m := 0) (N := 6) (fun _ => (0 : α)) hav (by omega) (by omega) (by idx) ?_) ?_
  · intro k t _ hk hs hi hP
    keep hs
    exact ok_to (ev_lit _ _ _) hz
  intro s hs hav; keep hs
  replace hav := hav.congr (T := (· < 6)) (g := (fun _ => (0 : α))) le_rfl
    fun q hq => ⟨by omega, if_pos ⟨q.zero_le, hq⟩⟩
  refine Gives.seq (P := fun t => VecOn (t.l.v .strain_ave) 6 (· < 6) av ∧ t.w = w) ?_ ?_
  · refine Gives.ite_neg (ok_to (ev_eqI (ev_imem _) (ev_ilit _)) (by simp [GI.get, hd])) ?_
    refine Gives.ite_pos (ok_to (ev_eqI (ev_imem _) (ev_ilit _)) (by simp [GI.get, hd])) ?_
    refine Gives.sim (fun (a : Nat → α) t => VecOn (t.l.v .strain_ave) 6 (· < 6) a ∧
      t.w = w)
      (by intro _ _ _ h; exact h) (by idx) hm ⟨hav, hw⟩ ?_
    rintro ex t a a' hex' hs hex ⟨hav, hw⟩ hm
    keep hs
    refine Gives.sim (fun (a : Nat → α) t => VecOn (t.l.v .strain_ave) 6 (· < 6) a ∧
      t.w = w)
      (by intro _ _ _ h; exact h) (by idx) hm ⟨hav, hw⟩ ?_
    rintro ey t a a' hey' hs hey ⟨hav, hw⟩ hm
    keep hs
    refine Gives.sim (fun (a : Nat → α) t => VecOn (t.l.v .strain_ave) 6 (· < 6) a ∧
      t.w = w)
      (by intro _ _ _ h; exact h) (by idx) hm ⟨hav, hw⟩ ?_
    rintro ez t a a' hez' hs hez ⟨hav, hw⟩ hm
    keep hs
    rw [bind_ok_iff] at hm
    obtain ⟨ax, hm, hr⟩ := hm
    cases hr
    refine Gives.seq (Gives.declV (fun _ => 0)) ?_
    intro s hs hax; keep hs
    refine Gives.seq (Gives.map (m := 0) (N := 6) (fun _ => (0 : α)) hax (by omega) (by omega) (by idx) ?_) ?_
    · intro k t _ hk hs hi hP
      keep hs
      exact ok_to (ev_lit _ _ _) hz
    intro s hs hax; keep hs
    replace hax := hax.congr (T := (· < 6)) (g := (fun _ => (0 : α))) le_rfl
      fun q hq => ⟨by omega, if_pos ⟨q.zero_le, hq⟩⟩
    refine Gives.seq (Gives.sim (fun (x : Nat → α) t => VecOn (t.l.v .strain_aux) 6 (· < 6) x ∧
      t.w = w)
      (by intro _ _ _ h; exact h) (by idx) hm ⟨hax, hw⟩ ?_) ?_
    · rintro gp t x x' hg hs hgp ⟨hax, hw⟩ hf
      keep hs
      simp only [bind_ok_iff, pure_ok_iff] at hf
      obtain ⟨eps, heps, rfl⟩ := hf
      refine Gives.seq (Gives.declV (fun _ => 0)) ?_
      intro s hs hsn; keep hs
      refine Gives.seq (Gives.setD (y := wg3D c) (by evs; simp only [L.ofInt1]; rfl)) ?_
      intro s hs hwg; keep hs
      refine Gives.seq (Gives.call' (P := fun t =>
          VecOn (t.l.v .strain_gp) 6 (· < 6) eps ∧
          t.w = w) (Q := _) ?_ (fun _ h => h)) ?_
      · refine ⟨_, by simp only [params, passAll, passIn, ev_ivar hex, ev_ivar hey, ev_ivar hez, ev_ivar hgp, M_bind_ok', M_pure]; rfl, ?_⟩
        exact run_get_strain3D (w := w)
          L hw hd heps rfl rfl rfl rfl hg hsn
      rintro s hs ⟨hsn, -⟩; keep hs
      refine ((Gives.map (m := 0) (N := 6) (fun v => x v + eps v * wg3D c) hax (by omega) (by omega) (by idx) ?_).same).mono ?_
      · intro k t _ hk hs hi hP
        keep hs
        evs
        simp
      · rintro t ⟨hs, h⟩
        keep hs
        replace h := h.congr (T := (· < 6)) (g := (fun v => x v + eps v * wg3D c)) le_rfl
          fun q hq => ⟨by omega, if_pos ⟨q.zero_le, hq⟩⟩
        exact ⟨h, hw⟩
    rintro s hs ⟨hax, hw⟩
    keep hs
    refine ((Gives.map (m := 0) (N := 6) (fun v => a v + ax v) hav (by omega) (by omega) (by idx) ?_).same).mono ?_
    · intro k t _ hk hs hi hP
      keep hs
      evs
      simp
    · rintro t ⟨hs, h⟩
      keep hs
      replace h := h.congr (T := (· < 6)) (g := (fun v => a v + ax v)) le_rfl
        fun q hq => ⟨by omega, if_pos ⟨q.zero_le, hq⟩⟩
      exact ⟨h, hw⟩
  rintro s hs ⟨hav, hw⟩
  keep hs
  refine ((Gives.map (m := 0) (N := 6) (fun v => av v / (c.lx * c.ly)) hav (by omega) (by omega) (by idx) ?_).same).mono ?_
  · intro k t _ hk hs hi hP
    keep hs
    evs
    simp [GD.get]
  · rintro t ⟨hs, h⟩
    keep hs
    replace h := h.congr (T := (· < 6)) (g := (fun v => av v / (c.lx * c.ly))) le_rfl
      fun q hq => ⟨by omega, if_pos ⟨q.zero_le, hq⟩⟩
    exact ⟨h, hw⟩

theorem run_calc_fields2 (L : LitLaws α) {s : St α} {w r : Work α} (hw : s.w = w)
    (hd : c.dim = 2) (hm : calcFields c w = .ok r)
    (hx : 1 ≤ c.nx) (hy : 1 ≤ c.ny) (hz1 : 1 ≤ c.nz) :
    Gives (run c (n + 4) .calc_fields s) (fun t => t.w = r) := by
  show Gives (t_calc_fields.exec c (run c (n + 3)) s) _
  have hz : (OfScientific.ofScientific 0 true 1 : α) = 0 := L.zeroD
  unfold calcFields at hm
  rw [if_pos hd] at hm
  rw [bind_ok_iff] at hm
  obtain ⟨av, hm, hr⟩ := hm
  cases hr
  refine Gives.seq (Gives.declI) ?_
  intro s hs _; keep hs
  refine Gives.ite_pos (ok_to (ev_eqI (ev_imem _) (ev_ilit _)) (by simp [GI.get, hd])) ?_
  refine Gives.sim (fun (a : FieldState α) t => t.w = { w with elemStrain := a.strain, elemStress := a.stress, varsNew := a.varsNew })
    (by intro _ _ _ h; exact h) (by idx) hm hw ?_
  rintro ex t a a' hex' hs hex hw hm
  keep hs
  refine Gives.sim (fun (a : FieldState α) t => t.w = { w with elemStrain := a.strain, elemStress := a.stress, varsNew := a.varsNew })
    (by intro _ _ _ h; exact h) (by idx) hm hw ?_
  rintro ey t a a' hey' hs hey hw hm
  keep hs
  unfold fieldElem2D at hm
  rw [bind_ok_iff] at hm
  obtain ⟨ax, hm, hst⟩ := hm
  unfold fieldStore at hst
  refine Gives.seq (Gives.declV (fun _ => 0)) ?_
  intro s hs hax; keep hs
  refine Gives.seq (Gives.declV (fun _ => 0)) ?_
  intro s hs hay; keep hs
  refine Gives.seq (Gives.for0 (N := 3) (fun k t => VecOn (t.l.v .strain_aux) 3 (· < k) (fun _ => (0 : α)) ∧
    VecOn (t.l.v .stress_aux) 3 (· < k) (fun _ => (0 : α))) (by intro _ _ _ h; exact h) (by idx)
    ⟨hax.congr le_rfl fun q hq => by omega, hay.congr le_rfl fun q hq => by omega⟩ ?_) ?_
  · rintro k t hk hs hi ⟨hax, hay⟩
    keep hs
    refine Gives.seq (Gives.st1g k hax (ev_ivar hi) hk (ok_to (ev_lit _ _ _) hz)) ?_
    intro s hs hax; keep hs
    refine (Gives.st1g k hay (ev_ivar hi) hk (ok_to (ev_lit _ _ _) hz)).same.mono ?_
    rintro t ⟨hs, hay⟩
    keep hs
    exact ⟨hax.congr le_rfl fun q hq => ⟨by omega, rfl⟩, hay.congr le_rfl fun q hq => ⟨by omega, rfl⟩⟩
  rintro s hs ⟨hax, hay⟩
  keep hs
  refine Gives.seq (Gives.sim (fun (x : FieldAux α) t => VecOn (t.l.v .strain_aux) 3 (· < 3) x.strain ∧
      VecOn (t.l.v .stress_aux) 3 (· < 3) x.stress ∧
      t.w = { w with elemStrain := a.strain, elemStress := a.stress, varsNew := x.varsNew })
      (by intro _ _ _ h; exact h) (by idx) hm ⟨hax, hay, hw⟩ ?_) ?_
  · rintro gp t x x' hg hs hgp ⟨hax, hay, hwx⟩ hf
    keep hs
    clear hw
    rename' hwx => hw
    simp only [bind_ok_iff, pure_ok_iff] at hf
    obtain ⟨eps, heps, sig, hsig, rfl⟩ := hf
    refine Gives.seq (Gives.declV (fun _ => 0)) ?_
    intro s hs hst; keep hs
    refine Gives.seq (Gives.declV (fun _ => 0)) ?_
    intro s hs hsn; keep hs
    refine Gives.seq (Gives.setD (y := wg2D c) (by evs; rfl)) ?_
    intro s hs hwg; keep hs
    refine Gives.seq (Gives.call' (P := fun t =>
        VecOn (t.l.v .strain_gp) 3 (· < 3) eps ∧
        t.w = { w with elemStrain := a.strain, elemStress := a.stress, varsNew := x.varsNew }) (Q := _) ?_ (fun _ h => h)) ?_
    · refine ⟨_, by simp only [params, passAll, passIn, ev_ivar hex, ev_ivar hey, ev_ivar hgp, M_bind_ok', M_pure]; rfl, ?_⟩
      exact run_get_strain2D (w := { w with elemStrain := a.strain, elemStress := a.stress, varsNew := x.varsNew })
        L hw hd heps rfl rfl rfl hg hsn
    rintro s hs ⟨hsn, -⟩; keep hs
    refine Gives.seq (Gives.call' (P := fun t =>
        VecOn (t.l.v .strain_gp) 3 (· < 3) eps ∧ t.l.i .non_linear_flag = some 0 ∧
        VecOn (t.l.v .stress_gp) 3 (· < 3) sig ∧
        t.w = { w with elemStrain := a.strain, elemStress := a.stress, varsNew := x.varsNew }) (Q := _) ?_ (fun _ h => h)) ?_
    · refine ⟨_, by simp only [params, passAll, passIn, ev_ivar hex, ev_ivar hey, ev_ivar hgp, M_bind_ok', M_pure]; rfl, ?_⟩
      exact run_get_stress2D (w := { w with elemStrain := a.strain, elemStress := a.stress, varsNew := x.varsNew })
        L hw hd hsig hx hy rfl rfl rfl hsn (by omega) hst
    rintro s hs ⟨hsn, -, hst, -⟩; keep hs
    refine ((Gives.for0 (N := 3) (fun k t => VecOn (t.l.v .strain_aux) 3 (· < 3)
        (fun q => if q < k then x.strain q + eps q * wg2D c else x.strain q) ∧
      VecOn (t.l.v .stress_aux) 3 (· < 3)
        (fun q => if q < k then x.stress q + sig q * wg2D c else x.stress q)) (by intro _ _ _ h; exact h) (by idx)
      ⟨hax.congr le_rfl fun q hq => ⟨hq, by simp⟩, hay.congr le_rfl fun q hq => ⟨hq, by simp⟩⟩ ?_).same).mono ?_
    · rintro k t hk hs hi ⟨hax, hay⟩
      keep hs
      refine Gives.seq (Gives.st1 (k := k) (y := x.strain k + eps k * wg2D c) hax (ev_ivar hi) rfl hk
        (by evs; simp)) ?_
      intro s hs hax; keep hs
      refine (Gives.st1 (k := k) (y := x.stress k + sig k * wg2D c) hay (ev_ivar hi) rfl hk
        (by evs; simp)).same.mono ?_
      rintro t ⟨hs, hay⟩
      keep hs
      refine ⟨hax.congr le_rfl fun q hq => ⟨by omega, ?_⟩, hay.congr le_rfl fun q hq => ⟨by omega, ?_⟩⟩
      all_goals
        by_cases e : q = k
        · subst e; simp
        · have : q < k + 1 ↔ q < k := by omega
          simp [e, this]
    · rintro t ⟨hs, hax, hay⟩
      keep hs
      exact ⟨hax.congr le_rfl fun q hq => ⟨hq, if_pos hq⟩, hay.congr le_rfl fun q hq => ⟨hq, if_pos hq⟩, hw⟩
  rintro s hs ⟨hax, hay, hwx⟩
  keep hs
  clear hw
  rename' hwx => hw
  refine Gives.seq (Gives.setD (y := c.dx * c.dy) (by evs; rfl)) ?_
  intro s hs hvol; keep hs
  refine Gives.seq (Gives.setI (k := ((gloElem3D c.nx c.ny ex ey 0 : Nat) : Int)) (by idx)) ?_
  intro s hs hee; keep hs
  generalize gloElem3D c.nx c.ny ex ey 0 = e at *
  refine Gives.sim (fun (a : FieldState α) t => t.w = { w with elemStrain := a.strain, elemStress := a.stress, varsNew := a.varsNew })
    (by intro _ _ _ h; exact h) (by idx) hst hw ?_
  rintro v t y y' hv hs hi hw hf
  keep hs
  simp only [bind_ok_iff, pure_ok_iff] at hf
  obtain ⟨p, hp, q, hq, rfl⟩ := hf
  refine Gives.seq (Gives.memSt (k := e * 3 + v) hw (by idx) (by evs; rfl) hp) ?_
  intro s hs hw; keep hs
  exact Gives.memSt (k := e * 3 + v) hw (by idx) (by evs; rfl) hq

theorem run_calc_fields3 (L : LitLaws α) {s : St α} {w r : Work α} (hw : s.w = w)
    (hd : c.dim = 3) (hm : calcFields c w = .ok r)
    (hx : 1 ≤ c.nx) (hy : 1 ≤ c.ny) (hz1 : 1 ≤ c.nz) :
    Gives (run c (n + 4) .calc_fields s) (fun t => t.w = r) := by
  show Gives (t_calc_fields.exec c (run c (n + 3)) s) _
  have hz : (OfScientific.ofScientific 0 true 1 : α) = 0 := L.zeroD
  unfold calcFields at hm
  rw [if_neg (by omega), if_pos hd] at hm
  rw [bind_ok_iff] at hm
  obtain ⟨av, hm, hr⟩ := hm
  cases hr
  refine Gives.seq (Gives.declI) ?_
  intro s hs _; keep hs
  refine Gives.ite_neg (ok_to (ev_eqI (ev_imem _) (ev_ilit _)) (by simp [GI.get, hd])) ?_
  refine Gives.ite_pos (ok_to (ev_eqI (ev_imem _) (ev_ilit _)) (by simp [GI.get, hd])) ?_
  refine Gives.sim (fun (a : FieldState α) t => t.w = { w with elemStrain := a.strain, elemStress := a.stress, varsNew := a.varsNew })
    (by intro _ _ _ h; exact h) (by idx) hm hw ?_
  rintro ex t a a' hex' hs hex hw hm
  keep hs
  refine Gives.sim (fun (a : FieldState α) t => t.w = { w with elemStrain := a.strain, elemStress := a.stress, varsNew := a.varsNew })
    (by intro _ _ _ h; exact h) (by idx) hm hw ?_
  rintro ey t a a' hey' hs hey hw hm
  keep hs
  refine Gives.sim (fun (a : FieldState α) t => t.w = { w with elemStrain := a.strain, elemStress := a.stress, varsNew := a.varsNew })
    (by intro _ _ _ h; exact h) (by idx) hm hw ?_
  rintro ez t a a' hez' hs hez hw hm
  keep hs
  unfold fieldElem3D at hm
  rw [bind_ok_iff] at hm
  obtain ⟨ax, hm, hst⟩ := hm
  unfold fieldStore at hst
  refine Gives.seq (Gives.declV (fun _ => 0)) ?_
  intro s hs hax; keep hs
  refine Gives.seq (Gives.declV (fun _ => 0)) ?_
  intro s hs hay; keep hs
  refine Gives.seq (Gives.for0 (N := 6) (fun k t => VecOn (t.l.v .strain_aux) 6 (· < k) (fun _ => (0 : α)) ∧
    VecOn (t.l.v .stress_aux) 6 (· < k) (fun _ => (0 : α))) (by intro _ _ _ h; exact h) (by idx)
    ⟨hax.congr le_rfl fun q hq => by omega, hay.congr le_rfl fun q hq => by omega⟩ ?_) ?_
  · rintro k t hk hs hi ⟨hax, hay⟩
    keep hs
    refine Gives.seq (Gives.st1g k hax (ev_ivar hi) hk (ok_to (ev_lit _ _ _) hz)) ?_
    intro s hs hax; keep hs
    refine (Gives.st1g k hay (ev_ivar hi) hk (ok_to (ev_lit _ _ _) hz)).same.mono ?_
    rintro t ⟨hs, hay⟩
    keep hs
    exact ⟨hax.congr le_rfl fun q hq => ⟨by omega, rfl⟩, hay.congr le_rfl fun q hq => ⟨by omega, rfl⟩⟩
  rintro s hs ⟨hax, hay⟩
  keep hs
  refine Gives.seq (Gives.sim (fun (x : FieldAux α) t => VecOn (t.l.v .strain_aux) 6 (· < 6) x.strain ∧
      VecOn (t.l.v .stress_aux) 6 (· < 6) x.stress ∧
      t.w = { w with elemStrain := a.strain, elemStress := a.stress, varsNew := x.varsNew })
      (by intro _ _ _ h; exact h) (by idx) hm ⟨hax, hay, hw⟩ ?_) ?_
  · rintro gp t x x' hg hs hgp ⟨hax, hay, hwx⟩ hf
    keep hs
    rename' hwx => hw
    simp only [bind_ok_iff, pure_ok_iff] at hf
    obtain ⟨eps, heps, sig, hsig, rfl⟩ := hf
    refine Gives.seq (Gives.declV (fun _ => 0)) ?_
    intro s hs hst; keep hs
    refine Gives.seq (Gives.declV (fun _ => 0)) ?_
    intro s hs hsn; keep hs
    refine Gives.seq (Gives.setD (y := wg3D c) (by evs; simp only [L.ofInt1]; rfl)) ?_
    intro s hs hwg; keep hs
    refine Gives.seq (Gives.call' (P := fun t =>
        VecOn (t.l.v .strain_gp) 6 (· < 6) eps ∧
        t.w = { w with elemStrain := a.strain, elemStress := a.stress, varsNew := x.varsNew }) (Q := _) ?_ (fun _ h => h)) ?_
    · refine ⟨_, by simp only [params, passAll, passIn, ev_ivar hex, ev_ivar hey, ev_ivar hez, ev_ivar hgp, M_bind_ok', M_pure]; rfl, ?_⟩
      exact run_get_strain3D (w := { w with elemStrain := a.strain, elemStress := a.stress, varsNew := x.varsNew })
        L hw hd heps rfl rfl rfl rfl hg hsn
    rintro s hs ⟨hsn, -⟩; keep hs
    refine Gives.seq (Gives.call' (P := fun t =>
        VecOn (t.l.v .strain_gp) 6 (· < 6) eps ∧
        t.l.i .non_linear_flag = some (if sig.nl = true then 1 else 0) ∧
        VecOn (t.l.v .stress_gp) 6 (· < 6) sig.stress ∧
        t.w = { w with elemStrain := a.strain, elemStress := a.stress, varsNew := sig.varsNew }) (Q := _) ?_ (fun _ h => h)) ?_
    · refine ⟨_, by simp only [params, passAll, passIn, ev_ivar hex, ev_ivar hey, ev_ivar hez, ev_ivar hgp, M_bind_ok', M_pure]; rfl, ?_⟩
      exact run_get_stress3D (w := { w with elemStrain := a.strain, elemStress := a.stress, varsNew := x.varsNew })
        L hw hsig hx hy rfl rfl rfl rfl hsn hst
    rintro s hs ⟨hsn, -, hst, hw⟩; keep hs
    refine ((Gives.for0 (N := 6) (fun k t => VecOn (t.l.v .strain_aux) 6 (· < 6)
        (fun q => if q < k then x.strain q + eps q * wg3D c else x.strain q) ∧
      VecOn (t.l.v .stress_aux) 6 (· < 6)
        (fun q => if q < k then x.stress q + sig.stress q * wg3D c else x.stress q)) (by intro _ _ _ h; exact h) (by idx)
      ⟨hax.congr le_rfl fun q hq => ⟨hq, by simp⟩, hay.congr le_rfl fun q hq => ⟨hq, by simp⟩⟩ ?_).same).mono ?_
    · rintro k t hk hs hi ⟨hax, hay⟩
      keep hs
      refine Gives.seq (Gives.st1 (k := k) (y := x.strain k + eps k * wg3D c) hax (ev_ivar hi) rfl hk
        (by evs; simp)) ?_
      intro s hs hax; keep hs
      refine (Gives.st1 (k := k) (y := x.stress k + sig.stress k * wg3D c) hay (ev_ivar hi) rfl hk
        (by evs; simp)).same.mono ?_
      rintro t ⟨hs, hay⟩
      keep hs
      refine ⟨hax.congr le_rfl fun q hq => ⟨by omega, ?_⟩, hay.congr le_rfl fun q hq => ⟨by omega, ?_⟩⟩
      all_goals
        by_cases e : q = k
        · subst e; simp
        · have : q < k + 1 ↔ q < k := by omega
          simp [e, this]
    · rintro t ⟨hs, hax, hay⟩
      keep hs
      exact ⟨hax.congr le_rfl fun q hq => ⟨hq, if_pos hq⟩, hay.congr le_rfl fun q hq => ⟨hq, if_pos hq⟩, hw⟩
  rintro s hs ⟨hax, hay, hwx⟩
  keep hs
  rename' hwx => hw
  refine Gives.seq (Gives.setD (y := c.dx * c.dy * c.dz) (by evs; rfl)) ?_
  intro s hs hvol; keep hs
  refine Gives.seq (Gives.setI (k := ((gloElem3D c.nx c.ny ex ey ez : Nat) : Int)) (by idx)) ?_
  intro s hs hee; keep hs
  generalize gloElem3D c.nx c.ny ex ey ez = e at *
  refine Gives.sim (fun (a : FieldState α) t => t.w = { w with elemStrain := a.strain, elemStress := a.stress, varsNew := a.varsNew })
    (by intro _ _ _ h; exact h) (by idx) hst hw ?_
  rintro v t y y' hv hs hi hw hf
  keep hs
  simp only [bind_ok_iff, pure_ok_iff] at hf
  obtain ⟨p, hp, q, hq, rfl⟩ := hf
  refine Gives.seq (Gives.memSt (k := e * 6 + v) hw (by idx) (by evs; rfl) hp) ?_
  intro s hs hw; keep hs
  exact Gives.memSt (k := e * 6 + v) hw (by idx) (by evs; rfl) hq

end Verif.Text
