import Verif.Lemmas.TextStrain

/-!
# The source text of the element vectors computes the element vectors of the model
-/

namespace Verif.Text

variable {α : Type} [Scalar α] {c : Cfg α} {n : Nat}

set_option hygiene false in
/-- One assignment to `dsh`. -/
local macro "sd2" k:num r:num : tactic => `(tactic|
  (refine Gives.seq (Gives.st2g $k $r (hds.congr fun _ _ h => ⟨h, rfl⟩) rfl rfl (by omega)
      (by omega) (by
      evs
      simp only [L.ofInt1]
      rfl)) ?_
   intro s hs hds
   keep hs))

set_option hygiene false in
/-- One assignment to `bmat`. -/
local macro "sb2" v:num d:num : tactic => `(tactic|
  (refine Gives.seq (Gives.st2g $v (k * 2 + $d) hP rfl (by idx) (by omega) (by omega) (by
      evs
      have h1 : (k * 2 + $d) / 2 = k := by omega
      have h2 : (k * 2 + $d) % 2 = $d := by omega
      simp only [L.ofInt0, bmat2D, h1, h2]
      rfl)) ?_
   intro s hs hP
   keep hs))

theorem run_get_elem_rhs2D (L : LitLaws α) {s : St α} {w : Work α} {ex ey : Nat}
    {r g : Nat → α} (hw : s.w = w) (hd : c.dim = 2)
    (hm : getElemRhs2D c w.u ex ey = .ok r)
    (hx : 1 ≤ c.nx) (hy : 1 ≤ c.ny)
    (hex : s.l.i .ex = some (ex : Int)) (hey : s.l.i .ey = some (ey : Int))
    (hnl : s.l.i .non_linear = some 0)
    (hbe : VecOn (s.l.v .be) 8 (fun _ => False) g) :
    Gives (run c (n + 3) .get_elem_rhs2D s) (fun t =>
      t.l.i .non_linear = some 0 ∧ VecOn (t.l.v .be) 8 (· < 8) r ∧ t.w = w) := by
  show Gives (t_get_elem_rhs2D.exec c (run c (n + 2)) s) _
  unfold getElemRhs2D at hm
  have hz : (OfScientific.ofScientific 0 true 1 : α) = 0 := L.zeroD
  refine Gives.seq (Gives.declM (fun _ _ => 0)) ?_
  intro s hs hds; keep hs
  refine Gives.seq (Gives.declM (fun _ _ => 0)) ?_
  intro s hs hb; keep hs
  refine Gives.seq (Gives.declM (fun _ _ => 0)) ?_
  intro s hs _; keep hs
  refine Gives.seq (Gives.declV (fun _ => 0)) ?_
  intro s hs hst; keep hs
  refine Gives.seq (Gives.initM rfl) ?_
  intro s hs hxg; keep hs
  replace hxg : MtxOn (s.l.m .xg) 4 2 (fun p q => p < 4 ∧ q < 2) xg2D := hxg.congr (by
    rintro p q ⟨hp, hq⟩
    refine ⟨⟨hp, ?_⟩, rfl⟩
    interval_cases p <;> exact hq)
  refine Gives.seq (Gives.map (m := 0) (N := 8) (fun _ => (0 : α)) hbe (by omega) (by omega)
    (by idx) ?_) ?_
  · intro k t _ hk hs hi hP
    keep hs
    exact ok_to (ev_lit _ _ _) hz
  intro s hs hbe; keep hs
  replace hbe : VecOn (s.l.v .be) 8 (· < 8) (fun _ => (0 : α)) :=
    hbe.congr le_rfl fun q hq => ⟨by omega, by simp; omega⟩
  refine ((Gives.sim (N := 4) (fun be t => VecOn (t.l.v .be) 8 (· < 8) be ∧
      MtxOn (t.l.m .dsh) 4 2 (fun _ _ => False) (fun _ _ => (0 : α)) ∧
      MtxOn (t.l.m .bmat) 3 8 (fun _ _ => False) (fun _ _ => (0 : α)) ∧
      VecOn (t.l.v .stress_gp) 6 (fun _ => False) (fun _ => (0 : α)) ∧
      t.l.i .non_linear = some 0 ∧ t.w = w) (by intro _ _ _ h; exact h) (by idx) hm
      ⟨hbe, hds, hb, hst, hnl, hw⟩ ?_).same).mono ?_
  · rintro gp t be be' hg4 hs hgp ⟨hbe, hds, hb, hst, hnl, hw⟩ hf
    keep hs
    simp only [bind_ok_iff, pure_ok_iff] at hf
    obtain ⟨eps, heps, sig, hsig, rfl⟩ := hf
    replace hds := hds.congr (T := fun _ _ => False) (g := dsh2D c.dx c.dy gp)
      fun _ _ h => h.elim
    sd2 0 0; sd2 0 1
    sd2 1 0; sd2 1 1
    sd2 2 0; sd2 2 1
    sd2 3 0; sd2 3 1
    replace hds : MtxOn (s.l.m .dsh) 4 2 (fun p q => p < 4 ∧ q < 2) (dsh2D c.dx c.dy gp) :=
      hds.congr fun p q ⟨hp, hq⟩ => ⟨by interval_cases p <;> interval_cases q <;> simp, rfl⟩
    refine Gives.seq (Gives.each2 (a := .bmat) (m := 0) (N := 4)
      (F := fun _ => bmat2D c.dx c.dy gp)
      (S := fun k p q => p < 3 ∧ q < k * 2) (hb.congr fun p q h => by omega) (by omega) rfl ?_) ?_
    · intro k t _ hk hs hi hP
      keep hs
      sb2 0 0; sb2 0 1
      sb2 1 0; sb2 1 1
      sb2 2 0
      refine (Gives.st2g 2 (k * 2 + 1) hP rfl (by idx) (by omega) (by omega) (by
        evs
        have h1 : (k * 2 + 1) / 2 = k := by omega
        have h2 : (k * 2 + 1) % 2 = 1 := by omega
        simp only [bmat2D, h1, h2]
        rfl)).mono ?_
      refine fun t h => h.congr fun p q ⟨hp, hq⟩ => ⟨?_, rfl⟩
      by_cases hl : q < k * 2
      · simp [hp, hl]
      · obtain ⟨d, rfl⟩ := Nat.exists_eq_add_of_le (not_lt.mp hl)
        have hd2 : d < 2 := by omega
        clear hq hl
        interval_cases p <;> interval_cases d <;> simp
    intro s hs hb; keep hs
    refine Gives.seq (Gives.declV (fun _ => 0)) ?_
    intro s hs hsn; keep hs
    refine Gives.seq (Gives.call' (P := fun t =>
      VecOn (t.l.v .strain_gp) 3 (· < 3) eps ∧ t.w = w) (Q := _) ?_ (fun _ h => h)) ?_
    · refine ⟨_, by simp only [params, passAll, passIn, ev_ivar hex, ev_ivar hey, ev_ivar hgp,
        M_bind_ok', M_pure]; rfl, ?_⟩
      exact run_get_strain2D L hw hd heps rfl rfl rfl hg4 hsn
    rintro s hs ⟨hsn, -⟩; keep hs
    refine Gives.seq (Gives.call' (P := fun t =>
      VecOn (t.l.v .strain_gp) 3 (· < 3) eps ∧ t.l.i .non_linear = some 0 ∧
      VecOn (t.l.v .stress_gp) 6 (· < 3) sig ∧ t.w = w) (Q := _) ?_ (fun _ h => h)) ?_
    · refine ⟨_, by simp only [params, passAll, passIn, ev_ivar hex, ev_ivar hey, ev_ivar hgp,
        M_bind_ok', M_pure]; rfl, ?_⟩
      exact run_get_stress2D L hw hd hsig hx hy rfl rfl rfl hsn (by omega) hst
    rintro s hs ⟨hsn, hnl, hst, -⟩; keep hs
    refine Gives.seq (Gives.setD (y := wg2D c) (by evs; rfl)) ?_
    intro s hs hwg; keep hs
    refine ((Gives.each1 (m := 0) (N := 8)
      (fun i => accum 3 (fun j t => t + bmat2D c.dx c.dy gp j i * sig j * wg2D c) (be i)) hbe (by omega)
      (by idx) ?_).same).mono ?_
    · intro k t _ hk hs hi hP
      keep hs
      refine (Gives.fold1 (i0 := k) (N := 3)
        (fun j t => t + bmat2D c.dx c.dy gp j k * sig j * wg2D c) hP (Or.inl hk) hk (by idx) ?_).mono ?_
      · intro i t hi3 hs hii hv
        keep hs
        refine ⟨ev_ivar hi, ?_⟩
        evs
        simp
      · intro t h
        refine h.congr le_rfl fun q hq => ⟨by omega, ?_⟩
        by_cases e : q = k
        · subst e; simp
        · have : q < k + 1 ↔ q < k := by omega
          simp [e, this]
    · rintro t ⟨hs, h⟩
      keep hs
      exact ⟨h.congr le_rfl fun q hq => ⟨by omega, by simp; omega⟩,
        hds.congr fun _ _ h => h.elim, hb.congr fun _ _ h => h.elim,
        hst.congr le_rfl fun _ h => h.elim, hnl, hw⟩
  · rintro t ⟨hs, h⟩
    exact ⟨h.2.2.2.2.1, h.1, h.2.2.2.2.2⟩

theorem run_get_elem_rhs3D (L : LitLaws α) {s : St α} {w : Work α} {ex ey ez : Nat} {nl : Bool}
    {r : ElemRhs α} {g : Nat → α} (hw : s.w = w) (hd : c.dim = 3)
    (hm : getElemRhs3D c w.u w.varsOld w.varsNew ex ey ez nl = .ok r)
    (hx : 1 ≤ c.nx) (hy : 1 ≤ c.ny)
    (hex : s.l.i .ex = some (ex : Int)) (hey : s.l.i .ey = some (ey : Int))
    (hez : s.l.i .ez = some (ez : Int))
    (hnl : s.l.i .non_linear = some (if nl = true then 1 else 0))
    (hbe : VecOn (s.l.v .be) 24 (fun _ => False) g) :
    Gives (run c (n + 4) .get_elem_rhs3D s) (fun t =>
      t.l.i .non_linear = some (if r.nl = true then 1 else 0) ∧
      VecOn (t.l.v .be) 24 (· < 24) r.be ∧ t.w = { w with varsNew := r.varsNew }) := by
  show Gives (t_get_elem_rhs3D.exec c (run c (n + 3)) s) _
  unfold getElemRhs3D at hm
  have hz : (OfScientific.ofScientific 0 true 1 : α) = 0 := L.zeroD
  refine Gives.seq (Gives.declM (fun _ _ => 0)) ?_
  intro s hs hb; keep hs
  refine Gives.seq (Gives.declM (fun _ _ => 0)) ?_
  intro s hs _; keep hs
  refine Gives.seq (Gives.declV (fun _ => 0)) ?_
  intro s hs hst; keep hs
  refine Gives.seq (Gives.map (m := 0) (N := 24) (fun _ => (0 : α)) hbe (by omega) (by omega)
    (by idx) ?_) ?_
  · intro k t _ hk hs hi hP
    keep hs
    exact ok_to (ev_lit _ _ _) hz
  intro s hs hbe; keep hs
  replace hbe : VecOn (s.l.v .be) 24 (· < 24) (fun _ => (0 : α)) :=
    hbe.congr le_rfl fun q hq => ⟨by omega, by simp; omega⟩
  refine ((Gives.sim (N := 8) (fun (r : ElemRhs α) t => VecOn (t.l.v .be) 24 (· < 24) r.be ∧
      MtxOn (t.l.m .bmat) 6 24 (fun _ _ => False) (fun _ _ => (0 : α)) ∧
      VecOn (t.l.v .stress_gp) 6 (fun _ => False) (fun _ => (0 : α)) ∧
      t.l.i .non_linear = some (if r.nl = true then 1 else 0) ∧
      t.w = { w with varsNew := r.varsNew }) (by intro _ _ _ h; exact h) (by idx) hm
      ⟨hbe, hb, hst, hnl, hw⟩ ?_).same).mono ?_
  · rintro gp t ⟨be, nl, vn⟩ be' hg8 hs hgp ⟨hbe, hb, hst, hnl, hw⟩ hf
    keep hs
    simp only [bind_ok_iff, pure_ok_iff] at hf
    obtain ⟨eps, heps, sg, hsig, rfl⟩ := hf
    replace hbe : VecOn (t.l.v .be) 24 (· < 24) be := hbe
    replace hw : t.w = { w with varsNew := vn } := hw
    refine Gives.seq (Gives.call' (P := fun t =>
        MtxOn (t.l.m .bmat) 6 24 (fun p q => p < 6 ∧ q < 24) (bmat3D c.dx c.dy c.dz gp) ∧
        t.w = { w with varsNew := vn }) (Q := _) ?_ (fun _ h => h)) ?_
    · refine ⟨_, by simp only [params, passAll, passIn, ev_ivar hgp, M_bind_ok', M_pure]; rfl, ?_⟩
      exact run_calc_bmat_3D L hw hd rfl hg8 hb
    rintro s hs ⟨hb, -⟩; keep hs
    refine Gives.seq (Gives.declV (fun _ => 0)) ?_
    intro s hs hsn; keep hs
    refine Gives.seq (Gives.call' (P := fun t =>
        VecOn (t.l.v .strain_gp) 6 (· < 6) eps ∧ t.w = { w with varsNew := vn }) (Q := _) ?_ (fun _ h => h)) ?_
    · refine ⟨_, by simp only [params, passAll, passIn, ev_ivar hex, ev_ivar hey, ev_ivar hez, ev_ivar hgp, M_bind_ok', M_pure]; rfl, ?_⟩
      exact run_get_strain3D L hw hd heps rfl rfl rfl rfl hg8 hsn
    rintro s hs ⟨hsn, -⟩; keep hs
    refine Gives.seq (Gives.call' (P := fun t =>
        VecOn (t.l.v .strain_gp) 6 (· < 6) eps ∧
        t.l.i .non_linear = some (if sg.nl = true then 1 else 0) ∧
        VecOn (t.l.v .stress_gp) 6 (· < 6) sg.stress ∧
        t.w = { w with varsNew := sg.varsNew }) (Q := _) ?_ (fun _ h => h)) ?_
    · refine ⟨_, by simp only [params, passAll, passIn, ev_ivar hex, ev_ivar hey, ev_ivar hez, ev_ivar hgp, M_bind_ok', M_pure]; rfl, ?_⟩
      exact run_get_stress3D (w := { w with varsNew := vn }) L hw hsig hx hy rfl rfl rfl rfl hsn hst
    rintro s hs ⟨hsn, hnl, hst, hw⟩; keep hs
    refine Gives.seq (Gives.setD (y := wg3D c) (by evs; simp only [L.ofInt1]; rfl)) ?_
    intro s hs hwg; keep hs
    generalize hsg : sg.stress = sig at *
    refine ((Gives.each1 (m := 0) (N := 24)
      (fun i => accum 6 (fun j t => t + bmat3D c.dx c.dy c.dz gp j i * sig j * wg3D c) (be i)) hbe (by omega)
      (by idx) ?_).same).mono ?_
    · intro k t _ hk hs hi hP
      keep hs
      refine (Gives.fold1 (i0 := k) (N := 6)
        (fun j t => t + bmat3D c.dx c.dy c.dz gp j k * sig j * wg3D c) hP (Or.inl hk) hk (by idx) ?_).mono ?_
      · intro i t hi3 hs hii hv
        keep hs
        refine ⟨ev_ivar hi, ?_⟩
        evs
        simp
      · intro t h
        refine h.congr le_rfl fun q hq => ⟨by omega, ?_⟩
        by_cases e : q = k
        · subst e; simp
        · have : q < k + 1 ↔ q < k := by omega
          simp [e, this]
    · rintro t ⟨hs, h⟩
      keep hs
      exact ⟨h.congr le_rfl fun q hq => ⟨by omega, by simp; omega⟩,
        hb.congr fun _ _ h => h.elim, hst.congr le_rfl fun _ h => h.elim, hnl, hw⟩
  · rintro t ⟨hs, h⟩
    exact ⟨h.2.2.2.1, h.1, h.2.2.2.2⟩

end Verif.Text
