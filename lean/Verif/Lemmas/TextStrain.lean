import Verif.Lemmas.TextLaw

/-!
# The text of the strain routines
-/

namespace Verif.Text

variable {α : Type} [Scalar α] {c : Cfg α} {n : Nat}

set_option hygiene false in
/-- One assignment to `dsh`. -/
local macro "sd3" k:num r:num : tactic => `(tactic|
  (refine Gives.seq (Gives.st2g $k $r hds rfl rfl (by omega) (by omega) (by
      evs
      simp only [L.ofInt1]
      rfl)) ?_
   intro s hs hds
   keep hs))

set_option hygiene false in
/-- One assignment to `bmat`. -/
local macro "sb3" v:num d:num : tactic => `(tactic|
  (refine Gives.seq (Gives.st2g $v (k * 3 + $d) hP rfl (by idx) (by omega) (by omega) (by
      evs
      have h1 : (k * 3 + $d) / 3 = k := by omega
      have h2 : (k * 3 + $d) % 3 = $d := by omega
      simp only [L.ofInt0, bmat3D, h1, h2]
      rfl)) ?_
   intro s hs hP
   keep hs))

theorem run_calc_bmat_3D (L : LitLaws α) {s : St α} {w : Work α} {gp : Nat} {g : Nat → Nat → α}
    (hw : s.w = w) (hd : c.dim = 3)
    (hgp : s.l.i .gp = some (gp : Int)) (hg8 : gp < 8)
    (hb : MtxOn (s.l.m .bmat) 6 24 (fun _ _ => False) g) :
    Gives (run c (n + 1) .calc_bmat_3D s) (fun t =>
      MtxOn (t.l.m .bmat) 6 24 (fun p q => p < 6 ∧ q < 24) (bmat3D c.dx c.dy c.dz gp) ∧
      t.w = w) := by
  show Gives (t_calc_bmat_3D.exec c (run c n) s) _
  refine Gives.seq (Gives.initM rfl) ?_
  intro s hs hxg; keep hs
  replace hxg : MtxOn (s.l.m .xg) 8 3 (fun p q => p < 8 ∧ q < 3) xg3D := hxg.congr (by
    rintro p q ⟨hp, hq⟩
    refine ⟨⟨hp, ?_⟩, rfl⟩
    interval_cases p <;> exact hq)
  refine Gives.seq (Gives.declM (dsh3D c.dx c.dy c.dz gp)) ?_
  intro s hs hds; keep hs
  sd3 0 0; sd3 0 1; sd3 0 2
  sd3 1 0; sd3 1 1; sd3 1 2
  sd3 2 0; sd3 2 1; sd3 2 2
  sd3 3 0; sd3 3 1; sd3 3 2
  sd3 4 0; sd3 4 1; sd3 4 2
  sd3 5 0; sd3 5 1; sd3 5 2
  sd3 6 0; sd3 6 1; sd3 6 2
  sd3 7 0; sd3 7 1; sd3 7 2
  replace hds : MtxOn (s.l.m .dsh) 8 3 (fun p q => p < 8 ∧ q < 3) (dsh3D c.dx c.dy c.dz gp) :=
    hds.congr fun p q ⟨hp, hq⟩ => ⟨by interval_cases p <;> interval_cases q <;> simp, rfl⟩
  refine ((Gives.each2 (m := 0) (N := 8) (F := fun _ => bmat3D c.dx c.dy c.dz gp)
    (S := fun k p q => p < 6 ∧ q < k * 3) (hb.congr fun p q h => by omega) (by omega) rfl
    ?_).same).mono ?_
  · intro k t _ hk hs hi hP
    keep hs
    sb3 0 0; sb3 0 1; sb3 0 2
    sb3 1 0; sb3 1 1; sb3 1 2
    sb3 2 0; sb3 2 1; sb3 2 2
    sb3 3 0; sb3 3 1; sb3 3 2
    sb3 4 0; sb3 4 1; sb3 4 2
    sb3 5 0; sb3 5 1
    refine (Gives.st2g 5 (k * 3 + 2) hP rfl (by idx) (by omega) (by omega) (by
      evs
      have h1 : (k * 3 + 2) / 3 = k := by omega
      have h2 : (k * 3 + 2) % 3 = 2 := by omega
      simp only [bmat3D, h1, h2]
      rfl)).mono ?_
    refine fun t h => h.congr fun p q ⟨hp, hq⟩ => ⟨?_, rfl⟩
    by_cases hl : q < k * 3
    · simp [hp, hl]
    · obtain ⟨d, rfl⟩ := Nat.exists_eq_add_of_le (not_lt.mp hl)
      have hd3 : d < 3 := by omega
      clear hq hl
      interval_cases p <;> interval_cases d <;> simp
  · rintro t ⟨hs, hP⟩
    keep hs
    exact ⟨hP, hw⟩

set_option hygiene false in
/-- One assignment to `elem_disp`. -/
local macro "sdisp3" i:num h:ident : tactic => `(tactic|
  (refine Gives.seq (Gives.st1g ($i * 3 + k) hP (by idx) (by omega)
      (ev_memRead (by idx) (by rw [hw]; rfl) (hr $i k (by omega) hk))) ?_
   intro s hs hP
   keep hs))

theorem run_getElemDisp3 {s : St α} {w : Work α} {ex ey ez : Nat} {f g : Nat → α}
    (hw : s.w = w) (hd : c.dim = 3) (hm : getElemDisp3D c w.u ex ey ez = .ok f)
    (hex : s.l.i .ex = some (ex : Int)) (hey : s.l.i .ey = some (ey : Int))
    (hez : s.l.i .ez = some (ez : Int))
    (hv : VecOn (s.l.v .elem_disp) 24 (fun _ => False) g) :
    Gives (run c (n + 1) .getElemDisp3 s) (fun t =>
      VecOn (t.l.v .elem_disp) 24 (· < 24) f ∧ t.w = w) := by
  show Gives (t_getElemDisp3.exec c (run c n) s) _
  have hr : ∀ i d, i < 8 → d < 3 →
      w.u.read (dispNode3D c.nx c.ny ex ey ez i * 3 + d) = .ok (f (i * 3 + d)) := by
    intro i d hi hd
    have h := gather_ok hm (i * 3 + d) (by omega)
    rwa [show (i * 3 + d) / 3 = i by omega, show (i * 3 + d) % 3 = d by omega] at h
  refine Gives.seq (Gives.setI (k := ((dispNode3D c.nx c.ny ex ey ez 0 : Nat) : Int)) ?_) ?_
  · evs
    simp [dispNode3D, GI.get]
  intro s hs h0; keep hs
  refine Gives.seq (Gives.setI (k := ((dispNode3D c.nx c.ny ex ey ez 1 : Nat) : Int)) ?_) ?_
  · evs
    simp [dispNode3D, GI.get]
  intro s hs h1; keep hs
  refine Gives.seq (Gives.setI (k := ((dispNode3D c.nx c.ny ex ey ez 2 : Nat) : Int)) ?_) ?_
  · evs
    simp [dispNode3D, GI.get]
  intro s hs h2; keep hs
  refine Gives.seq (Gives.setI (k := ((dispNode3D c.nx c.ny ex ey ez 3 : Nat) : Int)) ?_) ?_
  · evs
    simp [dispNode3D, GI.get]
  intro s hs h3; keep hs
  refine Gives.seq (Gives.setI (k := ((dispNode3D c.nx c.ny ex ey ez 4 : Nat) : Int)) ?_) ?_
  · evs
    simp [dispNode3D, GI.get]
  intro s hs h4; keep hs
  refine Gives.seq (Gives.setI (k := ((dispNode3D c.nx c.ny ex ey ez 5 : Nat) : Int)) ?_) ?_
  · evs
    simp [dispNode3D, GI.get]
  intro s hs h5; keep hs
  refine Gives.seq (Gives.setI (k := ((dispNode3D c.nx c.ny ex ey ez 6 : Nat) : Int)) ?_) ?_
  · evs
    simp [dispNode3D, GI.get]
  intro s hs h6; keep hs
  refine Gives.seq (Gives.setI (k := ((dispNode3D c.nx c.ny ex ey ez 7 : Nat) : Int)) ?_) ?_
  · evs
    simp [dispNode3D, GI.get]
  intro s hs h7; keep hs
  refine ((Gives.forFrom (m := 0) (N := 3)
    (fun k t => VecOn (t.l.v .elem_disp) 24 (fun q => q < 24 ∧ q % 3 < k) f)
    (fun _ _ _ h => h) (by omega) (by idx) (hv.congr le_rfl fun q hq => by omega) ?_).same).mono ?_
  · intro k t _ hk hs hi hP
    keep hs
    sdisp3 0 h0
    sdisp3 1 h1
    sdisp3 2 h2
    sdisp3 3 h3
    sdisp3 4 h4
    sdisp3 5 h5
    sdisp3 6 h6
    refine (Gives.st1g (7 * 3 + k) hP (by idx) (by omega)
      (ev_memRead (by idx) (by rw [hw]; rfl) (hr 7 k (by omega) hk))).mono ?_
    exact fun t h => h.congr le_rfl fun q hq => ⟨by omega, rfl⟩
  · rintro t ⟨hs, hP⟩
    keep hs
    exact ⟨hP.congr le_rfl fun q hq => ⟨by omega, rfl⟩, hw⟩

set_option hygiene false in
/-- One assignment to `elem_disp`. -/
local macro "sdisp2" i:num h:ident : tactic => `(tactic|
  (refine Gives.seq (Gives.st1g ($i * 2 + k) hP (by idx) (by omega)
      (ev_memRead (by idx) (by rw [hw]; rfl) (hr $i k (by omega) hk))) ?_
   intro s hs hP
   keep hs))

theorem run_getElemDisp2 {s : St α} {w : Work α} {ex ey : Nat} {f g : Nat → α}
    (hw : s.w = w) (hd : c.dim = 2) (hm : getElemDisp2D c w.u ex ey = .ok f)
    (hex : s.l.i .ex = some (ex : Int)) (hey : s.l.i .ey = some (ey : Int))
    
    (hv : VecOn (s.l.v .elem_disp) 8 (fun _ => False) g) :
    Gives (run c (n + 1) .getElemDisp2 s) (fun t =>
      VecOn (t.l.v .elem_disp) 8 (· < 8) f ∧ t.w = w) := by
  show Gives (t_getElemDisp2.exec c (run c n) s) _
  have hr : ∀ i d, i < 4 → d < 2 →
      w.u.read (dispNode2D c.nx ex ey i * 2 + d) = .ok (f (i * 2 + d)) := by
    intro i d hi hd
    have h := gather_ok hm (i * 2 + d) (by omega)
    rwa [show (i * 2 + d) / 2 = i by omega, show (i * 2 + d) % 2 = d by omega] at h
  refine Gives.seq (Gives.setI (k := ((dispNode2D c.nx ex ey 0 : Nat) : Int)) ?_) ?_
  · evs
    simp [dispNode2D, GI.get]
  intro s hs h0; keep hs
  refine Gives.seq (Gives.setI (k := ((dispNode2D c.nx ex ey 1 : Nat) : Int)) ?_) ?_
  · evs
    simp [dispNode2D, GI.get]
  intro s hs h1; keep hs
  refine Gives.seq (Gives.setI (k := ((dispNode2D c.nx ex ey 2 : Nat) : Int)) ?_) ?_
  · evs
    simp [dispNode2D, GI.get]
  intro s hs h2; keep hs
  refine Gives.seq (Gives.setI (k := ((dispNode2D c.nx ex ey 3 : Nat) : Int)) ?_) ?_
  · evs
    simp [dispNode2D, GI.get]
  intro s hs h3; keep hs
  refine ((Gives.forFrom (m := 0) (N := 2)
    (fun k t => VecOn (t.l.v .elem_disp) 8 (fun q => q < 8 ∧ q % 2 < k) f)
    (fun _ _ _ h => h) (by omega) (by idx) (hv.congr le_rfl fun q hq => by omega) ?_).same).mono ?_
  · intro k t _ hk hs hi hP
    keep hs
    sdisp2 0 h0
    sdisp2 1 h1
    sdisp2 2 h2
    refine (Gives.st1g (3 * 2 + k) hP (by idx) (by omega)
      (ev_memRead (by idx) (by rw [hw]; rfl) (hr 3 k (by omega) hk))).mono ?_
    exact fun t h => h.congr le_rfl fun q hq => ⟨by omega, rfl⟩
  · rintro t ⟨hs, hP⟩
    keep hs
    exact ⟨hP.congr le_rfl fun q hq => ⟨by omega, rfl⟩, hw⟩

theorem run_get_strain3D (L : LitLaws α) {s : St α} {w : Work α} {ex ey ez gp : Nat}
    {r g : Nat → α} (hw : s.w = w) (hd : c.dim = 3)
    (hm : getStrain3D c w.u ex ey ez gp = .ok r)
    (hex : s.l.i .ex = some (ex : Int)) (hey : s.l.i .ey = some (ey : Int))
    (hez : s.l.i .ez = some (ez : Int)) (hgp : s.l.i .gp = some (gp : Int)) (hg8 : gp < 8)
    (hst : VecOn (s.l.v .strain_gp) 6 (fun _ => False) g) :
    Gives (run c (n + 2) .get_strain3D s) (fun t =>
      VecOn (t.l.v .strain_gp) 6 (· < 6) r ∧ t.w = w) := by
  show Gives (t_get_strain3D.exec c (run c (n + 1)) s) _
  unfold getStrain3D at hm
  rw [bind_ok_iff] at hm
  obtain ⟨d, hdisp, hm⟩ := hm
  cases hm
  refine Gives.seq (Gives.declV (fun _ => 0)) ?_
  intro s hs hdv; keep hs
  refine Gives.seq (Gives.call' (P := fun t => VecOn (t.l.v .elem_disp) 24 (· < 24) d ∧ t.w = w)
    (Q := _) ?_ (fun _ h => h)) ?_
  · refine ⟨_, by simp only [params, passAll, passIn, ev_ivar hex, ev_ivar hey, ev_ivar hez,
      M_bind_ok', M_pure]; rfl, ?_⟩
    exact run_getElemDisp3 hw hd hdisp rfl rfl rfl hdv
  rintro s hs ⟨hdv, -⟩; keep hs
  refine Gives.seq (Gives.declM (fun _ _ => 0)) ?_
  intro s hs hb; keep hs
  refine Gives.seq (Gives.call' (P := fun t => MtxOn (t.l.m .bmat) 6 24
    (fun p q => p < 6 ∧ q < 24) (bmat3D c.dx c.dy c.dz gp) ∧ t.w = w) (Q := _) ?_ (fun _ h => h)) ?_
  · refine ⟨_, by simp only [params, passAll, passIn, ev_ivar hgp, M_bind_ok', M_pure]; rfl, ?_⟩
    exact run_calc_bmat_3D L hw hd rfl hg8 hb
  rintro s hs ⟨hb, -⟩; keep hs
  refine ((Gives.each1 (m := 0) (N := 6)
    (fun v => accum 24 (fun i s => s + bmat3D c.dx c.dy c.dz gp v i * d i) 0) hst (by omega)
    (by idx) ?_).same).mono ?_
  · intro k t _ hk hs hi hP
    keep hs
    refine Gives.seq (Gives.st1 (k := k) hP (ev_ivar hi) rfl (by omega) (ev_lit _ _ _)) ?_
    intro s hs hP'; keep hs
    refine (Gives.fold1 (i0 := k) (N := 24)
      (fun i s => s + bmat3D c.dx c.dy c.dz gp k i * d i) hP' (Or.inr rfl) (by omega) (by idx) ?_).mono ?_
    · intro i t hi8 hs hii hv
      keep hs
      refine ⟨ev_ivar hi, ?_⟩
      evs
      simp
    · intro t h
      refine h.congr le_rfl fun q hq => ⟨by simp only [false_or] at hq ⊢; omega, ?_⟩
      by_cases e : q = k
      · subst e
        have : (OfScientific.ofScientific 0 true 1 : α) = 0 := L.zeroD
        simp [this]
      · have : q < k + 1 ↔ q < k := by omega
        simp [e, this]
  · rintro t ⟨hs, h⟩
    keep hs
    exact ⟨h.congr le_rfl fun q hq => ⟨by omega, by simp; omega⟩, hw⟩

set_option hygiene false in
/-- One assignment to `dsh`. -/
local macro "sd2" k:num r:num : tactic => `(tactic|
  (refine Gives.seq (Gives.st2g $k $r (hds.congr fun _ _ h => ⟨h, rfl⟩) rfl rfl (by omega)
      (by omega) (by
      evs
      simp only [L.ofInt1]
      rfl)) ?_
   intro s hs hds
   keep hs))

set_option hygiene false in
/-- One assignment to `bmat`. -/
local macro "sb2" v:num d:num : tactic => `(tactic|
  (refine Gives.seq (Gives.st2g $v (k * 2 + $d) hP rfl (by idx) (by omega) (by omega) (by
      evs
      have h1 : (k * 2 + $d) / 2 = k := by omega
      have h2 : (k * 2 + $d) % 2 = $d := by omega
      simp only [L.ofInt0, bmat2D, h1, h2]
      rfl)) ?_
   intro s hs hP
   keep hs))

theorem run_get_strain2D (L : LitLaws α) {s : St α} {w : Work α} {ex ey gp : Nat}
    {r g : Nat → α} (hw : s.w = w) (hd : c.dim = 2)
    (hm : getStrain2D c w.u ex ey gp = .ok r)
    (hex : s.l.i .ex = some (ex : Int)) (hey : s.l.i .ey = some (ey : Int))
    (hgp : s.l.i .gp = some (gp : Int)) (hg8 : gp < 4)
    (hst : VecOn (s.l.v .strain_gp) 3 (fun _ => False) g) :
    Gives (run c (n + 2) .get_strain2D s) (fun t =>
      VecOn (t.l.v .strain_gp) 3 (· < 3) r ∧ t.w = w) := by
  show Gives (t_get_strain2D.exec c (run c (n + 1)) s) _
  unfold getStrain2D at hm
  rw [bind_ok_iff] at hm
  obtain ⟨d, hdisp, hm⟩ := hm
  cases hm
  refine Gives.seq (Gives.declV (fun _ => 0)) ?_
  intro s hs hdv; keep hs
  refine Gives.seq (Gives.call' (P := fun t => VecOn (t.l.v .elem_disp) 8 (· < 8) d ∧ t.w = w)
    (Q := _) ?_ (fun _ h => h)) ?_
  · refine ⟨_, by simp only [params, passAll, passIn, ev_ivar hex, ev_ivar hey,
      M_bind_ok', M_pure]; rfl, ?_⟩
    exact run_getElemDisp2 hw hd hdisp rfl rfl hdv
  rintro s hs ⟨hdv, -⟩; keep hs
  refine Gives.seq (Gives.initM rfl) ?_
  intro s hs hxg; keep hs
  replace hxg : MtxOn (s.l.m .xg) 4 2 (fun p q => p < 4 ∧ q < 2) xg2D := hxg.congr (by
    rintro p q ⟨hp, hq⟩
    refine ⟨⟨hp, ?_⟩, rfl⟩
    interval_cases p <;> exact hq)
  refine Gives.seq (Gives.declM (dsh2D c.dx c.dy gp)) ?_
  intro s hs hds; keep hs
  refine Gives.seq (Gives.declM (fun _ _ => 0)) ?_
  intro s hs hb; keep hs
  refine Gives.seq (Gives.declM (fun _ _ => 0)) ?_
  intro s hs _; keep hs
  sd2 0 0; sd2 0 1
  sd2 1 0; sd2 1 1
  sd2 2 0; sd2 2 1
  sd2 3 0; sd2 3 1
  replace hds : MtxOn (s.l.m .dsh) 4 2 (fun p q => p < 4 ∧ q < 2) (dsh2D c.dx c.dy gp) :=
    hds.congr fun p q ⟨hp, hq⟩ => ⟨by interval_cases p <;> interval_cases q <;> simp, rfl⟩
  refine Gives.seq (Gives.each2 (a := .bmat) (m := 0) (N := 4)
    (F := fun _ => bmat2D c.dx c.dy gp)
    (S := fun k p q => p < 3 ∧ q < k * 2) (hb.congr fun p q h => by omega) (by omega) rfl ?_) ?_
  · intro k t _ hk hs hi hP
    keep hs
    sb2 0 0; sb2 0 1
    sb2 1 0; sb2 1 1
    sb2 2 0
    refine (Gives.st2g 2 (k * 2 + 1) hP rfl (by idx) (by omega) (by omega) (by
      evs
      have h1 : (k * 2 + 1) / 2 = k := by omega
      have h2 : (k * 2 + 1) % 2 = 1 := by omega
      simp only [bmat2D, h1, h2]
      rfl)).mono ?_
    refine fun t h => h.congr fun p q ⟨hp, hq⟩ => ⟨?_, rfl⟩
    by_cases hl : q < k * 2
    · simp [hp, hl]
    · obtain ⟨d, rfl⟩ := Nat.exists_eq_add_of_le (not_lt.mp hl)
      have hd2 : d < 2 := by omega
      clear hq hl
      interval_cases p <;> interval_cases d <;> simp
  intro s hs hb; keep hs
  refine ((Gives.each1 (m := 0) (N := 3)
    (fun v => accum 8 (fun i s => s + bmat2D c.dx c.dy gp v i * d i) 0) hst (by omega)
    (by idx) ?_).same).mono ?_
  · intro k t _ hk hs hi hP
    keep hs
    refine Gives.seq (Gives.st1 (k := k) hP (ev_ivar hi) rfl (by omega) (ev_lit _ _ _)) ?_
    intro s hs hP'; keep hs
    refine (Gives.fold1 (i0 := k) (N := 8)
      (fun i s => s + bmat2D c.dx c.dy gp k i * d i) hP' (Or.inr rfl) (by omega) (by idx) ?_).mono ?_
    · intro i t hi8 hs hii hv
      keep hs
      refine ⟨ev_ivar hi, ?_⟩
      evs
      simp
    · intro t h
      refine h.congr le_rfl fun q hq => ⟨by simp only [false_or] at hq ⊢; omega, ?_⟩
      by_cases e : q = k
      · subst e
        have : (OfScientific.ofScientific 0 true 1 : α) = 0 := L.zeroD
        simp [this]
      · have : q < k + 1 ↔ q < k := by omega
        simp [e, this]
  · rintro t ⟨hs, h⟩
    keep hs
    exact ⟨h.congr le_rfl fun q hq => ⟨by omega, by simp; omega⟩, hw⟩

/-- `ctan` of `get_stress2D` before it is scaled. -/
def ctanBase (m : Material α) (i j : Nat) : α :=
  if i = 2 then (if j = 2 then (1 - ((2 : Nat) : α) * m.nu) / ((2 : Nat) : α) else 0)
    else if j = 2 then 0
    else if i = j then 1 - m.nu else m.nu

set_option hygiene false in
/-- One assignment to `ctan`. -/
local macro "sc2" k:num r:num : tactic => `(tactic|
  (refine Gives.seq (Gives.st2g $k $r hct rfl rfl (by omega) (by omega) (by
      evs
      simp [L.ofInt0, L.ofInt1, ofInt_two, ctanBase])) ?_
   intro s hs hct
   keep hs))

theorem run_get_stress2D (L : LitLaws α) {s : St α} {w : Work α} {ex ey gp N : Nat}
    {eps g r : Nat → α} (hw : s.w = w) (hd : c.dim = 2)
    (hm : getStress2D c ex ey eps = .ok r)
    (hx : 1 ≤ c.nx) (hy : 1 ≤ c.ny)
    (hex : s.l.i .ex = some (ex : Int)) (hey : s.l.i .ey = some (ey : Int))
    (hgp : s.l.i .gp = some (gp : Int))
    (he : VecOn (s.l.v .strain_gp) 3 (· < 3) eps)
    (hN : 3 ≤ N) (hst : VecOn (s.l.v .stress_gp) N (fun _ => False) g) :
    Gives (run c (n + 2) .get_stress2D s) (fun t =>
      VecOn (t.l.v .strain_gp) 3 (· < 3) eps ∧ t.l.i .non_linear = some 0 ∧
      VecOn (t.l.v .stress_gp) N (· < 3) r ∧ t.w = w) := by
  show Gives (t_get_stress2D.exec c (run c (n + 1)) s) _
  unfold getStress2D at hm
  rw [bind_ok_iff] at hm
  obtain ⟨m, hmat, hm⟩ := hm
  cases hm
  refine Gives.seq (Gives.setI (ev_ilit _)) ?_
  intro s hs hnl; keep hs
  refine Gives.seq Gives.declD ?_
  intro s hs _; keep hs
  refine Gives.seq Gives.declD ?_
  intro s hs _; keep hs
  refine Gives.seq (Gives.declM (ctanBase m)) ?_
  intro s hs hct; keep hs
  refine Gives.seq Gives.declI ?_
  intro s hs _; keep hs
  refine Gives.seq (Gives.setI (k := ((gloElem3D c.nx c.ny ex ey 0 : Nat) : Int)) (by idx)) ?_
  intro s hs hee; keep hs
  generalize gloElem3D c.nx c.ny ex ey 0 = e at *
  refine Gives.seq Gives.declMat ?_
  intro s hs _; keep hs
  refine Gives.seq (Gives.call' (P := fun t =>
      t.l.d .material_E = some m.E ∧ t.l.d .material_nu = some m.nu ∧
      t.l.d .material_Sy = some m.Sy ∧ t.l.d .material_Ka = some m.Ka ∧
      t.l.d .material_mu = some m.mu ∧ t.l.d .material_k = some m.k ∧
      t.l.d .material_lam = some m.lambda ∧
      t.l.i .material_plasticity = some (if m.plasticity = true then 1 else 0) ∧ t.w = w)
    (Q := _) ?_ (fun _ h => h)) ?_
  · refine ⟨_, by simp only [params, passAll, passIn, ev_ivar hee, M_bind_ok', M_pure]; rfl, ?_⟩
    exact run_get_material hw hmat rfl
  rintro s hs ⟨h1, h2, -, -, -, -, -, h8, -⟩; keep hs
  refine Gives.seq (Gives.setD (ev_var h1)) ?_
  intro s hs hE; keep hs
  refine Gives.seq (Gives.setD (ev_var h2)) ?_
  intro s hs hnu; keep hs
  refine Gives.seq (Gives.setI (ev_ivar h8)) ?_
  intro s hs _; keep hs
  sc2 0 0; sc2 0 1; sc2 0 2
  sc2 1 0; sc2 1 1; sc2 1 2
  sc2 2 0; sc2 2 1; sc2 2 2
  refine Gives.seq (Gives.each2 (m := 0) (N := 3) (S := fun _ p q => p < 3 ∧ q < 3)
    (F := fun k p q => if p < k then ctan2D m p q else ctanBase m p q)
    (hct.congr fun p q ⟨hp, hq⟩ => ⟨by interval_cases p <;> interval_cases q <;> simp, by simp⟩)
    (by omega) (by idx) ?_) ?_
  · intro k t _ hk hs hi hP
    keep hs
    refine (Gives.each2 (m := 0) (N := 3) (S := fun _ p q => p < 3 ∧ q < 3)
      (F := fun l p q => if p < k ∨ (p = k ∧ q < l) then ctan2D m p q else ctanBase m p q)
      (hP.congr fun p q h => ⟨h, by simp⟩) (by omega) (by idx) ?_).mono ?_
    · intro l t _ hl hs hj hP
      keep hs
      refine (Gives.st2 (k := k) (r := l) hP (ev_ivar hi) (ev_ivar hj) rfl rfl (by omega)
        (by omega) (y := ctan2D m k l) ?_).mono ?_
      · evs
        simp [L.ofInt1, ofInt_two, ctan2D, ctanBase]
      · intro t h
        refine h.congr fun p q hpq => ⟨Or.inl hpq, ?_⟩
        by_cases e : p = k ∧ q = l
        · obtain ⟨rfl, rfl⟩ := e; simp
        · rw [if_neg e]
          have : (p < k ∨ p = k ∧ q < l + 1) ↔ (p < k ∨ p = k ∧ q < l) := by omega
          simp only [this]
    · intro t h
      refine h.congr fun p q hpq => ⟨hpq, ?_⟩
      have : (p < k ∨ p = k ∧ q < 3) ↔ p < k + 1 := by omega
      simp only [this]
  intro s hs hct; keep hs
  replace hct : MtxOn (s.l.m .ctan) 3 3 (fun p q => p < 3 ∧ q < 3) (ctan2D m) :=
    hct.congr fun p q h => ⟨h, if_pos h.1⟩
  refine ((Gives.each1 (m := 0) (N := 3)
    (fun v => accum 3 (fun i s => s + ctan2D m v i * eps i) 0) hst (by omega)
    (by idx) ?_).same).mono ?_
  · intro k t _ hk hs hi hP
    keep hs
    refine Gives.seq (Gives.st1 (k := k) hP (ev_ivar hi) rfl (by omega) (ev_lit _ _ _)) ?_
    intro s hs hP'; keep hs
    refine (Gives.fold1 (i0 := k) (N := 3)
      (fun i s => s + ctan2D m k i * eps i) hP' (Or.inr rfl) (by omega) (by idx) ?_).mono ?_
    · intro i t hi8 hs hii hv
      keep hs
      refine ⟨ev_ivar hi, ?_⟩
      evs
      simp
    · intro t h
      refine h.congr le_rfl fun q hq => ⟨by simp only [false_or] at hq ⊢; omega, ?_⟩
      by_cases e : q = k
      · subst e
        have : (OfScientific.ofScientific 0 true 1 : α) = 0 := L.zeroD
        simp [this]
      · have : q < k + 1 ↔ q < k := by omega
        simp [e, this]
  · rintro t ⟨hs, h⟩
    keep hs
    exact ⟨he, hnl, h.congr le_rfl fun q hq => ⟨by omega, by simp; omega⟩, hw⟩

end Verif.Text
