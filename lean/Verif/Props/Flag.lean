import Verif.Lemmas.ThinEx

/-!
# The non-linear flag: property C38
-/

namespace Verif.Props
open Verif Verif.Spec Finset

variable {c : Cfg ℝ}

/-- C38, as far as it holds: `assembly_rhs` returns, and it sets the flag exactly when the last Gauss
point of some element yields.  `get_stress3D` resets the flag of an element at every Gauss point
(/repo/src/assembly.cpp:975), so the first seven do not count. -/
theorem C38_partial (hc : c.Ok) {w : Work ℝ} (hw : w.Ok c) :
    ∃ r, assemblyRhs c w = .ok r ∧
      (r.nl = true ↔ c.dim = 3 ∧ ∃ e ∈ c.fe.elems, c.Yields w e 7) := by
  obtain ⟨b, vn, nm, nl, h, -⟩ := rhs_ok hc hw
  exact ⟨_, h, rhs_nl hc hw h⟩

/-- One direction of C38 holds: the flag is never set without a reason. -/
theorem C38_sound (hc : c.Ok) {w : Work ℝ} (hw : w.Ok c) {r : RhsOut ℝ} (h : assemblyRhs c w = .ok r)
    (hn : r.nl = true) : ∃ e ∈ c.fe.elems, ∃ gp, gp < c.npe ∧ c.Yields w e gp := by
  obtain ⟨hd, e, he, hy⟩ := (rhs_nl hc hw h).mp hn
  exact ⟨e, he, 7, by rw [Cfg.npe, hd]; decide, hy⟩

/-- Displacement gradient in the first element of the unit displacement `s` of dof 0. -/
theorem grad_first (hc : IsT c) (s : ℝ) (gp i j : Nat) (hi : i < 3) :
    c.fe.grad (fun q => if q = 0 then s else 0) (0, 0, 0) gp i j
      = if i = 0 then dShape 3 (fun _ => 1) gp 0 j * s else 0 := by
  have hh : c.fe = fe3 2 3 2 1 1 1 := by
    rw [Cfg.fe_3 hc.dim]
    unfold Cfg.F3
    rw [hc.nx, hc.ny, hc.nz, hc.dx, hc.dy, hc.dz]
  rw [hh]
  have hs : ∀ a, dShape 3 (fun k => if k = 0 then 1 else if k = 1 then 1 else 1) gp a j
      = dShape 3 (fun _ => 1) gp a j := by
    intro a; congr 1; funext k; simp
  simp only [Fe.grad, fe3, Fe.node, enode3, node3, sum_range_succ, sum_range_zero, hs]
  interval_cases i <;> simp [cornerX, cornerY, cornerZ]

theorem shape_first :
    (∀ j, j < 3 → dShape 3 (fun _ => 1) 0 0 j = -((1 + gaussPoint) / 2) ^ 2) ∧
    (∀ j, j < 1 → dShape 3 (fun _ => 1) 7 0 j = -((1 - gaussPoint) / 2) ^ 2) ∧
    dShape 3 (fun _ => 1) 7 0 1 = -((1 + gaussPoint) / 2 * ((1 - gaussPoint) / 2)) ∧
    dShape 3 (fun _ => 1) 7 0 2 = -((1 + gaussPoint) / 2 * ((1 - gaussPoint) / 2)) := by
  have e0 : (range 3).erase 0 = {1, 2} := by decide
  have e1 : (range 3).erase 1 = {0, 2} := by decide
  have e2 : (range 3).erase 2 = {0, 1} := by decide
  refine ⟨fun j hj => ?_, fun j hj => ?_, ?_, ?_⟩
  · interval_cases j <;> simp [dShape, e0, e1, e2, sgn, corner, cornerX, cornerY, cornerZ] <;> ring
  · interval_cases j; simp [dShape, e0, sgn, corner, cornerX, cornerY, cornerZ]; ring
  · simp [dShape, e1, sgn, corner, cornerX, cornerY, cornerZ]; ring
  · simp [dShape, e2, sgn, corner, cornerX, cornerY, cornerZ]; ring

/-- Size of the trial stress in the first element when dof 0 is displaced by `s`. -/
theorem trial_first (hT : IsT c) {w : Work ℝ} {s : ℝ} (hs : 0 ≤ s)
    (hu : w.u.val = fun q => if q = 0 then s else 0) (ho : w.varsOld.val = fun _ => 0) (gp : Nat) :
    stressNorm (c.trial w (0, 0, 0) gp) = 4 * s * Real.sqrt (8 / 3
      * dShape 3 (fun _ => 1) gp 0 0 ^ 2 + 2 * (dShape 3 (fun _ => 1) gp 0 1 ^ 2
        + dShape 3 (fun _ => 1) gp 0 2 ^ 2)) := by
  have hm0 : c.matAt (0, 0, 0) = matOf c 0 := by
    show matOf c (gloElem3D c.nx c.ny 0 0 0) = _
    rw [hT.nx, hT.ny]; rfl
  have hdim : c.fe.dim = 3 := by rw [Cfg.fe_dim hT.ok, hT.dim]
  have htr : ∀ gp v, v < 6 → c.trial w (0, 0, 0) gp v = dev (hooke 4 4 (fun v => voigt 3 (fun i j =>
      if i = 0 then dShape 3 (fun _ => 1) gp 0 j * s else 0) v)) v := by
    intro gp v hv
    unfold Cfg.trial
    rw [hm0, hT.low]
    refine dev_congr (fun v hv => ?_) hv
    have e : ∀ v, v < 6 → c.fe.strain w.u.val (0, 0, 0) gp v = voigt 3 (fun i j =>
        if i = 0 then dShape 3 (fun _ => 1) gp 0 j * s else 0) v := by
      intro v hv
      unfold Fe.strain
      rw [hdim, hu]
      have hgr := fun i j (hi : i < 3) => grad_first hT s gp i j hi
      unfold voigt
      split_ifs with a1 a2 a3
      · exact hgr v v a1
      · exact congrArg₂ _ (hgr 0 1 (by omega)) (hgr 1 0 (by omega))
      · exact congrArg₂ _ (hgr 0 2 (by omega)) (hgr 2 0 (by omega))
      · exact congrArg₂ _ (hgr 1 2 (by omega)) (hgr 2 1 (by omega))
    simp only [hooke, tr]
    rw [e 0 (by omega), e 1 (by omega), e 2 (by omega), e v hv, ho]
    simp
  rw [stressNorm_congr fun v hv => htr gp v hv]
  unfold stressNorm
  rw [← Real.sqrt_sq (show 0 ≤ 4 * s by linarith), ← Real.sqrt_mul (sq_nonneg _)]
  congr 1
  simp [dev, hooke, tr, voigt]
  ring

theorem mem_T (hT : IsT c) : ∀ e, e ∈ c.fe.elems ↔ e = (0, 0, 0) ∨ e = (0, 1, 0) := by
  rintro ⟨a, b, d⟩
  rw [Cfg.fe_3 hT.dim, Fe.mem_elems]
  unfold Cfg.F3
  rw [hT.nx, hT.ny, hT.nz]
  simp only [fe3, Prod.mk.injEq]
  omega

/-- C38 fails: there is a cell, in a state the constructor allows, where a Gauss point yields and the
flag stays false. -/
theorem C38_fails : ∃ (c : Cfg ℝ) (w : Work ℝ) (r : RhsOut ℝ), c.Ok ∧ c.Geom ∧ w.Ok c ∧
    c.Yields w (0, 0, 0) 0 ∧ (0, 0, 0) ∈ c.fe.elems ∧ assemblyRhs c w = .ok r ∧ r.nl = false := by
  obtain ⟨s, hs⟩ := reach_exists exEnv_quick exArgsT_ok exJunk []
  obtain ⟨hb, ho⟩ := reach_built exArgsT_ok hs
  have hT := hb.isT
  have hw := ho.work
  set c := s.obj.cfg
  let w : Work ℝ := { s.obj.work with
    u := ⟨s.obj.work.u.size, fun q => if q = 0 then 1 / 4 else 0⟩
    varsOld := ⟨s.obj.work.varsOld.size, fun _ => 0⟩ }
  have hw' : w.Ok c :=
    ⟨hw.u, hw.du, hw.b, hw.elemStress, hw.elemStrain, hw.varsOld, hw.varsNew, hw.A2, hw.A3⟩
  obtain ⟨r, h1, h2⟩ := C38_partial hT.ok hw'
  have hm0 : c.matAt (0, 0, 0) = matOf c 0 := by
    show matOf c (gloElem3D c.nx c.ny 0 0 0) = _
    rw [hT.nx, hT.ny]; rfl
  have hm1 : c.matAt (0, 1, 0) = matOf c 1 := by
    show matOf c (gloElem3D c.nx c.ny 0 1 0) = _
    rw [hT.nx, hT.ny]; rfl
  have hmem := mem_T hT
  have hnorm : ∀ gp, stressNorm (c.trial w (0, 0, 0) gp) = Real.sqrt (8 / 3
      * dShape 3 (fun _ => 1) gp 0 0 ^ 2 + 2 * (dShape 3 (fun _ => 1) gp 0 1 ^ 2
        + dShape 3 (fun _ => 1) gp 0 2 ^ 2)) := by
    intro gp
    rw [trial_first hT (w := w) (s := 1 / 4) (by norm_num) rfl rfl gp]
    norm_num
  have hsh := shape_first
  refine ⟨c, w, r, hT.ok, hT.geom, hw', ?_, ?_, h1, ?_⟩
  · refine ⟨by rw [hm0, hT.low], ?_⟩
    rw [hm0, hT.low, hnorm 0, hsh.1 0 (by omega), hsh.1 1 (by omega), hsh.1 2 (by omega)]
    unfold yieldRadius
    simp only [w, mul_zero, add_zero, mul_one]
    refine Real.sqrt_lt_sqrt (by norm_num) ?_
    norm_num [gaussPoint]
  · exact (hmem _).mpr (Or.inl rfl)
  · by_contra hn
    obtain ⟨-, e, he, hp, hy⟩ := h2.mp (by simpa using hn)
    rcases (hmem _).mp he with rfl | rfl
    · rw [hm0, hT.low, hnorm 7, hsh.2.1 0 (by omega), hsh.2.2.1, hsh.2.2.2] at hy
      unfold yieldRadius at hy
      simp only [w, mul_zero, add_zero, mul_one] at hy
      refine absurd hy (not_lt.mpr (Real.sqrt_le_sqrt ?_))
      norm_num [gaussPoint]
    · rw [hm1, hT.high] at hp
      cases hp

/-- `C38_sound` at a state in which the flag is set. -/
example : ∃ (c : Cfg ℝ) (w : Work ℝ) (r : RhsOut ℝ), c.Ok ∧ w.Ok c ∧ assemblyRhs c w = .ok r ∧
    r.nl = true ∧ ∃ e ∈ c.fe.elems, ∃ gp, gp < c.npe ∧ c.Yields w e gp := by
  obtain ⟨s, hs⟩ := reach_exists exEnv_quick exArgsT_ok exJunk []
  obtain ⟨hb, ho⟩ := reach_built exArgsT_ok hs
  have hT := hb.isT
  have hw := ho.work
  set c := s.obj.cfg
  let w : Work ℝ := { s.obj.work with
    u := ⟨s.obj.work.u.size, fun q => if q = 0 then 10 else 0⟩
    varsOld := ⟨s.obj.work.varsOld.size, fun _ => 0⟩ }
  have hw' : w.Ok c :=
    ⟨hw.u, hw.du, hw.b, hw.elemStress, hw.elemStrain, hw.varsOld, hw.varsNew, hw.A2, hw.A3⟩
  obtain ⟨r, h1, h2⟩ := C38_partial hT.ok hw'
  have hm0 : c.matAt (0, 0, 0) = matOf c 0 := by
    show matOf c (gloElem3D c.nx c.ny 0 0 0) = _
    rw [hT.nx, hT.ny]; rfl
  have hn : r.nl = true := by
    refine h2.mpr ⟨hT.dim, (0, 0, 0), (mem_T hT _).mpr (Or.inl rfl), by rw [hm0, hT.low], ?_⟩
    rw [hm0, hT.low, trial_first hT (w := w) (s := 10) (by norm_num) rfl rfl 7, shape_first.2.1 0 (by omega),
      shape_first.2.2.1, shape_first.2.2.2]
    unfold yieldRadius
    simp only [w, mul_zero, add_zero, mul_one]
    rw [show (4 * 10 : ℝ) = Real.sqrt (40 ^ 2) by rw [Real.sqrt_sq (by norm_num)]; norm_num,
      ← Real.sqrt_mul (by norm_num)]
    refine Real.sqrt_lt_sqrt (by norm_num) ?_
    norm_num [gaussPoint]
  exact ⟨c, w, r, hT.ok, hw', h1, hn, C38_sound hT.ok hw' h1 hn⟩

example : ∃ r, assemblyRhs exP.cfg exP.work = .ok r ∧
    (r.nl = true ↔ exP.cfg.dim = 3 ∧ ∃ e ∈ exP.cfg.fe.elems, exP.cfg.Yields exP.work e 7) :=
  C38_partial exP_ok exP_work

end Verif.Props
