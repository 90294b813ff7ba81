import Verif.Lemmas.Built
import Verif.Lemmas.PlasticMore

/-!
# Evaluation of cells without interior nodes, and yielding in terms of the specification
-/

namespace Verif
open Spec Finset

variable {c : Cfg ℝ}

/-! ## Dependence on the six components -/

theorem dev_congr {e e' : Nat → ℝ} (h : ∀ v, v < 6 → e v = e' v) {i : Nat} (hi : i < 6) :
    dev e i = dev e' i := by
  unfold dev tr
  rw [h 0 (by omega), h 1 (by omega), h 2 (by omega), h i hi]

theorem sigTrial_congr {m : Material ℝ} {e e' p p' : Nat → ℝ} (h : ∀ v, v < 6 → e v = e' v)
    (hp : ∀ v, v < 6 → p v = p' v) {i : Nat} (hi : i < 6) :
    sigTrial m e p i = sigTrial m e' p' i := by
  rw [sigTrial_real, sigTrial_real, dev_congr h hi, dev_congr hp hi]

theorem fTrial_congr {m : Material ℝ} {e e' p p' : Nat → ℝ} (h : ∀ v, v < 6 → e v = e' v)
    (hp : ∀ v, v < 6 → p v = p' v) (a : ℝ) : fTrial m e p a = fTrial m e' p' a := by
  rw [fTrial_real, fTrial_real, stressNorm_congr fun v hv => sigTrial_congr h hp hv]

theorem plasticStep_congr {m : Material ℝ} {e e' p p' : Nat → ℝ} (h : ∀ v, v < 6 → e v = e' v)
    (hp : ∀ v, v < 6 → p v = p' v) (a : ℝ) :
    (plasticStep m e p a).nl = (plasticStep m e' p' a).nl ∧
    (plasticStep m e p a).alpha = (plasticStep m e' p' a).alpha ∧
    ∀ v, v < 6 → (plasticStep m e p a).epsP v = (plasticStep m e' p' a).epsP v ∧
      (plasticStep m e p a).stress v = (plasticStep m e' p' a).stress v := by
  have hf := fTrial_congr (m := m) h hp a
  have hs : ∀ v, v < 6 → sigTrial m e p v = sigTrial m e' p' v := fun v => sigTrial_congr h hp
  have hn : sigNorm (sigTrial m e p) = sigNorm (sigTrial m e' p') := by
    rw [sigNorm_real, sigNorm_real, stressNorm_congr hs]
  unfold plasticStep
  rw [hf]
  simp only [hn]
  split
  · refine ⟨rfl, rfl, fun v hv => ⟨?_, ?_⟩⟩
    · simp only [hs v hv, hp v hv]
    · simp only [plasticStress, hs v hv, h 0 (by omega), h 1 (by omega), h 2 (by omega)]
  · refine ⟨rfl, rfl, fun v hv => ⟨hp v hv, ?_⟩⟩
    simp only [plasticStress, hs v hv, h 0 (by omega), h 1 (by omega), h 2 (by omega)]

/-! ## The flag -/

theorem gpNl_iff (hd : c.dim = 3) {w : Work ℝ} {ex ey ez gp : Nat} (hg : gp < 8) :
    gpNl c w.u.val w.varsOld ex ey ez gp = true ↔ c.Yields w (ex, ey, ez) gp := by
  unfold gpNl nl3 Cfg.Yields
  have hm : c.matAt (ex, ey, ez) = matOf c (c.el ex ey ez) := rfl
  rw [hm]
  by_cases hp : (matOf c (c.el ex ey ez)).plasticity = true
  · simp only [hp, if_true, true_and]
    rw [plasticStep_nl]
    have e : stressNorm (sigTrial (matOf c (c.el ex ey ez)) (strain3 c w.u.val ex ey ez gp)
        (epsPAt w.varsOld (c.el ex ey ez) gp)) = stressNorm (c.trial w (ex, ey, ez) gp) := by
      refine stressNorm_congr fun v hv => ?_
      rw [sigTrial_hooke]
      unfold Cfg.trial
      refine dev_congr (fun v hv => ?_) hv
      have hs : ∀ v, v < 6 → strain3 c w.u.val ex ey ez gp v - epsPAt w.varsOld (c.el ex ey ez) gp v
          = c.fe.strain w.u.val (ex, ey, ez) gp v
            - w.varsOld.val (intvarIx (c.el ex ey ez) gp v) := by
        intro v hv
        rw [Cfg.fe_3 hd, strain3_eq _ hg hv]
        unfold epsPAt
        rw [if_pos hv]
      simp only [hooke, tr]
      rw [hs 0 (by omega), hs 1 (by omega), hs 2 (by omega), hs v hv]
      rfl
    rw [e]
    rfl
  · simp [hp]

theorem rhs_nl (hc : c.Ok) {w : Work ℝ} (hw : w.Ok c) {r : RhsOut ℝ} (h : assemblyRhs c w = .ok r) :
    r.nl = true ↔ c.dim = 3 ∧ ∃ e ∈ c.fe.elems, c.Yields w e 7 := by
  rcases hc.dim with hd | hd
  · have hN : c.nn * c.dim = c.nx * c.ny * 2 := by rw [hc.nn2 hd, hd]
    rw [assemblyRhs2_eq hc hd (hw.u2 hc hd) (by rw [hw.b, hN])] at h
    cases h
    constructor
    · intro h; cases h
    · rintro ⟨h, -⟩; omega
  · have hN : c.nn * c.dim = c.nx * c.ny * c.nz * 3 := by rw [hd]; rfl
    rw [assemblyRhs3_eq hc hd (hw.u3 hd) (by rw [hw.b, hN]) hw.varsOld hw.varsNew] at h
    cases h
    show rhsNl c w.u.val w.varsOld = true ↔ _
    rw [rhsNl_iff]
    constructor
    · rintro ⟨ex, hx, ey, hy, ez, hz, h⟩
      refine ⟨hd, (ex, ey, ez), ?_, (gpNl_iff hd (by omega)).mp h⟩
      rw [Cfg.fe_3 hd]
      exact Fe.mem_elems.mpr ⟨hx, hy, hz⟩
    · rintro ⟨-, ⟨ex, ey, ez⟩, he, h⟩
      obtain ⟨h1, h2, -, h4⟩ := c.mem_elems hc he
      exact ⟨ex, h1, ey, h2, ez, h4 hd, (gpNl_iff hd (by omega)).mpr h⟩

/-! ## Cells without interior nodes -/

theorem thin_bd (hc : c.Ok) (hd : c.dim = 3) (hx : c.nx = 2) (q : Nat) : c.fe.Bd q := by
  rw [Cfg.fe_3 hd, F3_Bd (hc.nz3 hd)]
  unfold BdryDof3 Bdry3
  rw [hx]
  have : q / 3 % 2 < 2 := Nat.mod_lt _ (by omega)
  omega

/-- The evaluation of a plastic material point at strain `eps`. -/
noncomputable def ptStep (c : Cfg ℝ) (vo : Buf ℝ) (e gp : Nat) (eps : Nat → ℝ) : PlasticOut ℝ :=
  plasticStep (matOf c e) eps (epsPAt vo e gp) (alphaAt vo e gp)

/-- Its stress, for plastic and elastic materials. -/
noncomputable def ptStress (c : Cfg ℝ) (vo : Buf ℝ) (e gp : Nat) (eps : Nat → ℝ) (v : Nat) : ℝ :=
  if (matOf c e).plasticity = true then (ptStep c vo e gp eps).stress v
  else hooke (matOf c e).lambda (matOf c e).mu eps v

/-- What an evaluation of the cell at strain `eps` returns when all nodes are on the boundary. -/
structure ThinOut (c : Cfg ℝ) (w : Work ℝ) (eps : Nat → ℝ) (r : PertOut ℝ) : Prop where
  ok : r.nr.work.Ok c
  old : r.nr.work.varsOld = w.varsOld
  invMax : r.nr.work.invMax = w.invMax
  err : r.nr.err = 0
  nl : r.nr.nl = true ↔ ∃ e ∈ c.fe.elems, (c.matAt e).plasticity = true ∧
    (ptStep c w.varsOld (c.el e.1 e.2.1 e.2.2) 7 eps).nl = true
  plast : ∀ k, PlasticVar c k → r.nr.work.varsNew.val k =
    if k % 7 = 6 then (ptStep c w.varsOld (k / 56) (k / 7 % 8) eps).alpha
    else (ptStep c w.varsOld (k / 56) (k / 7 % 8) eps).epsP (k % 7)
  elast : ∀ k, ¬ PlasticVar c k → r.nr.work.varsNew.val k = w.varsNew.val k
  sig : ∀ v, v < 6 → r.sig v = c.fe.integral (fun e gp =>
    ptStress c w.varsOld (c.el e.1 e.2.1 e.2.2) gp eps v) / (c.lx * c.ly)

theorem solveStrain_thin {env : Env ℝ} (hc : c.Ok) (hg : c.Geom) (hd : c.dim = 3) (hx : c.nx = 2)
    {w : Work ℝ} (hw : w.Ok c) (hf : 1 ≤ env.fuel) (eps : Nat → ℝ) :
    ∃ r, solveStrain env c w eps = .ok r ∧ ThinOut c w eps r := by
  obtain ⟨u, h1, h2, h3, -⟩ := setDispl_real hc hg.toDivided (w := w) hw.u eps
  have hw1 : Work.Ok c { w with u := u } :=
    ⟨h2, hw.du, hw.b, hw.elemStress, hw.elemStrain, hw.varsOld, hw.varsNew, hw.A2, hw.A3⟩
  have hN : c.nn * c.dim = c.nx * c.ny * c.nz * 3 := by rw [hd]; rfl
  have hst : ∀ ex ey ez gp v, ex < c.nx - 1 → ey < c.ny - 1 → ez < c.nz - 1 → gp < 8 → v < 6 →
      strain3 c u.val ex ey ez gp v = eps v := by
    intro ex ey ez gp v hx' hy hz hgp hv
    have hm : (ex, ey, ez) ∈ c.fe.elems := by
      rw [Cfg.fe_3 hd]; exact Fe.mem_elems.mpr ⟨hx', hy, hz⟩
    have hv' : v < c.fe.nvoi := by rw [Cfg.fe_3 hd]; exact hv
    rw [strain3_eq _ hgp hv, ← Cfg.fe_3 hd, Fe.strain_congr (c.good hc hg) (fun r hr =>
      h3 r hr (thin_bd hc hd hx r)) hm gp hv', Fe.strain_affine (c.good hc hg) _ _ hm gp hv',
      Fe.voigt_symGrad (c.good hc hg) eps hv']
  obtain ⟨f, vn, nl, h4, h5, h6, h7⟩ := assemblyRhs_real hc hw1
  have hn := rhs_nl hc hw1 h4
  have h8 := h4
  rw [assemblyRhs3_eq hc hd (hw1.u3 hd) (by rw [← hN]; exact hw1.b) hw1.varsOld hw1.varsNew] at h8
  have hvn : vn = allPut c u.val w.varsOld w.varsNew := by
    injection h8 with h8
    have := congrArg (fun r : RhsOut ℝ => r.work.varsNew) h8
    exact this.symm
  have hnorm : norm2 (c.nn * c.dim) f = 0 := by
    have : ∀ q, q < c.nn * c.dim → f q = 0 := fun q hq => by
      rw [h7 q hq, if_pos (thin_bd hc hd hx q)]
    unfold norm2 dot
    rw [sum_eq_zero fun q hq => by rw [this q (mem_range.mp hq), zero_mul], Real.sqrt_zero]
  have hw2 : Work.Ok c { w with u := u, b := ⟨c.nn * c.dim, f⟩, varsNew := vn } :=
    ⟨h2, hw.du, rfl, hw.elemStress, hw.elemStrain, hw.varsOld, h5, hw.A2, hw.A3⟩
  have hnr : newtonRaphson env c { w with u := u } = .ok
      { work := { w with u := u, b := ⟨c.nn * c.dim, f⟩, varsNew := vn }, nl := nl, its := 0,
        err := norm2 (c.nn * c.dim) f } := by
    obtain ⟨n, hn⟩ : ∃ n, env.fuel = n + 1 := ⟨env.fuel - 1, by omega⟩
    unfold newtonRaphson
    rw [hn, nrLoop, h4, M_bind_ok']
    simp only
    rw [if_pos]
    · rfl
    · rw [lt_real, hnorm]
      unfold nrMaxTol
      norm_num
  obtain ⟨vn', h9, h10, -⟩ := calcAveStress_real hc hw2
  have h11 := h9
  rw [calcAveStress3_eq hc hd (hw2.u3 hd) hw2.varsOld hw2.varsNew] at h11
  have hvn' : vn' = allPut c u.val w.varsOld vn := by
    injection h11 with h11
    have := congrArg AveState.varsNew h11
    exact this.symm
  refine ⟨_, by unfold solveStrain; rw [h1, M_bind_ok', hnr, M_bind_ok', h9]; rfl, ?_⟩
  refine ⟨?_, rfl, rfl, hnorm, ?_, ?_, ?_, ?_⟩
  · exact ⟨h2, hw.du, rfl, hw.elemStress, hw.elemStrain, hw.varsOld, h10, hw.A2, hw.A3⟩
  · refine hn.trans ⟨?_, ?_⟩
    · rintro ⟨-, e, he, hy⟩
      obtain ⟨a1, a2, -, a4⟩ := c.mem_elems hc he
      refine ⟨e, he, hy.1, ?_⟩
      have h := (gpNl_iff hd (w := { w with u := u }) (by omega)).mpr hy
      unfold gpNl nl3 at h
      have hp : (matOf c (c.el e.1 e.2.1 e.2.2)).plasticity = true := hy.1
      rw [if_pos hp] at h
      unfold ptStep
      rw [← (plasticStep_congr (fun v hv => hst _ _ _ 7 v a1 a2 (a4 hd) (by omega) hv)
        (fun _ _ => rfl) _).1]
      exact h
    · rintro ⟨e, he, hp, hy⟩
      obtain ⟨a1, a2, -, a4⟩ := c.mem_elems hc he
      refine ⟨hd, e, he, (gpNl_iff hd (w := { w with u := u }) (by omega)).mp ?_⟩
      unfold gpNl nl3
      have hp : (matOf c (c.el e.1 e.2.1 e.2.2)).plasticity = true := hp
      rw [if_pos hp, (plasticStep_congr (fun v hv => hst _ _ _ 7 v a1 a2 (a4 hd) (by omega) hv)
        (fun _ _ => rfl) _).1]
      exact hy
  · intro k hk
    show vn'.val k = _
    rw [hvn', (allPut_puts hd vn k).1 hk]
    unfold varAt
    simp only
    have hk' := hk.1
    rw [numIntVars3 hd] at hk'
    obtain ⟨ex, ey, ez, b1, b2, b3, b4⟩ := gloElem_surj (nx := c.nx) (ny := c.ny) (nz := c.nz)
      (e := k / 56) (by omega)
    obtain ⟨d1, d2, d3⟩ := gloElem_decode (ez := ez) b1 b2
    rw [← b4] at d1 d2 d3
    rw [d1, d2, d3]
    obtain ⟨e1, e2, e3⟩ := plasticStep_congr (m := matOf c (k / 56))
      (p := epsPAt w.varsOld (k / 56) (k / 7 % 8))
      (fun v hv => hst ex ey ez (k / 7 % 8) v b1 b2 b3 (by omega) hv) (fun _ _ => rfl)
      (alphaAt w.varsOld (k / 56) (k / 7 % 8))
    split
    · exact e2
    · exact (e3 _ (by omega)).1
  · intro k hk
    show vn'.val k = _
    rw [hvn', (allPut_puts hd vn k).2 hk, hvn, (allPut_puts hd _ k).2 hk]
  · intro v hv
    show c.fe.integral (fun e gp => c.sig u.val w.varsOld e gp v) / (c.lx * c.ly) = _
    congr 1
    refine Fe.integral_congr fun e he gp hgp => ?_
    obtain ⟨a1, a2, -, a4⟩ := c.mem_elems hc he
    have hgp' : gp < 8 := by rw [Cfg.fe_3 hd] at hgp; exact hgp
    have hs := fun v (hv : v < 6) => hst e.1 e.2.1 e.2.2 gp v a1 a2 (a4 hd) hgp' hv
    unfold Cfg.sig Cfg.sigF3 gpSig sig3 ptStress
    rw [if_neg (by omega)]
    split
    · exact ((plasticStep_congr hs (fun _ _ => rfl) _).2.2 v hv).2
    · rw [elasticStress3D_hooke]
      unfold hooke tr
      rw [hs 0 (by omega), hs 1 (by omega), hs 2 (by omega), hs v hv]

end Verif
