import Verif.Lemmas.YieldApi

/-! # Construction of a plastic object and of its elastic copy -/

namespace Verif
open Spec Finset

/-- The deviator of the trial stress. -/
theorem trial_bound {lam mu E : ℝ} (hmu : 0 ≤ mu) {e : Nat → ℝ} (he : ∀ v, v < 6 → |e v| ≤ E) :
    stressNorm (dev (hooke lam mu e)) ≤ 8 * (mu * E) := by
  have hE : 0 ≤ E := (abs_nonneg _).trans (he 0 (by omega))
  have h0 := abs_le.mp (he 0 (by omega))
  have h1 := abs_le.mp (he 1 (by omega))
  have h2 := abs_le.mp (he 2 (by omega))
  have sq_le : ∀ x y : ℝ, -y ≤ x → x ≤ y → x ^ 2 ≤ y ^ 2 := fun x y a b => sq_le_sq' a b
  unfold stressNorm
  rw [show 8 * (mu * E) = Real.sqrt ((8 * (mu * E)) ^ 2) from (Real.sqrt_sq (by positivity)).symm]
  refine Real.sqrt_le_sqrt ?_
  have d : ∀ i, i < 3 → dev (hooke lam mu e) i = mu * (2 * (e i - (e 0 + e 1 + e 2) / 3)) := by
    intro i hi
    interval_cases i <;> simp [dev, hooke, tr] <;> ring
  have d' : ∀ i, 3 ≤ i → i < 6 → dev (hooke lam mu e) i = mu * e i := by
    intro i hi hi'
    interval_cases i <;> simp [dev, hooke]
  have b : ∀ i, i < 3 → (mu * (2 * (e i - (e 0 + e 1 + e 2) / 3))) ^ 2 ≤ mu ^ 2 * (4 * E) ^ 2 := by
    intro i hi
    rw [mul_pow]
    refine mul_le_mul_of_nonneg_left (sq_le _ _ ?_ ?_) (sq_nonneg _) <;> interval_cases i <;> linarith
  have b' : ∀ i, i < 6 → (mu * e i) ^ 2 ≤ mu ^ 2 * E ^ 2 := by
    intro i hi
    rw [mul_pow]
    have := abs_le.mp (he i hi)
    exact mul_le_mul_of_nonneg_left (sq_le _ _ this.1 this.2) (sq_nonneg _)
  rw [d 0 (by omega), d 1 (by omega), d 2 (by omega), d' 3 (by omega) (by omega), d' 4 (by omega) (by omega),
    d' 5 (by omega) (by omega)]
  have e1 := b 0 (by omega)
  have e2 := b 1 (by omega)
  have e3 := b 2 (by omega)
  have e4 := b' 3 (by omega)
  have e5 := b' 4 (by omega)
  have e6 := b' 5 (by omega)
  have : 0 ≤ mu ^ 2 * E ^ 2 := by positivity
  nlinarith

theorem accum_abs_le (n : Nat) (f : Nat → ℝ) : |accum n (fun i s => s + f i) (0 : ℝ)| ≤ ∑ i ∈ range n, |f i| := by
  induction n with
  | zero => simp [accum]
  | succ n ih =>
    rw [sum_range_succ]
    exact (abs_add_le _ _).trans (add_le_add ih (le_refl _))

/-- Strains are bounded by displacements. -/
theorem strain3_bound (c : Cfg ℝ) (hd : c.dim = 3) : ∃ Kb : ℝ, 0 ≤ Kb ∧ ∀ (u : Nat → ℝ) (U : ℝ), 0 ≤ U →
    (∀ q, q < c.nn * c.dim → |u q| ≤ U) → ∀ ex ey ez gp v, ex < c.nx - 1 → ey < c.ny - 1 → ez < c.nz - 1 →
    gp < 8 → v < 6 → |strain3 c u ex ey ez gp v| ≤ Kb * U := by
  refine ⟨∑ gp ∈ range 8, ∑ v ∈ range 6, ∑ i ∈ range 24, |bmat3D c.dx c.dy c.dz gp v i|,
    sum_nonneg fun _ _ => sum_nonneg fun _ _ => sum_nonneg fun _ _ => abs_nonneg _, ?_⟩
  intro u U hU hu ex ey ez gp v hx hy hz hg hv
  unfold strain3
  refine (accum_abs_le _ _).trans ?_
  have h1 : ∑ i ∈ range 24, |bmat3D c.dx c.dy c.dz gp v i * u (edof3 c.nx c.ny ex ey ez i)|
      ≤ (∑ i ∈ range 24, |bmat3D c.dx c.dy c.dz gp v i|) * U := by
    rw [sum_mul]
    refine sum_le_sum fun i hi => ?_
    rw [abs_mul]
    refine mul_le_mul_of_nonneg_left (hu _ ?_) (abs_nonneg _)
    have := edof3_lt hx hy hz (mem_range.mp hi)
    rw [hd]
    exact this
  refine h1.trans (mul_le_mul_of_nonneg_right ?_ hU)
  refine le_trans ?_ (single_le_sum (f := fun gp => ∑ v ∈ range 6, ∑ i ∈ range 24, |bmat3D c.dx c.dy c.dz gp v i|)
    (fun _ _ => sum_nonneg fun _ _ => sum_nonneg fun _ _ => abs_nonneg _) (mem_range.mpr hg))
  exact single_le_sum (f := fun v => ∑ i ∈ range 24, |bmat3D c.dx c.dy c.dz gp v i|)
    (fun _ _ => sum_nonneg fun _ _ => abs_nonneg _) (mem_range.mpr hv)

/-- The same arguments with the plastic materials (type 1) declared elastic (type 0). -/
def Args.elasticCopy (a : Args ℝ) : Args ℝ :=
  { a with matTypes := fun i => if a.matTypes i = 1 then 0 else a.matTypes i }

/-- The arguments with other material data. -/
abbrev Args.withMats (a : Args ℝ) (p : Nat → ℝ) (t : Nat → Int) : Args ℝ := { a with params := p, matTypes := t }

/-- The grid, the element types and the sparsity pattern do not depend on the materials. -/
theorem construct_mats {a : Args ℝ} (ha : a.Ok) (j : Junk ℝ) :
    ∃ et A, (mkCfg a j et).Ok ∧ Work.Ok (mkCfg a j et) (startWork (mkCfg a j et) j A) ∧
      (∀ ex ey ez, ex < (mkCfg a j et).nx - 1 → ey < (mkCfg a j et).ny - 1 → (a.dim = 2 → ez = 0) →
        (a.dim = 3 → ez < (mkCfg a j et).nz - 1) →
        et.val (gloElem3D (mkCfg a j et).nx (mkCfg a j et).ny ex ey ez)
          = elemTypeOf (mkCfg a j et) ex ey ez) ∧
      ∀ (p : Nat → ℝ) (t : Nat → Int) (env : Env ℝ), construct env (a.withMats p t) j =
        (calcCtanLin env (mkCfg (a.withMats p t) j et) j.ctanLin
          (startWork (mkCfg (a.withMats p t) j et) j A)).bind fun r =>
          .ok { cfg := { mkCfg (a.withMats p t) j et with ctanLin := r.ctan }, work := r.work, gauss := [],
                header := false } := by
  obtain ⟨et, h1, h2, h3⟩ := fillElemType_eq (c := mkCfg a j ⟨0, j.elemType⟩) ha.micro ha.dim
    (et := ⟨(mkCfg a j ⟨0, j.elemType⟩).nelem, j.elemType⟩) rfl
  have hc : (mkCfg a j et).Ok := by
    refine ⟨ha.dim, ha.nx, ha.ny, fun hd => ?_, fun hd => ?_, h2, ha.micro⟩
    · have hd : a.dim = 2 := hd
      simp [mkCfg, hd]
    · have hd : a.dim = 3 := hd
      simp [mkCfg, hd]
      exact ha.nz hd
  have hA : ∃ A, (if (mkCfg a j et).dim = 2 then
        ellInit2D j.cols j.vals (mkCfg a j et).dim (mkCfg a j et).nx (mkCfg a j et).ny
      else ellInit3D j.cols j.vals (mkCfg a j et).dim (mkCfg a j et).nx (mkCfg a j et).ny
        (mkCfg a j et).nz) = .ok A ∧
      ((mkCfg a j et).dim = 2 → Pattern2Weak A 2 (mkCfg a j et).nx (mkCfg a j et).ny) ∧
      ((mkCfg a j et).dim = 3 → Pattern3 A 3 (mkCfg a j et).nx (mkCfg a j et).ny
        (mkCfg a j et).nz) := by
    rcases hc.dim with hd | hd
    · obtain ⟨A, e1, e2⟩ := pattern2_init j.cols j.vals (nF := 2) hc.nx hc.ny
      refine ⟨A, by rw [if_pos hd, hd]; exact e1, fun _ => e2, fun h => by omega⟩
    · obtain ⟨A, e1, e2⟩ := pattern3_init j.cols j.vals (nF := 3) hc.nx hc.ny (hc.nz3 hd)
      refine ⟨A, by rw [if_neg (by omega), hd]; exact e1, fun h => by omega, fun _ => e2⟩
  obtain ⟨A, hA1, hA2, hA3⟩ := hA
  refine ⟨et, A, hc, ⟨rfl, rfl, rfl, rfl, rfl, rfl, rfl, hA2, hA3⟩, h3, fun p t env => ?_⟩
  have h1' : fillElemType (mkCfg (a.withMats p t) j ⟨0, j.elemType⟩)
      ⟨(mkCfg (a.withMats p t) j ⟨0, j.elemType⟩).nelem, j.elemType⟩ = .ok et := h1
  have hA1' : (if (mkCfg (a.withMats p t) j et).dim = 2 then
        ellInit2D j.cols j.vals (mkCfg (a.withMats p t) j et).dim (mkCfg (a.withMats p t) j et).nx (mkCfg (a.withMats p t) j et).ny
      else ellInit3D j.cols j.vals (mkCfg (a.withMats p t) j et).dim (mkCfg (a.withMats p t) j et).nx
        (mkCfg (a.withMats p t) j et).ny (mkCfg (a.withMats p t) j et).nz) = .ok A := hA1
  unfold construct
  rw [if_neg (not_not.mpr ha.dim), if_neg (not_not.mpr ha.micro)]
  simp only []
  rw [h1', M_bind_ok']
  split
  · rename_i h
    rw [if_pos h] at hA1'
    rw [hA1', M_bind_ok']
    rfl
  · rename_i h
    rw [if_neg h] at hA1'
    rw [hA1', M_bind_ok']
    rfl

/-- The moduli of a material as the constructor computes them. -/
theorem mkMaterial_bulk {p : Nat → ℝ} (hl : -1 < p 1) (hh : p 1 < 1 / 2) (ty : Int) (jm : Material ℝ) :
    (mkMaterial p ty jm).k = (mkMaterial p ty jm).lambda + 2 / 3 * (mkMaterial p ty jm).mu := by
  have h1 : (1 : ℝ) + p 1 ≠ 0 := by linarith
  have h2 : (1 : ℝ) - 2 * p 1 ≠ 0 := by linarith
  simp only [mkMaterial]
  push_cast
  field_simp
  ring

/-- Below a multiple of the prescribed strains the yield stress is never met. -/
theorem reach_twin {a : Args ℝ} (ha : a.Ok) (hg : a.Geom) (hel : a.elasticCopy.Elastic)
    (hty : ∀ i, i < 2 → a.matTypes i = 0 ∨ a.matTypes i = 1 ∨ a.matTypes i = 2) (j : Junk ℝ)
    (hj : ∀ k, j.varsOld k = 0) :
    ∃ Y N : ℝ, 0 < Y ∧ ∀ p : Nat → ℝ,
      (∀ i, i < 2 → p (i * 10) = a.params (i * 10) ∧ p (i * 10 + 1) = a.params (i * 10 + 1)) →
      ∀ B : ℝ, 0 ≤ B → (∀ i, i < 2 → a.matTypes i = 1 → Y * (1 + B) ≤ p (i * 10 + 2)) →
      ∀ env : Env ℝ, env.Patient (N * (1 + B) ^ 2) → ∀ (f : Files ℝ) (calls : List (Call ℝ)),
      (∀ k ∈ calls, k.Within (if a.dim = 2 then 3 else 6) B) →
      ∃ s ma v0, (constructF env { a with params := p } j f >>= run env calls) = .ok s ∧
        (constructF env (Args.elasticCopy { a with params := p }) j f >>= run env calls) = .ok (s.copy ma v0) ∧
        (∀ g ∈ s.obj.gauss, g.intVarsN = none ∧ g.intVarsK = none) ∧
        ∀ k : Call ℝ, k.Within (if a.dim = 2 then 3 else 6) B → ∃ r, step env s k = .ok r ∧
          step env (s.copy ma v0) k = .ok { r with state := r.state.copy ma v0 } := by
  obtain ⟨et, A, hc, hw, hety, h⟩ := construct_mats ha j
  let c0 := mkCfg a.elasticCopy j et
  have hge : a.elasticCopy.Geom := ⟨hg.lx, hg.ly, hg.lz⟩
  have hbf : BuiltFrom a.elasticCopy j c0 :=
    ⟨⟨hc.dim, hc.nx, hc.ny, hc.nz2, hc.nz3, hc.elem, hc.micro⟩, ⟨et, c0.ctanLin, rfl⟩, hety⟩
  have hl : Like c0.fe c0.law c0 := ⟨hbf.ok, hbf.geom hge, hbf.elastic hel, rfl, rfl⟩
  obtain ⟨K, n, M, ht⟩ := twins_exist (c0.good hbf.ok hl.geom) (c0.law_ok hbf.ok hl.elastic)
  have hM := ht.pos
  obtain ⟨Kb, hKb, hKb'⟩ : ∃ Kb : ℝ, 0 ≤ Kb ∧ (c0.dim = 3 → ∀ (u : Nat → ℝ) (U : ℝ), 0 ≤ U →
      (∀ q, q < c0.nn * c0.dim → |u q| ≤ U) → ∀ ex ey ez gp v, ex < c0.nx - 1 → ey < c0.ny - 1 → ez < c0.nz - 1 →
      gp < 8 → v < 6 → |strain3 c0 u ex ey ez gp v| ≤ Kb * U) := by
    by_cases hd : c0.dim = 3
    · obtain ⟨Kb, h1, h2⟩ := strain3_bound c0 hd
      exact ⟨Kb, h1, fun _ => h2⟩
    · exact ⟨0, le_refl _, fun h => absurd h hd⟩
  have hmu : ∀ i, i < 2 → 0 < a.params (i * 10) / (2 * (1 + a.params (i * 10 + 1))) := fun i hi =>
    div_pos (hel.E i hi) (by have := hel.lo i hi; have : -1 < a.params (i * 10 + 1) := this; linarith)
  let mu : Nat → ℝ := fun i => a.params (i * 10) / (2 * (1 + a.params (i * 10 + 1)))
  have hmu0 : 0 < mu 0 := hmu 0 (by omega)
  have hmu1 : 0 < mu 1 := hmu 1 (by omega)
  let S : ℝ := ∑ q ∈ range (c0.nn * c0.dim), |j.u q|
  have hS : 0 ≤ S := sum_nonneg fun _ _ => abs_nonneg _
  refine ⟨16 * (mu 0 + mu 1) * (Kb * M + 1) * (1 + S), |n| * (1 + S) ^ 2, by positivity, ?_⟩
  intro p hpp B hB hSy env hp f calls hk
  have hB' : 0 ≤ B + S := add_nonneg hB hS
  have hBS : 1 + (B + S) ≤ (1 + S) * (1 + B) := by nlinarith [mul_nonneg hS hB]
  have hp' : env.Patient (n * (1 + (B + S)) ^ 2) := by
    refine ⟨le_trans ?_ hp.fuel, hp.peek⟩
    calc n * (1 + (B + S)) ^ 2 ≤ |n| * (1 + (B + S)) ^ 2 := mul_le_mul_of_nonneg_right (le_abs_self _) (sq_nonneg _)
      _ ≤ |n| * ((1 + S) * (1 + B)) ^ 2 :=
          mul_le_mul_of_nonneg_left (pow_le_pow_left₀ (by linarith) hBS 2) (abs_nonneg _)
      _ = |n| * (1 + S) ^ 2 * (1 + B) ^ 2 := by ring
  let t0 : Nat → Int := fun i => if a.matTypes i = 1 then 0 else a.matTypes i
  let c := mkCfg (a.withMats p a.matTypes) j et
  let ma := (mkCfg (a.withMats p t0) j et).mats
  have hmat : ∀ i, i < 2 → c.mats i = mkMaterial (fun k => p (i * 10 + k)) (a.matTypes i) (j.mats i) := fun i hi => by
    simp only [c, mkCfg, hi, if_true]
  have hma : ∀ i, i < 2 → ma i = mkMaterial (fun k => p (i * 10 + k)) (t0 i) (j.mats i) := fun i hi => by
    simp only [ma, mkCfg, hi, if_true]
  have hma0 : ∀ i, i < 2 → c0.mats i = mkMaterial (fun k => a.params (i * 10 + k)) (t0 i) (j.mats i) := fun i hi => by
    simp only [c0, mkCfg, Args.elasticCopy, hi, if_true, t0]
  have hlm : ∀ i, i < 2 → (ma i).lambda = (c0.mats i).lambda ∧ (ma i).mu = (c0.mats i).mu := fun i hi => by
    rw [hma i hi, hma0 i hi]
    obtain ⟨e1, e2⟩ := hpp i hi
    simp only [mkMaterial, Nat.add_zero, e1, e2, and_self]
  have hel' : (a.withMats p t0).Elastic := by
    refine ⟨fun i hi => ?_, fun i hi => ?_, fun i hi => ?_, fun hd i hi => hel.ty hd i hi⟩
    · show 0 < p (i * 10)
      rw [(hpp i hi).1]; exact hel.E i hi
    · show -1 < p (i * 10 + 1)
      rw [(hpp i hi).2]; exact hel.lo i hi
    · show p (i * 10 + 1) < 1 / 2
      rw [(hpp i hi).2]; exact hel.hi i hi
  have hok : ∀ ct, Cfg.Ok { c with ctanLin := ct } := fun ct =>
    ⟨hc.dim, hc.nx, hc.ny, hc.nz2, hc.nz3, hc.elem, hc.micro⟩
  have hlike : ∀ ct, Like c0.fe c0.law (Cfg.swap { c with ctanLin := ct } ma) := by
    intro ct
    have hb : BuiltFrom (a.withMats p t0) j (Cfg.swap { c with ctanLin := ct } ma) :=
      ⟨⟨hc.dim, hc.nx, hc.ny, hc.nz2, hc.nz3, hc.elem, hc.micro⟩, ⟨et, ct, rfl⟩, hety⟩
    have hge' : (a.withMats p t0).Geom := ⟨hg.lx, hg.ly, hg.lz⟩
    refine ⟨hb.ok, hb.geom hge', hb.elastic hel', rfl, ?_⟩
    funext e x v
    unfold Cfg.law
    have h1 : (Cfg.matAt (Cfg.swap { c with ctanLin := ct } ma) e).lambda = (c0.matAt e).lambda ∧
        (Cfg.matAt (Cfg.swap { c with ctanLin := ct } ma) e).mu = (c0.matAt e).mu :=
      hlm (if et.val (gloElem3D c0.nx c0.ny e.1 e.2.1 e.2.2) = 0 then 0 else 1) (by split <;> omega)
    rw [h1.1, h1.2]
    rfl
  have hcalm : ∀ ct, Calm { c with ctanLin := ct } ma (M * (1 + (B + S))) := by
    intro ct
    refine ⟨fun i hi => ?_, fun i hi _ => ?_, ?_⟩
    · show ma i = { c.mats i with plasticity := false }
      rw [hma i hi, hmat i hi]
      rcases hty i hi with h1 | h1 | h1 <;> simp [mkMaterial, t0, h1]
    · show (c.mats i).k = _
      rw [hmat i hi]
      refine mkMaterial_bulk ?_ ?_ _ _
      · show -1 < p (i * 10 + 1)
        rw [(hpp i hi).2]; exact hel.lo i hi
      · show p (i * 10 + 1) < 1 / 2
        rw [(hpp i hi).2]; exact hel.hi i hi
    · intro i hi hpl hd u hu ex ey ez gp hx hy hz hgp l δ hδ0 hδ
      have hpl : (c.mats i).plasticity = true := hpl
      have hty1 : a.matTypes i = 1 := by
        rw [hmat i hi] at hpl
        rcases hty i hi with h1 | h1 | h1
        · simp [mkMaterial, h1] at hpl
        · exact h1
        · simp [mkMaterial, h1] at hpl
      have hU : 0 ≤ M * (1 + (B + S)) := by positivity
      have hmui : (c.mats i).mu = mu i := by
        rw [hmat i hi]
        obtain ⟨e1, e2⟩ := hpp i hi
        simp only [mkMaterial, Nat.add_zero, e1, e2, mu, Nat.cast_ofNat]
      have hmup : 0 < mu i := hmu i hi
      have hmule : mu i ≤ mu 0 + mu 1 := by
        interval_cases i <;> linarith
      have hb := trial_bound (lam := (c.mats i).lambda) (mu := (c.mats i).mu) (E := Kb * (M * (1 + (B + S))) + 1.0e-8)
        (by rw [hmui]; exact hmup.le)
        (e := fun j => if j = l then strain3 c u ex ey ez gp j + δ else strain3 c u ex ey ez gp j) (fun v hv => by
          have h1 : |strain3 c u ex ey ez gp v| ≤ Kb * (M * (1 + (B + S))) := hKb' hd u _ hU hu ex ey ez gp v hx hy hz hgp hv
          split
          · refine (abs_add_le _ _).trans (add_le_add h1 ?_)
            rw [abs_of_nonneg hδ0]; exact hδ
          · refine h1.trans (le_add_of_nonneg_right (by norm_num)))
      refine hb.trans ?_
      rw [hmui]
      unfold yieldRadius
      show _ ≤ Real.sqrt (2 / 3) * ((c.mats i).Sy + (c.mats i).Ka * 0)
      have hsy : (c.mats i).Sy = p (i * 10 + 2) := by rw [hmat i hi]; rfl
      rw [mul_zero, add_zero, hsy]
      have hs := hSy i hi hty1
      have h2 : (1 / 2 : ℝ) ≤ Real.sqrt (2 / 3) := by
        refine Real.le_sqrt_of_sq_le ?_
        norm_num
      have h3 : Kb * (M * (1 + (B + S))) + 1.0e-8 ≤ (Kb * M + 1) * ((1 + S) * (1 + B)) := by
        have : Kb * M * (1 + (B + S)) ≤ Kb * M * ((1 + S) * (1 + B)) :=
          mul_le_mul_of_nonneg_left hBS (by positivity)
        have h4 : (1.0e-8 : ℝ) ≤ (1 + S) * (1 + B) := by
          refine le_trans ?_ hBS
          norm_num
          linarith
        linarith
      have h5 : 16 * (mu i * (Kb * (M * (1 + (B + S))) + 1.0e-8)) ≤ p (i * 10 + 2) := by
        refine le_trans ?_ hs
        calc 16 * (mu i * (Kb * (M * (1 + (B + S))) + 1.0e-8))
            ≤ 16 * ((mu 0 + mu 1) * ((Kb * M + 1) * ((1 + S) * (1 + B)))) := by
              refine mul_le_mul_of_nonneg_left (mul_le_mul hmule h3 ?_ (by positivity)) (by norm_num)
              have : (0 : ℝ) ≤ 1.0e-8 := by norm_num
              positivity
          _ = 16 * (mu 0 + mu 1) * (Kb * M + 1) * (1 + S) * (1 + B) := by ring
      have h6 : 0 ≤ p (i * 10 + 2) := by
        refine le_trans ?_ h5
        have : (0 : ℝ) ≤ 1.0e-8 := by norm_num
        positivity
      nlinarith [mul_le_mul_of_nonneg_right h2 h6]
  let v0 : Buf ℝ := ⟨c.numIntVars, j.varsNew⟩
  have hw' : Work.Ok c (startWork c j A) := ⟨hw.u, hw.du, hw.b, hw.elemStress, hw.elemStrain, hw.varsOld, hw.varsNew, hw.A2, hw.A3⟩
  have hu : (startWork c j A).Small c K (B + S) := by
    intro q hq
    show |j.u q| ≤ _
    have h1 := single_le_sum (f := fun q => |j.u q|) (fun _ _ => abs_nonneg _) (mem_range.mpr (show q < c0.nn * c0.dim from hq))
    have h3 : |j.u q| ≤ B + S := by show |j.u q| ≤ B + _; linarith
    nlinarith [ht.one]
  obtain ⟨r, e1, e2, e3, e4⟩ := calcCtanLin_twin ht (hok c.ctanLin) (hlike c.ctanLin) hB' (hcalm c.ctanLin) hp'
    (v0 := v0) rfl (w := startWork c j A) hw' (fun k _ => hj k) hu j.ctanLin
  let o : Obj ℝ := { cfg := { c with ctanLin := r.ctan }, work := r.work, gauss := [], header := false }
  have hbel : Below c0.fe c0.law K M (B + S) ma o := by
    refine ⟨hok _, ?_, hlike _, hcalm _, ?_, e3, by simp [o], by simp [o]⟩
    · exact ⟨e2.ok.u, e2.ok.du, e2.ok.b, e2.ok.elemStress, e2.ok.elemStrain, e2.ok.varsOld, e2.ok.varsNew,
        e2.ok.A2, e2.ok.A3⟩
    · show Buf.Blank _ r.work.varsOld
      rw [e2.varsOld]
      exact fun k _ => hj k
  have hwi : ∀ k : Call ℝ, k.Within (if a.dim = 2 then 3 else 6) B → k.Within o.cfg.nvoi (B + S) := by
    intro k hk
    cases k with
    | setStrain id eps => exact fun v hv => (hk v hv).trans (by linarith)
    | _ => trivial
  have hfil : ctorFiles (o.cfg.swap ma) f = ctorFiles o.cfg f := by
    have : ∀ i, i < 2 → (ma i).E = (c.mats i).E ∧ (ma i).nu = (c.mats i).nu ∧ (ma i).Sy = (c.mats i).Sy ∧
        (ma i).Ka = (c.mats i).Ka := fun i hi => by
      rw [hma i hi, hmat i hi]; exact ⟨rfl, rfl, rfl, rfl⟩
    unfold ctorFiles emitP
    simp only [List.range_succ, List.range_zero, List.nil_append, List.flatMap_append, List.flatMap_cons, List.flatMap_nil,
      List.append_nil]
    show Files.mk _ _ _ _ _ = Files.mk _ _ _ _ _
    obtain ⟨a1, a2, a3, a4⟩ := this 0 (by omega)
    obtain ⟨b1, b2, b3, b4⟩ := this 1 (by omega)
    show Files.mk ([Tok.num (ma 0).E, _, _, _, _, _, _, _] ++ [Tok.num (ma 1).E, _, _, _, _, _, _, _]) _ _ _ _ = _
    rw [a1, a2, a3, a4, b1, b2, b3, b4]
  obtain ⟨s', k1, k2, k3, k4⟩ := run_twin (s := { obj := o, files := ctorFiles o.cfg f }) ht hB' hp' (v0 := v0) rfl hbel
    fun k h => hwi k (hk k h)
  refine ⟨s', ma, v0, ?_, ?_, k3.none, fun k hk' => ?_⟩
  · have := h p a.matTypes env
    unfold constructF
    rw [show ({ a with params := p } : Args ℝ) = a.withMats p a.matTypes from rfl, this, e1]
    exact k1
  · have := h p t0 env
    unfold constructF
    rw [show Args.elasticCopy { a with params := p } = a.withMats p t0 from rfl, this,
      show calcCtanLin env (mkCfg (a.withMats p t0) j et) j.ctanLin (startWork (mkCfg (a.withMats p t0) j et) j A)
        = _ from e4]
    have k5 : run env calls ⟨(ObjFiles.copy ma v0 ⟨o, f⟩).obj, ctorFiles (o.cfg.swap ma) f⟩ = .ok (s'.copy ma v0) := by
      rw [hfil]; exact k4
    exact k5
  · obtain ⟨r', q1, q2, q3, q4⟩ := step_twin ht hB' hp' (v0 := v0) (s := s') (by rw [k2]; rfl) k3 (k := k)
      (by rw [k2]; exact hwi k hk')
    exact ⟨r', q1, q4⟩

end Verif
