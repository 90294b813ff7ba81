import Verif.Lemmas.Terminate
import Verif.Lemmas.SameApi
import Verif.Props.Plastic

/-! # Runs of a plastic object below yield and of its elastic copy -/

namespace Verif
open Spec Finset

/-- The configuration with another material list. -/
abbrev Cfg.swap (c : Cfg ℝ) (ma : Nat → Material ℝ) : Cfg ℝ := { c with mats := ma }

/-- The scratch memory with other contents of `vars_new`. -/
abbrev Work.new (w : Work ℝ) (v : Buf ℝ) : Work ℝ := { w with varsNew := v }

/-- `ma` are the materials of `c` with the plasticity switched off, and displacements up to `U` keep the
plastic ones below yield. -/
structure Calm (c : Cfg ℝ) (ma : Nat → Material ℝ) (U : ℝ) : Prop where
  flag : ∀ i, i < 2 → ma i = { c.mats i with plasticity := false }
  bulk : ∀ i, i < 2 → (c.mats i).plasticity = true → (c.mats i).k = (c.mats i).lambda + 2 / 3 * (c.mats i).mu
  below : ∀ i, i < 2 → (c.mats i).plasticity = true → c.dim = 3 → ∀ u : Nat → ℝ,
    (∀ q, q < c.nn * c.dim → |u q| ≤ U) → ∀ ex ey ez gp, ex < c.nx - 1 → ey < c.ny - 1 → ez < c.nz - 1 →
    gp < 8 → ∀ (l : Nat) (δ : ℝ), 0 ≤ δ → δ ≤ 1.0e-8 →
    stressNorm (dev (hooke (c.mats i).lambda (c.mats i).mu fun j =>
      if j = l then strain3 c u ex ey ez gp j + δ else strain3 c u ex ey ez gp j))
        ≤ yieldRadius (c.mats i).Sy (c.mats i).Ka 0

/-- No plastic strain and no hardening. -/
def Buf.Blank (n : Nat) (b : Buf ℝ) : Prop := ∀ k, k < n → b.val k = 0

variable {c : Cfg ℝ} {ma : Nat → Material ℝ} {U : ℝ}

theorem matOf_mem (c : Cfg ℝ) (e : Nat) : ∃ i, i < 2 ∧ matOf c e = c.mats i ∧ ∀ ma, matOf (c.swap ma) e = ma i := by
  refine ⟨if c.elemType.val e = 0 then 0 else 1, by split <;> omega, rfl, fun ma => rfl⟩

theorem Calm.mat (h : Calm c ma U) (e : Nat) : matOf (c.swap ma) e = { matOf c e with plasticity := false } := by
  obtain ⟨i, hi, h1, h2⟩ := matOf_mem c e
  rw [h2, h1, h.flag i hi]

/-- The difference quotient of Hooke's law. -/
theorem quot_ctan3D (m : Material ℝ) (e : Nat → ℝ) {k l : Nat} (hl : l < 6) :
    (elasticStress3D m (fun j => if j = l then e j + 1.0e-8 else e j) k - elasticStress3D m e k) / 1.0e-8
      = ctan3D m k l := by
  rw [div_eq_iff (by norm_num)]
  unfold elasticStress3D ctan3D
  generalize (1.0e-8 : ℝ) = d
  by_cases hk : k < 3
  · interval_cases k <;> interval_cases l <;> simp <;> ring
  · simp only [hk, if_false, false_and, not_false_eq_true, true_and]
    split <;> simp
    ring

section
variable (hc : c.Ok) (hm : Calm c ma U)
include hc hm

theorem Calm.ok : (c.swap ma).Ok := ⟨hc.dim, hc.nx, hc.ny, hc.nz2, hc.nz3, hc.elem, hc.micro⟩

section
variable (hd : c.dim = 3) {old : Buf ℝ} (ho : old.size = c.numIntVars) (hz : old.Blank c.numIntVars)
  {u : Buf ℝ} (hs : u.size = c.nn * c.dim) (hu : ∀ q, q < c.nn * c.dim → |u.val q| ≤ U)
include hd ho hz hs hu

omit hs hu in
/-- Both evaluate Hooke's law. -/
theorem stress_below {ex ey ez gp : Nat} (hx : ex < c.nx - 1) (hy : ey < c.ny - 1) (hez : ez < c.nz - 1)
    (hg : gp < 8) {e : Nat → ℝ} (hb : ∀ i, i < 2 → (c.mats i).plasticity = true →
      stressNorm (dev (hooke (c.mats i).lambda (c.mats i).mu e)) ≤ yieldRadius (c.mats i).Sy (c.mats i).Ka 0)
    {vn : Buf ℝ} (hn : vn.size = c.numIntVars) :
    ∃ v, v.size = c.numIntVars ∧ getStress3D c old vn ex ey ez gp e = .ok
        { nl := false, varsNew := v, stress := elasticStress3D (matOf c (c.el ex ey ez)) e } := by
  have he := gloElem3D_lt hx hy hez
  have hix : ∀ i, i < 7 → intvarIx (c.el ex ey ez) gp i < c.numIntVars := fun i hi => by
    rw [numIntVars3 hd]; exact intvarIx_lt he hg hi
  obtain ⟨i, hi, e1, -⟩ := matOf_mem c (c.el ex ey ez)
  have e2 : epsPAt old (c.el ex ey ez) gp = fun _ => 0 := by
    funext k; unfold epsPAt; split
    · exact hz _ (hix k (by omega))
    · rfl
  have e3 : alphaAt old (c.el ex ey ez) gp = 0 := hz _ (hix 6 (by omega))
  rw [getStress3D_pure hc hd hx hy hez hg ho hn, e1]
  refine ⟨put3 (c.mats i) old (c.el ex ey ez) gp e vn, by rw [put3_size, hn], ?_⟩
  by_cases hp : (c.mats i).plasticity = true
  · have hb := hb i hi hp
    have e4 : nl3 (c.mats i) old (c.el ex ey ez) gp e = false := by
      unfold nl3
      rw [if_pos hp, e2, e3, Bool.eq_false_iff]
      intro hn
      rw [plasticStep_nl, stressNorm_congr (fun k _ => sigTrial_hooke (c.mats i) e (fun _ => 0) k)] at hn
      simp only [sub_zero] at hn
      exact absurd hb (not_le.mpr hn)
    have e5 : sig3 (c.mats i) old (c.el ex ey ez) gp e = elasticStress3D (c.mats i) e := by
      unfold sig3
      rw [if_pos hp, e2, e3]
      funext k
      rw [Props.plasticStep_below (c.mats i) (hm.bulk i hi hp) e (fun _ => 0) 0 (by simpa only [sub_zero] using hb)]
      unfold hooke elasticStress3D dev Spec.tr
      push_cast
      split <;> simp
    rw [e4, e5]
  · unfold nl3 sig3
    rw [if_neg hp, if_neg hp]

theorem stress_twin {ex ey ez gp : Nat} (hx : ex < c.nx - 1) (hy : ey < c.ny - 1) (hez : ez < c.nz - 1)
    (hg : gp < 8) (l : Nat) {δ : ℝ} (h0 : 0 ≤ δ) (h1 : δ ≤ 1.0e-8) {vn : Buf ℝ} (hn : vn.size = c.numIntVars) :
    ∃ v, v.size = c.numIntVars ∧
      getStress3D c old vn ex ey ez gp (fun j =>
        if j = l then strain3 c u.val ex ey ez gp j + δ else strain3 c u.val ex ey ez gp j) = .ok
        { nl := false, varsNew := v, stress := elasticStress3D (matOf c (c.el ex ey ez)) fun j =>
          if j = l then strain3 c u.val ex ey ez gp j + δ else strain3 c u.val ex ey ez gp j } :=
  stress_below hc hm hd ho hz hx hy hez hg
    (fun i hi hp => hm.below i hi hp hd u.val hu ex ey ez gp hx hy hez hg l δ h0 h1) hn

theorem stress_twin0 {ex ey ez gp : Nat} (hx : ex < c.nx - 1) (hy : ey < c.ny - 1) (hez : ez < c.nz - 1)
    (hg : gp < 8) {vn : Buf ℝ} (hn : vn.size = c.numIntVars) :
    ∃ v, v.size = c.numIntVars ∧ getStress3D c old vn ex ey ez gp (strain3 c u.val ex ey ez gp) = .ok
        { nl := false, varsNew := v
          stress := elasticStress3D (matOf c (c.el ex ey ez)) (strain3 c u.val ex ey ez gp) } := by
  have := stress_twin hc hm hd ho hz hs hu hx hy hez hg 0 le_rfl (by norm_num) hn
  have e : (fun j => if j = 0 then strain3 c u.val ex ey ez gp j + 0 else strain3 c u.val ex ey ez gp j)
      = strain3 c u.val ex ey ez gp := by funext j; simp
  rwa [e] at this

omit hz hs hu in
theorem stress_copy {ex ey ez gp : Nat} (hx : ex < c.nx - 1) (hy : ey < c.ny - 1) (hez : ez < c.nz - 1)
    (hg : gp < 8) (eps : Nat → ℝ) {vn : Buf ℝ} (hn : vn.size = c.numIntVars) :
    getStress3D (c.swap ma) old vn ex ey ez gp eps = .ok
        { nl := false, varsNew := vn, stress := elasticStress3D (matOf c (c.el ex ey ez)) eps } := by
  have := getStress3D_pure (c := c.swap ma) (eps := eps) (hm.ok hc) hd hx hy hez hg ho hn
  rw [this, show (c.swap ma).el ex ey ez = c.el ex ey ez from rfl, hm.mat]
  rfl

omit hm ho hz hu in
theorem strain_twin {ex ey ez : Nat} (hx : ex < c.nx - 1) (hy : ey < c.ny - 1) (hez : ez < c.nz - 1) (gp : Nat) :
    getStrain3D c u ex ey ez gp = .ok (strain3 c u.val ex ey ez gp) := by
  refine getStrain3D_eq ?_ hx hy hez
  rw [hs, hd]; rfl

variable {v0 : Buf ℝ} (h0 : v0.size = c.numIntVars)
include h0

theorem rhs_twin {ex ey ez : Nat} (hx : ex < c.nx - 1) (hy : ey < c.ny - 1) (hez : ez < c.nz - 1)
    {s s0 : RhsState ℝ} (hss : s0 = { s with varsNew := v0 } ∧ s.nl = false ∧ s.nlOne = false ∧
      s.varsNew.size = c.numIntVars) :
    Rel (fun s s0 => s0 = { s with varsNew := v0 } ∧ s.nl = false ∧ s.nlOne = false ∧
      s.varsNew.size = c.numIntVars)
      (rhsElem3D c u old ex ey ez s) (rhsElem3D (c.swap ma) u old ex ey ez s0) := by
  obtain ⟨rfl, h2, h3, h4⟩ := hss
  unfold rhsElem3D
  refine Rel.bind (R := fun (r r0 : ElemRhs ℝ) => r0 = { r with varsNew := v0 } ∧ r.nl = false ∧
    r.varsNew.size = c.numIntVars) ?_ fun r r0 hr => ?_
  · unfold getElemRhs3D
    refine Rel.loop ⟨rfl, h3, h4⟩ fun gp r r0 hg hr => ?_
    obtain ⟨rfl, -, h6⟩ := hr
    obtain ⟨v, hv, e1⟩ := stress_twin0 hc hm hd ho hz hs hu hx hy hez hg h6
    rw [strain_twin hc hd hs hx hy hez, show getStrain3D (c.swap ma) u ex ey ez gp = _ from
      strain_twin hc hd hs hx hy hez gp, M_bind_ok', M_bind_ok', e1, stress_copy hc hm hd ho hx hy hez hg _ h0]
    exact Rel.pure ⟨rfl, rfl, hv⟩
  · obtain ⟨rfl, h5, h6⟩ := hr
    refine Rel.eqBind rfl fun b => Rel.pure ⟨?_, ?_, h5, h6⟩
    · simp [h5]
    · simp [h5, h2]

theorem mat_twin {ex ey ez : Nat} (hx : ex < c.nx - 1) (hy : ey < c.ny - 1) (hez : ez < c.nz - 1) {vn : Buf ℝ}
    (hn : vn.size = c.numIntVars) :
    Rel (fun (r r0 : ElemMat ℝ) => r0 = { r with varsNew := v0 } ∧ r.varsNew.size = c.numIntVars)
      (getElemMat3D c u old vn ex ey ez) (getElemMat3D (c.swap ma) u old v0 ex ey ez) := by
  have he := gloElem3D_lt hx hy hez
  unfold getElemMat3D
  rw [getMaterial_eq hc.micro (by rw [hc.elem, nelem3 hd]; exact he),
    show getMaterial (c.swap ma) (gloElem3D (c.swap ma).nx (c.swap ma).ny ex ey ez) = _ from
      getMaterial_eq (c := c.swap ma) hc.micro (by
        show _ < c.elemType.size
        rw [hc.elem, nelem3 hd]; exact he), M_bind_ok', M_bind_ok',
    show matOf (c.swap ma) (gloElem3D (c.swap ma).nx (c.swap ma).ny ex ey ez) = _ from hm.mat _]
  refine Rel.loop ⟨rfl, hn⟩ fun gp r r0 hg hr => ?_
  obtain ⟨rfl, h6⟩ := hr
  dsimp only
  rw [if_neg Bool.false_ne_true]
  split
  · have key : ∃ (C : Nat → Nat → ℝ) (v : Buf ℝ), v.size = c.numIntVars ∧
        getCtanPlastPert c u old r.varsNew ex ey ez gp = .ok { ctan := C, varsNew := v } ∧
        ∀ k l, l < 6 → C k l = ctan3D (matOf c (c.el ex ey ez)) k l := by
      unfold getCtanPlastPert
      rw [strain_twin hc hd hs hx hy hez, M_bind_ok']
      obtain ⟨v, hv, e1⟩ := stress_twin0 hc hm hd ho hz hs hu hx hy hez hg h6
      rw [e1, M_bind_ok']
      obtain ⟨s, f1, f2, f3⟩ := loop_inv (n := 6) (s := ({ ctan := fun _ _ => 0, varsNew := v } : CtanOut ℝ))
        (f := fun i s => do
          let r ← getStress3D c old s.varsNew ex ey ez gp
            (fun j => if j = i then strain3 c u.val ex ey ez gp j + 1.0e-8 else strain3 c u.val ex ey ez gp j)
          pure { ctan := fun j l => if l = i then (r.stress j
                   - elasticStress3D (matOf c (c.el ex ey ez)) (strain3 c u.val ex ey ez gp) j) / 1.0e-8
                   else s.ctan j l
                 varsNew := r.varsNew })
        (P := fun n s => s.varsNew.size = c.numIntVars ∧ ∀ k l, l < n →
          s.ctan k l = ctan3D (matOf c (c.el ex ey ez)) k l) ⟨hv, by intro k l h; omega⟩ (by
          rintro i s hi ⟨g1, g2⟩
          obtain ⟨v', hv', e2⟩ := stress_twin hc hm hd ho hz hs hu hx hy hez hg i (by norm_num) le_rfl g1
          refine ⟨_, by rw [e2]; rfl, hv', fun k l hl => ?_⟩
          dsimp only
          split
          · rename_i h; subst h; exact quot_ctan3D _ _ hi
          · exact g2 k l (by omega))
      exact ⟨s.ctan, s.varsNew, f2, f1, f3⟩
    obtain ⟨C, v, hv, e1, e2⟩ := key
    rw [e1, M_bind_ok']
    refine Rel.pure ⟨?_, hv⟩
    congr 1
    funext q
    dsimp only
    refine accum_congr (fun k s hk => ?_) _
    refine congrArg (fun x => s + bmat3D c.dx c.dy c.dz gp k (q / 24) * x * wg3D c)
      (accum_congr (fun l s hl => ?_) _)
    rw [e2 k l hl]; rfl
  · exact Rel.pure ⟨rfl, h6⟩

theorem ave_twin {ex ey ez : Nat} (hx : ex < c.nx - 1) (hy : ey < c.ny - 1) (hez : ez < c.nz - 1)
    {s s0 : AveState ℝ} (hss : s0 = { s with varsNew := v0 } ∧ s.varsNew.size = c.numIntVars) :
    Rel (fun s s0 => s0 = { s with varsNew := v0 } ∧ s.varsNew.size = c.numIntVars)
      (aveStressElem3D c u old ex ey ez s) (aveStressElem3D (c.swap ma) u old ex ey ez s0) := by
  obtain ⟨rfl, h2⟩ := hss
  unfold aveStressElem3D
  refine Rel.bind (R := fun (r r0 : AveState ℝ) => r0 = { r with varsNew := v0 } ∧
    r.varsNew.size = c.numIntVars) ?_ fun r r0 hr => ?_
  · refine Rel.loop ⟨rfl, h2⟩ fun gp r r0 hg hr => ?_
    obtain ⟨rfl, h6⟩ := hr
    obtain ⟨v, hv, e1⟩ := stress_twin0 hc hm hd ho hz hs hu hx hy hez hg h6
    rw [strain_twin hc hd hs hx hy hez, show getStrain3D (c.swap ma) u ex ey ez gp = _ from
      strain_twin hc hd hs hx hy hez gp, M_bind_ok', M_bind_ok', e1, stress_copy hc hm hd ho hx hy hez hg _ h0]
    exact Rel.pure ⟨rfl, hv⟩
  · obtain ⟨rfl, h6⟩ := hr
    exact Rel.pure ⟨rfl, h6⟩

theorem field_twin {ex ey ez : Nat} (hx : ex < c.nx - 1) (hy : ey < c.ny - 1) (hez : ez < c.nz - 1)
    {s s0 : FieldState ℝ} (hss : s0 = { s with varsNew := v0 } ∧ s.varsNew.size = c.numIntVars) :
    Rel (fun s s0 => s0 = { s with varsNew := v0 } ∧ s.varsNew.size = c.numIntVars)
      (fieldElem3D c u old ex ey ez s) (fieldElem3D (c.swap ma) u old ex ey ez s0) := by
  obtain ⟨rfl, h2⟩ := hss
  unfold fieldElem3D
  refine Rel.bind (R := fun (r r0 : FieldAux ℝ) => r0 = { r with varsNew := v0 } ∧
    r.varsNew.size = c.numIntVars) ?_ fun r r0 hr => ?_
  · refine Rel.loop ⟨rfl, h2⟩ fun gp r r0 hg hr => ?_
    obtain ⟨rfl, h6⟩ := hr
    obtain ⟨v, hv, e1⟩ := stress_twin0 hc hm hd ho hz hs hu hx hy hez hg h6
    rw [strain_twin hc hd hs hx hy hez, show getStrain3D (c.swap ma) u ex ey ez gp = _ from
      strain_twin hc hd hs hx hy hez gp, M_bind_ok', M_bind_ok', e1, stress_copy hc hm hd ho hx hy hez hg _ h0]
    exact Rel.pure ⟨rfl, hv⟩
  · obtain ⟨rfl, h6⟩ := hr
    unfold fieldStore
    refine Rel.loop ⟨rfl, h6⟩ fun v s s0 _ hs => ?_
    obtain ⟨rfl, h7⟩ := hs
    refine Rel.eqBind rfl fun a => Rel.eqBind rfl fun b => Rel.pure ⟨rfl, h7⟩

end

omit hc in
theorem mat2_twin : getElemMat2D (c.swap ma) = getElemMat2D c ∧ getStress2D (c.swap ma) = getStress2D c := by
  have key : ∀ {β : Type} (f : Material ℝ → M β) (e : Nat),
      (∀ m : Material ℝ, f { m with plasticity := false } = f m) →
      (getMaterial (c.swap ma) e >>= f) = (getMaterial c e >>= f) := by
    intro β f e hf
    unfold getMaterial
    split
    · simp only [bind_assoc]
      refine congrArg _ (funext fun t => ?_)
      show f (ma _) = f (c.mats _)
      rw [hm.flag _ (by split <;> omega)]
      exact hf _
    · rfl
  constructor
  · funext ex ey
    exact key _ _ fun m => rfl
  · funext ex ey eps
    exact key _ _ fun m => rfl

variable {w : Work ℝ} (hw : w.Ok c) (hz : w.varsOld.Blank c.numIntVars)
  (hu : ∀ q, q < c.nn * c.dim → |w.u.val q| ≤ U) {v0 : Buf ℝ} (h0 : v0.size = c.numIntVars)
include hw hz hu h0

theorem assemblyRhs_twin : Rel (fun (r r0 : RhsOut ℝ) => r0 = { r with work := r.work.new v0 } ∧ r.nl = false ∧
      r.work.varsNew.size = c.numIntVars)
    (assemblyRhs c w) (assemblyRhs (c.swap ma) (w.new v0)) := by
  unfold assemblyRhs
  refine Rel.eqBind rfl fun b => ?_
  rcases hc.dim with hd | hd
  · rw [if_pos hd, if_pos (show (c.swap ma).dim = 2 from hd)]
    have e : rhsElem2D (c.swap ma) = rhsElem2D c := by
      unfold rhsElem2D getElemRhs2D
      rw [(mat2_twin hm).2]; rfl
    rw [e]
    refine Rel.eqBind rfl fun b => Rel.eqBind rfl fun b => Rel.eqBind rfl fun r => Rel.pure ⟨rfl, rfl, hw.varsNew⟩
  · rw [if_neg (by omega), if_pos hd, if_neg (show ¬ (c.swap ma).dim = 2 by show ¬ c.dim = 2; omega),
      if_pos (show (c.swap ma).dim = 3 from hd)]
    refine Rel.bind (R := fun (s s0 : RhsState ℝ) => s0 = { s with varsNew := v0 } ∧ s.nl = false ∧
      s.nlOne = false ∧ s.varsNew.size = c.numIntVars) ?_ fun s s0 hs => ?_
    · exact Rel.loop ⟨rfl, rfl, rfl, hw.varsNew⟩ fun ex _ _ hx hs => Rel.loop hs fun ey _ _ hy hs =>
        Rel.loop hs fun ez _ _ hez hs => rhs_twin hc hm hd hw.varsOld hz hw.u hu h0 hx hy hez hs
    · obtain ⟨rfl, h1, h2, h3⟩ := hs
      exact Rel.eqBind rfl fun b => Rel.eqBind rfl fun r => Rel.pure ⟨rfl, h1, h3⟩

theorem assemblyMat_twin : Rel (fun (r r0 : Work ℝ) => r0 = r.new v0 ∧ r.varsNew.size = c.numIntVars)
    (assemblyMat c w) (assemblyMat (c.swap ma) (w.new v0)) := by
  unfold assemblyMat
  refine Rel.eqBind rfl fun A => ?_
  rcases hc.dim with hd | hd
  · rw [if_pos hd, if_pos (show (c.swap ma).dim = 2 from hd), (mat2_twin hm).1]
    refine Rel.eqBind rfl fun b => Rel.eqBind rfl fun b => Rel.pure ⟨rfl, hw.varsNew⟩
  · rw [if_neg (by omega), if_pos hd, if_neg (show ¬ (c.swap ma).dim = 2 by show ¬ c.dim = 2; omega),
      if_pos (show (c.swap ma).dim = 3 from hd)]
    refine Rel.bind (R := fun (s s0 : MatState ℝ) => s0 = { s with varsNew := v0 } ∧
      s.varsNew.size = c.numIntVars) ?_ fun s s0 hs => ?_
    · refine Rel.loop ⟨rfl, hw.varsNew⟩ fun ex _ _ hx hs => Rel.loop hs fun ey _ _ hy hs =>
        Rel.loop hs fun ez s s0 hez hs => ?_
      obtain ⟨rfl, h1⟩ := hs
      refine Rel.bind (mat_twin hc hm hd hw.varsOld hz hw.u hu h0 hx hy hez h1) fun r r0 hr => ?_
      obtain ⟨rfl, h2⟩ := hr
      exact Rel.eqBind rfl fun A => Rel.pure ⟨rfl, h2⟩
    · obtain ⟨rfl, h1⟩ := hs
      exact Rel.eqBind rfl fun A => Rel.pure ⟨rfl, h1⟩

theorem calcAveStress_twin : Rel (fun (r r0 : AveState ℝ) => r0 = { r with varsNew := v0 } ∧
      r.varsNew.size = c.numIntVars)
    (calcAveStress c w) (calcAveStress (c.swap ma) (w.new v0)) := by
  unfold calcAveStress
  rcases hc.dim with hd | hd
  · rw [if_pos hd, if_pos (show (c.swap ma).dim = 2 from hd)]
    have e : aveStressElem2D (c.swap ma) = aveStressElem2D c := by
      unfold aveStressElem2D
      rw [(mat2_twin hm).2]; rfl
    rw [e]
    exact Rel.eqBind rfl fun b => Rel.pure ⟨rfl, hw.varsNew⟩
  · rw [if_neg (by omega), if_pos hd, if_neg (show ¬ (c.swap ma).dim = 2 by show ¬ c.dim = 2; omega),
      if_pos (show (c.swap ma).dim = 3 from hd)]
    refine Rel.bind (R := fun (s s0 : AveState ℝ) => s0 = { s with varsNew := v0 } ∧
      s.varsNew.size = c.numIntVars) ?_ fun s s0 hs => ?_
    · exact Rel.loop ⟨rfl, hw.varsNew⟩ fun ex _ _ hx hs => Rel.loop hs fun ey _ _ hy hs =>
        Rel.loop hs fun ez _ _ hez hs => ave_twin hc hm hd hw.varsOld hz hw.u hu h0 hx hy hez hs
    · obtain ⟨rfl, h1⟩ := hs
      exact Rel.pure ⟨rfl, h1⟩

theorem calcFields_twin : Rel (fun (r r0 : Work ℝ) => r0 = r.new v0 ∧ r.varsNew.size = c.numIntVars)
    (calcFields c w) (calcFields (c.swap ma) (w.new v0)) := by
  unfold calcFields
  rcases hc.dim with hd | hd
  · rw [if_pos hd, if_pos (show (c.swap ma).dim = 2 from hd)]
    have hst : ∀ (nv e : Nat) (vol : ℝ) (r : FieldAux ℝ) (s : FieldState ℝ), r.varsNew.size = c.numIntVars →
        Rel (fun s s0 => s0 = { s with varsNew := v0 } ∧ s.varsNew.size = c.numIntVars) (fieldStore nv e vol r s)
          (fieldStore nv e vol { r with varsNew := v0 } { s with varsNew := v0 }) := by
      intro nv e vol r s hr
      unfold fieldStore
      refine Rel.loop ⟨rfl, hr⟩ fun v s s0 _ hs => ?_
      obtain ⟨rfl, h7⟩ := hs
      exact Rel.eqBind rfl fun a => Rel.eqBind rfl fun b => Rel.pure ⟨rfl, h7⟩
    refine Rel.bind (R := fun (s s0 : FieldState ℝ) => s0 = { s with varsNew := v0 } ∧
      s.varsNew.size = c.numIntVars) ?_ fun s s0 hs => ?_
    · refine Rel.loop ⟨rfl, hw.varsNew⟩ fun ex _ _ hx hs => Rel.loop hs fun ey s s0 hy hs => ?_
      obtain ⟨rfl, h1⟩ := hs
      unfold fieldElem2D
      rw [(mat2_twin hm).2]
      refine Rel.bind (R := fun (r r0 : FieldAux ℝ) => r0 = { r with varsNew := v0 } ∧
        r.varsNew.size = c.numIntVars) ?_ fun r r0 hr => ?_
      · refine Rel.loop ⟨rfl, h1⟩ fun gp r r0 hg hr => ?_
        obtain ⟨rfl, h6⟩ := hr
        exact Rel.eqBind rfl fun a => Rel.eqBind rfl fun b => Rel.pure ⟨rfl, h6⟩
      · obtain ⟨rfl, h6⟩ := hr
        exact hst _ _ _ _ _ h6
    · obtain ⟨rfl, h1⟩ := hs
      exact Rel.pure ⟨rfl, h1⟩
  · rw [if_neg (by omega), if_pos hd, if_neg (show ¬ (c.swap ma).dim = 2 by show ¬ c.dim = 2; omega),
      if_pos (show (c.swap ma).dim = 3 from hd)]
    refine Rel.bind (R := fun (s s0 : FieldState ℝ) => s0 = { s with varsNew := v0 } ∧
      s.varsNew.size = c.numIntVars) ?_ fun s s0 hs => ?_
    · exact Rel.loop ⟨rfl, hw.varsNew⟩ fun ex _ _ hx hs => Rel.loop hs fun ey _ _ hy hs =>
        Rel.loop hs fun ez _ _ hez hs => field_twin hc hm hd hw.varsOld hz hw.u hu h0 hx hy hez hs
    · obtain ⟨rfl, h1⟩ := hs
      exact Rel.pure ⟨rfl, h1⟩

/-- One correction. -/
theorem nrCorrect_twin (env : Env ℝ) : Rel (fun (r r0 : Work ℝ) => r0 = r.new v0 ∧ r.varsNew.size = c.numIntVars)
    (nrCorrect env c w) (nrCorrect env (c.swap ma) (w.new v0)) := by
  unfold nrCorrect
  refine Rel.bind (assemblyMat_twin hc hm hw hz hu h0) fun r r0 hr => ?_
  obtain ⟨rfl, h1⟩ := hr
  refine Rel.eqBind rfl fun du => ?_
  refine Rel.bind (R := fun (r r0 : Work ℝ) => r0 = r.new v0 ∧ r.varsNew.size = c.numIntVars) ?_ fun r r0 hr => ?_
  · unfold solve
    rcases hc.dim with hd | hd
    · rw [if_pos hd, if_pos (show (c.swap ma).dim = 2 from hd)]
      exact Rel.eqBind rfl fun b => Rel.pure ⟨rfl, h1⟩
    · rw [if_neg (by omega), if_pos hd, if_neg (show ¬ (c.swap ma).dim = 2 by show ¬ c.dim = 2; omega),
        if_pos (show (c.swap ma).dim = 3 from hd)]
      exact Rel.eqBind rfl fun b => Rel.pure ⟨rfl, h1⟩
  · obtain ⟨rfl, h2⟩ := hr
    exact Rel.eqBind rfl fun b => Rel.pure ⟨rfl, h2⟩

end

theorem Rel.left {β β' : Type} {R : β → β' → Prop} {m : M β} {m' : M β'} (h : Rel R m m') {x : β}
    (hx : m = .ok x) : ∃ y, m' = .ok y ∧ R x y := by
  subst hx
  rcases m' with e | y
  · exact h.elim
  · exact ⟨y, rfl, h⟩

theorem Rel.right {β β' : Type} {R : β → β' → Prop} {m : M β} {m' : M β'} (h : Rel R m m') {y : β'}
    (hy : m' = .ok y) : ∃ x, m = .ok x ∧ R x y := by
  subst hy
  rcases m with e | x
  · exact h.elim
  · exact ⟨x, rfl, h⟩

section
variable {F : Fe} {L : Nat × Nat × Nat → (Nat → ℝ) → Nat → ℝ}

theorem Work.Ok.swapNew {w : Work ℝ} (hw : w.Ok c) (ma : Nat → Material ℝ) {v0 : Buf ℝ}
    (h0 : v0.size = c.numIntVars) : (w.new v0).Ok (c.swap ma) :=
  ⟨hw.u, hw.du, hw.b, hw.elemStress, hw.elemStrain, hw.varsOld, h0, hw.A2, hw.A3⟩

/-- The Newton loop, as long as the iterates stay in `P`. -/
theorem nrLoop_twin (hc : c.Ok) (hm : Calm c ma U) (env : Env ℝ) {P : (Nat → ℝ) → Prop}
    (hP : ∀ u, P u → ∀ q, q < c.nn * c.dim → |u q| ≤ U)
    (hstep : ∀ (w : Work ℝ) (r : RhsOut ℝ) (w' : Work ℝ), w.Ok (c.swap ma) → P w.u.val →
      assemblyRhs (c.swap ma) w = .ok r → Scalar.lt r.norm nrMaxTol = false →
      nrCorrect env (c.swap ma) r.work = .ok w' → P w'.u.val) {v0 : Buf ℝ} (h0 : v0.size = c.numIntVars)
    (n : Nat) {w : Work ℝ} (hw : w.Ok c) (hz : w.varsOld.Blank c.numIntVars) (hp : P w.u.val) :
    Rel (fun (r r0 : NrOut ℝ) => r0 = { r with work := r.work.new v0 } ∧ r.nl = false ∧ P r.work.u.val)
      (nrLoop env c n w) (nrLoop env (c.swap ma) n (w.new v0)) := by
  induction n generalizing w with
  | zero => exact Rel.error _
  | succ n ih =>
    obtain ⟨b, vn, nm, nl, h1, h2⟩ := rhs_ok hc hw
    obtain ⟨r0, k1, rfl, k2, -⟩ := (assemblyRhs_twin hc hm hw hz (hP _ hp) h0).left h1
    obtain ⟨A, vn', du, -, -, h3, h4⟩ := nrCorrect_eq (env := env) hc h2.ok
    obtain ⟨w0, k3, rfl, -⟩ := (nrCorrect_twin hc hm h2.ok hz (hP _ hp) h0 env).left h3
    have k2 : nl = false := k2
    rw [nrLoop, nrLoop, h1, M_bind_ok', k1, M_bind_ok']
    simp only
    by_cases hlt : Scalar.lt nm nrMaxTol = true
    · rw [if_pos hlt, if_pos hlt]
      exact Rel.pure ⟨rfl, k2, hp⟩
    · rw [if_neg hlt, if_neg hlt, h3, M_bind_ok', k3, M_bind_ok']
      simp only
      have hp' := hstep _ _ _ (hw.swapNew ma h0) hp k1 (by simpa using hlt) k3
      cases hv : env.peek (w.tick + 1) with
      | none => exact Rel.error _
      | some v =>
        simp only
        split
        · exact ih (h2.trans (h4.tick' (t := w.tick + 1 + 1) (Nat.le_succ _))).ok hz hp'
        · exact Rel.pure ⟨rfl, k2, hp'⟩

end
end Verif
