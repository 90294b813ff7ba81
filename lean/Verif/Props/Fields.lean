import Verif.Lemmas.OutputRun
import Verif.Lemmas.Built
import Verif.Props.Newton
import Verif.Props.Macro
import Verif.Props.Vtu

/-!
# C57: the element fields
-/

namespace Verif.Props
open Verif Spec Finset

variable {env : Env ℝ} {a : Args ℝ} {j : Junk ℝ} {calls : List (Call ℝ)} {s : ObjFiles ℝ}

/-- Position of component `v` of element `e` in the element fields. -/
def slot (c : Cfg ℝ) (e : Nat × Nat × Nat) (v : Nat) : Nat :=
  gloElem3D c.nx c.ny e.1 e.2.1 e.2.2 * c.nvoi + v

theorem gpSum_mean {n v : Nat} {f : Nat → Nat → ℝ} {wg V : ℝ} (hV : V ≠ 0) (hn : wg * n = V) :
    gpSum n f wg v / V = (∑ gp ∈ range n, f gp v) / n := by
  have h : gpSum n f wg v = (∑ gp ∈ range n, f gp v) * wg := by
    unfold gpSum
    rw [sum_mul]
    clear hn
    induction n with
    | zero => simp [accum]
    | succ n ih => rw [sum_range_succ, ← ih]; rfl
  have hn0 : (n : ℝ) ≠ 0 := by rintro h0; rw [h0, mul_zero] at hn; exact hV hn.symm
  rw [h, div_eq_div_iff hV hn0, ← hn]
  ring

theorem calcFields_mean {c : Cfg ℝ} (hc : c.Ok) (hg : c.Geom) {w w' : Work ℝ} (hw : w.Ok c)
    (h : calcFields c w = .ok w') {e : Nat × Nat × Nat} (he : e ∈ c.fe.elems) {v : Nat}
    (hv : v < c.nvoi) :
    w'.elemStrain.val (slot c e v) = (∑ gp ∈ range c.npe, c.fe.strain w.u.val e gp v) / c.npe ∧
    w'.elemStress.val (slot c e v) = (∑ gp ∈ range c.npe, c.sig w.u.val w.varsOld e gp v) / c.npe := by
  obtain ⟨h1, h2, h3, h4⟩ := c.mem_elems hc he
  have hx := hg.dx_pos hc
  have hy := hg.dy_pos hc
  obtain ⟨ex, ey, ez⟩ := e
  simp only at h1 h2 h3 h4
  obtain ⟨eps, sig, G⟩ := GpField.exists hc hw
  have key : ∀ gp, gp < c.npe → eps (ex, ey, ez) gp v = c.fe.strain w.u.val (ex, ey, ez) gp v ∧
      sig (ex, ey, ez) gp v = c.sig w.u.val w.varsOld (ex, ey, ez) gp v := fun gp hgp =>
    G.spec hc hw he (by rw [c.fe_npe]; exact hgp) (by rw [c.fe_nvoi]; exact hv)
  rcases hc.dim with hd | hd
  · have hz : ez = 0 := h3 hd
    subst hz
    have hnv : c.nvoi = 3 := by unfold Cfg.nvoi; rw [if_pos hd]
    have hnp : c.npe = 4 := by unfold Cfg.npe; rw [if_pos hd]
    obtain ⟨E, S, k1, -, -, k2⟩ := calcFields2_eq hc hd hw
    rw [k1] at h
    cases h
    obtain ⟨k3, k4⟩ := k2 ex ey v h1 h2 (by omega)
    have hwg : wg2D c * ((4 : Nat) : ℝ) = c.dx * c.dy := by unfold wg2D; norm_num; ring
    have hV : c.dx * c.dy ≠ 0 := (mul_pos hx hy).ne'
    unfold slot
    rw [hnv, hnp]
    constructor
    · refine k3.trans ?_
      unfold fieldEps2
      rw [gpSum_mean hV hwg]
      congr 1
      refine sum_congr rfl fun gp hgp => ?_
      rw [← (key gp (by rw [hnp]; exact mem_range.1 hgp)).1]
      have := G.strain2 hd _ he gp (mem_range.1 hgp)
      rw [getStrain2D_eq (hw.u2 hc hd) h1 h2] at this
      injection this with this
      rw [← this]
    · refine k4.trans ?_
      unfold fieldSig2
      rw [gpSum_mean hV hwg]
      congr 1
      refine sum_congr rfl fun gp hgp => ?_
      rw [← (key gp (by rw [hnp]; exact mem_range.1 hgp)).2]
      have t1 := G.strain2 hd _ he gp (mem_range.1 hgp)
      have t2 := G.stress2 hd _ he gp (mem_range.1 hgp)
      rw [getStrain2D_eq (hw.u2 hc hd) h1 h2] at t1
      rw [getStress2D_pure hc hd h1 h2] at t2
      injection t1 with t1
      injection t2 with t2
      rw [← t2, ← t1]
  · have hz := h4 hd
    have hzp := hg.dz_pos hc hd
    have hnv : c.nvoi = 6 := by unfold Cfg.nvoi; rw [if_neg (by omega)]
    have hnp : c.npe = 8 := by unfold Cfg.npe; rw [if_neg (by omega)]
    obtain ⟨E, S, k1, -, -, k2⟩ := calcFields3_eq hc hd hw
    rw [k1] at h
    cases h
    obtain ⟨k3, k4⟩ := k2 ex ey ez v h1 h2 hz (by omega)
    have hwg : wg3D c * ((8 : Nat) : ℝ) = c.dx * c.dy * c.dz := by unfold wg3D; norm_num; ring
    have hV : c.dx * c.dy * c.dz ≠ 0 := (mul_pos (mul_pos hx hy) hzp).ne'
    unfold slot
    rw [hnv, hnp]
    constructor
    · refine k3.trans ?_
      unfold fieldEps3
      rw [gpSum_mean hV hwg]
      congr 1
      refine sum_congr rfl fun gp hgp => ?_
      rw [← (key gp (by rw [hnp]; exact mem_range.1 hgp)).1]
      have := G.strain3 hd _ he gp (mem_range.1 hgp)
      rw [getStrain3D_eq (hw.u3 hd) h1 h2 hz] at this
      injection this with this
      rw [← this]
    · refine k4.trans ?_
      unfold fieldSig3
      rw [gpSum_mean hV hwg]
      congr 1
      refine sum_congr rfl fun gp hgp => ?_
      rw [← (key gp (by rw [hnp]; exact mem_range.1 hgp)).2]
      have t1 := G.strain3 hd _ he gp (mem_range.1 hgp)
      obtain ⟨r, t2, t3⟩ := G.stress3 hd _ he gp (mem_range.1 hgp)
      rw [getStrain3D_eq (hw.u3 hd) h1 h2 hz] at t1
      injection t1 with t1
      rw [← t1, getStress3D_pure hc hd h1 h2 hz (mem_range.1 hgp) hw.varsOld hw.varsNew] at t2
      injection t2 with t2
      rw [← t3, ← t2]
      rfl

theorem mean_integral {c : Cfg ℝ} (hc : c.Ok) (hg : c.Geom) (f : Nat × Nat × Nat → Nat → ℝ) :
    (∑ e ∈ c.fe.elems, (∑ gp ∈ range c.npe, f e gp) / c.npe) / c.nelem = c.fe.integral f / c.fe.vol := by
  have hF := c.good hc hg
  have hn : (c.fe.npe : ℝ) ≠ 0 := by exact_mod_cast (Fe.npe_pos hF).ne'
  have hv := (Fe.vol_pos hF).ne'
  have hne : ((c.fe.nx - 1) * (c.fe.ny - 1) * c.fe.layers : Nat) = c.nelem := by
    unfold Cfg.fe Cfg.nelem
    split <;> simp [fe2, fe3]
  have hvol : c.fe.vol = (c.nelem : ℝ) * c.fe.cell := by unfold Fe.vol; rw [hne]
  rw [hvol] at hv ⊢
  have h1 : (c.nelem : ℝ) ≠ 0 := left_ne_zero_of_mul hv
  have h2 : c.fe.cell ≠ 0 := right_ne_zero_of_mul hv
  unfold Fe.integral
  rw [← c.fe_npe]
  simp only [← sum_mul, ← sum_div]
  field_simp

/-- **C57**: when `output` for a known Gauss point returns, each component of the element strain
(stress) is the mean over the element's Gauss points of the strains (stresses) that the code computes
there from the displacement and the internal variables of the same state.  The element strains average
to the macroscopic strain set for the Gauss point; the element stresses average to what
`calc_ave_stress` returns, divided in three dimensions by `lz`, the factor missing there. -/
theorem C57_fields (ha : a.Ok) (hgeo : a.Geom) (h : Reach env a j calls s) {t id : Int} {g : Gp ℝ}
    (hg : findGp id s.obj.gauss = some g) {r : Stepped ℝ} (hr : step env s (.output t id) = .ok r)
    {c : Cfg ℝ} (hcfg : c = r.state.obj.cfg) {w : Work ℝ} (hwork : w = r.state.obj.work) :
    (∃ eps sig, GpField c w eps sig ∧ ∀ e ∈ c.fe.elems, ∀ v, v < c.nvoi →
        w.elemStrain.val (slot c e v) = (∑ gp ∈ range c.npe, eps e gp v) / c.npe ∧
        w.elemStress.val (slot c e v) = (∑ gp ∈ range c.npe, sig e gp v) / c.npe) ∧
    (∀ v, v < c.nvoi →
      (∑ e ∈ c.fe.elems, w.elemStrain.val (slot c e v)) / c.nelem = g.macroStrain v) ∧
    ∃ ave, calcAveStress c w = .ok ave ∧ ∀ v, v < c.nvoi →
      c.thick * ((∑ e ∈ c.fe.elems, w.elemStress.val (slot c e v)) / c.nelem) = ave.ave v := by
  obtain ⟨hb, hok⟩ := reach_built ha h
  simp only [step, bind_ok_iff, pure_ok_iff] at hr
  obtain ⟨s', hr, rfl⟩ := hr
  obtain ⟨w1, out, ts, H⟩ := output_stages hok hg hr
  have hc := hok.cfg
  have hG : s.obj.cfg.Geom := hb.geom hgeo
  obtain ⟨k1, k2, k3, -⟩ := calcFields_frame hc H.solved H.fields
  have M : ∀ e ∈ s.obj.cfg.fe.elems, ∀ v, v < s.obj.cfg.nvoi →
      s'.obj.work.elemStrain.val (slot s.obj.cfg e v)
        = (∑ gp ∈ range s.obj.cfg.npe, s.obj.cfg.fe.strain s'.obj.work.u.val e gp v) / s.obj.cfg.npe ∧
      s'.obj.work.elemStress.val (slot s.obj.cfg e v)
        = (∑ gp ∈ range s.obj.cfg.npe,
            s.obj.cfg.sig s'.obj.work.u.val s'.obj.work.varsOld e gp v) / s.obj.cfg.npe := by
    intro e he v hv
    rw [k2, k3]
    exact calcFields_mean hc hG H.solved H.fields he hv
  simp only at hcfg hwork
  subst hwork
  rw [H.cfg] at hcfg
  subst hcfg
  refine ⟨?_, ?_, ?_⟩
  · obtain ⟨eps, sig, G⟩ := GpField.exists hc H.work
    refine ⟨eps, sig, G, fun e he v hv => ?_⟩
    have key : ∀ gp, gp < s.obj.cfg.npe → _ := fun gp hgp =>
      G.spec hc H.work he (gp := gp) (v := v) (by rw [Cfg.fe_npe]; exact hgp)
        (by rw [Cfg.fe_nvoi]; exact hv)
    rw [(M e he v hv).1, (M e he v hv).2]
    constructor
    · congr 1; exact sum_congr rfl fun gp hgp => (key gp (mem_range.1 hgp)).1.symm
    · congr 1; exact sum_congr rfl fun gp hgp => (key gp (mem_range.1 hgp)).2.symm
  · intro v hv
    obtain ⟨w0, o1, o2, o3⟩ := H.displ
    obtain ⟨u', d1, -, d2, -⟩ := setDispl_real hc hG.toDivided o1.u g.macroStrain
    rw [o3] at d1
    cases d1
    have hF := Cfg.good hc hG
    have hO : s.obj.cfg.fe.OnBd g.macroStrain s'.obj.work.u.val := fun q hq hbd => by
      have hq' : q < s.obj.cfg.nn * s.obj.cfg.dim := by rw [← Cfg.fe_nn hc]; exact hq
      rw [k2, C27_boundary hc hG H.start H.solve q hq' hbd]
      exact d2 q hq hbd
    rw [sum_congr rfl fun e he => (M e he v hv).1,
      mean_integral hc hG fun e gp => s.obj.cfg.fe.strain s'.obj.work.u.val e gp v,
      Fe.integral_strain hF hO (by rw [Cfg.fe_nvoi]; exact hv),
      mul_div_cancel_left₀ _ (Fe.vol_pos hF).ne']
  · obtain ⟨vn, d1, -⟩ := calcAveStress_real hc H.work
    refine ⟨_, d1, fun v hv => ?_⟩
    rw [sum_congr rfl fun e he => (M e he v hv).2,
      mean_integral hc hG fun e gp => s.obj.cfg.sig s'.obj.work.u.val s'.obj.work.varsOld e gp v]
    exact (div_area hc hG _).symm

/-- The call for Gauss point 9 of the two examples returns. -/
example : ∃ s g r, Reach exEnv exArgs3 exJunk exCalls s ∧ findGp 9 s.obj.gauss = some g ∧
    step exEnv s (.output 3 9) = .ok r ∧ exArgs3.Geom := by
  obtain ⟨s, hs⟩ := reach_exists exEnv_quick exArgs3_ok exJunk exCalls
  obtain ⟨g, hg⟩ := Option.ne_none_iff_exists'.1 (ex_known hs)
  obtain ⟨r, hr, -⟩ := (step_sane (reach_built exArgs3_ok hs).2 (.output 3 9)).returns exEnv_quick
  exact ⟨s, g, r, hs, hg, hr, exArgs3_geom⟩

example : ∃ s g r, Reach exEnv exArgs2 exJunk exCalls s ∧ findGp 9 s.obj.gauss = some g ∧
    step exEnv s (.output 3 9) = .ok r ∧ exArgs2.Geom := by
  obtain ⟨s, hs⟩ := reach_exists exEnv_quick exArgs2_ok exJunk exCalls
  obtain ⟨g, hg⟩ := Option.ne_none_iff_exists'.1 (ex_known hs)
  obtain ⟨r, hr, -⟩ := (step_sane (reach_built exArgs2_ok hs).2 (.output 3 9)).returns exEnv_quick
  exact ⟨s, g, r, hs, hg, hr, exArgs2_geom⟩

end Verif.Props
