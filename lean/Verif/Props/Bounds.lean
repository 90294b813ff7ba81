import Verif.Props.Response
import Verif.Props.Micro
import Verif.Lemmas.Iso

/-!
# Energy of the cell: properties C62, C63

Exact arithmetic, admissible elastic materials.  As in C29 and C30 the value of `calc_ave_stress` is
`c.thick` times the average, and `c.thick` is 1 in two dimensions and `lz` in three.
-/

namespace Verif.Props
open Verif Spec Finset

variable {c c' : Cfg ℝ} {w w' : Work ℝ}

/-- What `calc_ave_stress` returns at equilibrium. -/
theorem equil_ave (hc : c.Ok) (hg : c.Geom) (he : c.Elastic) {eps : Nat → ℝ} (hq : Equilibrium c w eps) :
    c.fe.OnBd eps w.u.val ∧ c.fe.Equil (c.fe.stress c.law w.u.val) ∧
    ∃ r, calcAveStress c w = .ok r ∧
      ∀ v, v < c.nvoi → r.ave v = c.thick * c.fe.aveStress (c.fe.stress c.law w.u.val) v := by
  obtain ⟨vn, h4, -⟩ := calcAveStress_real hc hq.work
  refine ⟨hq.onBd hc, (equil_law hc he _ _).mp ((zeroResidual_iff hc hq.work).mp hq.residual), _, h4,
    fun v hv => ?_⟩
  show c.fe.integral (fun e gp => c.sig w.u.val w.varsOld e gp v) / (c.lx * c.ly) = _
  rw [div_area hc hg, Fe.integral_congr (g := fun e gp => c.fe.stress c.law w.u.val e gp v)
    (fun x hx gp hgp => c.sig_elastic hc he _ _ hx hgp (by rw [c.fe_nvoi]; exact hv))]
  rfl

theorem pair_thick (f g eps : Nat → ℝ) (k : ℝ) (h : ∀ v, v < c.nvoi → f v = k * g v) :
    c.fe.pair f eps = k * c.fe.pair g eps := by
  unfold Fe.pair
  rw [mul_sum]
  refine sum_congr rfl fun v hv => ?_
  rw [h v (by rw [← c.fe_nvoi]; exact mem_range.mp hv)]
  ring

/-! ### C62 -/

/-- The energy of the computed stresses and strains. -/
theorem energy_bil (hc : c.Ok) (he : c.Elastic) (hw : w.Ok c) {e s : Nat × Nat × Nat → Nat → Nat → ℝ}
    (hf : GpField c w e s) :
    c.fe.integral (fun x gp => c.fe.pair (s x gp) (e x gp)) = c.fe.bil c.law w.u.val w.u.val := by
  unfold Fe.bil
  refine Fe.integral_congr fun x hx gp hgp => Fe.pair_congr (fun v hv => ?_) fun v hv =>
    (hf.spec hc hw hx hgp hv).1
  rw [(hf.spec hc hw hx hgp hv).2, c.sig_elastic hc he _ _ hx hgp hv]

/-- C62, minimum of the energy: among all displacement fields with the boundary values of the
equilibrium, the equilibrium has the least energy, computed from the stresses and strains of the code;
a field with the same energy is the equilibrium. -/
theorem C62_minimum (hc : c.Ok) (hg : c.Geom) (he : c.Elastic) {eps : Nat → ℝ} (hq : Equilibrium c w eps)
    (hw' : w'.Ok c) (hb : ∀ q, q < c.nn * c.dim → c.fe.Bd q → w'.u.val q = w.u.val q)
    {e s e' s' : Nat × Nat × Nat → Nat → Nat → ℝ} (hf : GpField c w e s) (hf' : GpField c w' e' s') :
    c.fe.integral (fun x gp => c.fe.pair (s x gp) (e x gp))
      ≤ c.fe.integral (fun x gp => c.fe.pair (s' x gp) (e' x gp)) ∧
    (c.fe.integral (fun x gp => c.fe.pair (s' x gp) (e' x gp))
        = c.fe.integral (fun x gp => c.fe.pair (s x gp) (e x gp)) →
      ∀ q, q < c.nn * c.dim → w'.u.val q = w.u.val q) := by
  obtain ⟨-, h1, -⟩ := equil_ave hc hg he hq
  rw [energy_bil hc he hq.work hf, energy_bil hc he hw' hf', ← c.fe_nn hc]
  rw [← c.fe_nn hc] at hb
  exact Fe.energy_min (c.good hc hg) (c.law_ok hc he) h1 hb

/-- The material of an element: elements of type 0 have the first, the others the second. -/
def kind (c : Cfg ℝ) (e : Nat × Nat × Nat) : Nat :=
  if c.elemType.val (gloElem3D c.nx c.ny e.1 e.2.1 e.2.2) = 0 then 0 else 1

theorem kind_lt (c : Cfg ℝ) (e : Nat × Nat × Nat) : kind c e < 2 := by unfold kind; split <;> omega

/-- Share of the elements that have material `i`. -/
noncomputable def fraction (c : Cfg ℝ) (i : Nat) : ℝ :=
  (#{e ∈ c.fe.elems | kind c e = i} : ℝ) / #c.fe.elems

theorem elems_card (hF : c.fe.Good) : 0 < #c.fe.elems := by
  have := hF.nx
  have := hF.ny
  have := Fe.layers_pos hF
  unfold Fe.elems
  simp only [card_product, card_range]
  exact Nat.mul_pos (by omega) (Nat.mul_pos (by omega) (by omega))

theorem fraction_sum (hc : c.Ok) (hg : c.Geom) : fraction c 0 + fraction c 1 = 1 := by
  have h := elems_card (c.good hc hg)
  have h' : (#c.fe.elems : ℝ) ≠ 0 := by exact_mod_cast h.ne'
  unfold fraction
  rw [← add_div, div_eq_one_iff_eq h']
  have := card_filter_add_card_filter_not (s := c.fe.elems) (fun e => kind c e = 0)
  have h2 : {e ∈ c.fe.elems | ¬ kind c e = 0} = {e ∈ c.fe.elems | kind c e = 1} := by
    refine filter_congr fun e _ => ?_
    have := kind_lt c e
    omega
  rw [h2] at this
  exact_mod_cast this

/-- A field that depends on the material only. -/
theorem integral_kind (hc : c.Ok) (hg : c.Geom) (f : Nat → ℝ) :
    c.fe.integral (fun e _ => f (kind c e)) = c.fe.vol * (fraction c 0 * f 0 + fraction c 1 * f 1) := by
  have hF := c.good hc hg
  have h := elems_card hF
  have h' : (#c.fe.elems : ℝ) ≠ 0 := by exact_mod_cast h.ne'
  have hn : (c.fe.npe : ℝ) ≠ 0 := by exact_mod_cast (Fe.npe_pos hF).ne'
  have hv : c.fe.vol = #c.fe.elems * c.fe.cell := by
    unfold Fe.vol Fe.elems
    simp only [card_product, card_range]
    push_cast
    ring
  have h1 : ∑ e ∈ c.fe.elems, f (kind c e) = #c.fe.elems * (fraction c 0 * f 0 + fraction c 1 * f 1) := by
    have h2 : ∀ e ∈ c.fe.elems, f (kind c e) = (if kind c e = 0 then f 0 else 0) + (if kind c e = 1 then f 1 else 0) := by
      intro e _
      unfold kind
      split <;> simp
    rw [sum_congr rfl h2, sum_add_distrib, ← sum_filter, ← sum_filter, sum_const, sum_const,
      nsmul_eq_mul, nsmul_eq_mul]
    unfold fraction
    field_simp
  unfold Fe.integral
  simp only [sum_const, card_range, nsmul_eq_mul]
  rw [hv, mul_right_comm, ← h1, sum_mul]
  refine sum_congr rfl fun e _ => ?_
  field_simp

/-- C62, Voigt bound: the work of the macro stress is at most that of the mixture under uniform strain. -/
theorem C62_voigt (hc : c.Ok) (hg : c.Geom) (he : c.Elastic) {eps : Nat → ℝ} (hq : Equilibrium c w eps) :
    ∃ r, calcAveStress c w = .ok r ∧ c.fe.pair r.ave eps ≤ c.thick *
      (fraction c 0 * c.fe.pair (isoLaw c.dim (c.mats 0).lambda (c.mats 0).mu eps) eps
        + fraction c 1 * c.fe.pair (isoLaw c.dim (c.mats 1).lambda (c.mats 1).mu eps) eps) := by
  obtain ⟨h1, h2, r, h3, h4⟩ := equil_ave hc hg he hq
  have hF := c.good hc hg
  refine ⟨r, h3, ?_⟩
  rw [pair_thick r.ave _ eps _ h4]
  refine mul_le_mul_of_nonneg_left ?_ (thick_pos hc hg).le
  have h5 := Fe.voigt_bound hF (c.law_ok hc he) h1 h2
  have h6 := integral_kind hc hg fun i => c.fe.pair (isoLaw c.dim (c.mats i).lambda (c.mats i).mu eps) eps
  have h7 : c.fe.integral (fun e _ => c.fe.pair (c.law e eps) eps) =
    c.fe.integral (fun e _ => c.fe.pair (isoLaw c.dim (c.mats (kind c e)).lambda (c.mats (kind c e)).mu eps) eps) := rfl
  rw [h7, h6] at h5
  exact le_of_mul_le_mul_left h5 (Fe.vol_pos hF)

/-- C62, Reuss bound: `x 0` and `x 1` are the strains of the two materials under the uniform stress
`s`. -/
theorem C62_reuss (hc : c.Ok) (hg : c.Geom) (he : c.Elastic) {eps : Nat → ℝ} (hq : Equilibrium c w eps)
    {s : Nat → ℝ} {x : Nat → Nat → ℝ} (hx : ∀ i, i < 2 → ∀ v, v < c.nvoi →
      isoLaw c.dim (c.mats i).lambda (c.mats i).mu (x i) v = s v) :
    ∃ r, calcAveStress c w = .ok r ∧ c.thick *
      (2 * c.fe.pair s eps - (fraction c 0 * c.fe.pair s (x 0) + fraction c 1 * c.fe.pair s (x 1)))
        ≤ c.fe.pair r.ave eps := by
  obtain ⟨h1, h2, r, h3, h4⟩ := equil_ave hc hg he hq
  have hF := c.good hc hg
  refine ⟨r, h3, ?_⟩
  rw [pair_thick r.ave _ eps _ h4]
  refine mul_le_mul_of_nonneg_left ?_ (thick_pos hc hg).le
  have h5 := Fe.reuss_bound hF (c.law_ok hc he) (s := s) h1 h2 (x := fun e => x (kind c e)) fun e _ v hv =>
    hx (kind c e) (kind_lt c e) v (by rw [← c.fe_nvoi]; exact hv)
  have h7 := integral_kind hc hg fun i => c.fe.pair s (x i)
  rw [h7] at h5
  refine le_of_mul_le_mul_left ?_ (Fe.vol_pos hF)
  linarith

/-- Simple shear in `ex3`. -/
example (eps : Nat → ℝ) : ∃ (u : Buf ℝ) (r : AveState ℝ), Equilibrium ex3.cfg { ex3.work with u := u } eps ∧
    calcAveStress ex3.cfg { ex3.work with u := u } = .ok r ∧ ex3.cfg.thick *
      (2 * ex3.cfg.fe.pair (fun v => if v = 4 then 1 else 0) eps
        - (fraction ex3.cfg 0 * ex3.cfg.fe.pair (fun v => if v = 4 then 1 else 0)
              (fun v => if v = 4 then 1 / (ex3.cfg.mats 0).mu else 0)
          + fraction ex3.cfg 1 * ex3.cfg.fe.pair (fun v => if v = 4 then 1 else 0)
              (fun v => if v = 4 then 1 / (ex3.cfg.mats 1).mu else 0)))
        ≤ ex3.cfg.fe.pair r.ave eps := by
  obtain ⟨u, hq⟩ := equilibrium_exists ex3_ok ex3_geom ex3_elastic ex3_work eps
  obtain ⟨r, h⟩ := C62_reuss ex3_ok ex3_geom ex3_elastic hq (s := fun v => if v = 4 then 1 else 0)
    (x := fun i v => if v = 4 then 1 / (ex3.cfg.mats i).mu else 0) (fun i hi v hv => by
      have := (ex3_elastic.mats i hi).mu_pos.ne'
      have hv : v < 6 := by simpa [Cfg.nvoi, ex3_dim] using hv
      unfold isoLaw hooke
      rw [ex3_dim]
      interval_cases v <;> simp [tr, this])
  exact ⟨u, r, hq, h⟩

theorem nvoi_eq (c : Cfg ℝ) : c.nvoi = if c.dim = 2 then 3 else 6 := rfl

/-- C62, the diagonal entry of the stiffness for a shear component lies between the harmonic and the
arithmetic mean of the shear moduli. -/
theorem C62_shear (hc : c.Ok) (hg : c.Geom) (he : c.Elastic) (hw : w.Ok c) {C : Nat → Nat → ℝ}
    (hC : IsStiffness c C) {v : Nat} (hd : c.dim ≤ v) (hv : v < c.nvoi) :
    c.thick * (fraction c 0 / (c.mats 0).mu + fraction c 1 / (c.mats 1).mu)⁻¹ ≤ C v v ∧
    C v v ≤ c.thick * (fraction c 0 * (c.mats 0).mu + fraction c 1 * (c.mats 1).mu) := by
  obtain ⟨u, hq⟩ := equilibrium_exists hc hg he hw fun i => if i = v then 1 else 0
  obtain ⟨r, h1, h2⟩ := hC _ _ hq
  have h3 := h2 v hv
  have hsum : ∀ f : Nat → ℝ, ∑ j ∈ range c.nvoi, f j * (if j = v then 1 else 0) = f v := by
    intro f
    simp [hv]
  rw [hsum] at h3
  have hpair : ∀ f : Nat → ℝ, c.fe.pair f (fun i => if i = v then 1 else 0) = f v := by
    intro f
    unfold Fe.pair
    rw [c.fe_nvoi, hsum]
  have hiso : ∀ l m t : ℝ, ∀ k, k < c.nvoi →
      isoLaw c.dim l m (fun i => if i = v then t else 0) k = if k = v then m * t else 0 := by
    intro l m t k hk
    rw [isoLaw_eq hc.dim (nvoi_eq c) l m _ hk, sum_eq_zero fun i hi => if_neg (by have := mem_range.mp hi; omega)]
    by_cases hkv : k = v
    · subst hkv
      rw [if_neg (by omega), if_pos rfl, if_pos rfl]
    · rw [if_neg hkv, if_neg hkv]
      split <;> ring
  have hm0 := (he.mats 0 (by omega)).mu_pos
  have hm1 := (he.mats 1 (by omega)).mu_pos
  constructor
  · let D := fraction c 0 / (c.mats 0).mu + fraction c 1 / (c.mats 1).mu
    have hD : 0 < D := by
      have hf := fraction_sum hc hg
      have f0 : 0 ≤ fraction c 0 := div_nonneg (Nat.cast_nonneg _) (Nat.cast_nonneg _)
      have f1 : 0 ≤ fraction c 1 := div_nonneg (Nat.cast_nonneg _) (Nat.cast_nonneg _)
      rcases f0.lt_or_eq with h | h
      · exact add_pos_of_pos_of_nonneg (div_pos h hm0) (div_nonneg f1 hm1.le)
      · exact add_pos_of_nonneg_of_pos (div_nonneg f0 hm0.le) (div_pos (by linarith) hm1)
    obtain ⟨r', g1, g2⟩ := C62_reuss hc hg he hq (s := fun i => if i = v then D⁻¹ else 0)
      (x := fun k i => if i = v then D⁻¹ / (c.mats k).mu else 0) (fun i hi k hk => by
        rw [hiso _ _ _ k hk]
        have := (he.mats i hi).mu_pos.ne'
        split
        · field_simp
        · rfl)
    rw [h1] at g1
    cases g1
    rw [hpair, hpair, h3, if_pos rfl] at g2
    have hp : ∀ t : ℝ, c.fe.pair (fun i => if i = v then D⁻¹ else 0) (fun i => if i = v then t else 0) = D⁻¹ * t := by
      intro t
      unfold Fe.pair
      rw [c.fe_nvoi, sum_eq_single v]
      · simp
      · intro b _ hb; simp [hb]
      · intro h; exact absurd (mem_range.mpr hv) h
    rw [hp, hp] at g2
    refine le_trans (le_of_eq ?_) g2
    congr 1
    have e1 : fraction c 0 * (D⁻¹ * (D⁻¹ / (c.mats 0).mu)) + fraction c 1 * (D⁻¹ * (D⁻¹ / (c.mats 1).mu))
        = D⁻¹ * D⁻¹ * D := by
      simp only [D]; ring
    rw [e1]
    show D⁻¹ = _
    have := hD.ne'
    field_simp
    ring
  · obtain ⟨r', g1, g2⟩ := C62_voigt hc hg he hq
    rw [h1] at g1
    cases g1
    rw [hpair, h3, hpair, hpair, hiso _ _ 1 v hv, hiso _ _ 1 v hv, if_pos rfl, if_pos rfl, mul_one, mul_one] at g2
    exact g2

/-! Examples: the cells of the examples have elements of both materials. -/

/-- The displacements of the object, with their boundary values prescribed, have at least the energy of
the equilibrium. -/
example (eps : Nat → ℝ) : ∃ (u u' : Buf ℝ) (e s e' s' : Nat × Nat × Nat → Nat → Nat → ℝ),
    Equilibrium ex3.cfg { ex3.work with u := u } eps ∧ GpField ex3.cfg { ex3.work with u := u } e s ∧
    GpField ex3.cfg { ex3.work with u := u' } e' s' ∧
    ex3.cfg.fe.integral (fun x gp => ex3.cfg.fe.pair (s x gp) (e x gp))
      ≤ ex3.cfg.fe.integral (fun x gp => ex3.cfg.fe.pair (s' x gp) (e' x gp)) := by
  classical
  obtain ⟨u, hq⟩ := equilibrium_exists ex3_ok ex3_geom ex3_elastic ex3_work eps
  let u' : Buf ℝ := { u with val := fun q => if ex3.cfg.fe.Bd q then u.val q else q }
  have hw : ({ ex3.work with u := u' } : Work ℝ).Ok ex3.cfg :=
    { ex3_work with u := hq.work.u }
  obtain ⟨e, s, hf⟩ := GpField.exists ex3_ok hq.work
  obtain ⟨e', s', hf'⟩ := GpField.exists ex3_ok hw
  exact ⟨u, u', e, s, e', s', hq, hf, hf', (C62_minimum ex3_ok ex3_geom ex3_elastic hq hw
    (fun q _ hb => if_pos hb) hf hf').1⟩

example (eps : Nat → ℝ) : ∃ (u : Buf ℝ) (r : _), Equilibrium ex3.cfg { ex3.work with u := u } eps ∧
    calcAveStress ex3.cfg { ex3.work with u := u } = .ok r ∧ ex3.cfg.fe.pair r.ave eps ≤ ex3.cfg.thick *
      (fraction ex3.cfg 0 * ex3.cfg.fe.pair (isoLaw ex3.cfg.dim (ex3.cfg.mats 0).lambda (ex3.cfg.mats 0).mu eps) eps
        + fraction ex3.cfg 1 * ex3.cfg.fe.pair (isoLaw ex3.cfg.dim (ex3.cfg.mats 1).lambda (ex3.cfg.mats 1).mu eps) eps) := by
  obtain ⟨u, hq⟩ := equilibrium_exists ex3_ok ex3_geom ex3_elastic ex3_work eps
  obtain ⟨r, h⟩ := C62_voigt ex3_ok ex3_geom ex3_elastic hq
  exact ⟨u, r, hq, h⟩

example : ∃ C, IsStiffness ex3.cfg C ∧
    ex3.cfg.thick * (fraction ex3.cfg 0 / (ex3.cfg.mats 0).mu + fraction ex3.cfg 1 / (ex3.cfg.mats 1).mu)⁻¹ ≤ C 4 4 := by
  have hd := ex3_dim
  obtain ⟨⟨C, hC⟩, -⟩ := stiffness_unique ex3_ok ex3_geom ex3_elastic ex3_work
  exact ⟨C, hC, (C62_shear ex3_ok ex3_geom ex3_elastic ex3_work hC (v := 4) (by omega)
    (by unfold Cfg.nvoi; rw [hd]; decide)).1⟩

/-! ### C63 -/

/-- The two objects describe cells of the same size and grid. -/
structure SameGrid (c c' : Cfg ℝ) : Prop where
  dim : c'.dim = c.dim
  nx : c'.nx = c.nx
  ny : c'.ny = c.ny
  nz : c'.nz = c.nz
  lx : c'.lx = c.lx
  ly : c'.ly = c.ly
  lz : c'.lz = c.lz

theorem SameGrid.fe (h : SameGrid c c') (hc : c.Ok) (hg : c.Geom) (hg' : c'.Geom) : c'.fe = c.fe ∧ c'.thick = c.thick := by
  have hne : ∀ n : Nat, 2 ≤ n → ((n - 1 : Nat) : ℝ) ≠ 0 := fun n hn => by
    have : (n - 1 : Nat) ≠ 0 := by omega
    exact_mod_cast this
  have ex : c'.dx = c.dx := mul_right_cancel₀ (hne _ hc.nx) (by
    rw [hg.dx]; have := hg'.dx; rw [h.nx, h.lx] at this; exact this)
  have ey : c'.dy = c.dy := mul_right_cancel₀ (hne _ hc.ny) (by
    rw [hg.dy]; have := hg'.dy; rw [h.ny, h.ly] at this; exact this)
  constructor
  · unfold Cfg.fe
    rw [h.dim, h.nx, h.ny, h.nz, ex, ey]
    split
    · rfl
    · rename_i hd
      have hd : c.dim = 3 := hc.dim.resolve_left hd
      have ez : c'.dz = c.dz := mul_right_cancel₀ (hne _ (hc.nz3 hd)) (by
        rw [hg.dz hd]; have := hg'.dz (h.dim.trans hd); rw [h.nz, h.lz] at this; exact this)
      rw [ez]
  · unfold Cfg.thick
    rw [h.dim, h.lz]

/-- Energy density of the isotropic law. -/
theorem iso_energy {dim n : Nat} (hd : dim = 2 ∨ dim = 3) (hn : n = if dim = 2 then 3 else 6) (l m l' m' : ℝ)
    (hm : m ≤ m') (hk : 3 * l + 2 * m ≤ 3 * l' + 2 * m') (x : Nat → ℝ) :
    ∑ v ∈ range n, isoLaw dim l m x v * x v ≤ ∑ v ∈ range n, isoLaw dim l' m' x v * x v := by
  rcases hd with rfl | rfl <;> simp at hn <;> subst hn <;>
    simp [isoLaw, planeStrain, hooke, inPlane, tr, sum_range_succ]
  · nlinarith [mul_nonneg (sub_nonneg.mpr hk) (sq_nonneg (x 0 + x 1)), mul_nonneg (sub_nonneg.mpr hm) (sq_nonneg (x 0 - x 1)),
      mul_nonneg (sub_nonneg.mpr hm) (sq_nonneg (x 2)), mul_nonneg (sub_nonneg.mpr hm) (sq_nonneg (x 0 + x 1))]
  · nlinarith [mul_nonneg (sub_nonneg.mpr hk) (sq_nonneg (x 0 + x 1 + x 2)), mul_nonneg (sub_nonneg.mpr hm) (sq_nonneg (x 0 - x 1)),
      mul_nonneg (sub_nonneg.mpr hm) (sq_nonneg (x 0 - x 2)), mul_nonneg (sub_nonneg.mpr hm) (sq_nonneg (x 1 - x 2)),
      mul_nonneg (sub_nonneg.mpr hm) (sq_nonneg (x 3)), mul_nonneg (sub_nonneg.mpr hm) (sq_nonneg (x 4)),
      mul_nonneg (sub_nonneg.mpr hm) (sq_nonneg (x 5))]

/-- C63, monotonicity: of two cells of the same size and grid, if every element of the second has at least
the shear modulus and the bulk modulus (`lambda + 2/3 mu`) of the first, the second resists every macro
strain at least as much. -/
theorem C63_monotone (hc : c.Ok) (hg : c.Geom) (he : c.Elastic) (hc' : c'.Ok) (hg' : c'.Geom) (he' : c'.Elastic)
    (hs : SameGrid c c') (hmu : ∀ e ∈ c.fe.elems, (c.matAt e).mu ≤ (c'.matAt e).mu)
    (hk : ∀ e ∈ c.fe.elems, (c.matAt e).lambda + 2 / 3 * (c.matAt e).mu
      ≤ (c'.matAt e).lambda + 2 / 3 * (c'.matAt e).mu)
    {eps : Nat → ℝ} (hq : Equilibrium c w eps) (hq' : Equilibrium c' w' eps) :
    ∃ r r', calcAveStress c w = .ok r ∧ calcAveStress c' w' = .ok r' ∧
      c.fe.pair r.ave eps ≤ c.fe.pair r'.ave eps := by
  obtain ⟨h1, h2, r, h3, h4⟩ := equil_ave hc hg he hq
  obtain ⟨g1, g2, r', g3, g4⟩ := equil_ave hc' hg' he' hq'
  obtain ⟨ef, et⟩ := hs.fe hc hg hg'
  refine ⟨r, r', h3, g3, ?_⟩
  rw [ef] at g1 g2 g4
  rw [et] at g4
  have hnv : c'.nvoi = c.nvoi := by unfold Cfg.nvoi; rw [hs.dim]
  rw [hnv] at g4
  rw [pair_thick r.ave _ eps _ h4, pair_thick r'.ave _ eps _ g4]
  refine mul_le_mul_of_nonneg_left ?_ (thick_pos hc hg).le
  refine Fe.macro_mono (c.good hc hg) (c.law_ok hc he) (fun e hm x => ?_) h1 g1 h2 g2
  have := iso_energy hc.dim (n := c.fe.nvoi) (by rw [c.fe_nvoi]; rfl) (c.matAt e).lambda (c.matAt e).mu
    (c'.matAt e).lambda (c'.matAt e).mu (hmu e hm) (by linarith [hk e hm]) x
  have e' : c'.law e x = isoLaw c.dim (c'.matAt e).lambda (c'.matAt e).mu x := by
    funext v
    unfold Cfg.law isoLaw
    rw [hs.dim]
  unfold Fe.pair
  rw [e']
  exact this

/-- Of two cells of the same size and grid whose moduli have the constant ratio `k`, the second has the
same displacements and `k` times the macro stress. -/
theorem C63_scale (hc : c.Ok) (hg : c.Geom) (he : c.Elastic) (hc' : c'.Ok) (hg' : c'.Geom) (he' : c'.Elastic)
    (hs : SameGrid c c') {k : ℝ} (hmu : ∀ e ∈ c.fe.elems, (c'.matAt e).mu = k * (c.matAt e).mu)
    (hla : ∀ e ∈ c.fe.elems, (c'.matAt e).lambda = k * (c.matAt e).lambda)
    {eps : Nat → ℝ} (hq : Equilibrium c w eps) (hq' : Equilibrium c' w' eps) :
    (∀ q, q < c.nn * c.dim → w'.u.val q = w.u.val q) ∧
    ∃ r r', calcAveStress c w = .ok r ∧ calcAveStress c' w' = .ok r' ∧
      ∀ v, v < c.nvoi → r'.ave v = k * r.ave v := by
  obtain ⟨h1, h2, r, h3, h4⟩ := equil_ave hc hg he hq
  obtain ⟨g1, g2, r', g3, g4⟩ := equil_ave hc' hg' he' hq'
  obtain ⟨ef, et⟩ := hs.fe hc hg hg'
  have hF := c.good hc hg
  have hL := c.law_ok hc he
  have hL' := c'.law_ok hc' he'
  rw [ef] at g1 g2 g4 hL'
  have hnv : c'.nvoi = c.nvoi := by unfold Cfg.nvoi; rw [hs.dim]
  have hlaw : ∀ e ∈ c.fe.elems, ∀ x v, v < c.fe.nvoi → c'.law e x v = k * c.law e x v := by
    intro e hm x v hv
    have hv : v < c.nvoi := by rw [← c.fe_nvoi]; exact hv
    have a1 := isoLaw_eq hc.dim (nvoi_eq c) (c'.matAt e).lambda (c'.matAt e).mu x hv
    have a2 := isoLaw_eq hc.dim (nvoi_eq c) (c.matAt e).lambda (c.matAt e).mu x hv
    have e1 : c'.law e x v = isoLaw c.dim (c'.matAt e).lambda (c'.matAt e).mu x v := by
      unfold Cfg.law isoLaw; rw [hs.dim]
    have e2 : c.law e x v = isoLaw c.dim (c.matAt e).lambda (c.matAt e).mu x v := rfl
    rw [e1, e2, a1, a2, hmu e hm, hla e hm]
    split <;> ring
  have hf : ∀ u r, c.fe.force (c.fe.stress c'.law u) r = k * c.fe.force (c.fe.stress c.law u) r := by
    intro u r
    have := Fe.integral_lin (F := c.fe) (fun e gp => c.fe.pair (c.fe.stress c.law u e gp)
      (c.fe.strain (fun q => if q = r then 1 else 0) e gp)) (fun _ _ => 0) k 0
    simp only [zero_mul, add_zero] at this
    unfold Fe.force
    rw [← this]
    refine Fe.integral_congr fun e hm gp _ => ?_
    unfold Fe.pair
    rw [mul_sum]
    refine sum_congr rfl fun v hv => ?_
    unfold Fe.stress
    rw [hlaw e hm _ v (mem_range.mp hv)]
    ring
  have h5 : c.fe.Equil (c.fe.stress c'.law w.u.val) := fun r hr hb => by rw [hf, h2 r hr hb, mul_zero]
  have h6 := Fe.unique hF hL' (fun r hr hb => (g1 r hr hb).trans (h1 r hr hb).symm) g2 h5
  refine ⟨fun q hq => h6 q (by rw [c.fe_nn hc]; exact hq), r, r', h3, g3, fun v hv => ?_⟩
  have hv' : v < c.fe.nvoi := by rw [c.fe_nvoi]; exact hv
  rw [g4 v (by rw [hnv]; exact hv), h4 v hv, et, Fe.Morph.aveStress_congr hF hL' h6 hv']
  have h7 : c.fe.aveStress (c.fe.stress c'.law w.u.val) v = k * c.fe.aveStress (c.fe.stress c.law w.u.val) v := by
    unfold Fe.aveStress
    rw [mul_div_assoc']
    congr 1
    have := Fe.integral_lin (F := c.fe) (fun e gp => c.fe.stress c.law w.u.val e gp v) (fun _ _ => 0) k 0
    simp only [zero_mul, add_zero] at this
    rw [← this]
    exact Fe.integral_congr fun e hm gp _ => hlaw e hm _ v hv'
  rw [h7]
  ring

/-! ### Objects obtained from the constructor -/

/-- The calls of the constructor agree on the cell: dimension, nodes, microstructure and its
parameters. -/
structure SameCell (a a' : Args ℝ) : Prop where
  dim : a'.dim = a.dim
  size : ∀ k, k < 3 → a'.size k = a.size k
  micro : a'.microType = a.microType
  params : ∀ k, k < 4 → a'.microParams k = a.microParams k

variable {env env' : Env ℝ} {a a' : Args ℝ} {j j' : Junk ℝ} {calls calls' : List (Call ℝ)} {s s' : ObjFiles ℝ}

theorem reach_elem (ha : a.Ok) (h : Reach env a j calls s) {e : Nat × Nat × Nat} (he : e ∈ s.obj.cfg.fe.elems) :
    IsElem a e.1 e.2.1 e.2.2 := by
  obtain ⟨hb, -⟩ := reach_built ha h
  obtain ⟨h1, h2, h3, h4⟩ := s.obj.cfg.mem_elems hb.ok he
  obtain ⟨et, ct, hc⟩ := hb.eq
  rw [hc] at h1 h2 h3 h4
  have h1 : e.1 < a.size 0 - 1 := h1
  have h2 : e.2.1 < a.size 1 - 1 := h2
  refine ⟨by omega, by omega, h3, fun hd => ?_⟩
  have h5 : e.2.2 < (if a.dim = 2 then 1 else a.size 2) - 1 := h4 hd
  rw [if_neg (by omega)] at h5
  omega

/-- The material of an element of an object obtained from the constructor. -/
theorem reach_matAt (ha : a.Ok) (h : Reach env a j calls s) {e : Nat × Nat × Nat} (he : e ∈ s.obj.cfg.fe.elems) :
    ∃ t : Nat, t < 2 ∧ storedType s.obj.cfg e.1 e.2.1 e.2.2 = t ∧ s.obj.cfg.matAt e
      = mkMaterial (fun k => a.params (10 * t + k)) (a.matTypes t) (j.mats t) := by
  have hI := reach_elem ha h he
  obtain ⟨t, h1, h2, -⟩ := material_eq ha h hI
  refine ⟨t, h1, h2, ?_⟩
  obtain ⟨-, et, ct, hc⟩ := type_eq ha h hI
  have h2 : s.obj.cfg.elemType.val (gloElem3D s.obj.cfg.nx s.obj.cfg.ny e.1 e.2.1 e.2.2) = t := h2
  unfold Cfg.matAt
  rw [h2]
  have e0 : (if (t : Int) = 0 then 0 else 1 : Nat) = t := by
    obtain rfl | rfl : t = 0 ∨ t = 1 := by omega
    · rfl
    · rfl
  rw [e0, hc]
  show (if t < 2 then _ else _) = _
  rw [if_pos h1, Nat.mul_comm]

theorem sameCell_type (ha : a.Ok) (ha' : a'.Ok) (h : Reach env a j calls s) (h' : Reach env' a' j' calls' s')
    (hs : SameCell a a') {ex ey ez : Nat} (hI : IsElem a ex ey ez) :
    storedType s'.obj.cfg ex ey ez = storedType s.obj.cfg ex ey ez := by
  have hI' : IsElem a' ex ey ez := by
    obtain ⟨h1, h2, h3, h4⟩ := hI
    refine ⟨?_, ?_, ?_, ?_⟩
    · rw [hs.size 0 (by omega)]; exact h1
    · rw [hs.size 1 (by omega)]; exact h2
    · rw [hs.dim]; exact h3
    · rw [hs.dim, hs.size 2 (by omega)]; exact h4
  rcases ha.micro with hm | hm
  · rw [C48_inclusion ha hm h hI, C48_inclusion ha' (hs.micro.trans hm) h' hI']
    unfold offCentre
    rw [hs.dim, hs.size 0 (by omega), hs.size 1 (by omega), hs.size 2 (by omega), hs.params 0 (by omega),
      hs.params 1 (by omega), hs.params 2 (by omega), hs.params 3 (by omega)]
  · rw [C48_layered ha hm h hI, C48_layered ha' (hs.micro.trans hm) h' hI', hs.size 1 (by omega),
      hs.params 1 (by omega), hs.params 3 (by omega)]

theorem sameCell_grid (ha : a.Ok) (ha' : a'.Ok) (h : Reach env a j calls s) (h' : Reach env' a' j' calls' s')
    (hs : SameCell a a') : SameGrid s.obj.cfg s'.obj.cfg := by
  obtain ⟨et, ct, hc⟩ := (reach_built ha h).1.eq
  obtain ⟨et', ct', hc'⟩ := (reach_built ha' h').1.eq
  rw [hc, hc']
  refine ⟨hs.dim, hs.size 0 (by omega), hs.size 1 (by omega), ?_, hs.params 0 (by omega), hs.params 1 (by omega), ?_⟩
  · show (if a'.dim = 2 then 1 else a'.size 2) = if a.dim = 2 then 1 else a.size 2
    rw [hs.dim, hs.size 2 (by omega)]
  · show (if a'.dim = 2 then 0 else a'.microParams 2) = if a.dim = 2 then 0 else a.microParams 2
    rw [hs.dim, hs.params 2 (by omega)]

/-- Shear modulus of material `i` of the arguments. -/
noncomputable def shearOf (a : Args ℝ) (i : Nat) : ℝ := a.params (10 * i) / (2 * (1 + a.params (10 * i + 1)))

/-- Bulk modulus of material `i` of the arguments. -/
noncomputable def bulkOf (a : Args ℝ) (i : Nat) : ℝ := a.params (10 * i) / (3 * (1 - 2 * a.params (10 * i + 1)))

theorem bulk_eq {m : Material ℝ} (h : m.Admissible) : m.lambda + 2 / 3 * m.mu = m.E / (3 * (1 - 2 * m.nu)) := by
  have h1' : (1 : ℝ) + m.nu ≠ 0 := (by have := h.lo; linarith : (0 : ℝ) < 1 + m.nu).ne'
  have h2' : (1 : ℝ) - 2 * m.nu ≠ 0 := (by have := h.hi; linarith : (0 : ℝ) < 1 - 2 * m.nu).ne'
  rw [h.mu, h.lambda, div_add' _ _ _ (mul_ne_zero h1' h2'), div_eq_div_iff (mul_ne_zero h1' h2')
    (mul_ne_zero three_ne_zero h2'), mul_div_assoc', ]
  field_simp
  ring

/-- The two materials of the constructor arguments determine the moduli of the elements. -/
theorem reach_moduli (ha : a.Ok) (hel : a.Elastic) (h : Reach env a j calls s) {e : Nat × Nat × Nat}
    (he : e ∈ s.obj.cfg.fe.elems) {t : Nat} (ht : storedType s.obj.cfg e.1 e.2.1 e.2.2 = t) :
    t < 2 ∧ (s.obj.cfg.matAt e).mu = shearOf a t ∧
      (s.obj.cfg.matAt e).lambda + 2 / 3 * (s.obj.cfg.matAt e).mu = bulkOf a t := by
  obtain ⟨t', h1, h2, h3⟩ := reach_matAt ha h he
  obtain rfl : t' = t := by rw [h2] at ht; exact_mod_cast ht
  have hadm := ((reach_built ha h).1.elastic hel).at e
  refine ⟨h1, ?_, ?_⟩
  · rw [hadm.mu, h3]; rfl
  · rw [bulk_eq hadm, h3]; rfl

/-- C63 for objects obtained from the constructor: increase the shear moduli and the bulk moduli, and
the cell resists every macro strain at least as much. -/
theorem C63_constructed (ha : a.Ok) (hg : a.Geom) (he : a.Elastic) (ha' : a'.Ok) (hg' : a'.Geom) (he' : a'.Elastic)
    (hs : SameCell a a') (hmu : ∀ i, i < 2 → shearOf a i ≤ shearOf a' i) (hk : ∀ i, i < 2 → bulkOf a i ≤ bulkOf a' i)
    (h : Reach env a j calls s) (h' : Reach env' a' j' calls' s') {eps : Nat → ℝ}
    (hq : Equilibrium s.obj.cfg w eps) (hq' : Equilibrium s'.obj.cfg w' eps) :
    ∃ r r', calcAveStress s.obj.cfg w = .ok r ∧ calcAveStress s'.obj.cfg w' = .ok r' ∧
      ∑ v ∈ range s.obj.cfg.nvoi, r.ave v * eps v ≤ ∑ v ∈ range s.obj.cfg.nvoi, r'.ave v * eps v := by
  have hb := (reach_built ha h).1
  have hb' := (reach_built ha' h').1
  have hgrid := sameCell_grid ha ha' h h' hs
  have hef := (hgrid.fe hb.ok (hb.geom hg) (hb'.geom hg')).1
  have key : ∀ e ∈ s.obj.cfg.fe.elems, ∃ t, t < 2 ∧ (s.obj.cfg.matAt e).mu = shearOf a t ∧
      (s.obj.cfg.matAt e).lambda + 2 / 3 * (s.obj.cfg.matAt e).mu = bulkOf a t ∧
      (s'.obj.cfg.matAt e).mu = shearOf a' t ∧
      (s'.obj.cfg.matAt e).lambda + 2 / 3 * (s'.obj.cfg.matAt e).mu = bulkOf a' t := by
    intro e hm
    obtain ⟨t, h1, h2, -⟩ := reach_matAt ha h hm
    obtain ⟨-, a1, a2⟩ := reach_moduli ha he h hm h2
    obtain ⟨-, b1, b2⟩ := reach_moduli ha' he' h' (e := e) (by rw [hef]; exact hm)
      ((sameCell_type ha ha' h h' hs (reach_elem ha h hm)).trans h2)
    exact ⟨t, h1, a1, a2, b1, b2⟩
  obtain ⟨r, r', h1, h2, h3⟩ := C63_monotone hb.ok (hb.geom hg) (hb.elastic he) hb'.ok (hb'.geom hg')
    (hb'.elastic he') hgrid
    (fun e hm => by obtain ⟨t, ht, a1, -, b1, -⟩ := key e hm; rw [a1, b1]; exact hmu t ht)
    (fun e hm => by obtain ⟨t, ht, -, a1, -, b1⟩ := key e hm; rw [a1, b1]; exact hk t ht) hq hq'
  unfold Fe.pair at h3
  rw [s.obj.cfg.fe_nvoi] at h3
  exact ⟨r, r', h1, h2, h3⟩

/-- The unit of stress: multiply Young's moduli by `k`, and the displacements stay and the macro stress
is multiplied by `k`. -/
theorem C63_units (ha : a.Ok) (hg : a.Geom) (he : a.Elastic) (ha' : a'.Ok) (hg' : a'.Geom) (he' : a'.Elastic)
    (hs : SameCell a a') {k : ℝ} (hE : ∀ i, i < 2 → a'.params (10 * i) = k * a.params (10 * i))
    (hnu : ∀ i, i < 2 → a'.params (10 * i + 1) = a.params (10 * i + 1))
    (h : Reach env a j calls s) (h' : Reach env' a' j' calls' s') {eps : Nat → ℝ}
    (hq : Equilibrium s.obj.cfg w eps) (hq' : Equilibrium s'.obj.cfg w' eps) :
    (∀ q, q < s.obj.cfg.nn * s.obj.cfg.dim → w'.u.val q = w.u.val q) ∧
    ∃ r r', calcAveStress s.obj.cfg w = .ok r ∧ calcAveStress s'.obj.cfg w' = .ok r' ∧
      ∀ v, v < s.obj.cfg.nvoi → r'.ave v = k * r.ave v := by
  have hb := (reach_built ha h).1
  have hb' := (reach_built ha' h').1
  have hgrid := sameCell_grid ha ha' h h' hs
  have hef := (hgrid.fe hb.ok (hb.geom hg) (hb'.geom hg')).1
  have key : ∀ e ∈ s.obj.cfg.fe.elems, (s'.obj.cfg.matAt e).mu = k * (s.obj.cfg.matAt e).mu ∧
      (s'.obj.cfg.matAt e).lambda = k * (s.obj.cfg.matAt e).lambda := by
    intro e hm
    obtain ⟨t, h1, h2, -⟩ := reach_matAt ha h hm
    obtain ⟨-, a1, a2⟩ := reach_moduli ha he h hm h2
    obtain ⟨-, b1, b2⟩ := reach_moduli ha' he' h' (e := e) (by rw [hef]; exact hm)
      ((sameCell_type ha ha' h h' hs (reach_elem ha h hm)).trans h2)
    have e1 : shearOf a' t = k * shearOf a t := by
      unfold shearOf; rw [hE t h1, hnu t h1, mul_div_assoc]
    have e2 : bulkOf a' t = k * bulkOf a t := by
      unfold bulkOf; rw [hE t h1, hnu t h1, mul_div_assoc]
    constructor
    · rw [a1, b1, e1]
    · rw [e2, ← a2, b1, e1, ← a1] at b2
      linarith
  exact C63_scale hb.ok (hb.geom hg) (hb.elastic he) hb'.ok (hb'.geom hg') (hb'.elastic he') hgrid
    (fun e hm => (key e hm).1) (fun e hm => (key e hm).2) hq hq'

/-- The cell of `exArgs3` of materials seven times as stiff. -/
noncomputable def exArgs7 : Args ℝ :=
  { exArgs3 with params := fun i => if i % 10 = 0 then 7 * exArgs3.params i else exArgs3.params i }

theorem exArgs7_ok : exArgs7.Ok := by
  refine ⟨Or.inr rfl, Or.inr rfl, ?_, ?_, fun _ => ?_⟩ <;> simp [exArgs7, exArgs3]

theorem exArgs7_geom : exArgs7.Geom := by
  refine ⟨?_, ?_, fun _ => ?_⟩ <;> norm_num [exArgs7, exArgs3]

theorem exArgs7_elastic : exArgs7.Elastic := by
  refine ⟨?_, ?_, ?_, ?_⟩
  · intro i hi; obtain rfl | rfl : i = 0 ∨ i = 1 := by omega
    all_goals norm_num [exArgs7, exArgs3]
  · intro i hi; obtain rfl | rfl : i = 0 ∨ i = 1 := by omega
    all_goals norm_num [exArgs7, exArgs3]
  · intro i hi; obtain rfl | rfl : i = 0 ∨ i = 1 := by omega
    all_goals norm_num [exArgs7, exArgs3]
  · intro _ i _; exact Or.inl rfl

example (eps : Nat → ℝ) : ∃ s s' u u', Reach exEnv exArgs3 exJunk exCalls s ∧ Reach exEnv exArgs7 exJunk exCalls s' ∧
    Equilibrium s.obj.cfg { s.obj.work with u := u } eps ∧ Equilibrium s'.obj.cfg { s'.obj.work with u := u' } eps ∧
    ∃ r r', calcAveStress s.obj.cfg { s.obj.work with u := u } = .ok r ∧
      calcAveStress s'.obj.cfg { s'.obj.work with u := u' } = .ok r' ∧
      ∀ v, v < s.obj.cfg.nvoi → r'.ave v = 7 * r.ave v := by
  obtain ⟨s, hs⟩ := reach_exists exEnv_quick exArgs3_ok exJunk exCalls
  obtain ⟨s', hs'⟩ := reach_exists exEnv_quick exArgs7_ok exJunk exCalls
  obtain ⟨b1, o1⟩ := reach_built exArgs3_ok hs
  obtain ⟨b2, o2⟩ := reach_built exArgs7_ok hs'
  obtain ⟨u, hu⟩ := equilibrium_exists b1.ok (b1.geom exArgs3_geom) (b1.elastic exArgs3_elastic) o1.work eps
  obtain ⟨u', hu'⟩ := equilibrium_exists b2.ok (b2.geom exArgs7_geom) (b2.elastic exArgs7_elastic) o2.work eps
  refine ⟨s, s', u, u', hs, hs', hu, hu', ?_⟩
  refine (C63_units exArgs3_ok exArgs3_geom exArgs3_elastic exArgs7_ok exArgs7_geom exArgs7_elastic
    ⟨rfl, fun _ _ => rfl, rfl, fun _ _ => rfl⟩ ?_ ?_ hs hs' hu hu').2
  · intro i hi
    obtain rfl | rfl : i = 0 ∨ i = 1 := by omega
    all_goals norm_num [exArgs7, exArgs3]
  · intro i hi
    obtain rfl | rfl : i = 0 ∨ i = 1 := by omega
    all_goals norm_num [exArgs7, exArgs3]

/-- The layered cell of the examples is stiffer than the uniform one. -/
example (eps : Nat → ℝ) : ∃ s s' u u', Reach exEnv exArgsU exJunk exCalls s ∧ Reach exEnv exArgs3 exJunk exCalls s' ∧
    Equilibrium s.obj.cfg { s.obj.work with u := u } eps ∧ Equilibrium s'.obj.cfg { s'.obj.work with u := u' } eps ∧
    ∃ r r', calcAveStress s.obj.cfg { s.obj.work with u := u } = .ok r ∧
      calcAveStress s'.obj.cfg { s'.obj.work with u := u' } = .ok r' ∧
      ∑ v ∈ range s.obj.cfg.nvoi, r.ave v * eps v ≤ ∑ v ∈ range s.obj.cfg.nvoi, r'.ave v * eps v := by
  obtain ⟨s, hs⟩ := reach_exists exEnv_quick exArgsU_ok exJunk exCalls
  obtain ⟨s', hs'⟩ := reach_exists exEnv_quick exArgs3_ok exJunk exCalls
  obtain ⟨b1, o1⟩ := reach_built exArgsU_ok hs
  obtain ⟨b2, o2⟩ := reach_built exArgs3_ok hs'
  obtain ⟨u, hu⟩ := equilibrium_exists b1.ok (b1.geom exArgsU_geom) (b1.elastic exArgsU_elastic) o1.work eps
  obtain ⟨u', hu'⟩ := equilibrium_exists b2.ok (b2.geom exArgs3_geom) (b2.elastic exArgs3_elastic) o2.work eps
  refine ⟨s, s', u, u', hs, hs', hu, hu', ?_⟩
  refine C63_constructed exArgsU_ok exArgsU_geom exArgsU_elastic exArgs3_ok exArgs3_geom exArgs3_elastic
    ⟨rfl, fun _ _ => rfl, rfl, fun _ _ => rfl⟩ ?_ ?_ hs hs' hu hu'
  · intro i hi
    obtain rfl | rfl : i = 0 ∨ i = 1 := by omega
    all_goals norm_num [shearOf, exArgsU, exArgs3]
  · intro i hi
    obtain rfl | rfl : i = 0 ∨ i = 1 := by omega
    all_goals norm_num [bulkOf, exArgsU, exArgs3]

end Verif.Props
