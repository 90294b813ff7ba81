import Verif.Props.Bounds

/-!
# Unit of length and symmetries of the cell: properties C64, C65

Exact arithmetic, admissible elastic materials.  The value of `calc_ave_stress` is `c.thick` times the
average, and `c.thick` is 1 in two dimensions and `lz` in three; this is why C64 holds in two
dimensions only.
-/

namespace Verif.Props
open Verif Spec Finset

variable {c c' : Cfg ℝ} {w w' : Work ℝ}

theorem law_iso (c : Cfg ℝ) (e : Nat × Nat × Nat) (x : Nat → ℝ) (v : Nat) :
    c.law e x v = isoLaw c.dim (c.matAt e).lambda (c.matAt e).mu x v := rfl

/-! ### C64 -/

/-- The second cell is the first with edges `k` times as long, of the same grid and materials. -/
structure Scaled (c c' : Cfg ℝ) (k : ℝ) : Prop where
  dim : c'.dim = c.dim
  nx : c'.nx = c.nx
  ny : c'.ny = c.ny
  nz : c'.nz = c.nz
  lx : c'.lx = k * c.lx
  ly : c'.ly = k * c.ly
  lz : c.dim = 3 → c'.lz = k * c.lz
  mu : ∀ e ∈ c.fe.elems, (c'.matAt e).mu = (c.matAt e).mu
  lambda : ∀ e ∈ c.fe.elems, (c'.matAt e).lambda = (c.matAt e).lambda

theorem Scaled.fe {k : ℝ} (h : Scaled c c' k) (hc : c.Ok) (hg : c.Geom) (hg' : c'.Geom) :
    c'.fe = c.fe.rescale k := by
  have hne : ∀ n : Nat, 2 ≤ n → ((n - 1 : Nat) : ℝ) ≠ 0 := fun n hn => by
    have : (n - 1 : Nat) ≠ 0 := by omega
    exact_mod_cast this
  have ex : c'.dx = k * c.dx := mul_right_cancel₀ (hne _ hc.nx) (by
    rw [mul_assoc, hg.dx]; have := hg'.dx; rw [h.nx, h.lx] at this; exact this)
  have ey : c'.dy = k * c.dy := mul_right_cancel₀ (hne _ hc.ny) (by
    rw [mul_assoc, hg.dy]; have := hg'.dy; rw [h.ny, h.ly] at this; exact this)
  unfold Cfg.fe
  rw [h.dim, h.nx, h.ny, h.nz, ex, ey]
  split
  · unfold fe2 Fe.rescale
    congr 1
    funext i
    show _ = k * (if i = 0 then c.dx else c.dy)
    split <;> rfl
  · rename_i hd
    have hd : c.dim = 3 := hc.dim.resolve_left hd
    have ez : c'.dz = k * c.dz := mul_right_cancel₀ (hne _ (hc.nz3 hd)) (by
      rw [mul_assoc, hg.dz hd]; have := hg'.dz (h.dim.trans hd); rw [h.nz, h.lz hd] at this; exact this)
    rw [ez]
    unfold fe3 Fe.rescale
    congr 1
    funext i
    show _ = k * (if i = 0 then c.dx else if i = 1 then c.dy else c.dz)
    split
    · rfl
    split <;> rfl

/-- **C64**: measure the cell in another unit of length, and the displacements are multiplied by the
ratio `k`.  The macro stress should stay; it does in two dimensions, and is multiplied by `k` in
three. -/
theorem C64_partial (hc : c.Ok) (hg : c.Geom) (he : c.Elastic) (hc' : c'.Ok) (hg' : c'.Geom) (he' : c'.Elastic)
    {k : ℝ} (hk : 0 < k) (hs : Scaled c c' k) {eps : Nat → ℝ} (hq : Equilibrium c w eps) (hq' : Equilibrium c' w' eps) :
    (∀ q, q < c.nn * c.dim → w'.u.val q = k * w.u.val q) ∧
    ∃ r r', calcAveStress c w = .ok r ∧ calcAveStress c' w' = .ok r' ∧
      (c.dim = 2 → ∀ v, v < c.nvoi → r'.ave v = r.ave v) ∧
      (c.dim = 3 → ∀ v, v < c.nvoi → r'.ave v = k * r.ave v) := by
  obtain ⟨h1, h2, r, h3, h4⟩ := equil_ave hc hg he hq
  obtain ⟨g1, g2, r', g3, g4⟩ := equil_ave hc' hg' he' hq'
  have ef := hs.fe hc hg hg'
  have hF := c.good hc hg
  have hF' := c'.good hc' hg'
  have hL := c.law_ok hc he
  have hL' := c'.law_ok hc' he'
  rw [ef] at g1 g2 g4 hF' hL'
  have hnv : c'.nvoi = c.nvoi := by unfold Cfg.nvoi; rw [hs.dim]
  have hres := (Fe.morph_rescale (F := c.fe) hk.ne').response hF hF' hL hL'
    (fun e hm x v _ => by
      simp only [one_mul]
      rw [law_iso, law_iso, hs.dim, hs.mu e hm, hs.lambda e hm])
    (tr := fun _ => 0) h1 h2 g2 (fun e _ gp _ v _ => by simp only [sub_zero])
    (fun r hr hb => by
      have := g1 r hr hb
      rw [Fe.rescale_affine] at this
      beta_reduce
      rw [this, sub_zero, one_div, ← mul_assoc, inv_mul_cancel₀ hk.ne', one_mul]
      rfl)
  obtain ⟨m1, m2⟩ := hres
  refine ⟨fun q hq => ?_, r, r', h3, g3, fun hd v hv => ?_, fun hd v hv => ?_⟩
  · have := m1 q (by rw [c.fe_nn hc]; exact hq)
    rw [this]
    field_simp
    ring
  · rw [g4 v (by rw [hnv]; exact hv), h4 v hv, m2 v (by rw [c.fe_nvoi]; exact hv), one_mul]
    unfold Cfg.thick
    rw [hs.dim, if_pos hd, if_pos hd]
  · rw [g4 v (by rw [hnv]; exact hv), h4 v hv, m2 v (by rw [c.fe_nvoi]; exact hv), one_mul]
    have h32 : ¬ c.dim = 2 := by omega
    unfold Cfg.thick
    rw [hs.dim, if_neg h32, if_neg h32, hs.lz hd]
    ring

variable {env env' : Env ℝ} {a a' : Args ℝ} {j j' : Junk ℝ} {calls calls' : List (Call ℝ)} {s s' : ObjFiles ℝ}

/-- The calls of the constructor describe the same cell in units of length of ratio `k`. -/
structure SameUpTo (a a' : Args ℝ) (k : ℝ) : Prop where
  dim : a'.dim = a.dim
  size : ∀ i, i < 3 → a'.size i = a.size i
  micro : a'.microType = a.microType
  length : ∀ i, i < 4 → a'.microParams i = k * a.microParams i
  E : ∀ i, i < 2 → a'.params (10 * i) = a.params (10 * i)
  nu : ∀ i, i < 2 → a'.params (10 * i + 1) = a.params (10 * i + 1)

theorem centre_scale (k L : ℝ) (n e : Nat) : centre (k * L) n e = k * centre L n e := by
  unfold centre
  ring

theorem offCentre_scale {k : ℝ} (hk : 0 < k) (hs : SameUpTo a a' k) (ex ey ez : Nat) :
    offCentre a' ex ey ez = k * offCentre a ex ey ez := by
  unfold offCentre
  rw [hs.dim, hs.size 0 (by omega), hs.size 1 (by omega), hs.size 2 (by omega), hs.length 0 (by omega),
    hs.length 1 (by omega), hs.length 2 (by omega), centre_scale, centre_scale, centre_scale]
  have e1 : ∀ x : ℝ, k * Real.sqrt x = Real.sqrt (k ^ 2 * x) := fun x => by
    rw [Real.sqrt_mul (by positivity), Real.sqrt_sq hk.le]
  rw [e1]
  congr 1
  split <;> ring

theorem scaled_of_reach (ha : a.Ok) (hg : a.Geom) (he : a.Elastic) (ha' : a'.Ok) (hg' : a'.Geom) (he' : a'.Elastic)
    {k : ℝ} (hk : 0 < k) (hs : SameUpTo a a' k) (h : Reach env a j calls s) (h' : Reach env' a' j' calls' s') :
    Scaled s.obj.cfg s'.obj.cfg k := by
  have hb := (reach_built ha h).1
  have hb' := (reach_built ha' h').1
  have hlt : ∀ x y : ℝ, k * x < k * y ↔ x < y := fun x y => mul_lt_mul_iff_right₀ hk
  have hty : ∀ ex ey ez, IsElem a ex ey ez → storedType s'.obj.cfg ex ey ez = storedType s.obj.cfg ex ey ez := by
    intro ex ey ez hI
    have hI' : IsElem a' ex ey ez := by
      obtain ⟨h1, h2, h3, h4⟩ := hI
      refine ⟨?_, ?_, ?_, ?_⟩
      · rw [hs.size 0 (by omega)]; exact h1
      · rw [hs.size 1 (by omega)]; exact h2
      · rw [hs.dim]; exact h3
      · rw [hs.dim, hs.size 2 (by omega)]; exact h4
    rcases ha.micro with hm | hm
    · rw [C48_inclusion ha hm h hI, C48_inclusion ha' (hs.micro.trans hm) h' hI', offCentre_scale hk hs,
        hs.length 3 (by omega), abs_mul, abs_of_pos hk]
      simp only [hlt]
    · rw [C48_layered ha hm h hI, C48_layered ha' (hs.micro.trans hm) h' hI', hs.size 1 (by omega),
        hs.length 1 (by omega), hs.length 3 (by omega), centre_scale]
      simp only [hlt]
  have hel : ∀ e ∈ s.obj.cfg.fe.elems, e ∈ s'.obj.cfg.fe.elems := by
    intro e hm
    obtain ⟨et, ct, hc⟩ := hb.eq
    obtain ⟨et', ct', hc'⟩ := hb'.eq
    rw [hc] at hm
    rw [hc']
    unfold Cfg.fe at hm ⊢
    have e1 : (mkCfg a' j' et').dim = (mkCfg a j et).dim := hs.dim
    have e2 : (mkCfg a' j' et').nx = (mkCfg a j et).nx := hs.size 0 (by omega)
    have e3 : (mkCfg a' j' et').ny = (mkCfg a j et).ny := hs.size 1 (by omega)
    have e4 : (mkCfg a' j' et').nz = (mkCfg a j et).nz := by
      show (if a'.dim = 2 then 1 else a'.size 2) = if a.dim = 2 then 1 else a.size 2
      rw [hs.dim, hs.size 2 (by omega)]
    dsimp only at hm ⊢
    rw [e1, e2, e3, e4]
    split <;> rename_i hd
    · rw [if_pos hd] at hm; exact hm
    · rw [if_neg hd] at hm; exact hm
  have key : ∀ e ∈ s.obj.cfg.fe.elems, (s'.obj.cfg.matAt e).mu = (s.obj.cfg.matAt e).mu ∧
      (s'.obj.cfg.matAt e).lambda = (s.obj.cfg.matAt e).lambda := by
    intro e hm
    obtain ⟨t, h1, h2, -⟩ := reach_matAt ha h hm
    obtain ⟨-, a1, a2⟩ := reach_moduli ha he h hm h2
    obtain ⟨-, b1, b2⟩ := reach_moduli ha' he' h' (hel e hm)
      ((hty _ _ _ (reach_elem ha h hm)).trans h2)
    have e1 : shearOf a' t = shearOf a t := by
      unfold shearOf; rw [hs.E t h1, hs.nu t h1]
    have e2 : bulkOf a' t = bulkOf a t := by
      unfold bulkOf; rw [hs.E t h1, hs.nu t h1]
    constructor
    · rw [a1, b1, e1]
    · rw [e2, ← a2, b1, e1, ← a1] at b2
      linarith
  obtain ⟨et, ct, hc⟩ := hb.eq
  obtain ⟨et', ct', hc'⟩ := hb'.eq
  refine ⟨?_, ?_, ?_, ?_, ?_, ?_, ?_, fun e hm => (key e hm).1, fun e hm => (key e hm).2⟩ <;> rw [hc, hc']
  · exact hs.dim
  · exact hs.size 0 (by omega)
  · exact hs.size 1 (by omega)
  · show (if a'.dim = 2 then 1 else a'.size 2) = if a.dim = 2 then 1 else a.size 2
    rw [hs.dim, hs.size 2 (by omega)]
  · exact hs.length 0 (by omega)
  · exact hs.length 1 (by omega)
  · intro hd
    have hd : a.dim = 3 := hd
    have h2 : ¬ (3 : Nat) = 2 := by decide
    show (if a'.dim = 2 then 0 else a'.microParams 2) = k * (if a.dim = 2 then 0 else a.microParams 2)
    rw [hs.dim, hd, if_neg h2, if_neg h2, hs.length 2 (by omega)]

/-- **C64** for objects obtained from the constructor. -/
theorem C64_constructed_partial (ha : a.Ok) (hg : a.Geom) (he : a.Elastic) (ha' : a'.Ok) (hg' : a'.Geom)
    (he' : a'.Elastic) {k : ℝ} (hk : 0 < k) (hs : SameUpTo a a' k)
    (h : Reach env a j calls s) (h' : Reach env' a' j' calls' s') {eps : Nat → ℝ}
    (hq : Equilibrium s.obj.cfg w eps) (hq' : Equilibrium s'.obj.cfg w' eps) :
    (∀ q, q < s.obj.cfg.nn * s.obj.cfg.dim → w'.u.val q = k * w.u.val q) ∧
    ∃ r r', calcAveStress s.obj.cfg w = .ok r ∧ calcAveStress s'.obj.cfg w' = .ok r' ∧
      (s.obj.cfg.dim = 2 → ∀ v, v < s.obj.cfg.nvoi → r'.ave v = r.ave v) ∧
      (s.obj.cfg.dim = 3 → ∀ v, v < s.obj.cfg.nvoi → r'.ave v = k * r.ave v) := by
  have hb := (reach_built ha h).1
  have hb' := (reach_built ha' h').1
  exact C64_partial hb.ok (hb.geom hg) (hb.elastic he) hb'.ok (hb'.geom hg') (hb'.elastic he') hk
    (scaled_of_reach ha hg he ha' hg' he' hk hs h h') hq hq'

/-- The cell of `a` in a unit of length one thousand times smaller. -/
noncomputable def inMilli (a : Args ℝ) : Args ℝ := { a with microParams := fun i => 1000 * a.microParams i }

theorem inMilli_ok (ha : a.Ok) : (inMilli a).Ok := ⟨ha.dim, ha.micro, ha.nx, ha.ny, ha.nz⟩

theorem inMilli_geom (hg : a.Geom) : (inMilli a).Geom :=
  ⟨mul_pos (by norm_num) hg.lx, mul_pos (by norm_num) hg.ly, fun h => mul_pos (by norm_num) (hg.lz h)⟩

theorem inMilli_elastic (he : a.Elastic) : (inMilli a).Elastic := ⟨he.E, he.lo, he.hi, he.ty⟩

theorem inMilli_same (a : Args ℝ) : SameUpTo a (inMilli a) 1000 :=
  ⟨rfl, fun _ _ => rfl, rfl, fun _ _ => rfl, fun _ _ => rfl, fun _ _ => rfl⟩

example (eps : Nat → ℝ) : ∃ s s' u u', Reach exEnv exArgs2 exJunk exCalls s ∧
    Reach exEnv (inMilli exArgs2) exJunk exCalls s' ∧
    Equilibrium s.obj.cfg { s.obj.work with u := u } eps ∧ Equilibrium s'.obj.cfg { s'.obj.work with u := u' } eps ∧
    ∃ r r', calcAveStress s.obj.cfg { s.obj.work with u := u } = .ok r ∧
      calcAveStress s'.obj.cfg { s'.obj.work with u := u' } = .ok r' ∧
      ∀ v, v < s.obj.cfg.nvoi → r'.ave v = r.ave v := by
  obtain ⟨s, hs⟩ := reach_exists exEnv_quick exArgs2_ok exJunk exCalls
  obtain ⟨s', hs'⟩ := reach_exists exEnv_quick (inMilli_ok exArgs2_ok) exJunk exCalls
  obtain ⟨b1, o1⟩ := reach_built exArgs2_ok hs
  obtain ⟨b2, o2⟩ := reach_built (inMilli_ok exArgs2_ok) hs'
  obtain ⟨u, hu⟩ := equilibrium_exists b1.ok (b1.geom exArgs2_geom) (b1.elastic exArgs2_elastic) o1.work eps
  obtain ⟨u', hu'⟩ := equilibrium_exists b2.ok (b2.geom (inMilli_geom exArgs2_geom))
    (b2.elastic (inMilli_elastic exArgs2_elastic)) o2.work eps
  obtain ⟨-, r, r', h1, h2, h3, -⟩ := C64_constructed_partial exArgs2_ok exArgs2_geom exArgs2_elastic
    (inMilli_ok exArgs2_ok) (inMilli_geom exArgs2_geom) (inMilli_elastic exArgs2_elastic) (by norm_num)
    (inMilli_same _) hs hs' hu hu'
  have hd : s.obj.cfg.dim = 2 := by obtain ⟨et, ct, h⟩ := b1.eq; rw [h]; rfl
  exact ⟨s, s', u, u', hs, hs', hu, hu', r, r', h1, h2, h3 hd⟩

/-- C64 does not hold: measured in millimetres, a cell in three dimensions has one thousand times the
macro stress of the same cell measured in metres. -/
theorem C64_fails : ∃ (a a' : Args ℝ) (s s' : ObjFiles ℝ) (u u' : Buf ℝ) (eps : Nat → ℝ) (r r' : _),
    a.Ok ∧ a.Geom ∧ a.Elastic ∧ a'.Ok ∧ a'.Geom ∧ a'.Elastic ∧ SameUpTo a a' 1000 ∧
    Reach exEnv a exJunk exCalls s ∧ Reach exEnv a' exJunk exCalls s' ∧
    Equilibrium s.obj.cfg { s.obj.work with u := u } eps ∧ Equilibrium s'.obj.cfg { s'.obj.work with u := u' } eps ∧
    calcAveStress s.obj.cfg { s.obj.work with u := u } = .ok r ∧
    calcAveStress s'.obj.cfg { s'.obj.work with u := u' } = .ok r' ∧
    0 < r.ave 0 ∧ r'.ave 0 = 1000 * r.ave 0 := by
  obtain ⟨s, hs⟩ := reach_exists exEnv_quick exArgs3_ok exJunk exCalls
  obtain ⟨s', hs'⟩ := reach_exists exEnv_quick (inMilli_ok exArgs3_ok) exJunk exCalls
  obtain ⟨b1, o1⟩ := reach_built exArgs3_ok hs
  obtain ⟨b2, o2⟩ := reach_built (inMilli_ok exArgs3_ok) hs'
  have g1 := b1.geom exArgs3_geom
  have e1 := b1.elastic exArgs3_elastic
  have hd : s.obj.cfg.dim = 3 := by obtain ⟨et, ct, h⟩ := b1.eq; rw [h]; rfl
  have hv : 0 < s.obj.cfg.nvoi := by unfold Cfg.nvoi; rw [hd]; decide
  obtain ⟨u, hu⟩ := equilibrium_exists b1.ok g1 e1 o1.work fun i => if i = 0 then 1 else 0
  obtain ⟨u', hu'⟩ := equilibrium_exists b2.ok (b2.geom (inMilli_geom exArgs3_geom))
    (b2.elastic (inMilli_elastic exArgs3_elastic)) o2.work fun i => if i = 0 then 1 else 0
  obtain ⟨-, r, r', h1, h2, -, h3⟩ := C64_constructed_partial exArgs3_ok exArgs3_geom exArgs3_elastic
    (inMilli_ok exArgs3_ok) (inMilli_geom exArgs3_geom) (inMilli_elastic exArgs3_elastic) (by norm_num)
    (inMilli_same _) hs hs' hu hu'
  refine ⟨exArgs3, inMilli exArgs3, s, s', u, u', _, r, r', exArgs3_ok, exArgs3_geom, exArgs3_elastic,
    inMilli_ok exArgs3_ok, inMilli_geom exArgs3_geom, inMilli_elastic exArgs3_elastic, inMilli_same _,
    hs, hs', hu, hu', h1, h2, ?_, h3 hd 0 hv⟩
  obtain ⟨⟨C, hC⟩, -, hp⟩ := stiffness_unique b1.ok g1 e1 o1.work
  obtain ⟨r0, k1, k2⟩ := hC _ _ hu
  rw [h1] at k1
  cases k1
  rw [k2 0 hv]
  have : ∑ j ∈ range s.obj.cfg.nvoi, C 0 j * (if j = 0 then 1 else 0) = C 0 0 := by simp [hv]
  rw [this]
  exact hp C hC 0 hv

/-! ### C65 -/

/-- The second cell is the image of the first under `m`, of the same materials. -/
structure ImageCell (m : AxisMap) (c c' : Cfg ℝ) : Prop where
  ok : m.Ok c.dim
  grid : c.fe.Image m c'.fe
  mu : ∀ e ∈ c.fe.elems, (c'.matAt (c.fe.mapElem m e)).mu = (c.matAt e).mu
  lambda : ∀ e ∈ c.fe.elems, (c'.matAt (c.fe.mapElem m e)).lambda = (c.matAt e).lambda

/-- **C65**: reflect or permute the axes of a cell and of the macro strain, and the macro stress is reflected
or permuted (up to the factor `c.thick` of both results). -/
theorem C65_image (hc : c.Ok) (hg : c.Geom) (he : c.Elastic) (hc' : c'.Ok) (hg' : c'.Geom) (he' : c'.Elastic)
    {m : AxisMap} (hm : ImageCell m c c') {eps eps' : Nat → ℝ}
    (hx : ∀ v, v < c.nvoi → eps' v = m.image c.dim eps v)
    (hq : Equilibrium c w eps) (hq' : Equilibrium c' w' eps') :
    ∃ r r', calcAveStress c w = .ok r ∧ calcAveStress c' w' = .ok r' ∧
      ∀ v, v < c.nvoi → r'.ave v / c'.thick = m.image c.dim r.ave v / c.thick := by
  obtain ⟨h1, h2, r, h3, h4⟩ := equil_ave hc hg he hq
  obtain ⟨g1, g2, r', g3, g4⟩ := equil_ave hc' hg' he' hq'
  have hF := c.good hc hg
  have hF' := c'.good hc' hg'
  have hL := c.law_ok hc he
  have hL' := c'.law_ok hc' he'
  have hd : c'.dim = c.dim := by
    have := hm.grid.dim; rw [c.fe_dim hc, c'.fe_dim hc'] at this; exact this
  have hnv : c'.nvoi = c.nvoi := by unfold Cfg.nvoi; rw [hd]
  have hok : m.Ok c.fe.dim := by rw [c.fe_dim hc]; exact hm.ok
  obtain ⟨t, ht⟩ := Fe.onBd_image (eps := eps) hok hm.grid hF hF' (fun v hv => by
    rw [c.fe_dim hc]; exact hx v (by rw [← c.fe_nvoi]; exact hv)) g1
  have hres := (Fe.morph_image hok hm.grid hF hF').response hF hF' hL hL'
    (fun e hmem x v hv => by
      have hv : v < c.nvoi := by rw [← c.fe_nvoi]; exact hv
      rw [law_iso, law_iso, hd, hm.mu e hmem, hm.lambda e hmem, c.fe_dim hc]
      exact AxisMap.isoLaw_image hm.ok hc.dim (nvoi_eq c) _ _ x hv)
    (tr := fun r => t (r % c.fe.dim)) h1 h2 g2
    (fun e hmem gp _ v hv => Fe.strain_trans hF _ t hmem gp hv) ht
  refine ⟨r, r', h3, g3, fun v hv => ?_⟩
  have hcomp : m.comp c.dim v < c.nvoi := AxisMap.comp_lt hm.ok hc.dim (nvoi_eq c) hv
  have e1 := thick_pos hc hg
  have e2 := thick_pos hc' hg'
  unfold AxisMap.image
  rw [g4 v (by rw [hnv]; exact hv), h4 _ hcomp, hres.2 v (by rw [c.fe_nvoi]; exact hv), c.fe_dim hc]
  field_simp

/-- A cell that is its own image: the stiffness has the symmetry. -/
theorem C65_self (hc : c.Ok) (hg : c.Geom) (he : c.Elastic) (hw : w.Ok c) {m : AxisMap} (hm : ImageCell m c c)
    {C : Nat → Nat → ℝ} (hC : IsStiffness c C) {v i : Nat} (hv : v < c.nvoi) (hi : i < c.nvoi) :
    C v i = m.csign c.dim v * m.csign c.dim i * C (m.comp c.dim v) (m.comp c.dim i) := by
  have hcv : ∀ v, v < c.nvoi → m.comp c.dim v < c.nvoi := fun v hv =>
    AxisMap.comp_lt hm.ok hc.dim (nvoi_eq c) hv
  obtain ⟨u, hu⟩ := equilibrium_exists hc hg he hw fun k => if k = m.comp c.dim i then 1 else 0
  obtain ⟨u', hu'⟩ := equilibrium_exists hc hg he hw
    (m.image c.dim fun k => if k = m.comp c.dim i then 1 else 0)
  obtain ⟨r, r', h1, h2, h3⟩ := C65_image hc hg he hc hg he hm (fun v _ => rfl) hu hu'
  obtain ⟨r1, k1, k2⟩ := hC _ _ hu
  obtain ⟨r2, l1, l2⟩ := hC _ _ hu'
  rw [h1] at k1; cases k1
  rw [h2] at l1; cases l1
  have e1 := h3 v hv
  rw [div_left_inj' (thick_pos hc hg).ne'] at e1
  rw [l2 v hv] at e1
  unfold AxisMap.image at e1
  rw [k2 _ (hcv v hv)] at e1
  have s1 : ∑ k ∈ range c.nvoi, C (m.comp c.dim v) k * (if k = m.comp c.dim i then (1 : ℝ) else 0)
      = C (m.comp c.dim v) (m.comp c.dim i) := by simp [hcv i hi]
  have s2 : ∑ k ∈ range c.nvoi, C v k * (m.csign c.dim k * (if m.comp c.dim k = m.comp c.dim i then (1 : ℝ) else 0))
      = C v i * m.csign c.dim i := by
    rw [sum_eq_single i]
    · rw [if_pos rfl, mul_one]
    · intro k hk hne
      rw [if_neg fun e => hne (AxisMap.comp_inj hm.ok hc.dim (nvoi_eq c) (mem_range.mp hk) hi e)]
      ring
    · intro h; exact absurd (mem_range.mpr hi) h
  rw [s1, s2] at e1
  have e2 := AxisMap.csign_sq (dim := c.dim) m i
  calc C v i = C v i * m.csign c.dim i * m.csign c.dim i := by rw [mul_assoc, e2, mul_one]
    _ = _ := by rw [e1]; ring

/-- The map `m` is a symmetry of the cell that the constructor is asked for: it permutes axes of equal
length and equally many nodes, and it keeps the axis of the layers. -/
structure SymmetryOf (m : AxisMap) (a : Args ℝ) : Prop where
  ok : m.Ok a.dim
  size : ∀ k, k < a.dim → a.size (m.p k) = a.size k
  length : ∀ k, k < a.dim → a.microParams (m.p k) = a.microParams k
  layers : a.microType = 1 → m.p 1 = 1 ∧ m.flip 1 = false

/-- Square of the distance from the centre along axis `k`. -/
noncomputable def offAlong (a : Args ℝ) (k x : Nat) : ℝ :=
  (centre (a.microParams k) (a.size k) x - a.microParams k / 2) ^ 2

theorem offCentre_sum (ha : a.Ok) (e : Nat × Nat × Nat) : offCentre a e.1 e.2.1 e.2.2 =
    Real.sqrt (∑ k ∈ range a.dim, offAlong a k (if k = 0 then e.1 else if k = 1 then e.2.1 else e.2.2)) := by
  unfold offCentre
  congr 1
  rcases ha.dim with hd | hd <;> rw [hd] <;> simp [sum_range_succ, offAlong]

theorem offAlong_mirror {k x : Nat} (hx : x + 1 < a.size k) : offAlong a k (a.size k - 2 - x) = offAlong a k x := by
  unfold offAlong
  rw [centre_mirror hx]
  ring

theorem cnt_of_built {c : Cfg ℝ} (ha : a.Ok) (hb : BuiltFrom a j c) {k : Nat} (hk : k < a.dim) :
    c.dim = a.dim ∧ c.fe.cnt k = a.size k - 1 ∧ c.fe.h k = a.microParams k / ((a.size k - 1 : Nat) : ℝ) := by
  obtain ⟨et, ct, hc⟩ := hb.eq
  have h32 : ¬ (3 : Nat) = 2 := by decide
  rw [hc]
  refine ⟨rfl, ?_⟩
  rcases ha.dim with hd | hd
  · have hk : k = 0 ∨ k = 1 := by omega
    have ef : ({ mkCfg a j et with ctanLin := ct } : Cfg ℝ).fe = fe2 (a.size 0) (a.size 1)
        (mkCfg a j et).dx (mkCfg a j et).dy := if_pos hd
    rw [ef]
    rcases hk with rfl | rfl
    · exact ⟨rfl, rfl⟩
    · exact ⟨rfl, rfl⟩
  · have hk : k = 0 ∨ k = 1 ∨ k = 2 := by omega
    have hnd : ¬ a.dim = 2 := by omega
    have ef : ({ mkCfg a j et with ctanLin := ct } : Cfg ℝ).fe = fe3 (a.size 0) (a.size 1)
        (if a.dim = 2 then 1 else a.size 2) (mkCfg a j et).dx (mkCfg a j et).dy (mkCfg a j et).dz := if_neg hnd
    rw [ef, if_neg hnd]
    rcases hk with rfl | rfl | rfl
    · exact ⟨rfl, rfl⟩
    · exact ⟨rfl, rfl⟩
    · refine ⟨rfl, ?_⟩
      show (mkCfg a j et).dz = _
      simp [mkCfg, hd]

/-- A symmetry of the arguments is a symmetry of the object. -/
theorem image_of_reach (ha : a.Ok) (he : a.Elastic) {m : AxisMap} (hm : SymmetryOf m a) (h : Reach env a j calls s) :
    ImageCell m s.obj.cfg s.obj.cfg := by
  have hb := (reach_built ha h).1
  have hd : s.obj.cfg.dim = a.dim := (cnt_of_built ha hb (k := 0) (by have := ha.dim; omega)).1
  have h3 : a.dim ≤ 3 := by have := ha.dim; omega
  have himg : s.obj.cfg.fe.Image m s.obj.cfg.fe := by
    refine ⟨rfl, fun k hk => ?_, fun k hk => ?_⟩
    · by_cases hkd : k < a.dim
      · rw [(cnt_of_built ha hb hkd).2.1, (cnt_of_built ha hb (hm.ok.lt_dim ha.dim hkd)).2.1, hm.size k hkd]
      · have e2 : a.dim = 2 := by have := ha.dim; omega
        obtain rfl : k = 2 := by omega
        rw [(hm.ok.two e2).1]
    · rw [s.obj.cfg.fe_dim hb.ok, hd] at hk
      rw [(cnt_of_built ha hb hk).2.2, (cnt_of_built ha hb (hm.ok.lt_dim ha.dim hk)).2.2, hm.size k hk, hm.length k hk]
  have hokF : m.Ok s.obj.cfg.fe.dim := by rw [s.obj.cfg.fe_dim hb.ok, hd]; exact hm.ok
  have key : ∀ e ∈ s.obj.cfg.fe.elems,
      (s.obj.cfg.matAt (s.obj.cfg.fe.mapElem m e)).mu = (s.obj.cfg.matAt e).mu ∧
      (s.obj.cfg.matAt (s.obj.cfg.fe.mapElem m e)).lambda = (s.obj.cfg.matAt e).lambda := by
    intro e hmem
    have hmem' := Fe.mapElem_mem hokF himg hmem
    have hI := reach_elem ha h hmem
    have hI' := reach_elem ha h hmem'
    have hpos : ∀ k, k < a.dim → (if k = 0 then e.1 else if k = 1 then e.2.1 else e.2.2) + 1 < a.size k := by
      intro k hk
      obtain ⟨i1, i2, i3, i4⟩ := hI
      split
      · rename_i h0; rw [h0]; exact i1
      split
      · rename_i h0; rw [h0]; exact i2
      · have : k = 2 := by omega
        rw [this]; exact i4 (by omega)
    have hmp : ∀ k, k < a.dim → s.obj.cfg.fe.mapPos m e k =
        if m.flip k then a.size (m.p k) - 2 - (if m.p k = 0 then e.1 else if m.p k = 1 then e.2.1 else e.2.2)
        else if m.p k = 0 then e.1 else if m.p k = 1 then e.2.1 else e.2.2 := by
      intro k hk
      unfold Fe.mapPos
      rw [(cnt_of_built ha hb (hm.ok.lt_dim ha.dim hk)).2.1]
      rfl
    have hty : storedType s.obj.cfg (s.obj.cfg.fe.mapElem m e).1 (s.obj.cfg.fe.mapElem m e).2.1
        (s.obj.cfg.fe.mapElem m e).2.2 = storedType s.obj.cfg e.1 e.2.1 e.2.2 := by
      rcases ha.micro with hmi | hmi
      · rw [C48_inclusion ha hmi h hI, C48_inclusion ha hmi h hI', offCentre_sum ha, offCentre_sum ha]
        have hs : ∑ k ∈ range a.dim, offAlong a k (if k = 0 then (s.obj.cfg.fe.mapElem m e).1
              else if k = 1 then (s.obj.cfg.fe.mapElem m e).2.1 else (s.obj.cfg.fe.mapElem m e).2.2)
            = ∑ k ∈ range a.dim, offAlong a k (if k = 0 then e.1 else if k = 1 then e.2.1 else e.2.2) := by
          rw [← hm.ok.sum ha.dim fun k => offAlong a k (if k = 0 then e.1 else if k = 1 then e.2.1 else e.2.2)]
          refine sum_congr rfl fun k hk => ?_
          have hk := mem_range.mp hk
          have e1 : (if k = 0 then (s.obj.cfg.fe.mapElem m e).1 else if k = 1 then (s.obj.cfg.fe.mapElem m e).2.1
              else (s.obj.cfg.fe.mapElem m e).2.2) = s.obj.cfg.fe.mapPos m e k := by
            unfold Fe.mapElem
            split
            · rename_i h0; rw [h0]
            split
            · rename_i h0; rw [h0]
            · have : k = 2 := by omega
              rw [this]
          have e2 : ∀ x, offAlong a k x = offAlong a (m.p k) x := by
            intro x; unfold offAlong; rw [hm.size k hk, hm.length k hk]
          rw [e1, hmp k hk, e2]
          split
          · exact offAlong_mirror (hpos _ (hm.ok.lt_dim ha.dim hk))
          · rfl
        rw [hs]
      · obtain ⟨p1, p2⟩ := hm.layers hmi
        rw [C48_layered ha hmi h hI, C48_layered ha hmi h hI']
        have e1 : (s.obj.cfg.fe.mapElem m e).2.1 = e.2.1 := by
          show s.obj.cfg.fe.mapPos m e 1 = _
          rw [hmp 1 (by have := ha.dim; omega), p2, p1]
          simp
        rw [e1]
    obtain ⟨t, h1, h2, -⟩ := reach_matAt ha h hmem
    obtain ⟨-, a1, a2⟩ := reach_moduli ha he h hmem h2
    obtain ⟨-, b1, b2⟩ := reach_moduli ha he h hmem' (hty.trans h2)
    refine ⟨b1.trans a1.symm, ?_⟩
    rw [b1] at b2
    rw [a1] at a2
    linarith
  exact ⟨by rw [hd]; exact hm.ok, himg, fun e hmem => (key e hmem).1, fun e hmem => (key e hmem).2⟩

/-- **C65** for objects obtained from the constructor: the homogenised stiffness has every symmetry of
the cell. -/
theorem C65_symmetry (ha : a.Ok) (hg : a.Geom) (he : a.Elastic) {m : AxisMap} (hm : SymmetryOf m a)
    (h : Reach env a j calls s) {C : Nat → Nat → ℝ} (hC : IsStiffness s.obj.cfg C) {v i : Nat}
    (hv : v < s.obj.cfg.nvoi) (hi : i < s.obj.cfg.nvoi) :
    C v i = m.csign a.dim v * m.csign a.dim i * C (m.comp a.dim v) (m.comp a.dim i) := by
  obtain ⟨hb, ho⟩ := reach_built ha h
  have hd : s.obj.cfg.dim = a.dim := (cnt_of_built ha hb (k := 0) (by have := ha.dim; omega)).1
  have := C65_self hb.ok (hb.geom hg) (hb.elastic he) ho.work (image_of_reach ha he hm h) hC hv hi
  rw [hd] at this
  exact this

theorem mirror_symmetry {k : Nat} (hk : k < a.dim) (hk3 : k < 3) (hl : a.microType = 1 → k ≠ 1) :
    SymmetryOf (AxisMap.mirror k) a := by
  refine ⟨⟨fun _ h => h, fun _ h => h, fun _ _ => rfl, fun _ _ => rfl, fun h2 => ⟨rfl, ?_⟩⟩,
    fun _ _ => rfl, fun _ _ => rfl, fun h => ⟨rfl, ?_⟩⟩
  · show (2 == k) = false
    rw [beq_eq_false_iff_ne]; omega
  · show (1 == k) = false
    rw [beq_eq_false_iff_ne]; exact fun e => hl h e.symm

/-- **C65**, orthotropy: every cell the constructor can build, layered or with an inclusion, in two or
three dimensions, has no coupling between normal strains and shears nor between different shears. -/
theorem C65_orthotropic (ha : a.Ok) (hg : a.Geom) (he : a.Elastic) (h : Reach env a j calls s)
    {C : Nat → Nat → ℝ} (hC : IsStiffness s.obj.cfg C) {v i : Nat} (hv : v < s.obj.cfg.nvoi)
    (hi : i < s.obj.cfg.nvoi) (hvi : v ≠ i) (hsh : a.dim ≤ v ∨ a.dim ≤ i) : C v i = 0 := by
  obtain ⟨hb, -⟩ := reach_built ha h
  have hd : s.obj.cfg.dim = a.dim := (cnt_of_built ha hb (k := 0) (by have := ha.dim; omega)).1
  have hx := C65_symmetry ha hg he (mirror_symmetry (a := a) (k := 0) (by have := ha.dim; omega) (by omega)
    (fun _ => by omega)) h hC hv hi
  unfold Cfg.nvoi at hv hi
  rw [hd] at hv hi
  rcases ha.dim with h2 | h3
  · rw [h2] at hx hv hi hsh
    simp only [if_true] at hv hi
    interval_cases v <;> interval_cases i <;> first | omega |
      (simp [AxisMap.csign, AxisMap.comp, AxisMap.mirror, AxisMap.sign, AxisMap.fst, AxisMap.snd, AxisMap.vix] at hx
       linarith)
  · have hz := C65_symmetry ha hg he (mirror_symmetry (a := a) (k := 2) (by omega) (by omega)
      (fun _ => by omega)) h hC (v := v) (i := i) (by unfold Cfg.nvoi; rw [hd]; exact hv)
      (by unfold Cfg.nvoi; rw [hd]; exact hi)
    rw [h3] at hx hz hv hi hsh
    have h32 : ¬ (3 : Nat) = 2 := by decide
    rw [if_neg h32] at hv hi
    interval_cases v <;> interval_cases i <;> first | omega |
      (simp [AxisMap.csign, AxisMap.comp, AxisMap.mirror, AxisMap.sign, AxisMap.fst, AxisMap.snd, AxisMap.vix] at hx hz
       linarith)

theorem swap_ok {dim p q : Nat} (hp : p < dim) (hq : q < dim) (h3 : dim ≤ 3) : (AxisMap.swap p q).Ok dim := by
  refine ⟨fun k hk => ?_, fun k hk => ?_, fun k hk => ?_, fun k hk => ?_, fun h2 => ⟨?_, rfl⟩⟩ <;>
    simp only [AxisMap.swap] <;> (try split) <;> (try split) <;> (try split) <;> omega

theorem swap_symmetry (ha : a.Ok) {p q : Nat} (hp : p < a.dim) (hq : q < a.dim) (hn : a.size p = a.size q)
    (hl : a.microParams p = a.microParams q) (hm : a.microType = 1 → p ≠ 1 ∧ q ≠ 1) :
    SymmetryOf (AxisMap.swap p q) a := by
  refine ⟨swap_ok hp hq (by have := ha.dim; omega), fun k hk => ?_, fun k hk => ?_, fun h => ⟨?_, rfl⟩⟩
  · show a.size (if k = p then q else if k = q then p else k) = a.size k
    split
    · rename_i e; rw [e, hn]
    split
    · rename_i e; rw [e, hn]
    · rfl
  · show a.microParams (if k = p then q else if k = q then p else k) = a.microParams k
    split
    · rename_i e; rw [e, hl]
    split
    · rename_i e; rw [e, hl]
    · rfl
  · show (if 1 = p then q else if 1 = q then p else 1) = 1
    obtain ⟨h1, h2⟩ := hm h
    rw [if_neg (Ne.symm h1), if_neg (Ne.symm h2)]

/-- **C65**, cubic symmetry: a cube (a square) with an inclusion, divided alike along all axes, has a
stiffness of three constants. -/
theorem C65_cubic (ha : a.Ok) (hg : a.Geom) (he : a.Elastic) (hm : a.microType = 0)
    (hn : ∀ k, k < a.dim → a.size k = a.size 0) (hl : ∀ k, k < a.dim → a.microParams k = a.microParams 0)
    (h : Reach env a j calls s) {C : Nat → Nat → ℝ} (hC : IsStiffness s.obj.cfg C) :
    ∀ v i, v < s.obj.cfg.nvoi → i < s.obj.cfg.nvoi → C v i =
      if v = i then (if v < a.dim then C 0 0 else C a.dim a.dim)
      else if v < a.dim ∧ i < a.dim then C 0 1 else 0 := by
  intro v i hv hi
  by_cases hz : v ≠ i ∧ (a.dim ≤ v ∨ a.dim ≤ i)
  · rw [C65_orthotropic ha hg he h hC hv hi hz.1 hz.2, if_neg hz.1, if_neg (by omega)]
  obtain ⟨hb, -⟩ := reach_built ha h
  have hd : s.obj.cfg.dim = a.dim := (cnt_of_built ha hb (k := 0) (by have := ha.dim; omega)).1
  have hsw : ∀ p q, p < a.dim → q < a.dim → ∀ v i, v < s.obj.cfg.nvoi → i < s.obj.cfg.nvoi →
      C v i = C ((AxisMap.swap p q).comp a.dim v) ((AxisMap.swap p q).comp a.dim i) := by
    intro p q hp hq v i hv hi
    have := C65_symmetry ha hg he (swap_symmetry (a := a) ha hp hq (by rw [hn p hp, hn q hq])
      (by rw [hl p hp, hl q hq]) (fun h1 => by rw [hm] at h1; exact absurd h1 (by decide))) h hC hv hi
    rw [this]
    have e1 : ∀ v, (AxisMap.swap p q).csign a.dim v = 1 := fun v => by
      simp [AxisMap.csign, AxisMap.sign, AxisMap.swap]
    rw [e1, e1]
    ring
  unfold Cfg.nvoi at hv hi hsw
  rw [hd] at hv hi hsw
  rcases ha.dim with h2 | h3
  · rw [h2] at hsw hv hi hz ⊢
    simp only [if_true] at hv hi hsw
    have k1 := hsw 0 1 (by omega) (by omega) 0 0 (by omega) (by omega)
    have k2 := hsw 0 1 (by omega) (by omega) 0 1 (by omega) (by omega)
    simp [AxisMap.comp, AxisMap.swap, AxisMap.fst, AxisMap.snd, AxisMap.vix] at k1 k2
    interval_cases v <;> interval_cases i <;> simp <;> first | omega | linarith
  · rw [h3] at hsw hv hi hz ⊢
    have h32 : ¬ (3 : Nat) = 2 := by decide
    simp only [h32, if_false] at hv hi hsw
    have k1 := hsw 0 1 (by omega) (by omega) 0 0 (by omega) (by omega)
    have k2 := hsw 0 2 (by omega) (by omega) 0 0 (by omega) (by omega)
    have k3 := hsw 0 1 (by omega) (by omega) 0 1 (by omega) (by omega)
    have k4 := hsw 1 2 (by omega) (by omega) 0 1 (by omega) (by omega)
    have k5 := hsw 0 2 (by omega) (by omega) 0 1 (by omega) (by omega)
    have k6 := hsw 0 2 (by omega) (by omega) 1 0 (by omega) (by omega)
    have k7 := hsw 1 2 (by omega) (by omega) 1 0 (by omega) (by omega)
    have k8 := hsw 1 2 (by omega) (by omega) 3 3 (by omega) (by omega)
    have k9 := hsw 0 2 (by omega) (by omega) 3 3 (by omega) (by omega)
    simp [AxisMap.comp, AxisMap.swap, AxisMap.fst, AxisMap.snd, AxisMap.vix] at k1 k2 k3 k4 k5 k6 k7 k8 k9
    interval_cases v <;> interval_cases i <;> simp <;> first | omega | linarith

/-! Examples. -/

/-- The layered cell: reversing the first axis reverses the sign of two shears of the macro stress. -/
example (eps : Nat → ℝ) : ∃ (s : ObjFiles ℝ) (u u' : Buf ℝ) (r r' : _), Reach exEnv exArgs3 exJunk exCalls s ∧
    Equilibrium s.obj.cfg { s.obj.work with u := u } eps ∧
    Equilibrium s.obj.cfg { s.obj.work with u := u' } ((AxisMap.mirror 0).image s.obj.cfg.dim eps) ∧
    calcAveStress s.obj.cfg { s.obj.work with u := u } = .ok r ∧
    calcAveStress s.obj.cfg { s.obj.work with u := u' } = .ok r' ∧
    ∀ v, v < s.obj.cfg.nvoi → r'.ave v / s.obj.cfg.thick
      = (AxisMap.mirror 0).image s.obj.cfg.dim r.ave v / s.obj.cfg.thick := by
  obtain ⟨s, hs⟩ := reach_exists exEnv_quick exArgs3_ok exJunk exCalls
  obtain ⟨b1, o1⟩ := reach_built exArgs3_ok hs
  have g1 := b1.geom exArgs3_geom
  have e1 := b1.elastic exArgs3_elastic
  have hd : exArgs3.dim = 3 := rfl
  have hm := image_of_reach exArgs3_ok exArgs3_elastic (mirror_symmetry (a := exArgs3) (k := 0) (by omega) (by omega)
    (fun _ => by omega)) hs
  obtain ⟨u, hu⟩ := equilibrium_exists b1.ok g1 e1 o1.work eps
  obtain ⟨u', hu'⟩ := equilibrium_exists b1.ok g1 e1 o1.work ((AxisMap.mirror 0).image s.obj.cfg.dim eps)
  obtain ⟨r, r', h⟩ := C65_image b1.ok g1 e1 b1.ok g1 e1 hm (fun _ _ => rfl) hu hu'
  exact ⟨s, u, u', r, r', hs, hu, hu', h⟩

example : ∃ (s : ObjFiles ℝ) (C : Nat → Nat → ℝ), Reach exEnv exArgs3 exJunk exCalls s ∧ IsStiffness s.obj.cfg C ∧
    0 < C 4 4 ∧ C 4 1 = 0 ∧ C 4 5 = 0 := by
  obtain ⟨s, hs⟩ := reach_exists exEnv_quick exArgs3_ok exJunk exCalls
  obtain ⟨b1, o1⟩ := reach_built exArgs3_ok hs
  obtain ⟨⟨C, hC⟩, -, hp⟩ := stiffness_unique b1.ok (b1.geom exArgs3_geom) (b1.elastic exArgs3_elastic) o1.work
  have hn : s.obj.cfg.nvoi = 6 := by obtain ⟨et, ct, h⟩ := b1.eq; rw [h]; rfl
  have hd : exArgs3.dim = 3 := rfl
  exact ⟨s, C, hs, hC, hp C hC 4 (by omega),
    C65_orthotropic exArgs3_ok exArgs3_geom exArgs3_elastic hs hC (by omega) (by omega) (by omega) (by omega),
    C65_orthotropic exArgs3_ok exArgs3_geom exArgs3_elastic hs hC (by omega) (by omega) (by omega) (by omega)⟩

/-- A cube with a spherical inclusion. -/
noncomputable def exArgsC : Args ℝ :=
  { exArgs3 with size := fun _ => 5, microType := 0, microParams := fun i => if i = 3 then 3 / 2 else 4 }

example : ∃ (s : ObjFiles ℝ) (C : Nat → Nat → ℝ), Reach exEnv exArgsC exJunk exCalls s ∧ IsStiffness s.obj.cfg C ∧
    0 < C 0 0 ∧ C 2 2 = C 0 0 ∧ C 1 2 = C 0 1 ∧ C 5 5 = C 3 3 := by
  have ok : exArgsC.Ok := by refine ⟨Or.inr rfl, Or.inl rfl, ?_, ?_, fun _ => ?_⟩ <;> simp [exArgsC]
  have geom : exArgsC.Geom := by refine ⟨?_, ?_, fun _ => ?_⟩ <;> norm_num [exArgsC]
  have elastic : exArgsC.Elastic := ⟨exArgs3_elastic.E, exArgs3_elastic.lo, exArgs3_elastic.hi, exArgs3_elastic.ty⟩
  obtain ⟨s, hs⟩ := reach_exists exEnv_quick ok exJunk exCalls
  obtain ⟨b1, o1⟩ := reach_built ok hs
  obtain ⟨⟨C, hC⟩, -, hp⟩ := stiffness_unique b1.ok (b1.geom geom) (b1.elastic elastic) o1.work
  have hn : s.obj.cfg.nvoi = 6 := by obtain ⟨et, ct, h⟩ := b1.eq; rw [h]; rfl
  have hd : exArgsC.dim = 3 := rfl
  have h := C65_cubic ok geom elastic rfl (fun _ _ => rfl) (fun k hk => by
    have : k ≠ 3 := by omega
    simp [exArgsC, this]) hs hC
  have h1 := h 2 2 (by omega) (by omega)
  have h2 := h 1 2 (by omega) (by omega)
  have h3 := h 5 5 (by omega) (by omega)
  rw [hd] at h1 h2 h3
  exact ⟨s, C, hs, hC, hp C hC 0 (by omega), by simpa using h1, by simpa using h2, by simpa using h3⟩

end Verif.Props
