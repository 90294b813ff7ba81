import Verif.Lemmas.FpPlastic
import Verif.Lemmas.FpAnswer
import Verif.Lemmas.PlasticCell
import Verif.Props.PlasticCell

/-! # A cell with plastic elements in rounded arithmetic -/

namespace Verif
open Spec Finset

section Near
variable {ι : Type} {S : Fam ι} {c : (i : ι) → Cfg (Fl (S.fp i))} {C : Cfg ℝ}

theorem Spec.NearF.eqn {a : (i : ι) → Fl (S.fp i)} {x : ℝ} (d : Nat) (h : ∀ i, (a i).val = x) :
    NearF S d a fun _ => x :=
  (Near.const (S := S) d x).congr (fun i => (h i).symm) fun _ => rfl

/-- The bulk modulus. -/
theorem near_bulk (h : NearGrid S c C) (hJ : C.J2) (hs : ∀ i, ComputedJ2 (c i) C) {k : Nat} (hk : k < 2)
    (hp : (C.mats k).plasticity = true) : NearF S 0 (fun i => ((c i).mats k).k) fun _ => (C.mats k).k := by
  have hn : 1 - ((2 : Nat) : ℝ) * (C.mats k).nu ≠ 0 := by
    have := (hJ.mats k hk).hi; intro h0; push_cast at h0; linarith
  refine ((h.E k hk).divC ((NearF.nat 3).mul0 (NearF.one.sub ((NearF.nat 2).mul0 (h.nu k hk)))) ?_).congr
    (fun i => by rw [(hs i).bulk k hk]) fun _ => ?_
  · exact mul_ne_zero (by norm_num) hn
  · rw [(hJ.plastic k hk hp).k]; push_cast; rfl

/-- The stress at the Gauss points of a cell some of whose elements are plastic. -/
theorem near_sigJ2 (h : NearGrid S c C) (hC : C.Ok) (hJ : C.J2) (hs : ∀ i, ComputedJ2 (c i) C) {V : Buf ℝ}
    (hH : C.Hardened V) {vo : (i : ι) → Buf (Fl (S.fp i))} (hv : ∀ i, SameHistory C (vo i) V)
    {u : (i : ι) → Nat → Fl (S.fp i)} {x : ι → Nat → ℝ} (hu : NearV S (C.nx * C.ny * C.nz * 3) u x) :
    NearSig S c C u x vo fun _ => V := by
  intro ex ey ez hx hy hz gp hgp v hv6
  have hd := hJ.dim
  unfold gpSig
  simp only [Cfg.el, h.nx, h.ny]
  obtain ⟨k, hk, h1, h2⟩ := h.mat hx hy (Or.inr hz)
  have hpl : ∀ i, ((c i).mats k).plasticity = (C.mats k).plasticity := fun i => (hs i).plast hd k hk
  have st := fun v => near_strain3 h hd hu hx hy hz gp v
  simp only [h1, h2, sig3, hpl]
  by_cases hp : (C.mats k).plasticity = true
  · simp only [if_pos hp]
    have hm : (ex, ey, ez) ∈ C.fe.elems := by
      rw [Cfg.fe_3 hd, Fe.mem_elems]
      exact ⟨hx, hy, hz⟩
    have hmat : C.matAt (ex, ey, ez) = C.mats k := h2
    have hR := C.radius_pos hJ hH hm (by rw [hmat]; exact hp) hgp
    refine near_plastic (hJ.plastic k hk hp) (h.mu k hk) (near_bulk h hJ hs hk hp)
      (NearF.eqn 0 fun i => (hs i).Sy k hk) (NearF.eqn 0 fun i => (hs i).Ka k hk)
      (NearF.eqn 0 fun i => hv i ex ey ez hx hy hz gp hgp 6 (by omega))
      (fun v _ => st v) (fun v hv6 => ?_) hR (fun i => ?_) hv6
    · unfold epsPAt
      simp only [if_pos hv6]
      exact NearF.eqn 1 fun i => hv i ex ey ez hx hy hz gp hgp v (by omega)
    · unfold Cfg.radius
      rw [hmat]
  · simp only [if_neg hp]
    unfold elasticStress3D
    split
    · exact ((h.lambda k hk).mul0 (((st 0).add (st 1)).add (st 2))).add
        (((NearF.nat 2).mul0 (h.mu k hk)).mul0 (st v))
    · exact (h.mu k hk).mul0 (st v)

/-- A family over a finite set. -/
theorem Spec.Near.allF {β : Type} {d : Nat} (s : Finset β) {a x : β → ι → ℝ}
    (h : ∀ b ∈ s, Near S d (a b) (x b)) :
    ∃ K, 1 ≤ K ∧ ∀ b ∈ s, ∀ i, K * (S.fp i).u ≤ 1 →
      |a b i - x b i| ≤ K * (S.fp i).u * S.m i ^ d ∧ |x b i| ≤ K * S.m i ^ d := by
  classical
  induction s using Finset.induction_on with
  | empty => exact ⟨1, le_refl _, fun b hb => by simp at hb⟩
  | insert b0 s _ ih =>
    obtain ⟨K, hK, h1⟩ := ih fun b hb => h b (mem_insert_of_mem hb)
    obtain ⟨L, hL, h2⟩ := h b0 (mem_insert_self ..)
    refine ⟨max K L, le_trans hK (le_max_left _ _), fun b hb i hi => ?_⟩
    rcases mem_insert.mp hb with rfl | hb
    · exact Near.up (le_max_right _ _) h2 i hi
    · exact Near.up (le_max_left _ _) (h1 b hb) i hi

end Near

/-- A displacement field in a format, for one history and one macro strain. -/
structure PlRun (c : Cfg ℝ) (V : Buf ℝ) (e : Nat → ℝ) where
  fp : Fp
  eta : fp.eta ≤ fp.u ^ 2
  c' : Cfg (Fl fp)
  comp : ComputedJ2 c' c
  u : Nat → Fl fp
  vo : Buf (Fl fp)
  hist : SameHistory c vo V
  f : Nat → Fl fp
  eps : Nat → Fl fp
  eps_eq : ∀ v, v < c.nvoi → (eps v).val = e v
  x : Nat → Fl fp
  bd : ∀ q, q < c.nn * c.dim → c.fe.Bd q → u q = c'.displV eps x q
  M : ℝ
  one_le : 1 ≤ M
  u_le : ∀ q, q < c.nn * c.dim → |(u q).val| ≤ M

def PlRun.fam (c : Cfg ℝ) (V : Buf ℝ) (e : Nat → ℝ) : Fam (PlRun c V e) :=
  ⟨PlRun.fp, PlRun.M, PlRun.one_le, PlRun.eta⟩

variable {c : Cfg ℝ} {V : Buf ℝ} {e : Nat → ℝ}

open Classical in
/-- The field with the exact boundary values. -/
noncomputable def PlRun.y (R : PlRun c V e) (q : Nat) : ℝ :=
  if c.fe.Bd q then c.fe.affine (c.fe.symGrad e) (fun _ => 0) q else (R.u q).val

theorem PlRun.grid (hc : c.Ok) (hg : c.Geom) (hJ : c.J2) : NearGrid (PlRun.fam c V e) (fun R => R.c') c :=
  Computed.grid (fun R => R.comp.toComputed) hc hg hJ.mats

theorem PlRun.nearU (hc : c.Ok) (hg : c.Geom) (hJ : c.J2) :
    NearV (PlRun.fam c V e) (c.nn * c.dim) (fun R => R.u) (fun R => R.y) := by
  have hN := PlRun.grid (V := V) (e := e) hc hg hJ
  intro q hq
  by_cases hb : c.fe.Bd q
  · refine (near_displV hN hc (eps := fun R => R.eps) (ex := fun _ => e)
      (fun v hv => NearF.eqn 1 fun R => R.eps_eq v hv) (fun R => R.x) (fun _ _ => 0) hq
      ((onBdry_iff hc q).mpr hb)).congr (fun R => (R.bd q hq hb).symm) fun R => ?_
    refine Eq.trans ?_ (if_pos hb).symm
    exact displV_real hc hg.toDivided _ _ q (by rw [c.fe_nn hc]; exact hq) hb
  · refine (NearF.self fun R => R.u_le q hq).congr (fun R => rfl) fun R => (if_neg hb).symm

/-- The value of the yield function at a Gauss point of a plastic element. -/
theorem PlRun.near_yield (hc : c.Ok) (hg : c.Geom) (hJ : c.J2) {ex ey ez gp k : Nat} (hx : ex < c.nx - 1)
    (hy : ey < c.ny - 1) (hz : ez < c.nz - 1) (hgp : gp < 8) (hk : k < 2) :
    NearF (PlRun.fam c V e) 1 (fun R => fTrial (R.c'.mats k) (strain3 R.c' R.u ex ey ez gp)
        (epsPAt R.vo (gloElem3D c.nx c.ny ex ey ez) gp) (alphaAt R.vo (gloElem3D c.nx c.ny ex ey ez) gp))
      (fun R => stressNorm (sigTrial (c.mats k) (strain3 c R.y ex ey ez gp)
          (epsPAt V (gloElem3D c.nx c.ny ex ey ez) gp))
        - yieldRadius (c.mats k).Sy (c.mats k).Ka (alphaAt V (gloElem3D c.nx c.ny ex ey ez) gp)) := by
  have hd := hJ.dim
  have hN := PlRun.grid (V := V) (e := e) hc hg hJ
  have hN' : c.nn * c.dim = c.nx * c.ny * c.nz * 3 := by rw [hd]; rfl
  have hu := hN' ▸ PlRun.nearU (V := V) (e := e) hc hg hJ
  refine near_fTrial (S := PlRun.fam c V e) (hN.mu k hk) (NearF.eqn 0 fun R => R.comp.Sy k hk)
    (NearF.eqn 0 fun R => R.comp.Ka k hk)
    (NearF.eqn 0 fun R => R.hist ex ey ez hx hy hz gp hgp 6 (by omega))
    (fun v _ => near_strain3 hN hd hu hx hy hz gp v) (fun v hv6 => ?_)
  unfold epsPAt
  simp only [if_pos hv6]
  exact NearF.eqn 1 fun R => R.hist ex ey ez hx hy hz gp hgp v (by omega)

/-- All of them with one constant. -/
theorem PlRun.yields (hc : c.Ok) (hg : c.Geom) (hJ : c.J2) : ∃ K, 1 ≤ K ∧ ∀ R : PlRun c V e, K * R.fp.u ≤ 1 →
    ∀ x ∈ c.fe.elems, ∀ gp, gp < 8 → ∀ k, k < 2 →
      |(fTrial (R.c'.mats k) (strain3 R.c' R.u x.1 x.2.1 x.2.2 gp)
          (epsPAt R.vo (gloElem3D c.nx c.ny x.1 x.2.1 x.2.2) gp)
          (alphaAt R.vo (gloElem3D c.nx c.ny x.1 x.2.1 x.2.2) gp)).val
        - (stressNorm (sigTrial (c.mats k) (strain3 c R.y x.1 x.2.1 x.2.2 gp)
            (epsPAt V (gloElem3D c.nx c.ny x.1 x.2.1 x.2.2) gp))
          - yieldRadius (c.mats k).Sy (c.mats k).Ka (alphaAt V (gloElem3D c.nx c.ny x.1 x.2.1 x.2.2) gp))|
        ≤ K * R.fp.u * R.M := by
  obtain ⟨K, hK, h⟩ := Near.allF (S := PlRun.fam c V e) (d := 1) (c.fe.elems ×ˢ range 8 ×ˢ range 2)
    (a := fun t R => (fTrial (R.c'.mats t.2.2) (strain3 R.c' R.u t.1.1 t.1.2.1 t.1.2.2 t.2.1)
          (epsPAt R.vo (gloElem3D c.nx c.ny t.1.1 t.1.2.1 t.1.2.2) t.2.1)
          (alphaAt R.vo (gloElem3D c.nx c.ny t.1.1 t.1.2.1 t.1.2.2) t.2.1)).val)
    (x := fun t R => stressNorm (sigTrial (c.mats t.2.2) (strain3 c R.y t.1.1 t.1.2.1 t.1.2.2 t.2.1)
            (epsPAt V (gloElem3D c.nx c.ny t.1.1 t.1.2.1 t.1.2.2) t.2.1))
          - yieldRadius (c.mats t.2.2).Sy (c.mats t.2.2).Ka
            (alphaAt V (gloElem3D c.nx c.ny t.1.1 t.1.2.1 t.1.2.2) t.2.1))
    (fun t ht => by
      simp only [mem_product, mem_range] at ht
      obtain ⟨h1, h2, h3⟩ := ht
      rw [Cfg.fe_3 hJ.dim, Fe.mem_elems] at h1
      exact PlRun.near_yield (V := V) (e := e) hc hg hJ h1.1 h1.2.1 h1.2.2 h2 h3)
  refine ⟨K, hK, fun R hR x hx gp hgp k hk => ?_⟩
  have := (h (x, gp, k) (by simp only [mem_product, mem_range]; exact ⟨hx, hgp, hk⟩) R hR).1
  rw [pow_one] at this
  exact this

/-- Residual and average stress are computed with small errors. -/
theorem PlRun.errors (hc : c.Ok) (hg : c.Geom) (hJ : c.J2) (hH : c.Hardened V) :
    ∃ K, 1 ≤ K ∧ ∀ R : PlRun c V e, K * R.fp.u ≤ 1 →
      (∀ q, q < c.nn * c.dim → |(R.c'.residV R.u R.vo R.f q).val
        - (if c.fe.Bd q then 0 else -c.fe.force (c.sig R.y V) q)| ≤ K * R.fp.u * R.M) ∧
      (∀ v, v < 6 → |(R.c'.aveV R.u R.vo v).val
        - c.thick / c.fe.vol * c.fe.integral fun e gp => c.sig R.y V e gp v| ≤ K * R.fp.u * R.M) ∧
      (∀ q, q < c.nn * c.dim → |(R.u q).val - R.y q| ≤ K * R.fp.u * R.M) := by
  have hd := hJ.dim
  have hN := PlRun.grid (V := V) (e := e) hc hg hJ
  have hu := PlRun.nearU (V := V) (e := e) hc hg hJ
  have hN' : c.nn * c.dim = c.nx * c.ny * c.nz * 3 := by rw [hd]; rfl
  have hu' := hN' ▸ hu
  have hs := near_sigJ2 hN hc hJ (fun R => R.comp) hH (fun R => R.hist) hu'
  obtain ⟨K1, k1, h1⟩ := Near.all (S := PlRun.fam c V e) (d := 1) (N := c.nn * c.dim) (P := fun _ => True)
    (a := fun q R => (R.c'.residV R.u R.vo R.f q).val)
    (x := fun q R => resid3 c R.y V (fun _ => 0) q)
    fun q hq _ => by
      refine (near_resid3 hN hd hs (fun R => R.f) (fun _ _ => 0) (hN' ▸ hq)).congr (fun R => ?_) fun R => rfl
      have hn : ¬ R.c'.dim = 2 := by
        have h : R.c'.dim = c.dim := hN.dim R
        rw [h, hd]; decide
      unfold Cfg.residV
      rw [if_neg hn]
      rfl
  obtain ⟨K2, k2, h2⟩ := Near.all (S := PlRun.fam c V e) (d := 1) (N := 6) (P := fun _ => True)
    (a := fun v R => (R.c'.aveV R.u R.vo v).val)
    (x := fun v R => aveSig3 c R.y V v / (c.lx * c.ly))
    fun v hv _ => by
      refine (near_aveSig3 hN hd hs hv).congr (fun R => ?_) fun R => rfl
      have hn : ¬ R.c'.dim = 2 := by
        have h : R.c'.dim = c.dim := hN.dim R
        rw [h, hd]; decide
      unfold Cfg.aveV
      rw [if_neg hn]
      rfl
  obtain ⟨K3, k3, h3⟩ := Near.all (S := PlRun.fam c V e) (d := 1) (N := c.nn * c.dim) (P := fun _ => True)
    (a := fun q R => (R.u q).val) (x := fun q R => R.y q) fun q hq _ => hu q hq
  have esig : ∀ u, c.sig u V = c.sigF3 u V := fun u => by
    funext e gp v; unfold Cfg.sig; rw [if_neg (by omega)]
  refine ⟨max K1 (max K2 K3), le_trans k1 (le_max_left _ _), fun R hR => ⟨?_, ?_, ?_⟩⟩
  · intro q hq
    have := (Near.up (le_max_left _ _) (h1 q hq trivial) R hR).1
    rw [resid3_eq (hc.nz3 hd) _ _ _ (hN' ▸ hq), pow_one] at this
    rw [esig, Cfg.fe_3 hd]
    exact this
  · intro v hv
    have := (Near.up (le_trans (le_max_left _ _) (le_max_right _ _)) (h2 v hv trivial) R hR).1
    rw [aveSig3_eq, Props.div_area hc hg, pow_one] at this
    rw [esig]
    rw [Cfg.fe_3 hd] at this ⊢
    rw [div_mul_eq_mul_div, mul_div_assoc]
    exact this
  · intro q hq
    have := (Near.up (le_trans (le_max_right _ _) (le_max_right _ _)) (h3 q hq trivial) R hR).1
    rw [pow_one] at this
    exact this

/-- The boundary values of one macro strain in a format. -/
structure BdRun (c : Cfg ℝ) (e : Nat → ℝ) where
  fp : Fp
  eta : fp.eta ≤ fp.u ^ 2
  c' : Cfg (Fl fp)
  comp : Computed c' c
  eps : Nat → Fl fp
  eps_eq : ∀ v, v < c.nvoi → (eps v).val = e v
  x : Nat → Fl fp

def BdRun.fam (c : Cfg ℝ) (e : Nat → ℝ) : Fam (BdRun c e) :=
  ⟨BdRun.fp, fun _ => 1, fun _ => le_refl _, BdRun.eta⟩

theorem BdRun.bound (hc : c.Ok) (hg : c.Geom) (he : ∀ k, k < 2 → (c.mats k).Admissible) :
    ∃ K, 1 ≤ K ∧ ∀ R : BdRun c e, K * R.fp.u ≤ 1 → ∀ q, q < c.nn * c.dim → c.fe.Bd q →
      |(R.c'.displV R.eps R.x q).val| ≤ 2 * K := by
  have hN : NearGrid (BdRun.fam c e) (fun R => R.c') c := Computed.grid (fun R => R.comp) hc hg he
  obtain ⟨K, k1, h1⟩ := Near.all (S := BdRun.fam c e) (d := 1) (N := c.nn * c.dim) (P := fun q => c.OnBdry q)
    (a := fun q R => (R.c'.displV R.eps R.x q).val) (x := fun q _ => c.displV e (fun _ => 0) q)
    fun q hq hb => near_displV hN hc (eps := fun R => R.eps) (ex := fun _ => e)
      (fun v hv => NearF.eqn 1 fun R => R.eps_eq v hv) (fun R => R.x) (fun _ _ => 0) hq hb
  refine ⟨K, k1, fun R hR q hq hb => ?_⟩
  obtain ⟨a1, a2⟩ := h1 q hq ((onBdry_iff hc q).mpr hb) R hR
  have e1 : (BdRun.fam c e).m R = 1 := rfl
  rw [e1, one_pow, mul_one] at a1 a2
  have a3 : |(R.c'.displV R.eps R.x q).val| ≤ |(R.c'.displV R.eps R.x q).val - c.displV e (fun _ => 0) q|
      + |c.displV e (fun _ => 0) q| := by
    calc |(R.c'.displV R.eps R.x q).val| = |((R.c'.displV R.eps R.x q).val - c.displV e (fun _ => 0) q)
        + c.displV e (fun _ => 0) q| := by ring_nf
      _ ≤ _ := abs_add_le _ _
  have a4 : K * ((BdRun.fam c e).fp R).u ≤ 1 := hR
  linarith

/-- A rounded field with small residual is near an exact field whose stress is near that of the
equilibrium. -/
theorem plastic_near (hc : c.Ok) (hg : c.Geom) (hJ : c.J2) (hH : c.Hardened V) {y : Nat → ℝ}
    (hy : c.fe.OnBd e y) (hq : c.fe.Equil (c.sig y V)) :
    ∃ K d u0 : ℝ, 0 < K ∧ 0 < d ∧ 0 < u0 ∧ ∀ (fp : Fp), fp.u ≤ u0 → fp.eta ≤ fp.u ^ 2 →
      ∀ (c' : Cfg (Fl fp)), ComputedJ2 c' c → ∀ (u eps x : Nat → Fl fp) (vo : Buf (Fl fp))
        (f : Nat → Fl fp) (T M : ℝ), SameHistory c vo V → (∀ v, v < 6 → (eps v).val = e v) → 0 ≤ T → 1 ≤ M →
      (∀ q, q < c.nn * c.dim → ¬ c.fe.Bd q → |(u q).val| ≤ M) → T + fp.u * M ≤ d →
      (∀ q, q < c.nn * c.dim → c.fe.Bd q → u q = c'.displV eps x q) →
      (∀ q, q < c.nn * c.dim → |(c'.residV u vo f q).val| ≤ T) →
      ∃ z : Nat → ℝ, c.fe.OnBd e z ∧ (c.potential hJ hH).gap y z ≤ K * (T + fp.u) ∧
        (∀ v, v < 6 → |(c'.aveV u vo v).val
          - c.thick / c.fe.vol * c.fe.integral fun e gp => c.sig z V e gp v| ≤ K * fp.u) ∧
        ∀ x ∈ c.fe.elems, ∀ gp, gp < 8 → ∀ k, k < 2 →
          |(fTrial (c'.mats k) (strain3 c' u x.1 x.2.1 x.2.2 gp)
              (epsPAt vo (gloElem3D c.nx c.ny x.1 x.2.1 x.2.2) gp)
              (alphaAt vo (gloElem3D c.nx c.ny x.1 x.2.1 x.2.2) gp)).val
            - (stressNorm (sigTrial (c.mats k) (strain3 c z x.1 x.2.1 x.2.2 gp)
                (epsPAt V (gloElem3D c.nx c.ny x.1 x.2.1 x.2.2) gp))
              - yieldRadius (c.mats k).Sy (c.mats k).Ka (alphaAt V (gloElem3D c.nx c.ny x.1 x.2.1 x.2.2) gp))|
            ≤ K * fp.u := by
  have hd := hJ.dim
  have hF := c.good hc hg
  have n6 : c.nvoi = 6 := by unfold Cfg.nvoi; rw [if_neg (by omega)]
  have hN := c.fe_nn hc
  obtain ⟨K1, hK1, H1⟩ := PlRun.errors (e := e) hc hg hJ hH
  obtain ⟨K2, hK2, H2⟩ := PlRun.yields (V := V) (e := e) hc hg hJ
  obtain ⟨L, d0, hL, hd0, HL⟩ := Fe.pot_near (c.potential hJ hH) hF ((c.equil_potential hc hJ hH y).mp hq)
  obtain ⟨D, hD, HD⟩ := BdRun.bound (e := e) hc hg hJ.mats
  obtain ⟨Y, hY, hY1, -⟩ := exists_max y 1 (c.nn * c.dim)
  let K := K1 + K2
  have hK : 1 ≤ K := by show 1 ≤ K1 + K2; linarith
  let M0 := L + Y + d0
  have hM0 : 1 ≤ M0 := by show 1 ≤ L + Y + d0; linarith
  refine ⟨K * M0 * (1 + L), d0 / (2 * K),
    min (1 / K) (min (1 / D) (d0 / (4 * K * D))), by positivity, by positivity, by positivity, ?_⟩
  intro fp hu heta c' hcomp u eps x vo f T M hh heps hT hM huM hTM hbd hres
  have hu0 := fp.u_nonneg
  have hKu1 : K * fp.u ≤ 1 := by
    calc K * fp.u ≤ K * (1 / K) := mul_le_mul_of_nonneg_left (le_trans hu (min_le_left _ _)) (by linarith)
      _ = 1 := by field_simp
  have hK1u : K1 * fp.u ≤ K * fp.u := mul_le_mul_of_nonneg_right (by show K1 ≤ K1 + K2; linarith) hu0
  have hK2u : K2 * fp.u ≤ K * fp.u := mul_le_mul_of_nonneg_right (by show K2 ≤ K1 + K2; linarith) hu0
  have hDu1 : D * fp.u ≤ 1 := by
    calc D * fp.u ≤ D * (1 / D) := mul_le_mul_of_nonneg_left
          (le_trans hu (le_trans (min_le_right _ _) (min_le_left _ _))) (by linarith)
      _ = 1 := by field_simp
  have hKD : K * fp.u * (2 * D) ≤ d0 / 2 := by
    calc K * fp.u * (2 * D) = 2 * K * D * fp.u := by ring
      _ ≤ 2 * K * D * (d0 / (4 * K * D)) := mul_le_mul_of_nonneg_left
          (le_trans hu (le_trans (min_le_right _ _) (min_le_right _ _))) (by positivity)
      _ = d0 / 2 := by field_simp; norm_num
  obtain ⟨B, hB, hB1, hB2⟩ := exists_max (fun q => (u q).val) 1 (c.nn * c.dim)
  have hBM : B ≤ M ∨ B ≤ 2 * D := by
    rcases hB2 with h | ⟨q, hq, h⟩
    · exact Or.inl (by linarith)
    · rw [h]
      by_cases hb : c.fe.Bd q
      · right
        show |(u q).val| ≤ _
        rw [hbd q hq hb]
        exact HD ⟨fp, heta, c', hcomp.toComputed, eps, fun v hv => heps v (n6 ▸ hv), x⟩ hDu1 q hq hb
      · exact Or.inl (huM q hq hb)
  let R : PlRun c V e := ⟨fp, heta, c', hcomp, u, vo, hh, f, eps, fun v hv => heps v (n6 ▸ hv), x, hbd, B, hB, hB1⟩
  have hB0 : 0 ≤ B := by linarith
  have up1 : ∀ {a : ℝ}, a ≤ K1 * fp.u * B → a ≤ K * fp.u * B := fun h =>
    h.trans (mul_le_mul_of_nonneg_right hK1u hB0)
  have up2 : ∀ {a : ℝ}, a ≤ K2 * fp.u * B → a ≤ K * fp.u * B := fun h =>
    h.trans (mul_le_mul_of_nonneg_right hK2u hB0)
  obtain ⟨h1, h2, h3⟩ := H1 R (hK1u.trans hKu1)
  have h1 : ∀ q, q < c.nn * c.dim → |(c'.residV u vo f q).val
        - (if c.fe.Bd q then 0 else -c.fe.force (c.sig R.y V) q)| ≤ K * fp.u * B := fun q hq => up1 (h1 q hq)
  have h3 : ∀ q, q < c.nn * c.dim → |(u q).val - R.y q| ≤ K * fp.u * B := fun q hq => up1 (h3 q hq)
  have hd1 : T + K * fp.u * B ≤ d0 := by
    have a2 : K * (T + fp.u * M) ≤ d0 / 2 := by
      have := mul_le_mul_of_nonneg_left hTM (show 0 ≤ K by linarith)
      have e : K * (d0 / (2 * K)) = d0 / 2 := by field_simp
      linarith
    have a3 : T ≤ K * T := le_mul_of_one_le_left hT hK
    have a4 : 0 ≤ K * fp.u * M := by positivity
    have e : K * (T + fp.u * M) = K * T + K * fp.u * M := by ring
    rcases hBM with hBM | hBM
    · have a1 : K * fp.u * B ≤ K * fp.u * M := mul_le_mul_of_nonneg_left hBM (by positivity)
      linarith
    · have a1 : K * fp.u * B ≤ K * fp.u * (2 * D) := mul_le_mul_of_nonneg_left hBM (by positivity)
      linarith
  have hKuB : 0 ≤ K * fp.u * B := by positivity
  have hRy : c.fe.OnBd e R.y := fun r hr hb => by
    unfold PlRun.y
    rw [if_pos hb]
  obtain ⟨g1, g2⟩ := HL R.y (T + K * fp.u * B) (by linarith) hd1
    (fun r hr hb => by rw [hy r hr hb, hRy r hr hb])
    (fun r hr hb => by
      rw [← c.force_potential hc hJ hH]
      rw [hN] at hr
      have a1 := h1 r hr
      rw [if_neg hb] at a1
      have a2 := hres r hr
      rw [abs_le] at a1 a2 ⊢
      constructor <;> linarith [a1.1, a1.2, a2.1, a2.2])
  have hBM0 : B ≤ M0 := by
    rcases hB2 with h | ⟨q, hq, h⟩
    · linarith
    · have a1 := h3 q hq
      have a2 := g2 q (by rw [hN]; exact hq)
      have a3 := hY1 q hq
      have a4 : |(u q).val| ≤ |(u q).val - R.y q| + |R.y q - y q| + |y q| := by
        calc |(u q).val| = |((u q).val - R.y q) + (R.y q - y q) + y q| := by ring_nf
          _ ≤ _ := abs_add_three _ _ _
      have a5 : B = |(u q).val| := h
      show B ≤ L + Y + d0
      linarith
  have hKuM : K * fp.u * B ≤ K * fp.u * M0 := mul_le_mul_of_nonneg_left hBM0 (by positivity)
  have hKM : 1 ≤ K * M0 := one_le_mul_of_one_le_of_one_le hK hM0
  have hfin : K * fp.u * M0 ≤ K * M0 * (1 + L) * fp.u := by
    have : 0 ≤ K * M0 * L * fp.u := by positivity
    have e : K * M0 * (1 + L) * fp.u = K * fp.u * M0 + K * M0 * L * fp.u := by ring
    linarith
  refine ⟨R.y, hRy, ?_, fun v hv => (up1 (h2 v hv)).trans (hKuM.trans hfin), fun x hx gp hgp k hk =>
    (up2 (H2 R (hK2u.trans hKu1) x hx gp hgp k hk)).trans (hKuM.trans hfin)⟩
  have a1 : T + K * fp.u * B ≤ K * M0 * (T + fp.u) := by
    have : T ≤ K * M0 * T := le_mul_of_one_le_left hT hKM
    have e : K * M0 * (T + fp.u) = K * M0 * T + K * fp.u * M0 := by ring
    linarith
  have a2 : L * (T + K * fp.u * B) ≤ L * (K * M0 * (T + fp.u)) := mul_le_mul_of_nonneg_left a1 hL.le
  have e : K * M0 * (1 + L) * (T + fp.u) = K * M0 * (T + fp.u) + L * (K * M0 * (T + fp.u)) := by ring
  have a3 : 0 ≤ K * M0 * (T + fp.u) := by positivity
  linarith

/-- The stress of a rounded field with small residual is near that of the equilibrium. -/
theorem plastic_close (hc : c.Ok) (hg : c.Geom) (hJ : c.J2) (hH : c.Hardened V) {y : Nat → ℝ}
    (hy : c.fe.OnBd e y) (hq : c.fe.Equil (c.sig y V)) :
    ∃ K d u0 : ℝ, 0 < K ∧ 0 < d ∧ 0 < u0 ∧ ∀ (fp : Fp), fp.u ≤ u0 → fp.eta ≤ fp.u ^ 2 →
      ∀ (c' : Cfg (Fl fp)), ComputedJ2 c' c → ∀ (u eps x : Nat → Fl fp) (vo : Buf (Fl fp))
        (f : Nat → Fl fp) (T M : ℝ), SameHistory c vo V → (∀ v, v < 6 → (eps v).val = e v) → 0 ≤ T → 1 ≤ M →
      (∀ q, q < c.nn * c.dim → ¬ c.fe.Bd q → |(u q).val| ≤ M) → T + fp.u * M ≤ d →
      (∀ q, q < c.nn * c.dim → c.fe.Bd q → u q = c'.displV eps x q) →
      (∀ q, q < c.nn * c.dim → |(c'.residV u vo f q).val| ≤ T) →
      ∀ v, v < 6 → ((c'.aveV u vo v).val - c.thick / c.fe.vol * c.fe.integral fun e gp => c.sig y V e gp v) ^ 2
        ≤ K * (T + fp.u) := by
  have hd := hJ.dim
  have hF := c.good hc hg
  have e6 : c.fe.nvoi = 6 := by rw [Cfg.fe_3 hd]; rfl
  obtain ⟨K, d, u0, hK, hd0, hu0, H⟩ := plastic_near hc hg hJ hH hy hq
  obtain ⟨k, hk, hle⟩ := Props.kap_lower hc hg hJ
  have ht := Props.thick_pos hc hg
  have hV := Fe.vol_pos hF
  set t := c.thick / c.fe.vol
  have ht0 : 0 < t := div_pos ht hV
  let G := t ^ 2 * (c.fe.vol / k * K)
  have hG : 0 < G := by positivity
  refine ⟨2 * K + 2 * G, d, min u0 (1 / K), by positivity, hd0, by positivity, ?_⟩
  intro fp hu heta c' hcomp u eps x vo f T M hh heps hT hM huM hTM hbd hres v hv
  have hu0 := fp.u_nonneg
  have hKu1 : K * fp.u ≤ 1 := by
    calc K * fp.u ≤ K * (1 / K) := mul_le_mul_of_nonneg_left (le_trans hu (min_le_right _ _)) (by linarith)
      _ = 1 := by field_simp
  obtain ⟨z, -, g1, g2, -⟩ := H fp (le_trans hu (min_le_left _ _)) heta c' hcomp u eps x vo f T M hh heps hT hM huM
    hTM hbd hres
  have hv' : v < c.fe.nvoi := by rw [e6]; exact hv
  have h4 := Fe.pot_ave (c.potential hJ hH) hF hk (hle _ hH) y z
  have h5 := single_le_sum (f := fun v => c.fe.integral (fun e gp => (c.potential hJ hH).field z e gp v
    - (c.potential hJ hH).field y e gp v) ^ 2) (fun v _ => sq_nonneg _) (mem_range.mpr hv')
  beta_reduce at h5
  rw [← Props.ave_sub hJ hc hH _ _ hv'] at h5
  have g2 := g2 v hv
  set I := c.fe.integral fun e gp => c.sig z V e gp v
  set J := c.fe.integral fun e gp => c.sig y V e gp v
  have h6 : (t * (I - J)) ^ 2 ≤ G * (T + fp.u) := by
    have a1 : (I - J) ^ 2 ≤ c.fe.vol / k * (K * (T + fp.u)) :=
      (h5.trans h4).trans (mul_le_mul_of_nonneg_left g1 (by positivity))
    rw [mul_pow]
    calc t ^ 2 * (I - J) ^ 2 ≤ t ^ 2 * (c.fe.vol / k * (K * (T + fp.u))) :=
          mul_le_mul_of_nonneg_left a1 (by positivity)
      _ = _ := by show _ = t ^ 2 * (c.fe.vol / k * K) * _; ring
  set s := (c'.aveV u vo v).val
  have h7 : (s - t * I) ^ 2 ≤ K * fp.u := by
    have a2 : (s - t * I) ^ 2 ≤ (K * fp.u) ^ 2 := by
      rw [← sq_abs]; exact pow_le_pow_left₀ (abs_nonneg _) g2 2
    refine a2.trans ?_
    rw [sq]
    exact mul_le_of_le_one_left (by positivity) hKu1
  have h8 : (s - t * J) ^ 2 ≤ 2 * (s - t * I) ^ 2 + 2 * (t * (I - J)) ^ 2 := by
    have e : (s - t * J) ^ 2 = 2 * (s - t * I) ^ 2 + 2 * (t * (I - J)) ^ 2 - ((s - t * I) - t * (I - J)) ^ 2 := by
      ring
    rw [e]; linarith [sq_nonneg ((s - t * I) - t * (I - J))]
  have h9 : K * fp.u ≤ K * (T + fp.u) := mul_le_mul_of_nonneg_left (by linarith) hK.le
  have e : (2 * K + 2 * G) * (T + fp.u) = 2 * (K * (T + fp.u)) + 2 * (G * (T + fp.u)) := by ring
  rw [e]
  linarith

end Verif
