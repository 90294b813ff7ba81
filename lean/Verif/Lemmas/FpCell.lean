import Verif.Lemmas.FpFe
import Verif.Lemmas.FpNorm
import Verif.Lemmas.Stab
import Verif.Lemmas.Zero
import Verif.Spec.Rounded
import Verif.Props.Response

/-!
# Cells in rounded arithmetic

The closed forms in either number of dimensions; objects that hold the numbers of a cell.
-/

namespace Verif
open Spec

section Gen
variable {α : Type} [Scalar α] (c : Cfg α)

/-- The vector `assembly_rhs` leaves. -/
def Cfg.residV (u : Nat → α) (vo : Buf α) (f : Nat → α) : Nat → α :=
  if c.dim = 2 then resid2 c u f else resid3 c u vo f

/-- The average stress. -/
def Cfg.aveV (u : Nat → α) (vo : Buf α) (v : Nat) : α :=
  if c.dim = 2 then aveSig2 c u v / (c.lx * c.ly) else aveSig3 c u vo v / (c.lx * c.ly)

/-- The displacements after `set_displ`. -/
def Cfg.displV (eps u : Nat → α) : Nat → α :=
  if c.dim = 2 then displ2 c eps u else displ3 c eps u

variable {c}

theorem assemblyRhs_gen (hc : c.Ok) {w : Work α} (hw : w.Ok c) {r : RhsOut α}
    (h : assemblyRhs c w = .ok r) :
    r.norm = normOf (c.nn * c.dim) (c.residV w.u.val w.varsOld w.b.val) := by
  unfold Cfg.residV
  rcases hc.dim with hd | hd
  · have hN : c.nn * c.dim = c.nx * c.ny * 2 := by rw [hc.nn2 hd, hd]
    rw [assemblyRhs2_eq hc hd (hw.u2 hc hd) (by rw [hw.b, hN])] at h
    cases h
    rw [if_pos hd, hN]
  · have hN : c.nn * c.dim = c.nx * c.ny * c.nz * 3 := by rw [hd]; rfl
    rw [assemblyRhs3_eq hc hd (hw.u3 hd) (by rw [hw.b, hN]) hw.varsOld hw.varsNew] at h
    cases h
    rw [if_neg (by omega), hN]

theorem calcAveStress_gen (hc : c.Ok) {w : Work α} (hw : w.Ok c) {r : AveState α}
    (h : calcAveStress c w = .ok r) (v : Nat) : r.ave v = c.aveV w.u.val w.varsOld v := by
  unfold Cfg.aveV
  rcases hc.dim with hd | hd
  · rw [calcAveStress2_eq hc hd (hw.u2 hc hd)] at h
    cases h
    rw [if_pos hd]
  · rw [calcAveStress3_eq hc hd (hw.u3 hd) hw.varsOld hw.varsNew] at h
    cases h
    rw [if_neg (by omega)]

theorem setDispl_gen (hc : c.Ok) {w w1 : Work α} (hw : w.u.size = c.nn * c.dim) {eps : Nat → α}
    (h : setDispl c w eps = .ok w1) :
    w1 = { w with u := ⟨c.nn * c.dim, c.displV eps w.u.val⟩ } := by
  unfold Cfg.displV
  rcases hc.dim with hd | hd
  · have hN : c.nn * c.dim = c.nx * c.ny * 2 := by rw [hc.nn2 hd, hd]
    rw [hN] at hw ⊢
    rw [setDispl2_eq hc hd hw] at h
    cases h
    rw [if_pos hd]
  · have hN : c.nn * c.dim = c.nx * c.ny * c.nz * 3 := by rw [hd]; rfl
    rw [hN] at hw ⊢
    rw [setDispl3_eq hc hd hw] at h
    cases h
    rw [if_neg (by omega)]

end Gen

/-! ## Exact -/

section Real
variable {c : Cfg ℝ}

theorem residV_real (hc : c.Ok) (he : c.Elastic) (u : Nat → ℝ) (vo : Buf ℝ) (f : Nat → ℝ) {q : Nat}
    (hq : q < c.nn * c.dim) : c.residV u vo f q
      = if c.fe.Bd q then 0 else -c.fe.force (c.fe.stress c.law u) q := by
  rw [← c.force_elastic hc he u vo]
  unfold Cfg.residV
  rcases hc.dim with hd | hd
  · have hN : c.nn * c.dim = c.nx * c.ny * 2 := by rw [hc.nn2 hd, hd]
    rw [hN] at hq
    have e : c.sig u vo = c.sigF2 u := by
      funext e gp v; unfold Cfg.sig; rw [if_pos hd]
    rw [e, Cfg.fe_2 hd, if_pos hd]
    exact resid2_eq _ _ hq
  · have hN : c.nn * c.dim = c.nx * c.ny * c.nz * 3 := by rw [hd]; rfl
    rw [hN] at hq
    have e : c.sig u vo = c.sigF3 u vo := by
      funext e gp v; unfold Cfg.sig; rw [if_neg (by omega)]
    rw [e, Cfg.fe_3 hd, if_neg (by omega)]
    exact resid3_eq (hc.nz3 hd) _ _ _ hq

theorem aveV_real (hc : c.Ok) (hg : c.Geom) (he : c.Elastic) (u : Nat → ℝ) (vo : Buf ℝ) {v : Nat}
    (hv : v < c.nvoi) : c.aveV u vo v = c.thick * c.fe.aveStress (c.fe.stress c.law u) v := by
  have hv' : v < c.fe.nvoi := by rw [c.fe_nvoi]; exact hv
  have h : c.aveV u vo v = c.fe.integral (fun e gp => c.sig u vo e gp v) / (c.lx * c.ly) := by
    unfold Cfg.aveV
    rcases hc.dim with hd | hd
    · have e : c.sig u vo = c.sigF2 u := by
        funext e gp v; unfold Cfg.sig; rw [if_pos hd]
      rw [e, Cfg.fe_2 hd, if_pos hd, aveSig2_eq]
    · have e : c.sig u vo = c.sigF3 u vo := by
        funext e gp v; unfold Cfg.sig; rw [if_neg (by omega)]
      rw [e, Cfg.fe_3 hd, if_neg (by omega), aveSig3_eq]
  rw [h, Props.div_area hc hg, Fe.integral_congr (g := fun e gp => c.fe.stress c.law u e gp v)
      (fun x hx gp hgp => c.sig_elastic hc he _ _ hx hgp hv')]
  rfl

theorem displV_real (hc : c.Ok) (hg : c.Divided) (eps u : Nat → ℝ) :
    c.fe.OnBd eps (c.displV eps u) := by
  have hw : ∃ w : Work ℝ, w.u = ⟨c.nn * c.dim, u⟩ := by
    exact ⟨⟨0, ⟨1, 1, 1, ⟨0, fun _ => 0⟩, ⟨0, fun _ => 0⟩⟩, ⟨c.nn * c.dim, u⟩, ⟨0, fun _ => 0⟩, ⟨0, fun _ => 0⟩,
      ⟨0, fun _ => 0⟩, ⟨0, fun _ => 0⟩, ⟨0, fun _ => 0⟩, ⟨0, fun _ => 0⟩, 0⟩, rfl⟩
  obtain ⟨w, hw⟩ := hw
  obtain ⟨u1, h1, h2, h3, -⟩ := setDispl_real hc hg (w := w) (by rw [hw]) eps
  have := setDispl_gen hc (by rw [hw]) h1
  have e : u1 = ⟨c.nn * c.dim, c.displV eps w.u.val⟩ := congrArg Work.u this
  rw [e, hw] at h3
  exact h3

end Real

/-! ## Rounded -/

section Near
variable {ι : Type} {S : Fam ι} {c : (i : ι) → Cfg (Fl (S.fp i))} {C : Cfg ℝ}

theorem Spec.NearGrid.dims (h : NearGrid S c C) (i : ι) : (c i).nn * (c i).dim = C.nn * C.dim := by
  unfold Cfg.nn; rw [h.dim, h.nx, h.ny, h.nz]

theorem near_residV (h : NearCfg S c C) (hC : C.Ok) {u : (i : ι) → Nat → Fl (S.fp i)} {x : ι → Nat → ℝ}
    (hu : NearV S (C.nn * C.dim) u x) (vo : (i : ι) → Buf (Fl (S.fp i))) (vx : ι → Buf ℝ)
    (f : (i : ι) → Nat → Fl (S.fp i)) (g : ι → Nat → ℝ) {q : Nat} (hq : q < C.nn * C.dim) :
    NearF S 1 (fun i => (c i).residV (u i) (vo i) (f i) q) (fun i => C.residV (x i) (vx i) (g i) q) := by
  unfold Cfg.residV
  simp only [h.dim]
  rcases hC.dim with hd | hd
  · have hN : C.nn * C.dim = C.nx * C.ny * 2 := by rw [hC.nn2 hd, hd]
    rw [hN] at hu hq
    simp only [if_pos hd]
    exact near_resid2 h hu f g hq
  · have hN : C.nn * C.dim = C.nx * C.ny * C.nz * 3 := by rw [hd]; rfl
    rw [hN] at hu hq
    simp only [if_neg (show ¬ C.dim = 2 by omega)]
    exact near_resid3 h.toNearGrid hd
      (fun _ _ _ hx hy hz gp _ v _ => near_gpSig h hd hu hx hy hz gp v vo vx) f g hq

theorem near_aveV (h : NearCfg S c C) (hC : C.Ok) {u : (i : ι) → Nat → Fl (S.fp i)} {x : ι → Nat → ℝ}
    (hu : NearV S (C.nn * C.dim) u x) (vo : (i : ι) → Buf (Fl (S.fp i))) (vx : ι → Buf ℝ) {v : Nat}
    (hv : v < C.nvoi) :
    NearF S 1 (fun i => (c i).aveV (u i) (vo i) v) (fun i => C.aveV (x i) (vx i) v) := by
  unfold Cfg.aveV
  simp only [h.dim]
  rcases hC.dim with hd | hd
  · have hN : C.nn * C.dim = C.nx * C.ny * 2 := by rw [hC.nn2 hd, hd]
    rw [hN] at hu
    simp only [if_pos hd]
    exact near_aveSig2 h hu v
  · have hN : C.nn * C.dim = C.nx * C.ny * C.nz * 3 := by rw [hd]; rfl
    rw [hN] at hu
    simp only [if_neg (show ¬ C.dim = 2 by omega)]
    exact near_aveSig3 h.toNearGrid hd
      (fun _ _ _ hx hy hz gp _ v _ => near_gpSig h hd hu hx hy hz gp v vo vx)
      (by unfold Cfg.nvoi at hv; rwa [if_neg (by omega)] at hv)

theorem near_displV (h : NearGrid S c C) (hC : C.Ok) {eps : (i : ι) → Nat → Fl (S.fp i)} {ex : ι → Nat → ℝ}
    (he : NearV S C.nvoi eps ex) (u : (i : ι) → Nat → Fl (S.fp i)) (x : ι → Nat → ℝ) {q : Nat}
    (hq : q < C.nn * C.dim) (hb : C.OnBdry q) :
    NearF S 1 (fun i => (c i).displV (eps i) (u i) q) (fun i => C.displV (ex i) (x i) q) := by
  unfold Cfg.OnBdry at hb
  unfold Cfg.displV
  simp only [h.dim]
  rcases hC.dim with hd | hd
  · have hN : C.nn * C.dim = C.nx * C.ny * 2 := by rw [hC.nn2 hd, hd]
    rw [hN] at hq
    rw [if_pos hd] at hb
    simp only [if_pos hd]
    refine near_displ2 h (fun v hv => he v ?_) hq hb u x
    unfold Cfg.nvoi; rw [if_pos hd]; exact hv
  · have hN : C.nn * C.dim = C.nx * C.ny * C.nz * 3 := by rw [hd]; rfl
    rw [hN] at hq
    rw [if_neg (show ¬ C.dim = 2 by omega)] at hb
    simp only [if_neg (show ¬ C.dim = 2 by omega)]
    refine near_displ3 h hd (fun v hv => he v ?_) hq hb u x
    unfold Cfg.nvoi; rw [if_neg (by omega)]; exact hv

theorem onBdry_iff (hC : C.Ok) (q : Nat) : C.OnBdry q ↔ C.fe.Bd q := by
  unfold Cfg.OnBdry
  rcases hC.dim with hd | hd
  · rw [if_pos hd, Cfg.fe_2 hd]; exact (F2_Bd q).symm
  · rw [if_neg (by omega), Cfg.fe_3 hd]; exact (F3_Bd (hC.nz3 hd) q).symm

/-- Objects holding the numbers of one cell. -/
theorem Spec.Computed.grid (h : ∀ i, Computed (c i) C) (hC : C.Ok) (hg : C.Geom)
    (he : ∀ k, k < 2 → (C.mats k).Admissible) : NearGrid S c C := by
  have hne : ∀ n : Nat, 2 ≤ n → ((n - 1 : Nat) : ℝ) ≠ 0 := fun n hn => by
    have : (n - 1 : Nat) ≠ 0 := by omega
    exact_mod_cast this
  have eqn : ∀ {a : (i : ι) → Fl (S.fp i)} {x : ℝ}, (∀ i, (a i).val = x) → NearF S 0 a fun _ => x :=
    fun {a x} h => (Near.const (S := S) 0 x).congr (fun i => (h i).symm) fun _ => rfl
  have lx := eqn fun i => (h i).lx
  have ly := eqn fun i => (h i).ly
  have lz := fun hd => eqn fun i => (h i).lz hd
  have E : ∀ k, k < 2 → _ := fun k hk => eqn fun i => (h i).E k hk
  have nu : ∀ k, k < 2 → _ := fun k hk => eqn fun i => (h i).nu k hk
  have gx : C.dx = C.lx / ((C.nx - 1 : Nat) : ℝ) := by
    rw [← hg.dx]; field_simp [hne _ hC.nx]
  have gy : C.dy = C.ly / ((C.ny - 1 : Nat) : ℝ) := by
    rw [← hg.dy]; field_simp [hne _ hC.ny]
  have gz : C.dim = 3 → C.dz = C.lz / ((C.nz - 1 : Nat) : ℝ) := fun hd => by
    rw [← hg.dz hd]; field_simp [hne _ (hC.nz3 hd)]
  have hn1 : ∀ k, k < 2 → 1 + (C.mats k).nu ≠ 0 := fun k hk => by
    have := (he k hk).lo; intro h0; linarith
  have hn2 : ∀ k, k < 2 → 1 - ((2 : Nat) : ℝ) * (C.mats k).nu ≠ 0 := fun k hk => by
    have := (he k hk).hi; intro h0; push_cast at h0; linarith
  have one := NearF.one (S := S)
  have two := NearF.nat (S := S) 2
  refine ⟨fun i => (h i).dim, fun i => (h i).nx, fun i => (h i).ny, fun i => (h i).nz,
    fun i ex ey ez hx hy hz => (h i).elem ex ey ez hx hy (fun hd => ?_) (fun hd => ?_),
    lx, ly, lz, ?_, ?_, ?_, E, nu, ?_, ?_,
    hg.lx.ne', hg.ly.ne', ?_, ?_, ?_, fun k hk => mul_ne_zero (hn1 k hk) (hn2 k hk)⟩
  · have := hC.nz2 hd; omega
  · have := hC.nz3 hd; omega
  · exact (NearF.divC lx (NearF.nat (C.nx - 1)) (hne _ hC.nx)).congr
      (fun i => by rw [(h i).dx, (h i).nx]) fun _ => gx.symm
  · exact (NearF.divC ly (NearF.nat (C.ny - 1)) (hne _ hC.ny)).congr
      (fun i => by rw [(h i).dy, (h i).ny]) fun _ => gy.symm
  · intro hd
    exact (NearF.divC (lz hd) (NearF.nat (C.nz - 1)) (hne _ (hC.nz3 hd))).congr
      (fun i => by rw [(h i).dz hd, (h i).nz]) fun _ => (gz hd).symm
  · intro k hk
    refine ((E k hk).divC (two.mul0 (one.add (nu k hk))) ?_).congr
      (fun i => ((h i).mu k hk).symm) fun _ => ?_
    · exact mul_ne_zero (by norm_num) (hn1 k hk)
    · rw [(he k hk).mu]; push_cast; rfl
  · intro k hk
    refine (((nu k hk).mul0 (E k hk)).divC
      ((one.add (nu k hk)).mul0 (one.sub (two.mul0 (nu k hk)))) ?_).congr
      (fun i => ((h i).lambda k hk).symm) fun _ => ?_
    · exact mul_ne_zero (hn1 k hk) (hn2 k hk)
    · rw [(he k hk).lambda]; push_cast; rfl
  · rw [gx]; exact div_ne_zero hg.lx.ne' (hne _ hC.nx)
  · rw [gy]; exact div_ne_zero hg.ly.ne' (hne _ hC.ny)
  · intro hd; rw [gz hd]; exact div_ne_zero (hg.lz hd).ne' (hne _ (hC.nz3 hd))

theorem Spec.Computed.near (h : ∀ i, Computed (c i) C) (hC : C.Ok) (hg : C.Geom) (he : C.Elastic) :
    NearCfg S c C :=
  ⟨Computed.grid h hC hg he.mats, fun hd i k hk => by rw [(h i).plast hd k hk]; exact he.noPlast hd k hk,
    fun hd => he.noPlast hd⟩

end Near

end Verif
