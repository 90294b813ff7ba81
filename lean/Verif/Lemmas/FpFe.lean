import Verif.Lemmas.FpNear
import Verif.Lemmas.FeEval2
import Verif.Lemmas.Newton

/-!
# Rounding in the element routines

The closed forms of `set_displ`, `assembly_rhs` and `calc_ave_stress` on linear cells: rounded and exact.
-/

namespace Verif.Spec
open Verif

variable {ι : Type} {S : Fam ι}

namespace NearF

variable {e : Nat}

theorem row2 {a b : (i : ι) → Fl (S.fp i)} {x y : ι → ℝ} (ha : NearF S e a x) (hb : NearF S e b y)
    (d : Nat) : NearF S e (fun i => [a i, b i].getD d 0) (fun i => [x i, y i].getD d 0) := by
  match d with
  | 0 => exact ha
  | 1 => exact hb
  | _ + 2 => exact zero e

theorem row3 {a b c : (i : ι) → Fl (S.fp i)} {x y z : ι → ℝ} (ha : NearF S e a x)
    (hb : NearF S e b y) (hc : NearF S e c z) (d : Nat) :
    NearF S e (fun i => [a i, b i, c i].getD d 0) (fun i => [x i, y i, z i].getD d 0) := by
  match d with
  | 0 => exact ha
  | 1 => exact hb
  | 2 => exact hc
  | _ + 3 => exact zero e

end NearF

theorem near_gaussX : NearF S 0 (fun _ => gaussX) (fun _ => (gaussX : ℝ)) := NearF.sci _ _ _

theorem near_xg2D (gp d : Nat) : NearF S 0 (fun _ => xg2D gp d) (fun _ => (xg2D gp d : ℝ)) := by
  have h := near_gaussX (S := S)
  have h' := h.neg
  unfold xg2D
  rcases gp with _ | _ | _ | _ | gp
  · exact NearF.row2 h' h' d
  · exact NearF.row2 h h' d
  · exact NearF.row2 h h d
  · exact NearF.row2 h' h d
  · exact NearF.zero 0

theorem near_xg3D (gp d : Nat) : NearF S 0 (fun _ => xg3D gp d) (fun _ => (xg3D gp d : ℝ)) := by
  have h := near_gaussX (S := S)
  have h' := h.neg
  unfold xg3D
  rcases gp with _ | _ | _ | _ | _ | _ | _ | _ | gp
  · exact NearF.row3 h' h' h' d
  · exact NearF.row3 h h' h' d
  · exact NearF.row3 h h h' d
  · exact NearF.row3 h' h h' d
  · exact NearF.row3 h' h' h d
  · exact NearF.row3 h h' h d
  · exact NearF.row3 h h h d
  · exact NearF.row3 h' h h d
  · exact NearF.zero 0

section
variable {dx dy dz : (i : ι) → Fl (S.fp i)} {x y z : ℝ}

theorem near_dsh2D (hx : NearF S 0 dx fun _ => x) (hy : NearF S 0 dy fun _ => y) (hx0 : x ≠ 0)
    (hy0 : y ≠ 0) (gp k d : Nat) :
    NearF S 0 (fun i => dsh2D (dx i) (dy i) gp k d) (fun _ => dsh2D x y gp k d) := by
  have h0 := near_xg2D (S := S) gp 0
  have h1 := near_xg2D (S := S) gp 1
  have xm := NearF.one.sub h0
  have xp := NearF.one.add h0
  have ym := NearF.one.sub h1
  have yp := NearF.one.add h1
  have q : ∀ {a : (i : ι) → Fl (S.fp i)} {t : ℝ} {b : (i : ι) → Fl (S.fp i)} {r : ℝ},
      NearF S 0 a (fun _ => t) → NearF S 0 b (fun _ => r) → r ≠ 0 →
      NearF S 0 (fun i => a i / ((4 : Nat) : Fl _) * ((2 : Nat) : Fl _) / b i)
        (fun _ => t / ((4 : Nat) : ℝ) * ((2 : Nat) : ℝ) / r) := fun ha hb hr =>
    ((ha.divC (NearF.nat 4) (by norm_num)).mul0 (NearF.nat 2)).divC hb hr
  unfold dsh2D
  dsimp only
  rcases k with _ | _ | _ | _ | k
  · exact NearF.row2 (q ym.neg hx hx0) (q xm.neg hy hy0) d
  · exact NearF.row2 (q ym hx hx0) (q xp.neg hy hy0) d
  · exact NearF.row2 (q yp hx hx0) (q xp hy hy0) d
  · exact NearF.row2 (q yp.neg hx hx0) (q xm hy hy0) d
  · exact NearF.zero 0

theorem near_bmat2D (hx : NearF S 0 dx fun _ => x) (hy : NearF S 0 dy fun _ => y) (hx0 : x ≠ 0)
    (hy0 : y ≠ 0) (gp v j : Nat) :
    NearF S 0 (fun i => bmat2D (dx i) (dy i) gp v j) (fun _ => bmat2D x y gp v j) := by
  have h := near_dsh2D hx hy hx0 hy0 gp (j / 2)
  unfold bmat2D
  dsimp only
  rcases v with _ | _ | _ | v
  · exact NearF.row2 (h 0) (NearF.zero 0) _
  · exact NearF.row2 (NearF.zero 0) (h 1) _
  · exact NearF.row2 (h 1) (h 0) _
  · exact NearF.zero 0

theorem near_dsh3D (hx : NearF S 0 dx fun _ => x) (hy : NearF S 0 dy fun _ => y)
    (hz : NearF S 0 dz fun _ => z) (hx0 : x ≠ 0) (hy0 : y ≠ 0) (hz0 : z ≠ 0) (gp k d : Nat) :
    NearF S 0 (fun i => dsh3D (dx i) (dy i) (dz i) gp k d) (fun _ => dsh3D x y z gp k d) := by
  have h0 := near_xg3D (S := S) gp 0
  have h1 := near_xg3D (S := S) gp 1
  have h2 := near_xg3D (S := S) gp 2
  have xm := NearF.one.sub h0
  have xp := NearF.one.add h0
  have ym := NearF.one.sub h1
  have yp := NearF.one.add h1
  have zm := NearF.one.sub h2
  have zp := NearF.one.add h2
  have q : ∀ {a a' : (i : ι) → Fl (S.fp i)} {t t' : ℝ} {b : (i : ι) → Fl (S.fp i)} {r : ℝ},
      NearF S 0 a (fun _ => t) → NearF S 0 a' (fun _ => t') → NearF S 0 b (fun _ => r) → r ≠ 0 →
      NearF S 0 (fun i => a i * a' i / ((8 : Nat) : Fl _) * ((2 : Nat) : Fl _) / b i)
        (fun _ => t * t' / ((8 : Nat) : ℝ) * ((2 : Nat) : ℝ) / r) := fun ha ha' hb hr =>
    (((ha.mul0 ha').divC (NearF.nat 8) (by norm_num)).mul0 (NearF.nat 2)).divC hb hr
  unfold dsh3D
  dsimp only
  rcases k with _ | _ | _ | _ | _ | _ | _ | _ | k
  · exact NearF.row3 (q ym.neg zm hx hx0) (q xm.neg zm hy hy0) (q xm.neg ym hz hz0) d
  · exact NearF.row3 (q ym zm hx hx0) (q xp.neg zm hy hy0) (q xp.neg ym hz hz0) d
  · exact NearF.row3 (q yp zm hx hx0) (q xp zm hy hy0) (q xp.neg yp hz hz0) d
  · exact NearF.row3 (q yp.neg zm hx hx0) (q xm zm hy hy0) (q xm.neg yp hz hz0) d
  · exact NearF.row3 (q ym.neg zp hx hx0) (q xm.neg zp hy hy0) (q xm ym hz hz0) d
  · exact NearF.row3 (q ym zp hx hx0) (q xp.neg zp hy hy0) (q xp ym hz hz0) d
  · exact NearF.row3 (q yp zp hx hx0) (q xp zp hy hy0) (q xp yp hz hz0) d
  · exact NearF.row3 (q yp.neg zp hx hx0) (q xm zp hy hy0) (q xm yp hz hz0) d
  · exact NearF.zero 0

theorem near_bmat3D (hx : NearF S 0 dx fun _ => x) (hy : NearF S 0 dy fun _ => y)
    (hz : NearF S 0 dz fun _ => z) (hx0 : x ≠ 0) (hy0 : y ≠ 0) (hz0 : z ≠ 0) (gp v j : Nat) :
    NearF S 0 (fun i => bmat3D (dx i) (dy i) (dz i) gp v j) (fun _ => bmat3D x y z gp v j) := by
  have h := near_dsh3D hx hy hz hx0 hy0 hz0 gp (j / 3)
  unfold bmat3D
  dsimp only
  have o := NearF.zero (S := S) 0
  rcases v with _ | _ | _ | _ | _ | _ | v
  · exact NearF.row3 (h 0) o o _
  · exact NearF.row3 o (h 1) o _
  · exact NearF.row3 o o (h 2) _
  · exact NearF.row3 (h 1) (h 0) o _
  · exact NearF.row3 (h 2) o (h 0) _
  · exact NearF.row3 o (h 2) (h 1) _
  · exact o

end

/-! ## Cells -/

/-- The rounded cells `ĉ i` approximate the exact cell `C`: same grid, same materials of elements, data
near. -/
structure NearGrid (S : Fam ι) (c : (i : ι) → Cfg (Fl (S.fp i))) (C : Cfg ℝ) : Prop where
  dim : ∀ i, (c i).dim = C.dim
  nx : ∀ i, (c i).nx = C.nx
  ny : ∀ i, (c i).ny = C.ny
  nz : ∀ i, (c i).nz = C.nz
  elem : ∀ i ex ey ez, ex < C.nx - 1 → ey < C.ny - 1 → ez = 0 ∨ ez < C.nz - 1 →
    (c i).elemType.val (gloElem3D C.nx C.ny ex ey ez) = C.elemType.val (gloElem3D C.nx C.ny ex ey ez)
  lx : NearF S 0 (fun i => (c i).lx) (fun _ => C.lx)
  ly : NearF S 0 (fun i => (c i).ly) (fun _ => C.ly)
  lz : C.dim = 3 → NearF S 0 (fun i => (c i).lz) (fun _ => C.lz)
  dx : NearF S 0 (fun i => (c i).dx) (fun _ => C.dx)
  dy : NearF S 0 (fun i => (c i).dy) (fun _ => C.dy)
  dz : C.dim = 3 → NearF S 0 (fun i => (c i).dz) (fun _ => C.dz)
  E : ∀ k, k < 2 → NearF S 0 (fun i => ((c i).mats k).E) (fun _ => (C.mats k).E)
  nu : ∀ k, k < 2 → NearF S 0 (fun i => ((c i).mats k).nu) (fun _ => (C.mats k).nu)
  mu : ∀ k, k < 2 → NearF S 0 (fun i => ((c i).mats k).mu) (fun _ => (C.mats k).mu)
  lambda : ∀ k, k < 2 → NearF S 0 (fun i => ((c i).mats k).lambda) (fun _ => (C.mats k).lambda)
  lx0 : C.lx ≠ 0
  ly0 : C.ly ≠ 0
  dx0 : C.dx ≠ 0
  dy0 : C.dy ≠ 0
  dz0 : C.dim = 3 → C.dz ≠ 0
  nu0 : ∀ k, k < 2 → (1 + (C.mats k).nu) * (1 - ((2 : Nat) : ℝ) * (C.mats k).nu) ≠ 0

/-- The same for cells without plasticity. -/
structure NearCfg (S : Fam ι) (c : (i : ι) → Cfg (Fl (S.fp i))) (C : Cfg ℝ) : Prop
    extends NearGrid S c C where
  plast : C.dim = 3 → ∀ i k, k < 2 → ((c i).mats k).plasticity = false
  plast' : C.dim = 3 → ∀ k, k < 2 → (C.mats k).plasticity = false

/-- Vectors near each other in their first `N` entries. -/
def NearV (S : Fam ι) (N : Nat) (a : (i : ι) → Nat → Fl (S.fp i)) (x : ι → Nat → ℝ) : Prop :=
  ∀ q, q < N → NearF S 1 (fun i => a i q) (fun i => x i q)

section
variable {c : (i : ι) → Cfg (Fl (S.fp i))} {C : Cfg ℝ} {u : (i : ι) → Nat → Fl (S.fp i)}
  {x : ι → Nat → ℝ}

theorem NearGrid.mat (h : NearGrid S c C) {ex ey ez : Nat} (hx : ex < C.nx - 1) (hy : ey < C.ny - 1)
    (hz : ez = 0 ∨ ez < C.nz - 1) : let e := gloElem3D C.nx C.ny ex ey ez
    ∃ k, k < 2 ∧ (∀ i, matOf (c i) e = (c i).mats k) ∧ matOf C e = C.mats k := by
  intro e
  refine ⟨if C.elemType.val e = 0 then 0 else 1, by split <;> omega, fun i => ?_, rfl⟩
  unfold matOf; rw [h.elem i ex ey ez hx hy hz]

theorem near_strain3 (h : NearGrid S c C) (hd : C.dim = 3) (hu : NearV S (C.nx * C.ny * C.nz * 3) u x)
    {ex ey ez : Nat} (hx : ex < C.nx - 1) (hy : ey < C.ny - 1) (hz : ez < C.nz - 1) (gp v : Nat) :
    NearF S 1 (fun i => strain3 (c i) (u i) ex ey ez gp v) (fun i => strain3 C (x i) ex ey ez gp v) := by
  unfold strain3
  simp only [h.nx, h.ny]
  exact NearF.sum (a := fun j i => bmat3D (c i).dx (c i).dy (c i).dz gp v j
    * u i (edof3 C.nx C.ny ex ey ez j)) (NearF.zero 1) fun j hj =>
    (near_bmat3D h.dx h.dy (h.dz hd) h.dx0 h.dy0 (h.dz0 hd) gp v j).mul0
      (hu _ (edof3_lt hx hy hz hj))

theorem near_strain2 (h : NearCfg S c C) (hu : NearV S (C.nx * C.ny * 2) u x)
    {ex ey : Nat} (hx : ex < C.nx - 1) (hy : ey < C.ny - 1) (gp v : Nat) :
    NearF S 1 (fun i => strain2 (c i) (u i) ex ey gp v) (fun i => strain2 C (x i) ex ey gp v) := by
  unfold strain2
  simp only [h.nx]
  exact NearF.sum (a := fun j i => bmat2D (c i).dx (c i).dy gp v j * u i (edof2 C.nx ex ey j))
    (NearF.zero 1) fun j hj =>
    (near_bmat2D h.dx h.dy h.dx0 h.dy0 gp v j).mul0 (hu _ (edof2_lt hx hy))

theorem near_gpSig (h : NearCfg S c C) (hd : C.dim = 3) (hu : NearV S (C.nx * C.ny * C.nz * 3) u x)
    {ex ey ez : Nat} (hx : ex < C.nx - 1) (hy : ey < C.ny - 1) (hz : ez < C.nz - 1) (gp v : Nat)
    (vo : (i : ι) → Buf (Fl (S.fp i))) (vx : ι → Buf ℝ) :
    NearF S 1 (fun i => gpSig (c i) (u i) (vo i) ex ey ez gp v)
      (fun i => gpSig C (x i) (vx i) ex ey ez gp v) := by
  unfold gpSig
  simp only [Cfg.el, h.nx, h.ny]
  obtain ⟨k, hk, h1, h2⟩ := h.mat hx hy (Or.inr hz)
  simp only [h1, h2, sig3, h.plast hd _ k hk, h.plast' hd k hk, Bool.false_eq_true, if_false]
  have st := fun v => near_strain3 h.toNearGrid hd hu hx hy hz gp v
  unfold elasticStress3D
  split
  · exact ((h.lambda k hk).mul0 (((st 0).add (st 1)).add (st 2))).add
      (((NearF.nat 2).mul0 (h.mu k hk)).mul0 (st v))
  · exact (h.mu k hk).mul0 (st v)

theorem near_ctan2D (h : NearCfg S c C) {k : Nat} (hk : k < 2) (a b : Nat) :
    NearF S 0 (fun i => ctan2D ((c i).mats k) a b) (fun _ => ctan2D (C.mats k) a b) := by
  have hE := h.E k hk
  have hn := h.nu k hk
  have h0 := h.nu0 k hk
  unfold ctan2D
  have h2 := NearF.one.sub ((NearF.nat 2).mul0 hn)
  refine NearF.mul0 ?_ (hE.divC ((NearF.one.add hn).mul0 h2) h0)
  split
  · split
    · exact h2.divC (NearF.nat 2) (by norm_num)
    · exact NearF.zero 0
  · split
    · exact NearF.zero 0
    · split
      · exact NearF.one.sub hn
      · exact hn

theorem near_sig2 (h : NearCfg S c C) (hu : NearV S (C.nx * C.ny * 2) u x)
    {ex ey : Nat} (hx : ex < C.nx - 1) (hy : ey < C.ny - 1) (gp v : Nat) :
    NearF S 1 (fun i => sig2 (matOf (c i) ((c i).el ex ey 0)) (strain2 (c i) (u i) ex ey gp) v)
      (fun i => sig2 (matOf C (C.el ex ey 0)) (strain2 C (x i) ex ey gp) v) := by
  simp only [Cfg.el, h.nx, h.ny]
  obtain ⟨k, hk, h1, h2⟩ := h.mat hx hy (Or.inl rfl)
  simp only [h1, h2]
  unfold sig2
  exact NearF.sum (a := fun j i => ctan2D ((c i).mats k) v j * strain2 (c i) (u i) ex ey gp j)
    (NearF.zero 1) fun j _ => (near_ctan2D h hk v j).mul0 (near_strain2 h hu hx hy gp j)

theorem near_wg3D (h : NearGrid S c C) (hd : C.dim = 3) :
    NearF S 0 (fun i => wg3D (c i)) (fun _ => wg3D C) := by
  have e : NearF S 0 (fun _ => (1 / 8.0 : Fl _)) (fun _ => (1 / 8.0 : ℝ)) :=
    NearF.one.divC (NearF.sci _ _ _) (by norm_num)
  exact ((e.mul0 h.dx).mul0 h.dy).mul0 (h.dz hd)

theorem near_wg2D (h : NearCfg S c C) : NearF S 0 (fun i => wg2D (c i)) (fun _ => wg2D C) := by
  have e : NearF S 0 (fun _ => (0.25 : Fl _)) (fun _ => (0.25 : ℝ)) := NearF.sci _ _ _
  exact (e.mul0 h.dx).mul0 h.dy

/-- The stresses of the Gauss points are near the exact ones. -/
def NearSig (S : Fam ι) (c : (i : ι) → Cfg (Fl (S.fp i))) (C : Cfg ℝ)
    (u : (i : ι) → Nat → Fl (S.fp i)) (x : ι → Nat → ℝ) (vo : (i : ι) → Buf (Fl (S.fp i)))
    (vx : ι → Buf ℝ) : Prop :=
  ∀ ex ey ez, ex < C.nx - 1 → ey < C.ny - 1 → ez < C.nz - 1 → ∀ gp, gp < 8 → ∀ v, v < 6 →
    NearF S 1 (fun i => gpSig (c i) (u i) (vo i) ex ey ez gp v)
      (fun i => gpSig C (x i) (vx i) ex ey ez gp v)

variable {vo : (i : ι) → Buf (Fl (S.fp i))} {vx : ι → Buf ℝ}

theorem near_elemRhs3 (h : NearGrid S c C) (hd : C.dim = 3) (hs : NearSig S c C u x vo vx)
    {ex ey ez : Nat} (hx : ex < C.nx - 1) (hy : ey < C.ny - 1) (hz : ez < C.nz - 1) (v : Nat) :
    NearF S 1 (fun i => elemRhs3 (c i) (u i) (vo i) ex ey ez v)
      (fun i => elemRhs3 C (x i) (vx i) ex ey ez v) := by
  unfold elemRhs3
  refine accum_fam (N := 8)
    (R := fun (s : (i : ι) → Nat → Fl (S.fp i)) (t : ι → Nat → ℝ) =>
      ∀ q, NearF S 1 (fun i => s i q) (fun i => t i q))
    (fun _ => rfl) (fun _ => rfl) (fun q => NearF.zero 1) ?_ v
  intro gp s t hg hst q
  exact NearF.sum (a := fun j i => bmat3D (c i).dx (c i).dy (c i).dz gp j q
      * gpSig (c i) (u i) (vo i) ex ey ez gp j * wg3D (c i)) (hst q) fun j hj =>
    ((near_bmat3D h.dx h.dy (h.dz hd) h.dx0 h.dy0 (h.dz0 hd) gp j q).mul0
      (hs ex ey ez hx hy hz gp hg j hj)).rmul0 (near_wg3D h hd)

theorem near_elemRhs2 (h : NearCfg S c C) (hu : NearV S (C.nx * C.ny * 2) u x)
    {ex ey : Nat} (hx : ex < C.nx - 1) (hy : ey < C.ny - 1) (v : Nat) :
    NearF S 1 (fun i => elemRhs2 (c i) (u i) ex ey v) (fun i => elemRhs2 C (x i) ex ey v) := by
  unfold elemRhs2
  refine accum_fam (N := 4)
    (R := fun (s : (i : ι) → Nat → Fl (S.fp i)) (t : ι → Nat → ℝ) =>
      ∀ q, NearF S 1 (fun i => s i q) (fun i => t i q))
    (fun _ => rfl) (fun _ => rfl) (fun q => NearF.zero 1) ?_ v
  intro gp s t _ hst q
  exact NearF.sum (a := fun j i => bmat2D (c i).dx (c i).dy gp j q
      * sig2 (matOf (c i) ((c i).el ex ey 0)) (strain2 (c i) (u i) ex ey gp) j * wg2D (c i)) (hst q)
    fun j _ =>
    ((near_bmat2D h.dx h.dy h.dx0 h.dy0 gp j q).mul0
      (near_sig2 h hu hx hy gp j)).rmul0 (near_wg2D h)

theorem near_scatter {n : Nat} {index : Nat → Nat} {be : (i : ι) → Nat → Fl (S.fp i)}
    {bx : ι → Nat → ℝ} (hb : ∀ j, NearF S 1 (fun i => be i j) (fun i => bx i j))
    {s : (i : ι) → Nat → Fl (S.fp i)} {t : ι → Nat → ℝ}
    (hst : ∀ q, NearF S 1 (fun i => s i q) (fun i => t i q)) (q : Nat) :
    NearF S 1 (fun i => scatterVal n index (be i) (s i) q)
      (fun i => scatterVal n index (bx i) (t i) q) := by
  unfold scatterVal
  refine accum_fam (N := n)
    (R := fun (s : (i : ι) → Nat → Fl (S.fp i)) (t : ι → Nat → ℝ) =>
      ∀ q, NearF S 1 (fun i => s i q) (fun i => t i q))
    (fun _ => rfl) (fun _ => rfl) hst ?_ q
  intro j s t _ hst q
  beta_reduce
  split
  · exact (hst _).add (hb j)
  · exact hst q

theorem near_fint3 (h : NearGrid S c C) (hd : C.dim = 3) (hs : NearSig S c C u x vo vx)
    {s : (i : ι) → Nat → Fl (S.fp i)} {t : ι → Nat → ℝ}
    (hst : ∀ q, NearF S 1 (fun i => s i q) (fun i => t i q)) (q : Nat) :
    NearF S 1 (fun i => fint3 (c i) (u i) (vo i) (s i) q)
      (fun i => fint3 C (x i) (vx i) (t i) q) := by
  unfold fint3 accum3
  let R := fun (s : (i : ι) → Nat → Fl (S.fp i)) (t : ι → Nat → ℝ) =>
    ∀ q, NearF S 1 (fun i => s i q) (fun i => t i q)
  refine accum_fam (N := C.nx - 1) (R := R) (fun i => by rw [h.nx]) (fun _ => rfl) hst ?_ q
  intro ex s t hx hst
  refine accum_fam (N := C.ny - 1) (R := R) (fun i => by rw [h.ny]) (fun _ => rfl) hst ?_
  intro ey s t hy hst
  refine accum_fam (N := C.nz - 1) (R := R) (fun i => by rw [h.nz]) (fun _ => rfl) hst ?_
  intro ez s t hz hst q
  simp only [h.nx, h.ny]
  exact near_scatter (fun j => near_elemRhs3 h hd hs hx hy hz j) hst q

theorem near_fint2 (h : NearCfg S c C) (hu : NearV S (C.nx * C.ny * 2) u x)
    {s : (i : ι) → Nat → Fl (S.fp i)} {t : ι → Nat → ℝ}
    (hst : ∀ q, NearF S 1 (fun i => s i q) (fun i => t i q)) (q : Nat) :
    NearF S 1 (fun i => fint2 (c i) (u i) (s i) q) (fun i => fint2 C (x i) (t i) q) := by
  unfold fint2 accum2
  let R := fun (s : (i : ι) → Nat → Fl (S.fp i)) (t : ι → Nat → ℝ) =>
    ∀ q, NearF S 1 (fun i => s i q) (fun i => t i q)
  refine accum_fam (N := C.nx - 1) (R := R) (fun i => by rw [h.nx]) (fun _ => rfl) hst ?_ q
  intro ex s t hx hst
  refine accum_fam (N := C.ny - 1) (R := R) (fun i => by rw [h.ny]) (fun _ => rfl) hst ?_
  intro ey s t hy hst q
  simp only [h.nx]
  exact near_scatter (fun j => near_elemRhs2 h hu hx hy j) hst q

theorem near_resid3 (h : NearGrid S c C) (hd : C.dim = 3) (hs : NearSig S c C u x vo vx)
    (f : (i : ι) → Nat → Fl (S.fp i)) (g : ι → Nat → ℝ) {q : Nat} (hq : q < C.nx * C.ny * C.nz * 3) :
    NearF S 1 (fun i => resid3 (c i) (u i) (vo i) (f i) q)
      (fun i => resid3 C (x i) (vx i) (g i) q) := by
  unfold resid3
  simp only [h.nx, h.ny, h.nz, hq, if_true]
  refine NearF.neg ?_
  split
  · exact NearF.zero 1
  · have key := near_fint3 h hd hs (s := fun _ _ => 0) (t := fun _ _ => 0)
      (fun _ => NearF.zero 1) q
    refine key.congr (fun i => fint3_at ?_) (fun i => fint3_at ?_) <;> simp [hq]

theorem near_resid2 (h : NearCfg S c C) (hu : NearV S (C.nx * C.ny * 2) u x)
    (f : (i : ι) → Nat → Fl (S.fp i)) (g : ι → Nat → ℝ) {q : Nat} (hq : q < C.nx * C.ny * 2) :
    NearF S 1 (fun i => resid2 (c i) (u i) (f i) q) (fun i => resid2 C (x i) (g i) q) := by
  unfold resid2
  simp only [h.nx, h.ny, hq, if_true]
  refine NearF.neg ?_
  split
  · exact NearF.zero 1
  · have key := near_fint2 h hu (s := fun _ _ => 0) (t := fun _ _ => 0) (fun _ => NearF.zero 1) q
    refine key.congr (fun i => fint2_at ?_) (fun i => fint2_at ?_) <;> simp [hq]

/-! ## Averages -/

theorem near_aveSig3 (h : NearGrid S c C) (hd : C.dim = 3) (hs : NearSig S c C u x vo vx) {v : Nat}
    (hv : v < 6) :
    NearF S 1 (fun i => aveSig3 (c i) (u i) (vo i) v / ((c i).lx * (c i).ly))
      (fun i => aveSig3 C (x i) (vx i) v / (C.lx * C.ly)) := by
  refine NearF.divC ?_ (h.lx.mul0 h.ly) (mul_ne_zero h.lx0 h.ly0)
  unfold aveSig3 accum3
  let R := fun (s : (i : ι) → Nat → Fl (S.fp i)) (t : ι → Nat → ℝ) =>
    ∀ q, q < 6 → NearF S 1 (fun i => s i q) (fun i => t i q)
  refine accum_fam (N := C.nx - 1) (R := R) (fun i => by rw [h.nx]) (fun _ => rfl)
    (fun _ _ => NearF.zero 1) ?_ v hv
  intro ex s t hx hst
  refine accum_fam (N := C.ny - 1) (R := R) (fun i => by rw [h.ny]) (fun _ => rfl) hst ?_
  intro ey s t hy hst
  refine accum_fam (N := C.nz - 1) (R := R) (fun i => by rw [h.nz]) (fun _ => rfl) hst ?_
  intro ez s t hz hst q hq
  refine NearF.add (hst q hq) ?_
  refine accum_fam (N := 8) (R := R) (fun _ => rfl) (fun _ => rfl) (fun _ _ => NearF.zero 1) ?_ q hq
  intro gp s t hg hst q hq
  exact (hst q hq).add ((hs ex ey ez hx hy hz gp hg q hq).rmul0 (near_wg3D h hd))

theorem near_aveSig2 (h : NearCfg S c C) (hu : NearV S (C.nx * C.ny * 2) u x) (v : Nat) :
    NearF S 1 (fun i => aveSig2 (c i) (u i) v / ((c i).lx * (c i).ly))
      (fun i => aveSig2 C (x i) v / (C.lx * C.ly)) := by
  refine NearF.divC ?_ (h.lx.mul0 h.ly) (mul_ne_zero h.lx0 h.ly0)
  unfold aveSig2 accum2
  let R := fun (s : (i : ι) → Nat → Fl (S.fp i)) (t : ι → Nat → ℝ) =>
    ∀ q, NearF S 1 (fun i => s i q) (fun i => t i q)
  refine accum_fam (N := C.nx - 1) (R := R) (fun i => by rw [h.nx]) (fun _ => rfl)
    (fun _ => NearF.zero 1) ?_ v
  intro ex s t hx hst
  refine accum_fam (N := C.ny - 1) (R := R) (fun i => by rw [h.ny]) (fun _ => rfl) hst ?_
  intro ey s t hy hst q
  refine NearF.add (hst q) ?_
  refine accum_fam (N := 4) (R := R) (fun _ => rfl) (fun _ => rfl) (fun _ => NearF.zero 1) ?_ q
  intro gp s t _ hst q
  exact (hst q).add ((near_sig2 h hu hx hy gp q).rmul0 (near_wg2D h))

theorem near_aveEps3 (h : NearGrid S c C) (hd : C.dim = 3) (hu : NearV S (C.nx * C.ny * C.nz * 3) u x)
    (v : Nat) :
    NearF S 1 (fun i => aveEps3 (c i) (u i) v / ((c i).lx * (c i).ly))
      (fun i => aveEps3 C (x i) v / (C.lx * C.ly)) := by
  refine NearF.divC ?_ (h.lx.mul0 h.ly) (mul_ne_zero h.lx0 h.ly0)
  unfold aveEps3 accum3
  let R := fun (s : (i : ι) → Nat → Fl (S.fp i)) (t : ι → Nat → ℝ) =>
    ∀ q, NearF S 1 (fun i => s i q) (fun i => t i q)
  refine accum_fam (N := C.nx - 1) (R := R) (fun i => by rw [h.nx]) (fun _ => rfl)
    (fun _ => NearF.zero 1) ?_ v
  intro ex s t hx hst
  refine accum_fam (N := C.ny - 1) (R := R) (fun i => by rw [h.ny]) (fun _ => rfl) hst ?_
  intro ey s t hy hst
  refine accum_fam (N := C.nz - 1) (R := R) (fun i => by rw [h.nz]) (fun _ => rfl) hst ?_
  intro ez s t hz hst q
  refine NearF.add (hst q) ?_
  refine accum_fam (N := 8) (R := R) (fun _ => rfl) (fun _ => rfl) (fun _ => NearF.zero 1) ?_ q
  intro gp s t _ hst q
  exact (hst q).add ((near_strain3 h hd hu hx hy hz gp q).rmul0 (near_wg3D h hd))

theorem near_aveEps2 (h : NearCfg S c C) (hu : NearV S (C.nx * C.ny * 2) u x) (v : Nat) :
    NearF S 1 (fun i => aveEps2 (c i) (u i) v / ((c i).lx * (c i).ly))
      (fun i => aveEps2 C (x i) v / (C.lx * C.ly)) := by
  refine NearF.divC ?_ (h.lx.mul0 h.ly) (mul_ne_zero h.lx0 h.ly0)
  unfold aveEps2 accum2
  let R := fun (s : (i : ι) → Nat → Fl (S.fp i)) (t : ι → Nat → ℝ) =>
    ∀ q, NearF S 1 (fun i => s i q) (fun i => t i q)
  refine accum_fam (N := C.nx - 1) (R := R) (fun i => by rw [h.nx]) (fun _ => rfl)
    (fun _ => NearF.zero 1) ?_ v
  intro ex s t hx hst
  refine accum_fam (N := C.ny - 1) (R := R) (fun i => by rw [h.ny]) (fun _ => rfl) hst ?_
  intro ey s t hy hst q
  refine NearF.add (hst q) ?_
  refine accum_fam (N := 4) (R := R) (fun _ => rfl) (fun _ => rfl) (fun _ => NearF.zero 1) ?_ q
  intro gp s t _ hst q
  exact (hst q).add ((near_strain2 h hu hx hy gp q).rmul0 (near_wg2D h))

/-! ## Prescribed displacements -/

variable {eps : (i : ι) → Nat → Fl (S.fp i)} {ex : ι → Nat → ℝ}

theorem near_affine3 (he : ∀ v, v < 6 → NearF S 1 (fun i => eps i v) (fun i => ex i v))
    {a b g : (i : ι) → Fl (S.fp i)} {r s t : ℝ} (ha : NearF S 0 a fun _ => r)
    (hb : NearF S 0 b fun _ => s) (hg : NearF S 0 g fun _ => t) (d : Nat) :
    NearF S 1 (fun i => affine3 (eps i) (a i) (b i) (g i) d)
      (fun i => affine3 (ex i) r s t d) := by
  have h5 : NearF S 0 (fun _ => (0.5 : Fl _)) (fun _ => (0.5 : ℝ)) := NearF.sci _ _ _
  have h3 := h5.mul0 (he 3 (by omega))
  have h4 := h5.mul0 (he 4 (by omega))
  have h5 := h5.mul0 (he 5 (by omega))
  have h0 := he 0 (by omega)
  have h1 := he 1 (by omega)
  have h2 := he 2 (by omega)
  unfold affine3
  split
  · exact ((h0.rmul0 ha).add (h3.rmul0 hb)).add (h4.rmul0 hg)
  · split
    · exact ((h3.rmul0 ha).add (h1.rmul0 hb)).add (h5.rmul0 hg)
    · exact ((h4.rmul0 ha).add (h5.rmul0 hb)).add (h2.rmul0 hg)

theorem near_affine2 (he : ∀ v, v < 3 → NearF S 1 (fun i => eps i v) (fun i => ex i v))
    {a b : (i : ι) → Fl (S.fp i)} {r s : ℝ} (ha : NearF S 0 a fun _ => r)
    (hb : NearF S 0 b fun _ => s) (d : Nat) :
    NearF S 1 (fun i => affine2 (eps i) (a i) (b i) d) (fun i => affine2 (ex i) r s d) := by
  have h5 : NearF S 0 (fun _ => (0.5 : Fl _)) (fun _ => (0.5 : ℝ)) := NearF.sci _ _ _
  have h2 := h5.mul0 (he 2 (by omega))
  have h0 := he 0 (by omega)
  have h1 := he 1 (by omega)
  unfold affine2
  split
  · exact (h0.rmul0 ha).add (h2.rmul0 hb)
  · exact (h2.rmul0 ha).add (h1.rmul0 hb)

theorem near_displ3 (h : NearGrid S c C) (hd : C.dim = 3)
    (he : ∀ v, v < 6 → NearF S 1 (fun i => eps i v) (fun i => ex i v)) {q : Nat}
    (hq : q < C.nx * C.ny * C.nz * 3) (hb : BdryDof3 3 C.nx C.ny C.nz q)
    (u : (i : ι) → Nat → Fl (S.fp i)) (x : ι → Nat → ℝ) :
    NearF S 1 (fun i => displ3 (c i) (eps i) (u i) q) (fun i => displ3 C (ex i) (x i) q) := by
  unfold displ3
  simp only [h.nx, h.ny, h.nz, hq, hb, and_self, if_true]
  unfold atDof3 displVal3
  have X : ∀ n : Nat, NearF S 0 (fun i => ((n : Nat) : Fl _) * (c i).dx) (fun _ => ((n : Nat) : ℝ) * C.dx) :=
    fun n => (NearF.nat n).mul0 h.dx
  have Y : ∀ n : Nat, NearF S 0 (fun i => ((n : Nat) : Fl _) * (c i).dy) (fun _ => ((n : Nat) : ℝ) * C.dy) :=
    fun n => (NearF.nat n).mul0 h.dy
  have Z : ∀ n : Nat, NearF S 0 (fun i => ((n : Nat) : Fl _) * (c i).dz) (fun _ => ((n : Nat) : ℝ) * C.dz) :=
    fun n => (NearF.nat n).mul0 (h.dz hd)
  have o := NearF.zero (S := S) 0
  simp only [h.ny, h.nz]
  split
  · exact near_affine3 he (X _) (Y _) o _
  split
  · exact near_affine3 he (X _) (Y _) (h.lz hd) _
  split
  · exact near_affine3 he (X _) o (Z _) _
  split
  · exact near_affine3 he (X _) h.ly (Z _) _
  split
  · exact near_affine3 he o (Y _) (Z _) _
  · exact near_affine3 he h.lx (Y _) (Z _) _

theorem near_displ2 (h : NearGrid S c C)
    (he : ∀ v, v < 3 → NearF S 1 (fun i => eps i v) (fun i => ex i v)) {q : Nat}
    (hq : q < C.nx * C.ny * 2) (hb : BdryDof2 2 C.nx C.ny q)
    (u : (i : ι) → Nat → Fl (S.fp i)) (x : ι → Nat → ℝ) :
    NearF S 1 (fun i => displ2 (c i) (eps i) (u i) q) (fun i => displ2 C (ex i) (x i) q) := by
  unfold displ2
  simp only [h.nx, h.ny, hq, hb, and_self, if_true]
  unfold atDof2 displVal2
  have X : ∀ n : Nat, NearF S 0 (fun i => ((n : Nat) : Fl _) * (c i).dx) (fun _ => ((n : Nat) : ℝ) * C.dx) :=
    fun n => (NearF.nat n).mul0 h.dx
  have Y : ∀ n : Nat, NearF S 0 (fun i => ((n : Nat) : Fl _) * (c i).dy) (fun _ => ((n : Nat) : ℝ) * C.dy) :=
    fun n => (NearF.nat n).mul0 h.dy
  have o := NearF.zero (S := S) 0
  simp only [h.ny]
  split
  · exact near_affine2 he (X _) o _
  split
  · exact near_affine2 he (X _) h.ly _
  split
  · exact near_affine2 he o (Y _) _
  · exact near_affine2 he h.lx (Y _) _

end

end Verif.Spec
