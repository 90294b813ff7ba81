import Verif.Model.Homogenize
import Verif.Lemmas.FeMat

/-! # The constructor up to `calc_ctan_lin` -/

namespace Verif
open Spec

variable {α : Type} [Scalar α]

/-- Type assigned to an element. -/
def elemTypeOf (c : Cfg α) (ex ey ez : Nat) : Int :=
  match (if c.dim = 2 then getElemType2D c ex ey else getElemType3D c ex ey ez) with
  | .ok t => t
  | .error _ => 0

variable {c : Cfg α}

theorem getElemType2D_ok (hm : c.microType = 0 ∨ c.microType = 1) (hd : c.dim = 2) (ex ey ez : Nat) :
    getElemType2D c ex ey = .ok (elemTypeOf c ex ey ez) := by
  unfold elemTypeOf
  rw [if_pos hd]
  unfold getElemType2D
  rcases hm with h | h <;> simp [h]

theorem getElemType3D_ok (hm : c.microType = 0 ∨ c.microType = 1) (hd : c.dim = 3) (ex ey ez : Nat) :
    getElemType3D c ex ey ez = .ok (elemTypeOf c ex ey ez) := by
  unfold elemTypeOf
  rw [if_neg (by omega)]
  unfold getElemType3D
  rcases hm with h | h <;> simp [h]

theorem fillElemType_eq (hm : c.microType = 0 ∨ c.microType = 1) (hd : c.dim = 2 ∨ c.dim = 3)
    {et : Buf Int} (het : et.size = c.nelem) :
    ∃ et', fillElemType c et = .ok et' ∧ et'.size = c.nelem ∧
      ∀ ex ey ez, ex < c.nx - 1 → ey < c.ny - 1 → (c.dim = 2 → ez = 0) →
        (c.dim = 3 → ez < c.nz - 1) →
        et'.val (gloElem3D c.nx c.ny ex ey ez) = elemTypeOf c ex ey ez := by
  let f : Nat → Int := fun k => elemTypeOf c (k % (c.nx - 1)) (k / (c.nx - 1) % (c.ny - 1))
    (k / (c.nx - 1) / (c.ny - 1))
  have hf : ∀ ex ey ez, ex < c.nx - 1 → ey < c.ny - 1 →
      f (gloElem3D c.nx c.ny ex ey ez) = elemTypeOf c ex ey ez := by
    intro ex ey ez hx hy
    obtain ⟨h1, h2, h3⟩ := gloElem_decode (ez := ez) hx hy
    simp only [f]
    rw [h1, h2, h3]
  unfold fillElemType
  rcases hd with hd | hd
  · rw [if_pos hd]
    have hs := SetTo.loop (N := c.nelem) (c := f) (n := c.nx - 1)
      (S := fun ex k => ∃ ey, ey < c.ny - 1 ∧ k = gloElem3D c.nx c.ny ex ey 0)
      (f := fun ex et => loop (c.ny - 1) (fun ey et => do
        let t ← getElemType2D c ex ey
        et.write (gloElem3D c.nx c.ny ex ey 0) t) et)
      (fun ex hx => SetTo.loop (fun ey hy => by
        rw [getElemType2D_ok hm hd ex ey 0]
        have hl : gloElem3D c.nx c.ny ex ey 0 < c.nelem := by
          unfold Cfg.nelem; rw [if_pos hd]; exact gloElem2D_lt hx hy
        exact SetTo.write hl (hf ex ey 0 hx hy).symm))
    obtain ⟨et', h1, h2, h3, -⟩ := hs et het
    refine ⟨et', h1, h2, fun ex ey ez hx hy hz _ => ?_⟩
    obtain rfl := hz hd
    rw [h3 _ ⟨ex, hx, ey, hy, rfl⟩, hf ex ey 0 hx hy]
  · rw [if_neg (by omega)]
    have hs := SetTo.loop (N := c.nelem) (c := f) (n := c.nx - 1)
      (S := fun ex k => ∃ ey, ey < c.ny - 1 ∧ ∃ ez, ez < c.nz - 1 ∧ k = gloElem3D c.nx c.ny ex ey ez)
      (f := fun ex et => loop (c.ny - 1) (fun ey et => loop (c.nz - 1) (fun ez et => do
        let t ← getElemType3D c ex ey ez
        et.write (gloElem3D c.nx c.ny ex ey ez) t) et) et)
      (fun ex hx => SetTo.loop (fun ey hy => SetTo.loop (fun ez hz => by
        rw [getElemType3D_ok hm hd ex ey ez]
        have hl : gloElem3D c.nx c.ny ex ey ez < c.nelem := by
          unfold Cfg.nelem; rw [if_neg (by omega)]; exact gloElem3D_lt hx hy hz
        exact SetTo.write hl (hf ex ey ez hx hy).symm)))
    obtain ⟨et', h1, h2, h3, -⟩ := hs et het
    refine ⟨et', h1, h2, fun ex ey ez hx hy _ hz => ?_⟩
    rw [h3 _ ⟨ex, hx, ey, hy, ez, hz hd, rfl⟩, hf ex ey ez hx hy]

/-- Arguments for which the constructor has no undefined behaviour before its solver runs. -/
structure Args.Ok (a : Args α) : Prop where
  dim : a.dim = 2 ∨ a.dim = 3
  micro : a.microType = 0 ∨ a.microType = 1
  nx : 2 ≤ a.size 0
  ny : 2 ≤ a.size 1
  nz : a.dim = 3 → 2 ≤ a.size 2

/-- The work memory the constructor allocates. -/
def startWork (c : Cfg α) (j : Junk α) (A : Ell α) : Work α :=
  { tick := 0, A := A
    u := ⟨c.nn * c.dim, j.u⟩, du := ⟨c.nn * c.dim, j.du⟩, b := ⟨c.nn * c.dim, j.b⟩
    elemStress := ⟨c.nelem * c.nvoi, j.elemStress⟩
    elemStrain := ⟨c.nelem * c.nvoi, j.elemStrain⟩
    varsOld := ⟨c.numIntVars, j.varsOld⟩, varsNew := ⟨c.numIntVars, j.varsNew⟩
    invMax := j.invMax }

/-- The constructor is `calc_ctan_lin` on a well-formed object. -/
theorem construct_any {a : Args α} (ha : a.Ok) (j : Junk α) :
    ∃ et A, (mkCfg a j et).Ok ∧ Work.Ok (mkCfg a j et) (startWork (mkCfg a j et) j A) ∧
      (∀ ex ey ez, ex < (mkCfg a j et).nx - 1 → ey < (mkCfg a j et).ny - 1 → (a.dim = 2 → ez = 0) →
        (a.dim = 3 → ez < (mkCfg a j et).nz - 1) →
        et.val (gloElem3D (mkCfg a j et).nx (mkCfg a j et).ny ex ey ez)
          = elemTypeOf (mkCfg a j et) ex ey ez) ∧
      ∀ env : Env α, construct env a j = (calcCtanLin env (mkCfg a j et) j.ctanLin
        (startWork (mkCfg a j et) j A)).bind fun r =>
          .ok { cfg := { mkCfg a j et with ctanLin := r.ctan }, work := r.work, gauss := [],
                header := false } := by
  obtain ⟨et, h1, h2, h3⟩ := fillElemType_eq (c := mkCfg a j ⟨0, j.elemType⟩) ha.micro ha.dim
    (et := ⟨(mkCfg a j ⟨0, j.elemType⟩).nelem, j.elemType⟩) rfl
  have hc : (mkCfg a j et).Ok := by
    refine ⟨ha.dim, ha.nx, ha.ny, fun hd => ?_, fun hd => ?_, h2, ha.micro⟩
    · have hd : a.dim = 2 := hd
      simp [mkCfg, hd]
    · have hd : a.dim = 3 := hd
      simp [mkCfg, hd]
      exact ha.nz hd
  have hA : ∃ A, (if (mkCfg a j et).dim = 2 then
        ellInit2D j.cols j.vals (mkCfg a j et).dim (mkCfg a j et).nx (mkCfg a j et).ny
      else ellInit3D j.cols j.vals (mkCfg a j et).dim (mkCfg a j et).nx (mkCfg a j et).ny
        (mkCfg a j et).nz) = .ok A ∧
      ((mkCfg a j et).dim = 2 → Pattern2Weak A 2 (mkCfg a j et).nx (mkCfg a j et).ny) ∧
      ((mkCfg a j et).dim = 3 → Pattern3 A 3 (mkCfg a j et).nx (mkCfg a j et).ny
        (mkCfg a j et).nz) := by
    rcases hc.dim with hd | hd
    · obtain ⟨A, e1, e2⟩ := pattern2_init j.cols j.vals (nF := 2) hc.nx hc.ny
      refine ⟨A, by rw [if_pos hd, hd]; exact e1, fun _ => e2, fun h => by omega⟩
    · obtain ⟨A, e1, e2⟩ := pattern3_init j.cols j.vals (nF := 3) hc.nx hc.ny (hc.nz3 hd)
      refine ⟨A, by rw [if_neg (by omega), hd]; exact e1, fun h => by omega, fun _ => e2⟩
  obtain ⟨A, hA1, hA2, hA3⟩ := hA
  refine ⟨et, A, hc, ⟨rfl, rfl, rfl, rfl, rfl, rfl, rfl, hA2, hA3⟩, h3, fun env => ?_⟩
  unfold construct
  rw [if_neg (not_not.mpr ha.dim), if_neg (not_not.mpr ha.micro)]
  simp only []
  rw [h1, M_bind_ok']
  split
  · rename_i h
    rw [if_pos h] at hA1
    rw [hA1, M_bind_ok']
    rfl
  · rename_i h
    rw [if_neg h] at hA1
    rw [hA1, M_bind_ok']
    rfl

theorem construct_eq (env : Env α) {a : Args α} (ha : a.Ok) (j : Junk α) :
    ∃ et A, (mkCfg a j et).Ok ∧ Work.Ok (mkCfg a j et) (startWork (mkCfg a j et) j A) ∧
      (∀ ex ey ez, ex < (mkCfg a j et).nx - 1 → ey < (mkCfg a j et).ny - 1 → (a.dim = 2 → ez = 0) →
        (a.dim = 3 → ez < (mkCfg a j et).nz - 1) →
        et.val (gloElem3D (mkCfg a j et).nx (mkCfg a j et).ny ex ey ez)
          = elemTypeOf (mkCfg a j et) ex ey ez) ∧
      construct env a j = (calcCtanLin env (mkCfg a j et) j.ctanLin
        (startWork (mkCfg a j et) j A)).bind fun r =>
          .ok { cfg := { mkCfg a j et with ctanLin := r.ctan }, work := r.work, gauss := [],
                header := false } := by
  obtain ⟨et, A, h1, h2, h3, h4⟩ := construct_any ha j
  exact ⟨et, A, h1, h2, h3, h4 env⟩

end Verif
