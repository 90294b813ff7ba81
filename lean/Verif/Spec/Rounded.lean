import Verif.Spec.Fp
import Verif.Spec.Cell
import Verif.Model.Homogenize

/-!
# An object in rounded arithmetic and the cell it stands for

The arguments of the constructor are representable numbers; the sizes of the elements and the Lamé
constants are computed from them.
-/

namespace Verif.Spec
open Verif

/-- The materials the constructor assigned to the elements of `ĉ` are those of `c`. -/
def SameElements {fp : Fp} (ĉ : Cfg (Fl fp)) (c : Cfg ℝ) : Prop :=
  ∀ ex ey ez, ex < c.nx - 1 → ey < c.ny - 1 → (c.dim = 2 → ez = 0) → (c.dim = 3 → ez < c.nz - 1) →
    ĉ.elemType.val (gloElem3D c.nx c.ny ex ey ez) = c.elemType.val (gloElem3D c.nx c.ny ex ey ez)

/-- `ĉ` holds, in the format `fp`, the numbers of the cell `c`: the same grid, element types, flags,
edges and elastic constants, and element sizes and Lamé constants computed from these as in
/repo/src/micro.cpp:33-34, 97-99. -/
structure Computed {fp : Fp} (ĉ : Cfg (Fl fp)) (c : Cfg ℝ) : Prop where
  dim : ĉ.dim = c.dim
  nx : ĉ.nx = c.nx
  ny : ĉ.ny = c.ny
  nz : ĉ.nz = c.nz
  size : ĉ.elemType.size = c.elemType.size
  elem : SameElements ĉ c
  micro : ĉ.microType = c.microType
  lx : ĉ.lx.val = c.lx
  ly : ĉ.ly.val = c.ly
  lz : c.dim = 3 → ĉ.lz.val = c.lz
  dx : ĉ.dx = ĉ.lx / ((ĉ.nx - 1 : Nat) : Fl fp)
  dy : ĉ.dy = ĉ.ly / ((ĉ.ny - 1 : Nat) : Fl fp)
  dz : c.dim = 3 → ĉ.dz = ĉ.lz / ((ĉ.nz - 1 : Nat) : Fl fp)
  plast : c.dim = 3 → ∀ k, k < 2 → (ĉ.mats k).plasticity = (c.mats k).plasticity
  E : ∀ k, k < 2 → (ĉ.mats k).E.val = (c.mats k).E
  nu : ∀ k, k < 2 → (ĉ.mats k).nu.val = (c.mats k).nu
  mu : ∀ k, k < 2 → (ĉ.mats k).mu
    = (ĉ.mats k).E / (((2 : Nat) : Fl fp) * (1 + (ĉ.mats k).nu))
  lambda : ∀ k, k < 2 → (ĉ.mats k).lambda
    = ((ĉ.mats k).nu * (ĉ.mats k).E) / ((1 + (ĉ.mats k).nu) * (1 - ((2 : Nat) : Fl fp) * (ĉ.mats k).nu))

/-- The arguments `a` of the constructor describe, in the format `fp`, the cell `c`: grid, edges, kind of
microstructure, elastic constants and types of the materials (/repo/src/micro.cpp:28-112). -/
structure Describes {fp : Fp} (a : Args (Fl fp)) (c : Cfg ℝ) : Prop where
  dim : a.dim = c.dim
  nx : a.size 0 = c.nx
  ny : a.size 1 = c.ny
  nz : c.dim = 3 → a.size 2 = c.nz
  micro : a.microType = c.microType
  lx : (a.microParams 0).val = c.lx
  ly : (a.microParams 1).val = c.ly
  lz : c.dim = 3 → (a.microParams 2).val = c.lz
  E : ∀ k, k < 2 → (a.params (k * 10)).val = (c.mats k).E
  nu : ∀ k, k < 2 → (a.params (k * 10 + 1)).val = (c.mats k).nu
  ty : c.dim = 3 → ∀ k, k < 2 → (c.mats k).plasticity = true ∧ a.matTypes k = 1 ∨
    (c.mats k).plasticity = false ∧ (a.matTypes k = 0 ∨ a.matTypes k = 2)

/-- The arguments `â` are the numbers `a`, which the format can represent. -/
structure SameArgs {fp : Fp} (â : Args (Fl fp)) (a : Args ℝ) : Prop where
  dim : â.dim = a.dim
  size : ∀ i, â.size i = a.size i
  microType : â.microType = a.microType
  microParams : ∀ i, i < 4 → (â.microParams i).val = a.microParams i
  matTypes : ∀ i, i < 2 → â.matTypes i = a.matTypes i
  params : ∀ i, i < 20 → (â.params i).val = a.params i

/-- `ĉ` holds, in the format `fp`, the numbers of a three-dimensional cell whose elements may be plastic:
also the yield stress and the hardening modulus, and the bulk modulus computed from the elastic constants as
in /repo/src/micro.cpp:94. -/
structure ComputedJ2 {fp : Fp} (ĉ : Cfg (Fl fp)) (c : Cfg ℝ) : Prop extends Computed ĉ c where
  Sy : ∀ k, k < 2 → (ĉ.mats k).Sy.val = (c.mats k).Sy
  Ka : ∀ k, k < 2 → (ĉ.mats k).Ka.val = (c.mats k).Ka
  bulk : ∀ k, k < 2 → (ĉ.mats k).k
    = (ĉ.mats k).E / (((3 : Nat) : Fl fp) * (1 - ((2 : Nat) : Fl fp) * (ĉ.mats k).nu))

/-- The history `ĥ` holds the numbers of `h`: plastic strains and hardening variables at all Gauss
points. -/
def SameHistory {fp : Fp} (c : Cfg ℝ) (ĥ : Buf (Fl fp)) (h : Buf ℝ) : Prop :=
  ∀ ex ey ez, ex < c.nx - 1 → ey < c.ny - 1 → ez < c.nz - 1 → ∀ gp, gp < 8 → ∀ i, i < 7 →
    (ĥ.val (intvarIx (gloElem3D c.nx c.ny ex ey ez) gp i)).val
      = h.val (intvarIx (gloElem3D c.nx c.ny ex ey ez) gp i)

end Verif.Spec
