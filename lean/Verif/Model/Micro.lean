import Verif.Model.Ell

/-!
# The object `micropp_t`: data

Source: /repo/include/micro.hpp, /repo/src/micro.cpp.

The members are split in three groups: `Cfg` (set by the constructor, constant afterwards),
`Work` (scratch memory of the solver) and the Gauss-point list.  Functions of the solver take
`Cfg` and `Work` and return `Work`; by their type they cannot touch the Gauss points.
Fixed-size arrays (`double x[6]`) are functions `Nat → α`; heap blocks are `Buf α`.
-/

namespace Verif

/-- `material_t`: /repo/include/micro.hpp:54-64. -/
structure Material (α : Type) where
  E : α
  nu : α
  k : α
  mu : α
  lambda : α
  Ka : α
  Sy : α
  plasticity : Bool
  damage : Bool

/-- `gp_t`: /repo/include/micro.hpp:42-52.  `none` is the NULL pointer. -/
structure Gp (α : Type) where
  id : Int
  nrIts : Nat → Int
  intVarsN : Option (Buf α)
  intVarsK : Option (Buf α)
  macroStrain : Nat → α
  macroStress : Nat → α
  macroCtan : Nat → α
  nrErr : Nat → α
  invMax : α

/-- The members that are constant after construction: /repo/include/micro.hpp:69-73, 79-80, 91. -/
structure Cfg (α : Type) where
  dim : Nat
  nx : Nat
  ny : Nat
  nz : Nat
  lx : α
  ly : α
  lz : α
  dx : α
  dy : α
  dz : α
  width : α
  invTol : α
  microType : Int
  mats : Nat → Material α
  elemType : Buf Int
  ctanLin : Nat → α

/-- The scratch memory of the solver: /repo/include/micro.hpp:84-90, 92-95.  `tick` is not a
member of the C++ class: it numbers the events at which the environment supplies a value (fresh
`malloc` memory, memory read outside an object), so that each event gets its own value. -/
structure Work (α : Type) where
  tick : Nat
  A : Ell α
  u : Buf α
  du : Buf α
  b : Buf α
  elemStress : Buf α
  elemStrain : Buf α
  varsOld : Buf α
  varsNew : Buf α
  invMax : α

namespace Cfg
variable {α : Type} (c : Cfg α)

/-- `nn(nx * ny * nz)`: /repo/src/micro.cpp:41. -/
def nn : Nat := c.nx * c.ny * c.nz

/-- `npe(dim == 2 ? 4 : 8)`: /repo/src/micro.cpp:47. -/
def npe : Nat := if c.dim = 2 then 4 else 8

/-- `nvoi(dim == 2 ? 3 : 6)`: /repo/src/micro.cpp:48. -/
def nvoi : Nat := if c.dim = 2 then 3 else 6

/-- `nelem`: /repo/src/micro.cpp:49. -/
def nelem : Nat :=
  if c.dim = 2 then (c.nx - 1) * (c.ny - 1) else (c.nx - 1) * (c.ny - 1) * (c.nz - 1)

/-- `num_int_vars(nelem * 8 * NUM_VAR_GP)`: /repo/src/micro.cpp:52. -/
def numIntVars : Nat := c.nelem * 8 * 7

end Cfg

/-- `glo_elem3D(ex,ey,ez)`: /repo/include/micro.hpp:37. -/
def gloElem3D (nx ny ex ey ez : Nat) : Nat := ez * (nx - 1) * (ny - 1) + ey * (nx - 1) + ex

/-- `intvar_ix(e,gp,var)`: /repo/include/micro.hpp:38. -/
def intvarIx (e gp var : Nat) : Nat := e * 8 * 7 + gp * 7 + var

section
variable {α : Type} [Scalar α]

/-- `get_elem_type2D`: /repo/src/micro.cpp:177-198. -/
def getElemType2D (c : Cfg α) (ex ey : Nat) : M Int :=
  if c.microType = 0 then
    let x1 := ((ex : Nat) : α) * c.dx + c.dx / ((2 : Nat) : α)
    let y1 := ((ey : Nat) : α) * c.dy + c.dy / ((2 : Nat) : α)
    let x2 := c.lx / ((2 : Nat) : α)
    let y2 := c.ly / ((2 : Nat) : α)
    .ok (if Scalar.lt ((x2 - x1) * (x2 - x1) + (y2 - y1) * (y2 - y1)) (c.width * c.width)
      then 1 else 0)
  else if c.microType = 1 then
    let y := ((ey : Nat) : α) * c.dy + c.dy / ((2 : Nat) : α)
    .ok (if Scalar.lt y c.width then 1 else 0)
  else .error .abort

/-- `get_elem_type3D`: /repo/src/micro.cpp:200-224. -/
def getElemType3D (c : Cfg α) (ex ey ez : Nat) : M Int :=
  if c.microType = 0 then
    let x1 := ((ex : Nat) : α) * c.dx + c.dx / ((2 : Nat) : α)
    let y1 := ((ey : Nat) : α) * c.dy + c.dy / ((2 : Nat) : α)
    let z1 := ((ez : Nat) : α) * c.dz + c.dz / ((2 : Nat) : α)
    let x2 := c.lx / ((2 : Nat) : α)
    let y2 := c.ly / ((2 : Nat) : α)
    let z2 := c.lz / ((2 : Nat) : α)
    .ok (if Scalar.lt ((x2 - x1) * (x2 - x1) + (y2 - y1) * (y2 - y1) + (z2 - z1) * (z2 - z1))
      (c.width * c.width) then 1 else 0)
  else if c.microType = 1 then
    let y := ((ey : Nat) : α) * c.dy + c.dy / ((2 : Nat) : α)
    .ok (if Scalar.lt y c.width then 1 else 0)
  else .error .abort

/-- Material `i` of the constructor: /repo/src/micro.cpp:90-112.  `p k` is
`params[i * MAX_MAT_PARAM + k]`; `j` is the previous content of `material_list[i]`, of which the
two flags survive if `mat_types[i]` is none of 0, 1, 2. -/
def mkMaterial (p : Nat → α) (ty : Int) (j : Material α) : Material α :=
  let E := p 0
  let nu := p 1
  { E := E
    nu := nu
    Sy := p 2
    Ka := p 3
    k := E / (((3 : Nat) : α) * (1 - ((2 : Nat) : α) * nu))
    mu := E / (((2 : Nat) : α) * (1 + nu))
    lambda := (nu * E) / ((1 + nu) * (1 - ((2 : Nat) : α) * nu))
    plasticity := if ty = 0 then false else if ty = 1 then true else if ty = 2 then false
      else j.plasticity
    damage := if ty = 0 then false else if ty = 1 then false else if ty = 2 then true
      else j.damage }

end

end Verif
