import Verif.Model.FileTable

/-!
# The constructor: its text, from the arguments to the object

The initialisers (/repo/src/micro.cpp:30-53) are `k_init` of `Model/ObjTable.lean`.  The body
(/repo/src/micro.cpp:54-146) is `f_ctor` of `Model/FileTable.lean`, `o_fill_elem_type` of
`Model/ObjTable.lean`, the call of `calc_ctan_lin` and `f_ctor_end`.  This file puts them in sequence.

* The members that never change after the initialisers form `Cfg`.  While the initialisers run they are
  variables without values, so that an initialiser that reads a member declared later is the fault
  `uninit`.  The only exception is `micro_params[4]`, which `inv_tol` reads before it is assigned
  (/repo/src/micro.cpp:37): it has the value `Junk.invTol`.
* `Cfg` computes `nn`, `npe`, `nvoi`, `nelem`, `num_int_vars` from the others.  `cfgOut` compares them with
  what the initialisers assigned; a difference is the fault `abort`.
* The caller's arrays have 3, 5, 2 and 20 entries.
* The assertion that no `malloc` failed is left out.
-/

namespace Verif.Text

variable {α : Type} [Scalar α]

/-- The members before the initialisers have run; no initialiser reads `Cfg`.
/repo/include/micro.hpp:69-80. -/
def cfg0 (j : Junk α) : Cfg α :=
  { dim := 0, nx := 0, ny := 0, nz := 0, lx := 0, ly := 0, lz := 0, dx := 0, dy := 0, dz := 0, width := 0
    invTol := j.invTol, microType := 0, mats := j.mats, elemType := ⟨0, j.elemType⟩, ctanLin := j.ctanLin }

/-- The members that change, before the constructor: /repo/include/micro.hpp:84-95. -/
def work0 (j : Junk α) : Work α :=
  { tick := 0, A := { nrow := 0, ncol := 0, nnz := 0, cols := ⟨0, j.cols⟩, vals := ⟨0, j.vals⟩ }
    u := ⟨0, j.u⟩, du := ⟨0, j.du⟩, b := ⟨0, j.b⟩, elemStress := ⟨0, j.elemStress⟩
    elemStrain := ⟨0, j.elemStrain⟩, varsOld := ⟨0, j.varsOld⟩, varsNew := ⟨0, j.varsNew⟩
    invMax := j.invMax }

/-- The arguments (/repo/src/micro.cpp:28-29) and the arrays `micro_params`, `material_list`
(/repo/include/micro.hpp:77-79) as variables. -/
def ctorIn (a : Args α) (j : Junk α) : Loc α :=
  { (Loc.none : Loc α) with
    i := fun x => if x = .a_dim then some (a.dim : Int) else if x = .a_micro_type then some a.microType else none
    iv := fun x => if x = .size then some ⟨3, fun q => some (a.size q : Int)⟩
      else if x = .mat_types then some ⟨2, fun q => some (a.matTypes q)⟩
      else if x = .ml_plasticity ∨ x = .ml_damage then some ⟨10, fun _ => none⟩ else none
    v := fun x => if x = .a_micro_params then some ⟨5, fun q => some (a.microParams q)⟩
      else if x = .params then some ⟨20, fun q => some (a.params q)⟩
      else if x = .micro_params then some ⟨5, fun q => if q = 4 then some j.invTol else none⟩
      else if x ∈ [V.ml_E, .ml_nu, .ml_k, .ml_mu, .ml_lam, .ml_Ka, .ml_Sy] then some ⟨10, fun _ => none⟩
      else none }

/-- The members after the initialisers: /repo/include/micro.hpp:69-73. -/
def cfgOut (j : Junk α) (l : Loc α) : M (Cfg α) := do
  let dim ← need (l.i .dim)
  let nx ← need (l.i .nx)
  let ny ← need (l.i .ny)
  let nz ← need (l.i .nz)
  let nn ← need (l.i .nn)
  let npe ← need (l.i .npe)
  let nvoi ← need (l.i .nvoi)
  let nelem ← need (l.i .nelem)
  let niv ← need (l.i .num_int_vars)
  let mt ← need (l.i .micro_type)
  let lx ← need (l.d .lx)
  let ly ← need (l.d .ly)
  let lz ← need (l.d .lz)
  let dx ← need (l.d .dx)
  let dy ← need (l.d .dy)
  let dz ← need (l.d .dz)
  let width ← need (l.d .width)
  let tol ← need (l.d .inv_tol)
  let c : Cfg α :=
    { dim := dim.toNat, nx := nx.toNat, ny := ny.toNat, nz := nz.toNat, lx := lx, ly := ly, lz := lz
      dx := dx, dy := dy, dz := dz, width := width, invTol := tol, microType := mt, mats := j.mats
      elemType := ⟨0, j.elemType⟩, ctanLin := j.ctanLin }
  if [dim, nx, ny, nz, nn, npe, nvoi, nelem, niv] =
      [(c.dim : Int), c.nx, c.ny, c.nz, c.nn, c.npe, c.nvoi, c.nelem, c.numIntVars]
  then pure c else .error .abort

/-- A `bool` field of `material_list`: /repo/include/micro.hpp:62-63. -/
def flagOut (f : Nat → Bool) (o : Option (Vec Int)) (q : Nat) : Bool :=
  match o with
  | some a => ((a.val q).map fun k => decide (k ≠ 0)).getD (f q)
  | none => f q

/-- `material_list` after the body; what is not assigned keeps its content.
/repo/include/micro.hpp:54-64, 79. -/
def matsOut (m : Nat → Material α) (l : Loc α) : Nat → Material α := fun q =>
  { E := arrOut (fun q => (m q).E) (l.v .ml_E) q
    nu := arrOut (fun q => (m q).nu) (l.v .ml_nu) q
    k := arrOut (fun q => (m q).k) (l.v .ml_k) q
    mu := arrOut (fun q => (m q).mu) (l.v .ml_mu) q
    lambda := arrOut (fun q => (m q).lambda) (l.v .ml_lam) q
    Ka := arrOut (fun q => (m q).Ka) (l.v .ml_Ka) q
    Sy := arrOut (fun q => (m q).Sy) (l.v .ml_Sy) q
    plasticity := flagOut (fun q => (m q).plasticity) (l.iv .ml_plasticity) q
    damage := flagOut (fun q => (m q).damage) (l.iv .ml_damage) q }

/-- The text of the constructor: /repo/src/micro.cpp:28-146.  `f` are the files before. -/
def ctorText (env : Env α) (a : Args α) (j : Junk α) (f : Files α) : M (ObjFiles α) := do
  let s ← k_init.exec (cfg0 j) (run (cfg0 j) 0) ⟨work0 j, ctorIn a j⟩
  let c ← cfgOut j s.l
  let r ← f_ctor.exec c [] (fun p => p.exec env c (oRun env c 0)) (fun _ _ => .error .fuel) ⟨s, f, none⟩
  let c := { c with mats := matsOut j.mats r.st.l }
  let s ← oRun env c 3 .fill_elem_type r.st
  let c := { c with elemType := Buf.ofVec ⟨0, j.elemType⟩ (s.l.iv .elem_type) }
  let h ← need (s.l.i .output_files_header)
  let s ← oRun env c 3 .calc_ctan_lin
    ⟨s.w, { s.l with v := upd s.l.v .ctan_lin (some ⟨36, fun q => some (j.ctanLin q)⟩) }⟩
  let e ← f_ctor_end.exec c [] (fun p => p.exec env c (oRun env c 0)) (fun _ _ => .error .fuel)
    ⟨s, r.files, r.cur⟩
  pure { obj := { cfg := { c with ctanLin := arrOut j.ctanLin (s.l.v .ctan_lin) }, work := s.w, gauss := []
                  header := decide (h ≠ 0) }
         files := e.close.files }

end Verif.Text
