import Verif.Model.ProgText
import Verif.Model.WrapTable
import Verif.Model.Wrapper

/-!
# The Fortran interface: its text

`Model/WrapTable.lean` has the functions of /repo/src/wrapper.cpp.  Fortran passes every argument by
reference: a call brings one block of memory for each parameter, in the order of the parameters, and finds
the blocks changed when it returns.  No two blocks overlap.

* A method works on copies of the arrays, which are written back when it returns.
* A call with another number of blocks, or blocks of other types, than the parameters, or an argument of
  another type than the parameter of the method (which the compiler refuses), is the fault `abort`.
* The constructor finds the entries it reads (three of `size`, five of `micro_params`, two of `mat_types`,
  the first four of each ten of `params`) in the caller's arrays or is the fault `oob`; an entry without a
  value is the fault `uninit`.
-/

namespace Verif.Text

variable {α : Type} [Scalar α]

/-- A block of the caller's memory: /repo/src/wrapper.cpp:30-71. -/
inductive Cell (α : Type)
  | ints (v : Vec Int)
  | dbls (v : Vec α)

/-- The parameters of a wrapper with the caller's blocks: /repo/src/wrapper.cpp:30-71. -/
def wFrame : List (WV × PT) → List (Cell α) → M (List (WV × Cell α))
  | [], [] => pure []
  | (x, .intp) :: ps, .ints v :: cs => do
    let r ← wFrame ps cs
    pure ((x, .ints v) :: r)
  | (x, .dblp) :: ps, .dbls v :: cs => do
    let r ← wFrame ps cs
    pure ((x, .dbls v) :: r)
  | _, _ => .error .abort

/-- The block of a parameter: /repo/src/wrapper.cpp:30-71. -/
def wLook (x : WV) : List (WV × Cell α) → M (Cell α)
  | [] => .error .abort
  | (y, v) :: r => if y = x then pure v else wLook x r

/-- One argument, passed to the parameter `y`: /repo/src/wrapper.cpp:33-73. -/
def passArg (fr : List (WV × Cell α)) (l : Loc α) : WArg WV → V × PT → M (Loc α)
  | .deref x, (y, .int) => do
    match ← wLook x fr with
    | .ints v => do
      let k ← if 0 < v.n then need (v.val 0) else .error .oob
      pure { l with i := upd l.i y (some k) }
    | .dbls _ => .error .abort
  | .ptr x, (y, .intp) | .ptr x, (y, .cintp) => do
    match ← wLook x fr with
    | .ints v => pure { l with i := upd l.i y (v.val 0), iv := upd l.iv y (some v) }
    | .dbls _ => .error .abort
  | .ptr x, (y, .dblp) | .ptr x, (y, .cdblp) => do
    match ← wLook x fr with
    | .dbls v => pure { l with v := upd l.v y (some v) }
    | .ints _ => .error .abort
  | _, _ => .error .abort

/-- The arguments of a call, in the order of the parameters: /repo/src/wrapper.cpp:33-73. -/
def passArgs (fr : List (WV × Cell α)) : List (WArg WV) → List (V × PT) → Loc α → M (Loc α)
  | [], [], l => pure l
  | a :: as, p :: ps, l => do
    let l ← passArg fr l a p
    passArgs fr as ps l
  | _, _, _ => .error .abort

/-- A block after the call: what the method left in the array, or the number, that it got for the
parameter `x`, unless that is `const`.  /repo/src/wrapper.cpp:33-73. -/
def wBack (l : Loc α) (x : WV) : List (WArg WV) → List (V × PT) → Cell α → Cell α
  | .ptr z :: as, (y, .dblp) :: ps, c => wBack l x as ps (if z = x then (match l.v y with
      | some v => .dbls v
      | none => c) else c)
  | .ptr z :: as, (y, .intp) :: ps, .ints v => wBack l x as ps (.ints (if z = x then ⟨v.n, fun q => if q = 0 then l.i y else v.val q⟩ else v))
  | _ :: as, _ :: ps, c => wBack l x as ps c
  | _, _, c => c

/-- The entries `ks` of an array are there and have values: /repo/src/micro.cpp:28-112. -/
def takeVec {β : Type} (d : β) (ks : List Nat) (v : Option (Vec β)) : M (Nat → β) := do
  match v with
  | none => .error .abort
  | some v =>
    if ks.all fun q => decide (q < v.n) then
      if ks.all fun q => (v.val q).isSome then pure fun q => (v.val q).getD d else .error .uninit
    else .error .oob

/-- The arguments of the constructor: /repo/src/micro.cpp:28-29.  `size` and `dim` are not negative. -/
def argsOf (l : Loc α) : M (Args α) := do
  let dim ← need (l.i .a_dim)
  let size ← takeVec 0 [0, 1, 2] (l.iv .size)
  let mt ← need (l.i .a_micro_type)
  let mp ← takeVec 0 [0, 1, 2, 3, 4] (l.v .a_micro_params)
  let ty ← takeVec 0 [0, 1] (l.iv .mat_types)
  let pa ← takeVec 0 [0, 1, 2, 3, 10, 11, 12, 13] (l.v .params)
  pure { dim := dim.toNat, size := fun q => (size q).toNat, microType := mt, microParams := mp, matTypes := ty, params := pa }

/-- A method, executed from its text with the parameters `l`: /repo/src/homogenize.cpp:90-217,
/repo/src/micro.cpp:167-175, /repo/src/output.cpp:29-50, 224-285. -/
def methRun (env : Env α) (s : ObjFiles α) (l : Loc α) : Meth → M (ObjFiles α × Loc α)
  | .set_macro_strain => do
    let t ← tRun env .set_macro_strain ⟨s.obj, l⟩
    pure (⟨t.obj, s.files⟩, t.l)
  | .homogenize => do
    let t ← tRun env .homogenize ⟨s.obj, l⟩
    pure (⟨t.obj, s.files⟩, t.l)
  | .get_macro_stress => do
    let t ← tRun env .get_macro_stress ⟨s.obj, l⟩
    pure (⟨t.obj, s.files⟩, t.l)
  | .get_macro_ctan => do
    let t ← tRun env .get_macro_ctan ⟨s.obj, l⟩
    pure (⟨t.obj, s.files⟩, t.l)
  | .get_nl_flag => do
    let t ← tRun env .get_nl_flag ⟨s.obj, l⟩
    pure (⟨t.obj, s.files⟩, t.l)
  | .update_vars => do
    let t ← tRun env .update_vars ⟨s.obj, l⟩
    pure (⟨t.obj, s.files⟩, t.l)
  | .output => do
    let t ← fRun env s.obj.cfg s.obj.gauss 2 .output ⟨⟨s.obj.work, l⟩, s.files, none⟩
    pure (⟨{ s.obj with work := t.st.w }, t.files⟩, t.st.l)
  | .write_info_files => do
    let t ← fRun env s.obj.cfg s.obj.gauss 2 .write_info_files ⟨⟨s.obj.work,
      { l with i := upd l.i .output_files_header (some (if s.obj.header = true then 1 else 0)) }⟩, s.files, none⟩
    let h ← need (t.st.l.i .output_files_header)
    pure (⟨{ s.obj with work := t.st.w, header := decide (h ≠ 0) }, t.files⟩, t.st.l)

/-- A call of the Fortran interface, executed from its text, and the caller's blocks afterwards:
/repo/src/wrapper.cpp:27-74. -/
def wText (env : Env α) (j : Junk α) (w : World α) (f : WFn) (cs : List (Cell α)) : M (World α × List (Cell α)) := do
  let fr ← wFrame (wparams f) cs
  match wbody f with
  | .new args => do
    let l ← passArgs fr args kparams Loc.none
    let a ← argsOf l
    let r ← ctorText env a j w.files
    pure ({ micro := some r.obj, files := r.files, abandoned := w.micro.toList ++ w.abandoned }, cs)
  | .call m args =>
    match w.micro with
    | none => .error .null
    | some o => do
      let l ← passArgs fr args (mparams m) Loc.none
      let r ← methRun env ⟨o, w.files⟩ l m
      pure ({ w with micro := some r.1.obj, files := r.1.files },
        fr.map fun p => wBack r.2 p.1 args (mparams m) p.2)

end Verif.Text
