import Verif.Model.CtorText
import Verif.Model.Output

/-!
# Programs: the text of the constructor and of the calls

A program constructs an object and calls its public functions.  Here every part is executed from its
text, the files included.
-/

namespace Verif.Text

variable {α : Type} [Scalar α]

/-- The arguments of a call: a number and a caller's array `x` of `n` entries that holds `f`.
/repo/src/homogenize.cpp:90-130, /repo/src/micro.cpp:167. -/
def callLoc (id : Int) (x : V) (n : Nat) (f : Nat → α) : Loc α :=
  { (Loc.none : Loc α) with
    i := fun y => if y = .gp_id then some id else none
    v := fun y => if y = x then some ⟨n, fun q => some (f q)⟩ else none }

/-- One public call, executed from its text: /repo/src/homogenize.cpp:90-217,
/repo/src/micro.cpp:167-175, /repo/src/output.cpp:29-50, 224-285.  The arrays of the caller have 6, 6 and
36 entries; the member `output_files_header` is a variable with the value 0 or 1. -/
def textStep (env : Env α) (s : ObjFiles α) : Call α → M (Stepped α)
  | .setStrain id eps => do
    let t ← tRun env .set_macro_strain ⟨s.obj, callLoc id .macro_strain 6 eps⟩
    pure { state := { s with obj := t.obj }, ret := .unit }
  | .homogenize => do
    let t ← tRun env .homogenize ⟨s.obj, Loc.none⟩
    pure { state := { s with obj := t.obj }, ret := .unit }
  | .getStress id buf => do
    let t ← tRun env .get_macro_stress ⟨s.obj, callLoc id .macro_stress 6 buf⟩
    pure { state := { s with obj := t.obj }, ret := .buf (arrOut buf (t.l.v .macro_stress)) }
  | .getCtan id buf => do
    let t ← tRun env .get_macro_ctan ⟨s.obj, callLoc id .macro_ctan 36 buf⟩
    pure { state := { s with obj := t.obj }, ret := .buf (arrOut buf (t.l.v .macro_ctan)) }
  | .getNl id => do
    let t ← tRun env .get_nl_flag
      ⟨s.obj, { (Loc.none : Loc α) with i := fun y => if y = .gp_id then some id else none }⟩
    let r ← need (t.l.i .non_linear)
    pure { state := { s with obj := t.obj }, ret := .flag r }
  | .updateVars => do
    let t ← tRun env .update_vars ⟨s.obj, Loc.none⟩
    pure { state := { s with obj := t.obj }, ret := .unit }
  | .output k id => do
    let t ← fRun env s.obj.cfg s.obj.gauss 2 .output ⟨⟨s.obj.work, { (Loc.none : Loc α) with
      i := fun y => if y = .time_step then some k else if y = .gp_id then some id else none }⟩, s.files, none⟩
    pure { state := ⟨{ s.obj with work := t.st.w }, t.files⟩, ret := .unit }
  | .writeInfo => do
    let t ← fRun env s.obj.cfg s.obj.gauss 2 .write_info_files ⟨⟨s.obj.work, { (Loc.none : Loc α) with
      i := fun y => if y = .output_files_header then some (if s.obj.header = true then 1 else 0) else none }⟩,
      s.files, none⟩
    let h ← need (t.st.l.i .output_files_header)
    pure { state := ⟨{ s.obj with work := t.st.w, header := decide (h ≠ 0) }, t.files⟩, ret := .unit }

/-- A sequence of public calls and what they return: /repo/include/micro.hpp:109-115. -/
def textCalls (env : Env α) : List (Call α) → ObjFiles α → M (ObjFiles α × List (Ret α))
  | [], s => pure (s, [])
  | k :: l, s => do
    let r ← textStep env s k
    let z ← textCalls env l r.state
    pure (z.1, r.ret :: z.2)

/-- A program: constructor, then calls.  /repo/include/micro.hpp:98-115. -/
def textProg (env : Env α) (a : Args α) (j : Junk α) (f : Files α) (calls : List (Call α)) :
    M (ObjFiles α × List (Ret α)) := do
  let s ← ctorText env a j f
  textCalls env calls s

end Verif.Text
