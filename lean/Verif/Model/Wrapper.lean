import Verif.Model.Output

/-!
# Fortran interface: /repo/src/wrapper.cpp
-/

namespace Verif

variable {α : Type} [Scalar α]

/-- The static pointer (`none` is NULL: /repo/src/wrapper.cpp:27), the files, and the objects that
were constructed and are no longer reachable. -/
structure World (α : Type) where
  micro : Option (Obj α)
  files : Files α
  abandoned : List (Obj α)

/-- `micropp_construct_`: /repo/src/wrapper.cpp:30-34.  The previous pointer is overwritten. -/
def wConstruct (env : Env α) (a : Args α) (j : Junk α) (w : World α) : M (World α) := do
  let r ← constructF env a j w.files
  pure { micro := some r.obj, files := r.files,
         abandoned := (match w.micro with
           | some o => o :: w.abandoned
           | none => w.abandoned) }

/-- A wrapper call after the dereference of `micro`. -/
structure WStepped (α : Type) where
  world : World α
  ret : Ret α

/-- `micro->f(..)`. -/
def wCall (env : Env α) (w : World α) (k : Call α) : M (WStepped α) :=
  match w.micro with
  | none => .error .null
  | some o => do
    let r ← step env { obj := o, files := w.files } k
    pure { world := { w with micro := some r.state.obj, files := r.state.files }, ret := r.ret }

/-- `micropp_output_`: /repo/src/wrapper.cpp:36-39. -/
def wOutput (env : Env α) (w : World α) (tstep id : Int) := wCall env w (.output tstep id)

/-- `micropp_get_non_linear_flag_`: /repo/src/wrapper.cpp:41-44. -/
def wGetNl (env : Env α) (w : World α) (id : Int) := wCall env w (.getNl id)

/-- `micropp_set_macro_strain_`: /repo/src/wrapper.cpp:46-49. -/
def wSetStrain (env : Env α) (w : World α) (id : Int) (eps : Nat → α) :=
  wCall env w (.setStrain id eps)

/-- `micropp_homogenize_`: /repo/src/wrapper.cpp:51-54. -/
def wHomogenize (env : Env α) (w : World α) := wCall env w .homogenize

/-- `micropp_get_macro_stress_`: /repo/src/wrapper.cpp:56-59. -/
def wGetStress (env : Env α) (w : World α) (id : Int) (buf : Nat → α) :=
  wCall env w (.getStress id buf)

/-- `micropp_get_macro_ctan_`: /repo/src/wrapper.cpp:61-64. -/
def wGetCtan (env : Env α) (w : World α) (id : Int) (buf : Nat → α) :=
  wCall env w (.getCtan id buf)

/-- `micropp_update_internal_variables_`: /repo/src/wrapper.cpp:66-69. -/
def wUpdate (env : Env α) (w : World α) := wCall env w .updateVars

/-- `micropp_write_convergence_file_`: /repo/src/wrapper.cpp:71-74. -/
def wWriteInfo (env : Env α) (w : World α) := wCall env w .writeInfo

end Verif
