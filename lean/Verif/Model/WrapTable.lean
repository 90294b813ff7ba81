import Verif.Model.TextNames

/-!
# The text of /repo/src/wrapper.cpp

Generated by `tools/gen_wrap.py`.
-/

namespace Verif.Text

/-- The type of a parameter: `int`, `int *` (or an array), `double *`, the same with `const`.
/repo/src/wrapper.cpp:30-71, /repo/src/micro.cpp:28-29. -/
inductive PT
  | int | intp | dblp | cintp | cdblp
deriving DecidableEq

/-- An argument of the call in a wrapper: `*p` or `p`.  /repo/src/wrapper.cpp:33-73. -/
inductive WArg (ν : Type)
  | deref (x : ν) | ptr (x : ν)

/-- The names of the parameters: /repo/src/wrapper.cpp:30-71. -/
inductive WV
  | dim | size | micro_type | micro_params | mat_types | params | tstep | gp_id | non_linear | macro_strain | macro_stress | macro_ctan
deriving DecidableEq

/-- The functions of the Fortran interface: /repo/src/wrapper.cpp:30-74. -/
inductive WFn
  | micropp_construct_
  | micropp_output_
  | micropp_get_non_linear_flag_
  | micropp_set_macro_strain_
  | micropp_homogenize_
  | micropp_get_macro_stress_
  | micropp_get_macro_ctan_
  | micropp_update_internal_variables_
  | micropp_write_convergence_file_
deriving DecidableEq

/-- The methods they call: /repo/src/wrapper.cpp:38-73. -/
inductive Meth
  | output | get_nl_flag | set_macro_strain | homogenize | get_macro_stress | get_macro_ctan | update_vars | write_info_files
deriving DecidableEq

/-- The statement of a wrapper: `micro = new micropp_t(..)` or `micro->m(..)`.  /repo/src/wrapper.cpp:33-73. -/
inductive WBody
  | new (args : List (WArg WV)) | call (m : Meth) (args : List (WArg WV))

/-- Parameters: /repo/src/wrapper.cpp:30, 36, 41, 46, 51, 56, 61, 66, 71. -/
def wparams : WFn → List (WV × PT)
  | .micropp_construct_ => [(.dim, .intp), (.size, .intp), (.micro_type, .intp), (.micro_params, .dblp), (.mat_types, .intp), (.params, .dblp)]
  | .micropp_output_ => [(.tstep, .intp), (.gp_id, .intp)]
  | .micropp_get_non_linear_flag_ => [(.gp_id, .intp), (.non_linear, .intp)]
  | .micropp_set_macro_strain_ => [(.gp_id, .intp), (.macro_strain, .dblp)]
  | .micropp_homogenize_ => []
  | .micropp_get_macro_stress_ => [(.gp_id, .intp), (.macro_stress, .dblp)]
  | .micropp_get_macro_ctan_ => [(.gp_id, .intp), (.macro_ctan, .dblp)]
  | .micropp_update_internal_variables_ => []
  | .micropp_write_convergence_file_ => []

/-- Statements: /repo/src/wrapper.cpp:30-34, 36-39, 41-44, 46-49, 51-54, 56-59, 61-64, 66-69, 71-74. -/
def wbody : WFn → WBody
  | .micropp_construct_ => .new [.deref .dim, .ptr .size, .deref .micro_type, .ptr .micro_params, .ptr .mat_types, .ptr .params]
  | .micropp_output_ => .call .output [.deref .tstep, .deref .gp_id]
  | .micropp_get_non_linear_flag_ => .call .get_nl_flag [.deref .gp_id, .ptr .non_linear]
  | .micropp_set_macro_strain_ => .call .set_macro_strain [.deref .gp_id, .ptr .macro_strain]
  | .micropp_homogenize_ => .call .homogenize []
  | .micropp_get_macro_stress_ => .call .get_macro_stress [.deref .gp_id, .ptr .macro_stress]
  | .micropp_get_macro_ctan_ => .call .get_macro_ctan [.deref .gp_id, .ptr .macro_ctan]
  | .micropp_update_internal_variables_ => .call .update_vars []
  | .micropp_write_convergence_file_ => .call .write_info_files []

/-- Parameters of the methods: /repo/src/output.cpp:29, /repo/src/micro.cpp:167, /repo/src/homogenize.cpp:90, /repo/src/homogenize.cpp:132, /repo/src/homogenize.cpp:112, /repo/src/homogenize.cpp:122, /repo/src/homogenize.cpp:211, /repo/src/output.cpp:224. -/
def mparams : Meth → List (V × PT)
  | .output => [(.time_step, .int), (.gp_id, .int)]
  | .get_nl_flag => [(.gp_id, .int), (.non_linear, .intp)]
  | .set_macro_strain => [(.gp_id, .int), (.macro_strain, .cdblp)]
  | .homogenize => []
  | .get_macro_stress => [(.gp_id, .int), (.macro_stress, .dblp)]
  | .get_macro_ctan => [(.gp_id, .int), (.macro_ctan, .dblp)]
  | .update_vars => []
  | .write_info_files => []

/-- Parameters of the constructor: /repo/src/micro.cpp:28-29. -/
def kparams : List (V × PT) := [(.a_dim, .int), (.size, .cintp), (.a_micro_type, .int), (.a_micro_params, .cdblp), (.mat_types, .cintp), (.params, .cdblp)]

end Verif.Text
