import Verif.Model.Micro

/-!
# Names in the text of /repo/src/assembly.cpp, ell.cpp, solve.cpp

Generated by `tools/gen_text.py`.
-/

namespace Verif.Text

/-- Local variables and parameters of the functions in /repo/src/assembly.cpp:28-1182, /repo/src/ell.cpp:40-1876, /repo/src/solve.cpp:32-44.  `ret` is the value returned;
`material_x`, `m_x`, `solver_x` are the fields of `material`, `m`, `solver`. -/
inductive V
  | material_E | material_nu | material_k | material_mu | material_lam | material_Ka | material_Sy | material_plasticity | material_damage | m_nrow
  | m_ncol | m_nnz | m_cols | m_vals | solver_max_its | solver_its | solver_min_tol | solver_err | ret | i
  | xcoor | ycoor | eps | dux | duy | j | n | zcoor | duz | k
  | index | n0 | n1 | n2 | n3 | n4 | n5 | n6 | n7 | non_linear_one_elem
  | non_linear | be | ey | ex | d | ez | norm | Ae | nu | E
  | ctan | plasticity | e | xg | dsh | b_mat | cxb | gp | wg | m
  | ctan_secant | ctan_pert | ctan_exact | bmat | stress_pert | strain_pert | strain_0 | d_strain | strain | stress_0
  | deps | stress_gp | strain_gp | non_linear_flag | stress_ave | v | stress_aux | strain_ave | strain_aux | vol
  | tensor_dev | tensor | alpha_old | alpha_new | eps_p_old | eps_p_new | eps_dev | eps_p_dev_1 | normal | dl
  | sig_dev_trial | sig_dev_trial_norm | f_trial | stress | mat_num | elem_disp | y | x | e_i | nx
  | ny | nn | nFields | its | max_its | err | min_tol | aux | b | r
  | z | p | q | rho_0 | rho_1 | beta | dim | npe | nnz | sn
  | nFieldsnnz | npenFields | npenFields2 | nz | d1 | l | d2 | tmp | it_l | col
  | nrow | mcols | its_off | its_past | g_id | g_nr_its | g_int_vars_n | g_int_vars_k | g_macro_strain | g_macro_stress
  | g_macro_ctan | g_nr_err | g_inv_max | nl_flag | ctan_lin | sig_1 | eps_1 | d_eps | nr_its | nr_err
  | macro_stress | macro_strain | inv | gp_id | macro_ctan | t_is_linear | sig_0 | dEps | lx | ly
  | lz | dx | dy | dz | width | inv_tol | nvoi | nelem | micro_type | num_int_vars
  | output_files_header | a_dim | size | a_micro_params | micro_params | a_micro_type | elem_type | nParams | numMaterials | ml_E
  | params | ml_nu | ml_Sy | ml_Ka | ml_k | ml_mu | ml_lam | ml_plasticity | ml_damage | mat_types
  | t_get_elem_type2D | t_get_elem_type3D | x1 | y1 | x2 | y2 | z1 | z2 | time_step | ce
  | hardening
  deriving DecidableEq

/-- Functions of /repo/src/assembly.cpp:28-1182, /repo/src/ell.cpp:40-1876, /repo/src/solve.cpp:32-44. -/
inductive Fn
  | set_displ | assembly_rhs | assembly_mat | get_elem_mat2D | get_elem_mat3D | get_ctan_plast_sec
  | get_ctan_plast_exact | get_ctan_plast_pert | calc_bmat_3D | get_elem_rhs2D | get_elem_rhs3D | calc_ave_stress
  | calc_ave_strain | calc_fields | get_stress2D | get_dev_tensor | get_stress3D | plastic_step
  | get_material | get_strain2D | get_strain3D | getElemDisp2 | getElemDisp3 | solve
  | ell_set_zero_mat | ell_mvp_2D | ell_solve_jacobi_2D | ell_solve_cgpd_2D | ell_solve_cgpd_struct | ell_add_struct2D
  | ell_add_struct3D | ell_set_bc_2D | ell_set_bc_3D | ell_init_2D | ell_init_3D
  deriving DecidableEq

/-- How a parameter is passed: `int` or `bool` by value, `double` by value, reference to (or array of) .. -/
inductive Kind
  | i | d   -- by value
  | ri | rd   -- pointer to one `bool`, one `double`
  | v | m   -- array, matrix of `double`
  | mat   -- `material_t`
  | ell | solver   -- `ell_matrix *`, `ell_solver *`
  deriving DecidableEq

/-- Parameter lists in /repo/src/assembly.cpp:28-1182, /repo/src/ell.cpp:40-1876, /repo/src/solve.cpp:32-44. -/
def params : Fn → List (Kind × V)
  | .set_displ => [(.v, .eps)]
  | .assembly_rhs => [(.ri, .non_linear), (.rd, .ret)]
  | .assembly_mat => []
  | .get_elem_mat2D => [(.i, .ex), (.i, .ey), (.v, .Ae)]
  | .get_elem_mat3D => [(.i, .ex), (.i, .ey), (.i, .ez), (.v, .Ae)]
  | .get_ctan_plast_sec => [(.i, .ex), (.i, .ey), (.i, .ez), (.i, .gp), (.m, .ctan)]
  | .get_ctan_plast_exact => [(.i, .ex), (.i, .ey), (.i, .ez), (.i, .gp), (.m, .ctan)]
  | .get_ctan_plast_pert => [(.i, .ex), (.i, .ey), (.i, .ez), (.i, .gp), (.m, .ctan)]
  | .calc_bmat_3D => [(.i, .gp), (.m, .bmat)]
  | .get_elem_rhs2D => [(.i, .ex), (.i, .ey), (.ri, .non_linear), (.v, .be)]
  | .get_elem_rhs3D => [(.i, .ex), (.i, .ey), (.i, .ez), (.ri, .non_linear), (.v, .be)]
  | .calc_ave_stress => [(.v, .stress_ave)]
  | .calc_ave_strain => [(.v, .strain_ave)]
  | .calc_fields => []
  | .get_stress2D => [(.i, .ex), (.i, .ey), (.i, .gp), (.v, .strain_gp), (.ri, .non_linear), (.v, .stress_gp)]
  | .get_dev_tensor => [(.v, .tensor), (.v, .tensor_dev)]
  | .get_stress3D => [(.i, .ex), (.i, .ey), (.i, .ez), (.i, .gp), (.v, .eps), (.ri, .non_linear), (.v, .stress_gp)]
  | .plastic_step => [(.mat, .ret), (.v, .eps), (.v, .eps_p_old), (.d, .alpha_old), (.v, .eps_p_new), (.rd, .alpha_new), (.ri, .non_linear), (.v, .stress)]
  | .get_material => [(.i, .e), (.mat, .ret)]
  | .get_strain2D => [(.i, .ex), (.i, .ey), (.i, .gp), (.v, .strain_gp)]
  | .get_strain3D => [(.i, .ex), (.i, .ey), (.i, .ez), (.i, .gp), (.v, .strain_gp)]
  | .getElemDisp2 => [(.i, .ex), (.i, .ey), (.v, .elem_disp)]
  | .getElemDisp3 => [(.i, .ex), (.i, .ey), (.i, .ez), (.v, .elem_disp)]
  | .solve => []
  | .ell_set_zero_mat => [(.ell, .ret)]
  | .ell_mvp_2D => [(.ell, .ret), (.v, .x), (.v, .y)]
  | .ell_solve_jacobi_2D => [(.solver, .ret), (.ell, .ret), (.i, .nFields), (.i, .nx), (.i, .ny), (.v, .b), (.v, .x)]
  | .ell_solve_cgpd_2D => [(.solver, .ret), (.ell, .ret), (.i, .nFields), (.i, .nx), (.i, .ny), (.v, .b), (.v, .x)]
  | .ell_solve_cgpd_struct => [(.solver, .ret), (.ell, .ret), (.i, .nFields), (.i, .dim), (.i, .nn), (.v, .b), (.v, .x)]
  | .ell_add_struct2D => [(.ell, .ret), (.i, .ex), (.i, .ey), (.v, .Ae), (.i, .nFields), (.i, .nx), (.i, .ny)]
  | .ell_add_struct3D => [(.ell, .ret), (.i, .ex), (.i, .ey), (.i, .ez), (.v, .Ae), (.i, .nFields), (.i, .nx), (.i, .ny), (.i, .nz)]
  | .ell_set_bc_2D => [(.ell, .ret), (.i, .nFields), (.i, .nx), (.i, .ny)]
  | .ell_set_bc_3D => [(.ell, .ret), (.i, .nFields), (.i, .nx), (.i, .ny), (.i, .nz)]
  | .ell_init_2D => [(.ell, .ret), (.i, .nFields), (.i, .nx), (.i, .ny)]
  | .ell_init_3D => [(.ell, .ret), (.i, .nFields), (.i, .nx), (.i, .ny), (.i, .nz)]

/-- Functions of /repo/src/solve.cpp:46-66, /repo/src/homogenize.cpp:26-88, /repo/src/micro.cpp:177-224, and the loops
of the constructor that fill `elem_type` and the matrix pattern (/repo/src/micro.cpp:116-137). -/
inductive OFn
  | newton_raphson | calc_ctan_lin | is_linear | get_inv_1 | get_inv_2 | get_elem_type2D | get_elem_type3D | fill_elem_type
  deriving DecidableEq

/-- Their parameters; `ret` is the value returned. -/
def oparams : OFn → List (Kind × V)
  | .newton_raphson => [(.ri, .nl_flag), (.ri, .its), (.rd, .err)]
  | .calc_ctan_lin => []
  | .is_linear => [(.v, .macro_strain), (.ri, .ret)]
  | .get_inv_1 => [(.v, .tensor), (.rd, .ret)]
  | .get_inv_2 => [(.v, .tensor), (.rd, .ret)]
  | .get_elem_type2D => [(.i, .ex), (.i, .ey), (.ri, .ret)]
  | .get_elem_type3D => [(.i, .ex), (.i, .ey), (.i, .ez), (.ri, .ret)]
  | .fill_elem_type => []

/-- Functions over the list of Gauss points: /repo/src/homogenize.cpp:90-217, /repo/src/micro.cpp:167-175. -/
inductive TFn
  | homogenize | set_macro_strain | get_macro_stress | get_macro_ctan | update_vars | get_nl_flag
  deriving DecidableEq

/-- Functions that write files: /repo/src/output.cpp:29-285. -/
inductive FFn
  | output | write_vtu | write_info_files
  deriving DecidableEq

/-- Their parameters, all of type `int`: /repo/src/output.cpp:29, 52, 224. -/
def fparams : FFn → List V
  | .output => [.time_step, .gp_id]
  | .write_vtu => [.time_step, .gp_id]
  | .write_info_files => []

end Verif.Text
