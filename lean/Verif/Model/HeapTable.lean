/-!
# Pointers: what the text does with heap blocks

Generated by `tools/gen_heap.py`.
-/

namespace Verif.Blocks

/-- The tracked pointers: members (/repo/include/micro.hpp:69-95), locals (/repo/src/ell.cpp:68-69, 132-136, 223-227), the pointers
of a Gauss point in a loop over the list (/repo/include/micro.hpp:42-52) and of the one made in
`set_macro_strain` (/repo/src/homogenize.cpp:101-108). -/
inductive Ptr
  | b | du | u | elem_stress | elem_strain | elem_type | vars_old | vars_new | A_cols | A_vals
  | k | e_i | r | z | p | q | new_n | new_k
  | g_n | g_k
deriving DecidableEq

/-- All of them: /repo/include/micro.hpp:42-95. -/
def allPtrs : List Ptr :=
  [.b, .du, .u, .elem_stress, .elem_strain, .elem_type, .vars_old, .vars_new, .A_cols, .A_vals, .k, .e_i, .r, .z, .p, .q, .new_n, .new_k, .g_n, .g_k]

/-- Is it a member of the class?  /repo/include/micro.hpp:69-95. -/
def Ptr.isMember : Ptr → Bool
  | .b | .du | .u | .elem_stress | .elem_strain | .elem_type | .vars_old | .vars_new | .A_cols | .A_vals => true
  | _ => false

/-- Known values of `dim`: /repo/src/micro.cpp:55. -/
inductive Dim
  | two | three | other
deriving DecidableEq

/-- What is left of a statement: /repo/src/micro.cpp:55-165, /repo/src/ell.cpp:32-300, /repo/src/homogenize.cpp:90-217. -/
inductive Skel
  | skip | ret | brk
  | known                          -- `assert(dim == 2 || dim == 3)`
  | push                           -- `gauss_list.push_back(gp_n)`
  | alloc (p : Ptr) | free (p : Ptr) | null (p : Ptr) | use (p : Ptr)
  | seq (s t : Skel) | alt (s t : Skel) | loop (s : Skel)
  | ifNull (p : Ptr) (s t : Skel) | ifDim (d : Dim) (s t : Skel)
  | each (s : Skel)                -- a loop over `gauss_list`
  | frame (s : Skel)               -- a call

@[inherit_doc] infixr:58 " +> " => Skel.seq

/-- `ell_free`: /repo/src/ell.cpp:32-38. -/
def k_ell_free : Skel :=
  .ifNull .A_cols .skip (
    .free .A_cols) +>
  .ifNull .A_vals .skip (
    .free .A_vals)

/-- `ell_set_zero_mat`: /repo/src/ell.cpp:40-46. -/
def k_ell_set_zero_mat : Skel :=
  .loop (
    .loop (
      .use .A_vals)) +>
  .ret

/-- `ell_mvp_2D`: /repo/src/ell.cpp:48-56. -/
def k_ell_mvp_2D : Skel :=
  .loop (
    .loop (
      .use .A_vals +>
      .use .A_cols))

/-- `ell_solve_jacobi_2D`: /repo/src/ell.cpp:58-114. -/
def k_ell_solve_jacobi_2D : Skel :=
  .alt .ret .skip +>
  .alloc .k +>
  .alloc .e_i +>
  .loop (
    .loop (
      .use .k +>
      .use .A_vals)) +>
  .loop (
    .loop (
      .loop (
        (.use .A_cols +>
        .alt .brk .skip) +>
        .use .A_cols +>
        .alt (
          .use .A_vals +>
          .use .A_cols) .skip) +>
      .use .k) +>
    (.use .e_i +>
    .frame k_ell_mvp_2D) +>
    .loop (
      .use .e_i +>
      .use .e_i) +>
    .alt .brk .skip) +>
  .ret

/-- `ell_solve_cgpd_2D`: /repo/src/ell.cpp:116-205. -/
def k_ell_solve_cgpd_2D : Skel :=
  .alt .ret .skip +>
  .alloc .k +>
  .alloc .r +>
  .alloc .z +>
  .alloc .p +>
  .alloc .q +>
  .loop (
    .loop (
      .use .k +>
      .use .A_vals)) +>
  (.use .r +>
  .frame k_ell_mvp_2D) +>
  .loop (
    .use .r) +>
  .loop (
    .loop (
      .use .r) +>
    .alt .brk .skip +>
    .loop (
      .use .z +>
      .use .k +>
      .use .r) +>
    .loop (
      .use .r +>
      .use .z) +>
    .alt (
      .loop (
        .use .p +>
        .use .z)) (
      .loop (
        .use .p +>
        .use .z)) +>
    (.use .p +>
    .use .q +>
    .frame k_ell_mvp_2D) +>
    .loop (
      .use .p +>
      .use .q) +>
    .loop (
      .use .p +>
      .use .r +>
      .use .q)) +>
  .free .k +>
  .free .r +>
  .free .z +>
  .free .p +>
  .free .q +>
  .ret

/-- `ell_solve_cgpd_struct`: /repo/src/ell.cpp:207-300. -/
def k_ell_solve_cgpd_struct : Skel :=
  .alt .ret .skip +>
  .alloc .k +>
  .alloc .r +>
  .alloc .z +>
  .alloc .p +>
  .alloc .q +>
  .alt (
    .loop (
      .loop (
        .use .k +>
        .use .A_vals))) (
    .alt (
      .loop (
        .loop (
          .use .k +>
          .use .A_vals))) .skip) +>
  (.use .r +>
  .frame k_ell_mvp_2D) +>
  .loop (
    .use .r) +>
  .loop (
    .loop (
      .use .r) +>
    .alt .brk .skip +>
    .loop (
      .use .z +>
      .use .k +>
      .use .r) +>
    .loop (
      .use .r +>
      .use .z) +>
    .alt (
      .loop (
        .use .p +>
        .use .z)) (
      .loop (
        .use .p +>
        .use .z)) +>
    (.use .p +>
    .use .q +>
    .frame k_ell_mvp_2D) +>
    .loop (
      .use .p +>
      .use .q) +>
    .loop (
      .use .p +>
      .use .r +>
      .use .q)) +>
  .free .k +>
  .free .r +>
  .free .z +>
  .free .p +>
  .free .q +>
  .ret

/-- `ell_print`: /repo/src/ell.cpp:302-327. -/
def k_ell_print : Skel :=
  .alt .ret .skip +>
  .alt .ret .skip +>
  .loop (
    .loop (
      .use .A_cols)) +>
  .loop (
    .loop (
      .use .A_vals)) +>
  .ret

/-- `ell_add_struct2D`: /repo/src/ell.cpp:329-358. -/
def k_ell_add_struct2D : Skel :=
  .loop (
    .loop (
      .loop (
        .loop (
          .use .A_vals))))

/-- `ell_add_struct3D`: /repo/src/ell.cpp:360-399. -/
def k_ell_add_struct3D : Skel :=
  .loop (
    .loop (
      .loop (
        .loop (
          .use .A_vals))))

/-- `ell_set_bc_2D`: /repo/src/ell.cpp:401-535. -/
def k_ell_set_bc_2D : Skel :=
  .use .A_vals

/-- `ell_set_bc_3D`: /repo/src/ell.cpp:537-705. -/
def k_ell_set_bc_3D : Skel :=
  .use .A_vals

/-- `ell_init_2D`: /repo/src/ell.cpp:707-863. -/
def k_ell_init_2D : Skel :=
  .alloc .A_cols +>
  .alloc .A_vals +>
  .loop (
    .use .A_cols)

/-- `ell_init_3D`: /repo/src/ell.cpp:865-1876. -/
def k_ell_init_3D : Skel :=
  .alloc .A_cols +>
  .alloc .A_vals +>
  .use .A_cols +>
  .use .A_cols +>
  .use .A_cols +>
  .use .A_cols +>
  .use .A_cols +>
  .use .A_cols +>
  .use .A_cols +>
  .use .A_cols +>
  .loop (
    .use .A_cols) +>
  .loop (
    .use .A_cols) +>
  .loop (
    .use .A_cols) +>
  .loop (
    .use .A_cols) +>
  .loop (
    .use .A_cols) +>
  .loop (
    .use .A_cols) +>
  .loop (
    .use .A_cols) +>
  .loop (
    .use .A_cols) +>
  .loop (
    .use .A_cols) +>
  .loop (
    .use .A_cols) +>
  .loop (
    .use .A_cols) +>
  .loop (
    .use .A_cols) +>
  .loop (
    .loop (
      .use .A_cols)) +>
  .loop (
    .loop (
      .use .A_cols)) +>
  .loop (
    .loop (
      .use .A_cols)) +>
  .loop (
    .loop (
      .use .A_cols)) +>
  .loop (
    .loop (
      .use .A_cols)) +>
  .loop (
    .loop (
      .use .A_cols)) +>
  .loop (
    .loop (
      .loop (
        .use .A_cols)))

/-- `set_displ`: /repo/src/assembly.cpp:29-168. -/
def k_set_displ : Skel :=
  .ifDim .two (
    .loop (
      .use .u +>
      .use .u) +>
    .loop (
      .use .u +>
      .use .u) +>
    .loop (
      .use .u +>
      .use .u) +>
    .loop (
      .use .u +>
      .use .u)) (
    .ifDim .three (
      .loop (
        .loop (
          .use .u +>
          .use .u +>
          .use .u)) +>
      .loop (
        .loop (
          .use .u +>
          .use .u +>
          .use .u)) +>
      .loop (
        .loop (
          .use .u +>
          .use .u +>
          .use .u)) +>
      .loop (
        .loop (
          .use .u +>
          .use .u +>
          .use .u)) +>
      .loop (
        .loop (
          .use .u +>
          .use .u +>
          .use .u)) +>
      .loop (
        .loop (
          .use .u +>
          .use .u +>
          .use .u))) .skip)

/-- `getElemDisp`: /repo/src/assembly.cpp:1146-1159. -/
def k_getElemDisp : Skel :=
  .loop (
    .use .u +>
    .use .u +>
    .use .u +>
    .use .u)

/-- `get_strain2D`: /repo/src/assembly.cpp:1089-1127. -/
def k_get_strain2D : Skel :=
  .frame k_getElemDisp

/-- `get_material`: /repo/src/assembly.cpp:1064-1087. -/
def k_get_material : Skel :=
  .alt (
    .use .elem_type) (
    .alt (
      .use .elem_type) .skip)

/-- `get_stress2D`: /repo/src/assembly.cpp:924-961. -/
def k_get_stress2D : Skel :=
  .frame k_get_material

/-- `get_elem_rhs2D`: /repo/src/assembly.cpp:654-699. -/
def k_get_elem_rhs2D : Skel :=
  .loop (
    .frame k_get_strain2D +>
    .frame k_get_stress2D)

/-- `calc_bmat_3D`: /repo/src/assembly.cpp:590-652. -/
def k_calc_bmat_3D : Skel :=
  .skip

/-- `getElemDisp`: /repo/src/assembly.cpp:1161-1182. -/
def k_getElemDisp_3 : Skel :=
  .loop (
    .use .u +>
    .use .u +>
    .use .u +>
    .use .u +>
    .use .u +>
    .use .u +>
    .use .u +>
    .use .u)

/-- `get_strain3D`: /repo/src/assembly.cpp:1129-1144. -/
def k_get_strain3D : Skel :=
  .frame k_getElemDisp_3 +>
  .frame k_calc_bmat_3D

/-- `get_dev_tensor`: /repo/src/assembly.cpp:963-970. -/
def k_get_dev_tensor : Skel :=
  .skip

/-- `plastic_step`: /repo/src/assembly.cpp:1007-1062. -/
def k_plastic_step : Skel :=
  .frame k_get_dev_tensor +>
  .frame k_get_dev_tensor

/-- `get_stress3D`: /repo/src/assembly.cpp:972-1005. -/
def k_get_stress3D : Skel :=
  .frame k_get_material +>
  .alt (
    .loop (
      .use .vars_old) +>
    .use .vars_old +>
    .frame k_plastic_step +>
    .loop (
      .use .vars_new) +>
    .use .vars_new) .skip

/-- `get_elem_rhs3D`: /repo/src/assembly.cpp:701-722. -/
def k_get_elem_rhs3D : Skel :=
  .loop (
    .frame k_calc_bmat_3D +>
    .frame k_get_strain3D +>
    .frame k_get_stress3D)

/-- `assembly_rhs`: /repo/src/assembly.cpp:170-331. -/
def k_assembly_rhs : Skel :=
  .loop (
    .use .b) +>
  .ifDim .two (
    .loop (
      .loop (
        .frame k_get_elem_rhs2D +>
        .loop (
          .use .b))) +>
    .loop (
      .loop (
        .use .b)) +>
    .loop (
      .loop (
        .use .b)) +>
    .loop (
      .loop (
        .use .b)) +>
    .loop (
      .loop (
        .use .b))) (
    .ifDim .three (
      .loop (
        .loop (
          .loop (
            .frame k_get_elem_rhs3D +>
            .loop (
              .use .b)))) +>
      .loop (
        .loop (
          .loop (
            .use .b))) +>
      .loop (
        .loop (
          .loop (
            .use .b))) +>
      .loop (
        .loop (
          .loop (
            .use .b))) +>
      .loop (
        .loop (
          .loop (
            .use .b))) +>
      .loop (
        .loop (
          .loop (
            .use .b))) +>
      .loop (
        .loop (
          .loop (
            .use .b)))) .skip) +>
  .loop (
    .use .b) +>
  .loop (
    .use .b) +>
  .ret

/-- `get_elem_mat2D`: /repo/src/assembly.cpp:366-443. -/
def k_get_elem_mat2D : Skel :=
  .frame k_get_material

/-- `get_ctan_plast_sec`: /repo/src/assembly.cpp:511-532. -/
def k_get_ctan_plast_sec : Skel :=
  .frame k_get_strain3D +>
  .loop (
    .frame k_get_stress3D)

/-- `get_ctan_plast_exact`: /repo/src/assembly.cpp:534-569. -/
def k_get_ctan_plast_exact : Skel :=
  .frame k_get_strain3D +>
  .frame k_get_material

/-- `get_ctan_plast_pert`: /repo/src/assembly.cpp:571-588. -/
def k_get_ctan_plast_pert : Skel :=
  .frame k_get_strain3D +>
  .frame k_get_stress3D +>
  .loop (
    .frame k_get_stress3D)

/-- `get_elem_mat3D`: /repo/src/assembly.cpp:445-509. -/
def k_get_elem_mat3D : Skel :=
  .frame k_get_material +>
  .loop (
    .alt (
      .alt (
        .frame k_get_ctan_plast_sec) (
        .alt (
          .frame k_get_ctan_plast_exact) (
          .alt (
            .frame k_get_ctan_plast_pert) .skip))) .skip +>
    .frame k_calc_bmat_3D)

/-- `assembly_mat`: /repo/src/assembly.cpp:333-364. -/
def k_assembly_mat : Skel :=
  .frame k_ell_set_zero_mat +>
  .ifDim .two (
    .loop (
      .loop (
        .frame k_get_elem_mat2D +>
        .frame k_ell_add_struct2D)) +>
    .frame k_ell_set_bc_2D) (
    .ifDim .three (
      .loop (
        .loop (
          .loop (
            .frame k_get_elem_mat3D +>
            .frame k_ell_add_struct3D))) +>
      .frame k_ell_set_bc_3D) .skip)

/-- `calc_ave_stress`: /repo/src/assembly.cpp:724-788. -/
def k_calc_ave_stress : Skel :=
  .ifDim .two (
    .loop (
      .loop (
        .loop (
          .frame k_get_strain2D +>
          .frame k_get_stress2D)))) (
    .ifDim .three (
      .loop (
        .loop (
          .loop (
            .loop (
              .frame k_get_strain3D +>
              .frame k_get_stress3D))))) .skip)

/-- `calc_ave_strain`: /repo/src/assembly.cpp:790-844. -/
def k_calc_ave_strain : Skel :=
  .ifDim .two (
    .loop (
      .loop (
        .loop (
          .frame k_get_strain2D)))) (
    .ifDim .three (
      .loop (
        .loop (
          .loop (
            .loop (
              .frame k_get_strain3D))))) .skip)

/-- `calc_fields`: /repo/src/assembly.cpp:846-922. -/
def k_calc_fields : Skel :=
  .ifDim .two (
    .loop (
      .loop (
        .loop (
          .frame k_get_strain2D +>
          .frame k_get_stress2D) +>
        .loop (
          .use .elem_strain +>
          .use .elem_stress)))) (
    .ifDim .three (
      .loop (
        .loop (
          .loop (
            .loop (
              .frame k_get_strain3D +>
              .frame k_get_stress3D) +>
            .loop (
              .use .elem_strain +>
              .use .elem_stress))))) .skip)

/-- `solve`: /repo/src/solve.cpp:32-44. -/
def k_solve : Skel :=
  .ifDim .two (
    .use .b +>
    .use .du +>
    .frame k_ell_solve_cgpd_2D) (
    .ifDim .three (
      .use .b +>
      .use .du +>
      .frame k_ell_solve_cgpd_struct) .skip)

/-- `newton_raphson`: /repo/src/solve.cpp:46-66. -/
def k_newton_raphson : Skel :=
  .loop (
    .frame k_assembly_rhs +>
    .alt .brk .skip +>
    .frame k_assembly_mat +>
    .loop (
      .use .du) +>
    .frame k_solve +>
    .loop (
      .use .u +>
      .use .du))

/-- `calc_ctan_lin`: /repo/src/homogenize.cpp:26-47. -/
def k_calc_ctan_lin : Skel :=
  .loop (
    .frame k_set_displ +>
    .frame k_newton_raphson +>
    .frame k_calc_ave_stress)

/-- `get_inv_1`: /repo/src/homogenize.cpp:65-75. -/
def k_get_inv_1 : Skel :=
  .known +>
  .ifDim .two .ret (
    .ifDim .three .ret .skip) +>
  .ret

/-- `is_linear`: /repo/src/homogenize.cpp:49-63. -/
def k_is_linear : Skel :=
  .frame k_get_inv_1 +>
  .ret

/-- `get_inv_2`: /repo/src/homogenize.cpp:77-88. -/
def k_get_inv_2 : Skel :=
  .ifDim .three .ret .skip +>
  .ret

/-- `set_macro_strain`: /repo/src/homogenize.cpp:90-110. -/
def k_set_macro_strain : Skel :=
  .each (
    .alt .brk .skip) +>
  .alt (
    .null .new_n +>
    .null .new_k +>
    .push) .skip

/-- `get_macro_stress`: /repo/src/homogenize.cpp:112-120. -/
def k_get_macro_stress : Skel :=
  .each (
    .alt .brk .skip)

/-- `get_macro_ctan`: /repo/src/homogenize.cpp:122-130. -/
def k_get_macro_ctan : Skel :=
  .each (
    .alt .brk .skip)

/-- `homogenize`: /repo/src/homogenize.cpp:132-209. -/
def k_homogenize : Skel :=
  .each (
    .ifNull .g_n (
      .loop (
        .use .vars_old)) (
      .loop (
        .use .vars_old +>
        .use .g_n)) +>
    .frame k_is_linear +>
    .alt .skip (
      .frame k_set_displ +>
      .frame k_newton_raphson +>
      .frame k_calc_ave_stress +>
      .alt (
        .ifNull .g_n (
          .alloc .g_k +>
          .alloc .g_n +>
          .loop (
            .use .g_n)) .skip +>
        .loop (
          .use .g_k +>
          .use .vars_new)) .skip +>
      .loop (
        .frame k_set_displ +>
        .frame k_newton_raphson +>
        .frame k_calc_ave_stress)))

/-- `update_vars`: /repo/src/homogenize.cpp:211-217. -/
def k_update_vars : Skel :=
  .each (
    .ifNull .g_n .skip (
      .loop (
        .use .g_n +>
        .use .g_k)))

/-- `write_vtu`: /repo/src/output.cpp:52-222. -/
def k_write_vtu : Skel :=
  .ifDim .two .skip (
    .ifDim .three .skip .skip) +>
  .ifDim .two .skip (
    .ifDim .three .skip .skip) +>
  .loop (
    .ifDim .two .skip (
      .ifDim .three .skip .skip)) +>
  .loop (
    .ifDim .two (
      .use .u) (
      .ifDim .three (
        .use .u) .skip)) +>
  .loop (
    .ifDim .two (
      .use .b) (
      .ifDim .three (
        .use .b) .skip)) +>
  .loop (
    .loop (
      .use .elem_strain)) +>
  .loop (
    .loop (
      .use .elem_stress)) +>
  .loop (
    .use .elem_type) +>
  .loop (
    .ifNull .vars_old .skip (
      .ifDim .three (
        .loop (
          .use .vars_old)) .skip)) +>
  .loop (
    .ifNull .vars_old .skip (
      .ifDim .three (
        .loop (
          .use .vars_old)) .skip))

/-- `output`: /repo/src/output.cpp:29-50. -/
def k_output : Skel :=
  .each (
    .alt (
      .ifNull .g_n (
        .loop (
          .use .vars_old)) (
        .loop (
          .use .vars_old +>
          .use .g_n)) +>
      .frame k_set_displ +>
      .frame k_newton_raphson +>
      .frame k_calc_fields +>
      .frame k_write_vtu +>
      .brk) .skip)

/-- `write_info_files`: /repo/src/output.cpp:224-285. -/
def k_write_info_files : Skel :=
  .each (
    .loop (
      .ifNull .g_n .skip (
        .use .g_n)))

/-- `get_elem_type2D`: /repo/src/micro.cpp:177-198. -/
def k_get_elem_type2D : Skel :=
  .alt .ret (
    .alt .ret .skip) +>
  .ret

/-- `get_elem_type3D`: /repo/src/micro.cpp:200-224. -/
def k_get_elem_type3D : Skel :=
  .alt .ret (
    .alt .ret .skip) +>
  .ret

/-- `micropp_t`: /repo/src/micro.cpp:28-146. -/
def k_ctor : Skel :=
  .known +>
  .alloc .b +>
  .alloc .du +>
  .alloc .u +>
  .alloc .elem_stress +>
  .alloc .elem_strain +>
  .alloc .elem_type +>
  .alloc .vars_old +>
  .alloc .vars_new +>
  .ifDim .two (
    .loop (
      .loop (
        .use .elem_type +>
        .frame k_get_elem_type2D)) +>
    .frame k_ell_init_2D) (
    .ifDim .three (
      .loop (
        .loop (
          .loop (
            .use .elem_type +>
            .frame k_get_elem_type3D))) +>
      .frame k_ell_init_3D) .skip) +>
  .frame k_calc_ctan_lin

/-- `~micropp_t`: /repo/src/micro.cpp:148-165. -/
def k_dtor : Skel :=
  .frame k_ell_free +>
  .free .b +>
  .free .du +>
  .free .u +>
  .free .elem_stress +>
  .free .elem_strain +>
  .free .elem_type +>
  .free .vars_old +>
  .free .vars_new +>
  .each (
    .free .g_n +>
    .free .g_k)

/-- `get_nl_flag`: /repo/src/micro.cpp:167-175. -/
def k_get_nl_flag : Skel :=
  .each (
    .alt .brk .skip)

/-- The methods other than constructor and destructor; all of them are public: /repo/include/micro.hpp:97-164. -/
def methods : List Skel :=
  [k_set_displ,
    k_getElemDisp,
    k_get_strain2D,
    k_get_material,
    k_get_stress2D,
    k_get_elem_rhs2D,
    k_calc_bmat_3D,
    k_getElemDisp_3,
    k_get_strain3D,
    k_get_dev_tensor,
    k_plastic_step,
    k_get_stress3D,
    k_get_elem_rhs3D,
    k_assembly_rhs,
    k_get_elem_mat2D,
    k_get_ctan_plast_sec,
    k_get_ctan_plast_exact,
    k_get_ctan_plast_pert,
    k_get_elem_mat3D,
    k_assembly_mat,
    k_calc_ave_stress,
    k_calc_ave_strain,
    k_calc_fields,
    k_solve,
    k_newton_raphson,
    k_calc_ctan_lin,
    k_get_inv_1,
    k_is_linear,
    k_get_inv_2,
    k_set_macro_strain,
    k_get_macro_stress,
    k_get_macro_ctan,
    k_homogenize,
    k_update_vars,
    k_write_vtu,
    k_output,
    k_write_info_files,
    k_get_elem_type2D,
    k_get_elem_type3D,
    k_get_nl_flag]

end Verif.Blocks
