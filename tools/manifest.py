#!/usr/bin/env python3
"""Write MANIFEST.json from the table below."""
import json, os
C = []
def claim(p, status, theorems, note=""):
    C.append({"property": p, "status": status, "theorems": theorems, "note": note})

P = "Verif.Props."
def T(*names):
    return [P + n for n in names]

claim("C01", "proved", T("C01_pattern3D"))
claim("C02", "partial", T("C02_pattern2D_partial", "C02_pattern2D_fails", "C02_pattern2D_two_rows"),
      "Violated by the code (ell.cpp:840): slot 7 of right-side nodes. Negation proved for every grid with ny >= 3; everything else proved.")
claim("C03", "proved", T("C03_safe3D", "C03_safe2D"), "For every scalar type, including IEEE doubles.")
claim("C04", "proved", T("C04_set_zero"))
claim("C05", "proved", T("C05_add3D"))
claim("C06", "partial", T("C06_add2D_partial", "C06_add2D_fails"),
      "Violated for rows of right-side nodes because of the pattern error C02; proved for all other rows.")
claim("C07", "proved", T("C07_order3D", "C07_order2D"))
claim("C08", "proved", T("C08_bc3D"))
claim("C09", "partial", T("C09_bc2D_partial", "C09_bc2D_fails"),
      "Violated for rows next to the upper and right sides; boundary rows, interior couplings and all other rows proved.")
claim("C10", "proved", T("C10_mvp", "C10_linear"))
claim("C11", "proved", T("C11_truthful"), "Exact arithmetic.")
claim("C12", "proved", T("C12_terminates", "C12_steps"),
      "Termination, bound and converged start for every scalar type; identification of the steps in exact arithmetic.")
claim("C13", "proved", T("C13_finite"), "Exact arithmetic.")
claim("C14", "proved", T("C14_energy"), "Exact arithmetic.")
claim("C15", "proved", T("C15_fixed", "C15_columns"), "Exact arithmetic.")
claim("C16", "proved", T("C16_null", "C16_nonnull"))
claim("C17", "proved", T("C17_truthful", "C17_fixed_point", "C17_energy"), "Exact arithmetic.")

claim("C32", "proved", T("C32_yield", "C32_admissible", "C32_history", "C32_get_stress"), "Exact arithmetic.")
claim("C33", "partial", T("C33_consistency_partial", "C33_consistency_fails"),
      "Violated by the code for every positive hardening modulus (assembly.cpp:1042 multiplies the hardening term by 0.0): negation proved. The stress lies on the old yield surface; on the new one iff Ka = 0.")
claim("C34", "proved", T("C34_hardening", "C34_isochoric", "C34_mean", "C34_work", "C34_history"), "Exact arithmetic.")
claim("C35", "partial", T("C35_idempotent_partial", "C35_idempotent_fails"),
      "Violated by the code for strains with shear (plastic shear strain lacks the engineering factor 2): negation proved. Exact characterisation of when it holds proved.")
claim("C36", "proved", T("C36_nonexpansive", "C36_continuous"), "Exact arithmetic.")
claim("C37", "proved", T("C37_elastic_stress", "C37_elastic_tangent"), "Exact arithmetic.")
claim("C39", "proved", T("C39_map"), "Every scalar type.")
claim("C40", "proved", T("C40_getters"), "Every scalar type.")
claim("C41", "proved", T("C41_linear", "C41_returns"), "Every scalar type.")
claim("C42", "proved", T("C42_permanent"), "Every scalar type.")
claim("C43", "proved", T("C43_trial", "C43_update"), "Every scalar type.")
claim("C45", "partial", T("C45_tolerance_fails", "C45_decides_partial"),
      "Violated by the code: inv_tol is initialised from the uninitialised member micro_params[4], so the user's value is ignored (proved). What holds: the member inv_tol decides the path.")
claim("C51", "proved", T("C51_info", "C51_object"), "Every scalar type. C51_object: from construction on, whatever the files held before.")
claim("C52", "proved", T("C52_forwards", "C52_null", "C52_abandons"), "Every scalar type.")

claim("C19", "proved", T("C19_displ", "C19_interior"), "Exact arithmetic; the untouched interior for every scalar type.")
claim("C20", "proved", T("C20_strain", "C20_patch"), "Exact arithmetic.")
claim("C21", "partial", T("C21_partial", "C21_fails"),
      "calc_ave_strain divides by lx*ly also in 3D: the result is lz times the macro strain. Proved up to that factor; exact in 2D and for lz = 1.")
claim("C22", "partial", T("C22_partial", "C22_fails"),
      "calc_ave_stress divides by lx*ly also in 3D: the result is lz times the average. Proved up to that factor; exact in 2D and for lz = 1.")
claim("C23", "proved", T("C23_element"), "Exact arithmetic.")
claim("C24", "proved", T("C24_element", "C24_residual", "C24_newton"), "Exact arithmetic.")
claim("C25", "proved", T("C25_spd", "C25_solution"), "Exact arithmetic.")
claim("C29", "partial", T("C29_hill_mandel", "C29_partial", "C29_fails"),
      "Proved for the true averages, for every material. For the value of calc_ave_stress it holds up to the factor lz in 3D and fails for lz != 1.")
claim("C30", "proved", T("C30_stiffness"), "Exact arithmetic.")
claim("C31", "partial", T("C31_partial", "C31_fails"),
      "The equilibrated field is proved to be the affine one. The macro stress is the law up to the factor lz in 3D; exact in 2D and for lz = 1.")
claim("C56", "proved", T("C56_safe", "C56_returns", "C56_wrapper", "C56_needed"), "Every scalar type.")
claim("C26", "proved", T("C26_linear"), "Exact arithmetic.")
claim("C27", "proved", T("C27_boundary", "C27_truthful"),
      "Boundary: exact arithmetic, every material. Truthful error: every scalar type.")
claim("C28", "partial", T("C28_partial", "C28_fails", "C28_report", "C28_limit", "C28_undefined"),
      "solve.cpp:63 increments the pointer its instead of the counter: the reported number is always 0, the loop test reads past the caller's int and the limit is not enforced. C28_partial: with a first residual below the tolerance the function returns at once with the correct count 0.")
claim("C38", "partial", T("C38_partial", "C38_sound", "C38_fails"),
      "get_stress3D resets the flag at every Gauss point (assembly.cpp:975), so only the last Gauss point of an element counts. Proved: the flag is set exactly when the last Gauss point of some element yields, hence never without a reason; a state where a point yields and the flag stays false.")
claim("C44", "partial", T("C44_partial", "C44_fails"),
      "homogenize stores trial variables only when the evaluation is flagged non-linear, so update_vars may commit the variables of an earlier, rejected trial (proved on a concrete run). Proved for every scalar type: flagged evaluations are committed exactly; otherwise the previous trial values are.")
claim("C46", "partial", T("C46_partial", "C46_fails", "C46_elastic_fails"),
      "The constructor computes ctan_lin from uninitialised vars_old and u: two objects with the same arguments return different tangents (proved through vars_old for a plastic cell, and through u for an elastic cell). What holds: grid, materials and element types do not depend on memory contents.")
claim("C53", "partial", T("C53_partial", "C53_elastic", "C53_zeroed", "C53_fails"),
      "vars_new is never initialised and never written for elements without plasticity, so garbage is committed (proved). Proved: such an entry is zero or the initial garbage; zero with zeroed memory; no variables at all in 2D and in cells without plasticity.")
claim("C47", "proved", T("C47_elements", "C47_nelem", "C47_nodes", "C47_intvars"))
claim("C48", "proved", T("C48_layered", "C48_layers", "C48_inclusion", "C48_mirror", "C48_material"),
      "For every state reached by public calls. The inclusion test compares squares, so a negative width acts like its absolute value.")
claim("C49", "proved", T("C49_constants", "C49_positive", "C49_plane", "C49_damage"),
      "C49_damage: replacing type 2 by type 0 changes no returned value and no file of any call sequence.")
claim("C55", "partial", T("C55_inv1", "C55_inv1_plane", "C55_partial", "C55_fails"),
      "get_inv_2 adds the squared shears instead of subtracting them, so it is not frame indifferent (45 degree witness). Proved: its exact difference from the second principal invariant; get_inv_1 is the trace, linear and invariant.")
claim("C50", "proved", T("C50_vtu", "C50_internal"),
      "For every state reached by public calls; C50_vtu for every scalar type. The file is a list of tokens; C84 reads its characters.")
claim("C57", "proved", T("C57_fields"),
      "Exact arithmetic, every material. calc_ave_stress itself returns lz times the average in 3D, as in C22.")
claim("C18", "partial", T("C18_partial", "C18_cg", "C18_object", "C18_erase", "C18_owned", "C18_jacobi_fails", "C18_jacobi_leaks",
                          "C18_wrapper_fails", "C18_wrapper_leaks", "C18_copy_fails"),
      "Every scalar type, every call sequence. Proved for both CG solvers and for the life of an object. Violated by ell_solve_jacobi_2D (two blocks per call) and by the Fortran interface (no destructor call): negations proved.")
claim("C54", "proved", T("C54_plane", "C54_space", "C54_nodes_plane", "C54_nodes_space", "C54_size_plane", "C54_size_space", "C54_cube", "C54_index_overflow"),
      "The integer expressions are extracted from the text of ell.cpp by tools/gen_int32.py. Variables range over the bounds of their loops; for the running node number of ell_set_bc_2D that is a hypothesis here (its range is covered by C56).")
claim("C58", "proved", T("C58_solved", "C58_linear"), "Every scalar type. The linear path of homogenize is C41.")
claim("C59", "proved", T("C59_stress", "C59_history"),
      "Exact arithmetic. K depends on grid and materials only. The homogenised stiffness is that of C30 (with the factor lz of C22 in 3D); it exists and is unique (stiffness_unique).")
claim("C60", "partial", T("C60_partial", "C60_fails", "C60_fails_zeroed"),
      "newton_raphson stops at an absolute residual of 1e-5 while the strain perturbation is 1e-8, so for soft materials no correction is made and the tangent contains whatever displacements were in the memory. Proved: an elastic cell whose linear tangent has a negative diagonal entry; a wrong tangent also with zeroed memory; in general only the error bounds K*1e3 (linear tangent) and K*2e3 (macro tangent).")
claim("C61", "proved", T("C61_independent", "C61_cleared", "C61_record_matters"),
      "Every scalar type. That the other four places do matter is C45_tolerance_fails, C46_fails (vars_old), C46_elastic_fails (u) and C53_fails (vars_new). The value read behind the iteration counter (solve.cpp:63) is taken to be the same in both runs.")
claim("C62", "proved", T("C62_minimum", "C62_voigt", "C62_reuss", "C62_shear"),
      "Exact arithmetic. The factor c.thick is 1 in two dimensions and lz in three (C22).")
claim("C63", "proved", T("C63_monotone", "C63_scale", "C63_constructed", "C63_units"),
      "Exact arithmetic; C63_constructed and C63_units speak of objects obtained from the constructor and any calls.")
claim("C64", "partial", T("C64_partial", "C64_constructed_partial", "C64_fails"),
      "Exact arithmetic. Proved in two dimensions, and for the displacements in three. In three dimensions the macro stress is multiplied by k, because calc_ave_stress divides by lx*ly only (C22); C64_fails exhibits it.")
claim("C65", "proved", T("C65_image", "C65_self", "C65_symmetry", "C65_orthotropic", "C65_cubic"),
      "Exact arithmetic. C65_image compares averages, dividing both results by c.thick (1 in two dimensions, lz in three), which differs only if a permutation exchanges the third axis with one of another length.")
claim("C66", "proved", T("C66_stress", "C66_classified"),
      "Rounded arithmetic of Spec/Fp: every operation is followed by a monotone rounding with relative error u and underflow error eta <= u^2; no overflow. K and the precision depend on the cell only and are not computed. That the error falls below NR_MAX_TOL is a hypothesis here.")
claim("C67", "proved", T("C67_boundary"), "Every format of Spec/Fp, every material.")
claim("C68", "proved", T("C68_mvp"))
claim("C69", "partial", T("C69_partial", "C69_fails"),
      "Proved if no centre lies on the interface, from some precision on. On a tie it fails in binary64: of seven layers on a length of 3 with width 1.5 the middle one is computed at 1.4999999999999998 and stored as type 1.")
claim("C70", "proved", T("C70_plane", "C70_space", "C70_square", "C70_square_site", "C71_reached"),
      "The expressions and their surroundings are extracted from the text by tools/gen_sites.py. The matrix routines are C54.")
claim("C71", "proved", T("C71_uses", "C71_caller", "C71_params_needed", "C71_reached"),
      "Extracted by tools/gen_sites.py; the blocks of the matrix routines are covered by C56. The driver test/test3d_3.f90 passes four micro_params where five are read.")
claim("C72", "partial", T("C72_test3d_1_partial", "C72_test3d_7", "C72_test3d_8", "C72_test2d_1", "C72_load", "C72_usage", "C72_assert",
                          "C72_dir", "C72_fortran", "C72_fortran_plain", "C72_soft"),
      "Every scalar type (the closed form of the load and the two statements on materials: exact arithmetic). Ends means: the program ends so, unless the Newton loop never ends or reads past the counter, as in C56. Violated by test3d_1 (direction not checked), test3d_3.f90 (four of five parameters; radius overwritten by 0) and test3d_8 (the constants of the second material are at the wrong indices, so that the layer has no stiffness): proved.")
claim("C73", "proved", T("C73_print", "C73_library"), "Every scalar type. Widths and precisions of the output are not modelled.")
claim("C74", "proved", T("C74_exists", "C74_unique", "C74_close", "C74_solved"),
      "Exact arithmetic. The plastic law of the code is the derivative of a convex potential of linear growth; the constants of C74_close and C74_solved are not computed. The displacements need not be unique, and that the Newton loop ends is not claimed (C28).")
claim("C75", "proved", T("C75_monotone", "C75_lipschitz"), "Exact arithmetic.")
claim("C76", "proved", T("C76_limit"), "Exact arithmetic. c.thick is lz in three dimensions (C22).")
claim("C77", "proved", T("C77_history", "C77_monotone", "C77_loaded"),
      "Exact arithmetic. It holds although trial variables may be stale (C44).")
claim("C78", "proved", T("C78_newton"),
      "Exact arithmetic. K is a constant of the cell that is not computed. Hypothesis: the memory that *its++ moves to (/repo/src/solve.cpp:63) reads less than 40; if it reads 40 or more the loop ends after one pass and nothing follows for cells with 2000 or more inner unknowns (for smaller ones: C59).")
claim("C79", "proved", T("C79_stress"), "Exact arithmetic; hypothesis on the memory as in C78.")
claim("C80", "proved", T("C80_returns"),
      "Exact arithmetic; hypothesis on the memory as in C78 (the other case is C56_returns).")
claim("C81", "proved", T("C81_converges"),
      "Rounded arithmetic of Spec/Fp (see C66): no overflow. K depends on the cell only; precision and number of passes exist for each cell and bound and are not computed, so it is not shown that binary64 is precise enough for a given cell. Hypothesis on the memory behind its as in C78.")
claim("C82", "proved", T("C82_refine", "C82_stiffness", "C82_constructed", "C82_limit"),
      "Exact arithmetic. In three dimensions the value of calc_ave_stress has the factor lz (C22), the same for both grids. For layouts that are not aligned with the coarse grid the finer cell has other materials and the claim is not made; the same holds of the circular inclusion.")
claim("C83", "proved", T("C83_copy"),
      "Exact arithmetic; hypothesis on the memory behind its as in C78. Y and the number of Newton passes depend on the geometry, the elastic constants and the displacements found in memory, and are not computed. vars_old is zero at construction by hypothesis: calc_ctan_lin evaluates the plastic law with the variables it finds there (C46).")
claim("C84", "proved", T("C84_text"),
      "For every scalar type. The reader is a separate specification (Spec/Xml, Spec/VtuText). The second '>' of the tag PointData is character data in that element, which the reader accepts, as XML does.")
claim("C85", "proved", T("C85_tables"),
      "For every scalar type. The reader is a separate specification (Spec/InfoText). A write without Gauss points leaves an empty line, which the reader skips.")
claim("C86", "partial", T("C86_header_partial", "C86_columns_fails", "C86_ids_fails"),
      "Violated by the code: inv_tol [3] is announced and not written, so nr_its [4] and nr_tol [5] stand in columns 3 and 4; the stresses after sigxx are announced with the numbers of the strains; Gauss points registered after the first write are missing in the header. Proved: the listed ids are those of the first groups of every row, and nl_flag, inv_max, epsxx, epsyy and sigxx are where announced.")
claim("C87", "proved", T("C87_call", "C87_invMax"),
      "Exact arithmetic. The strain in force is a function of the list of calls.")
claim("C88", "proved", T("C88_history", "C88_monotone"),
      "The floating-point version of C77. The shear modulus is the computed one (E / (2*(1+nu)) in the format); the other elastic constants are not used.")
claim("C89", "proved", T("C89_solved", "C89_stress"),
      "The bound M on the interior displacements is a hypothesis because the one-step plastic energy grows only linearly: the rounding errors of a huge field can exceed the residual. The rate is the square root of err + u, since the hardening makes the stress, not the strain, unique.")
claim("C90", "proved", T("C90_solved", "C90_history"),
      "The margin d depends on the distance to the yield surface. The bound M on the interior displacements is the one of C89.")
claim("C91", "partial", T("C91_isolated_fails", "C91_spreads", "C91_same_call", "C91_memory", "C91_infinite", "C91_infinite_same_call", "C91_isolated_partial"),
      "Violated. Proved instead: the NaN spreads to every later result of every Gauss point that is not on the linear path (C91_spreads), in the same call to those behind it in the list (C91_same_call), and it may also come from the uninitialised displacements (C91_memory); an infinite strain does the same (C91_infinite, C91_infinite_same_call); Gauss points on the linear path keep the linear response (C91_isolated_partial). The witness is in double precision with infinities and NaN. Not proved: which results would have been returned without the invalid strain.")
claim("C92", "partial", T("C92_law_fails", "C92_law_partial", "C92_plastic_strain", "C92_yield", "C92_tangent", "C92_manual_consistency"),
      "Violated. The code yields exactly when the manual does (C92_yield). Stress and hardening variable agree at or below yield and for Ka = 0 (C92_law_partial); beyond yield with Ka > 0 both differ (C92_law_fails), since the code multiplies Ka by 0.0. The plastic strain agrees exactly when there is no flow (C92_plastic_strain: opposite sign). The tangent is the transpose of the manual's (C92_tangent). The manual's own step length is inconsistent with its yield surface unless Ka = 0 or mu = 1/3 (C92_manual_consistency).")
claim("C93", "proved", T("C93_independent"),
      "The memory each object finds in fresh blocks is a parameter per object (env k), so the theorem says that nothing else is shared. Use of a deleted object is a fault.")
claim("C94", "partial", T("C94_own_fails", "C94_lost", "C94_vtu", "C94_own_partial"),
      "Violated. Creating an object empties the three info files (C94_lost; witness C94_own_fails), and output for the same Gauss point and step overwrites the other object's file (C94_vtu). It holds for the object created last as long as no other one is asked to write (C94_own_partial).")
claim("C95", "proved", T("C95_set_displ", "C95_assembly_rhs", "C95_ave_stress", "C95_ave_strain", "C95_fields", "C95_elem_mat2D", "C95_elem_mat3D", "C95_plastic_step", "C95_reachable", "C95_tidy"),
      "The syntax trees in Model/TextTable.lean are extracted from assembly.cpp by tools/gen_text.py; the semantics of the statements is Model/Text.lean. assembly_mat, which calls functions of ell.cpp, is in C96. The fourteen inner functions (strains, stresses, displacements, tangents) are covered through their callers and by the lemmas run_* of Lemmas/Text*.lean.")
claim("C96", "proved", T("C96_init3D", "C96_init2D", "C96_assembly_mat", "C96_solve", "C96_mvp", "C96_reachable"),
      "The syntax trees are extracted by tools/gen_text.py. ell_solve_jacobi_2D (never called by the class), ell_print and ell_free are not among them. Tests of arguments against NULL in front of a return are left out. That the 2D pattern has a wrong slot on the right side is C02.")
claim("C97", "proved", T("C97_newton", "C97_ctan_lin", "C97_is_linear", "C97_inv1", "C97_inv2", "C97_elem_type", "C97_homogenize", "C97_update_vars", "C97_set_macro_strain", "C97_get_macro_stress", "C97_get_macro_ctan", "C97_get_nl_flag", "C97_reachable"),
      "The syntax trees are extracted by tools/gen_text.py. The unused local rad and output to cerr are left out. That the iteration pointer leaves its object is C28.")
claim("C98", "proved", T("C98_constructor", "C98_step", "C98_program", "C98_returned"),
      "The syntax trees are extracted by tools/gen_text.py. The assertion that malloc succeeded is left out.")
claim("C99", "proved", T("C99_write_vtu", "C99_write_info_files", "C99_output", "C99_vtu", "C99_tables"),
      "The syntax trees are extracted by tools/gen_text.py. Number formatting (setw, scientific) is not modelled; files can always be opened and written.")
claim("C100", "proved", T("C100_construct", "C100_homogenize", "C100_update", "C100_output", "C100_write", "C100_set_macro_strain", "C100_get_macro_stress", "C100_get_macro_ctan", "C100_get_nl", "C100_null", "C100_program"),
      "The functions are extracted by tools/gen_wrap.py. The caller's blocks do not overlap; the constructor is taken to read its arrays when it is entered.")
claim("C101", "proved", T("C101_jacobi", "C101_jacobi_none", "C101_truthful", "C101_print"),
      "The trees are extracted by tools/gen_text.py and tools/gen_print.py; the tests of the pointers of the solver against NULL are not in the tree (C16 treats them in the model).")
claim("C102", "proved", T("C102_program", "C102_between", "C102_solver", "C102_jacobi", "C102_copy", "C102_dim"),
      "The skeletons are extracted by tools/gen_heap.py from all of src except wrapper.cpp. Pointers derived from a tracked one are not followed: passing a pointer to a function counts as a use at the call. malloc is taken to succeed.")
claim("C103", "proved", T("C103_test3d_1", "C103_test3d_7", "C103_test2d_1", "C103_test3d_8", "C103_fortran", "C103_drives", "C103_dir"),
      "The text is extracted by tools/gen_main.py into lean/Verif/Model/MainTable.lean. Calls of the library are those of the model, which C97 to C99 relate to the text of the library. Field widths and blanks between numbers are left out; literals of the Fortran program are read as in C++.")
claim("C104", "proved", T("C104_test3d_1", "C104_test3d_7", "C104_test2d_1", "C104_test3d_8", "C104_fortran", "C104_drives"),
      "The programs and the library are the terms of tools/gen_main.py and tools/gen_text.py. The reads of the constructor in the arrays of the caller are made by ctorReads before its text runs; the arrays of set_macro_strain and get_macro_stress are handed to the text with their own length. For sizes below 2 the text of the constructor is not related to the model (C98).")
claim("C105", "partial", T("C105_point_partial", "C105_point_fails", "C105_cell_partial", "C105_cell_fails"),
      "Holds for one point without hardening along all paths, and with hardening along paths without shear; holds for cells of elastic elements and of plastic elements without hardening. Fails with hardening: for every material with a positive hardening modulus, and every cell made of it, a path of two shear strains returns more work than it took, because plastic_step adds half of the plastic shear to eps_p (assembly.cpp:1044-1045) and stores the hardened radius.")
claim("C106", "proved", T("C106_frozen", "C106_results", "C106_test8"),
      "Zeros of both signs are identified in the model of IEEE arithmetic; 1/0*0 is NaN for either. Gauss points on the linear path get the linear tangent times the strain.")
claim("C107", "proved", T("C107"),
      "Poisson's ratio 1/2 and -1 mean that 1 - 2 nu and 1 + nu are zero in floating point. An infinite Poisson's ratio is not covered. Zeros of both signs are identified in the model of IEEE arithmetic.")
claim("C108", "proved", T("C108"),
      "Negative lengths are not covered. Zeros of both signs are identified in the model of IEEE arithmetic.")
claim("C109", "proved", T("C109", "C109_local"),
      "Says nothing about the stresses and tangents, only about internal variables and the flag. C109_local covers cells in which the other material is plastic with a proper yield stress; its example does not show that the other material yields. Negative infinity as yield stress is not covered.")
claim("C110", "proved", T("C110"),
      "In three dimensions the types are taken from 0, 1, 2; for any other type the constructor leaves the flags of the material uninitialised.")
claim("C111", "proved", T("C111", "C111_layered", "C111_geometry"),
      "C111 takes the absence of the material from the stored types of the elements; C111_layered and C111_geometry, over the reals, from the geometry of layers and inclusions by means of C48.")
claim("C112", "proved", T("C112", "C112_gauss"),
      "Nothing is said about the contents of the VTU files (they hold the types of the elements); C50 and C57 describe them. Calls that fail are not compared.")
claim("C113", "proved", T("C113", "C113_reach"),
      "The loop that copies micro_params into a member reads further entries; nothing reads these copies, and the object of the model does not hold them; that these reads are in bounds is part of C71. That the tolerance of the caller has no effect contradicts what it is meant for, see C45.")
have = {c["property"] for c in C}
root = os.path.join(os.path.dirname(__file__), "..")
for l in open(os.path.join(root, "properties.jsonl")):
    p = json.loads(l)["id"]
    if p not in have:
        C.append({"property": p, "status": "not_applicable", "theorems": [], "note": "not yet proved"})
C.sort(key=lambda c: c["property"])
json.dump({"claims": C}, open(os.path.join(root, "MANIFEST.json"), "w"), indent=1)
