{
 "claims": [
  {
   "property": "C01",
   "status": "proved",
   "theorems": [
    "Verif.Props.C01_pattern3D"
   ],
   "note": ""
  },
  {
   "property": "C02",
   "status": "partial",
   "theorems": [
    "Verif.Props.C02_pattern2D_partial",
    "Verif.Props.C02_pattern2D_fails",
    "Verif.Props.C02_pattern2D_two_rows"
   ],
   "note": "Violated by the code (ell.cpp:840): slot 7 of right-side nodes. Negation proved for every grid with ny >= 3; everything else proved."
  },
  {
   "property": "C03",
   "status": "proved",
   "theorems": [
    "Verif.Props.C03_safe3D",
    "Verif.Props.C03_safe2D"
   ],
   "note": "For every scalar type, including IEEE doubles."
  },
  {
   "property": "C04",
   "status": "proved",
   "theorems": [
    "Verif.Props.C04_set_zero"
   ],
   "note": ""
  },
  {
   "property": "C05",
   "status": "proved",
   "theorems": [
    "Verif.Props.C05_add3D"
   ],
   "note": ""
  },
  {
   "property": "C06",
   "status": "partial",
   "theorems": [
    "Verif.Props.C06_add2D_partial",
    "Verif.Props.C06_add2D_fails"
   ],
   "note": "Violated for rows of right-side nodes because of the pattern error C02; proved for all other rows."
  },
  {
   "property": "C07",
   "status": "proved",
   "theorems": [
    "Verif.Props.C07_order3D",
    "Verif.Props.C07_order2D"
   ],
   "note": ""
  },
  {
   "property": "C08",
   "status": "proved",
   "theorems": [
    "Verif.Props.C08_bc3D"
   ],
   "note": ""
  },
  {
   "property": "C09",
   "status": "partial",
   "theorems": [
    "Verif.Props.C09_bc2D_partial",
    "Verif.Props.C09_bc2D_fails"
   ],
   "note": "Violated for rows next to the upper and right sides; boundary rows, interior couplings and all other rows proved."
  },
  {
   "property": "C10",
   "status": "proved",
   "theorems": [
    "Verif.Props.C10_mvp",
    "Verif.Props.C10_linear"
   ],
   "note": ""
  },
  {
   "property": "C100",
   "status": "proved",
   "theorems": [
    "Verif.Props.C100_construct",
    "Verif.Props.C100_homogenize",
    "Verif.Props.C100_update",
    "Verif.Props.C100_output",
    "Verif.Props.C100_write",
    "Verif.Props.C100_set_macro_strain",
    "Verif.Props.C100_get_macro_stress",
    "Verif.Props.C100_get_macro_ctan",
    "Verif.Props.C100_get_nl",
    "Verif.Props.C100_null",
    "Verif.Props.C100_program"
   ],
   "note": "The functions are extracted by tools/gen_wrap.py. The caller's blocks do not overlap; the constructor is taken to read its arrays when it is entered."
  },
  {
   "property": "C101",
   "status": "proved",
   "theorems": [
    "Verif.Props.C101_jacobi",
    "Verif.Props.C101_jacobi_none",
    "Verif.Props.C101_truthful",
    "Verif.Props.C101_print"
   ],
   "note": "The trees are extracted by tools/gen_text.py and tools/gen_print.py; the tests of the pointers of the solver against NULL are not in the tree (C16 treats them in the model)."
  },
  {
   "property": "C102",
   "status": "proved",
   "theorems": [
    "Verif.Props.C102_program",
    "Verif.Props.C102_between",
    "Verif.Props.C102_solver",
    "Verif.Props.C102_jacobi",
    "Verif.Props.C102_copy",
    "Verif.Props.C102_dim"
   ],
   "note": "The skeletons are extracted by tools/gen_heap.py from all of src except wrapper.cpp. Pointers derived from a tracked one are not followed: passing a pointer to a function counts as a use at the call. malloc is taken to succeed."
  },
  {
   "property": "C103",
   "status": "proved",
   "theorems": [
    "Verif.Props.C103_test3d_1",
    "Verif.Props.C103_test3d_7",
    "Verif.Props.C103_test2d_1",
    "Verif.Props.C103_test3d_8",
    "Verif.Props.C103_fortran",
    "Verif.Props.C103_drives",
    "Verif.Props.C103_dir"
   ],
   "note": "The text is extracted by tools/gen_main.py into lean/Verif/Model/MainTable.lean. Calls of the library are those of the model, which C97 to C99 relate to the text of the library. Field widths and blanks between numbers are left out; literals of the Fortran program are read as in C++."
  },
  {
   "property": "C104",
   "status": "proved",
   "theorems": [
    "Verif.Props.C104_test3d_1",
    "Verif.Props.C104_test3d_7",
    "Verif.Props.C104_test2d_1",
    "Verif.Props.C104_test3d_8",
    "Verif.Props.C104_fortran",
    "Verif.Props.C104_drives"
   ],
   "note": "The programs and the library are the terms of tools/gen_main.py and tools/gen_text.py. The reads of the constructor in the arrays of the caller are made by ctorReads before its text runs; the arrays of set_macro_strain and get_macro_stress are handed to the text with their own length. For sizes below 2 the text of the constructor is not related to the model (C98)."
  },
  {
   "property": "C105",
   "status": "partial",
   "theorems": [
    "Verif.Props.C105_point_partial",
    "Verif.Props.C105_point_fails",
    "Verif.Props.C105_cell_partial",
    "Verif.Props.C105_cell_fails"
   ],
   "note": "Holds for one point without hardening along all paths, and with hardening along paths without shear; holds for cells of elastic elements and of plastic elements without hardening. Fails with hardening: for every material with a positive hardening modulus, and every cell made of it, a path of two shear strains returns more work than it took, because plastic_step adds half of the plastic shear to eps_p (assembly.cpp:1044-1045) and stores the hardened radius."
  },
  {
   "property": "C106",
   "status": "proved",
   "theorems": [
    "Verif.Props.C106_frozen",
    "Verif.Props.C106_results",
    "Verif.Props.C106_test8"
   ],
   "note": "Zeros of both signs are identified in the model of IEEE arithmetic; 1/0*0 is NaN for either. Gauss points on the linear path get the linear tangent times the strain."
  },
  {
   "property": "C107",
   "status": "proved",
   "theorems": [
    "Verif.Props.C107"
   ],
   "note": "Poisson's ratio 1/2 and -1 mean that 1 - 2 nu and 1 + nu are zero in floating point. An infinite Poisson's ratio is not covered. Zeros of both signs are identified in the model of IEEE arithmetic."
  },
  {
   "property": "C108",
   "status": "proved",
   "theorems": [
    "Verif.Props.C108"
   ],
   "note": "Negative lengths are not covered. Zeros of both signs are identified in the model of IEEE arithmetic."
  },
  {
   "property": "C109",
   "status": "proved",
   "theorems": [
    "Verif.Props.C109",
    "Verif.Props.C109_local"
   ],
   "note": "Says nothing about the stresses and tangents, only about internal variables and the flag. C109_local covers cells in which the other material is plastic with a proper yield stress; its example does not show that the other material yields. Negative infinity as yield stress is not covered."
  },
  {
   "property": "C11",
   "status": "proved",
   "theorems": [
    "Verif.Props.C11_truthful"
   ],
   "note": "Exact arithmetic."
  },
  {
   "property": "C110",
   "status": "proved",
   "theorems": [
    "Verif.Props.C110"
   ],
   "note": "In three dimensions the types are taken from 0, 1, 2; for any other type the constructor leaves the flags of the material uninitialised."
  },
  {
   "property": "C111",
   "status": "proved",
   "theorems": [
    "Verif.Props.C111",
    "Verif.Props.C111_layered",
    "Verif.Props.C111_geometry"
   ],
   "note": "C111 takes the absence of the material from the stored types of the elements; C111_layered and C111_geometry, over the reals, from the geometry of layers and inclusions by means of C48."
  },
  {
   "property": "C112",
   "status": "proved",
   "theorems": [
    "Verif.Props.C112",
    "Verif.Props.C112_gauss"
   ],
   "note": "Nothing is said about the contents of the VTU files (they hold the types of the elements); C50 and C57 describe them. Calls that fail are not compared."
  },
  {
   "property": "C113",
   "status": "proved",
   "theorems": [
    "Verif.Props.C113",
    "Verif.Props.C113_reach"
   ],
   "note": "The loop that copies micro_params into a member reads further entries; nothing reads these copies, and the object of the model does not hold them; that these reads are in bounds is part of C71. That the tolerance of the caller has no effect contradicts what it is meant for, see C45."
  },
  {
   "property": "C12",
   "status": "proved",
   "theorems": [
    "Verif.Props.C12_terminates",
    "Verif.Props.C12_steps"
   ],
   "note": "Termination, bound and converged start for every scalar type; identification of the steps in exact arithmetic."
  },
  {
   "property": "C13",
   "status": "proved",
   "theorems": [
    "Verif.Props.C13_finite"
   ],
   "note": "Exact arithmetic."
  },
  {
   "property": "C14",
   "status": "proved",
   "theorems": [
    "Verif.Props.C14_energy"
   ],
   "note": "Exact arithmetic."
  },
  {
   "property": "C15",
   "status": "proved",
   "theorems": [
    "Verif.Props.C15_fixed",
    "Verif.Props.C15_columns"
   ],
   "note": "Exact arithmetic."
  },
  {
   "property": "C16",
   "status": "proved",
   "theorems": [
    "Verif.Props.C16_null",
    "Verif.Props.C16_nonnull"
   ],
   "note": ""
  },
  {
   "property": "C17",
   "status": "proved",
   "theorems": [
    "Verif.Props.C17_truthful",
    "Verif.Props.C17_fixed_point",
    "Verif.Props.C17_energy"
   ],
   "note": "Exact arithmetic."
  },
  {
   "property": "C18",
   "status": "partial",
   "theorems": [
    "Verif.Props.C18_partial",
    "Verif.Props.C18_cg",
    "Verif.Props.C18_object",
    "Verif.Props.C18_erase",
    "Verif.Props.C18_owned",
    "Verif.Props.C18_jacobi_fails",
    "Verif.Props.C18_jacobi_leaks",
    "Verif.Props.C18_wrapper_fails",
    "Verif.Props.C18_wrapper_leaks",
    "Verif.Props.C18_copy_fails"
   ],
   "note": "Every scalar type, every call sequence. Proved for both CG solvers and for the life of an object. Violated by ell_solve_jacobi_2D (two blocks per call) and by the Fortran interface (no destructor call): negations proved."
  },
  {
   "property": "C19",
   "status": "proved",
   "theorems": [
    "Verif.Props.C19_displ",
    "Verif.Props.C19_interior"
   ],
   "note": "Exact arithmetic; the untouched interior for every scalar type."
  },
  {
   "property": "C20",
   "status": "proved",
   "theorems": [
    "Verif.Props.C20_strain",
    "Verif.Props.C20_patch"
   ],
   "note": "Exact arithmetic."
  },
  {
   "property": "C21",
   "status": "partial",
   "theorems": [
    "Verif.Props.C21_partial",
    "Verif.Props.C21_fails"
   ],
   "note": "calc_ave_strain divides by lx*ly also in 3D: the result is lz times the macro strain. Proved up to that factor; exact in 2D and for lz = 1."
  },
  {
   "property": "C22",
   "status": "partial",
   "theorems": [
    "Verif.Props.C22_partial",
    "Verif.Props.C22_fails"
   ],
   "note": "calc_ave_stress divides by lx*ly also in 3D: the result is lz times the average. Proved up to that factor; exact in 2D and for lz = 1."
  },
  {
   "property": "C23",
   "status": "proved",
   "theorems": [
    "Verif.Props.C23_element"
   ],
   "note": "Exact arithmetic."
  },
  {
   "property": "C24",
   "status": "proved",
   "theorems": [
    "Verif.Props.C24_element",
    "Verif.Props.C24_residual",
    "Verif.Props.C24_newton"
   ],
   "note": "Exact arithmetic."
  },
  {
   "property": "C25",
   "status": "proved",
   "theorems": [
    "Verif.Props.C25_spd",
    "Verif.Props.C25_solution"
   ],
   "note": "Exact arithmetic."
  },
  {
   "property": "C26",
   "status": "proved",
   "theorems": [
    "Verif.Props.C26_linear"
   ],
   "note": "Exact arithmetic."
  },
  {
   "property": "C27",
   "status": "proved",
   "theorems": [
    "Verif.Props.C27_boundary",
    "Verif.Props.C27_truthful"
   ],
   "note": "Boundary: exact arithmetic, every material. Truthful error: every scalar type."
  },
  {
   "property": "C28",
   "status": "partial",
   "theorems": [
    "Verif.Props.C28_partial",
    "Verif.Props.C28_fails",
    "Verif.Props.C28_report",
    "Verif.Props.C28_limit",
    "Verif.Props.C28_undefined"
   ],
   "note": "solve.cpp:63 increments the pointer its instead of the counter: the reported number is always 0, the loop test reads past the caller's int and the limit is not enforced. C28_partial: with a first residual below the tolerance the function returns at once with the correct count 0."
  },
  {
   "property": "C29",
   "status": "partial",
   "theorems": [
    "Verif.Props.C29_hill_mandel",
    "Verif.Props.C29_partial",
    "Verif.Props.C29_fails"
   ],
   "note": "Proved for the true averages, for every material. For the value of calc_ave_stress it holds up to the factor lz in 3D and fails for lz != 1."
  },
  {
   "property": "C30",
   "status": "proved",
   "theorems": [
    "Verif.Props.C30_stiffness"
   ],
   "note": "Exact arithmetic."
  },
  {
   "property": "C31",
   "status": "partial",
   "theorems": [
    "Verif.Props.C31_partial",
    "Verif.Props.C31_fails"
   ],
   "note": "The equilibrated field is proved to be the affine one. The macro stress is the law up to the factor lz in 3D; exact in 2D and for lz = 1."
  },
  {
   "property": "C32",
   "status": "proved",
   "theorems": [
    "Verif.Props.C32_yield",
    "Verif.Props.C32_admissible",
    "Verif.Props.C32_history",
    "Verif.Props.C32_get_stress"
   ],
   "note": "Exact arithmetic."
  },
  {
   "property": "C33",
   "status": "partial",
   "theorems": [
    "Verif.Props.C33_consistency_partial",
    "Verif.Props.C33_consistency_fails"
   ],
   "note": "Violated by the code for every positive hardening modulus (assembly.cpp:1042 multiplies the hardening term by 0.0): negation proved. The stress lies on the old yield surface; on the new one iff Ka = 0."
  },
  {
   "property": "C34",
   "status": "proved",
   "theorems": [
    "Verif.Props.C34_hardening",
    "Verif.Props.C34_isochoric",
    "Verif.Props.C34_mean",
    "Verif.Props.C34_work",
    "Verif.Props.C34_history"
   ],
   "note": "Exact arithmetic."
  },
  {
   "property": "C35",
   "status": "partial",
   "theorems": [
    "Verif.Props.C35_idempotent_partial",
    "Verif.Props.C35_idempotent_fails"
   ],
   "note": "Violated by the code for strains with shear (plastic shear strain lacks the engineering factor 2): negation proved. Exact characterisation of when it holds proved."
  },
  {
   "property": "C36",
   "status": "proved",
   "theorems": [
    "Verif.Props.C36_nonexpansive",
    "Verif.Props.C36_continuous"
   ],
   "note": "Exact arithmetic."
  },
  {
   "property": "C37",
   "status": "proved",
   "theorems": [
    "Verif.Props.C37_elastic_stress",
    "Verif.Props.C37_elastic_tangent"
   ],
   "note": "Exact arithmetic."
  },
  {
   "property": "C38",
   "status": "partial",
   "theorems": [
    "Verif.Props.C38_partial",
    "Verif.Props.C38_sound",
    "Verif.Props.C38_fails"
   ],
   "note": "get_stress3D resets the flag at every Gauss point (assembly.cpp:975), so only the last Gauss point of an element counts. Proved: the flag is set exactly when the last Gauss point of some element yields, hence never without a reason; a state where a point yields and the flag stays false."
  },
  {
   "property": "C39",
   "status": "proved",
   "theorems": [
    "Verif.Props.C39_map"
   ],
   "note": "Every scalar type."
  },
  {
   "property": "C40",
   "status": "proved",
   "theorems": [
    "Verif.Props.C40_getters"
   ],
   "note": "Every scalar type."
  },
  {
   "property": "C41",
   "status": "proved",
   "theorems": [
    "Verif.Props.C41_linear",
    "Verif.Props.C41_returns"
   ],
   "note": "Every scalar type."
  },
  {
   "property": "C42",
   "status": "proved",
   "theorems": [
    "Verif.Props.C42_permanent"
   ],
   "note": "Every scalar type."
  },
  {
   "property": "C43",
   "status": "proved",
   "theorems": [
    "Verif.Props.C43_trial",
    "Verif.Props.C43_update"
   ],
   "note": "Every scalar type."
  },
  {
   "property": "C44",
   "status": "partial",
   "theorems": [
    "Verif.Props.C44_partial",
    "Verif.Props.C44_fails"
   ],
   "note": "homogenize stores trial variables only when the evaluation is flagged non-linear, so update_vars may commit the variables of an earlier, rejected trial (proved on a concrete run). Proved for every scalar type: flagged evaluations are committed exactly; otherwise the previous trial values are."
  },
  {
   "property": "C45",
   "status": "partial",
   "theorems": [
    "Verif.Props.C45_tolerance_fails",
    "Verif.Props.C45_decides_partial"
   ],
   "note": "Violated by the code: inv_tol is initialised from the uninitialised member micro_params[4], so the user's value is ignored (proved). What holds: the member inv_tol decides the path."
  },
  {
   "property": "C46",
   "status": "partial",
   "theorems": [
    "Verif.Props.C46_partial",
    "Verif.Props.C46_fails",
    "Verif.Props.C46_elastic_fails"
   ],
   "note": "The constructor computes ctan_lin from uninitialised vars_old and u: two objects with the same arguments return different tangents (proved through vars_old for a plastic cell, and through u for an elastic cell). What holds: grid, materials and element types do not depend on memory contents."
  },
  {
   "property": "C47",
   "status": "proved",
   "theorems": [
    "Verif.Props.C47_elements",
    "Verif.Props.C47_nelem",
    "Verif.Props.C47_nodes",
    "Verif.Props.C47_intvars"
   ],
   "note": ""
  },
  {
   "property": "C48",
   "status": "proved",
   "theorems": [
    "Verif.Props.C48_layered",
    "Verif.Props.C48_layers",
    "Verif.Props.C48_inclusion",
    "Verif.Props.C48_mirror",
    "Verif.Props.C48_material"
   ],
   "note": "For every state reached by public calls. The inclusion test compares squares, so a negative width acts like its absolute value."
  },
  {
   "property": "C49",
   "status": "proved",
   "theorems": [
    "Verif.Props.C49_constants",
    "Verif.Props.C49_positive",
    "Verif.Props.C49_plane",
    "Verif.Props.C49_damage"
   ],
   "note": "C49_damage: replacing type 2 by type 0 changes no returned value and no file of any call sequence."
  },
  {
   "property": "C50",
   "status": "proved",
   "theorems": [
    "Verif.Props.C50_vtu",
    "Verif.Props.C50_internal"
   ],
   "note": "For every state reached by public calls; C50_vtu for every scalar type. The file is a list of tokens; C84 reads its characters."
  },
  {
   "property": "C51",
   "status": "proved",
   "theorems": [
    "Verif.Props.C51_info",
    "Verif.Props.C51_object"
   ],
   "note": "Every scalar type. C51_object: from construction on, whatever the files held before."
  },
  {
   "property": "C52",
   "status": "proved",
   "theorems": [
    "Verif.Props.C52_forwards",
    "Verif.Props.C52_null",
    "Verif.Props.C52_abandons"
   ],
   "note": "Every scalar type."
  },
  {
   "property": "C53",
   "status": "partial",
   "theorems": [
    "Verif.Props.C53_partial",
    "Verif.Props.C53_elastic",
    "Verif.Props.C53_zeroed",
    "Verif.Props.C53_fails"
   ],
   "note": "vars_new is never initialised and never written for elements without plasticity, so garbage is committed (proved). Proved: such an entry is zero or the initial garbage; zero with zeroed memory; no variables at all in 2D and in cells without plasticity."
  },
  {
   "property": "C54",
   "status": "proved",
   "theorems": [
    "Verif.Props.C54_plane",
    "Verif.Props.C54_space",
    "Verif.Props.C54_nodes_plane",
    "Verif.Props.C54_nodes_space",
    "Verif.Props.C54_size_plane",
    "Verif.Props.C54_size_space",
    "Verif.Props.C54_cube",
    "Verif.Props.C54_index_overflow"
   ],
   "note": "The integer expressions are extracted from the text of ell.cpp by tools/gen_int32.py. Variables range over the bounds of their loops; for the running node number of ell_set_bc_2D that is a hypothesis here (its range is covered by C56)."
  },
  {
   "property": "C55",
   "status": "partial",
   "theorems": [
    "Verif.Props.C55_inv1",
    "Verif.Props.C55_inv1_plane",
    "Verif.Props.C55_partial",
    "Verif.Props.C55_fails"
   ],
   "note": "get_inv_2 adds the squared shears instead of subtracting them, so it is not frame indifferent (45 degree witness). Proved: its exact difference from the second principal invariant; get_inv_1 is the trace, linear and invariant."
  },
  {
   "property": "C56",
   "status": "proved",
   "theorems": [
    "Verif.Props.C56_safe",
    "Verif.Props.C56_returns",
    "Verif.Props.C56_wrapper",
    "Verif.Props.C56_needed"
   ],
   "note": "Every scalar type."
  },
  {
   "property": "C57",
   "status": "proved",
   "theorems": [
    "Verif.Props.C57_fields"
   ],
   "note": "Exact arithmetic, every material. calc_ave_stress itself returns lz times the average in 3D, as in C22."
  },
  {
   "property": "C58",
   "status": "proved",
   "theorems": [
    "Verif.Props.C58_solved",
    "Verif.Props.C58_linear"
   ],
   "note": "Every scalar type. The linear path of homogenize is C41."
  },
  {
   "property": "C59",
   "status": "proved",
   "theorems": [
    "Verif.Props.C59_stress",
    "Verif.Props.C59_history"
   ],
   "note": "Exact arithmetic. K depends on grid and materials only. The homogenised stiffness is that of C30 (with the factor lz of C22 in 3D); it exists and is unique (stiffness_unique)."
  },
  {
   "property": "C60",
   "status": "partial",
   "theorems": [
    "Verif.Props.C60_partial",
    "Verif.Props.C60_fails",
    "Verif.Props.C60_fails_zeroed"
   ],
   "note": "newton_raphson stops at an absolute residual of 1e-5 while the strain perturbation is 1e-8, so for soft materials no correction is made and the tangent contains whatever displacements were in the memory. Proved: an elastic cell whose linear tangent has a negative diagonal entry; a wrong tangent also with zeroed memory; in general only the error bounds K*1e3 (linear tangent) and K*2e3 (macro tangent)."
  },
  {
   "property": "C61",
   "status": "proved",
   "theorems": [
    "Verif.Props.C61_independent",
    "Verif.Props.C61_cleared",
    "Verif.Props.C61_record_matters"
   ],
   "note": "Every scalar type. That the other four places do matter is C45_tolerance_fails, C46_fails (vars_old), C46_elastic_fails (u) and C53_fails (vars_new). The value read behind the iteration counter (solve.cpp:63) is taken to be the same in both runs."
  },
  {
   "property": "C62",
   "status": "proved",
   "theorems": [
    "Verif.Props.C62_minimum",
    "Verif.Props.C62_voigt",
    "Verif.Props.C62_reuss",
    "Verif.Props.C62_shear"
   ],
   "note": "Exact arithmetic. The factor c.thick is 1 in two dimensions and lz in three (C22)."
  },
  {
   "property": "C63",
   "status": "proved",
   "theorems": [
    "Verif.Props.C63_monotone",
    "Verif.Props.C63_scale",
    "Verif.Props.C63_constructed",
    "Verif.Props.C63_units"
   ],
   "note": "Exact arithmetic; C63_constructed and C63_units speak of objects obtained from the constructor and any calls."
  },
  {
   "property": "C64",
   "status": "partial",
   "theorems": [
    "Verif.Props.C64_partial",
    "Verif.Props.C64_constructed_partial",
    "Verif.Props.C64_fails"
   ],
   "note": "Exact arithmetic. Proved in two dimensions, and for the displacements in three. In three dimensions the macro stress is multiplied by k, because calc_ave_stress divides by lx*ly only (C22); C64_fails exhibits it."
  },
  {
   "property": "C65",
   "status": "proved",
   "theorems": [
    "Verif.Props.C65_image",
    "Verif.Props.C65_self",
    "Verif.Props.C65_symmetry",
    "Verif.Props.C65_orthotropic",
    "Verif.Props.C65_cubic"
   ],
   "note": "Exact arithmetic. C65_image compares averages, dividing both results by c.thick (1 in two dimensions, lz in three), which differs only if a permutation exchanges the third axis with one of another length."
  },
  {
   "property": "C66",
   "status": "proved",
   "theorems": [
    "Verif.Props.C66_stress",
    "Verif.Props.C66_classified"
   ],
   "note": "Rounded arithmetic of Spec/Fp: every operation is followed by a monotone rounding with relative error u and underflow error eta <= u^2; no overflow. K and the precision depend on the cell only and are not computed. That the error falls below NR_MAX_TOL is a hypothesis here."
  },
  {
   "property": "C67",
   "status": "proved",
   "theorems": [
    "Verif.Props.C67_boundary"
   ],
   "note": "Every format of Spec/Fp, every material."
  },
  {
   "property": "C68",
   "status": "proved",
   "theorems": [
    "Verif.Props.C68_mvp"
   ],
   "note": ""
  },
  {
   "property": "C69",
   "status": "partial",
   "theorems": [
    "Verif.Props.C69_partial",
    "Verif.Props.C69_fails"
   ],
   "note": "Proved if no centre lies on the interface, from some precision on. On a tie it fails in binary64: of seven layers on a length of 3 with width 1.5 the middle one is computed at 1.4999999999999998 and stored as type 1."
  },
  {
   "property": "C70",
   "status": "proved",
   "theorems": [
    "Verif.Props.C70_plane",
    "Verif.Props.C70_space",
    "Verif.Props.C70_square",
    "Verif.Props.C70_square_site",
    "Verif.Props.C71_reached"
   ],
   "note": "The expressions and their surroundings are extracted from the text by tools/gen_sites.py. The matrix routines are C54."
  },
  {
   "property": "C71",
   "status": "proved",
   "theorems": [
    "Verif.Props.C71_uses",
    "Verif.Props.C71_caller",
    "Verif.Props.C71_params_needed",
    "Verif.Props.C71_reached"
   ],
   "note": "Extracted by tools/gen_sites.py; the blocks of the matrix routines are covered by C56. The driver test/test3d_3.f90 passes four micro_params where five are read."
  },
  {
   "property": "C72",
   "status": "partial",
   "theorems": [
    "Verif.Props.C72_test3d_1_partial",
    "Verif.Props.C72_test3d_7",
    "Verif.Props.C72_test3d_8",
    "Verif.Props.C72_test2d_1",
    "Verif.Props.C72_load",
    "Verif.Props.C72_usage",
    "Verif.Props.C72_assert",
    "Verif.Props.C72_dir",
    "Verif.Props.C72_fortran",
    "Verif.Props.C72_fortran_plain",
    "Verif.Props.C72_soft"
   ],
   "note": "Every scalar type (the closed form of the load and the two statements on materials: exact arithmetic). Ends means: the program ends so, unless the Newton loop never ends or reads past the counter, as in C56. Violated by test3d_1 (direction not checked), test3d_3.f90 (four of five parameters; radius overwritten by 0) and test3d_8 (the constants of the second material are at the wrong indices, so that the layer has no stiffness): proved."
  },
  {
   "property": "C73",
   "status": "proved",
   "theorems": [
    "Verif.Props.C73_print",
    "Verif.Props.C73_library"
   ],
   "note": "Every scalar type. Widths and precisions of the output are not modelled."
  },
  {
   "property": "C74",
   "status": "proved",
   "theorems": [
    "Verif.Props.C74_exists",
    "Verif.Props.C74_unique",
    "Verif.Props.C74_close",
    "Verif.Props.C74_solved"
   ],
   "note": "Exact arithmetic. The plastic law of the code is the derivative of a convex potential of linear growth; the constants of C74_close and C74_solved are not computed. The displacements need not be unique, and that the Newton loop ends is not claimed (C28)."
  },
  {
   "property": "C75",
   "status": "proved",
   "theorems": [
    "Verif.Props.C75_monotone",
    "Verif.Props.C75_lipschitz"
   ],
   "note": "Exact arithmetic."
  },
  {
   "property": "C76",
   "status": "proved",
   "theorems": [
    "Verif.Props.C76_limit"
   ],
   "note": "Exact arithmetic. c.thick is lz in three dimensions (C22)."
  },
  {
   "property": "C77",
   "status": "proved",
   "theorems": [
    "Verif.Props.C77_history",
    "Verif.Props.C77_monotone",
    "Verif.Props.C77_loaded"
   ],
   "note": "Exact arithmetic. It holds although trial variables may be stale (C44)."
  },
  {
   "property": "C78",
   "status": "proved",
   "theorems": [
    "Verif.Props.C78_newton"
   ],
   "note": "Exact arithmetic. K is a constant of the cell that is not computed. Hypothesis: the memory that *its++ moves to (/repo/src/solve.cpp:63) reads less than 40; if it reads 40 or more the loop ends after one pass and nothing follows for cells with 2000 or more inner unknowns (for smaller ones: C59)."
  },
  {
   "property": "C79",
   "status": "proved",
   "theorems": [
    "Verif.Props.C79_stress"
   ],
   "note": "Exact arithmetic; hypothesis on the memory as in C78."
  },
  {
   "property": "C80",
   "status": "proved",
   "theorems": [
    "Verif.Props.C80_returns"
   ],
   "note": "Exact arithmetic; hypothesis on the memory as in C78 (the other case is C56_returns)."
  },
  {
   "property": "C81",
   "status": "proved",
   "theorems": [
    "Verif.Props.C81_converges"
   ],
   "note": "Rounded arithmetic of Spec/Fp (see C66): no overflow. K depends on the cell only; precision and number of passes exist for each cell and bound and are not computed, so it is not shown that binary64 is precise enough for a given cell. Hypothesis on the memory behind its as in C78."
  },
  {
   "property": "C82",
   "status": "proved",
   "theorems": [
    "Verif.Props.C82_refine",
    "Verif.Props.C82_stiffness",
    "Verif.Props.C82_constructed",
    "Verif.Props.C82_limit"
   ],
   "note": "Exact arithmetic. In three dimensions the value of calc_ave_stress has the factor lz (C22), the same for both grids. For layouts that are not aligned with the coarse grid the finer cell has other materials and the claim is not made; the same holds of the circular inclusion."
  },
  {
   "property": "C83",
   "status": "proved",
   "theorems": [
    "Verif.Props.C83_copy"
   ],
   "note": "Exact arithmetic; hypothesis on the memory behind its as in C78. Y and the number of Newton passes depend on the geometry, the elastic constants and the displacements found in memory, and are not computed. vars_old is zero at construction by hypothesis: calc_ctan_lin evaluates the plastic law with the variables it finds there (C46)."
  },
  {
   "property": "C84",
   "status": "proved",
   "theorems": [
    "Verif.Props.C84_text"
   ],
   "note": "For every scalar type. The reader is a separate specification (Spec/Xml, Spec/VtuText). The second '>' of the tag PointData is character data in that element, which the reader accepts, as XML does."
  },
  {
   "property": "C85",
   "status": "proved",
   "theorems": [
    "Verif.Props.C85_tables"
   ],
   "note": "For every scalar type. The reader is a separate specification (Spec/InfoText). A write without Gauss points leaves an empty line, which the reader skips."
  },
  {
   "property": "C86",
   "status": "partial",
   "theorems": [
    "Verif.Props.C86_header_partial",
    "Verif.Props.C86_columns_fails",
    "Verif.Props.C86_ids_fails"
   ],
   "note": "Violated by the code: inv_tol [3] is announced and not written, so nr_its [4] and nr_tol [5] stand in columns 3 and 4; the stresses after sigxx are announced with the numbers of the strains; Gauss points registered after the first write are missing in the header. Proved: the listed ids are those of the first groups of every row, and nl_flag, inv_max, epsxx, epsyy and sigxx are where announced."
  },
  {
   "property": "C87",
   "status": "proved",
   "theorems": [
    "Verif.Props.C87_call",
    "Verif.Props.C87_invMax"
   ],
   "note": "Exact arithmetic. The strain in force is a function of the list of calls."
  },
  {
   "property": "C88",
   "status": "proved",
   "theorems": [
    "Verif.Props.C88_history",
    "Verif.Props.C88_monotone"
   ],
   "note": "The floating-point version of C77. The shear modulus is the computed one (E / (2*(1+nu)) in the format); the other elastic constants are not used."
  },
  {
   "property": "C89",
   "status": "proved",
   "theorems": [
    "Verif.Props.C89_solved",
    "Verif.Props.C89_stress"
   ],
   "note": "The bound M on the interior displacements is a hypothesis because the one-step plastic energy grows only linearly: the rounding errors of a huge field can exceed the residual. The rate is the square root of err + u, since the hardening makes the stress, not the strain, unique."
  },
  {
   "property": "C90",
   "status": "proved",
   "theorems": [
    "Verif.Props.C90_solved",
    "Verif.Props.C90_history"
   ],
   "note": "The margin d depends on the distance to the yield surface. The bound M on the interior displacements is the one of C89."
  },
  {
   "property": "C91",
   "status": "partial",
   "theorems": [
    "Verif.Props.C91_isolated_fails",
    "Verif.Props.C91_spreads",
    "Verif.Props.C91_same_call",
    "Verif.Props.C91_memory",
    "Verif.Props.C91_infinite",
    "Verif.Props.C91_infinite_same_call",
    "Verif.Props.C91_isolated_partial"
   ],
   "note": "Violated. Proved instead: the NaN spreads to every later result of every Gauss point that is not on the linear path (C91_spreads), in the same call to those behind it in the list (C91_same_call), and it may also come from the uninitialised displacements (C91_memory); an infinite strain does the same (C91_infinite, C91_infinite_same_call); Gauss points on the linear path keep the linear response (C91_isolated_partial). The witness is in double precision with infinities and NaN. Not proved: which results would have been returned without the invalid strain."
  },
  {
   "property": "C92",
   "status": "partial",
   "theorems": [
    "Verif.Props.C92_law_fails",
    "Verif.Props.C92_law_partial",
    "Verif.Props.C92_plastic_strain",
    "Verif.Props.C92_yield",
    "Verif.Props.C92_tangent",
    "Verif.Props.C92_manual_consistency"
   ],
   "note": "Violated. The code yields exactly when the manual does (C92_yield). Stress and hardening variable agree at or below yield and for Ka = 0 (C92_law_partial); beyond yield with Ka > 0 both differ (C92_law_fails), since the code multiplies Ka by 0.0. The plastic strain agrees exactly when there is no flow (C92_plastic_strain: opposite sign). The tangent is the transpose of the manual's (C92_tangent). The manual's own step length is inconsistent with its yield surface unless Ka = 0 or mu = 1/3 (C92_manual_consistency)."
  },
  {
   "property": "C93",
   "status": "proved",
   "theorems": [
    "Verif.Props.C93_independent"
   ],
   "note": "The memory each object finds in fresh blocks is a parameter per object (env k), so the theorem says that nothing else is shared. Use of a deleted object is a fault."
  },
  {
   "property": "C94",
   "status": "partial",
   "theorems": [
    "Verif.Props.C94_own_fails",
    "Verif.Props.C94_lost",
    "Verif.Props.C94_vtu",
    "Verif.Props.C94_own_partial"
   ],
   "note": "Violated. Creating an object empties the three info files (C94_lost; witness C94_own_fails), and output for the same Gauss point and step overwrites the other object's file (C94_vtu). It holds for the object created last as long as no other one is asked to write (C94_own_partial)."
  },
  {
   "property": "C95",
   "status": "proved",
   "theorems": [
    "Verif.Props.C95_set_displ",
    "Verif.Props.C95_assembly_rhs",
    "Verif.Props.C95_ave_stress",
    "Verif.Props.C95_ave_strain",
    "Verif.Props.C95_fields",
    "Verif.Props.C95_elem_mat2D",
    "Verif.Props.C95_elem_mat3D",
    "Verif.Props.C95_plastic_step",
    "Verif.Props.C95_reachable",
    "Verif.Props.C95_tidy"
   ],
   "note": "The syntax trees in Model/TextTable.lean are extracted from assembly.cpp by tools/gen_text.py; the semantics of the statements is Model/Text.lean. assembly_mat, which calls functions of ell.cpp, is in C96. The fourteen inner functions (strains, stresses, displacements, tangents) are covered through their callers and by the lemmas run_* of Lemmas/Text*.lean."
  },
  {
   "property": "C96",
   "status": "proved",
   "theorems": [
    "Verif.Props.C96_init3D",
    "Verif.Props.C96_init2D",
    "Verif.Props.C96_assembly_mat",
    "Verif.Props.C96_solve",
    "Verif.Props.C96_mvp",
    "Verif.Props.C96_reachable"
   ],
   "note": "The syntax trees are extracted by tools/gen_text.py. ell_solve_jacobi_2D (never called by the class), ell_print and ell_free are not among them. Tests of arguments against NULL in front of a return are left out. That the 2D pattern has a wrong slot on the right side is C02."
  },
  {
   "property": "C97",
   "status": "proved",
   "theorems": [
    "Verif.Props.C97_newton",
    "Verif.Props.C97_ctan_lin",
    "Verif.Props.C97_is_linear",
    "Verif.Props.C97_inv1",
    "Verif.Props.C97_inv2",
    "Verif.Props.C97_elem_type",
    "Verif.Props.C97_homogenize",
    "Verif.Props.C97_update_vars",
    "Verif.Props.C97_set_macro_strain",
    "Verif.Props.C97_get_macro_stress",
    "Verif.Props.C97_get_macro_ctan",
    "Verif.Props.C97_get_nl_flag",
    "Verif.Props.C97_reachable"
   ],
   "note": "The syntax trees are extracted by tools/gen_text.py. The unused local rad and output to cerr are left out. That the iteration pointer leaves its object is C28."
  },
  {
   "property": "C98",
   "status": "proved",
   "theorems": [
    "Verif.Props.C98_constructor",
    "Verif.Props.C98_step",
    "Verif.Props.C98_program",
    "Verif.Props.C98_returned"
   ],
   "note": "The syntax trees are extracted by tools/gen_text.py. The assertion that malloc succeeded is left out."
  },
  {
   "property": "C99",
   "status": "proved",
   "theorems": [
    "Verif.Props.C99_write_vtu",
    "Verif.Props.C99_write_info_files",
    "Verif.Props.C99_output",
    "Verif.Props.C99_vtu",
    "Verif.Props.C99_tables"
   ],
   "note": "The syntax trees are extracted by tools/gen_text.py. Number formatting (setw, scientific) is not modelled; files can always be opened and written."
  }
 ]
}