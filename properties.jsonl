{"id": "C01", "title": "3D structured matrix: every slot names the right neighbour", "statement": "After ell_init_3D(m,nF,nx,ny,nz) every entry of m->cols has been written, is a valid column in [0,ncol), and slot s of the rows of node (i,j,k) is the dof of the neighbour (i+a,j+b,k+c) encoded by s when that neighbour is inside the grid, and column 0 otherwise.", "quantifier": "all nFields >= 1, all nx,ny,nz >= 2, every node, field and slot, every previous content of the freshly malloc'ed memory", "why_tests_cant": "27 hand-written loop nests of 27 assignments; a test can only visit a few grid sizes and never shows that the nests tile every grid without gap or overlap.", "anchors": ["src/ell.cpp:ell_init_3D"]}
{"id": "C02", "title": "2D structured matrix: every slot names the right neighbour", "statement": "After ell_init_2D(m,nF,nx,ny) every entry of m->cols has been written, is a valid column in [0,ncol), and slot s of the rows of node (i,j) is the dof of the neighbour encoded by s when it is inside the grid and column 0 otherwise.", "quantifier": "all nFields >= 1, all nx,ny >= 2, every node, field and slot", "why_tests_cant": "Holds or fails per node class and for every grid size; only a proof over all sizes separates the classes that are right from the one that is not.", "anchors": ["src/ell.cpp:ell_init_2D"]}
{"id": "C03", "title": "Matrix routines never touch memory out of bounds", "statement": "For a matrix created by ell_init_2D/3D on an nx*ny(*nz) grid, ell_set_zero_mat, ell_add_struct2D/3D (for any element of the grid), ell_set_bc_2D/3D and ell_mvp_2D (for vectors of length nrow) only read and write inside the buffers they were given.", "quantifier": "all grid sizes >= 2, all numbers of fields >= 1, all elements, all contents of vals", "why_tests_cant": "A test executes a few sizes and an out-of-bounds access rarely crashes; the claim is about every index expression for every size.", "anchors": ["src/ell.cpp:ell_set_zero_mat", "src/ell.cpp:ell_add_struct2D", "src/ell.cpp:ell_add_struct3D", "src/ell.cpp:ell_set_bc_2D", "src/ell.cpp:ell_set_bc_3D", "src/ell.cpp:ell_mvp_2D"]}
{"id": "C04", "title": "ell_set_zero_mat yields the zero operator and assembly starts clean", "statement": "After ell_set_zero_mat, ell_mvp_2D(m,x,y) returns y = 0 for every x, whatever was in the matrix before, and the sparsity pattern is unchanged.", "quantifier": "all matrices, all previous contents, all x", "why_tests_cant": "Quantifies over all previous contents of the (uninitialised) value array.", "anchors": ["src/ell.cpp:ell_set_zero_mat", "src/ell.cpp:ell_mvp_2D"]}
{"id": "C05", "title": "3D assembly adds exactly the element matrix", "statement": "Calling ell_add_struct3D(m,ex,ey,ez,Ae,...) changes the operator x -> m*x by exactly the scatter of Ae onto the eight nodes of element (ex,ey,ez) in the documented node order, and by nothing else.", "quantifier": "all grids >= 2^3, all elements, all nFields, all Ae, all previous matrices, all x", "why_tests_cant": "The claim is an identity of operators for every x and every grid; a test samples some entries of one grid.", "anchors": ["src/ell.cpp:ell_add_struct3D", "src/ell.cpp:ell_init_3D", "src/ell.cpp:ell_mvp_2D"]}
{"id": "C06", "title": "2D assembly adds exactly the element matrix", "statement": "Calling ell_add_struct2D(m,ex,ey,Ae,...) changes the operator x -> m*x by exactly the scatter of Ae onto the four nodes of element (ex,ey), and by nothing else.", "quantifier": "all grids >= 2^2, all elements, all nFields, all Ae, all previous matrices, all x", "why_tests_cant": "The claim is an identity of operators for every x and every grid.", "anchors": ["src/ell.cpp:ell_add_struct2D", "src/ell.cpp:ell_init_2D", "src/ell.cpp:ell_mvp_2D"]}
{"id": "C07", "title": "Assembly does not depend on element order", "statement": "Assembling the same element matrices in any order gives the same matrix values, entry by entry (exact arithmetic).", "quantifier": "all permutations of all element lists, 2D and 3D, all element matrices", "why_tests_cant": "Factorially many orders and unbounded grids.", "anchors": ["src/ell.cpp:ell_add_struct2D", "src/ell.cpp:ell_add_struct3D", "src/assembly.cpp:micropp_t::assembly_mat"]}
{"id": "C08", "title": "3D Dirichlet rows and columns", "statement": "After ell_set_bc_3D every row of a boundary node is the identity row, every interior row ignores the components of boundary nodes, and the coupling between interior nodes is unchanged; so the operator is block diagonal identity + interior block.", "quantifier": "all grids >= 2^3, all nFields, all matrices on that pattern, all x", "why_tests_cant": "Twelve overlapping loop nests must cover all boundary/near-boundary combinations for all sizes, including degenerate ones (size 2 and 3).", "anchors": ["src/ell.cpp:ell_set_bc_3D"]}
{"id": "C09", "title": "2D Dirichlet rows and columns", "statement": "After ell_set_bc_2D every row of a boundary node is the identity row, every interior row ignores the components of boundary nodes, and the coupling between interior nodes is unchanged.", "quantifier": "all grids >= 2^2, all nFields, all matrices on that pattern, all x", "why_tests_cant": "Eight overlapping loop nests with hand-written offsets; only a proof over all sizes settles which boundary columns are really cleared.", "anchors": ["src/ell.cpp:ell_set_bc_2D"]}
{"id": "C10", "title": "Matrix-vector product is the linear operator of the stored matrix", "statement": "ell_mvp_2D writes y[i] = sum_j vals[i,j]*x[cols[i,j]] for every row i, is linear in x, and leaves the matrix and x unchanged.", "quantifier": "all well-formed matrices, all vectors, all scalars", "why_tests_cant": "Universally quantified algebraic law.", "anchors": ["src/ell.cpp:ell_mvp_2D"]}
{"id": "C11", "title": "CG: a converged report is truthful", "statement": "If the CG solvers return with solver->its < max(1,max_its) or by the tolerance test, then solver->err is the Euclidean norm of A*x-b at the returned x and is < min_tol (exact arithmetic).", "quantifier": "all matrices (no symmetry needed), right-hand sides, start vectors, tolerances, iteration limits", "why_tests_cant": "The residual is updated recursively and never recomputed; agreement with the true residual is an invariant over all iterations.", "anchors": ["src/ell.cpp:ell_solve_cgpd_2D", "src/ell.cpp:ell_solve_cgpd_struct"]}
{"id": "C12", "title": "CG: iteration count and termination", "statement": "The CG solvers always terminate, perform at most max(1,max_its) iterations and report in solver->its exactly the number of updates applied to x; with an already converged start they report 0 and leave x untouched.", "quantifier": "all inputs, all scalar arithmetics (including IEEE NaN), all limits including <= 0", "why_tests_cant": "Termination for every input and every limit.", "anchors": ["src/ell.cpp:ell_solve_cgpd_2D", "src/ell.cpp:ell_solve_cgpd_struct"]}
{"id": "C13", "title": "CG: finite termination on the systems the library builds", "statement": "For a matrix that is symmetric positive definite on the subspace the iteration lives in, CG never divides by zero and (exact arithmetic) reaches a residual below any positive tolerance within as many iterations as there are unknowns, provided max_its is larger than that.", "quantifier": "all dimensions, all SPD matrices with positive diagonal, all right-hand sides, all positive tolerances", "why_tests_cant": "Conjugacy of the search directions is an induction over all iterations.", "anchors": ["src/ell.cpp:ell_solve_cgpd_2D", "src/ell.cpp:ell_solve_cgpd_struct"]}
{"id": "C14", "title": "CG: every step reduces the energy error", "statement": "Every CG iteration on a symmetric positive definite matrix strictly reduces the energy functional 1/2 x'Ax - b'x until the residual is zero.", "quantifier": "all dimensions, all SPD matrices, all iterations", "why_tests_cant": "Monotonicity along every iteration history.", "anchors": ["src/ell.cpp:ell_solve_cgpd_2D", "src/ell.cpp:ell_solve_cgpd_struct"]}
{"id": "C15", "title": "CG: Dirichlet nodes stay exactly fixed", "statement": "With identity boundary rows, b = 0 there and du = 0 initially, every CG iterate is exactly 0 at boundary dofs, so the entries of interior rows in boundary columns (cleared or not) never influence the result.", "quantifier": "all grids, all matrices with identity boundary rows, all iteration limits", "why_tests_cant": "Invariant over all iterations; it is what makes the incompletely cleared 2D columns harmless.", "anchors": ["src/ell.cpp:ell_solve_cgpd_2D", "src/ell.cpp:ell_solve_cgpd_struct", "src/ell.cpp:ell_set_bc_2D"]}
{"id": "C16", "title": "Solvers reject NULL and leave everything unchanged", "statement": "ell_solve_cgpd_2D, ell_solve_cgpd_struct and ell_solve_jacobi_2D return 1 and change nothing if the matrix, b or x is NULL, and return 0 otherwise.", "quantifier": "all combinations of NULL pointers", "why_tests_cant": "State-unchanged claim for all states.", "anchors": ["src/ell.cpp:ell_solve_cgpd_2D", "src/ell.cpp:ell_solve_cgpd_struct", "src/ell.cpp:ell_solve_jacobi_2D"]}
{"id": "C17", "title": "Relaxation solver: converged report is truthful, solutions are fixed points", "statement": "ell_solve_jacobi_2D, when it stops by tolerance, reports err = |A x - b| < min_tol at the returned x; an exact solution is left unchanged by a sweep; on a symmetric positive definite matrix no sweep increases the energy functional.", "quantifier": "all matrices with non-zero diagonal in the diagonal slot, all b, x, limits", "why_tests_cant": "Statement about every sweep of every run.", "anchors": ["src/ell.cpp:ell_solve_jacobi_2D"]}
{"id": "C18", "title": "Heap discipline of the solvers and of an object's life", "statement": "Every solver call frees all work buffers it allocated, and constructing an object, running any sequence of API calls and destroying it frees every block exactly once.", "quantifier": "all API call sequences, all Gauss-point histories", "why_tests_cant": "Unbounded histories; leaks do not fail tests.", "anchors": ["src/ell.cpp:ell_solve_jacobi_2D", "src/ell.cpp:ell_solve_cgpd_2D", "src/micro.cpp:micropp_t::~micropp_t", "src/homogenize.cpp:micropp_t::homogenize", "src/wrapper.cpp:micropp_construct_"]}
{"id": "C19", "title": "Prescribed boundary displacement", "statement": "set_displ(eps) gives every boundary node (and only boundary nodes) the displacement eps*X of its coordinates X (engineering shear halved); interior displacements are untouched; consistent on shared edges and corners.", "quantifier": "all grids >= 2, all sizes lx,ly,lz, all eps, all previous displacements, 2D and 3D", "why_tests_cant": "All nodes of all grids; the four/six face loops must cover the boundary exactly.", "anchors": ["src/assembly.cpp:micropp_t::set_displ"]}
{"id": "C20", "title": "Strain operator reproduces affine fields exactly (patch test)", "statement": "If the nodal displacements are any affine field, get_strain2D/3D returns exactly its symmetric gradient (engineering shear) at every Gauss point of every element; in particular rigid motions give zero strain.", "quantifier": "all grids, all element sizes dx,dy,dz != 0, all affine fields, all Gauss points", "why_tests_cant": "An identity for all fields and all grids.", "anchors": ["src/assembly.cpp:micropp_t::get_strain2D", "src/assembly.cpp:micropp_t::get_strain3D", "src/assembly.cpp:micropp_t::calc_bmat_3D", "src/assembly.cpp:micropp_t::getElemDisp"]}
{"id": "C21", "title": "Average strain equals the macro strain", "statement": "After set_displ(eps), whatever the interior displacements are, calc_ave_strain returns eps.", "quantifier": "all grids, all interior displacement fields, all eps, 2D and 3D, all lx,ly,lz > 0", "why_tests_cant": "Discrete divergence theorem over all grids and all interior fields.", "anchors": ["src/assembly.cpp:micropp_t::calc_ave_strain", "src/assembly.cpp:micropp_t::set_displ"]}
{"id": "C22", "title": "Average stress of a uniform state", "statement": "If all elements carry the same linear elastic material and the field is affine with strain eps, calc_ave_stress returns the material law applied to eps.", "quantifier": "all grids, all elastic constants, all eps, all cell dimensions", "why_tests_cant": "The normalisation by the cell volume has to be right for all cell dimensions.", "anchors": ["src/assembly.cpp:micropp_t::calc_ave_stress"]}
{"id": "C23", "title": "Element stiffness is symmetric, positive semidefinite and free of spurious modes", "statement": "For a linear elastic material with E > 0 and -1 < nu < 1/2 the 2D and 3D element matrices are symmetric, x'Ke x >= 0, and x'Ke x = 0 implies zero strain at all Gauss points; a displacement vanishing on all element nodes but one has zero energy only if it is zero.", "quantifier": "all elastic constants in the admissible range, all element sizes, all element displacements", "why_tests_cant": "Universally quantified over all real vectors and constants.", "anchors": ["src/assembly.cpp:micropp_t::get_elem_mat2D", "src/assembly.cpp:micropp_t::get_elem_mat3D"]}
{"id": "C24", "title": "Tangent and residual are consistent", "statement": "For linear elastic elements the residual vector of the element equals the element matrix times the element displacement, so assembly_rhs(u) is minus the assembled operator applied to u on interior dofs, and 0 on boundary dofs; the value it returns is the Euclidean norm of that vector.", "quantifier": "all grids, all displacements, all elastic materials", "why_tests_cant": "Identity for all displacement fields on all grids.", "anchors": ["src/assembly.cpp:micropp_t::assembly_rhs", "src/assembly.cpp:micropp_t::get_elem_rhs2D", "src/assembly.cpp:micropp_t::get_elem_rhs3D", "src/assembly.cpp:micropp_t::assembly_mat"]}
{"id": "C25", "title": "The assembled system is positive definite", "statement": "For admissible linear elastic materials the matrix built by assembly_mat is symmetric positive definite on displacements vanishing on the boundary, has strictly positive diagonal entries in the slot used by the preconditioner, and the equilibrium problem has exactly one solution for each boundary displacement.", "quantifier": "all grids >= 2, all micro-structures, all admissible materials", "why_tests_cant": "Needs an argument over all grids (propagation from the boundary).", "anchors": ["src/assembly.cpp:micropp_t::assembly_mat", "src/ell.cpp:ell_solve_cgpd_struct"]}
{"id": "C26", "title": "Newton-Raphson solves linear problems in one correction", "statement": "For linear elastic microstructures with fewer unknowns than the CG limit, newton_raphson (exact arithmetic) performs at most one correction and returns with residual below its tolerance.", "quantifier": "all grids with at most CG_MAX_ITS unknowns, all micro-structures, all start displacements, all boundary strains", "why_tests_cant": "End-to-end statement over all grids and all states.", "anchors": ["src/solve.cpp:micropp_t::newton_raphson", "src/solve.cpp:micropp_t::solve"]}
{"id": "C27", "title": "Newton-Raphson respects the boundary and reports a truthful error", "statement": "newton_raphson never changes boundary displacements; when it stops because the error is below the tolerance, the reported error is the residual norm of the displacement it leaves behind.", "quantifier": "all states, all materials, all iteration histories", "why_tests_cant": "Holds for every iteration history.", "anchors": ["src/solve.cpp:micropp_t::newton_raphson"]}
{"id": "C28", "title": "Newton-Raphson iteration limit and iteration report", "statement": "newton_raphson performs at most NR_MAX_ITS iterations, has no undefined behaviour, and reports the number of iterations performed.", "quantifier": "all states and materials", "why_tests_cant": "Bound over all histories (the increment is written *its++).", "anchors": ["src/solve.cpp:micropp_t::newton_raphson"]}
{"id": "C29", "title": "Hill-Mandel condition", "statement": "At an equilibrated displacement field (zero interior residual) under prescribed macro strain, the volume average of stress:strain equals the product of the macro (average) stress and the macro strain.", "quantifier": "all grids, all elastic microstructures, all equilibrated fields, all strains", "why_tests_cant": "Energy identity over all grids and fields.", "anchors": ["src/assembly.cpp:micropp_t::calc_ave_stress", "src/assembly.cpp:micropp_t::assembly_rhs", "src/assembly.cpp:micropp_t::set_displ"]}
{"id": "C30", "title": "Homogenised stiffness is symmetric positive definite", "statement": "The map macro strain -> average stress at equilibrium of a linear elastic microstructure is linear, symmetric and positive definite.", "quantifier": "all grids, all admissible two-phase microstructures", "why_tests_cant": "Universally quantified over microstructures.", "anchors": ["src/homogenize.cpp:micropp_t::calc_ctan_lin", "src/assembly.cpp:micropp_t::calc_ave_stress"]}
{"id": "C31", "title": "A homogeneous microstructure reproduces its material law", "statement": "If all elements have the same linear elastic material, the only equilibrated field under macro strain eps is the affine one and the macro stress is the material law applied to eps.", "quantifier": "all grids, all admissible constants, all eps", "why_tests_cant": "Needs uniqueness and the patch test on all grids.", "anchors": ["src/homogenize.cpp:micropp_t::homogenize", "src/assembly.cpp:micropp_t::calc_ave_stress"]}
{"id": "C32", "title": "Plasticity: stress never leaves the yield surface", "statement": "After plastic_step the returned stress satisfies the yield inequality |dev s| <= sqrt(2/3)(Sy + Ka*alpha_new), for every strain and every previous history.", "quantifier": "all strains, all previous plastic strains, all alpha_old >= 0, all materials with mu > 0, Ka >= 0, Sy + Ka*alpha_old >= 0", "why_tests_cant": "Inequality over all real tensors.", "anchors": ["src/assembly.cpp:micropp_t::plastic_step"]}
{"id": "C33", "title": "Plasticity: consistency (Kuhn-Tucker)", "statement": "Whenever plastic_step reports plastic flow, the returned stress lies on the updated yield surface.", "quantifier": "all strains, histories, hardening parameters", "why_tests_cant": "Equality over all real tensors.", "anchors": ["src/assembly.cpp:micropp_t::plastic_step"]}
{"id": "C34", "title": "Plasticity: irreversibility and incompressibility", "statement": "The hardening variable never decreases and strictly increases exactly when plastic flow is reported; plastic flow does not change the trace of the plastic strain; without plastic flow the internal variables are returned unchanged; plastic work is non-negative; the mean stress depends on the strain only.", "quantifier": "all strains and all histories of plastic steps", "why_tests_cant": "Invariant along all load histories.", "anchors": ["src/assembly.cpp:micropp_t::plastic_step"]}
{"id": "C35", "title": "Plasticity: committed state is consistent with the stress", "statement": "Evaluating the material again at the same strain with the updated internal variables gives the same stress and no further plastic flow.", "quantifier": "all strains and histories", "why_tests_cant": "Round-trip law over all tensors.", "anchors": ["src/assembly.cpp:micropp_t::plastic_step", "src/assembly.cpp:micropp_t::get_stress3D"]}
{"id": "C36", "title": "Plasticity: stress is continuous (non-expansive) in the strain", "statement": "The deviatoric stress returned by plastic_step is a non-expansive function of the trial deviatoric stress, hence continuous across yielding.", "quantifier": "all pairs of strains, all histories", "why_tests_cant": "Two-point inequality over all tensors.", "anchors": ["src/assembly.cpp:micropp_t::plastic_step"]}
{"id": "C37", "title": "Below yield a plastic material is the linear elastic material", "statement": "With zero plastic strain and no yielding, get_stress3D for a plastic material returns the same stress as for a linear material with the same constants, and the perturbation tangent equals the elastic tangent while the perturbations stay elastic.", "quantifier": "all strains below yield, all admissible constants", "why_tests_cant": "Identity over all strains and constants.", "anchors": ["src/assembly.cpp:micropp_t::plastic_step", "src/assembly.cpp:micropp_t::get_stress3D", "src/assembly.cpp:micropp_t::get_ctan_plast_pert"]}
{"id": "C38", "title": "The non-linear flag reports yielding anywhere", "statement": "assembly_rhs sets the non-linear flag exactly when some Gauss point of some element yields.", "quantifier": "all grids, displacements, histories", "why_tests_cant": "Flag must be right for every position of the yielding Gauss point.", "anchors": ["src/assembly.cpp:micropp_t::assembly_rhs", "src/assembly.cpp:micropp_t::get_elem_rhs3D", "src/assembly.cpp:micropp_t::get_stress3D"]}
{"id": "C39", "title": "Gauss points form a map from id to strain", "statement": "After any sequence of API calls the registered Gauss points are exactly the ids passed to set_macro_strain, each once, in order of first registration, and each holds the last strain set for it.", "quantifier": "all API call sequences, all scalar arithmetics", "why_tests_cant": "Unbounded histories.", "anchors": ["src/homogenize.cpp:micropp_t::set_macro_strain"]}
{"id": "C40", "title": "Getters are pure and total", "statement": "get_macro_stress, get_macro_ctan and get_nl_flag change no state; for an unknown id the first two leave the caller's buffer unchanged and the flag is 0.", "quantifier": "all histories, all ids, all buffers", "why_tests_cant": "Frame property over all states.", "anchors": ["src/homogenize.cpp:micropp_t::get_macro_stress", "src/homogenize.cpp:micropp_t::get_macro_ctan", "src/micro.cpp:micropp_t::get_nl_flag"]}
{"id": "C41", "title": "Linear Gauss points get the linear answer", "statement": "homogenize gives a Gauss point that has never been non-linear and whose trace of CL*eps is below the tolerance the stress CL*eps, the tangent CL and zero Newton iterations/errors, independently of all other Gauss points and of the displacement left by earlier solves.", "quantifier": "all histories, all other Gauss points, all scalar arithmetics", "why_tests_cant": "Independence from all histories.", "anchors": ["src/homogenize.cpp:micropp_t::homogenize", "src/homogenize.cpp:micropp_t::is_linear"]}
{"id": "C42", "title": "Non-linearity is permanent", "statement": "Once get_nl_flag reports 1 for a Gauss point it reports 1 for ever, and it becomes 1 only in homogenize.", "quantifier": "all API call sequences", "why_tests_cant": "Unbounded histories.", "anchors": ["src/homogenize.cpp:micropp_t::homogenize", "src/micro.cpp:micropp_t::get_nl_flag"]}
{"id": "C43", "title": "Trial evaluations do not advance the material history", "statement": "homogenize, output, the setters and the getters never change the committed internal variables of a non-linear Gauss point; only update_vars does, it is idempotent and leaves macro results untouched.", "quantifier": "all API call sequences", "why_tests_cant": "Unbounded histories of trial evaluations.", "anchors": ["src/homogenize.cpp:micropp_t::homogenize", "src/homogenize.cpp:micropp_t::update_vars", "src/output.cpp:micropp_t::output"]}
{"id": "C44", "title": "update_vars commits the last evaluation", "statement": "update_vars makes the internal variables of every non-linear Gauss point those of the last homogenize call for the strain then set.", "quantifier": "all API call sequences, including repeated homogenize calls with different strains before update_vars", "why_tests_cant": "Depends on the interleaving of trial evaluations.", "anchors": ["src/homogenize.cpp:micropp_t::homogenize", "src/homogenize.cpp:micropp_t::update_vars"]}
{"id": "C45", "title": "The user's linearity tolerance is honoured", "statement": "The tolerance micro_params[4] passed to the constructor decides which Gauss points take the linear path.", "quantifier": "all parameter values, all contents of uninitialised memory", "why_tests_cant": "The member initialiser reads memory that has not been written yet; the outcome depends on it.", "anchors": ["src/micro.cpp:micropp_t::micropp_t", "src/homogenize.cpp:micropp_t::is_linear"]}
{"id": "C46", "title": "Constructor results do not depend on uninitialised memory", "statement": "Two objects constructed with the same arguments behave identically whatever malloc returned.", "quantifier": "all arguments, all contents of malloc'ed memory", "why_tests_cant": "Quantifies over memory contents, which a test cannot choose.", "anchors": ["src/micro.cpp:micropp_t::micropp_t", "src/homogenize.cpp:micropp_t::calc_ctan_lin"]}
{"id": "C47", "title": "Index maps are bijections", "statement": "The element numbering is a bijection between element coordinates and [0,nelem), the node numbering between node coordinates and [0,nn), and the internal-variable index is injective and stays inside the num_int_vars buffer.", "quantifier": "all grids", "why_tests_cant": "All grids.", "anchors": ["include/micro.hpp:glo_elem3D", "include/micro.hpp:intvar_ix", "src/ell.cpp:nod_index"]}
{"id": "C48", "title": "Microstructure classification", "statement": "Every element is assigned type 0 or 1: in the layered structure the type depends only on the height of the element centre and the type-1 elements are exactly those with centre below the width; in the inclusion structure type 1 is exactly those whose centre is at distance less than width from the cell centre, and the pattern is mirror symmetric.", "quantifier": "all grids, all widths, all cell sizes", "why_tests_cant": "All grids and sizes.", "anchors": ["src/micro.cpp:micropp_t::get_elem_type2D", "src/micro.cpp:micropp_t::get_elem_type3D", "src/assembly.cpp:micropp_t::get_material"]}
{"id": "C49", "title": "Elastic constants are consistent", "statement": "The constructor's k, mu, lambda satisfy k = lambda + 2mu/3 and E = 9k mu/(3k+mu); they are positive for E > 0, 0 < nu < 1/2; the 2D law equals the 3D law in plane strain; a type-2 (damage) material behaves like a linear one.", "quantifier": "all E, nu outside the singular values", "why_tests_cant": "Identities over all reals.", "anchors": ["src/micro.cpp:micropp_t::micropp_t", "src/assembly.cpp:micropp_t::get_stress2D", "src/assembly.cpp:micropp_t::get_stress3D"]}
{"id": "C50", "title": "VTU file is well formed and cells match their data", "statement": "The vtu file written for a grid lists nn points in node order, nelem cells in element order whose connectivity refers only to listed points, nelem offsets which are the running totals of the cell sizes, and one data entry per point or cell, so that cell e's data are those of element e.", "quantifier": "all grids, 2D and 3D", "why_tests_cant": "All grids.", "anchors": ["src/output.cpp:micropp_t::write_vtu"]}
{"id": "C51", "title": "Info files: one header, one record per call", "statement": "Over any history the header is written exactly once, before all records, and each write_info_files call appends exactly one record with one entry per registered Gauss point, in registration order.", "quantifier": "all API call sequences", "why_tests_cant": "Unbounded histories.", "anchors": ["src/output.cpp:micropp_t::write_info_files"]}
{"id": "C52", "title": "Fortran wrapper forwards to one object", "statement": "After micropp_construct_ every wrapper call behaves as the corresponding method of the constructed object; before it, every call dereferences NULL; constructing twice abandons the first object.", "quantifier": "all call sequences", "why_tests_cant": "Unbounded call sequences.", "anchors": ["src/wrapper.cpp"]}
{"id": "C53", "title": "Internal variables of elastic elements are zero", "statement": "The committed internal variables of elements whose material has no plasticity are zero.", "quantifier": "all histories, all contents of malloc'ed memory", "why_tests_cant": "Depends on uninitialised memory.", "anchors": ["src/homogenize.cpp:micropp_t::homogenize", "src/assembly.cpp:micropp_t::get_stress3D"]}
{"id": "C54", "title": "32-bit index arithmetic does not overflow on supported grids", "statement": "If the matrix value buffer has fewer than 2^31 entries, no index expression of the matrix routines overflows a 32-bit int; the first cubic 3-field grid for which the size computation itself overflows is 207^3.", "quantifier": "all grids", "why_tests_cant": "All grids; overflow only appears on grids too large for a test.", "anchors": ["src/ell.cpp:ell_init_3D", "src/ell.cpp:ell_set_bc_3D", "src/ell.cpp:ell_add_struct3D"]}
{"id": "C55", "title": "Second invariant is frame indifferent", "statement": "get_inv_2 returns a quantity that does not change when the tensor is rotated; get_inv_1 is the trace and is linear.", "quantifier": "all tensors, all rotations", "why_tests_cant": "All rotations.", "anchors": ["src/homogenize.cpp:micropp_t::get_inv_1", "src/homogenize.cpp:micropp_t::get_inv_2"]}
{"id": "C56", "title": "Every public call is memory safe", "statement": "For every supported constructor argument and every sequence of public calls, directly or through the Fortran interface, no array access is out of bounds, no null pointer is dereferenced and no uninitialised loop bound is used; the only exception is the read behind the iteration counter in newton_raphson.", "quantifier": "all arguments, all API call sequences, all contents of malloc'ed memory, every scalar type", "why_tests_cant": "All grids, all histories and all memory contents; an out-of-bounds access may go unnoticed in a test.", "anchors": ["src/micro.cpp:micropp_t::micropp_t", "src/homogenize.cpp:micropp_t::homogenize", "src/solve.cpp:micropp_t::newton_raphson", "src/wrapper.cpp"]}
{"id": "C57", "title": "Output fields are averages of the solved state", "statement": "After output for a Gauss point, each element strain and stress is the mean over the element's Gauss points of the values computed from the displacement and internal variables of the same state; the element strains average to the macroscopic strain set for the Gauss point, and the element stresses to the average stress of the cell.", "quantifier": "all arguments, all API call sequences, all materials", "why_tests_cant": "All grids, all histories.", "anchors": ["src/assembly.cpp:micropp_t::calc_fields", "src/output.cpp:micropp_t::output"]}
{"id": "C58", "title": "Each Gauss point gets the answer to its own problem", "statement": "In one homogenize call a Gauss point that is solved gets the average stress of the cell under its own macro strain with its own committed internal variables (zero if it has none); column i of its tangent is the difference quotient between the average stress for the strain increased by 1e-8 in component i and the average stress for the strain itself; the stored iteration numbers and errors are those of these solves in order. Column i of the linear tangent is the average stress under the strain 1e-8 in component i divided by 1e-8.", "quantifier": "all objects, all lists of Gauss points, all strains, all histories, all memory contents, every scalar type", "why_tests_cant": "Quantifies over all histories and lists of Gauss points sharing one work area; a mix-up between points or columns shows only for particular combinations.", "anchors": ["src/homogenize.cpp:micropp_t::homogenize", "src/homogenize.cpp:micropp_t::calc_ctan_lin"]}
{"id": "C59", "title": "The macro stress of an elastic cell is the homogenised law, whatever the history", "statement": "For an elastic cell there is a constant K such that every macro stress obtained by solving differs from the homogenised stiffness times the macro strain by at most K*1e-5, whatever the strain, the earlier calls and the memory; so two solved Gauss points with the same strain have the same stress up to 2*K*1e-5.", "quantifier": "all elastic cells with fewer than 2000 interior dofs, all strains, all histories, all memory contents (exact arithmetic)", "why_tests_cant": "The solver starts from whatever displacements the previous Gauss point left; no finite set of histories shows that the result does not depend on them.", "anchors": ["src/homogenize.cpp:micropp_t::homogenize", "src/solve.cpp:micropp_t::newton_raphson", "src/assembly.cpp:micropp_t::calc_ave_stress"]}
{"id": "C60", "title": "The tangents of an elastic cell are its homogenised stiffness", "statement": "For an elastic cell the linear tangent and the macro tangents are the homogenised stiffness, the derivative of the average equilibrium stress with respect to the macro strain.", "quantifier": "all elastic cells, all histories, all memory contents (exact arithmetic)", "why_tests_cant": "The tangent is a difference quotient with step 1e-8 of answers that are only accurate to the residual tolerance 1e-5; for stiff materials tests pass, for soft ones the quotient amplifies the error.", "anchors": ["src/homogenize.cpp:micropp_t::calc_ctan_lin", "src/homogenize.cpp:micropp_t::homogenize", "src/solve.cpp"]}
{"id": "C61", "title": "Results do not depend on fresh memory except in five places", "statement": "Two programs making the same calls with the same arguments return the same values and write the same files whatever fresh memory contains, provided five things agree: the member read for the tolerance, the displacement block, the two blocks of internal variables and the records of new Gauss points. The matrix, the residual, the increment, the element averages, the element types, the material flags, the linear tangent and the work arrays of the solvers never matter. Clearing the five makes the library deterministic.", "quantifier": "all supported arguments, all call sequences, all pairs of memory contents, every scalar type", "why_tests_cant": "A relation between all pairs of runs; a test sees one memory content, usually zeros.", "anchors": ["src/micro.cpp:micropp_t::micropp_t", "src/ell.cpp:ell_solve_cgpd_struct", "src/homogenize.cpp:micropp_t::homogenize", "src/output.cpp:micropp_t::output"]}
{"id": "C62", "title": "The equilibrium of an elastic cell minimises the energy, and its stiffness lies between the Reuss and Voigt bounds", "statement": "Among all displacement fields with the same boundary values the equilibrium has the least energy, computed from the stresses and strains of the code, and it alone. The work of the macro stress on the macro strain is at most that of the mean of the two elastic laws weighted by the volume fractions and at least that of the inverse of the mean of the inverse laws; for shears the stiffness lies between the harmonic and the arithmetic mean of the shear moduli. In three dimensions all results carry the factor lz of property C22.", "quantifier": "all elastic cells, all grids, all volume fractions, all macro strains, all competing fields (exact arithmetic)", "why_tests_cant": "Inequalities over all competing displacement fields and all volume fractions.", "anchors": ["src/assembly.cpp:micropp_t::calc_ave_stress", "src/assembly.cpp:micropp_t::get_stress", "src/assembly.cpp:micropp_t::get_strain"]}
{"id": "C63", "title": "Stiffer materials make a stiffer cell; the unit of stress does not matter", "statement": "Of two cells of the same geometry, if the shear and the bulk modulus of each material of the second are at least those of the first, the second resists every macro strain at least as much. If Young's moduli of the second are k times those of the first at equal Poisson numbers, its displacements are the same and its macro stress is k times as large.", "quantifier": "all pairs of constructor arguments with elastic materials, all histories, all macro strains (exact arithmetic)", "why_tests_cant": "Relates all pairs of objects; a finite set of moduli cannot show monotonicity.", "anchors": ["src/micro.cpp:micropp_t::micropp_t", "src/assembly.cpp:micropp_t::calc_ave_stress", "src/assembly.cpp:micropp_t::get_stress"]}
{"id": "C64", "title": "The unit of length does not matter", "statement": "If all lengths given to the constructor are multiplied by k, the equilibrium displacements are multiplied by k and the macro stress stays the same.", "quantifier": "all pairs of constructor arguments, all histories, all macro strains (exact arithmetic)", "why_tests_cant": "Relates all pairs of objects of proportional size; the tests use one size of cell, with edges 1, for which a missing factor does not show.", "anchors": ["src/micro.cpp:micropp_t::micropp_t", "src/assembly.cpp:micropp_t::calc_ave_stress", "src/micro.cpp:micropp_t::get_elem_type3D"]}
{"id": "C65", "title": "The response has the symmetries of the cell", "statement": "If a cell is reflected in an axis, or its axes are permuted, together with the macro strain, the macro stress is reflected or permuted. The homogenised stiffness of every cell the constructor can build therefore has no coupling between normal strains and shears nor between different shears, and a cube (square) with an inclusion divided alike along all axes has a stiffness of three constants.", "quantifier": "all supported arguments with elastic materials, all grids, all histories, all macro strains (exact arithmetic)", "why_tests_cant": "Relates all runs to their mirror images; an error in one of the numbering tables, element matrices or Gauss-point loops can keep every single output plausible while breaking symmetry.", "anchors": ["src/assembly.cpp:micropp_t::set_displ", "src/assembly.cpp:micropp_t::assembly_rhs", "src/assembly.cpp:micropp_t::calc_bmat_3D", "src/assembly.cpp:micropp_t::calc_ave_stress", "src/micro.cpp:micropp_t::get_elem_type3D"]}
{"id": "C66", "title": "Rounded arithmetic: an accepted macro stress is close to the homogenised law", "statement": "For an elastic cell in which no element centre lies on the interface there are a constant K and a precision such that in every rounded arithmetic at least that precise, whatever the calls and the memory, a macro stress that homogenize obtained by solving and reports with an error below NR_MAX_TOL differs from the exact homogenised stiffness times the macro strain by at most K*(1e-5 + u*M), where u is the unit roundoff and M bounds the strain.", "quantifier": "all elastic cells, all formats of sufficient precision, all strains, all histories, all memory contents; no overflow", "why_tests_cant": "Rounding errors of every operation accumulate along all histories; a test sees one rounding mode, one grid and one strain, and has no exact value to compare with.", "anchors": ["src/homogenize.cpp:micropp_t::homogenize", "src/solve.cpp:micropp_t::newton_raphson", "src/assembly.cpp:micropp_t::assembly_rhs", "src/assembly.cpp:micropp_t::calc_ave_stress"]}
{"id": "C67", "title": "Rounded arithmetic: prescribed displacements stay exact", "statement": "newton_raphson leaves every displacement on the boundary exactly, to the last bit, as set_displ computed it, whatever the solver does and however many corrections are made.", "quantifier": "all cells and materials, all formats, all strains, all states, all environments; no overflow", "why_tests_cant": "Holds because the boundary components of residual, preconditioned residual, direction and increment are exact zeros in every iteration; a test would see one run.", "anchors": ["src/solve.cpp:micropp_t::newton_raphson", "src/ell.cpp:ell_solve_cgpd_struct", "src/ell.cpp:ell_set_bc_3D", "src/assembly.cpp:micropp_t::assembly_rhs"]}
{"id": "C68", "title": "Rounded arithmetic: error of the matrix-vector product", "statement": "Each entry of the vector ell_mvp_2D computes differs from the exact product of the stored numbers by at most ((1+u)^(nnz+1)-1) times the sum of the absolute values of its terms plus 2*nnz*(1+u)^nnz times the underflow bound.", "quantifier": "all matrices with a valid pattern, all vectors, all formats; no overflow", "why_tests_cant": "A bound for all matrices and vectors.", "anchors": ["src/ell.cpp:ell_mvp_2D"]}
{"id": "C69", "title": "Rounded arithmetic: every element gets the material of its centre", "statement": "The type stored for an element is the one that its exact centre has: 1 below the width of a layer or inside the inclusion, 0 otherwise.", "quantifier": "all supported arguments, all formats of sufficient precision, all calls, all memory contents", "why_tests_cant": "Depends on rounding in comparisons at all grid sizes; the grids of the tests have no centre on an interface.", "anchors": ["src/micro.cpp:micropp_t::get_elem_type2D", "src/micro.cpp:micropp_t::get_elem_type3D", "src/micro.cpp:micropp_t::micropp_t"]}
{"id": "C70", "title": "Integer arithmetic outside of the matrix routines does not overflow", "statement": "No int expression of micro.cpp, assembly.cpp, solve.cpp, homogenize.cpp and output.cpp overflows: in space if the entries of the matrix, 243*nx*ny*nz, are fewer than 2^31; in the plane if the entries of the matrix, 36*nx*ny, and the internal variables, 56*(nx-1)*(ny-1), are. The second condition is not implied by the first: squares overflow from 6194 nodes per side, although their matrix would fit up to 7723.", "quantifier": "all grids, all values of all loop counters, at every place of the code", "why_tests_cant": "Overflow is undefined behaviour that appears only for grids too large to be tested.", "anchors": ["src/micro.cpp:micropp_t::micropp_t", "include/micro.hpp:glo_elem3D", "include/micro.hpp:intvar_ix", "src/assembly.cpp", "src/output.cpp:micropp_t::write_vtu"]}
{"id": "C71", "title": "No array is accessed outside of its bounds, neither fixed-size arrays nor those of the caller", "statement": "Every subscript of an array member, local array, array parameter and block of the constructor is within bounds at every place of micro.cpp, assembly.cpp, solve.cpp, homogenize.cpp and output.cpp; every call passes arrays with as many entries as the callee uses. Of the arrays of the caller the constructor uses 5 entries of micro_params, 14 of params, 2 of mat_types and dim of size.", "quantifier": "all grids with at least two nodes per direction, all values of all loop counters, at every place of the code", "why_tests_cant": "Fixed-size arrays overrun silently: the neighbouring local or member is changed, and only for the values of dim, nvoi and the counters that reach the end.", "anchors": ["include/micro.hpp:gp_t", "src/micro.cpp:micropp_t::micropp_t", "src/assembly.cpp", "src/homogenize.cpp", "src/output.cpp"]}
{"id": "C72", "title": "The programs in test drive the library within its contract", "statement": "For every grid with at least two nodes per direction and every number of steps, the programs in test return 0, never leave an array, and print for each step the prescribed strain (up to 0.30, down to -0.20, up to 0.30, down to -0.90, then up, in steps of 0.01) and the stress the Gauss point holds after the homogenization of that step; without enough arguments they return 1; their cells consist of the materials they describe.", "quantifier": "all programs in test that are built, all arguments, all numbers of steps, all memory contents, every scalar type", "why_tests_cant": "The programs are run with one grid and ten steps; the load changes its direction only after 30, 80, 130 and 250 steps, and the argument for the direction of the strain is 1.", "anchors": ["test/test3d_1.cpp:main", "test/test3d_7.cpp:main", "test/test3d_8.cpp:main", "test/test2d_1.cpp:main", "test/test3d_3.f90"]}
{"id": "C73", "title": "ell_print shows every entry once", "statement": "ell_print returns 1 for a NULL matrix and 2 for a matrix without arrays and prints nothing; otherwise it returns 0, reads only inside of the arrays, and prints all columns and then all values, row by row, each entry once.", "quantifier": "all matrices whose arrays have nnz*nrow entries, in particular those of every object after any calls", "why_tests_cant": "Quantifies over all sizes; no test calls the function.", "anchors": ["src/ell.cpp:ell_print"]}
{"id": "C74", "title": "A cell with plastic elements has an equilibrium, and its stresses are unique", "statement": "In three dimensions, for every macro strain and every history without negative hardening, there is a displacement field with the boundary values of the macro strain and no residual; all such fields have the same stresses at all Gauss points and the same average stress; and the average stress that set_displ, newton_raphson and calc_ave_stress return tends to it when the reported residual norm tends to zero, whatever the memory contained.", "quantifier": "all grids, all materials with positive yield stress and no softening (elastic and plastic elements mixed), all histories, all macro strains, all memory contents", "why_tests_cant": "Existence and uniqueness of the solution of a non-linear system of any size for all histories: a test observes one iteration for one load.", "anchors": ["src/assembly.cpp:micropp_t::plastic_step", "src/assembly.cpp:micropp_t::assembly_rhs", "src/assembly.cpp:micropp_t::calc_ave_stress", "src/solve.cpp:micropp_t::newton_raphson"]}
{"id": "C75", "title": "The response of a plastic cell is monotone and has no jumps", "statement": "At a fixed history the product of an increment of the macro strain with the increment of the average stress at equilibrium is never negative, and the increment of the stress is at most a constant, the same for all strains and histories, times that of the strain.", "quantifier": "all grids, all materials with positive yield stress and no softening, all histories, all pairs of macro strains", "why_tests_cant": "Quantifies over all pairs of strains and all histories.", "anchors": ["src/assembly.cpp:micropp_t::plastic_step", "src/assembly.cpp:micropp_t::calc_ave_stress", "src/homogenize.cpp:micropp_t::homogenize"]}
{"id": "C76", "title": "A plastic cell cannot carry more than its yield stress", "statement": "If all elements are plastic, the norm of the deviator of the average stress is at most the volume average of the yield radii sqrt(2/3)*(Sy+Ka*alpha), times the factor by which calc_ave_stress is wrong in three dimensions (C22).", "quantifier": "all grids, all displacements (converged or not), all histories without negative hardening, all materials with positive yield stress and no softening", "why_tests_cant": "A bound for all strains, in particular large ones.", "anchors": ["src/assembly.cpp:micropp_t::plastic_step", "src/assembly.cpp:micropp_t::calc_ave_stress"]}
{"id": "C77", "title": "Committed hardening never decreases along any run", "statement": "In every state reached from the constructor by public calls, the committed hardening variable of each Gauss point of a plastic element is not negative and the committed plastic strain has no trace; no call decreases a committed hardening variable; hence every history that homogenize and output load meets the hypotheses of C74 to C76.", "quantifier": "three dimensions, all supported arguments with positive yield stress and no softening, all sequences of calls, all macro strains, converged or not, all memory contents", "why_tests_cant": "An invariant of all sequences of calls, through stored, trial and working copies of the variables.", "anchors": ["src/homogenize.cpp:micropp_t::homogenize", "src/homogenize.cpp:micropp_t::update_vars", "src/assembly.cpp:micropp_t::plastic_step", "src/output.cpp:micropp_t::output"]}
{"id": "C78", "title": "Newton-Raphson converges on elastic cells of every size", "statement": "For an elastic cell there is a constant K such that newton_raphson, from any displacements, ends after at most K times the square of the first residual norm passes, with an error of at most NR_MAX_TOL, and leaves displacements within K*NR_MAX_TOL of the equilibrium with the boundary values it began with, although a single linear solve is cut off after CG_MAX_ITS iterations.", "quantifier": "all grids (also those with more unknowns than CG_MAX_ITS), all elastic materials, all displacements, all memory contents that do not end the loop early", "why_tests_cant": "Convergence for all grids and all starting points; the tests use small grids, on which one linear solve reaches its tolerance.", "anchors": ["src/solve.cpp:micropp_t::newton_raphson", "src/solve.cpp:micropp_t::solve", "src/ell.cpp:ell_solve_cgpd_struct"]}
{"id": "C79", "title": "The macro stress of elastic cells of every size is the homogenised one", "statement": "Every Gauss point that homogenize solves reports errors of at most NR_MAX_TOL for all its solves, and its macro stress is within K*NR_MAX_TOL of the homogenised stiffness times its macro strain, with K a constant of the cell.", "quantifier": "all grids (also those with more unknowns than CG_MAX_ITS), all elastic materials, all strains, all histories of the object, all memory contents that do not end the Newton loop early", "why_tests_cant": "An error bound for all histories and sizes with no exact value to compare with.", "anchors": ["src/homogenize.cpp:micropp_t::homogenize", "src/solve.cpp:micropp_t::newton_raphson", "src/assembly.cpp:micropp_t::calc_ave_stress"]}
{"id": "C80", "title": "Programs on elastic cells terminate", "statement": "For an elastic cell and a bound of the prescribed strains there is one number of Newton passes that suffices for every solve: construction and every sequence of public calls return, however many calls, Gauss points and solves there are, although every solve starts from the displacements the last one left.", "quantifier": "all supported arguments with elastic materials, all sequences of calls with bounded strains, all contents of the memory the constructor finds, all memory contents that do not end the Newton loop early", "why_tests_cant": "The Newton loop has no working limit (its++), so termination of all runs of all lengths rests on convergence of every single solve.", "anchors": ["src/solve.cpp:micropp_t::newton_raphson", "src/homogenize.cpp:micropp_t::homogenize", "src/homogenize.cpp:micropp_t::calc_ctan_lin", "src/output.cpp:micropp_t::output", "src/micro.cpp:micropp_t::micropp_t"]}
{"id": "C81", "title": "In rounded arithmetic elastic cells are solved to the tolerance, from some precision on", "statement": "For an elastic cell there is a constant K, and for every bound of the strains and of the numbers found in memory a precision and a number of Newton passes, such that in every arithmetic at least that precise: construction and every sequence of public calls return, every Gauss point that homogenize solves reports errors of at most NR_MAX_TOL for all its solves, and its macro stress is within K*NR_MAX_TOL of the homogenised stiffness times its macro strain.", "quantifier": "all grids, all elastic materials, all layouts without element centres on the interface, all rounding formats from some precision on, all sequences of calls of any length with bounded strains, all bounded memory contents that do not end the Newton loop early", "why_tests_cant": "Convergence of an iterative solver with a rounding error in every operation, for all formats, all runs and all sizes.", "anchors": ["src/solve.cpp:micropp_t::newton_raphson", "src/ell.cpp:ell_solve_cgpd_struct", "src/homogenize.cpp:micropp_t::homogenize", "src/assembly.cpp:micropp_t::calc_ave_stress", "src/micro.cpp:micropp_t::micropp_t"]}
{"id": "C82", "title": "Refining the grid never raises the homogenised stiffness", "statement": "If a layered elastic cell, whose layers end at a grid line, is built again on a grid that divides every element into equal parts, the quadratic form of the homogenised stiffness of the finer grid is at most that of the coarser one at every macro strain. Under repeated division the stiffness converges to a symmetric positive definite matrix, from above.", "quantifier": "all grids, both dimensions, all divisions, all elastic materials, all macro strains, all objects reached from the constructor", "why_tests_cant": "Compares infinitely many grids; the inequality depends on the last digit of the Gauss point in the source (its square must be at least 1/3).", "anchors": ["src/assembly.cpp:micropp_t::get_elem_rhs3D", "src/assembly.cpp:micropp_t::calc_ave_stress", "src/homogenize.cpp:micropp_t::homogenize", "src/micro.cpp:micropp_t::micropp_t"]}
{"id": "C83", "title": "Below yield a plastic object is its elastic copy", "statement": "For every cell there is a number Y such that, if the yield stress of every plastic material is at least Y*(1+B), then under every sequence of public calls with strains up to B the object and the object built with the plastic materials declared elastic end, hold the same Gauss points, write the same files and answer every further call alike; no Gauss point ever becomes non-linear.", "quantifier": "all supported arguments whose elastic constants are admissible, all yield and hardening data above the bound, all sequences of calls of any length, all strains up to B, all memory contents that do not end the Newton loop early (vars_old zero at construction)", "why_tests_cant": "A statement about two runs of any length: every intermediate iterate of every solve has to stay below yield, also those of solves that start from the displacements of other Gauss points, and the perturbed tangent has to equal the elastic one.", "anchors": ["src/assembly.cpp:micropp_t::plastic_step", "src/assembly.cpp:micropp_t::get_ctan_plast_pert", "src/assembly.cpp:micropp_t::get_stress3D", "src/homogenize.cpp:micropp_t::homogenize", "src/solve.cpp:micropp_t::newton_raphson", "src/output.cpp:micropp_t::output"]}
{"id": "C84", "title": "The VTU file is a document that a reader takes back apart", "statement": "The characters of the file output writes form a well-formed XML document with one unstructured grid in one piece, which announces the numbers of nodes and elements. It holds exactly the expected arrays, each with its announced number of components; split at white space each array has the announced number of entries, which are the data of the object after the call.", "quantifier": "all grids, both dimensions, all sequences of calls before, all ways of printing floating point numbers that use no white space and no markup characters", "why_tests_cant": "All grids and all data; the tests never read the files they write.", "anchors": ["src/output.cpp:micropp_t::write_vtu", "src/output.cpp:micropp_t::output"]}
{"id": "C85", "title": "The info files are tables that a reader takes back apart", "statement": "Read as text, with lines that start with # as comments and | at the end of each group of columns, the convergence file, the strain, stress and tangent file and the file of internal variables have one row for each write_info_files call made with at least one Gauss point. Each row has one group of columns per Gauss point registered at that time, in registration order, holding its flag, largest invariant, iterations and errors, its strain, stress and tangent, or its committed internal variables. The materials file has one row for each of the two materials.", "quantifier": "all grids, both dimensions, all sequences of calls, all previous contents of the files, all ways of printing and padding floating point numbers that use no white space, # or |", "why_tests_cant": "The tests never read these files; the claim is about every history of writes and registrations and every number format.", "anchors": ["src/output.cpp:micropp_t::write_info_files", "src/micro.cpp:micropp_t::micropp_t"]}
{"id": "C86", "title": "The headers of the info files describe their columns", "statement": "The comment lines at the top of the convergence file and of the strain, stress and tangent file list the ids of the Gauss points in the order of the groups of columns, and each quantity they announce as name [k] stands in column k of each group.", "quantifier": "all grids, all sequences of calls, all ways of printing and padding floating point numbers", "why_tests_cant": "The header is written once and the records later, with other Gauss points; the tests never read these files.", "anchors": ["src/output.cpp:micropp_t::write_info_files"]}
{"id": "C87", "title": "inv_max is the invariant of the linear answer to the last evaluated strain", "statement": "In every reachable state the number inv_max of a Gauss point is -1e10 if homogenize has not been called since its first strain was set, and otherwise the absolute trace of the linear stiffness times the strain it had at the last homogenize call, whatever the solver did and whatever other Gauss points exist. A Gauss point without history was answered by the linear law exactly when the stored inv_max is below inv_tol.", "quantifier": "all supported arguments, all memory contents, all sequences of calls, all Gauss points", "why_tests_cant": "The value goes through a member shared by all Gauss points and every solve; the claim is about all histories.", "anchors": ["src/homogenize.cpp:micropp_t::is_linear", "src/homogenize.cpp:micropp_t::homogenize", "src/homogenize.cpp:micropp_t::set_macro_strain", "src/output.cpp:micropp_t::write_info_files"]}
{"id": "C88", "title": "The hardening variable never decreases and is never negative in rounded arithmetic either", "statement": "In every floating-point arithmetic with a monotone rounding, for a 3D cell whose plastic materials have a positive computed shear modulus, the committed hardening variable of every Gauss point of every plastic element is never negative in any state reached from the constructor, and along every further sequence of calls it never decreases.", "quantifier": "all rounded arithmetics, all arguments, all memory contents, all sequences of calls, all elements and Gauss points", "why_tests_cant": "A test follows a few load histories in one arithmetic; that no rounding error in any history, size or format makes the material heal is a statement about all of them.", "anchors": ["src/assembly.cpp:micropp_t::plastic_step", "src/assembly.cpp:micropp_t::get_stress3D", "src/homogenize.cpp:micropp_t::homogenize", "src/homogenize.cpp:micropp_t::update_vars"]}
{"id": "C89", "title": "A plastic solve in precise rounded arithmetic returns nearly the exact stress", "statement": "Take a 3D cell some of whose elements may be plastic, with no element centre on the interface, a committed history without negative hardening and a macro strain. There are constants K, d and a precision u0 such that in every floating-point arithmetic at least that precise which represents the arguments, whenever homogenize solves for a Gauss point with that history and strain and reports an error err below the Newton tolerance, with interior displacements at most M and err + u*M <= d, the square of the error of each returned stress component with respect to the exact equilibrium stress is at most K*(err + u).", "quantifier": "all supported plastic cells, all histories, all strains, all sufficiently precise rounded arithmetics, all memory contents, all sequences of calls", "why_tests_cant": "Tests compare one arithmetic with itself; the claim compares every precise arithmetic with exact equilibrium, which is not available to a test.", "anchors": ["src/assembly.cpp:micropp_t::plastic_step", "src/assembly.cpp:micropp_t::get_stress3D", "src/assembly.cpp:micropp_t::assembly_rhs", "src/solve.cpp:micropp_t::newton_raphson", "src/homogenize.cpp:micropp_t::homogenize", "src/assembly.cpp:micropp_t::calc_ave_stress"]}
{"id": "C90", "title": "A load below yield leaves the history of the cell alone in precise rounded arithmetic", "statement": "Take a 3D cell some of whose elements may be plastic, with no element centre on the interface, a committed history without negative hardening and a macro strain, such that in the exact equilibrium every Gauss point of every plastic element is strictly inside its yield surface. There are d and a precision u0 such that in every floating-point arithmetic at least that precise which represents the arguments, whenever homogenize solves for a Gauss point with that history and strain and reports an error err below the Newton tolerance, with interior displacements at most M and err + u*M <= d, the Gauss point keeps its internal variables, and a Gauss point without history stays without history.", "quantifier": "all supported plastic cells, all histories, all strains below yield, all sufficiently precise rounded arithmetics, all memory contents, all sequences of calls", "why_tests_cant": "A false report of yielding switches the Gauss point to the nonlinear path for ever; whether rounding can cause one depends on the arithmetic and the margin, not on a sample.", "anchors": ["src/assembly.cpp:micropp_t::plastic_step", "src/assembly.cpp:micropp_t::get_stress3D", "src/assembly.cpp:micropp_t::assembly_rhs", "src/solve.cpp:micropp_t::newton_raphson", "src/homogenize.cpp:micropp_t::homogenize"]}
{"id": "C91", "title": "A strain that is not a number does no lasting damage", "statement": "If a macro strain with a component that is NaN or infinite reaches homogenize for one Gauss point, the results of the other Gauss points are unaffected, and once every Gauss point has a valid strain again, homogenize returns numbers again. (False: nothing resets the interior displacements.)", "quantifier": "all arithmetics with the NaN laws of IEEE 754, all arguments with an interior node, all memory contents, all sequences of calls before and after the invalid strain", "why_tests_cant": "A test of one call with an invalid strain sees one NaN result, as expected; that every later call for every other nonlinear Gauss point returns NaN too is a statement about all continuations.", "anchors": ["src/solve.cpp:micropp_t::newton_raphson", "src/assembly.cpp:micropp_t::set_displ", "src/homogenize.cpp:micropp_t::homogenize", "src/micro.cpp:micropp_t::micropp_t"]}
{"id": "C92", "title": "plastic_step is the plasticity algorithm of the manual", "statement": "For every strain and history, plastic_step returns the stress, the plastic strain and the hardening variable of the return-mapping algorithm printed in doc/manual.tex, and get_ctan_plast_pert returns the numerical tangent printed there. (False for hardening materials and for the plastic strain.)", "quantifier": "all materials, strains and histories", "why_tests_cant": "The manual's algorithm is stated for all tensors; where the code departs from it is a set of materials and strains, not a sample.", "anchors": ["src/assembly.cpp:micropp_t::plastic_step", "src/assembly.cpp:micropp_t::get_ctan_plast_pert", "doc/manual.tex"]}
{"id": "C93", "title": "Objects in one program do not disturb each other", "statement": "In a program that creates any number of micropp_t objects, calls their methods in any interleaving and deletes some of them, every object returns exactly the answers, and is in exactly the state, that it would have if the program contained its own calls only.", "quantifier": "all programs (sequences of constructions, calls and deletions) with any number of objects, all arguments, memory contents and previous contents of the files, every arithmetic", "why_tests_cant": "A test runs one or two interleavings; independence is a statement about all of them.", "anchors": ["include/micro.hpp:micropp_t", "src/homogenize.cpp:micropp_t::homogenize", "src/output.cpp:micropp_t::write_info_files", "src/output.cpp:micropp_t::output"]}
{"id": "C94", "title": "Each object's files hold its own results", "statement": "In a program with several micropp_t objects, the info files and the field files hold for each object what it has written. (False: all objects use the same file names and the constructor empties the info files.)", "quantifier": "all programs with any number of objects, all arguments, memory contents and previous contents of the files, every arithmetic", "why_tests_cant": "With a single object nothing is wrong, and the tests have a single object; what a file holds after any interleaving is a statement about all programs.", "anchors": ["src/micro.cpp:micropp_t::micropp_t", "src/output.cpp:micropp_t::write_info_files", "src/output.cpp:micropp_t::output"]}
{"id": "C95", "title": "The statements of assembly.cpp compute what the model says, without undefined reads", "statement": "Executed statement by statement, the finite element functions of assembly.cpp (prescribed displacements, residual, element matrices, averages, fields, constitutive law) never read a local variable or array entry before it is assigned, never index outside an array, and end with exactly the results that the model's functions return; hence every property proved about these functions holds for the source text.", "quantifier": "all objects reached by any constructor arguments and call history, all strains, all elements, every arithmetic in which the literals 0.0, 0 and 1 mean zero and one", "why_tests_cant": "A test can compare a few results with expected numbers; it cannot show that every path of the text reads only assigned variables, nor that the text and the model agree for all states.", "anchors": ["src/assembly.cpp:micropp_t::set_displ", "src/assembly.cpp:micropp_t::assembly_rhs", "src/assembly.cpp:micropp_t::get_elem_mat2D", "src/assembly.cpp:micropp_t::get_elem_mat3D", "src/assembly.cpp:micropp_t::calc_ave_stress", "src/assembly.cpp:micropp_t::calc_ave_strain", "src/assembly.cpp:micropp_t::calc_fields", "src/assembly.cpp:micropp_t::plastic_step", "src/assembly.cpp:micropp_t::get_stress3D"]}
{"id": "C96", "title": "The statements of ell.cpp, solve and assembly_mat compute what the model says", "statement": "Executed statement by statement, ell_init_2D/3D, ell_set_zero_mat, ell_mvp_2D, both conjugate gradient solvers, ell_add_struct2D/3D, ell_set_bc_2D/3D, assembly_mat and solve never read memory that was not assigned (malloc returns blocks without values) and never index outside a block; every column index is assigned by ell_init; the matrix, the internal variables and the correction are those of the model, whatever fresh memory contains.", "quantifier": "all grids with at least two nodes per direction, all objects reached by any constructor arguments and call history, all contents of fresh memory, every arithmetic in which the literals 0.0, 0 and 1 mean zero and one", "why_tests_cant": "A read of uninitialised heap memory usually yields zero in a test; absence of such reads on all paths and agreement of 1600 lines of index tables with the stencil cannot be sampled.", "anchors": ["src/ell.cpp:ell_init_2D", "src/ell.cpp:ell_init_3D", "src/ell.cpp:ell_mvp_2D", "src/ell.cpp:ell_solve_cgpd_2D", "src/ell.cpp:ell_solve_cgpd_struct", "src/ell.cpp:ell_add_struct2D", "src/ell.cpp:ell_add_struct3D", "src/ell.cpp:ell_set_bc_2D", "src/ell.cpp:ell_set_bc_3D", "src/assembly.cpp:micropp_t::assembly_mat", "src/solve.cpp:micropp_t::solve"]}
{"id": "C97", "title": "The statements of homogenize.cpp and of the Newton loop compute what the model says", "statement": "Executed statement by statement, newton_raphson, calc_ctan_lin, is_linear, get_inv_1, get_inv_2, set_macro_strain, get_macro_stress, get_macro_ctan, homogenize, update_vars, get_nl_flag, get_elem_type2D and get_elem_type3D give the object, the caller's arrays and the values returned that the model says, whatever the local variables contained before; a run faults exactly where the model faults, in particular no unassigned variable or array entry is read, other than through the moved iteration pointer. The getters change nothing but the first entries of the caller's array, and only for a known Gauss point.", "quantifier": "all objects reached by any constructor arguments and call history, all numbers of Gauss points, all values behind the moved pointer and all contents of new Gauss points, any number of Newton passes, every arithmetic in which the literals 0.0, 0 and 1 mean zero and one", "why_tests_cant": "Whether a local such as nl_flag, nr_its or eps_1 is read before it is assigned on some path, and whether the code's control flow around linear, loading and failing Gauss points is the one assumed, depends on all histories and not on a sample; stack memory often contains the value of the previous call, so that a test passes.", "anchors": ["src/solve.cpp:micropp_t::newton_raphson", "src/homogenize.cpp:micropp_t::calc_ctan_lin", "src/homogenize.cpp:micropp_t::is_linear", "src/homogenize.cpp:micropp_t::get_inv_1", "src/homogenize.cpp:micropp_t::get_inv_2", "src/homogenize.cpp:micropp_t::set_macro_strain", "src/homogenize.cpp:micropp_t::get_macro_stress", "src/homogenize.cpp:micropp_t::get_macro_ctan", "src/homogenize.cpp:micropp_t::homogenize", "src/homogenize.cpp:micropp_t::update_vars", "src/micro.cpp:micropp_t::get_nl_flag", "src/micro.cpp:micropp_t::get_elem_type2D", "src/micro.cpp:micropp_t::get_elem_type3D"]}
{"id": "C98", "title": "The text of the constructor builds the object of the model, and whole programs run as the model says", "statement": "Executed statement by statement from uninitialised memory, the constructor (initialisers in the order of the member declarations, allocations, materials, element types, sparsity pattern, linear tangent) gives exactly the object and the files of the model; only micro_params[4] is read before it is assigned, and no other member. A dimension other than 2 and 3 ends in the assertion, a microstructure type other than 0 and 1 in the use of an unassigned variable. A program made of the constructor and any calls, each executed from its text, ends with the object and files of the model, returns the values of the model, or has the fault of the model.", "quantifier": "all arguments with at least two nodes in each direction, all contents of the memory before construction, all sequences of calls, every arithmetic in which the literals 0.0, 0 and 1 mean zero and one", "why_tests_cant": "Whether an initialiser reads a member that is initialised later, or a field of a material or of the matrix stays unassigned, shows in a test only if the memory happens to contain something harmful; and agreement of single functions says nothing about programs unless every state between the calls meets the conditions under which the functions agree.", "anchors": ["src/micro.cpp:micropp_t::micropp_t", "include/micro.hpp:micropp_t", "src/micro.cpp:micropp_t::get_elem_type2D", "src/micro.cpp:micropp_t::get_elem_type3D", "src/homogenize.cpp:micropp_t::calc_ctan_lin"]}
{"id": "C99", "title": "The text of output.cpp writes the files of the model", "statement": "Executed statement by statement, write_vtu, write_info_files and output return (or have the fault of the model), change exactly the members the model changes, and leave exactly the files of the model: every operand of every << in order, each file opened for writing or appending as it must be, the streams closed. Hence, after a program executed from its text, a VTU file written by output describes the grid and the data of the object, and a reader of the other files finds one row per call of write_info_files and the material parameters the user passed.", "quantifier": "all reachable objects, all Gauss points and time steps, all files there were before, all sequences of calls, every arithmetic in which the literals 0.0, 0 and 1 mean zero and one, every way of printing numbers without blanks and the characters that separate columns", "why_tests_cant": "A missing blank, a wrong loop bound or index, or a file opened for writing instead of appending at the second call shows only for some grids and some sequences of calls; comparing a few files with stored ones fixes the format of those files and says nothing about the others.", "anchors": ["src/output.cpp:micropp_t::output", "src/output.cpp:micropp_t::write_vtu", "src/output.cpp:micropp_t::write_info_files", "src/micro.cpp:micropp_t::micropp_t"]}
{"id": "C100", "title": "The text of wrapper.cpp is the Fortran interface of the model", "statement": "Executed from its text, each of the nine functions of wrapper.cpp passes the caller's variables to the method of the class it stands for in the right order, leaves the object, the files and the caller's variables as that method does (or has its fault), and keeps no other state than the one object; a call before micropp_construct_ dereferences NULL, and a second construction abandons the first object. Hence a Fortran program, executed from the text of wrapper.cpp and of everything below it, finds in its variables what the same calls of the C++ class return in the model.", "quantifier": "all variables of the caller that hold the arguments and are large enough, all states of the process, all reachable objects and files, all sequences of calls after the construction, every arithmetic in which the literals 0.0, 0 and 1 mean zero and one", "why_tests_cant": "Fortran does not check the arguments of external functions: interchanged pointers of the same type link and run, and with equal values in a test they give the same result; that no sequence of calls tells the two interfaces apart is a statement about all sequences.", "anchors": ["src/wrapper.cpp:micropp_construct_", "src/wrapper.cpp:micropp_homogenize_", "src/wrapper.cpp:micropp_get_macro_ctan_", "src/wrapper.cpp:micropp_output_"]}
{"id": "C101", "title": "The text of the relaxation solver and of ell_print computes what the model says", "statement": "Executed from its text with a positive iteration limit, ell_solve_jacobi_2D returns the value, the vector, the error and the number of sweeps of the model, whatever is in the memory it allocates, and leaves the matrix and the right hand side alone; in exact arithmetic the reported error is the norm of the residual of the returned vector, and fewer sweeps than the limit are reported exactly if it is below the tolerance. With a limit of zero or less it stores a variable that was never assigned. The text of ell_print returns and writes what the model says, for a missing matrix, for missing arrays and for every matrix with complete arrays.", "quantifier": "all matrices, right hand sides, start vectors, numbers of fields and nodes, solver parameters; every arithmetic in which the literals 0.0, 0 and 1 mean zero and one", "why_tests_cant": "Nothing in the library calls these functions, so no test of the library reaches them; that the error is truthful and that the result does not depend on fresh memory concerns every matrix and every content of memory.", "anchors": ["src/ell.cpp:ell_solve_jacobi_2D", "src/ell.cpp:ell_print"]}
{"id": "C102", "title": "On every path through the text, heap blocks are released exactly once and used only in between", "statement": "Take the text of the library, with every condition left open that does not compare a pointer to a heap block with NULL or dim with 2 or 3, and with any number of passes of every loop. When an object is constructed with dim 2 or 3, any of its public methods are called in any order and number, and it is destroyed, then on every path no block is released twice, nothing that was released, never allocated or never set is used, no pointer to a block is overwritten or goes out of scope while the block is in use, and at the end exactly the blocks of before are in use. Between construction and destruction every array member points to a block of its own, and the two pointers of a Gauss point are both NULL or both point to blocks of their own. The solvers with conjugate gradients release what they allocate; the relaxation solver loses both its blocks on every path that does not return at its first test. Destroying a copy of a destroyed object releases a block twice on every path. With another dim nothing is allocated.", "quantifier": "all paths, all numbers of passes of all loops, all sequences of method calls, all heaps", "why_tests_cant": "A leak checker sees the paths of the runs it is given; early returns, breaks and sequences of calls that no run takes can lose or reuse a block.", "anchors": ["src/micro.cpp:micropp_t", "src/micro.cpp:~micropp_t", "src/ell.cpp:ell_free", "src/homogenize.cpp:homogenize", "src/ell.cpp:ell_solve_cgpd_struct"]}
{"id": "C103", "title": "The text of the programs in test/ is what the model runs", "statement": "The programs of the directory test that use the class run as written: the statements of main in test3d_1.cpp, test3d_7.cpp, test3d_8.cpp and test2d_1.cpp, executed one after the other with the public calls of the library, return the same value, leave the same object and files, the same strain and stress arrays and the same printed report as the programs of C72, or end with the same fault, whatever the arguments, the uninitialised memory and the machine. The statements of test3d_3.f90 up to the construction end with a read past the four entries of micro_params.", "quantifier": "all argument lists, all contents of uninitialised arrays, all environments and initial files, all scalars whose literals 0, 1 and 0.0 denote zero and one", "why_tests_cant": "A test program is not itself tested; comparing it with a description of it for a few arguments says nothing about other numbers of steps, other grids, other contents of memory.", "anchors": ["test/test3d_1.cpp:32-110", "test/test3d_7.cpp:32-113", "test/test3d_8.cpp:35-126", "test/test2d_1.cpp:32-112", "test/test3d_3.f90:22-53"]}
{"id": "C104", "title": "The programs in test/ and the library they call, both as written", "statement": "When a program of the directory test calls the library, and both are executed as they are written (the statements of main, and behind every call the statements of the constructor, of set_macro_strain, homogenize, get_macro_stress, update_vars, write_info_files and output with all the functions they call), the run is the one of the model: the same value returned, the same object, files, arrays and printed report, or the same fault. This holds of test2d_1 and test3d_8 for all arguments and of test3d_1 and test3d_7 unless one of the three sizes is below 2. Hence for sizes of at least 2 each program drives the loading cycle and prints the averages as C72 says; the Fortran program reads past its array.", "quantifier": "all argument lists (for test3d_1 and test3d_7: with sizes of at least 2), all contents of uninitialised memory, all environments and initial files, all scalars whose literals 0, 1 and 0.0 denote zero and one", "why_tests_cant": "A test runs a program for one grid and one number of steps and looks at a few printed numbers; it cannot compare two descriptions of every run.", "anchors": ["test/test3d_1.cpp:32-110", "test/test3d_7.cpp:32-113", "test/test3d_8.cpp:35-126", "test/test2d_1.cpp:32-112", "test/test3d_3.f90:22-53", "src/micro.cpp:28-175", "src/homogenize.cpp:28-217", "src/output.cpp:29-285"]}
{"id": "C105", "title": "No energy can be drawn from a material or a cell", "statement": "Start from the unloaded virgin state and let the strain follow any path in steps of any size, storing the internal variables after each step. The work supplied, the sum over the steps of the stress after the step times the strain increment, is never negative: neither for one point with the plastic law, nor for a cell whose macro strains are solved exactly, with the average stress calc_ave_stress returns.", "quantifier": "all materials with admissible elastic constants, positive yield stress and no softening; all cells of such materials in three dimensions; all paths, all step sizes", "why_tests_cant": "Whether some path of some length returns more work than it took is a question about all paths; a test follows a few.", "anchors": ["src/assembly.cpp:plastic_step", "src/assembly.cpp:get_stress3D", "src/assembly.cpp:calc_ave_stress", "src/homogenize.cpp:update_vars"]}
{"id": "C106", "title": "A cell with a node without stiffness returns NaN rather than numbers from a correction", "statement": "In IEEE arithmetic, let a cell of two or three dimensions have an interior node all of whose elements have a material with Young's modulus zero, elastic or plastic. Then newton_raphson can accept the displacements it starts from, but it cannot correct them: the diagonal preconditioner makes its first correction NaN. Hence in every state the displacements of the interior nodes are what the memory held before the constructor ran, or they are all NaN; and each stress and each column of the tangent that homogenize computes comes with an error below the tolerance of displacements accepted as they were, or is NaN in all its components. The object of test3d_8 is such a cell.", "quantifier": "all floating-point formats with infinities and NaN, all such cells, all sequences of calls, all contents of the memory; for test3d_8 all grids of at least 3 by 21 by 3 nodes and all formats with unit roundoff at most 1/100", "why_tests_cant": "The behaviour depends on what uninitialised memory holds and on zeros on the diagonal that appear in some cells only; the test program test3d_8 checks nothing, and one run shows one memory content.", "anchors": ["src/ell.cpp:ell_solve_cgpd_struct", "src/solve.cpp:newton_raphson", "src/homogenize.cpp:homogenize", "src/micro.cpp:micropp_t", "test/test3d_8.cpp:main"]}
{"id": "C107", "title": "One element with an incompressible material makes every result NaN", "statement": "In IEEE arithmetic, let a cell with interior nodes have an element whose material, elastic or plastic, has Poisson's ratio 1/2 or -1 or NaN, or an infinite or NaN Young's modulus. Then in every state an object can get, the linear tangent is NaN in every entry, and every homogenize gives every Gauss point NaN in every component of stress and tangent, whatever the strains and the other material are. The constructor accepts these parameters without complaint.", "quantifier": "all floating-point formats with infinities and NaN, all two- and three-dimensional cells with at least three nodes per direction, all positions of the element, all sequences of calls, all contents of the memory", "why_tests_cant": "A test with one cell shows one position of the element, one strain and one memory content; that nothing but NaN comes out needs the whole chain from the constants to the results for all of them.", "anchors": ["src/micro.cpp:micropp_t", "src/assembly.cpp:assembly_mat", "src/ell.cpp:ell_solve_cgpd_struct", "src/solve.cpp:newton_raphson", "src/homogenize.cpp:homogenize"]}
{"id": "C108", "title": "A cell with an edge of length zero or of infinite length makes every result NaN", "statement": "In IEEE arithmetic, let a cell with interior nodes have a length that is zero, infinite or NaN in one of its directions, such as a third length left at zero in a three-dimensional cell. Then in every state an object can get, the linear tangent is NaN in every entry, and every homogenize gives every Gauss point NaN in every component of stress and tangent, whatever the strains and the materials are. The constructor accepts such lengths without complaint.", "quantifier": "all floating-point formats with infinities and NaN, all two- and three-dimensional cells with at least three nodes per direction, all materials, all sequences of calls, all contents of the memory", "why_tests_cant": "A test shows one cell, one strain and one memory content; that nothing but NaN comes out needs the whole chain from the lengths to the results for all of them.", "anchors": ["src/micro.cpp:micropp_t", "src/assembly.cpp:calc_bmat_3D", "src/assembly.cpp:assembly_rhs", "src/solve.cpp:newton_raphson", "src/homogenize.cpp:homogenize"]}
{"id": "C109", "title": "A yield stress or hardening modulus that is not a number turns plasticity off", "statement": "In IEEE arithmetic, let each of the two materials be elastic, or have a yield stress that is NaN or positive infinity, or a hardening modulus that is NaN or infinite. Then along every sequence of calls, whatever the strains are, no Gauss point ever gets internal variables: get_nl_flag returns 0 for every identifier in every state. If only one of the materials is such a plastic one, plastic strain and hardening variable of its elements are zero in every state, however far the other material yields. The plastic materials behave elastically without any message.", "quantifier": "all floating-point formats with infinities and NaN, all two- and three-dimensional cells, all strains, all sequences of calls, all contents of the memory", "why_tests_cant": "A test shows finitely many load steps; that no strain, however large, and no sequence of calls ever triggers yielding is a statement about all of them.", "anchors": ["src/micro.cpp:micropp_t", "src/assembly.cpp:plastic_step", "src/assembly.cpp:assembly_rhs", "src/homogenize.cpp:homogenize", "src/homogenize.cpp:get_nl_flag"]}
{"id": "C110", "title": "Parameters that the material law does not use have no effect", "statement": "Of the ten parameters per material, Young's modulus and Poisson's ratio always count; the yield stress and the hardening modulus count only for materials of type 1 in three dimensions; the remaining six never count. Types 0 (linear) and 2 (damage) are the same, and in two dimensions no type makes a difference, so a material declared plastic is elastic there. Changing what does not count leaves every sequence of calls with the same results: the state afterwards is the same up to the stored list of materials and the file micropp_materials.dat, every further call returns the same value and writes the same files, and a call that fails does so in the same way.", "quantifier": "all scalar types including IEEE arithmetic, all two- and three-dimensional cells, all parameters and types, all sequences of calls, all contents of the memory", "why_tests_cant": "A test compares a few pairs of parameter sets; that no call sequence reads an unused parameter is a statement about all pairs, also where the arithmetic yields NaN.", "anchors": ["src/micro.cpp:micropp_t", "src/assembly.cpp:get_stress3D", "src/assembly.cpp:get_elem_mat3D", "src/homogenize.cpp:homogenize"]}
{"id": "C111", "title": "A material that no element has does not matter", "statement": "If no element of the cell is given one of the two materials (for example because the layer has width zero), then type and parameters of this material, even values that no material can have such as a negative or NaN Young's modulus, have no effect: every sequence of calls leads to the same state up to the stored list of materials and the file micropp_materials.dat, every further call returns the same value and writes the same files, and a call that fails does so in the same way.", "quantifier": "all scalar types including IEEE arithmetic, all two- and three-dimensional cells, all types and parameters, all sequences of calls, all contents of the memory", "why_tests_cant": "A test compares a few values of the unused material; that no value, NaN included, reaches any result through any sequence of calls is a statement about all of them.", "anchors": ["src/micro.cpp:micropp_t", "src/micro.cpp:get_elem_type3D", "src/assembly.cpp:get_material", "src/assembly.cpp:get_stress3D", "src/homogenize.cpp:homogenize"]}
{"id": "C112", "title": "With equal materials the microstructure does not matter", "statement": "If both materials are given the same type (0, 1 or 2) and the same first four parameters, then the kind of microstructure and its width or radius have no effect on any result: for any other choice every sequence of calls leads to the same Gauss points, solver state, tangent and info files, and every further call returns the same value. Only the stored types of the elements, and the VTU files that show them, differ.", "quantifier": "all scalar types including IEEE arithmetic, all two- and three-dimensional cells, elastic and plastic, all widths including NaN, all sequences of calls, all contents of the memory", "why_tests_cant": "A test compares a few widths; that the results agree bit by bit for all widths, materials and call sequences is a statement about all of them.", "anchors": ["src/micro.cpp:micropp_t", "src/micro.cpp:get_elem_type2D", "src/micro.cpp:get_elem_type3D", "src/assembly.cpp:get_material", "src/homogenize.cpp:homogenize"]}
{"id": "C113", "title": "Which of its arguments the constructor uses", "statement": "The constructor uses, of its arrays, the sizes and lengths of the first two directions (of all three in three dimensions), the width, and for each of the two materials the type and the first four parameters. If two lists of arguments agree there, the constructor does exactly the same with both: it fails alike, or it builds the same object and writes the same files, and the same states are reached by every sequence of calls. In particular the third size and length have no effect in two dimensions, and neither the tolerance in the fifth entry of micro_params nor parameters 4 to 9 of a material have an effect anywhere.", "quantifier": "all scalar types including IEEE arithmetic, all dimensions, all arguments including invalid ones, all sequences of calls, all contents of the memory", "why_tests_cant": "A test varies a few entries one at a time; that no other entry has any influence is a statement about all pairs of arrays.", "anchors": ["src/micro.cpp:micropp_t"]}
