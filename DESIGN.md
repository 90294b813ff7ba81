# Formal model of micropp in Lean 4

Subject: the C++ library in `/repo` (micropp, pinned commit): structured ELL matrices and
solvers (`src/ell.cpp`), finite element assembly and material laws (`src/assembly.cpp`),
Newton-Raphson (`src/solve.cpp`), homogenisation and Gauss-point state
(`src/homogenize.cpp`, `src/micro.cpp`), output (`src/output.cpp`), Fortran wrapper
(`src/wrapper.cpp`).  The code was read as text; it was not built or run.

## Trusted base

* Lean 4 kernel (4.33.0).  No axioms are added.  Every theorem depends on at most
  `propext`, `Classical.choice`, `Quot.sound` (listed by `#print axioms`).
  No `sorry`, `native_decide`, `bv_decide`.
* Mathlib definitions used in statements (reals, finite sums, `Real.sqrt`, lists).
* The faithfulness of the hand-written model to the C++ text.  Each definition cites
  the lines it models and states its simplifications.

## Modelling decisions

* **Scalars.**  The whole code is modelled once over a class `Scalar α` (operations
  `+ - * / sqrt <`, literals, no laws).  Theorems about control flow, memory and object
  state hold for every `Scalar`, hence also for IEEE doubles (NaN, rounding).
  Numerical theorems are proved for `α = ℝ` (exact arithmetic).  C++ association order is kept.
* **Rounding** (C66-C69, C81).  `Spec/Fp.lean`: a format is a set of reals with a monotone rounding that
  fixes the set, of relative error `u` and absolute error `eta` near zero; `Fl fp` is the type of its
  numbers, an instance of `Scalar` in which every operation is rounded.  There is no overflow, infinity
  or NaN; the result of a division by zero is an arbitrary representable number.  Binary formats of
  every precision, among them binary64 (unbounded upwards, ties away from zero), are instances
  (`Lemmas/FpBinary.lean`).  `Spec/Ieee.lean` adds overflow, infinities and NaN (`Dbl`; the two zeros are
  identified) for C91, whose general theorems use the laws of NaN only.  Extended precision of intermediate results and fused operations are not
  modelled.
* **Memory.**  A heap block is `Buf α` (size and contents).  Reads/writes are checked: an
  index out of range is the outcome `Fault.oob`.  NULL dereference, failed `assert` and
  use of an unassigned automatic variable are other `Fault`s.  The content of fresh
  `malloc` memory is a parameter ("junk"); theorems quantify over it; dependence on
  uninitialised memory is shown as dependence on that parameter.  `malloc` never fails.
* **Integers.**  Sizes and loop counters are `Nat`; stored column numbers are `Int`.
  32-bit overflow is treated separately (C54): `Model/Int32Table.lean` holds the integer expressions
  of ell.cpp as syntax trees, with variables renamed per function (the renaming is listed in
  `tools/gen_int32.py`, which is part of the trusted base for C54 only).  `Model/SiteTable.lean` holds
  those of the other files, with the loops and the tests of `dim` around them (C70; `tools/gen_sites.py`,
  trusted for C70 and C71 only).  Grid sizes are assumed >= 2 where stated.
* **Loops** are primitive recursion on the trip count; the Newton loop, which has no
  effective bound in the code, takes fuel and reports exhaustion as `Fault.fuel`.
* **`*its++`** (solve.cpp:63) moves the pointer; the following read `*its` is outside the
  object.  The model takes a parameter `peek` (`none`: strict reading, undefined
  behaviour; `some v`: the value found in adjacent memory).
* **Events.**  What the program finds in memory it did not assign is a parameter: `Junk` for the
  constructor, `Env` for later calls, indexed by an event counter `Work.tick`.  Theorems quantify
  over both.
* **Fixed-size arrays** of the class, of `gp_t` and of functions (6 strains, 36 tangent entries) are
  functions in the model, without a check of bounds; their bounds are the subject of C71, on the
  subscripts extracted from the text.  Negative sizes are not modelled (sizes are `Nat`).
* **Heap** (`Model/Heap`): the functions that allocate, once more with `malloc`/`free`; addresses are
  never reused; a release of a block that is not in use is `badFree`.  `C18_erase` ties this version
  to the other one.
* **Blocks** (C102).  `Model/HeapTable.lean`, generated by `tools/gen_heap.py`, keeps of the text of every
  function what it does with heap blocks (`malloc`, `free`, NULL, uses, calls, control structure).  Conditions on
  anything but these pointers and `dim` are left open, and so are the numbers of passes, so the paths of
  `Model/Blocks.lean` include those of the program.  Trusted: the generator; that a pointer derived from a tracked
  one (`mcols`, `mvals`, arguments) is used only while the tracked one would be; that `malloc` succeeds.
* **Text** (C95 to C101, C103, C104).  `Model/TextTable.lean` holds the syntax trees of the functions of assembly.cpp,
  of ell.cpp (but `ell_print`, `ell_free`) and of `solve`, extracted by `tools/gen_text.py`; `Model/Text.lean` gives the statements a
  meaning: locals start unassigned, reading one is `Fault.uninit`, subscripts are checked, callees
  get references by copy-in/copy-out (`C95_tidy`: no variable is passed twice).  C95 and C96 prove
  that the model's functions are what these trees compute, so for them the hand-written model is no
  longer trusted; the generator and the semantics are.  `Model/ObjText.lean` and
  `Model/ObjTable.lean` are a second layer for `newton_raphson`, homogenize.cpp, `get_nl_flag` and
  the element types (C97): the unbounded loop, the read through the moved pointer, `assert`, and the
  list of Gauss points, whose fields are variables while a loop body runs.  `Env` is shared with the
  model: both sides see the same value where the source leaves one open.
  `Model/CtorText.lean` and `Model/ProgText.lean` are hand-written glue for the constructor and for
  programs (C98): the order initialisers, body, element loops, `calc_ctan_lin` is theirs, as are the
  sizes of the caller's arrays; the statements are extracted.  `Model/FileText.lean` and
  `Model/FileTable.lean` are a third layer for output.cpp and the files of the constructor (C98, C99):
  one stream that is open or closed, files as token lists, loops over constant Gauss points.  The
  generator leaves out `setw` and `scientific` and cuts short string literals at blanks.
  `Model/WrapTable.lean` (by `tools/gen_wrap.py`) and `Model/WrapText.lean` do the same for wrapper.cpp
  (C100): the caller's blocks of memory do not overlap, an array a method gets as `const` is not
  written back, and the constructor reads its arrays when it is entered.
  `Model/PrintTable.lean` (by `tools/gen_print.py`) and `Model/PrintText.lean` treat `ell_print` (C101).
  The `while` loops of the Jacobi solver (C101) are written as the counting loop and the `do` loop of
  `Model/Text.lean`; its tests against NULL, like those of the other solvers, are not in the tree.
  `Model/MainTable.lean` (by `tools/gen_main.py`) and `Model/MainText.lean` treat the programs of /repo/test
  (C103): the numbers `atoi` returns are given, arrays hold junk until assigned, the library is a parameter
  (`Lib`), in C103 the model, in C104 its own text (`Model/WholeText.lean`); the Fortran program is read up to its first call, its literals as those of C++.
  Trees are missing for the destructor and `ell_free`; the pointer skeletons of C102 cover them.
* **Files** are token lists.  Number formatting is not modelled: C84, on the characters of the VTU file, holds for every way of printing floating point numbers without white space and markup characters.  C85 and C86 treat the other files in the same way; there the widths set by `setw` are arbitrary too.

## Layout of lean/Verif

* `Model/*`  the model, one file per source file.
* `Spec/*`   small specifications written without the model.
* `Lemmas/*` helper lemmas.
* `Props/*`  the property theorems, each with a non-vacuity `example`.

## Plan per property

| id | model | method |
|----|-------|--------|
| C01 | `ell_init_3D`, table generated from the text | block loops to update lists; case analysis on node class; neighbour spec |
| C02 | `ell_init_2D` | same; the right boundary (line 840) is wrong: negation with witness, `_partial` for all other slots |
| C03 | all matrix routines with checked accesses | `= .ok _` for all sizes |
| C04 | `ell_set_zero_mat` | loop invariant |
| C05 C06 | `ell_add_struct3D/2D` | mvp of an updated matrix = old mvp + contributions |
| C07 | same | commutation of additive updates |
| C08 C09 | `ell_set_bc_3D/2D` | update lists; 2D: negation with witness and partial |
| C10 | `ell_mvp_2D` | loop invariant |
| C11 C12 C13 C14 C15 C16 | CG solvers | invariants of the recursion, conjugacy by induction |
| C17 | `ell_solve_jacobi_2D` | invariant; energy decrease of a sweep |
| C18 | allocation events | invariant over call sequences; Jacobi leak: negation |
| C19 | `set_displ` | update lists |
| C20 | strain operators | algebra over the four/eight nodes |
| C21 | `calc_ave_strain` | telescoping over the grid; 3D is off by the factor lz: negation, partial |
| C22 | `calc_ave_stress` | as C21 |
| C23 | element matrices | sums of squares |
| C24 | `assembly_rhs` | bilinear rearrangement |
| C25 | `assembly_mat` | energy sum, propagation from the boundary |
| C26 | `newton_raphson` | C13 + C24 + C25 |
| C27 C28 | `newton_raphson` | invariants; C28 is violated: negation, partial |
| C29 C30 C31 | virtual work on the grid | C21, C24, C25 |
| C32-C37 | `plastic_step`, `get_stress3D`, `get_ctan_plast_pert` | real algebra; C33, C35 violated: negation, partial |
| C38 | `assembly_rhs` flag | negation: only the last Gauss point of an element counts; partial |
| C39-C44 | object state machine | invariants over call sequences; C44 violated: negation, partial |
| C45 C46 | constructor with junk | C45 violated; C46: dependence on junk, partial |
| C47 | index arithmetic | Euclidean division |
| C48 | `get_elem_type*` | algebra |
| C49 | constants | field algebra |
| C50 | `write_vtu` tokens | counting and index lemmas |
| C51 | `write_info_files` | invariant over histories |
| C52 | wrapper | simulation |
| C53 | vars_new of elastic elements | violated: negation; partial |
| C54 | integer expressions of ell.cpp, extracted from the text (`tools/gen_int32.py`), evaluated with checked `int` operations | one bound per family of expressions |
| C55 | `get_inv_1/2` | violated (sign of the shear terms): negation, partial |
| C56 | all public calls with checked accesses | `Sane` results composed over the call graph |
| C57 | `calc_fields`, `output` | sums over Gauss points, C21 |
| C58 | `homogenize`, `calc_ctan_lin` | invariants of the loops over Gauss points and columns |
| C59 | `newton_raphson` + average | residual below the tolerance in every exit; superposition of unit solutions bounds the average by the residual |
| C60 | difference quotients of C59 | bound; negation with a soft cell in which Newton makes no correction |
| C61 | all public calls, run twice with different memory | relational lemmas (`Rel`), one per function |
| C62 | equilibrium of an elastic cell, `calc_ave_stress` | orthogonality of the equilibrium to fields that vanish on the boundary; convexity |
| C63 | two objects of the same geometry | minimum of C62 applied to both; uniqueness of equilibrium |
| C64 | two objects of proportional size | map between grids that preserves strains (`Morph`); negation with a cell in millimetres |
| C65 | an object and its mirror image | `Morph` for signed permutations of the axes; isotropic laws commute with them; uniqueness of equilibrium |
| C66 | `homogenize` over `Fl fp` | closed forms of the assembled vectors; calculus of families of rounded values (`Near`); stability of the equilibrium |
| C67 | `newton_raphson` over `Fl fp` | exact zeros on the boundary (`ZeroLaws`) through every CG iteration |
| C68 | `ell_mvp_2D` over `Fl fp` | induction over the terms |
| C69 | `get_elem_type*` over `Fl fp` | comparison with a gap; negation: a tie in binary64 |
| C70 C71 | integer expressions, subscripts and calls with the loops around them, extracted from the text (`tools/gen_sites.py`) | interval analysis with polynomial bounds in the grid sizes, proved sound; the tables are then checked by evaluation in the kernel |
| C72 | the programs in `/repo/test` as callers with arrays of known size (`Model/Client`) | invariant of the time loop: the state is that of a sequence of public calls (C39, C56) |
| C73 | `ell_print` | closed form of the printed tokens |
| C74, C75 | the plastic cell problem of `assembly_rhs`, `calc_ave_stress`, `newton_raphson` at a fixed history | per Gauss point the law is the gradient of a convex potential (`Lemmas/Potential`: two-sided quadratic bounds, linear growth); Korn inequality on the grid, minimisation on a compact set, gap estimate |
| C76 | `calc_ave_stress` with plastic elements | norm of an integral; return to the yield surface (C33, C34) |
| C77 | all public calls | invariant on stored, trial and working variables (`Lemmas/Aging`) |
| C78, C79 | `newton_raphson`, `homogenize` on elastic cells of every size | one CG solve, even when cut off, lowers the energy of the error by at least a constant times the squared residual (its first step does, the others only lower it further: `Lemmas/Descent`, `Lemmas/NewtonDescent`); the energy bounds residual, displacements and stresses from both sides (`Lemmas/Converge`) |
| C80 | all public calls on elastic cells | bound of the displacements that every solve keeps (`Lemmas/Terminate`) |
| C81 | all public calls on elastic cells over `Fl fp` | rounded quantities with bounded data converge to the exact ones along ultrafilters of formats (`Lemmas/FpLim`); by contradiction a rounded pass of the Newton loop lowers the energy like an exact one (`Lemmas/FpDescent`); then as C78 to C80 (`Lemmas/FpNewton`, `Lemmas/Ends`) |
| C82 | the elastic response on grids of which one divides the other | multilinear interpolation to the finer grid; the two-point rule with abscissa at least 1/sqrt 3 gives the whole at least the energy of its parts (`Lemmas/Refine`: `gauss_sq`, `gaussSum_le`, `bil_interp`); minimum of the energy; monotone limits and polarisation |
| C83 | a plastic object below yield and its elastic copy | bisimulation: the runs differ in `vars_new` and the materials only (`Lemmas/Yield`, `YieldApi`); the energy gap to the equilibrium decreases along Newton passes, so that all iterates stay bounded (`newton_stays`); the trial stress is bounded by the strain (`YieldCtor`) |
| C84 | the characters of the VTU file | a character-by-character XML reader as specification (`Spec/Xml`, `Spec/VtuText`), run symbolically over the markup; induction over the data (`Lemmas/Xml`, `XmlVtu`, `XmlRead`) |
| C85 | the characters of the info files | a reader of text tables as specification (`Spec/InfoText`); induction over records and writes (`Lemmas/Info`), on top of C51 |
| C86 | the headers of the info files | the same reader; the ids only grow (induction over calls); refuted for columns and late Gauss points |
| C87 | `inv_max` of the Gauss points | frame of the solver; induction over calls against the strain at the last `homogenize` of the list of calls |
| C88 | `plastic_step`, Gauss-point state in `Fl fp` | monotone rounding; induction over the sequence of calls |
| C89 | plastic law, residual and average in `Fl fp` | rounding calculus over a family of runs; the computed field is a near-solution of the exact equations and the potential bounds its distance in stress |
| C90 | yield function and nonlinearity flag in `Fl fp` | C89's near-solution; the stress at each Gauss point is close, so the yield function keeps its sign |
| C91 | `Dbl`, `newtonRaphson`, whole object | laws of NaN only; an interior NaN dof survives every call by induction |
| C92 | `plasticStep`, `getCtanPlastPert` | separate specification with 3 x 3 tensors (`Spec/Manual.lean`); algebra |
| C93 | `Model/Program`: several objects and the files | induction over the events; no call reads a file |
| C94 | `Model/Program` | what a call adds to the files depends on the object only; induction over the events |
| C95 | `Model/Text`, `Model/TextTable`: the syntax trees of 22 functions and a semantics with unassigned variables | symbolic execution of each body: Hoare rules with frames, one simulation per loop of the model |
| C96 | `Model/Text`, `Model/TextTable`: the syntax trees of 11 more functions, blocks from `malloc` without values | symbolic execution; the columns by running the model with two contents of fresh memory |
| C97 | `Model/ObjText`, `Model/ObjTable`: the syntax trees of 13 functions over the object, `do`-`while` and the list of Gauss points | simulation, faults included: each body against the function of the model; induction over the list |
| C98 | `Model/CtorText`, `Model/ProgText`: the syntax trees of the initialisers and of the body of the constructor; programs | simulation, faults included; induction over the calls with the invariant of reachable objects |
| C99 | `Model/FileText`, `Model/FileTable`: the syntax trees of output.cpp with streams and files | simulation with the list of tokens a statement appends; C50 and C85 through C98 |
| C100 | `Model/WrapText`, `Model/WrapTable`: the functions of wrapper.cpp, with the caller's blocks of memory | each call through C97 to C99; programs by induction over the calls |
| C101 | `Model/TextTable`, `Model/PrintTable`: `ell_solve_jacobi_2D`, `ell_print` | induction over the slots of a row, the rows and the sweeps, in step with the model |
| C102 | `Model/HeapTable`, `Model/Blocks`: all functions | an analysis of pointer kinds, its soundness by induction over statements, paths and list entries, and its result for each function computed in the kernel |
| C103 | MainText, MainTable, Client | simulation of the two loops step by step; the constructor looks at its arrays inside their bounds only |
| C104 | WholeText, MainText, ProgText | a simulation over all statements that construct no object, with two libraries that agree on well formed objects |
| C105 | `plasticStep`, `calcAveStress` | the potential of the law at fixed history as storage function; convexity, Hill-Mandel and induction over the path; explicit cycle in shear |
| C106 | `cgSolve`, `newtonRaphson`, all public calls in `Dbl` | zero-or-NaN is closed under the element computations; diagonal and residual at the node, in two and three dimensions; NaN through one step of conjugate gradients; invariant over calls |
| C107 | constructor and all public calls in `Dbl` | infinite-or-NaN is kept by sums and products; diagonal and residual at an interior corner of the element; `1 / inf * inf` is NaN in the preconditioner; NaN then stays (C91) |
| C108 | constructor and all public calls in `Dbl` | with a length of zero strains are infinite or NaN and weights zero, with an infinite length derivatives are zero and weights infinite, so every element vector is NaN; NaN through one Newton correction; NaN then stays (C91) |
| C109 | constructor and all public calls in `Dbl` | the threshold of the yield function is NaN or +inf, so the comparison is false; with zero history no residual reports yielding; no history is ever allocated (induction over calls); `C109_local`: zero history stays zero in the elements of one such material |
| C110 | constructor and all public calls | two objects with alike materials: every function from the stress at a point up to `homogenize` and the output is shown equal, then induction over the calls |
| C111 | constructor and all public calls | the functions of C110, with equal materials asked for only where an element has them |
| C112 | constructor and all public calls | `get_material` returns the same for every element, hence every function above it is equal; induction over the calls |
| C113 | constructor | the configuration built from the arguments is the same, and the rest of the constructor depends on nothing else |

## Parts that are not modelled

* `test/ell_solvers.cpp` (not built, calls functions that no longer exist), the build system; of
  `test/test3d_3.f90` only the start, which already leaves an array.
* Overflow of doubles (but see `Dbl`, used for C91 and C106 to C108), and number formatting.
* Failure of `malloc` and of file operations.

## Disagreements between the code and the properties

Each has a `_fails` theorem, and a `_partial` theorem for what is left.

| id | where | what happens |
|----|-------|--------------|
| C02 | ell.cpp:840 | slot 7 of the right boundary holds column `i` instead of `i + nx` |
| C06 | ell.cpp:840 | 2D element matrices go to the wrong column in those rows (consequence of C02) |
| C09 | ell.cpp:401-535 | some couplings to fixed nodes keep their value; harmless for CG by C15 |
| C18 | ell.cpp:68-69, wrapper.cpp:33 | the relaxation solver and the Fortran interface never release |
| C21 C22 | assembly.cpp:724-844 | averages divide by lx*ly also in 3D: off by lz |
| C29 C31 | assembly.cpp:724-788 | consequence of C22 |
| C28 | solve.cpp:63 | the Newton limit is not enforced, the reported count is 0 |
| C33 C35 | assembly.cpp:1007-1062 | stress returns to the old yield surface; plastic shear lacks the factor 2 |
| C38 | assembly.cpp:170-331 | only the last Gauss point of an element sets the flag |
| C44 | homogenize.cpp:173-182 | a stale trial state is committed |
| C45 | micro.cpp:37 | the tolerance is read from the unassigned member |
| C46 | homogenize.cpp:26-47 | results depend on uninitialised memory |
| C53 | assembly.cpp:972-1005 | internal variables of elastic elements are not assigned |
| C55 | homogenize.cpp:77-88 | sign of the shear terms |
| C60 | solve.cpp:25-28, homogenize.cpp:26-47 | absolute tolerance 1e-5 against a perturbation of 1e-8: tangents of soft cells are arbitrary |
| C64 | assembly.cpp:724-788 | macro stress of a 3D cell depends on the unit of length (consequence of the missing factor lz) |
| C69 | micro.cpp:177-224 | an element whose centre lies on the interface gets either type, depending on rounding |
| C72 | test3d_1.cpp:43, test3d_3.f90:32-44, test3d_8.cpp:63-73 | unchecked direction; too few parameters and the radius overwritten by 0; material constants at the wrong indices |
| C86 | output.cpp:224-285 | the headers announce a column that is not written and wrong column numbers, and lack the Gauss points registered later |
| C91 | solve.cpp:60-61, assembly.cpp:28-167 | corrections are added to interior displacements that nothing resets: one NaN stays for ever and reaches every nonlinear Gauss point |
| C92 | assembly.cpp:1034-1049, manual.tex:85-142 | Ka is multiplied by 0.0 in the step length; the manual has 1+Ka (neither is 1+Ka/(3 mu)); opposite sign of the plastic strain; tangent transposed |
| C94 | micro.cpp:140-145, output.cpp:29-50, 224-285 | fixed file names: a second object empties the info files of the first and overwrites its field files |
| C105 | assembly.cpp:1042-1046 | half of the plastic shear is stored and the radius hardens: loading and partly unloading in shear returns more work than was supplied, for one point and for a cell of one material |
| C106 | ell.cpp:238-243, 259-260, test3d_8.cpp:63-66 | the preconditioner computes `1 / 0 * 0` at nodes without stiffness: test3d_8, whose layer has Young's modulus 0 by C72, never solves its cell (stated by `C106_test8`, no `_fails` theorem) |
| C107 | micro.cpp:95-98 | the constructor divides by `1 - 2 nu` and `1 + nu` without a check: Poisson's ratio 1/2 in one element makes every result NaN (stated by `C107`, no `_fails` theorem) |
| C108 | micro.cpp:32-47 | the constructor takes lengths that are zero or infinite without a check: every result is NaN (stated by `C108`, no `_fails` theorem) |
| C109 | micro.cpp:92-93 | yield stress and hardening modulus are taken without a check: NaN or infinity silently switch plasticity off (stated by `C109`, no `_fails` theorem) |
| C110 | micro.cpp:99-111 | type 2 (damage) is accepted and has no effect, type 1 (plastic) has no effect in two dimensions (stated by `C110`, no `_fails` theorem) |

Further observations: the inclusion test compares squares, so a negative width acts like its absolute
value (C48); material type 2 behaves like type 0 (C49); copying an object leads to a double release
(`C18_copy_fails`); the 2D code ignores plasticity; the driver test3d_3.f90 passes four micro_params where
the constructor reads five (`C71_params_needed`); plane grids from 6194 x 6194 nodes overflow the number
of internal variables, which the plane code never uses (`C70_square`).
