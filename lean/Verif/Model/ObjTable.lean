import Verif.Model.ObjText

/-!
# The text of /repo/src/homogenize.cpp and of parts of solve.cpp, micro.cpp

Generated by `tools/gen_text.py`.
-/

namespace Verif.Text

/-- `newton_raphson`: /repo/src/solve.cpp:46-66. -/
def o_newton_raphson : OStmt :=
  .base (
    .setI .its_off (.lit 0) ;;
    .setI .its (.lit 0) ;;
    .setD .err (.lit (nat_lit 0) true (nat_lit 1))) ;;;
  .doW (
    .base (
      .call .assembly_rhs [.ref .nl_flag, .ref .err])) (.ltD (.var .err) (.lit (nat_lit 10) true (nat_lit 6))) (
    .base (
      .call .assembly_mat [] ;;
      .for .i (.lit 0) (.mul (.mem .nn) (.mem .dim)) (
        .memSt .du (.var .i) (.lit (nat_lit 0) true (nat_lit 1)))) ;;;
    .solve ;;;
    .base (
      .for .i (.lit 0) (.mul (.mem .nn) (.mem .dim)) (
        .memSt .u (.var .i) (.add (.memRd .u (.var .i)) (.memRd .du (.var .i)))) ;;
      .setI .its_off (.add (.var .its_off) (.lit 1))) ;;;
    .ite (.eqI (.var .its_off) (.lit 0)) (.base (.setI .its_past (.var .its))) (.peek .its_past)) (.and (.ltI (.var .its_past) (.lit 40)) (.ltD (.lit (nat_lit 10) true (nat_lit 6)) (.var .err)))

/-- `calc_ctan_lin`: /repo/src/homogenize.cpp:26-47. -/
def o_calc_ctan_lin : OStmt :=
  .base (
    .declV .sig_1 6 ;;
    .declV .eps_1 6 ;;
    .setD .d_eps (.lit (nat_lit 10) true (nat_lit 9))) ;;;
  .for .i (.lit 0) (.mem .nvoi) (
    .base (
      .for .v (.lit 0) (.mem .nvoi) (
        .st1 .eps_1 (.var .v) (.lit (nat_lit 0) true (nat_lit 1))) ;;
      .st1 .eps_1 (.var .i) (.add (.rd1 .eps_1 (.var .i)) (.var .d_eps)) ;;
      .declI .nr_its ;;
      .declI .nl_flag ;;
      .declD .nr_err ;;
      .call .set_displ [.ref .eps_1]) ;;;
    .call .newton_raphson [.ref .nl_flag, .ref .nr_its, .ref .nr_err] ;;;
    .base (
      .call .calc_ave_stress [.ref .sig_1] ;;
      .for .v (.lit 0) (.mem .nvoi) (
        .st1 .ctan_lin (.add (.mul (.var .v) (.mem .nvoi)) (.var .i)) (.div (.rd1 .sig_1 (.var .v)) (.var .d_eps)))))

/-- `is_linear`: /repo/src/homogenize.cpp:49-63. -/
def o_is_linear : OStmt :=
  .base (
    .declV .macro_stress 6 ;;
    .for .i (.lit 0) (.mem .nvoi) (
      .st1 .macro_stress (.var .i) (.lit (nat_lit 0) true (nat_lit 1)) ;;
      .for .j (.lit 0) (.mem .nvoi) (
        .st1 .macro_stress (.var .i) (.add (.rd1 .macro_stress (.var .i)) (.mul (.ctanLin (.add (.mul (.var .i) (.mem .nvoi)) (.var .j))) (.rd1 .macro_strain (.var .j)))))) ;;
    .declD .inv) ;;;
  .call .get_inv_1 [.ref .macro_stress, .ref .inv] ;;;
  .ite (.ltD .invMax (.abs (.var .inv))) (
    .setInvMax (.abs (.var .inv))) (
    .base .skip) ;;;
  .base (
    .ite (.ltD (.abs (.var .inv)) .invTol) (.setI .ret (.lit 1)) (.setI .ret (.lit 0)))

/-- `get_inv_1`: /repo/src/homogenize.cpp:65-75. -/
def o_get_inv_1 : OStmt :=
  .ite (.eqI (.mem .dim) (.lit 2)) (.base .skip) (
  .ite (.eqI (.mem .dim) (.lit 3)) (.base .skip) (
  .abort)) ;;;
  .ite (.eqI (.mem .dim) (.lit 2)) (
    .base (
      .setD .ret (.add (.rd1 .tensor (.lit 0)) (.rd1 .tensor (.lit 1))))) (
    .ite (.eqI (.mem .dim) (.lit 3)) (
      .base (
        .setD .ret (.add (.add (.rd1 .tensor (.lit 0)) (.rd1 .tensor (.lit 1))) (.rd1 .tensor (.lit 2))))) (
      .base (
        .declD .ret)))

/-- `get_inv_2`: /repo/src/homogenize.cpp:77-88. -/
def o_get_inv_2 : OStmt :=
  .ite (.eqI (.mem .dim) (.lit 3)) (
    .base (
      .setD .ret (.add (.add (.add (.add (.add (.mul (.rd1 .tensor (.lit 0)) (.rd1 .tensor (.lit 1))) (.mul (.rd1 .tensor (.lit 0)) (.rd1 .tensor (.lit 2)))) (.mul (.rd1 .tensor (.lit 1)) (.rd1 .tensor (.lit 2)))) (.mul (.rd1 .tensor (.lit 3)) (.rd1 .tensor (.lit 3)))) (.mul (.rd1 .tensor (.lit 4)) (.rd1 .tensor (.lit 4)))) (.mul (.rd1 .tensor (.lit 5)) (.rd1 .tensor (.lit 5)))))) (
    .base (
      .declD .ret))

/-- `fill_elem_type`: /repo/src/micro.cpp:116-137. -/
def o_fill_elem_type : OStmt :=
  .ite (.eqI (.mem .dim) (.lit 2)) (
    .for .ex (.lit 0) (.sub (.mem .nx) (.lit 1)) (
      .for .ey (.lit 0) (.sub (.mem .ny) (.lit 1)) (
        .base (
          .setI .e (.add (.add (.mul (.mul (.lit 0) (.sub (.mem .nx) (.lit 1))) (.sub (.mem .ny) (.lit 1))) (.mul (.var .ey) (.sub (.mem .nx) (.lit 1)))) (.var .ex))) ;;;
        .call .get_elem_type2D [.i (.var .ex), .i (.var .ey), .ref .t_get_elem_type2D] ;;;
        .base (
          .stI .elem_type (.var .e) (.var .t_get_elem_type2D)))) ;;;
    .base (
      .call .ell_init_2D [.A, .i (.mem .dim), .i (.mem .nx), .i (.mem .ny)])) (
    .ite (.eqI (.mem .dim) (.lit 3)) (
      .for .ex (.lit 0) (.sub (.mem .nx) (.lit 1)) (
        .for .ey (.lit 0) (.sub (.mem .ny) (.lit 1)) (
          .for .ez (.lit 0) (.sub (.mem .nz) (.lit 1)) (
            .base (
              .setI .e (.add (.add (.mul (.mul (.var .ez) (.sub (.mem .nx) (.lit 1))) (.sub (.mem .ny) (.lit 1))) (.mul (.var .ey) (.sub (.mem .nx) (.lit 1)))) (.var .ex))) ;;;
            .call .get_elem_type3D [.i (.var .ex), .i (.var .ey), .i (.var .ez), .ref .t_get_elem_type3D] ;;;
            .base (
              .stI .elem_type (.var .e) (.var .t_get_elem_type3D))))) ;;;
      .base (
        .call .ell_init_3D [.A, .i (.mem .dim), .i (.mem .nx), .i (.mem .ny), .i (.mem .nz)])) (
      .base .skip))

/-- `get_elem_type2D`: /repo/src/micro.cpp:177-198. -/
def o_get_elem_type2D : OStmt :=
  .ite (.eqI (.mem .micro_type) (.lit 0)) (.base .skip) (
  .ite (.eqI (.mem .micro_type) (.lit 1)) (.base .skip) (
  .abort)) ;;;
  .ite (.eqI (.mem .micro_type) (.lit 0)) (
    .base (
      .setD .x1 (.add (.mul (.ofInt (.var .ex)) (.mem .dx)) (.div (.mem .dx) (.ofInt (.lit 2)))) ;;
      .setD .y1 (.add (.mul (.ofInt (.var .ey)) (.mem .dy)) (.div (.mem .dy) (.ofInt (.lit 2)))) ;;
      .setD .x2 (.div (.mem .lx) (.ofInt (.lit 2))) ;;
      .setD .y2 (.div (.mem .ly) (.ofInt (.lit 2))) ;;
      .ite (.ltD (.add (.mul (.sub (.var .x2) (.var .x1)) (.sub (.var .x2) (.var .x1))) (.mul (.sub (.var .y2) (.var .y1)) (.sub (.var .y2) (.var .y1)))) (.mul (.mem .width) (.mem .width))) (.setI .ret (.lit 1)) (.setI .ret (.lit 0)))) (
    .ite (.eqI (.mem .micro_type) (.lit 1)) (
      .base (
        .setD .y (.add (.mul (.ofInt (.var .ey)) (.mem .dy)) (.div (.mem .dy) (.ofInt (.lit 2)))) ;;
        .ite (.ltD (.var .y) (.mem .width)) (.setI .ret (.lit 1)) (.setI .ret (.lit 0)))) (
      .base (
        .setI .ret (.lit (-1)))))

/-- `get_elem_type3D`: /repo/src/micro.cpp:200-224. -/
def o_get_elem_type3D : OStmt :=
  .ite (.eqI (.mem .micro_type) (.lit 0)) (.base .skip) (
  .ite (.eqI (.mem .micro_type) (.lit 1)) (.base .skip) (
  .abort)) ;;;
  .ite (.eqI (.mem .micro_type) (.lit 0)) (
    .base (
      .setD .x1 (.add (.mul (.ofInt (.var .ex)) (.mem .dx)) (.div (.mem .dx) (.ofInt (.lit 2)))) ;;
      .setD .y1 (.add (.mul (.ofInt (.var .ey)) (.mem .dy)) (.div (.mem .dy) (.ofInt (.lit 2)))) ;;
      .setD .z1 (.add (.mul (.ofInt (.var .ez)) (.mem .dz)) (.div (.mem .dz) (.ofInt (.lit 2)))) ;;
      .setD .x2 (.div (.mem .lx) (.ofInt (.lit 2))) ;;
      .setD .y2 (.div (.mem .ly) (.ofInt (.lit 2))) ;;
      .setD .z2 (.div (.mem .lz) (.ofInt (.lit 2))) ;;
      .ite (.ltD (.add (.add (.mul (.sub (.var .x2) (.var .x1)) (.sub (.var .x2) (.var .x1))) (.mul (.sub (.var .y2) (.var .y1)) (.sub (.var .y2) (.var .y1)))) (.mul (.sub (.var .z2) (.var .z1)) (.sub (.var .z2) (.var .z1)))) (.mul (.mem .width) (.mem .width))) (.setI .ret (.lit 1)) (.setI .ret (.lit 0)))) (
    .ite (.eqI (.mem .micro_type) (.lit 1)) (
      .base (
        .setD .y (.add (.mul (.ofInt (.var .ey)) (.mem .dy)) (.div (.mem .dy) (.ofInt (.lit 2)))) ;;
        .ite (.ltD (.var .y) (.mem .width)) (.setI .ret (.lit 1)) (.setI .ret (.lit 0)))) (
      .base (
        .setI .ret (.lit (-1)))))

/-- The bodies: /repo/src/solve.cpp:46-66, /repo/src/homogenize.cpp:26-88, /repo/src/micro.cpp:116-137, 177-224. -/
def obody : OFn → OStmt
  | .newton_raphson => o_newton_raphson
  | .calc_ctan_lin => o_calc_ctan_lin
  | .is_linear => o_is_linear
  | .get_inv_1 => o_get_inv_1
  | .get_inv_2 => o_get_inv_2
  | .get_elem_type2D => o_get_elem_type2D
  | .get_elem_type3D => o_get_elem_type3D
  | .fill_elem_type => o_fill_elem_type

/-- `set_macro_strain`: /repo/src/homogenize.cpp:90-110. -/
def l_set_macro_strain : List Top :=
  [.findOrPush (.eqI (.var .g_id) (.var .gp_id)) (
    .base (
      .for .i (.lit 0) (.mem .nvoi) (
        .st1 .g_macro_strain (.var .i) (.rd1 .macro_strain (.var .i))))) (
    .base (
      .setI .g_id (.var .gp_id) ;;
      .setI .g_int_vars_n (.lit 0) ;;
      .setI .g_int_vars_k (.lit 0) ;;
      .for .i (.lit 0) (.mem .nvoi) (
        .st1 .g_macro_strain (.var .i) (.rd1 .macro_strain (.var .i))) ;;
      .setD .g_inv_max (.neg (.lit (nat_lit 10) false (nat_lit 9)))))]

/-- `get_macro_stress`: /repo/src/homogenize.cpp:112-120. -/
def l_get_macro_stress : List Top :=
  [.find (.eqI (.var .g_id) (.var .gp_id)) (
    .base (
      .for .i (.lit 0) (.mem .nvoi) (
        .st1 .macro_stress (.var .i) (.rd1 .g_macro_stress (.var .i)))))]

/-- `get_macro_ctan`: /repo/src/homogenize.cpp:122-130. -/
def l_get_macro_ctan : List Top :=
  [.find (.eqI (.var .g_id) (.var .gp_id)) (
    .base (
      .for .i (.lit 0) (.mul (.mem .nvoi) (.mem .nvoi)) (
        .st1 .macro_ctan (.var .i) (.rd1 .g_macro_ctan (.var .i)))))]

/-- `homogenize`: /repo/src/homogenize.cpp:132-209. -/
def l_homogenize : List Top :=
  [.each (
    .base (
      .ite (.eqI (.var .g_int_vars_n) (.lit 0)) (
        .for .i (.lit 0) (.mem .num_int_vars) (
          .memSt .vars_old (.var .i) (.lit (nat_lit 0) true (nat_lit 1)))) (
        .for .i (.lit 0) (.mem .num_int_vars) (
          .memSt .vars_old (.var .i) (.rd1 .g_int_vars_n (.var .i))))) ;;;
    .setInvMax (.neg (.lit (nat_lit 10) false (nat_lit 9))) ;;;
    .call .is_linear [.ref .g_macro_strain, .ref .t_is_linear] ;;;
    .ite (.and (.eqI (.var .t_is_linear) (.lit 1)) (.eqI (.var .g_int_vars_n) (.lit 0))) (
      .base (
        .for .i (.lit 0) (.mem .nvoi) (
          .st1 .g_macro_stress (.var .i) (.lit (nat_lit 0) true (nat_lit 1)) ;;
          .for .j (.lit 0) (.mem .nvoi) (
            .st1 .g_macro_stress (.var .i) (.add (.rd1 .g_macro_stress (.var .i)) (.mul (.ctanLin (.add (.mul (.var .i) (.mem .nvoi)) (.var .j))) (.rd1 .g_macro_strain (.var .j)))))) ;;
        .for .i (.lit 0) (.mem .nvoi) (
          .for .j (.lit 0) (.mem .nvoi) (
            .st1 .g_macro_ctan (.add (.mul (.var .i) (.mem .nvoi)) (.var .j)) (.ctanLin (.add (.mul (.var .i) (.mem .nvoi)) (.var .j))))) ;;
        .for .i (.lit 0) (.add (.lit 1) (.mem .nvoi)) (
          .stI .g_nr_its (.var .i) (.lit 0) ;;
          .st1 .g_nr_err (.var .i) (.lit (nat_lit 0) true (nat_lit 1))))) (
      .base (
        .declI .nr_its ;;
        .declI .nl_flag ;;
        .declD .nr_err ;;
        .call .set_displ [.ref .g_macro_strain]) ;;;
      .call .newton_raphson [.ref .nl_flag, .ref .nr_its, .ref .nr_err] ;;;
      .base (
        .call .calc_ave_stress [.ref .g_macro_stress] ;;
        .ite (.eqI (.var .nl_flag) (.lit 1)) (
          .ite (.eqI (.var .g_int_vars_n) (.lit 0)) (
            .malloc .g_int_vars_k (.mem .num_int_vars) ;;
            .setI .g_int_vars_k (.lit 1) ;;
            .malloc .g_int_vars_n (.mem .num_int_vars) ;;
            .setI .g_int_vars_n (.lit 1) ;;
            .for .i (.lit 0) (.mem .num_int_vars) (
              .st1 .g_int_vars_n (.var .i) (.lit (nat_lit 0) true (nat_lit 1)))) (
            .skip) ;;
          .for .i (.lit 0) (.mem .num_int_vars) (
            .st1 .g_int_vars_k (.var .i) (.memRd .vars_new (.var .i)))) (
          .skip) ;;
        .stI .g_nr_its (.lit 0) (.var .nr_its) ;;
        .st1 .g_nr_err (.lit 0) (.var .nr_err) ;;
        .declV .eps_1 6 ;;
        .declV .sig_0 6 ;;
        .declV .sig_1 6 ;;
        .setD .dEps (.lit (nat_lit 10) true (nat_lit 9)) ;;
        .for .v (.lit 0) (.mem .nvoi) (
          .st1 .sig_0 (.var .v) (.rd1 .g_macro_stress (.var .v)))) ;;;
      .for .i (.lit 0) (.mem .nvoi) (
        .base (
          .for .v (.lit 0) (.mem .nvoi) (
            .st1 .eps_1 (.var .v) (.rd1 .g_macro_strain (.var .v))) ;;
          .st1 .eps_1 (.var .i) (.add (.rd1 .eps_1 (.var .i)) (.var .dEps)) ;;
          .call .set_displ [.ref .eps_1]) ;;;
        .call .newton_raphson [.ref .nl_flag, .ref .nr_its, .ref .nr_err] ;;;
        .base (
          .call .calc_ave_stress [.ref .sig_1] ;;
          .for .v (.lit 0) (.mem .nvoi) (
            .st1 .g_macro_ctan (.add (.mul (.var .v) (.mem .nvoi)) (.var .i)) (.div (.sub (.rd1 .sig_1 (.var .v)) (.rd1 .sig_0 (.var .v))) (.var .dEps))) ;;
          .stI .g_nr_its (.add (.lit 1) (.var .i)) (.var .nr_its) ;;
          .st1 .g_nr_err (.add (.lit 1) (.var .i)) (.var .nr_err)))) ;;;
    .base (
      .setD .g_inv_max .invMax))]

/-- `update_vars`: /repo/src/homogenize.cpp:211-217. -/
def l_update_vars : List Top :=
  [.each (
    .base (
      .ite (.eqI (.var .g_int_vars_n) (.lit 0)) (
        .skip) (
        .for .i (.lit 0) (.mem .num_int_vars) (
          .st1 .g_int_vars_n (.var .i) (.rd1 .g_int_vars_k (.var .i))))))]

/-- `get_nl_flag`: /repo/src/micro.cpp:167-175. -/
def l_get_nl_flag : List Top :=
  [.stmt (
    .base (
      .setI .non_linear (.lit 0))),
  .find (.eqI (.var .g_id) (.var .gp_id)) (
    .base (
      .ite (.eqI (.var .g_int_vars_n) (.lit 0)) (
        .setI .non_linear (.lit 0)) (
        .setI .non_linear (.lit 1))))]

/-- The bodies: /repo/src/homogenize.cpp:90-217, /repo/src/micro.cpp:167-175. -/
def tbody : TFn → List Top
  | .homogenize => l_homogenize
  | .set_macro_strain => l_set_macro_strain
  | .get_macro_stress => l_get_macro_stress
  | .get_macro_ctan => l_get_macro_ctan
  | .update_vars => l_update_vars
  | .get_nl_flag => l_get_nl_flag

/-- The initialisers of the constructor, in the order of /repo/include/micro.hpp:69-75: /repo/src/micro.cpp:30-53. -/
def k_init : Stmt :=
  .setI .dim (.var .a_dim) ;;
  .setI .nx (.rd .size (.lit 0)) ;;
  .setI .ny (.rd .size (.lit 1)) ;;
  .ite (.eqI (.var .a_dim) (.lit 2)) (.setI .nz (.lit 1)) (.setI .nz (.rd .size (.lit 2))) ;;
  .setI .nn (.mul (.mul (.var .nx) (.var .ny)) (.var .nz)) ;;
  .setD .lx (.rd1 .a_micro_params (.lit 0)) ;;
  .setD .ly (.rd1 .a_micro_params (.lit 1)) ;;
  .ite (.eqI (.var .dim) (.lit 2)) (.setD .lz (.lit (nat_lit 0) true (nat_lit 1))) (.setD .lz (.rd1 .a_micro_params (.lit 2))) ;;
  .setD .dx (.div (.var .lx) (.ofInt (.sub (.var .nx) (.lit 1)))) ;;
  .setD .dy (.div (.var .ly) (.ofInt (.sub (.var .ny) (.lit 1)))) ;;
  .setD .dz (.div (.var .lz) (.ofInt (.sub (.var .nz) (.lit 1)))) ;;
  .setD .width (.rd1 .a_micro_params (.lit 3)) ;;
  .setD .inv_tol (.rd1 .micro_params (.lit 4)) ;;
  .ite (.eqI (.var .dim) (.lit 2)) (.setI .npe (.lit 4)) (.setI .npe (.lit 8)) ;;
  .ite (.eqI (.var .dim) (.lit 2)) (.setI .nvoi (.lit 3)) (.setI .nvoi (.lit 6)) ;;
  .ite (.eqI (.var .dim) (.lit 2)) (.setI .nelem (.mul (.sub (.var .nx) (.lit 1)) (.sub (.var .ny) (.lit 1)))) (.setI .nelem (.mul (.mul (.sub (.var .nx) (.lit 1)) (.sub (.var .ny) (.lit 1))) (.sub (.var .nz) (.lit 1)))) ;;
  .setI .micro_type (.var .a_micro_type) ;;
  .setI .num_int_vars (.mul (.mul (.var .nelem) (.lit 8)) (.lit 7)) ;;
  .setI .output_files_header (.lit 0)

/-- The functions of /repo/src/solve.cpp:46-66, /repo/src/homogenize.cpp:26-88, /repo/src/micro.cpp:116-137, 177-224, with
calls nested at most `n` deep. -/
def oRun {α : Type} [Scalar α] (env : Env α) (c : Cfg α) : Nat → OFn → St α → M (St α)
  | 0, _, _ => .error .fuel
  | n + 1, f, s => (obody f).exec env c (oRun env c n) s

/-- A list of statements over the Gauss points, in sequence: /repo/src/micro.cpp:169-174. -/
def execAll {α : Type} [Scalar α] (env : Env α) : List Top → ObjSt α → M (ObjSt α)
  | [], s => .ok s
  | t :: ts, s => do
    let s ← t.exec env (fun c p => p.exec env c (oRun env c 3)) s
    execAll env ts s

/-- The functions of /repo/src/homogenize.cpp:90-217, /repo/src/micro.cpp:167-175. -/
def tRun {α : Type} [Scalar α] (env : Env α) (f : TFn) (s : ObjSt α) : M (ObjSt α) := execAll env (tbody f) s

end Verif.Text
