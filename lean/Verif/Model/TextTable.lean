import Verif.Model.Text

/-!
# The text of /repo/src/assembly.cpp, ell.cpp, solve.cpp

Generated by `tools/gen_text.py`.
-/

namespace Verif.Text

/-- The constants of `ell_add_struct2D`: /repo/src/ell.cpp:337-340. -/
def c_cols_row_ell_add_struct2D : List (List Int) :=
  [[4, 5, 8, 7],
   [3, 4, 7, 6],
   [0, 1, 4, 3],
   [1, 2, 5, 4]]

/-- The constants of `ell_add_struct3D`: /repo/src/ell.cpp:369-376. -/
def c_cols_row_ell_add_struct3D : List (List Int) :=
  [[13, 14, 17, 16, 22, 23, 26, 25],
   [12, 13, 16, 15, 21, 22, 25, 24],
   [9, 10, 13, 12, 18, 19, 22, 21],
   [10, 11, 14, 13, 19, 20, 23, 22],
   [4, 5, 8, 7, 13, 14, 17, 16],
   [3, 4, 7, 6, 12, 13, 16, 15],
   [0, 1, 4, 3, 9, 10, 13, 12],
   [1, 2, 5, 4, 10, 11, 14, 13]]

/-- `set_displ`: /repo/src/assembly.cpp:29-168. -/
def t_set_displ : Stmt :=
  .ite (.eqI (.mem .dim) (.lit 2)) (
    .for .i (.lit 0) (.mem .nx) (
      .setD .xcoor (.mul (.ofInt (.var .i)) (.mem .dx)) ;;
      .setD .ycoor (.lit (nat_lit 0) true (nat_lit 1)) ;;
      .setD .dux (.add (.mul (.rd1 .eps (.lit 0)) (.var .xcoor)) (.mul (.mul (.lit (nat_lit 5) true (nat_lit 1)) (.rd1 .eps (.lit 2))) (.var .ycoor))) ;;
      .setD .duy (.add (.mul (.mul (.lit (nat_lit 5) true (nat_lit 1)) (.rd1 .eps (.lit 2))) (.var .xcoor)) (.mul (.rd1 .eps (.lit 1)) (.var .ycoor))) ;;
      .memSt .u (.mul (.var .i) (.mem .dim)) (.var .dux) ;;
      .memSt .u (.add (.mul (.var .i) (.mem .dim)) (.lit 1)) (.var .duy)) ;;
    .for .i (.lit 0) (.mem .nx) (
      .setD .xcoor (.mul (.ofInt (.var .i)) (.mem .dx)) ;;
      .setD .ycoor (.mem .ly) ;;
      .setD .dux (.add (.mul (.rd1 .eps (.lit 0)) (.var .xcoor)) (.mul (.mul (.lit (nat_lit 5) true (nat_lit 1)) (.rd1 .eps (.lit 2))) (.var .ycoor))) ;;
      .setD .duy (.add (.mul (.mul (.lit (nat_lit 5) true (nat_lit 1)) (.rd1 .eps (.lit 2))) (.var .xcoor)) (.mul (.rd1 .eps (.lit 1)) (.var .ycoor))) ;;
      .memSt .u (.mul (.add (.var .i) (.mul (.sub (.mem .ny) (.lit 1)) (.mem .nx))) (.mem .dim)) (.var .dux) ;;
      .memSt .u (.add (.mul (.add (.var .i) (.mul (.sub (.mem .ny) (.lit 1)) (.mem .nx))) (.mem .dim)) (.lit 1)) (.var .duy)) ;;
    .for .i (.lit 0) (.sub (.mem .ny) (.lit 2)) (
      .setD .xcoor (.lit (nat_lit 0) true (nat_lit 1)) ;;
      .setD .ycoor (.mul (.ofInt (.add (.var .i) (.lit 1))) (.mem .dy)) ;;
      .setD .dux (.add (.mul (.rd1 .eps (.lit 0)) (.var .xcoor)) (.mul (.mul (.lit (nat_lit 5) true (nat_lit 1)) (.rd1 .eps (.lit 2))) (.var .ycoor))) ;;
      .setD .duy (.add (.mul (.mul (.lit (nat_lit 5) true (nat_lit 1)) (.rd1 .eps (.lit 2))) (.var .xcoor)) (.mul (.rd1 .eps (.lit 1)) (.var .ycoor))) ;;
      .memSt .u (.mul (.mul (.add (.var .i) (.lit 1)) (.mem .nx)) (.mem .dim)) (.var .dux) ;;
      .memSt .u (.add (.mul (.mul (.add (.var .i) (.lit 1)) (.mem .nx)) (.mem .dim)) (.lit 1)) (.var .duy)) ;;
    .for .i (.lit 0) (.sub (.mem .ny) (.lit 2)) (
      .setD .xcoor (.mem .lx) ;;
      .setD .ycoor (.mul (.ofInt (.add (.var .i) (.lit 1))) (.mem .dy)) ;;
      .setD .dux (.add (.mul (.rd1 .eps (.lit 0)) (.var .xcoor)) (.mul (.mul (.lit (nat_lit 5) true (nat_lit 1)) (.rd1 .eps (.lit 2))) (.var .ycoor))) ;;
      .setD .duy (.add (.mul (.mul (.lit (nat_lit 5) true (nat_lit 1)) (.rd1 .eps (.lit 2))) (.var .xcoor)) (.mul (.rd1 .eps (.lit 1)) (.var .ycoor))) ;;
      .memSt .u (.mul (.sub (.mul (.add (.var .i) (.lit 2)) (.mem .nx)) (.lit 1)) (.mem .dim)) (.var .dux) ;;
      .memSt .u (.add (.mul (.sub (.mul (.add (.var .i) (.lit 2)) (.mem .nx)) (.lit 1)) (.mem .dim)) (.lit 1)) (.var .duy))) (
    .ite (.eqI (.mem .dim) (.lit 3)) (
      .for .i (.lit 0) (.mem .nx) (
        .for .j (.lit 0) (.mem .ny) (
          .setI .n (.add (.add (.mul (.mul (.lit 0) (.mem .nx)) (.mem .ny)) (.mul (.var .j) (.mem .nx))) (.var .i)) ;;
          .setD .xcoor (.mul (.ofInt (.var .i)) (.mem .dx)) ;;
          .setD .ycoor (.mul (.ofInt (.var .j)) (.mem .dy)) ;;
          .setD .zcoor (.lit (nat_lit 0) true (nat_lit 1)) ;;
          .setD .dux (.add (.add (.mul (.rd1 .eps (.lit 0)) (.var .xcoor)) (.mul (.mul (.lit (nat_lit 5) true (nat_lit 1)) (.rd1 .eps (.lit 3))) (.var .ycoor))) (.mul (.mul (.lit (nat_lit 5) true (nat_lit 1)) (.rd1 .eps (.lit 4))) (.var .zcoor))) ;;
          .setD .duy (.add (.add (.mul (.mul (.lit (nat_lit 5) true (nat_lit 1)) (.rd1 .eps (.lit 3))) (.var .xcoor)) (.mul (.rd1 .eps (.lit 1)) (.var .ycoor))) (.mul (.mul (.lit (nat_lit 5) true (nat_lit 1)) (.rd1 .eps (.lit 5))) (.var .zcoor))) ;;
          .setD .duz (.add (.add (.mul (.mul (.lit (nat_lit 5) true (nat_lit 1)) (.rd1 .eps (.lit 4))) (.var .xcoor)) (.mul (.mul (.lit (nat_lit 5) true (nat_lit 1)) (.rd1 .eps (.lit 5))) (.var .ycoor))) (.mul (.rd1 .eps (.lit 2)) (.var .zcoor))) ;;
          .memSt .u (.mul (.var .n) (.mem .dim)) (.var .dux) ;;
          .memSt .u (.add (.mul (.var .n) (.mem .dim)) (.lit 1)) (.var .duy) ;;
          .memSt .u (.add (.mul (.var .n) (.mem .dim)) (.lit 2)) (.var .duz))) ;;
      .for .i (.lit 0) (.mem .nx) (
        .for .j (.lit 0) (.mem .ny) (
          .setI .n (.add (.add (.mul (.mul (.sub (.mem .nz) (.lit 1)) (.mem .nx)) (.mem .ny)) (.mul (.var .j) (.mem .nx))) (.var .i)) ;;
          .setD .xcoor (.mul (.ofInt (.var .i)) (.mem .dx)) ;;
          .setD .ycoor (.mul (.ofInt (.var .j)) (.mem .dy)) ;;
          .setD .zcoor (.mem .lz) ;;
          .setD .dux (.add (.add (.mul (.rd1 .eps (.lit 0)) (.var .xcoor)) (.mul (.mul (.lit (nat_lit 5) true (nat_lit 1)) (.rd1 .eps (.lit 3))) (.var .ycoor))) (.mul (.mul (.lit (nat_lit 5) true (nat_lit 1)) (.rd1 .eps (.lit 4))) (.var .zcoor))) ;;
          .setD .duy (.add (.add (.mul (.mul (.lit (nat_lit 5) true (nat_lit 1)) (.rd1 .eps (.lit 3))) (.var .xcoor)) (.mul (.rd1 .eps (.lit 1)) (.var .ycoor))) (.mul (.mul (.lit (nat_lit 5) true (nat_lit 1)) (.rd1 .eps (.lit 5))) (.var .zcoor))) ;;
          .setD .duz (.add (.add (.mul (.mul (.lit (nat_lit 5) true (nat_lit 1)) (.rd1 .eps (.lit 4))) (.var .xcoor)) (.mul (.mul (.lit (nat_lit 5) true (nat_lit 1)) (.rd1 .eps (.lit 5))) (.var .ycoor))) (.mul (.rd1 .eps (.lit 2)) (.var .zcoor))) ;;
          .memSt .u (.mul (.var .n) (.mem .dim)) (.var .dux) ;;
          .memSt .u (.add (.mul (.var .n) (.mem .dim)) (.lit 1)) (.var .duy) ;;
          .memSt .u (.add (.mul (.var .n) (.mem .dim)) (.lit 2)) (.var .duz))) ;;
      .for .i (.lit 0) (.mem .nx) (
        .for .k (.lit 1) (.sub (.mem .nz) (.lit 1)) (
          .setI .n (.add (.add (.mul (.mul (.var .k) (.mem .nx)) (.mem .ny)) (.mul (.lit 0) (.mem .nx))) (.var .i)) ;;
          .setD .xcoor (.mul (.ofInt (.var .i)) (.mem .dx)) ;;
          .setD .ycoor (.lit (nat_lit 0) true (nat_lit 1)) ;;
          .setD .zcoor (.mul (.ofInt (.var .k)) (.mem .dz)) ;;
          .setD .dux (.add (.add (.mul (.rd1 .eps (.lit 0)) (.var .xcoor)) (.mul (.mul (.lit (nat_lit 5) true (nat_lit 1)) (.rd1 .eps (.lit 3))) (.var .ycoor))) (.mul (.mul (.lit (nat_lit 5) true (nat_lit 1)) (.rd1 .eps (.lit 4))) (.var .zcoor))) ;;
          .setD .duy (.add (.add (.mul (.mul (.lit (nat_lit 5) true (nat_lit 1)) (.rd1 .eps (.lit 3))) (.var .xcoor)) (.mul (.rd1 .eps (.lit 1)) (.var .ycoor))) (.mul (.mul (.lit (nat_lit 5) true (nat_lit 1)) (.rd1 .eps (.lit 5))) (.var .zcoor))) ;;
          .setD .duz (.add (.add (.mul (.mul (.lit (nat_lit 5) true (nat_lit 1)) (.rd1 .eps (.lit 4))) (.var .xcoor)) (.mul (.mul (.lit (nat_lit 5) true (nat_lit 1)) (.rd1 .eps (.lit 5))) (.var .ycoor))) (.mul (.rd1 .eps (.lit 2)) (.var .zcoor))) ;;
          .memSt .u (.mul (.var .n) (.mem .dim)) (.var .dux) ;;
          .memSt .u (.add (.mul (.var .n) (.mem .dim)) (.lit 1)) (.var .duy) ;;
          .memSt .u (.add (.mul (.var .n) (.mem .dim)) (.lit 2)) (.var .duz))) ;;
      .for .i (.lit 0) (.mem .nx) (
        .for .k (.lit 1) (.sub (.mem .nz) (.lit 1)) (
          .setI .n (.add (.add (.mul (.mul (.var .k) (.mem .nx)) (.mem .ny)) (.mul (.sub (.mem .ny) (.lit 1)) (.mem .nx))) (.var .i)) ;;
          .setD .xcoor (.mul (.ofInt (.var .i)) (.mem .dx)) ;;
          .setD .ycoor (.mem .ly) ;;
          .setD .zcoor (.mul (.ofInt (.var .k)) (.mem .dz)) ;;
          .setD .dux (.add (.add (.mul (.rd1 .eps (.lit 0)) (.var .xcoor)) (.mul (.mul (.lit (nat_lit 5) true (nat_lit 1)) (.rd1 .eps (.lit 3))) (.var .ycoor))) (.mul (.mul (.lit (nat_lit 5) true (nat_lit 1)) (.rd1 .eps (.lit 4))) (.var .zcoor))) ;;
          .setD .duy (.add (.add (.mul (.mul (.lit (nat_lit 5) true (nat_lit 1)) (.rd1 .eps (.lit 3))) (.var .xcoor)) (.mul (.rd1 .eps (.lit 1)) (.var .ycoor))) (.mul (.mul (.lit (nat_lit 5) true (nat_lit 1)) (.rd1 .eps (.lit 5))) (.var .zcoor))) ;;
          .setD .duz (.add (.add (.mul (.mul (.lit (nat_lit 5) true (nat_lit 1)) (.rd1 .eps (.lit 4))) (.var .xcoor)) (.mul (.mul (.lit (nat_lit 5) true (nat_lit 1)) (.rd1 .eps (.lit 5))) (.var .ycoor))) (.mul (.rd1 .eps (.lit 2)) (.var .zcoor))) ;;
          .memSt .u (.mul (.var .n) (.mem .dim)) (.var .dux) ;;
          .memSt .u (.add (.mul (.var .n) (.mem .dim)) (.lit 1)) (.var .duy) ;;
          .memSt .u (.add (.mul (.var .n) (.mem .dim)) (.lit 2)) (.var .duz))) ;;
      .for .j (.lit 1) (.sub (.mem .ny) (.lit 1)) (
        .for .k (.lit 1) (.sub (.mem .nz) (.lit 1)) (
          .setI .n (.add (.add (.mul (.mul (.var .k) (.mem .nx)) (.mem .ny)) (.mul (.var .j) (.mem .nx))) (.lit 0)) ;;
          .setD .xcoor (.lit (nat_lit 0) true (nat_lit 1)) ;;
          .setD .ycoor (.mul (.ofInt (.var .j)) (.mem .dy)) ;;
          .setD .zcoor (.mul (.ofInt (.var .k)) (.mem .dz)) ;;
          .setD .dux (.add (.add (.mul (.rd1 .eps (.lit 0)) (.var .xcoor)) (.mul (.mul (.lit (nat_lit 5) true (nat_lit 1)) (.rd1 .eps (.lit 3))) (.var .ycoor))) (.mul (.mul (.lit (nat_lit 5) true (nat_lit 1)) (.rd1 .eps (.lit 4))) (.var .zcoor))) ;;
          .setD .duy (.add (.add (.mul (.mul (.lit (nat_lit 5) true (nat_lit 1)) (.rd1 .eps (.lit 3))) (.var .xcoor)) (.mul (.rd1 .eps (.lit 1)) (.var .ycoor))) (.mul (.mul (.lit (nat_lit 5) true (nat_lit 1)) (.rd1 .eps (.lit 5))) (.var .zcoor))) ;;
          .setD .duz (.add (.add (.mul (.mul (.lit (nat_lit 5) true (nat_lit 1)) (.rd1 .eps (.lit 4))) (.var .xcoor)) (.mul (.mul (.lit (nat_lit 5) true (nat_lit 1)) (.rd1 .eps (.lit 5))) (.var .ycoor))) (.mul (.rd1 .eps (.lit 2)) (.var .zcoor))) ;;
          .memSt .u (.mul (.var .n) (.mem .dim)) (.var .dux) ;;
          .memSt .u (.add (.mul (.var .n) (.mem .dim)) (.lit 1)) (.var .duy) ;;
          .memSt .u (.add (.mul (.var .n) (.mem .dim)) (.lit 2)) (.var .duz))) ;;
      .for .j (.lit 1) (.sub (.mem .ny) (.lit 1)) (
        .for .k (.lit 1) (.sub (.mem .nz) (.lit 1)) (
          .setI .n (.add (.add (.mul (.mul (.var .k) (.mem .nx)) (.mem .ny)) (.mul (.var .j) (.mem .nx))) (.sub (.mem .nx) (.lit 1))) ;;
          .setD .xcoor (.mem .lx) ;;
          .setD .ycoor (.mul (.ofInt (.var .j)) (.mem .dy)) ;;
          .setD .zcoor (.mul (.ofInt (.var .k)) (.mem .dz)) ;;
          .setD .dux (.add (.add (.mul (.rd1 .eps (.lit 0)) (.var .xcoor)) (.mul (.mul (.lit (nat_lit 5) true (nat_lit 1)) (.rd1 .eps (.lit 3))) (.var .ycoor))) (.mul (.mul (.lit (nat_lit 5) true (nat_lit 1)) (.rd1 .eps (.lit 4))) (.var .zcoor))) ;;
          .setD .duy (.add (.add (.mul (.mul (.lit (nat_lit 5) true (nat_lit 1)) (.rd1 .eps (.lit 3))) (.var .xcoor)) (.mul (.rd1 .eps (.lit 1)) (.var .ycoor))) (.mul (.mul (.lit (nat_lit 5) true (nat_lit 1)) (.rd1 .eps (.lit 5))) (.var .zcoor))) ;;
          .setD .duz (.add (.add (.mul (.mul (.lit (nat_lit 5) true (nat_lit 1)) (.rd1 .eps (.lit 4))) (.var .xcoor)) (.mul (.mul (.lit (nat_lit 5) true (nat_lit 1)) (.rd1 .eps (.lit 5))) (.var .ycoor))) (.mul (.rd1 .eps (.lit 2)) (.var .zcoor))) ;;
          .memSt .u (.mul (.var .n) (.mem .dim)) (.var .dux) ;;
          .memSt .u (.add (.mul (.var .n) (.mem .dim)) (.lit 1)) (.var .duy) ;;
          .memSt .u (.add (.mul (.var .n) (.mem .dim)) (.lit 2)) (.var .duz)))) (
      .skip))

/-- `assembly_rhs`: /repo/src/assembly.cpp:170-331. -/
def t_assembly_rhs : Stmt :=
  .declIV .index 24 ;;
  .declI .n0 ;;
  .declI .n1 ;;
  .declI .n2 ;;
  .declI .n3 ;;
  .declI .n4 ;;
  .declI .n5 ;;
  .declI .n6 ;;
  .declI .n7 ;;
  .setI .non_linear_one_elem (.lit 0) ;;
  .setI .non_linear (.lit 0) ;;
  .for .i (.lit 0) (.mul (.mem .nn) (.mem .dim)) (
    .memSt .b (.var .i) (.lit (nat_lit 0) true (nat_lit 1))) ;;
  .ite (.eqI (.mem .dim) (.lit 2)) (
    .declV .be 8 ;;
    .for .ex (.lit 0) (.sub (.mem .nx) (.lit 1)) (
      .for .ey (.lit 0) (.sub (.mem .ny) (.lit 1)) (
        .setI .n0 (.add (.mul (.var .ey) (.mem .nx)) (.var .ex)) ;;
        .setI .n1 (.add (.add (.mul (.var .ey) (.mem .nx)) (.var .ex)) (.lit 1)) ;;
        .setI .n2 (.add (.add (.mul (.add (.var .ey) (.lit 1)) (.mem .nx)) (.var .ex)) (.lit 1)) ;;
        .setI .n3 (.add (.mul (.add (.var .ey) (.lit 1)) (.mem .nx)) (.var .ex)) ;;
        .stI .index (.lit 0) (.mul (.var .n0) (.mem .dim)) ;;
        .stI .index (.lit 1) (.add (.mul (.var .n0) (.mem .dim)) (.lit 1)) ;;
        .stI .index (.lit 2) (.mul (.var .n1) (.mem .dim)) ;;
        .stI .index (.lit 3) (.add (.mul (.var .n1) (.mem .dim)) (.lit 1)) ;;
        .stI .index (.lit 4) (.mul (.var .n2) (.mem .dim)) ;;
        .stI .index (.lit 5) (.add (.mul (.var .n2) (.mem .dim)) (.lit 1)) ;;
        .stI .index (.lit 6) (.mul (.var .n3) (.mem .dim)) ;;
        .stI .index (.lit 7) (.add (.mul (.var .n3) (.mem .dim)) (.lit 1)) ;;
        .call .get_elem_rhs2D [.i (.var .ex), .i (.var .ey), .ref .non_linear_one_elem, .ref .be] ;;
        .ite (.eqI (.var .non_linear_one_elem) (.lit 1)) (
          .setI .non_linear (.lit 1)) (
          .skip) ;;
        .for .i (.lit 0) (.mul (.mem .npe) (.mem .dim)) (
          .memSt .b (.rd .index (.var .i)) (.add (.memRd .b (.rd .index (.var .i))) (.rd1 .be (.var .i)))))) ;;
    .for .i (.lit 0) (.mem .nx) (
      .for .d (.lit 0) (.mem .dim) (
        .memSt .b (.add (.mul (.var .i) (.mem .dim)) (.var .d)) (.lit (nat_lit 0) true (nat_lit 1)))) ;;
    .for .i (.lit 0) (.mem .nx) (
      .for .d (.lit 0) (.mem .dim) (
        .memSt .b (.add (.mul (.add (.var .i) (.mul (.sub (.mem .ny) (.lit 1)) (.mem .nx))) (.mem .dim)) (.var .d)) (.lit (nat_lit 0) true (nat_lit 1)))) ;;
    .for .i (.lit 0) (.sub (.mem .ny) (.lit 2)) (
      .for .d (.lit 0) (.mem .dim) (
        .memSt .b (.add (.mul (.mul (.add (.var .i) (.lit 1)) (.mem .nx)) (.mem .dim)) (.var .d)) (.lit (nat_lit 0) true (nat_lit 1)))) ;;
    .for .i (.lit 0) (.sub (.mem .ny) (.lit 2)) (
      .for .d (.lit 0) (.mem .dim) (
        .memSt .b (.add (.mul (.sub (.mul (.add (.var .i) (.lit 2)) (.mem .nx)) (.lit 1)) (.mem .dim)) (.var .d)) (.lit (nat_lit 0) true (nat_lit 1))))) (
    .ite (.eqI (.mem .dim) (.lit 3)) (
      .declV .be 24 ;;
      .for .ex (.lit 0) (.sub (.mem .nx) (.lit 1)) (
        .for .ey (.lit 0) (.sub (.mem .ny) (.lit 1)) (
          .for .ez (.lit 0) (.sub (.mem .nz) (.lit 1)) (
            .setI .n0 (.add (.add (.mul (.var .ez) (.mul (.mem .nx) (.mem .ny))) (.mul (.var .ey) (.mem .nx))) (.var .ex)) ;;
            .setI .n1 (.add (.add (.add (.mul (.var .ez) (.mul (.mem .nx) (.mem .ny))) (.mul (.var .ey) (.mem .nx))) (.var .ex)) (.lit 1)) ;;
            .setI .n2 (.add (.add (.add (.mul (.var .ez) (.mul (.mem .nx) (.mem .ny))) (.mul (.add (.var .ey) (.lit 1)) (.mem .nx))) (.var .ex)) (.lit 1)) ;;
            .setI .n3 (.add (.add (.mul (.var .ez) (.mul (.mem .nx) (.mem .ny))) (.mul (.add (.var .ey) (.lit 1)) (.mem .nx))) (.var .ex)) ;;
            .setI .n4 (.add (.var .n0) (.mul (.mem .nx) (.mem .ny))) ;;
            .setI .n5 (.add (.var .n1) (.mul (.mem .nx) (.mem .ny))) ;;
            .setI .n6 (.add (.var .n2) (.mul (.mem .nx) (.mem .ny))) ;;
            .setI .n7 (.add (.var .n3) (.mul (.mem .nx) (.mem .ny))) ;;
            .for .d (.lit 0) (.mem .dim) (
              .stI .index (.add (.mul (.lit 0) (.mem .dim)) (.var .d)) (.add (.mul (.var .n0) (.mem .dim)) (.var .d)) ;;
              .stI .index (.add (.mul (.lit 1) (.mem .dim)) (.var .d)) (.add (.mul (.var .n1) (.mem .dim)) (.var .d)) ;;
              .stI .index (.add (.mul (.lit 2) (.mem .dim)) (.var .d)) (.add (.mul (.var .n2) (.mem .dim)) (.var .d)) ;;
              .stI .index (.add (.mul (.lit 3) (.mem .dim)) (.var .d)) (.add (.mul (.var .n3) (.mem .dim)) (.var .d)) ;;
              .stI .index (.add (.mul (.lit 4) (.mem .dim)) (.var .d)) (.add (.mul (.var .n4) (.mem .dim)) (.var .d)) ;;
              .stI .index (.add (.mul (.lit 5) (.mem .dim)) (.var .d)) (.add (.mul (.var .n5) (.mem .dim)) (.var .d)) ;;
              .stI .index (.add (.mul (.lit 6) (.mem .dim)) (.var .d)) (.add (.mul (.var .n6) (.mem .dim)) (.var .d)) ;;
              .stI .index (.add (.mul (.lit 7) (.mem .dim)) (.var .d)) (.add (.mul (.var .n7) (.mem .dim)) (.var .d))) ;;
            .call .get_elem_rhs3D [.i (.var .ex), .i (.var .ey), .i (.var .ez), .ref .non_linear_one_elem, .ref .be] ;;
            .ite (.eqI (.var .non_linear_one_elem) (.lit 1)) (
              .setI .non_linear (.lit 1)) (
              .skip) ;;
            .for .i (.lit 0) (.mul (.mem .npe) (.mem .dim)) (
              .memSt .b (.rd .index (.var .i)) (.add (.memRd .b (.rd .index (.var .i))) (.rd1 .be (.var .i))))))) ;;
      .for .i (.lit 0) (.mem .nx) (
        .for .j (.lit 0) (.mem .ny) (
          .setI .n (.add (.add (.mul (.mul (.lit 0) (.mem .nx)) (.mem .ny)) (.mul (.var .j) (.mem .nx))) (.var .i)) ;;
          .for .d (.lit 0) (.mem .dim) (
            .memSt .b (.add (.mul (.var .n) (.mem .dim)) (.var .d)) (.lit (nat_lit 0) true (nat_lit 1))))) ;;
      .for .i (.lit 0) (.mem .nx) (
        .for .j (.lit 0) (.mem .ny) (
          .setI .n (.add (.add (.mul (.mul (.sub (.mem .nz) (.lit 1)) (.mem .nx)) (.mem .ny)) (.mul (.var .j) (.mem .nx))) (.var .i)) ;;
          .for .d (.lit 0) (.mem .dim) (
            .memSt .b (.add (.mul (.var .n) (.mem .dim)) (.var .d)) (.lit (nat_lit 0) true (nat_lit 1))))) ;;
      .for .i (.lit 0) (.mem .nx) (
        .for .k (.lit 1) (.sub (.mem .nz) (.lit 1)) (
          .setI .n (.add (.add (.mul (.mul (.var .k) (.mem .nx)) (.mem .ny)) (.mul (.lit 0) (.mem .nx))) (.var .i)) ;;
          .for .d (.lit 0) (.mem .dim) (
            .memSt .b (.add (.mul (.var .n) (.mem .dim)) (.var .d)) (.lit (nat_lit 0) true (nat_lit 1))))) ;;
      .for .i (.lit 0) (.mem .nx) (
        .for .k (.lit 1) (.sub (.mem .nz) (.lit 1)) (
          .setI .n (.add (.add (.mul (.mul (.var .k) (.mem .nx)) (.mem .ny)) (.mul (.sub (.mem .ny) (.lit 1)) (.mem .nx))) (.var .i)) ;;
          .for .d (.lit 0) (.mem .dim) (
            .memSt .b (.add (.mul (.var .n) (.mem .dim)) (.var .d)) (.lit (nat_lit 0) true (nat_lit 1))))) ;;
      .for .j (.lit 1) (.sub (.mem .ny) (.lit 1)) (
        .for .k (.lit 1) (.sub (.mem .nz) (.lit 1)) (
          .setI .n (.add (.add (.mul (.mul (.var .k) (.mem .nx)) (.mem .ny)) (.mul (.var .j) (.mem .nx))) (.lit 0)) ;;
          .for .d (.lit 0) (.mem .dim) (
            .memSt .b (.add (.mul (.var .n) (.mem .dim)) (.var .d)) (.lit (nat_lit 0) true (nat_lit 1))))) ;;
      .for .j (.lit 1) (.sub (.mem .ny) (.lit 1)) (
        .for .k (.lit 1) (.sub (.mem .nz) (.lit 1)) (
          .setI .n (.add (.add (.mul (.mul (.var .k) (.mem .nx)) (.mem .ny)) (.mul (.var .j) (.mem .nx))) (.sub (.mem .nx) (.lit 1))) ;;
          .for .d (.lit 0) (.mem .dim) (
            .memSt .b (.add (.mul (.var .n) (.mem .dim)) (.var .d)) (.lit (nat_lit 0) true (nat_lit 1)))))) (
      .skip)) ;;
  .for .i (.lit 0) (.mul (.mem .nn) (.mem .dim)) (
    .memSt .b (.var .i) (.neg (.memRd .b (.var .i)))) ;;
  .setD .norm (.lit (nat_lit 0) true (nat_lit 1)) ;;
  .for .i (.lit 0) (.mul (.mem .nn) (.mem .dim)) (
    .setD .norm (.add (.var .norm) (.mul (.memRd .b (.var .i)) (.memRd .b (.var .i))))) ;;
  .setD .norm (.sqrt (.var .norm)) ;;
  .setD .ret (.var .norm)

/-- `assembly_mat`: /repo/src/assembly.cpp:333-364. -/
def t_assembly_mat : Stmt :=
  .declIV .index 8 ;;
  .call .ell_set_zero_mat [.A] ;;
  .ite (.eqI (.mem .dim) (.lit 2)) (
    .declV .Ae 64 ;;
    .for .ex (.lit 0) (.sub (.mem .nx) (.lit 1)) (
      .for .ey (.lit 0) (.sub (.mem .ny) (.lit 1)) (
        .call .get_elem_mat2D [.i (.var .ex), .i (.var .ey), .ref .Ae] ;;
        .call .ell_add_struct2D [.A, .i (.var .ex), .i (.var .ey), .ref .Ae, .i (.mem .dim), .i (.mem .nx), .i (.mem .ny)])) ;;
    .call .ell_set_bc_2D [.A, .i (.mem .dim), .i (.mem .nx), .i (.mem .ny)]) (
    .ite (.eqI (.mem .dim) (.lit 3)) (
      .declV .Ae 576 ;;
      .for .ex (.lit 0) (.sub (.mem .nx) (.lit 1)) (
        .for .ey (.lit 0) (.sub (.mem .ny) (.lit 1)) (
          .for .ez (.lit 0) (.sub (.mem .nz) (.lit 1)) (
            .call .get_elem_mat3D [.i (.var .ex), .i (.var .ey), .i (.var .ez), .ref .Ae] ;;
            .call .ell_add_struct3D [.A, .i (.var .ex), .i (.var .ey), .i (.var .ez), .ref .Ae, .i (.mem .dim), .i (.mem .nx), .i (.mem .ny), .i (.mem .nz)]))) ;;
      .call .ell_set_bc_3D [.A, .i (.mem .dim), .i (.mem .nx), .i (.mem .ny), .i (.mem .nz)]) (
      .skip))

/-- `get_elem_mat2D`: /repo/src/assembly.cpp:366-443. -/
def t_get_elem_mat2D : Stmt :=
  .declD .nu ;;
  .declD .E ;;
  .declM .ctan 3 3 ;;
  .declI .plasticity ;;
  .setI .e (.add (.add (.mul (.mul (.lit 0) (.sub (.mem .nx) (.lit 1))) (.sub (.mem .ny) (.lit 1))) (.mul (.var .ey) (.sub (.mem .nx) (.lit 1)))) (.var .ex)) ;;
  .declMat ;;
  .call .get_material [.i (.var .e), .mat] ;;
  .setD .E (.var .material_E) ;;
  .setD .nu (.var .material_nu) ;;
  .setI .plasticity (.var .material_plasticity) ;;
  .st2 .ctan (.lit 0) (.lit 0) (.sub (.ofInt (.lit 1)) (.var .nu)) ;;
  .st2 .ctan (.lit 0) (.lit 1) (.var .nu) ;;
  .st2 .ctan (.lit 0) (.lit 2) (.ofInt (.lit 0)) ;;
  .st2 .ctan (.lit 1) (.lit 0) (.var .nu) ;;
  .st2 .ctan (.lit 1) (.lit 1) (.sub (.ofInt (.lit 1)) (.var .nu)) ;;
  .st2 .ctan (.lit 1) (.lit 2) (.ofInt (.lit 0)) ;;
  .st2 .ctan (.lit 2) (.lit 0) (.ofInt (.lit 0)) ;;
  .st2 .ctan (.lit 2) (.lit 1) (.ofInt (.lit 0)) ;;
  .st2 .ctan (.lit 2) (.lit 2) (.div (.sub (.ofInt (.lit 1)) (.mul (.ofInt (.lit 2)) (.var .nu))) (.ofInt (.lit 2))) ;;
  .for .i (.lit 0) (.mem .nvoi) (
    .for .j (.lit 0) (.mem .nvoi) (
      .st2 .ctan (.var .i) (.var .j) (.mul (.rd2 .ctan (.var .i) (.var .j)) (.div (.var .E) (.mul (.add (.ofInt (.lit 1)) (.var .nu)) (.sub (.ofInt (.lit 1)) (.mul (.ofInt (.lit 2)) (.var .nu)))))))) ;;
  .initM .xg 2 [[(.neg (.lit (nat_lit 577350269189626) true (nat_lit 15))), (.neg (.lit (nat_lit 577350269189626) true (nat_lit 15)))],
      [(.lit (nat_lit 577350269189626) true (nat_lit 15)), (.neg (.lit (nat_lit 577350269189626) true (nat_lit 15)))],
      [(.lit (nat_lit 577350269189626) true (nat_lit 15)), (.lit (nat_lit 577350269189626) true (nat_lit 15))],
      [(.neg (.lit (nat_lit 577350269189626) true (nat_lit 15))), (.lit (nat_lit 577350269189626) true (nat_lit 15))]] ;;
  .declM .dsh 4 2 ;;
  .declM .b_mat 3 8 ;;
  .declM .cxb 3 8 ;;
  .for .i (.lit 0) (.mul (.mul (.mul (.mem .npe) (.mem .dim)) (.mem .npe)) (.mem .dim)) (
    .st1 .Ae (.var .i) (.lit (nat_lit 0) true (nat_lit 1))) ;;
  .for .gp (.lit 0) (.lit 4) (
    .st2 .dsh (.lit 0) (.lit 0) (.div (.mul (.div (.neg (.sub (.ofInt (.lit 1)) (.rd2 .xg (.var .gp) (.lit 1)))) (.ofInt (.lit 4))) (.ofInt (.lit 2))) (.mem .dx)) ;;
    .st2 .dsh (.lit 0) (.lit 1) (.div (.mul (.div (.neg (.sub (.ofInt (.lit 1)) (.rd2 .xg (.var .gp) (.lit 0)))) (.ofInt (.lit 4))) (.ofInt (.lit 2))) (.mem .dy)) ;;
    .st2 .dsh (.lit 1) (.lit 0) (.div (.mul (.div (.sub (.ofInt (.lit 1)) (.rd2 .xg (.var .gp) (.lit 1))) (.ofInt (.lit 4))) (.ofInt (.lit 2))) (.mem .dx)) ;;
    .st2 .dsh (.lit 1) (.lit 1) (.div (.mul (.div (.neg (.add (.ofInt (.lit 1)) (.rd2 .xg (.var .gp) (.lit 0)))) (.ofInt (.lit 4))) (.ofInt (.lit 2))) (.mem .dy)) ;;
    .st2 .dsh (.lit 2) (.lit 0) (.div (.mul (.div (.add (.ofInt (.lit 1)) (.rd2 .xg (.var .gp) (.lit 1))) (.ofInt (.lit 4))) (.ofInt (.lit 2))) (.mem .dx)) ;;
    .st2 .dsh (.lit 2) (.lit 1) (.div (.mul (.div (.add (.ofInt (.lit 1)) (.rd2 .xg (.var .gp) (.lit 0))) (.ofInt (.lit 4))) (.ofInt (.lit 2))) (.mem .dy)) ;;
    .st2 .dsh (.lit 3) (.lit 0) (.div (.mul (.div (.neg (.add (.ofInt (.lit 1)) (.rd2 .xg (.var .gp) (.lit 1)))) (.ofInt (.lit 4))) (.ofInt (.lit 2))) (.mem .dx)) ;;
    .st2 .dsh (.lit 3) (.lit 1) (.div (.mul (.div (.sub (.ofInt (.lit 1)) (.rd2 .xg (.var .gp) (.lit 0))) (.ofInt (.lit 4))) (.ofInt (.lit 2))) (.mem .dy)) ;;
    .for .i (.lit 0) (.lit 4) (
      .st2 .b_mat (.lit 0) (.mul (.var .i) (.mem .dim)) (.rd2 .dsh (.var .i) (.lit 0)) ;;
      .st2 .b_mat (.lit 0) (.add (.mul (.var .i) (.mem .dim)) (.lit 1)) (.ofInt (.lit 0)) ;;
      .st2 .b_mat (.lit 1) (.mul (.var .i) (.mem .dim)) (.ofInt (.lit 0)) ;;
      .st2 .b_mat (.lit 1) (.add (.mul (.var .i) (.mem .dim)) (.lit 1)) (.rd2 .dsh (.var .i) (.lit 1)) ;;
      .st2 .b_mat (.lit 2) (.mul (.var .i) (.mem .dim)) (.rd2 .dsh (.var .i) (.lit 1)) ;;
      .st2 .b_mat (.lit 2) (.add (.mul (.var .i) (.mem .dim)) (.lit 1)) (.rd2 .dsh (.var .i) (.lit 0))) ;;
    .for .i (.lit 0) (.mem .nvoi) (
      .for .j (.lit 0) (.mul (.mem .npe) (.mem .dim)) (
        .st2 .cxb (.var .i) (.var .j) (.lit (nat_lit 0) true (nat_lit 1)) ;;
        .for .k (.lit 0) (.mem .nvoi) (
          .st2 .cxb (.var .i) (.var .j) (.add (.rd2 .cxb (.var .i) (.var .j)) (.mul (.rd2 .ctan (.var .i) (.var .k)) (.rd2 .b_mat (.var .k) (.var .j))))))) ;;
    .setD .wg (.mul (.mul (.lit (nat_lit 25) true (nat_lit 2)) (.mem .dx)) (.mem .dy)) ;;
    .for .i (.lit 0) (.mul (.mem .npe) (.mem .dim)) (
      .for .j (.lit 0) (.mul (.mem .npe) (.mem .dim)) (
        .for .m (.lit 0) (.mem .nvoi) (
          .st1 .Ae (.add (.mul (.mul (.var .i) (.mem .npe)) (.mem .dim)) (.var .j)) (.add (.rd1 .Ae (.add (.mul (.mul (.var .i) (.mem .npe)) (.mem .dim)) (.var .j))) (.mul (.mul (.rd2 .b_mat (.var .m) (.var .i)) (.rd2 .cxb (.var .m) (.var .j))) (.var .wg)))))))

/-- `get_elem_mat3D`: /repo/src/assembly.cpp:445-509. -/
def t_get_elem_mat3D : Stmt :=
  .setI .e (.add (.add (.mul (.mul (.var .ez) (.sub (.mem .nx) (.lit 1))) (.sub (.mem .ny) (.lit 1))) (.mul (.var .ey) (.sub (.mem .nx) (.lit 1)))) (.var .ex)) ;;
  .declMat ;;
  .call .get_material [.i (.var .e), .mat] ;;
  .declM .ctan 6 6 ;;
  .for .i (.lit 0) (.mul (.mul (.mul (.mem .npe) (.mem .dim)) (.mem .npe)) (.mem .dim)) (
    .st1 .Ae (.var .i) (.lit (nat_lit 0) true (nat_lit 1))) ;;
  .for .gp (.lit 0) (.lit 8) (
    .ite (.eqI (.var .material_plasticity) (.lit 1)) (
      .setI .ctan_secant (.lit 0) ;;
      .setI .ctan_pert (.lit 1) ;;
      .setI .ctan_exact (.lit 0) ;;
      .ite (.eqI (.var .ctan_secant) (.lit 1)) (
        .call .get_ctan_plast_sec [.i (.var .ex), .i (.var .ey), .i (.var .ez), .i (.var .gp), .ref .ctan]) (
        .ite (.eqI (.var .ctan_exact) (.lit 1)) (
          .call .get_ctan_plast_exact [.i (.var .ex), .i (.var .ey), .i (.var .ez), .i (.var .gp), .ref .ctan]) (
          .ite (.eqI (.var .ctan_pert) (.lit 1)) (
            .call .get_ctan_plast_pert [.i (.var .ex), .i (.var .ey), .i (.var .ez), .i (.var .gp), .ref .ctan]) (
            .skip)))) (
      .for .i (.lit 0) (.lit 6) (
        .for .j (.lit 0) (.lit 6) (
          .st2 .ctan (.var .i) (.var .j) (.lit (nat_lit 0) true (nat_lit 1)))) ;;
      .for .i (.lit 0) (.lit 3) (
        .for .j (.lit 0) (.lit 3) (
          .st2 .ctan (.var .i) (.var .j) (.add (.rd2 .ctan (.var .i) (.var .j)) (.var .material_lam)))) ;;
      .for .i (.lit 0) (.lit 3) (
        .st2 .ctan (.var .i) (.var .i) (.add (.rd2 .ctan (.var .i) (.var .i)) (.mul (.ofInt (.lit 2)) (.var .material_mu)))) ;;
      .for .i (.lit 3) (.lit 6) (
        .st2 .ctan (.var .i) (.var .i) (.add (.rd2 .ctan (.var .i) (.var .i)) (.var .material_mu)))) ;;
    .declM .bmat 6 24 ;;
    .declM .cxb 6 24 ;;
    .call .calc_bmat_3D [.i (.var .gp), .ref .bmat] ;;
    .for .i (.lit 0) (.mem .nvoi) (
      .for .j (.lit 0) (.mul (.mem .npe) (.mem .dim)) (
        .st2 .cxb (.var .i) (.var .j) (.lit (nat_lit 0) true (nat_lit 1)) ;;
        .for .k (.lit 0) (.mem .nvoi) (
          .st2 .cxb (.var .i) (.var .j) (.add (.rd2 .cxb (.var .i) (.var .j)) (.mul (.rd2 .ctan (.var .i) (.var .k)) (.rd2 .bmat (.var .k) (.var .j))))))) ;;
    .setD .wg (.mul (.mul (.mul (.div (.ofInt (.lit 1)) (.lit (nat_lit 80) true (nat_lit 1))) (.mem .dx)) (.mem .dy)) (.mem .dz)) ;;
    .for .i (.lit 0) (.mul (.mem .npe) (.mem .dim)) (
      .for .j (.lit 0) (.mul (.mem .npe) (.mem .dim)) (
        .for .m (.lit 0) (.mem .nvoi) (
          .st1 .Ae (.add (.mul (.mul (.var .i) (.mem .npe)) (.mem .dim)) (.var .j)) (.add (.rd1 .Ae (.add (.mul (.mul (.var .i) (.mem .npe)) (.mem .dim)) (.var .j))) (.mul (.mul (.rd2 .bmat (.var .m) (.var .i)) (.rd2 .cxb (.var .m) (.var .j))) (.var .wg)))))))

/-- `get_ctan_plast_sec`: /repo/src/assembly.cpp:511-532. -/
def t_get_ctan_plast_sec : Stmt :=
  .declI .non_linear ;;
  .declV .stress_pert 6 ;;
  .declV .strain_pert 6 ;;
  .declV .strain_0 6 ;;
  .setD .d_strain (.lit (nat_lit 10) true (nat_lit 9)) ;;
  .call .get_strain3D [.i (.var .ex), .i (.var .ey), .i (.var .ez), .i (.var .gp), .ref .strain_0] ;;
  .for .i (.lit 0) (.lit 6) (
    .for .j (.lit 0) (.lit 6) (
      .st1 .strain_pert (.var .j) (.lit (nat_lit 0) true (nat_lit 1))) ;;
    .ite (.ltD (.lit (nat_lit 10) true (nat_lit 8)) (.abs (.rd1 .strain_0 (.var .i)))) (
      .st1 .strain_pert (.var .i) (.rd1 .strain_0 (.var .i))) (
      .st1 .strain_pert (.var .i) (.var .d_strain)) ;;
    .call .get_stress3D [.i (.var .ex), .i (.var .ey), .i (.var .ez), .i (.var .gp), .ref .strain_pert, .ref .non_linear, .ref .stress_pert] ;;
    .for .j (.lit 0) (.lit 6) (
      .st2 .ctan (.var .j) (.var .i) (.div (.rd1 .stress_pert (.var .j)) (.rd1 .strain_pert (.var .i)))))

/-- `get_ctan_plast_exact`: /repo/src/assembly.cpp:534-569. -/
def t_get_ctan_plast_exact : Stmt :=
  .declV .strain 6 ;;
  .setI .e (.add (.add (.mul (.mul (.var .ez) (.sub (.mem .nx) (.lit 1))) (.sub (.mem .ny) (.lit 1))) (.mul (.var .ey) (.sub (.mem .nx) (.lit 1)))) (.var .ex)) ;;
  .call .get_strain3D [.i (.var .ex), .i (.var .ey), .i (.var .ez), .i (.var .gp), .ref .strain] ;;
  .declMat ;;
  .call .get_material [.i (.var .e), .mat] ;;
  .for .i (.lit 0) (.lit 6) (
    .for .j (.lit 0) (.lit 6) (
      .st2 .ctan (.var .i) (.var .j) (.lit (nat_lit 0) true (nat_lit 1)))) ;;
  .for .i (.lit 0) (.lit 3) (
    .for .j (.lit 0) (.lit 3) (
      .st2 .ctan (.var .i) (.var .j) (.add (.rd2 .ctan (.var .i) (.var .j)) (.var .material_lam)))) ;;
  .for .i (.lit 0) (.lit 3) (
    .st2 .ctan (.var .i) (.var .i) (.add (.rd2 .ctan (.var .i) (.var .i)) (.mul (.ofInt (.lit 2)) (.var .material_mu)))) ;;
  .for .i (.lit 3) (.lit 6) (
    .st2 .ctan (.var .i) (.var .i) (.add (.rd2 .ctan (.var .i) (.var .i)) (.var .material_mu)))

/-- `get_ctan_plast_pert`: /repo/src/assembly.cpp:571-588. -/
def t_get_ctan_plast_pert : Stmt :=
  .declI .non_linear ;;
  .declV .stress_0 6 ;;
  .declV .stress_pert 6 ;;
  .declV .strain_0 6 ;;
  .declV .strain_pert 6 ;;
  .setD .deps (.lit (nat_lit 10) true (nat_lit 9)) ;;
  .call .get_strain3D [.i (.var .ex), .i (.var .ey), .i (.var .ez), .i (.var .gp), .ref .strain_0] ;;
  .call .get_stress3D [.i (.var .ex), .i (.var .ey), .i (.var .ez), .i (.var .gp), .ref .strain_0, .ref .non_linear, .ref .stress_0] ;;
  .for .i (.lit 0) (.lit 6) (
    .for .j (.lit 0) (.lit 6) (
      .st1 .strain_pert (.var .j) (.rd1 .strain_0 (.var .j))) ;;
    .st1 .strain_pert (.var .i) (.add (.rd1 .strain_pert (.var .i)) (.var .deps)) ;;
    .call .get_stress3D [.i (.var .ex), .i (.var .ey), .i (.var .ez), .i (.var .gp), .ref .strain_pert, .ref .non_linear, .ref .stress_pert] ;;
    .for .j (.lit 0) (.lit 6) (
      .st2 .ctan (.var .j) (.var .i) (.div (.sub (.rd1 .stress_pert (.var .j)) (.rd1 .stress_0 (.var .j))) (.var .deps))))

/-- `calc_bmat_3D`: /repo/src/assembly.cpp:590-652. -/
def t_calc_bmat_3D : Stmt :=
  .initM .xg 3 [[(.neg (.lit (nat_lit 577350269189626) true (nat_lit 15))), (.neg (.lit (nat_lit 577350269189626) true (nat_lit 15))), (.neg (.lit (nat_lit 577350269189626) true (nat_lit 15)))],
      [(.lit (nat_lit 577350269189626) true (nat_lit 15)), (.neg (.lit (nat_lit 577350269189626) true (nat_lit 15))), (.neg (.lit (nat_lit 577350269189626) true (nat_lit 15)))],
      [(.lit (nat_lit 577350269189626) true (nat_lit 15)), (.lit (nat_lit 577350269189626) true (nat_lit 15)), (.neg (.lit (nat_lit 577350269189626) true (nat_lit 15)))],
      [(.neg (.lit (nat_lit 577350269189626) true (nat_lit 15))), (.lit (nat_lit 577350269189626) true (nat_lit 15)), (.neg (.lit (nat_lit 577350269189626) true (nat_lit 15)))],
      [(.neg (.lit (nat_lit 577350269189626) true (nat_lit 15))), (.neg (.lit (nat_lit 577350269189626) true (nat_lit 15))), (.lit (nat_lit 577350269189626) true (nat_lit 15))],
      [(.lit (nat_lit 577350269189626) true (nat_lit 15)), (.neg (.lit (nat_lit 577350269189626) true (nat_lit 15))), (.lit (nat_lit 577350269189626) true (nat_lit 15))],
      [(.lit (nat_lit 577350269189626) true (nat_lit 15)), (.lit (nat_lit 577350269189626) true (nat_lit 15)), (.lit (nat_lit 577350269189626) true (nat_lit 15))],
      [(.neg (.lit (nat_lit 577350269189626) true (nat_lit 15))), (.lit (nat_lit 577350269189626) true (nat_lit 15)), (.lit (nat_lit 577350269189626) true (nat_lit 15))]] ;;
  .declM .dsh 8 3 ;;
  .st2 .dsh (.lit 0) (.lit 0) (.div (.mul (.div (.mul (.neg (.sub (.ofInt (.lit 1)) (.rd2 .xg (.var .gp) (.lit 1)))) (.sub (.ofInt (.lit 1)) (.rd2 .xg (.var .gp) (.lit 2)))) (.ofInt (.lit 8))) (.ofInt (.lit 2))) (.mem .dx)) ;;
  .st2 .dsh (.lit 0) (.lit 1) (.div (.mul (.div (.mul (.neg (.sub (.ofInt (.lit 1)) (.rd2 .xg (.var .gp) (.lit 0)))) (.sub (.ofInt (.lit 1)) (.rd2 .xg (.var .gp) (.lit 2)))) (.ofInt (.lit 8))) (.ofInt (.lit 2))) (.mem .dy)) ;;
  .st2 .dsh (.lit 0) (.lit 2) (.div (.mul (.div (.mul (.neg (.sub (.ofInt (.lit 1)) (.rd2 .xg (.var .gp) (.lit 0)))) (.sub (.ofInt (.lit 1)) (.rd2 .xg (.var .gp) (.lit 1)))) (.ofInt (.lit 8))) (.ofInt (.lit 2))) (.mem .dz)) ;;
  .st2 .dsh (.lit 1) (.lit 0) (.div (.mul (.div (.mul (.sub (.ofInt (.lit 1)) (.rd2 .xg (.var .gp) (.lit 1))) (.sub (.ofInt (.lit 1)) (.rd2 .xg (.var .gp) (.lit 2)))) (.ofInt (.lit 8))) (.ofInt (.lit 2))) (.mem .dx)) ;;
  .st2 .dsh (.lit 1) (.lit 1) (.div (.mul (.div (.mul (.neg (.add (.ofInt (.lit 1)) (.rd2 .xg (.var .gp) (.lit 0)))) (.sub (.ofInt (.lit 1)) (.rd2 .xg (.var .gp) (.lit 2)))) (.ofInt (.lit 8))) (.ofInt (.lit 2))) (.mem .dy)) ;;
  .st2 .dsh (.lit 1) (.lit 2) (.div (.mul (.div (.mul (.neg (.add (.ofInt (.lit 1)) (.rd2 .xg (.var .gp) (.lit 0)))) (.sub (.ofInt (.lit 1)) (.rd2 .xg (.var .gp) (.lit 1)))) (.ofInt (.lit 8))) (.ofInt (.lit 2))) (.mem .dz)) ;;
  .st2 .dsh (.lit 2) (.lit 0) (.div (.mul (.div (.mul (.add (.ofInt (.lit 1)) (.rd2 .xg (.var .gp) (.lit 1))) (.sub (.ofInt (.lit 1)) (.rd2 .xg (.var .gp) (.lit 2)))) (.ofInt (.lit 8))) (.ofInt (.lit 2))) (.mem .dx)) ;;
  .st2 .dsh (.lit 2) (.lit 1) (.div (.mul (.div (.mul (.add (.ofInt (.lit 1)) (.rd2 .xg (.var .gp) (.lit 0))) (.sub (.ofInt (.lit 1)) (.rd2 .xg (.var .gp) (.lit 2)))) (.ofInt (.lit 8))) (.ofInt (.lit 2))) (.mem .dy)) ;;
  .st2 .dsh (.lit 2) (.lit 2) (.div (.mul (.div (.mul (.neg (.add (.ofInt (.lit 1)) (.rd2 .xg (.var .gp) (.lit 0)))) (.add (.ofInt (.lit 1)) (.rd2 .xg (.var .gp) (.lit 1)))) (.ofInt (.lit 8))) (.ofInt (.lit 2))) (.mem .dz)) ;;
  .st2 .dsh (.lit 3) (.lit 0) (.div (.mul (.div (.mul (.neg (.add (.ofInt (.lit 1)) (.rd2 .xg (.var .gp) (.lit 1)))) (.sub (.ofInt (.lit 1)) (.rd2 .xg (.var .gp) (.lit 2)))) (.ofInt (.lit 8))) (.ofInt (.lit 2))) (.mem .dx)) ;;
  .st2 .dsh (.lit 3) (.lit 1) (.div (.mul (.div (.mul (.sub (.ofInt (.lit 1)) (.rd2 .xg (.var .gp) (.lit 0))) (.sub (.ofInt (.lit 1)) (.rd2 .xg (.var .gp) (.lit 2)))) (.ofInt (.lit 8))) (.ofInt (.lit 2))) (.mem .dy)) ;;
  .st2 .dsh (.lit 3) (.lit 2) (.div (.mul (.div (.mul (.neg (.sub (.ofInt (.lit 1)) (.rd2 .xg (.var .gp) (.lit 0)))) (.add (.ofInt (.lit 1)) (.rd2 .xg (.var .gp) (.lit 1)))) (.ofInt (.lit 8))) (.ofInt (.lit 2))) (.mem .dz)) ;;
  .st2 .dsh (.lit 4) (.lit 0) (.div (.mul (.div (.mul (.neg (.sub (.ofInt (.lit 1)) (.rd2 .xg (.var .gp) (.lit 1)))) (.add (.ofInt (.lit 1)) (.rd2 .xg (.var .gp) (.lit 2)))) (.ofInt (.lit 8))) (.ofInt (.lit 2))) (.mem .dx)) ;;
  .st2 .dsh (.lit 4) (.lit 1) (.div (.mul (.div (.mul (.neg (.sub (.ofInt (.lit 1)) (.rd2 .xg (.var .gp) (.lit 0)))) (.add (.ofInt (.lit 1)) (.rd2 .xg (.var .gp) (.lit 2)))) (.ofInt (.lit 8))) (.ofInt (.lit 2))) (.mem .dy)) ;;
  .st2 .dsh (.lit 4) (.lit 2) (.div (.mul (.div (.mul (.sub (.ofInt (.lit 1)) (.rd2 .xg (.var .gp) (.lit 0))) (.sub (.ofInt (.lit 1)) (.rd2 .xg (.var .gp) (.lit 1)))) (.ofInt (.lit 8))) (.ofInt (.lit 2))) (.mem .dz)) ;;
  .st2 .dsh (.lit 5) (.lit 0) (.div (.mul (.div (.mul (.sub (.ofInt (.lit 1)) (.rd2 .xg (.var .gp) (.lit 1))) (.add (.ofInt (.lit 1)) (.rd2 .xg (.var .gp) (.lit 2)))) (.ofInt (.lit 8))) (.ofInt (.lit 2))) (.mem .dx)) ;;
  .st2 .dsh (.lit 5) (.lit 1) (.div (.mul (.div (.mul (.neg (.add (.ofInt (.lit 1)) (.rd2 .xg (.var .gp) (.lit 0)))) (.add (.ofInt (.lit 1)) (.rd2 .xg (.var .gp) (.lit 2)))) (.ofInt (.lit 8))) (.ofInt (.lit 2))) (.mem .dy)) ;;
  .st2 .dsh (.lit 5) (.lit 2) (.div (.mul (.div (.mul (.add (.ofInt (.lit 1)) (.rd2 .xg (.var .gp) (.lit 0))) (.sub (.ofInt (.lit 1)) (.rd2 .xg (.var .gp) (.lit 1)))) (.ofInt (.lit 8))) (.ofInt (.lit 2))) (.mem .dz)) ;;
  .st2 .dsh (.lit 6) (.lit 0) (.div (.mul (.div (.mul (.add (.ofInt (.lit 1)) (.rd2 .xg (.var .gp) (.lit 1))) (.add (.ofInt (.lit 1)) (.rd2 .xg (.var .gp) (.lit 2)))) (.ofInt (.lit 8))) (.ofInt (.lit 2))) (.mem .dx)) ;;
  .st2 .dsh (.lit 6) (.lit 1) (.div (.mul (.div (.mul (.add (.ofInt (.lit 1)) (.rd2 .xg (.var .gp) (.lit 0))) (.add (.ofInt (.lit 1)) (.rd2 .xg (.var .gp) (.lit 2)))) (.ofInt (.lit 8))) (.ofInt (.lit 2))) (.mem .dy)) ;;
  .st2 .dsh (.lit 6) (.lit 2) (.div (.mul (.div (.mul (.add (.ofInt (.lit 1)) (.rd2 .xg (.var .gp) (.lit 0))) (.add (.ofInt (.lit 1)) (.rd2 .xg (.var .gp) (.lit 1)))) (.ofInt (.lit 8))) (.ofInt (.lit 2))) (.mem .dz)) ;;
  .st2 .dsh (.lit 7) (.lit 0) (.div (.mul (.div (.mul (.neg (.add (.ofInt (.lit 1)) (.rd2 .xg (.var .gp) (.lit 1)))) (.add (.ofInt (.lit 1)) (.rd2 .xg (.var .gp) (.lit 2)))) (.ofInt (.lit 8))) (.ofInt (.lit 2))) (.mem .dx)) ;;
  .st2 .dsh (.lit 7) (.lit 1) (.div (.mul (.div (.mul (.sub (.ofInt (.lit 1)) (.rd2 .xg (.var .gp) (.lit 0))) (.add (.ofInt (.lit 1)) (.rd2 .xg (.var .gp) (.lit 2)))) (.ofInt (.lit 8))) (.ofInt (.lit 2))) (.mem .dy)) ;;
  .st2 .dsh (.lit 7) (.lit 2) (.div (.mul (.div (.mul (.sub (.ofInt (.lit 1)) (.rd2 .xg (.var .gp) (.lit 0))) (.add (.ofInt (.lit 1)) (.rd2 .xg (.var .gp) (.lit 1)))) (.ofInt (.lit 8))) (.ofInt (.lit 2))) (.mem .dz)) ;;
  .for .i (.lit 0) (.lit 8) (
    .st2 .bmat (.lit 0) (.mul (.var .i) (.mem .dim)) (.rd2 .dsh (.var .i) (.lit 0)) ;;
    .st2 .bmat (.lit 0) (.add (.mul (.var .i) (.mem .dim)) (.lit 1)) (.ofInt (.lit 0)) ;;
    .st2 .bmat (.lit 0) (.add (.mul (.var .i) (.mem .dim)) (.lit 2)) (.ofInt (.lit 0)) ;;
    .st2 .bmat (.lit 1) (.mul (.var .i) (.mem .dim)) (.ofInt (.lit 0)) ;;
    .st2 .bmat (.lit 1) (.add (.mul (.var .i) (.mem .dim)) (.lit 1)) (.rd2 .dsh (.var .i) (.lit 1)) ;;
    .st2 .bmat (.lit 1) (.add (.mul (.var .i) (.mem .dim)) (.lit 2)) (.ofInt (.lit 0)) ;;
    .st2 .bmat (.lit 2) (.mul (.var .i) (.mem .dim)) (.ofInt (.lit 0)) ;;
    .st2 .bmat (.lit 2) (.add (.mul (.var .i) (.mem .dim)) (.lit 1)) (.ofInt (.lit 0)) ;;
    .st2 .bmat (.lit 2) (.add (.mul (.var .i) (.mem .dim)) (.lit 2)) (.rd2 .dsh (.var .i) (.lit 2)) ;;
    .st2 .bmat (.lit 3) (.mul (.var .i) (.mem .dim)) (.rd2 .dsh (.var .i) (.lit 1)) ;;
    .st2 .bmat (.lit 3) (.add (.mul (.var .i) (.mem .dim)) (.lit 1)) (.rd2 .dsh (.var .i) (.lit 0)) ;;
    .st2 .bmat (.lit 3) (.add (.mul (.var .i) (.mem .dim)) (.lit 2)) (.ofInt (.lit 0)) ;;
    .st2 .bmat (.lit 4) (.mul (.var .i) (.mem .dim)) (.rd2 .dsh (.var .i) (.lit 2)) ;;
    .st2 .bmat (.lit 4) (.add (.mul (.var .i) (.mem .dim)) (.lit 1)) (.ofInt (.lit 0)) ;;
    .st2 .bmat (.lit 4) (.add (.mul (.var .i) (.mem .dim)) (.lit 2)) (.rd2 .dsh (.var .i) (.lit 0)) ;;
    .st2 .bmat (.lit 5) (.mul (.var .i) (.mem .dim)) (.ofInt (.lit 0)) ;;
    .st2 .bmat (.lit 5) (.add (.mul (.var .i) (.mem .dim)) (.lit 1)) (.rd2 .dsh (.var .i) (.lit 2)) ;;
    .st2 .bmat (.lit 5) (.add (.mul (.var .i) (.mem .dim)) (.lit 2)) (.rd2 .dsh (.var .i) (.lit 1)))

/-- `get_elem_rhs2D`: /repo/src/assembly.cpp:654-699. -/
def t_get_elem_rhs2D : Stmt :=
  .declM .dsh 4 2 ;;
  .declM .bmat 3 8 ;;
  .declM .cxb 3 8 ;;
  .declV .stress_gp 6 ;;
  .initM .xg 2 [[(.neg (.lit (nat_lit 577350269189626) true (nat_lit 15))), (.neg (.lit (nat_lit 577350269189626) true (nat_lit 15)))],
      [(.lit (nat_lit 577350269189626) true (nat_lit 15)), (.neg (.lit (nat_lit 577350269189626) true (nat_lit 15)))],
      [(.lit (nat_lit 577350269189626) true (nat_lit 15)), (.lit (nat_lit 577350269189626) true (nat_lit 15))],
      [(.neg (.lit (nat_lit 577350269189626) true (nat_lit 15))), (.lit (nat_lit 577350269189626) true (nat_lit 15))]] ;;
  .for .i (.lit 0) (.mul (.lit 2) (.lit 4)) (
    .st1 .be (.var .i) (.lit (nat_lit 0) true (nat_lit 1))) ;;
  .for .gp (.lit 0) (.lit 4) (
    .st2 .dsh (.lit 0) (.lit 0) (.div (.mul (.div (.neg (.sub (.ofInt (.lit 1)) (.rd2 .xg (.var .gp) (.lit 1)))) (.ofInt (.lit 4))) (.ofInt (.lit 2))) (.mem .dx)) ;;
    .st2 .dsh (.lit 0) (.lit 1) (.div (.mul (.div (.neg (.sub (.ofInt (.lit 1)) (.rd2 .xg (.var .gp) (.lit 0)))) (.ofInt (.lit 4))) (.ofInt (.lit 2))) (.mem .dy)) ;;
    .st2 .dsh (.lit 1) (.lit 0) (.div (.mul (.div (.sub (.ofInt (.lit 1)) (.rd2 .xg (.var .gp) (.lit 1))) (.ofInt (.lit 4))) (.ofInt (.lit 2))) (.mem .dx)) ;;
    .st2 .dsh (.lit 1) (.lit 1) (.div (.mul (.div (.neg (.add (.ofInt (.lit 1)) (.rd2 .xg (.var .gp) (.lit 0)))) (.ofInt (.lit 4))) (.ofInt (.lit 2))) (.mem .dy)) ;;
    .st2 .dsh (.lit 2) (.lit 0) (.div (.mul (.div (.add (.ofInt (.lit 1)) (.rd2 .xg (.var .gp) (.lit 1))) (.ofInt (.lit 4))) (.ofInt (.lit 2))) (.mem .dx)) ;;
    .st2 .dsh (.lit 2) (.lit 1) (.div (.mul (.div (.add (.ofInt (.lit 1)) (.rd2 .xg (.var .gp) (.lit 0))) (.ofInt (.lit 4))) (.ofInt (.lit 2))) (.mem .dy)) ;;
    .st2 .dsh (.lit 3) (.lit 0) (.div (.mul (.div (.neg (.add (.ofInt (.lit 1)) (.rd2 .xg (.var .gp) (.lit 1)))) (.ofInt (.lit 4))) (.ofInt (.lit 2))) (.mem .dx)) ;;
    .st2 .dsh (.lit 3) (.lit 1) (.div (.mul (.div (.sub (.ofInt (.lit 1)) (.rd2 .xg (.var .gp) (.lit 0))) (.ofInt (.lit 4))) (.ofInt (.lit 2))) (.mem .dy)) ;;
    .for .i (.lit 0) (.lit 4) (
      .st2 .bmat (.lit 0) (.mul (.var .i) (.mem .dim)) (.rd2 .dsh (.var .i) (.lit 0)) ;;
      .st2 .bmat (.lit 0) (.add (.mul (.var .i) (.mem .dim)) (.lit 1)) (.ofInt (.lit 0)) ;;
      .st2 .bmat (.lit 1) (.mul (.var .i) (.mem .dim)) (.ofInt (.lit 0)) ;;
      .st2 .bmat (.lit 1) (.add (.mul (.var .i) (.mem .dim)) (.lit 1)) (.rd2 .dsh (.var .i) (.lit 1)) ;;
      .st2 .bmat (.lit 2) (.mul (.var .i) (.mem .dim)) (.rd2 .dsh (.var .i) (.lit 1)) ;;
      .st2 .bmat (.lit 2) (.add (.mul (.var .i) (.mem .dim)) (.lit 1)) (.rd2 .dsh (.var .i) (.lit 0))) ;;
    .declV .strain_gp 3 ;;
    .call .get_strain2D [.i (.var .ex), .i (.var .ey), .i (.var .gp), .ref .strain_gp] ;;
    .call .get_stress2D [.i (.var .ex), .i (.var .ey), .i (.var .gp), .ref .strain_gp, .ref .non_linear, .ref .stress_gp] ;;
    .setD .wg (.mul (.mul (.lit (nat_lit 25) true (nat_lit 2)) (.mem .dx)) (.mem .dy)) ;;
    .for .i (.lit 0) (.mul (.mem .npe) (.mem .dim)) (
      .for .j (.lit 0) (.mem .nvoi) (
        .st1 .be (.var .i) (.add (.rd1 .be (.var .i)) (.mul (.mul (.rd2 .bmat (.var .j) (.var .i)) (.rd1 .stress_gp (.var .j))) (.var .wg))))))

/-- `get_elem_rhs3D`: /repo/src/assembly.cpp:701-722. -/
def t_get_elem_rhs3D : Stmt :=
  .declM .bmat 6 24 ;;
  .declM .cxb 6 24 ;;
  .declV .stress_gp 6 ;;
  .for .i (.lit 0) (.mul (.lit 3) (.lit 8)) (
    .st1 .be (.var .i) (.lit (nat_lit 0) true (nat_lit 1))) ;;
  .for .gp (.lit 0) (.lit 8) (
    .call .calc_bmat_3D [.i (.var .gp), .ref .bmat] ;;
    .declV .strain_gp 6 ;;
    .call .get_strain3D [.i (.var .ex), .i (.var .ey), .i (.var .ez), .i (.var .gp), .ref .strain_gp] ;;
    .call .get_stress3D [.i (.var .ex), .i (.var .ey), .i (.var .ez), .i (.var .gp), .ref .strain_gp, .ref .non_linear, .ref .stress_gp] ;;
    .setD .wg (.mul (.mul (.mul (.div (.ofInt (.lit 1)) (.lit (nat_lit 80) true (nat_lit 1))) (.mem .dx)) (.mem .dy)) (.mem .dz)) ;;
    .for .i (.lit 0) (.mul (.mem .npe) (.mem .dim)) (
      .for .j (.lit 0) (.mem .nvoi) (
        .st1 .be (.var .i) (.add (.rd1 .be (.var .i)) (.mul (.mul (.rd2 .bmat (.var .j) (.var .i)) (.rd1 .stress_gp (.var .j))) (.var .wg))))))

/-- `calc_ave_stress`: /repo/src/assembly.cpp:724-788. -/
def t_calc_ave_stress : Stmt :=
  .declI .non_linear_flag ;;
  .for .v (.lit 0) (.mem .nvoi) (
    .st1 .stress_ave (.var .v) (.lit (nat_lit 0) true (nat_lit 1))) ;;
  .ite (.eqI (.mem .dim) (.lit 2)) (
    .for .ex (.lit 0) (.sub (.mem .nx) (.lit 1)) (
      .for .ey (.lit 0) (.sub (.mem .ny) (.lit 1)) (
        .declV .stress_aux 3 ;;
        .for .i (.lit 0) (.mem .nvoi) (
          .st1 .stress_aux (.var .i) (.lit (nat_lit 0) true (nat_lit 1))) ;;
        .for .gp (.lit 0) (.lit 4) (
          .declV .stress_gp 6 ;;
          .setD .wg (.mul (.mul (.lit (nat_lit 25) true (nat_lit 2)) (.mem .dx)) (.mem .dy)) ;;
          .declV .strain_gp 3 ;;
          .call .get_strain2D [.i (.var .ex), .i (.var .ey), .i (.var .gp), .ref .strain_gp] ;;
          .call .get_stress2D [.i (.var .ex), .i (.var .ey), .i (.var .gp), .ref .strain_gp, .ref .non_linear_flag, .ref .stress_gp] ;;
          .for .v (.lit 0) (.mem .nvoi) (
            .st1 .stress_aux (.var .v) (.add (.rd1 .stress_aux (.var .v)) (.mul (.rd1 .stress_gp (.var .v)) (.var .wg))))) ;;
        .for .v (.lit 0) (.mem .nvoi) (
          .st1 .stress_ave (.var .v) (.add (.rd1 .stress_ave (.var .v)) (.rd1 .stress_aux (.var .v))))))) (
    .ite (.eqI (.mem .dim) (.lit 3)) (
      .for .ex (.lit 0) (.sub (.mem .nx) (.lit 1)) (
        .for .ey (.lit 0) (.sub (.mem .ny) (.lit 1)) (
          .for .ez (.lit 0) (.sub (.mem .nz) (.lit 1)) (
            .declV .stress_aux 6 ;;
            .for .i (.lit 0) (.mem .nvoi) (
              .st1 .stress_aux (.var .i) (.lit (nat_lit 0) true (nat_lit 1))) ;;
            .for .gp (.lit 0) (.lit 8) (
              .declV .stress_gp 6 ;;
              .setD .wg (.mul (.mul (.mul (.div (.ofInt (.lit 1)) (.lit (nat_lit 80) true (nat_lit 1))) (.mem .dx)) (.mem .dy)) (.mem .dz)) ;;
              .declV .strain_gp 6 ;;
              .call .get_strain3D [.i (.var .ex), .i (.var .ey), .i (.var .ez), .i (.var .gp), .ref .strain_gp] ;;
              .call .get_stress3D [.i (.var .ex), .i (.var .ey), .i (.var .ez), .i (.var .gp), .ref .strain_gp, .ref .non_linear_flag, .ref .stress_gp] ;;
              .for .v (.lit 0) (.mem .nvoi) (
                .st1 .stress_aux (.var .v) (.add (.rd1 .stress_aux (.var .v)) (.mul (.rd1 .stress_gp (.var .v)) (.var .wg))))) ;;
            .for .v (.lit 0) (.mem .nvoi) (
              .st1 .stress_ave (.var .v) (.add (.rd1 .stress_ave (.var .v)) (.rd1 .stress_aux (.var .v)))))))) (
      .skip)) ;;
  .for .v (.lit 0) (.mem .nvoi) (
    .st1 .stress_ave (.var .v) (.div (.rd1 .stress_ave (.var .v)) (.mul (.mem .lx) (.mem .ly))))

/-- `calc_ave_strain`: /repo/src/assembly.cpp:790-844. -/
def t_calc_ave_strain : Stmt :=
  .for .v (.lit 0) (.mem .nvoi) (
    .st1 .strain_ave (.var .v) (.lit (nat_lit 0) true (nat_lit 1))) ;;
  .ite (.eqI (.mem .dim) (.lit 2)) (
    .for .ex (.lit 0) (.sub (.mem .nx) (.lit 1)) (
      .for .ey (.lit 0) (.sub (.mem .ny) (.lit 1)) (
        .declV .strain_aux 3 ;;
        .for .i (.lit 0) (.mem .nvoi) (
          .st1 .strain_aux (.var .i) (.lit (nat_lit 0) true (nat_lit 1))) ;;
        .for .gp (.lit 0) (.lit 4) (
          .declV .strain_gp 6 ;;
          .setD .wg (.mul (.mul (.lit (nat_lit 25) true (nat_lit 2)) (.mem .dx)) (.mem .dy)) ;;
          .call .get_strain2D [.i (.var .ex), .i (.var .ey), .i (.var .gp), .ref .strain_gp] ;;
          .for .v (.lit 0) (.mem .nvoi) (
            .st1 .strain_aux (.var .v) (.add (.rd1 .strain_aux (.var .v)) (.mul (.rd1 .strain_gp (.var .v)) (.var .wg))))) ;;
        .for .v (.lit 0) (.mem .nvoi) (
          .st1 .strain_ave (.var .v) (.add (.rd1 .strain_ave (.var .v)) (.rd1 .strain_aux (.var .v))))))) (
    .ite (.eqI (.mem .dim) (.lit 3)) (
      .for .ex (.lit 0) (.sub (.mem .nx) (.lit 1)) (
        .for .ey (.lit 0) (.sub (.mem .ny) (.lit 1)) (
          .for .ez (.lit 0) (.sub (.mem .nz) (.lit 1)) (
            .declV .strain_aux 6 ;;
            .for .i (.lit 0) (.mem .nvoi) (
              .st1 .strain_aux (.var .i) (.lit (nat_lit 0) true (nat_lit 1))) ;;
            .for .gp (.lit 0) (.lit 8) (
              .declV .strain_gp 6 ;;
              .setD .wg (.mul (.mul (.mul (.div (.ofInt (.lit 1)) (.lit (nat_lit 80) true (nat_lit 1))) (.mem .dx)) (.mem .dy)) (.mem .dz)) ;;
              .call .get_strain3D [.i (.var .ex), .i (.var .ey), .i (.var .ez), .i (.var .gp), .ref .strain_gp] ;;
              .for .v (.lit 0) (.mem .nvoi) (
                .st1 .strain_aux (.var .v) (.add (.rd1 .strain_aux (.var .v)) (.mul (.rd1 .strain_gp (.var .v)) (.var .wg))))) ;;
            .for .v (.lit 0) (.mem .nvoi) (
              .st1 .strain_ave (.var .v) (.add (.rd1 .strain_ave (.var .v)) (.rd1 .strain_aux (.var .v)))))))) (
      .skip)) ;;
  .for .v (.lit 0) (.mem .nvoi) (
    .st1 .strain_ave (.var .v) (.div (.rd1 .strain_ave (.var .v)) (.mul (.mem .lx) (.mem .ly))))

/-- `calc_fields`: /repo/src/assembly.cpp:846-922. -/
def t_calc_fields : Stmt :=
  .declI .non_linear_flag ;;
  .ite (.eqI (.mem .dim) (.lit 2)) (
    .for .ex (.lit 0) (.sub (.mem .nx) (.lit 1)) (
      .for .ey (.lit 0) (.sub (.mem .ny) (.lit 1)) (
        .declV .strain_aux 3 ;;
        .declV .stress_aux 3 ;;
        .for .i (.lit 0) (.mem .nvoi) (
          .st1 .strain_aux (.var .i) (.lit (nat_lit 0) true (nat_lit 1)) ;;
          .st1 .stress_aux (.var .i) (.lit (nat_lit 0) true (nat_lit 1))) ;;
        .for .gp (.lit 0) (.lit 4) (
          .declV .stress_gp 3 ;;
          .declV .strain_gp 3 ;;
          .setD .wg (.mul (.mul (.lit (nat_lit 25) true (nat_lit 2)) (.mem .dx)) (.mem .dy)) ;;
          .call .get_strain2D [.i (.var .ex), .i (.var .ey), .i (.var .gp), .ref .strain_gp] ;;
          .call .get_stress2D [.i (.var .ex), .i (.var .ey), .i (.var .gp), .ref .strain_gp, .ref .non_linear_flag, .ref .stress_gp] ;;
          .for .v (.lit 0) (.mem .nvoi) (
            .st1 .strain_aux (.var .v) (.add (.rd1 .strain_aux (.var .v)) (.mul (.rd1 .strain_gp (.var .v)) (.var .wg))) ;;
            .st1 .stress_aux (.var .v) (.add (.rd1 .stress_aux (.var .v)) (.mul (.rd1 .stress_gp (.var .v)) (.var .wg))))) ;;
        .setD .vol (.mul (.mem .dx) (.mem .dy)) ;;
        .setI .e (.add (.add (.mul (.mul (.lit 0) (.sub (.mem .nx) (.lit 1))) (.sub (.mem .ny) (.lit 1))) (.mul (.var .ey) (.sub (.mem .nx) (.lit 1)))) (.var .ex)) ;;
        .for .v (.lit 0) (.mem .nvoi) (
          .memSt .elem_strain (.add (.mul (.var .e) (.mem .nvoi)) (.var .v)) (.div (.rd1 .strain_aux (.var .v)) (.var .vol)) ;;
          .memSt .elem_stress (.add (.mul (.var .e) (.mem .nvoi)) (.var .v)) (.div (.rd1 .stress_aux (.var .v)) (.var .vol)))))) (
    .ite (.eqI (.mem .dim) (.lit 3)) (
      .for .ex (.lit 0) (.sub (.mem .nx) (.lit 1)) (
        .for .ey (.lit 0) (.sub (.mem .ny) (.lit 1)) (
          .for .ez (.lit 0) (.sub (.mem .nz) (.lit 1)) (
            .declV .strain_aux 6 ;;
            .declV .stress_aux 6 ;;
            .for .i (.lit 0) (.mem .nvoi) (
              .st1 .strain_aux (.var .i) (.lit (nat_lit 0) true (nat_lit 1)) ;;
              .st1 .stress_aux (.var .i) (.lit (nat_lit 0) true (nat_lit 1))) ;;
            .for .gp (.lit 0) (.lit 8) (
              .declV .stress_gp 6 ;;
              .declV .strain_gp 6 ;;
              .setD .wg (.mul (.mul (.mul (.div (.ofInt (.lit 1)) (.lit (nat_lit 80) true (nat_lit 1))) (.mem .dx)) (.mem .dy)) (.mem .dz)) ;;
              .call .get_strain3D [.i (.var .ex), .i (.var .ey), .i (.var .ez), .i (.var .gp), .ref .strain_gp] ;;
              .call .get_stress3D [.i (.var .ex), .i (.var .ey), .i (.var .ez), .i (.var .gp), .ref .strain_gp, .ref .non_linear_flag, .ref .stress_gp] ;;
              .for .v (.lit 0) (.mem .nvoi) (
                .st1 .strain_aux (.var .v) (.add (.rd1 .strain_aux (.var .v)) (.mul (.rd1 .strain_gp (.var .v)) (.var .wg))) ;;
                .st1 .stress_aux (.var .v) (.add (.rd1 .stress_aux (.var .v)) (.mul (.rd1 .stress_gp (.var .v)) (.var .wg))))) ;;
            .setD .vol (.mul (.mul (.mem .dx) (.mem .dy)) (.mem .dz)) ;;
            .setI .e (.add (.add (.mul (.mul (.var .ez) (.sub (.mem .nx) (.lit 1))) (.sub (.mem .ny) (.lit 1))) (.mul (.var .ey) (.sub (.mem .nx) (.lit 1)))) (.var .ex)) ;;
            .for .v (.lit 0) (.mem .nvoi) (
              .memSt .elem_strain (.add (.mul (.var .e) (.mem .nvoi)) (.var .v)) (.div (.rd1 .strain_aux (.var .v)) (.var .vol)) ;;
              .memSt .elem_stress (.add (.mul (.var .e) (.mem .nvoi)) (.var .v)) (.div (.rd1 .stress_aux (.var .v)) (.var .vol))))))) (
      .skip))

/-- `get_stress2D`: /repo/src/assembly.cpp:924-961. -/
def t_get_stress2D : Stmt :=
  .setI .non_linear (.lit 0) ;;
  .declD .nu ;;
  .declD .E ;;
  .declM .ctan 3 3 ;;
  .declI .plasticity ;;
  .setI .e (.add (.add (.mul (.mul (.lit 0) (.sub (.mem .nx) (.lit 1))) (.sub (.mem .ny) (.lit 1))) (.mul (.var .ey) (.sub (.mem .nx) (.lit 1)))) (.var .ex)) ;;
  .declMat ;;
  .call .get_material [.i (.var .e), .mat] ;;
  .setD .E (.var .material_E) ;;
  .setD .nu (.var .material_nu) ;;
  .setI .plasticity (.var .material_plasticity) ;;
  .st2 .ctan (.lit 0) (.lit 0) (.sub (.ofInt (.lit 1)) (.var .nu)) ;;
  .st2 .ctan (.lit 0) (.lit 1) (.var .nu) ;;
  .st2 .ctan (.lit 0) (.lit 2) (.ofInt (.lit 0)) ;;
  .st2 .ctan (.lit 1) (.lit 0) (.var .nu) ;;
  .st2 .ctan (.lit 1) (.lit 1) (.sub (.ofInt (.lit 1)) (.var .nu)) ;;
  .st2 .ctan (.lit 1) (.lit 2) (.ofInt (.lit 0)) ;;
  .st2 .ctan (.lit 2) (.lit 0) (.ofInt (.lit 0)) ;;
  .st2 .ctan (.lit 2) (.lit 1) (.ofInt (.lit 0)) ;;
  .st2 .ctan (.lit 2) (.lit 2) (.div (.sub (.ofInt (.lit 1)) (.mul (.ofInt (.lit 2)) (.var .nu))) (.ofInt (.lit 2))) ;;
  .for .i (.lit 0) (.mem .nvoi) (
    .for .j (.lit 0) (.mem .nvoi) (
      .st2 .ctan (.var .i) (.var .j) (.mul (.rd2 .ctan (.var .i) (.var .j)) (.div (.var .E) (.mul (.add (.ofInt (.lit 1)) (.var .nu)) (.sub (.ofInt (.lit 1)) (.mul (.ofInt (.lit 2)) (.var .nu)))))))) ;;
  .for .i (.lit 0) (.lit 3) (
    .st1 .stress_gp (.var .i) (.lit (nat_lit 0) true (nat_lit 1)) ;;
    .for .j (.lit 0) (.lit 3) (
      .st1 .stress_gp (.var .i) (.add (.rd1 .stress_gp (.var .i)) (.mul (.rd2 .ctan (.var .i) (.var .j)) (.rd1 .strain_gp (.var .j))))))

/-- `get_dev_tensor`: /repo/src/assembly.cpp:963-970. -/
def t_get_dev_tensor : Stmt :=
  .for .i (.lit 0) (.lit 6) (
    .st1 .tensor_dev (.var .i) (.rd1 .tensor (.var .i))) ;;
  .for .i (.lit 0) (.lit 3) (
    .st1 .tensor_dev (.var .i) (.sub (.rd1 .tensor_dev (.var .i)) (.mul (.div (.ofInt (.lit 1)) (.lit (nat_lit 30) true (nat_lit 1))) (.add (.add (.rd1 .tensor (.lit 0)) (.rd1 .tensor (.lit 1))) (.rd1 .tensor (.lit 2))))))

/-- `get_stress3D`: /repo/src/assembly.cpp:972-1005. -/
def t_get_stress3D : Stmt :=
  .setI .non_linear (.lit 0) ;;
  .declM .ctan 6 6 ;;
  .setI .e (.add (.add (.mul (.mul (.var .ez) (.sub (.mem .nx) (.lit 1))) (.sub (.mem .ny) (.lit 1))) (.mul (.var .ey) (.sub (.mem .nx) (.lit 1)))) (.var .ex)) ;;
  .declMat ;;
  .call .get_material [.i (.var .e), .mat] ;;
  .ite (.eqI (.var .material_plasticity) (.lit 1)) (
    .declD .alpha_old ;;
    .declD .alpha_new ;;
    .declV .eps_p_old 6 ;;
    .declV .eps_p_new 6 ;;
    .for .i (.lit 0) (.lit 6) (
      .st1 .eps_p_old (.var .i) (.memRd .vars_old (.add (.add (.mul (.mul (.var .e) (.lit 8)) (.lit 7)) (.mul (.var .gp) (.lit 7))) (.var .i)))) ;;
    .setD .alpha_old (.memRd .vars_old (.add (.add (.mul (.mul (.var .e) (.lit 8)) (.lit 7)) (.mul (.var .gp) (.lit 7))) (.lit 6))) ;;
    .call .plastic_step [.mat, .ref .eps, .ref .eps_p_old, .d (.var .alpha_old), .ref .eps_p_new, .ref .alpha_new, .ref .non_linear, .ref .stress_gp] ;;
    .for .i (.lit 0) (.lit 6) (
      .memSt .vars_new (.add (.add (.mul (.mul (.var .e) (.lit 8)) (.lit 7)) (.mul (.var .gp) (.lit 7))) (.var .i)) (.rd1 .eps_p_new (.var .i))) ;;
    .memSt .vars_new (.add (.add (.mul (.mul (.var .e) (.lit 8)) (.lit 7)) (.mul (.var .gp) (.lit 7))) (.lit 6)) (.var .alpha_new)) (
    .for .i (.lit 0) (.lit 3) (
      .st1 .stress_gp (.var .i) (.mul (.var .material_lam) (.add (.add (.rd1 .eps (.lit 0)) (.rd1 .eps (.lit 1))) (.rd1 .eps (.lit 2)))) ;;
      .st1 .stress_gp (.var .i) (.add (.rd1 .stress_gp (.var .i)) (.mul (.mul (.ofInt (.lit 2)) (.var .material_mu)) (.rd1 .eps (.var .i))))) ;;
    .for .i (.lit 3) (.lit 6) (
      .st1 .stress_gp (.var .i) (.mul (.var .material_mu) (.rd1 .eps (.var .i)))))

/-- `plastic_step`: /repo/src/assembly.cpp:1007-1062. -/
def t_plastic_step : Stmt :=
  .declV .eps_dev 6 ;;
  .declV .eps_p_dev_1 6 ;;
  .initV .normal [(.lit (nat_lit 0) true (nat_lit 1)), (.lit (nat_lit 0) true (nat_lit 1)), (.lit (nat_lit 0) true (nat_lit 1)), (.lit (nat_lit 0) true (nat_lit 1)), (.lit (nat_lit 0) true (nat_lit 1)), (.lit (nat_lit 0) true (nat_lit 1))] ;;
  .setD .dl (.lit (nat_lit 0) true (nat_lit 1)) ;;
  .declV .sig_dev_trial 6 ;;
  .declD .sig_dev_trial_norm ;;
  .call .get_dev_tensor [.ref .eps_p_old, .ref .eps_p_dev_1] ;;
  .call .get_dev_tensor [.ref .eps, .ref .eps_dev] ;;
  .for .i (.lit 0) (.lit 3) (
    .st1 .sig_dev_trial (.var .i) (.mul (.mul (.ofInt (.lit 2)) (.var .material_mu)) (.sub (.rd1 .eps_dev (.var .i)) (.rd1 .eps_p_dev_1 (.var .i))))) ;;
  .for .i (.lit 3) (.lit 6) (
    .st1 .sig_dev_trial (.var .i) (.mul (.var .material_mu) (.sub (.rd1 .eps_dev (.var .i)) (.rd1 .eps_p_dev_1 (.var .i))))) ;;
  .setD .sig_dev_trial_norm (.sqrt (.add (.add (.add (.add (.add (.mul (.rd1 .sig_dev_trial (.lit 0)) (.rd1 .sig_dev_trial (.lit 0))) (.mul (.rd1 .sig_dev_trial (.lit 1)) (.rd1 .sig_dev_trial (.lit 1)))) (.mul (.rd1 .sig_dev_trial (.lit 2)) (.rd1 .sig_dev_trial (.lit 2)))) (.mul (.mul (.ofInt (.lit 2)) (.rd1 .sig_dev_trial (.lit 3))) (.rd1 .sig_dev_trial (.lit 3)))) (.mul (.mul (.ofInt (.lit 2)) (.rd1 .sig_dev_trial (.lit 4))) (.rd1 .sig_dev_trial (.lit 4)))) (.mul (.mul (.ofInt (.lit 2)) (.rd1 .sig_dev_trial (.lit 5))) (.rd1 .sig_dev_trial (.lit 5))))) ;;
  .setD .f_trial (.sub (.var .sig_dev_trial_norm) (.mul (.sqrt (.div (.lit (nat_lit 20) true (nat_lit 1)) (.ofInt (.lit 3)))) (.add (.var .material_Sy) (.mul (.var .material_Ka) (.var .alpha_old))))) ;;
  .ite (.ltD (.ofInt (.lit 0)) (.var .f_trial)) (
    .setI .non_linear (.lit 1) ;;
    .for .i (.lit 0) (.lit 6) (
      .st1 .normal (.var .i) (.div (.rd1 .sig_dev_trial (.var .i)) (.var .sig_dev_trial_norm))) ;;
    .setD .dl (.div (.var .f_trial) (.mul (.mul (.ofInt (.lit 2)) (.var .material_mu)) (.add (.lit (nat_lit 10) true (nat_lit 1)) (.div (.mul (.lit (nat_lit 0) true (nat_lit 1)) (.var .material_Ka)) (.mul (.ofInt (.lit 3)) (.var .material_mu)))))) ;;
    .for .i (.lit 0) (.lit 6) (
      .st1 .eps_p_new (.var .i) (.add (.rd1 .eps_p_old (.var .i)) (.mul (.var .dl) (.rd1 .normal (.var .i))))) ;;
    .setD .alpha_new (.add (.var .alpha_old) (.mul (.sqrt (.div (.lit (nat_lit 20) true (nat_lit 1)) (.ofInt (.lit 3)))) (.var .dl)))) (
    .for .i (.lit 0) (.lit 6) (
      .st1 .eps_p_new (.var .i) (.rd1 .eps_p_old (.var .i))) ;;
    .setD .alpha_new (.var .alpha_old)) ;;
  .for .i (.lit 0) (.lit 6) (
    .st1 .stress (.var .i) (.rd1 .sig_dev_trial (.var .i))) ;;
  .for .i (.lit 0) (.lit 3) (
    .st1 .stress (.var .i) (.add (.rd1 .stress (.var .i)) (.mul (.var .material_k) (.add (.add (.rd1 .eps (.lit 0)) (.rd1 .eps (.lit 1))) (.rd1 .eps (.lit 2)))))) ;;
  .for .i (.lit 0) (.lit 6) (
    .st1 .stress (.var .i) (.sub (.rd1 .stress (.var .i)) (.mul (.mul (.mul (.ofInt (.lit 2)) (.var .material_mu)) (.var .dl)) (.rd1 .normal (.var .i)))))

/-- `get_material`: /repo/src/assembly.cpp:1064-1087. -/
def t_get_material : Stmt :=
  .declI .mat_num ;;
  .ite (.eqI (.mem .micro_type) (.lit 0)) (
    .ite (.eqI (.elemType (.var .e)) (.lit 0)) (
      .setI .mat_num (.lit 0)) (
      .setI .mat_num (.lit 1))) (
    .ite (.eqI (.mem .micro_type) (.lit 1)) (
      .ite (.eqI (.elemType (.var .e)) (.lit 0)) (
        .setI .mat_num (.lit 0)) (
        .setI .mat_num (.lit 1))) (
      .skip)) ;;
  .setD .material_E (.mat (.var .mat_num) .E) ;;
  .setD .material_nu (.mat (.var .mat_num) .nu) ;;
  .setD .material_Sy (.mat (.var .mat_num) .Sy) ;;
  .setD .material_Ka (.mat (.var .mat_num) .Ka) ;;
  .setD .material_mu (.mat (.var .mat_num) .mu) ;;
  .setD .material_k (.mat (.var .mat_num) .k) ;;
  .setD .material_lam (.mat (.var .mat_num) .lam) ;;
  .setI .material_plasticity (.matPlasticity (.var .mat_num))

/-- `get_strain2D`: /repo/src/assembly.cpp:1089-1127. -/
def t_get_strain2D : Stmt :=
  .declV .elem_disp 8 ;;
  .call .getElemDisp2 [.i (.var .ex), .i (.var .ey), .ref .elem_disp] ;;
  .initM .xg 2 [[(.neg (.lit (nat_lit 577350269189626) true (nat_lit 15))), (.neg (.lit (nat_lit 577350269189626) true (nat_lit 15)))],
      [(.lit (nat_lit 577350269189626) true (nat_lit 15)), (.neg (.lit (nat_lit 577350269189626) true (nat_lit 15)))],
      [(.lit (nat_lit 577350269189626) true (nat_lit 15)), (.lit (nat_lit 577350269189626) true (nat_lit 15))],
      [(.neg (.lit (nat_lit 577350269189626) true (nat_lit 15))), (.lit (nat_lit 577350269189626) true (nat_lit 15))]] ;;
  .declM .dsh 4 2 ;;
  .declM .bmat 3 8 ;;
  .declM .cxb 3 8 ;;
  .st2 .dsh (.lit 0) (.lit 0) (.div (.mul (.div (.neg (.sub (.ofInt (.lit 1)) (.rd2 .xg (.var .gp) (.lit 1)))) (.ofInt (.lit 4))) (.ofInt (.lit 2))) (.mem .dx)) ;;
  .st2 .dsh (.lit 0) (.lit 1) (.div (.mul (.div (.neg (.sub (.ofInt (.lit 1)) (.rd2 .xg (.var .gp) (.lit 0)))) (.ofInt (.lit 4))) (.ofInt (.lit 2))) (.mem .dy)) ;;
  .st2 .dsh (.lit 1) (.lit 0) (.div (.mul (.div (.sub (.ofInt (.lit 1)) (.rd2 .xg (.var .gp) (.lit 1))) (.ofInt (.lit 4))) (.ofInt (.lit 2))) (.mem .dx)) ;;
  .st2 .dsh (.lit 1) (.lit 1) (.div (.mul (.div (.neg (.add (.ofInt (.lit 1)) (.rd2 .xg (.var .gp) (.lit 0)))) (.ofInt (.lit 4))) (.ofInt (.lit 2))) (.mem .dy)) ;;
  .st2 .dsh (.lit 2) (.lit 0) (.div (.mul (.div (.add (.ofInt (.lit 1)) (.rd2 .xg (.var .gp) (.lit 1))) (.ofInt (.lit 4))) (.ofInt (.lit 2))) (.mem .dx)) ;;
  .st2 .dsh (.lit 2) (.lit 1) (.div (.mul (.div (.add (.ofInt (.lit 1)) (.rd2 .xg (.var .gp) (.lit 0))) (.ofInt (.lit 4))) (.ofInt (.lit 2))) (.mem .dy)) ;;
  .st2 .dsh (.lit 3) (.lit 0) (.div (.mul (.div (.neg (.add (.ofInt (.lit 1)) (.rd2 .xg (.var .gp) (.lit 1)))) (.ofInt (.lit 4))) (.ofInt (.lit 2))) (.mem .dx)) ;;
  .st2 .dsh (.lit 3) (.lit 1) (.div (.mul (.div (.sub (.ofInt (.lit 1)) (.rd2 .xg (.var .gp) (.lit 0))) (.ofInt (.lit 4))) (.ofInt (.lit 2))) (.mem .dy)) ;;
  .for .i (.lit 0) (.lit 4) (
    .st2 .bmat (.lit 0) (.mul (.var .i) (.mem .dim)) (.rd2 .dsh (.var .i) (.lit 0)) ;;
    .st2 .bmat (.lit 0) (.add (.mul (.var .i) (.mem .dim)) (.lit 1)) (.ofInt (.lit 0)) ;;
    .st2 .bmat (.lit 1) (.mul (.var .i) (.mem .dim)) (.ofInt (.lit 0)) ;;
    .st2 .bmat (.lit 1) (.add (.mul (.var .i) (.mem .dim)) (.lit 1)) (.rd2 .dsh (.var .i) (.lit 1)) ;;
    .st2 .bmat (.lit 2) (.mul (.var .i) (.mem .dim)) (.rd2 .dsh (.var .i) (.lit 1)) ;;
    .st2 .bmat (.lit 2) (.add (.mul (.var .i) (.mem .dim)) (.lit 1)) (.rd2 .dsh (.var .i) (.lit 0))) ;;
  .for .v (.lit 0) (.mem .nvoi) (
    .st1 .strain_gp (.var .v) (.lit (nat_lit 0) true (nat_lit 1)) ;;
    .for .i (.lit 0) (.mul (.mem .npe) (.mem .dim)) (
      .st1 .strain_gp (.var .v) (.add (.rd1 .strain_gp (.var .v)) (.mul (.rd2 .bmat (.var .v) (.var .i)) (.rd1 .elem_disp (.var .i))))))

/-- `get_strain3D`: /repo/src/assembly.cpp:1129-1144. -/
def t_get_strain3D : Stmt :=
  .declV .elem_disp 24 ;;
  .call .getElemDisp3 [.i (.var .ex), .i (.var .ey), .i (.var .ez), .ref .elem_disp] ;;
  .declM .bmat 6 24 ;;
  .call .calc_bmat_3D [.i (.var .gp), .ref .bmat] ;;
  .for .v (.lit 0) (.mem .nvoi) (
    .st1 .strain_gp (.var .v) (.lit (nat_lit 0) true (nat_lit 1)) ;;
    .for .i (.lit 0) (.mul (.mem .npe) (.mem .dim)) (
      .st1 .strain_gp (.var .v) (.add (.rd1 .strain_gp (.var .v)) (.mul (.rd2 .bmat (.var .v) (.var .i)) (.rd1 .elem_disp (.var .i))))))

/-- `getElemDisp2`: /repo/src/assembly.cpp:1146-1159. -/
def t_getElemDisp2 : Stmt :=
  .setI .n0 (.add (.mul (.var .ey) (.mem .nx)) (.var .ex)) ;;
  .setI .n1 (.add (.add (.mul (.var .ey) (.mem .nx)) (.var .ex)) (.lit 1)) ;;
  .setI .n2 (.add (.add (.mul (.add (.var .ey) (.lit 1)) (.mem .nx)) (.var .ex)) (.lit 1)) ;;
  .setI .n3 (.add (.mul (.add (.var .ey) (.lit 1)) (.mem .nx)) (.var .ex)) ;;
  .for .d (.lit 0) (.mem .dim) (
    .st1 .elem_disp (.add (.mul (.lit 0) (.mem .dim)) (.var .d)) (.memRd .u (.add (.mul (.var .n0) (.mem .dim)) (.var .d))) ;;
    .st1 .elem_disp (.add (.mul (.lit 1) (.mem .dim)) (.var .d)) (.memRd .u (.add (.mul (.var .n1) (.mem .dim)) (.var .d))) ;;
    .st1 .elem_disp (.add (.mul (.lit 2) (.mem .dim)) (.var .d)) (.memRd .u (.add (.mul (.var .n2) (.mem .dim)) (.var .d))) ;;
    .st1 .elem_disp (.add (.mul (.lit 3) (.mem .dim)) (.var .d)) (.memRd .u (.add (.mul (.var .n3) (.mem .dim)) (.var .d))))

/-- `getElemDisp3`: /repo/src/assembly.cpp:1161-1182. -/
def t_getElemDisp3 : Stmt :=
  .setI .n0 (.add (.add (.mul (.var .ez) (.mul (.mem .nx) (.mem .ny))) (.mul (.var .ey) (.mem .nx))) (.var .ex)) ;;
  .setI .n1 (.add (.add (.add (.mul (.var .ez) (.mul (.mem .nx) (.mem .ny))) (.mul (.var .ey) (.mem .nx))) (.var .ex)) (.lit 1)) ;;
  .setI .n2 (.add (.add (.add (.mul (.var .ez) (.mul (.mem .nx) (.mem .ny))) (.mul (.add (.var .ey) (.lit 1)) (.mem .nx))) (.var .ex)) (.lit 1)) ;;
  .setI .n3 (.add (.add (.mul (.var .ez) (.mul (.mem .nx) (.mem .ny))) (.mul (.add (.var .ey) (.lit 1)) (.mem .nx))) (.var .ex)) ;;
  .setI .n4 (.add (.var .n0) (.mul (.mem .nx) (.mem .ny))) ;;
  .setI .n5 (.add (.var .n1) (.mul (.mem .nx) (.mem .ny))) ;;
  .setI .n6 (.add (.var .n2) (.mul (.mem .nx) (.mem .ny))) ;;
  .setI .n7 (.add (.var .n3) (.mul (.mem .nx) (.mem .ny))) ;;
  .for .d (.lit 0) (.mem .dim) (
    .st1 .elem_disp (.add (.mul (.lit 0) (.mem .dim)) (.var .d)) (.memRd .u (.add (.mul (.var .n0) (.mem .dim)) (.var .d))) ;;
    .st1 .elem_disp (.add (.mul (.lit 1) (.mem .dim)) (.var .d)) (.memRd .u (.add (.mul (.var .n1) (.mem .dim)) (.var .d))) ;;
    .st1 .elem_disp (.add (.mul (.lit 2) (.mem .dim)) (.var .d)) (.memRd .u (.add (.mul (.var .n2) (.mem .dim)) (.var .d))) ;;
    .st1 .elem_disp (.add (.mul (.lit 3) (.mem .dim)) (.var .d)) (.memRd .u (.add (.mul (.var .n3) (.mem .dim)) (.var .d))) ;;
    .st1 .elem_disp (.add (.mul (.lit 4) (.mem .dim)) (.var .d)) (.memRd .u (.add (.mul (.var .n4) (.mem .dim)) (.var .d))) ;;
    .st1 .elem_disp (.add (.mul (.lit 5) (.mem .dim)) (.var .d)) (.memRd .u (.add (.mul (.var .n5) (.mem .dim)) (.var .d))) ;;
    .st1 .elem_disp (.add (.mul (.lit 6) (.mem .dim)) (.var .d)) (.memRd .u (.add (.mul (.var .n6) (.mem .dim)) (.var .d))) ;;
    .st1 .elem_disp (.add (.mul (.lit 7) (.mem .dim)) (.var .d)) (.memRd .u (.add (.mul (.var .n7) (.mem .dim)) (.var .d))))

/-- `solve`: /repo/src/solve.cpp:32-44. -/
def t_solve : Stmt :=
  .declSolver ;;
  .setI .solver_max_its (.lit 2000) ;;
  .setD .solver_min_tol (.lit (nat_lit 10) true (nat_lit 9)) ;;
  .ite (.eqI (.mem .dim) (.lit 2)) (
    .call .ell_solve_cgpd_2D [.solver, .A, .i (.mem .dim), .i (.mem .nx), .i (.mem .ny), .mem .b, .mem .du]) (
    .ite (.eqI (.mem .dim) (.lit 3)) (
      .call .ell_solve_cgpd_struct [.solver, .A, .i (.mem .dim), .i (.mem .dim), .i (.mem .nn), .mem .b, .mem .du]) (
      .skip))

/-- `ell_set_zero_mat`: /repo/src/ell.cpp:40-46. -/
def t_ell_set_zero_mat : Stmt :=
  .for .i (.lit 0) (.var .m_nrow) (
    .for .j (.lit 0) (.var .m_nnz) (
      .st1 .m_vals (.add (.mul (.var .i) (.var .m_nnz)) (.var .j)) (.lit (nat_lit 0) true (nat_lit 1)))) ;;
  .setI .ret (.lit 0)

/-- `ell_mvp_2D`: /repo/src/ell.cpp:48-56. -/
def t_ell_mvp_2D : Stmt :=
  .for .i (.lit 0) (.var .m_nrow) (
    .st1 .y (.var .i) (.ofInt (.lit 0)) ;;
    .for .j (.lit 0) (.var .m_nnz) (
      .st1 .y (.var .i) (.add (.rd1 .y (.var .i)) (.mul (.rd1 .m_vals (.add (.mul (.var .i) (.var .m_nnz)) (.var .j))) (.rd1 .x (.rd .m_cols (.add (.mul (.var .i) (.var .m_nnz)) (.var .j))))))))

/-- `ell_solve_jacobi_2D`: /repo/src/ell.cpp:58-114. -/
def t_ell_solve_jacobi_2D : Stmt :=
  .malloc .k (.var .m_nrow) ;;
  .malloc .e_i (.var .m_nrow) ;;
  .setI .nn (.mul (.var .nx) (.var .ny)) ;;
  .for .i (.lit 0) (.var .nn) (
    .for .d (.lit 0) (.var .nFields) (
      .st1 .k (.add (.mul (.var .i) (.var .nFields)) (.var .d)) (.div (.ofInt (.lit 1)) (.rd1 .m_vals (.add (.add (.add (.mul (.mul (.var .i) (.var .nFields)) (.var .m_nnz)) (.mul (.lit 4) (.var .nFields))) (.mul (.var .d) (.var .m_nnz))) (.var .d)))))) ;;
  .setI .its (.lit 0) ;;
  .setI .max_its (.var .solver_max_its) ;;
  .declD .err ;;
  .setD .min_tol (.var .solver_min_tol) ;;
  .ite (.ltI (.var .its) (.var .max_its)) (
    .doW (.var .max_its) (
    .setD .err (.ofInt (.lit 0)) ;;
    .setI .i (.lit 0) ;;
    .for .i (.var .i) (.var .m_nrow) (
      .setD .aux (.lit (nat_lit 0) true (nat_lit 1)) ;;
      .setI .j (.lit 0) ;;
      .ite (.ltI (.var .j) (.var .m_nnz)) (
        .doW (.var .m_nnz) (
        .skip) (.eqI (.rd .m_cols (.add (.mul (.var .i) (.var .m_nnz)) (.var .j))) (.lit (-1))) (
        .ite (.eqI (.rd .m_cols (.add (.mul (.var .i) (.var .m_nnz)) (.var .j))) (.var .i)) (
        .skip) (
          .setD .aux (.add (.var .aux) (.mul (.rd1 .m_vals (.add (.mul (.var .i) (.var .m_nnz)) (.var .j))) (.rd1 .x (.rd .m_cols (.add (.mul (.var .i) (.var .m_nnz)) (.var .j))))))) ;;
        .setI .j (.add (.var .j) (.lit 1))) (.ltI (.var .j) (.var .m_nnz))) .skip ;;
      .st1 .x (.var .i) (.mul (.rd1 .k (.var .i)) (.add (.mul (.ofInt (.lit (-1))) (.var .aux)) (.rd1 .b (.var .i))))) ;;
    .setD .err (.ofInt (.lit 0)) ;;
    .call .ell_mvp_2D [.ell, .ref .x, .ref .e_i] ;;
    .for .i (.lit 0) (.var .m_nrow) (
      .st1 .e_i (.var .i) (.sub (.rd1 .e_i (.var .i)) (.rd1 .b (.var .i))) ;;
      .setD .err (.add (.var .err) (.mul (.rd1 .e_i (.var .i)) (.rd1 .e_i (.var .i))))) ;;
    .setD .err (.sqrt (.var .err))) (.ltD (.var .err) (.var .min_tol)) (
    .setI .its (.add (.var .its) (.lit 1))) (.ltI (.var .its) (.var .max_its))) .skip ;;
  .setD .solver_err (.var .err) ;;
  .setI .solver_its (.var .its) ;;
  .setI .ret (.lit 0)

/-- `ell_solve_cgpd_2D`: /repo/src/ell.cpp:116-205. -/
def t_ell_solve_cgpd_2D : Stmt :=
  .setI .its (.lit 0) ;;
  .malloc .k (.var .m_nrow) ;;
  .malloc .r (.var .m_nrow) ;;
  .malloc .z (.var .m_nrow) ;;
  .malloc .p (.var .m_nrow) ;;
  .malloc .q (.var .m_nrow) ;;
  .declD .rho_0 ;;
  .declD .rho_1 ;;
  .declD .d ;;
  .declD .err ;;
  .setI .nn (.mul (.var .nx) (.var .ny)) ;;
  .for .i (.lit 0) (.var .nn) (
    .for .d (.lit 0) (.var .nFields) (
      .st1 .k (.add (.mul (.var .i) (.var .nFields)) (.var .d)) (.div (.ofInt (.lit 1)) (.rd1 .m_vals (.add (.add (.add (.mul (.mul (.var .i) (.var .nFields)) (.var .m_nnz)) (.mul (.lit 4) (.var .nFields))) (.mul (.var .d) (.var .m_nnz))) (.var .d)))))) ;;
  .call .ell_mvp_2D [.ell, .ref .x, .ref .r] ;;
  .for .i (.lit 0) (.var .m_nrow) (
    .st1 .r (.var .i) (.sub (.rd1 .r (.var .i)) (.rd1 .b (.var .i)))) ;;
  .doW (.var .solver_max_its) (
    .setD .err (.ofInt (.lit 0)) ;;
    .for .i (.lit 0) (.var .m_nrow) (
      .setD .err (.add (.var .err) (.mul (.rd1 .r (.var .i)) (.rd1 .r (.var .i))))) ;;
    .setD .err (.sqrt (.var .err))) (.ltD (.var .err) (.var .solver_min_tol)) (
    .for .i (.lit 0) (.var .m_nrow) (
      .st1 .z (.var .i) (.mul (.rd1 .k (.var .i)) (.rd1 .r (.var .i)))) ;;
    .setD .rho_1 (.lit (nat_lit 0) true (nat_lit 1)) ;;
    .for .i (.lit 0) (.var .m_nrow) (
      .setD .rho_1 (.add (.var .rho_1) (.mul (.rd1 .r (.var .i)) (.rd1 .z (.var .i))))) ;;
    .ite (.eqI (.var .its) (.lit 0)) (
      .for .i (.lit 0) (.var .m_nrow) (
        .st1 .p (.var .i) (.rd1 .z (.var .i)))) (
      .setD .beta (.div (.var .rho_1) (.var .rho_0)) ;;
      .for .i (.lit 0) (.var .m_nrow) (
        .st1 .p (.var .i) (.add (.rd1 .z (.var .i)) (.mul (.var .beta) (.rd1 .p (.var .i)))))) ;;
    .call .ell_mvp_2D [.ell, .ref .p, .ref .q] ;;
    .setD .aux (.ofInt (.lit 0)) ;;
    .for .i (.lit 0) (.var .m_nrow) (
      .setD .aux (.add (.var .aux) (.mul (.rd1 .p (.var .i)) (.rd1 .q (.var .i))))) ;;
    .setD .d (.div (.var .rho_1) (.var .aux)) ;;
    .for .i (.lit 0) (.var .m_nrow) (
      .st1 .x (.var .i) (.sub (.rd1 .x (.var .i)) (.mul (.var .d) (.rd1 .p (.var .i)))) ;;
      .st1 .r (.var .i) (.sub (.rd1 .r (.var .i)) (.mul (.var .d) (.rd1 .q (.var .i))))) ;;
    .setD .rho_0 (.var .rho_1) ;;
    .setI .its (.add (.var .its) (.lit 1))) (.ltI (.var .its) (.var .solver_max_its)) ;;
  .setD .solver_err (.var .err) ;;
  .setI .solver_its (.var .its) ;;
  .free .k ;;
  .free .r ;;
  .free .z ;;
  .free .p ;;
  .free .q ;;
  .setI .ret (.lit 0)

/-- `ell_solve_cgpd_struct`: /repo/src/ell.cpp:207-300. -/
def t_ell_solve_cgpd_struct : Stmt :=
  .setI .its (.lit 0) ;;
  .malloc .k (.var .m_nrow) ;;
  .malloc .r (.var .m_nrow) ;;
  .malloc .z (.var .m_nrow) ;;
  .malloc .p (.var .m_nrow) ;;
  .malloc .q (.var .m_nrow) ;;
  .declD .rho_0 ;;
  .declD .rho_1 ;;
  .declD .d ;;
  .declD .err ;;
  .ite (.eqI (.var .dim) (.lit 2)) (
    .for .i (.lit 0) (.var .nn) (
      .for .d (.lit 0) (.var .nFields) (
        .st1 .k (.add (.mul (.var .i) (.var .nFields)) (.var .d)) (.div (.ofInt (.lit 1)) (.rd1 .m_vals (.add (.add (.add (.mul (.mul (.var .i) (.var .nFields)) (.var .m_nnz)) (.mul (.lit 4) (.var .nFields))) (.mul (.var .d) (.var .m_nnz))) (.var .d))))))) (
    .ite (.eqI (.var .dim) (.lit 3)) (
      .for .i (.lit 0) (.var .nn) (
        .for .d (.lit 0) (.var .nFields) (
          .st1 .k (.add (.mul (.var .i) (.var .nFields)) (.var .d)) (.div (.ofInt (.lit 1)) (.rd1 .m_vals (.add (.add (.add (.mul (.mul (.var .i) (.var .nFields)) (.var .m_nnz)) (.mul (.lit 13) (.var .nFields))) (.mul (.var .d) (.var .m_nnz))) (.var .d))))))) (
      .skip)) ;;
  .call .ell_mvp_2D [.ell, .ref .x, .ref .r] ;;
  .for .i (.lit 0) (.var .m_nrow) (
    .st1 .r (.var .i) (.sub (.rd1 .r (.var .i)) (.rd1 .b (.var .i)))) ;;
  .doW (.var .solver_max_its) (
    .setD .err (.ofInt (.lit 0)) ;;
    .for .i (.lit 0) (.var .m_nrow) (
      .setD .err (.add (.var .err) (.mul (.rd1 .r (.var .i)) (.rd1 .r (.var .i))))) ;;
    .setD .err (.sqrt (.var .err))) (.ltD (.var .err) (.var .solver_min_tol)) (
    .for .i (.lit 0) (.var .m_nrow) (
      .st1 .z (.var .i) (.mul (.rd1 .k (.var .i)) (.rd1 .r (.var .i)))) ;;
    .setD .rho_1 (.lit (nat_lit 0) true (nat_lit 1)) ;;
    .for .i (.lit 0) (.var .m_nrow) (
      .setD .rho_1 (.add (.var .rho_1) (.mul (.rd1 .r (.var .i)) (.rd1 .z (.var .i))))) ;;
    .ite (.eqI (.var .its) (.lit 0)) (
      .for .i (.lit 0) (.var .m_nrow) (
        .st1 .p (.var .i) (.rd1 .z (.var .i)))) (
      .setD .beta (.div (.var .rho_1) (.var .rho_0)) ;;
      .for .i (.lit 0) (.var .m_nrow) (
        .st1 .p (.var .i) (.add (.rd1 .z (.var .i)) (.mul (.var .beta) (.rd1 .p (.var .i)))))) ;;
    .call .ell_mvp_2D [.ell, .ref .p, .ref .q] ;;
    .setD .aux (.ofInt (.lit 0)) ;;
    .for .i (.lit 0) (.var .m_nrow) (
      .setD .aux (.add (.var .aux) (.mul (.rd1 .p (.var .i)) (.rd1 .q (.var .i))))) ;;
    .setD .d (.div (.var .rho_1) (.var .aux)) ;;
    .for .i (.lit 0) (.var .m_nrow) (
      .st1 .x (.var .i) (.sub (.rd1 .x (.var .i)) (.mul (.var .d) (.rd1 .p (.var .i)))) ;;
      .st1 .r (.var .i) (.sub (.rd1 .r (.var .i)) (.mul (.var .d) (.rd1 .q (.var .i))))) ;;
    .setD .rho_0 (.var .rho_1) ;;
    .setI .its (.add (.var .its) (.lit 1))) (.ltI (.var .its) (.var .solver_max_its)) ;;
  .setD .solver_err (.var .err) ;;
  .setI .solver_its (.var .its) ;;
  .free .k ;;
  .free .r ;;
  .free .z ;;
  .free .p ;;
  .free .q ;;
  .setI .ret (.lit 0)

/-- `ell_add_struct2D`: /repo/src/ell.cpp:329-358. -/
def t_ell_add_struct2D : Stmt :=
  .setI .npe (.lit 4) ;;
  .setI .nnz (.var .m_nnz) ;;
  .initIV .sn [(.add (.mul (.var .ey) (.var .nx)) (.var .ex)), (.add (.add (.mul (.var .ey) (.var .nx)) (.var .ex)) (.lit 1)), (.add (.add (.mul (.add (.var .ey) (.lit 1)) (.var .nx)) (.var .ex)) (.lit 1)), (.add (.mul (.add (.var .ey) (.lit 1)) (.var .nx)) (.var .ex))] ;;
  .setI .nFieldsnnz (.mul (.var .nFields) (.var .nnz)) ;;
  .setI .npenFields (.mul (.var .npe) (.var .nFields)) ;;
  .setI .npenFields2 (.mul (.mul (.var .npe) (.var .nFields)) (.var .nFields)) ;;
  .for .i (.lit 0) (.var .nFields) (
    .for .n (.lit 0) (.var .npe) (
      .for .k (.lit 0) (.lit 4) (
        .for .j (.lit 0) (.var .nFields) (
          .st1 .m_vals (.add (.add (.add (.mul (.rd .sn (.var .k)) (.var .nFieldsnnz)) (.mul (.var .i) (.var .nnz))) (.mul (.tab c_cols_row_ell_add_struct2D (.var .k) (.var .n)) (.var .nFields))) (.var .j)) (.add (.rd1 .m_vals (.add (.add (.add (.mul (.rd .sn (.var .k)) (.var .nFieldsnnz)) (.mul (.var .i) (.var .nnz))) (.mul (.tab c_cols_row_ell_add_struct2D (.var .k) (.var .n)) (.var .nFields))) (.var .j))) (.rd1 .Ae (.add (.add (.add (.mul (.var .k) (.var .npenFields2)) (.mul (.var .i) (.var .npenFields))) (.mul (.var .n) (.var .nFields))) (.var .j))))))))

/-- `ell_add_struct3D`: /repo/src/ell.cpp:360-399. -/
def t_ell_add_struct3D : Stmt :=
  .setI .npe (.lit 8) ;;
  .setI .nnz (.var .m_nnz) ;;
  .setI .n0 (.add (.add (.mul (.var .ez) (.mul (.var .nx) (.var .ny))) (.mul (.var .ey) (.var .nx))) (.var .ex)) ;;
  .setI .n1 (.add (.add (.add (.mul (.var .ez) (.mul (.var .nx) (.var .ny))) (.mul (.var .ey) (.var .nx))) (.var .ex)) (.lit 1)) ;;
  .setI .n2 (.add (.add (.add (.mul (.var .ez) (.mul (.var .nx) (.var .ny))) (.mul (.add (.var .ey) (.lit 1)) (.var .nx))) (.var .ex)) (.lit 1)) ;;
  .setI .n3 (.add (.add (.mul (.var .ez) (.mul (.var .nx) (.var .ny))) (.mul (.add (.var .ey) (.lit 1)) (.var .nx))) (.var .ex)) ;;
  .initIV .sn [(.var .n0), (.var .n1), (.var .n2), (.var .n3), (.add (.var .n0) (.mul (.var .nx) (.var .ny))), (.add (.var .n1) (.mul (.var .nx) (.var .ny))), (.add (.var .n2) (.mul (.var .nx) (.var .ny))), (.add (.var .n3) (.mul (.var .nx) (.var .ny)))] ;;
  .setI .nFieldsnnz (.mul (.var .nFields) (.var .nnz)) ;;
  .setI .npenFields (.mul (.var .npe) (.var .nFields)) ;;
  .setI .npenFields2 (.mul (.mul (.var .npe) (.var .nFields)) (.var .nFields)) ;;
  .for .i (.lit 0) (.var .nFields) (
    .for .n (.lit 0) (.var .npe) (
      .for .k (.lit 0) (.lit 8) (
        .for .j (.lit 0) (.var .nFields) (
          .st1 .m_vals (.add (.add (.add (.mul (.rd .sn (.var .k)) (.var .nFieldsnnz)) (.mul (.var .i) (.var .nnz))) (.mul (.tab c_cols_row_ell_add_struct3D (.var .k) (.var .n)) (.var .nFields))) (.var .j)) (.add (.rd1 .m_vals (.add (.add (.add (.mul (.rd .sn (.var .k)) (.var .nFieldsnnz)) (.mul (.var .i) (.var .nnz))) (.mul (.tab c_cols_row_ell_add_struct3D (.var .k) (.var .n)) (.var .nFields))) (.var .j))) (.rd1 .Ae (.add (.add (.add (.mul (.var .k) (.var .npenFields2)) (.mul (.var .i) (.var .npenFields))) (.mul (.var .n) (.var .nFields))) (.var .j))))))))

/-- `ell_set_bc_2D`: /repo/src/ell.cpp:401-535. -/
def t_ell_set_bc_2D : Stmt :=
  .setI .nnz (.var .m_nnz) ;;
  .for .d (.lit 0) (.var .nFields) (
    .for .n (.lit 0) (.var .nx) (
      .for .j (.lit 0) (.var .nnz) (
        .st1 .m_vals (.add (.add (.mul (.mul (.var .n) (.var .nFields)) (.var .nnz)) (.mul (.var .d) (.var .nnz))) (.var .j)) (.ofInt (.lit 0))) ;;
      .st1 .m_vals (.add (.add (.add (.mul (.mul (.var .n) (.var .nFields)) (.var .nnz)) (.mul (.var .d) (.var .nnz))) (.mul (.lit 4) (.var .nFields))) (.var .d)) (.ofInt (.lit 1)))) ;;
  .for .d (.lit 0) (.var .nFields) (
    .for .n (.lit 0) (.var .nx) (
      .for .j (.lit 0) (.var .nnz) (
        .st1 .m_vals (.add (.add (.mul (.mul (.add (.var .n) (.mul (.sub (.var .ny) (.lit 1)) (.var .nx))) (.var .nFields)) (.var .nnz)) (.mul (.var .d) (.var .nnz))) (.var .j)) (.ofInt (.lit 0))) ;;
      .st1 .m_vals (.add (.add (.add (.mul (.mul (.add (.var .n) (.mul (.sub (.var .ny) (.lit 1)) (.var .nx))) (.var .nFields)) (.var .nnz)) (.mul (.var .d) (.var .nnz))) (.mul (.lit 4) (.var .nFields))) (.var .d)) (.ofInt (.lit 1)))) ;;
  .for .d (.lit 0) (.var .nFields) (
    .for .n (.lit 0) (.sub (.var .ny) (.lit 2)) (
      .for .j (.lit 0) (.var .nnz) (
        .st1 .m_vals (.add (.add (.mul (.mul (.mul (.add (.var .n) (.lit 1)) (.var .nx)) (.var .nFields)) (.var .nnz)) (.mul (.var .d) (.var .nnz))) (.var .j)) (.ofInt (.lit 0))) ;;
      .st1 .m_vals (.add (.add (.add (.mul (.mul (.mul (.add (.var .n) (.lit 1)) (.var .nx)) (.var .nFields)) (.var .nnz)) (.mul (.var .d) (.var .nnz))) (.mul (.lit 4) (.var .nFields))) (.var .d)) (.ofInt (.lit 1)))) ;;
  .for .d (.lit 0) (.var .nFields) (
    .for .n (.lit 0) (.sub (.var .ny) (.lit 2)) (
      .for .j (.lit 0) (.var .nnz) (
        .st1 .m_vals (.add (.add (.mul (.mul (.sub (.mul (.add (.var .n) (.lit 2)) (.var .nx)) (.lit 1)) (.var .nFields)) (.var .nnz)) (.mul (.var .d) (.var .nnz))) (.var .j)) (.ofInt (.lit 0))) ;;
      .st1 .m_vals (.add (.add (.add (.mul (.mul (.sub (.mul (.add (.var .n) (.lit 2)) (.var .nx)) (.lit 1)) (.var .nFields)) (.var .nnz)) (.mul (.var .d) (.var .nnz))) (.mul (.lit 4) (.var .nFields))) (.var .d)) (.ofInt (.lit 1)))) ;;
  .for .d1 (.lit 0) (.var .nFields) (
    .setI .n (.add (.var .nx) (.lit 2)) ;;
    .for .i (.lit 0) (.sub (.var .nx) (.lit 4)) (
      .for .l (.lit 0) (.lit 3) (
        .for .d2 (.lit 0) (.var .nFields) (
          .st1 .m_vals (.add (.add (.add (.mul (.mul (.var .n) (.var .nFields)) (.var .nnz)) (.mul (.var .d1) (.var .nnz))) (.mul (.var .l) (.var .nFields))) (.var .d2)) (.ofInt (.lit 0)))) ;;
      .setI .n (.add (.var .n) (.lit 1)))) ;;
  .for .d1 (.lit 0) (.var .nFields) (
    .setI .n (.add (.mul (.sub (.var .ny) (.lit 2)) (.var .nx)) (.lit 2)) ;;
    .for .i (.lit 0) (.sub (.var .nx) (.lit 4)) (
      .for .l (.lit 6) (.lit 9) (
        .for .d2 (.lit 0) (.var .nFields) (
          .st1 .m_vals (.add (.add (.add (.mul (.mul (.var .n) (.var .nFields)) (.var .nnz)) (.mul (.var .d1) (.var .nnz))) (.mul (.lit 6) (.var .nFields))) (.var .d2)) (.ofInt (.lit 0)))) ;;
      .setI .n (.add (.var .n) (.lit 1)))) ;;
  .initIV .tmp [(.lit 0), (.lit 3), (.lit 6)] ;;
  .for .d1 (.lit 0) (.var .nFields) (
    .setI .n (.add (.mul (.lit 2) (.var .nx)) (.lit 1)) ;;
    .for .i (.lit 0) (.sub (.var .ny) (.lit 4)) (
      .for .it_l (.lit 0) (.lit 3) (
        .setI .l (.rd .tmp (.var .it_l)) ;;
        .for .d2 (.lit 0) (.var .nFields) (
          .st1 .m_vals (.add (.add (.add (.mul (.mul (.var .n) (.var .nFields)) (.var .nnz)) (.mul (.var .d1) (.var .nnz))) (.mul (.var .l) (.var .nFields))) (.var .d2)) (.ofInt (.lit 0)))) ;;
      .setI .n (.add (.var .n) (.var .nx)))) ;;
  .initIV .tmp [(.lit 2), (.lit 5), (.lit 8)] ;;
  .for .d1 (.lit 0) (.var .nFields) (
    .setI .n (.sub (.mul (.lit 4) (.var .nx)) (.lit 1)) ;;
    .for .i (.lit 0) (.sub (.var .ny) (.lit 4)) (
      .for .it_l (.lit 0) (.lit 3) (
        .setI .l (.rd .tmp (.var .it_l)) ;;
        .for .d2 (.lit 0) (.var .nFields) (
          .st1 .m_vals (.add (.add (.add (.mul (.mul (.var .n) (.var .nFields)) (.var .nnz)) (.mul (.var .d1) (.var .nnz))) (.mul (.var .l) (.var .nFields))) (.var .d2)) (.ofInt (.lit 0)))) ;;
      .setI .n (.add (.var .n) (.var .nx)))) ;;
  .initIV .tmp [(.lit 0), (.lit 1), (.lit 2), (.lit 3), (.lit 6)] ;;
  .for .d1 (.lit 0) (.var .nFields) (
    .setI .n (.add (.var .nx) (.lit 1)) ;;
    .for .it_l (.lit 0) (.lit 5) (
      .setI .l (.rd .tmp (.var .it_l)) ;;
      .for .d2 (.lit 0) (.var .nFields) (
        .st1 .m_vals (.add (.add (.add (.mul (.mul (.var .n) (.var .nFields)) (.var .nnz)) (.mul (.var .d1) (.var .nnz))) (.mul (.var .l) (.var .nFields))) (.var .d2)) (.ofInt (.lit 0))))) ;;
  .initIV .tmp [(.lit 0), (.lit 1), (.lit 2), (.lit 5), (.lit 8)] ;;
  .for .d1 (.lit 0) (.var .nFields) (
    .setI .n (.sub (.mul (.lit 2) (.var .nx)) (.lit 2)) ;;
    .for .it_l (.lit 0) (.lit 5) (
      .setI .l (.rd .tmp (.var .it_l)) ;;
      .for .d2 (.lit 0) (.var .nFields) (
        .st1 .m_vals (.add (.add (.add (.mul (.mul (.var .n) (.var .nFields)) (.var .nnz)) (.mul (.var .d1) (.var .nnz))) (.mul (.var .l) (.var .nFields))) (.var .d2)) (.ofInt (.lit 0))))) ;;
  .initIV .tmp [(.lit 2), (.lit 5), (.lit 6), (.lit 7), (.lit 8)] ;;
  .for .d1 (.lit 0) (.var .nFields) (
    .setI .n (.sub (.mul (.sub (.var .ny) (.lit 1)) (.var .nx)) (.lit 1)) ;;
    .for .it_l (.lit 0) (.lit 5) (
      .setI .l (.rd .tmp (.var .it_l)) ;;
      .for .d2 (.lit 0) (.var .nFields) (
        .st1 .m_vals (.add (.add (.add (.mul (.mul (.var .n) (.var .nFields)) (.var .nnz)) (.mul (.var .d1) (.var .nnz))) (.mul (.var .l) (.var .nFields))) (.var .d2)) (.ofInt (.lit 0))))) ;;
  .initIV .tmp [(.lit 0), (.lit 3), (.lit 6), (.lit 7), (.lit 8)] ;;
  .for .d1 (.lit 0) (.var .nFields) (
    .setI .n (.add (.mul (.sub (.var .ny) (.lit 2)) (.var .nx)) (.lit 1)) ;;
    .for .it_l (.lit 0) (.lit 5) (
      .setI .l (.rd .tmp (.var .it_l)) ;;
      .for .d2 (.lit 0) (.var .nFields) (
        .st1 .m_vals (.add (.add (.add (.mul (.mul (.var .n) (.var .nFields)) (.var .nnz)) (.mul (.var .d1) (.var .nnz))) (.mul (.var .l) (.var .nFields))) (.var .d2)) (.ofInt (.lit 0)))))

/-- `ell_set_bc_3D`: /repo/src/ell.cpp:537-705. -/
def t_ell_set_bc_3D : Stmt :=
  .setI .nnz (.var .m_nnz) ;;
  .declI .n ;;
  .for .d (.lit 0) (.var .nFields) (
    .for .i (.lit 0) (.var .nx) (
      .for .j (.lit 0) (.var .ny) (
        .setI .n (.add (.add (.mul (.mul (.lit 0) (.var .nx)) (.var .ny)) (.mul (.var .j) (.var .nx))) (.var .i)) ;;
        .for .col (.lit 0) (.var .nnz) (
          .st1 .m_vals (.add (.add (.mul (.mul (.var .n) (.var .nFields)) (.var .nnz)) (.mul (.var .d) (.var .nnz))) (.var .col)) (.ofInt (.lit 0))) ;;
        .st1 .m_vals (.add (.add (.add (.mul (.mul (.var .n) (.var .nFields)) (.var .nnz)) (.mul (.var .d) (.var .nnz))) (.mul (.lit 13) (.var .nFields))) (.var .d)) (.ofInt (.lit 1))))) ;;
  .for .d (.lit 0) (.var .nFields) (
    .for .i (.lit 0) (.var .nx) (
      .for .j (.lit 0) (.var .ny) (
        .setI .n (.add (.add (.mul (.mul (.sub (.var .nz) (.lit 1)) (.var .nx)) (.var .ny)) (.mul (.var .j) (.var .nx))) (.var .i)) ;;
        .for .col (.lit 0) (.var .nnz) (
          .st1 .m_vals (.add (.add (.mul (.mul (.var .n) (.var .nFields)) (.var .nnz)) (.mul (.var .d) (.var .nnz))) (.var .col)) (.ofInt (.lit 0))) ;;
        .st1 .m_vals (.add (.add (.add (.mul (.mul (.var .n) (.var .nFields)) (.var .nnz)) (.mul (.var .d) (.var .nnz))) (.mul (.lit 13) (.var .nFields))) (.var .d)) (.ofInt (.lit 1))))) ;;
  .for .d (.lit 0) (.var .nFields) (
    .for .i (.lit 0) (.var .nx) (
      .for .k (.lit 0) (.var .nz) (
        .setI .n (.add (.add (.mul (.mul (.var .k) (.var .nx)) (.var .ny)) (.mul (.lit 0) (.var .nx))) (.var .i)) ;;
        .for .col (.lit 0) (.var .nnz) (
          .st1 .m_vals (.add (.add (.mul (.mul (.var .n) (.var .nFields)) (.var .nnz)) (.mul (.var .d) (.var .nnz))) (.var .col)) (.ofInt (.lit 0))) ;;
        .st1 .m_vals (.add (.add (.add (.mul (.mul (.var .n) (.var .nFields)) (.var .nnz)) (.mul (.var .d) (.var .nnz))) (.mul (.lit 13) (.var .nFields))) (.var .d)) (.ofInt (.lit 1))))) ;;
  .for .d (.lit 0) (.var .nFields) (
    .for .i (.lit 0) (.var .nx) (
      .for .k (.lit 0) (.var .nz) (
        .setI .n (.add (.add (.mul (.mul (.var .k) (.var .nx)) (.var .ny)) (.mul (.sub (.var .ny) (.lit 1)) (.var .nx))) (.var .i)) ;;
        .for .col (.lit 0) (.var .nnz) (
          .st1 .m_vals (.add (.add (.mul (.mul (.var .n) (.var .nFields)) (.var .nnz)) (.mul (.var .d) (.var .nnz))) (.var .col)) (.ofInt (.lit 0))) ;;
        .st1 .m_vals (.add (.add (.add (.mul (.mul (.var .n) (.var .nFields)) (.var .nnz)) (.mul (.var .d) (.var .nnz))) (.mul (.lit 13) (.var .nFields))) (.var .d)) (.ofInt (.lit 1))))) ;;
  .for .d (.lit 0) (.var .nFields) (
    .for .j (.lit 0) (.var .ny) (
      .for .k (.lit 0) (.var .nz) (
        .setI .n (.add (.add (.mul (.mul (.var .k) (.var .nx)) (.var .ny)) (.mul (.var .j) (.var .nx))) (.lit 0)) ;;
        .for .col (.lit 0) (.var .nnz) (
          .st1 .m_vals (.add (.add (.mul (.mul (.var .n) (.var .nFields)) (.var .nnz)) (.mul (.var .d) (.var .nnz))) (.var .col)) (.ofInt (.lit 0))) ;;
        .st1 .m_vals (.add (.add (.add (.mul (.mul (.var .n) (.var .nFields)) (.var .nnz)) (.mul (.var .d) (.var .nnz))) (.mul (.lit 13) (.var .nFields))) (.var .d)) (.ofInt (.lit 1))))) ;;
  .for .d (.lit 0) (.var .nFields) (
    .for .j (.lit 0) (.var .ny) (
      .for .k (.lit 0) (.var .nz) (
        .setI .n (.add (.add (.mul (.mul (.var .k) (.var .nx)) (.var .ny)) (.mul (.var .j) (.var .nx))) (.sub (.var .nx) (.lit 1))) ;;
        .for .col (.lit 0) (.var .nnz) (
          .st1 .m_vals (.add (.add (.mul (.mul (.var .n) (.var .nFields)) (.var .nnz)) (.mul (.var .d) (.var .nnz))) (.var .col)) (.ofInt (.lit 0))) ;;
        .st1 .m_vals (.add (.add (.add (.mul (.mul (.var .n) (.var .nFields)) (.var .nnz)) (.mul (.var .d) (.var .nnz))) (.mul (.lit 13) (.var .nFields))) (.var .d)) (.ofInt (.lit 1))))) ;;
  .ite (.ltI (.lit 2) (.var .nz)) (
    .for .d1 (.lit 0) (.var .nFields) (
      .for .i (.lit 1) (.sub (.var .nx) (.lit 1)) (
        .for .j (.lit 1) (.sub (.var .ny) (.lit 1)) (
          .setI .n (.add (.add (.mul (.mul (.lit 1) (.var .nx)) (.var .ny)) (.mul (.var .j) (.var .nx))) (.var .i)) ;;
          .for .l (.lit 0) (.lit 9) (
            .for .d2 (.lit 0) (.var .nFields) (
              .st1 .m_vals (.add (.add (.add (.mul (.mul (.var .n) (.var .nFields)) (.var .nnz)) (.mul (.var .d1) (.var .nnz))) (.mul (.var .l) (.var .nFields))) (.var .d2)) (.ofInt (.lit 0)))))))) (
    .skip) ;;
  .ite (.ltI (.lit 2) (.var .nz)) (
    .for .d1 (.lit 0) (.var .nFields) (
      .for .i (.lit 1) (.sub (.var .nx) (.lit 1)) (
        .for .j (.lit 1) (.sub (.var .ny) (.lit 1)) (
          .setI .n (.add (.add (.mul (.mul (.sub (.var .nz) (.lit 2)) (.var .nx)) (.var .ny)) (.mul (.var .j) (.var .nx))) (.var .i)) ;;
          .for .l (.lit 18) (.lit 27) (
            .for .d2 (.lit 0) (.var .nFields) (
              .st1 .m_vals (.add (.add (.add (.mul (.mul (.var .n) (.var .nFields)) (.var .nnz)) (.mul (.var .d1) (.var .nnz))) (.mul (.var .l) (.var .nFields))) (.var .d2)) (.ofInt (.lit 0)))))))) (
    .skip) ;;
  .ite (.ltI (.lit 2) (.var .ny)) (
    .initIV .tmp [(.lit 0), (.lit 1), (.lit 2), (.lit 9), (.lit 10), (.lit 11), (.lit 18), (.lit 19), (.lit 20)] ;;
    .for .d1 (.lit 0) (.var .nFields) (
      .for .i (.lit 1) (.sub (.var .nx) (.lit 1)) (
        .for .k (.lit 1) (.sub (.var .nz) (.lit 1)) (
          .setI .n (.add (.add (.mul (.mul (.var .k) (.var .nx)) (.var .ny)) (.mul (.lit 1) (.var .nx))) (.var .i)) ;;
          .for .it_l (.lit 0) (.lit 9) (
            .setI .l (.rd .tmp (.var .it_l)) ;;
            .for .d2 (.lit 0) (.var .nFields) (
              .st1 .m_vals (.add (.add (.add (.mul (.mul (.var .n) (.var .nFields)) (.var .nnz)) (.mul (.var .d1) (.var .nnz))) (.mul (.var .l) (.var .nFields))) (.var .d2)) (.ofInt (.lit 0)))))))) (
    .skip) ;;
  .initIV .tmp [(.lit 6), (.lit 7), (.lit 8), (.lit 15), (.lit 16), (.lit 17), (.lit 24), (.lit 25), (.lit 26)] ;;
  .for .d1 (.lit 0) (.var .nFields) (
    .for .i (.lit 1) (.sub (.var .nx) (.lit 1)) (
      .for .k (.lit 1) (.sub (.var .nz) (.lit 1)) (
        .setI .n (.add (.add (.mul (.mul (.var .k) (.var .nx)) (.var .ny)) (.mul (.sub (.var .ny) (.lit 2)) (.var .nx))) (.var .i)) ;;
        .for .it_l (.lit 0) (.lit 9) (
          .setI .l (.rd .tmp (.var .it_l)) ;;
          .for .d2 (.lit 0) (.var .nFields) (
            .st1 .m_vals (.add (.add (.add (.mul (.mul (.var .n) (.var .nFields)) (.var .nnz)) (.mul (.var .d1) (.var .nnz))) (.mul (.var .l) (.var .nFields))) (.var .d2)) (.ofInt (.lit 0))))))) ;;
  .ite (.ltI (.lit 2) (.var .nx)) (
    .initIV .tmp [(.lit 0), (.lit 3), (.lit 6), (.lit 9), (.lit 12), (.lit 15), (.lit 18), (.lit 21), (.lit 24)] ;;
    .for .d1 (.lit 0) (.var .nFields) (
      .for .j (.lit 1) (.sub (.var .ny) (.lit 1)) (
        .for .k (.lit 1) (.sub (.var .nz) (.lit 1)) (
          .setI .n (.add (.add (.mul (.mul (.var .k) (.var .nx)) (.var .ny)) (.mul (.var .j) (.var .nx))) (.lit 1)) ;;
          .for .it_l (.lit 0) (.lit 9) (
            .setI .l (.rd .tmp (.var .it_l)) ;;
            .for .d2 (.lit 0) (.var .nFields) (
              .st1 .m_vals (.add (.add (.add (.mul (.mul (.var .n) (.var .nFields)) (.var .nnz)) (.mul (.var .d1) (.var .nnz))) (.mul (.var .l) (.var .nFields))) (.var .d2)) (.ofInt (.lit 0)))))))) (
    .skip) ;;
  .ite (.ltI (.lit 2) (.var .nx)) (
    .initIV .tmp [(.lit 2), (.lit 5), (.lit 8), (.lit 11), (.lit 14), (.lit 17), (.lit 20), (.lit 23), (.lit 26)] ;;
    .for .d1 (.lit 0) (.var .nFields) (
      .for .j (.lit 1) (.sub (.var .ny) (.lit 1)) (
        .for .k (.lit 1) (.sub (.var .nz) (.lit 1)) (
          .setI .n (.add (.add (.mul (.mul (.var .k) (.var .nx)) (.var .ny)) (.mul (.var .j) (.var .nx))) (.sub (.var .nx) (.lit 2))) ;;
          .for .it_l (.lit 0) (.lit 9) (
            .setI .l (.rd .tmp (.var .it_l)) ;;
            .for .d2 (.lit 0) (.var .nFields) (
              .st1 .m_vals (.add (.add (.add (.mul (.mul (.var .n) (.var .nFields)) (.var .nnz)) (.mul (.var .d1) (.var .nnz))) (.mul (.var .l) (.var .nFields))) (.var .d2)) (.ofInt (.lit 0)))))))) (
    .skip)

/-- `ell_init_2D`: /repo/src/ell.cpp:707-863. -/
def t_ell_init_2D : Stmt :=
  .setI .nn (.mul (.var .nx) (.var .ny)) ;;
  .setI .nnz (.mul (.lit 9) (.var .nFields)) ;;
  .setI .nrow (.mul (.var .nn) (.var .nFields)) ;;
  .setI .m_nnz (.var .nnz) ;;
  .setI .m_nrow (.var .nrow) ;;
  .setI .m_ncol (.var .nrow) ;;
  .mallocI .m_cols (.mul (.var .nnz) (.var .nrow)) ;;
  .malloc .m_vals (.mul (.var .nnz) (.var .nrow)) ;;
  .for .i (.lit 0) (.var .nn) (
    .setI .mcols (.mul (.mul (.var .i) (.var .nFields)) (.var .nnz)) ;;
    .ite (.eqI (.var .i) (.lit 0)) (
      .for .d1 (.lit 0) (.var .nFields) (
        .for .d2 (.lit 0) (.var .nFields) (
          .stI .m_cols (.add (.var .mcols) (.add (.add (.mul (.lit 0) (.var .nFields)) (.mul (.var .nnz) (.var .d1))) (.var .d2))) (.lit 0) ;;
          .stI .m_cols (.add (.var .mcols) (.add (.add (.mul (.lit 1) (.var .nFields)) (.mul (.var .nnz) (.var .d1))) (.var .d2))) (.lit 0) ;;
          .stI .m_cols (.add (.var .mcols) (.add (.add (.mul (.lit 2) (.var .nFields)) (.mul (.var .nnz) (.var .d1))) (.var .d2))) (.lit 0) ;;
          .stI .m_cols (.add (.var .mcols) (.add (.add (.mul (.lit 3) (.var .nFields)) (.mul (.var .nnz) (.var .d1))) (.var .d2))) (.lit 0) ;;
          .stI .m_cols (.add (.var .mcols) (.add (.add (.mul (.lit 4) (.var .nFields)) (.mul (.var .nnz) (.var .d1))) (.var .d2))) (.add (.mul (.var .i) (.var .nFields)) (.var .d2)) ;;
          .stI .m_cols (.add (.var .mcols) (.add (.add (.mul (.lit 5) (.var .nFields)) (.mul (.var .nnz) (.var .d1))) (.var .d2))) (.add (.mul (.add (.var .i) (.lit 1)) (.var .nFields)) (.var .d2)) ;;
          .stI .m_cols (.add (.var .mcols) (.add (.add (.mul (.lit 6) (.var .nFields)) (.mul (.var .nnz) (.var .d1))) (.var .d2))) (.lit 0) ;;
          .stI .m_cols (.add (.var .mcols) (.add (.add (.mul (.lit 7) (.var .nFields)) (.mul (.var .nnz) (.var .d1))) (.var .d2))) (.add (.mul (.add (.var .i) (.var .nx)) (.var .nFields)) (.var .d2)) ;;
          .stI .m_cols (.add (.var .mcols) (.add (.add (.mul (.lit 8) (.var .nFields)) (.mul (.var .nnz) (.var .d1))) (.var .d2))) (.add (.mul (.add (.add (.var .i) (.var .nx)) (.lit 1)) (.var .nFields)) (.var .d2))))) (
      .ite (.eqI (.var .i) (.sub (.var .nx) (.lit 1))) (
        .for .d1 (.lit 0) (.var .nFields) (
          .for .d2 (.lit 0) (.var .nFields) (
            .stI .m_cols (.add (.var .mcols) (.add (.add (.mul (.lit 0) (.var .nFields)) (.mul (.var .nnz) (.var .d1))) (.var .d2))) (.lit 0) ;;
            .stI .m_cols (.add (.var .mcols) (.add (.add (.mul (.lit 1) (.var .nFields)) (.mul (.var .nnz) (.var .d1))) (.var .d2))) (.lit 0) ;;
            .stI .m_cols (.add (.var .mcols) (.add (.add (.mul (.lit 2) (.var .nFields)) (.mul (.var .nnz) (.var .d1))) (.var .d2))) (.lit 0) ;;
            .stI .m_cols (.add (.var .mcols) (.add (.add (.mul (.lit 3) (.var .nFields)) (.mul (.var .nnz) (.var .d1))) (.var .d2))) (.add (.mul (.sub (.var .i) (.lit 1)) (.var .nFields)) (.var .d2)) ;;
            .stI .m_cols (.add (.var .mcols) (.add (.add (.mul (.lit 4) (.var .nFields)) (.mul (.var .nnz) (.var .d1))) (.var .d2))) (.add (.mul (.var .i) (.var .nFields)) (.var .d2)) ;;
            .stI .m_cols (.add (.var .mcols) (.add (.add (.mul (.lit 5) (.var .nFields)) (.mul (.var .nnz) (.var .d1))) (.var .d2))) (.lit 0) ;;
            .stI .m_cols (.add (.var .mcols) (.add (.add (.mul (.lit 6) (.var .nFields)) (.mul (.var .nnz) (.var .d1))) (.var .d2))) (.add (.mul (.sub (.add (.var .i) (.var .nx)) (.lit 1)) (.var .nFields)) (.var .d2)) ;;
            .stI .m_cols (.add (.var .mcols) (.add (.add (.mul (.lit 7) (.var .nFields)) (.mul (.var .nnz) (.var .d1))) (.var .d2))) (.add (.mul (.add (.var .i) (.var .nx)) (.var .nFields)) (.var .d2)) ;;
            .stI .m_cols (.add (.var .mcols) (.add (.add (.mul (.lit 8) (.var .nFields)) (.mul (.var .nnz) (.var .d1))) (.var .d2))) (.lit 0)))) (
        .ite (.eqI (.var .i) (.sub (.mul (.var .nx) (.var .ny)) (.lit 1))) (
          .for .d1 (.lit 0) (.var .nFields) (
            .for .d2 (.lit 0) (.var .nFields) (
              .stI .m_cols (.add (.var .mcols) (.add (.add (.mul (.lit 0) (.var .nFields)) (.mul (.var .nnz) (.var .d1))) (.var .d2))) (.add (.mul (.sub (.sub (.var .i) (.var .nx)) (.lit 1)) (.var .nFields)) (.var .d2)) ;;
              .stI .m_cols (.add (.var .mcols) (.add (.add (.mul (.lit 1) (.var .nFields)) (.mul (.var .nnz) (.var .d1))) (.var .d2))) (.add (.mul (.sub (.var .i) (.var .nx)) (.var .nFields)) (.var .d2)) ;;
              .stI .m_cols (.add (.var .mcols) (.add (.add (.mul (.lit 2) (.var .nFields)) (.mul (.var .nnz) (.var .d1))) (.var .d2))) (.lit 0) ;;
              .stI .m_cols (.add (.var .mcols) (.add (.add (.mul (.lit 3) (.var .nFields)) (.mul (.var .nnz) (.var .d1))) (.var .d2))) (.add (.mul (.sub (.var .i) (.lit 1)) (.var .nFields)) (.var .d2)) ;;
              .stI .m_cols (.add (.var .mcols) (.add (.add (.mul (.lit 4) (.var .nFields)) (.mul (.var .nnz) (.var .d1))) (.var .d2))) (.add (.mul (.var .i) (.var .nFields)) (.var .d2)) ;;
              .stI .m_cols (.add (.var .mcols) (.add (.add (.mul (.lit 5) (.var .nFields)) (.mul (.var .nnz) (.var .d1))) (.var .d2))) (.lit 0) ;;
              .stI .m_cols (.add (.var .mcols) (.add (.add (.mul (.lit 6) (.var .nFields)) (.mul (.var .nnz) (.var .d1))) (.var .d2))) (.lit 0) ;;
              .stI .m_cols (.add (.var .mcols) (.add (.add (.mul (.lit 7) (.var .nFields)) (.mul (.var .nnz) (.var .d1))) (.var .d2))) (.lit 0) ;;
              .stI .m_cols (.add (.var .mcols) (.add (.add (.mul (.lit 8) (.var .nFields)) (.mul (.var .nnz) (.var .d1))) (.var .d2))) (.lit 0)))) (
          .ite (.eqI (.var .i) (.mul (.sub (.var .ny) (.lit 1)) (.var .nx))) (
            .for .d1 (.lit 0) (.var .nFields) (
              .for .d2 (.lit 0) (.var .nFields) (
                .stI .m_cols (.add (.var .mcols) (.add (.add (.mul (.lit 0) (.var .nFields)) (.mul (.var .nnz) (.var .d1))) (.var .d2))) (.lit 0) ;;
                .stI .m_cols (.add (.var .mcols) (.add (.add (.mul (.lit 1) (.var .nFields)) (.mul (.var .nnz) (.var .d1))) (.var .d2))) (.add (.mul (.sub (.var .i) (.var .nx)) (.var .nFields)) (.var .d2)) ;;
                .stI .m_cols (.add (.var .mcols) (.add (.add (.mul (.lit 2) (.var .nFields)) (.mul (.var .nnz) (.var .d1))) (.var .d2))) (.add (.mul (.add (.sub (.var .i) (.var .nx)) (.lit 1)) (.var .nFields)) (.var .d2)) ;;
                .stI .m_cols (.add (.var .mcols) (.add (.add (.mul (.lit 3) (.var .nFields)) (.mul (.var .nnz) (.var .d1))) (.var .d2))) (.lit 0) ;;
                .stI .m_cols (.add (.var .mcols) (.add (.add (.mul (.lit 4) (.var .nFields)) (.mul (.var .nnz) (.var .d1))) (.var .d2))) (.add (.mul (.var .i) (.var .nFields)) (.var .d2)) ;;
                .stI .m_cols (.add (.var .mcols) (.add (.add (.mul (.lit 5) (.var .nFields)) (.mul (.var .nnz) (.var .d1))) (.var .d2))) (.add (.mul (.add (.var .i) (.lit 1)) (.var .nFields)) (.var .d2)) ;;
                .stI .m_cols (.add (.var .mcols) (.add (.add (.mul (.lit 6) (.var .nFields)) (.mul (.var .nnz) (.var .d1))) (.var .d2))) (.lit 0) ;;
                .stI .m_cols (.add (.var .mcols) (.add (.add (.mul (.lit 7) (.var .nFields)) (.mul (.var .nnz) (.var .d1))) (.var .d2))) (.lit 0) ;;
                .stI .m_cols (.add (.var .mcols) (.add (.add (.mul (.lit 8) (.var .nFields)) (.mul (.var .nnz) (.var .d1))) (.var .d2))) (.lit 0)))) (
            .ite (.ltI (.var .i) (.var .nx)) (
              .for .d1 (.lit 0) (.var .nFields) (
                .for .d2 (.lit 0) (.var .nFields) (
                  .stI .m_cols (.add (.var .mcols) (.add (.add (.mul (.lit 0) (.var .nFields)) (.mul (.var .nnz) (.var .d1))) (.var .d2))) (.lit 0) ;;
                  .stI .m_cols (.add (.var .mcols) (.add (.add (.mul (.lit 1) (.var .nFields)) (.mul (.var .nnz) (.var .d1))) (.var .d2))) (.lit 0) ;;
                  .stI .m_cols (.add (.var .mcols) (.add (.add (.mul (.lit 2) (.var .nFields)) (.mul (.var .nnz) (.var .d1))) (.var .d2))) (.lit 0) ;;
                  .stI .m_cols (.add (.var .mcols) (.add (.add (.mul (.lit 3) (.var .nFields)) (.mul (.var .nnz) (.var .d1))) (.var .d2))) (.add (.mul (.sub (.var .i) (.lit 1)) (.var .nFields)) (.var .d2)) ;;
                  .stI .m_cols (.add (.var .mcols) (.add (.add (.mul (.lit 4) (.var .nFields)) (.mul (.var .nnz) (.var .d1))) (.var .d2))) (.add (.mul (.var .i) (.var .nFields)) (.var .d2)) ;;
                  .stI .m_cols (.add (.var .mcols) (.add (.add (.mul (.lit 5) (.var .nFields)) (.mul (.var .nnz) (.var .d1))) (.var .d2))) (.add (.mul (.add (.var .i) (.lit 1)) (.var .nFields)) (.var .d2)) ;;
                  .stI .m_cols (.add (.var .mcols) (.add (.add (.mul (.lit 6) (.var .nFields)) (.mul (.var .nnz) (.var .d1))) (.var .d2))) (.add (.mul (.sub (.add (.var .i) (.var .nx)) (.lit 1)) (.var .nFields)) (.var .d2)) ;;
                  .stI .m_cols (.add (.var .mcols) (.add (.add (.mul (.lit 7) (.var .nFields)) (.mul (.var .nnz) (.var .d1))) (.var .d2))) (.add (.mul (.add (.var .i) (.var .nx)) (.var .nFields)) (.var .d2)) ;;
                  .stI .m_cols (.add (.var .mcols) (.add (.add (.mul (.lit 8) (.var .nFields)) (.mul (.var .nnz) (.var .d1))) (.var .d2))) (.add (.mul (.add (.add (.var .i) (.var .nx)) (.lit 1)) (.var .nFields)) (.var .d2))))) (
              .ite (.ltI (.mul (.sub (.var .ny) (.lit 1)) (.var .nx)) (.var .i)) (
                .for .d1 (.lit 0) (.var .nFields) (
                  .for .d2 (.lit 0) (.var .nFields) (
                    .stI .m_cols (.add (.var .mcols) (.add (.add (.mul (.lit 0) (.var .nFields)) (.mul (.var .nnz) (.var .d1))) (.var .d2))) (.add (.mul (.sub (.sub (.var .i) (.var .nx)) (.lit 1)) (.var .nFields)) (.var .d2)) ;;
                    .stI .m_cols (.add (.var .mcols) (.add (.add (.mul (.lit 1) (.var .nFields)) (.mul (.var .nnz) (.var .d1))) (.var .d2))) (.add (.mul (.sub (.var .i) (.var .nx)) (.var .nFields)) (.var .d2)) ;;
                    .stI .m_cols (.add (.var .mcols) (.add (.add (.mul (.lit 2) (.var .nFields)) (.mul (.var .nnz) (.var .d1))) (.var .d2))) (.add (.mul (.add (.sub (.var .i) (.var .nx)) (.lit 1)) (.var .nFields)) (.var .d2)) ;;
                    .stI .m_cols (.add (.var .mcols) (.add (.add (.mul (.lit 3) (.var .nFields)) (.mul (.var .nnz) (.var .d1))) (.var .d2))) (.add (.mul (.sub (.var .i) (.lit 1)) (.var .nFields)) (.var .d2)) ;;
                    .stI .m_cols (.add (.var .mcols) (.add (.add (.mul (.lit 4) (.var .nFields)) (.mul (.var .nnz) (.var .d1))) (.var .d2))) (.add (.mul (.var .i) (.var .nFields)) (.var .d2)) ;;
                    .stI .m_cols (.add (.var .mcols) (.add (.add (.mul (.lit 5) (.var .nFields)) (.mul (.var .nnz) (.var .d1))) (.var .d2))) (.add (.mul (.add (.var .i) (.lit 1)) (.var .nFields)) (.var .d2)) ;;
                    .stI .m_cols (.add (.var .mcols) (.add (.add (.mul (.lit 6) (.var .nFields)) (.mul (.var .nnz) (.var .d1))) (.var .d2))) (.lit 0) ;;
                    .stI .m_cols (.add (.var .mcols) (.add (.add (.mul (.lit 7) (.var .nFields)) (.mul (.var .nnz) (.var .d1))) (.var .d2))) (.lit 0) ;;
                    .stI .m_cols (.add (.var .mcols) (.add (.add (.mul (.lit 8) (.var .nFields)) (.mul (.var .nnz) (.var .d1))) (.var .d2))) (.lit 0)))) (
                .ite (.eqI (.mod (.var .i) (.var .nx)) (.lit 0)) (
                  .for .d1 (.lit 0) (.var .nFields) (
                    .for .d2 (.lit 0) (.var .nFields) (
                      .stI .m_cols (.add (.var .mcols) (.add (.add (.mul (.lit 0) (.var .nFields)) (.mul (.var .nnz) (.var .d1))) (.var .d2))) (.lit 0) ;;
                      .stI .m_cols (.add (.var .mcols) (.add (.add (.mul (.lit 1) (.var .nFields)) (.mul (.var .nnz) (.var .d1))) (.var .d2))) (.add (.mul (.sub (.var .i) (.var .nx)) (.var .nFields)) (.var .d2)) ;;
                      .stI .m_cols (.add (.var .mcols) (.add (.add (.mul (.lit 2) (.var .nFields)) (.mul (.var .nnz) (.var .d1))) (.var .d2))) (.add (.mul (.add (.sub (.var .i) (.var .nx)) (.lit 1)) (.var .nFields)) (.var .d2)) ;;
                      .stI .m_cols (.add (.var .mcols) (.add (.add (.mul (.lit 3) (.var .nFields)) (.mul (.var .nnz) (.var .d1))) (.var .d2))) (.lit 0) ;;
                      .stI .m_cols (.add (.var .mcols) (.add (.add (.mul (.lit 4) (.var .nFields)) (.mul (.var .nnz) (.var .d1))) (.var .d2))) (.add (.mul (.var .i) (.var .nFields)) (.var .d2)) ;;
                      .stI .m_cols (.add (.var .mcols) (.add (.add (.mul (.lit 5) (.var .nFields)) (.mul (.var .nnz) (.var .d1))) (.var .d2))) (.add (.mul (.add (.var .i) (.lit 1)) (.var .nFields)) (.var .d2)) ;;
                      .stI .m_cols (.add (.var .mcols) (.add (.add (.mul (.lit 6) (.var .nFields)) (.mul (.var .nnz) (.var .d1))) (.var .d2))) (.lit 0) ;;
                      .stI .m_cols (.add (.var .mcols) (.add (.add (.mul (.lit 7) (.var .nFields)) (.mul (.var .nnz) (.var .d1))) (.var .d2))) (.add (.mul (.add (.var .i) (.var .nx)) (.var .nFields)) (.var .d2)) ;;
                      .stI .m_cols (.add (.var .mcols) (.add (.add (.mul (.lit 8) (.var .nFields)) (.mul (.var .nnz) (.var .d1))) (.var .d2))) (.add (.mul (.add (.add (.var .i) (.var .nx)) (.lit 1)) (.var .nFields)) (.var .d2))))) (
                  .ite (.eqI (.mod (.add (.var .i) (.lit 1)) (.var .nx)) (.lit 0)) (
                    .for .d1 (.lit 0) (.var .nFields) (
                      .for .d2 (.lit 0) (.var .nFields) (
                        .stI .m_cols (.add (.var .mcols) (.add (.add (.mul (.lit 0) (.var .nFields)) (.mul (.var .nnz) (.var .d1))) (.var .d2))) (.add (.mul (.sub (.sub (.var .i) (.var .nx)) (.lit 1)) (.var .nFields)) (.var .d2)) ;;
                        .stI .m_cols (.add (.var .mcols) (.add (.add (.mul (.lit 1) (.var .nFields)) (.mul (.var .nnz) (.var .d1))) (.var .d2))) (.add (.mul (.sub (.var .i) (.var .nx)) (.var .nFields)) (.var .d2)) ;;
                        .stI .m_cols (.add (.var .mcols) (.add (.add (.mul (.lit 2) (.var .nFields)) (.mul (.var .nnz) (.var .d1))) (.var .d2))) (.lit 0) ;;
                        .stI .m_cols (.add (.var .mcols) (.add (.add (.mul (.lit 3) (.var .nFields)) (.mul (.var .nnz) (.var .d1))) (.var .d2))) (.add (.mul (.sub (.var .i) (.lit 1)) (.var .nFields)) (.var .d2)) ;;
                        .stI .m_cols (.add (.var .mcols) (.add (.add (.mul (.lit 4) (.var .nFields)) (.mul (.var .nnz) (.var .d1))) (.var .d2))) (.add (.mul (.var .i) (.var .nFields)) (.var .d2)) ;;
                        .stI .m_cols (.add (.var .mcols) (.add (.add (.mul (.lit 5) (.var .nFields)) (.mul (.var .nnz) (.var .d1))) (.var .d2))) (.lit 0) ;;
                        .stI .m_cols (.add (.var .mcols) (.add (.add (.mul (.lit 6) (.var .nFields)) (.mul (.var .nnz) (.var .d1))) (.var .d2))) (.add (.mul (.sub (.add (.var .i) (.var .nx)) (.lit 1)) (.var .nFields)) (.var .d2)) ;;
                        .stI .m_cols (.add (.var .mcols) (.add (.add (.mul (.lit 7) (.var .nFields)) (.mul (.var .nnz) (.var .d1))) (.var .d2))) (.add (.mul (.var .i) (.var .nFields)) (.var .d2)) ;;
                        .stI .m_cols (.add (.var .mcols) (.add (.add (.mul (.lit 8) (.var .nFields)) (.mul (.var .nnz) (.var .d1))) (.var .d2))) (.lit 0)))) (
                    .for .d1 (.lit 0) (.var .nFields) (
                      .for .d2 (.lit 0) (.var .nFields) (
                        .stI .m_cols (.add (.var .mcols) (.add (.add (.mul (.lit 0) (.var .nFields)) (.mul (.var .nnz) (.var .d1))) (.var .d2))) (.add (.mul (.sub (.sub (.var .i) (.var .nx)) (.lit 1)) (.var .nFields)) (.var .d2)) ;;
                        .stI .m_cols (.add (.var .mcols) (.add (.add (.mul (.lit 1) (.var .nFields)) (.mul (.var .nnz) (.var .d1))) (.var .d2))) (.add (.mul (.sub (.var .i) (.var .nx)) (.var .nFields)) (.var .d2)) ;;
                        .stI .m_cols (.add (.var .mcols) (.add (.add (.mul (.lit 2) (.var .nFields)) (.mul (.var .nnz) (.var .d1))) (.var .d2))) (.add (.mul (.add (.sub (.var .i) (.var .nx)) (.lit 1)) (.var .nFields)) (.var .d2)) ;;
                        .stI .m_cols (.add (.var .mcols) (.add (.add (.mul (.lit 3) (.var .nFields)) (.mul (.var .nnz) (.var .d1))) (.var .d2))) (.add (.mul (.sub (.var .i) (.lit 1)) (.var .nFields)) (.var .d2)) ;;
                        .stI .m_cols (.add (.var .mcols) (.add (.add (.mul (.lit 4) (.var .nFields)) (.mul (.var .nnz) (.var .d1))) (.var .d2))) (.add (.mul (.var .i) (.var .nFields)) (.var .d2)) ;;
                        .stI .m_cols (.add (.var .mcols) (.add (.add (.mul (.lit 5) (.var .nFields)) (.mul (.var .nnz) (.var .d1))) (.var .d2))) (.add (.mul (.add (.var .i) (.lit 1)) (.var .nFields)) (.var .d2)) ;;
                        .stI .m_cols (.add (.var .mcols) (.add (.add (.mul (.lit 6) (.var .nFields)) (.mul (.var .nnz) (.var .d1))) (.var .d2))) (.add (.mul (.sub (.add (.var .i) (.var .nx)) (.lit 1)) (.var .nFields)) (.var .d2)) ;;
                        .stI .m_cols (.add (.var .mcols) (.add (.add (.mul (.lit 7) (.var .nFields)) (.mul (.var .nnz) (.var .d1))) (.var .d2))) (.add (.mul (.add (.var .i) (.var .nx)) (.var .nFields)) (.var .d2)) ;;
                        .stI .m_cols (.add (.var .mcols) (.add (.add (.mul (.lit 8) (.var .nFields)) (.mul (.var .nnz) (.var .d1))) (.var .d2))) (.add (.mul (.add (.add (.var .i) (.var .nx)) (.lit 1)) (.var .nFields)) (.var .d2)))))))))))))

/-- `ell_init_3D`: /repo/src/ell.cpp:865-1876. -/
def t_ell_init_3D : Stmt :=
  .setI .nn (.mul (.mul (.var .nx) (.var .ny)) (.var .nz)) ;;
  .setI .nnz (.mul (.lit 27) (.var .nFields)) ;;
  .setI .nrow (.mul (.var .nn) (.var .nFields)) ;;
  .declI .mcols ;;
  .setI .m_nnz (.var .nnz) ;;
  .setI .m_nrow (.var .nrow) ;;
  .setI .m_ncol (.var .nrow) ;;
  .mallocI .m_cols (.mul (.var .nnz) (.var .nrow)) ;;
  .malloc .m_vals (.mul (.var .nnz) (.var .nrow)) ;;
  .setI .nn (.add (.add (.mul (.mul (.lit 0) (.var .nx)) (.var .ny)) (.mul (.lit 0) (.var .nx))) (.lit 0)) ;;
  .setI .mcols (.mul (.mul (.var .nn) (.var .nFields)) (.var .nnz)) ;;
  .for .d1 (.lit 0) (.var .nFields) (
    .for .d2 (.lit 0) (.var .nFields) (
      .stI .m_cols (.add (.var .mcols) (.add (.add (.mul (.lit 0) (.var .nFields)) (.mul (.var .nnz) (.var .d1))) (.var .d2))) (.lit 0) ;;
      .stI .m_cols (.add (.var .mcols) (.add (.add (.mul (.lit 1) (.var .nFields)) (.mul (.var .nnz) (.var .d1))) (.var .d2))) (.lit 0) ;;
      .stI .m_cols (.add (.var .mcols) (.add (.add (.mul (.lit 2) (.var .nFields)) (.mul (.var .nnz) (.var .d1))) (.var .d2))) (.lit 0) ;;
      .stI .m_cols (.add (.var .mcols) (.add (.add (.mul (.lit 3) (.var .nFields)) (.mul (.var .nnz) (.var .d1))) (.var .d2))) (.lit 0) ;;
      .stI .m_cols (.add (.var .mcols) (.add (.add (.mul (.lit 4) (.var .nFields)) (.mul (.var .nnz) (.var .d1))) (.var .d2))) (.lit 0) ;;
      .stI .m_cols (.add (.var .mcols) (.add (.add (.mul (.lit 5) (.var .nFields)) (.mul (.var .nnz) (.var .d1))) (.var .d2))) (.lit 0) ;;
      .stI .m_cols (.add (.var .mcols) (.add (.add (.mul (.lit 6) (.var .nFields)) (.mul (.var .nnz) (.var .d1))) (.var .d2))) (.lit 0) ;;
      .stI .m_cols (.add (.var .mcols) (.add (.add (.mul (.lit 7) (.var .nFields)) (.mul (.var .nnz) (.var .d1))) (.var .d2))) (.lit 0) ;;
      .stI .m_cols (.add (.var .mcols) (.add (.add (.mul (.lit 8) (.var .nFields)) (.mul (.var .nnz) (.var .d1))) (.var .d2))) (.lit 0) ;;
      .stI .m_cols (.add (.var .mcols) (.add (.add (.mul (.lit 9) (.var .nFields)) (.mul (.var .nnz) (.var .d1))) (.var .d2))) (.lit 0) ;;
      .stI .m_cols (.add (.var .mcols) (.add (.add (.mul (.lit 10) (.var .nFields)) (.mul (.var .nnz) (.var .d1))) (.var .d2))) (.lit 0) ;;
      .stI .m_cols (.add (.var .mcols) (.add (.add (.mul (.lit 11) (.var .nFields)) (.mul (.var .nnz) (.var .d1))) (.var .d2))) (.lit 0) ;;
      .stI .m_cols (.add (.var .mcols) (.add (.add (.mul (.lit 12) (.var .nFields)) (.mul (.var .nnz) (.var .d1))) (.var .d2))) (.lit 0) ;;
      .stI .m_cols (.add (.var .mcols) (.add (.add (.mul (.lit 13) (.var .nFields)) (.mul (.var .nnz) (.var .d1))) (.var .d2))) (.add (.mul (.var .nn) (.var .nFields)) (.var .d2)) ;;
      .stI .m_cols (.add (.var .mcols) (.add (.add (.mul (.lit 14) (.var .nFields)) (.mul (.var .nnz) (.var .d1))) (.var .d2))) (.add (.mul (.add (.var .nn) (.lit 1)) (.var .nFields)) (.var .d2)) ;;
      .stI .m_cols (.add (.var .mcols) (.add (.add (.mul (.lit 15) (.var .nFields)) (.mul (.var .nnz) (.var .d1))) (.var .d2))) (.lit 0) ;;
      .stI .m_cols (.add (.var .mcols) (.add (.add (.mul (.lit 16) (.var .nFields)) (.mul (.var .nnz) (.var .d1))) (.var .d2))) (.add (.mul (.add (.var .nn) (.var .nx)) (.var .nFields)) (.var .d2)) ;;
      .stI .m_cols (.add (.var .mcols) (.add (.add (.mul (.lit 17) (.var .nFields)) (.mul (.var .nnz) (.var .d1))) (.var .d2))) (.add (.mul (.add (.add (.var .nn) (.var .nx)) (.lit 1)) (.var .nFields)) (.var .d2)) ;;
      .stI .m_cols (.add (.var .mcols) (.add (.add (.mul (.lit 18) (.var .nFields)) (.mul (.var .nnz) (.var .d1))) (.var .d2))) (.lit 0) ;;
      .stI .m_cols (.add (.var .mcols) (.add (.add (.mul (.lit 19) (.var .nFields)) (.mul (.var .nnz) (.var .d1))) (.var .d2))) (.lit 0) ;;
      .stI .m_cols (.add (.var .mcols) (.add (.add (.mul (.lit 20) (.var .nFields)) (.mul (.var .nnz) (.var .d1))) (.var .d2))) (.lit 0) ;;
      .stI .m_cols (.add (.var .mcols) (.add (.add (.mul (.lit 21) (.var .nFields)) (.mul (.var .nnz) (.var .d1))) (.var .d2))) (.lit 0) ;;
      .stI .m_cols (.add (.var .mcols) (.add (.add (.mul (.lit 22) (.var .nFields)) (.mul (.var .nnz) (.var .d1))) (.var .d2))) (.add (.mul (.add (.var .nn) (.mul (.var .nx) (.var .ny))) (.var .nFields)) (.var .d2)) ;;
      .stI .m_cols (.add (.var .mcols) (.add (.add (.mul (.lit 23) (.var .nFields)) (.mul (.var .nnz) (.var .d1))) (.var .d2))) (.add (.mul (.add (.add (.var .nn) (.mul (.var .nx) (.var .ny))) (.lit 1)) (.var .nFields)) (.var .d2)) ;;
      .stI .m_cols (.add (.var .mcols) (.add (.add (.mul (.lit 24) (.var .nFields)) (.mul (.var .nnz) (.var .d1))) (.var .d2))) (.lit 0) ;;
      .stI .m_cols (.add (.var .mcols) (.add (.add (.mul (.lit 25) (.var .nFields)) (.mul (.var .nnz) (.var .d1))) (.var .d2))) (.add (.mul (.add (.add (.var .nn) (.mul (.var .nx) (.var .ny))) (.var .nx)) (.var .nFields)) (.var .d2)) ;;
      .stI .m_cols (.add (.var .mcols) (.add (.add (.mul (.lit 26) (.var .nFields)) (.mul (.var .nnz) (.var .d1))) (.var .d2))) (.add (.mul (.add (.add (.add (.var .nn) (.mul (.var .nx) (.var .ny))) (.var .nx)) (.lit 1)) (.var .nFields)) (.var .d2)))) ;;
  .setI .nn (.add (.add (.mul (.mul (.lit 0) (.var .nx)) (.var .ny)) (.mul (.lit 0) (.var .nx))) (.sub (.var .nx) (.lit 1))) ;;
  .setI .mcols (.mul (.mul (.var .nn) (.var .nFields)) (.var .nnz)) ;;
  .for .d1 (.lit 0) (.var .nFields) (
    .for .d2 (.lit 0) (.var .nFields) (
      .stI .m_cols (.add (.var .mcols) (.add (.add (.mul (.lit 0) (.var .nFields)) (.mul (.var .nnz) (.var .d1))) (.var .d2))) (.lit 0) ;;
      .stI .m_cols (.add (.var .mcols) (.add (.add (.mul (.lit 1) (.var .nFields)) (.mul (.var .nnz) (.var .d1))) (.var .d2))) (.lit 0) ;;
      .stI .m_cols (.add (.var .mcols) (.add (.add (.mul (.lit 2) (.var .nFields)) (.mul (.var .nnz) (.var .d1))) (.var .d2))) (.lit 0) ;;
      .stI .m_cols (.add (.var .mcols) (.add (.add (.mul (.lit 3) (.var .nFields)) (.mul (.var .nnz) (.var .d1))) (.var .d2))) (.lit 0) ;;
      .stI .m_cols (.add (.var .mcols) (.add (.add (.mul (.lit 4) (.var .nFields)) (.mul (.var .nnz) (.var .d1))) (.var .d2))) (.lit 0) ;;
      .stI .m_cols (.add (.var .mcols) (.add (.add (.mul (.lit 5) (.var .nFields)) (.mul (.var .nnz) (.var .d1))) (.var .d2))) (.lit 0) ;;
      .stI .m_cols (.add (.var .mcols) (.add (.add (.mul (.lit 6) (.var .nFields)) (.mul (.var .nnz) (.var .d1))) (.var .d2))) (.lit 0) ;;
      .stI .m_cols (.add (.var .mcols) (.add (.add (.mul (.lit 7) (.var .nFields)) (.mul (.var .nnz) (.var .d1))) (.var .d2))) (.lit 0) ;;
      .stI .m_cols (.add (.var .mcols) (.add (.add (.mul (.lit 8) (.var .nFields)) (.mul (.var .nnz) (.var .d1))) (.var .d2))) (.lit 0) ;;
      .stI .m_cols (.add (.var .mcols) (.add (.add (.mul (.lit 9) (.var .nFields)) (.mul (.var .nnz) (.var .d1))) (.var .d2))) (.lit 0) ;;
      .stI .m_cols (.add (.var .mcols) (.add (.add (.mul (.lit 10) (.var .nFields)) (.mul (.var .nnz) (.var .d1))) (.var .d2))) (.lit 0) ;;
      .stI .m_cols (.add (.var .mcols) (.add (.add (.mul (.lit 11) (.var .nFields)) (.mul (.var .nnz) (.var .d1))) (.var .d2))) (.lit 0) ;;
      .stI .m_cols (.add (.var .mcols) (.add (.add (.mul (.lit 12) (.var .nFields)) (.mul (.var .nnz) (.var .d1))) (.var .d2))) (.add (.mul (.sub (.var .nn) (.lit 1)) (.var .nFields)) (.var .d2)) ;;
      .stI .m_cols (.add (.var .mcols) (.add (.add (.mul (.lit 13) (.var .nFields)) (.mul (.var .nnz) (.var .d1))) (.var .d2))) (.add (.mul (.var .nn) (.var .nFields)) (.var .d2)) ;;
      .stI .m_cols (.add (.var .mcols) (.add (.add (.mul (.lit 14) (.var .nFields)) (.mul (.var .nnz) (.var .d1))) (.var .d2))) (.lit 0) ;;
      .stI .m_cols (.add (.var .mcols) (.add (.add (.mul (.lit 15) (.var .nFields)) (.mul (.var .nnz) (.var .d1))) (.var .d2))) (.add (.mul (.sub (.add (.var .nn) (.var .nx)) (.lit 1)) (.var .nFields)) (.var .d2)) ;;
      .stI .m_cols (.add (.var .mcols) (.add (.add (.mul (.lit 16) (.var .nFields)) (.mul (.var .nnz) (.var .d1))) (.var .d2))) (.add (.mul (.add (.var .nn) (.var .nx)) (.var .nFields)) (.var .d2)) ;;
      .stI .m_cols (.add (.var .mcols) (.add (.add (.mul (.lit 17) (.var .nFields)) (.mul (.var .nnz) (.var .d1))) (.var .d2))) (.lit 0) ;;
      .stI .m_cols (.add (.var .mcols) (.add (.add (.mul (.lit 18) (.var .nFields)) (.mul (.var .nnz) (.var .d1))) (.var .d2))) (.lit 0) ;;
      .stI .m_cols (.add (.var .mcols) (.add (.add (.mul (.lit 19) (.var .nFields)) (.mul (.var .nnz) (.var .d1))) (.var .d2))) (.lit 0) ;;
      .stI .m_cols (.add (.var .mcols) (.add (.add (.mul (.lit 20) (.var .nFields)) (.mul (.var .nnz) (.var .d1))) (.var .d2))) (.lit 0) ;;
      .stI .m_cols (.add (.var .mcols) (.add (.add (.mul (.lit 21) (.var .nFields)) (.mul (.var .nnz) (.var .d1))) (.var .d2))) (.add (.mul (.sub (.add (.var .nn) (.mul (.var .nx) (.var .ny))) (.lit 1)) (.var .nFields)) (.var .d2)) ;;
      .stI .m_cols (.add (.var .mcols) (.add (.add (.mul (.lit 22) (.var .nFields)) (.mul (.var .nnz) (.var .d1))) (.var .d2))) (.add (.mul (.add (.var .nn) (.mul (.var .nx) (.var .ny))) (.var .nFields)) (.var .d2)) ;;
      .stI .m_cols (.add (.var .mcols) (.add (.add (.mul (.lit 23) (.var .nFields)) (.mul (.var .nnz) (.var .d1))) (.var .d2))) (.lit 0) ;;
      .stI .m_cols (.add (.var .mcols) (.add (.add (.mul (.lit 24) (.var .nFields)) (.mul (.var .nnz) (.var .d1))) (.var .d2))) (.add (.mul (.sub (.add (.add (.var .nn) (.mul (.var .nx) (.var .ny))) (.var .nx)) (.lit 1)) (.var .nFields)) (.var .d2)) ;;
      .stI .m_cols (.add (.var .mcols) (.add (.add (.mul (.lit 25) (.var .nFields)) (.mul (.var .nnz) (.var .d1))) (.var .d2))) (.add (.mul (.add (.add (.var .nn) (.mul (.var .nx) (.var .ny))) (.var .nx)) (.var .nFields)) (.var .d2)) ;;
      .stI .m_cols (.add (.var .mcols) (.add (.add (.mul (.lit 26) (.var .nFields)) (.mul (.var .nnz) (.var .d1))) (.var .d2))) (.lit 0))) ;;
  .setI .nn (.add (.add (.mul (.mul (.lit 0) (.var .nx)) (.var .ny)) (.mul (.sub (.var .ny) (.lit 1)) (.var .nx))) (.sub (.var .nx) (.lit 1))) ;;
  .setI .mcols (.mul (.mul (.var .nn) (.var .nFields)) (.var .nnz)) ;;
  .for .d1 (.lit 0) (.var .nFields) (
    .for .d2 (.lit 0) (.var .nFields) (
      .stI .m_cols (.add (.var .mcols) (.add (.add (.mul (.lit 0) (.var .nFields)) (.mul (.var .nnz) (.var .d1))) (.var .d2))) (.lit 0) ;;
      .stI .m_cols (.add (.var .mcols) (.add (.add (.mul (.lit 1) (.var .nFields)) (.mul (.var .nnz) (.var .d1))) (.var .d2))) (.lit 0) ;;
      .stI .m_cols (.add (.var .mcols) (.add (.add (.mul (.lit 2) (.var .nFields)) (.mul (.var .nnz) (.var .d1))) (.var .d2))) (.lit 0) ;;
      .stI .m_cols (.add (.var .mcols) (.add (.add (.mul (.lit 3) (.var .nFields)) (.mul (.var .nnz) (.var .d1))) (.var .d2))) (.lit 0) ;;
      .stI .m_cols (.add (.var .mcols) (.add (.add (.mul (.lit 4) (.var .nFields)) (.mul (.var .nnz) (.var .d1))) (.var .d2))) (.lit 0) ;;
      .stI .m_cols (.add (.var .mcols) (.add (.add (.mul (.lit 5) (.var .nFields)) (.mul (.var .nnz) (.var .d1))) (.var .d2))) (.lit 0) ;;
      .stI .m_cols (.add (.var .mcols) (.add (.add (.mul (.lit 6) (.var .nFields)) (.mul (.var .nnz) (.var .d1))) (.var .d2))) (.lit 0) ;;
      .stI .m_cols (.add (.var .mcols) (.add (.add (.mul (.lit 7) (.var .nFields)) (.mul (.var .nnz) (.var .d1))) (.var .d2))) (.lit 0) ;;
      .stI .m_cols (.add (.var .mcols) (.add (.add (.mul (.lit 8) (.var .nFields)) (.mul (.var .nnz) (.var .d1))) (.var .d2))) (.lit 0) ;;
      .stI .m_cols (.add (.var .mcols) (.add (.add (.mul (.lit 9) (.var .nFields)) (.mul (.var .nnz) (.var .d1))) (.var .d2))) (.add (.mul (.sub (.sub (.var .nn) (.var .nx)) (.lit 1)) (.var .nFields)) (.var .d2)) ;;
      .stI .m_cols (.add (.var .mcols) (.add (.add (.mul (.lit 10) (.var .nFields)) (.mul (.var .nnz) (.var .d1))) (.var .d2))) (.add (.mul (.sub (.var .nn) (.var .nx)) (.var .nFields)) (.var .d2)) ;;
      .stI .m_cols (.add (.var .mcols) (.add (.add (.mul (.lit 11) (.var .nFields)) (.mul (.var .nnz) (.var .d1))) (.var .d2))) (.lit 0) ;;
      .stI .m_cols (.add (.var .mcols) (.add (.add (.mul (.lit 12) (.var .nFields)) (.mul (.var .nnz) (.var .d1))) (.var .d2))) (.add (.mul (.sub (.var .nn) (.lit 1)) (.var .nFields)) (.var .d2)) ;;
      .stI .m_cols (.add (.var .mcols) (.add (.add (.mul (.lit 13) (.var .nFields)) (.mul (.var .nnz) (.var .d1))) (.var .d2))) (.add (.mul (.var .nn) (.var .nFields)) (.var .d2)) ;;
      .stI .m_cols (.add (.var .mcols) (.add (.add (.mul (.lit 14) (.var .nFields)) (.mul (.var .nnz) (.var .d1))) (.var .d2))) (.lit 0) ;;
      .stI .m_cols (.add (.var .mcols) (.add (.add (.mul (.lit 15) (.var .nFields)) (.mul (.var .nnz) (.var .d1))) (.var .d2))) (.lit 0) ;;
      .stI .m_cols (.add (.var .mcols) (.add (.add (.mul (.lit 16) (.var .nFields)) (.mul (.var .nnz) (.var .d1))) (.var .d2))) (.lit 0) ;;
      .stI .m_cols (.add (.var .mcols) (.add (.add (.mul (.lit 17) (.var .nFields)) (.mul (.var .nnz) (.var .d1))) (.var .d2))) (.lit 0) ;;
      .stI .m_cols (.add (.var .mcols) (.add (.add (.mul (.lit 18) (.var .nFields)) (.mul (.var .nnz) (.var .d1))) (.var .d2))) (.add (.mul (.sub (.sub (.add (.var .nn) (.mul (.var .nx) (.var .ny))) (.var .nx)) (.lit 1)) (.var .nFields)) (.var .d2)) ;;
      .stI .m_cols (.add (.var .mcols) (.add (.add (.mul (.lit 19) (.var .nFields)) (.mul (.var .nnz) (.var .d1))) (.var .d2))) (.add (.mul (.sub (.add (.var .nn) (.mul (.var .nx) (.var .ny))) (.var .nx)) (.var .nFields)) (.var .d2)) ;;
      .stI .m_cols (.add (.var .mcols) (.add (.add (.mul (.lit 20) (.var .nFields)) (.mul (.var .nnz) (.var .d1))) (.var .d2))) (.lit 0) ;;
      .stI .m_cols (.add (.var .mcols) (.add (.add (.mul (.lit 21) (.var .nFields)) (.mul (.var .nnz) (.var .d1))) (.var .d2))) (.add (.mul (.sub (.add (.var .nn) (.mul (.var .nx) (.var .ny))) (.lit 1)) (.var .nFields)) (.var .d2)) ;;
      .stI .m_cols (.add (.var .mcols) (.add (.add (.mul (.lit 22) (.var .nFields)) (.mul (.var .nnz) (.var .d1))) (.var .d2))) (.add (.mul (.add (.var .nn) (.mul (.var .nx) (.var .ny))) (.var .nFields)) (.var .d2)) ;;
      .stI .m_cols (.add (.var .mcols) (.add (.add (.mul (.lit 23) (.var .nFields)) (.mul (.var .nnz) (.var .d1))) (.var .d2))) (.lit 0) ;;
      .stI .m_cols (.add (.var .mcols) (.add (.add (.mul (.lit 24) (.var .nFields)) (.mul (.var .nnz) (.var .d1))) (.var .d2))) (.lit 0) ;;
      .stI .m_cols (.add (.var .mcols) (.add (.add (.mul (.lit 25) (.var .nFields)) (.mul (.var .nnz) (.var .d1))) (.var .d2))) (.lit 0) ;;
      .stI .m_cols (.add (.var .mcols) (.add (.add (.mul (.lit 26) (.var .nFields)) (.mul (.var .nnz) (.var .d1))) (.var .d2))) (.lit 0))) ;;
  .setI .nn (.add (.add (.mul (.mul (.lit 0) (.var .nx)) (.var .ny)) (.mul (.sub (.var .ny) (.lit 1)) (.var .nx))) (.lit 0)) ;;
  .setI .mcols (.mul (.mul (.var .nn) (.var .nFields)) (.var .nnz)) ;;
  .for .d1 (.lit 0) (.var .nFields) (
    .for .d2 (.lit 0) (.var .nFields) (
      .stI .m_cols (.add (.var .mcols) (.add (.add (.mul (.lit 0) (.var .nFields)) (.mul (.var .nnz) (.var .d1))) (.var .d2))) (.lit 0) ;;
      .stI .m_cols (.add (.var .mcols) (.add (.add (.mul (.lit 1) (.var .nFields)) (.mul (.var .nnz) (.var .d1))) (.var .d2))) (.lit 0) ;;
      .stI .m_cols (.add (.var .mcols) (.add (.add (.mul (.lit 2) (.var .nFields)) (.mul (.var .nnz) (.var .d1))) (.var .d2))) (.lit 0) ;;
      .stI .m_cols (.add (.var .mcols) (.add (.add (.mul (.lit 3) (.var .nFields)) (.mul (.var .nnz) (.var .d1))) (.var .d2))) (.lit 0) ;;
      .stI .m_cols (.add (.var .mcols) (.add (.add (.mul (.lit 4) (.var .nFields)) (.mul (.var .nnz) (.var .d1))) (.var .d2))) (.lit 0) ;;
      .stI .m_cols (.add (.var .mcols) (.add (.add (.mul (.lit 5) (.var .nFields)) (.mul (.var .nnz) (.var .d1))) (.var .d2))) (.lit 0) ;;
      .stI .m_cols (.add (.var .mcols) (.add (.add (.mul (.lit 6) (.var .nFields)) (.mul (.var .nnz) (.var .d1))) (.var .d2))) (.lit 0) ;;
      .stI .m_cols (.add (.var .mcols) (.add (.add (.mul (.lit 7) (.var .nFields)) (.mul (.var .nnz) (.var .d1))) (.var .d2))) (.lit 0) ;;
      .stI .m_cols (.add (.var .mcols) (.add (.add (.mul (.lit 8) (.var .nFields)) (.mul (.var .nnz) (.var .d1))) (.var .d2))) (.lit 0) ;;
      .stI .m_cols (.add (.var .mcols) (.add (.add (.mul (.lit 9) (.var .nFields)) (.mul (.var .nnz) (.var .d1))) (.var .d2))) (.lit 0) ;;
      .stI .m_cols (.add (.var .mcols) (.add (.add (.mul (.lit 10) (.var .nFields)) (.mul (.var .nnz) (.var .d1))) (.var .d2))) (.add (.mul (.sub (.var .nn) (.var .nx)) (.var .nFields)) (.var .d2)) ;;
      .stI .m_cols (.add (.var .mcols) (.add (.add (.mul (.lit 11) (.var .nFields)) (.mul (.var .nnz) (.var .d1))) (.var .d2))) (.add (.mul (.add (.sub (.var .nn) (.var .nx)) (.lit 1)) (.var .nFields)) (.var .d2)) ;;
      .stI .m_cols (.add (.var .mcols) (.add (.add (.mul (.lit 12) (.var .nFields)) (.mul (.var .nnz) (.var .d1))) (.var .d2))) (.lit 0) ;;
      .stI .m_cols (.add (.var .mcols) (.add (.add (.mul (.lit 13) (.var .nFields)) (.mul (.var .nnz) (.var .d1))) (.var .d2))) (.add (.mul (.var .nn) (.var .nFields)) (.var .d2)) ;;
      .stI .m_cols (.add (.var .mcols) (.add (.add (.mul (.lit 14) (.var .nFields)) (.mul (.var .nnz) (.var .d1))) (.var .d2))) (.add (.mul (.add (.var .nn) (.lit 1)) (.var .nFields)) (.var .d2)) ;;
      .stI .m_cols (.add (.var .mcols) (.add (.add (.mul (.lit 15) (.var .nFields)) (.mul (.var .nnz) (.var .d1))) (.var .d2))) (.lit 0) ;;
      .stI .m_cols (.add (.var .mcols) (.add (.add (.mul (.lit 16) (.var .nFields)) (.mul (.var .nnz) (.var .d1))) (.var .d2))) (.lit 0) ;;
      .stI .m_cols (.add (.var .mcols) (.add (.add (.mul (.lit 17) (.var .nFields)) (.mul (.var .nnz) (.var .d1))) (.var .d2))) (.lit 0) ;;
      .stI .m_cols (.add (.var .mcols) (.add (.add (.mul (.lit 18) (.var .nFields)) (.mul (.var .nnz) (.var .d1))) (.var .d2))) (.lit 0) ;;
      .stI .m_cols (.add (.var .mcols) (.add (.add (.mul (.lit 19) (.var .nFields)) (.mul (.var .nnz) (.var .d1))) (.var .d2))) (.add (.mul (.sub (.add (.var .nn) (.mul (.var .nx) (.var .ny))) (.var .nx)) (.var .nFields)) (.var .d2)) ;;
      .stI .m_cols (.add (.var .mcols) (.add (.add (.mul (.lit 20) (.var .nFields)) (.mul (.var .nnz) (.var .d1))) (.var .d2))) (.add (.mul (.add (.sub (.add (.var .nn) (.mul (.var .nx) (.var .ny))) (.var .nx)) (.lit 1)) (.var .nFields)) (.var .d2)) ;;
      .stI .m_cols (.add (.var .mcols) (.add (.add (.mul (.lit 21) (.var .nFields)) (.mul (.var .nnz) (.var .d1))) (.var .d2))) (.lit 0) ;;
      .stI .m_cols (.add (.var .mcols) (.add (.add (.mul (.lit 22) (.var .nFields)) (.mul (.var .nnz) (.var .d1))) (.var .d2))) (.add (.mul (.add (.var .nn) (.mul (.var .nx) (.var .ny))) (.var .nFields)) (.var .d2)) ;;
      .stI .m_cols (.add (.var .mcols) (.add (.add (.mul (.lit 23) (.var .nFields)) (.mul (.var .nnz) (.var .d1))) (.var .d2))) (.add (.mul (.add (.add (.var .nn) (.mul (.var .nx) (.var .ny))) (.lit 1)) (.var .nFields)) (.var .d2)) ;;
      .stI .m_cols (.add (.var .mcols) (.add (.add (.mul (.lit 24) (.var .nFields)) (.mul (.var .nnz) (.var .d1))) (.var .d2))) (.lit 0) ;;
      .stI .m_cols (.add (.var .mcols) (.add (.add (.mul (.lit 25) (.var .nFields)) (.mul (.var .nnz) (.var .d1))) (.var .d2))) (.lit 0) ;;
      .stI .m_cols (.add (.var .mcols) (.add (.add (.mul (.lit 26) (.var .nFields)) (.mul (.var .nnz) (.var .d1))) (.var .d2))) (.lit 0))) ;;
  .setI .nn (.add (.add (.mul (.mul (.sub (.var .nz) (.lit 1)) (.var .nx)) (.var .ny)) (.mul (.lit 0) (.var .nx))) (.lit 0)) ;;
  .setI .mcols (.mul (.mul (.var .nn) (.var .nFields)) (.var .nnz)) ;;
  .for .d1 (.lit 0) (.var .nFields) (
    .for .d2 (.lit 0) (.var .nFields) (
      .stI .m_cols (.add (.var .mcols) (.add (.add (.mul (.lit 0) (.var .nFields)) (.mul (.var .nnz) (.var .d1))) (.var .d2))) (.lit 0) ;;
      .stI .m_cols (.add (.var .mcols) (.add (.add (.mul (.lit 1) (.var .nFields)) (.mul (.var .nnz) (.var .d1))) (.var .d2))) (.lit 0) ;;
      .stI .m_cols (.add (.var .mcols) (.add (.add (.mul (.lit 2) (.var .nFields)) (.mul (.var .nnz) (.var .d1))) (.var .d2))) (.lit 0) ;;
      .stI .m_cols (.add (.var .mcols) (.add (.add (.mul (.lit 3) (.var .nFields)) (.mul (.var .nnz) (.var .d1))) (.var .d2))) (.lit 0) ;;
      .stI .m_cols (.add (.var .mcols) (.add (.add (.mul (.lit 4) (.var .nFields)) (.mul (.var .nnz) (.var .d1))) (.var .d2))) (.add (.mul (.sub (.var .nn) (.mul (.var .nx) (.var .ny))) (.var .nFields)) (.var .d2)) ;;
      .stI .m_cols (.add (.var .mcols) (.add (.add (.mul (.lit 5) (.var .nFields)) (.mul (.var .nnz) (.var .d1))) (.var .d2))) (.add (.mul (.add (.sub (.var .nn) (.mul (.var .nx) (.var .ny))) (.lit 1)) (.var .nFields)) (.var .d2)) ;;
      .stI .m_cols (.add (.var .mcols) (.add (.add (.mul (.lit 6) (.var .nFields)) (.mul (.var .nnz) (.var .d1))) (.var .d2))) (.lit 0) ;;
      .stI .m_cols (.add (.var .mcols) (.add (.add (.mul (.lit 7) (.var .nFields)) (.mul (.var .nnz) (.var .d1))) (.var .d2))) (.add (.mul (.add (.sub (.var .nn) (.mul (.var .nx) (.var .ny))) (.var .nx)) (.var .nFields)) (.var .d2)) ;;
      .stI .m_cols (.add (.var .mcols) (.add (.add (.mul (.lit 8) (.var .nFields)) (.mul (.var .nnz) (.var .d1))) (.var .d2))) (.add (.mul (.add (.add (.sub (.var .nn) (.mul (.var .nx) (.var .ny))) (.var .nx)) (.lit 1)) (.var .nFields)) (.var .d2)) ;;
      .stI .m_cols (.add (.var .mcols) (.add (.add (.mul (.lit 9) (.var .nFields)) (.mul (.var .nnz) (.var .d1))) (.var .d2))) (.lit 0) ;;
      .stI .m_cols (.add (.var .mcols) (.add (.add (.mul (.lit 10) (.var .nFields)) (.mul (.var .nnz) (.var .d1))) (.var .d2))) (.lit 0) ;;
      .stI .m_cols (.add (.var .mcols) (.add (.add (.mul (.lit 11) (.var .nFields)) (.mul (.var .nnz) (.var .d1))) (.var .d2))) (.lit 0) ;;
      .stI .m_cols (.add (.var .mcols) (.add (.add (.mul (.lit 12) (.var .nFields)) (.mul (.var .nnz) (.var .d1))) (.var .d2))) (.lit 0) ;;
      .stI .m_cols (.add (.var .mcols) (.add (.add (.mul (.lit 13) (.var .nFields)) (.mul (.var .nnz) (.var .d1))) (.var .d2))) (.add (.mul (.var .nn) (.var .nFields)) (.var .d2)) ;;
      .stI .m_cols (.add (.var .mcols) (.add (.add (.mul (.lit 14) (.var .nFields)) (.mul (.var .nnz) (.var .d1))) (.var .d2))) (.add (.mul (.add (.var .nn) (.lit 1)) (.var .nFields)) (.var .d2)) ;;
      .stI .m_cols (.add (.var .mcols) (.add (.add (.mul (.lit 15) (.var .nFields)) (.mul (.var .nnz) (.var .d1))) (.var .d2))) (.lit 0) ;;
      .stI .m_cols (.add (.var .mcols) (.add (.add (.mul (.lit 16) (.var .nFields)) (.mul (.var .nnz) (.var .d1))) (.var .d2))) (.add (.mul (.add (.var .nn) (.var .nx)) (.var .nFields)) (.var .d2)) ;;
      .stI .m_cols (.add (.var .mcols) (.add (.add (.mul (.lit 17) (.var .nFields)) (.mul (.var .nnz) (.var .d1))) (.var .d2))) (.add (.mul (.add (.add (.var .nn) (.var .nx)) (.lit 1)) (.var .nFields)) (.var .d2)) ;;
      .stI .m_cols (.add (.var .mcols) (.add (.add (.mul (.lit 18) (.var .nFields)) (.mul (.var .nnz) (.var .d1))) (.var .d2))) (.lit 0) ;;
      .stI .m_cols (.add (.var .mcols) (.add (.add (.mul (.lit 19) (.var .nFields)) (.mul (.var .nnz) (.var .d1))) (.var .d2))) (.lit 0) ;;
      .stI .m_cols (.add (.var .mcols) (.add (.add (.mul (.lit 20) (.var .nFields)) (.mul (.var .nnz) (.var .d1))) (.var .d2))) (.lit 0) ;;
      .stI .m_cols (.add (.var .mcols) (.add (.add (.mul (.lit 21) (.var .nFields)) (.mul (.var .nnz) (.var .d1))) (.var .d2))) (.lit 0) ;;
      .stI .m_cols (.add (.var .mcols) (.add (.add (.mul (.lit 22) (.var .nFields)) (.mul (.var .nnz) (.var .d1))) (.var .d2))) (.lit 0) ;;
      .stI .m_cols (.add (.var .mcols) (.add (.add (.mul (.lit 23) (.var .nFields)) (.mul (.var .nnz) (.var .d1))) (.var .d2))) (.lit 0) ;;
      .stI .m_cols (.add (.var .mcols) (.add (.add (.mul (.lit 24) (.var .nFields)) (.mul (.var .nnz) (.var .d1))) (.var .d2))) (.lit 0) ;;
      .stI .m_cols (.add (.var .mcols) (.add (.add (.mul (.lit 25) (.var .nFields)) (.mul (.var .nnz) (.var .d1))) (.var .d2))) (.lit 0) ;;
      .stI .m_cols (.add (.var .mcols) (.add (.add (.mul (.lit 26) (.var .nFields)) (.mul (.var .nnz) (.var .d1))) (.var .d2))) (.lit 0))) ;;
  .setI .nn (.add (.add (.mul (.mul (.sub (.var .nz) (.lit 1)) (.var .nx)) (.var .ny)) (.mul (.lit 0) (.var .nx))) (.sub (.var .nx) (.lit 1))) ;;
  .setI .mcols (.mul (.mul (.var .nn) (.var .nFields)) (.var .nnz)) ;;
  .for .d1 (.lit 0) (.var .nFields) (
    .for .d2 (.lit 0) (.var .nFields) (
      .stI .m_cols (.add (.var .mcols) (.add (.add (.mul (.lit 0) (.var .nFields)) (.mul (.var .nnz) (.var .d1))) (.var .d2))) (.lit 0) ;;
      .stI .m_cols (.add (.var .mcols) (.add (.add (.mul (.lit 1) (.var .nFields)) (.mul (.var .nnz) (.var .d1))) (.var .d2))) (.lit 0) ;;
      .stI .m_cols (.add (.var .mcols) (.add (.add (.mul (.lit 2) (.var .nFields)) (.mul (.var .nnz) (.var .d1))) (.var .d2))) (.lit 0) ;;
      .stI .m_cols (.add (.var .mcols) (.add (.add (.mul (.lit 3) (.var .nFields)) (.mul (.var .nnz) (.var .d1))) (.var .d2))) (.add (.mul (.sub (.sub (.var .nn) (.mul (.var .nx) (.var .ny))) (.lit 1)) (.var .nFields)) (.var .d2)) ;;
      .stI .m_cols (.add (.var .mcols) (.add (.add (.mul (.lit 4) (.var .nFields)) (.mul (.var .nnz) (.var .d1))) (.var .d2))) (.add (.mul (.sub (.var .nn) (.mul (.var .nx) (.var .ny))) (.var .nFields)) (.var .d2)) ;;
      .stI .m_cols (.add (.var .mcols) (.add (.add (.mul (.lit 5) (.var .nFields)) (.mul (.var .nnz) (.var .d1))) (.var .d2))) (.lit 0) ;;
      .stI .m_cols (.add (.var .mcols) (.add (.add (.mul (.lit 6) (.var .nFields)) (.mul (.var .nnz) (.var .d1))) (.var .d2))) (.add (.mul (.sub (.add (.sub (.var .nn) (.mul (.var .nx) (.var .ny))) (.var .nx)) (.lit 1)) (.var .nFields)) (.var .d2)) ;;
      .stI .m_cols (.add (.var .mcols) (.add (.add (.mul (.lit 7) (.var .nFields)) (.mul (.var .nnz) (.var .d1))) (.var .d2))) (.add (.mul (.add (.sub (.var .nn) (.mul (.var .nx) (.var .ny))) (.var .nx)) (.var .nFields)) (.var .d2)) ;;
      .stI .m_cols (.add (.var .mcols) (.add (.add (.mul (.lit 8) (.var .nFields)) (.mul (.var .nnz) (.var .d1))) (.var .d2))) (.lit 0) ;;
      .stI .m_cols (.add (.var .mcols) (.add (.add (.mul (.lit 9) (.var .nFields)) (.mul (.var .nnz) (.var .d1))) (.var .d2))) (.lit 0) ;;
      .stI .m_cols (.add (.var .mcols) (.add (.add (.mul (.lit 10) (.var .nFields)) (.mul (.var .nnz) (.var .d1))) (.var .d2))) (.lit 0) ;;
      .stI .m_cols (.add (.var .mcols) (.add (.add (.mul (.lit 11) (.var .nFields)) (.mul (.var .nnz) (.var .d1))) (.var .d2))) (.lit 0) ;;
      .stI .m_cols (.add (.var .mcols) (.add (.add (.mul (.lit 12) (.var .nFields)) (.mul (.var .nnz) (.var .d1))) (.var .d2))) (.add (.mul (.sub (.var .nn) (.lit 1)) (.var .nFields)) (.var .d2)) ;;
      .stI .m_cols (.add (.var .mcols) (.add (.add (.mul (.lit 13) (.var .nFields)) (.mul (.var .nnz) (.var .d1))) (.var .d2))) (.add (.mul (.var .nn) (.var .nFields)) (.var .d2)) ;;
      .stI .m_cols (.add (.var .mcols) (.add (.add (.mul (.lit 14) (.var .nFields)) (.mul (.var .nnz) (.var .d1))) (.var .d2))) (.lit 0) ;;
      .stI .m_cols (.add (.var .mcols) (.add (.add (.mul (.lit 15) (.var .nFields)) (.mul (.var .nnz) (.var .d1))) (.var .d2))) (.add (.mul (.sub (.add (.var .nn) (.var .nx)) (.lit 1)) (.var .nFields)) (.var .d2)) ;;
      .stI .m_cols (.add (.var .mcols) (.add (.add (.mul (.lit 16) (.var .nFields)) (.mul (.var .nnz) (.var .d1))) (.var .d2))) (.add (.mul (.add (.var .nn) (.var .nx)) (.var .nFields)) (.var .d2)) ;;
      .stI .m_cols (.add (.var .mcols) (.add (.add (.mul (.lit 17) (.var .nFields)) (.mul (.var .nnz) (.var .d1))) (.var .d2))) (.lit 0) ;;
      .stI .m_cols (.add (.var .mcols) (.add (.add (.mul (.lit 18) (.var .nFields)) (.mul (.var .nnz) (.var .d1))) (.var .d2))) (.lit 0) ;;
      .stI .m_cols (.add (.var .mcols) (.add (.add (.mul (.lit 19) (.var .nFields)) (.mul (.var .nnz) (.var .d1))) (.var .d2))) (.lit 0) ;;
      .stI .m_cols (.add (.var .mcols) (.add (.add (.mul (.lit 20) (.var .nFields)) (.mul (.var .nnz) (.var .d1))) (.var .d2))) (.lit 0) ;;
      .stI .m_cols (.add (.var .mcols) (.add (.add (.mul (.lit 21) (.var .nFields)) (.mul (.var .nnz) (.var .d1))) (.var .d2))) (.lit 0) ;;
      .stI .m_cols (.add (.var .mcols) (.add (.add (.mul (.lit 22) (.var .nFields)) (.mul (.var .nnz) (.var .d1))) (.var .d2))) (.lit 0) ;;
      .stI .m_cols (.add (.var .mcols) (.add (.add (.mul (.lit 23) (.var .nFields)) (.mul (.var .nnz) (.var .d1))) (.var .d2))) (.lit 0) ;;
      .stI .m_cols (.add (.var .mcols) (.add (.add (.mul (.lit 24) (.var .nFields)) (.mul (.var .nnz) (.var .d1))) (.var .d2))) (.lit 0) ;;
      .stI .m_cols (.add (.var .mcols) (.add (.add (.mul (.lit 25) (.var .nFields)) (.mul (.var .nnz) (.var .d1))) (.var .d2))) (.lit 0) ;;
      .stI .m_cols (.add (.var .mcols) (.add (.add (.mul (.lit 26) (.var .nFields)) (.mul (.var .nnz) (.var .d1))) (.var .d2))) (.lit 0))) ;;
  .setI .nn (.add (.add (.mul (.mul (.sub (.var .nz) (.lit 1)) (.var .nx)) (.var .ny)) (.mul (.sub (.var .ny) (.lit 1)) (.var .nx))) (.sub (.var .nx) (.lit 1))) ;;
  .setI .mcols (.mul (.mul (.var .nn) (.var .nFields)) (.var .nnz)) ;;
  .for .d1 (.lit 0) (.var .nFields) (
    .for .d2 (.lit 0) (.var .nFields) (
      .stI .m_cols (.add (.var .mcols) (.add (.add (.mul (.lit 0) (.var .nFields)) (.mul (.var .nnz) (.var .d1))) (.var .d2))) (.add (.mul (.sub (.sub (.sub (.var .nn) (.mul (.var .nx) (.var .ny))) (.var .nx)) (.lit 1)) (.var .nFields)) (.var .d2)) ;;
      .stI .m_cols (.add (.var .mcols) (.add (.add (.mul (.lit 1) (.var .nFields)) (.mul (.var .nnz) (.var .d1))) (.var .d2))) (.add (.mul (.sub (.sub (.var .nn) (.mul (.var .nx) (.var .ny))) (.var .nx)) (.var .nFields)) (.var .d2)) ;;
      .stI .m_cols (.add (.var .mcols) (.add (.add (.mul (.lit 2) (.var .nFields)) (.mul (.var .nnz) (.var .d1))) (.var .d2))) (.lit 0) ;;
      .stI .m_cols (.add (.var .mcols) (.add (.add (.mul (.lit 3) (.var .nFields)) (.mul (.var .nnz) (.var .d1))) (.var .d2))) (.add (.mul (.sub (.sub (.var .nn) (.mul (.var .nx) (.var .ny))) (.lit 1)) (.var .nFields)) (.var .d2)) ;;
      .stI .m_cols (.add (.var .mcols) (.add (.add (.mul (.lit 4) (.var .nFields)) (.mul (.var .nnz) (.var .d1))) (.var .d2))) (.add (.mul (.sub (.var .nn) (.mul (.var .nx) (.var .ny))) (.var .nFields)) (.var .d2)) ;;
      .stI .m_cols (.add (.var .mcols) (.add (.add (.mul (.lit 5) (.var .nFields)) (.mul (.var .nnz) (.var .d1))) (.var .d2))) (.lit 0) ;;
      .stI .m_cols (.add (.var .mcols) (.add (.add (.mul (.lit 6) (.var .nFields)) (.mul (.var .nnz) (.var .d1))) (.var .d2))) (.lit 0) ;;
      .stI .m_cols (.add (.var .mcols) (.add (.add (.mul (.lit 7) (.var .nFields)) (.mul (.var .nnz) (.var .d1))) (.var .d2))) (.lit 0) ;;
      .stI .m_cols (.add (.var .mcols) (.add (.add (.mul (.lit 8) (.var .nFields)) (.mul (.var .nnz) (.var .d1))) (.var .d2))) (.lit 0) ;;
      .stI .m_cols (.add (.var .mcols) (.add (.add (.mul (.lit 9) (.var .nFields)) (.mul (.var .nnz) (.var .d1))) (.var .d2))) (.add (.mul (.sub (.sub (.var .nn) (.var .nx)) (.lit 1)) (.var .nFields)) (.var .d2)) ;;
      .stI .m_cols (.add (.var .mcols) (.add (.add (.mul (.lit 10) (.var .nFields)) (.mul (.var .nnz) (.var .d1))) (.var .d2))) (.add (.mul (.sub (.var .nn) (.var .nx)) (.var .nFields)) (.var .d2)) ;;
      .stI .m_cols (.add (.var .mcols) (.add (.add (.mul (.lit 11) (.var .nFields)) (.mul (.var .nnz) (.var .d1))) (.var .d2))) (.lit 0) ;;
      .stI .m_cols (.add (.var .mcols) (.add (.add (.mul (.lit 12) (.var .nFields)) (.mul (.var .nnz) (.var .d1))) (.var .d2))) (.add (.mul (.sub (.var .nn) (.lit 1)) (.var .nFields)) (.var .d2)) ;;
      .stI .m_cols (.add (.var .mcols) (.add (.add (.mul (.lit 13) (.var .nFields)) (.mul (.var .nnz) (.var .d1))) (.var .d2))) (.add (.mul (.var .nn) (.var .nFields)) (.var .d2)) ;;
      .stI .m_cols (.add (.var .mcols) (.add (.add (.mul (.lit 14) (.var .nFields)) (.mul (.var .nnz) (.var .d1))) (.var .d2))) (.lit 0) ;;
      .stI .m_cols (.add (.var .mcols) (.add (.add (.mul (.lit 15) (.var .nFields)) (.mul (.var .nnz) (.var .d1))) (.var .d2))) (.lit 0) ;;
      .stI .m_cols (.add (.var .mcols) (.add (.add (.mul (.lit 16) (.var .nFields)) (.mul (.var .nnz) (.var .d1))) (.var .d2))) (.lit 0) ;;
      .stI .m_cols (.add (.var .mcols) (.add (.add (.mul (.lit 17) (.var .nFields)) (.mul (.var .nnz) (.var .d1))) (.var .d2))) (.lit 0) ;;
      .stI .m_cols (.add (.var .mcols) (.add (.add (.mul (.lit 18) (.var .nFields)) (.mul (.var .nnz) (.var .d1))) (.var .d2))) (.lit 0) ;;
      .stI .m_cols (.add (.var .mcols) (.add (.add (.mul (.lit 19) (.var .nFields)) (.mul (.var .nnz) (.var .d1))) (.var .d2))) (.lit 0) ;;
      .stI .m_cols (.add (.var .mcols) (.add (.add (.mul (.lit 20) (.var .nFields)) (.mul (.var .nnz) (.var .d1))) (.var .d2))) (.lit 0) ;;
      .stI .m_cols (.add (.var .mcols) (.add (.add (.mul (.lit 21) (.var .nFields)) (.mul (.var .nnz) (.var .d1))) (.var .d2))) (.lit 0) ;;
      .stI .m_cols (.add (.var .mcols) (.add (.add (.mul (.lit 22) (.var .nFields)) (.mul (.var .nnz) (.var .d1))) (.var .d2))) (.lit 0) ;;
      .stI .m_cols (.add (.var .mcols) (.add (.add (.mul (.lit 23) (.var .nFields)) (.mul (.var .nnz) (.var .d1))) (.var .d2))) (.lit 0) ;;
      .stI .m_cols (.add (.var .mcols) (.add (.add (.mul (.lit 24) (.var .nFields)) (.mul (.var .nnz) (.var .d1))) (.var .d2))) (.lit 0) ;;
      .stI .m_cols (.add (.var .mcols) (.add (.add (.mul (.lit 25) (.var .nFields)) (.mul (.var .nnz) (.var .d1))) (.var .d2))) (.lit 0) ;;
      .stI .m_cols (.add (.var .mcols) (.add (.add (.mul (.lit 26) (.var .nFields)) (.mul (.var .nnz) (.var .d1))) (.var .d2))) (.lit 0))) ;;
  .setI .nn (.add (.add (.mul (.mul (.sub (.var .nz) (.lit 1)) (.var .nx)) (.var .ny)) (.mul (.sub (.var .ny) (.lit 1)) (.var .nx))) (.lit 0)) ;;
  .setI .mcols (.mul (.mul (.var .nn) (.var .nFields)) (.var .nnz)) ;;
  .for .d1 (.lit 0) (.var .nFields) (
    .for .d2 (.lit 0) (.var .nFields) (
      .stI .m_cols (.add (.var .mcols) (.add (.add (.mul (.lit 0) (.var .nFields)) (.mul (.var .nnz) (.var .d1))) (.var .d2))) (.lit 0) ;;
      .stI .m_cols (.add (.var .mcols) (.add (.add (.mul (.lit 1) (.var .nFields)) (.mul (.var .nnz) (.var .d1))) (.var .d2))) (.add (.mul (.sub (.sub (.var .nn) (.mul (.var .nx) (.var .ny))) (.var .nx)) (.var .nFields)) (.var .d2)) ;;
      .stI .m_cols (.add (.var .mcols) (.add (.add (.mul (.lit 2) (.var .nFields)) (.mul (.var .nnz) (.var .d1))) (.var .d2))) (.add (.mul (.add (.sub (.sub (.var .nn) (.mul (.var .nx) (.var .ny))) (.var .nx)) (.lit 1)) (.var .nFields)) (.var .d2)) ;;
      .stI .m_cols (.add (.var .mcols) (.add (.add (.mul (.lit 3) (.var .nFields)) (.mul (.var .nnz) (.var .d1))) (.var .d2))) (.lit 0) ;;
      .stI .m_cols (.add (.var .mcols) (.add (.add (.mul (.lit 4) (.var .nFields)) (.mul (.var .nnz) (.var .d1))) (.var .d2))) (.add (.mul (.sub (.var .nn) (.mul (.var .nx) (.var .ny))) (.var .nFields)) (.var .d2)) ;;
      .stI .m_cols (.add (.var .mcols) (.add (.add (.mul (.lit 5) (.var .nFields)) (.mul (.var .nnz) (.var .d1))) (.var .d2))) (.add (.mul (.add (.sub (.var .nn) (.mul (.var .nx) (.var .ny))) (.lit 1)) (.var .nFields)) (.var .d2)) ;;
      .stI .m_cols (.add (.var .mcols) (.add (.add (.mul (.lit 6) (.var .nFields)) (.mul (.var .nnz) (.var .d1))) (.var .d2))) (.lit 0) ;;
      .stI .m_cols (.add (.var .mcols) (.add (.add (.mul (.lit 7) (.var .nFields)) (.mul (.var .nnz) (.var .d1))) (.var .d2))) (.lit 0) ;;
      .stI .m_cols (.add (.var .mcols) (.add (.add (.mul (.lit 8) (.var .nFields)) (.mul (.var .nnz) (.var .d1))) (.var .d2))) (.lit 0) ;;
      .stI .m_cols (.add (.var .mcols) (.add (.add (.mul (.lit 9) (.var .nFields)) (.mul (.var .nnz) (.var .d1))) (.var .d2))) (.lit 0) ;;
      .stI .m_cols (.add (.var .mcols) (.add (.add (.mul (.lit 10) (.var .nFields)) (.mul (.var .nnz) (.var .d1))) (.var .d2))) (.add (.mul (.sub (.var .nn) (.var .nx)) (.var .nFields)) (.var .d2)) ;;
      .stI .m_cols (.add (.var .mcols) (.add (.add (.mul (.lit 11) (.var .nFields)) (.mul (.var .nnz) (.var .d1))) (.var .d2))) (.add (.mul (.add (.sub (.var .nn) (.var .nx)) (.lit 1)) (.var .nFields)) (.var .d2)) ;;
      .stI .m_cols (.add (.var .mcols) (.add (.add (.mul (.lit 12) (.var .nFields)) (.mul (.var .nnz) (.var .d1))) (.var .d2))) (.lit 0) ;;
      .stI .m_cols (.add (.var .mcols) (.add (.add (.mul (.lit 13) (.var .nFields)) (.mul (.var .nnz) (.var .d1))) (.var .d2))) (.add (.mul (.var .nn) (.var .nFields)) (.var .d2)) ;;
      .stI .m_cols (.add (.var .mcols) (.add (.add (.mul (.lit 14) (.var .nFields)) (.mul (.var .nnz) (.var .d1))) (.var .d2))) (.add (.mul (.add (.var .nn) (.lit 1)) (.var .nFields)) (.var .d2)) ;;
      .stI .m_cols (.add (.var .mcols) (.add (.add (.mul (.lit 15) (.var .nFields)) (.mul (.var .nnz) (.var .d1))) (.var .d2))) (.lit 0) ;;
      .stI .m_cols (.add (.var .mcols) (.add (.add (.mul (.lit 16) (.var .nFields)) (.mul (.var .nnz) (.var .d1))) (.var .d2))) (.lit 0) ;;
      .stI .m_cols (.add (.var .mcols) (.add (.add (.mul (.lit 17) (.var .nFields)) (.mul (.var .nnz) (.var .d1))) (.var .d2))) (.lit 0) ;;
      .stI .m_cols (.add (.var .mcols) (.add (.add (.mul (.lit 18) (.var .nFields)) (.mul (.var .nnz) (.var .d1))) (.var .d2))) (.lit 0) ;;
      .stI .m_cols (.add (.var .mcols) (.add (.add (.mul (.lit 19) (.var .nFields)) (.mul (.var .nnz) (.var .d1))) (.var .d2))) (.lit 0) ;;
      .stI .m_cols (.add (.var .mcols) (.add (.add (.mul (.lit 20) (.var .nFields)) (.mul (.var .nnz) (.var .d1))) (.var .d2))) (.lit 0) ;;
      .stI .m_cols (.add (.var .mcols) (.add (.add (.mul (.lit 21) (.var .nFields)) (.mul (.var .nnz) (.var .d1))) (.var .d2))) (.lit 0) ;;
      .stI .m_cols (.add (.var .mcols) (.add (.add (.mul (.lit 22) (.var .nFields)) (.mul (.var .nnz) (.var .d1))) (.var .d2))) (.lit 0) ;;
      .stI .m_cols (.add (.var .mcols) (.add (.add (.mul (.lit 23) (.var .nFields)) (.mul (.var .nnz) (.var .d1))) (.var .d2))) (.lit 0) ;;
      .stI .m_cols (.add (.var .mcols) (.add (.add (.mul (.lit 24) (.var .nFields)) (.mul (.var .nnz) (.var .d1))) (.var .d2))) (.lit 0) ;;
      .stI .m_cols (.add (.var .mcols) (.add (.add (.mul (.lit 25) (.var .nFields)) (.mul (.var .nnz) (.var .d1))) (.var .d2))) (.lit 0) ;;
      .stI .m_cols (.add (.var .mcols) (.add (.add (.mul (.lit 26) (.var .nFields)) (.mul (.var .nnz) (.var .d1))) (.var .d2))) (.lit 0))) ;;
  .for .k (.lit 1) (.sub (.var .nz) (.lit 1)) (
    .setI .nn (.add (.add (.mul (.mul (.var .k) (.var .nx)) (.var .ny)) (.mul (.lit 0) (.var .nx))) (.lit 0)) ;;
    .setI .mcols (.mul (.mul (.var .nn) (.var .nFields)) (.var .nnz)) ;;
    .for .d1 (.lit 0) (.var .nFields) (
      .for .d2 (.lit 0) (.var .nFields) (
        .stI .m_cols (.add (.var .mcols) (.add (.add (.mul (.lit 0) (.var .nFields)) (.mul (.var .nnz) (.var .d1))) (.var .d2))) (.lit 0) ;;
        .stI .m_cols (.add (.var .mcols) (.add (.add (.mul (.lit 1) (.var .nFields)) (.mul (.var .nnz) (.var .d1))) (.var .d2))) (.lit 0) ;;
        .stI .m_cols (.add (.var .mcols) (.add (.add (.mul (.lit 2) (.var .nFields)) (.mul (.var .nnz) (.var .d1))) (.var .d2))) (.lit 0) ;;
        .stI .m_cols (.add (.var .mcols) (.add (.add (.mul (.lit 3) (.var .nFields)) (.mul (.var .nnz) (.var .d1))) (.var .d2))) (.lit 0) ;;
        .stI .m_cols (.add (.var .mcols) (.add (.add (.mul (.lit 4) (.var .nFields)) (.mul (.var .nnz) (.var .d1))) (.var .d2))) (.add (.mul (.sub (.var .nn) (.mul (.var .nx) (.var .ny))) (.var .nFields)) (.var .d2)) ;;
        .stI .m_cols (.add (.var .mcols) (.add (.add (.mul (.lit 5) (.var .nFields)) (.mul (.var .nnz) (.var .d1))) (.var .d2))) (.add (.mul (.add (.sub (.var .nn) (.mul (.var .nx) (.var .ny))) (.lit 1)) (.var .nFields)) (.var .d2)) ;;
        .stI .m_cols (.add (.var .mcols) (.add (.add (.mul (.lit 6) (.var .nFields)) (.mul (.var .nnz) (.var .d1))) (.var .d2))) (.lit 0) ;;
        .stI .m_cols (.add (.var .mcols) (.add (.add (.mul (.lit 7) (.var .nFields)) (.mul (.var .nnz) (.var .d1))) (.var .d2))) (.add (.mul (.add (.sub (.var .nn) (.mul (.var .nx) (.var .ny))) (.var .nx)) (.var .nFields)) (.var .d2)) ;;
        .stI .m_cols (.add (.var .mcols) (.add (.add (.mul (.lit 8) (.var .nFields)) (.mul (.var .nnz) (.var .d1))) (.var .d2))) (.add (.mul (.add (.add (.sub (.var .nn) (.mul (.var .nx) (.var .ny))) (.var .nx)) (.lit 1)) (.var .nFields)) (.var .d2)) ;;
        .stI .m_cols (.add (.var .mcols) (.add (.add (.mul (.lit 9) (.var .nFields)) (.mul (.var .nnz) (.var .d1))) (.var .d2))) (.lit 0) ;;
        .stI .m_cols (.add (.var .mcols) (.add (.add (.mul (.lit 10) (.var .nFields)) (.mul (.var .nnz) (.var .d1))) (.var .d2))) (.lit 0) ;;
        .stI .m_cols (.add (.var .mcols) (.add (.add (.mul (.lit 11) (.var .nFields)) (.mul (.var .nnz) (.var .d1))) (.var .d2))) (.lit 0) ;;
        .stI .m_cols (.add (.var .mcols) (.add (.add (.mul (.lit 12) (.var .nFields)) (.mul (.var .nnz) (.var .d1))) (.var .d2))) (.lit 0) ;;
        .stI .m_cols (.add (.var .mcols) (.add (.add (.mul (.lit 13) (.var .nFields)) (.mul (.var .nnz) (.var .d1))) (.var .d2))) (.add (.mul (.var .nn) (.var .nFields)) (.var .d2)) ;;
        .stI .m_cols (.add (.var .mcols) (.add (.add (.mul (.lit 14) (.var .nFields)) (.mul (.var .nnz) (.var .d1))) (.var .d2))) (.add (.mul (.add (.var .nn) (.lit 1)) (.var .nFields)) (.var .d2)) ;;
        .stI .m_cols (.add (.var .mcols) (.add (.add (.mul (.lit 15) (.var .nFields)) (.mul (.var .nnz) (.var .d1))) (.var .d2))) (.lit 0) ;;
        .stI .m_cols (.add (.var .mcols) (.add (.add (.mul (.lit 16) (.var .nFields)) (.mul (.var .nnz) (.var .d1))) (.var .d2))) (.add (.mul (.add (.var .nn) (.var .nx)) (.var .nFields)) (.var .d2)) ;;
        .stI .m_cols (.add (.var .mcols) (.add (.add (.mul (.lit 17) (.var .nFields)) (.mul (.var .nnz) (.var .d1))) (.var .d2))) (.add (.mul (.add (.add (.var .nn) (.var .nx)) (.lit 1)) (.var .nFields)) (.var .d2)) ;;
        .stI .m_cols (.add (.var .mcols) (.add (.add (.mul (.lit 18) (.var .nFields)) (.mul (.var .nnz) (.var .d1))) (.var .d2))) (.lit 0) ;;
        .stI .m_cols (.add (.var .mcols) (.add (.add (.mul (.lit 19) (.var .nFields)) (.mul (.var .nnz) (.var .d1))) (.var .d2))) (.lit 0) ;;
        .stI .m_cols (.add (.var .mcols) (.add (.add (.mul (.lit 20) (.var .nFields)) (.mul (.var .nnz) (.var .d1))) (.var .d2))) (.lit 0) ;;
        .stI .m_cols (.add (.var .mcols) (.add (.add (.mul (.lit 21) (.var .nFields)) (.mul (.var .nnz) (.var .d1))) (.var .d2))) (.lit 0) ;;
        .stI .m_cols (.add (.var .mcols) (.add (.add (.mul (.lit 22) (.var .nFields)) (.mul (.var .nnz) (.var .d1))) (.var .d2))) (.add (.mul (.add (.var .nn) (.mul (.var .nx) (.var .ny))) (.var .nFields)) (.var .d2)) ;;
        .stI .m_cols (.add (.var .mcols) (.add (.add (.mul (.lit 23) (.var .nFields)) (.mul (.var .nnz) (.var .d1))) (.var .d2))) (.add (.mul (.add (.add (.var .nn) (.mul (.var .nx) (.var .ny))) (.lit 1)) (.var .nFields)) (.var .d2)) ;;
        .stI .m_cols (.add (.var .mcols) (.add (.add (.mul (.lit 24) (.var .nFields)) (.mul (.var .nnz) (.var .d1))) (.var .d2))) (.lit 0) ;;
        .stI .m_cols (.add (.var .mcols) (.add (.add (.mul (.lit 25) (.var .nFields)) (.mul (.var .nnz) (.var .d1))) (.var .d2))) (.add (.mul (.add (.add (.var .nn) (.mul (.var .nx) (.var .ny))) (.var .nx)) (.var .nFields)) (.var .d2)) ;;
        .stI .m_cols (.add (.var .mcols) (.add (.add (.mul (.lit 26) (.var .nFields)) (.mul (.var .nnz) (.var .d1))) (.var .d2))) (.add (.mul (.add (.add (.add (.var .nn) (.mul (.var .nx) (.var .ny))) (.var .nx)) (.lit 1)) (.var .nFields)) (.var .d2))))) ;;
  .for .k (.lit 1) (.sub (.var .nz) (.lit 1)) (
    .setI .nn (.add (.add (.mul (.mul (.var .k) (.var .nx)) (.var .ny)) (.mul (.lit 0) (.var .nx))) (.sub (.var .nx) (.lit 1))) ;;
    .setI .mcols (.mul (.mul (.var .nn) (.var .nFields)) (.var .nnz)) ;;
    .for .d1 (.lit 0) (.var .nFields) (
      .for .d2 (.lit 0) (.var .nFields) (
        .stI .m_cols (.add (.var .mcols) (.add (.add (.mul (.lit 0) (.var .nFields)) (.mul (.var .nnz) (.var .d1))) (.var .d2))) (.lit 0) ;;
        .stI .m_cols (.add (.var .mcols) (.add (.add (.mul (.lit 1) (.var .nFields)) (.mul (.var .nnz) (.var .d1))) (.var .d2))) (.lit 0) ;;
        .stI .m_cols (.add (.var .mcols) (.add (.add (.mul (.lit 2) (.var .nFields)) (.mul (.var .nnz) (.var .d1))) (.var .d2))) (.lit 0) ;;
        .stI .m_cols (.add (.var .mcols) (.add (.add (.mul (.lit 3) (.var .nFields)) (.mul (.var .nnz) (.var .d1))) (.var .d2))) (.add (.mul (.sub (.sub (.var .nn) (.mul (.var .nx) (.var .ny))) (.lit 1)) (.var .nFields)) (.var .d2)) ;;
        .stI .m_cols (.add (.var .mcols) (.add (.add (.mul (.lit 4) (.var .nFields)) (.mul (.var .nnz) (.var .d1))) (.var .d2))) (.add (.mul (.sub (.var .nn) (.mul (.var .nx) (.var .ny))) (.var .nFields)) (.var .d2)) ;;
        .stI .m_cols (.add (.var .mcols) (.add (.add (.mul (.lit 5) (.var .nFields)) (.mul (.var .nnz) (.var .d1))) (.var .d2))) (.lit 0) ;;
        .stI .m_cols (.add (.var .mcols) (.add (.add (.mul (.lit 6) (.var .nFields)) (.mul (.var .nnz) (.var .d1))) (.var .d2))) (.add (.mul (.sub (.add (.sub (.var .nn) (.mul (.var .nx) (.var .ny))) (.var .nx)) (.lit 1)) (.var .nFields)) (.var .d2)) ;;
        .stI .m_cols (.add (.var .mcols) (.add (.add (.mul (.lit 7) (.var .nFields)) (.mul (.var .nnz) (.var .d1))) (.var .d2))) (.add (.mul (.add (.sub (.var .nn) (.mul (.var .nx) (.var .ny))) (.var .nx)) (.var .nFields)) (.var .d2)) ;;
        .stI .m_cols (.add (.var .mcols) (.add (.add (.mul (.lit 8) (.var .nFields)) (.mul (.var .nnz) (.var .d1))) (.var .d2))) (.lit 0) ;;
        .stI .m_cols (.add (.var .mcols) (.add (.add (.mul (.lit 9) (.var .nFields)) (.mul (.var .nnz) (.var .d1))) (.var .d2))) (.lit 0) ;;
        .stI .m_cols (.add (.var .mcols) (.add (.add (.mul (.lit 10) (.var .nFields)) (.mul (.var .nnz) (.var .d1))) (.var .d2))) (.lit 0) ;;
        .stI .m_cols (.add (.var .mcols) (.add (.add (.mul (.lit 11) (.var .nFields)) (.mul (.var .nnz) (.var .d1))) (.var .d2))) (.lit 0) ;;
        .stI .m_cols (.add (.var .mcols) (.add (.add (.mul (.lit 12) (.var .nFields)) (.mul (.var .nnz) (.var .d1))) (.var .d2))) (.add (.mul (.sub (.var .nn) (.lit 1)) (.var .nFields)) (.var .d2)) ;;
        .stI .m_cols (.add (.var .mcols) (.add (.add (.mul (.lit 13) (.var .nFields)) (.mul (.var .nnz) (.var .d1))) (.var .d2))) (.add (.mul (.var .nn) (.var .nFields)) (.var .d2)) ;;
        .stI .m_cols (.add (.var .mcols) (.add (.add (.mul (.lit 14) (.var .nFields)) (.mul (.var .nnz) (.var .d1))) (.var .d2))) (.lit 0) ;;
        .stI .m_cols (.add (.var .mcols) (.add (.add (.mul (.lit 15) (.var .nFields)) (.mul (.var .nnz) (.var .d1))) (.var .d2))) (.add (.mul (.sub (.add (.var .nn) (.var .nx)) (.lit 1)) (.var .nFields)) (.var .d2)) ;;
        .stI .m_cols (.add (.var .mcols) (.add (.add (.mul (.lit 16) (.var .nFields)) (.mul (.var .nnz) (.var .d1))) (.var .d2))) (.add (.mul (.add (.var .nn) (.var .nx)) (.var .nFields)) (.var .d2)) ;;
        .stI .m_cols (.add (.var .mcols) (.add (.add (.mul (.lit 17) (.var .nFields)) (.mul (.var .nnz) (.var .d1))) (.var .d2))) (.lit 0) ;;
        .stI .m_cols (.add (.var .mcols) (.add (.add (.mul (.lit 18) (.var .nFields)) (.mul (.var .nnz) (.var .d1))) (.var .d2))) (.lit 0) ;;
        .stI .m_cols (.add (.var .mcols) (.add (.add (.mul (.lit 19) (.var .nFields)) (.mul (.var .nnz) (.var .d1))) (.var .d2))) (.lit 0) ;;
        .stI .m_cols (.add (.var .mcols) (.add (.add (.mul (.lit 20) (.var .nFields)) (.mul (.var .nnz) (.var .d1))) (.var .d2))) (.lit 0) ;;
        .stI .m_cols (.add (.var .mcols) (.add (.add (.mul (.lit 21) (.var .nFields)) (.mul (.var .nnz) (.var .d1))) (.var .d2))) (.add (.mul (.sub (.add (.var .nn) (.mul (.var .nx) (.var .ny))) (.lit 1)) (.var .nFields)) (.var .d2)) ;;
        .stI .m_cols (.add (.var .mcols) (.add (.add (.mul (.lit 22) (.var .nFields)) (.mul (.var .nnz) (.var .d1))) (.var .d2))) (.add (.mul (.add (.var .nn) (.mul (.var .nx) (.var .ny))) (.var .nFields)) (.var .d2)) ;;
        .stI .m_cols (.add (.var .mcols) (.add (.add (.mul (.lit 23) (.var .nFields)) (.mul (.var .nnz) (.var .d1))) (.var .d2))) (.lit 0) ;;
        .stI .m_cols (.add (.var .mcols) (.add (.add (.mul (.lit 24) (.var .nFields)) (.mul (.var .nnz) (.var .d1))) (.var .d2))) (.add (.mul (.sub (.add (.add (.var .nn) (.mul (.var .nx) (.var .ny))) (.var .nx)) (.lit 1)) (.var .nFields)) (.var .d2)) ;;
        .stI .m_cols (.add (.var .mcols) (.add (.add (.mul (.lit 25) (.var .nFields)) (.mul (.var .nnz) (.var .d1))) (.var .d2))) (.add (.mul (.add (.add (.var .nn) (.mul (.var .nx) (.var .ny))) (.var .nx)) (.var .nFields)) (.var .d2)) ;;
        .stI .m_cols (.add (.var .mcols) (.add (.add (.mul (.lit 26) (.var .nFields)) (.mul (.var .nnz) (.var .d1))) (.var .d2))) (.lit 0)))) ;;
  .for .k (.lit 1) (.sub (.var .nz) (.lit 1)) (
    .setI .nn (.add (.add (.mul (.mul (.var .k) (.var .nx)) (.var .ny)) (.mul (.sub (.var .ny) (.lit 1)) (.var .nx))) (.sub (.var .nx) (.lit 1))) ;;
    .setI .mcols (.mul (.mul (.var .nn) (.var .nFields)) (.var .nnz)) ;;
    .for .d1 (.lit 0) (.var .nFields) (
      .for .d2 (.lit 0) (.var .nFields) (
        .stI .m_cols (.add (.var .mcols) (.add (.add (.mul (.lit 0) (.var .nFields)) (.mul (.var .nnz) (.var .d1))) (.var .d2))) (.add (.mul (.sub (.sub (.sub (.var .nn) (.mul (.var .nx) (.var .ny))) (.var .nx)) (.lit 1)) (.var .nFields)) (.var .d2)) ;;
        .stI .m_cols (.add (.var .mcols) (.add (.add (.mul (.lit 1) (.var .nFields)) (.mul (.var .nnz) (.var .d1))) (.var .d2))) (.add (.mul (.sub (.sub (.var .nn) (.mul (.var .nx) (.var .ny))) (.var .nx)) (.var .nFields)) (.var .d2)) ;;
        .stI .m_cols (.add (.var .mcols) (.add (.add (.mul (.lit 2) (.var .nFields)) (.mul (.var .nnz) (.var .d1))) (.var .d2))) (.lit 0) ;;
        .stI .m_cols (.add (.var .mcols) (.add (.add (.mul (.lit 3) (.var .nFields)) (.mul (.var .nnz) (.var .d1))) (.var .d2))) (.add (.mul (.sub (.sub (.var .nn) (.mul (.var .nx) (.var .ny))) (.lit 1)) (.var .nFields)) (.var .d2)) ;;
        .stI .m_cols (.add (.var .mcols) (.add (.add (.mul (.lit 4) (.var .nFields)) (.mul (.var .nnz) (.var .d1))) (.var .d2))) (.add (.mul (.sub (.var .nn) (.mul (.var .nx) (.var .ny))) (.var .nFields)) (.var .d2)) ;;
        .stI .m_cols (.add (.var .mcols) (.add (.add (.mul (.lit 5) (.var .nFields)) (.mul (.var .nnz) (.var .d1))) (.var .d2))) (.lit 0) ;;
        .stI .m_cols (.add (.var .mcols) (.add (.add (.mul (.lit 6) (.var .nFields)) (.mul (.var .nnz) (.var .d1))) (.var .d2))) (.lit 0) ;;
        .stI .m_cols (.add (.var .mcols) (.add (.add (.mul (.lit 7) (.var .nFields)) (.mul (.var .nnz) (.var .d1))) (.var .d2))) (.lit 0) ;;
        .stI .m_cols (.add (.var .mcols) (.add (.add (.mul (.lit 8) (.var .nFields)) (.mul (.var .nnz) (.var .d1))) (.var .d2))) (.lit 0) ;;
        .stI .m_cols (.add (.var .mcols) (.add (.add (.mul (.lit 9) (.var .nFields)) (.mul (.var .nnz) (.var .d1))) (.var .d2))) (.add (.mul (.sub (.sub (.var .nn) (.var .nx)) (.lit 1)) (.var .nFields)) (.var .d2)) ;;
        .stI .m_cols (.add (.var .mcols) (.add (.add (.mul (.lit 10) (.var .nFields)) (.mul (.var .nnz) (.var .d1))) (.var .d2))) (.add (.mul (.sub (.var .nn) (.var .nx)) (.var .nFields)) (.var .d2)) ;;
        .stI .m_cols (.add (.var .mcols) (.add (.add (.mul (.lit 11) (.var .nFields)) (.mul (.var .nnz) (.var .d1))) (.var .d2))) (.lit 0) ;;
        .stI .m_cols (.add (.var .mcols) (.add (.add (.mul (.lit 12) (.var .nFields)) (.mul (.var .nnz) (.var .d1))) (.var .d2))) (.add (.mul (.sub (.var .nn) (.lit 1)) (.var .nFields)) (.var .d2)) ;;
        .stI .m_cols (.add (.var .mcols) (.add (.add (.mul (.lit 13) (.var .nFields)) (.mul (.var .nnz) (.var .d1))) (.var .d2))) (.add (.mul (.var .nn) (.var .nFields)) (.var .d2)) ;;
        .stI .m_cols (.add (.var .mcols) (.add (.add (.mul (.lit 14) (.var .nFields)) (.mul (.var .nnz) (.var .d1))) (.var .d2))) (.lit 0) ;;
        .stI .m_cols (.add (.var .mcols) (.add (.add (.mul (.lit 15) (.var .nFields)) (.mul (.var .nnz) (.var .d1))) (.var .d2))) (.lit 0) ;;
        .stI .m_cols (.add (.var .mcols) (.add (.add (.mul (.lit 16) (.var .nFields)) (.mul (.var .nnz) (.var .d1))) (.var .d2))) (.lit 0) ;;
        .stI .m_cols (.add (.var .mcols) (.add (.add (.mul (.lit 17) (.var .nFields)) (.mul (.var .nnz) (.var .d1))) (.var .d2))) (.lit 0) ;;
        .stI .m_cols (.add (.var .mcols) (.add (.add (.mul (.lit 18) (.var .nFields)) (.mul (.var .nnz) (.var .d1))) (.var .d2))) (.add (.mul (.sub (.sub (.add (.var .nn) (.mul (.var .nx) (.var .ny))) (.var .nx)) (.lit 1)) (.var .nFields)) (.var .d2)) ;;
        .stI .m_cols (.add (.var .mcols) (.add (.add (.mul (.lit 19) (.var .nFields)) (.mul (.var .nnz) (.var .d1))) (.var .d2))) (.add (.mul (.sub (.add (.var .nn) (.mul (.var .nx) (.var .ny))) (.var .nx)) (.var .nFields)) (.var .d2)) ;;
        .stI .m_cols (.add (.var .mcols) (.add (.add (.mul (.lit 20) (.var .nFields)) (.mul (.var .nnz) (.var .d1))) (.var .d2))) (.lit 0) ;;
        .stI .m_cols (.add (.var .mcols) (.add (.add (.mul (.lit 21) (.var .nFields)) (.mul (.var .nnz) (.var .d1))) (.var .d2))) (.add (.mul (.sub (.add (.var .nn) (.mul (.var .nx) (.var .ny))) (.lit 1)) (.var .nFields)) (.var .d2)) ;;
        .stI .m_cols (.add (.var .mcols) (.add (.add (.mul (.lit 22) (.var .nFields)) (.mul (.var .nnz) (.var .d1))) (.var .d2))) (.add (.mul (.add (.var .nn) (.mul (.var .nx) (.var .ny))) (.var .nFields)) (.var .d2)) ;;
        .stI .m_cols (.add (.var .mcols) (.add (.add (.mul (.lit 23) (.var .nFields)) (.mul (.var .nnz) (.var .d1))) (.var .d2))) (.lit 0) ;;
        .stI .m_cols (.add (.var .mcols) (.add (.add (.mul (.lit 24) (.var .nFields)) (.mul (.var .nnz) (.var .d1))) (.var .d2))) (.lit 0) ;;
        .stI .m_cols (.add (.var .mcols) (.add (.add (.mul (.lit 25) (.var .nFields)) (.mul (.var .nnz) (.var .d1))) (.var .d2))) (.lit 0) ;;
        .stI .m_cols (.add (.var .mcols) (.add (.add (.mul (.lit 26) (.var .nFields)) (.mul (.var .nnz) (.var .d1))) (.var .d2))) (.lit 0)))) ;;
  .for .k (.lit 1) (.sub (.var .nz) (.lit 1)) (
    .setI .nn (.add (.add (.mul (.mul (.var .k) (.var .nx)) (.var .ny)) (.mul (.sub (.var .ny) (.lit 1)) (.var .nx))) (.lit 0)) ;;
    .setI .mcols (.mul (.mul (.var .nn) (.var .nFields)) (.var .nnz)) ;;
    .for .d1 (.lit 0) (.var .nFields) (
      .for .d2 (.lit 0) (.var .nFields) (
        .stI .m_cols (.add (.var .mcols) (.add (.add (.mul (.lit 0) (.var .nFields)) (.mul (.var .nnz) (.var .d1))) (.var .d2))) (.lit 0) ;;
        .stI .m_cols (.add (.var .mcols) (.add (.add (.mul (.lit 1) (.var .nFields)) (.mul (.var .nnz) (.var .d1))) (.var .d2))) (.add (.mul (.sub (.sub (.var .nn) (.mul (.var .nx) (.var .ny))) (.var .nx)) (.var .nFields)) (.var .d2)) ;;
        .stI .m_cols (.add (.var .mcols) (.add (.add (.mul (.lit 2) (.var .nFields)) (.mul (.var .nnz) (.var .d1))) (.var .d2))) (.add (.mul (.add (.sub (.sub (.var .nn) (.mul (.var .nx) (.var .ny))) (.var .nx)) (.lit 1)) (.var .nFields)) (.var .d2)) ;;
        .stI .m_cols (.add (.var .mcols) (.add (.add (.mul (.lit 3) (.var .nFields)) (.mul (.var .nnz) (.var .d1))) (.var .d2))) (.lit 0) ;;
        .stI .m_cols (.add (.var .mcols) (.add (.add (.mul (.lit 4) (.var .nFields)) (.mul (.var .nnz) (.var .d1))) (.var .d2))) (.add (.mul (.sub (.var .nn) (.mul (.var .nx) (.var .ny))) (.var .nFields)) (.var .d2)) ;;
        .stI .m_cols (.add (.var .mcols) (.add (.add (.mul (.lit 5) (.var .nFields)) (.mul (.var .nnz) (.var .d1))) (.var .d2))) (.add (.mul (.add (.sub (.var .nn) (.mul (.var .nx) (.var .ny))) (.lit 1)) (.var .nFields)) (.var .d2)) ;;
        .stI .m_cols (.add (.var .mcols) (.add (.add (.mul (.lit 6) (.var .nFields)) (.mul (.var .nnz) (.var .d1))) (.var .d2))) (.lit 0) ;;
        .stI .m_cols (.add (.var .mcols) (.add (.add (.mul (.lit 7) (.var .nFields)) (.mul (.var .nnz) (.var .d1))) (.var .d2))) (.lit 0) ;;
        .stI .m_cols (.add (.var .mcols) (.add (.add (.mul (.lit 8) (.var .nFields)) (.mul (.var .nnz) (.var .d1))) (.var .d2))) (.lit 0) ;;
        .stI .m_cols (.add (.var .mcols) (.add (.add (.mul (.lit 9) (.var .nFields)) (.mul (.var .nnz) (.var .d1))) (.var .d2))) (.lit 0) ;;
        .stI .m_cols (.add (.var .mcols) (.add (.add (.mul (.lit 10) (.var .nFields)) (.mul (.var .nnz) (.var .d1))) (.var .d2))) (.add (.mul (.sub (.var .nn) (.var .nx)) (.var .nFields)) (.var .d2)) ;;
        .stI .m_cols (.add (.var .mcols) (.add (.add (.mul (.lit 11) (.var .nFields)) (.mul (.var .nnz) (.var .d1))) (.var .d2))) (.add (.mul (.add (.sub (.var .nn) (.var .nx)) (.lit 1)) (.var .nFields)) (.var .d2)) ;;
        .stI .m_cols (.add (.var .mcols) (.add (.add (.mul (.lit 12) (.var .nFields)) (.mul (.var .nnz) (.var .d1))) (.var .d2))) (.lit 0) ;;
        .stI .m_cols (.add (.var .mcols) (.add (.add (.mul (.lit 13) (.var .nFields)) (.mul (.var .nnz) (.var .d1))) (.var .d2))) (.add (.mul (.var .nn) (.var .nFields)) (.var .d2)) ;;
        .stI .m_cols (.add (.var .mcols) (.add (.add (.mul (.lit 14) (.var .nFields)) (.mul (.var .nnz) (.var .d1))) (.var .d2))) (.add (.mul (.add (.var .nn) (.lit 1)) (.var .nFields)) (.var .d2)) ;;
        .stI .m_cols (.add (.var .mcols) (.add (.add (.mul (.lit 15) (.var .nFields)) (.mul (.var .nnz) (.var .d1))) (.var .d2))) (.lit 0) ;;
        .stI .m_cols (.add (.var .mcols) (.add (.add (.mul (.lit 16) (.var .nFields)) (.mul (.var .nnz) (.var .d1))) (.var .d2))) (.lit 0) ;;
        .stI .m_cols (.add (.var .mcols) (.add (.add (.mul (.lit 17) (.var .nFields)) (.mul (.var .nnz) (.var .d1))) (.var .d2))) (.lit 0) ;;
        .stI .m_cols (.add (.var .mcols) (.add (.add (.mul (.lit 18) (.var .nFields)) (.mul (.var .nnz) (.var .d1))) (.var .d2))) (.lit 0) ;;
        .stI .m_cols (.add (.var .mcols) (.add (.add (.mul (.lit 19) (.var .nFields)) (.mul (.var .nnz) (.var .d1))) (.var .d2))) (.add (.mul (.sub (.add (.var .nn) (.mul (.var .nx) (.var .ny))) (.var .nx)) (.var .nFields)) (.var .d2)) ;;
        .stI .m_cols (.add (.var .mcols) (.add (.add (.mul (.lit 20) (.var .nFields)) (.mul (.var .nnz) (.var .d1))) (.var .d2))) (.add (.mul (.add (.sub (.add (.var .nn) (.mul (.var .nx) (.var .ny))) (.var .nx)) (.lit 1)) (.var .nFields)) (.var .d2)) ;;
        .stI .m_cols (.add (.var .mcols) (.add (.add (.mul (.lit 21) (.var .nFields)) (.mul (.var .nnz) (.var .d1))) (.var .d2))) (.lit 0) ;;
        .stI .m_cols (.add (.var .mcols) (.add (.add (.mul (.lit 22) (.var .nFields)) (.mul (.var .nnz) (.var .d1))) (.var .d2))) (.add (.mul (.add (.var .nn) (.mul (.var .nx) (.var .ny))) (.var .nFields)) (.var .d2)) ;;
        .stI .m_cols (.add (.var .mcols) (.add (.add (.mul (.lit 23) (.var .nFields)) (.mul (.var .nnz) (.var .d1))) (.var .d2))) (.add (.mul (.add (.add (.var .nn) (.mul (.var .nx) (.var .ny))) (.lit 1)) (.var .nFields)) (.var .d2)) ;;
        .stI .m_cols (.add (.var .mcols) (.add (.add (.mul (.lit 24) (.var .nFields)) (.mul (.var .nnz) (.var .d1))) (.var .d2))) (.lit 0) ;;
        .stI .m_cols (.add (.var .mcols) (.add (.add (.mul (.lit 25) (.var .nFields)) (.mul (.var .nnz) (.var .d1))) (.var .d2))) (.lit 0) ;;
        .stI .m_cols (.add (.var .mcols) (.add (.add (.mul (.lit 26) (.var .nFields)) (.mul (.var .nnz) (.var .d1))) (.var .d2))) (.lit 0)))) ;;
  .for .i (.lit 1) (.sub (.var .nx) (.lit 1)) (
    .setI .nn (.add (.add (.mul (.mul (.lit 0) (.var .nx)) (.var .ny)) (.mul (.lit 0) (.var .nx))) (.var .i)) ;;
    .setI .mcols (.mul (.mul (.var .nn) (.var .nFields)) (.var .nnz)) ;;
    .for .d1 (.lit 0) (.var .nFields) (
      .for .d2 (.lit 0) (.var .nFields) (
        .stI .m_cols (.add (.var .mcols) (.add (.add (.mul (.lit 0) (.var .nFields)) (.mul (.var .nnz) (.var .d1))) (.var .d2))) (.lit 0) ;;
        .stI .m_cols (.add (.var .mcols) (.add (.add (.mul (.lit 1) (.var .nFields)) (.mul (.var .nnz) (.var .d1))) (.var .d2))) (.lit 0) ;;
        .stI .m_cols (.add (.var .mcols) (.add (.add (.mul (.lit 2) (.var .nFields)) (.mul (.var .nnz) (.var .d1))) (.var .d2))) (.lit 0) ;;
        .stI .m_cols (.add (.var .mcols) (.add (.add (.mul (.lit 3) (.var .nFields)) (.mul (.var .nnz) (.var .d1))) (.var .d2))) (.lit 0) ;;
        .stI .m_cols (.add (.var .mcols) (.add (.add (.mul (.lit 4) (.var .nFields)) (.mul (.var .nnz) (.var .d1))) (.var .d2))) (.lit 0) ;;
        .stI .m_cols (.add (.var .mcols) (.add (.add (.mul (.lit 5) (.var .nFields)) (.mul (.var .nnz) (.var .d1))) (.var .d2))) (.lit 0) ;;
        .stI .m_cols (.add (.var .mcols) (.add (.add (.mul (.lit 6) (.var .nFields)) (.mul (.var .nnz) (.var .d1))) (.var .d2))) (.lit 0) ;;
        .stI .m_cols (.add (.var .mcols) (.add (.add (.mul (.lit 7) (.var .nFields)) (.mul (.var .nnz) (.var .d1))) (.var .d2))) (.lit 0) ;;
        .stI .m_cols (.add (.var .mcols) (.add (.add (.mul (.lit 8) (.var .nFields)) (.mul (.var .nnz) (.var .d1))) (.var .d2))) (.lit 0) ;;
        .stI .m_cols (.add (.var .mcols) (.add (.add (.mul (.lit 9) (.var .nFields)) (.mul (.var .nnz) (.var .d1))) (.var .d2))) (.lit 0) ;;
        .stI .m_cols (.add (.var .mcols) (.add (.add (.mul (.lit 10) (.var .nFields)) (.mul (.var .nnz) (.var .d1))) (.var .d2))) (.lit 0) ;;
        .stI .m_cols (.add (.var .mcols) (.add (.add (.mul (.lit 11) (.var .nFields)) (.mul (.var .nnz) (.var .d1))) (.var .d2))) (.lit 0) ;;
        .stI .m_cols (.add (.var .mcols) (.add (.add (.mul (.lit 12) (.var .nFields)) (.mul (.var .nnz) (.var .d1))) (.var .d2))) (.add (.mul (.sub (.var .nn) (.lit 1)) (.var .nFields)) (.var .d2)) ;;
        .stI .m_cols (.add (.var .mcols) (.add (.add (.mul (.lit 13) (.var .nFields)) (.mul (.var .nnz) (.var .d1))) (.var .d2))) (.add (.mul (.var .nn) (.var .nFields)) (.var .d2)) ;;
        .stI .m_cols (.add (.var .mcols) (.add (.add (.mul (.lit 14) (.var .nFields)) (.mul (.var .nnz) (.var .d1))) (.var .d2))) (.add (.mul (.add (.var .nn) (.lit 1)) (.var .nFields)) (.var .d2)) ;;
        .stI .m_cols (.add (.var .mcols) (.add (.add (.mul (.lit 15) (.var .nFields)) (.mul (.var .nnz) (.var .d1))) (.var .d2))) (.add (.mul (.sub (.add (.var .nn) (.var .nx)) (.lit 1)) (.var .nFields)) (.var .d2)) ;;
        .stI .m_cols (.add (.var .mcols) (.add (.add (.mul (.lit 16) (.var .nFields)) (.mul (.var .nnz) (.var .d1))) (.var .d2))) (.add (.mul (.add (.var .nn) (.var .nx)) (.var .nFields)) (.var .d2)) ;;
        .stI .m_cols (.add (.var .mcols) (.add (.add (.mul (.lit 17) (.var .nFields)) (.mul (.var .nnz) (.var .d1))) (.var .d2))) (.add (.mul (.add (.add (.var .nn) (.var .nx)) (.lit 1)) (.var .nFields)) (.var .d2)) ;;
        .stI .m_cols (.add (.var .mcols) (.add (.add (.mul (.lit 18) (.var .nFields)) (.mul (.var .nnz) (.var .d1))) (.var .d2))) (.lit 0) ;;
        .stI .m_cols (.add (.var .mcols) (.add (.add (.mul (.lit 19) (.var .nFields)) (.mul (.var .nnz) (.var .d1))) (.var .d2))) (.lit 0) ;;
        .stI .m_cols (.add (.var .mcols) (.add (.add (.mul (.lit 20) (.var .nFields)) (.mul (.var .nnz) (.var .d1))) (.var .d2))) (.lit 0) ;;
        .stI .m_cols (.add (.var .mcols) (.add (.add (.mul (.lit 21) (.var .nFields)) (.mul (.var .nnz) (.var .d1))) (.var .d2))) (.add (.mul (.sub (.add (.var .nn) (.mul (.var .nx) (.var .ny))) (.lit 1)) (.var .nFields)) (.var .d2)) ;;
        .stI .m_cols (.add (.var .mcols) (.add (.add (.mul (.lit 22) (.var .nFields)) (.mul (.var .nnz) (.var .d1))) (.var .d2))) (.add (.mul (.add (.var .nn) (.mul (.var .nx) (.var .ny))) (.var .nFields)) (.var .d2)) ;;
        .stI .m_cols (.add (.var .mcols) (.add (.add (.mul (.lit 23) (.var .nFields)) (.mul (.var .nnz) (.var .d1))) (.var .d2))) (.add (.mul (.add (.add (.var .nn) (.mul (.var .nx) (.var .ny))) (.lit 1)) (.var .nFields)) (.var .d2)) ;;
        .stI .m_cols (.add (.var .mcols) (.add (.add (.mul (.lit 24) (.var .nFields)) (.mul (.var .nnz) (.var .d1))) (.var .d2))) (.add (.mul (.sub (.add (.add (.var .nn) (.mul (.var .nx) (.var .ny))) (.var .nx)) (.lit 1)) (.var .nFields)) (.var .d2)) ;;
        .stI .m_cols (.add (.var .mcols) (.add (.add (.mul (.lit 25) (.var .nFields)) (.mul (.var .nnz) (.var .d1))) (.var .d2))) (.add (.mul (.add (.add (.var .nn) (.mul (.var .nx) (.var .ny))) (.var .nx)) (.var .nFields)) (.var .d2)) ;;
        .stI .m_cols (.add (.var .mcols) (.add (.add (.mul (.lit 26) (.var .nFields)) (.mul (.var .nnz) (.var .d1))) (.var .d2))) (.add (.mul (.add (.add (.add (.var .nn) (.mul (.var .nx) (.var .ny))) (.var .nx)) (.lit 1)) (.var .nFields)) (.var .d2))))) ;;
  .for .i (.lit 1) (.sub (.var .nx) (.lit 1)) (
    .setI .nn (.add (.add (.mul (.mul (.lit 0) (.var .nx)) (.var .ny)) (.mul (.sub (.var .ny) (.lit 1)) (.var .nx))) (.var .i)) ;;
    .setI .mcols (.mul (.mul (.var .nn) (.var .nFields)) (.var .nnz)) ;;
    .for .d1 (.lit 0) (.var .nFields) (
      .for .d2 (.lit 0) (.var .nFields) (
        .stI .m_cols (.add (.var .mcols) (.add (.add (.mul (.lit 0) (.var .nFields)) (.mul (.var .nnz) (.var .d1))) (.var .d2))) (.lit 0) ;;
        .stI .m_cols (.add (.var .mcols) (.add (.add (.mul (.lit 1) (.var .nFields)) (.mul (.var .nnz) (.var .d1))) (.var .d2))) (.lit 0) ;;
        .stI .m_cols (.add (.var .mcols) (.add (.add (.mul (.lit 2) (.var .nFields)) (.mul (.var .nnz) (.var .d1))) (.var .d2))) (.lit 0) ;;
        .stI .m_cols (.add (.var .mcols) (.add (.add (.mul (.lit 3) (.var .nFields)) (.mul (.var .nnz) (.var .d1))) (.var .d2))) (.lit 0) ;;
        .stI .m_cols (.add (.var .mcols) (.add (.add (.mul (.lit 4) (.var .nFields)) (.mul (.var .nnz) (.var .d1))) (.var .d2))) (.lit 0) ;;
        .stI .m_cols (.add (.var .mcols) (.add (.add (.mul (.lit 5) (.var .nFields)) (.mul (.var .nnz) (.var .d1))) (.var .d2))) (.lit 0) ;;
        .stI .m_cols (.add (.var .mcols) (.add (.add (.mul (.lit 6) (.var .nFields)) (.mul (.var .nnz) (.var .d1))) (.var .d2))) (.lit 0) ;;
        .stI .m_cols (.add (.var .mcols) (.add (.add (.mul (.lit 7) (.var .nFields)) (.mul (.var .nnz) (.var .d1))) (.var .d2))) (.lit 0) ;;
        .stI .m_cols (.add (.var .mcols) (.add (.add (.mul (.lit 8) (.var .nFields)) (.mul (.var .nnz) (.var .d1))) (.var .d2))) (.lit 0) ;;
        .stI .m_cols (.add (.var .mcols) (.add (.add (.mul (.lit 9) (.var .nFields)) (.mul (.var .nnz) (.var .d1))) (.var .d2))) (.add (.mul (.sub (.sub (.var .nn) (.var .nx)) (.lit 1)) (.var .nFields)) (.var .d2)) ;;
        .stI .m_cols (.add (.var .mcols) (.add (.add (.mul (.lit 10) (.var .nFields)) (.mul (.var .nnz) (.var .d1))) (.var .d2))) (.add (.mul (.sub (.var .nn) (.var .nx)) (.var .nFields)) (.var .d2)) ;;
        .stI .m_cols (.add (.var .mcols) (.add (.add (.mul (.lit 11) (.var .nFields)) (.mul (.var .nnz) (.var .d1))) (.var .d2))) (.add (.mul (.add (.sub (.var .nn) (.var .nx)) (.lit 1)) (.var .nFields)) (.var .d2)) ;;
        .stI .m_cols (.add (.var .mcols) (.add (.add (.mul (.lit 12) (.var .nFields)) (.mul (.var .nnz) (.var .d1))) (.var .d2))) (.add (.mul (.sub (.var .nn) (.lit 1)) (.var .nFields)) (.var .d2)) ;;
        .stI .m_cols (.add (.var .mcols) (.add (.add (.mul (.lit 13) (.var .nFields)) (.mul (.var .nnz) (.var .d1))) (.var .d2))) (.add (.mul (.var .nn) (.var .nFields)) (.var .d2)) ;;
        .stI .m_cols (.add (.var .mcols) (.add (.add (.mul (.lit 14) (.var .nFields)) (.mul (.var .nnz) (.var .d1))) (.var .d2))) (.add (.mul (.add (.var .nn) (.lit 1)) (.var .nFields)) (.var .d2)) ;;
        .stI .m_cols (.add (.var .mcols) (.add (.add (.mul (.lit 15) (.var .nFields)) (.mul (.var .nnz) (.var .d1))) (.var .d2))) (.lit 0) ;;
        .stI .m_cols (.add (.var .mcols) (.add (.add (.mul (.lit 16) (.var .nFields)) (.mul (.var .nnz) (.var .d1))) (.var .d2))) (.lit 0) ;;
        .stI .m_cols (.add (.var .mcols) (.add (.add (.mul (.lit 17) (.var .nFields)) (.mul (.var .nnz) (.var .d1))) (.var .d2))) (.lit 0) ;;
        .stI .m_cols (.add (.var .mcols) (.add (.add (.mul (.lit 18) (.var .nFields)) (.mul (.var .nnz) (.var .d1))) (.var .d2))) (.add (.mul (.sub (.sub (.add (.var .nn) (.mul (.var .nx) (.var .ny))) (.var .nx)) (.lit 1)) (.var .nFields)) (.var .d2)) ;;
        .stI .m_cols (.add (.var .mcols) (.add (.add (.mul (.lit 19) (.var .nFields)) (.mul (.var .nnz) (.var .d1))) (.var .d2))) (.add (.mul (.sub (.add (.var .nn) (.mul (.var .nx) (.var .ny))) (.var .nx)) (.var .nFields)) (.var .d2)) ;;
        .stI .m_cols (.add (.var .mcols) (.add (.add (.mul (.lit 20) (.var .nFields)) (.mul (.var .nnz) (.var .d1))) (.var .d2))) (.add (.mul (.add (.sub (.add (.var .nn) (.mul (.var .nx) (.var .ny))) (.var .nx)) (.lit 1)) (.var .nFields)) (.var .d2)) ;;
        .stI .m_cols (.add (.var .mcols) (.add (.add (.mul (.lit 21) (.var .nFields)) (.mul (.var .nnz) (.var .d1))) (.var .d2))) (.add (.mul (.sub (.add (.var .nn) (.mul (.var .nx) (.var .ny))) (.lit 1)) (.var .nFields)) (.var .d2)) ;;
        .stI .m_cols (.add (.var .mcols) (.add (.add (.mul (.lit 22) (.var .nFields)) (.mul (.var .nnz) (.var .d1))) (.var .d2))) (.add (.mul (.add (.var .nn) (.mul (.var .nx) (.var .ny))) (.var .nFields)) (.var .d2)) ;;
        .stI .m_cols (.add (.var .mcols) (.add (.add (.mul (.lit 23) (.var .nFields)) (.mul (.var .nnz) (.var .d1))) (.var .d2))) (.add (.mul (.add (.add (.var .nn) (.mul (.var .nx) (.var .ny))) (.lit 1)) (.var .nFields)) (.var .d2)) ;;
        .stI .m_cols (.add (.var .mcols) (.add (.add (.mul (.lit 24) (.var .nFields)) (.mul (.var .nnz) (.var .d1))) (.var .d2))) (.lit 0) ;;
        .stI .m_cols (.add (.var .mcols) (.add (.add (.mul (.lit 25) (.var .nFields)) (.mul (.var .nnz) (.var .d1))) (.var .d2))) (.lit 0) ;;
        .stI .m_cols (.add (.var .mcols) (.add (.add (.mul (.lit 26) (.var .nFields)) (.mul (.var .nnz) (.var .d1))) (.var .d2))) (.lit 0)))) ;;
  .for .i (.lit 1) (.sub (.var .nx) (.lit 1)) (
    .setI .nn (.add (.add (.mul (.mul (.sub (.var .nz) (.lit 1)) (.var .nx)) (.var .ny)) (.mul (.sub (.var .ny) (.lit 1)) (.var .nx))) (.var .i)) ;;
    .setI .mcols (.mul (.mul (.var .nn) (.var .nFields)) (.var .nnz)) ;;
    .for .d1 (.lit 0) (.var .nFields) (
      .for .d2 (.lit 0) (.var .nFields) (
        .stI .m_cols (.add (.var .mcols) (.add (.add (.mul (.lit 0) (.var .nFields)) (.mul (.var .nnz) (.var .d1))) (.var .d2))) (.add (.mul (.sub (.sub (.sub (.var .nn) (.mul (.var .nx) (.var .ny))) (.var .nx)) (.lit 1)) (.var .nFields)) (.var .d2)) ;;
        .stI .m_cols (.add (.var .mcols) (.add (.add (.mul (.lit 1) (.var .nFields)) (.mul (.var .nnz) (.var .d1))) (.var .d2))) (.add (.mul (.sub (.sub (.var .nn) (.mul (.var .nx) (.var .ny))) (.var .nx)) (.var .nFields)) (.var .d2)) ;;
        .stI .m_cols (.add (.var .mcols) (.add (.add (.mul (.lit 2) (.var .nFields)) (.mul (.var .nnz) (.var .d1))) (.var .d2))) (.add (.mul (.add (.sub (.sub (.var .nn) (.mul (.var .nx) (.var .ny))) (.var .nx)) (.lit 1)) (.var .nFields)) (.var .d2)) ;;
        .stI .m_cols (.add (.var .mcols) (.add (.add (.mul (.lit 3) (.var .nFields)) (.mul (.var .nnz) (.var .d1))) (.var .d2))) (.add (.mul (.sub (.sub (.var .nn) (.mul (.var .nx) (.var .ny))) (.lit 1)) (.var .nFields)) (.var .d2)) ;;
        .stI .m_cols (.add (.var .mcols) (.add (.add (.mul (.lit 4) (.var .nFields)) (.mul (.var .nnz) (.var .d1))) (.var .d2))) (.add (.mul (.sub (.var .nn) (.mul (.var .nx) (.var .ny))) (.var .nFields)) (.var .d2)) ;;
        .stI .m_cols (.add (.var .mcols) (.add (.add (.mul (.lit 5) (.var .nFields)) (.mul (.var .nnz) (.var .d1))) (.var .d2))) (.add (.mul (.add (.sub (.var .nn) (.mul (.var .nx) (.var .ny))) (.lit 1)) (.var .nFields)) (.var .d2)) ;;
        .stI .m_cols (.add (.var .mcols) (.add (.add (.mul (.lit 6) (.var .nFields)) (.mul (.var .nnz) (.var .d1))) (.var .d2))) (.lit 0) ;;
        .stI .m_cols (.add (.var .mcols) (.add (.add (.mul (.lit 7) (.var .nFields)) (.mul (.var .nnz) (.var .d1))) (.var .d2))) (.lit 0) ;;
        .stI .m_cols (.add (.var .mcols) (.add (.add (.mul (.lit 8) (.var .nFields)) (.mul (.var .nnz) (.var .d1))) (.var .d2))) (.lit 0) ;;
        .stI .m_cols (.add (.var .mcols) (.add (.add (.mul (.lit 9) (.var .nFields)) (.mul (.var .nnz) (.var .d1))) (.var .d2))) (.add (.mul (.sub (.sub (.var .nn) (.var .nx)) (.lit 1)) (.var .nFields)) (.var .d2)) ;;
        .stI .m_cols (.add (.var .mcols) (.add (.add (.mul (.lit 10) (.var .nFields)) (.mul (.var .nnz) (.var .d1))) (.var .d2))) (.add (.mul (.sub (.var .nn) (.var .nx)) (.var .nFields)) (.var .d2)) ;;
        .stI .m_cols (.add (.var .mcols) (.add (.add (.mul (.lit 11) (.var .nFields)) (.mul (.var .nnz) (.var .d1))) (.var .d2))) (.add (.mul (.add (.sub (.var .nn) (.var .nx)) (.lit 1)) (.var .nFields)) (.var .d2)) ;;
        .stI .m_cols (.add (.var .mcols) (.add (.add (.mul (.lit 12) (.var .nFields)) (.mul (.var .nnz) (.var .d1))) (.var .d2))) (.add (.mul (.sub (.var .nn) (.lit 1)) (.var .nFields)) (.var .d2)) ;;
        .stI .m_cols (.add (.var .mcols) (.add (.add (.mul (.lit 13) (.var .nFields)) (.mul (.var .nnz) (.var .d1))) (.var .d2))) (.add (.mul (.var .nn) (.var .nFields)) (.var .d2)) ;;
        .stI .m_cols (.add (.var .mcols) (.add (.add (.mul (.lit 14) (.var .nFields)) (.mul (.var .nnz) (.var .d1))) (.var .d2))) (.add (.mul (.add (.var .nn) (.lit 1)) (.var .nFields)) (.var .d2)) ;;
        .stI .m_cols (.add (.var .mcols) (.add (.add (.mul (.lit 15) (.var .nFields)) (.mul (.var .nnz) (.var .d1))) (.var .d2))) (.lit 0) ;;
        .stI .m_cols (.add (.var .mcols) (.add (.add (.mul (.lit 16) (.var .nFields)) (.mul (.var .nnz) (.var .d1))) (.var .d2))) (.lit 0) ;;
        .stI .m_cols (.add (.var .mcols) (.add (.add (.mul (.lit 17) (.var .nFields)) (.mul (.var .nnz) (.var .d1))) (.var .d2))) (.lit 0) ;;
        .stI .m_cols (.add (.var .mcols) (.add (.add (.mul (.lit 18) (.var .nFields)) (.mul (.var .nnz) (.var .d1))) (.var .d2))) (.lit 0) ;;
        .stI .m_cols (.add (.var .mcols) (.add (.add (.mul (.lit 19) (.var .nFields)) (.mul (.var .nnz) (.var .d1))) (.var .d2))) (.lit 0) ;;
        .stI .m_cols (.add (.var .mcols) (.add (.add (.mul (.lit 20) (.var .nFields)) (.mul (.var .nnz) (.var .d1))) (.var .d2))) (.lit 0) ;;
        .stI .m_cols (.add (.var .mcols) (.add (.add (.mul (.lit 21) (.var .nFields)) (.mul (.var .nnz) (.var .d1))) (.var .d2))) (.lit 0) ;;
        .stI .m_cols (.add (.var .mcols) (.add (.add (.mul (.lit 22) (.var .nFields)) (.mul (.var .nnz) (.var .d1))) (.var .d2))) (.lit 0) ;;
        .stI .m_cols (.add (.var .mcols) (.add (.add (.mul (.lit 23) (.var .nFields)) (.mul (.var .nnz) (.var .d1))) (.var .d2))) (.lit 0) ;;
        .stI .m_cols (.add (.var .mcols) (.add (.add (.mul (.lit 24) (.var .nFields)) (.mul (.var .nnz) (.var .d1))) (.var .d2))) (.lit 0) ;;
        .stI .m_cols (.add (.var .mcols) (.add (.add (.mul (.lit 25) (.var .nFields)) (.mul (.var .nnz) (.var .d1))) (.var .d2))) (.lit 0) ;;
        .stI .m_cols (.add (.var .mcols) (.add (.add (.mul (.lit 26) (.var .nFields)) (.mul (.var .nnz) (.var .d1))) (.var .d2))) (.lit 0)))) ;;
  .for .i (.lit 1) (.sub (.var .nx) (.lit 1)) (
    .setI .nn (.add (.add (.mul (.mul (.sub (.var .nz) (.lit 1)) (.var .nx)) (.var .ny)) (.mul (.lit 0) (.var .nx))) (.var .i)) ;;
    .setI .mcols (.mul (.mul (.var .nn) (.var .nFields)) (.var .nnz)) ;;
    .for .d1 (.lit 0) (.var .nFields) (
      .for .d2 (.lit 0) (.var .nFields) (
        .stI .m_cols (.add (.var .mcols) (.add (.add (.mul (.lit 0) (.var .nFields)) (.mul (.var .nnz) (.var .d1))) (.var .d2))) (.lit 0) ;;
        .stI .m_cols (.add (.var .mcols) (.add (.add (.mul (.lit 1) (.var .nFields)) (.mul (.var .nnz) (.var .d1))) (.var .d2))) (.lit 0) ;;
        .stI .m_cols (.add (.var .mcols) (.add (.add (.mul (.lit 2) (.var .nFields)) (.mul (.var .nnz) (.var .d1))) (.var .d2))) (.lit 0) ;;
        .stI .m_cols (.add (.var .mcols) (.add (.add (.mul (.lit 3) (.var .nFields)) (.mul (.var .nnz) (.var .d1))) (.var .d2))) (.add (.mul (.sub (.sub (.var .nn) (.mul (.var .nx) (.var .ny))) (.lit 1)) (.var .nFields)) (.var .d2)) ;;
        .stI .m_cols (.add (.var .mcols) (.add (.add (.mul (.lit 4) (.var .nFields)) (.mul (.var .nnz) (.var .d1))) (.var .d2))) (.add (.mul (.sub (.var .nn) (.mul (.var .nx) (.var .ny))) (.var .nFields)) (.var .d2)) ;;
        .stI .m_cols (.add (.var .mcols) (.add (.add (.mul (.lit 5) (.var .nFields)) (.mul (.var .nnz) (.var .d1))) (.var .d2))) (.add (.mul (.add (.sub (.var .nn) (.mul (.var .nx) (.var .ny))) (.lit 1)) (.var .nFields)) (.var .d2)) ;;
        .stI .m_cols (.add (.var .mcols) (.add (.add (.mul (.lit 6) (.var .nFields)) (.mul (.var .nnz) (.var .d1))) (.var .d2))) (.add (.mul (.sub (.add (.sub (.var .nn) (.mul (.var .nx) (.var .ny))) (.var .nx)) (.lit 1)) (.var .nFields)) (.var .d2)) ;;
        .stI .m_cols (.add (.var .mcols) (.add (.add (.mul (.lit 7) (.var .nFields)) (.mul (.var .nnz) (.var .d1))) (.var .d2))) (.add (.mul (.add (.sub (.var .nn) (.mul (.var .nx) (.var .ny))) (.var .nx)) (.var .nFields)) (.var .d2)) ;;
        .stI .m_cols (.add (.var .mcols) (.add (.add (.mul (.lit 8) (.var .nFields)) (.mul (.var .nnz) (.var .d1))) (.var .d2))) (.add (.mul (.add (.add (.sub (.var .nn) (.mul (.var .nx) (.var .ny))) (.var .nx)) (.lit 1)) (.var .nFields)) (.var .d2)) ;;
        .stI .m_cols (.add (.var .mcols) (.add (.add (.mul (.lit 9) (.var .nFields)) (.mul (.var .nnz) (.var .d1))) (.var .d2))) (.lit 0) ;;
        .stI .m_cols (.add (.var .mcols) (.add (.add (.mul (.lit 10) (.var .nFields)) (.mul (.var .nnz) (.var .d1))) (.var .d2))) (.lit 0) ;;
        .stI .m_cols (.add (.var .mcols) (.add (.add (.mul (.lit 11) (.var .nFields)) (.mul (.var .nnz) (.var .d1))) (.var .d2))) (.lit 0) ;;
        .stI .m_cols (.add (.var .mcols) (.add (.add (.mul (.lit 12) (.var .nFields)) (.mul (.var .nnz) (.var .d1))) (.var .d2))) (.add (.mul (.sub (.var .nn) (.lit 1)) (.var .nFields)) (.var .d2)) ;;
        .stI .m_cols (.add (.var .mcols) (.add (.add (.mul (.lit 13) (.var .nFields)) (.mul (.var .nnz) (.var .d1))) (.var .d2))) (.add (.mul (.var .nn) (.var .nFields)) (.var .d2)) ;;
        .stI .m_cols (.add (.var .mcols) (.add (.add (.mul (.lit 14) (.var .nFields)) (.mul (.var .nnz) (.var .d1))) (.var .d2))) (.add (.mul (.add (.var .nn) (.lit 1)) (.var .nFields)) (.var .d2)) ;;
        .stI .m_cols (.add (.var .mcols) (.add (.add (.mul (.lit 15) (.var .nFields)) (.mul (.var .nnz) (.var .d1))) (.var .d2))) (.add (.mul (.sub (.add (.var .nn) (.var .nx)) (.lit 1)) (.var .nFields)) (.var .d2)) ;;
        .stI .m_cols (.add (.var .mcols) (.add (.add (.mul (.lit 16) (.var .nFields)) (.mul (.var .nnz) (.var .d1))) (.var .d2))) (.add (.mul (.add (.var .nn) (.var .nx)) (.var .nFields)) (.var .d2)) ;;
        .stI .m_cols (.add (.var .mcols) (.add (.add (.mul (.lit 17) (.var .nFields)) (.mul (.var .nnz) (.var .d1))) (.var .d2))) (.add (.mul (.add (.add (.var .nn) (.var .nx)) (.lit 1)) (.var .nFields)) (.var .d2)) ;;
        .stI .m_cols (.add (.var .mcols) (.add (.add (.mul (.lit 18) (.var .nFields)) (.mul (.var .nnz) (.var .d1))) (.var .d2))) (.lit 0) ;;
        .stI .m_cols (.add (.var .mcols) (.add (.add (.mul (.lit 19) (.var .nFields)) (.mul (.var .nnz) (.var .d1))) (.var .d2))) (.lit 0) ;;
        .stI .m_cols (.add (.var .mcols) (.add (.add (.mul (.lit 20) (.var .nFields)) (.mul (.var .nnz) (.var .d1))) (.var .d2))) (.lit 0) ;;
        .stI .m_cols (.add (.var .mcols) (.add (.add (.mul (.lit 21) (.var .nFields)) (.mul (.var .nnz) (.var .d1))) (.var .d2))) (.lit 0) ;;
        .stI .m_cols (.add (.var .mcols) (.add (.add (.mul (.lit 22) (.var .nFields)) (.mul (.var .nnz) (.var .d1))) (.var .d2))) (.lit 0) ;;
        .stI .m_cols (.add (.var .mcols) (.add (.add (.mul (.lit 23) (.var .nFields)) (.mul (.var .nnz) (.var .d1))) (.var .d2))) (.lit 0) ;;
        .stI .m_cols (.add (.var .mcols) (.add (.add (.mul (.lit 24) (.var .nFields)) (.mul (.var .nnz) (.var .d1))) (.var .d2))) (.lit 0) ;;
        .stI .m_cols (.add (.var .mcols) (.add (.add (.mul (.lit 25) (.var .nFields)) (.mul (.var .nnz) (.var .d1))) (.var .d2))) (.lit 0) ;;
        .stI .m_cols (.add (.var .mcols) (.add (.add (.mul (.lit 26) (.var .nFields)) (.mul (.var .nnz) (.var .d1))) (.var .d2))) (.lit 0)))) ;;
  .for .j (.lit 1) (.sub (.var .ny) (.lit 1)) (
    .setI .nn (.add (.add (.mul (.mul (.lit 0) (.var .nx)) (.var .ny)) (.mul (.var .j) (.var .nx))) (.lit 0)) ;;
    .setI .mcols (.mul (.mul (.var .nn) (.var .nFields)) (.var .nnz)) ;;
    .for .d1 (.lit 0) (.var .nFields) (
      .for .d2 (.lit 0) (.var .nFields) (
        .stI .m_cols (.add (.var .mcols) (.add (.add (.mul (.lit 0) (.var .nFields)) (.mul (.var .nnz) (.var .d1))) (.var .d2))) (.lit 0) ;;
        .stI .m_cols (.add (.var .mcols) (.add (.add (.mul (.lit 1) (.var .nFields)) (.mul (.var .nnz) (.var .d1))) (.var .d2))) (.lit 0) ;;
        .stI .m_cols (.add (.var .mcols) (.add (.add (.mul (.lit 2) (.var .nFields)) (.mul (.var .nnz) (.var .d1))) (.var .d2))) (.lit 0) ;;
        .stI .m_cols (.add (.var .mcols) (.add (.add (.mul (.lit 3) (.var .nFields)) (.mul (.var .nnz) (.var .d1))) (.var .d2))) (.lit 0) ;;
        .stI .m_cols (.add (.var .mcols) (.add (.add (.mul (.lit 4) (.var .nFields)) (.mul (.var .nnz) (.var .d1))) (.var .d2))) (.lit 0) ;;
        .stI .m_cols (.add (.var .mcols) (.add (.add (.mul (.lit 5) (.var .nFields)) (.mul (.var .nnz) (.var .d1))) (.var .d2))) (.lit 0) ;;
        .stI .m_cols (.add (.var .mcols) (.add (.add (.mul (.lit 6) (.var .nFields)) (.mul (.var .nnz) (.var .d1))) (.var .d2))) (.lit 0) ;;
        .stI .m_cols (.add (.var .mcols) (.add (.add (.mul (.lit 7) (.var .nFields)) (.mul (.var .nnz) (.var .d1))) (.var .d2))) (.lit 0) ;;
        .stI .m_cols (.add (.var .mcols) (.add (.add (.mul (.lit 8) (.var .nFields)) (.mul (.var .nnz) (.var .d1))) (.var .d2))) (.lit 0) ;;
        .stI .m_cols (.add (.var .mcols) (.add (.add (.mul (.lit 9) (.var .nFields)) (.mul (.var .nnz) (.var .d1))) (.var .d2))) (.lit 0) ;;
        .stI .m_cols (.add (.var .mcols) (.add (.add (.mul (.lit 10) (.var .nFields)) (.mul (.var .nnz) (.var .d1))) (.var .d2))) (.add (.mul (.sub (.var .nn) (.var .nx)) (.var .nFields)) (.var .d2)) ;;
        .stI .m_cols (.add (.var .mcols) (.add (.add (.mul (.lit 11) (.var .nFields)) (.mul (.var .nnz) (.var .d1))) (.var .d2))) (.add (.mul (.add (.sub (.var .nn) (.var .nx)) (.lit 1)) (.var .nFields)) (.var .d2)) ;;
        .stI .m_cols (.add (.var .mcols) (.add (.add (.mul (.lit 12) (.var .nFields)) (.mul (.var .nnz) (.var .d1))) (.var .d2))) (.lit 0) ;;
        .stI .m_cols (.add (.var .mcols) (.add (.add (.mul (.lit 13) (.var .nFields)) (.mul (.var .nnz) (.var .d1))) (.var .d2))) (.add (.mul (.var .nn) (.var .nFields)) (.var .d2)) ;;
        .stI .m_cols (.add (.var .mcols) (.add (.add (.mul (.lit 14) (.var .nFields)) (.mul (.var .nnz) (.var .d1))) (.var .d2))) (.add (.mul (.add (.var .nn) (.lit 1)) (.var .nFields)) (.var .d2)) ;;
        .stI .m_cols (.add (.var .mcols) (.add (.add (.mul (.lit 15) (.var .nFields)) (.mul (.var .nnz) (.var .d1))) (.var .d2))) (.lit 0) ;;
        .stI .m_cols (.add (.var .mcols) (.add (.add (.mul (.lit 16) (.var .nFields)) (.mul (.var .nnz) (.var .d1))) (.var .d2))) (.add (.mul (.add (.var .nn) (.var .nx)) (.var .nFields)) (.var .d2)) ;;
        .stI .m_cols (.add (.var .mcols) (.add (.add (.mul (.lit 17) (.var .nFields)) (.mul (.var .nnz) (.var .d1))) (.var .d2))) (.add (.mul (.add (.add (.var .nn) (.var .nx)) (.lit 1)) (.var .nFields)) (.var .d2)) ;;
        .stI .m_cols (.add (.var .mcols) (.add (.add (.mul (.lit 18) (.var .nFields)) (.mul (.var .nnz) (.var .d1))) (.var .d2))) (.lit 0) ;;
        .stI .m_cols (.add (.var .mcols) (.add (.add (.mul (.lit 19) (.var .nFields)) (.mul (.var .nnz) (.var .d1))) (.var .d2))) (.add (.mul (.sub (.add (.var .nn) (.mul (.var .nx) (.var .ny))) (.var .nx)) (.var .nFields)) (.var .d2)) ;;
        .stI .m_cols (.add (.var .mcols) (.add (.add (.mul (.lit 20) (.var .nFields)) (.mul (.var .nnz) (.var .d1))) (.var .d2))) (.add (.mul (.add (.sub (.add (.var .nn) (.mul (.var .nx) (.var .ny))) (.var .nx)) (.lit 1)) (.var .nFields)) (.var .d2)) ;;
        .stI .m_cols (.add (.var .mcols) (.add (.add (.mul (.lit 21) (.var .nFields)) (.mul (.var .nnz) (.var .d1))) (.var .d2))) (.lit 0) ;;
        .stI .m_cols (.add (.var .mcols) (.add (.add (.mul (.lit 22) (.var .nFields)) (.mul (.var .nnz) (.var .d1))) (.var .d2))) (.add (.mul (.add (.var .nn) (.mul (.var .nx) (.var .ny))) (.var .nFields)) (.var .d2)) ;;
        .stI .m_cols (.add (.var .mcols) (.add (.add (.mul (.lit 23) (.var .nFields)) (.mul (.var .nnz) (.var .d1))) (.var .d2))) (.add (.mul (.add (.add (.var .nn) (.mul (.var .nx) (.var .ny))) (.lit 1)) (.var .nFields)) (.var .d2)) ;;
        .stI .m_cols (.add (.var .mcols) (.add (.add (.mul (.lit 24) (.var .nFields)) (.mul (.var .nnz) (.var .d1))) (.var .d2))) (.lit 0) ;;
        .stI .m_cols (.add (.var .mcols) (.add (.add (.mul (.lit 25) (.var .nFields)) (.mul (.var .nnz) (.var .d1))) (.var .d2))) (.add (.mul (.add (.add (.var .nn) (.mul (.var .nx) (.var .ny))) (.var .nx)) (.var .nFields)) (.var .d2)) ;;
        .stI .m_cols (.add (.var .mcols) (.add (.add (.mul (.lit 26) (.var .nFields)) (.mul (.var .nnz) (.var .d1))) (.var .d2))) (.add (.mul (.add (.add (.add (.var .nn) (.mul (.var .nx) (.var .ny))) (.var .nx)) (.lit 1)) (.var .nFields)) (.var .d2))))) ;;
  .for .j (.lit 1) (.sub (.var .ny) (.lit 1)) (
    .setI .nn (.add (.add (.mul (.mul (.lit 0) (.var .nx)) (.var .ny)) (.mul (.var .j) (.var .nx))) (.sub (.var .nx) (.lit 1))) ;;
    .setI .mcols (.mul (.mul (.var .nn) (.var .nFields)) (.var .nnz)) ;;
    .for .d1 (.lit 0) (.var .nFields) (
      .for .d2 (.lit 0) (.var .nFields) (
        .stI .m_cols (.add (.var .mcols) (.add (.add (.mul (.lit 0) (.var .nFields)) (.mul (.var .nnz) (.var .d1))) (.var .d2))) (.lit 0) ;;
        .stI .m_cols (.add (.var .mcols) (.add (.add (.mul (.lit 1) (.var .nFields)) (.mul (.var .nnz) (.var .d1))) (.var .d2))) (.lit 0) ;;
        .stI .m_cols (.add (.var .mcols) (.add (.add (.mul (.lit 2) (.var .nFields)) (.mul (.var .nnz) (.var .d1))) (.var .d2))) (.lit 0) ;;
        .stI .m_cols (.add (.var .mcols) (.add (.add (.mul (.lit 3) (.var .nFields)) (.mul (.var .nnz) (.var .d1))) (.var .d2))) (.lit 0) ;;
        .stI .m_cols (.add (.var .mcols) (.add (.add (.mul (.lit 4) (.var .nFields)) (.mul (.var .nnz) (.var .d1))) (.var .d2))) (.lit 0) ;;
        .stI .m_cols (.add (.var .mcols) (.add (.add (.mul (.lit 5) (.var .nFields)) (.mul (.var .nnz) (.var .d1))) (.var .d2))) (.lit 0) ;;
        .stI .m_cols (.add (.var .mcols) (.add (.add (.mul (.lit 6) (.var .nFields)) (.mul (.var .nnz) (.var .d1))) (.var .d2))) (.lit 0) ;;
        .stI .m_cols (.add (.var .mcols) (.add (.add (.mul (.lit 7) (.var .nFields)) (.mul (.var .nnz) (.var .d1))) (.var .d2))) (.lit 0) ;;
        .stI .m_cols (.add (.var .mcols) (.add (.add (.mul (.lit 8) (.var .nFields)) (.mul (.var .nnz) (.var .d1))) (.var .d2))) (.lit 0) ;;
        .stI .m_cols (.add (.var .mcols) (.add (.add (.mul (.lit 9) (.var .nFields)) (.mul (.var .nnz) (.var .d1))) (.var .d2))) (.add (.mul (.sub (.sub (.var .nn) (.var .nx)) (.lit 1)) (.var .nFields)) (.var .d2)) ;;
        .stI .m_cols (.add (.var .mcols) (.add (.add (.mul (.lit 10) (.var .nFields)) (.mul (.var .nnz) (.var .d1))) (.var .d2))) (.add (.mul (.sub (.var .nn) (.var .nx)) (.var .nFields)) (.var .d2)) ;;
        .stI .m_cols (.add (.var .mcols) (.add (.add (.mul (.lit 11) (.var .nFields)) (.mul (.var .nnz) (.var .d1))) (.var .d2))) (.lit 0) ;;
        .stI .m_cols (.add (.var .mcols) (.add (.add (.mul (.lit 12) (.var .nFields)) (.mul (.var .nnz) (.var .d1))) (.var .d2))) (.add (.mul (.sub (.var .nn) (.lit 1)) (.var .nFields)) (.var .d2)) ;;
        .stI .m_cols (.add (.var .mcols) (.add (.add (.mul (.lit 13) (.var .nFields)) (.mul (.var .nnz) (.var .d1))) (.var .d2))) (.add (.mul (.var .nn) (.var .nFields)) (.var .d2)) ;;
        .stI .m_cols (.add (.var .mcols) (.add (.add (.mul (.lit 14) (.var .nFields)) (.mul (.var .nnz) (.var .d1))) (.var .d2))) (.lit 0) ;;
        .stI .m_cols (.add (.var .mcols) (.add (.add (.mul (.lit 15) (.var .nFields)) (.mul (.var .nnz) (.var .d1))) (.var .d2))) (.add (.mul (.sub (.add (.var .nn) (.var .nx)) (.lit 1)) (.var .nFields)) (.var .d2)) ;;
        .stI .m_cols (.add (.var .mcols) (.add (.add (.mul (.lit 16) (.var .nFields)) (.mul (.var .nnz) (.var .d1))) (.var .d2))) (.add (.mul (.add (.var .nn) (.var .nx)) (.var .nFields)) (.var .d2)) ;;
        .stI .m_cols (.add (.var .mcols) (.add (.add (.mul (.lit 17) (.var .nFields)) (.mul (.var .nnz) (.var .d1))) (.var .d2))) (.lit 0) ;;
        .stI .m_cols (.add (.var .mcols) (.add (.add (.mul (.lit 18) (.var .nFields)) (.mul (.var .nnz) (.var .d1))) (.var .d2))) (.add (.mul (.sub (.sub (.add (.var .nn) (.mul (.var .nx) (.var .ny))) (.var .nx)) (.lit 1)) (.var .nFields)) (.var .d2)) ;;
        .stI .m_cols (.add (.var .mcols) (.add (.add (.mul (.lit 19) (.var .nFields)) (.mul (.var .nnz) (.var .d1))) (.var .d2))) (.add (.mul (.sub (.add (.var .nn) (.mul (.var .nx) (.var .ny))) (.var .nx)) (.var .nFields)) (.var .d2)) ;;
        .stI .m_cols (.add (.var .mcols) (.add (.add (.mul (.lit 20) (.var .nFields)) (.mul (.var .nnz) (.var .d1))) (.var .d2))) (.lit 0) ;;
        .stI .m_cols (.add (.var .mcols) (.add (.add (.mul (.lit 21) (.var .nFields)) (.mul (.var .nnz) (.var .d1))) (.var .d2))) (.add (.mul (.sub (.add (.var .nn) (.mul (.var .nx) (.var .ny))) (.lit 1)) (.var .nFields)) (.var .d2)) ;;
        .stI .m_cols (.add (.var .mcols) (.add (.add (.mul (.lit 22) (.var .nFields)) (.mul (.var .nnz) (.var .d1))) (.var .d2))) (.add (.mul (.add (.var .nn) (.mul (.var .nx) (.var .ny))) (.var .nFields)) (.var .d2)) ;;
        .stI .m_cols (.add (.var .mcols) (.add (.add (.mul (.lit 23) (.var .nFields)) (.mul (.var .nnz) (.var .d1))) (.var .d2))) (.lit 0) ;;
        .stI .m_cols (.add (.var .mcols) (.add (.add (.mul (.lit 24) (.var .nFields)) (.mul (.var .nnz) (.var .d1))) (.var .d2))) (.add (.mul (.sub (.add (.add (.var .nn) (.mul (.var .nx) (.var .ny))) (.var .nx)) (.lit 1)) (.var .nFields)) (.var .d2)) ;;
        .stI .m_cols (.add (.var .mcols) (.add (.add (.mul (.lit 25) (.var .nFields)) (.mul (.var .nnz) (.var .d1))) (.var .d2))) (.add (.mul (.add (.add (.var .nn) (.mul (.var .nx) (.var .ny))) (.var .nx)) (.var .nFields)) (.var .d2)) ;;
        .stI .m_cols (.add (.var .mcols) (.add (.add (.mul (.lit 26) (.var .nFields)) (.mul (.var .nnz) (.var .d1))) (.var .d2))) (.lit 0)))) ;;
  .for .j (.lit 1) (.sub (.var .ny) (.lit 1)) (
    .setI .nn (.add (.add (.mul (.mul (.sub (.var .nz) (.lit 1)) (.var .nx)) (.var .ny)) (.mul (.var .j) (.var .nx))) (.sub (.var .nx) (.lit 1))) ;;
    .setI .mcols (.mul (.mul (.var .nn) (.var .nFields)) (.var .nnz)) ;;
    .for .d1 (.lit 0) (.var .nFields) (
      .for .d2 (.lit 0) (.var .nFields) (
        .stI .m_cols (.add (.var .mcols) (.add (.add (.mul (.lit 0) (.var .nFields)) (.mul (.var .nnz) (.var .d1))) (.var .d2))) (.add (.mul (.sub (.sub (.sub (.var .nn) (.mul (.var .nx) (.var .ny))) (.var .nx)) (.lit 1)) (.var .nFields)) (.var .d2)) ;;
        .stI .m_cols (.add (.var .mcols) (.add (.add (.mul (.lit 1) (.var .nFields)) (.mul (.var .nnz) (.var .d1))) (.var .d2))) (.add (.mul (.sub (.sub (.var .nn) (.mul (.var .nx) (.var .ny))) (.var .nx)) (.var .nFields)) (.var .d2)) ;;
        .stI .m_cols (.add (.var .mcols) (.add (.add (.mul (.lit 2) (.var .nFields)) (.mul (.var .nnz) (.var .d1))) (.var .d2))) (.lit 0) ;;
        .stI .m_cols (.add (.var .mcols) (.add (.add (.mul (.lit 3) (.var .nFields)) (.mul (.var .nnz) (.var .d1))) (.var .d2))) (.add (.mul (.sub (.sub (.var .nn) (.mul (.var .nx) (.var .ny))) (.lit 1)) (.var .nFields)) (.var .d2)) ;;
        .stI .m_cols (.add (.var .mcols) (.add (.add (.mul (.lit 4) (.var .nFields)) (.mul (.var .nnz) (.var .d1))) (.var .d2))) (.add (.mul (.sub (.var .nn) (.mul (.var .nx) (.var .ny))) (.var .nFields)) (.var .d2)) ;;
        .stI .m_cols (.add (.var .mcols) (.add (.add (.mul (.lit 5) (.var .nFields)) (.mul (.var .nnz) (.var .d1))) (.var .d2))) (.lit 0) ;;
        .stI .m_cols (.add (.var .mcols) (.add (.add (.mul (.lit 6) (.var .nFields)) (.mul (.var .nnz) (.var .d1))) (.var .d2))) (.add (.mul (.sub (.add (.sub (.var .nn) (.mul (.var .nx) (.var .ny))) (.var .nx)) (.lit 1)) (.var .nFields)) (.var .d2)) ;;
        .stI .m_cols (.add (.var .mcols) (.add (.add (.mul (.lit 7) (.var .nFields)) (.mul (.var .nnz) (.var .d1))) (.var .d2))) (.add (.mul (.add (.sub (.var .nn) (.mul (.var .nx) (.var .ny))) (.var .nx)) (.var .nFields)) (.var .d2)) ;;
        .stI .m_cols (.add (.var .mcols) (.add (.add (.mul (.lit 8) (.var .nFields)) (.mul (.var .nnz) (.var .d1))) (.var .d2))) (.lit 0) ;;
        .stI .m_cols (.add (.var .mcols) (.add (.add (.mul (.lit 9) (.var .nFields)) (.mul (.var .nnz) (.var .d1))) (.var .d2))) (.add (.mul (.sub (.sub (.var .nn) (.var .nx)) (.lit 1)) (.var .nFields)) (.var .d2)) ;;
        .stI .m_cols (.add (.var .mcols) (.add (.add (.mul (.lit 10) (.var .nFields)) (.mul (.var .nnz) (.var .d1))) (.var .d2))) (.add (.mul (.sub (.var .nn) (.var .nx)) (.var .nFields)) (.var .d2)) ;;
        .stI .m_cols (.add (.var .mcols) (.add (.add (.mul (.lit 11) (.var .nFields)) (.mul (.var .nnz) (.var .d1))) (.var .d2))) (.lit 0) ;;
        .stI .m_cols (.add (.var .mcols) (.add (.add (.mul (.lit 12) (.var .nFields)) (.mul (.var .nnz) (.var .d1))) (.var .d2))) (.add (.mul (.sub (.var .nn) (.lit 1)) (.var .nFields)) (.var .d2)) ;;
        .stI .m_cols (.add (.var .mcols) (.add (.add (.mul (.lit 13) (.var .nFields)) (.mul (.var .nnz) (.var .d1))) (.var .d2))) (.add (.mul (.var .nn) (.var .nFields)) (.var .d2)) ;;
        .stI .m_cols (.add (.var .mcols) (.add (.add (.mul (.lit 14) (.var .nFields)) (.mul (.var .nnz) (.var .d1))) (.var .d2))) (.lit 0) ;;
        .stI .m_cols (.add (.var .mcols) (.add (.add (.mul (.lit 15) (.var .nFields)) (.mul (.var .nnz) (.var .d1))) (.var .d2))) (.add (.mul (.sub (.add (.var .nn) (.var .nx)) (.lit 1)) (.var .nFields)) (.var .d2)) ;;
        .stI .m_cols (.add (.var .mcols) (.add (.add (.mul (.lit 16) (.var .nFields)) (.mul (.var .nnz) (.var .d1))) (.var .d2))) (.add (.mul (.add (.var .nn) (.var .nx)) (.var .nFields)) (.var .d2)) ;;
        .stI .m_cols (.add (.var .mcols) (.add (.add (.mul (.lit 17) (.var .nFields)) (.mul (.var .nnz) (.var .d1))) (.var .d2))) (.lit 0) ;;
        .stI .m_cols (.add (.var .mcols) (.add (.add (.mul (.lit 18) (.var .nFields)) (.mul (.var .nnz) (.var .d1))) (.var .d2))) (.lit 0) ;;
        .stI .m_cols (.add (.var .mcols) (.add (.add (.mul (.lit 19) (.var .nFields)) (.mul (.var .nnz) (.var .d1))) (.var .d2))) (.lit 0) ;;
        .stI .m_cols (.add (.var .mcols) (.add (.add (.mul (.lit 20) (.var .nFields)) (.mul (.var .nnz) (.var .d1))) (.var .d2))) (.lit 0) ;;
        .stI .m_cols (.add (.var .mcols) (.add (.add (.mul (.lit 21) (.var .nFields)) (.mul (.var .nnz) (.var .d1))) (.var .d2))) (.lit 0) ;;
        .stI .m_cols (.add (.var .mcols) (.add (.add (.mul (.lit 22) (.var .nFields)) (.mul (.var .nnz) (.var .d1))) (.var .d2))) (.lit 0) ;;
        .stI .m_cols (.add (.var .mcols) (.add (.add (.mul (.lit 23) (.var .nFields)) (.mul (.var .nnz) (.var .d1))) (.var .d2))) (.lit 0) ;;
        .stI .m_cols (.add (.var .mcols) (.add (.add (.mul (.lit 24) (.var .nFields)) (.mul (.var .nnz) (.var .d1))) (.var .d2))) (.lit 0) ;;
        .stI .m_cols (.add (.var .mcols) (.add (.add (.mul (.lit 25) (.var .nFields)) (.mul (.var .nnz) (.var .d1))) (.var .d2))) (.lit 0) ;;
        .stI .m_cols (.add (.var .mcols) (.add (.add (.mul (.lit 26) (.var .nFields)) (.mul (.var .nnz) (.var .d1))) (.var .d2))) (.lit 0)))) ;;
  .for .j (.lit 1) (.sub (.var .ny) (.lit 1)) (
    .setI .nn (.add (.add (.mul (.mul (.sub (.var .nz) (.lit 1)) (.var .nx)) (.var .ny)) (.mul (.var .j) (.var .nx))) (.lit 0)) ;;
    .setI .mcols (.mul (.mul (.var .nn) (.var .nFields)) (.var .nnz)) ;;
    .for .d1 (.lit 0) (.var .nFields) (
      .for .d2 (.lit 0) (.var .nFields) (
        .stI .m_cols (.add (.var .mcols) (.add (.add (.mul (.lit 0) (.var .nFields)) (.mul (.var .nnz) (.var .d1))) (.var .d2))) (.lit 0) ;;
        .stI .m_cols (.add (.var .mcols) (.add (.add (.mul (.lit 1) (.var .nFields)) (.mul (.var .nnz) (.var .d1))) (.var .d2))) (.add (.mul (.sub (.sub (.var .nn) (.mul (.var .nx) (.var .ny))) (.var .nx)) (.var .nFields)) (.var .d2)) ;;
        .stI .m_cols (.add (.var .mcols) (.add (.add (.mul (.lit 2) (.var .nFields)) (.mul (.var .nnz) (.var .d1))) (.var .d2))) (.add (.mul (.add (.sub (.sub (.var .nn) (.mul (.var .nx) (.var .ny))) (.var .nx)) (.lit 1)) (.var .nFields)) (.var .d2)) ;;
        .stI .m_cols (.add (.var .mcols) (.add (.add (.mul (.lit 3) (.var .nFields)) (.mul (.var .nnz) (.var .d1))) (.var .d2))) (.lit 0) ;;
        .stI .m_cols (.add (.var .mcols) (.add (.add (.mul (.lit 4) (.var .nFields)) (.mul (.var .nnz) (.var .d1))) (.var .d2))) (.add (.mul (.sub (.var .nn) (.mul (.var .nx) (.var .ny))) (.var .nFields)) (.var .d2)) ;;
        .stI .m_cols (.add (.var .mcols) (.add (.add (.mul (.lit 5) (.var .nFields)) (.mul (.var .nnz) (.var .d1))) (.var .d2))) (.add (.mul (.add (.sub (.var .nn) (.mul (.var .nx) (.var .ny))) (.lit 1)) (.var .nFields)) (.var .d2)) ;;
        .stI .m_cols (.add (.var .mcols) (.add (.add (.mul (.lit 6) (.var .nFields)) (.mul (.var .nnz) (.var .d1))) (.var .d2))) (.lit 0) ;;
        .stI .m_cols (.add (.var .mcols) (.add (.add (.mul (.lit 7) (.var .nFields)) (.mul (.var .nnz) (.var .d1))) (.var .d2))) (.add (.mul (.add (.sub (.var .nn) (.mul (.var .nx) (.var .ny))) (.var .nx)) (.var .nFields)) (.var .d2)) ;;
        .stI .m_cols (.add (.var .mcols) (.add (.add (.mul (.lit 8) (.var .nFields)) (.mul (.var .nnz) (.var .d1))) (.var .d2))) (.add (.mul (.add (.add (.sub (.var .nn) (.mul (.var .nx) (.var .ny))) (.var .nx)) (.lit 1)) (.var .nFields)) (.var .d2)) ;;
        .stI .m_cols (.add (.var .mcols) (.add (.add (.mul (.lit 9) (.var .nFields)) (.mul (.var .nnz) (.var .d1))) (.var .d2))) (.lit 0) ;;
        .stI .m_cols (.add (.var .mcols) (.add (.add (.mul (.lit 10) (.var .nFields)) (.mul (.var .nnz) (.var .d1))) (.var .d2))) (.add (.mul (.sub (.var .nn) (.var .nx)) (.var .nFields)) (.var .d2)) ;;
        .stI .m_cols (.add (.var .mcols) (.add (.add (.mul (.lit 11) (.var .nFields)) (.mul (.var .nnz) (.var .d1))) (.var .d2))) (.add (.mul (.add (.sub (.var .nn) (.var .nx)) (.lit 1)) (.var .nFields)) (.var .d2)) ;;
        .stI .m_cols (.add (.var .mcols) (.add (.add (.mul (.lit 12) (.var .nFields)) (.mul (.var .nnz) (.var .d1))) (.var .d2))) (.lit 0) ;;
        .stI .m_cols (.add (.var .mcols) (.add (.add (.mul (.lit 13) (.var .nFields)) (.mul (.var .nnz) (.var .d1))) (.var .d2))) (.add (.mul (.var .nn) (.var .nFields)) (.var .d2)) ;;
        .stI .m_cols (.add (.var .mcols) (.add (.add (.mul (.lit 14) (.var .nFields)) (.mul (.var .nnz) (.var .d1))) (.var .d2))) (.add (.mul (.add (.var .nn) (.lit 1)) (.var .nFields)) (.var .d2)) ;;
        .stI .m_cols (.add (.var .mcols) (.add (.add (.mul (.lit 15) (.var .nFields)) (.mul (.var .nnz) (.var .d1))) (.var .d2))) (.lit 0) ;;
        .stI .m_cols (.add (.var .mcols) (.add (.add (.mul (.lit 16) (.var .nFields)) (.mul (.var .nnz) (.var .d1))) (.var .d2))) (.add (.mul (.add (.var .nn) (.var .nx)) (.var .nFields)) (.var .d2)) ;;
        .stI .m_cols (.add (.var .mcols) (.add (.add (.mul (.lit 17) (.var .nFields)) (.mul (.var .nnz) (.var .d1))) (.var .d2))) (.add (.mul (.add (.add (.var .nn) (.var .nx)) (.lit 1)) (.var .nFields)) (.var .d2)) ;;
        .stI .m_cols (.add (.var .mcols) (.add (.add (.mul (.lit 18) (.var .nFields)) (.mul (.var .nnz) (.var .d1))) (.var .d2))) (.lit 0) ;;
        .stI .m_cols (.add (.var .mcols) (.add (.add (.mul (.lit 19) (.var .nFields)) (.mul (.var .nnz) (.var .d1))) (.var .d2))) (.lit 0) ;;
        .stI .m_cols (.add (.var .mcols) (.add (.add (.mul (.lit 20) (.var .nFields)) (.mul (.var .nnz) (.var .d1))) (.var .d2))) (.lit 0) ;;
        .stI .m_cols (.add (.var .mcols) (.add (.add (.mul (.lit 21) (.var .nFields)) (.mul (.var .nnz) (.var .d1))) (.var .d2))) (.lit 0) ;;
        .stI .m_cols (.add (.var .mcols) (.add (.add (.mul (.lit 22) (.var .nFields)) (.mul (.var .nnz) (.var .d1))) (.var .d2))) (.lit 0) ;;
        .stI .m_cols (.add (.var .mcols) (.add (.add (.mul (.lit 23) (.var .nFields)) (.mul (.var .nnz) (.var .d1))) (.var .d2))) (.lit 0) ;;
        .stI .m_cols (.add (.var .mcols) (.add (.add (.mul (.lit 24) (.var .nFields)) (.mul (.var .nnz) (.var .d1))) (.var .d2))) (.lit 0) ;;
        .stI .m_cols (.add (.var .mcols) (.add (.add (.mul (.lit 25) (.var .nFields)) (.mul (.var .nnz) (.var .d1))) (.var .d2))) (.lit 0) ;;
        .stI .m_cols (.add (.var .mcols) (.add (.add (.mul (.lit 26) (.var .nFields)) (.mul (.var .nnz) (.var .d1))) (.var .d2))) (.lit 0)))) ;;
  .for .i (.lit 1) (.sub (.var .nx) (.lit 1)) (
    .for .j (.lit 1) (.sub (.var .ny) (.lit 1)) (
      .setI .nn (.add (.add (.mul (.mul (.lit 0) (.var .nx)) (.var .ny)) (.mul (.var .j) (.var .nx))) (.var .i)) ;;
      .setI .mcols (.mul (.mul (.var .nn) (.var .nFields)) (.var .nnz)) ;;
      .for .d1 (.lit 0) (.var .nFields) (
        .for .d2 (.lit 0) (.var .nFields) (
          .stI .m_cols (.add (.var .mcols) (.add (.add (.mul (.lit 0) (.var .nFields)) (.mul (.var .nnz) (.var .d1))) (.var .d2))) (.lit 0) ;;
          .stI .m_cols (.add (.var .mcols) (.add (.add (.mul (.lit 1) (.var .nFields)) (.mul (.var .nnz) (.var .d1))) (.var .d2))) (.lit 0) ;;
          .stI .m_cols (.add (.var .mcols) (.add (.add (.mul (.lit 2) (.var .nFields)) (.mul (.var .nnz) (.var .d1))) (.var .d2))) (.lit 0) ;;
          .stI .m_cols (.add (.var .mcols) (.add (.add (.mul (.lit 3) (.var .nFields)) (.mul (.var .nnz) (.var .d1))) (.var .d2))) (.lit 0) ;;
          .stI .m_cols (.add (.var .mcols) (.add (.add (.mul (.lit 4) (.var .nFields)) (.mul (.var .nnz) (.var .d1))) (.var .d2))) (.lit 0) ;;
          .stI .m_cols (.add (.var .mcols) (.add (.add (.mul (.lit 5) (.var .nFields)) (.mul (.var .nnz) (.var .d1))) (.var .d2))) (.lit 0) ;;
          .stI .m_cols (.add (.var .mcols) (.add (.add (.mul (.lit 6) (.var .nFields)) (.mul (.var .nnz) (.var .d1))) (.var .d2))) (.lit 0) ;;
          .stI .m_cols (.add (.var .mcols) (.add (.add (.mul (.lit 7) (.var .nFields)) (.mul (.var .nnz) (.var .d1))) (.var .d2))) (.lit 0) ;;
          .stI .m_cols (.add (.var .mcols) (.add (.add (.mul (.lit 8) (.var .nFields)) (.mul (.var .nnz) (.var .d1))) (.var .d2))) (.lit 0) ;;
          .stI .m_cols (.add (.var .mcols) (.add (.add (.mul (.lit 9) (.var .nFields)) (.mul (.var .nnz) (.var .d1))) (.var .d2))) (.add (.mul (.sub (.sub (.var .nn) (.var .nx)) (.lit 1)) (.var .nFields)) (.var .d2)) ;;
          .stI .m_cols (.add (.var .mcols) (.add (.add (.mul (.lit 10) (.var .nFields)) (.mul (.var .nnz) (.var .d1))) (.var .d2))) (.add (.mul (.sub (.var .nn) (.var .nx)) (.var .nFields)) (.var .d2)) ;;
          .stI .m_cols (.add (.var .mcols) (.add (.add (.mul (.lit 11) (.var .nFields)) (.mul (.var .nnz) (.var .d1))) (.var .d2))) (.add (.mul (.add (.sub (.var .nn) (.var .nx)) (.lit 1)) (.var .nFields)) (.var .d2)) ;;
          .stI .m_cols (.add (.var .mcols) (.add (.add (.mul (.lit 12) (.var .nFields)) (.mul (.var .nnz) (.var .d1))) (.var .d2))) (.add (.mul (.sub (.var .nn) (.lit 1)) (.var .nFields)) (.var .d2)) ;;
          .stI .m_cols (.add (.var .mcols) (.add (.add (.mul (.lit 13) (.var .nFields)) (.mul (.var .nnz) (.var .d1))) (.var .d2))) (.add (.mul (.var .nn) (.var .nFields)) (.var .d2)) ;;
          .stI .m_cols (.add (.var .mcols) (.add (.add (.mul (.lit 14) (.var .nFields)) (.mul (.var .nnz) (.var .d1))) (.var .d2))) (.add (.mul (.add (.var .nn) (.lit 1)) (.var .nFields)) (.var .d2)) ;;
          .stI .m_cols (.add (.var .mcols) (.add (.add (.mul (.lit 15) (.var .nFields)) (.mul (.var .nnz) (.var .d1))) (.var .d2))) (.add (.mul (.sub (.add (.var .nn) (.var .nx)) (.lit 1)) (.var .nFields)) (.var .d2)) ;;
          .stI .m_cols (.add (.var .mcols) (.add (.add (.mul (.lit 16) (.var .nFields)) (.mul (.var .nnz) (.var .d1))) (.var .d2))) (.add (.mul (.add (.var .nn) (.var .nx)) (.var .nFields)) (.var .d2)) ;;
          .stI .m_cols (.add (.var .mcols) (.add (.add (.mul (.lit 17) (.var .nFields)) (.mul (.var .nnz) (.var .d1))) (.var .d2))) (.add (.mul (.add (.add (.var .nn) (.var .nx)) (.lit 1)) (.var .nFields)) (.var .d2)) ;;
          .stI .m_cols (.add (.var .mcols) (.add (.add (.mul (.lit 18) (.var .nFields)) (.mul (.var .nnz) (.var .d1))) (.var .d2))) (.add (.mul (.sub (.sub (.add (.var .nn) (.mul (.var .nx) (.var .ny))) (.var .nx)) (.lit 1)) (.var .nFields)) (.var .d2)) ;;
          .stI .m_cols (.add (.var .mcols) (.add (.add (.mul (.lit 19) (.var .nFields)) (.mul (.var .nnz) (.var .d1))) (.var .d2))) (.add (.mul (.sub (.add (.var .nn) (.mul (.var .nx) (.var .ny))) (.var .nx)) (.var .nFields)) (.var .d2)) ;;
          .stI .m_cols (.add (.var .mcols) (.add (.add (.mul (.lit 20) (.var .nFields)) (.mul (.var .nnz) (.var .d1))) (.var .d2))) (.add (.mul (.add (.sub (.add (.var .nn) (.mul (.var .nx) (.var .ny))) (.var .nx)) (.lit 1)) (.var .nFields)) (.var .d2)) ;;
          .stI .m_cols (.add (.var .mcols) (.add (.add (.mul (.lit 21) (.var .nFields)) (.mul (.var .nnz) (.var .d1))) (.var .d2))) (.add (.mul (.sub (.add (.var .nn) (.mul (.var .nx) (.var .ny))) (.lit 1)) (.var .nFields)) (.var .d2)) ;;
          .stI .m_cols (.add (.var .mcols) (.add (.add (.mul (.lit 22) (.var .nFields)) (.mul (.var .nnz) (.var .d1))) (.var .d2))) (.add (.mul (.add (.var .nn) (.mul (.var .nx) (.var .ny))) (.var .nFields)) (.var .d2)) ;;
          .stI .m_cols (.add (.var .mcols) (.add (.add (.mul (.lit 23) (.var .nFields)) (.mul (.var .nnz) (.var .d1))) (.var .d2))) (.add (.mul (.add (.add (.var .nn) (.mul (.var .nx) (.var .ny))) (.lit 1)) (.var .nFields)) (.var .d2)) ;;
          .stI .m_cols (.add (.var .mcols) (.add (.add (.mul (.lit 24) (.var .nFields)) (.mul (.var .nnz) (.var .d1))) (.var .d2))) (.add (.mul (.sub (.add (.add (.var .nn) (.mul (.var .nx) (.var .ny))) (.var .nx)) (.lit 1)) (.var .nFields)) (.var .d2)) ;;
          .stI .m_cols (.add (.var .mcols) (.add (.add (.mul (.lit 25) (.var .nFields)) (.mul (.var .nnz) (.var .d1))) (.var .d2))) (.add (.mul (.add (.add (.var .nn) (.mul (.var .nx) (.var .ny))) (.var .nx)) (.var .nFields)) (.var .d2)) ;;
          .stI .m_cols (.add (.var .mcols) (.add (.add (.mul (.lit 26) (.var .nFields)) (.mul (.var .nnz) (.var .d1))) (.var .d2))) (.add (.mul (.add (.add (.add (.var .nn) (.mul (.var .nx) (.var .ny))) (.var .nx)) (.lit 1)) (.var .nFields)) (.var .d2)))))) ;;
  .for .i (.lit 1) (.sub (.var .nx) (.lit 1)) (
    .for .j (.lit 1) (.sub (.var .ny) (.lit 1)) (
      .setI .nn (.add (.add (.mul (.mul (.sub (.var .nz) (.lit 1)) (.var .nx)) (.var .ny)) (.mul (.var .j) (.var .nx))) (.var .i)) ;;
      .setI .mcols (.mul (.mul (.var .nn) (.var .nFields)) (.var .nnz)) ;;
      .for .d1 (.lit 0) (.var .nFields) (
        .for .d2 (.lit 0) (.var .nFields) (
          .stI .m_cols (.add (.var .mcols) (.add (.add (.mul (.lit 0) (.var .nFields)) (.mul (.var .nnz) (.var .d1))) (.var .d2))) (.add (.mul (.sub (.sub (.sub (.var .nn) (.mul (.var .nx) (.var .ny))) (.var .nx)) (.lit 1)) (.var .nFields)) (.var .d2)) ;;
          .stI .m_cols (.add (.var .mcols) (.add (.add (.mul (.lit 1) (.var .nFields)) (.mul (.var .nnz) (.var .d1))) (.var .d2))) (.add (.mul (.sub (.sub (.var .nn) (.mul (.var .nx) (.var .ny))) (.var .nx)) (.var .nFields)) (.var .d2)) ;;
          .stI .m_cols (.add (.var .mcols) (.add (.add (.mul (.lit 2) (.var .nFields)) (.mul (.var .nnz) (.var .d1))) (.var .d2))) (.add (.mul (.add (.sub (.sub (.var .nn) (.mul (.var .nx) (.var .ny))) (.var .nx)) (.lit 1)) (.var .nFields)) (.var .d2)) ;;
          .stI .m_cols (.add (.var .mcols) (.add (.add (.mul (.lit 3) (.var .nFields)) (.mul (.var .nnz) (.var .d1))) (.var .d2))) (.add (.mul (.sub (.sub (.var .nn) (.mul (.var .nx) (.var .ny))) (.lit 1)) (.var .nFields)) (.var .d2)) ;;
          .stI .m_cols (.add (.var .mcols) (.add (.add (.mul (.lit 4) (.var .nFields)) (.mul (.var .nnz) (.var .d1))) (.var .d2))) (.add (.mul (.sub (.var .nn) (.mul (.var .nx) (.var .ny))) (.var .nFields)) (.var .d2)) ;;
          .stI .m_cols (.add (.var .mcols) (.add (.add (.mul (.lit 5) (.var .nFields)) (.mul (.var .nnz) (.var .d1))) (.var .d2))) (.add (.mul (.add (.sub (.var .nn) (.mul (.var .nx) (.var .ny))) (.lit 1)) (.var .nFields)) (.var .d2)) ;;
          .stI .m_cols (.add (.var .mcols) (.add (.add (.mul (.lit 6) (.var .nFields)) (.mul (.var .nnz) (.var .d1))) (.var .d2))) (.add (.mul (.sub (.add (.sub (.var .nn) (.mul (.var .nx) (.var .ny))) (.var .nx)) (.lit 1)) (.var .nFields)) (.var .d2)) ;;
          .stI .m_cols (.add (.var .mcols) (.add (.add (.mul (.lit 7) (.var .nFields)) (.mul (.var .nnz) (.var .d1))) (.var .d2))) (.add (.mul (.add (.sub (.var .nn) (.mul (.var .nx) (.var .ny))) (.var .nx)) (.var .nFields)) (.var .d2)) ;;
          .stI .m_cols (.add (.var .mcols) (.add (.add (.mul (.lit 8) (.var .nFields)) (.mul (.var .nnz) (.var .d1))) (.var .d2))) (.add (.mul (.add (.add (.sub (.var .nn) (.mul (.var .nx) (.var .ny))) (.var .nx)) (.lit 1)) (.var .nFields)) (.var .d2)) ;;
          .stI .m_cols (.add (.var .mcols) (.add (.add (.mul (.lit 9) (.var .nFields)) (.mul (.var .nnz) (.var .d1))) (.var .d2))) (.add (.mul (.sub (.sub (.var .nn) (.var .nx)) (.lit 1)) (.var .nFields)) (.var .d2)) ;;
          .stI .m_cols (.add (.var .mcols) (.add (.add (.mul (.lit 10) (.var .nFields)) (.mul (.var .nnz) (.var .d1))) (.var .d2))) (.add (.mul (.sub (.var .nn) (.var .nx)) (.var .nFields)) (.var .d2)) ;;
          .stI .m_cols (.add (.var .mcols) (.add (.add (.mul (.lit 11) (.var .nFields)) (.mul (.var .nnz) (.var .d1))) (.var .d2))) (.add (.mul (.add (.sub (.var .nn) (.var .nx)) (.lit 1)) (.var .nFields)) (.var .d2)) ;;
          .stI .m_cols (.add (.var .mcols) (.add (.add (.mul (.lit 12) (.var .nFields)) (.mul (.var .nnz) (.var .d1))) (.var .d2))) (.add (.mul (.sub (.var .nn) (.lit 1)) (.var .nFields)) (.var .d2)) ;;
          .stI .m_cols (.add (.var .mcols) (.add (.add (.mul (.lit 13) (.var .nFields)) (.mul (.var .nnz) (.var .d1))) (.var .d2))) (.add (.mul (.var .nn) (.var .nFields)) (.var .d2)) ;;
          .stI .m_cols (.add (.var .mcols) (.add (.add (.mul (.lit 14) (.var .nFields)) (.mul (.var .nnz) (.var .d1))) (.var .d2))) (.add (.mul (.add (.var .nn) (.lit 1)) (.var .nFields)) (.var .d2)) ;;
          .stI .m_cols (.add (.var .mcols) (.add (.add (.mul (.lit 15) (.var .nFields)) (.mul (.var .nnz) (.var .d1))) (.var .d2))) (.add (.mul (.sub (.add (.var .nn) (.var .nx)) (.lit 1)) (.var .nFields)) (.var .d2)) ;;
          .stI .m_cols (.add (.var .mcols) (.add (.add (.mul (.lit 16) (.var .nFields)) (.mul (.var .nnz) (.var .d1))) (.var .d2))) (.add (.mul (.add (.var .nn) (.var .nx)) (.var .nFields)) (.var .d2)) ;;
          .stI .m_cols (.add (.var .mcols) (.add (.add (.mul (.lit 17) (.var .nFields)) (.mul (.var .nnz) (.var .d1))) (.var .d2))) (.add (.mul (.add (.add (.var .nn) (.var .nx)) (.lit 1)) (.var .nFields)) (.var .d2)) ;;
          .stI .m_cols (.add (.var .mcols) (.add (.add (.mul (.lit 18) (.var .nFields)) (.mul (.var .nnz) (.var .d1))) (.var .d2))) (.lit 0) ;;
          .stI .m_cols (.add (.var .mcols) (.add (.add (.mul (.lit 19) (.var .nFields)) (.mul (.var .nnz) (.var .d1))) (.var .d2))) (.lit 0) ;;
          .stI .m_cols (.add (.var .mcols) (.add (.add (.mul (.lit 20) (.var .nFields)) (.mul (.var .nnz) (.var .d1))) (.var .d2))) (.lit 0) ;;
          .stI .m_cols (.add (.var .mcols) (.add (.add (.mul (.lit 21) (.var .nFields)) (.mul (.var .nnz) (.var .d1))) (.var .d2))) (.lit 0) ;;
          .stI .m_cols (.add (.var .mcols) (.add (.add (.mul (.lit 22) (.var .nFields)) (.mul (.var .nnz) (.var .d1))) (.var .d2))) (.lit 0) ;;
          .stI .m_cols (.add (.var .mcols) (.add (.add (.mul (.lit 23) (.var .nFields)) (.mul (.var .nnz) (.var .d1))) (.var .d2))) (.lit 0) ;;
          .stI .m_cols (.add (.var .mcols) (.add (.add (.mul (.lit 24) (.var .nFields)) (.mul (.var .nnz) (.var .d1))) (.var .d2))) (.lit 0) ;;
          .stI .m_cols (.add (.var .mcols) (.add (.add (.mul (.lit 25) (.var .nFields)) (.mul (.var .nnz) (.var .d1))) (.var .d2))) (.lit 0) ;;
          .stI .m_cols (.add (.var .mcols) (.add (.add (.mul (.lit 26) (.var .nFields)) (.mul (.var .nnz) (.var .d1))) (.var .d2))) (.lit 0))))) ;;
  .for .i (.lit 1) (.sub (.var .nx) (.lit 1)) (
    .for .k (.lit 1) (.sub (.var .nz) (.lit 1)) (
      .setI .nn (.add (.add (.mul (.mul (.var .k) (.var .nx)) (.var .ny)) (.mul (.lit 0) (.var .nx))) (.var .i)) ;;
      .setI .mcols (.mul (.mul (.var .nn) (.var .nFields)) (.var .nnz)) ;;
      .for .d1 (.lit 0) (.var .nFields) (
        .for .d2 (.lit 0) (.var .nFields) (
          .stI .m_cols (.add (.var .mcols) (.add (.add (.mul (.lit 0) (.var .nFields)) (.mul (.var .nnz) (.var .d1))) (.var .d2))) (.lit 0) ;;
          .stI .m_cols (.add (.var .mcols) (.add (.add (.mul (.lit 1) (.var .nFields)) (.mul (.var .nnz) (.var .d1))) (.var .d2))) (.lit 0) ;;
          .stI .m_cols (.add (.var .mcols) (.add (.add (.mul (.lit 2) (.var .nFields)) (.mul (.var .nnz) (.var .d1))) (.var .d2))) (.lit 0) ;;
          .stI .m_cols (.add (.var .mcols) (.add (.add (.mul (.lit 3) (.var .nFields)) (.mul (.var .nnz) (.var .d1))) (.var .d2))) (.add (.mul (.sub (.sub (.var .nn) (.mul (.var .nx) (.var .ny))) (.lit 1)) (.var .nFields)) (.var .d2)) ;;
          .stI .m_cols (.add (.var .mcols) (.add (.add (.mul (.lit 4) (.var .nFields)) (.mul (.var .nnz) (.var .d1))) (.var .d2))) (.add (.mul (.sub (.var .nn) (.mul (.var .nx) (.var .ny))) (.var .nFields)) (.var .d2)) ;;
          .stI .m_cols (.add (.var .mcols) (.add (.add (.mul (.lit 5) (.var .nFields)) (.mul (.var .nnz) (.var .d1))) (.var .d2))) (.add (.mul (.add (.sub (.var .nn) (.mul (.var .nx) (.var .ny))) (.lit 1)) (.var .nFields)) (.var .d2)) ;;
          .stI .m_cols (.add (.var .mcols) (.add (.add (.mul (.lit 6) (.var .nFields)) (.mul (.var .nnz) (.var .d1))) (.var .d2))) (.add (.mul (.sub (.add (.sub (.var .nn) (.mul (.var .nx) (.var .ny))) (.var .nx)) (.lit 1)) (.var .nFields)) (.var .d2)) ;;
          .stI .m_cols (.add (.var .mcols) (.add (.add (.mul (.lit 7) (.var .nFields)) (.mul (.var .nnz) (.var .d1))) (.var .d2))) (.add (.mul (.add (.sub (.var .nn) (.mul (.var .nx) (.var .ny))) (.var .nx)) (.var .nFields)) (.var .d2)) ;;
          .stI .m_cols (.add (.var .mcols) (.add (.add (.mul (.lit 8) (.var .nFields)) (.mul (.var .nnz) (.var .d1))) (.var .d2))) (.add (.mul (.add (.add (.sub (.var .nn) (.mul (.var .nx) (.var .ny))) (.var .nx)) (.lit 1)) (.var .nFields)) (.var .d2)) ;;
          .stI .m_cols (.add (.var .mcols) (.add (.add (.mul (.lit 9) (.var .nFields)) (.mul (.var .nnz) (.var .d1))) (.var .d2))) (.lit 0) ;;
          .stI .m_cols (.add (.var .mcols) (.add (.add (.mul (.lit 10) (.var .nFields)) (.mul (.var .nnz) (.var .d1))) (.var .d2))) (.lit 0) ;;
          .stI .m_cols (.add (.var .mcols) (.add (.add (.mul (.lit 11) (.var .nFields)) (.mul (.var .nnz) (.var .d1))) (.var .d2))) (.lit 0) ;;
          .stI .m_cols (.add (.var .mcols) (.add (.add (.mul (.lit 12) (.var .nFields)) (.mul (.var .nnz) (.var .d1))) (.var .d2))) (.add (.mul (.sub (.var .nn) (.lit 1)) (.var .nFields)) (.var .d2)) ;;
          .stI .m_cols (.add (.var .mcols) (.add (.add (.mul (.lit 13) (.var .nFields)) (.mul (.var .nnz) (.var .d1))) (.var .d2))) (.add (.mul (.var .nn) (.var .nFields)) (.var .d2)) ;;
          .stI .m_cols (.add (.var .mcols) (.add (.add (.mul (.lit 14) (.var .nFields)) (.mul (.var .nnz) (.var .d1))) (.var .d2))) (.add (.mul (.add (.var .nn) (.lit 1)) (.var .nFields)) (.var .d2)) ;;
          .stI .m_cols (.add (.var .mcols) (.add (.add (.mul (.lit 15) (.var .nFields)) (.mul (.var .nnz) (.var .d1))) (.var .d2))) (.add (.mul (.sub (.add (.var .nn) (.var .nx)) (.lit 1)) (.var .nFields)) (.var .d2)) ;;
          .stI .m_cols (.add (.var .mcols) (.add (.add (.mul (.lit 16) (.var .nFields)) (.mul (.var .nnz) (.var .d1))) (.var .d2))) (.add (.mul (.add (.var .nn) (.var .nx)) (.var .nFields)) (.var .d2)) ;;
          .stI .m_cols (.add (.var .mcols) (.add (.add (.mul (.lit 17) (.var .nFields)) (.mul (.var .nnz) (.var .d1))) (.var .d2))) (.add (.mul (.add (.add (.var .nn) (.var .nx)) (.lit 1)) (.var .nFields)) (.var .d2)) ;;
          .stI .m_cols (.add (.var .mcols) (.add (.add (.mul (.lit 18) (.var .nFields)) (.mul (.var .nnz) (.var .d1))) (.var .d2))) (.lit 0) ;;
          .stI .m_cols (.add (.var .mcols) (.add (.add (.mul (.lit 19) (.var .nFields)) (.mul (.var .nnz) (.var .d1))) (.var .d2))) (.lit 0) ;;
          .stI .m_cols (.add (.var .mcols) (.add (.add (.mul (.lit 20) (.var .nFields)) (.mul (.var .nnz) (.var .d1))) (.var .d2))) (.lit 0) ;;
          .stI .m_cols (.add (.var .mcols) (.add (.add (.mul (.lit 21) (.var .nFields)) (.mul (.var .nnz) (.var .d1))) (.var .d2))) (.add (.mul (.sub (.add (.var .nn) (.mul (.var .nx) (.var .ny))) (.lit 1)) (.var .nFields)) (.var .d2)) ;;
          .stI .m_cols (.add (.var .mcols) (.add (.add (.mul (.lit 22) (.var .nFields)) (.mul (.var .nnz) (.var .d1))) (.var .d2))) (.add (.mul (.add (.var .nn) (.mul (.var .nx) (.var .ny))) (.var .nFields)) (.var .d2)) ;;
          .stI .m_cols (.add (.var .mcols) (.add (.add (.mul (.lit 23) (.var .nFields)) (.mul (.var .nnz) (.var .d1))) (.var .d2))) (.add (.mul (.add (.add (.var .nn) (.mul (.var .nx) (.var .ny))) (.lit 1)) (.var .nFields)) (.var .d2)) ;;
          .stI .m_cols (.add (.var .mcols) (.add (.add (.mul (.lit 24) (.var .nFields)) (.mul (.var .nnz) (.var .d1))) (.var .d2))) (.add (.mul (.sub (.add (.add (.var .nn) (.mul (.var .nx) (.var .ny))) (.var .nx)) (.lit 1)) (.var .nFields)) (.var .d2)) ;;
          .stI .m_cols (.add (.var .mcols) (.add (.add (.mul (.lit 25) (.var .nFields)) (.mul (.var .nnz) (.var .d1))) (.var .d2))) (.add (.mul (.add (.add (.var .nn) (.mul (.var .nx) (.var .ny))) (.var .nx)) (.var .nFields)) (.var .d2)) ;;
          .stI .m_cols (.add (.var .mcols) (.add (.add (.mul (.lit 26) (.var .nFields)) (.mul (.var .nnz) (.var .d1))) (.var .d2))) (.add (.mul (.add (.add (.add (.var .nn) (.mul (.var .nx) (.var .ny))) (.var .nx)) (.lit 1)) (.var .nFields)) (.var .d2)))))) ;;
  .for .i (.lit 1) (.sub (.var .nx) (.lit 1)) (
    .for .k (.lit 1) (.sub (.var .nz) (.lit 1)) (
      .setI .nn (.add (.add (.mul (.mul (.var .k) (.var .nx)) (.var .ny)) (.mul (.sub (.var .ny) (.lit 1)) (.var .nx))) (.var .i)) ;;
      .setI .mcols (.mul (.mul (.var .nn) (.var .nFields)) (.var .nnz)) ;;
      .for .d1 (.lit 0) (.var .nFields) (
        .for .d2 (.lit 0) (.var .nFields) (
          .stI .m_cols (.add (.var .mcols) (.add (.add (.mul (.lit 0) (.var .nFields)) (.mul (.var .nnz) (.var .d1))) (.var .d2))) (.add (.mul (.sub (.sub (.sub (.var .nn) (.mul (.var .nx) (.var .ny))) (.var .nx)) (.lit 1)) (.var .nFields)) (.var .d2)) ;;
          .stI .m_cols (.add (.var .mcols) (.add (.add (.mul (.lit 1) (.var .nFields)) (.mul (.var .nnz) (.var .d1))) (.var .d2))) (.add (.mul (.sub (.sub (.var .nn) (.mul (.var .nx) (.var .ny))) (.var .nx)) (.var .nFields)) (.var .d2)) ;;
          .stI .m_cols (.add (.var .mcols) (.add (.add (.mul (.lit 2) (.var .nFields)) (.mul (.var .nnz) (.var .d1))) (.var .d2))) (.add (.mul (.add (.sub (.sub (.var .nn) (.mul (.var .nx) (.var .ny))) (.var .nx)) (.lit 1)) (.var .nFields)) (.var .d2)) ;;
          .stI .m_cols (.add (.var .mcols) (.add (.add (.mul (.lit 3) (.var .nFields)) (.mul (.var .nnz) (.var .d1))) (.var .d2))) (.add (.mul (.sub (.sub (.var .nn) (.mul (.var .nx) (.var .ny))) (.lit 1)) (.var .nFields)) (.var .d2)) ;;
          .stI .m_cols (.add (.var .mcols) (.add (.add (.mul (.lit 4) (.var .nFields)) (.mul (.var .nnz) (.var .d1))) (.var .d2))) (.add (.mul (.sub (.var .nn) (.mul (.var .nx) (.var .ny))) (.var .nFields)) (.var .d2)) ;;
          .stI .m_cols (.add (.var .mcols) (.add (.add (.mul (.lit 5) (.var .nFields)) (.mul (.var .nnz) (.var .d1))) (.var .d2))) (.add (.mul (.add (.sub (.var .nn) (.mul (.var .nx) (.var .ny))) (.lit 1)) (.var .nFields)) (.var .d2)) ;;
          .stI .m_cols (.add (.var .mcols) (.add (.add (.mul (.lit 6) (.var .nFields)) (.mul (.var .nnz) (.var .d1))) (.var .d2))) (.lit 0) ;;
          .stI .m_cols (.add (.var .mcols) (.add (.add (.mul (.lit 7) (.var .nFields)) (.mul (.var .nnz) (.var .d1))) (.var .d2))) (.lit 0) ;;
          .stI .m_cols (.add (.var .mcols) (.add (.add (.mul (.lit 8) (.var .nFields)) (.mul (.var .nnz) (.var .d1))) (.var .d2))) (.lit 0) ;;
          .stI .m_cols (.add (.var .mcols) (.add (.add (.mul (.lit 9) (.var .nFields)) (.mul (.var .nnz) (.var .d1))) (.var .d2))) (.add (.mul (.sub (.sub (.var .nn) (.var .nx)) (.lit 1)) (.var .nFields)) (.var .d2)) ;;
          .stI .m_cols (.add (.var .mcols) (.add (.add (.mul (.lit 10) (.var .nFields)) (.mul (.var .nnz) (.var .d1))) (.var .d2))) (.add (.mul (.sub (.var .nn) (.var .nx)) (.var .nFields)) (.var .d2)) ;;
          .stI .m_cols (.add (.var .mcols) (.add (.add (.mul (.lit 11) (.var .nFields)) (.mul (.var .nnz) (.var .d1))) (.var .d2))) (.add (.mul (.add (.sub (.var .nn) (.var .nx)) (.lit 1)) (.var .nFields)) (.var .d2)) ;;
          .stI .m_cols (.add (.var .mcols) (.add (.add (.mul (.lit 12) (.var .nFields)) (.mul (.var .nnz) (.var .d1))) (.var .d2))) (.add (.mul (.sub (.var .nn) (.lit 1)) (.var .nFields)) (.var .d2)) ;;
          .stI .m_cols (.add (.var .mcols) (.add (.add (.mul (.lit 13) (.var .nFields)) (.mul (.var .nnz) (.var .d1))) (.var .d2))) (.add (.mul (.var .nn) (.var .nFields)) (.var .d2)) ;;
          .stI .m_cols (.add (.var .mcols) (.add (.add (.mul (.lit 14) (.var .nFields)) (.mul (.var .nnz) (.var .d1))) (.var .d2))) (.add (.mul (.add (.var .nn) (.lit 1)) (.var .nFields)) (.var .d2)) ;;
          .stI .m_cols (.add (.var .mcols) (.add (.add (.mul (.lit 15) (.var .nFields)) (.mul (.var .nnz) (.var .d1))) (.var .d2))) (.lit 0) ;;
          .stI .m_cols (.add (.var .mcols) (.add (.add (.mul (.lit 16) (.var .nFields)) (.mul (.var .nnz) (.var .d1))) (.var .d2))) (.lit 0) ;;
          .stI .m_cols (.add (.var .mcols) (.add (.add (.mul (.lit 17) (.var .nFields)) (.mul (.var .nnz) (.var .d1))) (.var .d2))) (.lit 0) ;;
          .stI .m_cols (.add (.var .mcols) (.add (.add (.mul (.lit 18) (.var .nFields)) (.mul (.var .nnz) (.var .d1))) (.var .d2))) (.add (.mul (.sub (.sub (.add (.var .nn) (.mul (.var .nx) (.var .ny))) (.var .nx)) (.lit 1)) (.var .nFields)) (.var .d2)) ;;
          .stI .m_cols (.add (.var .mcols) (.add (.add (.mul (.lit 19) (.var .nFields)) (.mul (.var .nnz) (.var .d1))) (.var .d2))) (.add (.mul (.sub (.add (.var .nn) (.mul (.var .nx) (.var .ny))) (.var .nx)) (.var .nFields)) (.var .d2)) ;;
          .stI .m_cols (.add (.var .mcols) (.add (.add (.mul (.lit 20) (.var .nFields)) (.mul (.var .nnz) (.var .d1))) (.var .d2))) (.add (.mul (.add (.sub (.add (.var .nn) (.mul (.var .nx) (.var .ny))) (.var .nx)) (.lit 1)) (.var .nFields)) (.var .d2)) ;;
          .stI .m_cols (.add (.var .mcols) (.add (.add (.mul (.lit 21) (.var .nFields)) (.mul (.var .nnz) (.var .d1))) (.var .d2))) (.add (.mul (.sub (.add (.var .nn) (.mul (.var .nx) (.var .ny))) (.lit 1)) (.var .nFields)) (.var .d2)) ;;
          .stI .m_cols (.add (.var .mcols) (.add (.add (.mul (.lit 22) (.var .nFields)) (.mul (.var .nnz) (.var .d1))) (.var .d2))) (.add (.mul (.add (.var .nn) (.mul (.var .nx) (.var .ny))) (.var .nFields)) (.var .d2)) ;;
          .stI .m_cols (.add (.var .mcols) (.add (.add (.mul (.lit 23) (.var .nFields)) (.mul (.var .nnz) (.var .d1))) (.var .d2))) (.add (.mul (.add (.add (.var .nn) (.mul (.var .nx) (.var .ny))) (.lit 1)) (.var .nFields)) (.var .d2)) ;;
          .stI .m_cols (.add (.var .mcols) (.add (.add (.mul (.lit 24) (.var .nFields)) (.mul (.var .nnz) (.var .d1))) (.var .d2))) (.lit 0) ;;
          .stI .m_cols (.add (.var .mcols) (.add (.add (.mul (.lit 25) (.var .nFields)) (.mul (.var .nnz) (.var .d1))) (.var .d2))) (.lit 0) ;;
          .stI .m_cols (.add (.var .mcols) (.add (.add (.mul (.lit 26) (.var .nFields)) (.mul (.var .nnz) (.var .d1))) (.var .d2))) (.lit 0))))) ;;
  .for .j (.lit 1) (.sub (.var .ny) (.lit 1)) (
    .for .k (.lit 1) (.sub (.var .nz) (.lit 1)) (
      .setI .nn (.add (.add (.mul (.mul (.var .k) (.var .nx)) (.var .ny)) (.mul (.var .j) (.var .nx))) (.lit 0)) ;;
      .setI .mcols (.mul (.mul (.var .nn) (.var .nFields)) (.var .nnz)) ;;
      .for .d1 (.lit 0) (.var .nFields) (
        .for .d2 (.lit 0) (.var .nFields) (
          .stI .m_cols (.add (.var .mcols) (.add (.add (.mul (.lit 0) (.var .nFields)) (.mul (.var .nnz) (.var .d1))) (.var .d2))) (.lit 0) ;;
          .stI .m_cols (.add (.var .mcols) (.add (.add (.mul (.lit 1) (.var .nFields)) (.mul (.var .nnz) (.var .d1))) (.var .d2))) (.add (.mul (.sub (.sub (.var .nn) (.mul (.var .nx) (.var .ny))) (.var .nx)) (.var .nFields)) (.var .d2)) ;;
          .stI .m_cols (.add (.var .mcols) (.add (.add (.mul (.lit 2) (.var .nFields)) (.mul (.var .nnz) (.var .d1))) (.var .d2))) (.add (.mul (.add (.sub (.sub (.var .nn) (.mul (.var .nx) (.var .ny))) (.var .nx)) (.lit 1)) (.var .nFields)) (.var .d2)) ;;
          .stI .m_cols (.add (.var .mcols) (.add (.add (.mul (.lit 3) (.var .nFields)) (.mul (.var .nnz) (.var .d1))) (.var .d2))) (.lit 0) ;;
          .stI .m_cols (.add (.var .mcols) (.add (.add (.mul (.lit 4) (.var .nFields)) (.mul (.var .nnz) (.var .d1))) (.var .d2))) (.add (.mul (.sub (.var .nn) (.mul (.var .nx) (.var .ny))) (.var .nFields)) (.var .d2)) ;;
          .stI .m_cols (.add (.var .mcols) (.add (.add (.mul (.lit 5) (.var .nFields)) (.mul (.var .nnz) (.var .d1))) (.var .d2))) (.add (.mul (.add (.sub (.var .nn) (.mul (.var .nx) (.var .ny))) (.lit 1)) (.var .nFields)) (.var .d2)) ;;
          .stI .m_cols (.add (.var .mcols) (.add (.add (.mul (.lit 6) (.var .nFields)) (.mul (.var .nnz) (.var .d1))) (.var .d2))) (.lit 0) ;;
          .stI .m_cols (.add (.var .mcols) (.add (.add (.mul (.lit 7) (.var .nFields)) (.mul (.var .nnz) (.var .d1))) (.var .d2))) (.add (.mul (.add (.sub (.var .nn) (.mul (.var .nx) (.var .ny))) (.var .nx)) (.var .nFields)) (.var .d2)) ;;
          .stI .m_cols (.add (.var .mcols) (.add (.add (.mul (.lit 8) (.var .nFields)) (.mul (.var .nnz) (.var .d1))) (.var .d2))) (.add (.mul (.add (.add (.sub (.var .nn) (.mul (.var .nx) (.var .ny))) (.var .nx)) (.lit 1)) (.var .nFields)) (.var .d2)) ;;
          .stI .m_cols (.add (.var .mcols) (.add (.add (.mul (.lit 9) (.var .nFields)) (.mul (.var .nnz) (.var .d1))) (.var .d2))) (.lit 0) ;;
          .stI .m_cols (.add (.var .mcols) (.add (.add (.mul (.lit 10) (.var .nFields)) (.mul (.var .nnz) (.var .d1))) (.var .d2))) (.add (.mul (.sub (.var .nn) (.var .nx)) (.var .nFields)) (.var .d2)) ;;
          .stI .m_cols (.add (.var .mcols) (.add (.add (.mul (.lit 11) (.var .nFields)) (.mul (.var .nnz) (.var .d1))) (.var .d2))) (.add (.mul (.add (.sub (.var .nn) (.var .nx)) (.lit 1)) (.var .nFields)) (.var .d2)) ;;
          .stI .m_cols (.add (.var .mcols) (.add (.add (.mul (.lit 12) (.var .nFields)) (.mul (.var .nnz) (.var .d1))) (.var .d2))) (.lit 0) ;;
          .stI .m_cols (.add (.var .mcols) (.add (.add (.mul (.lit 13) (.var .nFields)) (.mul (.var .nnz) (.var .d1))) (.var .d2))) (.add (.mul (.var .nn) (.var .nFields)) (.var .d2)) ;;
          .stI .m_cols (.add (.var .mcols) (.add (.add (.mul (.lit 14) (.var .nFields)) (.mul (.var .nnz) (.var .d1))) (.var .d2))) (.add (.mul (.add (.var .nn) (.lit 1)) (.var .nFields)) (.var .d2)) ;;
          .stI .m_cols (.add (.var .mcols) (.add (.add (.mul (.lit 15) (.var .nFields)) (.mul (.var .nnz) (.var .d1))) (.var .d2))) (.lit 0) ;;
          .stI .m_cols (.add (.var .mcols) (.add (.add (.mul (.lit 16) (.var .nFields)) (.mul (.var .nnz) (.var .d1))) (.var .d2))) (.add (.mul (.add (.var .nn) (.var .nx)) (.var .nFields)) (.var .d2)) ;;
          .stI .m_cols (.add (.var .mcols) (.add (.add (.mul (.lit 17) (.var .nFields)) (.mul (.var .nnz) (.var .d1))) (.var .d2))) (.add (.mul (.add (.add (.var .nn) (.var .nx)) (.lit 1)) (.var .nFields)) (.var .d2)) ;;
          .stI .m_cols (.add (.var .mcols) (.add (.add (.mul (.lit 18) (.var .nFields)) (.mul (.var .nnz) (.var .d1))) (.var .d2))) (.lit 0) ;;
          .stI .m_cols (.add (.var .mcols) (.add (.add (.mul (.lit 19) (.var .nFields)) (.mul (.var .nnz) (.var .d1))) (.var .d2))) (.add (.mul (.sub (.add (.var .nn) (.mul (.var .nx) (.var .ny))) (.var .nx)) (.var .nFields)) (.var .d2)) ;;
          .stI .m_cols (.add (.var .mcols) (.add (.add (.mul (.lit 20) (.var .nFields)) (.mul (.var .nnz) (.var .d1))) (.var .d2))) (.add (.mul (.add (.sub (.add (.var .nn) (.mul (.var .nx) (.var .ny))) (.var .nx)) (.lit 1)) (.var .nFields)) (.var .d2)) ;;
          .stI .m_cols (.add (.var .mcols) (.add (.add (.mul (.lit 21) (.var .nFields)) (.mul (.var .nnz) (.var .d1))) (.var .d2))) (.lit 0) ;;
          .stI .m_cols (.add (.var .mcols) (.add (.add (.mul (.lit 22) (.var .nFields)) (.mul (.var .nnz) (.var .d1))) (.var .d2))) (.add (.mul (.add (.var .nn) (.mul (.var .nx) (.var .ny))) (.var .nFields)) (.var .d2)) ;;
          .stI .m_cols (.add (.var .mcols) (.add (.add (.mul (.lit 23) (.var .nFields)) (.mul (.var .nnz) (.var .d1))) (.var .d2))) (.add (.mul (.add (.add (.var .nn) (.mul (.var .nx) (.var .ny))) (.lit 1)) (.var .nFields)) (.var .d2)) ;;
          .stI .m_cols (.add (.var .mcols) (.add (.add (.mul (.lit 24) (.var .nFields)) (.mul (.var .nnz) (.var .d1))) (.var .d2))) (.lit 0) ;;
          .stI .m_cols (.add (.var .mcols) (.add (.add (.mul (.lit 25) (.var .nFields)) (.mul (.var .nnz) (.var .d1))) (.var .d2))) (.add (.mul (.add (.add (.var .nn) (.mul (.var .nx) (.var .ny))) (.var .nx)) (.var .nFields)) (.var .d2)) ;;
          .stI .m_cols (.add (.var .mcols) (.add (.add (.mul (.lit 26) (.var .nFields)) (.mul (.var .nnz) (.var .d1))) (.var .d2))) (.add (.mul (.add (.add (.add (.var .nn) (.mul (.var .nx) (.var .ny))) (.var .nx)) (.lit 1)) (.var .nFields)) (.var .d2)))))) ;;
  .for .j (.lit 1) (.sub (.var .ny) (.lit 1)) (
    .for .k (.lit 1) (.sub (.var .nz) (.lit 1)) (
      .setI .nn (.add (.add (.mul (.mul (.var .k) (.var .nx)) (.var .ny)) (.mul (.var .j) (.var .nx))) (.sub (.var .nx) (.lit 1))) ;;
      .setI .mcols (.mul (.mul (.var .nn) (.var .nFields)) (.var .nnz)) ;;
      .for .d1 (.lit 0) (.var .nFields) (
        .for .d2 (.lit 0) (.var .nFields) (
          .stI .m_cols (.add (.var .mcols) (.add (.add (.mul (.lit 0) (.var .nFields)) (.mul (.var .nnz) (.var .d1))) (.var .d2))) (.add (.mul (.sub (.sub (.sub (.var .nn) (.mul (.var .nx) (.var .ny))) (.var .nx)) (.lit 1)) (.var .nFields)) (.var .d2)) ;;
          .stI .m_cols (.add (.var .mcols) (.add (.add (.mul (.lit 1) (.var .nFields)) (.mul (.var .nnz) (.var .d1))) (.var .d2))) (.add (.mul (.sub (.sub (.var .nn) (.mul (.var .nx) (.var .ny))) (.var .nx)) (.var .nFields)) (.var .d2)) ;;
          .stI .m_cols (.add (.var .mcols) (.add (.add (.mul (.lit 2) (.var .nFields)) (.mul (.var .nnz) (.var .d1))) (.var .d2))) (.lit 0) ;;
          .stI .m_cols (.add (.var .mcols) (.add (.add (.mul (.lit 3) (.var .nFields)) (.mul (.var .nnz) (.var .d1))) (.var .d2))) (.add (.mul (.sub (.sub (.var .nn) (.mul (.var .nx) (.var .ny))) (.lit 1)) (.var .nFields)) (.var .d2)) ;;
          .stI .m_cols (.add (.var .mcols) (.add (.add (.mul (.lit 4) (.var .nFields)) (.mul (.var .nnz) (.var .d1))) (.var .d2))) (.add (.mul (.sub (.var .nn) (.mul (.var .nx) (.var .ny))) (.var .nFields)) (.var .d2)) ;;
          .stI .m_cols (.add (.var .mcols) (.add (.add (.mul (.lit 5) (.var .nFields)) (.mul (.var .nnz) (.var .d1))) (.var .d2))) (.lit 0) ;;
          .stI .m_cols (.add (.var .mcols) (.add (.add (.mul (.lit 6) (.var .nFields)) (.mul (.var .nnz) (.var .d1))) (.var .d2))) (.add (.mul (.sub (.add (.sub (.var .nn) (.mul (.var .nx) (.var .ny))) (.var .nx)) (.lit 1)) (.var .nFields)) (.var .d2)) ;;
          .stI .m_cols (.add (.var .mcols) (.add (.add (.mul (.lit 7) (.var .nFields)) (.mul (.var .nnz) (.var .d1))) (.var .d2))) (.add (.mul (.add (.sub (.var .nn) (.mul (.var .nx) (.var .ny))) (.var .nx)) (.var .nFields)) (.var .d2)) ;;
          .stI .m_cols (.add (.var .mcols) (.add (.add (.mul (.lit 8) (.var .nFields)) (.mul (.var .nnz) (.var .d1))) (.var .d2))) (.lit 0) ;;
          .stI .m_cols (.add (.var .mcols) (.add (.add (.mul (.lit 9) (.var .nFields)) (.mul (.var .nnz) (.var .d1))) (.var .d2))) (.add (.mul (.sub (.sub (.var .nn) (.var .nx)) (.lit 1)) (.var .nFields)) (.var .d2)) ;;
          .stI .m_cols (.add (.var .mcols) (.add (.add (.mul (.lit 10) (.var .nFields)) (.mul (.var .nnz) (.var .d1))) (.var .d2))) (.add (.mul (.sub (.var .nn) (.var .nx)) (.var .nFields)) (.var .d2)) ;;
          .stI .m_cols (.add (.var .mcols) (.add (.add (.mul (.lit 11) (.var .nFields)) (.mul (.var .nnz) (.var .d1))) (.var .d2))) (.lit 0) ;;
          .stI .m_cols (.add (.var .mcols) (.add (.add (.mul (.lit 12) (.var .nFields)) (.mul (.var .nnz) (.var .d1))) (.var .d2))) (.add (.mul (.sub (.var .nn) (.lit 1)) (.var .nFields)) (.var .d2)) ;;
          .stI .m_cols (.add (.var .mcols) (.add (.add (.mul (.lit 13) (.var .nFields)) (.mul (.var .nnz) (.var .d1))) (.var .d2))) (.add (.mul (.var .nn) (.var .nFields)) (.var .d2)) ;;
          .stI .m_cols (.add (.var .mcols) (.add (.add (.mul (.lit 14) (.var .nFields)) (.mul (.var .nnz) (.var .d1))) (.var .d2))) (.lit 0) ;;
          .stI .m_cols (.add (.var .mcols) (.add (.add (.mul (.lit 15) (.var .nFields)) (.mul (.var .nnz) (.var .d1))) (.var .d2))) (.add (.mul (.sub (.add (.var .nn) (.var .nx)) (.lit 1)) (.var .nFields)) (.var .d2)) ;;
          .stI .m_cols (.add (.var .mcols) (.add (.add (.mul (.lit 16) (.var .nFields)) (.mul (.var .nnz) (.var .d1))) (.var .d2))) (.add (.mul (.add (.var .nn) (.var .nx)) (.var .nFields)) (.var .d2)) ;;
          .stI .m_cols (.add (.var .mcols) (.add (.add (.mul (.lit 17) (.var .nFields)) (.mul (.var .nnz) (.var .d1))) (.var .d2))) (.lit 0) ;;
          .stI .m_cols (.add (.var .mcols) (.add (.add (.mul (.lit 18) (.var .nFields)) (.mul (.var .nnz) (.var .d1))) (.var .d2))) (.add (.mul (.sub (.sub (.add (.var .nn) (.mul (.var .nx) (.var .ny))) (.var .nx)) (.lit 1)) (.var .nFields)) (.var .d2)) ;;
          .stI .m_cols (.add (.var .mcols) (.add (.add (.mul (.lit 19) (.var .nFields)) (.mul (.var .nnz) (.var .d1))) (.var .d2))) (.add (.mul (.sub (.add (.var .nn) (.mul (.var .nx) (.var .ny))) (.var .nx)) (.var .nFields)) (.var .d2)) ;;
          .stI .m_cols (.add (.var .mcols) (.add (.add (.mul (.lit 20) (.var .nFields)) (.mul (.var .nnz) (.var .d1))) (.var .d2))) (.lit 0) ;;
          .stI .m_cols (.add (.var .mcols) (.add (.add (.mul (.lit 21) (.var .nFields)) (.mul (.var .nnz) (.var .d1))) (.var .d2))) (.add (.mul (.sub (.add (.var .nn) (.mul (.var .nx) (.var .ny))) (.lit 1)) (.var .nFields)) (.var .d2)) ;;
          .stI .m_cols (.add (.var .mcols) (.add (.add (.mul (.lit 22) (.var .nFields)) (.mul (.var .nnz) (.var .d1))) (.var .d2))) (.add (.mul (.add (.var .nn) (.mul (.var .nx) (.var .ny))) (.var .nFields)) (.var .d2)) ;;
          .stI .m_cols (.add (.var .mcols) (.add (.add (.mul (.lit 23) (.var .nFields)) (.mul (.var .nnz) (.var .d1))) (.var .d2))) (.lit 0) ;;
          .stI .m_cols (.add (.var .mcols) (.add (.add (.mul (.lit 24) (.var .nFields)) (.mul (.var .nnz) (.var .d1))) (.var .d2))) (.add (.mul (.sub (.add (.add (.var .nn) (.mul (.var .nx) (.var .ny))) (.var .nx)) (.lit 1)) (.var .nFields)) (.var .d2)) ;;
          .stI .m_cols (.add (.var .mcols) (.add (.add (.mul (.lit 25) (.var .nFields)) (.mul (.var .nnz) (.var .d1))) (.var .d2))) (.add (.mul (.add (.add (.var .nn) (.mul (.var .nx) (.var .ny))) (.var .nx)) (.var .nFields)) (.var .d2)) ;;
          .stI .m_cols (.add (.var .mcols) (.add (.add (.mul (.lit 26) (.var .nFields)) (.mul (.var .nnz) (.var .d1))) (.var .d2))) (.lit 0))))) ;;
  .for .i (.lit 1) (.sub (.var .nx) (.lit 1)) (
    .for .j (.lit 1) (.sub (.var .ny) (.lit 1)) (
      .for .k (.lit 1) (.sub (.var .nz) (.lit 1)) (
        .setI .nn (.add (.add (.mul (.mul (.var .k) (.var .nx)) (.var .ny)) (.mul (.var .j) (.var .nx))) (.var .i)) ;;
        .setI .mcols (.mul (.mul (.var .nn) (.var .nFields)) (.var .nnz)) ;;
        .for .d1 (.lit 0) (.var .nFields) (
          .for .d2 (.lit 0) (.var .nFields) (
            .stI .m_cols (.add (.var .mcols) (.add (.add (.mul (.lit 0) (.var .nFields)) (.mul (.var .nnz) (.var .d1))) (.var .d2))) (.add (.mul (.sub (.sub (.sub (.var .nn) (.mul (.var .nx) (.var .ny))) (.var .nx)) (.lit 1)) (.var .nFields)) (.var .d2)) ;;
            .stI .m_cols (.add (.var .mcols) (.add (.add (.mul (.lit 1) (.var .nFields)) (.mul (.var .nnz) (.var .d1))) (.var .d2))) (.add (.mul (.sub (.sub (.var .nn) (.mul (.var .nx) (.var .ny))) (.var .nx)) (.var .nFields)) (.var .d2)) ;;
            .stI .m_cols (.add (.var .mcols) (.add (.add (.mul (.lit 2) (.var .nFields)) (.mul (.var .nnz) (.var .d1))) (.var .d2))) (.add (.mul (.add (.sub (.sub (.var .nn) (.mul (.var .nx) (.var .ny))) (.var .nx)) (.lit 1)) (.var .nFields)) (.var .d2)) ;;
            .stI .m_cols (.add (.var .mcols) (.add (.add (.mul (.lit 3) (.var .nFields)) (.mul (.var .nnz) (.var .d1))) (.var .d2))) (.add (.mul (.sub (.sub (.var .nn) (.mul (.var .nx) (.var .ny))) (.lit 1)) (.var .nFields)) (.var .d2)) ;;
            .stI .m_cols (.add (.var .mcols) (.add (.add (.mul (.lit 4) (.var .nFields)) (.mul (.var .nnz) (.var .d1))) (.var .d2))) (.add (.mul (.sub (.var .nn) (.mul (.var .nx) (.var .ny))) (.var .nFields)) (.var .d2)) ;;
            .stI .m_cols (.add (.var .mcols) (.add (.add (.mul (.lit 5) (.var .nFields)) (.mul (.var .nnz) (.var .d1))) (.var .d2))) (.add (.mul (.add (.sub (.var .nn) (.mul (.var .nx) (.var .ny))) (.lit 1)) (.var .nFields)) (.var .d2)) ;;
            .stI .m_cols (.add (.var .mcols) (.add (.add (.mul (.lit 6) (.var .nFields)) (.mul (.var .nnz) (.var .d1))) (.var .d2))) (.add (.mul (.sub (.add (.sub (.var .nn) (.mul (.var .nx) (.var .ny))) (.var .nx)) (.lit 1)) (.var .nFields)) (.var .d2)) ;;
            .stI .m_cols (.add (.var .mcols) (.add (.add (.mul (.lit 7) (.var .nFields)) (.mul (.var .nnz) (.var .d1))) (.var .d2))) (.add (.mul (.add (.sub (.var .nn) (.mul (.var .nx) (.var .ny))) (.var .nx)) (.var .nFields)) (.var .d2)) ;;
            .stI .m_cols (.add (.var .mcols) (.add (.add (.mul (.lit 8) (.var .nFields)) (.mul (.var .nnz) (.var .d1))) (.var .d2))) (.add (.mul (.add (.add (.sub (.var .nn) (.mul (.var .nx) (.var .ny))) (.var .nx)) (.lit 1)) (.var .nFields)) (.var .d2)) ;;
            .stI .m_cols (.add (.var .mcols) (.add (.add (.mul (.lit 9) (.var .nFields)) (.mul (.var .nnz) (.var .d1))) (.var .d2))) (.add (.mul (.sub (.sub (.var .nn) (.var .nx)) (.lit 1)) (.var .nFields)) (.var .d2)) ;;
            .stI .m_cols (.add (.var .mcols) (.add (.add (.mul (.lit 10) (.var .nFields)) (.mul (.var .nnz) (.var .d1))) (.var .d2))) (.add (.mul (.sub (.var .nn) (.var .nx)) (.var .nFields)) (.var .d2)) ;;
            .stI .m_cols (.add (.var .mcols) (.add (.add (.mul (.lit 11) (.var .nFields)) (.mul (.var .nnz) (.var .d1))) (.var .d2))) (.add (.mul (.add (.sub (.var .nn) (.var .nx)) (.lit 1)) (.var .nFields)) (.var .d2)) ;;
            .stI .m_cols (.add (.var .mcols) (.add (.add (.mul (.lit 12) (.var .nFields)) (.mul (.var .nnz) (.var .d1))) (.var .d2))) (.add (.mul (.sub (.var .nn) (.lit 1)) (.var .nFields)) (.var .d2)) ;;
            .stI .m_cols (.add (.var .mcols) (.add (.add (.mul (.lit 13) (.var .nFields)) (.mul (.var .nnz) (.var .d1))) (.var .d2))) (.add (.mul (.var .nn) (.var .nFields)) (.var .d2)) ;;
            .stI .m_cols (.add (.var .mcols) (.add (.add (.mul (.lit 14) (.var .nFields)) (.mul (.var .nnz) (.var .d1))) (.var .d2))) (.add (.mul (.add (.var .nn) (.lit 1)) (.var .nFields)) (.var .d2)) ;;
            .stI .m_cols (.add (.var .mcols) (.add (.add (.mul (.lit 15) (.var .nFields)) (.mul (.var .nnz) (.var .d1))) (.var .d2))) (.add (.mul (.sub (.add (.var .nn) (.var .nx)) (.lit 1)) (.var .nFields)) (.var .d2)) ;;
            .stI .m_cols (.add (.var .mcols) (.add (.add (.mul (.lit 16) (.var .nFields)) (.mul (.var .nnz) (.var .d1))) (.var .d2))) (.add (.mul (.add (.var .nn) (.var .nx)) (.var .nFields)) (.var .d2)) ;;
            .stI .m_cols (.add (.var .mcols) (.add (.add (.mul (.lit 17) (.var .nFields)) (.mul (.var .nnz) (.var .d1))) (.var .d2))) (.add (.mul (.add (.add (.var .nn) (.var .nx)) (.lit 1)) (.var .nFields)) (.var .d2)) ;;
            .stI .m_cols (.add (.var .mcols) (.add (.add (.mul (.lit 18) (.var .nFields)) (.mul (.var .nnz) (.var .d1))) (.var .d2))) (.add (.mul (.sub (.sub (.add (.var .nn) (.mul (.var .nx) (.var .ny))) (.var .nx)) (.lit 1)) (.var .nFields)) (.var .d2)) ;;
            .stI .m_cols (.add (.var .mcols) (.add (.add (.mul (.lit 19) (.var .nFields)) (.mul (.var .nnz) (.var .d1))) (.var .d2))) (.add (.mul (.sub (.add (.var .nn) (.mul (.var .nx) (.var .ny))) (.var .nx)) (.var .nFields)) (.var .d2)) ;;
            .stI .m_cols (.add (.var .mcols) (.add (.add (.mul (.lit 20) (.var .nFields)) (.mul (.var .nnz) (.var .d1))) (.var .d2))) (.add (.mul (.add (.sub (.add (.var .nn) (.mul (.var .nx) (.var .ny))) (.var .nx)) (.lit 1)) (.var .nFields)) (.var .d2)) ;;
            .stI .m_cols (.add (.var .mcols) (.add (.add (.mul (.lit 21) (.var .nFields)) (.mul (.var .nnz) (.var .d1))) (.var .d2))) (.add (.mul (.sub (.add (.var .nn) (.mul (.var .nx) (.var .ny))) (.lit 1)) (.var .nFields)) (.var .d2)) ;;
            .stI .m_cols (.add (.var .mcols) (.add (.add (.mul (.lit 22) (.var .nFields)) (.mul (.var .nnz) (.var .d1))) (.var .d2))) (.add (.mul (.add (.var .nn) (.mul (.var .nx) (.var .ny))) (.var .nFields)) (.var .d2)) ;;
            .stI .m_cols (.add (.var .mcols) (.add (.add (.mul (.lit 23) (.var .nFields)) (.mul (.var .nnz) (.var .d1))) (.var .d2))) (.add (.mul (.add (.add (.var .nn) (.mul (.var .nx) (.var .ny))) (.lit 1)) (.var .nFields)) (.var .d2)) ;;
            .stI .m_cols (.add (.var .mcols) (.add (.add (.mul (.lit 24) (.var .nFields)) (.mul (.var .nnz) (.var .d1))) (.var .d2))) (.add (.mul (.sub (.add (.add (.var .nn) (.mul (.var .nx) (.var .ny))) (.var .nx)) (.lit 1)) (.var .nFields)) (.var .d2)) ;;
            .stI .m_cols (.add (.var .mcols) (.add (.add (.mul (.lit 25) (.var .nFields)) (.mul (.var .nnz) (.var .d1))) (.var .d2))) (.add (.mul (.add (.add (.var .nn) (.mul (.var .nx) (.var .ny))) (.var .nx)) (.var .nFields)) (.var .d2)) ;;
            .stI .m_cols (.add (.var .mcols) (.add (.add (.mul (.lit 26) (.var .nFields)) (.mul (.var .nnz) (.var .d1))) (.var .d2))) (.add (.mul (.add (.add (.add (.var .nn) (.mul (.var .nx) (.var .ny))) (.var .nx)) (.lit 1)) (.var .nFields)) (.var .d2)))))))

/-- The bodies: /repo/src/assembly.cpp:28-1182, /repo/src/ell.cpp:40-1876, /repo/src/solve.cpp:32-44. -/
def body : Fn → Stmt
  | .set_displ => t_set_displ
  | .assembly_rhs => t_assembly_rhs
  | .assembly_mat => t_assembly_mat
  | .get_elem_mat2D => t_get_elem_mat2D
  | .get_elem_mat3D => t_get_elem_mat3D
  | .get_ctan_plast_sec => t_get_ctan_plast_sec
  | .get_ctan_plast_exact => t_get_ctan_plast_exact
  | .get_ctan_plast_pert => t_get_ctan_plast_pert
  | .calc_bmat_3D => t_calc_bmat_3D
  | .get_elem_rhs2D => t_get_elem_rhs2D
  | .get_elem_rhs3D => t_get_elem_rhs3D
  | .calc_ave_stress => t_calc_ave_stress
  | .calc_ave_strain => t_calc_ave_strain
  | .calc_fields => t_calc_fields
  | .get_stress2D => t_get_stress2D
  | .get_dev_tensor => t_get_dev_tensor
  | .get_stress3D => t_get_stress3D
  | .plastic_step => t_plastic_step
  | .get_material => t_get_material
  | .get_strain2D => t_get_strain2D
  | .get_strain3D => t_get_strain3D
  | .getElemDisp2 => t_getElemDisp2
  | .getElemDisp3 => t_getElemDisp3
  | .solve => t_solve
  | .ell_set_zero_mat => t_ell_set_zero_mat
  | .ell_mvp_2D => t_ell_mvp_2D
  | .ell_solve_jacobi_2D => t_ell_solve_jacobi_2D
  | .ell_solve_cgpd_2D => t_ell_solve_cgpd_2D
  | .ell_solve_cgpd_struct => t_ell_solve_cgpd_struct
  | .ell_add_struct2D => t_ell_add_struct2D
  | .ell_add_struct3D => t_ell_add_struct3D
  | .ell_set_bc_2D => t_ell_set_bc_2D
  | .ell_set_bc_3D => t_ell_set_bc_3D
  | .ell_init_2D => t_ell_init_2D
  | .ell_init_3D => t_ell_init_3D

/-- The functions of /repo/src/assembly.cpp:28-1182, /repo/src/ell.cpp:40-1876, /repo/src/solve.cpp:32-44, with calls nested at most `n` deep. -/
def run {α : Type} [Scalar α] (c : Cfg α) : Nat → Fn → St α → M (St α)
  | 0, _, _ => .error .fuel
  | n + 1, f, s => (body f).exec c (run c n) s

end Verif.Text
