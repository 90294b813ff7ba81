import Verif.Model.FileText

/-!
# The text of /repo/src/output.cpp and of the constructor with its files

Generated by `tools/gen_text.py`.
-/

namespace Verif.Text

/-- `output`: /repo/src/output.cpp:29-50. -/
def f_output : FStmt :=
  .find (.eqI (.var .g_id) (.var .gp_id)) (
    .obj (
      .base (
        .ite (.eqI (.var .g_int_vars_n) (.lit 0)) (
          .for .i (.lit 0) (.mem .num_int_vars) (
            .memSt .vars_old (.var .i) (.lit (nat_lit 0) true (nat_lit 1)))) (
          .for .i (.lit 0) (.mem .num_int_vars) (
            .memSt .vars_old (.var .i) (.rd1 .g_int_vars_n (.var .i)))) ;;
        .declI .nr_its ;;
        .declI .nl_flag ;;
        .declD .nr_err ;;
        .call .set_displ [.ref .g_macro_strain]) ;;;
      .call .newton_raphson [.ref .nl_flag, .ref .nr_its, .ref .nr_err] ;;;
      .base (
        .call .calc_fields [])) ;;;;
    .call .write_vtu [(.var .time_step), (.var .gp_id)])

/-- `write_vtu`: /repo/src/output.cpp:52-222. -/
def f_write_vtu : FStmt :=
  .open (.vtu (.var .gp_id) (.var .time_step)) false ;;;;
  .put [.str "<?xml version=\"1.0\"?>", .endl, .str "<VTKFile type=\"UnstructuredGrid\" version=\"0.1\" byte_order=\"LittleEndian\">", .endl, .str "<UnstructuredGrid>", .endl, .str "<Piece NumberOfPoints=\"", .int (.mem .nn), .str "\" NumberOfCells=\"", .int (.mem .nelem), .str "\">", .endl, .str "<Points>", .endl, .str "<DataArray type=\"Float32\" Name=\"Position\" NumberOfComponents=\"3\" format=\"ascii\">", .endl] ;;;;
  .obj (
    .base (
      .declD .x ;;
      .declD .y ;;
      .declD .z)) ;;;;
  .ite (.eqI (.mem .dim) (.lit 2)) (
    .for .j (.lit 0) (.mem .ny) (
      .for .i (.lit 0) (.mem .nx) (
        .obj (
          .base (
            .setD .x (.mul (.ofInt (.var .i)) (.mem .dx)) ;;
            .setD .y (.mul (.ofInt (.var .j)) (.mem .dy)))) ;;;;
        .put [.num (.var .x), .str " ", .num (.var .y), .str " ", .str "0.0", .endl]))) (
    .ite (.eqI (.mem .dim) (.lit 3)) (
      .for .k (.lit 0) (.mem .nz) (
        .for .j (.lit 0) (.mem .ny) (
          .for .i (.lit 0) (.mem .nx) (
            .obj (
              .base (
                .setD .x (.mul (.ofInt (.var .i)) (.mem .dx)) ;;
                .setD .y (.mul (.ofInt (.var .j)) (.mem .dy)) ;;
                .setD .z (.mul (.ofInt (.var .k)) (.mem .dz)))) ;;;;
            .put [.num (.var .x), .str " ", .num (.var .y), .str " ", .num (.var .z), .endl])))) (
      .obj (.base .skip))) ;;;;
  .put [.str "</DataArray>", .endl, .str "</Points>", .endl, .str "<Cells>", .endl] ;;;;
  .put [.str "<DataArray type=\"Int32\" Name=\"connectivity\" NumberOfComponents=\"1\" format=\"ascii\">", .endl] ;;;;
  .ite (.eqI (.mem .dim) (.lit 2)) (
    .for .ey (.lit 0) (.sub (.mem .ny) (.lit 1)) (
      .for .ex (.lit 0) (.sub (.mem .nx) (.lit 1)) (
        .obj (
          .base (
            .setI .n0 (.add (.mul (.var .ey) (.mem .nx)) (.var .ex)) ;;
            .setI .n1 (.add (.add (.mul (.var .ey) (.mem .nx)) (.var .ex)) (.lit 1)) ;;
            .setI .n2 (.add (.add (.mul (.add (.var .ey) (.lit 1)) (.mem .nx)) (.var .ex)) (.lit 1)) ;;
            .setI .n3 (.add (.mul (.add (.var .ey) (.lit 1)) (.mem .nx)) (.var .ex)))) ;;;;
        .put [.int (.var .n0), .str " ", .int (.var .n1), .str " ", .int (.var .n2), .str " ", .int (.var .n3), .str " ", .endl]))) (
    .ite (.eqI (.mem .dim) (.lit 3)) (
      .for .ez (.lit 0) (.sub (.mem .nz) (.lit 1)) (
        .for .ey (.lit 0) (.sub (.mem .ny) (.lit 1)) (
          .for .ex (.lit 0) (.sub (.mem .nx) (.lit 1)) (
            .obj (
              .base (
                .setI .n0 (.add (.add (.mul (.var .ez) (.mul (.mem .nx) (.mem .ny))) (.mul (.var .ey) (.mem .nx))) (.var .ex)) ;;
                .setI .n1 (.add (.add (.add (.mul (.var .ez) (.mul (.mem .nx) (.mem .ny))) (.mul (.var .ey) (.mem .nx))) (.var .ex)) (.lit 1)) ;;
                .setI .n2 (.add (.add (.add (.mul (.var .ez) (.mul (.mem .nx) (.mem .ny))) (.mul (.add (.var .ey) (.lit 1)) (.mem .nx))) (.var .ex)) (.lit 1)) ;;
                .setI .n3 (.add (.add (.mul (.var .ez) (.mul (.mem .nx) (.mem .ny))) (.mul (.add (.var .ey) (.lit 1)) (.mem .nx))) (.var .ex)) ;;
                .setI .n4 (.add (.var .n0) (.mul (.mem .nx) (.mem .ny))) ;;
                .setI .n5 (.add (.var .n1) (.mul (.mem .nx) (.mem .ny))) ;;
                .setI .n6 (.add (.var .n2) (.mul (.mem .nx) (.mem .ny))) ;;
                .setI .n7 (.add (.var .n3) (.mul (.mem .nx) (.mem .ny))))) ;;;;
            .put [.int (.var .n0), .str " ", .int (.var .n1), .str " ", .int (.var .n2), .str " ", .int (.var .n3), .str " ", .int (.var .n4), .str " ", .int (.var .n5), .str " ", .int (.var .n6), .str " ", .int (.var .n7), .str " ", .endl])))) (
      .obj (.base .skip))) ;;;;
  .put [.str "</DataArray>", .endl] ;;;;
  .obj (
    .base (
      .setI .ce (.mem .npe))) ;;;;
  .put [.str "<DataArray type=\"Int32\" Name=\"offsets\" NumberOfComponents=\"1\" format=\"ascii\">", .endl] ;;;;
  .for .e (.lit 0) (.mem .nelem) (
    .put [.int (.var .ce), .str " "] ;;;;
    .obj (
      .base (
        .setI .ce (.add (.var .ce) (.mem .npe))))) ;;;;
  .put [.endl, .str "</DataArray>", .endl] ;;;;
  .put [.str "<DataArray type=\"UInt8\"  Name=\"types\" NumberOfComponents=\"1\" format=\"ascii\">", .endl] ;;;;
  .for .e (.lit 0) (.mem .nelem) (
    .ite (.eqI (.mem .dim) (.lit 2)) (
      .put [.int (.lit 9), .str " "]) (
      .ite (.eqI (.mem .dim) (.lit 3)) (
        .put [.int (.lit 12), .str " "]) (
        .obj (.base .skip)))) ;;;;
  .put [.endl] ;;;;
  .put [.str "</DataArray>", .endl, .str "</Cells>", .endl] ;;;;
  .put [.str "<PointData Vectors=\"displ,b\" >>", .endl] ;;;;
  .put [.str "<DataArray type=\"Float64\" Name=\"displ\" NumberOfComponents=\"3\" format=\"ascii\" >", .endl] ;;;;
  .for .n (.lit 0) (.mem .nn) (
    .ite (.eqI (.mem .dim) (.lit 2)) (
      .put [.num (.memRd .u (.add (.mul (.var .n) (.mem .dim)) (.lit 0))), .str " ", .num (.memRd .u (.add (.mul (.var .n) (.mem .dim)) (.lit 1))), .str " ", .str "0.0", .endl]) (
      .ite (.eqI (.mem .dim) (.lit 3)) (
        .put [.num (.memRd .u (.add (.mul (.var .n) (.mem .dim)) (.lit 0))), .str " ", .num (.memRd .u (.add (.mul (.var .n) (.mem .dim)) (.lit 1))), .str " ", .num (.memRd .u (.add (.mul (.var .n) (.mem .dim)) (.lit 2))), .endl]) (
        .obj (.base .skip)))) ;;;;
  .put [.str "</DataArray>", .endl] ;;;;
  .put [.str "<DataArray type=\"Float64\" Name=\"b\" NumberOfComponents=\"3\" format=\"ascii\" >", .endl] ;;;;
  .for .n (.lit 0) (.mem .nn) (
    .ite (.eqI (.mem .dim) (.lit 2)) (
      .put [.num (.memRd .b (.add (.mul (.var .n) (.mem .dim)) (.lit 0))), .str " ", .num (.memRd .b (.add (.mul (.var .n) (.mem .dim)) (.lit 1))), .str " ", .str "0.0", .endl]) (
      .ite (.eqI (.mem .dim) (.lit 3)) (
        .put [.num (.memRd .b (.add (.mul (.var .n) (.mem .dim)) (.lit 0))), .str " ", .num (.memRd .b (.add (.mul (.var .n) (.mem .dim)) (.lit 1))), .str " ", .num (.memRd .b (.add (.mul (.var .n) (.mem .dim)) (.lit 2))), .endl]) (
        .obj (.base .skip)))) ;;;;
  .put [.str "</DataArray>", .endl] ;;;;
  .put [.str "</PointData>", .endl] ;;;;
  .put [.str "<CellData>", .endl] ;;;;
  .put [.str "<DataArray type=\"Float64\" Name=\"strain\" NumberOfComponents=\"", .int (.mem .nvoi), .str "\" format=\"ascii\">", .endl] ;;;;
  .for .e (.lit 0) (.mem .nelem) (
    .for .v (.lit 0) (.mem .nvoi) (
      .put [.num (.memRd .elem_strain (.add (.mul (.var .e) (.mem .nvoi)) (.var .v))), .str " "]) ;;;;
    .put [.endl]) ;;;;
  .put [.str "</DataArray>"] ;;;;
  .put [.str "<DataArray type=\"Float64\" Name=\"stress\" NumberOfComponents=\"", .int (.mem .nvoi), .str "\" format=\"ascii\">", .endl] ;;;;
  .for .e (.lit 0) (.mem .nelem) (
    .for .v (.lit 0) (.mem .nvoi) (
      .put [.num (.memRd .elem_stress (.add (.mul (.var .e) (.mem .nvoi)) (.var .v))), .str " "]) ;;;;
    .put [.endl]) ;;;;
  .put [.str "</DataArray>"] ;;;;
  .put [.str "<DataArray type=\"Int32\" Name=\"elem_type\" NumberOfComponents=\"1\" format=\"ascii\">", .endl] ;;;;
  .for .e (.lit 0) (.mem .nelem) (
    .put [.int (.elemType (.var .e)), .str " "]) ;;;;
  .put [.endl, .str "</DataArray>", .endl] ;;;;
  .put [.str "<DataArray type=\"Float64\" Name=\"plasticity\" NumberOfComponents=\"1\" format=\"ascii\">", .endl] ;;;;
  .for .e (.lit 0) (.mem .nelem) (
    .obj (
      .base (
        .setD .plasticity (.lit (nat_lit 0) true (nat_lit 1)) ;;
        .ite (.eqI (.mem .dim) (.lit 3)) (
          .for .gp (.lit 0) (.lit 8) (
            .setD .plasticity (.add (.var .plasticity) (.sqrt (.add (.add (.add (.add (.add (.mul (.memRd .vars_old (.add (.add (.mul (.mul (.var .e) (.lit 8)) (.lit 7)) (.mul (.var .gp) (.lit 7))) (.lit 0))) (.memRd .vars_old (.add (.add (.mul (.mul (.var .e) (.lit 8)) (.lit 7)) (.mul (.var .gp) (.lit 7))) (.lit 0)))) (.mul (.memRd .vars_old (.add (.add (.mul (.mul (.var .e) (.lit 8)) (.lit 7)) (.mul (.var .gp) (.lit 7))) (.lit 1))) (.memRd .vars_old (.add (.add (.mul (.mul (.var .e) (.lit 8)) (.lit 7)) (.mul (.var .gp) (.lit 7))) (.lit 1))))) (.mul (.memRd .vars_old (.add (.add (.mul (.mul (.var .e) (.lit 8)) (.lit 7)) (.mul (.var .gp) (.lit 7))) (.lit 2))) (.memRd .vars_old (.add (.add (.mul (.mul (.var .e) (.lit 8)) (.lit 7)) (.mul (.var .gp) (.lit 7))) (.lit 2))))) (.mul (.mul (.ofInt (.lit 2)) (.memRd .vars_old (.add (.add (.mul (.mul (.var .e) (.lit 8)) (.lit 7)) (.mul (.var .gp) (.lit 7))) (.lit 3)))) (.memRd .vars_old (.add (.add (.mul (.mul (.var .e) (.lit 8)) (.lit 7)) (.mul (.var .gp) (.lit 7))) (.lit 3))))) (.mul (.mul (.ofInt (.lit 2)) (.memRd .vars_old (.add (.add (.mul (.mul (.var .e) (.lit 8)) (.lit 7)) (.mul (.var .gp) (.lit 7))) (.lit 4)))) (.memRd .vars_old (.add (.add (.mul (.mul (.var .e) (.lit 8)) (.lit 7)) (.mul (.var .gp) (.lit 7))) (.lit 4))))) (.mul (.mul (.ofInt (.lit 2)) (.memRd .vars_old (.add (.add (.mul (.mul (.var .e) (.lit 8)) (.lit 7)) (.mul (.var .gp) (.lit 7))) (.lit 5)))) (.memRd .vars_old (.add (.add (.mul (.mul (.var .e) (.lit 8)) (.lit 7)) (.mul (.var .gp) (.lit 7))) (.lit 5))))))))) (
          .skip))) ;;;;
    .put [.num (.div (.var .plasticity) (.ofInt (.lit 8))), .str " "]) ;;;;
  .put [.endl, .str "</DataArray>", .endl] ;;;;
  .put [.str "<DataArray type=\"Float64\" Name=\"hardening\" NumberOfComponents=\"1\" format=\"ascii\">", .endl] ;;;;
  .for .e (.lit 0) (.mem .nelem) (
    .obj (
      .base (
        .setD .hardening (.lit (nat_lit 0) true (nat_lit 1)) ;;
        .ite (.eqI (.mem .dim) (.lit 3)) (
          .for .gp (.lit 0) (.lit 8) (
            .setD .hardening (.add (.var .hardening) (.memRd .vars_old (.add (.add (.mul (.mul (.var .e) (.lit 8)) (.lit 7)) (.mul (.var .gp) (.lit 7))) (.lit 6)))))) (
          .skip))) ;;;;
    .put [.num (.div (.var .hardening) (.ofInt (.lit 8))), .str " "]) ;;;;
  .put [.endl, .str "</DataArray>", .endl] ;;;;
  .put [.str "</CellData>", .endl] ;;;;
  .put [.str "</Piece>", .endl, .str "</UnstructuredGrid>", .endl, .str "</VTKFile>", .endl] ;;;;
  .close

/-- `write_info_files`: /repo/src/output.cpp:224-285. -/
def f_write_info_files : FStmt :=
  .ite (.eqI (.var .output_files_header) (.lit 0)) (
    .obj (
      .base (
        .setI .output_files_header (.lit 1))) ;;;;
    .open .conv true ;;;;
    .put [.str "# gp_id : "] ;;;;
    .each (
      .put [.int (.var .g_id), .str " "]) ;;;;
    .put [.endl] ;;;;
    .put [.str "# nl_flag [1] # inv_max [2] # inv_tol [3]", .endl, .str "# nr_its  [4] # nr_tol  [5]", .endl] ;;;;
    .close ;;;;
    .open .eps true ;;;;
    .put [.str "# gp_id : "] ;;;;
    .each (
      .put [.int (.var .g_id), .str " "]) ;;;;
    .put [.str "# epsxx [1] # epsyy [2] # epszz[3] # epsxy[4] # epsxz[5] # epsyz[6]", .str "# sigxx [7] # sigyy [2] # sigzz[3] # sigxy[4] # sigxz[5] # sigyz[6]", .endl] ;;;;
    .put [.endl] ;;;;
    .close) (
    .obj (.base .skip)) ;;;;
  .open .conv true ;;;;
  .each (
    .ite (.eqI (.var .g_int_vars_n) (.lit 0)) (.put [.int (.lit 0)]) (.put [.int (.lit 1)]) ;;;;
    .put [.str " "] ;;;;
    .put [.num (.var .g_inv_max), .str " "] ;;;;
    .for .i (.lit 0) (.add (.lit 1) (.mem .nvoi)) (
      .put [.int (.rd .g_nr_its (.var .i)), .str " "] ;;;;
      .put [.num (.rd1 .g_nr_err (.var .i)), .str " "]) ;;;;
    .put [.str " ", .str "|", .str " "]) ;;;;
  .put [.endl] ;;;;
  .close ;;;;
  .open .eps true ;;;;
  .each (
    .for .i (.lit 0) (.lit 6) (
      .put [.num (.rd1 .g_macro_strain (.var .i)), .str " "]) ;;;;
    .for .i (.lit 0) (.lit 6) (
      .put [.num (.rd1 .g_macro_stress (.var .i)), .str " "]) ;;;;
    .for .i (.lit 0) (.lit 36) (
      .put [.num (.rd1 .g_macro_ctan (.var .i)), .str " "]) ;;;;
    .put [.str " ", .str "|", .str " "]) ;;;;
  .put [.endl] ;;;;
  .close ;;;;
  .open .vars true ;;;;
  .each (
    .for .i (.lit 0) (.mem .num_int_vars) (
      .ite (.eqI (.var .g_int_vars_n) (.lit 0)) (
        .put [.num (.lit (nat_lit 0) true (nat_lit 1)), .str " "]) (
        .put [.num (.rd1 .g_int_vars_n (.var .i)), .str " "])) ;;;;
    .put [.str " ", .str "|", .str " "]) ;;;;
  .put [.endl] ;;;;
  .close

/-- The bodies: /repo/src/output.cpp:29-285. -/
def fbody : FFn → FStmt
  | .output => f_output
  | .write_vtu => f_write_vtu
  | .write_info_files => f_write_info_files

/-- The body of the constructor up to the loops over the elements: /repo/src/micro.cpp:55-116. -/
def f_ctor : FStmt :=
  .obj (
    .ite (.eqI (.mem .dim) (.lit 2)) (.base .skip) (
    .ite (.eqI (.mem .dim) (.lit 3)) (.base .skip) (
    .abort)) ;;;
    .alloc .b (.mul (.mem .nn) (.mem .dim)) ;;;
    .alloc .du (.mul (.mem .nn) (.mem .dim)) ;;;
    .alloc .u (.mul (.mem .nn) (.mem .dim)) ;;;
    .alloc .elem_stress (.mul (.mem .nelem) (.mem .nvoi)) ;;;
    .alloc .elem_strain (.mul (.mem .nelem) (.mem .nvoi)) ;;;
    .base (
      .mallocI .elem_type (.mem .nelem)) ;;;
    .alloc .vars_old (.mem .num_int_vars) ;;;
    .alloc .vars_new (.mem .num_int_vars) ;;;
    .base (
      .declI .nParams ;;
      .ite (.eqI (.mem .micro_type) (.lit 0)) (
        .setI .numMaterials (.lit 2) ;;
        .setI .nParams (.lit 5)) (
        .ite (.eqI (.mem .micro_type) (.lit 1)) (
          .setI .numMaterials (.lit 2) ;;
          .setI .nParams (.lit 5)) (
          .skip)) ;;
      .for .i (.lit 0) (.var .nParams) (
        .st1 .micro_params (.var .i) (.rd1 .a_micro_params (.var .i))))) ;;;;
  .open .mats false ;;;;
  .for .i (.lit 0) (.var .numMaterials) (
    .obj (
      .base (
        .st1 .ml_E (.var .i) (.rd1 .params (.add (.mul (.var .i) (.lit 10)) (.lit 0))) ;;
        .st1 .ml_nu (.var .i) (.rd1 .params (.add (.mul (.var .i) (.lit 10)) (.lit 1))) ;;
        .st1 .ml_Sy (.var .i) (.rd1 .params (.add (.mul (.var .i) (.lit 10)) (.lit 2))) ;;
        .st1 .ml_Ka (.var .i) (.rd1 .params (.add (.mul (.var .i) (.lit 10)) (.lit 3))) ;;
        .st1 .ml_k (.var .i) (.div (.rd1 .ml_E (.var .i)) (.mul (.ofInt (.lit 3)) (.sub (.ofInt (.lit 1)) (.mul (.ofInt (.lit 2)) (.rd1 .ml_nu (.var .i)))))) ;;
        .st1 .ml_mu (.var .i) (.div (.rd1 .ml_E (.var .i)) (.mul (.ofInt (.lit 2)) (.add (.ofInt (.lit 1)) (.rd1 .ml_nu (.var .i))))) ;;
        .st1 .ml_lam (.var .i) (.div (.mul (.rd1 .ml_nu (.var .i)) (.rd1 .ml_E (.var .i))) (.mul (.add (.ofInt (.lit 1)) (.rd1 .ml_nu (.var .i))) (.sub (.ofInt (.lit 1)) (.mul (.ofInt (.lit 2)) (.rd1 .ml_nu (.var .i)))))) ;;
        .ite (.eqI (.rd .mat_types (.var .i)) (.lit 0)) (
          .stI .ml_plasticity (.var .i) (.lit 0) ;;
          .stI .ml_damage (.var .i) (.lit 0)) (
          .ite (.eqI (.rd .mat_types (.var .i)) (.lit 1)) (
            .stI .ml_plasticity (.var .i) (.lit 1) ;;
            .stI .ml_damage (.var .i) (.lit 0)) (
            .ite (.eqI (.rd .mat_types (.var .i)) (.lit 2)) (
              .stI .ml_plasticity (.var .i) (.lit 0) ;;
              .stI .ml_damage (.var .i) (.lit 1)) (
              .skip))))) ;;;;
    .put [.num (.rd1 .ml_E (.var .i)), .str " ", .num (.rd1 .ml_nu (.var .i)), .str " ", .num (.rd1 .ml_Sy (.var .i)), .str " ", .num (.rd1 .ml_Ka (.var .i)), .endl]) ;;;;
  .close

/-- The end of the constructor: /repo/src/micro.cpp:140-145. -/
def f_ctor_end : FStmt :=
  .open .conv false ;;;;
  .close ;;;;
  .open .eps false ;;;;
  .close ;;;;
  .open .vars false ;;;;
  .close

/-- The functions of /repo/src/output.cpp:29-285, with calls nested at most `n` deep; at the end the stream is closed. -/
def fRun {α : Type} [Scalar α] (env : Env α) (c : Cfg α) (gs : List (Gp α)) : Nat → FFn → FSt α → M (FSt α)
  | 0, _, _ => .error .fuel
  | n + 1, f, s => do
    let t ← (fbody f).exec c gs (fun p => p.exec env c (oRun env c 3)) (fRun env c gs n) s
    pure t.close

end Verif.Text
