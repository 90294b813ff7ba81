import Verif.Model.MainText

/-!
# The text of the programs in /repo/test

Generated by `tools/gen_main.py`.
-/

namespace Verif.MainText

/-- What `test2d_1.cpp` does before it counts its arguments: /repo/test/test2d_1.cpp:32-112. -/
def pre_test2d_1 : Stm :=
  .skip

/-- The body of the time loop of `test2d_1.cpp`: /repo/test/test2d_1.cpp:32-112. -/
def step_test2d_1 : Stm :=
  .print [.str "time step = ", .int (.v .t), .endl] ;;
  .iflt (.v .t) (.lit 30) (
    .dadd .eps (.v .dir) (.v .d_eps)) (
    .iflt (.v .t) (.lit 80) (
      .dsub .eps (.v .dir) (.v .d_eps)) (
      .iflt (.v .t) (.lit 130) (
        .dadd .eps (.v .dir) (.v .d_eps)) (
        .iflt (.v .t) (.lit 250) (
          .dsub .eps (.v .dir) (.v .d_eps)) (
          .dadd .eps (.v .dir) (.v .d_eps))))) ;;
  .setStrain (.lit 1) .eps ;;
  .homogenize ;;
  .getStress (.lit 1) .MacroStress ;;
  .updateVars ;;
  .writeInfo ;;
  .print [.str "eps = ", .num (.ix .eps (.v .dir)), .endl] ;;
  .print [.str "MacroStress = ", .num (.ix .MacroStress (.lit 0)), .num (.ix .MacroStress (.lit 1)), .num (.ix .MacroStress (.lit 2)), .endl] ;;
  .print [.endl] ;;
  .output (.v .t) (.lit 1)

/-- The time loop of `test2d_1.cpp`: /repo/test/test2d_1.cpp:32-112. -/
def loop_test2d_1 : Stm := .forlt .t (.v .time_steps) step_test2d_1

/-- `test2d_1.cpp` up to its time loop: /repo/test/test2d_1.cpp:32-112. -/
def init_test2d_1 : Stm :=
  .iset .dim (.lit 2) ;;
  .iset .nx (.arg 1) ;;
  .iset .ny (.arg 2) ;;
  .iset .time_steps (.opt 3 (.arg 3) (.lit 10)) ;;
  .assert [((.v .nx), (.lit 1)), ((.v .ny), (.lit 1))] ;;
  .idecl .size (.lit 3) ;;
  .iput .size (.lit 0) (.v .nx) ;;
  .iput .size (.lit 1) (.v .ny) ;;
  .iset .micro_type (.lit 1) ;;
  .ddecl .micro_params (.lit 5) ;;
  .dput .micro_params (.lit 0) (.lit 10 (-1)) ;;
  .dput .micro_params (.lit 1) (.lit 10 (-1)) ;;
  .dput .micro_params (.lit 2) (.lit 10 (-1)) ;;
  .dput .micro_params (.lit 3) (.lit 1 (-1)) ;;
  .dput .micro_params (.lit 4) (.int 0) ;;
  .idecl .mat_types (.lit 2) ;;
  .iput .mat_types (.lit 0) (.lit 0) ;;
  .iput .mat_types (.lit 1) (.lit 0) ;;
  .ddecl .mat_params (.mul (.lit 2) (.lit 10)) ;;
  .dput .mat_params (.add (.mul (.lit 0) (.lit 10)) (.lit 0)) (.lit 10 (5)) ;;
  .dput .mat_params (.add (.mul (.lit 0) (.lit 10)) (.lit 1)) (.lit 3 (-1)) ;;
  .dput .mat_params (.add (.mul (.lit 0) (.lit 10)) (.lit 2)) (.lit 50 (3)) ;;
  .dput .mat_params (.add (.mul (.lit 0) (.lit 10)) (.lit 3)) (.lit 50 (3)) ;;
  .dput .mat_params (.add (.mul (.lit 1) (.lit 10)) (.lit 0)) (.lit 10 (5)) ;;
  .dput .mat_params (.add (.mul (.lit 1) (.lit 10)) (.lit 1)) (.lit 3 (-1)) ;;
  .dput .mat_params (.add (.mul (.lit 1) (.lit 10)) (.lit 2)) (.lit 10 (3)) ;;
  .dput .mat_params (.add (.mul (.lit 1) (.lit 10)) (.lit 3)) (.lit 0 (-2)) ;;
  .ctor (.v .dim) .size (.v .micro_type) .micro_params .mat_types .mat_params ;;
  .ddecl .MacroStress (.lit 6) ;;
  .ddecl .MacroCtan (.lit 36) ;;
  .dset .d_eps (.lit 1 (-2)) ;;
  .iset .dir (.lit 2) ;;
  .dinit .eps (.lit 6) [.lit 0 (-1), .lit 0 (-1), .lit 0 (-1), .lit 0 (-1), .lit 0 (-1), .lit 0 (-1)]

/-- `main` of `test2d_1.cpp`: /repo/test/test2d_1.cpp:32-112. -/
def p_test2d_1 : Prog :=
  { pre := pre_test2d_1, least := 3, bad := 1, body := init_test2d_1 ;; loop_test2d_1, ret := 0 }

/-- What `test3d_1.cpp` does before it counts its arguments: /repo/test/test3d_1.cpp:32-110. -/
def pre_test3d_1 : Stm :=
  .iset .dim (.lit 3)

/-- The body of the time loop of `test3d_1.cpp`: /repo/test/test3d_1.cpp:32-110. -/
def step_test3d_1 : Stm :=
  .print [.str "time step = ", .int (.v .t), .endl] ;;
  .iflt (.v .t) (.lit 30) (
    .dadd .eps (.v .dir) (.v .d_eps)) (
    .iflt (.v .t) (.lit 80) (
      .dsub .eps (.v .dir) (.v .d_eps)) (
      .iflt (.v .t) (.lit 130) (
        .dadd .eps (.v .dir) (.v .d_eps)) (
        .iflt (.v .t) (.lit 250) (
          .dsub .eps (.v .dir) (.v .d_eps)) (
          .dadd .eps (.v .dir) (.v .d_eps))))) ;;
  .setStrain (.lit 1) .eps ;;
  .homogenize ;;
  .getStress (.lit 1) .sig ;;
  .updateVars ;;
  .writeInfo ;;
  .print [.str "eps = ", .num (.ix .eps (.v .dir)), .endl] ;;
  .print [.str "sig = ", .num (.ix .sig (.lit 0)), .num (.ix .sig (.lit 1)), .num (.ix .sig (.lit 2)), .num (.ix .sig (.lit 3)), .num (.ix .sig (.lit 4)), .num (.ix .sig (.lit 5)), .endl] ;;
  .print [.endl] ;;
  .output (.v .t) (.lit 1)

/-- The time loop of `test3d_1.cpp`: /repo/test/test3d_1.cpp:32-110. -/
def loop_test3d_1 : Stm := .forlt .t (.v .time_steps) step_test3d_1

/-- `test3d_1.cpp` up to its time loop: /repo/test/test3d_1.cpp:32-110. -/
def init_test3d_1 : Stm :=
  .iset .nx (.arg 1) ;;
  .iset .ny (.arg 2) ;;
  .iset .nz (.arg 3) ;;
  .iset .dir (.arg 4) ;;
  .iset .time_steps (.opt 5 (.arg 5) (.lit 10)) ;;
  .idecl .size (.lit 3) ;;
  .iput .size (.lit 0) (.v .nx) ;;
  .iput .size (.lit 1) (.v .ny) ;;
  .iput .size (.lit 2) (.v .nz) ;;
  .iset .micro_type (.lit 1) ;;
  .ddecl .micro_params (.lit 5) ;;
  .dput .micro_params (.lit 0) (.lit 10 (-1)) ;;
  .dput .micro_params (.lit 1) (.lit 10 (-1)) ;;
  .dput .micro_params (.lit 2) (.lit 10 (-1)) ;;
  .dput .micro_params (.lit 3) (.lit 1 (-1)) ;;
  .dput .micro_params (.lit 4) (.lit 0 (-1)) ;;
  .idecl .mat_types (.lit 2) ;;
  .iput .mat_types (.lit 0) (.lit 1) ;;
  .iput .mat_types (.lit 1) (.lit 0) ;;
  .ddecl .mat_params (.mul (.lit 2) (.lit 10)) ;;
  .dput .mat_params (.add (.mul (.lit 0) (.lit 10)) (.lit 0)) (.lit 10 (5)) ;;
  .dput .mat_params (.add (.mul (.lit 0) (.lit 10)) (.lit 1)) (.lit 25 (-2)) ;;
  .dput .mat_params (.add (.mul (.lit 0) (.lit 10)) (.lit 2)) (.lit 10 (1)) ;;
  .dput .mat_params (.add (.mul (.lit 0) (.lit 10)) (.lit 3)) (.lit 20 (4)) ;;
  .dput .mat_params (.add (.mul (.lit 1) (.lit 10)) (.lit 0)) (.lit 10 (5)) ;;
  .dput .mat_params (.add (.mul (.lit 1) (.lit 10)) (.lit 1)) (.lit 25 (-2)) ;;
  .ctor (.v .dim) .size (.v .micro_type) .micro_params .mat_types .mat_params ;;
  .ddecl .sig (.lit 6) ;;
  .ddecl .ctan (.lit 36) ;;
  .dinit .eps (.lit 6) [.lit 0 (-1), .lit 0 (-1), .lit 0 (-1), .lit 0 (-1), .lit 0 (-1), .lit 0 (-1)] ;;
  .dset .d_eps (.lit 1 (-2))

/-- `main` of `test3d_1.cpp`: /repo/test/test3d_1.cpp:32-110. -/
def p_test3d_1 : Prog :=
  { pre := pre_test3d_1, least := 5, bad := 1, body := init_test3d_1 ;; loop_test3d_1, ret := 0 }

/-- What `test3d_7.cpp` does before it counts its arguments: /repo/test/test3d_7.cpp:32-113. -/
def pre_test3d_7 : Stm :=
  .iset .dim (.lit 3)

/-- The body of the time loop of `test3d_7.cpp`: /repo/test/test3d_7.cpp:32-113. -/
def step_test3d_7 : Stm :=
  .print [.str "time step = ", .int (.v .t), .endl] ;;
  .iflt (.v .t) (.lit 30) (
    .dadd .eps (.v .dir) (.v .d_eps)) (
    .iflt (.v .t) (.lit 80) (
      .dsub .eps (.v .dir) (.v .d_eps)) (
      .iflt (.v .t) (.lit 130) (
        .dadd .eps (.v .dir) (.v .d_eps)) (
        .iflt (.v .t) (.lit 250) (
          .dsub .eps (.v .dir) (.v .d_eps)) (
          .dadd .eps (.v .dir) (.v .d_eps))))) ;;
  .setStrain (.lit 1) .eps ;;
  .homogenize ;;
  .getStress (.lit 1) .sig ;;
  .updateVars ;;
  .writeInfo ;;
  .print [.str "eps = ", .num (.ix .eps (.v .dir)), .endl] ;;
  .print [.str "sig = ", .num (.ix .sig (.lit 0)), .num (.ix .sig (.lit 1)), .num (.ix .sig (.lit 2)), .num (.ix .sig (.lit 3)), .num (.ix .sig (.lit 4)), .num (.ix .sig (.lit 5)), .endl] ;;
  .print [.endl] ;;
  .output (.v .t) (.lit 1)

/-- The time loop of `test3d_7.cpp`: /repo/test/test3d_7.cpp:32-113. -/
def loop_test3d_7 : Stm := .forlt .t (.v .time_steps) step_test3d_7

/-- `test3d_7.cpp` up to its time loop: /repo/test/test3d_7.cpp:32-113. -/
def init_test3d_7 : Stm :=
  .iset .nx (.arg 1) ;;
  .iset .ny (.arg 2) ;;
  .iset .nz (.arg 3) ;;
  .iset .time_steps (.opt 4 (.arg 4) (.lit 10)) ;;
  .idecl .size (.lit 3) ;;
  .iput .size (.lit 0) (.v .nx) ;;
  .iput .size (.lit 1) (.v .ny) ;;
  .iput .size (.lit 2) (.v .nz) ;;
  .iset .micro_type (.lit 1) ;;
  .ddecl .micro_params (.lit 5) ;;
  .dput .micro_params (.lit 0) (.lit 10 (-1)) ;;
  .dput .micro_params (.lit 1) (.lit 10 (-1)) ;;
  .dput .micro_params (.lit 2) (.lit 10 (-1)) ;;
  .dput .micro_params (.lit 3) (.lit 1 (-1)) ;;
  .dput .micro_params (.lit 4) (.int 0) ;;
  .idecl .mat_types (.lit 2) ;;
  .iput .mat_types (.lit 0) (.lit 1) ;;
  .iput .mat_types (.lit 1) (.lit 0) ;;
  .ddecl .mat_params (.mul (.lit 2) (.lit 10)) ;;
  .dput .mat_params (.add (.mul (.lit 0) (.lit 10)) (.lit 0)) (.lit 10 (5)) ;;
  .dput .mat_params (.add (.mul (.lit 0) (.lit 10)) (.lit 1)) (.lit 3 (-1)) ;;
  .dput .mat_params (.add (.mul (.lit 0) (.lit 10)) (.lit 2)) (.lit 50 (3)) ;;
  .dput .mat_params (.add (.mul (.lit 0) (.lit 10)) (.lit 3)) (.lit 50 (3)) ;;
  .dput .mat_params (.add (.mul (.lit 1) (.lit 10)) (.lit 0)) (.lit 10 (5)) ;;
  .dput .mat_params (.add (.mul (.lit 1) (.lit 10)) (.lit 1)) (.lit 3 (-1)) ;;
  .dput .mat_params (.add (.mul (.lit 1) (.lit 10)) (.lit 2)) (.lit 10 (3)) ;;
  .dput .mat_params (.add (.mul (.lit 1) (.lit 10)) (.lit 3)) (.lit 0 (-2)) ;;
  .ctor (.v .dim) .size (.v .micro_type) .micro_params .mat_types .mat_params ;;
  .ddecl .sig (.lit 6) ;;
  .ddecl .ctan (.lit 36) ;;
  .dset .d_eps (.lit 1 (-2)) ;;
  .iset .dir (.lit 2) ;;
  .dinit .eps (.lit 6) [.lit 0 (-1), .lit 0 (-1), .lit 0 (-1), .lit 0 (-1), .lit 0 (-1), .lit 0 (-1)]

/-- `main` of `test3d_7.cpp`: /repo/test/test3d_7.cpp:32-113. -/
def p_test3d_7 : Prog :=
  { pre := pre_test3d_7, least := 4, bad := 1, body := init_test3d_7 ;; loop_test3d_7, ret := 0 }

/-- What `test3d_8.cpp` does before it counts its arguments: /repo/test/test3d_8.cpp:35-126. -/
def pre_test3d_8 : Stm :=
  .skip

/-- The body of the time loop of `test3d_8.cpp`: /repo/test/test3d_8.cpp:35-126. -/
def step_test3d_8 : Stm :=
  .print [.str "Time step = ", .int (.v .t), .endl] ;;
  .iflt (.v .t) (.lit 30) (
    .dadd .eps (.v .dir) (.v .d_eps)) (
    .iflt (.v .t) (.lit 80) (
      .dsub .eps (.v .dir) (.v .d_eps)) (
      .iflt (.v .t) (.lit 130) (
        .dadd .eps (.v .dir) (.v .d_eps)) (
        .iflt (.v .t) (.lit 250) (
          .dsub .eps (.v .dir) (.v .d_eps)) (
          .dadd .eps (.v .dir) (.v .d_eps))))) ;;
  .print [.str "setting strains ...", .endl] ;;
  .forlt .gp (.v .ngp) (
    .setStrain (.v .gp) .eps ;;
    .print [.str "gp = ", .int (.v .gp), .str " eps = "] ;;
    .forlt .i (.lit 6) (
      .print [.num (.ix .eps (.v .i))]) ;;
    .print [.endl]) ;;
  .ddecl .MacroStress (.lit 6) ;;
  .ddecl .MacroCtan (.lit 36) ;;
  .print [.str "Homogenizing ...", .endl] ;;
  .homogenize ;;
  .print [.str "Getting stresses ...", .endl] ;;
  .forlt .gp (.v .ngp) (
    .getStress (.v .gp) .sig ;;
    .print [.str "gp = ", .int (.v .gp), .str " sig = "] ;;
    .forlt .i (.lit 6) (
      .print [.num (.ix .sig (.v .i))]) ;;
    .print [.endl]) ;;
  .updateVars ;;
  .writeInfo ;;
  .print [.endl]

/-- The time loop of `test3d_8.cpp`: /repo/test/test3d_8.cpp:35-126. -/
def loop_test3d_8 : Stm := .forlt .t (.v .time_steps) step_test3d_8

/-- `test3d_8.cpp` up to its time loop: /repo/test/test3d_8.cpp:35-126. -/
def init_test3d_8 : Stm :=
  .iset .nx (.arg 1) ;;
  .iset .ny (.arg 2) ;;
  .iset .nz (.arg 3) ;;
  .iset .time_steps (.opt 4 (.arg 4) (.lit 10)) ;;
  .assert [((.v .nx), (.lit 1)), ((.v .ny), (.lit 1)), ((.v .nz), (.lit 1))] ;;
  .iinit .size (.lit 3) [.v .nx, .v .ny, .v .nz] ;;
  .iset .micro_type (.lit 1) ;;
  .dinit .micro_params (.lit 5) [.lit 10 (-1), .lit 10 (-1), .lit 10 (-1), .lit 1 (-1), .lit 10 (-6)] ;;
  .iinit .mat_types (.lit 2) [.lit 1, .lit 0] ;;
  .dinit .mat_params (.mul (.lit 2) (.lit 10)) [.lit 10 (5), .lit 3 (-1), .lit 50 (3), .lit 50 (3), .lit 10 (5), .lit 3 (-1), .lit 10 (3), .lit 0 (-2)] ;;
  .ctor (.lit 3) .size (.v .micro_type) .micro_params .mat_types .mat_params ;;
  .iset .dir (.lit 2) ;;
  .iset .ngp (.lit 2) ;;
  .dset .d_eps (.lit 1 (-2)) ;;
  .dinit .eps (.lit 6) [.lit 0 (-1), .lit 0 (-1), .lit 0 (-1), .lit 0 (-1), .lit 0 (-1), .lit 0 (-1)] ;;
  .ddecl .sig (.lit 6)

/-- `main` of `test3d_8.cpp`: /repo/test/test3d_8.cpp:35-126. -/
def p_test3d_8 : Prog :=
  { pre := pre_test3d_8, least := 4, bad := 1, body := init_test3d_8 ;; loop_test3d_8, ret := 0 }

/-- `test3d_3.f90` up to the call of `micropp_construct`: /repo/test/test3d_3.f90:22-53. -/
def p_test3d_3 : Stm :=
  .idecl .sizes (.lit 3) ;;
  .idecl .types (.lit 2) ;;
  .ddecl .strain (.lit 3) ;;
  .ddecl .stress (.lit 3) ;;
  .ddecl .ctan (.lit 9) ;;
  .ddecl .micro_params (.lit 4) ;;
  .ddecl .params (.lit 20) ;;
  .iset .dims (.lit 2) ;;
  .iput .sizes (.add (.lit 1) (.lit (-1))) (.lit 10) ;;
  .iput .sizes (.add (.lit 2) (.lit (-1))) (.lit 10) ;;
  .iput .sizes (.add (.lit 3) (.lit (-1))) (.lit 1) ;;
  .iset .micro_type (.lit 0) ;;
  .dput .micro_params (.add (.lit 1) (.lit (-1))) (.lit 10 (-1)) ;;
  .dput .micro_params (.add (.lit 2) (.lit (-1))) (.lit 10 (-1)) ;;
  .dput .micro_params (.add (.lit 3) (.lit (-1))) (.lit 10 (-1)) ;;
  .dput .micro_params (.add (.lit 4) (.lit (-1))) (.lit 2 (-1)) ;;
  .dput .micro_params (.add (.lit 4) (.lit (-1))) (.lit 0 (-1)) ;;
  .iput .types (.add (.lit 1) (.lit (-1))) (.lit 0) ;;
  .iput .types (.add (.lit 2) (.lit (-1))) (.lit 0) ;;
  .dput .params (.add (.add (.mul (.lit 0) (.lit 10)) (.lit 1)) (.lit (-1))) (.lit 10 (5)) ;;
  .dput .params (.add (.add (.mul (.lit 0) (.lit 10)) (.lit 2)) (.lit (-1))) (.lit 3 (-1)) ;;
  .dput .params (.add (.add (.mul (.lit 1) (.lit 10)) (.lit 1)) (.lit (-1))) (.lit 10 (6)) ;;
  .dput .params (.add (.add (.mul (.lit 1) (.lit 10)) (.lit 2)) (.lit (-1))) (.lit 3 (-1)) ;;
  .ctor (.v .dims) .sizes (.v .micro_type) .micro_params .types .params

end Verif.MainText
