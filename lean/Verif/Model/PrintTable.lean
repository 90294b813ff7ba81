import Verif.Model.FileText

/-!
# The text of `ell_print`

Generated by `tools/gen_print.py`.
-/

namespace Verif.Text

/-- The pointers tested against NULL: /repo/src/ell.cpp:304-307. -/
inductive PNull
  | mat | cols | vals

/-- The tests at the start, each with the value returned: /repo/src/ell.cpp:304-307. -/
def printTests : List (List PNull × Int) :=
  [([.mat], 1), ([.vals, .cols], 2)]

/-- What is written to `cout`: /repo/src/ell.cpp:309-325. -/
def t_ell_print : FStmt :=
  .put [.str "Cols = ", .endl] ;;;;
  .for .i (.lit 0) (.var .m_nrow) (
    .put [.str "row= ", .int (.var .i)] ;;;;
    .for .j (.lit 0) (.var .m_nnz) (
      .put [.int (.rd .m_cols (.add (.mul (.var .i) (.var .m_nnz)) (.var .j))), .str " "]) ;;;;
    .put [.endl]) ;;;;
  .put [.str "Vals = ", .endl] ;;;;
  .for .i (.lit 0) (.var .m_nrow) (
    .put [.str "row= ", .int (.var .i)] ;;;;
    .for .j (.lit 0) (.var .m_nnz) (
      .put [.num (.rd1 .m_vals (.add (.mul (.var .i) (.var .m_nnz)) (.var .j))), .str " "]) ;;;;
    .put [.endl])

/-- The value returned: /repo/src/ell.cpp:326. -/
def printRet : Int := 0

end Verif.Text
