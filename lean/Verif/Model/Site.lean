import Verif.Model.Int32

/-!
# Places in the code: integer expressions, array accesses, arguments
-/

namespace Verif

/-- The `int` variables of /repo/src/{micro,assembly,solve,homogenize,output}.cpp under their C++ names;
`index_i` is the value read from `index[i]` in /repo/src/assembly.cpp:206, 263. -/
inductive SV
  | dim | nx | ny | nz | nn
  | npe | nvoi | nelem | num_int_vars | numMaterials | nParams
  | i | j | k | m | n | d | v | e | gp
  | ex | ey | ez
  | n0 | n1 | n2 | n3 | n4 | n5 | n6 | n7
  | index_i | mat_num | ce
  deriving DecidableEq

/-- Their expressions. -/
abbrev SExp := CExpr SV

/-- What the code around a place says about a variable. -/
inductive Fact
  /-- `for (int v = lo; v < hi; v++)`, or the range of a parameter -/
  | loop (v : SV) (lo hi : SExp)
  /-- `int v = e;`, or the branch `if (v == e)` -/
  | eq (v : SV) (e : SExp)
  /-- the other branch of `if (v == e)` -/
  | ne (v : SV) (e : SExp)

/-- What the code does at a place. -/
inductive Use
  /-- it evaluates the `int` expression `e` -/
  | fits (e : SExp)
  /-- it reads or writes entry `e` of an array with `size` entries -/
  | index (arr : String) (e size : SExp)
  /-- it hands an array with `given` entries to a function that uses `need` entries -/
  | extent (arr : String) (need given : SExp)
  /-- it hands `e` to a parameter, or assigns it to a variable, with values from `lo` to below `hi` -/
  | range (e lo hi : SExp)

/-- A place in the code: file and lines (the same expression may occur on several), surroundings, use. -/
structure Site where
  file : String
  lines : List Nat
  ctx : List Fact
  use : Use

end Verif
