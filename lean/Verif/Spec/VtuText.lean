import Verif.Spec.Vtu
import Verif.Spec.Xml

/-!
# The text of a VTU file, and how a VTK reader takes it apart

Of the model only the type `Tok` is used.
-/

namespace Verif.Spec

/-- A natural number in decimal digits, as `operator<<` prints it. -/
def decNat (n : Nat) : List Char :=
  if n < 10 then [Char.ofNat (48 + n)] else decNat (n / 10) ++ [Char.ofNat (48 + n % 10)]

/-- An integer in decimal digits. -/
def decInt : Int → List Char
  | .ofNat n => decNat n
  | .negSucc n => '-' :: decNat (n + 1)

variable {α : Type}

/-- The characters of a token; `fmt` prints a floating point number. -/
def Tok.text (fmt : α → List Char) : Tok α → List Char
  | .str s => s.toList
  | .int i => decInt i
  | .num a => fmt a
  | .endl => ['\n']

/-- The characters of a file. -/
def textOf (fmt : α → List Char) (ts : List (Tok α)) : List Char := ts.flatMap (Tok.text fmt)

/-- All that is assumed of the way floating point numbers are printed: something is printed, without
white space and without the characters `<` and `&`. -/
structure Fmt (fmt : α → List Char) : Prop where
  some : ∀ a, fmt a ≠ []
  clean : ∀ a, ∀ x ∈ fmt a, blank x = false ∧ x ≠ '<' ∧ x ≠ '&'

/-- An array of a VTK file. -/
structure Arr where
  name : List Char
  type : List Char
  /-- entries per point or cell -/
  comps : Nat
  items : List (List Char)

/-- An element `DataArray` in text format. -/
def Xml.array (x : Xml) : Option Arr :=
  if x.name = "DataArray".toList ∧ x.attr "format" = some "ascii".toList ∧ x.elems.isEmpty = true then
    (x.attr "Name").bind fun n => (x.attr "type").bind fun t =>
      ((x.attr "NumberOfComponents").bind readNat).bind fun k => some ⟨n, t, k, words x.chars⟩
  else none

/-- The element is a list of arrays. -/
def Xml.arrays (x : Xml) : Option (List Arr) := x.elems.mapM Xml.array

/-- The only element of the given name directly in `x`. -/
def Xml.sole (x : Xml) (n : String) : Option Xml :=
  match x.elems.filter fun y => y.name == n.toList with
  | [y] => some y
  | _ => none

/-- An unstructured grid in one piece. -/
structure Vtk where
  nPoints : Nat
  nCells : Nat
  points : List Arr
  cells : List Arr
  pointData : List Arr
  cellData : List Arr

/-- The unstructured grid in a document. -/
def Xml.vtk (x : Xml) : Option Vtk :=
  if x.name = "VTKFile".toList ∧ x.attr "type" = some "UnstructuredGrid".toList then
    (x.sole "UnstructuredGrid").bind fun g => (g.sole "Piece").bind fun p =>
      ((p.attr "NumberOfPoints").bind readNat).bind fun np =>
      ((p.attr "NumberOfCells").bind readNat).bind fun nc =>
      ((p.sole "Points").bind Xml.arrays).bind fun a =>
      ((p.sole "Cells").bind Xml.arrays).bind fun b =>
      ((p.sole "PointData").bind Xml.arrays).bind fun c =>
      ((p.sole "CellData").bind Xml.arrays).bind fun d => some ⟨np, nc, a, b, c, d⟩
  else none

/-- Read a VTU file. -/
def readVtu (l : List Char) : Option Vtk := (readXml l).bind Xml.vtk

end Verif.Spec
