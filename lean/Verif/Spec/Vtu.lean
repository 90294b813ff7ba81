import Verif.Model.Output

/-!
# Reading a VTU file

How a reader finds the data of an array in a file given as a list of tokens.  Only the type `Tok` of
the model is used.
-/

namespace Verif.Spec

variable {α : Type}

/-- The token is the string `s`. -/
def isStr (s : String) : Tok α → Bool
  | .str t => t == s
  | _ => false

/-- The token ends a line. -/
def isEndl : Tok α → Bool
  | .endl => true
  | _ => false

/-- The token separates entries: a blank or a line end. -/
def isSep (t : Tok α) : Bool := isEndl t || isStr " " t

/-- The entries of the array opened by the header string `hdr`: the tokens after the line of the header
up to the closing tag, without the blanks and line ends. -/
def dataOf (hdr : String) (ts : List (Tok α)) : List (Tok α) :=
  (((ts.dropWhile fun t => !isStr hdr t).dropWhile fun t => !isEndl t).takeWhile
    fun t => !isStr "</DataArray>" t).filter fun t => !isSep t

/-- The opening tags of the arrays. -/
def hPosition := "<DataArray type=\"Float32\" Name=\"Position\" NumberOfComponents=\"3\" format=\"ascii\">"
def hConnectivity :=
  "<DataArray type=\"Int32\" Name=\"connectivity\" NumberOfComponents=\"1\" format=\"ascii\">"
def hOffsets := "<DataArray type=\"Int32\" Name=\"offsets\" NumberOfComponents=\"1\" format=\"ascii\">"
def hTypes := "<DataArray type=\"UInt8\"  Name=\"types\" NumberOfComponents=\"1\" format=\"ascii\">"
def hDispl := "<DataArray type=\"Float64\" Name=\"displ\" NumberOfComponents=\"3\" format=\"ascii\" >"
def hB := "<DataArray type=\"Float64\" Name=\"b\" NumberOfComponents=\"3\" format=\"ascii\" >"
def hStrain := "<DataArray type=\"Float64\" Name=\"strain\" NumberOfComponents=\""
def hStress := "<DataArray type=\"Float64\" Name=\"stress\" NumberOfComponents=\""
def hElemType := "<DataArray type=\"Int32\" Name=\"elem_type\" NumberOfComponents=\"1\" format=\"ascii\">"
def hPlasticity :=
  "<DataArray type=\"Float64\" Name=\"plasticity\" NumberOfComponents=\"1\" format=\"ascii\">"
def hHardening :=
  "<DataArray type=\"Float64\" Name=\"hardening\" NumberOfComponents=\"1\" format=\"ascii\">"

/-- The two numbers announced by the `Piece` tag. -/
def announced (ts : List (Tok α)) : List (Tok α) :=
  ((ts.dropWhile fun t => !isStr "<Piece NumberOfPoints=\"" t).takeWhile fun t => !isEndl t).filter
    fun t => match t with
      | .int _ => true
      | _ => false

end Verif.Spec
