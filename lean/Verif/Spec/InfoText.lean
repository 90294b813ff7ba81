import Verif.Spec.VtuText

/-!
# The text of the info files, and how a table reader takes it apart

Lines are split at line ends; a line whose first word starts with `#` is a comment; the words of any
other line are the columns, in groups that end with the word `|`.  Of the model only the type `Tok` is
used.
-/

namespace Verif.Spec

variable {α : Type}

/-- A token padded to a width by `n` blanks, as `setw` does with numbers. -/
def padText (fmt : α → List Char) (n : Nat) : Tok α → List Char
  | .int i => List.replicate n ' ' ++ decInt i
  | .num a => List.replicate n ' ' ++ fmt a
  | t => Tok.text fmt t

/-- The characters of a file, the `k`-th token being padded by `w k` blanks. -/
def textPad (fmt : α → List Char) : (Nat → Nat) → List (Tok α) → List Char
  | _, [] => []
  | w, t :: ts => padText fmt (w 0) t ++ textPad fmt (fun k => w (k + 1)) ts

/-- All that is assumed of the way floating point numbers are printed: something is printed, without
white space and without the characters `#` and `|`. -/
structure FmtCols (fmt : α → List Char) : Prop where
  some : ∀ a, fmt a ≠ []
  clean : ∀ a, ∀ x ∈ fmt a, blank x = false ∧ x ≠ '#' ∧ x ≠ '|'

/-- The lines of a text. -/
def lines (l : List Char) : List (List Char) := l.splitOn '\n'

/-- The line is a comment. -/
def isComment (l : List Char) : Bool :=
  match words l with
  | ('#' :: _) :: _ => true
  | _ => false

/-- The words of the comments. -/
def comments (l : List Char) : List (List (List Char)) := ((lines l).filter isComment).map words

/-- The words of the lines that are neither empty nor comments. -/
def rows (l : List Char) : List (List (List Char)) :=
  ((lines l).filter fun x => !(words x).isEmpty && !isComment x).map words

/-- The groups of columns of a row; each ends with `|`. -/
def groups (ws : List (List Char)) : List (List (List Char)) := (ws.splitOn ['|']).dropLast

end Verif.Spec
