/-!
# Reading an XML document

A reader for the part of XML 1.0 that a VTK file uses: a declaration, elements with attributes in
double quotes, and text.  It goes through the characters once.  Comments, entities, processing
instructions other than the declaration, `'`-quoted values, empty-element tags and CDATA are refused.
Nothing of the model is used.
-/

namespace Verif.Spec

/-- A document, element or text. -/
inductive Xml
  | elem (name : List Char) (attrs : List (List Char × List Char)) (kids : List Xml)
  | text (s : List Char)

/-- White space of XML. -/
def blank (x : Char) : Bool := x == ' ' || x == '\n' || x == '\t' || x == '\r'

/-- A character of a name (ASCII only). -/
def nameChar (x : Char) : Bool := x.isAlphanum || x == '_' || x == '-' || x == '.'

/-- A start tag in progress: its name and the attributes read. -/
structure Tag where
  name : List Char
  attrs : List (List Char × List Char)

/-- Where in the text the reader is. -/
inductive Mode
  /-- in character data, which started with `s` -/
  | text (s : List Char)
  /-- after `<` -/
  | lt
  /-- in the declaration, the flag telling that the last character was `?` -/
  | decl (q : Bool)
  /-- in the name of a start tag -/
  | name (n : List Char)
  /-- in a start tag, where white space has been read -/
  | gap (t : Tag)
  /-- in the name of an attribute -/
  | attr (t : Tag) (a : List Char)
  /-- after the `=` of an attribute -/
  | eq (t : Tag) (a : List Char)
  /-- in the value of an attribute -/
  | val (t : Tag) (a v : List Char)
  /-- after the value of an attribute -/
  | next (t : Tag)
  /-- in the name of an end tag -/
  | close (n : List Char)

/-- An element whose end tag has not been read: its tag and the children read. -/
structure Open where
  tag : Tag
  kids : List Xml

/-- The state of the reader: the open elements, innermost first, and the elements read at the top. -/
structure Reader where
  mode : Mode
  stack : List Open
  top : List Xml

/-- Add a child to the innermost open element.  Outside the root only white space is allowed as
text, and it is dropped. -/
def Reader.add (r : Reader) (x : Xml) : Option Reader :=
  match r.stack, x with
  | [], .text s => if s.all blank then some r else none
  | [], x => some { r with top := r.top ++ [x] }
  | o :: os, x => some { r with stack := { o with kids := o.kids ++ [x] } :: os }

/-- The end of a start tag. -/
def Reader.start (r : Reader) (t : Tag) : Option Reader :=
  some { r with mode := .text [], stack := ⟨t, []⟩ :: r.stack }

/-- The end of an end tag: the name must be that of the innermost open element. -/
def Reader.finish (r : Reader) (n : List Char) : Option Reader :=
  match r.stack with
  | [] => none
  | o :: os =>
    if o.tag.name = n then
      Reader.add { r with mode := .text [], stack := os } (.elem n o.tag.attrs o.kids)
    else none

/-- Read one character. -/
def Reader.char (r : Reader) (x : Char) : Option Reader :=
  match r.mode with
  | .text s =>
    if x = '<' then (r.add (.text s)).map fun r => { r with mode := .lt }
    else if x = '&' then none
    else some { r with mode := .text (s ++ [x]) }
  | .lt =>
    if x = '/' then some { r with mode := .close [] }
    else if x = '?' then
      if r.stack.isEmpty && r.top.isEmpty then some { r with mode := .decl false } else none
    else if nameChar x then some { r with mode := .name [x] }
    else none
  | .decl q =>
    if x = '>' then (if q then some { r with mode := .text [] } else none)
    else if x = '<' then none
    else some { r with mode := .decl (x == '?') }
  | .name n =>
    if x = '>' then r.start ⟨n, []⟩
    else if blank x then some { r with mode := .gap ⟨n, []⟩ }
    else if nameChar x then some { r with mode := .name (n ++ [x]) }
    else none
  | .gap t =>
    if x = '>' then r.start t
    else if blank x then some r
    else if nameChar x then some { r with mode := .attr t [x] }
    else none
  | .attr t a =>
    if x = '=' then some { r with mode := .eq t a }
    else if nameChar x then some { r with mode := .attr t (a ++ [x]) }
    else none
  | .eq t a => if x = '"' then some { r with mode := .val t a [] } else none
  | .val t a v =>
    if x = '"' then
      if t.attrs.any (fun p => p.1 == a) then none
      else some { r with mode := .next { t with attrs := t.attrs ++ [(a, v)] } }
    else if x = '<' ∨ x = '&' then none
    else some { r with mode := .val t a (v ++ [x]) }
  | .next t =>
    if x = '>' then r.start t
    else if blank x then some { r with mode := .gap t }
    else none
  | .close n =>
    if x = '>' then r.finish n
    else if nameChar x then some { r with mode := .close (n ++ [x]) }
    else none

/-- Read a text from a state. -/
def Reader.chars (r : Reader) : List Char → Option Reader
  | [] => some r
  | x :: l => (r.char x).bind fun r => r.chars l

/-- Read a document: one element, and around it nothing but the declaration and white space. -/
def readXml (l : List Char) : Option Xml :=
  match (Reader.mk (.text []) [] []).chars l with
  | some ⟨.text s, [], [x]⟩ => if s.all blank then some x else none
  | _ => none

/-! ## Looking into a document -/

/-- The name of an element. -/
def Xml.name : Xml → List Char
  | .elem n _ _ => n
  | .text _ => []

/-- The elements directly in an element. -/
def Xml.elems : Xml → List Xml
  | .elem _ _ k => k.filter fun x => match x with | .elem _ _ _ => true | .text _ => false
  | .text _ => []

/-- The text directly in an element. -/
def Xml.chars : Xml → List Char
  | .elem _ _ k => k.flatMap fun x => match x with | .elem _ _ _ => [] | .text s => s
  | .text s => s

/-- The value of an attribute. -/
def Xml.attr (x : Xml) (a : String) : Option (List Char) :=
  match x with
  | .elem _ l _ => l.lookup a.toList
  | .text _ => none

/-- The words of a text, separated by white space. -/
def words (l : List Char) : List (List Char) := (l.splitOnP blank).filter fun w => !w.isEmpty

/-- The digit of a character. -/
def digitOf (x : Char) : Option Nat :=
  if '0' ≤ x ∧ x ≤ '9' then some (x.toNat - '0'.toNat) else none

/-- The number written in decimal digits; nothing for the empty text. -/
def readNat : List Char → Option Nat
  | [] => none
  | l => l.foldlM (fun n x => (digitOf x).map fun d => n * 10 + d) 0

end Verif.Spec
