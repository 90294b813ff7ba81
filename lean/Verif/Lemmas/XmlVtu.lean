import Verif.Lemmas.Xml

/-! # The document in a VTU file -/

namespace Verif
open Spec

variable {α : Type} {fmt : α → List Char}

/-- The tokens of a file with the given numbers and data. -/
def vtuFile (np nc nv : Nat) (D1 D2 D3 D4 D5 D6 D7 D8 D9 D10 D11 : List (Tok α)) : List (Tok α) :=
  [.str "<?xml version=\"1.0\"?>", .endl,
     .str "<VTKFile type=\"UnstructuredGrid\" version=\"0.1\" byte_order=\"LittleEndian\">", .endl,
     .str "<UnstructuredGrid>", .endl, .str "<Piece NumberOfPoints=\""] ++
  ([.int np] ++ ([.str "\" NumberOfCells=\""] ++ ([.int nc] ++
  ([.str "\">", .endl, .str "<Points>", .endl] ++
  ([.str "<DataArray type=\"Float32\" Name=\"Position\" NumberOfComponents=\"3\" format=\"ascii\">"] ++
  ((.endl :: D1) ++ .str "</DataArray>" ::
  ([.endl, .str "</Points>", .endl, .str "<Cells>", .endl] ++
  ([.str "<DataArray type=\"Int32\" Name=\"connectivity\" NumberOfComponents=\"1\" format=\"ascii\">"] ++
  ((.endl :: D2) ++ .str "</DataArray>" ::
  ([.endl] ++
  ([.str "<DataArray type=\"Int32\" Name=\"offsets\" NumberOfComponents=\"1\" format=\"ascii\">"] ++
  ((.endl :: D3) ++ .str "</DataArray>" ::
  ([.endl] ++
  ([.str "<DataArray type=\"UInt8\"  Name=\"types\" NumberOfComponents=\"1\" format=\"ascii\">"] ++
  ((.endl :: D4) ++ .str "</DataArray>" ::
  ([.endl, .str "</Cells>", .endl, .str "<PointData Vectors=\"displ,b\" >>", .endl] ++
  ([.str "<DataArray type=\"Float64\" Name=\"displ\" NumberOfComponents=\"3\" format=\"ascii\" >"] ++
  ((.endl :: D5) ++ .str "</DataArray>" ::
  ([.endl] ++
  ([.str "<DataArray type=\"Float64\" Name=\"b\" NumberOfComponents=\"3\" format=\"ascii\" >"] ++
  ((.endl :: D6) ++ .str "</DataArray>" ::
  ([.endl, .str "</PointData>", .endl, .str "<CellData>", .endl] ++
  ([.str "<DataArray type=\"Float64\" Name=\"strain\" NumberOfComponents=\"", .int nv,
    .str "\" format=\"ascii\">"] ++
  ((.endl :: D7) ++ .str "</DataArray>" ::
  ([.str "<DataArray type=\"Float64\" Name=\"stress\" NumberOfComponents=\"", .int nv,
    .str "\" format=\"ascii\">"] ++
  ((.endl :: D8) ++ .str "</DataArray>" ::
  ([.str "<DataArray type=\"Int32\" Name=\"elem_type\" NumberOfComponents=\"1\" format=\"ascii\">"] ++
  ((.endl :: D9) ++ .str "</DataArray>" ::
  ([.endl] ++
  ([.str "<DataArray type=\"Float64\" Name=\"plasticity\" NumberOfComponents=\"1\" format=\"ascii\">"] ++
  ((.endl :: D10) ++ .str "</DataArray>" ::
  ([.endl] ++
  ([.str "<DataArray type=\"Float64\" Name=\"hardening\" NumberOfComponents=\"1\" format=\"ascii\">"] ++
  ((.endl :: D11) ++ .str "</DataArray>" ::
  ([.endl, .str "</CellData>", .endl, .str "</Piece>", .endl, .str "</UnstructuredGrid>", .endl,
    .str "</VTKFile>", .endl])))))))))))))))))))))))))))))))))))

/-- A line end as text. -/
def nl : Xml := .text ['\n']

/-- The document in such a file; the arguments after the numbers are the texts of the arrays. -/
def vtuDoc (np nc nv : Nat) (t1 t2 t3 t4 t5 t6 t7 t8 t9 t10 t11 : List Char) : Xml :=
  .elem "VTKFile".toList [("type".toList, "UnstructuredGrid".toList), ("version".toList, "0.1".toList),
      ("byte_order".toList, "LittleEndian".toList)]
    [nl, .elem "UnstructuredGrid".toList []
      [nl, .elem "Piece".toList [("NumberOfPoints".toList, decNat np), ("NumberOfCells".toList, decNat nc)]
        [nl, .elem "Points".toList []
          [nl, arrayElem "Float32".toList "Position".toList "3".toList t1, nl],
         nl, .elem "Cells".toList []
          [nl, arrayElem "Int32".toList "connectivity".toList "1".toList t2,
           nl, arrayElem "Int32".toList "offsets".toList "1".toList t3,
           nl, arrayElem "UInt8".toList "types".toList "1".toList t4, nl],
         nl, .elem "PointData".toList [("Vectors".toList, "displ,b".toList)]
          [.text ['>', '\n'], arrayElem "Float64".toList "displ".toList "3".toList t5,
           nl, arrayElem "Float64".toList "b".toList "3".toList t6, nl],
         nl, .elem "CellData".toList []
          [nl, arrayElem "Float64".toList "strain".toList (decNat nv) t7,
           .text [], arrayElem "Float64".toList "stress".toList (decNat nv) t8,
           .text [], arrayElem "Int32".toList "elem_type".toList "1".toList t9,
           nl, arrayElem "Float64".toList "plasticity".toList "1".toList t10,
           nl, arrayElem "Float64".toList "hardening".toList "1".toList t11, nl],
         nl], nl], nl]

theorem isArray_nv (hdr name : String) (nv : Nat)
    (h : ∀ (s : List Char) (o : Open) (os : List Open) (top : List Xml),
      Reader.chars ⟨.text s, o :: os, top⟩ hdr.toList
      = some ⟨.val ⟨"DataArray".toList, [("type".toList, "Float64".toList), ("Name".toList, name.toList)]⟩
        "NumberOfComponents".toList [], { o with kids := o.kids ++ [.text s] } :: os, top⟩) :
    IsArray fmt [.str hdr, .int nv, .str "\" format=\"ascii\">"] "Float64".toList name.toList
      (decNat nv) := by
  intro s o os top
  rw [textOf_cons, chars_append]
  rw [show Tok.text fmt (.str hdr) = hdr.toList from rfl, h, Option.bind_some, textOf_cons, chars_append,
    show Tok.text fmt (.int (nv : Nat)) = decNat nv from rfl, chars_int, Option.bind_some]
  rfl

set_option maxRecDepth 10000 in
/-- The file is read as the document. -/
theorem vtu_read (hf : Fmt fmt) {np nc nv : Nat} {D1 D2 D3 D4 D5 D6 D7 D8 D9 D10 D11 : List (Tok α)}
    (h1 : Spaced D1) (h2 : Spaced D2) (h3 : Spaced D3) (h4 : Spaced D4) (h5 : Spaced D5)
    (h6 : Spaced D6) (h7 : Spaced D7) (h8 : Spaced D8) (h9 : Spaced D9) (h10 : Spaced D10)
    (h11 : Spaced D11) :
    readXml (textOf fmt (vtuFile np nc nv D1 D2 D3 D4 D5 D6 D7 D8 D9 D10 D11))
      = some (vtuDoc np nc nv (textOf fmt (.endl :: D1)) (textOf fmt (.endl :: D2))
        (textOf fmt (.endl :: D3)) (textOf fmt (.endl :: D4)) (textOf fmt (.endl :: D5))
        (textOf fmt (.endl :: D6)) (textOf fmt (.endl :: D7)) (textOf fmt (.endl :: D8))
        (textOf fmt (.endl :: D9)) (textOf fmt (.endl :: D10)) (textOf fmt (.endl :: D11))) := by
  have hs : ∀ D : List (Tok α), Spaced D → Spaced (.endl :: D) := fun D h => .sep rfl h
  have r1 : Reader.chars ⟨.text [], [], []⟩ (textOf fmt (
      [.str "<?xml version=\"1.0\"?>", .endl,
     .str "<VTKFile type=\"UnstructuredGrid\" version=\"0.1\" byte_order=\"LittleEndian\">", .endl,
     .str "<UnstructuredGrid>", .endl, .str "<Piece NumberOfPoints=\""] : List (Tok α)))
    = some ⟨.val ⟨"Piece".toList, []⟩ "NumberOfPoints".toList [],
      [⟨⟨"UnstructuredGrid".toList, []⟩, [nl]⟩,
       ⟨⟨"VTKFile".toList, [("type".toList, "UnstructuredGrid".toList), ("version".toList, "0.1".toList),
      ("byte_order".toList, "LittleEndian".toList)]⟩, [nl]⟩], []⟩ := rfl
  have ri : ∀ (t : Tag) (a : List Char) (st : List Open) (top : List Xml) (n : Nat),
      Reader.chars ⟨.val t a [], st, top⟩ (textOf fmt ([.int (n : Nat)] : List (Tok α)))
        = some ⟨.val t a (decNat n), st, top⟩ := by
    intro t a st top n
    rw [textOf_cons, textOf_nil, List.append_nil]
    exact chars_int n
  have r2 : ∀ (v : List Char) (st : List Open) (top : List Xml),
      Reader.chars ⟨.val ⟨"Piece".toList, []⟩ "NumberOfPoints".toList v, st, top⟩
        (textOf fmt ([.str "\" NumberOfCells=\""] : List (Tok α)))
      = some ⟨.val ⟨"Piece".toList, [("NumberOfPoints".toList, v)]⟩ "NumberOfCells".toList [], st, top⟩ :=
    fun _ _ _ => rfl
  have r3 : ∀ (a : List (List Char × List Char)) (v : List Char) (o : Open) (os : List Open)
      (top : List Xml), a.any (fun p => p.1 == "NumberOfCells".toList) = false →
      Reader.chars ⟨.val ⟨"Piece".toList, a⟩ "NumberOfCells".toList v, o :: os, top⟩
        (textOf fmt ([.str "\">", .endl, .str "<Points>", .endl] : List (Tok α)))
      = some ⟨.text ['\n'], ⟨⟨"Points".toList, []⟩, []⟩ ::
        ⟨⟨"Piece".toList, a ++ [("NumberOfCells".toList, v)]⟩, [nl]⟩ :: o :: os, top⟩ := by
    intro a v o os top ha
    have e : Reader.char ⟨.val ⟨"Piece".toList, a⟩ "NumberOfCells".toList v, o :: os, top⟩ '"'
        = some ⟨.next ⟨"Piece".toList, a ++ [("NumberOfCells".toList, v)]⟩, o :: os, top⟩ := by
      show (if a.any (fun p => p.1 == "NumberOfCells".toList) = true then none else _) = _
      rw [ha]; rfl
    rw [show textOf fmt ([.str "\">", .endl, .str "<Points>", .endl] : List (Tok α))
      = '"' :: textOf fmt ([.str ">", .endl, .str "<Points>", .endl] : List (Tok α)) from rfl,
      Reader.chars, e]
    rfl
  have g1 : ∀ (k : List Xml) (p : Open) (os : List Open) (top : List Xml),
      Reader.chars ⟨.text [], ⟨⟨"Points".toList, []⟩, k⟩ :: p :: os, top⟩
        (textOf fmt ([.endl, .str "</Points>", .endl, .str "<Cells>", .endl] : List (Tok α)))
      = some ⟨.text ['\n'], ⟨⟨"Cells".toList, []⟩, []⟩ ::
        ⟨p.tag, p.kids ++ [.elem "Points".toList [] (k ++ [nl])] ++ [nl]⟩ :: os, top⟩ := fun _ _ _ _ => rfl
  have g0 : ∀ (o : Open) (os : List Open) (top : List Xml),
      Reader.chars ⟨.text [], o :: os, top⟩ (textOf fmt ([.endl] : List (Tok α)))
      = some ⟨.text ['\n'], o :: os, top⟩ := fun _ _ _ => rfl
  have g2 : ∀ (k : List Xml) (p : Open) (os : List Open) (top : List Xml),
      Reader.chars ⟨.text [], ⟨⟨"Cells".toList, []⟩, k⟩ :: p :: os, top⟩
        (textOf fmt ([.endl, .str "</Cells>", .endl, .str "<PointData Vectors=\"displ,b\" >>", .endl] :
          List (Tok α)))
      = some ⟨.text ['>', '\n'], ⟨⟨"PointData".toList, [("Vectors".toList, "displ,b".toList)]⟩, []⟩ ::
        ⟨p.tag, p.kids ++ [.elem "Cells".toList [] (k ++ [nl])] ++ [nl]⟩ :: os, top⟩ := fun _ _ _ _ => rfl
  have g3 : ∀ (as : List (List Char × List Char)) (k : List Xml) (p : Open) (os : List Open)
      (top : List Xml), Reader.chars ⟨.text [], ⟨⟨"PointData".toList, as⟩, k⟩ :: p :: os, top⟩
        (textOf fmt ([.endl, .str "</PointData>", .endl, .str "<CellData>", .endl] : List (Tok α)))
      = some ⟨.text ['\n'], ⟨⟨"CellData".toList, []⟩, []⟩ ::
        ⟨p.tag, p.kids ++ [.elem "PointData".toList as (k ++ [nl])] ++ [nl]⟩ :: os, top⟩ :=
    fun _ _ _ _ _ => rfl
  have g4 : ∀ (k k1 k2 k3 : List Xml) (a1 a3 : List (List Char × List Char)),
      Reader.chars ⟨.text [], [⟨⟨"CellData".toList, []⟩, k⟩, ⟨⟨"Piece".toList, a1⟩, k1⟩,
          ⟨⟨"UnstructuredGrid".toList, []⟩, k2⟩, ⟨⟨"VTKFile".toList, a3⟩, k3⟩], []⟩
        (textOf fmt ([.endl, .str "</CellData>", .endl, .str "</Piece>", .endl, .str "</UnstructuredGrid>",
          .endl, .str "</VTKFile>", .endl] : List (Tok α)))
      = some ⟨.text ['\n'], [], [.elem "VTKFile".toList a3 (k3 ++ [.elem "UnstructuredGrid".toList []
          (k2 ++ [.elem "Piece".toList a1 (k1 ++ [.elem "CellData".toList [] (k ++ [nl])] ++ [nl])]
            ++ [nl])] ++ [nl])]⟩ := fun _ _ _ _ _ _ => rfl
  have key : Reader.chars ⟨.text [], [], []⟩
      (textOf fmt (vtuFile np nc nv D1 D2 D3 D4 D5 D6 D7 D8 D9 D10 D11))
      = some ⟨.text ['\n'], [], [vtuDoc np nc nv (textOf fmt (.endl :: D1)) (textOf fmt (.endl :: D2))
        (textOf fmt (.endl :: D3)) (textOf fmt (.endl :: D4)) (textOf fmt (.endl :: D5))
        (textOf fmt (.endl :: D6)) (textOf fmt (.endl :: D7)) (textOf fmt (.endl :: D8))
        (textOf fmt (.endl :: D9)) (textOf fmt (.endl :: D10)) (textOf fmt (.endl :: D11))]⟩ := by
    unfold vtuFile
    rw [toks_append, r1, Option.bind_some, toks_append, ri, Option.bind_some, toks_append, r2,
      Option.bind_some, toks_append, ri, Option.bind_some, toks_append, r3 _ _ _ _ _ rfl,
      Option.bind_some,
      array_read hf (type := "Float32".toList) (name := "Position".toList) (comps := "3".toList)
        (fun _ _ _ _ => rfl) (hs _ h1), toks_append, g1, Option.bind_some,
      array_read hf (type := "Int32".toList) (name := "connectivity".toList) (comps := "1".toList)
        (fun _ _ _ _ => rfl) (hs _ h2), toks_append, g0, Option.bind_some,
      array_read hf (type := "Int32".toList) (name := "offsets".toList) (comps := "1".toList)
        (fun _ _ _ _ => rfl) (hs _ h3), toks_append, g0, Option.bind_some,
      array_read hf (type := "UInt8".toList) (name := "types".toList) (comps := "1".toList)
        (fun _ _ _ _ => rfl) (hs _ h4), toks_append, g2, Option.bind_some,
      array_read hf (type := "Float64".toList) (name := "displ".toList) (comps := "3".toList)
        (fun _ _ _ _ => rfl) (hs _ h5), toks_append, g0, Option.bind_some,
      array_read hf (type := "Float64".toList) (name := "b".toList) (comps := "3".toList)
        (fun _ _ _ _ => rfl) (hs _ h6), toks_append, g3, Option.bind_some,
      array_read hf (isArray_nv
        "<DataArray type=\"Float64\" Name=\"strain\" NumberOfComponents=\"" "strain" nv fun _ _ _ _ => rfl) (hs _ h7),
      array_read hf (isArray_nv
        "<DataArray type=\"Float64\" Name=\"stress\" NumberOfComponents=\"" "stress" nv fun _ _ _ _ => rfl) (hs _ h8),
      array_read hf (type := "Int32".toList) (name := "elem_type".toList) (comps := "1".toList)
        (fun _ _ _ _ => rfl) (hs _ h9), toks_append, g0, Option.bind_some,
      array_read hf (type := "Float64".toList) (name := "plasticity".toList) (comps := "1".toList)
        (fun _ _ _ _ => rfl) (hs _ h10), toks_append, g0, Option.bind_some,
      array_read hf (type := "Float64".toList) (name := "hardening".toList) (comps := "1".toList)
        (fun _ _ _ _ => rfl) (hs _ h11), g4]
    rfl
  unfold readXml
  rw [key]
  rfl

end Verif
