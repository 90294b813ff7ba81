import Verif.Lemmas.XmlVtu

/-! # The arrays in a VTU file -/

namespace Verif
open Spec

variable {α : Type} {fmt : α → List Char}

theorem arrayElem_array (type name t : List Char) {comps : List Char} {k : Nat}
    (h : readNat comps = some k) :
    Xml.array (arrayElem type name comps t) = some ⟨name, type, k, words t⟩ := by
  have e1 : (arrayElem type name comps t).attr "NumberOfComponents" = some comps := rfl
  have e2 : (arrayElem type name comps t).chars = t := by
    show t ++ [] = t
    simp
  unfold Xml.array
  rw [if_pos ⟨rfl, rfl, rfl⟩, e1, e2]
  show (some name).bind (fun n => (some type).bind fun ty => ((some comps).bind readNat).bind
    fun k => some (Arr.mk n ty k (words t))) = _
  rw [Option.bind_some, Option.bind_some, Option.bind_some, h, Option.bind_some]

theorem words_data (hf : Fmt fmt) {D : List (Tok α)} (h : Spaced D) :
    words (textOf fmt (.endl :: D)) = (D.filter fun t => !isSep t).map (Tok.text fmt) := by
  rw [words_spaced hf (.sep rfl h)]
  rfl

/-- The arrays of the document. -/
theorem vtuDoc_vtk (np nc nv : Nat) (t1 t2 t3 t4 t5 t6 t7 t8 t9 t10 t11 : List Char) :
    (vtuDoc np nc nv t1 t2 t3 t4 t5 t6 t7 t8 t9 t10 t11).vtk = some
      { nPoints := np, nCells := nc
        points := [⟨"Position".toList, "Float32".toList, 3, words t1⟩]
        cells := [⟨"connectivity".toList, "Int32".toList, 1, words t2⟩,
          ⟨"offsets".toList, "Int32".toList, 1, words t3⟩,
          ⟨"types".toList, "UInt8".toList, 1, words t4⟩]
        pointData := [⟨"displ".toList, "Float64".toList, 3, words t5⟩,
          ⟨"b".toList, "Float64".toList, 3, words t6⟩]
        cellData := [⟨"strain".toList, "Float64".toList, nv, words t7⟩,
          ⟨"stress".toList, "Float64".toList, nv, words t8⟩,
          ⟨"elem_type".toList, "Int32".toList, 1, words t9⟩,
          ⟨"plasticity".toList, "Float64".toList, 1, words t10⟩,
          ⟨"hardening".toList, "Float64".toList, 1, words t11⟩] } := by
  have h1 : readNat "1".toList = some 1 := rfl
  have h3 : readNat "3".toList = some 3 := rfl
  have hm : ∀ (x : Xml) (l : List Xml), (x :: l).mapM Xml.array
      = (Xml.array x).bind fun a => (l.mapM Xml.array).bind fun as => some (a :: as) := by
    intro x l; rw [List.mapM_cons]; rfl
  have hn : ([] : List Xml).mapM Xml.array = some [] := rfl
  have q1 : [arrayElem "Float32".toList "Position".toList "3".toList t1].mapM Xml.array
      = some [⟨"Position".toList, "Float32".toList, 3, words t1⟩] := by
    rw [hm, arrayElem_array _ _ _ h3, hn]; rfl
  have q2 : [arrayElem "Int32".toList "connectivity".toList "1".toList t2,
      arrayElem "Int32".toList "offsets".toList "1".toList t3,
      arrayElem "UInt8".toList "types".toList "1".toList t4].mapM Xml.array
      = some [⟨"connectivity".toList, "Int32".toList, 1, words t2⟩,
          ⟨"offsets".toList, "Int32".toList, 1, words t3⟩,
          ⟨"types".toList, "UInt8".toList, 1, words t4⟩] := by
    rw [hm, arrayElem_array _ _ _ h1, hm, arrayElem_array _ _ _ h1, hm, arrayElem_array _ _ _ h1, hn]; rfl
  have q3 : [arrayElem "Float64".toList "displ".toList "3".toList t5,
      arrayElem "Float64".toList "b".toList "3".toList t6].mapM Xml.array
      = some [⟨"displ".toList, "Float64".toList, 3, words t5⟩,
          ⟨"b".toList, "Float64".toList, 3, words t6⟩] := by
    rw [hm, arrayElem_array _ _ _ h3, hm, arrayElem_array _ _ _ h3, hn]; rfl
  have q4 : [arrayElem "Float64".toList "strain".toList (decNat nv) t7,
      arrayElem "Float64".toList "stress".toList (decNat nv) t8,
      arrayElem "Int32".toList "elem_type".toList "1".toList t9,
      arrayElem "Float64".toList "plasticity".toList "1".toList t10,
      arrayElem "Float64".toList "hardening".toList "1".toList t11].mapM Xml.array
      = some [⟨"strain".toList, "Float64".toList, nv, words t7⟩,
          ⟨"stress".toList, "Float64".toList, nv, words t8⟩,
          ⟨"elem_type".toList, "Int32".toList, 1, words t9⟩,
          ⟨"plasticity".toList, "Float64".toList, 1, words t10⟩,
          ⟨"hardening".toList, "Float64".toList, 1, words t11⟩] := by
    rw [hm, arrayElem_array _ _ _ (readNat_dec nv), hm, arrayElem_array _ _ _ (readNat_dec nv), hm,
      arrayElem_array _ _ _ h1, hm, arrayElem_array _ _ _ h1, hm, arrayElem_array _ _ _ h1, hn]
    rfl
  unfold Xml.vtk
  rw [if_pos ⟨rfl, rfl⟩]
  show ((some (decNat np)).bind readNat).bind (fun a => ((some (decNat nc)).bind readNat).bind fun b =>
      (List.mapM Xml.array [arrayElem "Float32".toList "Position".toList "3".toList t1]).bind fun p =>
      (List.mapM Xml.array [arrayElem "Int32".toList "connectivity".toList "1".toList t2,
      arrayElem "Int32".toList "offsets".toList "1".toList t3,
      arrayElem "UInt8".toList "types".toList "1".toList t4]).bind fun q =>
      (List.mapM Xml.array [arrayElem "Float64".toList "displ".toList "3".toList t5,
      arrayElem "Float64".toList "b".toList "3".toList t6]).bind fun r =>
      (List.mapM Xml.array [arrayElem "Float64".toList "strain".toList (decNat nv) t7,
      arrayElem "Float64".toList "stress".toList (decNat nv) t8,
      arrayElem "Int32".toList "elem_type".toList "1".toList t9,
      arrayElem "Float64".toList "plasticity".toList "1".toList t10,
      arrayElem "Float64".toList "hardening".toList "1".toList t11]).bind fun s =>
        some (Vtk.mk a b p q r s)) = _
  rw [q1, q2, q3, q4, Option.bind_some, Option.bind_some, readNat_dec, readNat_dec]
  rfl

/-! ## The file the model writes -/

variable [Scalar α] {c : Cfg α}

theorem spaced_points : Spaced (vtuPoints c) := by
  unfold vtuPoints
  split
  · exact Spaced.emitP fun j => Spaced.emitP fun i => .num rfl (.num rfl (.zero rfl .nil))
  split
  · exact Spaced.emitP fun k => Spaced.emitP fun j => Spaced.emitP fun i =>
      .num rfl (.num rfl (.num rfl .nil))
  · exact .nil

theorem spaced_cells : Spaced (vtuCells c) := by
  unfold vtuCells
  split
  · exact Spaced.emitP fun j => Spaced.emitP fun i =>
      (Spaced.emitP fun k => .int rfl .nil).append (.sep rfl .nil)
  split
  · exact Spaced.emitP fun l => Spaced.emitP fun j => Spaced.emitP fun i =>
      (Spaced.emitP fun k => .int rfl .nil).append (.sep rfl .nil)
  · exact .nil

theorem spaced_offsets : Spaced (vtuOffsets c) := by
  rw [vtuOffsets_eq]
  exact Spaced.emitP fun e => .int rfl .nil

theorem spaced_types : Spaced (vtuTypes c) := by
  unfold vtuTypes
  refine Spaced.emitP fun i => ?_
  split
  · exact .int rfl .nil
  split
  · exact .int rfl .nil
  · exact .nil

theorem spaced_nodal {p : Nat → α} : Spaced (nodalP c p) := by
  unfold nodalP
  refine Spaced.emitP fun n => ?_
  split
  · exact .num rfl (.num rfl (.zero rfl .nil))
  split
  · exact .num rfl (.num rfl (.num rfl .nil))
  · exact .nil

theorem spaced_elem {p : Nat → α} : Spaced (elemP c p) :=
  Spaced.emitP fun e => (Spaced.emitP fun v => .num rfl .nil).append (.sep rfl .nil)

/-- The text of the file is read back: the arrays in it are the sections of the list of tokens. -/
theorem writeVtu_read (hf : Fmt fmt) (hc : c.Ok) {w : Work α} (hw : w.Ok c) {ts : List (Tok α)}
    (h : writeVtu c w = .ok ts) :
    readVtu (textOf fmt ts) = some
      { nPoints := c.nn, nCells := c.nelem
        points := [⟨"Position".toList, "Float32".toList, 3, (dataOf hPosition ts).map (Tok.text fmt)⟩]
        cells := [
          ⟨"connectivity".toList, "Int32".toList, 1, (dataOf hConnectivity ts).map (Tok.text fmt)⟩,
          ⟨"offsets".toList, "Int32".toList, 1, (dataOf hOffsets ts).map (Tok.text fmt)⟩,
          ⟨"types".toList, "UInt8".toList, 1, (dataOf hTypes ts).map (Tok.text fmt)⟩]
        pointData := [⟨"displ".toList, "Float64".toList, 3, (dataOf hDispl ts).map (Tok.text fmt)⟩,
          ⟨"b".toList, "Float64".toList, 3, (dataOf hB ts).map (Tok.text fmt)⟩]
        cellData := [
          ⟨"strain".toList, "Float64".toList, c.nvoi, (dataOf hStrain ts).map (Tok.text fmt)⟩,
          ⟨"stress".toList, "Float64".toList, c.nvoi, (dataOf hStress ts).map (Tok.text fmt)⟩,
          ⟨"elem_type".toList, "Int32".toList, 1, (dataOf hElemType ts).map (Tok.text fmt)⟩,
          ⟨"plasticity".toList, "Float64".toList, 1, (dataOf hPlasticity ts).map (Tok.text fmt)⟩,
          ⟨"hardening".toList, "Float64".toList, 1, (dataOf hHardening ts).map (Tok.text fmt)⟩] } := by
  obtain ⟨ts', h', S⟩ := writeVtu_sections hc hw
  rw [h] at h'
  cases h'
  rw [S.points, S.cells, S.offsets, S.types, S.displ, S.b, S.strain, S.stress, S.elemType, S.plasticity,
    S.hardening]
  unfold writeVtu at h
  rw [vtuNodal_eq hc.dim hw.u, M_bind_ok', vtuNodal_eq hc.dim hw.b, M_bind_ok',
    vtuElem_eq hw.elemStrain, M_bind_ok', vtuElem_eq hw.elemStress, M_bind_ok',
    vtuElemType_eq hc.elem, M_bind_ok', vtuPlasticity_eq hw.varsOld, M_bind_ok',
    vtuHardening_eq hw.varsOld, M_bind_ok'] at h
  have hE : ∀ D : List (Tok α), Spaced D → Spaced (D ++ [.endl]) := fun D hD => hD.append (.sep rfl .nil)
  have hw' : ∀ D : List (Tok α), ((D ++ [Tok.endl]).filter fun t => !isSep t)
      = D.filter fun t => !isSep t := by
    intro D; rw [List.filter_append]; exact List.append_nil _
  have ht : ts = vtuFile c.nn c.nelem c.nvoi (vtuPoints c) (vtuCells c) (vtuOffsets c ++ [.endl])
      (vtuTypes c ++ [.endl]) (nodalP c w.u.val) (nodalP c w.b.val) (elemP c w.elemStrain.val)
      (elemP c w.elemStress.val) (elemTypeP c ++ [.endl]) (plasticityP c w.varsOld ++ [.endl])
      (hardeningP c w.varsOld ++ [.endl]) := by
    rw [← (pure_ok_iff.1 h)]
    unfold vtuFile
    simp only [List.append_assoc, List.cons_append, List.nil_append]
  have s9 : Spaced (elemTypeP c) := Spaced.emitP fun e => .int rfl .nil
  have s10 : Spaced (plasticityP c w.varsOld) := Spaced.emitP fun e => .num rfl .nil
  have s11 : Spaced (hardeningP c w.varsOld) := Spaced.emitP fun e => .num rfl .nil
  unfold readVtu
  rw [ht, vtu_read hf spaced_points spaced_cells (hE _ spaced_offsets) (hE _ spaced_types) spaced_nodal
    spaced_nodal spaced_elem spaced_elem (hE _ s9) (hE _ s10) (hE _ s11), Option.bind_some, vtuDoc_vtk,
    words_data hf spaced_points, words_data hf spaced_cells, words_data hf (hE _ spaced_offsets),
    words_data hf (hE _ spaced_types), words_data hf spaced_nodal, words_data hf spaced_nodal,
    words_data hf spaced_elem, words_data hf spaced_elem, words_data hf (hE _ s9),
    words_data hf (hE _ s10), words_data hf (hE _ s11)]
  simp only [hw']

end Verif
