import Verif.Lemmas.XmlRead
import Verif.Props.Vtu

/-!
# C84: the text of the VTU file

The characters of the file are read by the reader of `Verif.Spec.Xml` and `Verif.Spec.VtuText`, which
knows nothing of the writer.
-/

namespace Verif.Props
open Verif Spec

section
variable {α : Type} [Scalar α]

/-- The arrays hold as many entries as announced, and the entries are those of the grid `c` and the data
`w`. -/
structure TextOf (c : Cfg α) (w : Work α) (fmt : α → List Char)
    (pos conn off typ displ b strain stress types plast hard : List (List Char)) : Prop where
  /-- three coordinates per node, in the order of the nodes -/
  points : pos.length = c.nn * 3
  point : ∀ i j k, i < c.nx → j < c.ny → k < c.nz →
    pos[node3 c.nx c.ny i j k * 3]? = some (fmt ((i : α) * c.dx)) ∧
    pos[node3 c.nx c.ny i j k * 3 + 1]? = some (fmt ((j : α) * c.dy)) ∧
    pos[node3 c.nx c.ny i j k * 3 + 2]? =
      some (if c.dim = 2 then ['0', '.', '0'] else fmt ((k : α) * c.dz))
  /-- the numbers of the corners of each element -/
  cells : conn.length = c.nelem * c.npe
  cell : ∀ ex ey ez q, ex < c.nx - 1 → ey < c.ny - 1 → ez < layers c → q < c.npe →
    (conn[gloElem3D c.nx c.ny ex ey ez * c.npe + q]?).bind readNat = some (corner c ex ey ez q) ∧
      corner c ex ey ez q < c.nn
  /-- the end of each element in that list -/
  offsets : off.length = c.nelem
  offset : ∀ e, e < c.nelem → (off[e]?).bind readNat = some ((e + 1) * c.npe)
  /-- quadrilaterals or hexahedra -/
  shapes : typ.length = c.nelem
  shape : ∀ e, e < c.nelem → (typ[e]?).bind readNat = some (if c.dim = 2 then 9 else 12)
  /-- displacement and right hand side, three components per node -/
  displs : displ.length = c.nn * 3
  displ : ∀ n r, n < c.nn → r < 3 → displ[n * 3 + r]?
    = some (if r < c.dim then fmt (w.u.val (n * c.dim + r)) else ['0', '.', '0'])
  bs : b.length = c.nn * 3
  b : ∀ n r, n < c.nn → r < 3 → b[n * 3 + r]?
    = some (if r < c.dim then fmt (w.b.val (n * c.dim + r)) else ['0', '.', '0'])
  /-- strain and stress per element -/
  strains : strain.length = c.nelem * c.nvoi
  strain : ∀ e v, e < c.nelem → v < c.nvoi →
    strain[e * c.nvoi + v]? = some (fmt (w.elemStrain.val (e * c.nvoi + v)))
  stresses : stress.length = c.nelem * c.nvoi
  stress : ∀ e v, e < c.nelem → v < c.nvoi →
    stress[e * c.nvoi + v]? = some (fmt (w.elemStress.val (e * c.nvoi + v)))
  /-- one entry per element -/
  elemTypes : types.length = c.nelem
  elemType : ∀ e, e < c.nelem → types[e]? = some (decInt (c.elemType.val e))
  plasticity : plast.length = c.nelem
  hardening : hard.length = c.nelem

theorem text_map {ts : List (Tok α)} {fmt : α → List Char} {k : Nat} {t : Tok α} (h : ts[k]? = some t) :
    (ts.map (Tok.text fmt))[k]? = some (Tok.text fmt t) := by
  rw [List.getElem?_map, h]; rfl

theorem text_nat {ts : List (Tok α)} {fmt : α → List Char} {k n : Nat}
    (h : ts[k]? = some (.int (n : Nat))) : ((ts.map (Tok.text fmt))[k]?).bind readNat = some n := by
  rw [text_map h]
  exact readNat_dec n

theorem text_of {c : Cfg α} (hc : c.Ok) {w : Work α} {ts : List (Tok α)} (V : VtuOf c w ts)
    (fmt : α → List Char) :
    TextOf c w fmt ((dataOf hPosition ts).map (Tok.text fmt))
      ((dataOf hConnectivity ts).map (Tok.text fmt)) ((dataOf hOffsets ts).map (Tok.text fmt))
      ((dataOf hTypes ts).map (Tok.text fmt)) ((dataOf hDispl ts).map (Tok.text fmt))
      ((dataOf hB ts).map (Tok.text fmt)) ((dataOf hStrain ts).map (Tok.text fmt))
      ((dataOf hStress ts).map (Tok.text fmt)) ((dataOf hElemType ts).map (Tok.text fmt))
      ((dataOf hPlasticity ts).map (Tok.text fmt)) ((dataOf hHardening ts).map (Tok.text fmt)) where
  points := by rw [List.length_map]; exact V.points
  point := fun i j k hi hj hk => by
    obtain ⟨h1, h2, h3⟩ := V.point i j k hi hj hk
    refine ⟨text_map h1, text_map h2, ?_⟩
    rw [text_map h3]
    split <;> rfl
  cells := by rw [List.length_map]; exact V.cells
  cell := fun ex ey ez q hx hy hz hq =>
    let h := V.cell ex ey ez q hx hy hz hq
    ⟨text_nat h.1, h.2⟩
  offsets := by rw [List.length_map]; exact V.offsets
  offset := fun e he => text_nat (V.offset e he)
  shapes := by rw [List.length_map, V.types, List.length_replicate]
  shape := fun e he => by
    have h : (dataOf hTypes ts)[e]? = some (.int ((if c.dim = 2 then 9 else 12 : Nat) : Nat)) := by
      rw [V.types, List.getElem?_replicate_of_lt he]
      split <;> rfl
    exact text_nat h
  displs := by rw [List.length_map]; exact V.displs
  displ := fun n r hn hr => by rw [text_map (V.displ n r hn hr)]; split <;> rfl
  bs := by rw [List.length_map]; exact V.bs
  b := fun n r hn hr => by rw [text_map (V.b n r hn hr)]; split <;> rfl
  strains := by rw [List.length_map]; exact V.strains
  strain := fun e v he hv => text_map (V.strain e v he hv)
  stresses := by rw [List.length_map]; exact V.stresses
  stress := fun e v he hv => text_map (V.stress e v he hv)
  elemTypes := by rw [List.length_map]; exact V.elemTypes
  elemType := fun e he => text_map (V.elemType e he)
  plasticity := by rw [List.length_map]; exact V.plasticity
  hardening := by rw [List.length_map]; exact V.hardening

/-- **C84**: whatever calls have been made before and however floating point numbers are printed, when
`output` is called for a known Gauss point and returns, the file it writes is a well-formed XML
document, whose root is a `VTKFile` holding one unstructured grid in one piece.  The piece announces
the number of nodes and elements, and holds exactly the arrays below with the announced type and number
of components; split at white space, each has the announced number of entries, and they are those of
the object after the call.  For every scalar type. -/
theorem C84_text {env : Env α} {a : Args α} (ha : a.Ok) {j : Junk α} {calls : List (Call α)}
    {s : ObjFiles α} (h : Reach env a j calls s) {t id : Int} (hid : findGp id s.obj.gauss ≠ none)
    {r : Stepped α} (hr : step env s (.output t id) = .ok r) {fmt : α → List Char} (hf : Fmt fmt) :
    ∃ ts, r.state.files.vtu id t = some ts ∧
    ∃ pos conn off typ displ b strain stress types plast hard,
      readVtu (textOf fmt ts) = some
        { nPoints := r.state.obj.cfg.nn, nCells := r.state.obj.cfg.nelem
          points := [⟨"Position".toList, "Float32".toList, 3, pos⟩]
          cells := [⟨"connectivity".toList, "Int32".toList, 1, conn⟩,
            ⟨"offsets".toList, "Int32".toList, 1, off⟩, ⟨"types".toList, "UInt8".toList, 1, typ⟩]
          pointData := [⟨"displ".toList, "Float64".toList, 3, displ⟩,
            ⟨"b".toList, "Float64".toList, 3, b⟩]
          cellData := [⟨"strain".toList, "Float64".toList, r.state.obj.cfg.nvoi, strain⟩,
            ⟨"stress".toList, "Float64".toList, r.state.obj.cfg.nvoi, stress⟩,
            ⟨"elem_type".toList, "Int32".toList, 1, types⟩,
            ⟨"plasticity".toList, "Float64".toList, 1, plast⟩,
            ⟨"hardening".toList, "Float64".toList, 1, hard⟩] } ∧
      TextOf r.state.obj.cfg r.state.obj.work fmt pos conn off typ displ b strain stress types plast
        hard := by
  obtain ⟨hb, hok⟩ := reach_built ha h
  obtain ⟨g, hg⟩ := Option.ne_none_iff_exists'.1 hid
  simp only [step, bind_ok_iff, pure_ok_iff] at hr
  obtain ⟨s', hr, rfl⟩ := hr
  obtain ⟨w1, out, ts, H⟩ := output_stages hok hg hr
  obtain ⟨ts', h6, h7⟩ := writeVtu_sections hok.cfg H.work
  rw [H.written] at h6
  cases h6
  have V := sections_vtu hok.cfg h7
  have hc : s'.obj.cfg = s.obj.cfg := H.cfg
  refine ⟨ts, H.file, (dataOf hPosition ts).map (Tok.text fmt),
    (dataOf hConnectivity ts).map (Tok.text fmt), (dataOf hOffsets ts).map (Tok.text fmt),
    (dataOf hTypes ts).map (Tok.text fmt), (dataOf hDispl ts).map (Tok.text fmt),
    (dataOf hB ts).map (Tok.text fmt), (dataOf hStrain ts).map (Tok.text fmt),
    (dataOf hStress ts).map (Tok.text fmt), (dataOf hElemType ts).map (Tok.text fmt),
    (dataOf hPlasticity ts).map (Tok.text fmt), (dataOf hHardening ts).map (Tok.text fmt), ?_, ?_⟩
  · dsimp only
    rw [hc]
    exact writeVtu_read hf hok.cfg H.work H.written
  · dsimp only
    rw [hc]
    exact text_of hok.cfg V fmt

end

/-- Printing every number as `1.5` is a way of printing. -/
theorem fmt_ex : Fmt (fun _ : ℝ => "1.5".toList) where
  some := fun _ => List.cons_ne_nil '1' _
  clean := fun _ x hx => by
    have hx : x ∈ ['1', '.', '5'] := hx
    fin_cases hx <;> decide

/-- The file written for Gauss point 9 of the example of C50 is read: 36 points, 12 cells, and the last
cell has node 35 as its seventh corner. -/
example : ∃ s, Reach exEnv exArgs3 exJunk exCalls s ∧ findGp 9 s.obj.gauss ≠ none ∧
    ∃ r, step exEnv s (.output 3 9) = .ok r ∧ ∃ ts, r.state.files.vtu 9 3 = some ts ∧
      ∃ v, readVtu (textOf (fun _ => "1.5".toList) ts) = some v ∧ v.nPoints = 36 ∧ v.nCells = 12 ∧
        ∃ conn, v.cells[0]? = some ⟨"connectivity".toList, "Int32".toList, 1, conn⟩ ∧
          conn.length = 96 ∧ (conn[94]?).bind readNat = some 35 := by
  obtain ⟨s, hs⟩ := reach_exists exEnv_quick exArgs3_ok exJunk exCalls
  obtain ⟨hb, hok⟩ := reach_built exArgs3_ok hs
  obtain ⟨r, hr, -⟩ := (step_sane hok (.output 3 9)).returns exEnv_quick
  obtain ⟨ts, h1, pos, conn, off, typ, u, b, eps, sig, ty, pl, ha, h2, h3⟩ :=
    C84_text exArgs3_ok hs (ex_known hs) hr fmt_ex
  obtain ⟨et, ct, hc⟩ := hb.eq
  have hc' : r.state.obj.cfg = s.obj.cfg := step_cfg hr
  rw [hc', hc] at h2 h3
  refine ⟨s, hs, ex_known hs, r, hr, ts, h1, _, h2, ?_, ?_, conn, rfl, ?_, ?_⟩
  · simp [mkCfg, exArgs3, Cfg.nn]
  · simp [mkCfg, exArgs3, Cfg.nelem]
  · rw [h3.cells]; simp [mkCfg, exArgs3, Cfg.nelem, Cfg.npe]
  · exact (h3.cell 2 1 1 6 (by show 2 < 4 - 1; decide) (by show 1 < 3 - 1; decide)
      (by show 1 < 3 - 1; decide) (by show 6 < 8; decide)).1

end Verif.Props
