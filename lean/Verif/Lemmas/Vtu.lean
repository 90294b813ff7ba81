import Verif.Spec.Vtu
import Verif.Lemmas.Safe

/-! # The sections of a VTU file -/

namespace Verif
open Spec

variable {α : Type}

/-- The only strings in the list are `0.0` and blanks. -/
def Plain (D : List (Tok α)) : Prop := ∀ t ∈ D, ∀ s, isStr s t = true → s = "0.0" ∨ s = " "

theorem drop_plain {D R : List (Tok α)} (h : Plain D) {s : String} (hs : s ≠ "0.0")
    (hs' : s ≠ " ") :
    (D ++ R).dropWhile (fun t => !isStr s t) = R.dropWhile (fun t => !isStr s t) := by
  refine List.dropWhile_append_of_pos fun t ht => ?_
  have := h t ht s
  cases hb : isStr s t with
  | true => exact absurd (this hb) (not_or.2 ⟨hs, hs'⟩)
  | false => rfl

theorem take_plain {D R : List (Tok α)} (h : Plain D) :
    (D ++ R).takeWhile (fun t => !isStr "</DataArray>" t)
      = D ++ R.takeWhile (fun t => !isStr "</DataArray>" t) := by
  refine List.takeWhile_append_of_pos fun t ht => ?_
  have := h t ht "</DataArray>"
  cases hb : isStr "</DataArray>" t with
  | true => exact absurd (this hb) (by decide)
  | false => rfl

theorem Plain.emitP {n : Nat} {f : Nat → List (Tok α)} (h : ∀ i, Plain (f i)) : Plain (emitP n f) := by
  intro t ht
  simp only [Verif.emitP, List.mem_flatMap] at ht
  obtain ⟨i, -, hi⟩ := ht
  exact h i t hi

theorem Plain.append {a b : List (Tok α)} (ha : Plain a) (hb : Plain b) : Plain (a ++ b) := by
  intro t ht
  rcases List.mem_append.1 ht with h | h
  · exact ha t h
  · exact hb t h

theorem Plain.nil : Plain ([] : List (Tok α)) := by intro t ht; cases ht

theorem Plain.cons {t : Tok α} {l : List (Tok α)} (ht : ∀ s, isStr s t = true → s = "0.0" ∨ s = " ")
    (hl : Plain l) : Plain (t :: l) := by
  intro x hx
  rcases List.mem_cons.1 hx with rfl | h
  · exact ht
  · exact hl x h

theorem emit_eq {n : Nat} {f : Nat → M (List (Tok α))} {g : Nat → List (Tok α)}
    (h : ∀ i, i < n → f i = .ok (g i)) : emit n f = .ok (emitP n g) := by
  unfold emit
  obtain ⟨s, h1, h2⟩ := loop_inv (n := n) (s := ([] : List (Tok α)))
    (f := fun i ts => do
      let t ← f i
      pure (ts ++ t))
    (P := fun k ts => ts = emitP k g) rfl (by
      intro i a hi ha
      refine ⟨a ++ g i, by rw [h i hi]; rfl, ?_⟩
      rw [ha]
      simp [emitP, List.range_succ])
  rw [h1, h2]

/-! ## Blocks of equal length -/

theorem emitP_length {n L : Nat} {f : Nat → List (Tok α)} (h : ∀ i, i < n → (f i).length = L) :
    (emitP n f).length = n * L := by
  unfold emitP
  induction n with
  | zero => simp
  | succ n ih =>
    rw [List.range_succ, List.flatMap_append, List.length_append, ih fun i hi => h i (by omega)]
    simp [h n (by omega), Nat.succ_mul]

theorem emitP_get {n L : Nat} {f : Nat → List (Tok α)} (h : ∀ i, i < n → (f i).length = L)
    {i r : Nat} (hi : i < n) (hr : r < L) : (emitP n f)[i * L + r]? = (f i)[r]? := by
  induction n with
  | zero => omega
  | succ n ih =>
    have e : emitP (n + 1) f = emitP n f ++ f n := by simp [emitP, List.range_succ]
    have hl := emitP_length (n := n) (L := L) (f := f) fun i hi => h i (by omega)
    rw [e]
    by_cases hin : i < n
    · rw [List.getElem?_append_left (by rw [hl]; exact mul_add_lt hin hr)]
      exact ih (fun i hi => h i (by omega)) hin
    · obtain rfl : i = n := by omega
      rw [List.getElem?_append_right (by rw [hl]; omega), hl, Nat.add_sub_cancel_left]

theorem emitP_filter {n : Nat} {f : Nat → List (Tok α)} {p : Tok α → Bool} :
    (emitP n f).filter p = emitP n fun i => (f i).filter p := by
  unfold emitP
  induction n with
  | zero => rfl
  | succ n ih => simp [List.range_succ, List.flatMap_append, List.filter_append, ih]

/-! ## The file -/

variable [Scalar α]

/-- `vtuNodal` without its faults. -/
def nodalP (c : Cfg α) (p : Nat → α) : List (Tok α) :=
  emitP c.nn fun n =>
    if c.dim = 2 then
      [.num (p (n * c.dim + 0)), .sp, .num (p (n * c.dim + 1)), .sp, .str "0.0", .endl]
    else if c.dim = 3 then
      [.num (p (n * c.dim + 0)), .sp, .num (p (n * c.dim + 1)), .sp, .num (p (n * c.dim + 2)), .endl]
    else []

/-- `vtuElem` without its faults. -/
def elemP (c : Cfg α) (p : Nat → α) : List (Tok α) :=
  emitP c.nelem fun e => (emitP c.nvoi fun v => [.num (p (e * c.nvoi + v)), .sp]) ++ [.endl]

/-- `vtuElemType` without its faults. -/
def elemTypeP (c : Cfg α) : List (Tok α) := emitP c.nelem fun e => [.int (c.elemType.val e), .sp]

/-- Average over the Gauss points of an element, as `write_vtu` computes it. -/
def gpMean (c : Cfg α) (f : Nat → α) : α :=
  accum (if c.dim = 3 then 8 else 0) (fun gp (p : α) => p + f gp) 0 / ((8 : Nat) : α)

/-- `vtuPlasticity` without its faults. -/
def plasticityP (c : Cfg α) (v : Buf α) : List (Tok α) :=
  emitP c.nelem fun e => [.num (gpMean c fun gp => sigNorm (epsPAt v e gp)), .sp]

/-- `vtuHardening` without its faults. -/
def hardeningP (c : Cfg α) (v : Buf α) : List (Tok α) :=
  emitP c.nelem fun e => [.num (gpMean c fun gp => alphaAt v e gp), .sp]

variable {c : Cfg α}

theorem vtuNodal_eq (hd : c.dim = 2 ∨ c.dim = 3) {p : Buf α} (hp : p.size = c.nn * c.dim) :
    vtuNodal c p = .ok (nodalP c p.val) := by
  refine emit_eq fun n hn => ?_
  have hb : ∀ r, r < c.dim → n * c.dim + r < p.size := fun r hr => by
    rw [hp]; exact mul_add_lt hn hr
  rcases hd with hd | hd
  · rw [if_pos hd, if_pos hd, Buf.read_ok (hb 0 (by omega)), M_bind_ok',
      Buf.read_ok (hb 1 (by omega)), M_bind_ok']
    rfl
  · have h2 : ¬ c.dim = 2 := by omega
    rw [if_neg h2, if_neg h2, if_pos hd, if_pos hd, Buf.read_ok (hb 0 (by omega)),
      M_bind_ok', Buf.read_ok (hb 1 (by omega)), M_bind_ok', Buf.read_ok (hb 2 (by omega)), M_bind_ok']
    rfl

theorem vtuElem_eq {p : Buf α} (hp : p.size = c.nelem * c.nvoi) :
    vtuElem c p = .ok (elemP c p.val) := by
  refine emit_eq fun e he => ?_
  rw [emit_eq (g := fun v => [.num (p.val (e * c.nvoi + v)), .sp]) fun v hv => by
    rw [Buf.read_ok (by rw [hp]; exact mul_add_lt he hv)]; rfl]
  rfl

theorem vtuElemType_eq (he : c.elemType.size = c.nelem) :
    vtuElemType c = .ok (elemTypeP c) := by
  refine emit_eq fun e h => ?_
  rw [Buf.read_ok (by rw [he]; exact h)]; rfl

theorem loop_add {n : Nat} {f : Nat → M α} {g : Nat → α} (h : ∀ i, i < n → f i = .ok (g i)) (x : α) :
    loop n (fun gp (p : α) => do
      let y ← f gp
      pure (p + y)) x = .ok (accum n (fun gp p => p + g gp) x) := by
  obtain ⟨s, h1, h2⟩ := loop_inv (n := n) (s := x)
    (f := fun gp (p : α) => do
      let y ← f gp
      pure (p + y))
    (P := fun k s => s = accum k (fun gp p => p + g gp) x) rfl (by
      intro i a hi ha
      refine ⟨a + g i, by rw [h i hi]; rfl, ?_⟩
      rw [ha]; rfl)
  rw [h1, h2]

theorem vtuPlasticity_eq {v : Buf α} (hv : v.size = c.numIntVars) :
    vtuPlasticity c v = .ok (plasticityP c v) := by
  refine emit_eq fun e he => ?_
  have hb : ∀ gp i, gp < (if c.dim = 3 then 8 else 0) → i < 7 → intvarIx e gp i < v.size := by
    intro gp i hg hi
    rw [hv]
    exact intvarIx_lt he (by split at hg <;> omega) hi
  rw [loop_add (g := fun gp => sigNorm (epsPAt v e gp)) fun gp hg => by
    unfold plastNorm
    rw [gather_eq fun i hi => hb gp i hg (by omega)]
    rfl]
  rfl

theorem vtuHardening_eq {v : Buf α} (hv : v.size = c.numIntVars) :
    vtuHardening c v = .ok (hardeningP c v) := by
  refine emit_eq fun e he => ?_
  have hb : ∀ gp i, gp < (if c.dim = 3 then 8 else 0) → i < 7 → intvarIx e gp i < v.size := by
    intro gp i hg hi
    rw [hv]
    exact intvarIx_lt he (by split at hg <;> omega) hi
  rw [loop_add (g := fun gp => alphaAt v e gp) fun gp hg => by
    rw [Buf.read_ok (hb gp 6 hg (by omega))]; rfl]
  rfl

/-- The sections of the file. -/
structure Sections (c : Cfg α) (w : Work α) (ts : List (Tok α)) : Prop where
  points : dataOf hPosition ts = (vtuPoints c).filter fun t => !isSep t
  cells : dataOf hConnectivity ts = (vtuCells c).filter fun t => !isSep t
  offsets : dataOf hOffsets ts = (vtuOffsets c).filter fun t => !isSep t
  types : dataOf hTypes ts = (vtuTypes c).filter fun t => !isSep t
  displ : dataOf hDispl ts = (nodalP c w.u.val).filter fun t => !isSep t
  b : dataOf hB ts = (nodalP c w.b.val).filter fun t => !isSep t
  strain : dataOf hStrain ts = (elemP c w.elemStrain.val).filter fun t => !isSep t
  stress : dataOf hStress ts = (elemP c w.elemStress.val).filter fun t => !isSep t
  elemType : dataOf hElemType ts = (elemTypeP c).filter fun t => !isSep t
  plasticity : dataOf hPlasticity ts = (plasticityP c w.varsOld).filter fun t => !isSep t
  hardening : dataOf hHardening ts = (hardeningP c w.varsOld).filter fun t => !isSep t
  count : announced ts = [.int c.nn, .int c.nelem]

theorem isStr_num (s : String) (a : α) : isStr s (.num a) = false := rfl
theorem isStr_int (s : String) (a : Int) : isStr s (.int a : Tok α) = false := rfl
theorem isStr_endl (s : String) : isStr s (.endl : Tok α) = false := rfl
theorem isStr_str (s t : String) : isStr s (.str t : Tok α) = (t == s) := rfl

/-- A list of numbers, blanks, `0.0` and line ends. -/
theorem plain_list {l : List (Tok α)}
    (h : l.all (fun t => match t with | .str s => s == "0.0" || s == " " | _ => true) = true) :
    Plain l := by
  intro t ht s hs
  have := List.all_eq_true.1 h t ht
  cases t with
  | str u =>
    rw [isStr_str, beq_iff_eq] at hs
    subst hs
    simpa using this
  | _ => cases hs

theorem plain_points : Plain (vtuPoints c) := by
  unfold vtuPoints
  split
  · exact Plain.emitP fun j => Plain.emitP fun i => plain_list rfl
  split
  · exact Plain.emitP fun k => Plain.emitP fun j => Plain.emitP fun i => plain_list rfl
  · exact Plain.nil

theorem plain_cells : Plain (vtuCells c) := by
  unfold vtuCells
  split
  · exact Plain.emitP fun j => Plain.emitP fun i =>
      Plain.append (Plain.emitP fun k => plain_list rfl) (plain_list rfl)
  split
  · exact Plain.emitP fun l => Plain.emitP fun j => Plain.emitP fun i =>
      Plain.append (Plain.emitP fun k => plain_list rfl) (plain_list rfl)
  · exact Plain.nil

theorem vtuOffsets_eq : vtuOffsets c = emitP c.nelem fun e => [.int ((e + 1) * c.npe : Nat), .sp] := by
  unfold vtuOffsets
  have : ∀ n, accum n (fun _ (s : Nat × List (Tok α)) => (s.1 + c.npe, s.2 ++ [.int (s.1 : Nat), .sp]))
      (c.npe, []) = ((n + 1) * c.npe, emitP n fun e => [.int ((e + 1) * c.npe : Nat), .sp]) := by
    intro n
    induction n with
    | zero => simp [accum, emitP]
    | succ n ih =>
      rw [show accum (n + 1) (fun _ (s : Nat × List (Tok α)) => (s.1 + c.npe, s.2 ++ [.int (s.1 : Nat), .sp]))
        (c.npe, []) = (fun s : Nat × List (Tok α) => (s.1 + c.npe, s.2 ++ [.int (s.1 : Nat), .sp]))
          (accum n (fun _ (s : Nat × List (Tok α)) => (s.1 + c.npe, s.2 ++ [.int (s.1 : Nat), .sp]))
        (c.npe, [])) from rfl, ih]
      simp only [Prod.mk.injEq]
      constructor
      · ring
      · simp [emitP, List.range_succ]
  rw [this]

theorem plain_singles {n : Nat} {f : Nat → Tok α} (h : ∀ i s, isStr s (f i) = false) :
    Plain (emitP n fun i => [f i, .sp]) :=
  Plain.emitP fun i => Plain.cons (fun s hs => by rw [h i s] at hs; cases hs) (plain_list rfl)

theorem plain_types : Plain (vtuTypes c) := by
  unfold vtuTypes
  refine Plain.emitP fun i => ?_
  split
  · exact plain_list rfl
  split
  · exact plain_list rfl
  · exact Plain.nil

theorem plain_nodal {p : Nat → α} : Plain (nodalP c p) := by
  unfold nodalP
  refine Plain.emitP fun n => ?_
  split
  · exact plain_list rfl
  split
  · exact plain_list rfl
  · exact Plain.nil

theorem plain_elem {p : Nat → α} : Plain (elemP c p) := by
  unfold elemP
  exact Plain.emitP fun e => Plain.append (Plain.emitP fun v => plain_list rfl) (plain_list rfl)

theorem writeVtu_sections (hc : c.Ok) {w : Work α} (hw : w.Ok c) :
    ∃ ts, writeVtu c w = .ok ts ∧ Sections c w ts := by
  unfold writeVtu
  rw [vtuNodal_eq hc.dim hw.u, M_bind_ok', vtuNodal_eq hc.dim hw.b, M_bind_ok',
    vtuElem_eq hw.elemStrain, M_bind_ok', vtuElem_eq hw.elemStress, M_bind_ok',
    vtuElemType_eq hc.elem, M_bind_ok', vtuPlasticity_eq hw.varsOld, M_bind_ok',
    vtuHardening_eq hw.varsOld, M_bind_ok']
  refine ⟨_, rfl, ?_⟩
  have p1 := plain_points (c := c)
  have p2 := plain_cells (c := c)
  have p3 : Plain (vtuOffsets c) := by rw [vtuOffsets_eq]; exact plain_singles fun i s => rfl
  have p4 := plain_types (c := c)
  have p5 := plain_nodal (c := c) (p := w.u.val)
  have p6 := plain_nodal (c := c) (p := w.b.val)
  have p7 := plain_elem (c := c) (p := w.elemStrain.val)
  have p8 := plain_elem (c := c) (p := w.elemStress.val)
  have p9 : Plain (elemTypeP c) := plain_singles fun i s => rfl
  have p10 : Plain (plasticityP c w.varsOld) := plain_singles fun i s => rfl
  have p11 : Plain (hardeningP c w.varsOld) := plain_singles fun i s => rfl
  have ls : ∀ t : String, isEndl (.str t : Tok α) = false := fun _ => rfl
  have li : ∀ t : Int, isEndl (.int t : Tok α) = false := fun _ => rfl
  have le : isEndl (.endl : Tok α) = true := rfl
  have lp : isSep (.endl : Tok α) = true := rfl
  constructor
  · simp [dataOf, hPosition, take_plain, p1, isStr_str, isStr_int, isStr_endl, ls, li, le, lp]
  · simp [dataOf, hConnectivity, drop_plain, take_plain, p1, p2, isStr_str, isStr_int, isStr_endl, ls,
      li, le, lp]
  · simp [dataOf, hOffsets, drop_plain, take_plain, p1, p2, p3, isStr_str, isStr_int, isStr_endl, ls,
      li, le, lp]
  · simp [dataOf, hTypes, drop_plain, take_plain, p1, p2, p3, p4, isStr_str, isStr_int, isStr_endl, ls,
      li, le, lp]
  · simp [dataOf, hDispl, drop_plain, take_plain, p1, p2, p3, p4, p5, isStr_str, isStr_int, isStr_endl,
      ls, li, le, lp]
  · simp [dataOf, hB, drop_plain, take_plain, p1, p2, p3, p4, p5, p6, isStr_str, isStr_int, isStr_endl,
      ls, li, le, lp]
  · simp [dataOf, hStrain, drop_plain, take_plain, p1, p2, p3, p4, p5, p6, p7, isStr_str, isStr_int,
      isStr_endl, ls, li, le, lp]
  · simp [dataOf, hStress, drop_plain, take_plain, p1, p2, p3, p4, p5, p6, p7, p8, isStr_str, isStr_int,
      isStr_endl, ls, li, le, lp]
  · simp [dataOf, hElemType, drop_plain, take_plain, p1, p2, p3, p4, p5, p6, p7, p8, p9, isStr_str,
      isStr_int, isStr_endl, ls, li, le, lp]
  · simp [dataOf, hPlasticity, drop_plain, take_plain, p1, p2, p3, p4, p5, p6, p7, p8, p9, p10, isStr_str,
      isStr_int, isStr_endl, ls, li, le, lp]
  · simp [dataOf, hHardening, drop_plain, take_plain, p1, p2, p3, p4, p5, p6, p7, p8, p9, p10, p11,
      isStr_str, isStr_int, isStr_endl, ls, li, le, lp]
  · simp [announced, isStr_str, isStr_int, isStr_endl, ls, li, le, lp]

end Verif
