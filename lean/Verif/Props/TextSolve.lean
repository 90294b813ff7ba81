import Verif.Lemmas.TextAsm
import Verif.Lemmas.TextInit3
import Verif.Props.Text
import Verif.Props.Matrix

/-!
# C96: the statements of `ell.cpp`, `solve` and `assembly_mat` do what the model says

As C95, for the functions of /repo/src/ell.cpp that the constructor and the Newton loop use, `solve`
(/repo/src/solve.cpp:32-44) and `assembly_mat` (/repo/src/assembly.cpp:333-364).
-/

namespace Verif.Props
open Text Spec

variable {α : Type} [Scalar α] {c : Cfg α}

/-- C96: `ell_init_3D` assigns the neighbour pattern to all entries of the block of columns, whatever
the block contained; no value is assigned. -/
theorem C96_init3D {w : Work α} {l : Loc α} {nF nx ny nz : Nat} (hF : l.i .nFields = some (nF : Int))
    (hx : l.i .nx = some (nx : Int)) (hy : l.i .ny = some (ny : Int)) (hz : l.i .nz = some (nz : Int))
    (hx2 : 2 ≤ nx) (hy2 : 2 ≤ ny) (hz2 : 2 ≤ nz) (k : Nat) (hk : 1 ≤ k) :
    ∃ t a v, Text.run c k .ell_init_3D ⟨w, l⟩ = .ok t ∧
      t.l.i .m_nrow = some ((nx * ny * nz * nF : Nat) : Int) ∧
      t.l.i .m_ncol = some ((nx * ny * nz * nF : Nat) : Int) ∧
      t.l.i .m_nnz = some ((27 * nF : Nat) : Int) ∧
      t.l.iv .m_cols = some a ∧ a.n = 27 * nF * (nx * ny * nz * nF) ∧
      t.l.v .m_vals = some v ∧ v.n = 27 * nF * (nx * ny * nz * nF) ∧
      (∀ i j e d q d2, i < nx → j < ny → e < nz → d < nF → q < 27 → d2 < nF →
        a.val ((node3 nx ny i j e * nF + d) * (27 * nF) + (q * nF + d2))
          = some (slotCol nF (nbr3 nx ny nz i j e q) d2)) ∧
      ∀ jc jv, ∃ m, ellInit3D jc (jv : Nat → α) nF nx ny nz = .ok m ∧ m.cols.size = a.n ∧
        m.vals = ⟨v.n, jv⟩ ∧ ∀ q, q < a.n → a.val q = some (m.cols.val q) := by
  obtain ⟨n, rfl⟩ := Nat.exists_eq_add_of_le' hk
  obtain ⟨p, e1, e2, e3⟩ := ellInit3D_cols (fun _ => 0) (fun _ => (0 : α)) (nF := nF) hx2 hy2 hz2
  obtain ⟨q, f1, f2, f3⟩ := ellInit3D_cols (fun _ => 1) (fun _ => (0 : α)) (nF := nF) hx2 hy2 hz2
  obtain ⟨t, h1, a1, a2, a3, a4, a5⟩ := run_init_3D (c := c) (s := ⟨w, l⟩) (n := n) (fun _ => 0)
    (fun _ => 0) hF hx hy hz (by omega) (by omega) (by omega) e1
  obtain ⟨t', h2, -, -, -, b4, -⟩ := run_init_3D (c := c) (s := ⟨w, l⟩) (n := n) (fun _ => 1)
    (fun _ => 0) hF hx hy hz (by omega) (by omega) (by omega) f1
  rw [h1] at h2; cases h2
  obtain ⟨a, ha, hn, hv⟩ := FillOn.all a4 b4 (27 * nF * (nx * ny * nz * nF))
    (fun k hk => by rw [e3 k hk, f3 k hk])
  obtain ⟨v, v1, v2, -⟩ := a5
  rw [e2] at hn
  refine ⟨t, a, v, h1, a1, a2, a3, ha, hn, v1, v2, ?_, ?_⟩
  · intro i j e d s d2 hi hj he hd hs h2
    obtain ⟨m, g1, g2⟩ := pattern3_init (fun _ => 0) (fun _ => (0 : α)) (nF := nF) hx2 hy2 hz2
    rw [e1] at g1; cases g1
    have hq : (node3 nx ny i j e * nF + d) * (27 * nF) + (s * nF + d2) < 27 * nF * (nx * ny * nz * nF) := by
      have r := g2.cols_size
      have h3 : node3 nx ny i j e + 1 ≤ nx * ny * nz := by
        have := node3_lt (nx := nx) (ny := ny) (nz := nz) hi hj he
        omega
      calc (node3 nx ny i j e * nF + d) * (27 * nF) + (s * nF + d2)
          < (node3 nx ny i j e * nF + d) * (27 * nF) + 27 * nF := by
            have : (s + 1) * nF ≤ 27 * nF := Nat.mul_le_mul_right _ hs
            have e : (s + 1) * nF = s * nF + nF := by ring
            omega
        _ = (node3 nx ny i j e * nF + d + 1) * (27 * nF) := by ring
        _ ≤ (nx * ny * nz * nF) * (27 * nF) := by
            apply Nat.mul_le_mul_right
            have : (node3 nx ny i j e + 1) * nF ≤ nx * ny * nz * nF := Nat.mul_le_mul_right _ h3
            have e : (node3 nx ny i j e + 1) * nF = node3 nx ny i j e * nF + nF := by ring
            omega
        _ = _ := by ring
    rw [hv _ hq]
    exact congrArg some (g2.cols i j e d s d2 hi hj he hd hs h2)
  · intro jc jv
    obtain ⟨m, g1, g2, g3⟩ := ellInit3D_cols jc jv (nF := nF) hx2 hy2 hz2
    refine ⟨_, g1, by rw [hn]; exact g2, by simp only; rw [v2], fun q hq => ?_⟩
    rw [hn] at hq
    rw [hv q hq, e3 q hq]
    exact congrArg some (g3 q hq).symm

/-- C96: `ell_init_2D` assigns the columns of the model to all entries of the block, whatever the block
contained. -/
theorem C96_init2D {w : Work α} {l : Loc α} {nF nx ny : Nat} (hF : l.i .nFields = some (nF : Int))
    (hx : l.i .nx = some (nx : Int)) (hy : l.i .ny = some (ny : Int))
    (hx2 : 2 ≤ nx) (hy2 : 2 ≤ ny) (k : Nat) (hk : 1 ≤ k) :
    ∃ t a v, Text.run c k .ell_init_2D ⟨w, l⟩ = .ok t ∧
      t.l.i .m_nrow = some ((nx * ny * nF : Nat) : Int) ∧
      t.l.i .m_ncol = some ((nx * ny * nF : Nat) : Int) ∧
      t.l.i .m_nnz = some ((9 * nF : Nat) : Int) ∧
      t.l.iv .m_cols = some a ∧ a.n = 9 * nF * (nx * ny * nF) ∧
      t.l.v .m_vals = some v ∧ v.n = 9 * nF * (nx * ny * nF) ∧
      ∀ jc jv, ∃ m, ellInit2D jc (jv : Nat → α) nF nx ny = .ok m ∧ m.cols.size = a.n ∧
        m.vals = ⟨v.n, jv⟩ ∧ ∀ q, q < a.n → a.val q = some (m.cols.val q) := by
  obtain ⟨n, rfl⟩ := Nat.exists_eq_add_of_le' hk
  obtain ⟨p, e1, e2, e3⟩ := ellInit2D_cols (fun _ => 0) (fun _ => (0 : α)) (nF := nF) hx2 hy2
  obtain ⟨q, f1, f2, f3⟩ := ellInit2D_cols (fun _ => 1) (fun _ => (0 : α)) (nF := nF) hx2 hy2
  obtain ⟨t, h1, a1, a2, a3, a4, a5⟩ := run_init_2D (c := c) (s := ⟨w, l⟩) (n := n) (fun _ => 0)
    (fun _ => 0) hF hx hy (by omega) (by omega) e1
  obtain ⟨t', h2, -, -, -, b4, -⟩ := run_init_2D (c := c) (s := ⟨w, l⟩) (n := n) (fun _ => 1)
    (fun _ => 0) hF hx hy (by omega) (by omega) f1
  rw [h1] at h2; cases h2
  obtain ⟨a, ha, hn, hv⟩ := FillOn.all a4 b4 (9 * nF * (nx * ny * nF))
    (fun k hk => by rw [e3 k hk, f3 k hk])
  obtain ⟨v, v1, v2, -⟩ := a5
  rw [e2] at hn
  refine ⟨t, a, v, h1, a1, a2, a3, ha, hn, v1, v2, ?_⟩
  intro jc jv
  obtain ⟨m, g1, g2, g3⟩ := ellInit2D_cols jc jv (nF := nF) hx2 hy2
  refine ⟨_, g1, by rw [hn]; exact g2, by simp only; rw [v2], fun q hq => ?_⟩
  rw [hn] at hq
  rw [hv q hq, e3 q hq]
  exact congrArg some (g3 q hq).symm

/-- C96: `assembly_mat` (with everything it calls: clearing the matrix, the element matrices with the
tangents, adding them, the boundary rows) leaves the matrix and the internal variables of the model. -/
theorem C96_assembly_mat (L : LitLaws α) (hc : c.Ok) {w : Work α} (hw : w.Ok c) (l : Loc α) (k : Nat)
    (hk : 6 ≤ k) :
    ∃ t r, Text.run c k .assembly_mat ⟨w, l⟩ = .ok t ∧ assemblyMat c w = .ok r ∧ t.w = r := by
  obtain ⟨n, rfl⟩ := Nat.exists_eq_add_of_le' hk
  obtain ⟨A, vn, h1, -⟩ := assemblyMat_ok hc hw
  rcases hc.dim with hd | hd
  · obtain ⟨t, h2, h3⟩ := run_assembly_mat2 (s := ⟨w, l⟩) (n := n + 3) L rfl hd hc.nx hc.ny h1
    exact ⟨t, _, h2, h1, h3⟩
  · obtain ⟨t, h2, h3⟩ := run_assembly_mat3 (s := ⟨w, l⟩) (n := n) L rfl hd hc.nx hc.ny (hc.nz3 hd) h1
    exact ⟨t, _, h2, h1, h3⟩

/-- C96: `solve` leaves the correction of the model.  The text has no access to the contents of fresh
memory, the model has (`env`): the result is the same for all of them. -/
theorem C96_solve (L : LitLaws α) (hc : c.Ok) {w : Work α} (hw : w.Ok c) (l : Loc α) (k : Nat)
    (hk : 3 ≤ k) :
    ∃ t, Text.run c k .solve ⟨w, l⟩ = .ok t ∧
      ∀ env, solve env c w = .ok { t.w with tick := t.w.tick + 1 } := by
  obtain ⟨n, rfl⟩ := Nat.exists_eq_add_of_le' hk
  have key : ∀ env, ∃ t, Text.run c (n + 3) .solve ⟨w, l⟩ = .ok t ∧
      solve env c w = .ok { t.w with tick := t.w.tick + 1 } := by
    intro env
    obtain ⟨du, h1, -⟩ := solve_ok (env := env) hc hw
    obtain ⟨t, h2, h3⟩ := run_solve (s := ⟨w, l⟩) (n := n) L rfl hc.dim (hw.wf hc).2
      (fun hd => by simp [Cfg.nn, hc.nz2 hd]) h1
    exact ⟨t, h2, by rw [h1, h3]⟩
  obtain ⟨t, h1, -⟩ := key ⟨0, fun _ => none, fun _ _ _ => 0, fun _ => 0, fun _ => 0,
    fun _ => ⟨0, fun _ => 0, none, none, fun _ => 0, fun _ => 0, fun _ => 0, fun _ => 0, 0⟩⟩
  refine ⟨t, h1, fun env => ?_⟩
  obtain ⟨t', h2, h3⟩ := key env
  rw [h1] at h2; cases h2
  exact h3

/-- C96: `ell_mvp_2D` multiplies the matrix in its arguments with the vector, assigning every entry of
`y`, for every well formed matrix. -/
theorem C96_mvp (L : LitLaws α) {w : Work α} {l : Loc α} {m : Ell α} (hm : m.WF) {x : Nat → α}
    (hE : EllOn l m) (hx : Filled (l.v .x) m.nrow x) (hxn : (l.v .x).map Vec.n = some m.nrow)
    {v : Vec α} (hy : l.v .y = some v) (hyn : v.n = m.nrow) (k : Nat) (hk : 1 ≤ k) :
    ∃ t, Text.run c k .ell_mvp_2D ⟨w, l⟩ = .ok t ∧
      ∀ y : Buf α, y.size = m.nrow → ∃ y', ellMvp2D m ⟨m.nrow, x⟩ y = .ok y' ∧
        Filled (t.l.v .y) m.nrow y'.val := by
  obtain ⟨n, rfl⟩ := Nat.exists_eq_add_of_le' hk
  obtain ⟨a, a1, a2, a3⟩ := hx
  have hn : a.n = m.nrow := by rw [a1] at hxn; exact Option.some.inj hxn
  have key : ∀ y : Buf α, y.size = m.nrow → ∃ t y', Text.run c (n + 1) .ell_mvp_2D ⟨w, l⟩ = .ok t ∧
      ellMvp2D m ⟨m.nrow, x⟩ y = .ok y' ∧ Filled (t.l.v .y) m.nrow y'.val := by
    intro y hys
    have e := ellMvp2D_eq hm (x := ⟨m.nrow, x⟩) (y := y) rfl hys
    obtain ⟨t, h1, -, b, b1, b2, b3⟩ := run_mvp (c := c) (s := ⟨w, l⟩) (n := n) (T := (· < m.nrow))
      (x := ⟨m.nrow, x⟩) (S := fun _ => False) L hE ⟨a, a1, hn, fun q hq => a3 q hq⟩ (fun _ h => h)
      ⟨v, hy, by rw [hyn, hys], fun _ h => h.elim⟩ e
    exact ⟨t, _, h1, e, b, b1, by rw [b2], fun q hq => b3 q (.inr hq)⟩
  obtain ⟨t, y', h1, -⟩ := key ⟨m.nrow, fun _ => 0⟩ rfl
  refine ⟨t, h1, fun y hys => ?_⟩
  obtain ⟨t', y', h2, h3, h4⟩ := key y hys
  rw [h1] at h2; cases h2
  exact ⟨y', h3, h4⟩

/-- C96 for the objects of a program: in every state that constructor and calls lead to, the text of
`assembly_mat` and then of `solve` runs without a fault and with the results of the model, for all
contents of fresh memory. -/
theorem C96_reachable (L : LitLaws α) {env : Env α} {a : Args α} (ha : a.Ok) {j : Junk α}
    {calls : List (Call α)} {s : ObjFiles α} (h : Reach env a j calls s) :
    ∃ t t', Text.run s.obj.cfg 6 .assembly_mat ⟨s.obj.work, Loc.none⟩ = .ok t ∧
      assemblyMat s.obj.cfg s.obj.work = .ok t.w ∧
      Text.run s.obj.cfg 6 .solve ⟨t.w, Loc.none⟩ = .ok t' ∧
      ∀ env', solve env' s.obj.cfg t.w = .ok { t'.w with tick := t'.w.tick + 1 } := by
  obtain ⟨-, ho⟩ := reach_built ha h
  obtain ⟨t, r, h1, h2, h3⟩ := C96_assembly_mat L ho.cfg ho.work Loc.none 6 le_rfl
  obtain ⟨A, vn, g1, g2, -⟩ := assemblyMat_ok ho.cfg ho.work
  have hw : t.w.Ok s.obj.cfg := by
    rw [h2] at g1
    have e := Except.ok.inj g1
    rw [h3, e]
    exact g2
  obtain ⟨t', h4, h5⟩ := C96_solve L ho.cfg hw Loc.none 6 (by omega)
  exact ⟨t, t', h1, by rw [h2, h3], h4, h5⟩

/-! ## Examples -/

/-- The hypotheses are met by an object that has been through a history of calls, in space. -/
example : ∃ s, Reach exEnv exArgsP exJunk exCalls s ∧
    ∃ t, Text.run s.obj.cfg 6 .assembly_mat ⟨s.obj.work, Loc.none⟩ = .ok t := by
  obtain ⟨s, hs⟩ := reach_exists exEnv_quick exArgsP_ok exJunk exCalls
  obtain ⟨t, t', h, -⟩ := C96_reachable litLaws_real exArgsP_ok hs
  exact ⟨s, hs, t, h⟩

/-- The parameters of `ell_init_2D`, on a grid of 3 by 4 nodes. -/
example (w : Work ℝ) (c : Cfg ℝ) : ∃ t, Text.run c 1 .ell_init_2D ⟨w, { (Loc.none : Loc ℝ) with
    i := upd (upd (upd (Loc.none (α := ℝ)).i .nFields (some 2)) .nx (some 3)) .ny (some 4) }⟩ = .ok t := by
  obtain ⟨t, a, v, h, -⟩ := C96_init2D (c := c) (w := w) (l := { (Loc.none : Loc ℝ) with
    i := upd (upd (upd (Loc.none (α := ℝ)).i .nFields (some 2)) .nx (some 3)) .ny (some 4) }) (nF := 2) (nx := 3)
    (ny := 4) rfl rfl rfl (by omega) (by omega) 1 le_rfl
  exact ⟨t, h⟩

/-- Without the number of fields the text faults. -/
example (w : Work ℝ) (c : Cfg ℝ) : Text.run c 1 .ell_init_2D ⟨w, { (Loc.none : Loc ℝ) with
    i := upd (upd (Loc.none (α := ℝ)).i .nx (some 3)) .ny (some 4) }⟩ = .error .uninit := rfl

example (w : Work ℝ) (c : Cfg ℝ) : ∃ t, Text.run c 1 .ell_init_3D ⟨w, { (Loc.none : Loc ℝ) with
    i := upd (upd (upd (upd (Loc.none (α := ℝ)).i .nFields (some 3)) .nx (some 3)) .ny (some 4)) .nz (some 2) }⟩
      = .ok t ∧ t.l.i .m_nnz = some 81 := by
  obtain ⟨t, a, v, h, -, -, h1, -⟩ := C96_init3D (c := c) (w := w) (l := { (Loc.none : Loc ℝ) with
    i := upd (upd (upd (upd (Loc.none (α := ℝ)).i .nFields (some 3)) .nx (some 3)) .ny (some 4)) .nz (some 2) })
    (nF := 3) (nx := 3) (ny := 4) (nz := 2) rfl rfl rfl rfl (by omega) (by omega) (by omega) 1 le_rfl
  exact ⟨t, h, h1⟩

example : ∃ t, Text.run ex2.cfg 6 .assembly_mat ⟨ex2.work, Loc.none⟩ = .ok t ∧ assemblyMat ex2.cfg ex2.work = .ok t.w := by
  obtain ⟨t, r, h1, h2, h3⟩ := C96_assembly_mat litLaws_real ex2_ok ex2_work Loc.none 6 le_rfl
  exact ⟨t, h1, by rw [h2, h3]⟩

example : ∃ t, Text.run ex2.cfg 3 .solve ⟨ex2.work, Loc.none⟩ = .ok t :=
  (C96_solve litLaws_real ex2_ok ex2_work Loc.none 3 le_rfl).imp fun _ h => h.1

example (w : Work ℝ) (c : Cfg ℝ) : ∃ t, Text.run c 1 .ell_mvp_2D ⟨w, { (Loc.none : Loc ℝ) with
    i := fun name => match name with | .m_nrow => some 3 | .m_ncol => some 3 | .m_nnz => some 9 | _ => none
    iv := fun name => match name with | .m_cols => some ⟨27, fun q => some ((exM 1).cols.val q)⟩ | _ => none
    v := fun name => match name with
      | .m_vals => some ⟨27, fun q => some ((exM 1).vals.val q)⟩ | .x => some ⟨3, fun q => some (q + 1)⟩
      | .y => some ⟨3, fun _ => none⟩ | _ => none }⟩ = .ok t := by
  obtain ⟨t, h, -⟩ := C96_mvp (c := c) litLaws_real (w := w) (l := { (Loc.none : Loc ℝ) with
    i := fun name => match name with | .m_nrow => some 3 | .m_ncol => some 3 | .m_nnz => some 9 | _ => none
    iv := fun name => match name with | .m_cols => some ⟨27, fun q => some ((exM 1).cols.val q)⟩ | _ => none
    v := fun name => match name with
      | .m_vals => some ⟨27, fun q => some ((exM 1).vals.val q)⟩ | .x => some ⟨3, fun q => some (q + 1)⟩
      | .y => some ⟨3, fun _ => none⟩ | _ => none }) (exM_wf 1) (x := fun q => (q : ℝ) + 1)
    ⟨rfl, rfl, rfl, ⟨_, rfl, rfl, fun _ _ => rfl⟩, ⟨_, rfl, rfl, fun _ _ => rfl⟩⟩ ⟨_, rfl, le_rfl, fun _ _ => rfl⟩ rfl rfl rfl 1 le_rfl
  exact ⟨t, h⟩

end Verif.Props
