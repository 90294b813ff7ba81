import Verif.Lemmas.TextJacobi
import Verif.Lemmas.FileRun
import Verif.Model.PrintText
import Verif.Props.Cg
import Verif.Props.Client
import Verif.Props.Text

/-!
# C101: the rest of ell.cpp

"The text of `ell_solve_jacobi_2D` (/repo/src/ell.cpp:58-114) and of `ell_print`
(/repo/src/ell.cpp:302-327) computes what the model says."
-/

namespace Verif.Props
open Text Spec

variable {α : Type} [Scalar α] {c : Cfg α}

/-- The locals of `ell_solve_jacobi_2D` hold these arguments. -/
structure JacArgs (l : Loc α) (sv : EllSolver α) (m : Ell α) (nF nx ny : Nat) (b x : Buf α) : Prop where
  ell : EllOn l m
  x : BufOn (l.v .x) x fun _ => True
  b : BufOn (l.v .b) b fun _ => True
  nF : l.i .nFields = some (nF : Int)
  nx : l.i .nx = some (nx : Int)
  ny : l.i .ny = some (ny : Int)
  maxIts : l.i .solver_max_its = some sv.maxIts
  minTol : l.d .solver_min_tol = some sv.minTol

/-- C101: for a positive iteration limit the text of the relaxation solver returns what the model returns,
whatever the model assumes about fresh memory; matrix and right hand side are as before. -/
theorem C101_jacobi (L : LitLaws α) {w : Work α} {l : Loc α} {sv sv' : EllSolver α} {m : Ell α} {nF nx ny : Nat}
    {b x : Buf α} {y : Option (Buf α)} {r : Int} (h : JacArgs l sv m nF nx ny b x) (hrow : m.nrow ≤ nx * ny * nF)
    (hpos : 0 < sv.maxIts) {junk : Nat → Nat → α}
    (hm : ellSolveJacobi2D junk sv (some m) nF nx ny (some b) (some x) = .ok (r, sv', y)) (n : Nat) (hn : 2 ≤ n) :
    ∃ t z, Text.run c n .ell_solve_jacobi_2D ⟨w, l⟩ = .ok t ∧ y = some z ∧ t.l.i .ret = some r ∧
      BufOn (t.l.v .x) z (fun _ => True) ∧ t.l.d .solver_err = some sv'.err ∧ t.l.i .solver_its = some sv'.its ∧
      EllOn t.l m ∧ BufOn (t.l.v .b) b (fun _ => True) := by
  obtain ⟨n, rfl⟩ := Nat.exists_eq_add_of_le' hn
  obtain ⟨t, h1, h2, ⟨z, h3, h4⟩, h5, h6, h7, h8⟩ := run_jacobi_2D (s := ⟨w, l⟩) (c := c) (n := n) L h.ell h.x h.b
    h.nF h.nx h.ny h.maxIts h.minTol hrow hpos hm
  exact ⟨t, z, h1, h3, h8, h4, h6, h7, h2, h5⟩

/-- C101: with `max_its <= 0` no sweep is made, and the text stores the local `err`, which has no value. -/
theorem C101_jacobi_none (L : LitLaws α) {w : Work α} {l : Loc α} {sv : EllSolver α} {m : Ell α} {nF nx ny W : Nat}
    {b x : Buf α} (h : JacArgs l sv m nF nx ny b x) (hm : m.WF) (hW : m.nnz = W * nF) (h4 : 4 < W)
    (hrow : nx * ny * nF = m.nrow) (hmax : sv.maxIts ≤ 0) (n : Nat) (hn : 2 ≤ n) :
    Text.run c n .ell_solve_jacobi_2D ⟨w, l⟩ = .error .uninit := by
  obtain ⟨n, rfl⟩ := Nat.exists_eq_add_of_le' hn
  obtain ⟨k, hk, -⟩ := diagLoop_eq (k := ⟨m.nrow, fun _ => (0 : α)⟩) hW h4 (le_of_eq hrow) hm.vals_size rfl
  exact run_jacobi_none (s := ⟨w, l⟩) L h.ell h.nF h.nx h.ny h.maxIts h.minTol hmax hk

/-- C101, C17 for the text: on a matrix of the library's form the text returns 0, and `solver->err` is the norm of
the residual of the vector in `x`; fewer than `max_its` sweeps are reported exactly if it is below the tolerance. -/
theorem C101_truthful {c : Cfg ℝ} {w : Work ℝ} {l : Loc ℝ} {sv : EllSolver ℝ} {m : Ell ℝ} {nF nx ny W : Nat}
    {b x : Buf ℝ} (h : JacArgs l sv m nF nx ny b x) (hm : m.WF) (hW : m.nnz = W * nF) (h4 : 4 < W)
    (hrow : nx * ny * nF = m.nrow) (hb : b.size = m.nrow) (hx : x.size = m.nrow) (hmax : 0 < sv.maxIts)
    (n : Nat) (hn : 2 ≤ n) :
    ∃ (t : St ℝ) (y : Nat → ℝ) (err : ℝ) (its : Int), Text.run c n .ell_solve_jacobi_2D ⟨w, l⟩ = .ok t ∧
      t.l.i .ret = some 0 ∧ BufOn (t.l.v .x) ⟨m.nrow, y⟩ (fun _ => True) ∧
      t.l.d .solver_err = some err ∧ t.l.i .solver_its = some its ∧
      err = norm2 m.nrow (fun i => op m y i - b.val i) ∧ its ≤ sv.maxIts ∧ (its < sv.maxIts ↔ err < sv.minTol) := by
  obtain ⟨k, q, X, err', its', -, h2, -, -, -, h6, h7, h8⟩ := jacobi_run hm hW h4 hrow hb hx (fun _ _ => 0) sv
  obtain ⟨s', z, g1, g2, g3, g4⟩ := C17_truthful hm hW h4 hrow hb hx (fun _ _ => 0) sv hmax
  rw [h8] at g1
  cases g1
  obtain ⟨t, z, e1, e2, e3, e4, e5, e6, -⟩ := C101_jacobi (c := c) (w := w) litLaws_real h (le_of_eq hrow.symm) hmax h8 n hn
  cases e2
  exact ⟨t, _, _, _, e1, e3, e4, e5, e6, g2, g3, g4⟩

theorem emits_block {c : Cfg α} {s : St α} {m : Ell α} {ex : OStmt → St α → M (St α)}
    {call : FFn → FSt α → M (FSt α)} {title : String} {β : Type} {put : β → Tok α} {p : Buf β} {tk : FTok}
    (hs : m.nnz * m.nrow ≤ p.size)
    (ht : ∀ (t : St α) (i j : Nat), i < m.nrow → j < m.nnz → t.l.v = s.l.v → t.l.iv = s.l.iv →
      t.l.i .m_nnz = some (m.nnz : Int) → t.l.i .i = some (i : Int) → t.l.i .j = some (j : Int) →
      tk.eval c t = .ok (put (p.val (i * m.nnz + j))))
    (hrow : s.l.i .m_nrow = some (m.nrow : Int)) (hnnz : s.l.i .m_nnz = some (m.nnz : Int)) :
    Emits c [] ex call (
      .put [.str title, .endl] ;;;;
      .for .i (.lit 0) (.var .m_nrow) (
        .put [.str "row= ", .int (.var .i)] ;;;;
        .for .j (.lit 0) (.var .m_nnz) (.put [tk, .str " "]) ;;;;
        .put [.endl])) s (table title put m.nrow m.nnz p.val)
      (fun t => t.w = s.w ∧ t.l.v = s.l.v ∧ t.l.iv = s.l.iv ∧ t.l.i .m_nrow = some (m.nrow : Int) ∧
        t.l.i .m_nnz = some (m.nnz : Int)) := by
  refine Emits.seq (Q := fun t => t = s) (Emits.put (by toks) rfl) ?_
  intro t0 h0
  rw [h0]
  refine Emits.loop (P := fun t => t.w = s.w ∧ t.l.v = s.l.v ∧ t.l.iv = s.l.iv ∧ t.l.i .m_nrow = some (m.nrow : Int) ∧
        t.l.i .m_nnz = some (m.nnz : Int)) (by intro t o h; exact h) (ev_ivar hrow) ⟨rfl, rfl, rfl, hrow, hnnz⟩ ?_
  rintro i t hi hti ⟨a1, a2, a3, a4, a5⟩
  refine Emits.cast (ts := [.str "row= ", .int i] ++ (_ ++ [.endl])) (Emits.seq (Q := (· = t)) (Emits.put (by toks) rfl) ?_)
    (List.append_assoc _ _ _).symm
  rintro _ rfl
  refine Emits.seq (Q := fun t => t.w = s.w ∧ t.l.v = s.l.v ∧ t.l.iv = s.l.iv ∧ t.l.i .m_nrow = some (m.nrow : Int) ∧
        t.l.i .m_nnz = some (m.nnz : Int) ∧ t.l.i .i = some (i : Int)) ?_ ?_
  · refine Emits.loop (P := fun t => t.w = s.w ∧ t.l.v = s.l.v ∧ t.l.iv = s.l.iv ∧ t.l.i .m_nrow = some (m.nrow : Int) ∧
        t.l.i .m_nnz = some (m.nnz : Int) ∧ t.l.i .i = some (i : Int)) (by intro t o h; exact h) (ev_ivar a5)
        ⟨a1, a2, a3, a4, a5, hti⟩ ?_
    rintro j t hj htj ⟨b1, b2, b3, b4, b5, b6⟩
    refine Emits.put ?_ ⟨b1, b2, b3, b4, b5, b6⟩
    have h1 := ht t i j hi hj b2 b3 b5 b6 htj
    have h2 : FTok.eval c t (.str " ") = .ok (.str " ") := rfl
    simp only [evalToks, h1, h2, M_bind_ok', M_pure]
  · rintro t ⟨b1, b2, b3, b4, b5, b6⟩
    exact Emits.put (by toks) ⟨b1, b2, b3, b4, b5⟩

theorem row_lt {i j nrow nnz : Nat} (hi : i < nrow) (hj : j < nnz) : i * nnz + j < nnz * nrow := by
  calc i * nnz + j < i * nnz + nnz := by omega
    _ = (i + 1) * nnz := by ring
    _ ≤ nrow * nnz := Nat.mul_le_mul_right _ (by omega)
    _ = nnz * nrow := Nat.mul_comm _ _

/-- C101: a call of `ell_print` executed from its text returns and writes what the model says, for NULL, for a
matrix without one of the arrays, and for a matrix whose arrays have `nnz * nrow` entries. -/
theorem C101_print (c : Cfg α) (w : Work α) (F : Files α) (f : FId) :
    printRun c w F f none = ellPrint none ∧
    (∀ nrow nnz oc ov, oc = none ∨ ov = none →
      printRun c w F f (some (nrow, nnz, oc, ov)) = ellPrint (some (nrow, nnz, oc, ov))) ∧
    ∀ m : Ell α, m.nnz * m.nrow ≤ m.cols.size → m.nnz * m.nrow ≤ m.vals.size →
      printRun c w F f (some (m.nrow, m.nnz, some m.cols, some m.vals)) = .ok (0,
        table "Cols = " .int m.nrow m.nnz m.cols.val ++ table "Vals = " .num m.nrow m.nnz m.vals.val) ∧
      printRun c w F f (some (m.nrow, m.nnz, some m.cols, some m.vals))
        = ellPrint (some (m.nrow, m.nnz, some m.cols, some m.vals)) := by
  refine ⟨rfl, ?_, ?_⟩
  · rintro nrow nnz oc ov (rfl | rfl)
    · cases ov <;> rfl
    · cases oc <;> rfl
  · intro m hc hv
    have key : printRun c w F f (some (m.nrow, m.nnz, some m.cols, some m.vals)) = .ok (0,
        table "Cols = " .int m.nrow m.nnz m.cols.val ++ table "Vals = " .num m.nrow m.nnz m.vals.val) := by
      have e : firstNull (some (m.nrow, m.nnz, some m.cols, some m.vals)) printTests = .ok none := rfl
      have h : Emits c [] (fun _ _ => .error .abort) (fun _ _ => .error .abort) t_ell_print
          ⟨w, printLoc (some (m.nrow, m.nnz, some m.cols, some m.vals))⟩
          (table "Cols = " .int m.nrow m.nnz m.cols.val ++ table "Vals = " .num m.nrow m.nnz m.vals.val)
          (fun _ => True) := by
        have r1 : (printLoc (some (m.nrow, m.nnz, some m.cols, some m.vals))).i .m_nrow = some (m.nrow : Int) := rfl
        have r2 : (printLoc (some (m.nrow, m.nnz, some m.cols, some m.vals))).i .m_nnz = some (m.nnz : Int) := rfl
        have hC := emits_block (c := c) (s := ⟨w, printLoc (some (m.nrow, m.nnz, some m.cols, some m.vals))⟩) (m := m)
          (ex := fun _ _ => .error .abort) (call := fun _ _ => .error .abort) (title := "Cols = ") (put := Tok.int)
          (p := m.cols) (tk := .int (.rd .m_cols (.add (.mul (.var .i) (.var .m_nnz)) (.var .j)))) hc (by
            intro t i j hi hj e1 e2 hn hti htj
            have hb : BufOn (t.l.iv .m_cols) m.cols (fun _ => True) := by
              rw [e2]
              exact ⟨_, rfl, rfl, fun _ _ => rfl⟩
            have : (IExp.rd .m_cols (.add (.mul (.var .i) (.var .m_nnz)) (.var .j))).eval c t.l
                = .ok (m.cols.val (i * m.nnz + j)) :=
              ev_bird hb (k := i * m.nnz + j) (by idx) (by
                unfold Buf.read
                rw [if_pos (lt_of_lt_of_le (row_lt hi hj) hc)]) (fun _ => trivial)
            simp only [FTok.eval, this, M_bind_ok', M_pure]) r1 r2
        have hV : ∀ t : St α, t.l.v = (printLoc (some (m.nrow, m.nnz, some m.cols, some m.vals))).v →
            t.l.i .m_nrow = some (m.nrow : Int) → t.l.i .m_nnz = some (m.nnz : Int) → _ := fun t e0 e3 e4 =>
          emits_block (c := c) (s := t) (m := m)
          (ex := fun _ _ => .error .abort) (call := fun _ _ => .error .abort) (title := "Vals = ") (put := Tok.num)
          (p := m.vals) (tk := .num (.rd1 .m_vals (.add (.mul (.var .i) (.var .m_nnz)) (.var .j)))) hv (by
            intro t i j hi hj e1 e2 hn hti htj
            have hb : BufOn (t.l.v .m_vals) m.vals (fun _ => True) := by
              rw [e1, e0]
              exact ⟨_, rfl, rfl, fun _ _ => rfl⟩
            have : (DExp.rd1 .m_vals (.add (.mul (.var .i) (.var .m_nnz)) (.var .j))).eval c t
                = .ok (m.vals.val (i * m.nnz + j)) :=
              ev_brd hb (k := i * m.nnz + j) (by idx) (by
                unfold Buf.read
                rw [if_pos (lt_of_lt_of_le (row_lt hi hj) hv)]) (fun _ => trivial)
            simp only [FTok.eval, this, M_bind_ok', M_pure]) e3 e4
        have hall := hC.seq fun t ht => (hV t ht.2.1 ht.2.2.2.1 ht.2.2.2.2).mono (R := fun _ => True) fun _ _ => trivial
        intro F id b
        obtain ⟨t, g1, g2⟩ := hall F id b
        refine ⟨t, ?_, g2⟩
        rw [← g1]
        unfold t_ell_print
        simp only [FStmt.exec, bind_assoc]
      obtain ⟨t, h1, -⟩ := h F f []
      unfold printRun
      rw [e, M_bind_ok']
      simp only [h1, M_bind_ok', List.nil_append]
      rfl
    exact ⟨key, by rw [key, (C73_print m hc hv none none (Or.inl rfl)).2.2]⟩

/-! ## Examples -/

/-- Arguments of `ell_solve_jacobi_2D`: three nodes, one field, right hand side 1, start at 0. -/
noncomputable def exJacLoc (mx : Int) : Loc ℝ :=
  { (Loc.none : Loc ℝ) with
    i := fun name => match name with
      | .m_nrow => some 3 | .m_ncol => some 3 | .m_nnz => some 9 | .nFields => some 1 | .nx => some 3 | .ny => some 1
      | .solver_max_its => some mx | _ => none
    d := fun name => match name with | .solver_min_tol => some (1 / 10) | _ => none
    iv := fun name => match name with | .m_cols => some (Vec.ofBuf (exM 0).cols) | _ => none
    v := fun name => match name with
      | .m_vals => some (Vec.ofBuf (exM 0).vals) | .x => some ⟨3, fun _ => some 0⟩ | .b => some ⟨3, fun _ => some 1⟩
      | _ => none }

theorem exJacLoc_args (mx : Int) :
    JacArgs (exJacLoc mx) ⟨mx, 0, 1 / 10, 0⟩ (exM 0) 1 3 1 ⟨3, fun _ => 1⟩ ⟨3, fun _ => 0⟩ :=
  ⟨⟨rfl, rfl, rfl, ⟨_, rfl, rfl, fun _ _ => rfl⟩, ⟨_, rfl, rfl, fun _ _ => rfl⟩⟩, ⟨_, rfl, rfl, fun _ _ => rfl⟩,
    ⟨_, rfl, rfl, fun _ _ => rfl⟩, rfl, rfl, rfl, rfl, rfl⟩

/-- Ten sweeps at most: the text returns, with a truthful error. -/
example (c : Cfg ℝ) (w : Work ℝ) : ∃ (t : St ℝ) (y : Nat → ℝ) (err : ℝ),
    Text.run c 2 .ell_solve_jacobi_2D ⟨w, exJacLoc 10⟩ = .ok t ∧ t.l.d .solver_err = some err ∧
      err = norm2 3 (fun i => op (exM 0) y i - 1) := by
  obtain ⟨t, y, err, its, h1, -, -, h2, -, h3, -⟩ := C101_truthful (c := c) (w := w) (exJacLoc_args 10) (exM_wf 0)
    (W := 9) rfl (by omega) rfl rfl rfl (by norm_num) 2 le_rfl
  exact ⟨t, y, err, h1, h2, h3⟩

/-- The same state and the model. -/
example (c : Cfg ℝ) (w : Work ℝ) : ∃ t sv' z, Text.run c 2 .ell_solve_jacobi_2D ⟨w, exJacLoc 10⟩ = .ok t ∧
    ellSolveJacobi2D (fun _ _ => 9) ⟨10, 0, 1 / 10, 0⟩ (some (exM 0)) 1 3 1 (some ⟨3, fun _ => 1⟩)
      (some ⟨3, fun _ => 0⟩) = .ok (0, sv', some z) ∧ BufOn (t.l.v .x) z fun _ => True := by
  obtain ⟨s, y, h1, -⟩ := C17_truthful (exM_wf 0) (b := ⟨3, fun _ => 1⟩) (x := ⟨3, fun _ => 0⟩) (nF := 1) (nx := 3)
    (ny := 1) (W := 9) rfl (by omega) rfl rfl rfl (fun _ _ => 9) ⟨10, 0, 1 / 10, 0⟩ (by norm_num)
  obtain ⟨t, z, e1, e2, -, e3, -⟩ := C101_jacobi (c := c) (w := w) litLaws_real (exJacLoc_args 10) (by decide)
    (by norm_num) h1 2 le_rfl
  cases e2
  exact ⟨t, s, _, e1, h1, e3⟩

/-- No sweep: the text stores a variable without a value. -/
example (c : Cfg ℝ) (w : Work ℝ) : Text.run c 2 .ell_solve_jacobi_2D ⟨w, exJacLoc 0⟩ = .error .uninit :=
  C101_jacobi_none litLaws_real (exJacLoc_args 0) (exM_wf 0) (W := 9) rfl (by omega) rfl (by norm_num) 2 le_rfl

/-- A matrix of two rows with one entry each. -/
example (c : Cfg ℝ) (w : Work ℝ) (F : Files ℝ) :
    printRun c w F .mats (some (2, 1, some ⟨2, fun i => i⟩, some ⟨2, fun i => i⟩)) = .ok (0,
      [.str "Cols = ", .endl, .str "row= ", .int 0, .int 0, .str " ", .endl,
        .str "row= ", .int 1, .int 1, .str " ", .endl,
        .str "Vals = ", .endl, .str "row= ", .int 0, .num (0 : Nat), .str " ", .endl,
        .str "row= ", .int 1, .num (1 : Nat), .str " ", .endl]) ∧
    printRun c w F .mats (some (2, 1, none, some ⟨2, fun i => i⟩)) = .ok (2, []) ∧
    printRun c w F .mats none = .ok (1, []) :=
  ⟨((C101_print c w F .mats).2.2 ⟨2, 2, 1, ⟨2, fun i => i⟩, ⟨2, fun i => i⟩⟩ (le_refl 2) (le_refl 2)).1,
    (C101_print c w F .mats).2.1 2 1 none _ (Or.inl rfl), (C101_print c w F .mats).1⟩

/-- The matrix of an object with a history. -/
example : ∃ s t, Reach exEnv exArgs3 exJunk exCalls s ∧ printRun s.obj.cfg s.obj.work s.files .mats
    (some (s.obj.work.A.nrow, s.obj.work.A.nnz, some s.obj.work.A.cols, some s.obj.work.A.vals)) = .ok (0, t) := by
  obtain ⟨s, hs⟩ := reach_exists exEnv_quick exArgs3_ok exJunk exCalls
  obtain ⟨-, hok⟩ := reach_built exArgs3_ok hs
  have hw := (hok.work.wf hok.cfg).1
  exact ⟨s, _, hs, ((C101_print s.obj.cfg s.obj.work s.files .mats).2.2 s.obj.work.A (by rw [hw.cols_size])
    (by rw [hw.vals_size])).1⟩

end Verif.Props
