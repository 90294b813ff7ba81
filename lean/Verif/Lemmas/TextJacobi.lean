import Verif.Lemmas.TextEll

/-!
# Executing the statements of `ell.cpp`: the relaxation solver
-/

namespace Verif.Text

variable {α : Type} [Scalar α] {c : Cfg α} {s : St α} {n : Nat} {m : Ell α}

theorem for_var {x : V} {hi : IExp} {b : Stmt} (h : s.l.i x = some 0) :
    (Stmt.for x (.var x) hi b).exec c (run c n) s = (Stmt.for x (.lit 0) hi b).exec c (run c n) s := by
  simp [Stmt.exec, IExp.eval, h, need]

theorem fails_seq {a b : Stmt} {P : St α → Prop} {e : Fault} (h : Gives (a.exec c (run c n) s) P)
    (k : ∀ t, Same (a.eff (runEff n)) s t → P t → b.exec c (run c n) t = .error e) :
    (a ;; b).exec c (run c n) s = .error e := by
  obtain ⟨t, h1, h2⟩ := h
  show (a.exec c (run c n) s >>= fun s => b.exec c (run c n) s) = _
  rw [h1]
  exact k t (exec_same (run_same n) a h1) h2

/-- The locals of the loop over the slots of a row. -/
structure RowOn (t : St α) (m : Ell α) (x : Buf α) (i j : Nat) (aux : α) : Prop where
  ell : EllOn t.l m
  x : BufOn (t.l.v .x) x fun _ => True
  i : t.l.i .i = some (i : Int)
  j : t.l.i .j = some (j : Int)
  aux : t.l.d .aux = some aux

/-- The test for the end of a row. -/
def rowEnd : BExp := .eqI (.rd .m_cols (.add (.mul (.var .i) (.var .m_nnz)) (.var .j))) (.lit (-1))

/-- The text after that test. -/
def rowStep : Stmt :=
  .ite (.eqI (.rd .m_cols (.add (.mul (.var .i) (.var .m_nnz)) (.var .j))) (.var .i)) .skip (
    .setD .aux (.add (.var .aux) (.mul (.rd1 .m_vals (.add (.mul (.var .i) (.var .m_nnz)) (.var .j)))
      (.rd1 .x (.rd .m_cols (.add (.mul (.var .i) (.var .m_nnz)) (.var .j))))))) ;;
  .setI .j (.add (.var .j) (.lit 1))

theorem ev_rowCol {x : Buf α} {i j : Nat} {aux : α} {k : Int} (h : RowOn s m x i j aux)
    (hk : m.cols.read (i * m.nnz + j) = .ok k) :
    (IExp.rd .m_cols (.add (.mul (.var .i) (.var .m_nnz)) (.var .j))).eval c s.l = .ok k := by
  obtain ⟨hE, hx, hi, hj, ha⟩ := h
  have hn := hE.nnz
  exact ev_bird hE.cols (by idx) hk (fun _ => trivial)

theorem Gives.rowStep {x : Buf α} {i j : Nat} {aux aux' : α} {k : Int} (h : RowOn s m x i j aux)
    (hk : m.cols.read (i * m.nnz + j) = .ok k)
    (hm : ifRun (k ≠ (i : Int)) (fun aux => do
          let a ← m.vals.read (i * m.nnz + j)
          let xc ← x.readI k
          pure (aux + a * xc)) aux = .ok aux') :
    Gives (rowStep.exec c (run c n) s) (fun t => RowOn t m x i (j + 1) aux') := by
  have d3 := ev_rowCol (c := c) h hk
  obtain ⟨hE, hx, hi, hj, ha⟩ := h
  have hn := hE.nnz
  refine Gives.seq (P := fun t => t.l.d .aux = some aux') ?_ ?_
  · unfold ifRun at hm
    by_cases hki : k = (i : Int)
    · rw [if_neg (by simpa using hki)] at hm
      cases hm
      exact Gives.ite_pos (ok_to (ev_eqI d3 (ev_ivar hi)) (by simp [hki])) ⟨s, rfl, ha⟩
    · rw [if_pos hki] at hm
      simp only [bind_ok_iff] at hm
      obtain ⟨a, e1, xc, e2, hm⟩ := hm
      cases hm
      refine Gives.ite_neg (ok_to (ev_eqI d3 (ev_ivar hi)) (by simp [hki])) ?_
      have d2 : (DExp.rd1 .m_vals (.add (.mul (.var .i) (.var .m_nnz)) (.var .j))).eval c s = .ok a :=
        ev_brd hE.vals (by idx) e1 (fun _ => trivial)
      have d4 : (DExp.rd1 .x (.rd .m_cols (.add (.mul (.var .i) (.var .m_nnz)) (.var .j)))).eval c s =
          .ok xc := ev_brdI hx d3 e2 (fun _ _ => trivial)
      exact Gives.setD (by ev)
  · intro t hs ha
    clear d3
    keep hs
    refine (Gives.setI (k := ((j + 1 : Nat) : Int)) (by idx)).same.mono ?_
    rintro t ⟨hs, hj⟩
    keep hs
    exact ⟨hE, hx, hi, hj, ha⟩

theorem Gives.rowIter {x : Buf α} {i : Nat} (N : Nat) {T j : Nat} {aux aux' : α} (hT : 0 < T)
    (hN : T ≤ N + 1) (hj : j + T = m.nnz) (h : RowOn s m x i j aux)
    (hm : jacobiRow m i x T j aux = .ok aux') :
    Gives (doIter (fun s => Stmt.skip.exec c (run c n) s) (fun s => Text.rowStep.exec c (run c n) s)
        (fun s => rowEnd.eval c s) (fun s => (BExp.ltI (.var .j) (.var .m_nnz)).eval c s) N s)
      (fun t => t.l.d .aux = some aux') := by
  induction N generalizing s T j aux with
  | zero =>
    obtain rfl : T = 1 := by omega
    rw [jacobiRow, bind_ok_iff] at hm
    obtain ⟨k, h1, hm⟩ := hm
    have hb : rowEnd.eval c s = .ok (decide (k = -1)) := ev_eqI (ev_rowCol h h1) (ev_ilit _)
    unfold doIter
    simp only [Stmt.exec, M_bind_ok', hb]
    by_cases hk : k = -1
    · rw [if_pos hk] at hm
      cases hm
      rw [if_pos (decide_eq_true hk)]
      exact ⟨s, rfl, h.aux⟩
    · rw [if_neg hk, bind_ok_iff] at hm
      rw [if_neg (by simpa using hk)]
      obtain ⟨a1, h2, hm⟩ := hm
      obtain ⟨t, e1, ht⟩ := Gives.rowStep (c := c) (n := n) h h1 h2
      rw [jacobiRow] at hm
      cases hm
      simp only [e1, M_bind_ok', ev_ltI (ev_ivar ht.j) (ev_ivar ht.ell.nnz)]
      rw [if_neg (by simp; omega)]
      exact ⟨t, rfl, ht.aux⟩
  | succ N ih =>
    obtain ⟨T, rfl⟩ : ∃ T', T = T' + 1 := ⟨T - 1, by omega⟩
    rw [jacobiRow, bind_ok_iff] at hm
    obtain ⟨k, h1, hm⟩ := hm
    have hb : rowEnd.eval c s = .ok (decide (k = -1)) := ev_eqI (ev_rowCol h h1) (ev_ilit _)
    unfold doIter
    simp only [Stmt.exec, M_bind_ok', hb]
    by_cases hk : k = -1
    · rw [if_pos hk] at hm
      cases hm
      rw [if_pos (decide_eq_true hk)]
      exact ⟨s, rfl, h.aux⟩
    · rw [if_neg hk, bind_ok_iff] at hm
      rw [if_neg (by simpa using hk)]
      obtain ⟨a1, h2, hm⟩ := hm
      obtain ⟨t, e1, ht⟩ := Gives.rowStep (c := c) (n := n) h h1 h2
      simp only [e1, M_bind_ok', ev_ltI (ev_ivar ht.j) (ev_ivar ht.ell.nnz)]
      by_cases h0 : T = 0
      · subst h0
        rw [jacobiRow] at hm
        cases hm
        rw [if_neg (by simp; omega)]
        exact ⟨t, rfl, ht.aux⟩
      · rw [if_pos (by simp; omega)]
        exact ih (by omega) (by omega) (by omega) ht hm

/-- The text of a sweep. -/
def jacSweep : Stmt :=
  .for .i (.var .i) (.var .m_nrow) (
    .setD .aux (.lit (nat_lit 0) true (nat_lit 1)) ;;
    .setI .j (.lit 0) ;;
    .ite (.ltI (.var .j) (.var .m_nnz)) (
      .doW (.var .m_nnz) .skip rowEnd Text.rowStep (.ltI (.var .j) (.var .m_nnz))) .skip ;;
    .st1 .x (.var .i) (.mul (.rd1 .k (.var .i)) (.add (.mul (.ofInt (.lit (-1))) (.var .aux))
      (.rd1 .b (.var .i)))))

theorem Gives.jacSweep (L : LitLaws α) {k b x x' : Buf α} (hE : EllOn s.l m)
    (hk : BufOn (s.l.v .k) k (· < m.nrow)) (hb : BufOn (s.l.v .b) b fun _ => True)
    (hx : BufOn (s.l.v .x) x fun _ => True) (h0 : s.l.i .i = some 0)
    (hm : jacobiSweep m k b x = .ok x') :
    Gives (jacSweep.exec c (run c n) s) (fun t => BufOn (t.l.v .x) x' fun _ => True) := by
  have z1 : (OfScientific.ofScientific 0 true 1 : α) = 0 := L.zeroD
  have zm : (ofInt (-1) : α) = -1 := by show -((1 : Nat) : α) = _; rw [L.one]
  unfold Text.jacSweep
  rw [for_var h0]
  refine Gives.sim (σ := Buf α) (fun x t => BufOn (t.l.v .x) x fun _ => True) (by intro _ _ _ h; exact h)
    (by have := hE.nrow; idx) hm hx ?_
  clear hx
  intro i t x x' hi hs hti hx hf
  keep hs
  simp only [bind_ok_iff] at hf
  obtain ⟨aux, e1, ki, e2, bi, e3, hf⟩ := hf
  refine Gives.seq (Gives.setD (ok_to (ev_lit _ _ _) z1)) ?_
  intro t hs ha
  keep hs
  refine Gives.seq (Gives.setI (k := ((0 : Nat) : Int)) rfl) ?_
  intro t hs hj
  keep hs
  refine Gives.seq (P := fun t => t.l.d .aux = some aux) ?_ ?_
  · by_cases hz : m.nnz = 0
    · rw [hz, jacobiRow] at e1
      cases e1
      refine Gives.ite_neg (ok_to (ev_ltI (ev_ivar hj) (ev_ivar hE.nnz)) (by simp [hz])) ⟨t, rfl, ha⟩
    · refine Gives.ite_pos (ok_to (ev_ltI (ev_ivar hj) (ev_ivar hE.nnz)) (by simp; omega)) ?_
      have := Gives.rowIter (c := c) (n := n) (s := t) m.nnz (T := m.nnz) (j := 0) (i := i) (by omega) (by omega)
        (by omega) ⟨hE, hx, hti, hj, ha⟩ e1
      simpa only [Stmt.exec, ev_ivar hE.nnz, M_bind_ok', Int.toNat_natCast] using this
  · intro t hs ha
    keep hs
    have d1 : (DExp.rd1 .k (.var .i)).eval c t = .ok ki := ev_brd hk (by idx) e2 (fun _ => hi)
    have d2 : (DExp.rd1 .b (.var .i)).eval c t = .ok bi := ev_brd hb (by idx) e3 (fun _ => trivial)
    have d3 : (DExp.ofInt (.lit (-1))).eval c t = .ok (-1 : α) := ok_to (ev_ofInt (ev_ilit _)) zm
    exact (Gives.bst hx (by idx) (by ev) hf).mono fun t h => h.mono fun _ _ => Or.inl trivial

/-- The locals of the solver at the start of a sweep. -/
structure JacOn (t : St α) (m : Ell α) (k b : Buf α) (mx : Int) (tol : α) (its : Nat) (x e : Buf α) : Prop where
  ell : EllOn t.l m
  k : BufOn (t.l.v .k) k (· < m.nrow)
  b : BufOn (t.l.v .b) b fun _ => True
  x : BufOn (t.l.v .x) x fun _ => True
  e : BufOn (t.l.v .e_i) e fun _ => False
  its : t.l.i .its = some (its : Int)
  mx : t.l.i .max_its = some mx
  tol : t.l.d .min_tol = some tol

/-- The text in front of the `break`. -/
def jacHead : Stmt :=
  .setD .err (.ofInt (.lit 0)) ;;
  .setI .i (.lit 0) ;;
  Text.jacSweep ;;
  .setD .err (.ofInt (.lit 0)) ;;
  .call .ell_mvp_2D [.ell, .ref .x, .ref .e_i] ;;
  .for .i (.lit 0) (.var .m_nrow) (
    .st1 .e_i (.var .i) (.sub (.rd1 .e_i (.var .i)) (.rd1 .b (.var .i))) ;;
    .setD .err (.add (.var .err) (.mul (.rd1 .e_i (.var .i)) (.rd1 .e_i (.var .i))))) ;;
  .setD .err (.sqrt (.var .err))

theorem Gives.jacHead (L : LitLaws α) {k b : Buf α} {mx : Int} {tol err : α} {its : Nat} {x x' e e' : Buf α}
    (h : JacOn s m k b mx tol its x e) (h1 : jacobiSweep m k b x = .ok x')
    (h2 : jacobiErr m b x' e = .ok (err, e')) :
    Gives (jacHead.exec c (run c (n + 1)) s)
      (fun t => JacOn t m k b mx tol its x' e' ∧ t.l.d .err = some err) := by
  obtain ⟨hE, hk, hb, hx, he, hits, hmx, htol⟩ := h
  have z0 := ofInt_zero' (α := α) L
  unfold jacobiErr at h2
  simp only [bind_ok_iff] at h2
  obtain ⟨e1, a1, ⟨q, e2⟩, a2, h2⟩ := h2
  cases h2
  refine Gives.seq (Gives.setD (ok_to (ev_ofInt (ev_ilit 0)) z0)) ?_
  intro t hs _
  keep hs
  refine Gives.seq (Gives.setI rfl) ?_
  intro t hs hi
  keep hs
  refine Gives.seq (Gives.jacSweep L hE hk hb hx hi h1) ?_
  clear hx
  intro t hs hx
  keep hs
  refine Gives.seq (Gives.setD (ok_to (ev_ofInt (ev_ilit 0)) z0)) ?_
  intro t hs hz
  keep hs
  refine Gives.seq (Gives.callMvp L (by decide) (by decide) (by decide) hE hx (fun _ _ => trivial) he a1) ?_
  clear hE hx he
  rintro t hs ⟨hE, hx, he⟩
  keep hs
  refine Gives.seq (P := fun t => t.l.d .err = some q ∧ BufOn (t.l.v .e_i) e2 (· < m.nrow)) ?_ ?_
  · refine Gives.sim (σ := α × Buf α) (fun p t => t.l.d .err = some p.1 ∧ BufOn (t.l.v .e_i) p.2 (· < m.nrow))
      (by intro _ _ _ h; exact h) (by have := hE.nrow; idx) a2 ⟨hz, he.mono fun _ h => Or.inr h⟩ ?_
    clear hz he
    rintro i t ⟨q, e⟩ ⟨q', e'⟩ hi hs hti ⟨hz, he⟩ hf
    keep hs
    simp only [bind_ok_iff] at hf
    obtain ⟨ei, b1, bi, b2, e3, b3, ej, b4, hf⟩ := hf
    cases hf
    have d1 : (DExp.rd1 .e_i (.var .i)).eval c t = .ok ei := ev_brd he (by idx) b1 (fun _ => hi)
    have d2 : (DExp.rd1 .b (.var .i)).eval c t = .ok bi := ev_brd hb (by idx) b2 (fun _ => trivial)
    refine Gives.seq (Gives.bst he (by idx) (by ev) b3) ?_
    clear d1 d2 he
    intro t hs he
    keep hs
    have d1 : (DExp.rd1 .e_i (.var .i)).eval c t = .ok ej := ev_brd he (by idx) b4 (fun _ => Or.inl hi)
    refine (Gives.setD (by ev)).same.mono ?_
    clear d1
    rintro t ⟨hs, hz⟩
    keep hs
    exact ⟨hz, he.mono fun _ h => Or.inl h⟩
  · rintro t hs ⟨hz, he⟩
    keep hs
    refine (Gives.setD (by ev)).same.mono ?_
    rintro t ⟨hs, hz⟩
    keep hs
    exact ⟨⟨hE, hk, hb, hx, he.mono fun _ h => h.elim, hits, hmx, htol⟩, hz⟩

theorem Gives.jacIter (L : LitLaws α) {k b : Buf α} {mx : Int} {tol : α} (N : Nat) {T its its' : Nat} {err err' : α}
    {x x' e : Buf α} (hT : 0 < T) (hN : T ≤ N + 1) (hi : ((its + T : Nat) : Int) = mx)
    (h : JacOn s m k b mx tol its x e) (hm : jacobiLoop m k b tol T its err x e = .ok (err', its', x')) :
    Gives (doIter (fun s => Text.jacHead.exec c (run c (n + 1)) s)
        (fun s => (Stmt.setI .its (.add (.var .its) (.lit 1))).exec c (run c (n + 1)) s)
        (fun s => (BExp.ltD (.var .err) (.var .min_tol)).eval c s)
        (fun s => (BExp.ltI (.var .its) (.var .max_its)).eval c s) N s)
      (fun t => EllOn t.l m ∧ BufOn (t.l.v .b) b (fun _ => True) ∧ BufOn (t.l.v .x) x' (fun _ => True) ∧
        t.l.i .its = some (its' : Int) ∧ t.l.d .err = some err') := by
  induction N generalizing s T its err x e with
  | zero =>
    obtain rfl : T = 1 := by omega
    simp only [jacobiLoop, bind_ok_iff] at hm
    obtain ⟨x1, h1, ⟨er, e1⟩, h2, hm⟩ := hm
    obtain ⟨t, a1, ht, he⟩ := Gives.jacHead (c := c) (n := n) L h h1 h2
    unfold doIter
    simp only [a1, M_bind_ok', ev_ltD (ev_var he) (ev_var ht.tol)]
    split at hm
    · rename_i hlt
      cases hm
      rw [if_pos hlt]
      exact ⟨t, rfl, ht.ell, ht.b, ht.x, ht.its, he⟩
    · rename_i hlt
      cases hm
      rw [if_neg hlt]
      obtain ⟨hE, hk, hb, hx, hee, hits, hmx, htol⟩ := ht
      obtain ⟨t', a2, hs, hits'⟩ := (Gives.setI (c := c) (n := n + 1) (s := t) (x := .its)
        (e := .add (.var .its) (.lit 1)) (k := ((its + 1 : Nat) : Int)) (by clear hi; idx)).same
      simp only [a2, M_bind_ok']
      keep hs
      simp only [M_bind_ok', ev_ltI (ev_ivar hits') (ev_ivar hmx)]
      rw [if_neg (by simp; omega)]
      exact ⟨t', rfl, hE, hb, hx, hits', he⟩
  | succ N ih =>
    obtain ⟨T, rfl⟩ : ∃ T', T = T' + 1 := ⟨T - 1, by omega⟩
    simp only [jacobiLoop, bind_ok_iff] at hm
    obtain ⟨x1, h1, ⟨er, e1⟩, h2, hm⟩ := hm
    obtain ⟨t, a1, ht, he⟩ := Gives.jacHead (c := c) (n := n) L h h1 h2
    unfold doIter
    simp only [a1, M_bind_ok', ev_ltD (ev_var he) (ev_var ht.tol)]
    split at hm
    · rename_i hlt
      cases hm
      rw [if_pos hlt]
      exact ⟨t, rfl, ht.ell, ht.b, ht.x, ht.its, he⟩
    · rename_i hlt
      rw [if_neg hlt]
      obtain ⟨hE, hk, hb, hx, hee, hits, hmx, htol⟩ := ht
      obtain ⟨t', a2, hs, hits'⟩ := (Gives.setI (c := c) (n := n + 1) (s := t) (x := .its)
        (e := .add (.var .its) (.lit 1)) (k := ((its + 1 : Nat) : Int)) (by clear hi; idx)).same
      simp only [a2, M_bind_ok']
      keep hs
      simp only [M_bind_ok', ev_ltI (ev_ivar hits') (ev_ivar hmx)]
      by_cases h0 : T = 0
      · subst h0
        rw [jacobiLoop] at hm
        cases hm
        rw [if_neg (by simp; omega)]
        exact ⟨t', rfl, hE, hb, hx, hits', he⟩
      · rw [if_pos (by simp; omega)]
        exact ih (by omega) (by omega) (by push_cast at hi ⊢; omega) ⟨hE, hk, hb, hx, hee, hits', hmx, htol⟩ hm

/-- The text of the solver. -/
def jacText : Stmt :=
  .malloc .k (.var .m_nrow) ;;
  .malloc .e_i (.var .m_nrow) ;;
  .setI .nn (.mul (.var .nx) (.var .ny)) ;;
  .for .i (.lit 0) (.var .nn) (
    .for .d (.lit 0) (.var .nFields) (
      .st1 .k (.add (.mul (.var .i) (.var .nFields)) (.var .d)) (.div (.ofInt (.lit 1)) (.rd1 .m_vals (.add (.add (.add (.mul (.mul (.var .i) (.var .nFields)) (.var .m_nnz)) (.mul (.lit 4) (.var .nFields))) (.mul (.var .d) (.var .m_nnz))) (.var .d)))))) ;;
  .setI .its (.lit 0) ;;
  .setI .max_its (.var .solver_max_its) ;;
  .declD .err ;;
  .setD .min_tol (.var .solver_min_tol) ;;
  .ite (.ltI (.var .its) (.var .max_its)) (
    .doW (.var .max_its) Text.jacHead (.ltD (.var .err) (.var .min_tol)) (
      .setI .its (.add (.var .its) (.lit 1))) (.ltI (.var .its) (.var .max_its))) .skip ;;
  .setD .solver_err (.var .err) ;;
  .setI .solver_its (.var .its) ;;
  .setI .ret (.lit 0)

theorem jacText_eq : t_ell_solve_jacobi_2D = jacText := rfl

theorem run_jacobi_2D (L : LitLaws α) {sv sv' : EllSolver α} {nF nx ny : Nat} {b x : Buf α} {x' : Option (Buf α)} {r : Int}
    {junk : Nat → Nat → α} (hE : EllOn s.l m) (hx : BufOn (s.l.v .x) x fun _ => True)
    (hb : BufOn (s.l.v .b) b fun _ => True) (hF : s.l.i .nFields = some (nF : Int))
    (hnx : s.l.i .nx = some (nx : Int)) (hny : s.l.i .ny = some (ny : Int))
    (hmx : s.l.i .solver_max_its = some sv.maxIts) (htol : s.l.d .solver_min_tol = some sv.minTol)
    (hrow : m.nrow ≤ nx * ny * nF) (hpos : 0 < sv.maxIts)
    (hm : ellSolveJacobi2D junk sv (some m) nF nx ny (some b) (some x) = .ok (r, sv', x')) :
    Gives (run c (n + 2) .ell_solve_jacobi_2D s) (fun t => EllOn t.l m ∧
      (∃ y, x' = some y ∧ BufOn (t.l.v .x) y (fun _ => True)) ∧ BufOn (t.l.v .b) b (fun _ => True) ∧
      t.l.d .solver_err = some sv'.err ∧ t.l.i .solver_its = some sv'.its ∧ t.l.i .ret = some r) := by
  show Gives (t_ell_solve_jacobi_2D.exec c (run c (n + 1)) s) _
  rw [jacText_eq]
  simp only [ellSolveJacobi2D, bind_ok_iff] at hm
  obtain ⟨k, e1, ⟨err, its, x1⟩, e2, hm⟩ := hm
  cases hm
  refine Gives.seq (Gives.malloc (N := m.nrow) (by have := hE.nrow; idx) (junk 0)) ?_
  intro t hs hk
  keep hs
  refine Gives.seq (Gives.malloc (N := m.nrow) (by have := hE.nrow; idx) (junk 1)) ?_
  intro t hs he
  keep hs
  refine Gives.seq (Gives.setI (k := ((nx * ny : Nat) : Int)) (by idx)) ?_
  intro t hs hnn
  keep hs
  refine Gives.seq (Gives.diag L hE hF (by idx) hk e1) ?_
  clear hk
  intro t hs hk
  keep hs
  refine Gives.seq (Gives.setI (k := ((0 : Nat) : Int)) rfl) ?_
  intro t hs hits
  keep hs
  refine Gives.seq (Gives.setI (by idx)) ?_
  intro t hs hmax
  keep hs
  refine Gives.seq Gives.declD ?_
  intro t hs _
  keep hs
  refine Gives.seq (Gives.setD (by ev)) ?_
  intro t hs hmin
  keep hs
  refine Gives.seq (P := fun t => EllOn t.l m ∧ BufOn (t.l.v .b) b (fun _ => True) ∧
    BufOn (t.l.v .x) x1 (fun _ => True) ∧ t.l.i .its = some (its : Int) ∧ t.l.d .err = some err) ?_ ?_
  · refine Gives.ite_pos (ok_to (ev_ltI (ev_ivar hits) (ev_ivar hmax)) (by simpa using hpos)) ?_
    have := Gives.jacIter (c := c) (n := n) (s := t) L sv.maxIts.toNat (T := sv.maxIts.toNat) (its := 0)
      (mx := sv.maxIts) (by omega) (by omega) (by omega)
      ⟨hE, hk.mono fun q hq => by omega, hb, hx, he, hits, hmax, hmin⟩ e2
    simpa only [Stmt.exec, ev_ivar hmax, M_bind_ok'] using this
  clear hE hb hx hits
  rintro t hs ⟨hE, hb, hx, hits, herr⟩
  keep hs
  refine Gives.seq (Gives.setD (by ev)) ?_
  intro t hs h1
  keep hs
  refine Gives.seq (Gives.setI (by ev)) ?_
  intro t hs h2
  keep hs
  refine (Gives.setI rfl).same.mono ?_
  rintro t ⟨hs, h3⟩
  keep hs
  exact ⟨hE, ⟨_, rfl, hx⟩, hb, h1, h2, h3⟩

/-- Without an iteration `err` has no value. -/
theorem run_jacobi_none (L : LitLaws α) {sv : EllSolver α} {nF nx ny : Nat} {k' : Buf α} {junk : Nat → α}
    (hE : EllOn s.l m) (hF : s.l.i .nFields = some (nF : Int))
    (hnx : s.l.i .nx = some (nx : Int)) (hny : s.l.i .ny = some (ny : Int))
    (hmx : s.l.i .solver_max_its = some sv.maxIts) (htol : s.l.d .solver_min_tol = some sv.minTol)
    (hpos : sv.maxIts ≤ 0) (hm : diagLoop m nF (nx * ny) 4 ⟨m.nrow, junk⟩ = .ok k') :
    run c (n + 2) .ell_solve_jacobi_2D s = .error .uninit := by
  show t_ell_solve_jacobi_2D.exec c (run c (n + 1)) s = _
  rw [jacText_eq]
  refine fails_seq (Gives.malloc (N := m.nrow) (by have := hE.nrow; idx) junk) ?_
  intro t hs hk
  keep hs
  refine fails_seq (Gives.malloc (N := m.nrow) (by have := hE.nrow; idx) (fun _ => 0)) ?_
  intro t hs he
  keep hs
  refine fails_seq (Gives.setI (k := ((nx * ny : Nat) : Int)) (by idx)) ?_
  intro t hs hnn
  keep hs
  refine fails_seq (Gives.diag L hE hF (by idx) hk hm) ?_
  clear hk
  intro t hs hk
  keep hs
  refine fails_seq (Gives.setI (k := ((0 : Nat) : Int)) rfl) ?_
  intro t hs hits
  keep hs
  refine fails_seq (Gives.setI (by idx)) ?_
  intro t hs hmax
  keep hs
  refine fails_seq (P := fun t => t.l.d .err = none) ⟨_, rfl, by simp [upd]⟩ ?_
  intro t hs herr
  keep hs
  refine fails_seq (Gives.setD (by ev)) ?_
  intro t' hs hmin
  replace herr : t'.l.d .err = none := (hs.d .err rfl).trans herr
  keep hs
  refine fails_seq (P := fun t => t.l.d .err = none) (Gives.ite_neg (ok_to (ev_ltI (ev_ivar hits) (ev_ivar hmax))
    (by simpa using hpos)) ⟨t', rfl, herr⟩) ?_
  intro t hs herr
  show ((DExp.var .err).eval c t >>= _) >>= _ = _
  simp only [DExp.eval, herr, need]
  rfl

end Verif.Text
