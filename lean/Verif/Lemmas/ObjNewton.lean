import Verif.Lemmas.ObjRun

/-!
# The source text of `newton_raphson` computes that of the model
-/

namespace Verif.Text

variable {α : Type} [Scalar α] {c : Cfg α} {env : Env α} {s : St α}

theorem nz_pos' (hc : c.Ok) : 1 ≤ c.nz := by
  rcases hc.dim with hd | hd
  · rw [hc.nz2 hd]
  · have := hc.nz3 hd; omega

theorem nrMaxTol_eq : (OfScientific.ofScientific 10 true 6 : α) = nrMaxTol := rfl

/-- `assembly_rhs` as a statement. -/
theorem gives_rhs (L : LitLaws α) (hc : c.Ok) {w : Work α} {r : RhsOut α} (hw : s.w = w)
    (hm : assemblyRhs c w = .ok r) {x y : V} :
    Gives ((Stmt.call .assembly_rhs [.ref x, .ref y]).exec c (run c 6) s) (fun t =>
      t.l.d y = some r.norm ∧ t.l.i x = some (if r.nl = true then 1 else 0) ∧ t.w = r.work) := by
  refine Gives.call' (Q := fun t => t.l.d .ret = some r.norm ∧
    t.l.i .non_linear = some (if r.nl = true then 1 else 0) ∧ t.w = r.work)
    ⟨_, rfl, ?_⟩ (fun _ h => ⟨?_, ?_, ?_⟩)
  · rcases hc.dim with hd | hd
    · exact run_assembly_rhs2 (n := 1) L hw hd hm hc.nx hc.ny (nz_pos' hc)
    · exact run_assembly_rhs3 (n := 1) L hw hd hm hc.nx hc.ny (nz_pos' hc)
  · exact (if_pos rfl).trans h.1
  · exact (if_pos rfl).trans h.2.1
  · exact h.2.2

/-- `assembly_mat` as a statement. -/
theorem gives_mat (L : LitLaws α) (hc : c.Ok) {w w' : Work α} (hw : s.w = w)
    (hm : assemblyMat c w = .ok w') :
    Gives ((Stmt.call .assembly_mat []).exec c (run c 6) s) (fun t => t.w = w') := by
  refine Gives.call' (Q := fun t => t.w = w') ⟨_, rfl, ?_⟩ (fun _ h => h)
  rcases hc.dim with hd | hd
  · exact run_assembly_mat2 (n := 3) L hw hd hc.nx hc.ny hm
  · exact run_assembly_mat3 (n := 0) L hw hd hc.nx hc.ny (hc.nz3 hd) hm

/-- `solve` as a statement. -/
theorem gives_solve (L : LitLaws α) (hc : c.Ok) {w w' : Work α} (hw : s.w = w) (hok : w.Ok c)
    (hm : solve env c w = .ok w') {call : OFn → St α → M (St α)} :
    Gives (OStmt.solve.exec env c call s) (fun t => t.w = w') := by
  have h : Gives ((Stmt.call .solve []).exec c (run c 6) s)
      (fun t => { t.w with tick := t.w.tick + 1 } = w') := by
    refine Gives.call' (Q := fun t => { t.w with tick := t.w.tick + 1 } = w') ⟨_, rfl, ?_⟩ (fun _ h => h)
    exact run_solve (env := env) (n := 3) L hw hc.dim (hok.wf hc).2
      (fun hd => by simp [Cfg.nn, hc.nz2 hd]) hm
  exact h.bind fun t ht => Gives.ok ht

/-- What a pass of the Newton loop leaves. -/
structure NrOn (z : NrOut α) (t : St α) : Prop where
  w : t.w = z.work
  nl : t.l.i .nl_flag = some (if z.nl = true then 1 else 0)
  its : t.l.i .its = some z.its
  err : t.l.d .err = some z.err

theorem run_newton (L : LitLaws α) (hc : c.Ok) {w : Work α} (hok : w.Ok c) (hw : s.w = w) (n : Nat) :
    Agrees (oRun env c (n + 1) .newton_raphson s) (newtonRaphson env c w)
      (fun z t => NrOn z t ∧ Frame c w z.work) := by
  have key : Agrees (oRun env c (n + 1) .newton_raphson s) (newtonRaphson env c w) NrOn := by
    show Agrees (o_newton_raphson.exec env c (oRun env c n) s) _ _
    have hz : (OfScientific.ofScientific 0 true 1 : α) = 0 := L.zeroD
    refine Agrees.seqL (P := fun t => t.l.i .its_off = some ((0 : Nat) : Int) ∧ t.l.i .its = some 0 ∧ t.w = w) ?_ ?_
    · show Gives (Stmt.exec c (run c 6) _ s) _
      refine Gives.seq (Gives.setI (k := 0) rfl) ?_
      intro s hs h1; keep hs
      refine Gives.seq (Gives.setI (k := 0) rfl) ?_
      intro s hs h2; keep hs
      refine (Gives.setD rfl).same.mono ?_
      rintro t ⟨hs, h3⟩
      keep hs
      exact ⟨h1, h2, hw⟩
    rintro s1 - ⟨h1, h2, hw1⟩
    clear hw
    revert s1
    intro s h1 h2 hw
    show Agrees (doLoop _ _ _ _ env.fuel s) (nrLoop env c env.fuel w) _
    generalize env.fuel = fuel
    generalize hk : (0 : Nat) = k at h1
    clear hk
    induction fuel generalizing s w k with
    | zero => exact rfl
    | succ fuel ih =>
      unfold doLoop nrLoop
      obtain ⟨b, vn, nm, nl, e1, e2⟩ := rhs_ok hc hok
      rw [e1, M_bind_ok']
      have g1 := (gives_rhs L hc hw e1 (x := .nl_flag) (y := .err)).same
      refine Agrees.left g1 ?_
      rintro t ⟨hs, herr, hnl, hw1⟩
      keep hs
      simp only at herr hnl hw1
      have hb : (BExp.ltD (.var .err) (.lit 10 true 6)).eval c t = .ok (Scalar.lt nm nrMaxTol) :=
        ev_ltD (ev_var herr) (ev_lit _ _ _)
      simp only [hb, M_bind_ok']
      by_cases hlt : Scalar.lt nm (nrMaxTol : α) = true
      · simp only [hlt, if_true]
        exact Agrees.ok (Gives.ok ⟨hw1, hnl, h2, herr⟩)
      simp only [hlt]
      obtain ⟨A, vn', du, e3, e4, e5, e6⟩ := nrCorrect_eq (env := env) hc e2.ok
      rw [if_neg (by simp), if_neg (by simp), e5, M_bind_ok']
      -- one correction
      have g2 : ∀ {γ : Type} (m : M γ) (R : γ → St α → Prop),
          (∀ t', t'.w = { { w with b := b, varsNew := vn } with
                A := A, varsNew := vn', du := du, tick := w.tick + 1,
                u := ⟨c.nn * c.dim, fun k => if k < c.nn * c.dim then w.u.val k + du.val k else w.u.val k⟩ } →
            t'.l.i .its = some 0 → t'.l.i .its_off = some ((k + 1 : Nat) : Int) →
            t'.l.d .err = some nm → t'.l.i .nl_flag = some (if nl = true then 1 else 0) →
            Agrees ((OStmt.peek .its_past).exec env c (oRun env c n) t') m R) →
          Agrees (OStmt.exec env c (oRun env c n)
            (.base (.call .assembly_mat [] ;;
              .for .i (.lit 0) (.mul (.mem .nn) (.mem .dim)) (
                .memSt .du (.var .i) (.lit (nat_lit 0) true (nat_lit 1)))) ;;;
            .solve ;;;
            .base (
              .for .i (.lit 0) (.mul (.mem .nn) (.mem .dim)) (
                .memSt .u (.var .i) (.add (.memRd .u (.var .i)) (.memRd .du (.var .i)))) ;;
              .setI .its_off (.add (.var .its_off) (.lit 1))) ;;;
            .ite (.eqI (.var .its_off) (.lit 0)) (.base (.setI .its_past (.var .its)))
              (.peek .its_past)) t) m R := by
        intro γ m R hend
        have hN : ∀ l : Loc α, (IExp.mul (.mem .nn) (.mem .dim)).eval c l = .ok ((c.nn * c.dim : Nat) : Int) := by
          intro l; exact ok_to (ev_imul (ev_imem _) (ev_imem _)) (by simp [GI.get])
        refine Agrees.seqL (P := fun t => t.w = { w with
            b := b, A := A, varsNew := vn'
            du := ⟨c.nn * c.dim, fun k => if k < c.nn * c.dim then 0 else w.du.val k⟩ }) ?_ ?_
        · show Gives (Stmt.exec c (run c 6) _ t) _
          refine Gives.seq (gives_mat L hc hw1 e3) ?_
          intro s hs hw2; keep hs
          refine (Gives.memLoop (g := .du) (ix := fun k => k) hw2 (hN _) (zeroDu_eq e2.ok.du) ?_)
          intro i u q q' hi hs hti hu hf
          exact ⟨0, ev_ivar hti, ok_to (ev_lit _ _ _) hz, hf⟩
        intro s hs hw2; keep hs
        have e7 := e2.ok
        refine Agrees.seqL (gives_solve (env := env) (w' := { w with
            b := b, A := A, varsNew := vn', du := du, tick := w.tick + 1 }) L hc hw2 ?_ e4) ?_
        · exact ⟨e2.ok.u, rfl, e2.ok.b, e2.ok.elemStress, e2.ok.elemStrain, e2.ok.varsOld, e6.ok.varsNew,
            e6.ok.A2, e6.ok.A3⟩
        intro s hs hw3; keep hs
        refine Agrees.seqL (P := fun t => t.l.i .its_off = some ((k + 1 : Nat) : Int) ∧ t.w =
            { { w with b := b, varsNew := vn } with
                A := A, varsNew := vn', du := du, tick := w.tick + 1,
                u := ⟨c.nn * c.dim, fun k => if k < c.nn * c.dim then w.u.val k + du.val k else w.u.val k⟩ }) ?_ ?_
        · show Gives (Stmt.exec c (run c 6) _ s) _
          refine Gives.seq (Gives.memLoop (g := .u) (ix := fun k => k) hw3 (hN _)
            (addLoop_eq e2.ok.u e6.ok.du) ?_) ?_
          · intro i u q q' hi hs hti hu hf
            simp only [bind_ok_iff] at hf
            obtain ⟨x, f1, y, f2, f3⟩ := hf
            exact ⟨_, ev_ivar hti, ev_add (ev_memRead (ev_ivar hti) (by rw [hu]; rfl) f1)
              (ev_memRead (ev_ivar hti) (by rw [hu]; rfl) f2), f3⟩
          intro s hs hw4; keep hs
          refine (Gives.setI (k := ((k + 1 : Nat) : Int)) (ok_to (ev_iadd (ev_ivar h1) (ev_ilit 1)) (by push_cast; rfl))).same.mono ?_
          rintro t ⟨hs, h⟩
          keep hs
          exact ⟨h, hw4⟩
        rintro s hs ⟨h1', hw4⟩; keep hs
        refine Agrees.ite_neg (ok_to (ev_eqI (ev_ivar h1') (ev_ilit 0)) ?_) ?_
        · simp; omega
        exact hend s hw4 h2 h1' herr hnl
      simp only
      cases hp : env.peek (w.tick + 1) with
      | none =>
        have g3 := g2 (γ := Unit) (.error .oob) (fun _ _ => True) (by
          intro t' hw4 _ _ _ _
          show OStmt.exec env c (oRun env c n) (.peek .its_past) t' = _
          unfold OStmt.exec
          rw [hw4]
          simp only [hp])
        have g3 : _ = Except.error Fault.oob := g3
        rw [g3]; rfl
      | some v =>
        have g3 := g2 (γ := Unit) (.ok ()) (fun _ t' => t'.w = { { w with b := b, varsNew := vn } with
                A := A, varsNew := vn', du := du, tick := w.tick + 1 + 1,
                u := ⟨c.nn * c.dim, fun k => if k < c.nn * c.dim then w.u.val k + du.val k else w.u.val k⟩ } ∧
            t'.l.i .its = some 0 ∧ t'.l.i .its_off = some ((k + 1 : Nat) : Int) ∧
            t'.l.d .err = some nm ∧ t'.l.i .nl_flag = some (if nl = true then 1 else 0) ∧
            t'.l.i .its_past = some v) (by
          intro t' hw4 f1 f2 f3 f4
          refine Agrees.ok ⟨_, by unfold OStmt.exec; rw [hw4]; simp only [hp]; rfl, ?_, ?_, ?_, ?_, ?_, ?_⟩
          · simp only [St.event, hw4]
          · simpa [St.event, upd] using f1
          · simpa [St.event, upd] using f2
          · exact f3
          · simpa [St.event, upd] using f4
          · simp [St.event, upd])
        refine Agrees.left (P := _) g3 ?_
        rintro t' ⟨hw5, f1, f2, f3, f4, f5⟩
        have hw : (BExp.and (.ltI (.var .its_past) (.lit 40)) (.ltD (.lit 10 true 6) (.var .err))).eval c t'
            = .ok (decide (v < nrMaxIts ∧ Scalar.lt nrMaxTol nm = true)) := by
          simp only [BExp.eval, ev_ivar f5, ev_ilit, ev_lit, ev_var f3, M_bind_ok', M_pure]
          by_cases hv : v < 40
          · simp [hv, nrMaxIts, nrMaxTol_eq]
          · simp [hv, nrMaxIts]
        simp only [hw, M_bind_ok', decide_eq_true_eq]
        by_cases hcnd : v < nrMaxIts ∧ Scalar.lt nrMaxTol nm = true
        · rw [if_pos hcnd, if_pos hcnd]
          exact ih (Frame.tick' e6 (Nat.le_succ _)).ok t' f1 hw5 (k + 1) f2
        · rw [if_neg hcnd, if_neg hcnd]
          exact Agrees.ok (Gives.ok ⟨hw5, f4, f1, f3⟩)
  refine key.mono fun z t hm h => ⟨h, ?_⟩
  rcases newtonRaphson_safe (env := env) hc hok with ⟨x, h1, h2⟩ | ⟨h1, -⟩ | ⟨h1, -⟩
  · rw [hm] at h1; cases h1; exact h2
  · rw [hm] at h1; cases h1
  · rw [hm] at h1; cases h1

end Verif.Text
