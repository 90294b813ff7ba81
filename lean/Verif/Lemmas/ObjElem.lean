import Verif.Lemmas.ObjList
import Verif.Lemmas.TextInit3

/-!
# Runs of the functions that assign the material of the elements
-/

namespace Verif.Text

variable {α : Type} [Scalar α] {c : Cfg α} {env : Env α} {s : St α}

/-- The value returned by a comparison. -/
theorem gives_ltRet {n : Nat} {a b : DExp} {x y : α} (ha : a.eval c s = .ok x) (hb : b.eval c s = .ok y) :
    Gives ((Stmt.ite (.ltD a b) (.setI .ret (.lit 1)) (.setI .ret (.lit 0))).exec c (run c n) s)
      (fun t => t.l.i .ret = some (if Scalar.lt x y = true then 1 else 0)) := by
  by_cases h : Scalar.lt x y = true
  · refine Gives.ite_pos (ok_to (ev_ltD ha hb) h) ((Gives.setI (ev_ilit _)).mono fun t ht => ?_)
    rw [ht, if_pos h]
  · refine Gives.ite_neg (ok_to (ev_ltD ha hb) (by simpa using h)) ((Gives.setI (ev_ilit _)).mono fun t ht => ?_)
    rw [ht, if_neg h]

theorem run_elem2D {ex ey : Nat} (hx : s.l.i .ex = some (ex : Int)) (hy : s.l.i .ey = some (ey : Int)) (n : Nat) :
    Agrees (oRun env c (n + 1) .get_elem_type2D s) (getElemType2D c ex ey)
      (fun y t => t.l.i .ret = some y ∧ t.w = s.w) := by
  show Agrees (o_get_elem_type2D.exec env c (oRun env c n) s) _ _
  obtain ⟨w, hw⟩ : ∃ w, s.w = w := ⟨_, rfl⟩
  rw [hw]
  have hb : ∀ (k : Int) (s : St α), (BExp.eqI (.mem .micro_type) (.lit k)).eval c s = .ok (decide (c.microType = k)) :=
    fun k s => ok_to (ev_eqI (ev_imem _) (ev_ilit _)) rfl
  unfold getElemType2D
  by_cases h0 : c.microType = 0
  · have hb0 : ∀ s : St α, (BExp.eqI (.mem .micro_type) (.lit 0)).eval c s = .ok true := fun s => by rw [hb, h0]; rfl
    rw [if_pos h0]
    refine Agrees.ok (Gives.oseq (Gives.oite_pos (hb0 _) Gives.skip) ?_)
    rintro t - rfl
    refine Gives.oite_pos (hb0 _) ?_
    show Gives (Stmt.exec c (run c 6) _ _) _
    refine Gives.seq (Gives.setD (by evs; rfl)) ?_
    intro t hs h1; keep hs
    refine Gives.seq (Gives.setD (by evs; rfl)) ?_
    intro t hs h2; keep hs
    refine Gives.seq (Gives.setD (by evs; rfl)) ?_
    intro t hs h3; keep hs
    refine Gives.seq (Gives.setD (by evs; rfl)) ?_
    intro t hs h4; keep hs
    refine (gives_ltRet (by evs; rfl) (by evs; rfl)).same.mono ?_
    rintro t ⟨hs, h⟩; keep hs
    exact ⟨h, hw⟩
  · rw [if_neg h0]
    have hb0 : ∀ s : St α, (BExp.eqI (.mem .micro_type) (.lit 0)).eval c s = .ok false := fun s => by
      rw [hb, decide_eq_false h0]
    by_cases h1 : c.microType = 1
    · have hb1 : ∀ s : St α, (BExp.eqI (.mem .micro_type) (.lit 1)).eval c s = .ok true := fun s => by rw [hb, h1]; rfl
      rw [if_pos h1]
      refine Agrees.ok (Gives.oseq (Gives.oite_neg (hb0 _) (Gives.oite_pos (hb1 _) Gives.skip)) ?_)
      rintro t - rfl
      refine Gives.oite_neg (hb0 _) (Gives.oite_pos (hb1 _) ?_)
      show Gives (Stmt.exec c (run c 6) _ _) _
      refine Gives.seq (Gives.setD (by evs; rfl)) ?_
      intro t hs h1; keep hs
      refine (gives_ltRet (by evs; rfl) (by evs; rfl)).same.mono ?_
      rintro t ⟨hs, h⟩; keep hs
      exact ⟨h, hw⟩
    · have hb1 : ∀ s : St α, (BExp.eqI (.mem .micro_type) (.lit 1)).eval c s = .ok false := fun s => by
        rw [hb, decide_eq_false h1]
      rw [if_neg h1]
      show _ = _
      simp only [o_get_elem_type2D, OStmt.exec, hb0, hb1, M_bind_ok', Bool.false_eq_true, if_false]
      rfl

theorem run_elem3D {ex ey ez : Nat} (hx : s.l.i .ex = some (ex : Int)) (hy : s.l.i .ey = some (ey : Int))
    (hz : s.l.i .ez = some (ez : Int)) (n : Nat) :
    Agrees (oRun env c (n + 1) .get_elem_type3D s) (getElemType3D c ex ey ez)
      (fun y t => t.l.i .ret = some y ∧ t.w = s.w) := by
  show Agrees (o_get_elem_type3D.exec env c (oRun env c n) s) _ _
  obtain ⟨w, hw⟩ : ∃ w, s.w = w := ⟨_, rfl⟩
  rw [hw]
  have hb : ∀ (k : Int) (s : St α), (BExp.eqI (.mem .micro_type) (.lit k)).eval c s = .ok (decide (c.microType = k)) :=
    fun k s => ok_to (ev_eqI (ev_imem _) (ev_ilit _)) rfl
  unfold getElemType3D
  by_cases h0 : c.microType = 0
  · have hb0 : ∀ s : St α, (BExp.eqI (.mem .micro_type) (.lit 0)).eval c s = .ok true := fun s => by rw [hb, h0]; rfl
    rw [if_pos h0]
    refine Agrees.ok (Gives.oseq (Gives.oite_pos (hb0 _) Gives.skip) ?_)
    rintro t - rfl
    refine Gives.oite_pos (hb0 _) ?_
    show Gives (Stmt.exec c (run c 6) _ _) _
    refine Gives.seq (Gives.setD (by evs; rfl)) ?_
    intro t hs h1; keep hs
    refine Gives.seq (Gives.setD (by evs; rfl)) ?_
    intro t hs h2; keep hs
    refine Gives.seq (Gives.setD (by evs; rfl)) ?_
    intro t hs h3; keep hs
    refine Gives.seq (Gives.setD (by evs; rfl)) ?_
    intro t hs h4; keep hs
    refine Gives.seq (Gives.setD (by evs; rfl)) ?_
    intro t hs h5; keep hs
    refine Gives.seq (Gives.setD (by evs; rfl)) ?_
    intro t hs h6; keep hs
    refine (gives_ltRet (by evs; rfl) (by evs; rfl)).same.mono ?_
    rintro t ⟨hs, h⟩; keep hs
    exact ⟨h, hw⟩
  · rw [if_neg h0]
    have hb0 : ∀ s : St α, (BExp.eqI (.mem .micro_type) (.lit 0)).eval c s = .ok false := fun s => by
      rw [hb, decide_eq_false h0]
    by_cases h1 : c.microType = 1
    · have hb1 : ∀ s : St α, (BExp.eqI (.mem .micro_type) (.lit 1)).eval c s = .ok true := fun s => by rw [hb, h1]; rfl
      rw [if_pos h1]
      refine Agrees.ok (Gives.oseq (Gives.oite_neg (hb0 _) (Gives.oite_pos (hb1 _) Gives.skip)) ?_)
      rintro t - rfl
      refine Gives.oite_neg (hb0 _) (Gives.oite_pos (hb1 _) ?_)
      show Gives (Stmt.exec c (run c 6) _ _) _
      refine Gives.seq (Gives.setD (by evs; rfl)) ?_
      intro t hs h1; keep hs
      refine (gives_ltRet (by evs; rfl) (by evs; rfl)).same.mono ?_
      rintro t ⟨hs, h⟩; keep hs
      exact ⟨h, hw⟩
    · have hb1 : ∀ s : St α, (BExp.eqI (.mem .micro_type) (.lit 1)).eval c s = .ok false := fun s => by
        rw [hb, decide_eq_false h1]
      rw [if_neg h1]
      show _ = _
      simp only [o_get_elem_type3D, OStmt.exec, hb0, hb1, M_bind_ok', Bool.false_eq_true, if_false]
      rfl

end Verif.Text
