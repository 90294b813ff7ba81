import Verif.Lemmas.TextBcRun
import Verif.Lemmas.TextMat

/-!
# Executing the statements of `assembly_mat` and `solve`
-/

namespace Verif.Text

variable {α : Type} [Scalar α]

/-! ## The member `A` as an argument -/

theorem ellIn_on (m : Ell α) (l : Loc α) : EllOn (ellIn m l) m :=
  ⟨rfl, rfl, rfl, ⟨_, rfl, rfl, fun _ _ => rfl⟩, ⟨_, rfl, rfl, fun _ _ => rfl⟩⟩

/-- The fields of a matrix among the locals. -/
def ellPart (l : Loc α) : (Option Int × Option Int × Option Int) × Option (Vec α) × Option (Vec Int) :=
  ((l.i .m_nrow, l.i .m_ncol, l.i .m_nnz), l.v .m_vals, l.iv .m_cols)

theorem on_ell {l : Loc α} (m : Ell α) (h : ellPart l = ellPart (ellIn m Loc.none)) : EllOn l m := by
  have k := ellIn_on m Loc.none
  simp only [ellPart, Prod.mk.injEq] at h
  exact ⟨h.1.1.trans k.nrow, h.1.2.1.trans k.ncol, h.1.2.2.trans k.nnz, h.2.1.symm ▸ k.vals,
    h.2.2.symm ▸ k.cols⟩

theorem ofVec_eq {β : Type} {o : Option (Vec β)} {p p' : Buf β} (h : BufOn o p' fun _ => True) :
    Buf.ofVec p o = p' := by
  obtain ⟨a, rfl, h1, h2⟩ := h
  cases p' with
  | mk n v =>
    simp only [Buf.ofVec, Buf.mk.injEq]
    exact ⟨h1, funext fun q => by rw [h2 q trivial]; rfl⟩

theorem ellOut_eq {l : Loc α} {m m' : Ell α} (h : EllOn l m') : ellOut m l = m' := by
  unfold ellOut
  rw [ofVec_eq h.vals, ofVec_eq h.cols, h.nrow, h.ncol, h.nnz]
  cases m'
  simp

section
variable {c : Cfg α} {s : St α} {n : Nat}

theorem run_assembly_mat2 (L : LitLaws α) {w w' : Work α} (hw : s.w = w) (hd : c.dim = 2)
    (hx2 : 2 ≤ c.nx) (hy2 : 2 ≤ c.ny) (hm : assemblyMat c w = .ok w') :
    Gives (run c (n + 3) .assembly_mat s) (fun t => t.w = w') := by
  show Gives (t_assembly_mat.exec c (run c (n + 2)) s) _
  unfold assemblyMat at hm
  simp only [hd, if_true, bind_ok_iff] at hm
  obtain ⟨A0, h0, A1, h1, A2, h2, hm⟩ := hm
  cases hm
  refine Gives.seq (Gives.declIV (fun _ => 0)) ?_
  intro s hs _; keep hs
  refine Gives.seq (Gives.call (P := fun t => t.w = { w with A := A0 }) rfl
    (run_set_zero (n := n + 1) L (by rw [hw]; exact ellIn_on _ _) h0).runSame ?_) ?_
  · rintro r ⟨hs, hr⟩
    have hrw : r.w = w := keep_w hs hw rfl
    show ({ r.w with A := ellOut r.w.A r.l } : Work α) = _
    rw [ellOut_eq hr, hrw]
  intro s hs hw; keep hs
  refine Gives.ite_pos (ok_to (ev_eqI (ev_imem _) (ev_ilit _)) (by simp [GI.get, hd])) ?_
  refine Gives.seq (Gives.declV (fun _ => 0)) ?_
  intro s hs hAe; keep hs
  have hbx : ∀ l : Loc α, (IExp.sub (.mem .nx) (.lit 1)).eval c l = .ok ((c.nx - 1 : Nat) : Int) := by
    intro l; exact ok_to (ev_isub (ev_imem _) (ev_ilit _)) (by simp only [GI.get]; omega)
  have hby : ∀ l : Loc α, (IExp.sub (.mem .ny) (.lit 1)).eval c l = .ok ((c.ny - 1 : Nat) : Int) := by
    intro l; exact ok_to (ev_isub (ev_imem _) (ev_ilit _)) (by simp only [GI.get]; omega)
  refine Gives.seq (P := fun t => t.w = { w with A := A1 }) ((Gives.sim (fun (A : Ell α) t =>
      t.w = { w with A := A } ∧ VecOn (t.l.v .Ae) 64 (fun _ => False) (fun _ => (0 : α)))
      (by intro _ _ _ h; exact h) (hbx _) h1 ⟨hw, hAe⟩ ?_).mono fun _ h => h.1) ?_
  · rintro ex t A A' hk hs hex ⟨hw, hAe⟩ hf
    clear hs
    refine Gives.sim (fun (A : Ell α) t =>
      t.w = { w with A := A } ∧ VecOn (t.l.v .Ae) 64 (fun _ => False) (fun _ => (0 : α)))
      (by intro _ _ _ h; exact h) (hby _) hf ⟨hw, hAe⟩ ?_
    rintro ey t A A' hk hs hey ⟨hw', hAe'⟩ hf
    clear hw hAe
    keep hs
    simp only [bind_ok_iff] at hf
    obtain ⟨Ae, e1, e2⟩ := hf
    refine Gives.seq (Gives.call' (P := fun t => Ae.size = 64 ∧ VecOn (t.l.v .Ae) 64 (· < 64) Ae.val ∧
      t.w = { w with A := A }) (Q := _) ?_ (fun _ h => h)) ?_
    · refine ⟨_, by simp only [params, passAll, passIn, ev_ivar hex, ev_ivar hey, M_bind_ok', M_pure]; rfl, ?_⟩
      exact run_get_elem_mat2D L hw' hd e1 (by omega) (by omega) rfl rfl hAe'
    clear hAe' hw'
    rintro t hs ⟨hsz, hAe, hw⟩
    keep hs
    refine Gives.call' (Q := _) (by
      refine ⟨_, by simp only [params, passAll, passIn, ev_ivar hex, ev_ivar hey, ev_imem, M_bind_ok', M_pure]; rfl, ?_⟩
      exact (run_add_struct2D (n := n + 1) (Ae := Ae) c.ny (by rw [hw]; exact on_ell _ rfl) rfl rfl
        (by rw [← hd]; rfl) rfl (by rw [hsz]; exact hAe) e2).runSame) ?_
    rintro r ⟨hs, hr⟩
    have hrw : r.w = { w with A := A } := keep_w hs hw rfl
    refine ⟨?_, ?_⟩
    · show ({ r.w with A := ellOut r.w.A r.l } : Work α) = _
      rw [ellOut_eq hr, hrw]
    · show VecOn (r.l.v .Ae) 64 _ _
      have := keep_v (x := .Ae) hs hAe rfl
      exact this.congr le_rfl fun _ h => h.elim
  intro t hs hw
  refine Gives.call' (Q := _) (by
      refine ⟨_, by simp only [params, passAll, passIn, ev_imem, M_bind_ok', M_pure]; rfl, ?_⟩
      exact (run_set_bc_2D (n := n + 1) L (m := A1) (by rw [hw]; exact on_ell _ rfl) (by rw [← hd]; rfl) rfl rfl
        hx2 hy2 h2).runSame) ?_
  rintro r ⟨hs, hr⟩
  have hrw : r.w = { w with A := A1 } := keep_w hs hw rfl
  show ({ r.w with A := ellOut r.w.A r.l } : Work α) = _
  rw [ellOut_eq hr, hrw]

theorem run_assembly_mat3 (L : LitLaws α) {w w' : Work α} (hw : s.w = w) (hd : c.dim = 3)
    (hx2 : 2 ≤ c.nx) (hy2 : 2 ≤ c.ny) (hz2 : 2 ≤ c.nz) (hm : assemblyMat c w = .ok w') :
    Gives (run c (n + 6) .assembly_mat s) (fun t => t.w = w') := by
  show Gives (t_assembly_mat.exec c (run c (n + 5)) s) _
  unfold assemblyMat at hm
  have hd2 : ¬(3 : Nat) = 2 := by omega
  simp only [hd, hd2, if_true, if_false, bind_ok_iff] at hm
  obtain ⟨A0, h0, A1, h1, A2, h2, hm⟩ := hm
  cases hm
  refine Gives.seq (Gives.declIV (fun _ => 0)) ?_
  intro s hs _; keep hs
  refine Gives.seq (Gives.call (P := fun t => t.w = { w with A := A0 }) rfl
    (run_set_zero (n := n + 4) L (by rw [hw]; exact ellIn_on _ _) h0).runSame ?_) ?_
  · rintro r ⟨hs, hr⟩
    have hrw : r.w = w := keep_w hs hw rfl
    show ({ r.w with A := ellOut r.w.A r.l } : Work α) = _
    rw [ellOut_eq hr, hrw]
  intro s hs hw; keep hs
  refine Gives.ite_neg (ok_to (ev_eqI (ev_imem _) (ev_ilit _)) (by simp [GI.get, hd])) ?_
  refine Gives.ite_pos (ok_to (ev_eqI (ev_imem _) (ev_ilit _)) (by simp [GI.get, hd])) ?_
  refine Gives.seq (Gives.declV (fun _ => 0)) ?_
  intro s hs hAe; keep hs
  have hbx : ∀ l : Loc α, (IExp.sub (.mem .nx) (.lit 1)).eval c l = .ok ((c.nx - 1 : Nat) : Int) := by
    intro l; exact ok_to (ev_isub (ev_imem _) (ev_ilit _)) (by simp only [GI.get]; omega)
  have hby : ∀ l : Loc α, (IExp.sub (.mem .ny) (.lit 1)).eval c l = .ok ((c.ny - 1 : Nat) : Int) := by
    intro l; exact ok_to (ev_isub (ev_imem _) (ev_ilit _)) (by simp only [GI.get]; omega)
  have hbz : ∀ l : Loc α, (IExp.sub (.mem .nz) (.lit 1)).eval c l = .ok ((c.nz - 1 : Nat) : Int) := by
    intro l; exact ok_to (ev_isub (ev_imem _) (ev_ilit _)) (by simp only [GI.get]; omega)
  refine Gives.seq (P := fun t => t.w = { w with A := A1.A, varsNew := A1.varsNew })
    ((Gives.sim (fun (A : MatState α) t =>
      t.w = { w with A := A.A, varsNew := A.varsNew } ∧ VecOn (t.l.v .Ae) 576 (fun _ => False) (fun _ => (0 : α)))
      (by intro _ _ _ h; exact h) (hbx _) h1 ⟨hw, hAe⟩ ?_).mono fun _ h => h.1) ?_
  · rintro ex t A A' hk hs hex ⟨hw, hAe⟩ hf
    clear hs
    refine Gives.sim (fun (A : MatState α) t =>
      t.w = { w with A := A.A, varsNew := A.varsNew } ∧ VecOn (t.l.v .Ae) 576 (fun _ => False) (fun _ => (0 : α)))
      (by intro _ _ _ h; exact h) (hby _) hf ⟨hw, hAe⟩ ?_
    rintro ey t A A' hk hs hey ⟨hw', hAe'⟩ hf
    clear hw hAe
    keep hs
    refine Gives.sim (fun (A : MatState α) t =>
      t.w = { w with A := A.A, varsNew := A.varsNew } ∧ VecOn (t.l.v .Ae) 576 (fun _ => False) (fun _ => (0 : α)))
      (by intro _ _ _ h; exact h) (hbz _) hf ⟨hw', hAe'⟩ ?_
    clear hw' hAe'
    rintro ez t A A' hk hs hez ⟨hw', hAe'⟩ hf
    keep hs
    simp only [bind_ok_iff] at hf
    obtain ⟨Ae, e1, A3, e2, e3⟩ := hf
    cases e3
    refine Gives.seq (Gives.call' (P := fun t => VecOn (t.l.v .Ae) 576 (· < 576) Ae.Ae ∧
      t.w = { w with A := A.A, varsNew := Ae.varsNew }) (Q := _) ?_ (fun _ h => h)) ?_
    · refine ⟨_, by simp only [params, passAll, passIn, ev_ivar hex, ev_ivar hey, ev_ivar hez, M_bind_ok', M_pure]; rfl, ?_⟩
      exact run_get_elem_mat3D (w := { w with A := A.A, varsNew := A.varsNew }) L hw' hd e1 (by omega) (by omega) rfl rfl rfl hAe'
    clear hAe' hw'
    rintro t hs ⟨hAe, hw⟩
    keep hs
    refine Gives.call' (Q := _) (by
      refine ⟨_, by simp only [params, passAll, passIn, ev_ivar hex, ev_ivar hey, ev_ivar hez, ev_imem, M_bind_ok', M_pure]; rfl, ?_⟩
      exact (run_add_struct3D (n := n + 4) (Ae := ⟨576, Ae.Ae⟩) c.nz (by rw [hw]; exact on_ell _ rfl) rfl rfl rfl
        (by rw [← hd]; rfl) rfl rfl (by exact hAe) e2).runSame) ?_
    rintro r ⟨hs, hr⟩
    have hrw : r.w = { w with A := A.A, varsNew := Ae.varsNew } := keep_w hs hw rfl
    refine ⟨?_, ?_⟩
    · show ({ r.w with A := ellOut r.w.A r.l } : Work α) = _
      rw [ellOut_eq hr, hrw]
    · show VecOn (r.l.v .Ae) 576 _ _
      have := keep_v (x := .Ae) hs hAe rfl
      exact this.congr le_rfl fun _ h => h.elim
  intro t hs hw
  refine Gives.call' (Q := _) (by
      refine ⟨_, by simp only [params, passAll, passIn, ev_imem, M_bind_ok', M_pure]; rfl, ?_⟩
      exact (run_set_bc_3D (n := n + 4) L (m := A1.A) (by rw [hw]; exact on_ell _ rfl) (by rw [← hd]; rfl) rfl rfl
        rfl hx2 hy2 hz2 h2).runSame) ?_
  rintro r ⟨hs, hr⟩
  have hrw : r.w = { w with A := A1.A, varsNew := A1.varsNew } := keep_w hs hw rfl
  show ({ r.w with A := ellOut r.w.A r.l } : Work α) = _
  rw [ellOut_eq hr, hrw]

theorem Gives.declSolver : Gives (Stmt.declSolver.exec c (run c n) s) (fun _ => True) :=
  ⟨_, rfl, trivial⟩

/-- `solve` leaves the solution of the model in `du`; the model also counts the event. -/
theorem run_solve (L : LitLaws α) {env : Env α} {w w' : Work α} (hw : s.w = w)
    (hd : c.dim = 2 ∨ c.dim = 3) (hrow : w.A.nrow = c.nn * c.dim) (hnn : c.dim = 2 → c.nn = c.nx * c.ny)
    (hm : solve env c w = .ok w') :
    Gives (run c (n + 3) .solve s) (fun t => { t.w with tick := t.w.tick + 1 } = w') := by
  show Gives (t_solve.exec c (run c (n + 2)) s) _
  unfold solve at hm
  refine Gives.seq Gives.declSolver ?_
  intro s hs _; keep hs
  refine Gives.seq (Gives.setI (ev_ilit _)) ?_
  intro s hs hmx; keep hs
  refine Gives.seq (Gives.setD (ev_lit _ _ _)) ?_
  intro s hs htol; keep hs
  rcases hd with hd | hd
  · simp only [hd, if_true, bind_ok_iff] at hm
    obtain ⟨r, h1, h2⟩ := hm
    unfold ellSolveCgpd2D at h1
    simp only [bind_ok_iff] at h1
    obtain ⟨⟨sv', x'⟩, h1, h3⟩ := h1
    cases h3
    cases h2
    refine Gives.ite_pos (ok_to (ev_eqI (ev_imem _) (ev_ilit _)) (by simp [GI.get, hd])) ?_
    refine Gives.call' (Q := _) (by
      refine ⟨_, by simp only [params, passAll, passIn, ev_imem, M_bind_ok', M_pure]; rfl, ?_⟩
      exact (run_cgpd_2D (n := n) L (m := w.A) (b := w.b) (x := w.du) (nx := c.nx) (ny := c.ny)
        (by rw [hw]; exact on_ell _ rfl)
        (by rw [hw]; exact ⟨_, rfl, rfl, fun _ _ => rfl⟩) (by rw [hw]; exact ⟨_, rfl, rfl, fun _ _ => rfl⟩)
        (by rw [← hd]; rfl) rfl rfl hmx htol (by rw [hrow, hnn hd, hd]) h1).runSame) ?_
    rintro r ⟨hs, hr⟩
    have hrw : r.w = w := keep_w hs hw rfl
    show ({ r.w with A := ellOut r.w.A r.l, b := Buf.ofVec r.w.b (r.l.v .b),
                     du := Buf.ofVec r.w.du (r.l.v .x), tick := r.w.tick + 1 } : Work α) = _
    rw [ellOut_eq hr.1, ofVec_eq hr.2.1, ofVec_eq hr.2.2.1, hrw]
    rfl
  · have hd2 : ¬(3 : Nat) = 2 := by omega
    simp only [hd, hd2, if_true, if_false, bind_ok_iff] at hm
    obtain ⟨r, h1, h2⟩ := hm
    unfold ellSolveCgpdStruct at h1
    simp only [bind_ok_iff] at h1
    obtain ⟨⟨sv', x'⟩, h1, h3⟩ := h1
    cases h3
    cases h2
    refine Gives.ite_neg (ok_to (ev_eqI (ev_imem _) (ev_ilit _)) (by simp [GI.get, hd])) ?_
    refine Gives.ite_pos (ok_to (ev_eqI (ev_imem _) (ev_ilit _)) (by simp [GI.get, hd])) ?_
    refine Gives.call' (Q := _) (by
      refine ⟨_, by simp only [params, passAll, passIn, ev_imem, M_bind_ok', M_pure]; rfl, ?_⟩
      exact (run_cgpd_struct (n := n) L (m := w.A) (b := w.b) (x := w.du) (nF := 3) (dim := 3) (nn := c.nn)
        (by rw [hw]; exact on_ell _ rfl)
        (by rw [hw]; exact ⟨_, rfl, rfl, fun _ _ => rfl⟩) (by rw [hw]; exact ⟨_, rfl, rfl, fun _ _ => rfl⟩)
        (by rw [← hd]; rfl) (by rw [← hd]; rfl) rfl hmx htol (by rw [hrow, hd]) (Or.inr rfl) h1).runSame) ?_
    rintro r ⟨hs, hr⟩
    have hrw : r.w = w := keep_w hs hw rfl
    show ({ r.w with A := ellOut r.w.A r.l, b := Buf.ofVec r.w.b (r.l.v .b),
                     du := Buf.ofVec r.w.du (r.l.v .x), tick := r.w.tick + 1 } : Work α) = _
    rw [ellOut_eq hr.1, ofVec_eq hr.2.1, ofVec_eq hr.2.2.1, hrw]
    rfl

end

end Verif.Text
