import Verif.Lemmas.ObjNewton

/-!
# The source text of `get_inv_1`, `get_inv_2`, `is_linear` and `calc_ctan_lin` computes those of the model
-/

namespace Verif.Text

variable {α : Type} [Scalar α] {c : Cfg α} {env : Env α} {s : St α}

/-! ## Invariants of a tensor -/

theorem run_inv1 {f : Nat → α} (hv : VecOn (s.l.v .tensor) 3 (· < c.nvoi) f) (n : Nat) :
    Agrees (oRun env c (n + 1) .get_inv_1 s) (getInv1 c.dim f)
      (fun y t => t.l.d .ret = some y ∧ t.w = s.w) := by
  show Agrees (o_get_inv_1.exec env c (oRun env c n) s) _ _
  obtain ⟨w, hw⟩ : ∃ w, s.w = w := ⟨_, rfl⟩
  rw [hw]
  by_cases h2 : c.dim = 2
  · have hn : c.nvoi = 3 := by simp [Cfg.nvoi, h2]
    rw [hn] at hv
    refine Agrees.of (z := f 0 + f 1) (by simp [getInv1, h2]) ?_
    have hb : ∀ s : St α, (BExp.eqI (.mem .dim) (.lit 2)).eval c s = .ok true := fun s =>
      ok_to (ev_eqI (ev_imem _) (ev_ilit _)) (by simp [GI.get, h2])
    refine Gives.oseq (Gives.oite_pos (hb s) Gives.skip) ?_
    rintro s hs rfl
    refine Gives.oite_pos (hb s) ?_
    refine (Gives.setD (by evs; rfl)).same.mono ?_
    rintro t ⟨hs, h⟩; keep hs
    exact ⟨h, hw⟩
  have hb2 : ∀ s : St α, (BExp.eqI (.mem .dim) (.lit 2)).eval c s = .ok false := fun s =>
      ok_to (ev_eqI (ev_imem _) (ev_ilit _)) (decide_eq_false (by simp only [GI.get]; omega))
  have hn : c.nvoi = 6 := by simp [Cfg.nvoi, h2]
  rw [hn] at hv
  by_cases h3 : c.dim = 3
  · refine Agrees.of (z := f 0 + f 1 + f 2) (by simp [getInv1, h3]) ?_
    have hb : ∀ s : St α, (BExp.eqI (.mem .dim) (.lit 3)).eval c s = .ok true := fun s =>
      ok_to (ev_eqI (ev_imem _) (ev_ilit _)) (by simp [GI.get, h3])
    refine Gives.oseq (Gives.oite_neg (hb2 s) (Gives.oite_pos (hb s) Gives.skip)) ?_
    rintro s hs rfl
    refine Gives.oite_neg (hb2 s) (Gives.oite_pos (hb s) ?_)
    refine (Gives.setD (by evs; rfl)).same.mono ?_
    rintro t ⟨hs, h⟩; keep hs
    exact ⟨h, hw⟩
  · have hb : ∀ s : St α, (BExp.eqI (.mem .dim) (.lit 3)).eval c s = .ok false := fun s =>
      ok_to (ev_eqI (ev_imem _) (ev_ilit _)) (decide_eq_false (by simp only [GI.get]; omega))
    have hm : getInv1 c.dim f = .error .abort := by simp [getInv1, h2, h3]
    rw [hm]
    show OStmt.exec env c _ _ s = _
    simp [o_get_inv_1, OStmt.exec, hb2, hb]
    rfl

theorem run_inv2 {f : Nat → α} (hv : VecOn (s.l.v .tensor) 6 (· < 6) f) (n : Nat) :
    Gives (oRun env c (n + 1) .get_inv_2 s)
      (fun t => t.l.d .ret = getInv2 c.dim f ∧ t.w = s.w) := by
  show Gives (o_get_inv_2.exec env c (oRun env c n) s) _
  obtain ⟨w, hw⟩ : ∃ w, s.w = w := ⟨_, rfl⟩
  rw [hw]
  by_cases h3 : c.dim = 3
  · refine Gives.oite_pos (ok_to (ev_eqI (ev_imem _) (ev_ilit _)) (by simp [GI.get, h3])) ?_
    refine (Gives.setD (by evs; rfl)).same.mono ?_
    rintro t ⟨hs, h⟩; keep hs
    refine ⟨h.trans ?_, hw⟩
    simp [getInv2, h3]
  · refine Gives.oite_neg (ok_to (ev_eqI (ev_imem _) (ev_ilit _)) (decide_eq_false (by simp only [GI.get]; omega))) ?_
    refine ⟨_, rfl, ?_, hw⟩
    simp [getInv2, h3, upd]

/-! ## `S = CL : E` -/

/-- The loops of /repo/src/homogenize.cpp:52-56, 148-152. -/
def linLoop (x y : V) : Stmt :=
  .for .i (.lit 0) (.mem .nvoi) (
    .st1 x (.var .i) (.lit (nat_lit 0) true (nat_lit 1)) ;;
    .for .j (.lit 0) (.mem .nvoi) (
      .st1 x (.var .i) (.add (.rd1 x (.var .i)) (.mul (.ctanLin (.add (.mul (.var .i) (.mem .nvoi)) (.var .j)))
        (.rd1 y (.var .j))))))

theorem nvoi_le (c : Cfg α) : c.nvoi ≤ 6 := by unfold Cfg.nvoi; split <;> omega

theorem gives_lin (L : LitLaws α) {x y : V} (hxy : y ≠ x) {g eps : Nat → α} {S : Nat → Prop} {n : Nat}
    (hx : VecOn (s.l.v x) c.nvoi S g) (hy : VecOn (s.l.v y) c.nvoi (· < c.nvoi) eps) :
    Gives ((linLoop x y).exec c (run c n) s) (fun t =>
      VecOn (t.l.v x) c.nvoi (fun q => S q ∨ q < c.nvoi) (setFirst c.nvoi (linStress c eps) g)) := by
  have hz : (OfScientific.ofScientific 0 true 1 : α) = 0 := L.zeroD
  have hb : ∀ l : Loc α, (IExp.mem .nvoi).eval c l = .ok (c.nvoi : Int) := fun l => ev_imem _
  refine (Gives.each1 (m := 0) (N := c.nvoi) (linStress c eps) hx (by omega) (hb _) ?_).mono fun t h =>
    h.congr le_rfl fun q hq => ⟨hq.imp id fun h => ⟨q.zero_le, h⟩, ?_⟩
  swap
  · unfold setFirst
    by_cases e : q < c.nvoi <;> simp [e]
  intro k t _ hk hs hi hP
  have hy := keep_v hs hy (by simp [Stmt.eff, Eff.or, Eff.nil, hxy])
  refine Gives.seq (Gives.st1 hP (ev_ivar hi) rfl hk (ok_to (ev_lit _ _ _) hz)) ?_
  intro u hu hv
  have hi := keep_i hu hi rfl
  have hy := keep_v hu hy (by simp [Stmt.eff, Eff.nil, hxy])
  refine (Gives.fold1 (i0 := k) (N := c.nvoi) (fun j a => a + c.ctanLin (k * c.nvoi + j) * eps j) hv (Or.inr rfl) hk
    (hb _) ?_).mono fun t h => h.congr le_rfl fun q hq => ⟨?_, ?_⟩
  · intro j t hj ht htj hv
    have hi := keep_i ht hi (by simp [Stmt.eff, Eff.or, Eff.nil])
    have hy := keep_v ht hy (by simp [Stmt.eff, Eff.or, Eff.nil, hxy])
    refine ⟨ev_ivar hi, ?_⟩
    have e1 : (IExp.add (.mul (.var .i) (.mem .nvoi)) (.var .j)).eval c t.l
        = .ok ((k * c.nvoi + j : Nat) : Int) :=
      ok_to (ev_iadd (ev_imul (ev_ivar hi) (ev_imem _)) (ev_ivar htj)) (by simp [GI.get])
    have hlt : k * c.nvoi + j < 36 := by
      have := nvoi_le c
      calc k * c.nvoi + j < k * c.nvoi + c.nvoi := by omega
        _ = (k + 1) * c.nvoi := by ring
        _ ≤ 6 * 6 := Nat.mul_le_mul (by omega) this
    refine ok_to (ev_add (ev_rd1 hv (ev_ivar hi) (by omega) (by omega) (by simp))
      (ev_mul (ev_ctanLin e1 (by omega) (by omega)) (ev_rd1 hy (ev_ivar htj) (by omega) (by omega) (by simpa using hj)))) ?_
    simp only [Int.toNat_natCast]
    simp
  · rcases hq with h | h
    · exact Or.inl (Or.inl h)
    · by_cases e : q = k
      · exact Or.inr e
      · exact Or.inl (Or.inr ⟨q.zero_le, by omega⟩)
  · by_cases e : q = k
    · subst e
      simp [linStress]
    · have : (0 ≤ q ∧ q < k + 1) ↔ (0 ≤ q ∧ q < k) := by omega
      simp only [e, this, if_false]

theorem run_is_linear (L : LitLaws α) (hc : c.Ok) {w : Work α} {eps : Nat → α} {r : Bool × α}
    (hw : s.w = w) (hm : isLinear c w.invMax eps = .ok r)
    (hv : VecOn (s.l.v .macro_strain) c.nvoi (· < c.nvoi) eps) (n : Nat) :
    Gives (oRun env c (n + 2) .is_linear s) (fun t =>
      t.l.i .ret = some (if r.1 = true then 1 else 0) ∧ t.w = { w with invMax := r.2 } ∧
      t.l.v .macro_strain = s.l.v .macro_strain) := by
  show Gives (o_is_linear.exec env c (oRun env c (n + 1)) s) _
  unfold isLinear at hm
  obtain ⟨inv, h1, hm⟩ := bind_ok_iff.1 hm
  cases hm
  have h3 : 3 ≤ c.nvoi := by unfold Cfg.nvoi; split <;> omega
  generalize hvs : s.l.v .macro_strain = vs at hv ⊢
  have hvk : ∀ {E : Eff} {a b : St α}, Same E a b → E.v .macro_strain = false → a.l.v .macro_strain = vs →
      b.l.v .macro_strain = vs := fun h e k => (h.v _ e).trans k
  have n6 := nvoi_le c
  refine Gives.oseq (P := fun t => VecOn (t.l.v .macro_stress) c.nvoi (· < c.nvoi) (linStress c eps) ∧
    t.w = w ∧ t.l.v .macro_strain = vs) ?_ ?_
  · show Gives (Stmt.exec c (run c 6) _ s) _
    refine Gives.seq (Gives.declV (fun _ => 0)) ?_
    intro s1 hs h; have hvs := hvk hs rfl hvs; keep hs
    refine Gives.seq (gives_lin L (x := .macro_stress) (y := .macro_strain) (by decide) (h.congr n6 fun _ h => ⟨h, rfl⟩)
      (by rw [hvs]; exact hv)) ?_
    intro s2 hs h; have hvs := hvk hs rfl hvs; keep hs
    refine Gives.declD.same.mono ?_
    rintro t ⟨hs, -⟩
    have hvs := hvk hs rfl hvs
    keep hs
    refine ⟨h.congr le_rfl fun q hq => ⟨Or.inr hq, by simp [setFirst, hq]⟩, hw, hvs⟩
  rintro s1 hs ⟨hst, hw, hvs⟩
  clear hs
  refine Gives.oseq (P := fun t => t.l.d .inv = some inv ∧ t.w = w) (Gives.ocall
    (Q := fun t => t.l.d .ret = some inv ∧ t.w = w) ⟨_, rfl, ?_⟩ ?_) ?_
  · have := run_inv1 (env := env) (c := c) (s := ⟨s1.w, { (Loc.none : Loc α) with
      v := upd Loc.none.v .tensor (s1.l.v .macro_stress), d := upd Loc.none.d .ret (s1.l.d .inv) }⟩)
      (f := linStress c eps) (hst.congr h3 fun q hq => ⟨hq, rfl⟩) n
    rw [h1] at this
    refine Gives.mono this ?_
    rintro t ⟨e1, e2⟩
    exact ⟨e1, e2.trans hw⟩
  · rintro r ⟨e1, e2⟩
    exact ⟨by simpa [passBack, passOut, oparams, upd] using e1, e2⟩
  rintro s2 hs ⟨hinv, hw⟩
  have hvs := hvk hs rfl hvs; keep hs
  refine Gives.oseq (P := fun t => t.w = { w with
    invMax := if Scalar.lt w.invMax (Scalar.abs inv) then Scalar.abs inv else w.invMax }) ?_ ?_
  · have hb := ev_ltD (c := c) (ev_invMax hw) (ev_abs (ev_var hinv))
    by_cases hlt : Scalar.lt w.invMax (Scalar.abs inv) = true
    · rw [hlt] at hb
      refine Gives.oite_pos hb ?_
      refine ⟨{ s2 with w.invMax := Scalar.abs inv }, ?_, ?_⟩
      · simp only [OStmt.exec, ev_abs (ev_var hinv), M_bind_ok', M_pure]
      · simp [hlt, hw]
    · rw [Bool.not_eq_true] at hlt
      rw [hlt] at hb
      refine Gives.oite_neg hb (Gives.skip.mono ?_)
      rintro t rfl
      rw [hlt]
      simpa using hw
  intro s3 hs hw
  have hvs := hvk hs rfl hvs; keep hs
  have hb := ev_ltD (c := c) (ev_abs (ev_var hinv)) ev_invTol
  show Gives (Stmt.exec c (run c 6) _ s3) _
  by_cases hlt : Scalar.lt (Scalar.abs inv) c.invTol = true
  · rw [hlt] at hb
    refine Gives.ite_pos hb ((Gives.setI rfl).same.mono ?_)
    rintro t ⟨hs, h⟩
    have hvs := hvk hs rfl hvs; clear hb; keep hs
    exact ⟨by simpa [hlt] using h, hw, hvs⟩
  · rw [Bool.not_eq_true] at hlt
    rw [hlt] at hb
    refine Gives.ite_neg hb ((Gives.setI rfl).same.mono ?_)
    rintro t ⟨hs, h⟩
    have hvs := hvk hs rfl hvs; clear hb; keep hs
    exact ⟨by simpa [hlt] using h, hw, hvs⟩

end Verif.Text
