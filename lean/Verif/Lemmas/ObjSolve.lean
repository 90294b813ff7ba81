import Verif.Lemmas.ObjLin

/-!
# The source text of `calc_ctan_lin` computes that of the model
-/

namespace Verif.Text

variable {α : Type} [Scalar α] {c : Cfg α} {env : Env α} {s : St α}

theorem nvoi2 (hd : c.dim = 2) : c.nvoi = 3 := by simp [Cfg.nvoi, hd]
theorem nvoi3 (hd : c.dim = 3) : c.nvoi = 6 := by simp [Cfg.nvoi, hd]

/-- `set_displ` as a statement. -/
theorem gives_displ (L : LitLaws α) (hc : c.Ok) {w w' : Work α} {eps : Nat → α} (hw : s.w = w)
    (hm : setDispl c w eps = .ok w') {x : V} (hx : VecOn (s.l.v x) c.nvoi (· < c.nvoi) eps) :
    Gives ((Stmt.call .set_displ [.ref x]).exec c (run c 6) s) (fun t =>
      t.w = w' ∧ t.l.v x = s.l.v x) := by
  have key : Gives (run c 6 .set_displ ⟨s.w, { (Loc.none : Loc α) with
      v := upd Loc.none.v .eps (s.l.v x) }⟩) (fun t => t.w = w') := by
    rcases hc.dim with hd | hd
    · rw [nvoi2 hd] at hx
      exact run_set_displ2 (n := 5) L hw hd hm hc.nx hc.ny hx
    · rw [nvoi3 hd] at hx
      exact run_set_displ3 (n := 5) L hw hd hm hc.nx hc.ny (hc.nz3 hd) hx
  refine Gives.call' (Q := fun t => t.w = w' ∧ t.l.v .eps = s.l.v x) ⟨_, rfl, key.runSame.mono ?_⟩
    (fun r h => ⟨h.1, ?_⟩)
  · rintro t ⟨hs, h⟩
    exact ⟨h, hs.v .eps rfl⟩
  · simpa [passBack, passOut, params, upd] using h.2

/-- `calc_ave_stress` as a statement. -/
theorem gives_ave (L : LitLaws α) (hc : c.Ok) {w : Work α} {r : AveState α} (hw : s.w = w)
    (hm : calcAveStress c w = .ok r) {x : V} {S : Nat → Prop} {g : Nat → α}
    (hx : VecOn (s.l.v x) c.nvoi S g) :
    Gives ((Stmt.call .calc_ave_stress [.ref x]).exec c (run c 6) s) (fun t =>
      VecOn (t.l.v x) c.nvoi (fun q => S q ∨ q < c.nvoi) (setFirst c.nvoi r.ave g) ∧
      t.w = { w with varsNew := r.varsNew }) := by
  refine Gives.call' (Q := fun t => VecOn (t.l.v .stress_ave) c.nvoi (fun q => S q ∨ q < c.nvoi)
    (setFirst c.nvoi r.ave g) ∧ t.w = { w with varsNew := r.varsNew }) ⟨_, rfl, ?_⟩
    (fun r h => ⟨?_, h.2⟩)
  · rcases hc.dim with hd | hd
    · rw [nvoi2 hd] at hx ⊢
      exact run_calc_ave_stress2 (n := 2) L hw hd hm (by have := hc.nx; omega) (by have := hc.ny; omega)
        (nz_pos' hc) hx
    · rw [nvoi3 hd] at hx ⊢
      exact run_calc_ave_stress3 (n := 2) L hw hd hm (by have := hc.nx; omega) (by have := hc.ny; omega)
        (nz_pos' hc) hx
  · have := h.1
    simpa [passBack, passOut, params, upd] using this

/-- `newton_raphson(..); calc_ave_stress(y); B`, where `set_displ` has been called. -/
theorem agrees_tail (L : LitLaws α) (hc : c.Ok) {w : Work α} (hok : w.Ok c) (hw : s.w = w) {n : Nat} {y : V}
    {S : Nat → Prop} {g : Nat → α} (hy : VecOn (s.l.v y) c.nvoi S g) {B : Stmt} {γ : Type}
    {f : PertOut α → M γ} {R : γ → St α → Prop}
    (k : ∀ z t, t.w = z.nr.work → Frame c w z.nr.work →
      t.l.i .nl_flag = some (if z.nr.nl = true then 1 else 0) → t.l.i .nr_its = some z.nr.its →
      t.l.d .nr_err = some z.nr.err →
      VecOn (t.l.v y) c.nvoi (fun q => S q ∨ q < c.nvoi) (setFirst c.nvoi z.sig g) →
      Same (((OStmt.call .newton_raphson [.ref .nl_flag, .ref .nr_its, .ref .nr_err]).eff).or
        ((Stmt.call .calc_ave_stress [.ref y]).eff (runEff 6))) s t →
      Agrees (B.exec c (run c 6) t) (f z) R) :
    Agrees ((OStmt.call .newton_raphson [.ref .nl_flag, .ref .nr_its, .ref .nr_err] ;;;
        OStmt.base (.call .calc_ave_stress [.ref y] ;; B)).exec env c (oRun env c (n + 1)) s)
      (newtonRaphson env c w >>= fun r => calcAveStress c r.work >>= fun a =>
        f { sig := a.ave, nr := { r with work := { r.work with varsNew := a.varsNew } } }) R := by
  refine Agrees.seq (R := fun z t => t.w = z.work ∧
    t.l.i .nl_flag = some (if z.nl = true then 1 else 0) ∧ t.l.i .nr_its = some z.its ∧
      t.l.d .nr_err = some z.err ∧ Frame c w z.work) (Agrees.ocall (R := fun z t => NrOn z t ∧ Frame c w z.work) ⟨_, rfl, ?_⟩ ?_) ?_
  · exact run_newton L hc hok (by exact hw) n
  · rintro z r - ⟨h, hf⟩
    refine ⟨h.w, ?_, ?_, ?_, hf⟩
    · simpa [passBack, passOut, oparams, upd] using h.nl
    · simpa [passBack, passOut, oparams, upd] using h.its
    · simpa [passBack, passOut, oparams, upd] using h.err
  rintro z t - hs ⟨h1, h2, h3, h4, h5⟩
  obtain ⟨ave, vn, e1, e2⟩ := calcAveStress_ok hc h5.ok
  rw [e1, M_bind_ok']
  show Agrees (Stmt.exec c (run c 6) _ t) _ _
  have g1 := (gives_ave L hc h1 e1 (x := y) (keep_v hs hy rfl)).same
  show Agrees (((Stmt.call .calc_ave_stress [.ref y]).exec c (run c 6) t) >>= fun s => B.exec c (run c 6) s) _ _
  refine Agrees.left g1 ?_
  rintro u ⟨hu, hv, hwu⟩
  exact k _ _ hwu (h5.trans e2) (keep_i hu h2 rfl) (keep_i hu h3 rfl) (keep_d hu h4 rfl) hv
    (hs.trans hu)

/-! ## One column of a tangent -/

/-- The loops of /repo/src/homogenize.cpp:44-45, 200-201. -/
def colLoop (x : V) (e : DExp) : Stmt :=
  .for .v (.lit 0) (.mem .nvoi) (.st1 x (.add (.mul (.var .v) (.mem .nvoi)) (.var .i)) e)

theorem gives_col {x : V} {e : DExp} {f g : Nat → α} {S : Nat → Prop} {i N n : Nat}
    (hv : VecOn (s.l.v x) N S g) (hN : c.nvoi * c.nvoi ≤ N) (hi : s.l.i .i = some (i : Int)) (hlt : i < c.nvoi)
    (he : ∀ (k : Nat) (t : St α), k < c.nvoi → Same ((colLoop x e).eff (runEff n)) s t →
      t.l.i .v = some (k : Int) → e.eval c t = .ok (f k)) :
    Gives ((colLoop x e).exec c (run c n) s) (fun t =>
      VecOn (t.l.v x) N (fun q => S q ∨ ∃ k, k < c.nvoi ∧ q = k * c.nvoi + i) (setCol c.nvoi i f g)) := by
  refine Gives.for0 (N := c.nvoi) (fun m t => VecOn (t.l.v x) N (fun q => S q ∨ ∃ k, k < m ∧ q = k * c.nvoi + i)
    (accum m (fun v t => fun q => if q = v * c.nvoi + i then f v else t q) g)) (fun _ _ _ h => h) (ev_imem _) ?_ ?_
  · exact hv.congr le_rfl fun q hq => ⟨hq.elim id (by rintro ⟨k, h, -⟩; omega), rfl⟩
  intro k t hk hs hkv h
  have hi := keep_i hs hi (by simp [Stmt.eff, Eff.or, Eff.nil])
  have e1 : (IExp.add (.mul (.var .v) (.mem .nvoi)) (.var .i)).eval c t.l
      = .ok ((k * c.nvoi + i : Nat) : Int) :=
    ok_to (ev_iadd (ev_imul (ev_ivar hkv) (ev_imem _)) (ev_ivar hi)) (by simp [GI.get])
  have hlt' : k * c.nvoi + i < N := by
    calc k * c.nvoi + i < k * c.nvoi + c.nvoi := by omega
      _ = (k + 1) * c.nvoi := by ring
      _ ≤ c.nvoi * c.nvoi := Nat.mul_le_mul (by omega) le_rfl
      _ ≤ N := hN
  refine (Gives.st1 h e1 rfl hlt' (he k t hk hs hkv)).mono fun u hu => hu.congr le_rfl fun q hq => ⟨?_, ?_⟩
  · rcases hq with h | ⟨k', h1, h2⟩
    · exact Or.inl (Or.inl h)
    · by_cases e : k' = k
      · subst e; exact Or.inr h2
      · exact Or.inl (Or.inr ⟨k', by omega, h2⟩)
  · rfl

/-- The loops and the assignment of /repo/src/homogenize.cpp:32-35, 193-195. -/
theorem gives_pert {e : DExp} {d : V} {dv : α} {f g : Nat → α} {S : Nat → Prop} {i n : Nat}
    (hv : VecOn (s.l.v .eps_1) c.nvoi S g) (hi : s.l.i .i = some (i : Int)) (hlt : i < c.nvoi)
    (hd : s.l.d d = some dv)
    (he : ∀ (k : Nat) (t : St α), k < c.nvoi →
      Same ((Stmt.for .v (.lit 0) (.mem .nvoi) (.st1 .eps_1 (.var .v) e)).eff (runEff n)) s t →
      t.l.i .v = some (k : Int) → e.eval c t = .ok (f k)) {B : Stmt} {P : St α → Prop}
    (k : ∀ t, Same (((Stmt.for .v (.lit 0) (.mem .nvoi) (.st1 .eps_1 (.var .v) e)).eff (runEff n)).or
        ((Stmt.st1 .eps_1 (.var .i) e).eff (runEff n))) s t →
      VecOn (t.l.v .eps_1) c.nvoi (· < c.nvoi) (fun v => if v = i then f v + dv else f v) →
      Gives (B.exec c (run c n) t) P) :
    Gives ((Stmt.for .v (.lit 0) (.mem .nvoi) (.st1 .eps_1 (.var .v) e) ;;
      Stmt.st1 .eps_1 (.var .i) (.add (.rd1 .eps_1 (.var .i)) (.var d)) ;; B).exec c (run c n) s) P := by
  refine Gives.seq (Gives.each1 (m := 0) (N := c.nvoi) f hv (by omega) (ev_imem _) ?_) ?_
  · intro k t _ hk hs hkv h
    refine (Gives.st1 h (ev_ivar hkv) rfl hk (he k t hk hs hkv)).mono fun u hu => hu.congr le_rfl fun q hq => ⟨?_, ?_⟩
    · rcases hq with h | h
      · exact Or.inl (Or.inl h)
      · by_cases e : q = k
        · exact Or.inr e
        · exact Or.inl (Or.inr ⟨h.1, by omega⟩)
    · by_cases e : q = k
      · subst e; simp
      · have : (0 ≤ q ∧ q < k + 1) ↔ (0 ≤ q ∧ q < k) := by omega
        simp only [e, this, if_false]
  intro t hs h
  have hi' := keep_i hs hi rfl
  have hd' := keep_d hs hd rfl
  refine Gives.seq (Gives.st1 h (ev_ivar hi') rfl hlt (ev_add (ev_rd1 h (ev_ivar hi') (by omega) (by omega)
    (Or.inr ⟨by omega, by simpa using hlt⟩)) (ev_var hd'))) ?_
  intro u hu h
  refine k u (hs.trans hu) (h.congr le_rfl fun q hq => ⟨Or.inl (Or.inr ⟨q.zero_le, hq⟩), ?_⟩)
  by_cases e : q = i
  · subst e; simp [hlt]
  · have : 0 ≤ q ∧ q < c.nvoi := ⟨q.zero_le, hq⟩
    simp only [e, this, and_self, if_true, if_false]

/-! ## `calc_ctan_lin` -/

/-- The scratch memory and the arrays during the loop of `calc_ctan_lin`. -/
structure CtanOn (c : Cfg α) (S : Nat → Prop) (k : Nat) (z : CtanState α) (t : St α) : Prop where
  w : t.w = z.work
  ok : z.work.Ok c
  ctan : VecOn (t.l.v .ctan_lin) 36 (fun q => S q ∨ ∃ a b, a < c.nvoi ∧ b < k ∧ q = a * c.nvoi + b) z.ctan
  eps : VecOn (t.l.v .eps_1) c.nvoi (fun _ => False) (fun _ => 0)
  sig : VecOn (t.l.v .sig_1) c.nvoi (fun _ => False) (fun _ => 0)

theorem VecOn.drop {β : Type} {o : Option (Vec β)} {N M : Nat} {S : Nat → Prop} {f : Nat → β} (g : Nat → β)
    (h : VecOn o N S f) (hN : M ≤ N) : VecOn o M (fun _ => False) g :=
  h.congr hN fun _ h => h.elim

theorem run_calc_ctan_lin (L : LitLaws α) (hc : c.Ok) {w : Work α} (hok : w.Ok c) (hw : s.w = w)
    {S : Nat → Prop} {ctan : Nat → α} (hv : VecOn (s.l.v .ctan_lin) 36 S ctan) (n : Nat) :
    Agrees (oRun env c (n + 2) .calc_ctan_lin s) (calcCtanLin env c ctan w) (fun z t =>
      t.w = z.work ∧ z.work.Ok c ∧
      VecOn (t.l.v .ctan_lin) 36 (fun q => S q ∨ q < c.nvoi * c.nvoi) z.ctan) := by
  show Agrees (o_calc_ctan_lin.exec env c (oRun env c (n + 1)) s) _ _
  have n6 := nvoi_le c
  have n36 : c.nvoi * c.nvoi ≤ 36 := Nat.mul_le_mul n6 n6
  refine Agrees.seqL (P := fun t => t.w = w ∧ VecOn (t.l.v .ctan_lin) 36 S ctan ∧
    VecOn (t.l.v .eps_1) c.nvoi (fun _ => False) (fun _ => 0) ∧
    VecOn (t.l.v .sig_1) c.nvoi (fun _ => False) (fun _ => 0) ∧ t.l.d .d_eps = some (1.0e-8 : α)) ?_ ?_
  · show Gives (Stmt.exec c (run c 6) _ s) _
    refine Gives.seq (Gives.declV (fun _ => 0)) ?_
    intro s1 hs h1; keep hs
    refine Gives.seq (Gives.declV (fun _ => 0)) ?_
    intro s2 hs h2; keep hs
    refine (Gives.setD (ev_lit _ _ _)).same.mono ?_
    rintro t ⟨hs, h3⟩; keep hs
    exact ⟨hw, hv, h2.drop _ n6, h1.drop _ n6, h3⟩
  rintro s1 hs ⟨h1, h2, h3, h4, hd⟩
  clear hs hw hv
  have hz : (OfScientific.ofScientific 0 true 1 : α) = 0 := L.zeroD
  refine (Agrees.ofor (N := c.nvoi) (fun k z t => CtanOn c S k z t) ?_ (ev_imem _) ⟨h1, hok, ?_, h3, h4⟩ ?_).mono ?_
  · exact fun k a t o h => ⟨h.w, h.ok, h.ctan, h.eps, h.sig⟩
  · exact h2.congr le_rfl fun q hq => ⟨hq.elim id (by rintro ⟨_, _, _, h, _⟩; omega), rfl⟩
  · intro i t z hi hs hti h
    have hd := keep_d hs hd rfl
    clear hs
    unfold solveStrain
    obtain ⟨u, e1, e2⟩ := setDispl_ok hc h.ok (fun v => if v = i then 0 + (1.0e-8 : α) else 0)
    rw [e1, M_bind_ok']
    simp only [bind_assoc, pure_bind]
    obtain ⟨hw, hok, hct, hep, hsg⟩ := h
    refine Agrees.seqL (P := fun t => t.w = { z.work with u := u } ∧
      VecOn (t.l.v .ctan_lin) 36 (fun q => S q ∨ ∃ a b, a < c.nvoi ∧ b < i ∧ q = a * c.nvoi + b) z.ctan ∧
      VecOn (t.l.v .eps_1) c.nvoi (fun _ => False) (fun _ => 0) ∧
      VecOn (t.l.v .sig_1) c.nvoi (fun _ => False) (fun _ => 0) ∧ t.l.d .d_eps = some (1.0e-8 : α) ∧
      t.l.i .i = some (i : Int)) ?_ ?_
    · show Gives (Stmt.exec c (run c 6) _ t) _
      refine gives_pert (f := fun _ => 0) hep hti hi hd (fun _ _ _ _ _ => ok_to (ev_lit _ _ _) hz) ?_
      intro t hs he; clear hep; keep hs
      refine Gives.seq Gives.declI ?_
      intro t hs _; keep hs
      refine Gives.seq Gives.declI ?_
      intro t hs _; keep hs
      refine Gives.seq Gives.declD ?_
      intro t hs _; keep hs
      refine (gives_displ L hc hw e1 he).same.mono ?_
      rintro t ⟨hs, h1, h2⟩
      have he' := he
      rw [← h2] at he'
      clear he h2
      keep hs
      exact ⟨h1, hct, he'.drop _ le_rfl, hsg, hd, hti⟩
    rintro t - ⟨hw, hct, hep, hsg, hd, hti⟩
    refine (agrees_tail L hc e2.ok hw hsg (B := colLoop .ctan_lin (.div (.rd1 .sig_1 (.var .v)) (.var .d_eps)))
      (f := fun r => pure (CtanState.mk (setCol c.nvoi i (fun v => r.sig v / 1.0e-8) z.ctan) r.nr.work)) ?_)
    intro r t hw hf _ _ _ hsg hs
    keep hs
    refine Agrees.ok ((gives_col (f := fun v => r.sig v / 1.0e-8) hct n36 hti hi ?_).same.mono ?_)
    · intro k t hk hs hkv
      keep hs
      refine ok_to (ev_div (ev_rd1 hsg (ev_ivar hkv) (by omega) (by omega) (Or.inr (by simpa using hk))) (ev_var hd)) ?_
      simp [setFirst, hk]
    · rintro t ⟨hs, h⟩
      clear hct
      keep hs
      refine ⟨hw, hf.ok, h.congr le_rfl fun q hq => ⟨?_, rfl⟩, hep, hsg.drop _ le_rfl⟩
      rcases hq with h | ⟨a, b, h1, h2, h3⟩
      · exact Or.inl (Or.inl h)
      · by_cases e : b = i
        · exact Or.inr ⟨a, h1, by rw [h3, e]⟩
        · exact Or.inl (Or.inr ⟨a, b, h1, by omega, h3⟩)
  · rintro z t - h
    refine ⟨h.w, h.ok, h.ctan.congr le_rfl fun q hq => ⟨hq.imp id fun h => ?_, rfl⟩⟩
    have hp : 0 < c.nvoi := by unfold Cfg.nvoi; split <;> omega
    exact ⟨q / c.nvoi, q % c.nvoi, Nat.div_lt_of_lt_mul h, Nat.mod_lt _ hp, (Nat.div_add_mod' q c.nvoi).symm⟩

end Verif.Text
