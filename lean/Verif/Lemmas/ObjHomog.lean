import Verif.Lemmas.ObjGp

/-!
# The source text of `homogenize` computes that of the model
-/

namespace Verif.Text

variable {α : Type} [Scalar α] {c : Cfg α} {env : Env α} {s : St α}

/-- `newton_raphson(..); calc_ave_stress(y); B`, where `set_displ` has been called, before `C`. -/
theorem agrees_tail2 (L : LitLaws α) (hc : c.Ok) {w : Work α} (hok : w.Ok c) (hw : s.w = w) {n : Nat} {y : V}
    {S : Nat → Prop} {g : Nat → α} (hy : VecOn (s.l.v y) c.nvoi S g) {B : Stmt} {C : OStmt} {γ : Type}
    {f : PertOut α → M γ} {R : γ → St α → Prop}
    (k : ∀ z t, t.w = z.nr.work → Frame c w z.nr.work →
      t.l.i .nl_flag = some (if z.nr.nl = true then 1 else 0) → t.l.i .nr_its = some z.nr.its →
      t.l.d .nr_err = some z.nr.err →
      VecOn (t.l.v y) c.nvoi (fun q => S q ∨ q < c.nvoi) (setFirst c.nvoi z.sig g) →
      Same (((OStmt.call .newton_raphson [.ref .nl_flag, .ref .nr_its, .ref .nr_err]).eff).or
        ((Stmt.call .calc_ave_stress [.ref y]).eff (runEff 6))) s t →
      Agrees ((OStmt.base B ;;; C).exec env c (oRun env c (n + 1)) t) (f z) R) :
    Agrees ((OStmt.call .newton_raphson [.ref .nl_flag, .ref .nr_its, .ref .nr_err] ;;;
        (OStmt.base (.call .calc_ave_stress [.ref y] ;; B) ;;; C)).exec env c (oRun env c (n + 1)) s)
      (newtonRaphson env c w >>= fun r => calcAveStress c r.work >>= fun a =>
        f { sig := a.ave, nr := { r with work := { r.work with varsNew := a.varsNew } } }) R := by
  refine Agrees.seq (R := fun z t => t.w = z.work ∧
    t.l.i .nl_flag = some (if z.nl = true then 1 else 0) ∧ t.l.i .nr_its = some z.its ∧
      t.l.d .nr_err = some z.err ∧ Frame c w z.work)
    (Agrees.ocall (R := fun z t => NrOn z t ∧ Frame c w z.work) ⟨_, rfl, ?_⟩ ?_) ?_
  · exact run_newton L hc hok (by exact hw) n
  · rintro z r - ⟨h, hf⟩
    refine ⟨h.w, ?_, ?_, ?_, hf⟩
    · simpa [passBack, passOut, oparams, upd] using h.nl
    · simpa [passBack, passOut, oparams, upd] using h.its
    · simpa [passBack, passOut, oparams, upd] using h.err
  rintro z t - hs ⟨h1, h2, h3, h4, h5⟩
  obtain ⟨ave, vn, e1, e2⟩ := calcAveStress_ok hc h5.ok
  rw [e1, M_bind_ok']
  have g1 := (gives_ave L hc h1 e1 (x := y) (keep_v hs hy rfl)).same
  have e : (OStmt.base (.call .calc_ave_stress [.ref y] ;; B) ;;; C).exec env c (oRun env c (n + 1)) t
      = ((Stmt.call .calc_ave_stress [.ref y]).exec c (run c 6) t >>= fun s =>
          (OStmt.base B ;;; C).exec env c (oRun env c (n + 1)) s) := by
    show (((Stmt.call .calc_ave_stress [.ref y]).exec c (run c 6) t >>= fun s => B.exec c (run c 6) s) >>=
      fun s => C.exec env c (oRun env c (n + 1)) s) = _
    rw [bind_assoc]
    rfl
  rw [e]
  refine Agrees.left g1 ?_
  rintro u ⟨hu, hv, hwu⟩
  exact k _ _ hwu (h5.trans e2) (keep_i hu h2 rfl) (keep_i hu h3 rfl) (keep_d hu h4 rfl) hv (hs.trans hu)

/-! ## Loading and storing the internal variables -/

theorem ptr_zero {p : Option (Buf α)} (h : PtrOn (s.l.i .g_int_vars_n) (s.l.v .g_int_vars_n) p) :
    (BExp.eqI (.var .g_int_vars_n) (.lit 0)).eval c s = .ok p.isNone := by
  refine ok_to (ev_eqI (ev_ivar h.flag) (ev_ilit _)) ?_
  cases p <;> simp [ptr]

theorem gives_load (L : LitLaws α) {w : Work α} (hw : s.w = w) {gp : Gp α} (hg : GpOn c gp s.l) {old : Buf α}
    (hm : loadVars c gp.intVarsN w.varsOld = .ok old) :
    Gives ((Stmt.ite (.eqI (.var .g_int_vars_n) (.lit 0)) (
        .for .i (.lit 0) (.mem .num_int_vars) (
          .memSt .vars_old (.var .i) (.lit (nat_lit 0) true (nat_lit 1)))) (
        .for .i (.lit 0) (.mem .num_int_vars) (
          .memSt .vars_old (.var .i) (.rd1 .g_int_vars_n (.var .i))))).exec c (run c 6) s)
      (fun t => t.w = { w with varsOld := old }) := by
  have hz : (OfScientific.ofScientific 0 true 1 : α) = 0 := L.zeroD
  have hb := ptr_zero (c := c) hg.n
  have hn := hg.n
  generalize gp.intVarsN = p at hb hn hm
  cases p with
  | none =>
    refine Gives.ite_pos hb ?_
    refine (Gives.memLoop (g := .vars_old) (ix := id) hw (ev_imem _) hm ?_).mono fun t h => h
    intro k t q q' hk hs hi _ he
    exact ⟨0, ev_ivar hi, ok_to (ev_lit _ _ _) hz, he⟩
  | some b =>
    refine Gives.ite_neg hb ?_
    refine (Gives.memLoop (g := .vars_old) (ix := id) hw (ev_imem _) hm ?_).mono fun t h => h
    intro k t q q' hk hs hi _ he
    obtain ⟨v, h1, h2⟩ := bind_ok_iff.1 he
    have hbk := keep_blk hs (hn.blk b rfl) rfl
    have hlt : k < b.size := (read_ok_inv h1).1
    rw [Buf.read_ok hlt] at h1
    cases h1
    exact ⟨_, ev_ivar hi, ev_blk hbk (ev_ivar hi) rfl hlt hlt, h2⟩

/-- /repo/src/homogenize.cpp:173-182. -/
def storeStmt : Stmt :=
  .ite (.eqI (.var .nl_flag) (.lit 1)) (
    .ite (.eqI (.var .g_int_vars_n) (.lit 0)) (
      .malloc .g_int_vars_k (.mem .num_int_vars) ;;
      .setI .g_int_vars_k (.lit 1) ;;
      .malloc .g_int_vars_n (.mem .num_int_vars) ;;
      .setI .g_int_vars_n (.lit 1) ;;
      .for .i (.lit 0) (.mem .num_int_vars) (
        .st1 .g_int_vars_n (.var .i) (.lit (nat_lit 0) true (nat_lit 1)))) (
      .skip) ;;
    .for .i (.lit 0) (.mem .num_int_vars) (
      .st1 .g_int_vars_k (.var .i) (.memRd .vars_new (.var .i)))) (
    .skip)

theorem gives_store (L : LitLaws α) {w : Work α} (hw : s.w = w) {gp gp' : Gp α} (hg : GpOn c gp s.l) (hgo : gp.Ok c)
    {nl : Bool} (hnl : s.l.i .nl_flag = some (if nl = true then 1 else 0)) (hvn : w.varsNew.size = c.numIntVars)
    (hm : storeVars c nl w.varsNew gp = .ok gp') :
    Gives (storeStmt.exec c (run c 6) s) (fun t => GpOn c gp' t.l ∧ t.w = w) := by
  have hz : (OfScientific.ofScientific 0 true 1 : α) = 0 := L.zeroD
  unfold storeVars at hm
  cases nl with
  | false =>
    cases hm
    refine Gives.ite_neg (ok_to (ev_eqI (ev_ivar hnl) (ev_ilit _)) rfl) (Gives.skip.mono ?_)
    rintro t rfl
    exact ⟨hg, hw⟩
  | true =>
    refine Gives.ite_pos (ok_to (ev_eqI (ev_ivar hnl) (ev_ilit _)) rfl) ?_
    rw [if_pos rfl] at hm
    have hb := ptr_zero (c := c) hg.n
    have hcopy : ∀ {s : St α} {g : Gp α} {k : Buf α} {S : Nat → Prop}, s.w = w →
        Blk (s.l.v .g_int_vars_k) k S → k.size = c.numIntVars → s.l.i .g_int_vars_k = some 1 →
        GpOn c { g with intVarsK := none } { s.l with i := upd s.l.i .g_int_vars_k (some 0) } →
        Gives ((Stmt.for .i (.lit 0) (.mem .num_int_vars) (
          .st1 .g_int_vars_k (.var .i) (.memRd .vars_new (.var .i)))).exec c (run c 6) s) (fun t =>
          GpOn c { g with intVarsK := some ⟨k.size, fun q => if q < c.numIntVars then w.varsNew.val q else k.val q⟩ } t.l ∧
          t.w = w) := by
      intro s g k S hw hk hsz hfl hg
      refine (Gives.blkLoop (f := w.varsNew.val) hk (by omega) ?_).same.mono ?_
      · intro k t hk hs hi
        keep hs
        have hlt : k < (GA.vars_new.get t.w).size := by rw [hw]; show k < w.varsNew.size; omega
        exact ok_to (ev_memRd (ev_ivar hi) rfl hlt) (by rw [hw]; rfl)
      · rintro t ⟨hs, h⟩
        refine ⟨⟨?_, ?_, ⟨keep_i hs hfl rfl, ?_⟩, ?_, ?_, ?_, ?_, ?_, ?_⟩, keep_w hs hw rfl⟩
        · exact keep_i hs hg.id rfl
        · exact PtrOn.keep (s := s) hg.n hs rfl
        · rintro b ⟨⟩
          obtain ⟨a, h1, h2, h3, h4⟩ := h
          exact ⟨a, h1, h2, fun q hq => h3 q (Or.inr (by rw [← hsz]; exact hq)), h4⟩
        · exact keep_v (s := s) hs hg.strain rfl
        · exact keep_v (s := s) hs hg.stress rfl
        · exact keep_v (s := s) hs hg.ctan rfl
        · exact keep_v (s := s) hs hg.err rfl
        · exact (hs.iv .g_nr_its rfl).symm ▸ hg.its
        · exact keep_d (s := s) hs hg.inv rfl
    cases hN : gp.intVarsN with
    | none =>
      simp only [hN] at hm hb
      rw [zeroInto_eq (by show _ ≤ c.numIntVars; omega), M_bind_ok',
        copyInto_eq (by omega) (by show _ ≤ c.numIntVars; omega), M_bind_ok'] at hm
      cases hm
      refine Gives.seq (P := fun t => t.w = w ∧ t.l.i .g_int_vars_k = some 1 ∧
        Blk (t.l.v .g_int_vars_k) ⟨c.numIntVars, fun _ => 0⟩ (fun _ => False) ∧
        GpOn c { gp with intVarsK := none, intVarsN := some ⟨c.numIntVars, fun k => if k < c.numIntVars then 0 else 0⟩ }
          { t.l with i := upd t.l.i .g_int_vars_k (some 0) }) (Gives.ite_pos hb ?_) ?_
      · refine Gives.seq (Gives.blkMalloc (ev_imem _)) ?_
        intro t1 hs1 h1
        refine Gives.seq (Gives.setI (k := 1) rfl) ?_
        intro t2 hs2 h2
        refine Gives.seq (Gives.blkMalloc (ev_imem _)) ?_
        intro t3 hs3 h3
        refine Gives.seq (Gives.setI (k := 1) rfl) ?_
        intro t4 hs4 h4
        refine (Gives.blkLoop (f := fun _ => 0) (keep_blk hs4 h3 rfl) le_rfl
          (fun _ _ _ _ _ => ok_to (ev_lit _ _ _) hz)).same.mono ?_
        rintro t5 ⟨hs5, h5⟩
        have hs := (((hs1.trans hs2).trans hs3).trans hs4).trans hs5
        refine ⟨keep_w hs hw rfl, ?_, ?_, ⟨?_, ⟨?_, ?_⟩, ⟨rfl, ?_⟩, ?_, ?_, ?_, ?_, ?_, ?_⟩⟩
        · exact keep_i hs5 (keep_i hs4 (keep_i hs3 h2 rfl) rfl) rfl
        · exact keep_blk hs5 (keep_blk hs4 (keep_blk hs3 (keep_blk hs2 h1 rfl) rfl) rfl) rfl
        · exact keep_i hs hg.id rfl
        · exact keep_i hs5 h4 rfl
        · rintro b ⟨⟩
          obtain ⟨a, h1, h2, h3, h4⟩ := h5
          exact ⟨a, h1, h2, fun q hq => h3 q (Or.inr hq), h4⟩
        · rintro b ⟨⟩
        · exact keep_v hs hg.strain rfl
        · exact keep_v hs hg.stress rfl
        · exact keep_v hs hg.ctan rfl
        · exact keep_v hs hg.err rfl
        · exact (hs.iv .g_nr_its rfl).symm ▸ hg.its
        · exact keep_d hs hg.inv rfl
      · rintro t - ⟨h1, h2, h3, h4⟩
        exact (hcopy (g := { gp with intVarsN := some ⟨c.numIntVars, fun k => if k < c.numIntVars then 0 else 0⟩ })
          h1 h3 rfl h2 h4).mono fun t h => h
    | some b =>
      simp only [hN] at hm hb
      have hK := hgo.both
      rw [hN] at hK
      obtain ⟨k, hk⟩ := Option.isSome_iff_exists.1 hK.symm
      simp only [hk] at hm
      have hks := hgo.k k hk
      rw [copyInto_eq (by omega) (by omega), M_bind_ok'] at hm
      cases hm
      refine Gives.seq (P := fun t => t = s) (Gives.ite_neg hb Gives.skip) ?_
      rintro t - rfl
      refine (hcopy (g := gp) hw (hg.k.blk k hk) hks ?_ ?_).mono fun t h => by rw [← hN]; exact h
      · rw [hg.k.flag, hk]; rfl
      · exact ⟨hg.id, hg.n, ⟨rfl, by rintro b ⟨⟩⟩, hg.strain, hg.stress, hg.ctan, hg.err, hg.its, hg.inv⟩

/-! ## The linear branch -/

/-- /repo/src/homogenize.cpp:147-161. -/
def linearStmt : Stmt :=
  linLoop .g_macro_stress .g_macro_strain ;;
  .for .i (.lit 0) (.mem .nvoi) (
    .for .j (.lit 0) (.mem .nvoi) (
      .st1 .g_macro_ctan (.add (.mul (.var .i) (.mem .nvoi)) (.var .j))
        (.ctanLin (.add (.mul (.var .i) (.mem .nvoi)) (.var .j))))) ;;
  .for .i (.lit 0) (.add (.lit 1) (.mem .nvoi)) (
    .stI .g_nr_its (.var .i) (.lit 0) ;;
    .st1 .g_nr_err (.var .i) (.lit (nat_lit 0) true (nat_lit 1)))

theorem VecOn.all {β : Type} {o : Option (Vec β)} {N : Nat} {S : Nat → Prop} {f g : Nat → β}
    (h : VecOn o N S f) (hS : ∀ q, S q) (hf : ∀ q, f q = g q) : VecOn o N (fun _ => True) g :=
  h.congr le_rfl fun q _ => ⟨hS q, hf q⟩

theorem gives_linear (L : LitLaws α) {w : Work α} (hw : s.w = w) {gp : Gp α} (hg : GpOn c gp s.l) :
    Gives (linearStmt.exec c (run c 6) s) (fun t => GpOn c (linearGp c gp) t.l ∧ t.w = w) := by
  have hz : (OfScientific.ofScientific 0 true 1 : α) = 0 := L.zeroD
  have n6 := nvoi_le c
  refine Gives.seq (gives_lin L (x := .g_macro_stress) (y := .g_macro_strain) (by decide) hg.stress
    (hg.strain.congr le_rfl fun q _ => ⟨trivial, rfl⟩)) ?_
  intro s1 hs h
  have hg1 : GpOn c { gp with macroStress := setFirst c.nvoi (linStress c gp.macroStrain) gp.macroStress } s1.l := by
    gpset hg hs (h.all (fun _ => Or.inl trivial) fun _ => rfl)
  clear hg h
  keep hs
  refine Gives.seq (Gives.for0 (N := c.nvoi) (fun i t => VecOn (t.l.v .g_macro_ctan) 36 (fun _ => True)
    (setFirst (i * c.nvoi) c.ctanLin gp.macroCtan)) (fun _ _ _ h => h) (ev_imem _) ?_ ?_) ?_
  · exact hg1.ctan.all (fun _ => trivial) fun q => by simp [setFirst]
  · intro i t hi hs hti h
    refine (Gives.for0 (N := c.nvoi) (fun j t => VecOn (t.l.v .g_macro_ctan) 36 (fun _ => True)
      (setFirst (i * c.nvoi + j) c.ctanLin gp.macroCtan)) (fun _ _ _ h => h) (ev_imem _) h ?_).mono ?_
    · intro j t hj hs htj h
      keep hs
      have e1 : (IExp.add (.mul (.var .i) (.mem .nvoi)) (.var .j)).eval c t.l
          = .ok ((i * c.nvoi + j : Nat) : Int) :=
        ok_to (ev_iadd (ev_imul (ev_ivar hti) (ev_imem _)) (ev_ivar htj)) (by simp [GI.get])
      have hlt : i * c.nvoi + j < 36 := by
        calc i * c.nvoi + j < i * c.nvoi + c.nvoi := by omega
          _ = (i + 1) * c.nvoi := by ring
          _ ≤ 6 * 6 := Nat.mul_le_mul (by omega) n6
      refine (Gives.st1 h e1 rfl hlt (ev_ctanLin e1 (by omega) (by omega))).mono fun t h =>
        h.all (fun _ => Or.inl trivial) fun q => ?_
      rw [Int.toNat_natCast]
      unfold setFirst
      by_cases e : q = i * c.nvoi + j
      · subst e; simp
      · have : q < i * c.nvoi + (j + 1) ↔ q < i * c.nvoi + j := by omega
        simp only [e, this, if_false]
    · intro t h
      have : (i + 1) * c.nvoi = i * c.nvoi + c.nvoi := by ring
      rw [this]; exact h
  intro s2 hs h
  have hg2 : GpOn c { gp with
      macroStress := setFirst c.nvoi (linStress c gp.macroStrain) gp.macroStress
      macroCtan := setFirst (c.nvoi * c.nvoi) c.ctanLin gp.macroCtan } s2.l := by
    gpset hg1 hs h
  clear hg1 h
  keep hs
  refine (Gives.for0 (N := 1 + c.nvoi) (fun i t =>
    VecOn (t.l.iv .g_nr_its) 7 (fun _ => True) (fun q => if q < i then 0 else gp.nrIts q) ∧
    VecOn (t.l.v .g_nr_err) 7 (fun _ => True) (setFirst i (fun _ => 0) gp.nrErr)) (fun _ _ _ h => h)
    (ok_to (ev_iadd (ev_ilit _) (ev_imem _)) (by simp [GI.get])) ?_ ?_).same.mono ?_
  · exact ⟨hg2.its.all (fun _ => trivial) fun q => by simp, hg2.err.all (fun _ => trivial) fun q => by simp [setFirst]⟩
  · rintro i t hi hs hti ⟨h1, h2⟩
    refine Gives.seq (Gives.stI h1 (ev_ivar hti) rfl (by omega) (ev_ilit _)) ?_
    intro t hs h; clear h1; keep hs
    refine (Gives.st1 h2 (ev_ivar hti) rfl (by omega) (ok_to (ev_lit _ _ _) hz)).same.mono ?_
    rintro t ⟨hs, h'⟩; clear h2
    refine ⟨((hs.iv .g_nr_its rfl).symm ▸ h).all (fun _ => Or.inl trivial) fun q => ?_,
      h'.all (fun _ => Or.inl trivial) fun q => ?_⟩
    · by_cases e : q = i
      · subst e; simp [setFirst]
      · have : q < i + 1 ↔ q < i := by omega
        simp only [setFirst, e, this, if_false]
    · by_cases e : q = i
      · subst e; simp
      · have : q < i + 1 ↔ q < i := by omega
        simp only [e, this, if_false]
  · rintro t ⟨hs, h1, h2⟩
    refine ⟨?_, keep_w hs hw rfl⟩
    exact ⟨keep_i hs hg2.id rfl, hg2.n.keep hs rfl, hg2.k.keep hs rfl, keep_v hs hg2.strain rfl,
      keep_v hs hg2.stress rfl, keep_v hs hg2.ctan rfl, h2, h1, keep_d hs hg2.inv rfl⟩

/-! ## The branch that solves the cell problem -/

/-- /repo/src/homogenize.cpp:165-205. -/
def solveStmt : OStmt :=
  .base (
    .declI .nr_its ;;
    .declI .nl_flag ;;
    .declD .nr_err ;;
    .call .set_displ [.ref .g_macro_strain]) ;;;
  .call .newton_raphson [.ref .nl_flag, .ref .nr_its, .ref .nr_err] ;;;
  .base (
    .call .calc_ave_stress [.ref .g_macro_stress] ;;
    storeStmt ;;
    .stI .g_nr_its (.lit 0) (.var .nr_its) ;;
    .st1 .g_nr_err (.lit 0) (.var .nr_err) ;;
    .declV .eps_1 6 ;;
    .declV .sig_0 6 ;;
    .declV .sig_1 6 ;;
    .setD .dEps (.lit (nat_lit 10) true (nat_lit 9)) ;;
    .for .v (.lit 0) (.mem .nvoi) (
      .st1 .sig_0 (.var .v) (.rd1 .g_macro_stress (.var .v)))) ;;;
  .for .i (.lit 0) (.mem .nvoi) (
    .base (
      .for .v (.lit 0) (.mem .nvoi) (
        .st1 .eps_1 (.var .v) (.rd1 .g_macro_strain (.var .v))) ;;
      .st1 .eps_1 (.var .i) (.add (.rd1 .eps_1 (.var .i)) (.var .dEps)) ;;
      .call .set_displ [.ref .eps_1]) ;;;
    .call .newton_raphson [.ref .nl_flag, .ref .nr_its, .ref .nr_err] ;;;
    .base (
      .call .calc_ave_stress [.ref .sig_1] ;;
      colLoop .g_macro_ctan (.div (.sub (.rd1 .sig_1 (.var .v)) (.rd1 .sig_0 (.var .v))) (.var .dEps)) ;;
      .stI .g_nr_its (.add (.lit 1) (.var .i)) (.var .nr_its) ;;
      .st1 .g_nr_err (.add (.lit 1) (.var .i)) (.var .nr_err)))

/-- The variables during the loop over the columns. -/
structure ColOn (c : Cfg α) (z : GpWork α) (t : St α) : Prop where
  gp : GpOn c z.gp t.l
  w : t.w = z.work
  ok : z.work.Ok c
  eps : VecOn (t.l.v .eps_1) c.nvoi (fun _ => False) (fun _ => 0)
  sig : VecOn (t.l.v .sig_1) c.nvoi (fun _ => False) (fun _ => 0)

theorem agrees_ctanGp (L : LitLaws α) (hc : c.Ok) {z : GpWork α} {sig0 : Nat → α} {i n : Nat} (hi : i < c.nvoi)
    (h : ColOn c z s) (hti : s.l.i .i = some (i : Int)) (hd : s.l.d .dEps = some (1.0e-8 : α))
    (hs0 : VecOn (s.l.v .sig_0) c.nvoi (· < c.nvoi) sig0) :
    Agrees ((OStmt.base (
      .for .v (.lit 0) (.mem .nvoi) (
        .st1 .eps_1 (.var .v) (.rd1 .g_macro_strain (.var .v))) ;;
      .st1 .eps_1 (.var .i) (.add (.rd1 .eps_1 (.var .i)) (.var .dEps)) ;;
      .call .set_displ [.ref .eps_1]) ;;;
    .call .newton_raphson [.ref .nl_flag, .ref .nr_its, .ref .nr_err] ;;;
    .base (
      .call .calc_ave_stress [.ref .sig_1] ;;
      colLoop .g_macro_ctan (.div (.sub (.rd1 .sig_1 (.var .v)) (.rd1 .sig_0 (.var .v))) (.var .dEps)) ;;
      .stI .g_nr_its (.add (.lit 1) (.var .i)) (.var .nr_its) ;;
      .st1 .g_nr_err (.add (.lit 1) (.var .i)) (.var .nr_err))).exec env c (oRun env c (n + 1)) s)
      (ctanGp env c sig0 i z) (ColOn c) := by
  have n6 := nvoi_le c
  have n36 : c.nvoi * c.nvoi ≤ 36 := Nat.mul_le_mul n6 n6
  unfold ctanGp solveStrain
  obtain ⟨hg, hw, hok, hep, hsg⟩ := h
  obtain ⟨u, e1, e2⟩ := setDispl_ok hc hok
    (fun v => if v = i then z.gp.macroStrain v + (1.0e-8 : α) else z.gp.macroStrain v)
  simp only [bind_assoc, pure_bind]
  rw [e1, M_bind_ok']
  refine Agrees.seqL (P := fun t => t.w = { z.work with u := u } ∧ GpOn c z.gp t.l ∧
    VecOn (t.l.v .eps_1) c.nvoi (fun _ => False) (fun _ => 0) ∧
    VecOn (t.l.v .sig_1) c.nvoi (fun _ => False) (fun _ => 0) ∧ t.l.d .dEps = some (1.0e-8 : α) ∧
    t.l.i .i = some (i : Int) ∧ VecOn (t.l.v .sig_0) c.nvoi (· < c.nvoi) sig0) ?_ ?_
  · show Gives (Stmt.exec c (run c 6) _ s) _
    refine gives_pert (f := z.gp.macroStrain) hep hti hi hd ?_ ?_
    · intro k t hk hs hkv
      exact ok_to (ev_rd1 (hg.keep hs rfl).strain (ev_ivar hkv) (by omega) (by omega) trivial) (by simp)
    intro t hs he
    have hg := hg.keep hs rfl
    clear hep; keep hs
    refine (gives_displ L hc hw e1 he).same.mono ?_
    rintro t ⟨hs, h1, h2⟩
    have hg := hg.keep hs rfl
    have he' := he
    rw [← h2] at he'
    clear he h2
    keep hs
    exact ⟨h1, hg, he'.drop _ le_rfl, hsg, hd, hti, hs0⟩
  rintro t - ⟨hw, hg, hep, hsg, hd, hti, hs0⟩
  refine agrees_tail L hc e2.ok hw hsg (f := fun r => pure (GpWork.mk { z.gp with
        macroCtan := setCol c.nvoi i (fun v => (r.sig v - sig0 v) / 1.0e-8) z.gp.macroCtan
        nrIts := fun q => if q = 1 + i then r.nr.its else z.gp.nrIts q
        nrErr := fun q => if q = 1 + i then r.nr.err else z.gp.nrErr q } r.nr.work)) ?_
  intro r t hw hf _ hits herr hsg hs
  have hg := hg.keep hs rfl
  keep hs
  refine Agrees.ok ?_
  refine Gives.seq (gives_col (f := fun v => (r.sig v - sig0 v) / 1.0e-8) hg.ctan n36 hti hi ?_) ?_
  · intro k t hk hs hkv
    keep hs
    refine ok_to (ev_div (ev_sub (ev_rd1 hsg (ev_ivar hkv) (by omega) (by omega) (Or.inr (by simpa using hk)))
      (ev_rd1 hs0 (ev_ivar hkv) (by omega) (by omega) (by simpa using hk))) (ev_var hd)) ?_
    simp [setFirst, hk]
  intro t hs h
  have hg1 : GpOn c { z.gp with
      macroCtan := setCol c.nvoi i (fun v => (r.sig v - sig0 v) / 1.0e-8) z.gp.macroCtan } t.l := by
    gpset hg hs (h.all (fun _ => Or.inl trivial) fun _ => rfl)
  clear hg h
  keep hs
  have e1 : ∀ t : St α, t.l.i .i = some (i : Int) →
      (IExp.add (.lit 1) (.var .i)).eval c t.l = .ok ((1 + i : Nat) : Int) := fun t h =>
    ok_to (ev_iadd (ev_ilit _) (ev_ivar h)) (by simp)
  refine Gives.seq (Gives.stI hg1.its (e1 _ hti) rfl (by omega) (ev_ivar hits)) ?_
  intro t hs h
  have hg2 : GpOn c { z.gp with
      macroCtan := setCol c.nvoi i (fun v => (r.sig v - sig0 v) / 1.0e-8) z.gp.macroCtan
      nrIts := fun q => if q = 1 + i then r.nr.its else z.gp.nrIts q } t.l := by
    gpset hg1 hs (h.all (fun _ => Or.inl trivial) fun _ => rfl)
  clear hg1 h
  keep hs
  refine (Gives.st1 hg2.err (e1 _ hti) rfl (by omega) (ev_var herr)).same.mono ?_
  rintro t ⟨hs, h⟩
  refine ⟨?_, keep_w hs hw rfl, hf.ok, keep_v hs hep rfl, (keep_v hs hsg rfl).drop _ le_rfl⟩
  gpset hg2 hs (h.all (fun _ => Or.inl trivial) fun _ => rfl)

theorem agrees_solveGp (L : LitLaws α) (hc : c.Ok) {w : Work α} (hok : w.Ok c) (hw : s.w = w) {gp : Gp α}
    (hg : GpOn c gp s.l) (hgo : gp.Ok c) {n : Nat} :
    Agrees (solveStmt.exec env c (oRun env c (n + 1)) s) (solveGp env c gp w)
      (fun z t => GpOn c z.gp t.l ∧ t.w = z.work) := by
  have n6 := nvoi_le c
  unfold solveGp solveStrain
  obtain ⟨u, e1, e2⟩ := setDispl_ok hc hok gp.macroStrain
  simp only [bind_assoc, pure_bind]
  rw [e1, M_bind_ok']
  refine Agrees.seqL (P := fun t => t.w = { w with u := u } ∧ GpOn c gp t.l) ?_ ?_
  · show Gives (Stmt.exec c (run c 6) _ s) _
    refine Gives.seq Gives.declI ?_
    intro t hs _; have hg := hg.keep hs rfl; keep hs
    refine Gives.seq Gives.declI ?_
    intro t hs _; have hg := hg.keep hs rfl; keep hs
    refine Gives.seq Gives.declD ?_
    intro t hs _; have hg := hg.keep hs rfl; keep hs
    refine (gives_displ L hc hw e1 (hg.strain.congr le_rfl fun _ _ => ⟨trivial, rfl⟩)).same.mono ?_
    rintro t ⟨hs, h1, h2⟩
    have h3 := hg.strain
    rw [← h2] at h3
    refine ⟨h1, ?_⟩
    gpset hg hs h3
  rintro t - ⟨hw, hg⟩
  refine agrees_tail2 L hc e2.ok hw hg.stress (f := fun r =>
    storeVars c r.nr.nl r.nr.work.varsNew { gp with macroStress := setFirst c.nvoi r.sig gp.macroStress } >>= fun gp =>
    loop c.nvoi (fun i s => ctanGp env c gp.macroStress i s) (GpWork.mk { gp with
      nrIts := fun q => if q = 0 then r.nr.its else gp.nrIts q
      nrErr := fun q => if q = 0 then r.nr.err else gp.nrErr q } r.nr.work)) ?_
  intro r t hw hf hnl hits herr hst hs
  have hg1 : GpOn c { gp with macroStress := setFirst c.nvoi r.sig gp.macroStress } t.l := by
    gpset hg hs (hst.all (fun _ => Or.inl trivial) fun _ => rfl)
  clear hg hst hs
  have hgo1 : Gp.Ok c { gp with macroStress := setFirst c.nvoi r.sig gp.macroStress } := ⟨hgo.n, hgo.k, hgo.both⟩
  obtain ⟨gp', hm, hgo'⟩ := storeVars_ok hgo1 r.nr.nl (vn := r.nr.work.varsNew) hf.ok.varsNew
  rw [hm, M_bind_ok']
  refine Agrees.seqL (P := fun t => ColOn c (GpWork.mk { gp' with
      nrIts := fun q => if q = 0 then r.nr.its else gp'.nrIts q
      nrErr := fun q => if q = 0 then r.nr.err else gp'.nrErr q } r.nr.work) t ∧
      t.l.d .dEps = some (1.0e-8 : α) ∧ VecOn (t.l.v .sig_0) c.nvoi (· < c.nvoi) gp'.macroStress) ?_ ?_
  · show Gives (Stmt.exec c (run c 6) _ t) _
    refine Gives.seq (gives_store L hw hg1 hgo1 hnl hf.ok.varsNew hm) ?_
    rintro t hs ⟨hg, hw'⟩
    clear hw hg1; keep hs
    refine Gives.seq (Gives.stI hg.its (ev_ilit _) (k := 0) rfl (by omega) (ev_ivar hits)) ?_
    intro t hs h
    have hg1 : GpOn c { gp' with nrIts := fun q => if q = 0 then r.nr.its else gp'.nrIts q } t.l := by
      gpset hg hs (h.all (fun _ => Or.inl trivial) fun _ => rfl)
    clear hg h; keep hs
    refine Gives.seq (Gives.st1 hg1.err (ev_ilit _) (k := 0) rfl (by omega) (ev_var herr)) ?_
    intro t hs h
    have hg2 : GpOn c { gp' with
        nrIts := fun q => if q = 0 then r.nr.its else gp'.nrIts q
        nrErr := fun q => if q = 0 then r.nr.err else gp'.nrErr q } t.l := by
      gpset hg1 hs (h.all (fun _ => Or.inl trivial) fun _ => rfl)
    clear hg1 h; keep hs
    refine Gives.seq (Gives.declV (fun _ => 0)) ?_
    intro t hs h1; have hg2 := hg2.keep hs rfl; keep hs
    refine Gives.seq (Gives.declV (fun _ => 0)) ?_
    intro t hs h2; have hg2 := hg2.keep hs rfl; keep hs
    refine Gives.seq (Gives.declV (fun _ => 0)) ?_
    intro t hs h3; have hg2 := hg2.keep hs rfl; keep hs
    refine Gives.seq (Gives.setD (ev_lit _ _ _)) ?_
    intro t hs h4; have hg2 := hg2.keep hs rfl; keep hs
    refine (Gives.each1 (m := 0) (N := c.nvoi) gp'.macroStress (h2.drop (M := c.nvoi) (fun _ => 0) n6) (by omega)
      (ev_imem _) ?_).same.mono ?_
    · intro k t _ hk hs hkv h
      have hg2 := hg2.keep hs rfl
      refine (Gives.st1 h (ev_ivar hkv) rfl hk (ev_rd1 hg2.stress (ev_ivar hkv) (by omega) (by omega) trivial)).mono
        fun u hu => hu.congr le_rfl fun q hq => ⟨?_, ?_⟩
      · have := hq.resolve_left id
        by_cases e : q = k
        · exact Or.inr e
        · exact Or.inl (Or.inr ⟨this.1, by omega⟩)
      · by_cases e : q = k
        · subst e; simp
        · have : (0 ≤ q ∧ q < k + 1) ↔ (0 ≤ q ∧ q < k) := by omega
          simp only [e, this, if_false]
    · rintro t ⟨hs, h⟩
      have hg2 := hg2.keep hs rfl
      clear h2
      keep hs
      refine ⟨⟨hg2, hw', hf.ok, h1.drop _ n6, h3.drop _ n6⟩, h4, h.congr le_rfl fun q hq => ⟨Or.inr ⟨q.zero_le, hq⟩, ?_⟩⟩
      have : 0 ≤ q ∧ q < c.nvoi := ⟨q.zero_le, hq⟩
      simp only [this, and_self, if_true]
  rintro t - ⟨h, hd, hs0⟩
  refine (Agrees.ofor (N := c.nvoi) (fun k z t => ColOn c z t) ?_ (ev_imem _) h ?_).mono ?_
  · exact fun k a t o h => ⟨⟨h.gp.id, h.gp.n, h.gp.k, h.gp.strain, h.gp.stress, h.gp.ctan, h.gp.err, h.gp.its,
      h.gp.inv⟩, h.w, h.ok, h.eps, h.sig⟩
  · intro i t z hi hs hti h
    exact agrees_ctanGp L hc hi h hti (keep_d hs hd rfl) (keep_v hs hs0 rfl)
  · exact fun z t _ h => ⟨h.gp, h.w⟩

/-! ## One Gauss point -/

/-- The body of the loop of `homogenize`: /repo/src/homogenize.cpp:136-207. -/
def gpBody : OStmt :=
  match l_homogenize with
  | [.each p] => p
  | _ => .abort

theorem l_homogenize_eq : l_homogenize = [.each gpBody] := rfl

theorem ev_and {a b : BExp} {x y : Bool} (ha : a.eval c s = .ok x) (hb : b.eval c s = .ok y) :
    (BExp.and a b).eval c s = .ok (x && y) := by
  rw [BExp.eval, ha, M_bind_ok']
  cases x
  · rfl
  · exact hb

theorem agrees_homogenizeGp (L : LitLaws α) (hc : c.Ok) {w : Work α} (hok : w.Ok c) (hw : s.w = w) {gp : Gp α}
    (hg : GpOn c gp s.l) (hgo : gp.Ok c) {n : Nat} :
    Agrees (gpBody.exec env c (oRun env c (n + 2)) s) (homogenizeGp env c gp w)
      (fun z t => GpOn c z.gp t.l ∧ t.w = z.work) := by
  have e : homogenizeGp env c gp w = loadVars c gp.intVarsN w.varsOld >>= fun old =>
      isLinear c (-1.0e10) gp.macroStrain >>= fun l =>
      (if l.1 = true ∧ gp.intVarsN.isNone = true then
          pure (GpWork.mk (linearGp c gp) { w with varsOld := old, invMax := l.2 })
        else solveGp env c gp { w with varsOld := old, invMax := l.2 }) >>= fun s =>
      pure { s with gp := { s.gp with invMax := s.work.invMax } } := by
    unfold homogenizeGp
    refine congrArg _ (funext fun old => congrArg _ (funext fun l => ?_))
    dsimp only
    split
    · rfl
    · rfl
  rw [e]
  clear e
  obtain ⟨old, h1, h2⟩ := loadVars_ok hgo hok.varsOld
  obtain ⟨l, h3⟩ := isLinear_ok hc (-1.0e10 : α) gp.macroStrain
  rw [h1, M_bind_ok', h3, M_bind_ok']
  have hok1 : ({ w with varsOld := old, invMax := l.2 } : Work α).Ok c :=
    ⟨hok.u, hok.du, hok.b, hok.elemStress, hok.elemStrain, h2, hok.varsNew, hok.A2, hok.A3⟩
  show Agrees (OStmt.exec env c _ (_ ;;; _) s) _ _
  refine Agrees.seqL (Gives.obase (gives_load L hw hg h1)) ?_
  intro t hs hw
  have hg := hg.keep hs rfl
  clear hs
  refine Agrees.seqL (P := fun t => t.w = { w with varsOld := old, invMax := -1.0e10 }) ?_ ?_
  · refine ⟨{ t with w.invMax := -1.0e10 }, ?_, ?_⟩
    · rfl
    · simp [hw]
  intro t hs hw
  have hg := hg.keep hs rfl
  clear hs
  refine Agrees.seqL (P := fun t => t.w = { w with varsOld := old, invMax := l.2 } ∧
    t.l.i .t_is_linear = some (if l.1 = true then 1 else 0) ∧ GpOn c gp t.l) ?_ ?_
  · have := (Gives.ocall (env := env) (c := c) (s := t) (call := oRun env c (n + 2)) (f := .is_linear)
      (args := [.ref .g_macro_strain, .ref .t_is_linear])
      (P := fun t' => t'.w = { w with varsOld := old, invMax := l.2 } ∧
        t'.l.i .t_is_linear = some (if l.1 = true then 1 else 0) ∧
        t'.l.v .g_macro_strain = t.l.v .g_macro_strain)
      (Q := fun r => r.l.i .ret = some (if l.1 = true then 1 else 0) ∧
        r.w = { w with varsOld := old, invMax := l.2 } ∧ r.l.v .macro_strain = t.l.v .g_macro_strain) ⟨_, rfl, ?_⟩ ?_)
    · obtain ⟨t', h1, h2, h3, h4⟩ := this
      have hs := oexec_same _ h1
      refine ⟨t', h1, h2, h3, ?_⟩
      have hst := hg.strain
      rw [← h4] at hst
      gpset hg hs hst
    · exact run_is_linear (w := { w with varsOld := old, invMax := -1.0e10 }) L hc (by exact hw) h3
        (by exact hg.strain.congr le_rfl fun _ _ => ⟨trivial, rfl⟩) n
    · rintro r ⟨h1, h2, h3⟩
      refine ⟨h2, ?_, ?_⟩
      · simpa [passBack, passOut, oparams, upd] using h1
      · simpa [passBack, passOut, oparams, upd] using h3
  rintro t - ⟨hw, hl, hg⟩
  refine Agrees.seq (R := fun (z : GpWork α) t => GpOn c z.gp t.l ∧ t.w = z.work) ?_ ?_
  · have hb : (BExp.and (.eqI (.var .t_is_linear) (.lit 1)) (.eqI (.var .g_int_vars_n) (.lit 0))).eval c t
        = .ok (l.1 && gp.intVarsN.isNone) := by
      have h1 : (BExp.eqI (.var .t_is_linear) (.lit 1)).eval c t = .ok l.1 :=
        ok_to (ev_eqI (ev_ivar hl) (ev_ilit _)) (by cases l.1 <;> rfl)
      have h2 := ptr_zero (c := c) hg.n
      exact ev_and h1 h2
    by_cases hcnd : l.1 = true ∧ gp.intVarsN.isNone = true
    · rw [if_pos hcnd]
      rw [hcnd.1, hcnd.2] at hb
      exact Agrees.ite_pos hb (Agrees.ok (gives_linear L hw hg))
    · rw [if_neg hcnd]
      have : (l.1 && gp.intVarsN.isNone) = false := by
        rw [Bool.eq_false_iff]; simpa using hcnd
      rw [this] at hb
      exact Agrees.ite_neg hb (agrees_solveGp L hc hok1 hw hg hgo)
  rintro z t - - ⟨hg, hw⟩
  refine Agrees.ok ((Gives.setD (ev_invMax hw)).same.mono ?_)
  rintro t' ⟨hs, h⟩
  refine ⟨?_, keep_w hs hw rfl⟩
  gpset hg hs h

end Verif.Text
