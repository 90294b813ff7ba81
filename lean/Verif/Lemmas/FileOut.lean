import Verif.Lemmas.FileInfo

/-!
# The text of `output` does what the model says
-/

namespace Verif.Text

variable {α : Type} [Scalar α]
variable {env : Env α} {c : Cfg α} {gs : List (Gp α)} {s : St α} {w : Work α}

theorem findConst_eq {b : St α → M Bool} {f : FSt α → M (FSt α)} {id : Int} {s : FSt α}
    (hb : ∀ g : Gp α, b ⟨s.st.w, gpIn g s.st.l⟩ = .ok (decide (g.id = id))) (l : List (Gp α)) :
    findConst b f l s = match findGp id l with
      | none => .ok s
      | some g => f { s with st.l := gpIn g s.st.l } := by
  induction l with
  | nil => rfl
  | cons g l ih =>
    unfold findConst findGp
    rw [hb, M_bind_ok']
    by_cases h : g.id = id
    · simp [h]
    · simp [h, ih]

theorem findGp_mem {id : Int} {l : List (Gp α)} {g : Gp α} (h : findGp id l = some g) : g ∈ l := by
  induction l with
  | nil => cases h
  | cons a l ih =>
    unfold findGp at h
    split at h
    · cases h; simp
    · exact List.mem_cons_of_mem _ (ih h)

theorem fobj_bind {ex : OStmt → St α → M (St α)} {call : FFn → FSt α → M (FSt α)} {p : OStmt} {q : FStmt}
    {F : Files α} {o : Option (FId × List (Tok α))} :
    (FStmt.obj p ;;;; q).exec c gs ex call ⟨s, F, o⟩ = ex p s >>= fun t => q.exec c gs ex call ⟨t, F, o⟩ := by
  simp only [FStmt.exec, bind_assoc, M_pure]
  rfl

/-- What `output` computes before it writes: /repo/src/output.cpp:33-45. -/
def outStmt : OStmt :=
  .base (
    .ite (.eqI (.var .g_int_vars_n) (.lit 0)) (
      .for .i (.lit 0) (.mem .num_int_vars) (
        .memSt .vars_old (.var .i) (.lit (nat_lit 0) true (nat_lit 1)))) (
      .for .i (.lit 0) (.mem .num_int_vars) (
        .memSt .vars_old (.var .i) (.rd1 .g_int_vars_n (.var .i)))) ;;
    .declI .nr_its ;;
    .declI .nl_flag ;;
    .declD .nr_err ;;
    .call .set_displ [.ref .g_macro_strain]) ;;;
  .call .newton_raphson [.ref .nl_flag, .ref .nr_its, .ref .nr_err] ;;;
  .base (
    .call .calc_fields [])

theorem gives_fields (L : LitLaws α) (hc : c.Ok) {w w' : Work α} (hw : s.w = w) (hm : calcFields c w = .ok w') :
    Gives ((Stmt.call .calc_fields []).exec c (run c 6) s) (fun t => t.w = w') := by
  refine Gives.call' (Q := fun t => t.w = w') ⟨_, rfl, ?_⟩ fun r h => h
  rcases hc.dim with hd | hd
  · exact run_calc_fields2 (n := 2) L hw hd hm (by have := hc.nx; omega) (by have := hc.ny; omega) (nz_pos' hc)
  · exact run_calc_fields3 (n := 2) L hw hd hm (by have := hc.nx; omega) (by have := hc.ny; omega) (nz_pos' hc)

/-- The same in the model. -/
def outWork (env : Env α) (c : Cfg α) (gp : Gp α) (w : Work α) : M (Work α) := do
  let old ← loadVars c gp.intVarsN w.varsOld
  let w ← setDispl c { w with varsOld := old } gp.macroStrain
  let r ← newtonRaphson env c w
  calcFields c r.work

theorem output_some {o : ObjFiles α} {id k : Int} {g : Gp α} (hf : findGp id o.obj.gauss = some g) :
    output env o k id = outWork env o.obj.cfg g o.obj.work >>= fun w => writeVtu o.obj.cfg w >>= fun t =>
      .ok ⟨{ o.obj with work := w }, (FId.vtu id k).set o.files t⟩ := by
  unfold output outWork
  simp only [hf, bind_assoc]
  rfl

theorem agrees_out (L : LitLaws α) (hc : c.Ok) (hok : w.Ok c) (hw : s.w = w) {gp : Gp α} (hg : GpOn c gp s.l)
    (hgo : gp.Ok c) {n : Nat} :
    Agrees (outStmt.exec env c (oRun env c (n + 1)) s) (outWork env c gp w)
      (fun z t => t.w = z ∧ z.Ok c) := by
  obtain ⟨old, e0, e0'⟩ := loadVars_ok hgo hok.varsOld
  have hok' : Work.Ok c { w with varsOld := old } :=
    ⟨hok.u, hok.du, hok.b, hok.elemStress, hok.elemStrain, e0', hok.varsNew, hok.A2, hok.A3⟩
  obtain ⟨u, e1, e2⟩ := setDispl_ok hc hok' gp.macroStrain
  unfold outWork
  rw [e0, M_bind_ok', e1, M_bind_ok']
  unfold outStmt
  refine Agrees.seqL (P := fun t => t.w = { w with varsOld := old, u := u }) ?_ ?_
  · show Gives (Stmt.exec c (run c 6) _ s) _
    refine Gives.seq (gives_load L hw hg e0) ?_
    intro t hs hw'; have hg := hg.keep hs rfl; clear hw
    clear hs
    refine Gives.seq Gives.declI ?_
    intro t hs _; have hg := hg.keep hs rfl; keep hs
    refine Gives.seq Gives.declI ?_
    intro t hs _; have hg := hg.keep hs rfl; keep hs
    refine Gives.seq Gives.declD ?_
    intro t hs _; have hg := hg.keep hs rfl; keep hs
    exact (gives_displ L hc hw' e1 (hg.strain.congr le_rfl fun _ _ => ⟨trivial, rfl⟩)).mono fun _ h => h.1
  intro t _ hw
  refine Agrees.seq (R := fun z t => t.w = z.work ∧ Frame c { w with varsOld := old, u := u } z.work)
    (Agrees.ocall (R := fun z t => NrOn z t ∧ Frame c { w with varsOld := old, u := u } z.work) ⟨_, rfl, ?_⟩ ?_) ?_
  · exact run_newton L hc e2.ok (by exact hw) n
  · rintro z r - ⟨h, hf⟩
    exact ⟨h.w, hf⟩
  rintro z t - - ⟨h1, h2⟩
  obtain ⟨w', e3, e4⟩ := calcFields_ok hc h2.ok
  exact Agrees.of e3 ((gives_fields L hc h1 e3).mono fun _ h => ⟨h, e4⟩)

/-- `output`: /repo/src/output.cpp:29-50. -/
theorem exec_output (L : LitLaws α) (hc : c.Ok) {o : ObjFiles α} (hcfg : o.obj.cfg = c) (hok : o.obj.work.Ok c)
    (hg : ∀ g ∈ o.obj.gauss, g.Ok c) {l : Loc α} {id k : Int} (hid : l.i .gp_id = some id)
    (hk : l.i .time_step = some k) {n : Nat} :
    Agrees (f_output.exec c o.obj.gauss (fun p => p.exec env c (oRun env c 3)) (fRun env c o.obj.gauss (n + 1))
        ⟨⟨o.obj.work, l⟩, o.files, none⟩) (output env o k id)
      (fun z u => z.obj = { o.obj with work := u.st.w } ∧ u.st.w.Ok c ∧ u.files = z.files ∧ u.cur = none) := by
  unfold f_output
  rw [FStmt.exec, findConst_eq (id := id) fun g => ?_]
  swap
  · exact ok_to (ev_eqI (ev_ivar (k := g.id) rfl) (ev_ivar hid)) rfl
  cases hf : findGp id o.obj.gauss with
  | none =>
    have e : output env o k id = .ok o := by unfold output; rw [hf]; rfl
    exact Agrees.of e ⟨_, rfl, rfl, hok, rfl, rfl⟩
  | some g =>
    have hgo := hg g (findGp_mem hf)
    have key := (agrees_out (env := env) L hc hok (s := ⟨o.obj.work, gpIn g l⟩) rfl (gpIn_on g l) hgo (n := 2)).same
    subst hcfg
    rw [output_some hf]
    show Agrees ((FStmt.obj outStmt ;;;; FStmt.call .write_vtu [(.var .time_step), (.var .gp_id)]).exec o.obj.cfg o.obj.gauss _ _
      ⟨⟨o.obj.work, gpIn g l⟩, o.files, none⟩) _ _
    rw [fobj_bind]
    refine key.bind ?_
    rintro w' t - ⟨hs, rfl, hok'⟩
    obtain ⟨ts, hts⟩ := writeVtu_ok hc hok'
    rw [hts, M_bind_ok']
    have h1 : t.l.i .gp_id = some id := (hs.i .gp_id rfl).trans hid
    have h2 : t.l.i .time_step = some k := (hs.i .time_step rfl).trans hk
    obtain ⟨u, h3, h4, h5, h6⟩ := exec_write_vtu (env := env) (gs := o.obj.gauss)
      (call := fRun env o.obj.cfg o.obj.gauss n) L hc hok' hts
      (l := { (Loc.none : Loc α) with i := upd (upd (Loc.none : Loc α).i .time_step (some k)) .gp_id (some id) })
      (g := id) (k := k) rfl rfl o.files
    refine Agrees.ok ⟨⟨⟨t.w, t.l⟩, (FId.vtu id k).set o.files ts, none⟩, ?_, rfl, hok', rfl, rfl⟩
    · simp only [FStmt.exec, fparams, passInts, ev_ivar h1, ev_ivar h2, M_bind_ok', fRun, fbody]
      rw [h3]
      obtain ⟨⟨uw, ul⟩, uF, uc⟩ := u
      dsimp only at h4 h5 h6
      subst h4 h5 h6
      rfl

/-- A call of `output`, with the stream closed at the end. -/
theorem fRun_output (L : LitLaws α) (env : Env α) {o : ObjFiles α} (ho : o.obj.Ok) {l : Loc α} {id k : Int}
    (hid : l.i .gp_id = some id) (hk : l.i .time_step = some k) (n : Nat) :
    (fun t : FSt α => (⟨{ o.obj with work := t.st.w }, t.files⟩ : ObjFiles α)) <$>
      fRun env o.obj.cfg o.obj.gauss (n + 2) .output ⟨⟨o.obj.work, l⟩, o.files, none⟩ = output env o k id := by
  have h := exec_output (env := env) (n := n) L ho.cfg (o := o) rfl ho.work ho.gauss hid hk
  have e : fRun env o.obj.cfg o.obj.gauss (n + 2) .output ⟨⟨o.obj.work, l⟩, o.files, none⟩ =
    f_output.exec o.obj.cfg o.obj.gauss (fun p => p.exec env o.obj.cfg (oRun env o.obj.cfg 3))
      (fRun env o.obj.cfg o.obj.gauss (n + 1)) ⟨⟨o.obj.work, l⟩, o.files, none⟩ >>= fun t => pure t.close := rfl
  rw [e]
  cases hz : output env o k id with
  | error e =>
    rw [hz] at h
    rw [show FStmt.exec _ _ _ _ _ _ = _ from h]
    rfl
  | ok z =>
    rw [hz] at h
    obtain ⟨⟨t, F, c⟩, h1, h2, -, h3, h4⟩ := h
    dsimp only at h2 h3 h4
    subst h3 h4
    rw [h1]
    obtain ⟨zo, zf⟩ := z
    dsimp only at h2
    subst h2
    rfl

/-- A call of `write_vtu`. -/
theorem fRun_write_vtu (L : LitLaws α) (env : Env α) (hc : c.Ok) (hok : w.Ok c) {l : Loc α} {id k : Int}
    (hid : l.i .gp_id = some id) (hk : l.i .time_step = some k) (F : Files α) (n : Nat) :
    ∃ t ts, fRun env c gs (n + 1) .write_vtu ⟨⟨w, l⟩, F, none⟩ = .ok t ∧ writeVtu c w = .ok ts ∧ t.st.w = w ∧
      t.files = (FId.vtu id k).set F ts := by
  obtain ⟨ts, hts⟩ := writeVtu_ok hc hok
  obtain ⟨⟨t, F', o⟩, h1, h2, h3, h4⟩ := exec_write_vtu (env := env) (gs := gs) (call := fRun env c gs n) L hc hok hts
    hid hk F
  dsimp only at h2 h3 h4
  subst h4
  refine ⟨⟨t, F', none⟩, ts, ?_, hts, h2, h3⟩
  have e : fRun env c gs (n + 1) .write_vtu ⟨⟨w, l⟩, F, none⟩ =
    f_write_vtu.exec c gs (fun p => p.exec env c (oRun env c 3)) (fRun env c gs n) ⟨⟨w, l⟩, F, none⟩ >>=
      fun t => pure t.close := rfl
  rw [e, h1]
  rfl

/-- A call of `write_info_files`. -/
theorem fRun_write_info (L : LitLaws α) (env : Env α) {o : ObjFiles α} (ho : o.obj.Ok) {l : Loc α}
    (hl : l.i .output_files_header = some (if o.obj.header = true then 1 else 0)) (n : Nat) :
    ∃ t, fRun env o.obj.cfg o.obj.gauss (n + 1) .write_info_files ⟨⟨o.obj.work, l⟩, o.files, none⟩ = .ok t ∧
      t.st.w = o.obj.work ∧ t.st.l.i .output_files_header = some 1 ∧
      writeInfoFiles o = .ok ⟨{ o.obj with header := true }, t.files⟩ := by
  have hn := nvoi_le o.obj.cfg
  obtain ⟨⟨t, F, c⟩, h1, ⟨h2, h5⟩, h3, h4⟩ := exec_write_info (env := env) (call := fRun env o.obj.cfg o.obj.gauss n) L
    (by omega) (o := o) rfl rfl rfl ho.gauss hl
  dsimp only at h2 h3 h4 h5
  subst h4
  refine ⟨⟨t, F, none⟩, ?_, h2, h5, h3⟩
  have e : fRun env o.obj.cfg o.obj.gauss (n + 1) .write_info_files ⟨⟨o.obj.work, l⟩, o.files, none⟩ =
    f_write_info_files.exec o.obj.cfg o.obj.gauss (fun p => p.exec env o.obj.cfg (oRun env o.obj.cfg 3))
      (fRun env o.obj.cfg o.obj.gauss n) ⟨⟨o.obj.work, l⟩, o.files, none⟩ >>= fun t => pure t.close := rfl
  rw [e, h1]
  rfl

end Verif.Text
