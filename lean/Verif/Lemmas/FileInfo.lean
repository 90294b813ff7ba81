import Verif.Lemmas.FileVtu
import Verif.Lemmas.ObjHomog

/-!
# The text of `write_info_files` writes what the model says
-/

namespace Verif.Text

variable {α : Type} [Scalar α]
variable {env : Env α} {c : Cfg α} {gs : List (Gp α)} {call : FFn → FSt α → M (FSt α)} {s : St α} {w : Work α}

/-- What the loops over the Gauss points leave alone. -/
abbrev Head (w : Work α) (h : Int) (t : St α) : Prop := t.w = w ∧ t.l.i .output_files_header = some h

/-- `for (auto const & gp : gauss_list) file << gp.id << " ";`: /repo/src/output.cpp:232-233. -/
theorem emits_ids {h : Int} (hs : Head w h s) : Emits' env c gs call
    (.each (.put [.int (.var .g_id), .str " "])) s (gs.flatMap fun g => [.int g.id, .sp]) (Head w h) :=
  Emits.each hs fun g t _ ht => Emits.put (toks_ivar rfl (toks_str toks_nil)) ht

theorem ev_fix {x : V} {i : V} {n k : Nat} {f : Nat → α} (h : s.l.v x = some ⟨n, fun q => some (f q)⟩)
    (hi : s.l.i i = some (k : Int)) (hk : k < n) : (DExp.rd1 x (.var i)).eval c s = .ok (f k) :=
  ev_rd1 (N := n) (S := fun _ => True) (f := f) ⟨_, h, le_rfl, fun _ _ => rfl⟩ (ev_ivar hi) (by omega)
    (by omega) trivial

theorem ev_fixI {x : V} {i : V} {n k : Nat} {f : Nat → Int} (h : s.l.iv x = some ⟨n, fun q => some (f q)⟩)
    (hi : s.l.i i = some (k : Int)) (hk : k < n) : (IExp.rd x (.var i)).eval c s.l = .ok (f k) :=
  ev_ird (N := n) (S := fun _ => True) (f := f) ⟨_, h, le_rfl, fun _ _ => rfl⟩ (ev_ivar hi) (by omega)
    (by omega) trivial

/-- `micropp_convergence.dat`: /repo/src/output.cpp:248-257. -/
theorem emits_conv {h : Int} (hn : 1 + c.nvoi ≤ 7) (hs : Head w h s) : Emits' env c gs call
    (.each (
      .ite (.eqI (.var .g_int_vars_n) (.lit 0)) (.put [.int (.lit 0)]) (.put [.int (.lit 1)]) ;;;;
      .put [.str " "] ;;;;
      .put [.num (.var .g_inv_max), .str " "] ;;;;
      .for .i (.lit 0) (.add (.lit 1) (.mem .nvoi)) (
        .put [.int (.rd .g_nr_its (.var .i)), .str " "] ;;;;
        .put [.num (.rd1 .g_nr_err (.var .i)), .str " "]) ;;;;
      .put [.str " ", .str "|", .str " "])) s (gs.flatMap (recConv c)) (Head w h) := by
  refine Emits.each hs fun g t _ ht => ?_
  have hf : (⟨t.w, gpIn g t.l⟩ : St α).l.i .g_int_vars_n = some (ptr g.intVarsN) := rfl
  have hd : (⟨t.w, gpIn g t.l⟩ : St α).l.d .g_inv_max = some g.invMax := rfl
  have h1 : (⟨t.w, gpIn g t.l⟩ : St α).l.iv .g_nr_its = some ⟨7, fun q => some (g.nrIts q)⟩ := rfl
  have h2 : (⟨t.w, gpIn g t.l⟩ : St α).l.v .g_nr_err = some ⟨7, fun q => some (g.nrErr q)⟩ := rfl
  have h3 : Head w h ⟨t.w, gpIn g t.l⟩ := ht
  generalize (⟨t.w, gpIn g t.l⟩ : St α) = t at *
  have e : recConv c g = [.int (if g.intVarsN.isNone = true then 0 else 1)] ++ ([.sp] ++ ([.num g.invMax, .sp]
    ++ (emitP (1 + c.nvoi) (fun i => [.int (g.nrIts i), .sp, .num (g.nrErr i), .sp]) ++ Tok.bar))) := rfl
  rw [e]
  refine Emits.seq (Q := (· = t)) (Emits.cast (Emits.cond (v := g.intVarsN.isNone = true)
    (ok_to (ev_eqI (ev_ivar hf) (ev_ilit _)) (by cases g.intVarsN <;> simp [ptr]))
    (fun _ => Emits.put (by toks) rfl) fun _ => Emits.put (by toks) rfl) (by split <;> rfl)) ?_
  rintro t rfl
  refine Emits.seq (Q := (· = t)) (Emits.put (by toks) rfl) ?_
  rintro t rfl
  refine Emits.seq (Q := (· = t)) (Emits.put (by toks) rfl) ?_
  rintro t rfl
  refine Emits.seq (Emits.loop (N := 1 + c.nvoi) (P := fun u => Head w h u ∧
    u.l.iv .g_nr_its = some ⟨7, fun q => some (g.nrIts q)⟩ ∧ u.l.v .g_nr_err = some ⟨7, fun q => some (g.nrErr q)⟩)
    (fun _ _ h => h) (ok_to (ev_iadd (ev_ilit _) (ev_imem _)) (by simp [GI.get])) ⟨h3, h1, h2⟩ ?_) ?_
  · intro k u hk hi hu
    refine Emits.cast (Emits.seq (Q := (· = u)) (Emits.put (toks_int (ev_fixI hu.2.1 hi (by omega)) (toks_str toks_nil)) rfl) ?_)
      (ts := [.int (g.nrIts k), .sp] ++ [.num (g.nrErr k), .sp]) rfl
    rintro _ rfl
    exact Emits.put (toks_num (ev_fix hu.2.2 hi (by omega)) (toks_str toks_nil)) hu
  · intro u hu
    exact Emits.put (by toks) hu.1

/-- A loop over a fixed array of `gp`. -/
theorem emits_fix {h : Int} {x : V} {n : Nat} {f : Nat → α} {P : St α → Prop}
    (hP : ∀ t o, P t → P { t with l.i := upd t.l.i .i o })
    (hx : ∀ t, P t → t.l.v x = some ⟨n, fun q => some (f q)⟩) (hs : P s) : Emits' env c gs call
    (.for .i (.lit 0) (.lit (n : Int)) (.put [.num (.rd1 x (.var .i)), .str " "])) s
    (emitP n fun i => [.num (f i), .sp]) P :=
  Emits.loop hP rfl hs fun _ _ hk hi hu => Emits.put (toks_num (ev_fix (hx _ hu) hi hk) (toks_str toks_nil)) hu

/-- `micropp_eps_sig_ctan.dat`: /repo/src/output.cpp:262-270. -/
theorem emits_eps {h : Int} (hs : Head w h s) : Emits' env c gs call
    (.each (
      .for .i (.lit 0) (.lit 6) (
        .put [.num (.rd1 .g_macro_strain (.var .i)), .str " "]) ;;;;
      .for .i (.lit 0) (.lit 6) (
        .put [.num (.rd1 .g_macro_stress (.var .i)), .str " "]) ;;;;
      .for .i (.lit 0) (.lit 36) (
        .put [.num (.rd1 .g_macro_ctan (.var .i)), .str " "]) ;;;;
      .put [.str " ", .str "|", .str " "])) s (gs.flatMap recEps) (Head w h) := by
  refine Emits.each hs fun g t _ ht => ?_
  have e : recEps g = emitP 6 (fun i => [.num (g.macroStrain i), .sp]) ++ (emitP 6 (fun i => [.num (g.macroStress i), .sp])
    ++ (emitP 36 (fun i => [.num (g.macroCtan i), .sp]) ++ Tok.bar)) := by unfold recEps; simp only [List.append_assoc]
  rw [e]
  have hP : ∀ t o, (fun u : St α => Head w h u ∧ u.l.v .g_macro_strain = some ⟨6, fun q => some (g.macroStrain q)⟩
      ∧ u.l.v .g_macro_stress = some ⟨6, fun q => some (g.macroStress q)⟩
      ∧ u.l.v .g_macro_ctan = some ⟨36, fun q => some (g.macroCtan q)⟩) t →
      (fun u : St α => Head w h u ∧ u.l.v .g_macro_strain = some ⟨6, fun q => some (g.macroStrain q)⟩
      ∧ u.l.v .g_macro_stress = some ⟨6, fun q => some (g.macroStress q)⟩
      ∧ u.l.v .g_macro_ctan = some ⟨36, fun q => some (g.macroCtan q)⟩) { t with l.i := upd t.l.i .i o } := fun _ _ h => h
  refine Emits.seq (emits_fix (h := h) (n := 6) hP (fun _ h => h.2.1) ⟨ht, rfl, rfl, rfl⟩) fun u hu => ?_
  refine Emits.seq (emits_fix (h := h) (n := 6) hP (fun _ h => h.2.2.1) hu) fun u hu => ?_
  refine Emits.seq (emits_fix (h := h) (n := 36) hP (fun _ h => h.2.2.2) hu) fun u hu => ?_
  exact Emits.put (by toks) hu.1

/-- `recVars` without its faults. -/
def recVarsP (c : Cfg α) (gp : Gp α) : List (Tok α) :=
  emitP c.numIntVars (fun i => match gp.intVarsN with | some n => [.num (n.val i), .sp] | none => [.num 0, .sp])
    ++ Tok.bar

theorem recVars_eq {g : Gp α} (hg : g.Ok c) : recVars c g = .ok (recVarsP c g) := by
  unfold recVars recVarsP
  rw [emit_eq (g := fun i => match g.intVarsN with | some n => [.num (n.val i), .sp] | none => [.num 0, .sp])]
  · rfl
  · intro i hi
    have hgn := hg.n
    cases hp : g.intVarsN with
    | none => rfl
    | some n =>
      show (n.read i >>= fun v => pure _) = _
      rw [Buf.read_ok (by rw [hgn _ hp]; exact hi)]
      rfl

theorem recVarsList_eq {l : List (Gp α)} (hl : ∀ g ∈ l, g.Ok c) :
    recVarsList c l = .ok (l.flatMap (recVarsP c)) := by
  induction l with
  | nil => rfl
  | cons g l ih =>
    unfold recVarsList
    rw [recVars_eq (hl g (by simp)), M_bind_ok', ih fun g hg => hl g (by simp [hg])]
    rfl

/-- `micropp_int_vars_n.dat`: /repo/src/output.cpp:275-282. -/
theorem emits_vars (L : LitLaws α) {h : Int} (hg : ∀ g ∈ gs, g.Ok c) (hs : Head w h s) : Emits' env c gs call
    (.each (
      .for .i (.lit 0) (.mem .num_int_vars) (
        .ite (.eqI (.var .g_int_vars_n) (.lit 0)) (
          .put [.num (.lit (nat_lit 0) true (nat_lit 1)), .str " "]) (
          .put [.num (.rd1 .g_int_vars_n (.var .i)), .str " "])) ;;;;
      .put [.str " ", .str "|", .str " "])) s (gs.flatMap (recVarsP c)) (Head w h) := by
  have hz : (OfScientific.ofScientific 0 true 1 : α) = 0 := L.zeroD
  refine Emits.each hs fun g t hm ht => ?_
  unfold recVarsP
  refine Emits.seq (Emits.loop (N := c.numIntVars) (P := fun u => Head w h u ∧
    u.l.i .g_int_vars_n = some (ptr g.intVarsN) ∧ u.l.v .g_int_vars_n = g.intVarsN.map Vec.ofBuf)
    (fun _ _ h => h) rfl ⟨ht, rfl, rfl⟩ ?_) fun u hu => Emits.put (by toks) hu.1
  intro k u hk hi hu
  have hgn := (hg g hm).n
  cases hp : g.intVarsN with
  | none =>
    rw [hp] at hu
    refine Emits.ite_pos (ok_to (ev_eqI (ev_ivar hu.2.1) (ev_ilit _)) (by simp [ptr])) ?_
    exact Emits.put (toks_num (ok_to (ev_lit _ _ _) hz) (toks_str toks_nil)) hu
  | some b =>
    rw [hp] at hu
    refine Emits.ite_neg (ok_to (ev_eqI (ev_ivar hu.2.1) (ev_ilit _)) (by simp [ptr])) ?_
    refine Emits.put (toks_num (ev_fix (n := b.size) (f := b.val) hu.2.2 hi ?_) (toks_str toks_nil)) hu
    rw [hgn b hp]
    exact hk

/-- `write_info_files`: /repo/src/output.cpp:224-285. -/
theorem exec_write_info (L : LitLaws α) (hn : 1 + c.nvoi ≤ 7) {o : ObjFiles α} (hc : o.obj.cfg = c) (hw : o.obj.work = w)
    (hgs : o.obj.gauss = gs) (hg : ∀ g ∈ gs, g.Ok c) {l : Loc α}
    (hl : l.i .output_files_header = some (if o.obj.header = true then 1 else 0)) :
    Gives (f_write_info_files.exec c gs (fun p => p.exec env c (oRun env c 3)) call ⟨⟨w, l⟩, o.files, none⟩)
      (fun u => Head w 1 u.st ∧ writeInfoFiles o = .ok ⟨{ o.obj with header := true }, u.files⟩ ∧ u.cur = none) := by
  have hm : writeInfoFiles o = .ok { obj := { o.obj with header := true }, files :=
    let f := if o.obj.header = false then
      { o.files with convergence := o.files.convergence ++ headerConv gs
                     epsSigCtan := o.files.epsSigCtan ++ headerEps gs }
    else o.files
    { f with
           convergence := f.convergence ++ (gs.flatMap (recConv c) ++ [.endl])
           epsSigCtan := f.epsSigCtan ++ (gs.flatMap recEps ++ [.endl])
           intVarsN := f.intVarsN ++ (gs.flatMap (recVarsP c) ++ [.endl]) } } := by
    unfold writeInfoFiles
    simp only [hc, hgs, recVarsList_eq hg, M_bind_ok', M_pure]
  rw [hm]
  unfold f_write_info_files
  refine Gives.fseq (P := fun u => Head w 1 u.st ∧ u.cur = none ∧ u.files = (if o.obj.header = false then
      { o.files with convergence := o.files.convergence ++ headerConv gs
                     epsSigCtan := o.files.epsSigCtan ++ headerEps gs }
    else o.files)) ?_ ?_
  · cases hh : o.obj.header with
    | true =>
      rw [hh] at hl
      refine Gives.fite_neg (ok_to (ev_eqI (ev_ivar hl) (ev_ilit _)) (by simp)) ?_
      exact ⟨_, rfl, ⟨rfl, hl⟩, rfl, rfl⟩
    | false =>
      rw [hh] at hl
      refine Gives.fite_pos (ok_to (ev_eqI (ev_ivar hl) (ev_ilit _)) (by simp)) ?_
      refine Gives.fobj (Q := Head w 1) (Gives.obase ((Gives.setI (ev_ilit _)).same.mono fun u h =>
        ⟨keep_w h.1 rfl rfl, h.2⟩)) fun s hs => ?_
      refine Gives.fopen (f := .conv) rfl ?_
      fput
      refine Gives.femits (emits_ids hs) fun s hs => ?_
      fput
      fput
      refine Gives.fclose ?_
      refine Gives.fopen (f := .eps) rfl ?_
      fput
      refine Gives.femits (emits_ids hs) fun s hs => ?_
      fput
      fput
      refine Gives.fend ⟨hs, rfl, ?_⟩
      simp [FId.set, FId.get, headerConv, headerEps, idLine]
  · rintro ⟨s, F, o'⟩ ⟨hs, h1, h2⟩
    dsimp only at hs h1 h2
    subst h1
    rw [← h2]
    refine Gives.fopen (f := .conv) rfl ?_
    refine Gives.femits (emits_conv hn hs) fun s hs => ?_
    fput
    refine Gives.fclose ?_
    refine Gives.fopen (f := .eps) rfl ?_
    refine Gives.femits (emits_eps hs) fun s hs => ?_
    fput
    refine Gives.fclose ?_
    refine Gives.fopen (f := .vars) rfl ?_
    refine Gives.femits (emits_vars L hg hs) fun s hs => ?_
    fput
    refine Gives.fend ⟨hs, ?_, rfl⟩
    simp [FId.set, FId.get]

end Verif.Text
