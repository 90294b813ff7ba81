import Verif.Lemmas.ObjHomog
import Verif.Lemmas.SafeApi

/-!
# The source text of the functions over the list of Gauss points computes those of the model
-/

namespace Verif.Text

variable {α : Type} [Scalar α] {c : Cfg α} {env : Env α}

theorem Agrees.eq {β γ : Type} {r : M β} {m : M γ} {f : β → γ} (h : Agrees r m (fun z t => f t = z)) :
    f <$> r = m := by
  cases m with
  | ok z => obtain ⟨t, rfl, rfl⟩ := h; rfl
  | error e => have h : r = .error e := h; rw [h]; rfl

/-! ## `homogenize` -/

theorem agrees_homogenizeList (L : LitLaws α) (hc : c.Ok) {n : Nat} (l : List (Gp α)) {w : Work α} {s : St α}
    (hok : w.Ok c) (hw : s.w = w) (hl : ∀ g ∈ l, g.Ok c) :
    Agrees (eachList (gpBody.exec env c (oRun env c (n + 2))) l s) (homogenizeList env c l w)
      (fun z r => r.gauss = z.gauss ∧ r.st.w = z.work) := by
  induction l generalizing w s with
  | nil => exact Agrees.ok (Gives.ok ⟨rfl, hw⟩)
  | cons gp l ih =>
    unfold eachList homogenizeList
    have h1 := agrees_homogenizeGp (env := env) (n := n) (s := ⟨s.w, gpIn gp s.l⟩) L hc hok hw (gpIn_on gp s.l)
      (hl gp (by simp))
    refine h1.bind ?_
    rintro z t hz ⟨hg, hw'⟩
    have hs := homogenizeGp_safe (env := env) hc hok (hl gp (by simp))
    have hs : z.work.Ok c := by
      rw [hz] at hs
      rcases hs with ⟨x, hx, h⟩ | ⟨hx, _⟩ | ⟨hx, _⟩ <;> cases hx
      exact h.1
    rw [hg.out, M_bind_ok']
    refine (ih hs hw' fun g hg => hl g (by simp [hg])).bind ?_
    rintro z' r - ⟨e1, e2⟩
    exact Agrees.ok (Gives.ok ⟨by simp [e1], e2⟩)

theorem run_homogenize (L : LitLaws α) {o : Obj α} (ho : o.Ok) (l : Loc α) :
    (fun t => t.obj) <$> tRun env .homogenize ⟨o, l⟩ = homogenize env o := by
  refine Agrees.eq ?_
  show Agrees (execAll env l_homogenize ⟨o, l⟩) _ _
  rw [l_homogenize_eq]
  unfold homogenize
  show Agrees ((eachList (gpBody.exec env o.cfg (oRun env o.cfg 3)) o.gauss ⟨o.work, l⟩ >>= fun r => pure _) >>= _) _ _
  rw [bind_assoc]
  refine (agrees_homogenizeList (n := 1) L ho.cfg o.gauss ho.work rfl ho.gauss).bind ?_
  rintro z r - ⟨e1, e2⟩
  refine Agrees.ok (Gives.ok ?_)
  show ({ o with gauss := r.gauss, work := r.st.w } : Obj α) = _
  rw [e1, e2]

/-! ## `update_vars` -/

/-- The body of the loop of `update_vars`: /repo/src/homogenize.cpp:214-216. -/
def updBody : OStmt :=
  match l_update_vars with
  | [.each p] => p
  | _ => .abort

theorem gives_update {gp gp' : Gp α} {s : St α} (hg : GpOn c gp s.l) (hm : updateGp c gp = .ok gp')
    {n : Nat} : Gives (updBody.exec env c (oRun env c n) s) (fun t => GpOn c gp' t.l ∧ t.w = s.w) := by
  have hb := ptr_zero (c := c) hg.n
  show Gives (Stmt.exec c (run c 6) _ s) _
  unfold updateGp at hm
  cases hN : gp.intVarsN with
  | none =>
    rw [hN] at hb hm
    cases hm
    refine Gives.ite_pos hb (Gives.skip.mono ?_)
    rintro t rfl
    exact ⟨hg, rfl⟩
  | some b =>
    rw [hN] at hb
    simp only [hN] at hm
    refine Gives.ite_neg hb ?_
    obtain ⟨w, hw⟩ : ∃ w, s.w = w := ⟨_, rfl⟩
    rw [hw]
    cases hK : gp.intVarsK with
    | none =>
      simp only [hK] at hm
      split at hm
      · rename_i h0
        cases hm
        refine (Gives.blkLoop (f := b.val) (hg.n.blk b hN) (by omega) (fun k t hk => by omega)).same.mono ?_
        rintro t ⟨hs, h⟩
        refine ⟨?_, keep_w hs hw rfl⟩
        have hn : PtrOn (t.l.i .g_int_vars_n) (t.l.v .g_int_vars_n) gp.intVarsN := by
          refine ⟨keep_i hs hg.n.flag rfl, ?_⟩
          rw [hN]
          rintro b' ⟨⟩
          obtain ⟨a, h1, h2, h3, h4⟩ := h
          exact ⟨a, h1, h2, fun q hq => h3 q (Or.inl hq), fun q => by simpa [h0] using h4 q⟩
        gpset hg hs hn
      · cases hm
    | some k =>
      simp only [hK] at hm
      obtain ⟨b', h1, h2⟩ := bind_ok_iff.1 hm
      cases h2
      obtain ⟨e1, e2, rfl⟩ := copyInto_ok_inv h1
      refine (Gives.blkLoop (f := k.val) (hg.n.blk b hN) e2 ?_).same.mono ?_
      · intro i t hi hs hti
        exact ev_blk (hg.k.keep hs rfl |>.blk k hK) (ev_ivar hti) rfl (by show i < k.size; omega) (by omega)
      · rintro t ⟨hs, h⟩
        refine ⟨?_, keep_w hs hw rfl⟩
        have hn : PtrOn (t.l.i .g_int_vars_n) (t.l.v .g_int_vars_n)
            (some ⟨b.size, fun q => if q < c.numIntVars then k.val q else b.val q⟩) := by
          refine ⟨?_, ?_⟩
          · have := keep_i hs hg.n.flag rfl
            rw [hN] at this; exact this
          · rintro b' ⟨⟩
            obtain ⟨a, h1, h2, h3, h4⟩ := h
            exact ⟨a, h1, h2, fun q hq => h3 q (Or.inl hq), h4⟩
        rw [← hK]
        gpset hg hs hn

theorem agrees_updateList {n : Nat} (l : List (Gp α)) {s : St α} (hl : ∀ g ∈ l, g.Ok c) :
    Agrees (eachList (updBody.exec env c (oRun env c n)) l s) (updateList c l)
      (fun z r => r.gauss = z ∧ r.st.w = s.w) := by
  induction l generalizing s with
  | nil => exact Agrees.ok (Gives.ok ⟨rfl, rfl⟩)
  | cons gp l ih =>
    unfold eachList updateList
    obtain ⟨g', h1, -⟩ := updateGp_ok (hl gp (by simp))
    rw [h1, M_bind_ok']
    refine Agrees.left (gives_update (env := env) (s := ⟨s.w, gpIn gp s.l⟩) (gpIn_on gp s.l) h1) ?_
    rintro t ⟨hg, hw⟩
    rw [hg.out, M_bind_ok']
    refine (ih fun g hg => hl g (by simp [hg])).bind ?_
    rintro z' r - ⟨e1, e2⟩
    exact Agrees.ok (Gives.ok ⟨by simp [e1], e2.trans hw⟩)

theorem run_update_vars {o : Obj α} (ho : o.Ok) (l : Loc α) :
    (fun t => t.obj) <$> tRun env .update_vars ⟨o, l⟩ = updateVars o := by
  refine Agrees.eq ?_
  unfold updateVars
  show Agrees ((eachList (updBody.exec env o.cfg (oRun env o.cfg 3)) o.gauss ⟨o.work, l⟩ >>= fun r => pure _) >>= _) _ _
  rw [bind_assoc]
  refine (agrees_updateList o.gauss ho.gauss).bind ?_
  rintro z r - ⟨e1, e2⟩
  refine Agrees.ok (Gives.ok ?_)
  show ({ o with gauss := r.gauss, work := r.st.w } : Obj α) = _
  rw [e1, e2]

/-! ## The functions that look up a Gauss point -/

theorem id_eval {gp : Gp α} {s : St α} {id : Int} (hid : s.l.i .gp_id = some id) :
    (BExp.eqI (.var .g_id) (.var .gp_id)).eval c ⟨s.w, gpIn gp s.l⟩ = .ok (decide (gp.id = id)) :=
  ok_to (ev_eqI (ev_ivar (l := gpIn gp s.l) (k := gp.id) rfl) (ev_ivar (l := gpIn gp s.l) (k := id) hid)) rfl

/-- A search that leaves the list alone. -/
theorem gives_find {f : St α → M (St α)} {id : Int} (l : List (Gp α)) {s : St α}
    (hid : s.l.i .gp_id = some id) {P : Gp α → St α → Prop}
    (hf : ∀ gp ∈ l, Gives (f ⟨s.w, gpIn gp s.l⟩) (fun t => GpOn c gp t.l ∧ t.w = s.w ∧ P gp t)) :
    Gives (findList (fun s => (BExp.eqI (.var .g_id) (.var .gp_id)).eval c s) f l s) (fun r =>
      r.gauss = l ∧ r.st.w = s.w ∧
        match findGp id l with
        | none => r.st = s ∧ r.found = false
        | some gp => P gp r.st ∧ r.found = true) := by
  induction l with
  | nil => exact Gives.ok ⟨rfl, rfl, rfl, rfl⟩
  | cons gp l ih =>
    unfold findList findGp
    rw [id_eval hid, M_bind_ok']
    by_cases e : gp.id = id
    · obtain ⟨t, h1, h2, h3, h4⟩ := hf gp (by simp)
      simp only [e, decide_true, if_true]
      rw [h1, M_bind_ok', h2.out, M_bind_ok']
      exact Gives.ok ⟨rfl, h3, h4, rfl⟩
    · obtain ⟨r, h1, h2, h3, h4⟩ := ih fun g hg => hf g (by simp [hg])
      simp only [e, decide_false, if_false, Bool.false_eq_true]
      rw [h1, M_bind_ok']
      exact Gives.ok ⟨by simp [h2], h3, h4⟩

/-- `for (i < n) x[i] = y[i];`: /repo/src/homogenize.cpp:95-96, 105-106, 116-117, 126-127. -/
theorem gives_copy {x y : V} (hxy : y ≠ x) {N K n : Nat} {hi : IExp} {S : Nat → Prop} {f g : Nat → α} {s : St α}
    (hx : VecOn (s.l.v x) K S g) (hy : VecOn (s.l.v y) N (· < N) f) (hK : N ≤ K)
    (hh : hi.eval c s.l = .ok (N : Int)) :
    Gives ((Stmt.for .i (.lit 0) hi (.st1 x (.var .i) (.rd1 y (.var .i)))).exec c (run c n) s) (fun t =>
      VecOn (t.l.v x) K (fun q => S q ∨ q < N) (setFirst N f g)) := by
  refine (Gives.each1 (m := 0) (N := N) f hx (by omega) hh ?_).mono fun t h => h.congr le_rfl fun q hq =>
    ⟨hq.imp id fun h => ⟨q.zero_le, h⟩, by by_cases e : q < N <;> simp [setFirst, e]⟩
  intro k t _ hk hs hkv h
  have hy := keep_v hs hy (by simp [Stmt.eff, Eff.or, Eff.nil, hxy])
  refine (Gives.st1 h (ev_ivar hkv) rfl (by omega) (ev_rd1 hy (ev_ivar hkv) (by omega) (by omega)
    (by simpa using hk))).mono fun u hu => hu.congr le_rfl fun q hq => ⟨?_, ?_⟩
  · rcases hq with h | h
    · exact Or.inl (Or.inl h)
    · by_cases e : q = k
      · exact Or.inr e
      · exact Or.inl (Or.inr ⟨h.1, by omega⟩)
  · by_cases e : q = k
    · subst e; simp
    · have : (0 ≤ q ∧ q < k + 1) ↔ (0 ≤ q ∧ q < k) := by omega
      simp only [e, this, if_false]

theorem run_get_macro_stress {o : Obj α} {l : Loc α} {id : Int} (hid : l.i .gp_id = some id) {N : Nat}
    {S : Nat → Prop} {buf : Nat → α} (hb : VecOn (l.v .macro_stress) N S buf) (hN : o.cfg.nvoi ≤ N) :
    Gives (tRun env .get_macro_stress ⟨o, l⟩) (fun t => t.obj = (getMacroStress o id buf).1 ∧
      VecOn (t.l.v .macro_stress) N (fun q => S q ∨ ((findGp id o.gauss).isSome = true ∧ q < o.cfg.nvoi))
        (getMacroStress o id buf).2) := by
  have h := gives_find (c := o.cfg) (id := id) o.gauss (s := ⟨o.work, l⟩) hid
    (f := fun s => (OStmt.base (.for .i (.lit 0) (.mem .nvoi) (
        .st1 .macro_stress (.var .i) (.rd1 .g_macro_stress (.var .i))))).exec env o.cfg (oRun env o.cfg 3) s)
    (P := fun gp t => VecOn (t.l.v .macro_stress) N (fun q => S q ∨ q < o.cfg.nvoi)
      (setFirst o.cfg.nvoi gp.macroStress buf)) (by
      intro gp _
      have hg := gpIn_on (c := o.cfg) gp l
      have hw : (⟨o.work, gpIn gp l⟩ : St α).w = o.work := rfl
      refine (gives_copy (x := .macro_stress) (y := .g_macro_stress) (s := ⟨o.work, gpIn gp l⟩) (by decide) hb (hg.stress.congr le_rfl fun _ _ => ⟨trivial, rfl⟩) hN
        (ev_imem _)).same.mono ?_
      rintro t ⟨hs, h⟩
      exact ⟨GpOn.keep (s := ⟨o.work, gpIn gp l⟩) hg hs rfl, keep_w hs hw rfl, h⟩)
  obtain ⟨r, h1, h2, h3, h4⟩ := h
  refine ⟨⟨{ o with gauss := r.gauss, work := r.st.w }, r.st.l⟩, ?_, ?_⟩
  · show ((findList _ _ o.gauss ⟨o.work, l⟩ >>= fun r => pure _) >>= _) = _
    rw [h1]; rfl
  · unfold getMacroStress
    rw [h2, h3]
    cases hf : findGp id o.gauss with
    | none =>
      rw [hf] at h4
      refine ⟨rfl, ?_⟩
      rw [h4.1]
      exact hb.congr le_rfl fun q hq => ⟨hq.elim (fun h => h) fun h => by simp at h, rfl⟩
    | some gp =>
      rw [hf] at h4
      exact ⟨rfl, h4.1.congr le_rfl fun q hq => ⟨hq.imp (fun h => h) fun h => h.2, rfl⟩⟩

theorem run_get_macro_ctan {o : Obj α} {l : Loc α} {id : Int} (hid : l.i .gp_id = some id) {N : Nat}
    {S : Nat → Prop} {buf : Nat → α} (hb : VecOn (l.v .macro_ctan) N S buf) (hN : o.cfg.nvoi * o.cfg.nvoi ≤ N) :
    Gives (tRun env .get_macro_ctan ⟨o, l⟩) (fun t => t.obj = (getMacroCtan o id buf).1 ∧
      VecOn (t.l.v .macro_ctan) N
        (fun q => S q ∨ ((findGp id o.gauss).isSome = true ∧ q < o.cfg.nvoi * o.cfg.nvoi))
        (getMacroCtan o id buf).2) := by
  have n6 := nvoi_le o.cfg
  have n36 : o.cfg.nvoi * o.cfg.nvoi ≤ 36 := Nat.mul_le_mul n6 n6
  have h := gives_find (c := o.cfg) (id := id) o.gauss (s := ⟨o.work, l⟩) hid
    (f := fun s => (OStmt.base (.for .i (.lit 0) (.mul (.mem .nvoi) (.mem .nvoi)) (
        .st1 .macro_ctan (.var .i) (.rd1 .g_macro_ctan (.var .i))))).exec env o.cfg (oRun env o.cfg 3) s)
    (P := fun gp t => VecOn (t.l.v .macro_ctan) N (fun q => S q ∨ q < o.cfg.nvoi * o.cfg.nvoi)
      (setFirst (o.cfg.nvoi * o.cfg.nvoi) gp.macroCtan buf)) (by
      intro gp _
      have hg := gpIn_on (c := o.cfg) gp l
      have hw : (⟨o.work, gpIn gp l⟩ : St α).w = o.work := rfl
      refine (gives_copy (x := .macro_ctan) (y := .g_macro_ctan) (s := ⟨o.work, gpIn gp l⟩) (by decide) hb (hg.ctan.congr n36 fun _ _ => ⟨trivial, rfl⟩) hN
        (ok_to (ev_imul (ev_imem _) (ev_imem _)) (by simp [GI.get]))).same.mono ?_
      rintro t ⟨hs, h⟩
      exact ⟨GpOn.keep (s := ⟨o.work, gpIn gp l⟩) hg hs rfl, keep_w hs hw rfl, h⟩)
  obtain ⟨r, h1, h2, h3, h4⟩ := h
  refine ⟨⟨{ o with gauss := r.gauss, work := r.st.w }, r.st.l⟩, ?_, ?_⟩
  · show ((findList _ _ o.gauss ⟨o.work, l⟩ >>= fun r => pure _) >>= _) = _
    rw [h1]; rfl
  · unfold getMacroCtan
    rw [h2, h3]
    cases hf : findGp id o.gauss with
    | none =>
      rw [hf] at h4
      refine ⟨rfl, ?_⟩
      rw [h4.1]
      exact hb.congr le_rfl fun q hq => ⟨hq.elim (fun h => h) fun h => by simp at h, rfl⟩
    | some gp =>
      rw [hf] at h4
      exact ⟨rfl, h4.1.congr le_rfl fun q hq => ⟨hq.imp (fun h => h) fun h => h.2, rfl⟩⟩

theorem run_get_nl_flag {o : Obj α} {l : Loc α} {id : Int} (hid : l.i .gp_id = some id) :
    Gives (tRun env .get_nl_flag ⟨o, l⟩) (fun t => t.obj = (getNlFlag o id).1 ∧
      t.l.i .non_linear = some (getNlFlag o id).2) := by
  have hid' : ({ l with i := upd l.i .non_linear (some 0) } : Loc α).i .gp_id = some id := hid
  have h := gives_find (c := o.cfg) (id := id) o.gauss (s := ⟨o.work, { l with i := upd l.i .non_linear (some 0) }⟩) hid'
    (f := fun s => (OStmt.base (.ite (.eqI (.var .g_int_vars_n) (.lit 0)) (
        .setI .non_linear (.lit 0)) (
        .setI .non_linear (.lit 1)))).exec env o.cfg (oRun env o.cfg 3) s)
    (P := fun gp t => t.l.i .non_linear = some (if gp.intVarsN.isSome = true then 1 else 0)) (by
      intro gp _
      have hg := gpIn_on (c := o.cfg) gp { l with i := upd l.i .non_linear (some 0) }
      have hb := ptr_zero (c := o.cfg) (s := ⟨o.work, gpIn gp { l with i := upd l.i .non_linear (some 0) }⟩) hg.n
      generalize hs0 : (⟨o.work, gpIn gp { l with i := upd l.i .non_linear (some 0) }⟩ : St α) = s0 at hb
      have hg : GpOn o.cfg gp s0.l := by rw [← hs0]; exact hg
      have hw : s0.w = o.work := by rw [← hs0]
      show Gives (Stmt.exec o.cfg (run o.cfg 6) _ s0) _
      cases hN : gp.intVarsN with
      | none =>
        rw [hN] at hb
        refine Gives.ite_pos hb ((Gives.setI rfl).same.mono ?_)
        rintro t ⟨hs, h⟩
        exact ⟨hg.keep hs rfl, keep_w hs hw rfl, h⟩
      | some b =>
        rw [hN] at hb
        refine Gives.ite_neg hb ((Gives.setI rfl).same.mono ?_)
        rintro t ⟨hs, h⟩
        exact ⟨hg.keep hs rfl, keep_w hs hw rfl, h⟩)
  obtain ⟨r, h1, h2, h3, h4⟩ := h
  refine ⟨⟨{ o with gauss := r.gauss, work := r.st.w }, r.st.l⟩, ?_, ?_⟩
  · refine (congrArg (fun m => (m >>= fun r => (pure (ObjSt.put ⟨o, l⟩ r) : M (ObjSt α))) >>= fun s =>
      execAll env [] s) h1).trans ?_
    rfl
  · unfold getNlFlag
    rw [h2, h3]
    cases hf : findGp id o.gauss with
    | none =>
      rw [hf] at h4
      refine ⟨rfl, ?_⟩
      rw [h4.1]; rfl
    | some gp =>
      rw [hf] at h4
      exact ⟨rfl, h4.1⟩

/-! ## `set_macro_strain` -/

/-- `for (i < nvoi) gp_n.macro_strain[i] = macro_strain[i];` on a new element:
/repo/src/homogenize.cpp:105-106. -/
theorem gives_copyNew {x y : V} (hxy : y ≠ x) {N n : Nat} {hi : IExp} {f : Nat → α} {s : St α}
    (hx : s.l.v x = some ⟨6, fun _ => none⟩) (hy : VecOn (s.l.v y) N (· < N) f) (hN : N ≤ 6)
    (hh : hi.eval c s.l = .ok (N : Int)) :
    Gives ((Stmt.for .i (.lit 0) hi (.st1 x (.var .i) (.rd1 y (.var .i)))).exec c (run c n) s) (fun t =>
      t.l.v x = some ⟨6, fun q => if q < N then some (f q) else none⟩) := by
  refine Gives.for0 (fun k t => t.l.v x = some ⟨6, fun q => if q < k then some (f q) else none⟩)
    (fun _ _ _ h => h) hh (by simpa using hx) ?_
  intro k t hk hs hkv h
  have hy := keep_v hs hy (by simp [Stmt.eff, Eff.or, Eff.nil, hxy])
  have he := ev_rd1 (c := c) hy (ev_ivar hkv) (by omega) (by omega) (by simpa using hk)
  have hi := ev_ivar (c := c) hkv
  simp only [Int.toNat_natCast] at he
  have h6 : (k : Int) < 6 := by omega
  refine ⟨_, by simp [Stmt.exec, hi, he, h, need, Vec.wr, h6]; rfl, ?_⟩
  simp only [upd, if_true]
  congr 2
  funext q
  by_cases e : q = k
  · subst e; simp
  · have : q < k + 1 ↔ q < k := by omega
    simp [e, this]

/-- The search of `set_macro_strain`: /repo/src/homogenize.cpp:92-99. -/
theorem gives_findStrain {id : Int} {eps : Nat → α} (g : Gp α) (l : List (Gp α)) {s : St α}
    (hid : s.l.i .gp_id = some id) (hv : VecOn (s.l.v .macro_strain) c.nvoi (· < c.nvoi) eps) :
    Gives (findList (fun s => (BExp.eqI (.var .g_id) (.var .gp_id)).eval c s)
      (fun s => (OStmt.base (.for .i (.lit 0) (.mem .nvoi) (
        .st1 .g_macro_strain (.var .i) (.rd1 .macro_strain (.var .i))))).exec env c (oRun env c 3) s) l s) (fun r =>
      r.st.w = s.w ∧
        if r.found = true then r.gauss = setStrainList c.nvoi id eps g l
        else r.st = s ∧ r.gauss = l ∧ setStrainList c.nvoi id eps g l = l ++ setStrainList c.nvoi id eps g []) := by
  induction l with
  | nil => exact Gives.ok ⟨rfl, rfl, rfl, rfl⟩
  | cons gp l ih =>
    unfold findList
    rw [id_eval hid, M_bind_ok']
    by_cases e : gp.id = id
    · simp only [e, decide_true, if_true]
      have hg := gpIn_on (c := c) gp s.l
      have hw : (⟨s.w, gpIn gp s.l⟩ : St α).w = s.w := rfl
      obtain ⟨t, h1, hs, h2⟩ := (gives_copy (c := c) (n := 6) (hi := .mem .nvoi) (x := .g_macro_strain) (y := .macro_strain)
        (s := ⟨s.w, gpIn gp s.l⟩) (by decide) hg.strain hv le_rfl (ev_imem _)).same
      have h1 : (OStmt.base (.for .i (.lit 0) (.mem .nvoi) (
        .st1 .g_macro_strain (.var .i) (.rd1 .macro_strain (.var .i))))).exec env c (oRun env c 3)
          ⟨s.w, gpIn gp s.l⟩ = .ok t := h1
      have hn : VecOn (t.l.v .g_macro_strain) c.nvoi (fun _ => True) (setFirst c.nvoi eps gp.macroStrain) :=
        h2.congr le_rfl fun q _ => ⟨Or.inl trivial, rfl⟩
      have hg' : GpOn c { gp with macroStrain := setFirst c.nvoi eps gp.macroStrain } t.l := by
        gpset hg hs hn
      rw [h1, M_bind_ok', hg'.out, M_bind_ok']
      refine Gives.ok ⟨keep_w hs hw rfl, ?_⟩
      simp [setStrainList, e]
    · obtain ⟨r, h1, h2, h3⟩ := ih
      simp only [e, decide_false, if_false, Bool.false_eq_true]
      rw [h1, M_bind_ok']
      refine Gives.ok ⟨h2, ?_⟩
      by_cases hf : r.found = true
      · simp only [hf, if_true] at h3 ⊢
        simp [setStrainList, e, h3]
      · simp only [hf, if_false, Bool.false_eq_true] at h3 ⊢
        obtain ⟨a, b, d⟩ := h3
        refine ⟨a, by simp [b], ?_⟩
        show (if gp.id = id then _ else _) = _
        rw [if_neg e, d]
        rfl

theorem run_set_macro_strain {o : Obj α} {l : Loc α} {id : Int} {eps : Nat → α} (hid : l.i .gp_id = some id)
    (hv : VecOn (l.v .macro_strain) o.cfg.nvoi (· < o.cfg.nvoi) eps) :
    Gives (tRun env .set_macro_strain ⟨o, l⟩) (fun t => t.obj = setMacroStrain env o id eps) := by
  have n6 := nvoi_le o.cfg
  obtain ⟨r, h1, h2, h3⟩ := gives_findStrain (c := o.cfg) (env := env) (env.gpJunk o.work.tick) o.gauss
    (s := ⟨o.work, l⟩) hid hv
  show Gives ((findList _ _ o.gauss ⟨o.work, l⟩ >>= fun r => _) >>= _) _
  rw [h1, M_bind_ok']
  by_cases hf : r.found = true
  · simp only [hf, if_true] at h3 ⊢
    refine Gives.ok ?_
    show ({ o with gauss := r.gauss, work := { r.st.w with tick := r.st.w.tick + 1 } } : Obj α) = _
    rw [h2, h3]; rfl
  · simp only [hf, if_false, Bool.false_eq_true] at h3 ⊢
    obtain ⟨e1, e2, e3⟩ := h3
    have hid0 : (gpNew l).i .gp_id = some id := hid
    have hv0 : VecOn ((gpNew l).v .macro_strain) o.cfg.nvoi (· < o.cfg.nvoi) eps := hv
    have hx0 : (gpNew l).v .g_macro_strain = some ⟨6, fun _ => none⟩ := rfl
    have hst0 : (gpNew l).v .g_macro_stress = some ⟨6, fun _ => none⟩ := rfl
    have hct0 : (gpNew l).v .g_macro_ctan = some ⟨36, fun _ => none⟩ := rfl
    have her0 : (gpNew l).v .g_nr_err = some ⟨7, fun _ => none⟩ := rfl
    have hit0 : (gpNew l).iv .g_nr_its = some ⟨7, fun _ => none⟩ := rfl
    have hw0 : (⟨o.work, gpNew l⟩ : St α).w = o.work := rfl
    have key : Gives ((Stmt.setI .g_id (.var .gp_id) ;;
      .setI .g_int_vars_n (.lit 0) ;;
      .setI .g_int_vars_k (.lit 0) ;;
      .for .i (.lit 0) (.mem .nvoi) (
        .st1 .g_macro_strain (.var .i) (.rd1 .macro_strain (.var .i))) ;;
      .setD .g_inv_max (.neg (.lit (nat_lit 10) false (nat_lit 9)))).exec o.cfg (run o.cfg 6)
        ⟨o.work, gpNew l⟩) (fun t => t.w = o.work ∧
          gpOut (env.gpJunk o.work.tick) t.l = .ok
            { env.gpJunk o.work.tick with
                id := id, intVarsN := none, intVarsK := none,
                macroStrain := setFirst o.cfg.nvoi eps (env.gpJunk o.work.tick).macroStrain, invMax := -1.0e10 }) := by
      generalize hs0 : (⟨o.work, gpNew l⟩ : St α) = s0 at hw0
      have hl0 : s0.l = gpNew l := by rw [← hs0]
      rw [← hl0] at hid0 hv0 hx0 hst0 hct0 her0 hit0
      refine Gives.seq (Gives.setI (ev_ivar hid0)) ?_
      intro s1 hs h1
      have hid1 := keep_i hs hid0 rfl
      have hv1 := keep_v hs hv0 rfl
      have hx1 := (hs.v .g_macro_strain rfl).trans hx0
      have hst1 := (hs.v .g_macro_stress rfl).trans hst0
      have hct1 := (hs.v .g_macro_ctan rfl).trans hct0
      have her1 := (hs.v .g_nr_err rfl).trans her0
      have hit1 := (hs.iv .g_nr_its rfl).trans hit0
      have hw1 := keep_w hs hw0 rfl
      clear hs
      refine Gives.seq (Gives.setI (ev_ilit _)) ?_
      intro s2 hs hn2
      have hi2 := keep_i hs h1 rfl
      have hv2 := keep_v hs hv1 rfl
      have hx2 := (hs.v .g_macro_strain rfl).trans hx1
      have hst2 := (hs.v .g_macro_stress rfl).trans hst1
      have hct2 := (hs.v .g_macro_ctan rfl).trans hct1
      have her2 := (hs.v .g_nr_err rfl).trans her1
      have hit2 := (hs.iv .g_nr_its rfl).trans hit1
      have hw2 := keep_w hs hw1 rfl
      clear hs
      refine Gives.seq (Gives.setI (ev_ilit _)) ?_
      intro s3 hs hk3
      have hn3 := keep_i hs hn2 rfl
      have hi3 := keep_i hs hi2 rfl
      have hv3 := keep_v hs hv2 rfl
      have hx3 := (hs.v .g_macro_strain rfl).trans hx2
      have hst3 := (hs.v .g_macro_stress rfl).trans hst2
      have hct3 := (hs.v .g_macro_ctan rfl).trans hct2
      have her3 := (hs.v .g_nr_err rfl).trans her2
      have hit3 := (hs.iv .g_nr_its rfl).trans hit2
      have hw3 := keep_w hs hw2 rfl
      clear hs
      refine Gives.seq (gives_copyNew (by decide) hx3 hv3 n6 (ev_imem _)) ?_
      intro s4 hs hx4
      have hk4 := keep_i hs hk3 rfl
      have hn4 := keep_i hs hn3 rfl
      have hi4 := keep_i hs hi3 rfl
      have hst4 := (hs.v .g_macro_stress rfl).trans hst3
      have hct4 := (hs.v .g_macro_ctan rfl).trans hct3
      have her4 := (hs.v .g_nr_err rfl).trans her3
      have hit4 := (hs.iv .g_nr_its rfl).trans hit3
      have hw4 := keep_w hs hw3 rfl
      clear hs
      refine (Gives.setD (y := -(1.0e10 : α)) (ev_neg (ev_lit _ _ _))).same.mono ?_
      rintro s5 ⟨hs, hd5⟩
      have hk5 := keep_i hs hk4 rfl
      have hn5 := keep_i hs hn4 rfl
      have hi5 := keep_i hs hi4 rfl
      have hx5 := (hs.v .g_macro_strain rfl).trans hx4
      have hst5 := (hs.v .g_macro_stress rfl).trans hst4
      have hct5 := (hs.v .g_macro_ctan rfl).trans hct4
      have her5 := (hs.v .g_nr_err rfl).trans her4
      have hit5 := (hs.iv .g_nr_its rfl).trans hit4
      refine ⟨keep_w hs hw4 rfl, ?_⟩
      unfold gpOut
      rw [hk5, hn5, hi5, hx5, hst5, hct5, her5, hit5, hd5]
      show Except.ok _ = Except.ok _
      congr 2
      funext q
      simp only [arrOut, setFirst]
      by_cases e : q < o.cfg.nvoi <;> simp [e]
    obtain ⟨t, k1, k2, k3⟩ := key
    have k1 : (OStmt.base (Stmt.setI .g_id (.var .gp_id) ;;
      .setI .g_int_vars_n (.lit 0) ;;
      .setI .g_int_vars_k (.lit 0) ;;
      .for .i (.lit 0) (.mem .nvoi) (
        .st1 .g_macro_strain (.var .i) (.rd1 .macro_strain (.var .i))) ;;
      .setD .g_inv_max (.neg (.lit (nat_lit 10) false (nat_lit 9))))).exec env o.cfg (oRun env o.cfg 3)
        ⟨o.work, gpNew l⟩ = .ok t := k1
    rw [e1]
    show Gives ((OStmt.exec env o.cfg (oRun env o.cfg 3) _ ⟨o.work, gpNew l⟩ >>= fun t => _) >>= _) _
    rw [k1, M_bind_ok', k2, k3, M_bind_ok']
    refine Gives.ok ?_
    show ({ o with gauss := r.gauss ++ [_], work := { t.w with tick := t.w.tick + 1 } } : Obj α) = _
    unfold setMacroStrain
    rw [e2, e3, k2]
    rfl

end Verif.Text
