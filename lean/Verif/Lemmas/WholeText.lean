import Verif.Model.WholeText
import Verif.Lemmas.MainText
import Verif.Props.TextCtor

/-!
# Lemmas on programs whose library is text
-/

namespace Verif.MainText

variable {α : Type} [Scalar α]

/-! ## Statements that neither construct nor shorten an array -/

/-- Statements that construct no object, pass no arrays but `eps` and `x`, and declare arrays of six
entries or more. -/
def Stm.inner (x : DA) : Stm → Bool
  | .seq a b => a.inner x && b.inner x
  | .ddecl _ (.lit n) => decide (6 ≤ n)
  | .ddecl _ _ => false
  | .dinit _ _ _ => false
  | .iflt _ _ a b => a.inner x && b.inner x
  | .forlt _ _ a => a.inner x
  | .ctor _ _ _ _ _ _ => false
  | .setStrain _ a => decide (a = .eps ∨ a = x)
  | .getStress _ a => decide (a = .eps ∨ a = x)
  | _ => true

/-- The object is well formed and the arrays have six entries or more. -/
structure Inv (x : DA) (s : St α) : Prop where
  obj : ∀ o, s.obj = some o → o.obj.Ok
  arr : ∀ a b, a = .eps ∨ a = x → s.da a = some b → 6 ≤ b.size

section
variable {l m : Lib α} {j : Junk α} {jk : Jk α} {f : Files α} {argv : List Int} {z : DA}

omit [Scalar α] in
theorem ival_lib (s : St α) : ∀ e, ival ⟨l, j, jk, f, argv⟩ s e = ival ⟨m, j, jk, f, argv⟩ s e
  | .lit _ => rfl
  | .v _ => rfl
  | .arg _ => rfl
  | .opt k a b => by
    unfold ival
    rw [ival_lib s a, ival_lib s b]
    rfl
  | .add a b => by
    unfold ival
    rw [ival_lib s a, ival_lib s b]
  | .mul a b => by
    unfold ival
    rw [ival_lib s a, ival_lib s b]

theorem dval_lib (s : St α) (e : DE) :
    dval ⟨l, j, jk, f, argv⟩ s e = dval ⟨m, j, jk, f, argv⟩ s e := by
  cases e with
  | ix a k =>
    simp only [dval]
    rw [ival_lib (l := l) (m := m) s k]
  | _ => rfl

theorem tok_lib (s : St α) (e : TE) :
    tok ⟨l, j, jk, f, argv⟩ s e = tok ⟨m, j, jk, f, argv⟩ s e := by
  cases e with
  | int e =>
    simp only [tok]
    rw [ival_lib (l := l) (m := m) s e]
  | num e =>
    simp only [tok]
    rw [dval_lib (l := l) (m := m) s e]
  | _ => rfl

omit [Scalar α] in
theorem allGt_lib (s : St α) : ∀ e, allGt ⟨l, j, jk, f, argv⟩ s e = allGt ⟨m, j, jk, f, argv⟩ s e
  | [] => rfl
  | (a, b) :: e => by
    unfold allGt
    rw [ival_lib s a, ival_lib s b, allGt_lib s e]

/-- Two libraries that do the same to well formed objects. -/
structure Alike (l m : Lib α) : Prop where
  set : ∀ o g b, o.obj.Ok → 6 ≤ b.size → l.setStrain o g b = m.setStrain o g b ∧
    ∀ o', m.setStrain o g b = .ok o' → o'.obj.Ok
  get : ∀ o g b, o.obj.Ok → 6 ≤ b.size → l.getStress o g b = m.getStress o g b ∧
    ∀ r, m.getStress o g b = .ok r → r.state.obj.Ok ∧ r.arr.size = b.size
  call : ∀ o k, o.obj.Ok → l.call o k = m.call o k ∧ ∀ o', m.call o k = .ok o' → o'.obj.Ok

theorem Inv.put {s : St α} (h : Inv z s) {a : DA} {b : Buf α} (hb : a = .eps ∨ a = z → 6 ≤ b.size) :
    Inv z { s with da := set s.da a (some b) } := by
  refine ⟨h.obj, fun x y hx hy => ?_⟩
  simp only [set] at hy
  split at hy
  · next e =>
    subst e
    cases hy
    exact hb hx
  · exact h.arr x y hx hy

theorem writeI_size {b c : Buf α} {k : Int} {v : α} (h : b.writeI k v = .ok c) : c.size = b.size := by
  unfold Buf.writeI at h
  split at h
  · unfold Buf.write at h
    split at h
    · cases h; rfl
    · cases h
  · cases h

theorem onObj_sim {s : St α} (h : Inv z s) {g g' : ObjFiles α → M (ObjFiles α)}
    (hg : ∀ o, o.obj.Ok → g o = g' o ∧ ∀ o', g' o = .ok o' → o'.obj.Ok) :
    Sim (fun s t => s = t ∧ Inv z t) (onObj s g) (onObj s g') := by
  unfold onObj
  refine Sim.same fun o ho => ?_
  have hs : s.obj = some o := by
    cases e : s.obj with
    | none => rw [e] at ho; cases ho
    | some o' => rw [e] at ho; cases ho; rfl
  obtain ⟨e, h'⟩ := hg o (h.obj o hs)
  rw [e]
  refine Sim.same fun o' ho' => Sim.ok ⟨rfl, fun x hx => ?_, h.arr⟩
  cases hx
  exact h' _ ho'

theorem need_ok {β : Type} {x : Option β} {b : β} (h : need x = .ok b) : x = some b := by
  cases x with
  | none => cases h
  | some y => cases h; rfl

theorem inner_sim (h : Alike l m) : ∀ (p : Stm), p.inner z = true → ∀ s : St α, Inv z s →
    Sim (fun s t => s = t ∧ Inv z t) (exec ⟨l, j, jk, f, argv⟩ p s) (exec ⟨m, j, jk, f, argv⟩ p s)
  | .skip, _, s, hs => Sim.ok ⟨rfl, hs⟩
  | .seq a b, hp, s, hs => by
    simp only [Stm.inner, Bool.and_eq_true] at hp
    unfold exec
    refine Sim.bind (inner_sim h a hp.1 s hs) fun x y hxy => ?_
    obtain ⟨rfl, hy⟩ := hxy
    exact inner_sim h b hp.2 x hy
  | .iset x e, _, s, hs => by
    unfold exec
    rw [ival_lib (l := l) (m := m)]
    exact Sim.same fun n _ => Sim.ok ⟨rfl, hs.obj, hs.arr⟩
  | .dset x e, _, s, hs => by
    unfold exec
    rw [dval_lib (l := l) (m := m)]
    exact Sim.same fun n _ => Sim.ok ⟨rfl, hs.obj, hs.arr⟩
  | .idecl a e, _, s, hs => by
    unfold exec
    rw [ival_lib (l := l) (m := m)]
    exact Sim.same fun n _ => Sim.ok ⟨rfl, hs.obj, hs.arr⟩
  | .ddecl a (.lit n), hp, s, hs => by
    refine Sim.ok ⟨rfl, hs.put fun _ => ?_⟩
    simp only [Stm.inner, decide_eq_true_eq] at hp
    show 6 ≤ n.toNat
    omega
  | .ddecl a (.v _), hp, _, _ => by cases hp
  | .ddecl a (.arg _), hp, _, _ => by cases hp
  | .ddecl a (.opt _ _ _), hp, _, _ => by cases hp
  | .ddecl a (.add _ _), hp, _, _ => by cases hp
  | .ddecl a (.mul _ _), hp, _, _ => by cases hp
  | .dinit a e v, hp, s, hs => by cases hp
  | .iinit a e v, _, s, hs => by
    unfold exec
    rw [ival_lib (l := l) (m := m), funext (ival_lib (l := l) (m := m) s)]
    exact Sim.same fun n _ => Sim.same fun n _ => Sim.ok ⟨rfl, hs.obj, hs.arr⟩
  | .iput a k e, _, s, hs => by
    unfold exec
    rw [ival_lib (l := l) (m := m), ival_lib (l := l) (m := m)]
    exact Sim.same fun v _ => Sim.same fun n _ => Sim.same fun b _ => Sim.same fun b' _ =>
      Sim.ok ⟨rfl, hs.obj, hs.arr⟩
  | .dput a k e, _, s, hs => by
    unfold exec
    rw [dval_lib (l := l) (m := m), ival_lib (l := l) (m := m)]
    exact Sim.same fun v _ => Sim.same fun n _ => Sim.same fun b hb => Sim.same fun b' hb' =>
      Sim.ok ⟨rfl, hs.put fun ha => by rw [writeI_size hb']; exact hs.arr a b ha (need_ok hb)⟩
  | .dadd a k e, _, s, hs => by
    unfold exec
    rw [dval_lib (l := l) (m := m), ival_lib (l := l) (m := m)]
    exact Sim.same fun v _ => Sim.same fun n _ => Sim.same fun b hb => Sim.same fun w _ =>
      Sim.same fun b' hb' =>
      Sim.ok ⟨rfl, hs.put fun ha => by rw [writeI_size hb']; exact hs.arr a b ha (need_ok hb)⟩
  | .dsub a k e, _, s, hs => by
    unfold exec
    rw [dval_lib (l := l) (m := m), ival_lib (l := l) (m := m)]
    exact Sim.same fun v _ => Sim.same fun n _ => Sim.same fun b hb => Sim.same fun w _ =>
      Sim.same fun b' hb' =>
      Sim.ok ⟨rfl, hs.put fun ha => by rw [writeI_size hb']; exact hs.arr a b ha (need_ok hb)⟩
  | .iflt a b p q, hp, s, hs => by
    simp only [Stm.inner, Bool.and_eq_true] at hp
    unfold exec
    rw [ival_lib (l := l) (m := m), ival_lib (l := l) (m := m)]
    refine Sim.same fun x _ => Sim.same fun y _ => ?_
    split
    · exact inner_sim h p hp.1 s hs
    · exact inner_sim h q hp.2 s hs
  | .forlt x e p, hp, s, hs => by
    unfold exec
    rw [ival_lib (l := l) (m := m)]
    refine Sim.same fun n _ => Sim.loop (fun k s t hst => ?_) _ ⟨rfl, hs⟩
    obtain ⟨rfl, ht⟩ := hst
    exact inner_sim h p hp _ ⟨ht.obj, ht.arr⟩
  | .assert e, _, s, hs => by
    unfold exec
    rw [allGt_lib (l := l) (m := m)]
    refine Sim.same fun b _ => ?_
    split
    · exact Sim.ok ⟨rfl, hs⟩
    · exact rfl
  | .ctor _ _ _ _ _ _, hp, _, _ => by cases hp
  | .setStrain g a, hp, s, hs => by
    simp only [Stm.inner, decide_eq_true_eq] at hp
    unfold exec
    rw [ival_lib (l := l) (m := m)]
    exact Sim.same fun n _ => Sim.same fun b hb =>
      onObj_sim hs fun o ho => h.set o n b ho (hs.arr a b hp (need_ok hb))
  | .homogenize, _, s, hs => onObj_sim hs fun o ho => h.call o _ ho
  | .getStress g a, hp, s, hs => by
    simp only [Stm.inner, decide_eq_true_eq] at hp
    unfold exec
    rw [ival_lib (l := l) (m := m)]
    refine Sim.same fun n _ => Sim.same fun b hb => Sim.same fun o ho => ?_
    have hb6 := hs.arr a b hp (need_ok hb)
    obtain ⟨e, h'⟩ := h.get o n b (hs.obj o (need_ok ho)) hb6
    simp only
    rw [e]
    refine Sim.same fun r hr => Sim.ok ⟨rfl, ?_⟩
    obtain ⟨h1, h2⟩ := h' r hr
    have hi := hs.put (a := a) (b := r.arr) fun _ => by rw [h2]; exact hb6
    exact ⟨fun x hx => by cases hx; exact h1, hi.arr⟩
  | .updateVars, _, s, hs => onObj_sim hs fun o ho => h.call o _ ho
  | .writeInfo, _, s, hs => onObj_sim hs fun o ho => h.call o _ ho
  | .output a b, _, s, hs => by
    unfold exec
    rw [ival_lib (l := l) (m := m), ival_lib (l := l) (m := m)]
    exact Sim.same fun n _ => Sim.same fun k _ => onObj_sim hs fun o ho => h.call o _ ho
  | .print e, _, s, hs => by
    unfold exec
    rw [funext (tok_lib (l := l) (m := m) s)]
    exact Sim.same fun n _ => Sim.ok ⟨rfl, hs.obj, hs.arr⟩
end

/-! ## The library as text does what the model does -/

theorem text_alike (L : Text.LitLaws α) (env : Env α) : Alike (Lib.text env) (Lib.model env) := by
  refine ⟨fun o g b ho hb => ⟨?_, fun o' h => ?_⟩, fun o g b ho hb => ⟨?_, fun r h => ?_⟩,
    fun o k ho => ⟨?_, fun o' h => ?_⟩⟩
  · have hn := le_trans (nvoi_le o.obj.cfg) hb
    obtain ⟨t, h1, h2⟩ := Props.C97_set_macro_strain env o.obj
      (l := Text.callLoc g .macro_strain b.size b.val) (id := g) (eps := b.val) rfl
      ⟨_, rfl, hn, fun _ _ => rfl⟩
    simp only [Lib.text, Lib.model, cSetStrain_eq hb, cCall, h1, M_bind_ok', h2]
    rfl
  · simp only [Lib.model, cSetStrain_eq hb, cCall] at h
    obtain ⟨r, hr, e⟩ := bind_ok_iff.1 h
    cases e
    exact (step_sane ho _).post hr
  · have hn := le_trans (nvoi_le o.obj.cfg) hb
    obtain ⟨t, a, h1, h2, h3, h4⟩ := Props.C97_get_macro_stress env o.obj
      (l := Text.callLoc g .macro_stress b.size b.val) (id := g) (buf := b.val) rfl rfl hn
      (by intro q y h; exact Option.some.inj h)
    have e : Text.arrOut b.val (t.l.v .macro_stress) = (getMacroStress o.obj g b.val).2 := by
      rw [h3]; funext q; simp [Text.arrOut, h4 q (.inl rfl)]
    simp only [Lib.text, Lib.model, h1, M_bind_ok', h2, e, cGetStress, getMacroStress]
    cases hf : findGp g o.obj.gauss with
    | none => rfl
    | some gp =>
      obtain ⟨b', e1, e2, e3⟩ := writes_ok (b := b) (n := o.obj.cfg.nvoi) hn gp.macroStress
      simp only
      rw [e1, M_bind_ok']
      have hst : step env o (.getStress g b'.val)
          = .ok ⟨o, .buf (setFirst o.obj.cfg.nvoi gp.macroStress b'.val)⟩ := by
        simp only [step, getMacroStress, hf]; rfl
      rw [hst]
      have hb' : b' = ⟨b.size, setFirst o.obj.cfg.nvoi gp.macroStress b.val⟩ := by
        cases b'
        simp only at e2 e3
        subst e2
        congr 1
        funext q
        rw [e3]
        rfl
      rw [hb']
      rfl
  · simp only [Lib.model, cGetStress] at h
    cases hf : findGp g o.obj.gauss with
    | none =>
      rw [hf] at h
      cases h
      exact ⟨ho, rfl⟩
    | some gp =>
      rw [hf] at h
      obtain ⟨b', e1, e2, e3⟩ := writes_ok (b := b) (n := o.obj.cfg.nvoi)
        (le_trans (nvoi_le o.obj.cfg) hb) gp.macroStress
      simp only at h
      rw [e1, M_bind_ok'] at h
      obtain ⟨x, hx, e⟩ := bind_ok_iff.1 h
      cases e
      exact ⟨(step_sane ho _).post hx, e2⟩
  · simp only [Lib.text, Lib.model, cCall, Props.C98_step L env ho k]
  · simp only [Lib.model, cCall] at h
    obtain ⟨r, hr, e⟩ := bind_ok_iff.1 h
    cases e
    exact (step_sane ho _).post hr

/-! ## The programs -/

theorem Sim.same_eq {σ : Type} {x y : M σ} (h : Sim (fun s t => s = t) x y) : x = y := by
  cases x <;> cases y
  · exact congrArg _ h
  · exact h.elim
  · exact h.elim
  · exact congrArg _ h

theorem runProg_usage {l m : Lib α} {j : Junk α} {jk : Jk α} {f : Files α} {argv : List Int} (p : Prog) {s0 : St α}
    (hp : ∀ l, exec ⟨l, j, jk, f, argv⟩ p.pre start = .ok s0) (h : argv.length + 1 < p.least) :
    runProg ⟨l, j, jk, f, argv⟩ p = runProg ⟨m, j, jk, f, argv⟩ p := by
  have key : ∀ l : Lib α, runProg ⟨l, j, jk, f, argv⟩ p = .ok (p.bad, none) := fun l => by
    unfold runProg
    rw [hp, M_bind_ok']
    exact if_pos h
  rw [key, key]

theorem runProg_text (L : Text.LitLaws α) {env : Env α} {j : Junk α} {jk : Jk α} {f : Files α} {argv : List Int}
    {R : St α → Drive α → Prop} {x : DA} {dir : Int} {p : Prog} {init step : Stm} {s0 : St α} {dim : Nat}
    {cb : CtorArrays α} {steps : Int} (hR : ∀ s r, R s r → Rel x dir s r)
    (hp : ∀ l, exec ⟨l, j, jk, f, argv⟩ p.pre start = .ok s0)
    (hb : p.body = (init ;; .forlt .t (.v .time_steps) step)) (hin : step.inner x = true)
    (hi : ∃ (st : ObjFiles α → St α) (ca : CtorArrays α),
      (∀ l, exec ⟨l, j, jk, f, argv⟩ init s0 = (l.ctor dim 1 ca j f >>= fun o => pure (st o))) ∧
      Agree dim ca cb ∧
      ∀ o, R (st o) { state := o, eps := ⟨6, fun _ => 0⟩, sig := ⟨6, jk.d x⟩, out := [] } ∧
        (st o).i .time_steps = some steps)
    (hd : dim = 2 ∨ dim = 3) (h0 : 2 ≤ cb.size.val 0) (h1 : 2 ≤ cb.size.val 1)
    (h2 : dim = 3 → 2 ≤ cb.size.val 2) :
    runProg ⟨.text env, j, jk, f, argv⟩ p = runProg ⟨.model env, j, jk, f, argv⟩ p := by
  obtain ⟨st, ca, hi, ha, hs⟩ := hi
  have e0 := ha.vsize 0 (by omega) (by omega)
  have e1 := ha.vsize 1 (by omega) (by omega)
  have hok : (ca.args dim 1).Ok := ⟨hd, Or.inr rfl, le_of_le_of_eq h0 e0.symm, le_of_le_of_eq h1 e1.symm, fun h3 => by
    have h3 : dim = 3 := h3
    have e2 := ha.vsize 2 (by omega) (by omega)
    show 2 ≤ ca.size.val 2
    rw [e2]
    exact h2 h3⟩
  have hc : (Lib.text env).ctor dim 1 ca j f = (Lib.model env).ctor dim 1 ca j f := by
    simp only [Lib.text, Lib.model, cConstruct]
    rw [Text.ctorText_all L env hok.nx hok.ny (fun h => hok.nz (by rcases hok.dim with h' | h' <;> omega))]
  unfold runProg
  rw [hp, hp, M_bind_ok', M_bind_ok', hb, exec_seq, exec_seq, hi, hi, hc]
  show (if argv.length + 1 < p.least then _ else _) = (if argv.length + 1 < p.least then _ else _)
  split
  · rfl
  · refine congrArg (fun y => y >>= fun s => pure (p.ret, some s)) (Sim.same_eq (Sim.mono
      (R := fun s t => s = t ∧ Inv x t) (fun s t h => h.1) ?_))
    rw [bind_assoc, bind_assoc]
    refine Sim.same fun o ho => ?_
    rw [pure_bind, pure_bind]
    refine inner_sim (text_alike L env) (.forlt .t (.v .time_steps) step) hin _ ?_
    have hr := hR _ _ (hs o).1
    refine ⟨fun o' h => ?_, fun a b h hb => ?_⟩
    · rw [hr.obj] at h
      cases h
      have ho : cConstruct env dim 1 ca j f = .ok o := ho
      unfold cConstruct at ho
      obtain ⟨_, -, h⟩ := bind_ok_iff.1 ho
      unfold constructF at h
      obtain ⟨o1, h3, e⟩ := bind_ok_iff.1 h
      cases e
      exact (construct_sane env hok j).post h3
    · rcases h with rfl | rfl
      · rw [hr.eps] at hb
        cases hb
        exact le_rfl
      · rw [hr.sig] at hb
        cases hb
        exact le_rfl

end Verif.MainText
