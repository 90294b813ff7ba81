import Verif.Model.ObjTable
import Verif.Lemmas.TextAsm
import Verif.Lemmas.TextField
import Verif.Lemmas.TextDispl
import Verif.Lemmas.TextRhs
import Verif.Lemmas.Safe

/-!
# Running the second layer: frames and rules
-/

namespace Verif.Text

variable {α : Type} [Scalar α]

/-! ## Variables a statement may assign -/

/-- Everything the members hold. -/
def Eff.mem : Eff := { Eff.nil with g := fun _ => true, A := true, o := true }

def OStmt.eff : OStmt → Eff
  | .base p => p.eff (runEff 6)
  | .seq a b => a.eff.or b.eff
  | .ite _ a b => a.eff.or b.eff
  | .for x _ _ b => ({ Eff.nil with i := fun y => decide (y = x) } : Eff).or b.eff
  | .call f args => (argsEff (oparams f) args).or Eff.mem
  | .setInvMax _ => { Eff.nil with o := true }
  | .abort => Eff.nil
  | .doW a _ b _ => a.eff.or b.eff
  | .peek x => { Eff.nil with i := fun y => decide (y = x), o := true }
  | .solve => Eff.mem
  | .alloc _ _ => Eff.mem

theorem doLoop_same {E : Eff} {f g : St α → M (St α)} {b w : St α → M Bool}
    (hf : ∀ a b, f a = .ok b → Same E a b) (hg : ∀ a b, g a = .ok b → Same E a b) {n : Nat}
    {s t : St α} (h : doLoop f g b w n s = .ok t) : Same E s t := by
  induction n generalizing s with
  | zero => cases h
  | succ n ih =>
    unfold doLoop at h
    obtain ⟨r, h1, h⟩ := ok_bind.mp h
    obtain ⟨u, _, h⟩ := ok_bind.mp h
    split at h
    · cases h; exact hf _ _ h1
    · obtain ⟨r', h2, h⟩ := ok_bind.mp h
      obtain ⟨u', _, h⟩ := ok_bind.mp h
      split at h
      · exact ((hf _ _ h1).trans' (hg _ _ h2)).trans' (ih h)
      · cases h; exact (hf _ _ h1).trans' (hg _ _ h2)

theorem same_w (s : St α) (w : Work α) : Same Eff.mem s { s with w := w } :=
  ⟨fun _ _ => rfl, fun _ _ => rfl, fun _ _ => rfl, fun _ _ => rfl, fun _ _ => rfl,
    fun _ h => (by cases h), fun h => (by cases h), fun h => (by cases h), fun h => (by cases h)⟩

theorem same_o (s : St α) (k : Nat) (y : α) :
    Same { Eff.nil with o := true } s { s with w := { s.w with tick := k, invMax := y } } :=
  ⟨fun _ _ => rfl, fun _ _ => rfl, fun _ _ => rfl, fun _ _ => rfl, fun _ _ => rfl,
    fun g _ => (by cases g <;> rfl), fun _ => rfl, fun h => (by cases h), fun h => (by cases h)⟩

/-- Execution changes only the variables in `OStmt.eff`. -/
theorem oexec_same {env : Env α} {c : Cfg α} {call : OFn → St α → M (St α)} (p : OStmt) :
    ∀ {s t : St α}, p.exec env c call s = .ok t → Same p.eff s t := by
  induction p with
  | base p => intro s t h; exact exec_same (run_same 6) p h
  | seq a b iha ihb =>
    intro s t h
    obtain ⟨r, h1, h2⟩ := ok_bind.mp h
    exact (iha h1).trans (ihb h2)
  | ite b p q ihp ihq =>
    intro s t h
    obtain ⟨a, _, h⟩ := ok_bind.mp h
    split at h
    · exact (ihp h).left
    · exact (ihq h).right
  | «for» x lo hi b ih =>
    intro s t h
    obtain ⟨a, _, h⟩ := ok_bind.mp h
    obtain ⟨z, _, h⟩ := ok_bind.mp h
    exact loop_same (fun k a b hab => (same_i a x _).trans (ih hab)) h
  | call f args =>
    intro s t h
    obtain ⟨l, _, h⟩ := ok_bind.mp h
    obtain ⟨r, h1, h⟩ := ok_bind.mp h
    cases h
    exact (same_passBack r.l (oparams f) args s).trans (same_w { s with l := _ } r.w)
  | setInvMax e =>
    intro s t h
    obtain ⟨a, _, h⟩ := ok_bind.mp h
    cases h
    exact same_o s s.w.tick a
  | abort => intro s t h; cases h
  | doW p b q w ihp ihq =>
    intro s t h
    exact doLoop_same (fun a b h => (ihp h).left) (fun a b h => (ihq h).right) h
  | peek x =>
    intro s t h
    unfold OStmt.exec at h
    split at h
    · cases h
    · rename_i v _
      cases h
      have h1 := same_i s x (some v)
      have h2 := same_o { s with l.i := upd s.l.i x (some v) } (s.w.tick + 1) s.w.invMax
      have h3 := h1.trans h2
      refine ⟨fun y hy => h3.i y ?_, fun y hy => h3.d y rfl, fun y hy => h3.v y rfl,
        fun y hy => h3.m y rfl, fun y hy => h3.iv y rfl, fun y hy => h3.g y rfl,
        fun _ => rfl, fun h => (by cases h), fun h => (by cases h)⟩
      simpa [OStmt.eff, Eff.or, Eff.nil] using hy
  | solve =>
    intro s t h
    obtain ⟨r, h1, h⟩ := ok_bind.mp h
    cases h
    obtain ⟨l, hl, h⟩ := ok_bind.mp h1
    obtain ⟨r', _, h⟩ := ok_bind.mp h
    cases h
    exact same_w s _
  | alloc g e =>
    intro s t h
    obtain ⟨r, h1, h⟩ := ok_bind.mp h
    cases h
    exact same_w s _

/-! ## Agreement with a computation of the model -/

/-- The run ends as the computation of the model does: with the same fault, or normally with results in
the relation `R`. -/
def Agrees {β γ : Type} (r : M β) (m : M γ) (R : γ → β → Prop) : Prop :=
  match m with
  | .ok z => Gives r (R z)
  | .error e => r = .error e

theorem Agrees.ok {β γ : Type} {r : M β} {z : γ} {R : γ → β → Prop} (h : Gives r (R z)) :
    Agrees r (.ok z) R := h

theorem Agrees.of {β γ : Type} {r : M β} {m : M γ} {z : γ} {R : γ → β → Prop} (hm : m = .ok z)
    (h : Gives r (R z)) : Agrees r m R := by subst hm; exact h

theorem Agrees.mono {β γ : Type} {r : M β} {m : M γ} {R S : γ → β → Prop} (h : Agrees r m R)
    (k : ∀ z t, m = .ok z → R z t → S z t) : Agrees r m S := by
  cases m with
  | ok z => exact Gives.mono h fun t ht => k z t rfl ht
  | error e => exact h

theorem Agrees.bind {β γ δ ε : Type} {r : M β} {m : M γ} {f : β → M δ} {g : γ → M ε}
    {R : γ → β → Prop} {S : ε → δ → Prop} (h : Agrees r m R)
    (k : ∀ z t, m = .ok z → R z t → Agrees (f t) (g z) S) : Agrees (r >>= f) (m >>= g) S := by
  cases m with
  | ok z =>
    obtain ⟨t, h1, h2⟩ := h
    have h3 := k z t rfl h2
    rw [h1]; exact h3
  | error e =>
    have h : r = .error e := h
    rw [h]; exact rfl

theorem Agrees.left {β γ δ : Type} {r : M β} {f : β → M δ} {m : M γ}
    {P : β → Prop} {S : γ → δ → Prop} (h : Gives r P) (k : ∀ t, P t → Agrees (f t) m S) :
    Agrees (r >>= f) m S := by
  obtain ⟨t, h1, h2⟩ := h
  rw [h1]; exact k t h2

/-- Loops in step. -/
theorem Agrees.steps {σ : Type} {τ : Type} {N : Nat} {f : Nat → σ → M σ} {g : Nat → τ → M τ} {a : σ}
    {s : τ} (R : Nat → σ → τ → Prop) (h0 : R 0 a s)
    (hs : ∀ k a t, k < N → R k a t → Agrees (g k t) (f k a) (R (k + 1))) :
    Agrees (loop N g s) (loop N f a) (R N) := by
  induction N with
  | zero => exact Agrees.ok (Gives.ok h0)
  | succ N ih =>
    rw [loop_succ, loop_succ]
    exact (ih fun k a t hk => hs k a t (by omega)).bind fun z t _ h => hs N z t (by omega) h

section
variable {env : Env α} {c : Cfg α} {call : OFn → St α → M (St α)} {s : St α}

theorem Gives.obase {p : Stmt} {P : St α → Prop} (h : Gives (p.exec c (run c 6) s) P) :
    Gives ((OStmt.base p).exec env c call s) P := h

theorem Gives.oseq {a b : OStmt} {P Q : St α → Prop} (h : Gives (a.exec env c call s) P)
    (k : ∀ t, Same a.eff s t → P t → Gives (b.exec env c call t) Q) :
    Gives ((a ;;; b).exec env c call s) Q := by
  obtain ⟨t, h1, h2⟩ := h
  obtain ⟨u, h3, h4⟩ := k t (oexec_same a h1) h2
  exact ⟨u, by
    show (a.exec env c call s >>= fun s => b.exec env c call s) = _
    rw [h1]; exact h3, h4⟩

theorem Gives.oite_pos {b : BExp} {p q : OStmt} {P : St α → Prop}
    (hb : b.eval c s = .ok true) (h : Gives (p.exec env c call s) P) :
    Gives ((OStmt.ite b p q).exec env c call s) P := by
  simpa only [OStmt.exec, hb, M_bind_ok', if_true] using h

theorem Gives.oite_neg {b : BExp} {p q : OStmt} {P : St α → Prop}
    (hb : b.eval c s = .ok false) (h : Gives (q.exec env c call s) P) :
    Gives ((OStmt.ite b p q).exec env c call s) P := by
  simpa [OStmt.exec, hb] using h

theorem Gives.ocall {f : OFn} {args : List Arg} {P Q : St α → Prop}
    (h : ∃ l, passAll c s Loc.none (oparams f) args = .ok l ∧ Gives (call f ⟨s.w, l⟩) Q)
    (k : ∀ r, Q r → P ⟨r.w, passBack r.l s.l (oparams f) args⟩) :
    Gives ((OStmt.call f args).exec env c call s) P := by
  obtain ⟨l, hp, r, h1, h2⟩ := h
  exact ⟨_, by simp only [OStmt.exec, hp, h1, M_bind_ok', M_pure], k r h2⟩

theorem Agrees.seq {γ ε : Type} {a b : OStmt} {m : M γ} {g : γ → M ε} {R : γ → St α → Prop}
    {S : ε → St α → Prop} (h : Agrees (a.exec env c call s) m R)
    (k : ∀ z t, m = .ok z → Same a.eff s t → R z t → Agrees (b.exec env c call t) (g z) S) :
    Agrees ((a ;;; b).exec env c call s) (m >>= g) S := by
  show Agrees (a.exec env c call s >>= fun s => b.exec env c call s) _ _
  cases m with
  | ok z =>
    obtain ⟨t, h1, h2⟩ := h
    have h3 := k z t rfl (oexec_same a h1) h2
    rw [h1]; exact h3
  | error e =>
    have h : a.exec env c call s = .error e := h
    rw [h]; exact rfl

/-- The first statement does what a terminating part of the model does. -/
theorem Agrees.seqL {γ : Type} {a b : OStmt} {m : M γ} {P : St α → Prop}
    {S : γ → St α → Prop} (h : Gives (a.exec env c call s) P)
    (k : ∀ t, Same a.eff s t → P t → Agrees (b.exec env c call t) m S) :
    Agrees ((a ;;; b).exec env c call s) m S := by
  obtain ⟨t, h1, h2⟩ := h
  show Agrees (a.exec env c call s >>= fun s => b.exec env c call s) _ _
  rw [h1]; exact k t (oexec_same a h1) h2

theorem Agrees.same {γ : Type} {a : OStmt} {m : M γ} {R : γ → St α → Prop}
    (h : Agrees (a.exec env c call s) m R) :
    Agrees (a.exec env c call s) m (fun z t => Same a.eff s t ∧ R z t) := by
  cases m with
  | ok z =>
    obtain ⟨t, h1, h2⟩ := h
    exact ⟨t, h1, oexec_same a h1, h2⟩
  | error e => exact h

theorem Agrees.ite_pos {γ : Type} {b : BExp} {p q : OStmt} {m : M γ} {R : γ → St α → Prop}
    (hb : b.eval c s = .ok true) (h : Agrees (p.exec env c call s) m R) :
    Agrees ((OStmt.ite b p q).exec env c call s) m R := by
  simpa only [OStmt.exec, hb, M_bind_ok', if_true] using h

theorem Agrees.ite_neg {γ : Type} {b : BExp} {p q : OStmt} {m : M γ} {R : γ → St α → Prop}
    (hb : b.eval c s = .ok false) (h : Agrees (q.exec env c call s) m R) :
    Agrees ((OStmt.ite b p q).exec env c call s) m R := by
  simpa [OStmt.exec, hb] using h

theorem Agrees.ocall {γ : Type} {f : OFn} {args : List Arg} {m : M γ} {R S : γ → St α → Prop}
    (h : ∃ l, passAll c s Loc.none (oparams f) args = .ok l ∧ Agrees (call f ⟨s.w, l⟩) m R)
    (k : ∀ z r, m = .ok z → R z r → S z ⟨r.w, passBack r.l s.l (oparams f) args⟩) :
    Agrees ((OStmt.call f args).exec env c call s) m S := by
  obtain ⟨l, hp, h⟩ := h
  cases m with
  | ok z =>
    obtain ⟨r, h1, h2⟩ := h
    exact ⟨_, by simp only [OStmt.exec, hp, h1, M_bind_ok', M_pure], k z r rfl h2⟩
  | error e =>
    have h : call f ⟨s.w, l⟩ = .error e := h
    simp only [OStmt.exec, hp, h, M_bind_ok']
    rfl

/-- A loop of the text follows a loop of the model. -/
theorem Agrees.ofor {σ : Type} {x : V} {hi : IExp} {b : OStmt} {N : Nat} {f : Nat → σ → M σ} {a : σ}
    (R : Nat → σ → St α → Prop)
    (hR : ∀ k a t o, R k a t → R k a { t with l.i := upd t.l.i x o })
    (hz : hi.eval c s.l = .ok (N : Int)) (h0 : R 0 a s)
    (hs : ∀ (k : Nat) (t : St α) (a : σ), k < N →
      Same (OStmt.for x (.lit 0) hi b).eff s t → t.l.i x = some (k : Int) → R k a t →
      Agrees (b.exec env c call t) (f k a) (R (k + 1))) :
    Agrees ((OStmt.for x (.lit 0) hi b).exec env c call s) (loop N f a) (R N) := by
  have key := Agrees.steps (N := N) (s := s) (f := f) (a := a)
    (g := fun k t => b.exec env c call { t with l.i := upd t.l.i x (some ((0 : Int) + k)) })
    (fun k a t => Same (OStmt.for x (.lit 0) hi b).eff s t ∧ R k a t) ⟨Same.refl _ _, h0⟩ (by
      intro k a t hk ⟨h1, h2⟩
      have h3 := hs k { t with l.i := upd t.l.i x (some ((0 : Int) + k)) } a hk
        (h1.trans' (same_i t x _).left) (by simp [upd]) (hR k a t _ h2)
      exact h3.same.mono fun z u _ hu => ⟨h1.trans' ((same_i t x _).trans hu.1), hu.2⟩)
  simp only [OStmt.exec, ev_ilit, hz, M_bind_ok']
  have e : ((N : Int) - 0).toNat = N := by omega
  rw [e]
  exact key.mono fun z t _ h => h.2

theorem Gives.ofor {σ : Type} {x : V} {hi : IExp} {b : OStmt} {N : Nat} {f : Nat → σ → M σ} {a z : σ}
    (R : σ → St α → Prop)
    (hR : ∀ a t o, R a t → R a { t with l.i := upd t.l.i x o })
    (hz : hi.eval c s.l = .ok (N : Int)) (hm : loop N f a = .ok z) (h0 : R a s)
    (hs : ∀ (k : Nat) (t : St α) (a a' : σ), k < N →
      Same (OStmt.for x (.lit 0) hi b).eff s t → t.l.i x = some (k : Int) → R a t →
      f k a = .ok a' → Gives (b.exec env c call t) (R a')) :
    Gives ((OStmt.for x (.lit 0) hi b).exec env c call s) (R z) := by
  have hk : ∀ k, k ≤ N → ∃ a', loop k f a = .ok a' := by
    intro k hk
    obtain ⟨d, rfl⟩ := Nat.exists_eq_add_of_le hk
    clear hz hs
    induction d generalizing z with
    | zero => exact ⟨z, hm⟩
    | succ d ih =>
      rw [← Nat.add_assoc, loop_succ, bind_ok_iff'] at hm
      obtain ⟨y, h1, _⟩ := hm
      exact ih h1 (by omega)
  have key := Agrees.ofor (env := env) (call := call) (b := b) (f := f) (a := a)
    (fun k a' t => loop k f a = .ok a' ∧ R a' t)
    (fun k a t o h => ⟨h.1, hR _ _ _ h.2⟩) hz ⟨rfl, h0⟩ (by
      intro k t a1 hkN h1 h2 h3
      obtain ⟨a2, e2⟩ := hk (k + 1) hkN
      have e3 := e2
      rw [loop_succ, h3.1] at e3
      exact Agrees.of e3 ((hs k t a1 a2 hkN h1 h2 h3.2 e3).mono fun t' h => ⟨e2, h⟩))
  rw [hm] at key
  exact Gives.mono key fun t h => h.2

end

end Verif.Text
