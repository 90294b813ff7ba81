import Verif.Model.FileTable
import Verif.Lemmas.ObjRun
import Verif.Lemmas.Vtu

/-!
# Running the third layer: what a statement writes
-/

namespace Verif.Text

variable {α : Type} [Scalar α]

section
variable {c : Cfg α} {gs : List (Gp α)} {ex : OStmt → St α → M (St α)} {call : FFn → FSt α → M (FSt α)}

/-- With a file open, the statement appends `ts`, leaves the other files alone and ends in a state
with `Q`. -/
def Emits (c : Cfg α) (gs : List (Gp α)) (ex : OStmt → St α → M (St α)) (call : FFn → FSt α → M (FSt α))
    (p : FStmt) (s : St α) (ts : List (Tok α)) (Q : St α → Prop) : Prop :=
  ∀ F id b, ∃ t, p.exec c gs ex call ⟨s, F, some (id, b)⟩ = .ok ⟨t, F, some (id, b ++ ts)⟩ ∧ Q t

variable {s : St α} {p q : FStmt} {ts us : List (Tok α)} {P Q R : St α → Prop}

theorem Emits.cast (h : Emits c gs ex call p s ts Q) (e : ts = us) : Emits c gs ex call p s us Q := e ▸ h

theorem Emits.mono (h : Emits c gs ex call p s ts Q) (k : ∀ t, Q t → R t) : Emits c gs ex call p s ts R :=
  fun F id b => (h F id b).imp fun _ h => ⟨h.1, k _ h.2⟩

theorem Emits.seq (h : Emits c gs ex call p s ts Q) (k : ∀ t, Q t → Emits c gs ex call q t us R) :
    Emits c gs ex call (p ;;;; q) s (ts ++ us) R := by
  intro F id b
  obtain ⟨t, h1, h2⟩ := h F id b
  obtain ⟨u, h3, h4⟩ := k t h2 F id (b ++ ts)
  refine ⟨u, ?_, h4⟩
  simp only [FStmt.exec, h1, M_bind_ok', h3, List.append_assoc]

theorem Emits.put {l : List FTok} (h : evalToks c s l = .ok ts) (hQ : Q s) :
    Emits c gs ex call (.put l) s ts Q := by
  intro F id b
  refine ⟨s, ?_, hQ⟩
  simp only [FStmt.exec, h, M_bind_ok', M_pure]

theorem Emits.obj {p : OStmt} (h : Gives (ex p s) Q) : Emits c gs ex call (.obj p) s [] Q := by
  intro F id b
  obtain ⟨t, h1, h2⟩ := h
  refine ⟨t, ?_, h2⟩
  simp only [FStmt.exec, h1, M_bind_ok', M_pure, List.append_nil]

theorem Emits.ite_pos {b : BExp} (hb : b.eval c s = .ok true) (h : Emits c gs ex call p s ts Q) :
    Emits c gs ex call (.ite b p q) s ts Q := by
  intro F id b'
  obtain ⟨t, h1, h2⟩ := h F id b'
  refine ⟨t, ?_, h2⟩
  simp only [FStmt.exec, hb, M_bind_ok', if_true, h1]

theorem Emits.ite_neg {b : BExp} (hb : b.eval c s = .ok false) (h : Emits c gs ex call q s ts Q) :
    Emits c gs ex call (.ite b p q) s ts Q := by
  intro F id b'
  obtain ⟨t, h1, h2⟩ := h F id b'
  refine ⟨t, ?_, h2⟩
  simp [FStmt.exec, hb, h1]

/-- Both branches, in step with an `if` of the model. -/
theorem Emits.cond {b : BExp} {v : Prop} [Decidable v] (hb : b.eval c s = .ok (decide v))
    (h : v → Emits c gs ex call p s ts Q) (k : ¬v → Emits c gs ex call q s us Q) :
    Emits c gs ex call (.ite b p q) s (if v then ts else us) Q := by
  by_cases hv : v
  · rw [if_pos hv]; exact Emits.ite_pos (by rw [hb, decide_eq_true hv]) (h hv)
  · rw [if_neg hv]; exact Emits.ite_neg (by rw [hb, decide_eq_false hv]) (k hv)

theorem emitP_succ (n : Nat) (f : Nat → List (Tok α)) : emitP (n + 1) f = emitP n f ++ f n := by
  simp [emitP, List.range_succ]

/-- Counting loops; the invariant speaks of the number of passes. -/
theorem Emits.for {x : V} {hi : IExp} {N : Nat} {f : Nat → List (Tok α)} (P : Nat → St α → Prop)
    (hP : ∀ k t o, P k t → P k { t with l.i := upd t.l.i x o })
    (hz : hi.eval c s.l = .ok (N : Int)) (h0 : P 0 s)
    (hs : ∀ (k : Nat) (t : St α), k < N → t.l.i x = some (k : Int) → P k t →
      Emits c gs ex call p t (f k) (P (k + 1))) :
    Emits c gs ex call (.for x (.lit 0) hi p) s (emitP N f) (P N) := by
  intro F id b
  have key := loop_inv (n := N) (s := (⟨s, F, some (id, b)⟩ : FSt α))
    (f := fun k t => p.exec c gs ex call { t with st.l.i := upd t.st.l.i x (some ((0 : Int) + k)) })
    (fun k t => ∃ u, t = ⟨u, F, some (id, b ++ emitP k f)⟩ ∧ P k u)
    ⟨s, by simp [emitP], h0⟩ (by
      rintro k t hk ⟨u, rfl, h2⟩
      obtain ⟨v, h3, h4⟩ := hs k { u with l.i := upd u.l.i x (some ((0 : Int) + k)) } hk (by simp [upd]) (hP k u _ h2)
        F id (b ++ emitP k f)
      exact ⟨_, h3, v, by rw [emitP_succ, List.append_assoc], h4⟩)
  obtain ⟨t, h1, u, rfl, h2⟩ := key
  refine ⟨u, ?_, h2⟩
  simp only [FStmt.exec, ev_ilit, hz, M_bind_ok']
  have e : ((N : Int) - 0).toNat = N := by omega
  rw [e, h1]

/-- Counting loops with an invariant. -/
theorem Emits.loop {x : V} {hi : IExp} {N : Nat} {f : Nat → List (Tok α)}
    (hP : ∀ t o, P t → P { t with l.i := upd t.l.i x o })
    (hz : hi.eval c s.l = .ok (N : Int)) (h0 : P s)
    (hs : ∀ (k : Nat) (t : St α), k < N → t.l.i x = some (k : Int) → P t →
      Emits c gs ex call p t (f k) P) :
    Emits c gs ex call (.for x (.lit 0) hi p) s (emitP N f) P :=
  Emits.for (fun _ => P) (fun _ => hP) hz h0 hs

/-- The loop over the list of Gauss points. -/
theorem Emits.each {f : Gp α → List (Tok α)} (h0 : P s)
    (hs : ∀ (g : Gp α) (t : St α), g ∈ gs → P t → Emits c gs ex call p ⟨t.w, gpIn g t.l⟩ (f g) P) :
    Emits c gs ex call (.each p) s (gs.flatMap f) P := by
  have key : ∀ (l : List (Gp α)) (s : St α) (F : Files α) (id : FId) (b : List (Tok α)), (∀ g ∈ l, g ∈ gs) → P s →
      ∃ t, eachConst (fun s => p.exec c gs ex call s) l ⟨s, F, some (id, b)⟩
        = .ok ⟨t, F, some (id, b ++ l.flatMap f)⟩ ∧ P t := by
    intro l
    induction l with
    | nil => intro s F id b _ h; exact ⟨s, by simp [eachConst], h⟩
    | cons g l ih =>
      intro s F id b hl h
      obtain ⟨t, h1, h2⟩ := hs g s (hl g (by simp)) h F id b
      obtain ⟨u, h3, h4⟩ := ih t F id (b ++ f g) (fun x hx => hl x (by simp [hx])) h2
      refine ⟨u, ?_, h4⟩
      simp only [eachConst]
      rw [h1, M_bind_ok', h3, List.flatMap_cons, List.append_assoc]
  intro F id b
  exact key gs s F id b (fun _ h => h) h0

/-! ## Operands -/

theorem toks_nil : evalToks c s [] = .ok [] := rfl
theorem toks_str {x : String} {l : List FTok} (h : evalToks c s l = .ok ts) :
    evalToks c s (.str x :: l) = .ok (.str x :: ts) := by simp only [evalToks, FTok.eval, h, M_bind_ok', M_pure]
theorem toks_endl {l : List FTok} (h : evalToks c s l = .ok ts) :
    evalToks c s (.endl :: l) = .ok (.endl :: ts) := by simp only [evalToks, FTok.eval, h, M_bind_ok', M_pure]
theorem toks_int {e : IExp} {k : Int} {l : List FTok} (he : e.eval c s.l = .ok k) (h : evalToks c s l = .ok ts) :
    evalToks c s (.int e :: l) = .ok (.int k :: ts) := by simp only [evalToks, FTok.eval, he, h, M_bind_ok', M_pure]
theorem toks_num {e : DExp} {y : α} {l : List FTok} (he : e.eval c s = .ok y) (h : evalToks c s l = .ok ts) :
    evalToks c s (.num e :: l) = .ok (.num y :: ts) := by simp only [evalToks, FTok.eval, he, h, M_bind_ok', M_pure]

theorem toks_mem {g : GI} {l : List FTok} (h : evalToks c s l = .ok ts) :
    evalToks c s (.int (.mem g) :: l) = .ok (.int (g.get c) :: ts) := toks_int (ev_imem _) h
theorem toks_lit {k : Int} {l : List FTok} (h : evalToks c s l = .ok ts) :
    evalToks c s (.int (.lit k) :: l) = .ok (.int k :: ts) := toks_int (ev_ilit _) h
theorem toks_ivar {x : V} {k : Int} {l : List FTok} (he : s.l.i x = some k) (h : evalToks c s l = .ok ts) :
    evalToks c s (.int (.var x) :: l) = .ok (.int k :: ts) := toks_int (ev_ivar he) h
theorem toks_dvar {x : V} {k : α} {l : List FTok} (he : s.l.d x = some k) (h : evalToks c s l = .ok ts) :
    evalToks c s (.num (.var x) :: l) = .ok (.num k :: ts) := toks_num (ev_var he) h

end

/-- Strings, line ends, members and variables of type `int`. -/
macro "toks" : tactic => `(tactic| repeat (first
  | exact toks_nil | apply toks_str | apply toks_endl | apply toks_mem | apply toks_lit
  | (apply toks_ivar; on_goal 1 => assumption) | (apply toks_dvar; on_goal 1 => assumption)))

/-! ## Streams -/

section
variable {c : Cfg α} {gs : List (Gp α)} {ex : OStmt → St α → M (St α)} {call : FFn → FSt α → M (FSt α)}
variable {s : St α} {F : Files α} {p q : FStmt} {R : FSt α → Prop}

theorem Gives.femits {id : FId} {b ts : List (Tok α)} {Q : St α → Prop} (h : Emits c gs ex call p s ts Q)
    (k : ∀ t, Q t → Gives (q.exec c gs ex call ⟨t, F, some (id, b ++ ts)⟩) R) :
    Gives ((p ;;;; q).exec c gs ex call ⟨s, F, some (id, b)⟩) R := by
  obtain ⟨t, h1, h2⟩ := h F id b
  obtain ⟨u, h3, h4⟩ := k t h2
  exact ⟨u, by simp only [FStmt.exec, h1, M_bind_ok', h3], h4⟩

theorem Gives.fopen {n : FName} {app : Bool} {f : FId} (hn : n.eval c s.l = .ok f)
    (k : Gives (q.exec c gs ex call ⟨s, F, some (f, if app = true then f.get F else [])⟩) R) :
    Gives ((FStmt.open n app ;;;; q).exec c gs ex call ⟨s, F, none⟩) R := by
  obtain ⟨u, h3, h4⟩ := k
  exact ⟨u, by simp only [FStmt.exec, hn, M_bind_ok', M_pure, h3], h4⟩

theorem Gives.fclose {f : FId} {l : List (Tok α)} (k : Gives (q.exec c gs ex call ⟨s, f.set F l, none⟩) R) :
    Gives ((FStmt.close ;;;; q).exec c gs ex call ⟨s, F, some (f, l)⟩) R := k

theorem Gives.fend {f : FId} {l : List (Tok α)} (h : R ⟨s, f.set F l, none⟩) :
    Gives (FStmt.close.exec c gs ex call ⟨s, F, some (f, l)⟩) R := ⟨_, rfl, h⟩

theorem Gives.fseq {P : FSt α → Prop} {x : FSt α} (h : Gives (p.exec c gs ex call x) P)
    (k : ∀ t, P t → Gives (q.exec c gs ex call t) R) : Gives ((p ;;;; q).exec c gs ex call x) R := h.bind k

theorem Gives.fobj {r : OStmt} {o : Option (FId × List (Tok α))} {Q : St α → Prop} (h : Gives (ex r s) Q)
    (k : ∀ t, Q t → Gives (q.exec c gs ex call ⟨t, F, o⟩) R) :
    Gives ((FStmt.obj r ;;;; q).exec c gs ex call ⟨s, F, o⟩) R := by
  obtain ⟨t, h1, h2⟩ := h
  obtain ⟨u, h3, h4⟩ := k t h2
  exact ⟨u, by simp only [FStmt.exec, h1, M_bind_ok', M_pure, h3], h4⟩

theorem Gives.fite_pos {b : BExp} {x : FSt α} (hb : b.eval c x.st = .ok true) (h : Gives (p.exec c gs ex call x) R) :
    Gives ((FStmt.ite b p q).exec c gs ex call x) R := by
  simpa only [FStmt.exec, hb, M_bind_ok', if_true] using h

theorem Gives.fite_neg {b : BExp} {x : FSt α} (hb : b.eval c x.st = .ok false) (h : Gives (q.exec c gs ex call x) R) :
    Gives ((FStmt.ite b p q).exec c gs ex call x) R := by
  simpa [FStmt.exec, hb] using h

theorem Gives.fput {id : FId} {b ts : List (Tok α)} {l : List FTok} (h : evalToks c s l = .ok ts)
    (k : Gives (q.exec c gs ex call ⟨s, F, some (id, b ++ ts)⟩) R) :
    Gives ((FStmt.put l ;;;; q).exec c gs ex call ⟨s, F, some (id, b)⟩) R :=
  Gives.femits (Q := (· = s)) (Emits.put h rfl) fun _ e => e ▸ k

theorem M_pure_inj {β : Type} {a b : β} (h : (pure a : M β) = .ok b) : a = b := by cases h; rfl

end

/-- A `file << ..`. -/
macro "fput" : tactic => `(tactic| (apply Gives.fput; on_goal 1 => (toks; done)))

end Verif.Text
