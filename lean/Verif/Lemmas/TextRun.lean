import Verif.Model.TextTable
import Verif.Lemmas.Loop
import Lean.Elab.Tactic
import Mathlib.Tactic.IntervalCases

/-!
# Running the text: what a statement leaves alone, and rules for loops
-/

namespace Verif.Text

variable {α : Type} [Scalar α]

/-! ## Variables a statement may assign -/

/-- Sets of variables, by type, and of members. -/
structure Eff where
  i : V → Bool
  d : V → Bool
  v : V → Bool
  m : V → Bool
  iv : V → Bool
  g : GA → Bool
  A : Bool
  o : Bool   -- the event counter and `inv_max`

namespace Eff

def nil : Eff := ⟨fun _ => false, fun _ => false, fun _ => false, fun _ => false, fun _ => false,
  fun _ => false, false, false⟩

def or (a b : Eff) : Eff :=
  ⟨fun x => a.i x || b.i x, fun x => a.d x || b.d x, fun x => a.v x || b.v x,
   fun x => a.m x || b.m x, fun x => a.iv x || b.iv x, fun x => a.g x || b.g x,
   a.A || b.A, a.o || b.o⟩

/-- The fields of `material`. -/
def mat : Eff := { nil with i := fun x => decide (x ∈ matI), d := fun x => decide (x ∈ matD) }

/-- What `m` points to. -/
def ell : Eff :=
  { nil with i := fun x => decide (x ∈ ellI), v := fun x => decide (x = .m_vals),
             iv := fun x => decide (x = .m_cols) }

/-- The fields of `solver`. -/
def solver : Eff :=
  { nil with i := fun x => decide (x = .solver_max_its ∨ x = .solver_its),
             d := fun x => decide (x = .solver_min_tol ∨ x = .solver_err) }

end Eff

/-- What an argument may assign. -/
def argEff : Kind × V → Arg → Eff
  | (.ri, _), .ref x => { Eff.nil with i := fun y => decide (y = x) }
  | (.rd, _), .ref x => { Eff.nil with d := fun y => decide (y = x) }
  | (.v, _), .ref x => { Eff.nil with v := fun y => decide (y = x) }
  | (.m, _), .ref x => { Eff.nil with m := fun y => decide (y = x) }
  | (.mat, _), .mat => Eff.mat
  | (.ell, _), .ell => Eff.ell
  | (.solver, _), .solver => Eff.solver
  | (.ell, _), .A => { Eff.nil with A := true }
  | (.v, _), .mem g => { Eff.nil with g := fun h => decide (h = g) }
  | _, _ => Eff.nil

def argsEff : List (Kind × V) → List Arg → Eff
  | p :: ps, a :: as => (argEff p a).or (argsEff ps as)
  | _, _ => Eff.nil

/-- The variables a statement may assign, given those of the functions called. -/
def Stmt.eff (W : Fn → Eff) : Stmt → Eff
  | .skip => Eff.nil
  | .seq a b => (a.eff W).or (b.eff W)
  | .declI x => { Eff.nil with i := fun y => decide (y = x) }
  | .declD x => { Eff.nil with d := fun y => decide (y = x) }
  | .declV x _ => { Eff.nil with v := fun y => decide (y = x) }
  | .declM x _ _ => { Eff.nil with m := fun y => decide (y = x) }
  | .declIV x _ => { Eff.nil with iv := fun y => decide (y = x) }
  | .declMat => Eff.mat
  | .initV x _ => { Eff.nil with v := fun y => decide (y = x) }
  | .initM x _ _ => { Eff.nil with m := fun y => decide (y = x) }
  | .setI x _ => { Eff.nil with i := fun y => decide (y = x) }
  | .setD x _ => { Eff.nil with d := fun y => decide (y = x) }
  | .st1 x _ _ => { Eff.nil with v := fun y => decide (y = x) }
  | .st2 x _ _ _ => { Eff.nil with m := fun y => decide (y = x) }
  | .stI x _ _ => { Eff.nil with iv := fun y => decide (y = x) }
  | .memSt g _ _ => { Eff.nil with g := fun h => decide (h = g) }
  | .ite _ s t => (s.eff W).or (t.eff W)
  | .for x _ _ s => ({ Eff.nil with i := fun y => decide (y = x) } : Eff).or (s.eff W)
  | .call f args => (argsEff (params f) args).or { Eff.nil with g := (W f).g, A := (W f).A, o := (W f).o }
  | .malloc x _ => { Eff.nil with v := fun y => decide (y = x) }
  | .mallocI x _ => { Eff.nil with iv := fun y => decide (y = x) }
  | .free x => { Eff.nil with v := fun y => decide (y = x) }
  | .initIV x _ => { Eff.nil with iv := fun y => decide (y = x) }
  | .declSolver => Eff.solver
  | .doW _ s _ t _ => (s.eff W).or (t.eff W)

/-- The same for functions with calls nested at most `n` deep. -/
def runEff : Nat → Fn → Eff
  | 0, _ => Eff.nil
  | n + 1, f => (body f).eff (runEff n)

/-- Nothing outside `E` differs. -/
structure Same (E : Eff) (s t : St α) : Prop where
  i : ∀ x, E.i x = false → t.l.i x = s.l.i x
  d : ∀ x, E.d x = false → t.l.d x = s.l.d x
  v : ∀ x, E.v x = false → t.l.v x = s.l.v x
  m : ∀ x, E.m x = false → t.l.m x = s.l.m x
  iv : ∀ x, E.iv x = false → t.l.iv x = s.l.iv x
  g : ∀ x : GA, E.g x = false → x.get t.w = x.get s.w
  A : E.A = false → t.w.A = s.w.A
  tick : E.o = false → t.w.tick = s.w.tick
  invMax : E.o = false → t.w.invMax = s.w.invMax

namespace Same

theorem refl (E : Eff) (s : St α) : Same E s s :=
  ⟨fun _ _ => rfl, fun _ _ => rfl, fun _ _ => rfl, fun _ _ => rfl, fun _ _ => rfl, fun _ _ => rfl,
   fun _ => rfl, fun _ => rfl, fun _ => rfl⟩

theorem trans {E F : Eff} {s t r : St α} (h : Same E s t) (k : Same F t r) :
    Same (E.or F) s r := by
  refine ⟨?_, ?_, ?_, ?_, ?_, ?_, ?_, ?_, ?_⟩ <;>
    first | (intro x hx; simp only [Eff.or, Bool.or_eq_false_iff] at hx)
          | (intro hx; simp only [Eff.or, Bool.or_eq_false_iff] at hx)
  · rw [k.i x hx.2, h.i x hx.1]
  · rw [k.d x hx.2, h.d x hx.1]
  · rw [k.v x hx.2, h.v x hx.1]
  · rw [k.m x hx.2, h.m x hx.1]
  · rw [k.iv x hx.2, h.iv x hx.1]
  · rw [k.g x hx.2, h.g x hx.1]
  · rw [k.A hx.2, h.A hx.1]
  · rw [k.tick hx.2, h.tick hx.1]
  · rw [k.invMax hx.2, h.invMax hx.1]

theorem trans' {E : Eff} {s t r : St α} (h : Same E s t) (k : Same E t r) : Same E s r := by
  have := h.trans k
  constructor
  · exact fun x hx => this.i x (by simp [Eff.or, hx])
  · exact fun x hx => this.d x (by simp [Eff.or, hx])
  · exact fun x hx => this.v x (by simp [Eff.or, hx])
  · exact fun x hx => this.m x (by simp [Eff.or, hx])
  · exact fun x hx => this.iv x (by simp [Eff.or, hx])
  · exact fun x hx => this.g x (by simp [Eff.or, hx])
  · exact fun hx => this.A (by simp [Eff.or, hx])
  · exact fun hx => this.tick (by simp [Eff.or, hx])
  · exact fun hx => this.invMax (by simp [Eff.or, hx])

theorem left {E F : Eff} {s t : St α} (h : Same E s t) : Same (E.or F) s t :=
  h.trans (refl F t)

theorem right {E F : Eff} {s t : St α} (h : Same F s t) : Same (E.or F) s t :=
  (refl E s).trans h

end Same

theorem ok_bind {β γ : Type} {x : M β} {f : β → M γ} {r : γ} :
    (x >>= f) = .ok r ↔ ∃ a, x = .ok a ∧ f a = .ok r := by
  cases x with
  | ok a => exact ⟨fun h => ⟨a, rfl, h⟩, fun ⟨b, hb, h⟩ => (by cases hb; exact h)⟩
  | error e => exact ⟨fun h => (by cases h), fun ⟨b, hb, _⟩ => (by cases hb)⟩

theorem loop_same {E : Eff} {f : Nat → St α → M (St α)} {n : Nat} {s t : St α}
    (hf : ∀ k a b, f k a = .ok b → Same E a b) (h : loop n f s = .ok t) : Same E s t := by
  induction n generalizing t with
  | zero => cases h; exact Same.refl _ _
  | succ n ih =>
    rw [loop_succ] at h
    obtain ⟨r, h1, h2⟩ := ok_bind.mp h
    exact (ih h1).trans' (hf n r t h2)

theorem same_i (s : St α) (x : V) (o : Option Int) :
    Same { Eff.nil with i := fun y => decide (y = x) } s { s with l.i := upd s.l.i x o } := by
  refine ⟨?_, ?_, ?_, ?_, ?_, ?_, fun _ => rfl, fun _ => rfl, fun _ => rfl⟩ <;> intro y hy <;> simp_all [upd]

theorem same_d (s : St α) (x : V) (o : Option α) :
    Same { Eff.nil with d := fun y => decide (y = x) } s { s with l.d := upd s.l.d x o } := by
  refine ⟨?_, ?_, ?_, ?_, ?_, ?_, fun _ => rfl, fun _ => rfl, fun _ => rfl⟩ <;> intro y hy <;> simp_all [upd]

theorem same_v (s : St α) (x : V) (o : Option (Vec α)) :
    Same { Eff.nil with v := fun y => decide (y = x) } s { s with l.v := upd s.l.v x o } := by
  refine ⟨?_, ?_, ?_, ?_, ?_, ?_, fun _ => rfl, fun _ => rfl, fun _ => rfl⟩ <;> intro y hy <;> simp_all [upd]

theorem same_m (s : St α) (x : V) (o : Option (Mtx α)) :
    Same { Eff.nil with m := fun y => decide (y = x) } s { s with l.m := upd s.l.m x o } := by
  refine ⟨?_, ?_, ?_, ?_, ?_, ?_, fun _ => rfl, fun _ => rfl, fun _ => rfl⟩ <;> intro y hy <;> simp_all [upd]

theorem same_iv (s : St α) (x : V) (o : Option (Vec Int)) :
    Same { Eff.nil with iv := fun y => decide (y = x) } s { s with l.iv := upd s.l.iv x o } := by
  refine ⟨?_, ?_, ?_, ?_, ?_, ?_, fun _ => rfl, fun _ => rfl, fun _ => rfl⟩ <;> intro y hy <;> simp_all [upd]

theorem same_g (s : St α) (g : GA) (p : Buf α) :
    Same { Eff.nil with g := fun h => decide (h = g) } s { s with w := g.set s.w p } := by
  refine ⟨fun _ _ => rfl, fun _ _ => rfl, fun _ _ => rfl, fun _ _ => rfl, fun _ _ => rfl, ?_,
    ?_, ?_, ?_⟩
  · intro y hy
    simp only [decide_eq_false_iff_not] at hy
    cases g <;> cases y <;> first | rfl | exact absurd rfl hy
  all_goals cases g <;> exact fun _ => rfl

theorem same_ell (a : Loc α) (s : St α) : Same Eff.ell s { s with l := copyEll a s.l } := by
  refine ⟨?_, ?_, ?_, ?_, ?_, ?_, fun _ => rfl, fun _ => rfl, fun _ => rfl⟩ <;> intro y hy <;>
    simp_all [Eff.ell, copyEll, Eff.nil]

theorem same_solver (a : Loc α) (s : St α) :
    Same Eff.solver s { s with l := copySolver a s.l } := by
  refine ⟨?_, ?_, ?_, ?_, ?_, ?_, fun _ => rfl, fun _ => rfl, fun _ => rfl⟩ <;> intro y hy <;>
    simp_all [Eff.solver, copySolver, Eff.nil]

theorem same_A (s : St α) (m : Ell α) :
    Same { Eff.nil with A := true } s { s with w := { s.w with A := m } } :=
  ⟨fun _ _ => rfl, fun _ _ => rfl, fun _ _ => rfl, fun _ _ => rfl, fun _ _ => rfl,
    fun g _ => by { cases g <;> rfl }, fun h => (by cases h), fun _ => rfl, fun _ => rfl⟩

theorem same_mat (a : Loc α) (s : St α) : Same Eff.mat s { s with l := copyMat a s.l } := by
  refine ⟨?_, ?_, ?_, ?_, ?_, ?_, fun _ => rfl, fun _ => rfl, fun _ => rfl⟩ <;> intro y hy <;>
    simp_all [Eff.mat, copyMat, Eff.nil]

theorem same_passOut (r : Loc α) (s : St α) (p : Kind × V) (a : Arg) :
    Same (argEff p a) s { s with l := passOut r s.l p a } := by
  obtain ⟨k, p⟩ := p
  cases k <;> cases a <;> first
    | exact same_i s _ _ | exact same_d s _ _ | exact same_v s _ _ | exact same_m s _ _
    | exact same_mat r s | exact same_ell r s | exact same_solver r s | exact Same.refl _ _

theorem same_memOut (r : Loc α) (s : St α) (p : Kind × V) (a : Arg) :
    Same (argEff p a) s { s with w := memOut r s.w p a } := by
  obtain ⟨k, p⟩ := p
  cases k <;> cases a <;> first
    | exact same_A s _ | exact same_g s _ _ | exact Same.refl _ _

theorem same_memBack (r : Loc α) (ps : List (Kind × V)) (as : List Arg) (s : St α) :
    Same (argsEff ps as) s { s with w := memBack r s.w ps as } := by
  induction ps generalizing as s with
  | nil => cases as <;> exact Same.refl _ _
  | cons p ps ih =>
    cases as with
    | nil => exact Same.refl _ _
    | cons a as => exact (same_memOut r s p a).trans (ih as { s with w := memOut r s.w p a })

theorem same_passBack (r : Loc α) (ps : List (Kind × V)) (as : List Arg) (s : St α) :
    Same (argsEff ps as) s { s with l := passBack r s.l ps as } := by
  induction ps generalizing as s with
  | nil => cases as <;> exact Same.refl _ _
  | cons p ps ih =>
    cases as with
    | nil => exact Same.refl _ _
    | cons a as => exact (same_passOut r s p a).trans (ih as { s with l := passOut r s.l p a })

theorem doIter_same {E : Eff} {f g : St α → M (St α)} {b w : St α → M Bool}
    (hf : ∀ a b, f a = .ok b → Same E a b) (hg : ∀ a b, g a = .ok b → Same E a b) {n : Nat}
    {s t : St α} (h : doIter f g b w n s = .ok t) : Same E s t := by
  induction n generalizing s with
  | zero =>
    unfold doIter at h
    obtain ⟨r, h1, h⟩ := ok_bind.mp h
    obtain ⟨u, _, h⟩ := ok_bind.mp h
    split at h
    · cases h; exact hf _ _ h1
    · obtain ⟨r', h2, h⟩ := ok_bind.mp h
      obtain ⟨u', _, h⟩ := ok_bind.mp h
      split at h
      · cases h
      · cases h; exact (hf _ _ h1).trans' (hg _ _ h2)
  | succ n ih =>
    unfold doIter at h
    obtain ⟨r, h1, h⟩ := ok_bind.mp h
    obtain ⟨u, _, h⟩ := ok_bind.mp h
    split at h
    · cases h; exact hf _ _ h1
    · obtain ⟨r', h2, h⟩ := ok_bind.mp h
      obtain ⟨u', _, h⟩ := ok_bind.mp h
      split at h
      · exact ((hf _ _ h1).trans' (hg _ _ h2)).trans' (ih h)
      · cases h; exact (hf _ _ h1).trans' (hg _ _ h2)

/-- Execution changes only the variables in `Stmt.eff`. -/
theorem exec_same {c : Cfg α} {call : Fn → St α → M (St α)} {W : Fn → Eff}
    (hc : ∀ f s t, call f s = .ok t → Same (W f) s t) (p : Stmt) :
    ∀ {s t : St α}, p.exec c call s = .ok t → Same (p.eff W) s t := by
  induction p with
  | skip => intro s t h; cases h; exact Same.refl _ _
  | seq a b iha ihb =>
    intro s t h
    obtain ⟨r, h1, h2⟩ := ok_bind.mp h
    exact (iha h1).trans (ihb h2)
  | declI x => intro s t h; cases h; exact same_i s x _
  | declD x => intro s t h; cases h; exact same_d s x _
  | declV x n => intro s t h; cases h; exact same_v s x _
  | declM x n m => intro s t h; cases h; exact same_m s x _
  | declIV x n => intro s t h; cases h; exact same_iv s x _
  | declMat => intro s t h; cases h; exact same_mat _ s
  | initV x l =>
    intro s t h
    obtain ⟨a, _, h2⟩ := ok_bind.mp h
    cases h2; exact same_v s x _
  | initM x m l =>
    intro s t h
    obtain ⟨a, _, h2⟩ := ok_bind.mp h
    cases h2; exact same_m s x _
  | setI x e =>
    intro s t h
    obtain ⟨a, _, h2⟩ := ok_bind.mp h
    cases h2; exact same_i s x _
  | setD x e =>
    intro s t h
    obtain ⟨a, _, h2⟩ := ok_bind.mp h
    cases h2; exact same_d s x _
  | st1 x i e =>
    intro s t h
    obtain ⟨a, _, h⟩ := ok_bind.mp h
    obtain ⟨b, _, h⟩ := ok_bind.mp h
    obtain ⟨d, _, h⟩ := ok_bind.mp h
    obtain ⟨e, _, h⟩ := ok_bind.mp h
    cases h; exact same_v s x _
  | st2 x i j e =>
    intro s t h
    obtain ⟨a, _, h⟩ := ok_bind.mp h
    obtain ⟨b, _, h⟩ := ok_bind.mp h
    obtain ⟨d, _, h⟩ := ok_bind.mp h
    obtain ⟨e, _, h⟩ := ok_bind.mp h
    obtain ⟨f, _, h⟩ := ok_bind.mp h
    cases h; exact same_m s x _
  | stI x i e =>
    intro s t h
    obtain ⟨a, _, h⟩ := ok_bind.mp h
    obtain ⟨b, _, h⟩ := ok_bind.mp h
    obtain ⟨d, _, h⟩ := ok_bind.mp h
    obtain ⟨e, _, h⟩ := ok_bind.mp h
    cases h; exact same_iv s x _
  | memSt g i e =>
    intro s t h
    obtain ⟨a, _, h⟩ := ok_bind.mp h
    obtain ⟨b, _, h⟩ := ok_bind.mp h
    split at h
    · obtain ⟨d, _, h⟩ := ok_bind.mp h
      cases h; exact same_g s g _
    · cases h
  | ite b p q ihp ihq =>
    intro s t h
    obtain ⟨a, _, h⟩ := ok_bind.mp h
    split at h
    · exact (ihp h).left
    · exact (ihq h).right
  | «for» x lo hi b ih =>
    intro s t h
    obtain ⟨a, _, h⟩ := ok_bind.mp h
    obtain ⟨z, _, h⟩ := ok_bind.mp h
    exact loop_same (fun k a b hab => (same_i a x _).trans (ih hab)) h
  | call f args =>
    intro s t h
    obtain ⟨l, _, h⟩ := ok_bind.mp h
    obtain ⟨r, h1, h⟩ := ok_bind.mp h
    cases h
    have k := hc f _ _ h1
    have h2 := same_passBack r.l (params f) args s
    have h3 : Same { Eff.nil with g := (W f).g, A := (W f).A, o := (W f).o }
        { s with l := passBack r.l s.l (params f) args }
        ⟨r.w, passBack r.l s.l (params f) args⟩ :=
      ⟨fun _ _ => rfl, fun _ _ => rfl, fun _ _ => rfl, fun _ _ => rfl, fun _ _ => rfl,
        fun g hg => k.g g hg, fun hA => k.A hA, fun h => k.tick h, fun h => k.invMax h⟩
    have h4 := same_memBack r.l (params f) args ⟨r.w, passBack r.l s.l (params f) args⟩
    have h5 := (h2.trans h3).trans h4
    refine ⟨fun x hx => h5.i x ?_, fun x hx => h5.d x ?_, fun x hx => h5.v x ?_,
      fun x hx => h5.m x ?_, fun x hx => h5.iv x ?_, fun x hx => h5.g x ?_, fun hx => h5.A ?_,
      fun hx => h5.tick ?_, fun hx => h5.invMax ?_⟩ <;>
      simp only [Stmt.eff, Eff.or, Bool.or_eq_false_iff] at hx ⊢ <;> exact ⟨hx, hx.1⟩
  | malloc x e =>
    intro s t h
    obtain ⟨a, _, h2⟩ := ok_bind.mp h
    cases h2; exact same_v s x _
  | mallocI x e =>
    intro s t h
    obtain ⟨a, _, h2⟩ := ok_bind.mp h
    cases h2; exact same_iv s x _
  | free x =>
    intro s t h
    obtain ⟨a, _, h2⟩ := ok_bind.mp h
    cases h2; exact same_v s x _
  | initIV x l =>
    intro s t h
    obtain ⟨a, _, h2⟩ := ok_bind.mp h
    cases h2; exact same_iv s x _
  | declSolver => intro s t h; cases h; exact same_solver _ s
  | doW e p b q w ihp ihq =>
    intro s t h
    obtain ⟨a, _, h⟩ := ok_bind.mp h
    exact doIter_same (fun a b h => (ihp h).left) (fun a b h => (ihq h).right) h

/-- A function changes only the variables in `runEff`. -/
theorem run_same {c : Cfg α} (n : Nat) : ∀ (f : Fn) (s t : St α), run c n f s = .ok t →
    Same (runEff n f) s t := by
  induction n with
  | zero => intro f s t h; cases h
  | succ n ih => intro f s t h; exact exec_same ih _ h

/-! ## Assertions -/

/-- The run ends normally in a state with `P`. -/
def Gives {β : Type} (r : M β) (P : β → Prop) : Prop := ∃ t, r = .ok t ∧ P t

theorem Gives.mono {β : Type} {r : M β} {P Q : β → Prop} (h : Gives r P)
    (k : ∀ t, P t → Q t) : Gives r Q := by
  obtain ⟨t, h1, h2⟩ := h
  exact ⟨t, h1, k t h2⟩

theorem Gives.ok {β : Type} {t : β} {P : β → Prop} (h : P t) : Gives (.ok t) P := ⟨t, rfl, h⟩

theorem Gives.bind {β γ : Type} {r : M β} {f : β → M γ} {P : β → Prop} {Q : γ → Prop}
    (h : Gives r P) (k : ∀ t, P t → Gives (f t) Q) : Gives (r >>= f) Q := by
  obtain ⟨t, h1, h2⟩ := h
  obtain ⟨u, h3, h4⟩ := k t h2
  exact ⟨u, by rw [h1]; exact h3, h4⟩

section
variable {c : Cfg α} {n : Nat}

/-- Statements in sequence; the second one may use that the first one leaves other variables
alone. -/
theorem Gives.seq {a b : Stmt} {s : St α} {P Q : St α → Prop}
    (h : Gives (a.exec c (run c n) s) P)
    (k : ∀ t, Same (a.eff (runEff n)) s t → P t → Gives (b.exec c (run c n) t) Q) :
    Gives ((a ;; b).exec c (run c n) s) Q := by
  obtain ⟨t, h1, h2⟩ := h
  obtain ⟨u, h3, h4⟩ := k t (exec_same (run_same n) a h1) h2
  exact ⟨u, by show (a.exec c (run c n) s >>= fun s => b.exec c (run c n) s) = _; rw [h1]; exact h3, h4⟩

theorem Gives.same {a : Stmt} {s : St α} {P : St α → Prop}
    (h : Gives (a.exec c (run c n) s) P) :
    Gives (a.exec c (run c n) s) (fun t => Same (a.eff (runEff n)) s t ∧ P t) := by
  obtain ⟨t, h1, h2⟩ := h
  exact ⟨t, h1, exec_same (run_same n) a h1, h2⟩

/-- Counting loops with an invariant. -/
theorem Gives.for {x : V} {lo hi : IExp} {b : Stmt} {s : St α} {a z : Int}
    (P : Nat → St α → Prop)
    (hP : ∀ k t o, P k t → P k { t with l.i := upd t.l.i x o })
    (ha : lo.eval c s.l = .ok a) (hz : hi.eval c s.l = .ok z)
    (h0 : P 0 s)
    (hs : ∀ (k : Nat) (t : St α), (k : Int) < z - a →
      Same ((Stmt.for x lo hi b).eff (runEff n)) s t → t.l.i x = some (a + k) → P k t →
      Gives (b.exec c (run c n) t) (P (k + 1))) :
    Gives ((Stmt.for x lo hi b).exec c (run c n) s) (P (z - a).toNat) := by
  have key := loop_inv (n := (z - a).toNat) (s := s)
    (f := fun k t => b.exec c (run c n) { t with l.i := upd t.l.i x (some (a + k)) })
    (fun k t => Same ((Stmt.for x lo hi b).eff (runEff n)) s t ∧ P k t) ⟨Same.refl _ _, h0⟩ (by
      intro k t hk ⟨h1, h2⟩
      obtain ⟨u, h3, h4⟩ := hs k { t with l.i := upd t.l.i x (some (a + k)) } (by omega)
        (h1.trans' (same_i t x _).left) (if_pos rfl) (hP k t _ h2)
      exact ⟨u, h3, h1.trans' ((same_i t x _).trans (exec_same (run_same n) b h3)), h4⟩)
  obtain ⟨t, h1, h2⟩ := key
  refine ⟨t, ?_, h2.2⟩
  simp only [Stmt.exec, ha, hz, M_bind_ok', h1]

/-- Loops `for (int x = 0; x < N; x++)`. -/
theorem Gives.for0 {x : V} {hi : IExp} {b : Stmt} {s : St α} {N : Nat}
    (P : Nat → St α → Prop)
    (hP : ∀ k t o, P k t → P k { t with l.i := upd t.l.i x o })
    (hz : hi.eval c s.l = .ok (N : Int))
    (h0 : P 0 s)
    (hs : ∀ (k : Nat) (t : St α), k < N →
      Same ((Stmt.for x (.lit 0) hi b).eff (runEff n)) s t → t.l.i x = some (k : Int) → P k t →
      Gives (b.exec c (run c n) t) (P (k + 1))) :
    Gives ((Stmt.for x (.lit 0) hi b).exec c (run c n) s) (P N) := by
  have := Gives.for (c := c) (n := n) (x := x) (b := b) (a := 0) P hP rfl hz h0 (by
    intro k t hk h1 h2 h3
    exact hs k t (by omega) h1 (by simpa using h2) h3)
  simpa using this

/-- Loops `for (int x = m; x < N; x++)`; the invariant speaks of the counter. -/
theorem Gives.forFrom {x : V} {hi : IExp} {b : Stmt} {s : St α} {m N : Nat}
    (P : Nat → St α → Prop)
    (hP : ∀ k t o, P k t → P k { t with l.i := upd t.l.i x o })
    (hm : m ≤ N)
    (hz : hi.eval c s.l = .ok (N : Int))
    (h0 : P m s)
    (hs : ∀ (k : Nat) (t : St α), m ≤ k → k < N →
      Same ((Stmt.for x (.lit m) hi b).eff (runEff n)) s t → t.l.i x = some (k : Int) → P k t →
      Gives (b.exec c (run c n) t) (P (k + 1))) :
    Gives ((Stmt.for x (.lit m) hi b).exec c (run c n) s) (P N) := by
  have := Gives.for (c := c) (n := n) (x := x) (b := b) (a := m) (fun k => P (m + k))
    (fun k t o h => hP _ t o h) rfl hz h0 (by
    intro k t hk h1 h2 h3
    exact hs (m + k) t (by omega) (by omega) h1 (by simpa using h2) h3)
  have e : m + ((N : Int) - (m : Int)).toNat = N := by omega
  rwa [e] at this

theorem Gives.ite_pos {b : BExp} {p q : Stmt} {s : St α} {P : St α → Prop}
    (hb : b.eval c s = .ok true) (h : Gives (p.exec c (run c n) s) P) :
    Gives ((Stmt.ite b p q).exec c (run c n) s) P := by
  simpa only [Stmt.exec, hb, M_bind_ok', if_true] using h

theorem Gives.ite_neg {b : BExp} {p q : Stmt} {s : St α} {P : St α → Prop}
    (hb : b.eval c s = .ok false) (h : Gives (q.exec c (run c n) s) P) :
    Gives ((Stmt.ite b p q).exec c (run c n) s) P := by
  simpa [Stmt.exec, hb] using h

theorem Gives.call {f : Fn} {args : List Arg} {s : St α} {l : Loc α} {P Q : St α → Prop}
    (hp : passAll c s Loc.none (params f) args = .ok l)
    (h : Gives (run c n f ⟨s.w, l⟩) Q)
    (k : ∀ r, Q r → P ⟨memBack r.l r.w (params f) args, passBack r.l s.l (params f) args⟩) :
    Gives ((Stmt.call f args).exec c (run c n) s) P := by
  obtain ⟨r, h1, h2⟩ := h
  exact ⟨_, by simp only [Stmt.exec, hp, h1, M_bind_ok', M_pure], k r h2⟩

end

/-! ## Arrays -/

/-- An array with at least `N` entries, of which those in `S` hold `f`. -/
def VecOn {β : Type} (o : Option (Vec β)) (N : Nat) (S : Nat → Prop) (f : Nat → β) : Prop :=
  ∃ a, o = some a ∧ N ≤ a.n ∧ ∀ q, S q → a.val q = some (f q)

/-- A matrix of `N` times `K` entries, of which those in `S` hold `f`. -/
def MtxOn {β : Type} (o : Option (Mtx β)) (N K : Nat) (S : Nat → Nat → Prop) (f : Nat → Nat → β) :
    Prop :=
  ∃ a, o = some a ∧ a.n = N ∧ a.m = K ∧ ∀ q r, S q r → a.val q r = some (f q r)

theorem VecOn.congr {β : Type} {o : Option (Vec β)} {N M : Nat} {S T : Nat → Prop}
    {f g : Nat → β} (h : VecOn o N S f) (hN : M ≤ N) (hT : ∀ q, T q → S q ∧ f q = g q) :
    VecOn o M T g := by
  obtain ⟨a, h1, h2, h3⟩ := h
  exact ⟨a, h1, by omega, fun q hq => by rw [h3 q (hT q hq).1, (hT q hq).2]⟩

theorem MtxOn.congr {β : Type} {o : Option (Mtx β)} {N K : Nat} {S T : Nat → Nat → Prop}
    {f g : Nat → Nat → β} (h : MtxOn o N K S f) (hT : ∀ q r, T q r → S q r ∧ f q r = g q r) :
    MtxOn o N K T g := by
  obtain ⟨a, h1, h2, h3, h4⟩ := h
  exact ⟨a, h1, h2, h3, fun q r hq => by rw [h4 q r (hT q r hq).1, (hT q r hq).2]⟩

/-- An array of the size of the block `p`, of which the entries in `S` hold those of `p`. -/
def BufOn {β : Type} (o : Option (Vec β)) (p : Buf β) (S : Nat → Prop) : Prop :=
  ∃ a, o = some a ∧ a.n = p.size ∧ ∀ q, S q → a.val q = some (p.val q)

/-- An array of the size of the block `p`; the entries in `S` are assigned, and all of them are
those of `p`, with 0 for what is not assigned. -/
def Blk (o : Option (Vec α)) (p : Buf α) (S : Nat → Prop) : Prop :=
  ∃ a, o = some a ∧ a.n = p.size ∧ (∀ q, S q → (a.val q).isSome = true) ∧
    ∀ q, (a.val q).getD 0 = p.val q

/-- A block whose unassigned entries are given by `j`. -/
def FillOn {β : Type} (o : Option (Vec β)) (p : Buf β) (j : Nat → β) : Prop :=
  ∃ a, o = some a ∧ a.n = p.size ∧ ∀ q, (a.val q).getD (j q) = p.val q

/-- The locals behind the pointer `m` hold the matrix. -/
structure EllOn (l : Loc α) (m : Ell α) : Prop where
  nrow : l.i .m_nrow = some (m.nrow : Int)
  ncol : l.i .m_ncol = some (m.ncol : Int)
  nnz : l.i .m_nnz = some (m.nnz : Int)
  vals : BufOn (l.v .m_vals) m.vals (fun _ => True)
  cols : BufOn (l.iv .m_cols) m.cols (fun _ => True)

/-! ## Evaluation, one operator at a time -/

section
variable {c : Cfg α} {l : Loc α} {s : St α}

theorem ev_ilit (n : Int) : (IExp.lit n).eval c l = .ok n := rfl
theorem ev_ivar {x : V} {k : Int} (h : l.i x = some k) : (IExp.var x).eval c l = .ok k := by
  simp [IExp.eval, h, need]
theorem ev_imem (g : GI) : (IExp.mem g).eval c l = .ok (g.get c) := rfl
theorem ev_iadd {a b : IExp} {x y : Int} (ha : a.eval c l = .ok x) (hb : b.eval c l = .ok y) :
    (IExp.add a b).eval c l = .ok (x + y) := by simp [IExp.eval, ha, hb]
theorem ev_isub {a b : IExp} {x y : Int} (ha : a.eval c l = .ok x) (hb : b.eval c l = .ok y) :
    (IExp.sub a b).eval c l = .ok (x - y) := by simp [IExp.eval, ha, hb]
theorem ev_imul {a b : IExp} {x y : Int} (ha : a.eval c l = .ok x) (hb : b.eval c l = .ok y) :
    (IExp.mul a b).eval c l = .ok (x * y) := by simp [IExp.eval, ha, hb]

theorem ev_lit (m : Nat) (b : Bool) (e : Nat) :
    (DExp.lit m b e).eval c s = .ok (OfScientific.ofScientific m b e : α) := rfl
theorem ev_ofInt {a : IExp} {x : Int} (h : a.eval c s.l = .ok x) :
    (DExp.ofInt a).eval c s = .ok (ofInt x : α) := by simp [DExp.eval, h]
theorem ev_var {x : V} {y : α} (h : s.l.d x = some y) : (DExp.var x).eval c s = .ok y := by
  simp [DExp.eval, h, need]
theorem ev_mem (g : GD) : (DExp.mem g).eval c s = .ok (g.get c) := rfl
theorem ev_add {a b : DExp} {x y : α} (ha : a.eval c s = .ok x) (hb : b.eval c s = .ok y) :
    (DExp.add a b).eval c s = .ok (x + y) := by simp [DExp.eval, ha, hb]
theorem ev_sub {a b : DExp} {x y : α} (ha : a.eval c s = .ok x) (hb : b.eval c s = .ok y) :
    (DExp.sub a b).eval c s = .ok (x - y) := by simp [DExp.eval, ha, hb]
theorem ev_mul {a b : DExp} {x y : α} (ha : a.eval c s = .ok x) (hb : b.eval c s = .ok y) :
    (DExp.mul a b).eval c s = .ok (x * y) := by simp [DExp.eval, ha, hb]
theorem ev_div {a b : DExp} {x y : α} (ha : a.eval c s = .ok x) (hb : b.eval c s = .ok y) :
    (DExp.div a b).eval c s = .ok (x / y) := by simp [DExp.eval, ha, hb]
theorem ev_neg {a : DExp} {x : α} (ha : a.eval c s = .ok x) :
    (DExp.neg a).eval c s = .ok (-x) := by simp [DExp.eval, ha]
theorem ev_sqrt {a : DExp} {x : α} (ha : a.eval c s = .ok x) :
    (DExp.sqrt a).eval c s = .ok (Scalar.sqrt x) := by simp [DExp.eval, ha]
theorem ev_abs {a : DExp} {x : α} (ha : a.eval c s = .ok x) :
    (DExp.abs a).eval c s = .ok (Scalar.abs x) := by simp [DExp.eval, ha]

theorem ev_rd1 {x : V} {i : IExp} {z : Int} {N : Nat} {S : Nat → Prop} {f : Nat → α}
    (hv : VecOn (s.l.v x) N S f) (hi : i.eval c s.l = .ok z) (h0 : 0 ≤ z) (hk : z < N)
    (hS : S z.toNat) : (DExp.rd1 x i).eval c s = .ok (f z.toNat) := by
  obtain ⟨a, h1, h2, h3⟩ := hv
  have : z < a.n := by omega
  simp [DExp.eval, hi, h1, need, Vec.rd, this, h0, h3 _ hS]

theorem ev_rd2 {x : V} {i j : IExp} {z w : Int} {N K : Nat} {S : Nat → Nat → Prop}
    {f : Nat → Nat → α} (hv : MtxOn (s.l.m x) N K S f) (hi : i.eval c s.l = .ok z)
    (hj : j.eval c s.l = .ok w) (h0 : 0 ≤ z) (hk : z < N) (h1 : 0 ≤ w) (hq : w < K)
    (hS : S z.toNat w.toNat) : (DExp.rd2 x i j).eval c s = .ok (f z.toNat w.toNat) := by
  obtain ⟨a, e1, e2, e3, e4⟩ := hv
  subst e2 e3
  simp [DExp.eval, hi, hj, e1, need, Mtx.rd, h0, hk, h1, hq, e4 _ _ hS]

theorem ev_ctanLin {i : IExp} {z : Int} (hi : i.eval c s.l = .ok z) (h0 : 0 ≤ z) (hk : z < 36) :
    (DExp.ctanLin i).eval c s = .ok (c.ctanLin z.toNat) := by simp [DExp.eval, hi, h0, hk]
theorem ev_invMax {w : Work α} (hw : s.w = w) : DExp.invMax.eval c s = .ok w.invMax := by
  subst hw; rfl
theorem ev_invTol : DExp.invTol.eval c s = .ok c.invTol := rfl

theorem ev_memRd {g : GA} {i : IExp} {z : Int} {k : Nat} (hi : i.eval c s.l = .ok z) (hz : z = k)
    (hk : k < (g.get s.w).size) : (DExp.memRd g i).eval c s = .ok ((g.get s.w).val k) := by
  subst hz
  simp [DExp.eval, hi, Buf.readI_nat hk]

/-! ## Statements -/

variable {n : Nat}

theorem Gives.skip : Gives (Stmt.skip.exec c (run c n) s) (fun t => t = s) := ⟨s, rfl, rfl⟩

theorem Gives.setI {x : V} {e : IExp} {k : Int} (h : e.eval c s.l = .ok k) :
    Gives ((Stmt.setI x e).exec c (run c n) s) (fun t => t.l.i x = some k) :=
  ⟨{ s with l.i := upd s.l.i x (some k) }, by simp [Stmt.exec, h], if_pos rfl⟩

theorem Gives.setD {x : V} {e : DExp} {y : α} (h : e.eval c s = .ok y) :
    Gives ((Stmt.setD x e).exec c (run c n) s) (fun t => t.l.d x = some y) :=
  ⟨{ s with l.d := upd s.l.d x (some y) }, by simp [Stmt.exec, h], if_pos rfl⟩

theorem Gives.declI {x : V} : Gives ((Stmt.declI x).exec c (run c n) s) (fun _ => True) :=
  ⟨_, rfl, trivial⟩

theorem Gives.declD {x : V} : Gives ((Stmt.declD x).exec c (run c n) s) (fun _ => True) :=
  ⟨_, rfl, trivial⟩

theorem Gives.declMat : Gives (Stmt.declMat.exec c (run c n) s) (fun _ => True) :=
  ⟨_, rfl, trivial⟩

theorem Gives.declV {x : V} {N : Nat} (f : Nat → α) :
    Gives ((Stmt.declV x N).exec c (run c n) s)
      (fun t => VecOn (t.l.v x) N (fun _ => False) f) :=
  ⟨_, rfl, ⟨⟨N, fun _ => Option.none⟩, if_pos rfl, le_refl _, fun _ h => h.elim⟩⟩

theorem Gives.declM {x : V} {N K : Nat} (f : Nat → Nat → α) :
    Gives ((Stmt.declM x N K).exec c (run c n) s)
      (fun t => MtxOn (t.l.m x) N K (fun _ _ => False) f) :=
  ⟨_, rfl, ⟨⟨N, K, fun _ _ => Option.none⟩, if_pos rfl, rfl, rfl, fun _ _ h => h.elim⟩⟩

theorem Gives.declIV {x : V} {N : Nat} (f : Nat → Int) :
    Gives ((Stmt.declIV x N).exec c (run c n) s)
      (fun t => VecOn (t.l.iv x) N (fun _ => False) f) :=
  ⟨_, rfl, ⟨⟨N, fun _ => Option.none⟩, if_pos rfl, le_refl _, fun _ h => h.elim⟩⟩

/-- Assignment to an entry of an array. -/
theorem Gives.st1 {x : V} {i : IExp} {e : DExp} {z : Int} {k N : Nat} {S : Nat → Prop}
    {f : Nat → α} {y : α} (hv : VecOn (s.l.v x) N S f) (hi : i.eval c s.l = .ok z) (hz : z = k)
    (hk : k < N) (he : e.eval c s = .ok y) :
    Gives ((Stmt.st1 x i e).exec c (run c n) s)
      (fun t => VecOn (t.l.v x) N (fun q => S q ∨ q = k) (fun q => if q = k then y else f q)) := by
  obtain ⟨a, h1, h2, h3⟩ := hv
  subst hz
  have hka : (k : Int) < a.n := by omega
  refine ⟨_, by simp [Stmt.exec, hi, he, h1, need, Vec.wr, hka]; rfl, ?_⟩
  refine ⟨⟨a.n, fun q => if q = k then some y else a.val q⟩, by simp [upd], h2, ?_⟩
  intro q hq
  by_cases e : q = k
  · simp [e]
  · simp only [e, or_false] at hq
    simp [e, h3 q hq]

/-- Assignment to an entry of a matrix. -/
theorem Gives.st2 {x : V} {i j : IExp} {e : DExp} {z w : Int} {k r N K : Nat}
    {S : Nat → Nat → Prop} {f : Nat → Nat → α} {y : α} (hv : MtxOn (s.l.m x) N K S f)
    (hi : i.eval c s.l = .ok z) (hj : j.eval c s.l = .ok w) (hz : z = k) (hw : w = r) (hk : k < N)
    (hr : r < K) (he : e.eval c s = .ok y) :
    Gives ((Stmt.st2 x i j e).exec c (run c n) s)
      (fun t => MtxOn (t.l.m x) N K (fun p q => S p q ∨ (p = k ∧ q = r))
        (fun p q => if p = k ∧ q = r then y else f p q)) := by
  obtain ⟨a, h1, h2, h3, h4⟩ := hv
  subst hz hw
  have hka : (k : Int) < a.n := by omega
  have hra : (r : Int) < a.m := by omega
  refine ⟨_, by simp [Stmt.exec, hi, hj, he, h1, need, Mtx.wr, hka, hra]; rfl, ?_⟩
  refine ⟨⟨a.n, a.m, fun p q => if p = k ∧ q = r then some y else a.val p q⟩, by simp [upd],
    h2, h3, ?_⟩
  intro p q hq
  by_cases e : p = k ∧ q = r
  · simp [e]
  · simp only [e, or_false] at hq
    simp [e, h4 p q hq]

end

section
variable {c : Cfg α} {s : St α} {n : Nat}

/-- Loops `for (int x = m; x < N; x++) a[x] = e;`. -/
theorem Gives.map {x a : V} {hi : IExp} {e : DExp} {m N M : Nat} {S : Nat → Prop}
    {f : Nat → α} (g : Nat → α) (hv : VecOn (s.l.v a) M S f) (hm : m ≤ N) (hN : N ≤ M)
    (hz : hi.eval c s.l = .ok (N : Int))
    (he : ∀ (k : Nat) (t : St α), m ≤ k → k < N →
      Same ((Stmt.for x (.lit m) hi (.st1 a (.var x) e)).eff (runEff n)) s t →
      t.l.i x = some (k : Int) →
      VecOn (t.l.v a) M (fun q => S q ∨ (m ≤ q ∧ q < k))
        (fun q => if m ≤ q ∧ q < k then g q else f q) →
      e.eval c t = .ok (g k)) :
    Gives ((Stmt.for x (.lit m) hi (.st1 a (.var x) e)).exec c (run c n) s)
      (fun t => VecOn (t.l.v a) M (fun q => S q ∨ (m ≤ q ∧ q < N))
        (fun q => if m ≤ q ∧ q < N then g q else f q)) := by
  refine Gives.forFrom (fun k t => VecOn (t.l.v a) M (fun q => S q ∨ (m ≤ q ∧ q < k))
        (fun q => if m ≤ q ∧ q < k then g q else f q)) (fun _ _ _ h => h) hm hz
    (hv.congr le_rfl fun q hq => ⟨?_, ?_⟩) ?_
  · rcases hq with h | h
    · exact h
    · omega
  · rw [if_neg (by omega)]
  · intro k t hk hkN hs hi hP
    refine (Gives.st1 hP (ev_ivar hi) rfl (by omega) (he k t hk hkN hs hi hP)).mono ?_
    intro t' h
    refine h.congr le_rfl fun q hq => ⟨?_, ?_⟩
    · by_cases e : q = k
      · exact Or.inr e
      · refine Or.inl (hq.imp_right fun h => by omega)
    · by_cases e : q = k
      · subst e; rw [if_pos rfl, if_pos (by omega)]
      · rw [if_neg e]
        have : (m ≤ q ∧ q < k + 1) ↔ (m ≤ q ∧ q < k) := by omega
        simp only [this]

theorem ofInt_nat (k : Nat) : (ofInt (k : Int) : α) = (k : α) := rfl
theorem ofInt_two : (ofInt 2 : α) = ((2 : Nat) : α) := rfl
theorem ofInt_three : (ofInt 3 : α) = ((3 : Nat) : α) := rfl
theorem ofInt_four : (ofInt 4 : α) = ((4 : Nat) : α) := rfl
theorem ofInt_eight : (ofInt 8 : α) = ((8 : Nat) : α) := rfl

end

/-! ## Facts that survive -/

section
variable {E : Eff} {s t : St α}

theorem keep_i (hs : Same E s t) {x : V} {k : Int} (h : s.l.i x = some k) (e : E.i x = false) :
    t.l.i x = some k := (hs.i x e).trans h
theorem keep_d (hs : Same E s t) {x : V} {y : α} (h : s.l.d x = some y) (e : E.d x = false) :
    t.l.d x = some y := (hs.d x e).trans h
theorem keep_v (hs : Same E s t) {x : V} {N : Nat} {S : Nat → Prop} {f : Nat → α}
    (h : VecOn (s.l.v x) N S f) (e : E.v x = false) : VecOn (t.l.v x) N S f := (hs.v x e).symm ▸ h
theorem keep_m (hs : Same E s t) {x : V} {N K : Nat} {S : Nat → Nat → Prop} {f : Nat → Nat → α}
    (h : MtxOn (s.l.m x) N K S f) (e : E.m x = false) : MtxOn (t.l.m x) N K S f :=
  (hs.m x e).symm ▸ h
theorem keep_iv (hs : Same E s t) {x : V} {N : Nat} {S : Nat → Prop} {f : Nat → Int}
    (h : VecOn (s.l.iv x) N S f) (e : E.iv x = false) : VecOn (t.l.iv x) N S f :=
  (hs.iv x e).symm ▸ h
theorem keep_g (hs : Same E s t) {g : GA} {p : Buf α} (h : g.get s.w = p) (e : E.g g = false) :
    g.get t.w = p := (hs.g g e).trans h

theorem keep_b (hs : Same E s t) {x : V} {p : Buf α} {S : Nat → Prop}
    (h : BufOn (s.l.v x) p S) (e : E.v x = false) : BufOn (t.l.v x) p S := (hs.v x e).symm ▸ h
theorem keep_blk (hs : Same E s t) {x : V} {p : Buf α} {S : Nat → Prop}
    (h : Blk (s.l.v x) p S) (e : E.v x = false) : Blk (t.l.v x) p S := (hs.v x e).symm ▸ h
theorem keep_fill (hs : Same E s t) {x : V} {p : Buf α} {j : Nat → α}
    (h : FillOn (s.l.v x) p j) (e : E.v x = false) : FillOn (t.l.v x) p j := (hs.v x e).symm ▸ h
theorem keep_ve (hs : Same E s t) {x : V} {a : Vec α} (h : s.l.v x = some a) (e : E.v x = false) :
    t.l.v x = some a := (hs.v x e).trans h
theorem keep_ive (hs : Same E s t) {x : V} {a : Vec Int} (h : s.l.iv x = some a) (e : E.iv x = false) :
    t.l.iv x = some a := (hs.iv x e).trans h
theorem keep_dimp (hs : Same E s t) {P : Prop} {x : V} {y : α} (h : P → s.l.d x = some y)
    (e : E.d x = false) (p : P) : t.l.d x = some y := (hs.d x e).trans (h p)
theorem keep_bi (hs : Same E s t) {x : V} {p : Buf Int} {S : Nat → Prop}
    (h : BufOn (s.l.iv x) p S) (e : E.iv x = false) : BufOn (t.l.iv x) p S := (hs.iv x e).symm ▸ h

theorem keep_ell (hs : Same E s t) {m : Ell α} (h : EllOn s.l m)
    (e : (E.i .m_nrow, E.i .m_ncol, E.i .m_nnz, E.v .m_vals, E.iv .m_cols) =
      (false, false, false, false, false)) : EllOn t.l m := by
  simp only [Prod.mk.injEq] at e
  obtain ⟨e1, e2, e3, e4, e5⟩ := e
  exact ⟨keep_i hs h.nrow e1, keep_i hs h.ncol e2, keep_i hs h.nnz e3, keep_b hs h.vals e4,
    keep_bi hs h.cols e5⟩

theorem keep_w (hs : Same E s t) {w : Work α} (h : s.w = w)
    (e : (E.A, E.o, E.g) = (false, false, fun _ => false)) : t.w = w := by
  obtain ⟨eA, e⟩ := Prod.mk.inj e
  obtain ⟨eo, e⟩ := Prod.mk.inj e
  have hg : ∀ g : GA, g.get t.w = g.get s.w := fun g => hs.g g (by rw [e])
  rw [← h]
  have h1 := hg .u; have h2 := hg .du; have h3 := hg .b; have h4 := hg .elem_stress
  have h5 := hg .elem_strain; have h6 := hg .vars_old; have h7 := hg .vars_new
  have h8 := hs.tick eo; have h9 := hs.A eA; have h10 := hs.invMax eo
  simp only [GA.get] at h1 h2 h3 h4 h5 h6 h7
  generalize t.w = a at *; generalize s.w = b at *
  cases a; cases b; simp_all

end

open Lean Elab Tactic Meta in
/-- `keep h`, for `h : Same E s t`, restates the facts about `s` for `t` where `E` allows it, and
forgets `s`. -/
elab "keep" h:ident : tactic => withMainContext do
  let hs ← elabTerm h none
  let lems := #[``keep_i, ``keep_d, ``keep_v, ``keep_m, ``keep_iv, ``keep_g, ``keep_w, ``keep_b, ``keep_bi, ``keep_blk,
    ``keep_ell, ``keep_dimp, ``keep_fill, ``keep_ve, ``keep_ive]
  let mut g ← getMainGoal
  for d in (← getLCtx) do
    if d.isImplementationDetail then continue
    for lem in lems do
      let r ← g.withContext do
        try
          let e ← mkAppM lem #[hs, d.toExpr]
          let ty ← whnf (← inferType e)
          let .forallE _ dom body _ := ty | return none
          if body.hasLooseBVars then return none
          let some (_, a, b) := dom.eq? | return none
          if ← withTransparency .default (isDefEq a b) then
            return some (mkApp e (← mkEqRefl b), body)
          else return none
        catch _ => return none
      if let some (pf, ty) := r then
        let (_, g') ← (← g.assert d.userName ty pf).intro1P
        g ← g'.tryClear d.fvarId
  let ty ← g.withContext do instantiateMVars (← inferType hs)
  let as := ty.getAppArgs
  if let Expr.fvar s := as[as.size - 2]! then
    let mut ds : Array LocalDecl := #[]
    for d in (← g.getDecl).lctx do
      ds := ds.push d
    for d in ds.reverse do
      if (← instantiateMVars d.type).containsFVar s then g ← g.tryClear d.fvarId
    g ← g.tryClear s
  replaceMainGoal [g]

open Lean Elab Tactic Meta in
/-- The lemma for an operator, and whether its first premise is a fact about a variable. -/
def evLemma : Name → Option (Name × Bool)
  | ``IExp.lit => some (``ev_ilit, false)
  | ``IExp.mem => some (``ev_imem, false)
  | ``IExp.var => some (``ev_ivar, true)
  | ``IExp.add => some (``ev_iadd, false)
  | ``IExp.sub => some (``ev_isub, false)
  | ``IExp.mul => some (``ev_imul, false)
  | ``DExp.lit => some (``ev_lit, false)
  | ``DExp.mem => some (``ev_mem, false)
  | ``DExp.ofInt => some (``ev_ofInt, false)
  | ``DExp.var => some (``ev_var, true)
  | ``DExp.add => some (``ev_add, false)
  | ``DExp.sub => some (``ev_sub, false)
  | ``DExp.mul => some (``ev_mul, false)
  | ``DExp.div => some (``ev_div, false)
  | ``DExp.neg => some (``ev_neg, false)
  | ``DExp.sqrt => some (``ev_sqrt, false)
  | ``DExp.abs => some (``ev_abs, false)
  | ``DExp.ctanLin => some (``ev_ctanLin, false)
  | ``DExp.invMax => some (``ev_invMax, true)
  | ``DExp.invTol => some (``ev_invTol, false)
  | ``DExp.rd1 => some (``ev_rd1, true)
  | ``DExp.rd2 => some (``ev_rd2, true)
  | _ => none

open Lean Elab Tactic Meta in
/-- Evaluate an expression, one operator at a time; the goals left are conditions on indices. -/
partial def evGoal (g : MVarId) : MetaM (List MVarId) := g.withContext do
  let ty ← instantiateMVars (← g.getType)
  let some (_, lhs, _) := ty.eq? | return [g]
  unless lhs.isAppOf ``IExp.eval || lhs.isAppOf ``DExp.eval do return [g]
  for d in (← getLCtx) do
    if d.isImplementationDetail then continue
    if let some (_, a, _) := (← instantiateMVars d.type).eq? then
      if a == lhs then
        if ← isDefEq ty d.type then
          g.assign d.toExpr
          return []
  let e ← whnfR lhs.appArg!
  let some (lem, b) := (e.getAppFn.constName?).bind evLemma | return [g]
  try
    let mut gs ← g.apply (← mkConstWithFreshMVarLevels lem) { newGoals := .nonDependentOnly }
    if b then
      match gs with
      | h :: rest =>
        h.assumption
        gs := rest
      | [] => pure ()
    let mut out := []
    for h in gs do
      unless ← h.isAssigned do out := out ++ (← evGoal h)
    return out
  catch _ => return [g]

open Lean Elab Tactic Meta in
/-- Evaluate an expression, one operator at a time. -/
elab "ev" : tactic => do
  replaceMainGoal (← evGoal (← getMainGoal))

theorem ok_to {β : Type} {r : M β} {y y' : β} (h : r = .ok y) (e : y = y') : r = .ok y' := e ▸ h

/-- Conditions on indices left by `ev`. -/
macro "side" : tactic => `(tactic| ((try dsimp only); first
  | omega | (simp; done) | (simp; omega)))

/-- Evaluate an expression to a given value; the equality of values is left. -/
macro "evs" : tactic => `(tactic| (apply ok_to; on_goal 1 => (ev <;> side)))

end Verif.Text
