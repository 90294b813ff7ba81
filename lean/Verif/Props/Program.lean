import Verif.Model.Program
import Verif.Props.InfoText

/-!
# C93, C94: several objects in one program

C93: the objects do not disturb each other.  C94: their files do.
-/

namespace Verif.Props
open Spec

variable {α : Type} [Scalar α]

/-- The arguments and the memory with which the objects of a program are created, in order. -/
def created : List (Event α) → List (Args α × Junk α)
  | [] => []
  | .new a j :: l => (a, j) :: created l
  | _ :: l => created l

/-- The calls on object `k`, in order. -/
def callsOf (k : Nat) : List (Event α) → List (Call α)
  | [] => []
  | .call i c :: l => if i = k then c :: callsOf k l else callsOf k l
  | _ :: l => callsOf k l

/-- The answers of a sequence of calls on one object. -/
def answers (env : Env α) : List (Call α) → ObjFiles α → List (Ret α)
  | [], _ => []
  | k :: l, s =>
    match step env s k with
    | .ok r => r.ret :: answers env l r.state
    | .error _ => []

/-- The answers that concern object `k`. -/
def answersOf (k : Nat) (l : List (Nat × Ret α)) : List (Ret α) := (l.filter fun x => x.1 = k).map Prod.snd

theorem created_append (l1 l2 : List (Event α)) : created (l1 ++ l2) = created l1 ++ created l2 := by
  induction l1 with
  | nil => rfl
  | cons e l ih => cases e <;> simp [created, ih]

theorem callsOf_append (k : Nat) (l1 l2 : List (Event α)) :
    callsOf k (l1 ++ l2) = callsOf k l1 ++ callsOf k l2 := by
  induction l1 with
  | nil => rfl
  | cons e l ih =>
    cases e with
    | new a j => simpa [callsOf] using ih
    | delete i => simpa [callsOf] using ih
    | call i c =>
      simp only [List.cons_append, callsOf]
      split
      · rw [ih]; rfl
      · exact ih

theorem answersOf_append (k : Nat) (l1 l2 : List (Nat × Ret α)) :
    answersOf k (l1 ++ l2) = answersOf k l1 ++ answersOf k l2 := by
  simp [answersOf]

theorem answers_snoc {env : Env α} {l : List (Call α)} {k : Call α} {s0 s1 : ObjFiles α} {r : Stepped α}
    (h : run env l s0 = .ok s1) (h1 : step env s1 k = .ok r) :
    answers env (l ++ [k]) s0 = answers env l s0 ++ [r.ret] := by
  induction l generalizing s0 with
  | nil =>
    simp only [run, pure_ok_iff] at h
    subst h
    simp only [answers, List.nil_append, h1]
  | cons a l ih =>
    simp only [run, bind_ok_iff] at h
    obtain ⟨r0, h0, h2⟩ := h
    simp only [List.cons_append, answers, h0, ih h2]

theorem pRun_snoc {env : Nat → Env α} {l : List (Event α)} {e : Event α} {p : Prog α} {q : PStepped α} :
    pRun env (l ++ [e]) p = .ok q ↔ ∃ q1 r, pRun env l p = .ok q1 ∧ pStep env q1.prog e = .ok r ∧
      q = { prog := r.prog, answers := q1.answers ++ r.answers } := by
  induction l generalizing p q with
  | nil =>
    simp only [List.nil_append, pRun, bind_ok_iff, pure_ok_iff]
    constructor
    · rintro ⟨r, h, _, rfl, rfl⟩
      exact ⟨_, r, rfl, h, by simp⟩
    · rintro ⟨q1, r, rfl, h, rfl⟩
      exact ⟨r, h, _, rfl, by simp⟩
  | cons a l ih =>
    simp only [List.cons_append, pRun, bind_ok_iff, pure_ok_iff]
    constructor
    · rintro ⟨r, h, q2, h2, rfl⟩
      obtain ⟨q1, r', h3, h4, rfl⟩ := ih.mp h2
      exact ⟨_, r', ⟨r, h, q1, h3, rfl⟩, h4, by simp⟩
    · rintro ⟨q1, r', ⟨r, h, q2, h3, rfl⟩, h4, rfl⟩
      exact ⟨r, h, _, ih.mpr ⟨q2, r', h3, h4, rfl⟩, by simp⟩

theorem pRun_append {env : Nat → Env α} {l1 l2 : List (Event α)} {p : Prog α} {q : PStepped α} :
    pRun env (l1 ++ l2) p = .ok q ↔ ∃ q1 q2, pRun env l1 p = .ok q1 ∧ pRun env l2 q1.prog = .ok q2 ∧
      q = { prog := q2.prog, answers := q1.answers ++ q2.answers } := by
  induction l1 generalizing p q with
  | nil =>
    simp only [List.nil_append, pRun, pure_ok_iff]
    constructor
    · intro h; exact ⟨_, q, rfl, h, by simp⟩
    · rintro ⟨q1, q2, rfl, h, rfl⟩; simpa using h
  | cons a l ih =>
    simp only [List.cons_append, pRun, bind_ok_iff, pure_ok_iff]
    constructor
    · rintro ⟨r, h, q2, h2, rfl⟩
      obtain ⟨q1, r', h3, h4, rfl⟩ := ih.mp h2
      exact ⟨_, r', ⟨r, h, q1, h3, rfl⟩, h4, by simp⟩
    · rintro ⟨q1, r', ⟨r, h, q2, h3, rfl⟩, h4, rfl⟩
      exact ⟨r, h, _, ih.mpr ⟨q2, r', h3, h4, rfl⟩, by simp⟩

/-- What a call adds to the files. -/
structure Written (α : Type) where
  conv : List (Tok α)
  eps : List (Tok α)
  vars : List (Tok α)
  vtu : Int → Int → Option (List (Tok α))

/-- The files after a call. -/
def Written.on (w : Written α) (f : Files α) : Files α where
  materials := f.materials
  convergence := f.convergence ++ w.conv
  epsSigCtan := f.epsSigCtan ++ w.eps
  intVarsN := f.intVarsN ++ w.vars
  vtu := fun g t => (w.vtu g t).or (f.vtu g t)

/-- A call does not look at the files; what it writes depends on the object only. -/
theorem step_written {env : Env α} {o : Obj α} {f : Files α} {c : Call α} {r : Stepped α}
    (h : step env { obj := o, files := f } c = .ok r) :
    ∃ w : Written α, (∀ f', step env { obj := o, files := f' } c
      = .ok { state := { obj := r.state.obj, files := w.on f' }, ret := r.ret }) ∧
      r.state.files = w.on f ∧
      (c ≠ .writeInfo → w.conv = [] ∧ w.eps = [] ∧ w.vars = []) ∧
      (∀ g t, w.vtu g t ≠ none → c = .output t g) := by
  have none' : ∀ (x : Obj α) (a : Ret α), (∀ f', step env { obj := o, files := f' } c
        = .ok { state := { obj := x, files := f' }, ret := a }) →
      ∃ w : Written α, (∀ f', step env { obj := o, files := f' } c
        = .ok { state := { obj := x, files := w.on f' }, ret := a }) ∧ f = w.on f ∧
      (c ≠ .writeInfo → w.conv = [] ∧ w.eps = [] ∧ w.vars = []) ∧
      (∀ g t, w.vtu g t ≠ none → c = .output t g) := by
    intro x a hx
    refine ⟨⟨[], [], [], fun _ _ => none⟩, fun f' => ?_, ?_, fun _ => ⟨rfl, rfl, rfl⟩, fun _ _ hn => absurd rfl hn⟩
    · rw [hx f']; simp [Written.on]
    · simp [Written.on]
  cases c with
  | setStrain id eps => cases h; exact none' _ _ fun f' => rfl
  | homogenize =>
    simp only [step, bind_ok_iff, pure_ok_iff] at h
    obtain ⟨o', h1, rfl⟩ := h
    exact none' _ _ fun f' => by simp only [step]; rw [h1]; rfl
  | getStress id buf => cases h; exact none' _ _ fun f' => rfl
  | getCtan id buf => cases h; exact none' _ _ fun f' => rfl
  | getNl id => cases h; exact none' _ _ fun f' => rfl
  | updateVars =>
    simp only [step, bind_ok_iff, pure_ok_iff] at h
    obtain ⟨o', h1, rfl⟩ := h
    exact none' _ _ fun f' => by simp only [step]; rw [h1]; rfl
  | output t id =>
    simp only [step, output, bind_ok_iff, pure_ok_iff] at h
    obtain ⟨s', h1, rfl⟩ := h
    cases hg : findGp id o.gauss with
    | none =>
      rw [hg] at h1
      cases h1
      exact none' _ _ fun f' => by simp only [step, output]; rw [hg]; rfl
    | some gp =>
      rw [hg] at h1
      simp only [bind_ok_iff, pure_ok_iff] at h1
      obtain ⟨old, h1, w1, h2, r1, h3, w2, h4, tk, h5, rfl⟩ := h1
      refine ⟨⟨[], [], [], fun g k => if g = id ∧ k = t then some tk else none⟩, fun f' => ?_, ?_,
        fun _ => ⟨rfl, rfl, rfl⟩, ?_⟩
      · simp only [step, output]
        rw [hg]
        simp only [h1, M_bind_ok', h2, h3, h4, h5, M_pure, Written.on, List.append_nil]
        congr 4
        funext g k
        by_cases hk : g = id ∧ k = t
        · rw [if_pos hk, if_pos hk]; rfl
        · rw [if_neg hk, if_neg hk]; rfl
      · simp only [Written.on, List.append_nil]
        congr 1
        funext g k
        by_cases hk : g = id ∧ k = t
        · rw [if_pos hk, if_pos hk]; rfl
        · rw [if_neg hk, if_neg hk]; rfl
      · intro g k hn
        by_cases hk : g = id ∧ k = t
        · rw [hk.1, hk.2]
        · simp only [if_neg hk] at hn; exact absurd rfl hn
  | writeInfo =>
    simp only [step, writeInfoFiles, bind_ok_iff, pure_ok_iff] at h
    obtain ⟨_, ⟨v, hv, rfl⟩, rfl⟩ := h
    refine ⟨⟨(if o.header = false then headerConv o.gauss else []) ++ (o.gauss.flatMap (recConv o.cfg) ++ [.endl]),
      (if o.header = false then headerEps o.gauss else []) ++ (o.gauss.flatMap recEps ++ [.endl]),
      v ++ [.endl], fun _ _ => none⟩, fun f' => ?_, ?_, fun hn => absurd rfl hn, fun _ _ hn => absurd rfl hn⟩
    · simp only [step, writeInfoFiles, hv, M_bind_ok', Written.on]
      by_cases hh : o.header = false
      · simp [hh]
      · simp [hh]
    · simp only [Written.on]
      by_cases hh : o.header = false
      · simp [hh]
      · simp [hh]

/-- The same call on the same object with other files. -/
theorem step_other {env : Env α} {o : Obj α} {f : Files α} {c : Call α} {r : Stepped α}
    (h : step env { obj := o, files := f } c = .ok r) (f' : Files α) :
    ∃ r', step env { obj := o, files := f' } c = .ok r' ∧ r'.state.obj = r.state.obj ∧ r'.ret = r.ret := by
  obtain ⟨w, h1, -⟩ := step_written h
  exact ⟨_, h1 f', rfl, rfl⟩

/-- **C93**: in any program with any number of objects, each object gives the answers and has the state that
it would have if it were alone, whatever the calls to the others and whatever the files hold. -/
theorem C93_independent (env : Nat → Env α) (evs : List (Event α)) (f0 : Files α) (q : PStepped α)
    (h : pRun env evs { objs := [], files := f0 } = .ok q) {k : Nat} {a : Args α} {j : Junk α}
    (hk : (created evs)[k]? = some (a, j)) (f : Files α) :
    ∃ s0 s, constructF (env k) a j f = .ok s0 ∧ run (env k) (callsOf k evs) s0 = .ok s ∧
      answersOf k q.answers = answers (env k) (callsOf k evs) s0 ∧
      (Event.delete k ∉ evs → q.prog.objs[k]? = some (some s.obj)) := by
  have key : q.prog.objs.length = (created evs).length ∧
      (∀ i, (created evs).length ≤ i → callsOf i evs = [] ∧ answersOf i q.answers = []) ∧
      ∀ i a j, (created evs)[i]? = some (a, j) → ∃ s0 s, constructF (env i) a j f = .ok s0 ∧
        run (env i) (callsOf i evs) s0 = .ok s ∧
        answersOf i q.answers = answers (env i) (callsOf i evs) s0 ∧
        (q.prog.objs[i]? = some (some s.obj) ∨ (q.prog.objs[i]? = some none ∧ Event.delete i ∈ evs)) := by
    clear hk
    induction evs using List.reverseRecOn generalizing q with
    | nil =>
      simp only [pRun, pure_ok_iff] at h
      subst h
      exact ⟨rfl, fun i _ => ⟨rfl, rfl⟩, fun i a j hi => by simp [created] at hi⟩
    | append_singleton l e ih =>
      obtain ⟨q1, r, h1, h2, rfl⟩ := pRun_snoc.mp h
      obtain ⟨i1, i2, i3⟩ := ih q1 h1
      cases e with
      | new a' j' =>
        simp only [pStep, bind_ok_iff, pure_ok_iff] at h2
        obtain ⟨r0, h2, rfl⟩ := h2
        rw [created_append]
        have hcall : ∀ i, callsOf i (l ++ [Event.new a' j']) = callsOf i l := fun i => by
          rw [callsOf_append]; simp [callsOf]
        refine ⟨by simp [created, i1], fun i hi => ?_, fun i a j hi => ?_⟩
        · rw [hcall]
          simpa [answersOf_append] using i2 i (by simp [created] at hi; omega)
        · rw [hcall]
          simp only [List.append_nil]
          by_cases hlt : i < (created l).length
          · rw [List.getElem?_append_left hlt] at hi
            obtain ⟨s0, s, k1, k2, k3, k4⟩ := i3 i a j hi
            refine ⟨s0, s, k1, k2, k3, ?_⟩
            rw [List.getElem?_append_left (by omega)]
            rcases k4 with k4 | ⟨k4, k5⟩
            · exact Or.inl k4
            · exact Or.inr ⟨k4, List.mem_append_left _ k5⟩
          · have hi' : i = (created l).length := by
              have := (List.getElem?_eq_some_iff.mp hi).1
              simp [created] at this; omega
            subst hi'
            rw [List.getElem?_append_right le_rfl] at hi
            simp [created] at hi
            obtain ⟨rfl, rfl⟩ := hi
            obtain ⟨e1, e2⟩ := i2 _ le_rfl
            rw [e1, e2]
            rw [i1] at h2
            unfold constructF at h2 ⊢
            simp only [bind_ok_iff, pure_ok_iff] at h2
            obtain ⟨o, h2, rfl⟩ := h2
            refine ⟨{ obj := o, files := ctorFiles o.cfg f }, _, by rw [h2]; rfl, rfl, rfl, Or.inl ?_⟩
            rw [← i1, List.getElem?_append_right le_rfl]
            simp
      | delete i' =>
        rw [created_append, show created [Event.delete (α := α) i'] = [] from rfl, List.append_nil]
        have hcall : ∀ i, callsOf i (l ++ [Event.delete i']) = callsOf i l := fun i => by
          rw [callsOf_append]; simp [callsOf]
        simp only [pStep] at h2
        split at h2
        · rename_i o ho
          simp only [pure_ok_iff] at h2
          subst h2
          simp only [List.append_nil]
          refine ⟨by simp [i1], fun i hi => by rw [hcall]; exact i2 i hi, fun i a j hi => ?_⟩
          rw [hcall]
          obtain ⟨s0, s, k1, k2, k3, k4⟩ := i3 i a j hi
          refine ⟨s0, s, k1, k2, k3, ?_⟩
          have hil := (List.getElem?_eq_some_iff.mp hi).1
          by_cases hii : i' = i
          · subst hii
            refine Or.inr ⟨?_, by simp⟩
            rw [List.getElem?_set_self (by omega)]
          · rw [List.getElem?_set_ne hii]
            rcases k4 with k4 | ⟨k4, k5⟩
            · exact Or.inl k4
            · exact Or.inr ⟨k4, List.mem_append_left _ k5⟩
        · cases h2
      | call i' c =>
        rw [created_append, show created [Event.call (α := α) i' c] = [] from rfl, List.append_nil]
        simp only [pStep] at h2
        split at h2
        · rename_i o ho
          simp only [bind_ok_iff, pure_ok_iff] at h2
          obtain ⟨rs, h2, rfl⟩ := h2
          have hi'l : i' < (created l).length := by
            rw [← i1]; exact (List.getElem?_eq_some_iff.mp ho).1
          have hcall : ∀ i, i ≠ i' → callsOf i (l ++ [Event.call i' c]) = callsOf i l := fun i hn => by
            rw [callsOf_append]; simp [callsOf, Ne.symm hn]
          have hans : ∀ i, i ≠ i' → answersOf i (q1.answers ++ [(i', rs.ret)]) = answersOf i q1.answers := by
            intro i hn
            rw [answersOf_append]; simp [answersOf, Ne.symm hn]
          refine ⟨by simp [i1], fun i hi => ?_, fun i a j hi => ?_⟩
          · have hn : i ≠ i' := by omega
            rw [hcall i hn]
            exact ⟨(i2 i hi).1, by rw [hans i hn]; exact (i2 i hi).2⟩
          · obtain ⟨s0, s, k1, k2, k3, k4⟩ := i3 i a j hi
            by_cases hn : i = i'
            · subst hn
              rcases k4 with k4 | ⟨k4, k5⟩
              · rw [ho] at k4
                cases k4
                obtain ⟨r', g1, g2, g3⟩ := step_other h2 s.files
                have hc1 : callsOf i (l ++ [Event.call i c]) = callsOf i l ++ [c] := by
                  rw [callsOf_append]; simp [callsOf]
                rw [hc1]
                refine ⟨s0, r'.state, k1, run_snoc.mpr ⟨s, r', k2, g1, rfl⟩, ?_, Or.inl ?_⟩
                · rw [answers_snoc k2 g1, ← k3, answersOf_append, g3]
                  simp [answersOf]
                · rw [g2, List.getElem?_set_self (by omega)]
              · rw [ho] at k4; cases k4
            · rw [hcall i hn]
              refine ⟨s0, s, k1, k2, (hans i hn).trans k3, ?_⟩
              rw [List.getElem?_set_ne (Ne.symm hn)]
              rcases k4 with k4 | ⟨k4, k5⟩
              · exact Or.inl k4
              · exact Or.inr ⟨k4, List.mem_append_left _ k5⟩
        · cases h2
  obtain ⟨s0, s, k1, k2, k3, k4⟩ := key.2.2 k a j hk
  refine ⟨s0, s, k1, k2, k3, fun hd => ?_⟩
  rcases k4 with k4 | ⟨-, k5⟩
  · exact k4
  · exact absurd k5 hd

/-! ## The files -/

/-- **C94**, loss: creating an object empties the three info files, whatever the others have written. -/
theorem C94_lost (env : Nat → Env α) (p : Prog α) (a : Args α) (j : Junk α) (r : PStepped α)
    (h : pStep env p (.new a j) = .ok r) :
    r.prog.files.convergence = [] ∧ r.prog.files.epsSigCtan = [] ∧ r.prog.files.intVarsN = [] := by
  simp only [pStep, bind_ok_iff, pure_ok_iff] at h
  obtain ⟨s0, h, rfl⟩ := h
  simp only [constructF, bind_ok_iff, pure_ok_iff] at h
  obtain ⟨o, h, rfl⟩ := h
  exact ⟨rfl, rfl, rfl⟩

/-- Events that leave the info files to object `k`: calls on it, and calls on others that do not write. -/
def LeavesTo (k : Nat) : Event α → Prop
  | .new .. => False
  | .call i c => i = k ∨ c ≠ .writeInfo
  | .delete _ => True

/-- **C94**, where it holds: if after the creation of object `k` no other object is created or asked to write
its info files, these files are those that `k` would write if it were alone (see C51 and C85). -/
theorem C94_own_partial (env : Nat → Env α) (pre post : List (Event α)) (a : Args α) (j : Junk α) (f0 : Files α)
    (q : PStepped α) (h : pRun env (pre ++ .new a j :: post) { objs := [], files := f0 } = .ok q)
    (hpost : ∀ e ∈ post, LeavesTo (created pre).length e) (f : Files α) :
    ∃ s, (constructF (env (created pre).length) a j f >>= run (env (created pre).length)
        (callsOf (created pre).length post)) = .ok s ∧
      q.prog.files.convergence = s.files.convergence ∧ q.prog.files.epsSigCtan = s.files.epsSigCtan ∧
      q.prog.files.intVarsN = s.files.intVarsN ∧ q.prog.files.materials = s.files.materials := by
  obtain ⟨q1, q2, h1, h2, rfl⟩ := pRun_append.mp h
  have hlen : q1.prog.objs.length = (created pre).length := by
    clear h h2 hpost
    induction pre using List.reverseRecOn generalizing q1 with
    | nil => simp only [pRun, pure_ok_iff] at h1; subst h1; rfl
    | append_singleton l e ih =>
      obtain ⟨q3, r, h3, h4, rfl⟩ := pRun_snoc.mp h1
      have := ih q3 h3
      rw [created_append]
      cases e with
      | new a' j' =>
        simp only [pStep, bind_ok_iff, pure_ok_iff] at h4
        obtain ⟨r0, h4, rfl⟩ := h4
        simp [created, this]
      | call i c =>
        simp only [pStep] at h4
        split at h4
        · simp only [bind_ok_iff, pure_ok_iff] at h4
          obtain ⟨rs, h4, rfl⟩ := h4
          simp [created, this]
        · cases h4
      | delete i =>
        simp only [pStep] at h4
        split at h4
        · simp only [pure_ok_iff] at h4
          subst h4
          simp [created, this]
        · cases h4
  rw [← hlen] at hpost ⊢
  simp only [pRun, bind_ok_iff, pure_ok_iff] at h2
  obtain ⟨r0, h2, q3, h3, rfl⟩ := h2
  simp only [pStep, constructF, bind_ok_iff, pure_ok_iff] at h2
  obtain ⟨s0, ⟨o, hc, rfl⟩, rfl⟩ := h2
  generalize hn : q1.prog.objs.length = n at *
  have key : ∃ s, run (env n) (callsOf n post) { obj := o, files := ctorFiles o.cfg f } = .ok s ∧
      q3.prog.files.convergence = s.files.convergence ∧ q3.prog.files.epsSigCtan = s.files.epsSigCtan ∧
      q3.prog.files.intVarsN = s.files.intVarsN ∧ q3.prog.files.materials = s.files.materials ∧
      (q3.prog.objs[n]? = some (some s.obj) ∨ q3.prog.objs[n]? = some none) := by
    clear h h1
    induction post using List.reverseRecOn generalizing q3 with
    | nil =>
      simp only [pRun, pure_ok_iff] at h3
      subst h3
      refine ⟨_, rfl, rfl, rfl, rfl, rfl, Or.inl ?_⟩
      rw [List.getElem?_append_right (by omega)]
      simp [hn]
    | append_singleton l e ih =>
      obtain ⟨q4, r, h4, h5, rfl⟩ := pRun_snoc.mp h3
      obtain ⟨s, k1, k2, k3, k4, k5, k6⟩ := ih q4 h4 (fun e he => hpost e (List.mem_append_left _ he))
      have he := hpost e (by simp)
      have hl : n < q4.prog.objs.length := by
        rcases k6 with k | k <;> exact (List.getElem?_eq_some_iff.mp k).1
      cases e with
      | new a' j' => exact he.elim
      | delete i =>
        rw [callsOf_append, show callsOf n [Event.delete (α := α) i] = [] from rfl, List.append_nil]
        simp only [pStep] at h5
        split at h5
        · simp only [pure_ok_iff] at h5
          subst h5
          refine ⟨s, k1, k2, k3, k4, k5, ?_⟩
          by_cases hi : i = n
          · subst hi; exact Or.inr (by rw [List.getElem?_set_self (by omega)])
          · simp only; rw [List.getElem?_set_ne hi]; exact k6
        · cases h5
      | call i c =>
        rw [callsOf_append]
        simp only [pStep] at h5
        split at h5
        · rename_i o' ho'
          simp only [bind_ok_iff, pure_ok_iff] at h5
          obtain ⟨rs, h5, rfl⟩ := h5
          obtain ⟨w, w1, w2, w3, w4⟩ := step_written h5
          by_cases hi : i = n
          · subst hi
            rw [show callsOf i [Event.call (α := α) i c] = [c] by simp [callsOf]]
            rcases k6 with k6 | k6
            · rw [ho'] at k6
              cases k6
              refine ⟨_, run_snoc.mpr ⟨s, _, k1, w1 s.files, rfl⟩, ?_⟩
              simp only [w2, Written.on, k2, k3, k4, k5, true_and]
              exact Or.inl (by rw [List.getElem?_set_self (by omega)])
            · rw [ho'] at k6; cases k6
          · rw [show callsOf n [Event.call (α := α) i c] = [] by simp [callsOf, hi], List.append_nil]
            have hw : c ≠ .writeInfo := by
              rcases he with he | he
              · exact absurd he hi
              · exact he
            obtain ⟨e1, e2, e3⟩ := w3 hw
            refine ⟨s, k1, ?_⟩
            simp only [w2, Written.on, e1, e2, e3, List.append_nil, k2, k3, k4, k5, true_and]
            rw [List.getElem?_set_ne hi]
            exact k6
        · cases h5
  obtain ⟨s, k1, k2, k3, k4, k5, -⟩ := key
  refine ⟨s, ?_, k2, k3, k4, k5⟩
  rw [bind_ok_iff]
  exact ⟨_, by unfold constructF; rw [hc]; rfl, k1⟩

/-- **C94**, field files: `output` of a registered Gauss point leaves under its name what the object would
write if it were alone; what another object has written for the same Gauss point and step is gone. -/
theorem C94_vtu (env : Nat → Env α) (p : Prog α) {k : Nat} {o : Obj α} (hk : p.objs[k]? = some (some o))
    {t id : Int} (hid : findGp id o.gauss ≠ none) {r : PStepped α} (h : pStep env p (.call k (.output t id)) = .ok r)
    (f : Files α) :
    ∃ s, step (env k) { obj := o, files := f } (.output t id) = .ok s ∧ s.state.files.vtu id t ≠ none ∧
      r.prog.files.vtu id t = s.state.files.vtu id t := by
  simp only [pStep] at h
  rw [hk] at h
  simp only [bind_ok_iff, pure_ok_iff] at h
  obtain ⟨rs, h, rfl⟩ := h
  obtain ⟨gp, hg⟩ := Option.ne_none_iff_exists'.mp hid
  have hs : ∀ (f' : Files α) (r' : Stepped α), step (env k) { obj := o, files := f' } (.output t id) = .ok r' →
      ∃ old w1 r1 w2 tk, loadVars o.cfg gp.intVarsN o.work.varsOld = .ok old ∧
        setDispl o.cfg { o.work with varsOld := old } gp.macroStrain = .ok w1 ∧
        newtonRaphson (env k) o.cfg w1 = .ok r1 ∧ calcFields o.cfg r1.work = .ok w2 ∧
        writeVtu o.cfg w2 = .ok tk ∧ r'.state.files.vtu id t = some tk := by
    intro f' r' h'
    simp only [step, output, bind_ok_iff, pure_ok_iff] at h'
    obtain ⟨s', h1, rfl⟩ := h'
    rw [hg] at h1
    simp only [bind_ok_iff, pure_ok_iff] at h1
    obtain ⟨old, h1, w1, h2, r1, h3, w2, h4, tk, h5, rfl⟩ := h1
    exact ⟨old, w1, r1, w2, tk, h1, h2, h3, h4, h5, by simp⟩
  obtain ⟨w, g1, -⟩ := step_written h
  obtain ⟨old, w1, r1, w2, tk, a1, a2, a3, a4, a5, a6⟩ := hs _ _ h
  obtain ⟨old', w1', r1', w2', tk', b1, b2, b3, b4, b5, b6⟩ := hs _ _ (g1 f)
  rw [a1] at b1; cases b1
  rw [a2] at b2; cases b2
  rw [a3] at b3; cases b3
  rw [a4] at b4; cases b4
  rw [a5] at b5; cases b5
  exact ⟨_, g1 f, by rw [b6]; simp, by rw [b6]; exact a6⟩

/-! ## Witnesses -/

/-- One object, alone, that writes one record. -/
theorem ex_alone (f : Files ℝ) : ∃ s0 s, constructF exEnv exArgs3 exJunk f = .ok s0 ∧
    run exEnv [.setStrain 7 (fun _ => 1), .writeInfo] s0 = .ok s ∧ s.files.convergence ≠ [] ∧
    s.files.epsSigCtan ≠ [] ∧ s.files.intVarsN ≠ [] := by
  obtain ⟨o, h0, ho⟩ := (construct_sane exEnv exArgs3_ok exJunk).returns exEnv_quick
  let s0 : ObjFiles ℝ := { obj := o, files := ctorFiles o.cfg f }
  have hc0 : constructF exEnv exArgs3 exJunk f = .ok s0 := by unfold constructF; rw [h0]; rfl
  obtain ⟨s, hs, -⟩ := (run_sane (env := exEnv) [.setStrain 7 (fun _ => 1), .writeInfo] (s := s0) ho).returns exEnv_quick
  refine ⟨s0, s, hc0, hs, ?_⟩
  simp only [run, bind_ok_iff, pure_ok_iff, step, writeInfoFiles] at hs
  obtain ⟨_, rfl, _, ⟨_, ⟨v, -, rfl⟩, rfl⟩, rfl⟩ := hs
  exact ⟨by simp, by simp, by simp⟩

/-- **C94** fails: object 0 has written a record; then object 1 is created, and the record is gone. -/
theorem C94_own_fails : ∃ q s : _, pRun (fun _ => exEnv) [.new exArgs3 exJunk, .call 0 (.setStrain 7 fun _ => 1),
      .call 0 .writeInfo, .new exArgs3 exJunk] { objs := [], files := ⟨[], [], [], [], fun _ _ => none⟩ } = .ok q ∧
    (constructF exEnv exArgs3 exJunk ⟨[], [], [], [], fun _ _ => none⟩ >>=
      run exEnv [.setStrain 7 (fun _ => 1), .writeInfo]) = .ok s ∧
    s.files.convergence ≠ [] ∧ s.files.epsSigCtan ≠ [] ∧ s.files.intVarsN ≠ [] ∧
    q.prog.files.convergence = [] ∧ q.prog.files.epsSigCtan = [] ∧ q.prog.files.intVarsN = [] := by
  obtain ⟨s0, s, h0, h1, n1, n2, n3⟩ := ex_alone ⟨[], [], [], [], fun _ _ => none⟩
  have h1' := h1
  simp only [run, bind_ok_iff, pure_ok_iff] at h1
  obtain ⟨r1, e1, r2, e2, rfl⟩ := h1
  obtain ⟨s3, -, h3, -⟩ := ex_alone r2.state.files
  have hq : pRun (fun _ => exEnv) [.new exArgs3 exJunk, .call 0 (.setStrain 7 fun _ => 1), .call 0 .writeInfo,
      .new exArgs3 exJunk] { objs := [], files := ⟨[], [], [], [], fun _ _ => none⟩ }
      = .ok { prog := { objs := [some r2.state.obj, some s3.obj], files := s3.files },
              answers := [(0, r1.ret), (0, r2.ret)] } := by
    have e1' : step exEnv { obj := s0.obj, files := s0.files } (.setStrain 7 fun _ => 1) = .ok r1 := e1
    have e2' : step exEnv { obj := r1.state.obj, files := r1.state.files } .writeInfo = .ok r2 := e2
    simp only [pRun, pStep, h0, h3, e1', e2', M_bind_ok', M_pure, List.nil_append, List.getElem?_cons_zero,
      List.set_cons_zero, List.cons_append, List.append_nil]
  have hl := C94_lost (fun _ => exEnv) { objs := [some r2.state.obj], files := r2.state.files } exArgs3 exJunk
    { prog := { objs := [some r2.state.obj, some s3.obj], files := s3.files }, answers := [] } (by
    simp only [pStep, h3, M_bind_ok', M_pure, List.cons_append, List.nil_append])
  exact ⟨_, r2.state, hq, by rw [h0]; exact h1', n1, n2, n3, hl.1, hl.2.1, hl.2.2⟩

/-- A program with two objects whose calls alternate: it runs, and each object is as if it were alone; the
second one, created last and the only one to write, has its files. -/
example : ∃ q s0 s1, pRun (fun _ => exEnv) [.new exArgs3 exJunk, .new exArgs3 exJunk,
      .call 1 (.setStrain 7 fun _ => 2), .call 0 (.setStrain 7 fun _ => 1), .call 0 .homogenize, .call 1 .writeInfo]
      { objs := [], files := ⟨[], [], [], [], fun _ _ => none⟩ } = .ok q ∧
    (constructF exEnv exArgs3 exJunk ⟨[], [], [], [], fun _ _ => none⟩ >>=
      run exEnv [.setStrain 7 (fun _ => 1), .homogenize]) = .ok s0 ∧ q.prog.objs[0]? = some (some s0.obj) ∧
    (constructF exEnv exArgs3 exJunk ⟨[], [], [], [], fun _ _ => none⟩ >>=
      run exEnv [.setStrain 7 (fun _ => 2), .writeInfo]) = .ok s1 ∧ q.prog.objs[1]? = some (some s1.obj) ∧
    q.prog.files.convergence = s1.files.convergence := by
  have hret : ∀ (o : Obj ℝ) (f : Files ℝ) (c : Call ℝ), o.Ok → ∃ r, step exEnv { obj := o, files := f } c = .ok r ∧
      r.state.obj.Ok := fun o f c ho =>
    (step_sane (env := exEnv) (s := { obj := o, files := f }) ho c).returns exEnv_quick
  have hnew : ∀ f : Files ℝ, ∃ s, constructF exEnv exArgs3 exJunk f = .ok s ∧ s.obj.Ok := by
    intro f
    obtain ⟨o, h0, ho⟩ := (construct_sane exEnv exArgs3_ok exJunk).returns exEnv_quick
    exact ⟨{ obj := o, files := ctorFiles o.cfg f }, by unfold constructF; rw [h0]; rfl, ho⟩
  obtain ⟨a0, h0, o0⟩ := hnew ⟨[], [], [], [], fun _ _ => none⟩
  obtain ⟨a1, h1, o1⟩ := hnew a0.files
  obtain ⟨b1, e1, p1⟩ := hret a1.obj a1.files (.setStrain 7 fun _ => 2) o1
  obtain ⟨b0, e0, p0⟩ := hret a0.obj b1.state.files (.setStrain 7 fun _ => 1) o0
  obtain ⟨c0, f0, -⟩ := hret b0.state.obj b0.state.files .homogenize p0
  obtain ⟨c1, f1, -⟩ := hret b1.state.obj c0.state.files .writeInfo p1
  have hq : pRun (fun _ => exEnv) [.new exArgs3 exJunk, .new exArgs3 exJunk,
      .call 1 (.setStrain 7 fun _ => 2), .call 0 (.setStrain 7 fun _ => 1), .call 0 .homogenize, .call 1 .writeInfo]
      { objs := [], files := ⟨[], [], [], [], fun _ _ => none⟩ }
      = .ok { prog := { objs := [some c0.state.obj, some c1.state.obj], files := c1.state.files },
              answers := [(1, b1.ret), (0, b0.ret), (0, c0.ret), (1, c1.ret)] } := by
    simp only [pRun, pStep, h0, h1, e1, e0, f0, f1, M_bind_ok', M_pure, List.nil_append, List.getElem?_cons_zero,
      List.getElem?_cons_succ, List.set_cons_zero, List.set_cons_succ, List.cons_append, List.append_nil]
  obtain ⟨x0, y0, g1, g2, -, g4⟩ := C93_independent _ _ _ _ hq (k := 0) rfl ⟨[], [], [], [], fun _ _ => none⟩
  obtain ⟨x1, y1, k1, k2, -, k4⟩ := C93_independent _ _ _ _ hq (k := 1) rfl ⟨[], [], [], [], fun _ _ => none⟩
  obtain ⟨z, m1, m2, -⟩ := C94_own_partial _ [.new exArgs3 exJunk] _ exArgs3 exJunk _ _ hq (by
    intro e he
    simp only [List.mem_cons, List.not_mem_nil, or_false] at he
    rcases he with rfl | rfl | rfl | rfl <;> simp [LeavesTo, created]) ⟨[], [], [], [], fun _ _ => none⟩
  refine ⟨_, y0, y1, hq, by rw [g1]; exact g2, g4 (by simp), by rw [k1]; exact k2, k4 (by simp), ?_⟩
  have m1 : (constructF exEnv exArgs3 exJunk ⟨[], [], [], [], fun _ _ => none⟩ >>=
      run exEnv [.setStrain 7 (fun _ => 2), .writeInfo]) = .ok z := m1
  have k2 : run exEnv [.setStrain 7 (fun _ => 2), .writeInfo] x1 = .ok y1 := k2
  rw [k1, M_bind_ok', k2] at m1
  cases m1
  exact m2

/-- Two objects write the fields of Gauss point 7 at step 0: the file is that of the second. -/
example : ∃ q s, pRun (fun _ => exEnv) [.new exArgs3 exJunk, .new exArgs3 exJunk,
      .call 0 (.setStrain 7 fun _ => 1), .call 1 (.setStrain 7 fun _ => 2), .call 0 (.output 0 7),
      .call 1 (.output 0 7)] { objs := [], files := ⟨[], [], [], [], fun _ _ => none⟩ } = .ok q ∧
    (constructF exEnv exArgs3 exJunk ⟨[], [], [], [], fun _ _ => none⟩ >>=
      run exEnv [.setStrain 7 (fun _ => 2), .output 0 7]) = .ok s ∧ s.files.vtu 7 0 ≠ none ∧
    q.prog.files.vtu 7 0 = s.files.vtu 7 0 := by
  have hret : ∀ (o : Obj ℝ) (f : Files ℝ) (c : Call ℝ), o.Ok → ∃ r, step exEnv { obj := o, files := f } c = .ok r ∧
      r.state.obj.Ok := fun o f c ho =>
    (step_sane (env := exEnv) (s := { obj := o, files := f }) ho c).returns exEnv_quick
  have hnew : ∀ f : Files ℝ, ∃ s, constructF exEnv exArgs3 exJunk f = .ok s ∧ s.obj.Ok := by
    intro f
    obtain ⟨o, h0, ho⟩ := (construct_sane exEnv exArgs3_ok exJunk).returns exEnv_quick
    exact ⟨{ obj := o, files := ctorFiles o.cfg f }, by unfold constructF; rw [h0]; rfl, ho⟩
  obtain ⟨a0, h0, o0⟩ := hnew ⟨[], [], [], [], fun _ _ => none⟩
  obtain ⟨a1, h1, o1⟩ := hnew a0.files
  obtain ⟨b0, e0, p0⟩ := hret a0.obj a1.files (.setStrain 7 fun _ => 1) o0
  obtain ⟨b1, e1, p1⟩ := hret a1.obj b0.state.files (.setStrain 7 fun _ => 2) o1
  obtain ⟨c0, f0, -⟩ := hret b0.state.obj b1.state.files (.output 0 7) p0
  obtain ⟨c1, f1, -⟩ := hret b1.state.obj c0.state.files (.output 0 7) p1
  have hq5 : pRun (fun _ => exEnv) [.new exArgs3 exJunk, .new exArgs3 exJunk,
      .call 0 (.setStrain 7 fun _ => 1), .call 1 (.setStrain 7 fun _ => 2), .call 0 (.output 0 7)]
      { objs := [], files := ⟨[], [], [], [], fun _ _ => none⟩ }
      = .ok { prog := { objs := [some c0.state.obj, some b1.state.obj], files := c0.state.files },
              answers := [(0, b0.ret), (1, b1.ret), (0, c0.ret)] } := by
    simp only [pRun, pStep, h0, h1, e1, e0, f0, M_bind_ok', M_pure, List.nil_append, List.getElem?_cons_zero,
      List.getElem?_cons_succ, List.set_cons_zero, List.set_cons_succ, List.cons_append, List.append_nil]
  have hq6 : pStep (fun _ => exEnv) { objs := [some c0.state.obj, some b1.state.obj], files := c0.state.files }
      (.call 1 (.output 0 7))
      = .ok { prog := { objs := [some c0.state.obj, some c1.state.obj], files := c1.state.files },
              answers := [(1, c1.ret)] } := by
    simp only [pStep, f1, M_bind_ok', M_pure, List.getElem?_cons_zero,
      List.getElem?_cons_succ, List.set_cons_zero, List.set_cons_succ]
  obtain ⟨x1, y1, k1, k2, -, k4⟩ := C93_independent _ _ _ _ hq5 (k := 1) rfl ⟨[], [], [], [], fun _ _ => none⟩
  have k4 : some (some b1.state.obj) = some (some y1.obj) := k4 (by simp)
  have k2 : run exEnv [.setStrain 7 (fun _ => 2)] x1 = .ok y1 := k2
  have k5 : b1.state.obj = y1.obj := by simpa using k4
  have hid : findGp 7 b1.state.obj.gauss ≠ none := by
    cases e1
    show findGp 7 (setStrainList _ _ _ _ a1.obj.gauss) ≠ none
    generalize a1.obj.gauss = l
    induction l with
    | nil => simp [setStrainList, findGp]
    | cons g l ih =>
      unfold setStrainList
      split
      · rename_i hg; unfold findGp; rw [if_pos hg]; simp
      · rename_i hg; unfold findGp; rw [if_neg hg]; exact ih
  obtain ⟨z, m1, m2, m3⟩ := C94_vtu _ _ (k := 1) (o := b1.state.obj) rfl hid hq6 y1.files
  refine ⟨_, z.state, pRun_snoc (l := [.new exArgs3 exJunk, .new exArgs3 exJunk,
      .call 0 (.setStrain 7 fun _ => 1), .call 1 (.setStrain 7 fun _ => 2), .call 0 (.output 0 7)]).mpr
      ⟨_, _, hq5, hq6, rfl⟩, ?_, m2, m3⟩
  rw [k1, M_bind_ok']
  refine run_snoc (l := [.setStrain 7 (fun _ => 2)]).mpr ⟨y1, z, k2, ?_, rfl⟩
  rw [k5] at m1
  exact m1

end Verif.Props
