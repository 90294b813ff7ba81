import Verif.Model.Wrapper
import Verif.Lemmas.Loop

/-! Lemmas about the Gauss-point list, for every scalar type.  No numerical fact is used. -/

namespace Verif

theorem bind_ok_iff {α β : Type} {x : M α} {f : α → M β} {b : β} :
    (x >>= f) = .ok b ↔ ∃ a, x = .ok a ∧ f a = .ok b := by
  cases x with
  | error e => constructor
               · intro h; cases h
               · rintro ⟨a, h, _⟩; cases h
  | ok a => constructor
            · intro h; exact ⟨a, rfl, h⟩
            · rintro ⟨a', h, h'⟩; cases h; exact h'

theorem bind_ok_iff' {α β : Type} {x : M α} {f : α → M β} {b : β} :
    x.bind f = .ok b ↔ ∃ a, x = .ok a ∧ f a = .ok b := bind_ok_iff

theorem pure_ok_iff {α : Type} {a b : α} : (pure a : M α) = .ok b ↔ a = b := by
  constructor
  · intro h; cases h; rfl
  · rintro rfl; rfl

/-- Invariant rule for loops known to return. -/
theorem loop_ok_inv {σ : Type} {f : Nat → σ → M σ} (P : Nat → σ → Prop) {n : Nat} {s s' : σ}
    (h : loop n f s = .ok s') (h0 : P 0 s)
    (hstep : ∀ i s s', i < n → P i s → f i s = .ok s' → P (i + 1) s') : P n s' := by
  induction n generalizing s' with
  | zero => cases h; exact h0
  | succ n ih =>
    rw [loop_succ, bind_ok_iff'] at h
    obtain ⟨s1, h1, h2⟩ := h
    exact hstep n s1 s' (by omega) (ih h1 fun i s s' hi => hstep i s s' (by omega)) h2

variable {α : Type} [Scalar α]

theorem copyInto_eq {n : Nat} {src dst : Buf α} (hs : n ≤ src.size) (hd : n ≤ dst.size) :
    copyInto n src dst = .ok ⟨dst.size, fun k => if k < n then src.val k else dst.val k⟩ := by
  have h : SetTo dst.size src.val (fun k => ∃ i, i < n ∧ k = i)
      (copyInto n src) := by
    unfold copyInto
    refine SetTo.loop fun i hi => ?_
    have e : (fun d : Buf α => do let v ← src.read i; d.write i v)
        = fun d => d.write i (src.val i) := by
      funext d; rw [Buf.read_ok (by omega)]; rfl
    rw [e]
    exact SetTo.write (by omega) rfl
  obtain ⟨v, h1, h2, h3, h4⟩ := h dst rfl
  rw [h1]
  congr 1
  refine Buf.ext' h2 fun k => ?_
  by_cases hk : k < n
  · rw [h3 k ⟨k, hk, rfl⟩]; simp [hk]
  · rw [h4 k (by rintro ⟨i, hi, rfl⟩; exact hk hi)]; simp [hk]

theorem zeroInto_eq {n : Nat} {dst : Buf α} (hd : n ≤ dst.size) :
    zeroInto n dst = .ok ⟨dst.size, fun k => if k < n then 0 else dst.val k⟩ := by
  have h : SetTo dst.size (fun _ => (0 : α)) (fun k => ∃ i, i < n ∧ k = i)
      (zeroInto n) := by
    unfold zeroInto
    exact SetTo.loop fun i hi => SetTo.write (by omega) rfl
  obtain ⟨v, h1, h2, h3, h4⟩ := h dst rfl
  rw [h1]
  congr 1
  refine Buf.ext' h2 fun k => ?_
  by_cases hk : k < n
  · rw [h3 k ⟨k, hk, rfl⟩]; simp [hk]
  · rw [h4 k (by rintro ⟨i, hi, rfl⟩; exact hk hi)]; simp [hk]

/-- What a successful write did. -/
theorem write_ok_inv {b b' : Buf α} {i : Nat} {v : α} (h : b.write i v = .ok b') :
    i < b.size ∧ b' = ⟨b.size, fun k => if k = i then v else b.val k⟩ := by
  unfold Buf.write at h
  split at h
  · cases h; exact ⟨by assumption, rfl⟩
  · cases h

theorem read_ok_inv {b : Buf α} {i : Nat} {v : α} (h : b.read i = .ok v) :
    i < b.size ∧ v = b.val i := by
  unfold Buf.read at h
  split at h
  · cases h; exact ⟨by assumption, rfl⟩
  · cases h

/-- A successful copy copied everything. -/
theorem copyInto_ok_inv {n : Nat} {src dst d' : Buf α} (h : copyInto n src dst = .ok d') :
    n ≤ src.size ∧ n ≤ dst.size ∧
      d' = ⟨dst.size, fun k => if k < n then src.val k else dst.val k⟩ := by
  have key : n ≤ src.size ∧ n ≤ dst.size ∧ d'.size = dst.size := by
    refine loop_ok_inv (fun k (d : Buf α) => k ≤ src.size ∧ k ≤ dst.size ∧ d.size = dst.size) h
      ⟨by omega, by omega, rfl⟩ ?_
    rintro i s s' hi ⟨h1, h2, h3⟩ hs
    rw [bind_ok_iff] at hs
    obtain ⟨v, hv, hw⟩ := hs
    have a := read_ok_inv hv
    obtain ⟨b, rfl⟩ := write_ok_inv hw
    exact ⟨by omega, by omega, h3⟩
  rw [copyInto_eq key.1 key.2.1] at h
  cases h
  exact ⟨key.1, key.2.1, rfl⟩

/-! ## Relations between a Gauss point before and after `homogenize` -/

/-- What `homogenize` leaves alone, and how the committed variables may appear. -/
structure GpStep (c : Cfg α) (g g' : Gp α) : Prop where
  id : g'.id = g.id
  strain : g'.macroStrain = g.macroStrain
  vars : ∀ n, g.intVarsN = some n → g'.intVarsN = some n
  fresh : g.intVarsN = none → g'.intVarsN = none ∨
    ∃ n : Buf α, g'.intVarsN = some n ∧ n.size = c.numIntVars ∧ ∀ k, n.val k = 0

theorem storeVars_inv {c : Cfg α} {nl : Bool} {v : Buf α} {g g' : Gp α}
    (h : storeVars c nl v g = .ok g') :
    GpStep c g g' ∧ g'.macroStress = g.macroStress ∧ g'.macroCtan = g.macroCtan ∧
      g'.nrIts = g.nrIts ∧ g'.nrErr = g.nrErr ∧ g'.invMax = g.invMax ∧
      (nl = false → g' = g) ∧
      (nl = true → ∃ n k, g'.intVarsN = some n ∧ g'.intVarsK = some k ∧
        ∀ i, i < c.numIntVars → k.val i = v.val i) := by
  unfold storeVars at h
  cases nl with
  | false =>
    simp only [Bool.false_eq_true, if_false, pure_ok_iff] at h
    subst h
    exact ⟨⟨rfl, rfl, fun n hn => hn, fun hn => Or.inl hn⟩, rfl, rfl, rfl, rfl, rfl, fun _ => rfl,
      by intro h; cases h⟩
  | true =>
    simp only [if_true] at h
    cases hn : g.intVarsN with
    | none =>
      rw [hn] at h
      simp only [bind_ok_iff, pure_ok_iff] at h
      obtain ⟨n, h1, k, h2, rfl⟩ := h
      rw [zeroInto_eq (dst := ⟨c.numIntVars, fun _ => 0⟩) (le_refl _)] at h1
      cases h1
      obtain ⟨_, _, rfl⟩ := copyInto_ok_inv h2
      refine ⟨⟨rfl, rfl, fun n h => (by rw [hn] at h; cases h), fun _ => Or.inr ⟨_, rfl, rfl, ?_⟩⟩,
        rfl, rfl, rfl, rfl, rfl, (by intro h; cases h), fun _ => ⟨_, _, rfl, rfl, ?_⟩⟩
      · intro k; simp
      · intro i hi; simp [hi]
    | some n =>
      rw [hn] at h
      cases hk : g.intVarsK with
      | none => rw [hk] at h; cases h
      | some k =>
        rw [hk] at h
        simp only [bind_ok_iff, pure_ok_iff] at h
        obtain ⟨k', h2, rfl⟩ := h
        obtain ⟨_, _, rfl⟩ := copyInto_ok_inv h2
        refine ⟨⟨rfl, rfl, fun n' h => (by rw [hn] at h; exact h),
          fun h => (by rw [hn] at h; cases h)⟩,
          rfl, rfl, rfl, rfl, rfl, (by intro h; cases h), fun _ => ⟨n, _, rfl, rfl, ?_⟩⟩
        intro i hi; simp [hi]

theorem GpStep.trans {c : Cfg α} {a b d : Gp α} (h1 : GpStep c a b) (h2 : GpStep c b d) :
    GpStep c a d where
  id := h2.id.trans h1.id
  strain := h2.strain.trans h1.strain
  vars n hn := h2.vars n (h1.vars n hn)
  fresh hn := by
    rcases h1.fresh hn with h | ⟨n, h, h', h''⟩
    · exact h2.fresh h
    · exact Or.inr ⟨n, h2.vars n h, h', h''⟩

theorem ctanGp_inv {env : Env α} {c : Cfg α} {sig0 : Nat → α} {i : Nat} {s s' : GpWork α}
    (h : ctanGp env c sig0 i s = .ok s') :
    s'.gp.id = s.gp.id ∧ s'.gp.macroStrain = s.gp.macroStrain ∧
      s'.gp.intVarsN = s.gp.intVarsN ∧ s'.gp.intVarsK = s.gp.intVarsK ∧
      s'.gp.macroStress = s.gp.macroStress := by
  unfold ctanGp at h
  simp only [bind_ok_iff, pure_ok_iff] at h
  obtain ⟨r, _, rfl⟩ := h
  exact ⟨rfl, rfl, rfl, rfl, rfl⟩

/-- The solving branch, opened. -/
theorem solveGp_inv {env : Env α} {c : Cfg α} {gp : Gp α} {w : Work α} {s : GpWork α}
    (h : solveGp env c gp w = .ok s) :
    ∃ (r : PertOut α) (g1 : Gp α), solveStrain env c w gp.macroStrain = .ok r ∧
      storeVars c r.nr.nl r.nr.work.varsNew
        { gp with macroStress := setFirst c.nvoi r.sig gp.macroStress } = .ok g1 ∧
      s.gp.id = gp.id ∧ s.gp.macroStrain = gp.macroStrain ∧ s.gp.intVarsN = g1.intVarsN ∧
      s.gp.intVarsK = g1.intVarsK ∧
      s.gp.macroStress = setFirst c.nvoi r.sig gp.macroStress := by
  unfold solveGp at h
  simp only [bind_ok_iff] at h
  obtain ⟨r, hr, g1, hg, hl⟩ := h
  have hs := storeVars_inv hg
  refine ⟨r, g1, hr, hg, ?_⟩
  have key := loop_ok_inv (fun _ (s : GpWork α) => s.gp.id = g1.id ∧
      s.gp.macroStrain = g1.macroStrain ∧ s.gp.intVarsN = g1.intVarsN ∧
      s.gp.intVarsK = g1.intVarsK ∧ s.gp.macroStress = g1.macroStress) hl
    ⟨rfl, rfl, rfl, rfl, rfl⟩ (by
      rintro i s s' _ ⟨a, b, d, e, f⟩ hs
      obtain ⟨a', b', d', e', f'⟩ := ctanGp_inv hs
      exact ⟨a'.trans a, b'.trans b, d'.trans d, e'.trans e, f'.trans f⟩)
  obtain ⟨a, b, d, e, f⟩ := key
  exact ⟨a.trans hs.1.id, b.trans hs.1.strain, d, e, f.trans hs.2.1⟩

theorem homogenizeGp_step {env : Env α} {c : Cfg α} {gp : Gp α} {w : Work α} {s : GpWork α}
    (h : homogenizeGp env c gp w = .ok s) : GpStep c gp s.gp := by
  unfold homogenizeGp at h
  simp only [bind_ok_iff] at h
  obtain ⟨old, hold, l, hl, h⟩ := h
  split at h
  · rw [pure_ok_iff] at h
    subst h
    exact ⟨rfl, rfl, fun n hn => hn, fun hn => Or.inl hn⟩
  · simp only [bind_ok_iff, pure_ok_iff] at h
    obtain ⟨s1, h1, rfl⟩ := h
    obtain ⟨r, g1, hr, hg, hid, hst, hn, hk, hsig⟩ := solveGp_inv h1
    have hs := (storeVars_inv hg).1
    exact ⟨hid, hst, fun n h => hn.trans (hs.vars n h), fun h => by
      simp only [hn]; exact hs.fresh h⟩

theorem homogenizeList_forall {env : Env α} {c : Cfg α} {l : List (Gp α)} {w : Work α}
    {r : ListWork α} (h : homogenizeList env c l w = .ok r) :
    List.Forall₂ (GpStep c) l r.gauss := by
  induction l generalizing w r with
  | nil =>
    simp only [homogenizeList, pure_ok_iff] at h
    subst h; exact List.Forall₂.nil
  | cons gp l ih =>
    simp only [homogenizeList, bind_ok_iff, pure_ok_iff] at h
    obtain ⟨s, hs, r1, hr, rfl⟩ := h
    exact List.Forall₂.cons (homogenizeGp_step hs) (ih hr)

/-- What `update_vars` does to one Gauss point. -/
structure GpUpdate (c : Cfg α) (g g' : Gp α) : Prop where
  id : g'.id = g.id
  strain : g'.macroStrain = g.macroStrain
  stress : g'.macroStress = g.macroStress
  ctan : g'.macroCtan = g.macroCtan
  its : g'.nrIts = g.nrIts
  err : g'.nrErr = g.nrErr
  invMax : g'.invMax = g.invMax
  trial : g'.intVarsK = g.intVarsK
  lin : g.intVarsN = none → g' = g
  vars : ∀ n, g.intVarsN = some n → ∃ n', g'.intVarsN = some n' ∧ n'.size = n.size ∧
    ∀ k, g.intVarsK = some k → ∀ i, i < c.numIntVars → n'.val i = k.val i

theorem updateGp_inv {c : Cfg α} {g g' : Gp α} (h : updateGp c g = .ok g') : GpUpdate c g g' := by
  unfold updateGp at h
  cases hn : g.intVarsN with
  | none =>
    rw [hn] at h
    simp only [pure_ok_iff] at h
    subst h
    exact ⟨rfl, rfl, rfl, rfl, rfl, rfl, rfl, rfl, fun _ => rfl, fun n h => by rw [hn] at h; cases h⟩
  | some n =>
    rw [hn] at h
    cases hk : g.intVarsK with
    | none =>
      rw [hk] at h
      simp only at h
      split at h
      · rw [pure_ok_iff] at h
        subst h
        exact ⟨rfl, rfl, rfl, rfl, rfl, rfl, rfl, rfl, fun _ => rfl, fun n' h => ⟨n', h, rfl,
          fun k h => by rw [hk] at h; cases h⟩⟩
      · cases h
    | some k =>
      rw [hk] at h
      simp only [bind_ok_iff, pure_ok_iff] at h
      obtain ⟨n1, h1, rfl⟩ := h
      obtain ⟨_, _, rfl⟩ := copyInto_ok_inv h1
      refine ⟨rfl, rfl, rfl, rfl, rfl, rfl, rfl, hk.symm, fun h => (by rw [hn] at h; cases h),
        fun n' h => ⟨_, rfl, ?_, ?_⟩⟩
      · rw [hn] at h; cases h; rfl
      · intro k' hk' i hi
        rw [hk] at hk'; cases hk'
        simp [hi]

theorem updateList_forall {c : Cfg α} {l l' : List (Gp α)} (h : updateList c l = .ok l') :
    List.Forall₂ (GpUpdate c) l l' := by
  induction l generalizing l' with
  | nil => simp only [updateList, pure_ok_iff] at h; subst h; exact List.Forall₂.nil
  | cons g l ih =>
    simp only [updateList, bind_ok_iff, pure_ok_iff] at h
    obtain ⟨g1, h1, r, h2, rfl⟩ := h
    exact List.Forall₂.cons (updateGp_inv h1) (ih h2)

/-! ## `cfg` is constant -/

theorem step_cfg {env : Env α} {s : ObjFiles α} {k : Call α} {r : Stepped α}
    (h : step env s k = .ok r) : r.state.obj.cfg = s.obj.cfg := by
  cases k with
  | setStrain id eps => simp only [step, pure_ok_iff] at h; subst h; rfl
  | homogenize =>
    simp only [step, homogenize, bind_ok_iff, pure_ok_iff] at h
    obtain ⟨o, ⟨r1, h1, rfl⟩, rfl⟩ := h; rfl
  | getStress id buf =>
    simp only [step, pure_ok_iff] at h; subst h
    unfold getMacroStress; split <;> rfl
  | getCtan id buf =>
    simp only [step, pure_ok_iff] at h; subst h
    unfold getMacroCtan; split <;> rfl
  | getNl id =>
    simp only [step, pure_ok_iff] at h; subst h
    unfold getNlFlag; split <;> rfl
  | updateVars =>
    simp only [step, updateVars, bind_ok_iff, pure_ok_iff] at h
    obtain ⟨o, ⟨r1, h1, rfl⟩, rfl⟩ := h; rfl
  | output t id =>
    simp only [step, bind_ok_iff, pure_ok_iff] at h
    obtain ⟨r1, h1, rfl⟩ := h
    unfold output at h1
    split at h1
    · rw [pure_ok_iff] at h1; subst h1; rfl
    · simp only [bind_ok_iff, pure_ok_iff] at h1
      obtain ⟨_, _, _, _, _, _, _, _, _, _, rfl⟩ := h1; rfl
  | writeInfo =>
    simp only [step, writeInfoFiles, bind_ok_iff, pure_ok_iff] at h
    obtain ⟨r1, ⟨v, h1, rfl⟩, rfl⟩ := h; rfl

theorem run_cfg {env : Env α} {calls : List (Call α)} {s s' : ObjFiles α}
    (h : run env calls s = .ok s') : s'.obj.cfg = s.obj.cfg := by
  induction calls generalizing s with
  | nil => simp only [run, pure_ok_iff] at h; subst h; rfl
  | cons k l ih =>
    simp only [run, bind_ok_iff] at h
    obtain ⟨r, h1, h2⟩ := h
    rw [ih h2, step_cfg h1]

/-- What a call does to the Gauss-point list. -/
theorem step_gauss {env : Env α} {s : ObjFiles α} {k : Call α} {r : Stepped α}
    (h : step env s k = .ok r) :
    match k with
    | .setStrain id eps => r.state.obj.gauss
        = setStrainList s.obj.cfg.nvoi id eps (env.gpJunk s.obj.work.tick) s.obj.gauss
    | .homogenize => ∃ w, homogenizeList env s.obj.cfg s.obj.gauss s.obj.work = .ok w ∧
        r.state.obj.gauss = w.gauss ∧ r.state.obj.work = w.work
    | .updateVars => updateList s.obj.cfg s.obj.gauss = .ok r.state.obj.gauss
    | _ => r.state.obj.gauss = s.obj.gauss := by
  cases k with
  | setStrain id eps => simp only [step, pure_ok_iff] at h; subst h; rfl
  | homogenize =>
    simp only [step, homogenize, bind_ok_iff, pure_ok_iff] at h
    obtain ⟨o, ⟨r1, h1, rfl⟩, rfl⟩ := h; exact ⟨r1, h1, rfl, rfl⟩
  | getStress id buf =>
    simp only [step, pure_ok_iff] at h; subst h
    simp only; unfold getMacroStress; split <;> rfl
  | getCtan id buf =>
    simp only [step, pure_ok_iff] at h; subst h
    simp only; unfold getMacroCtan; split <;> rfl
  | getNl id =>
    simp only [step, pure_ok_iff] at h; subst h
    simp only; unfold getNlFlag; split <;> rfl
  | updateVars =>
    simp only [step, updateVars, bind_ok_iff, pure_ok_iff] at h
    obtain ⟨o, ⟨r1, h1, rfl⟩, rfl⟩ := h; exact h1
  | output t id =>
    simp only [step, bind_ok_iff, pure_ok_iff] at h
    obtain ⟨r1, h1, rfl⟩ := h
    unfold output at h1
    split at h1
    · rw [pure_ok_iff] at h1; subst h1; rfl
    · simp only [bind_ok_iff, pure_ok_iff] at h1
      obtain ⟨_, _, _, _, _, _, _, _, _, _, rfl⟩ := h1; rfl
  | writeInfo =>
    simp only [step, writeInfoFiles, bind_ok_iff, pure_ok_iff] at h
    obtain ⟨r1, ⟨v, h1, rfl⟩, rfl⟩ := h; rfl

/-- Induction over successful runs, last call first. -/
theorem run_append {env : Env α} {l1 l2 : List (Call α)} {s s' : ObjFiles α} :
    run env (l1 ++ l2) s = .ok s' ↔ ∃ s1, run env l1 s = .ok s1 ∧ run env l2 s1 = .ok s' := by
  induction l1 generalizing s with
  | nil => simp [run, pure_ok_iff]
  | cons k l ih =>
    simp only [List.cons_append, run, bind_ok_iff]
    constructor
    · rintro ⟨r, h1, h2⟩
      obtain ⟨s1, h3, h4⟩ := ih.mp h2
      exact ⟨s1, ⟨r, h1, h3⟩, h4⟩
    · rintro ⟨s1, ⟨r, h1, h3⟩, h4⟩
      exact ⟨r, h1, ih.mpr ⟨s1, h3, h4⟩⟩

theorem run_snoc {env : Env α} {l : List (Call α)} {k : Call α} {s s' : ObjFiles α} :
    run env (l ++ [k]) s = .ok s' ↔
      ∃ s1 r, run env l s = .ok s1 ∧ step env s1 k = .ok r ∧ r.state = s' := by
  rw [run_append]
  constructor
  · rintro ⟨s1, h1, h2⟩
    simp only [run, bind_ok_iff, pure_ok_iff] at h2
    obtain ⟨r, h3, h4⟩ := h2
    exact ⟨s1, r, h1, h3, h4⟩
  · rintro ⟨s1, r, h1, h2, rfl⟩
    exact ⟨s1, h1, by simp only [run, bind_ok_iff, pure_ok_iff]; exact ⟨r, h2, rfl⟩⟩

end Verif
