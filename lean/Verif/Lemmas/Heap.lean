import Verif.Model.Heap
import Verif.Lemmas.State
import Mathlib.Data.List.Perm.Basic
import Mathlib.Data.List.Nodup

/-!
# Lemmas on the instrumented functions of `Verif.Model.Heap`
-/

namespace Verif

/-- No block is listed twice and every block was returned by `malloc`. -/
def Heap.Ok (h : Heap) : Prop := h.live.Nodup ∧ ∀ p ∈ h.live, p < h.next

/-- The blocks in use are exactly those of `L`. -/
def Heap.Has (h : Heap) (L : List Nat) : Prop := h.live.Perm L ∧ h.Ok

/-- `x`, started in `h`, behaves like `y`; `Q` relates the results. -/
def Does {β γ : Type} (h : Heap) (x : H β) (y : M γ) (Q : β → γ → Heap → Prop) : Prop :=
  match y with
  | .ok c => ∃ b h', x h = .ok (b, h') ∧ Q b c h'
  | .error f => x h = .error (.num f)

section basic
variable {β γ β' γ' : Type} {h : Heap}

theorem H_pure (b : β) (h : Heap) : (pure b : H β) h = .ok (b, h) := rfl

theorem H_bind_ok {x : H β} {f : β → H γ} {b : β} {h' : Heap} (e : x h = .ok (b, h')) :
    (x >>= f) h = f b h' := by
  show H.seq x f h = _
  unfold H.seq
  rw [e]

theorem H_bind_err {x : H β} {f : β → H γ} {e : HFault} (he : x h = .error e) :
    (x >>= f) h = .error e := by
  show H.seq x f h = _
  unfold H.seq
  rw [he]

theorem Does.bind {x : H β} {y : M γ} {Q : β → γ → Heap → Prop} {f : β → H β'} {g : γ → M γ'}
    {Q' : β' → γ' → Heap → Prop} (hx : Does h x y Q)
    (hf : ∀ b c h', Q b c h' → Does h' (f b) (g c) Q') : Does h (x >>= f) (y >>= g) Q' := by
  cases y with
  | error e =>
    have hx : x h = .error (.num e) := hx
    show (x >>= f) h = _
    exact H_bind_err hx
  | ok c =>
    obtain ⟨b, h', e, q⟩ := hx
    have := hf b c h' q
    show Does h (x >>= f) (g c) Q'
    unfold Does at this ⊢
    rw [H_bind_ok e]
    exact this

/-- `Does.bind` that keeps what `y` returned. -/
theorem Does.bind' {x : H β} {y : M γ} {Q : β → γ → Heap → Prop} {f : β → H β'} {g : γ → M γ'}
    {Q' : β' → γ' → Heap → Prop} (hx : Does h x y Q)
    (hf : ∀ b c h', y = .ok c → Q b c h' → Does h' (f b) (g c) Q') :
    Does h (x >>= f) (y >>= g) Q' := by
  have : Does h x y (fun b c h' => y = .ok c ∧ Q b c h') := by
    cases y with
    | error e => exact hx
    | ok c =>
      obtain ⟨b, h', e, q⟩ := hx
      exact ⟨b, h', e, rfl, q⟩
  exact this.bind fun b c h' q => hf b c h' q.1 q.2

theorem Does.pure' {b : β} {c : γ} {Q : β → γ → Heap → Prop} (hq : Q b c h) :
    Does h (pure b) (pure c) Q := ⟨b, h, rfl, hq⟩

theorem Does.lift' (y : M β) : Does h (lift y) y (fun b c h' => b = c ∧ h' = h) := by
  cases y with
  | error e => rfl
  | ok c => exact ⟨c, h, rfl, rfl, rfl⟩

theorem Does.liftBind (y : M β) {f : β → H β'} {g : β → M γ'} {Q : β' → γ' → Heap → Prop}
    (hf : ∀ b, Does h (f b) (g b) Q) : Does h (lift y >>= f) (y >>= g) Q :=
  (Does.lift' y).bind (by rintro b c h' ⟨rfl, rfl⟩; exact hf b)

theorem Does.liftBind' (y : M β) {f : β → H β'} {g : β → M γ'} {Q : β' → γ' → Heap → Prop}
    (hf : ∀ b, y = .ok b → Does h (f b) (g b) Q) : Does h (lift y >>= f) (y >>= g) Q :=
  (Does.lift' y).bind' (by rintro b c h' hy ⟨rfl, rfl⟩; exact hf b hy)

theorem Does.mono {x : H β} {y : M γ} {Q Q' : β → γ → Heap → Prop} (hx : Does h x y Q)
    (hq : ∀ b c h', Q b c h' → Q' b c h') : Does h x y Q' := by
  cases y with
  | error e => exact hx
  | ok c =>
    obtain ⟨b, h', e, q⟩ := hx
    exact ⟨b, h', e, hq _ _ _ q⟩

theorem Does.err (f : Fault) {Q : β → γ → Heap → Prop} : Does h (lift (.error f)) (.error f) Q := rfl

theorem Does.ok {x : H β} {y : M γ} {Q : β → γ → Heap → Prop} (hx : Does h x y Q) {c : γ}
    (hy : y = .ok c) : ∃ b h', x h = .ok (b, h') ∧ Q b c h' := by
  subst hy
  exact hx

/-- `malloc` adds a block. -/
theorem Does.malloc {f : Nat → H β} {y : M γ} {Q : β → γ → Heap → Prop} {L : List Nat}
    (hh : h.Has L) (hf : ∀ p h', p ∉ L → h'.Has (p :: L) → Does h' (f p) y Q) :
    Does h (Verif.malloc >>= f) y Q := by
  have hn : h.next ∉ h.live := fun hm => absurd (hh.2.2 _ hm) (lt_irrefl _)
  have := hf h.next ⟨h.next + 1, h.next :: h.live⟩ (fun hm => hn (hh.1.symm.subset hm))
    ⟨hh.1.cons _, List.nodup_cons.2 ⟨hn, hh.2.1⟩, by
      intro p hp
      rcases List.mem_cons.1 hp with rfl | hp
      · exact Nat.lt_succ_self _
      · exact Nat.lt_succ_of_lt (hh.2.2 _ hp)⟩
  unfold Does at this ⊢
  rw [H_bind_ok (x := Verif.malloc) (b := h.next) (h' := ⟨h.next + 1, h.next :: h.live⟩) rfl]
  exact this

theorem free_some {p : Nat} {L : List Nat} (hh : h.Has (p :: L)) :
    ∃ h', free (some p) h = .ok ((), h') ∧ h'.Has L := by
  have hm : p ∈ h.live := hh.1.symm.subset (List.mem_cons_self ..)
  refine ⟨{ h with live := h.live.erase p }, ?_, ?_, hh.2.1.erase _, ?_⟩
  · show (if p ∈ h.live then _ else _) = _
    rw [if_pos hm]
  · have := hh.1.erase p
    rwa [List.erase_cons_head] at this
  · intro q hq
    exact hh.2.2 q (List.mem_of_mem_erase hq)

/-- `free` removes a block. -/
theorem Does.free {p : Nat} {f : Unit → H β} {y : M γ} {Q : β → γ → Heap → Prop} {L L' : List Nat}
    (hh : h.Has L) (hp : L.Perm (p :: L')) (hf : ∀ h', h'.Has L' → Does h' (f ()) y Q) :
    Does h (Verif.free (some p) >>= f) y Q := by
  obtain ⟨h', e, hh'⟩ := free_some (h := h) (p := p) (L := L') ⟨hh.1.trans hp, hh.2⟩
  have := hf h' hh'
  unfold Does at this ⊢
  rw [H_bind_ok e]
  exact this

theorem Heap.Has.perm {L L' : List Nat} (hh : h.Has L) (hp : L.Perm L') : h.Has L' :=
  ⟨hh.1.trans hp, hh.2⟩

theorem hLoop_does {σ : Type} {n : Nat} {f : Nat → σ → H σ} {g : Nat → σ → M σ} {L : List Nat}
    (hf : ∀ i s h, h.Has L → Does h (f i s) (g i s) (fun b c h' => b = c ∧ h'.Has L))
    (s : σ) {h : Heap} (hh : h.Has L) :
    Does h (hLoop n f s) (loop n g s) (fun b c h' => b = c ∧ h'.Has L) := by
  induction n with
  | zero => exact ⟨s, h, rfl, rfl, hh⟩
  | succ n ih =>
    show Does h (hLoop n f s >>= f n) (loop n g s >>= g n) _
    refine ih.bind ?_
    rintro b c h' ⟨rfl, hh'⟩
    exact hf n b h' hh'

end basic

section
variable {α : Type} [Scalar α]

/-- Same value, same blocks. -/
def Bal {β : Type} (L : List Nat) : β → β → Heap → Prop := fun b c h' => b = c ∧ h'.Has L

theorem cg_frame {β : Type} (y : M β) {h : Heap} {L : List Nat} (hh : h.Has L) :
    Does h (do
      let k ← malloc
      let r ← malloc
      let z ← malloc
      let p ← malloc
      let q ← malloc
      let v ← lift y
      free (some k)
      free (some r)
      free (some z)
      free (some p)
      free (some q)
      pure v) y (Bal L) := by
  refine Does.malloc hh fun k h1 _ hh1 => ?_
  refine Does.malloc hh1 fun r h2 _ hh2 => ?_
  refine Does.malloc hh2 fun z h3 _ hh3 => ?_
  refine Does.malloc hh3 fun p h4 _ hh4 => ?_
  refine Does.malloc hh4 fun q h5 _ hh5 => ?_
  have hy : y = (y >>= fun v => pure v) := by cases y <;> rfl
  rw [hy]
  have hy' : lift (y >>= fun v => pure v) = lift y := by rw [← hy]
  rw [hy']
  refine Does.liftBind y fun v => ?_
  have e1 : (q :: p :: z :: r :: k :: L).Perm (k :: q :: p :: z :: r :: L) :=
    List.perm_middle (l₁ := [q, p, z, r])
  have e2 : (q :: p :: z :: r :: L).Perm (r :: q :: p :: z :: L) :=
    List.perm_middle (l₁ := [q, p, z])
  have e3 : (q :: p :: z :: L).Perm (z :: q :: p :: L) := List.perm_middle (l₁ := [q, p])
  have e4 : (q :: p :: L).Perm (p :: q :: L) := List.perm_middle (l₁ := [q])
  refine Does.free hh5 e1 fun h6 hh6 => ?_
  refine Does.free hh6 e2 fun h7 hh7 => ?_
  refine Does.free hh7 e3 fun h8 hh8 => ?_
  refine Does.free hh8 e4 fun h9 hh9 => ?_
  refine Does.free hh9 (List.Perm.refl _) fun h10 hh10 => ?_
  exact Does.pure' ⟨rfl, hh10⟩

theorem hCgpd2D_does (junk : Nat → Nat → α) (s : EllSolver α) (m : Option (Ell α)) (nF nx ny : Nat)
    (b x : Option (Buf α)) {h : Heap} {L : List Nat} (hh : h.Has L) :
    Does h (hCgpd2D junk s m nF nx ny b x) (ellSolveCgpd2D junk s m nF nx ny b x) (Bal L) := by
  unfold hCgpd2D
  split
  · rename_i hn
    have : ellSolveCgpd2D junk s m nF nx ny b x = pure (1, s, x) := by
      cases m <;> cases b <;> cases x <;> first | rfl | (exfalso; simp at hn)
    rw [this]
    exact Does.pure' ⟨rfl, hh⟩
  · exact cg_frame _ hh

theorem hCgpdStruct_does (junk : Nat → Nat → α) (s : EllSolver α) (m : Option (Ell α))
    (nF dim nn : Nat) (b x : Option (Buf α)) {h : Heap} {L : List Nat} (hh : h.Has L) :
    Does h (hCgpdStruct junk s m nF dim nn b x) (ellSolveCgpdStruct junk s m nF dim nn b x)
      (Bal L) := by
  unfold hCgpdStruct
  split
  · rename_i hn
    have : ellSolveCgpdStruct junk s m nF dim nn b x = pure (1, s, x) := by
      cases m <;> cases b <;> cases x <;> first | rfl | (exfalso; simp at hn)
    rw [this]
    exact Does.pure' ⟨rfl, hh⟩
  · exact cg_frame _ hh

variable (env : Env α) (c : Cfg α)

theorem hSolve_does (w : Work α) {h : Heap} {L : List Nat} (hh : h.Has L) :
    Does h (hSolve env c w) (solve env c w) (Bal L) := by
  unfold hSolve solve
  dsimp only
  split
  · refine (hCgpd2D_does _ _ _ _ _ _ _ _ hh).bind ?_
    rintro b _ h' ⟨rfl, hh'⟩
    exact Does.pure' ⟨rfl, hh'⟩
  · split
    · refine (hCgpdStruct_does _ _ _ _ _ _ _ _ hh).bind ?_
      rintro b _ h' ⟨rfl, hh'⟩
      exact Does.pure' ⟨rfl, hh'⟩
    · exact Does.pure' ⟨rfl, hh⟩

theorem hNrCorrect_does (w : Work α) {h : Heap} {L : List Nat} (hh : h.Has L) :
    Does h (hNrCorrect env c w) (nrCorrect env c w) (Bal L) := by
  unfold hNrCorrect nrCorrect
  refine Does.liftBind _ fun w => ?_
  refine Does.liftBind _ fun du => ?_
  refine (hSolve_does env c _ hh).bind ?_
  rintro w _ h' ⟨rfl, hh'⟩
  refine Does.liftBind _ fun u => ?_
  exact Does.pure' ⟨rfl, hh'⟩

theorem hNrLoop_does (n : Nat) : ∀ (w : Work α) {h : Heap} {L : List Nat}, h.Has L →
    Does h (hNrLoop env c n w) (nrLoop env c n w) (Bal L) := by
  induction n with
  | zero => intro w h L _; exact Does.err .fuel
  | succ n ih =>
    intro w h L hh
    rw [hNrLoop, nrLoop]
    refine Does.liftBind _ fun r => ?_
    split
    · exact Does.pure' ⟨rfl, hh⟩
    · refine (hNrCorrect_does env c _ hh).bind ?_
      rintro w _ h' ⟨rfl, hh'⟩
      cases env.peek w.tick with
      | none => exact Does.err .oob
      | some v =>
        dsimp only
        split
        · exact ih _ hh'
        · exact Does.pure' ⟨rfl, hh'⟩

theorem hSolveStrain_does (w : Work α) (eps : Nat → α) {h : Heap} {L : List Nat} (hh : h.Has L) :
    Does h (hSolveStrain env c w eps) (solveStrain env c w eps) (Bal L) := by
  unfold hSolveStrain solveStrain newtonRaphson
  refine Does.liftBind _ fun w => ?_
  refine (hNrLoop_does env c _ _ hh).bind ?_
  rintro r _ h' ⟨rfl, hh'⟩
  refine Does.liftBind _ fun a => ?_
  exact Does.pure' ⟨rfl, hh'⟩

theorem hCalcCtanLin_does (ctan : Nat → α) (w : Work α) {h : Heap} {L : List Nat} (hh : h.Has L) :
    Does h (hCalcCtanLin env c ctan w) (calcCtanLin env c ctan w) (Bal L) := by
  unfold hCalcCtanLin calcCtanLin
  dsimp only
  refine hLoop_does ?_ _ hh
  intro i s h hh
  refine (hSolveStrain_does env c _ _ hh).bind ?_
  rintro r _ h' ⟨rfl, hh'⟩
  exact Does.pure' ⟨rfl, hh'⟩

/-! ## Gauss points -/

/-- The blocks of a Gauss point. -/
def HGp.blocks (g : HGp α) : List Nat := g.n.toList ++ g.k.toList

/-- The pointers are NULL exactly when the model has no block; they are NULL together. -/
def HGp.Tied (g : HGp α) : Prop :=
  g.n.isSome = g.gp.intVarsN.isSome ∧ g.k.isSome = g.n.isSome

/-- The blocks of a list of Gauss points. -/
def gaussBlocks (l : List (HGp α)) : List Nat := l.flatMap HGp.blocks

theorem HGp.Tied.none_iff {g : HGp α} (t : g.Tied) : g.n = none ↔ g.gp.intVarsN = none := by
  have := t.1
  cases hn : g.n <;> cases hg : g.gp.intVarsN <;> simp_all

theorem HGp.Tied.isNone {g : HGp α} (t : g.Tied) : g.n.isNone = g.gp.intVarsN.isNone := by
  have := t.1
  cases hn : g.n <;> cases hg : g.gp.intVarsN <;> simp_all

theorem storeVars_kept {c : Cfg α} {nl : Bool} {v : Buf α} {g gp' : Gp α}
    (e : storeVars c nl v g = .ok gp') (hk : ¬ (nl = true ∧ g.intVarsN = none)) :
    gp'.intVarsN.isSome = g.intVarsN.isSome := by
  unfold storeVars at e
  split at e
  · rename_i hnl
    cases hn : g.intVarsN with
    | none => exact absurd ⟨hnl, hn⟩ hk
    | some n =>
      cases hkk : g.intVarsK with
      | none => rw [hn, hkk] at e; exact absurd e (by simp)
      | some k =>
        rw [hn, hkk] at e
        obtain ⟨k', _, e⟩ := bind_ok_iff.1 e
        have := pure_ok_iff.1 e
        subst this
        rfl
  · have := pure_ok_iff.1 e
    subst this
    rfl

theorem storeVars_new {c : Cfg α} {nl : Bool} {v : Buf α} {g gp' : Gp α}
    (e : storeVars c nl v g = .ok gp') (hnl : nl = true) (hn : g.intVarsN = none) :
    gp'.intVarsN.isSome = true := by
  unfold storeVars at e
  rw [if_pos hnl, hn] at e
  obtain ⟨n, _, e⟩ := bind_ok_iff.1 e
  obtain ⟨k, _, e⟩ := bind_ok_iff.1 e
  have := pure_ok_iff.1 e
  subst this
  rfl

theorem hStoreVars_does (nl : Bool) (v : Buf α) (g : HGp α) (t : g.Tied) {h : Heap} {L : List Nat}
    (hh : h.Has (g.blocks ++ L)) :
    Does h (hStoreVars c nl v g) (storeVars c nl v g.gp)
      (fun g' gp h' => g'.gp = gp ∧ g'.Tied ∧ h'.Has (g'.blocks ++ L)) := by
  unfold hStoreVars
  have hy : storeVars c nl v g.gp = (storeVars c nl v g.gp >>= fun x => pure x) := by
    cases storeVars c nl v g.gp <;> rfl
  split
  · rename_i hn
    have hk : g.k = none := by
      have := t.2
      rw [hn.2] at this
      cases hk : g.k with
      | none => rfl
      | some k => rw [hk] at this; simp at this
    have hb : g.blocks = [] := by unfold HGp.blocks; rw [hn.2, hk]; rfl
    rw [hb] at hh
    refine Does.malloc hh fun pk h1 _ hh1 => ?_
    refine Does.malloc hh1 fun pn h2 _ hh2 => ?_
    rw [hy]
    have : lift (storeVars c nl v g.gp >>= fun x => pure x) = lift (storeVars c nl v g.gp) := by
      rw [← hy]
    rw [this]
    refine Does.liftBind' _ fun gp e => ?_
    refine Does.pure' ⟨rfl, ⟨?_, rfl⟩, hh2⟩
    show true = gp.intVarsN.isSome
    rw [storeVars_new e hn.1 (t.none_iff.1 hn.2)]
  · rename_i hn
    rw [hy]
    have : lift (storeVars c nl v g.gp >>= fun x => pure x) = lift (storeVars c nl v g.gp) := by
      rw [← hy]
    rw [this]
    refine Does.liftBind' _ fun gp e => ?_
    refine Does.pure' ⟨rfl, ⟨?_, t.2⟩, hh⟩
    show g.n.isSome = gp.intVarsN.isSome
    rw [storeVars_kept e (fun h => hn ⟨h.1, t.none_iff.2 h.2⟩)]
    exact t.1

theorem hCtanGp_does (sig0 : Nat → α) (i : Nat) (s : GpWork α) {h : Heap} {L : List Nat}
    (hh : h.Has L) : Does h (hCtanGp env c sig0 i s) (ctanGp env c sig0 i s) (Bal L) := by
  unfold hCtanGp ctanGp
  refine (hSolveStrain_does env c _ _ hh).bind ?_
  rintro r _ h' ⟨rfl, hh'⟩
  exact Does.pure' ⟨rfl, hh'⟩

/-- Relation between the results for one Gauss point. -/
def GpRel (L : List Nat) (s : HGpWork α) (r : GpWork α) (h : Heap) : Prop :=
  s.g.gp = r.gp ∧ s.work = r.work ∧ s.g.Tied ∧ h.Has (s.g.blocks ++ L)

theorem hSolveGp_does (g : HGp α) (t : g.Tied) (w : Work α) {h : Heap} {L : List Nat}
    (hh : h.Has (g.blocks ++ L)) :
    Does h (hSolveGp env c g w) (solveGp env c g.gp w) (GpRel L) := by
  unfold hSolveGp solveGp
  refine (hSolveStrain_does env c _ _ hh).bind ?_
  rintro r _ h1 ⟨rfl, hh1⟩
  refine (hStoreVars_does c _ _
    { g with gp := { g.gp with macroStress := setFirst c.nvoi r.sig g.gp.macroStress } }
    ⟨t.1, t.2⟩ hh1).bind ?_
  rintro g1 gp1 h2 ⟨rfl, t1, hh2⟩
  have hl := hLoop_does (n := c.nvoi) (L := g1.blocks ++ L)
    (f := fun i s => hCtanGp env c g1.gp.macroStress i s)
    (g := fun i s => ctanGp env c g1.gp.macroStress i s)
    (fun i s h hh => hCtanGp_does env c _ i s hh)
    { gp := { g1.gp with
        nrIts := fun q => if q = 0 then r.nr.its else g1.gp.nrIts q
        nrErr := fun q => if q = 0 then r.nr.err else g1.gp.nrErr q }, work := r.nr.work } hh2
  have hy : ∀ y : M (GpWork α), y = (y >>= fun x => pure x) := fun y => by cases y <;> rfl
  dsimp only
  rw [hy (loop _ _ _)]
  refine hl.bind' ?_
  rintro s _ h3 e ⟨rfl, hh3⟩
  have key := loop_ok_inv (fun _ (s : GpWork α) => s.gp.intVarsN = g1.gp.intVarsN) e rfl
    (fun i s s' _ hs e => (ctanGp_inv e).2.2.1.trans hs)
  exact Does.pure' ⟨rfl, rfl, ⟨t1.1.trans (by rw [key]), t1.2⟩, hh3⟩

theorem hHomogenizeGp_does (g : HGp α) (t : g.Tied) (w : Work α) {h : Heap} {L : List Nat}
    (hh : h.Has (g.blocks ++ L)) :
    Does h (hHomogenizeGp env c g w) (homogenizeGp env c g.gp w) (GpRel L) := by
  unfold hHomogenizeGp homogenizeGp
  refine Does.liftBind _ fun old => ?_
  refine Does.liftBind _ fun l => ?_
  dsimp only
  rw [t.isNone]
  split
  · exact Does.pure' ⟨rfl, rfl, ⟨t.1, t.2⟩, hh⟩
  · refine (hSolveGp_does env c g t _ hh).bind ?_
    rintro s r h1 ⟨e1, e2, t1, hh1⟩
    refine Does.pure' ⟨?_, e2, ⟨t1.1, t1.2⟩, hh1⟩
    show ({ s.g.gp with invMax := s.work.invMax } : Gp α) = _
    rw [e1, e2]

/-- Relation between lists of Gauss points. -/
def ListRel (L : List Nat) (l : List (HGp α)) (r : List (Gp α)) (h : Heap) : Prop :=
  l.map HGp.gp = r ∧ (∀ g ∈ l, g.Tied) ∧ h.Has (gaussBlocks l ++ L)

theorem gaussBlocks_cons (g : HGp α) (l : List (HGp α)) (L : List Nat) :
    gaussBlocks (g :: l) ++ L = g.blocks ++ (gaussBlocks l ++ L) := by
  show g.blocks ++ gaussBlocks l ++ L = _
  rw [List.append_assoc]

theorem gaussBlocks_swap (g : HGp α) (l : List (HGp α)) (L : List Nat) :
    (g.blocks ++ (gaussBlocks l ++ L)).Perm (gaussBlocks l ++ (g.blocks ++ L)) := by
  rw [← List.append_assoc, ← List.append_assoc]
  exact List.perm_append_comm.append_right L

theorem hHomogenizeList_does (l : List (HGp α)) : ∀ (w : Work α) {h : Heap} {L : List Nat},
    (∀ g ∈ l, g.Tied) → h.Has (gaussBlocks l ++ L) →
    Does h (hHomogenizeList env c l w) (homogenizeList env c (l.map HGp.gp) w)
      (fun s r h' => ListRel L s.gauss r.gauss h' ∧ s.work = r.work) := by
  induction l with
  | nil => intro w h L t hh; exact Does.pure' ⟨⟨rfl, by simp, hh⟩, rfl⟩
  | cons g l ih =>
    intro w h L t hh
    rw [List.map_cons, hHomogenizeList, homogenizeList]
    rw [gaussBlocks_cons] at hh
    refine (hHomogenizeGp_does env c g (t g (by simp)) w hh).bind ?_
    rintro s r h1 ⟨e1, e2, t1, hh1⟩
    rw [← e2]
    refine (ih s.work (L := s.g.blocks ++ L) (fun g hg => t g (by simp [hg]))
      (hh1.perm (gaussBlocks_swap _ _ _))).bind ?_
    rintro s2 r2 h2 ⟨⟨f1, f2, f3⟩, f4⟩
    refine Does.pure' ⟨⟨?_, ?_, ?_⟩, f4⟩
    · rw [List.map_cons, e1, f1]
    · intro g' hg'
      rcases List.mem_cons.1 hg' with rfl | hg'
      · exact t1
      · exact f2 g' hg'
    · rw [gaussBlocks_cons]
      exact f3.perm (gaussBlocks_swap _ _ _).symm

theorem hUpdateList_does (l : List (HGp α)) : ∀ {h : Heap} {L : List Nat},
    (∀ g ∈ l, g.Tied) → h.Has (gaussBlocks l ++ L) →
    Does h (hUpdateList c l) (updateList c (l.map HGp.gp)) (ListRel L) := by
  induction l with
  | nil => intro h L t hh; exact Does.pure' ⟨rfl, by simp, hh⟩
  | cons g l ih =>
    intro h L t hh
    rw [List.map_cons, hUpdateList, updateList]
    rw [gaussBlocks_cons] at hh
    refine Does.liftBind' _ fun gp e => ?_
    have hu := updateGp_inv e
    have tg := t g (by simp)
    have ht : ({ g with gp := gp } : HGp α).Tied := by
      refine ⟨?_, tg.2⟩
      show g.n.isSome = gp.intVarsN.isSome
      rw [tg.1]
      cases hn : g.gp.intVarsN with
      | none => rw [hu.lin hn, hn]
      | some n =>
        obtain ⟨n', h', _⟩ := hu.vars n hn
        rw [h']; rfl
    refine (ih (L := g.blocks ++ L) (fun g hg => t g (by simp [hg]))
      (hh.perm (gaussBlocks_swap _ _ _))).bind ?_
    rintro s2 r2 h2 ⟨f1, f2, f3⟩
    refine Does.pure' ⟨?_, ?_, ?_⟩
    · rw [List.map_cons, f1]
    · intro g' hg'
      rcases List.mem_cons.1 hg' with rfl | hg'
      · exact ht
      · exact f2 g' hg'
    · rw [gaussBlocks_cons]
      exact f3.perm (gaussBlocks_swap g _ _).symm

theorem hSetStrainList_rel (nvoi : Nat) (id : Int) (eps : Nat → α) (junk : Gp α) (l : List (HGp α))
    (t : ∀ g ∈ l, g.Tied) :
    (hSetStrainList nvoi id eps junk l).map HGp.gp = setStrainList nvoi id eps junk (l.map HGp.gp) ∧
      (∀ g ∈ hSetStrainList nvoi id eps junk l, g.Tied) ∧
      gaussBlocks (hSetStrainList nvoi id eps junk l) = gaussBlocks l := by
  induction l with
  | nil =>
    refine ⟨rfl, ?_, rfl⟩
    intro g hg
    simp only [hSetStrainList, List.mem_singleton] at hg
    subst hg
    exact ⟨rfl, rfl⟩
  | cons g l ih =>
    obtain ⟨i1, i2, i3⟩ := ih (fun g hg => t g (by simp [hg]))
    have tg := t g (by simp)
    rw [hSetStrainList, List.map_cons, setStrainList]
    split
    · refine ⟨rfl, ?_, rfl⟩
      intro g' hg'
      rcases List.mem_cons.1 hg' with rfl | hg'
      · exact ⟨tg.1, tg.2⟩
      · exact t g' (by simp [hg'])
    · refine ⟨by rw [List.map_cons, i1], ?_, ?_⟩
      · intro g' hg'
        rcases List.mem_cons.1 hg' with rfl | hg'
        · exact tg
        · exact i2 g' hg'
      · show g.blocks ++ gaussBlocks _ = g.blocks ++ gaussBlocks _
        rw [i3]

/-! ## The object -/

/-- The blocks of an object, in the order in which the destructor releases them. -/
def Ptrs.blocks (p : Ptrs) : List Nat :=
  [p.cols, p.vals, p.b, p.du, p.u, p.elemStress, p.elemStrain, p.elemType, p.varsOld, p.varsNew]

/-- All blocks an object owns. -/
def HObj.blocks (o : HObj α) : List Nat := o.ptrs.blocks ++ gaussBlocks o.gauss

/-- The object's pointers are tied and the heap holds its blocks and those of `L`. -/
def HObj.Owns (o : HObj α) (L : List Nat) (h : Heap) : Prop :=
  (∀ g ∈ o.gauss, g.Tied) ∧ h.Has (o.blocks ++ L)

theorem HObj.Owns.gauss {o : HObj α} {L : List Nat} {h : Heap} (w : o.Owns L h) :
    h.Has (gaussBlocks o.gauss ++ (o.ptrs.blocks ++ L)) := by
  refine w.2.perm ?_
  unfold HObj.blocks
  rw [← List.append_assoc]
  exact List.perm_append_comm.append_right L

theorem HObj.Owns.of {o : HObj α} {L : List Nat} {h : Heap} (t : ∀ g ∈ o.gauss, g.Tied)
    (w : h.Has (gaussBlocks o.gauss ++ (o.ptrs.blocks ++ L))) : o.Owns L h := by
  refine ⟨t, w.perm ?_⟩
  unfold HObj.blocks
  rw [← List.append_assoc]
  exact List.perm_append_comm.append_right L

theorem hConstruct_does (a : Args α) (j : Junk α) {h : Heap} {L : List Nat} (hh : h.Has L) :
    Does h (hConstruct env a j) (construct env a j) (fun o r h' => o.obj = r ∧ o.Owns L h') := by
  unfold hConstruct construct
  split
  · exact Does.err .abort
  · refine Does.malloc hh fun b h1 _ hh => ?_
    refine Does.malloc hh fun du h2 _ hh => ?_
    refine Does.malloc hh fun u h3 _ hh => ?_
    refine Does.malloc hh fun es h4 _ hh => ?_
    refine Does.malloc hh fun en h5 _ hh => ?_
    refine Does.malloc hh fun et h6 _ hh => ?_
    refine Does.malloc hh fun vo h7 _ hh => ?_
    refine Does.malloc hh fun vn h8 _ hh => ?_
    split
    · exact Does.err .uninit
    · refine Does.liftBind _ fun ety => ?_
      refine Does.malloc hh fun cols h9 _ hh => ?_
      refine Does.malloc hh fun vals h10 _ hh => ?_
      dsimp only
      by_cases hd : (mkCfg a j ety).dim = 2
      all_goals
        simp only [hd, if_true, if_false]
        refine Does.liftBind _ fun A => ?_
        refine (hCalcCtanLin_does env _ _ _ hh).bind ?_
        rintro r _ h11 ⟨rfl, hh⟩
        refine Does.pure' ⟨rfl, by simp, hh.perm ?_⟩
        show List.Perm _ ([cols, vals, b, du, u, es, en, et, vo, vn] ++ [] ++ L)
        rw [List.append_nil]
        have : List.Perm [vals, cols, vn, vo, et, en, es, u, du, b]
            [cols, vals, b, du, u, es, en, et, vo, vn] := by
          refine (List.Perm.swap cols vals _).trans (List.Perm.cons _ (List.Perm.cons _ ?_))
          exact List.reverse_perm [b, du, u, es, en, et, vo, vn]
        exact this.append_right L

/-- Relation between states. -/
def StRel (L : List Nat) (s : HState α) (r : ObjFiles α) (h : Heap) : Prop :=
  s.state = r ∧ s.obj.Owns L h

theorem hOutput_does (s : HState α) (t id : Int) {h : Heap} {L : List Nat} (hw : s.obj.Owns L h) :
    Does h (hOutput env s t id) (output env s.state t id) (StRel L) := by
  unfold hOutput output newtonRaphson
  show Does h _ (match findGp id s.obj.obj.gauss with
    | none => _
    | some gp => _) _
  cases findGp id s.obj.obj.gauss with
  | none => exact Does.pure' ⟨rfl, hw⟩
  | some gp =>
    dsimp only
    refine Does.liftBind _ fun old => ?_
    refine Does.liftBind _ fun w => ?_
    refine (hNrLoop_does env _ _ _ hw.2).bind ?_
    rintro r _ h1 ⟨rfl, hh1⟩
    refine Does.liftBind _ fun w => ?_
    refine Does.liftBind _ fun f => ?_
    exact Does.pure' ⟨rfl, hw.1, hh1⟩

theorem writeInfoFiles_obj {s r : ObjFiles α} (e : writeInfoFiles s = .ok r) :
    r.obj = { s.obj with header := true } := by
  unfold writeInfoFiles at e
  obtain ⟨v, _, e⟩ := bind_ok_iff.1 e
  have := pure_ok_iff.1 e
  subst this
  rfl

theorem hStep_does (s : HState α) (k : Call α) {h : Heap} {L : List Nat} (hw : s.obj.Owns L h) :
    Does h (hStep env s k) (step env s.state k)
      (fun b r h' => StRel L b.state r.state h' ∧ b.ret = r.ret) := by
  cases k with
  | setStrain id eps =>
    obtain ⟨e1, e2, e3⟩ := hSetStrainList_rel s.obj.cfg.nvoi id eps (env.gpJunk s.obj.work.tick)
      s.obj.gauss hw.1
    refine Does.pure' ⟨⟨?_, HObj.Owns.of e2 ?_⟩, rfl⟩
    · unfold HState.state HObj.obj setMacroStrain
      dsimp only
      rw [e1]
    · show h.Has (gaussBlocks (hSetStrainList _ _ _ _ _) ++ _)
      rw [e3]
      exact hw.gauss
  | homogenize =>
    show Does h (hHomogenize env s.obj >>= _) (homogenize env s.obj.obj >>= _) _
    have : Does h (hHomogenize env s.obj) (homogenize env s.obj.obj)
        (fun o r h' => o.obj = r ∧ o.Owns L h') := by
      unfold hHomogenize homogenize
      refine (hHomogenizeList_does env s.obj.cfg s.obj.gauss s.obj.work hw.1 hw.gauss).bind ?_
      rintro b r h' ⟨⟨e1, e2, e3⟩, e4⟩
      refine Does.pure' ⟨?_, HObj.Owns.of e2 e3⟩
      unfold HObj.obj
      dsimp only
      rw [e1, e4]
    refine this.bind ?_
    rintro o r h' ⟨rfl, hw'⟩
    exact Does.pure' ⟨⟨rfl, hw'⟩, rfl⟩
  | getStress id buf =>
    refine Does.pure' ⟨⟨?_, hw⟩, rfl⟩
    show s.state = { s.state with obj := (getMacroStress s.obj.obj id buf).1 }
    unfold getMacroStress
    cases findGp id s.obj.obj.gauss <;> rfl
  | getCtan id buf =>
    refine Does.pure' ⟨⟨?_, hw⟩, rfl⟩
    show s.state = { s.state with obj := (getMacroCtan s.obj.obj id buf).1 }
    unfold getMacroCtan
    cases findGp id s.obj.obj.gauss <;> rfl
  | getNl id =>
    refine Does.pure' ⟨⟨?_, hw⟩, rfl⟩
    show s.state = { s.state with obj := (getNlFlag s.obj.obj id).1 }
    unfold getNlFlag
    cases findGp id s.obj.obj.gauss <;> rfl
  | updateVars =>
    show Does h (hUpdateList s.obj.cfg s.obj.gauss >>= _) (updateVars s.obj.obj >>= _) _
    unfold updateVars
    rw [bind_assoc]
    refine (hUpdateList_does s.obj.cfg s.obj.gauss hw.1 hw.gauss).bind ?_
    rintro l r h' ⟨rfl, e2, e3⟩
    exact Does.pure' ⟨⟨rfl, HObj.Owns.of e2 e3⟩, rfl⟩
  | output t id =>
    refine (hOutput_does env s t id hw).bind ?_
    rintro b r h' ⟨rfl, hw'⟩
    exact Does.pure' ⟨⟨rfl, hw'⟩, rfl⟩
  | writeInfo =>
    show Does h (lift (writeInfoFiles s.state) >>= _) (writeInfoFiles s.state >>= _) _
    refine Does.liftBind' _ fun r e => ?_
    refine Does.pure' ⟨⟨?_, hw⟩, rfl⟩
    have := writeInfoFiles_obj e
    obtain ⟨o, f⟩ := r
    subst this
    rfl

theorem hRun_does (l : List (Call α)) : ∀ (s : HState α) {h : Heap} {L : List Nat},
    s.obj.Owns L h → Does h (hRun env l s) (run env l s.state) (StRel L) := by
  induction l with
  | nil => intro s h L hw; exact Does.pure' ⟨rfl, hw⟩
  | cons k l ih =>
    intro s h L hw
    rw [hRun, run]
    refine (hStep_does env s k hw).bind ?_
    rintro b r h' ⟨⟨e, hw'⟩, _⟩
    rw [← e]
    exact ih _ hw'

/-! ## Destruction -/

theorem hFreeGauss_ok (l : List (HGp α)) : ∀ {h : Heap} {L : List Nat},
    h.Has (gaussBlocks l ++ L) → ∃ h', hFreeGauss l h = .ok ((), h') ∧ h'.Has L := by
  induction l with
  | nil => intro h L hh; exact ⟨h, rfl, hh⟩
  | cons g l ih =>
    intro h L hh
    rw [gaussBlocks_cons] at hh
    have key : ∀ (p : Option Nat) (h : Heap) (K : List Nat), h.Has (p.toList ++ K) →
        ∃ h', free p h = .ok ((), h') ∧ h'.Has K := by
      intro p h K hk
      cases p with
      | none => exact ⟨h, rfl, hk⟩
      | some p => exact free_some hk
    unfold HGp.blocks at hh
    rw [List.append_assoc] at hh
    obtain ⟨h1, e1, hh1⟩ := key _ _ _ hh
    obtain ⟨h2, e2, hh2⟩ := key _ _ _ hh1
    obtain ⟨h3, e3, hh3⟩ := ih hh2
    refine ⟨h3, ?_, hh3⟩
    rw [hFreeGauss, H_bind_ok e1, H_bind_ok e2, e3]

theorem hDestroy_ok (o : HObj α) {h : Heap} {L : List Nat} (hw : o.Owns L h) :
    ∃ h', hDestroy o h = .ok ((), h') ∧ h'.Has L := by
  have hh := hw.2
  unfold HObj.blocks Ptrs.blocks at hh
  obtain ⟨h1, e1, hh⟩ := free_some hh
  obtain ⟨h2, e2, hh⟩ := free_some hh
  obtain ⟨h3, e3, hh⟩ := free_some hh
  obtain ⟨h4, e4, hh⟩ := free_some hh
  obtain ⟨h5, e5, hh⟩ := free_some hh
  obtain ⟨h6, e6, hh⟩ := free_some hh
  obtain ⟨h7, e7, hh⟩ := free_some hh
  obtain ⟨h8, e8, hh⟩ := free_some hh
  obtain ⟨h9, e9, hh⟩ := free_some hh
  obtain ⟨h10, e10, hh⟩ := free_some hh
  obtain ⟨h11, e11, hh⟩ := hFreeGauss_ok o.gauss hh
  refine ⟨h11, ?_, hh⟩
  rw [hDestroy, H_bind_ok e1, H_bind_ok e2, H_bind_ok e3, H_bind_ok e4, H_bind_ok e5, H_bind_ok e6,
    H_bind_ok e7, H_bind_ok e8, H_bind_ok e9, H_bind_ok e10, e11]

end
end Verif
