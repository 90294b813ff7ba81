import Verif.Lemmas.Heap
import Verif.Lemmas.Built
import Verif.Props.Cg

/-!
# Heap discipline: property C18

"Every solver call frees all work buffers it allocated, and constructing an object, running any
sequence of API calls and destroying it frees every block exactly once."

In `Verif.Model.Heap` an address is handed out once, and releasing a block that is not in use ends in
`badFree`.  Hence a run that does not end in `badFree` releases no block twice, and a run that ends
with the blocks it started with has released every block it allocated.

The conjugate-gradient solvers and the life of an automatic object meet the property; the relaxation
solver (/repo/src/ell.cpp:58-114) and the Fortran interface do not.
-/

namespace Verif

/-- The heap a program starts from: every block listed once, every block below the next address. -/
structure Heap.Start (h : Heap) : Prop where
  nodup : h.live.Nodup
  below : ∀ p ∈ h.live, p < h.next

theorem Heap.Start.has {h : Heap} (hs : h.Start) : h.Has h.live :=
  ⟨List.Perm.refl _, hs.nodup, hs.below⟩

/-- A heap with three blocks of the caller. -/
def exHeap : Heap := ⟨7, [2, 5, 6]⟩

theorem exHeap_start : exHeap.Start := ⟨by decide, by decide⟩

section
variable {α : Type} [Scalar α]

theorem Does.split {β γ : Type} {h : Heap} {x : H β} {y : M γ} {Q : β → γ → Heap → Prop}
    (hd : Does h x y Q) : x h ≠ .error .badFree ∧
      ∀ v h', x h = .ok (v, h') → ∃ c, y = .ok c ∧ Q v c h' := by
  cases y with
  | error e =>
    have hd : x h = .error (.num e) := hd
    rw [hd]
    exact ⟨by simp, by simp⟩
  | ok c =>
    obtain ⟨v, h', e, q⟩ := hd
    rw [e]
    refine ⟨by simp, ?_⟩
    intro v' h'' e'
    cases e'
    exact ⟨c, rfl, q⟩

theorem hLive_does (env : Env α) (a : Args α) (j : Junk α) (f : Files α) (calls : List (Call α))
    {h : Heap} {L : List Nat} (hh : h.Has L) :
    Does h (hConstruct env a j >>= fun o => hRun env calls { obj := o, files := ctorFiles o.cfg f })
      (constructF env a j f >>= run env calls) (StRel L) := by
  unfold constructF
  rw [bind_assoc]
  refine (hConstruct_does env a j hh).bind ?_
  rintro o r h' ⟨rfl, hw⟩
  exact hRun_does env calls { obj := o, files := ctorFiles o.cfg f } hw

theorem hLife_does (env : Env α) (a : Args α) (j : Junk α) (f : Files α) (calls : List (Call α))
    {h : Heap} {L : List Nat} (hh : h.Has L) :
    Does h (hLife env a j f calls) (constructF env a j f >>= run env calls)
      (fun s r h' => s.state = r ∧ h'.Has L) := by
  have hd := hLive_does env a j f calls hh
  have hx : ∀ {β γ δ : Type} (x : H β) (g : β → H γ) (k : γ → H δ),
      (x >>= fun b => g b >>= k) = ((x >>= g) >>= k) := by
    intro β γ δ x g k
    funext h
    show H.seq x (fun b => H.seq (g b) k) h = H.seq (H.seq x g) k h
    unfold H.seq
    cases x h <;> rfl
  have hy : (constructF env a j f >>= run env calls) =
      ((constructF env a j f >>= run env calls) >>= fun s => pure s) := by
    cases (constructF env a j f >>= run env calls) <;> rfl
  rw [hy]
  unfold hLife
  rw [hx]
  refine hd.bind ?_
  rintro s r h1 ⟨e, hw⟩
  obtain ⟨h2, e2, hh2⟩ := hDestroy_ok s.obj hw
  refine ⟨s, h2, ?_, e, hh2⟩
  rw [H_bind_ok e2]
  rfl

theorem gaussBlocks_length (l : List (HGp α)) (t : ∀ g ∈ l, g.Tied) :
    (gaussBlocks l).length = 2 * ((l.map HGp.gp).filter fun g => g.intVarsN.isSome).length := by
  induction l with
  | nil => rfl
  | cons g l ih =>
    have tg := t g (by simp)
    have ih := ih fun g hg => t g (by simp [hg])
    show (g.blocks ++ gaussBlocks l).length = _
    rw [List.length_append, ih, List.map_cons, List.filter_cons, ← tg.1]
    have tk := tg.2
    unfold HGp.blocks
    cases hn : g.n <;> cases hk : g.k <;> simp_all
    omega

end

namespace Props

section
variable {α : Type} [Scalar α]

/-- C18, solvers: a call of either conjugate-gradient solver never releases a block it must not, and
when it returns the same blocks are in use as before the call.  Its results are those of the model
without a heap. -/
theorem C18_cg (junk : Nat → Nat → α) (s : EllSolver α) (m : Option (Ell α)) (nF a b : Nat)
    (rhs x : Option (Buf α)) (h : Heap) (hs : h.Start) :
    (hCgpd2D junk s m nF a b rhs x h ≠ .error .badFree ∧
      ∀ y h', hCgpd2D junk s m nF a b rhs x h = .ok (y, h') →
        ellSolveCgpd2D junk s m nF a b rhs x = .ok y ∧ h'.live.Perm h.live) ∧
    (hCgpdStruct junk s m nF a b rhs x h ≠ .error .badFree ∧
      ∀ y h', hCgpdStruct junk s m nF a b rhs x h = .ok (y, h') →
        ellSolveCgpdStruct junk s m nF a b rhs x = .ok y ∧ h'.live.Perm h.live) := by
  obtain ⟨a1, a2⟩ := (hCgpd2D_does junk s m nF a b rhs x hs.has).split
  obtain ⟨b1, b2⟩ := (hCgpdStruct_does junk s m nF a b rhs x hs.has).split
  refine ⟨⟨a1, fun y h' e => ?_⟩, b1, fun y h' e => ?_⟩
  · obtain ⟨c, e1, rfl, hh⟩ := a2 y h' e
    exact ⟨e1, hh.1⟩
  · obtain ⟨c, e1, rfl, hh⟩ := b2 y h' e
    exact ⟨e1, hh.1⟩

/-- A call that returns. -/
example (w : ℝ) : ∃ y h', hCgpdStruct (fun _ _ => 7) ⟨100, 0, 1 / 10, 0⟩ (some (exM w)) 1 2 3
    (some ⟨3, fun i => if i < 2 then 1 else 0⟩) (some ⟨3, fun _ => 0⟩) exHeap = .ok (y, h') ∧
    h'.live.Perm [2, 5, 6] := by
  obtain ⟨s, y, h1, -⟩ := C11_truthful (exM_fits w (fun i => if i < 2 then 1 else 0) fun _ => 0)
    (fun _ _ => 7) ⟨100, 0, 1 / 10, 0⟩
  obtain ⟨v, h', e, -, hh⟩ := (hCgpdStruct_does (fun _ _ => (7 : ℝ)) ⟨100, 0, 1 / 10, 0⟩
    (some (exM w)) 1 2 3 (some ⟨3, fun i => if i < 2 then 1 else 0⟩) (some ⟨3, fun _ => 0⟩)
    exHeap_start.has).ok h1
  exact ⟨v, h', e, hh.1⟩

/-- C18, object: constructing an object, making any sequence of public calls and destroying it never
releases a block that is not in use; when it returns, the blocks in use are those from before.  The
history of the Gauss points is arbitrary. -/
theorem C18_object (env : Env α) (a : Args α) (j : Junk α) (f : Files α) (calls : List (Call α))
    (h : Heap) (hs : h.Start) :
    hLife env a j f calls h ≠ .error .badFree ∧
      ∀ s h', hLife env a j f calls h = .ok (s, h') → h'.live.Perm h.live := by
  obtain ⟨h1, h2⟩ := (hLife_does env a j f calls hs.has).split
  refine ⟨h1, fun s h' e => ?_⟩
  obtain ⟨c, -, -, hh⟩ := h2 s h' e
  exact hh.1

/-- The instrumented program is the modelled program: it returns the same object and files, or has
the same fault. -/
theorem C18_erase (env : Env α) (a : Args α) (j : Junk α) (f : Files α) (calls : List (Call α))
    (h : Heap) (hs : h.Start) :
    (∀ s, (constructF env a j f >>= run env calls) = .ok s →
      ∃ s' h', hLife env a j f calls h = .ok (s', h') ∧ s'.state = s) ∧
    (∀ e, (constructF env a j f >>= run env calls) = .error e →
      hLife env a j f calls h = .error (.num e)) := by
  have hd := hLife_does env a j f calls hs.has
  refine ⟨fun s e => ?_, fun e he => ?_⟩
  · obtain ⟨s', h', e1, e2, -⟩ := hd.ok e
    exact ⟨s', h', e1, e2⟩
  · rw [he] at hd
    exact hd

/-- Before destruction the object holds ten blocks, and two more for every Gauss point with internal
variables: so there is something to release. -/
theorem C18_owned (env : Env α) (a : Args α) (j : Junk α) (f : Files α) (calls : List (Call α))
    (h : Heap) (hs : h.Start) {s : HState α} {h' : Heap}
    (e : (hConstruct env a j >>= fun o => hRun env calls { obj := o, files := ctorFiles o.cfg f }) h
      = .ok (s, h')) :
    h'.live.length = h.live.length + 10 +
      2 * (s.obj.obj.gauss.filter fun g => g.intVarsN.isSome).length := by
  obtain ⟨r, -, -, hw⟩ := (hLive_does env a j f calls hs.has).split.2 s h' e
  rw [hw.2.1.length_eq, List.length_append]
  show (s.obj.ptrs.blocks ++ gaussBlocks s.obj.gauss).length + _ = _
  rw [List.length_append, gaussBlocks_length _ hw.1]
  show 10 + 2 * (s.obj.obj.gauss.filter fun g => g.intVarsN.isSome).length + _ = _
  omega

/-- The construction of the example object returns. -/
example : ∃ s h', (hConstruct exEnv exArgsP exJunk >>= fun o =>
    hRun exEnv exCalls { obj := o, files := ctorFiles o.cfg ⟨[], [], [], [], fun _ _ => none⟩ }) exHeap
      = .ok (s, h') ∧ h'.live.length = 3 + 10 +
        2 * (s.obj.obj.gauss.filter fun g => g.intVarsN.isSome).length := by
  obtain ⟨r, e⟩ : ∃ r, (constructF exEnv exArgsP exJunk ⟨[], [], [], [], fun _ _ => none⟩ >>=
      run exEnv exCalls) = .ok r := by
    have key : Sane exEnv (fun _ => True) (constructF exEnv exArgsP exJunk
        ⟨[], [], [], [], fun _ _ => none⟩ >>= run exEnv exCalls) := by
      refine Sane.bind (P := fun s : ObjFiles ℝ => s.obj.Ok) ?_ fun s hs =>
        (run_sane _ hs).mono fun _ _ => trivial
      exact (construct_sane exEnv exArgsP_ok exJunk).bind fun o ho => Sane.ok ho
    obtain ⟨s, h, -⟩ := key.returns exEnv_quick
    exact ⟨s, h⟩
  obtain ⟨s, h', e', -⟩ := (hLive_does _ _ _ _ _ exHeap_start.has).ok e
  exact ⟨s, h', e', C18_owned _ _ _ _ _ exHeap exHeap_start e'⟩

/-- A life that returns: plastic materials, two Gauss points, output. -/
example : ∃ s h', hLife exEnv exArgsP exJunk ⟨[], [], [], [], fun _ _ => none⟩
    (exCalls ++ [.output 3 4, .writeInfo]) exHeap = .ok (s, h') ∧ h'.live.Perm [2, 5, 6] := by
  obtain ⟨s, e⟩ : ∃ s, (constructF exEnv exArgsP exJunk ⟨[], [], [], [], fun _ _ => none⟩ >>=
      run exEnv (exCalls ++ [.output 3 4, .writeInfo])) = .ok s := by
    have key : Sane exEnv (fun _ => True) (constructF exEnv exArgsP exJunk
        ⟨[], [], [], [], fun _ _ => none⟩ >>= run exEnv (exCalls ++ [.output 3 4, .writeInfo])) := by
      refine Sane.bind (P := fun s : ObjFiles ℝ => s.obj.Ok) ?_ fun s hs =>
        (run_sane _ hs).mono fun _ _ => trivial
      exact (construct_sane exEnv exArgsP_ok exJunk).bind fun o ho => Sane.ok ho
    obtain ⟨s, h, -⟩ := key.returns exEnv_quick
    exact ⟨s, h⟩
  obtain ⟨s', h', e', -⟩ := (C18_erase _ _ _ _ _ exHeap exHeap_start).1 s e
  exact ⟨s', h', e', (C18_object _ _ _ _ _ exHeap exHeap_start).2 s' h' e'⟩

/-- C18, except for the relaxation solver and the Fortran interface: the conjunction of the parts that
hold.  Missing: `C18_jacobi_fails`, `C18_wrapper_fails`. -/
theorem C18_partial (h : Heap) (hs : h.Start) :
    (∀ (junk : Nat → Nat → α) (s : EllSolver α) (m : Option (Ell α)) (nF nx ny : Nat)
      (b x : Option (Buf α)), hCgpd2D junk s m nF nx ny b x h ≠ .error .badFree ∧
      ∀ y h', hCgpd2D junk s m nF nx ny b x h = .ok (y, h') → h'.live.Perm h.live) ∧
    (∀ (junk : Nat → Nat → α) (s : EllSolver α) (m : Option (Ell α)) (nF dim nn : Nat)
      (b x : Option (Buf α)), hCgpdStruct junk s m nF dim nn b x h ≠ .error .badFree ∧
      ∀ y h', hCgpdStruct junk s m nF dim nn b x h = .ok (y, h') → h'.live.Perm h.live) ∧
    (∀ (env : Env α) (a : Args α) (j : Junk α) (f : Files α) (calls : List (Call α)),
      hLife env a j f calls h ≠ .error .badFree ∧
      ∀ s h', hLife env a j f calls h = .ok (s, h') → h'.live.Perm h.live) := by
  refine ⟨fun junk s m nF a b r x => ?_, fun junk s m nF a b r x => ?_,
    fun env a j f calls => C18_object env a j f calls h hs⟩
  · have := (C18_cg junk s m nF a b r x h hs).1
    exact ⟨this.1, fun y h' e => (this.2 y h' e).2⟩
  · have := (C18_cg junk s m nF a b r x h hs).2
    exact ⟨this.1, fun y h' e => (this.2 y h' e).2⟩

example := C18_partial (α := ℝ) exHeap exHeap_start

/-! ## Failures -/

/-- Every returning call of the relaxation solver on non-NULL arguments leaves two blocks behind. -/
theorem C18_jacobi_leaks (junk : Nat → Nat → α) (s : EllSolver α) (m : Ell α) (nF nx ny : Nat)
    (b x : Buf α) (h : Heap) {y : Int × EllSolver α × Option (Buf α)} {h' : Heap}
    (e : hJacobi2D junk s (some m) nF nx ny (some b) (some x) h = .ok (y, h')) :
    h'.live.length = h.live.length + 2 := by
  have : hJacobi2D junk s (some m) nF nx ny (some b) (some x) h =
      lift (ellSolveJacobi2D junk s (some m) nF nx ny (some b) (some x))
        ⟨h.next + 1 + 1, (h.next + 1) :: h.next :: h.live⟩ := rfl
  rw [this] at e
  unfold lift at e
  cases hj : ellSolveJacobi2D junk s (some m) nF nx ny (some b) (some x) with
  | error f => rw [hj] at e; cases e
  | ok v => rw [hj] at e; cases e; rfl

/-- A call that returns. -/
example : ∃ y h', hJacobi2D (fun _ _ => 9) ⟨10, 0, 1 / 10, 0⟩ (some (exM 0)) 1 3 1 (some ⟨3, fun _ => 1⟩)
    (some ⟨3, fun _ => (0 : ℝ)⟩) exHeap = .ok (y, h') ∧ h'.live.length = 5 := by
  obtain ⟨s, y, h1, -⟩ := C17_truthful (exM_wf 0) (b := ⟨3, fun _ => 1⟩)
    (x := ⟨3, fun _ => 0⟩) (nF := 1) (nx := 3) (ny := 1) (W := 9) rfl (by omega) rfl rfl rfl
    (fun _ _ => 9) ⟨10, 0, 1 / 10, 0⟩ (by norm_num)
  have h2 : ∃ y h', hJacobi2D (fun _ _ => 9) ⟨10, 0, 1 / 10, 0⟩ (some (exM 0)) 1 3 1 (some ⟨3, fun _ => 1⟩)
    (some ⟨3, fun _ => (0 : ℝ)⟩) exHeap = .ok (y, h') := by
    show ∃ y h', lift _ _ = .ok (y, h')
    unfold lift
    rw [h1]
    exact ⟨_, _, rfl⟩
  obtain ⟨y, h', e⟩ := h2
  exact ⟨y, h', e, C18_jacobi_leaks _ _ _ _ _ _ _ _ _ e⟩

/-- C18 fails for the relaxation solver: a call returns and the heap has two more blocks. -/
theorem C18_jacobi_fails : ¬ ∀ (junk : Nat → Nat → ℝ) (s : EllSolver ℝ) (m : Option (Ell ℝ))
    (nF nx ny : Nat) (b x : Option (Buf ℝ)) (h : Heap), h.Start → ∀ y h',
      hJacobi2D junk s m nF nx ny b x h = .ok (y, h') → h'.live.Perm h.live := by
  intro H
  obtain ⟨s, x, e, -⟩ := C17_truthful (exM_wf 0) (b := ⟨3, fun _ => 1⟩)
    (x := ⟨3, fun _ => 0⟩) (nF := 1) (nx := 3) (ny := 1) (W := 9) rfl (by omega) rfl rfl rfl
    (fun _ _ => 9) ⟨10, 0, 1 / 10, 0⟩ (by norm_num)
  have e' : hJacobi2D (fun _ _ => 9) ⟨10, 0, 1 / 10, 0⟩ (some (exM 0)) 1 3 1 (some ⟨3, fun _ => 1⟩)
      (some ⟨3, fun _ => 0⟩) exHeap = .ok ((0, s, some x), ⟨9, [8, 7, 2, 5, 6]⟩) := by
    show lift _ _ = _
    rw [e]
    rfl
  exact absurd (H _ _ _ _ _ _ _ _ _ exHeap_start _ _ e').length_eq (by decide)

/-- Number of `micropp_construct_` calls. -/
def constructs : List (WCall α) → Nat
  | [] => 0
  | .construct _ _ :: l => constructs l + 1
  | .call _ :: l => constructs l

/-- The Fortran interface releases nothing: whatever is called, every `micropp_construct_` adds at
least eleven blocks. -/
theorem C18_wrapper_leaks (env : Env α) (l : List (WCall α)) (f : Files α) (h : Heap) (hs : h.Start)
    {w : HWorld α} {h' : Heap} (e : hwRun env l { micro := none, files := f } h = .ok (w, h')) :
    h.live.length + 11 * constructs l ≤ h'.live.length := by
  have key : ∀ (l : List (WCall α)) (w0 : HWorld α) (h0 : Heap) (N : Nat),
      (match w0.micro with
        | none => h0.Has h0.live ∧ N ≤ h0.live.length
        | some (_, o) => ∃ L, o.Owns L h0 ∧ N ≤ L.length + 10) →
      ∀ w h', hwRun env l w0 h0 = .ok (w, h') → N + 11 * constructs l ≤ h'.live.length := by
    intro l
    induction l with
    | nil =>
      intro w0 h0 N hI w h' e
      cases e
      show N + 0 ≤ _
      cases hm : w0.micro with
      | none => rw [hm] at hI; exact hI.2
      | some po =>
        rw [hm] at hI
        obtain ⟨L, hw, hN⟩ := hI
        rw [hw.2.1.length_eq, List.length_append]
        have : po.2.blocks.length = 10 + (gaussBlocks po.2.gauss).length := by
          show (po.2.ptrs.blocks ++ gaussBlocks po.2.gauss).length = _
          rw [List.length_append]
          rfl
        omega
    | cons k l ih =>
      intro w0 h0 N hI w h' e
      cases k with
      | construct a j =>
        have hl : h0.Has h0.live ∧ N ≤ h0.live.length := by
          cases hm : w0.micro with
          | none => rw [hm] at hI; exact hI
          | some po =>
            rw [hm] at hI
            obtain ⟨L, hw, hN⟩ := hI
            refine ⟨⟨List.Perm.refl _, hw.2.2⟩, ?_⟩
            rw [hw.2.1.length_eq, List.length_append]
            have : po.2.blocks.length = 10 + (gaussBlocks po.2.gauss).length := by
              show (po.2.ptrs.blocks ++ gaussBlocks po.2.gauss).length = _
              rw [List.length_append]
              rfl
            omega
        have hd : Does h0 (hwConstruct env a j w0) (construct env a j)
            (fun w1 _ h1 => ∃ p o, w1.micro = some (p, o) ∧ o.Owns (p :: h0.live) h1) := by
          unfold hwConstruct
          have hy : construct env a j = (construct env a j >>= fun o => pure o) := by
            cases construct env a j <;> rfl
          rw [hy]
          refine Does.malloc hl.1 fun p h1 _ hh1 => ?_
          refine (hConstruct_does env a j hh1).bind ?_
          rintro o r h2 ⟨-, hw⟩
          exact Does.pure' ⟨p, o, rfl, hw⟩
        cases hc : hwConstruct env a j w0 h0 with
        | error f =>
          have e : (hwConstruct env a j w0 >>= hwRun env l) h0 = .ok (w, h') := e
          rw [H_bind_err hc] at e
          cases e
        | ok r =>
          obtain ⟨w1, h1⟩ := r
          have e : (hwConstruct env a j w0 >>= hwRun env l) h0 = .ok (w, h') := e
          rw [H_bind_ok hc] at e
          obtain ⟨-, -, p, o, hm, hw⟩ := hd.split.2 w1 h1 hc
          have := ih w1 h1 (N + 11) (by
            rw [hm]
            exact ⟨p :: h0.live, hw, by rw [List.length_cons]; omega⟩) w h' e
          show N + 11 * (constructs l + 1) ≤ _
          omega
      | call k =>
        show N + 11 * constructs l ≤ _
        have e : (hwCall env w0 k >>= hwRun env l) h0 = .ok (w, h') := e
        cases hm : w0.micro with
        | none =>
          have hc : hwCall env w0 k h0 = .error (.num .null) := by unfold hwCall; rw [hm]; rfl
          rw [H_bind_err hc] at e
          cases e
        | some po =>
          obtain ⟨p, o⟩ := po
          rw [hm] at hI
          obtain ⟨L, hw, hN⟩ := hI
          have hd := (hStep_does env { obj := o, files := w0.files } k hw).split.2
          cases hc : hStep env { obj := o, files := w0.files } k h0 with
          | error f =>
            have hc' : hwCall env w0 k h0 = .error f := by
              unfold hwCall; rw [hm]; exact H_bind_err hc
            rw [H_bind_err hc'] at e
            cases e
          | ok r =>
            obtain ⟨r, h1⟩ := r
            have hc' : hwCall env w0 k h0 =
                .ok ({ micro := some (p, r.state.obj), files := r.state.files }, h1) := by
              unfold hwCall; rw [hm]; exact H_bind_ok hc
            rw [H_bind_ok hc'] at e
            obtain ⟨-, -, ⟨-, hw'⟩, -⟩ := hd r h1 hc
            exact ih { micro := some (p, r.state.obj), files := r.state.files } h1 N ⟨L, hw', hN⟩ w h' e
  exact key l { micro := none, files := f } h _ ⟨hs.has, le_refl _⟩ w h' e

theorem hwRun_construct {env : Env α} {a : Args α} {j : Junk α} {o : Obj α}
    (e : construct env a j = .ok o) (f : Files α) {h : Heap} (hs : h.Start) :
    ∃ w h', hwRun env [.construct a j] { micro := none, files := f } h = .ok (w, h') := by
  have hd : Does h (hwConstruct env a j { micro := none, files := f })
      (construct env a j >>= fun o => pure o) (fun _ _ _ => True) := by
    unfold hwConstruct
    refine Does.malloc hs.has fun p h1 _ hh1 => ?_
    refine (hConstruct_does env a j hh1).bind ?_
    rintro o r h2 -
    exact Does.pure' trivial
  rw [e] at hd
  obtain ⟨w, h', hw, -⟩ := hd
  refine ⟨w, h', ?_⟩
  show (hwConstruct env a j { micro := none, files := f } >>= hwRun env []) h = _
  rw [H_bind_ok hw]
  rfl

/-- C18 fails through the Fortran interface: constructing the example object returns and there are
eleven more blocks, and none of the calls of the interface can release them (`C18_wrapper_leaks`). -/
theorem C18_wrapper_fails : ∃ (w : HWorld ℝ) (h' : Heap),
    hwRun exEnv [.construct exArgs3 exJunk] ⟨none, ⟨[], [], [], [], fun _ _ => none⟩⟩ exHeap
      = .ok (w, h') ∧ exHeap.live.length + 11 ≤ h'.live.length := by
  obtain ⟨o, e, -⟩ := (construct_sane exEnv exArgs3_ok exJunk).returns exEnv_quick
  obtain ⟨w, h', hr⟩ := hwRun_construct e ⟨[], [], [], [], fun _ _ => none⟩ exHeap_start
  exact ⟨w, h', hr, C18_wrapper_leaks _ _ _ _ exHeap_start hr⟩

/-- The implicit copy constructor copies the pointers (/repo/include/micro.hpp:66-165 declares none):
destroying an object and its copy always releases a block twice. -/
theorem C18_copy_fails (env : Env α) (a : Args α) (j : Junk α) (h : Heap) (hs : h.Start)
    {o : HObj α} {h' : Heap} (e : hConstruct env a j h = .ok (o, h')) :
    (hDestroy o >>= fun _ => hDestroy o) h' = .error .badFree := by
  obtain ⟨r, -, -, hw⟩ := (hConstruct_does env a j hs.has).split.2 o h' e
  obtain ⟨h1, e1, hh1⟩ := hDestroy_ok o hw
  rw [H_bind_ok e1]
  have hn : o.ptrs.cols ∉ h1.live := by
    intro hm
    have hm : o.ptrs.cols ∈ h.live := hh1.1.subset hm
    have hnd : (o.blocks ++ h.live).Nodup := hw.2.1.nodup_iff.1 hw.2.2.1
    exact (List.disjoint_of_nodup_append hnd) (List.mem_cons_self ..) hm
  have : free (some o.ptrs.cols) h1 = .error .badFree := by
    show (if o.ptrs.cols ∈ h1.live then _ else _) = _
    rw [if_neg hn]
  exact H_bind_err this

theorem copy_twice {env : Env α} {a : Args α} {j : Junk α} {r : Obj α}
    (e : construct env a j = .ok r) {h : Heap} (hs : h.Start) : ∃ o h',
    hConstruct env a j h = .ok (o, h') ∧
      (hDestroy o >>= fun _ => hDestroy o) h' = .error .badFree := by
  obtain ⟨o, h', e', -⟩ := (hConstruct_does env a j hs.has).ok e
  exact ⟨o, h', e', C18_copy_fails env a j h hs e'⟩

/-- Constructing the example object returns. -/
example : ∃ o h', hConstruct exEnv exArgs3 exJunk exHeap = .ok (o, h') ∧
    (hDestroy o >>= fun _ => hDestroy o) h' = .error .badFree := by
  obtain ⟨r, e, -⟩ := (construct_sane exEnv exArgs3_ok exJunk).returns exEnv_quick
  exact copy_twice e exHeap_start

end
end Props
end Verif
