import Verif.Lemmas.Blocks

/-!
# C102: heap blocks on every path through the text

`Verif.Model.HeapTable` holds, for every function of the library, what its text does with heap blocks: the calls of
`malloc` and `free`, the uses of the pointers to blocks, the assignments of NULL, and the control structure around
them.  `Go` leaves every condition open that does not compare such a pointer with NULL or `dim` with 2 or 3, and
every number of passes of a loop.  The theorems are about all paths.
-/

namespace Verif.Props

open Verif.Blocks

set_option linter.constructorNameAsVariable false

/-- The kinds of the pointers before the constructor. -/
private def kFresh : A := ⟨fun _ => .unset, .ok⟩

/-- The kinds of the pointers of an object. -/
private def kObj : A := ⟨fun p => if p.isMember then .live else .unset, .ok⟩

/-- The kinds of the pointers after the destructor. -/
private def kDead : A := ⟨fun _ => .unset, .dead⟩

set_option maxRecDepth 100000 in
private theorem ctor_post {d : Dim} (hd : d ≠ .other) : (post d (.frame k_ctor) kFresh).ok = true ∧
    ∀ a ∈ (post d (.frame k_ctor) kFresh).go, a = kObj := by
  have h : ((post d (.frame k_ctor) kFresh).ok && (post d (.frame k_ctor) kFresh).go.all (·.same kObj)) = true := by
    cases d with
    | two => decide +kernel
    | three => decide +kernel
    | other => exact absurd rfl hd
  rw [Bool.and_eq_true, List.all_eq_true] at h
  exact ⟨h.1, fun a ha => A.same_eq (h.2 a ha)⟩

set_option maxRecDepth 100000 in
private theorem method_post {d : Dim} (hd : d ≠ .other) {k : Skel} (hk : k ∈ methods) :
    (post d (.frame k) kObj).ok = true ∧ ∀ a ∈ (post d (.frame k) kObj).go, a = kObj := by
  have h : methods.all (fun k => (post d (.frame k) kObj).ok && (post d (.frame k) kObj).go.all (·.same kObj)) =
      true := by
    cases d with
    | two => decide +kernel
    | three => decide +kernel
    | other => exact absurd rfl hd
  have h := List.all_eq_true.1 h k hk
  rw [Bool.and_eq_true, List.all_eq_true] at h
  exact ⟨h.1, fun a ha => A.same_eq (h.2 a ha)⟩

set_option maxRecDepth 100000 in
private theorem dtor_post (d : Dim) : (post d (.frame k_dtor) kObj).ok = true ∧
    ∀ a ∈ (post d (.frame k_dtor) kObj).go, a = kDead := by
  have h : ((post d (.frame k_dtor) kObj).ok && (post d (.frame k_dtor) kObj).go.all (·.same kDead)) = true := by
    cases d <;> decide +kernel
  rw [Bool.and_eq_true, List.all_eq_true] at h
  exact ⟨h.1, fun a ha => A.same_eq (h.2 a ha)⟩

/-- From kinds `a` to kinds `b`. -/
private theorem step {d : Dim} (hd : d ≠ .other) {k : Skel} {a b : A} (hp : (post d (.frame k) a).ok = true ∧
    ∀ c ∈ (post d (.frame k) a).go, c = b) {R : List Nat} {σ : St} {o : Out} (hg : Good R σ) (ha : Abs σ a)
    (h : Go d (.frame k) σ o) : ∃ σ', o = .go σ' ∧ Good R σ' ∧ Abs σ' b := by
  have hs := sound d (.frame k) R σ a o hg ha hp.1 h
  cases o with
  | go σ' =>
    obtain ⟨g, c, hc, hac⟩ := hs
    rw [hp.2 c hc] at hac
    exact ⟨σ', rfl, g, hac⟩
  | ret σ' =>
    obtain ⟨g, c, hc, hac⟩ := hs
    simp only [post] at hc
    split at hc <;> cases hc
  | brk σ' =>
    obtain ⟨g, c, hc, hac⟩ := hs
    simp only [post] at hc
    split at hc <;> cases hc
  | stop => exact absurd hs hd
  | bad => exact hs.elim

private theorem calls_step {d : Dim} (hd : d ≠ .other) {ks : List Skel} (hk : ∀ k ∈ ks, k ∈ methods) {R : List Nat}
    {σ : St} {o : Out} (hg : Good R σ) (ha : Abs σ kObj) (h : Go d (calls ks) σ o) :
    ∃ σ', o = .go σ' ∧ Good R σ' ∧ Abs σ' kObj := by
  induction ks generalizing σ with
  | nil => exact ⟨σ, h, hg, ha⟩
  | cons k ks ih =>
    have hp := method_post hd (hk k (List.mem_cons_self ..))
    rcases h with ⟨σ', h1, h2⟩ | ⟨h1, hne⟩
    · obtain ⟨σ'', e, hg', ha'⟩ := step hd hp hg ha h1
      cases e
      exact ih (fun k' h' => hk k' (List.mem_cons_of_mem _ h')) hg' ha' h2
    · obtain ⟨σ'', e, -, -⟩ := step hd hp hg ha h1
      exact absurd e (hne _)

private theorem good_fresh {h : Heap} (hh : h.Ok) : Good h.live (St.fresh h) := ⟨List.Perm.refl _, hh⟩

private theorem abs_fresh (h : Heap) : Abs (St.fresh h) kFresh := ⟨fun _ => rfl, by intro g hg; cases hg⟩

private theorem begun_step {d : Dim} (hd : d ≠ .other) {ks : List Skel} (hk : ∀ k ∈ ks, k ∈ methods) {h : Heap}
    (hh : h.Ok) {o : Out} (hgo : Go d (begun ks) (St.fresh h) o) :
    ∃ σ, o = .go σ ∧ Good h.live σ ∧ Abs σ kObj := by
  rcases hgo with ⟨σ', h1, h2⟩ | ⟨h1, hne⟩
  · obtain ⟨σ'', e, hg', ha'⟩ := step hd (ctor_post hd) (good_fresh hh) (abs_fresh h) h1
    cases e
    exact calls_step hd hk hg' ha' h2
  · obtain ⟨σ'', e, -, -⟩ := step hd (ctor_post hd) (good_fresh hh) (abs_fresh h) h1
    exact absurd e (hne _)

private theorem obj_ptr {σ : St} (ha : Abs σ kObj) :
    (∀ p, p.isMember = true → ∃ n, σ.ptr p = .at n) ∧ ∀ p, p.isMember = false → σ.ptr p = .unset := by
  constructor
  · intro p hp
    refine kind_live ((ha.1 p).trans ?_)
    show (if p.isMember then K.live else K.unset) = _
    rw [if_pos hp]
  · intro p hp
    have := ha.1 p
    have e : kObj.ptr p = .unset := by
      show (if p.isMember then K.live else K.unset) = _
      rw [if_neg (by simp [hp])]
    rw [e] at this
    cases hv : σ.ptr p with
    | unset => rfl
    | _ => rw [hv] at this; cases this

private theorem dead_own {σ : St} (ha : Abs σ kDead) : own σ = [] := by
  refine List.append_eq_nil_iff.2 ⟨List.flatMap_eq_nil_iff.2 fun p _ => ?_, List.flatMap_eq_nil_iff.2 fun g hg => ?_⟩
  · exact kind_blocks (by rw [ha.1]; exact fun e => by cases e)
  · have := ha.2 g hg
    have hk : g.1.kind ≠ .live ∧ g.2.kind ≠ .live := by
      rcases List.mem_cons.1 this with e | this
      · rw [Prod.mk.injEq] at e
        rw [e.1, e.2]
        exact ⟨fun e => (by cases e), fun e => (by cases e)⟩
      · have e := List.mem_singleton.1 this
        rw [Prod.mk.injEq] at e
        rw [e.1, e.2]
        exact ⟨fun e => (by cases e), fun e => (by cases e)⟩
    rw [kind_blocks hk.1, kind_blocks hk.2]
    rfl

/-- **C102.**  An object is constructed with `dim` 2 or 3, any methods are called in any order, and it is destroyed.
There is a path through the program, and every path reaches its end: nothing is released twice, nothing that was
released or never allocated is used, no block is lost on the way.  At the end exactly the blocks of before are in
use. -/
theorem C102_program {d : Dim} (hd : d ≠ .other) {ks : List Skel} (hk : ∀ k ∈ ks, k ∈ methods) {h : Heap}
    (hh : h.Ok) :
    (∃ o, Go d (whole ks) (St.fresh h) o) ∧
      ∀ o, Go d (whole ks) (St.fresh h) o → ∃ σ, o = .go σ ∧ σ.heap.live.Perm h.live := by
  refine ⟨go_total _ _ _, fun o hgo => ?_⟩
  have fin : ∀ σ, Good h.live σ → Abs σ kObj → Go d (.frame k_dtor) σ o →
      ∃ σ, o = .go σ ∧ σ.heap.live.Perm h.live := by
    intro σ hg ha h1
    obtain ⟨τ, e, hg', ha'⟩ := step hd (dtor_post d) hg ha h1
    refine ⟨τ, e, ?_⟩
    have := dead_own ha'
    have hg'' := hg'.1
    rwa [this] at hg''
  rcases hgo with ⟨σ, h1, h2⟩ | ⟨h1, hne⟩
  · obtain ⟨σ', e, hg, ha⟩ := step hd (ctor_post hd) (good_fresh hh) (abs_fresh h) h1
    cases e
    rcases h2 with ⟨σ', h3, h4⟩ | ⟨h3, hne⟩
    · obtain ⟨σ'', e, hg, ha⟩ := calls_step hd hk hg ha h3
      cases e
      exact fin σ' hg ha h4
    · obtain ⟨σ'', e, -, -⟩ := calls_step hd hk hg ha h3
      exact absurd e (hne _)
  · obtain ⟨σ'', e, -, -⟩ := step hd (ctor_post hd) (good_fresh hh) (abs_fresh h) h1
    exact absurd e (hne _)

/-- Two Gauss points, a step with plastic flow and one without, output, and the end. -/
example : ∃ σ, Go .three (whole [k_set_macro_strain, k_set_macro_strain, k_homogenize, k_update_vars, k_homogenize,
    k_output, k_write_info_files]) (St.fresh ⟨7, [3, 5]⟩) (.go σ) ∧ σ.heap.live.Perm [3, 5] := by
  have hk : ∀ k ∈ [k_set_macro_strain, k_set_macro_strain, k_homogenize, k_update_vars, k_homogenize,
      k_output, k_write_info_files], k ∈ methods := by
    intro k hk
    simp only [List.mem_cons, List.not_mem_nil, or_false] at hk
    unfold methods
    rcases hk with rfl | rfl | rfl | rfl | rfl | rfl | rfl <;> simp only [List.mem_cons, true_or, or_true]
  obtain ⟨⟨o, ho⟩, h⟩ := C102_program (d := .three) (by decide) hk (h := ⟨7, [3, 5]⟩) ⟨by decide, by decide⟩
  obtain ⟨σ, rfl, hp⟩ := h o ho
  exact ⟨σ, ho, hp⟩

/-- **C102.**  Between construction and destruction every member that points to an array points to a block in use, the
two pointers of a Gauss point are both NULL or both point to blocks in use, no two of these pointers share a block,
and no other blocks than these and those of before are in use. -/
theorem C102_between {d : Dim} (hd : d ≠ .other) {ks : List Skel} (hk : ∀ k ∈ ks, k ∈ methods) {h : Heap}
    (hh : h.Ok) {o : Out} (hgo : Go d (begun ks) (St.fresh h) o) :
    ∃ σ, o = .go σ ∧ (∀ p, p.isMember = true → ∃ n, σ.ptr p = .at n) ∧
      (∀ g ∈ σ.gs, g = (.null, .null) ∨ ∃ m n, g = (.at m, .at n)) ∧
      σ.heap.live.Perm ((allPtrs.filter Ptr.isMember).flatMap (fun p => (σ.ptr p).blocks) ++
        σ.gs.flatMap (fun g => g.1.blocks ++ g.2.blocks) ++ h.live) ∧ σ.heap.live.Nodup := by
  obtain ⟨σ, e, hg, ha⟩ := begun_step hd hk hh hgo
  refine ⟨σ, e, (obj_ptr ha).1, fun g hg' => ?_, ?_, hg.2.1⟩
  · have key : ∀ v : PV, v.kind = .null → v = .null := by
      intro v hv
      cases v with
      | null => rfl
      | _ => cases hv
    rcases List.mem_cons.1 (ha.2 g hg') with e | e
    · rw [Prod.mk.injEq] at e
      exact .inl (Prod.ext (key _ e.1) (key _ e.2))
    · have e := List.mem_singleton.1 e
      rw [Prod.mk.injEq] at e
      obtain ⟨m, hm⟩ := kind_live e.1
      obtain ⟨n, hn⟩ := kind_live e.2
      exact .inr ⟨m, n, Prod.ext hm hn⟩
  · have e3 : locBlocks σ.ptr = [] := by
      refine List.flatMap_eq_nil_iff.2 fun p hp => ?_
      rw [(obj_ptr ha).2 p (by simpa using (List.mem_filter.1 hp).2)]
      rfl
    have p1 := ptrBlocks_mem_loc σ.ptr
    rw [e3, List.append_nil] at p1
    exact hg.1.trans ((p1.append_right _).append_right _)

example : ∃ σ, Go .two (begun [k_set_macro_strain, k_homogenize]) (St.fresh ⟨7, [3, 5]⟩) (.go σ) ∧
    σ.heap.live.Nodup := by
  have hk : ∀ k ∈ [k_set_macro_strain, k_homogenize], k ∈ methods := by
    intro k hk
    simp only [List.mem_cons, List.not_mem_nil, or_false] at hk
    unfold methods
    rcases hk with rfl | rfl <;> simp only [List.mem_cons, true_or, or_true]
  obtain ⟨o, ho⟩ := go_total .two (begun [k_set_macro_strain, k_homogenize]) (St.fresh ⟨7, [3, 5]⟩)
  obtain ⟨σ, rfl, -, -, -, hn⟩ := C102_between (d := .two) (by decide) hk (h := ⟨7, [3, 5]⟩) ⟨by decide, by decide⟩ ho
  exact ⟨σ, ho, hn⟩

set_option maxRecDepth 100000 in
private theorem cg_post (d : Dim) {k : Skel} (hk : k ∈ [k_ell_solve_cgpd_2D, k_ell_solve_cgpd_struct]) :
    (post d (.frame k) kObj).ok = true ∧ ∀ a ∈ (post d (.frame k) kObj).go, a = kObj := by
  have h : [k_ell_solve_cgpd_2D, k_ell_solve_cgpd_struct].all
      (fun k => (post d (.frame k) kObj).ok && (post d (.frame k) kObj).go.all (·.same kObj)) = true := by
    cases d <;> decide +kernel
  have h := List.all_eq_true.1 h k hk
  rw [Bool.and_eq_true, List.all_eq_true] at h
  exact ⟨h.1, fun a ha => A.same_eq (h.2 a ha)⟩

set_option maxRecDepth 100000 in
private theorem cg_writes {k : Skel} (hk : k ∈ [k_ell_solve_cgpd_2D, k_ell_solve_cgpd_struct]) :
    lists k = false ∧ ∀ p, p.isMember = true → writes p k = false := by
  have h : [k_ell_solve_cgpd_2D, k_ell_solve_cgpd_struct].all (fun k => ! lists k &&
      allPtrs.all fun p => ! p.isMember || ! writes p k) = true := by decide +kernel
  have h := List.all_eq_true.1 h k hk
  rw [Bool.and_eq_true, List.all_eq_true] at h
  refine ⟨by simpa using h.1, fun p hp => ?_⟩
  have := h.2 p (mem_allPtrs p)
  rw [hp] at this
  simpa using this

/-- **C102.**  A call of a solver with conjugate gradients, whichever way its tests go, releases what it allocates: the
pointers of the object and the blocks in use are those of before. -/
theorem C102_solver {d : Dim} (hd : d ≠ .other) {ks : List Skel} (hk : ∀ k ∈ ks, k ∈ methods) {h : Heap} (hh : h.Ok)
    {σ : St} (hσ : Go d (begun ks) (St.fresh h) (.go σ)) {k : Skel}
    (hs : k ∈ [k_ell_solve_cgpd_2D, k_ell_solve_cgpd_struct]) {o : Out} (hgo : Go d (.frame k) σ o) :
    ∃ σ', o = .go σ' ∧ σ'.ptr = σ.ptr ∧ σ'.gs = σ.gs ∧ σ'.heap.live.Perm σ.heap.live := by
  obtain ⟨_, e, hg, ha⟩ := begun_step hd hk hh hσ
  cases e
  obtain ⟨σ', rfl, hg', ha'⟩ := step hd (cg_post d hs) hg ha hgo
  obtain ⟨w1, w2⟩ := cg_writes hs
  have hkeep : ∀ p, p.isMember = true → σ'.ptr p = σ.ptr p ∧ σ'.gs = σ.gs := fun p hp =>
    go_keep (s := .frame k) hp (w2 p hp) w1 hgo
  have e1 : σ'.ptr = σ.ptr := by
    funext p
    by_cases hp : p.isMember = true
    · exact (hkeep p hp).1
    · have hp : p.isMember = false := by simpa using hp
      rw [(obj_ptr ha).2 p hp, (obj_ptr ha').2 p hp]
  have e2 : σ'.gs = σ.gs := (hkeep .b rfl).2
  refine ⟨σ', rfl, e1, e2, hg'.1.trans (List.Perm.trans ?_ hg.1.symm)⟩
  unfold own
  rw [e1, e2]

example : ∃ σ σ', Go .two (begun []) (St.fresh ⟨0, []⟩) (.go σ) ∧ Go .two (.frame k_ell_solve_cgpd_2D) σ (.go σ') ∧
    σ'.heap.live.Perm σ.heap.live := by
  have hk : ∀ k ∈ ([] : List Skel), k ∈ methods := fun k hk => by cases hk
  have hh : Heap.Ok ⟨0, []⟩ := ⟨by decide, by decide⟩
  obtain ⟨o, ho⟩ := go_total .two (begun []) (St.fresh ⟨0, []⟩)
  obtain ⟨σ, rfl, -⟩ := C102_between (d := .two) (by decide) hk hh ho
  obtain ⟨o', ho'⟩ := go_total .two (.frame k_ell_solve_cgpd_2D) σ
  obtain ⟨σ', rfl, -, -, h⟩ := C102_solver (d := .two) (by decide) hk hh ho (List.mem_cons_self ..) ho'
  exact ⟨σ, σ', ho, ho', h⟩

/-- What follows the first statement. -/
private def after : Skel → Skel
  | .seq _ t => t
  | _ => .skip

set_option maxRecDepth 100000 in
private theorem jacobi_post (d : Dim) : (post d (after k_ell_solve_jacobi_2D) kObj).ok = true ∧
    (post d (after k_ell_solve_jacobi_2D) kObj).go = [] ∧ (post d (after k_ell_solve_jacobi_2D) kObj).brk = [] ∧
    ∀ a ∈ (post d (after k_ell_solve_jacobi_2D) kObj).ret, a.ptr .k = .live ∧ a.ptr .e_i = .live := by
  have h : ((post d (after k_ell_solve_jacobi_2D) kObj).ok &&
      (post d (after k_ell_solve_jacobi_2D) kObj).go.isEmpty &&
      (post d (after k_ell_solve_jacobi_2D) kObj).brk.isEmpty &&
      (post d (after k_ell_solve_jacobi_2D) kObj).ret.all fun a =>
        decide (a.ptr .k = .live ∧ a.ptr .e_i = .live)) = true := by
    cases d <;> decide +kernel
  simp only [Bool.and_eq_true, List.isEmpty_iff, List.all_eq_true, decide_eq_true_eq] at h
  exact ⟨h.1.1.1, h.1.1.2, h.1.2, h.2⟩

private theorem call_obj {σ : St} (ha : Abs σ kObj) : σ.call = σ := by
  obtain ⟨f, gs, h⟩ := σ
  unfold St.call
  congr 1
  funext p
  show (if p.isMember then f p else PV.unset) = f p
  split
  · rfl
  · rename_i hp
    exact ((obj_ptr ha).2 p (by simpa using hp)).symm

/-- **C102.**  The Jacobi solver loses blocks: on every path that does not return at the test for NULL, both blocks it
allocated are still in use when it returns, and there is such a path. -/
theorem C102_jacobi {d : Dim} (hd : d ≠ .other) {ks : List Skel} (hk : ∀ k ∈ ks, k ∈ methods) {h : Heap} (hh : h.Ok)
    {σ : St} (hσ : Go d (begun ks) (St.fresh h) (.go σ)) :
    (∀ o, Go d k_ell_solve_jacobi_2D σ o → o = .ret σ ∨ ∃ σ' m n, o = .ret σ' ∧ σ'.ptr .k = .at m ∧
      σ'.ptr .e_i = .at n ∧ m ∈ σ'.heap.live ∧ n ∈ σ'.heap.live ∧ m ≠ n) ∧
    Go d (.frame k_ell_solve_jacobi_2D) σ .bad := by
  obtain ⟨_, e, hg, ha⟩ := begun_step hd hk hh hσ
  cases e
  obtain ⟨p1, p2, p3, p4⟩ := jacobi_post d
  have key : ∀ o, Go d (after k_ell_solve_jacobi_2D) σ o → ∃ σ' m n, o = .ret σ' ∧ σ'.ptr .k = .at m ∧
      σ'.ptr .e_i = .at n ∧ m ∈ σ'.heap.live ∧ n ∈ σ'.heap.live ∧ m ≠ n := by
    intro o ho
    have hs := sound d _ _ σ kObj o hg ha p1 ho
    cases o with
    | go σ' => obtain ⟨-, c, hc, -⟩ := hs; rw [p2] at hc; cases hc
    | brk σ' => obtain ⟨-, c, hc, -⟩ := hs; rw [p3] at hc; cases hc
    | stop => exact absurd hs hd
    | bad => exact hs.elim
    | ret σ' =>
      obtain ⟨g, c, hc, hac⟩ := hs
      obtain ⟨m, hm⟩ := kind_live ((hac.1 _).trans (p4 c hc).1)
      obtain ⟨n, hn⟩ := kind_live ((hac.1 _).trans (p4 c hc).2)
      refine ⟨σ', m, n, rfl, hm, hn, g.live hm, g.live hn, ?_⟩
      rintro rfl
      have hnd := (g.1.nodup_iff.1 g.2.1)
      have q1 := (ptrBlocks_split σ'.ptr .k).append_right (gsBlocks σ'.gs)
      have q2 := q1.append_right h.live
      have hnd := q2.nodup_iff.1 hnd
      rw [hm] at hnd
      simp only [PV.blocks, List.append_assoc, List.singleton_append] at hnd
      refine (List.nodup_cons.1 hnd).1 (List.mem_append_left _ (List.mem_flatMap.2 ⟨.e_i, by decide, ?_⟩))
      rw [hn]
      exact List.mem_cons_self ..
  constructor
  · intro o ho
    have ho : Go d (.seq (.alt .ret .skip) (after k_ell_solve_jacobi_2D)) σ o := ho
    rcases ho with ⟨σ', h1 | h1, h2⟩ | ⟨h1 | h1, hne⟩
    · cases h1
    · cases h1
      exact .inr (key o h2)
    · exact .inl h1
    · exact absurd h1 (hne _)
  · obtain ⟨o, ho⟩ := go_total d (after k_ell_solve_jacobi_2D) σ
    obtain ⟨σ', m, n, rfl, hm, -⟩ := key o ho
    refine .inl ⟨σ', .inr ?_, ?_⟩
    · rw [call_obj ha]
      exact .inl ⟨σ, .inr rfl, ho⟩
    · unfold St.back
      rw [if_pos]
      refine ⟨.k, by decide, rfl, ?_⟩
      rw [hm]
      exact List.cons_ne_nil _ _

example : ∃ σ, Go .two (begun []) (St.fresh ⟨0, []⟩) (.go σ) ∧ Go .two (.frame k_ell_solve_jacobi_2D) σ .bad := by
  have hk : ∀ k ∈ ([] : List Skel), k ∈ methods := fun k hk => by cases hk
  have hh : Heap.Ok ⟨0, []⟩ := ⟨by decide, by decide⟩
  obtain ⟨o, ho⟩ := go_total .two (begun []) (St.fresh ⟨0, []⟩)
  obtain ⟨σ, rfl, -⟩ := C102_between (d := .two) (by decide) hk hh ho
  exact ⟨σ, ho, (C102_jacobi (d := .two) (by decide) hk hh ho).2⟩

/-- **C102.**  Objects cannot be copied: the copy that the compiler provides has the pointers of the original, and once
one of the two is destroyed, every path of the destructor of the other releases a block that is not allocated. -/
theorem C102_copy {d : Dim} (hd : d ≠ .other) {ks : List Skel} (hk : ∀ k ∈ ks, k ∈ methods) {h : Heap} (hh : h.Ok)
    {σ σ' : St} (hσ : Go d (begun ks) (St.fresh h) (.go σ)) (hσ' : Go d (.frame k_dtor) σ (.go σ')) {o : Out}
    (hgo : Go d (.frame k_dtor) { σ with heap := σ'.heap } o) : o = .bad := by
  obtain ⟨_, e, hg, ha⟩ := begun_step hd hk hh hσ
  cases e
  obtain ⟨_, e, hg', ha'⟩ := step hd (dtor_post d) hg ha hσ'
  cases e
  obtain ⟨n, hn⟩ := (obj_ptr ha).1 .A_cols rfl
  have hnot : n ∉ σ'.heap.live := by
    intro hm
    have hm := hg'.1.subset hm
    have hR : n ∉ h.live := by
      intro hr
      have := hg.1.nodup_iff.1 hg.2.1
      refine (List.nodup_append.1 this).2.2 n (List.mem_append_left _ ?_) n hr rfl
      exact List.mem_flatMap.2 ⟨.A_cols, mem_allPtrs _, by rw [hn]; exact List.mem_cons_self ..⟩
    rw [dead_own ha'] at hm
    exact hR hm
  refine frame_bad (fun o ho => ?_) hgo
  refine seq_bad (fun o ho => ?_) ho
  refine frame_bad (fun o ho => ?_) ho
  refine seq_bad (fun o ho => ?_) ho
  rw [Go] at ho
  have e : (({ σ with heap := σ'.heap } : St).call.call).ptr .A_cols = .at n := hn
  rw [e] at ho
  simp only [Go] at ho
  rw [ho, freeOf, e]
  exact if_neg hnot

example : ∃ σ σ', Go .two (begun []) (St.fresh ⟨0, []⟩) (.go σ) ∧ Go .two (.frame k_dtor) σ (.go σ') ∧
    ¬ ∃ τ, Go .two (.frame k_dtor) { σ with heap := σ'.heap } (.go τ) := by
  have hk : ∀ k ∈ ([] : List Skel), k ∈ methods := fun k hk => by cases hk
  have hh : Heap.Ok ⟨0, []⟩ := ⟨by decide, by decide⟩
  obtain ⟨o, ho⟩ := go_total .two (begun []) (St.fresh ⟨0, []⟩)
  obtain ⟨σ, rfl, hg, ha⟩ := begun_step (d := .two) (by decide) hk hh ho
  obtain ⟨o', ho'⟩ := go_total .two (.frame k_dtor) σ
  obtain ⟨σ', rfl, -, -⟩ := step (by decide) (dtor_post .two) hg ha ho'
  refine ⟨σ, σ', ho, ho', ?_⟩
  rintro ⟨τ, hτ⟩
  cases C102_copy (d := .two) (by decide) hk hh ho ho' hτ

/-- **C102.**  With another `dim` the `assert` of the constructor stops the program before anything is allocated. -/
theorem C102_dim {ks : List Skel} {h : Heap} {o : Out} (hgo : Go .other (whole ks) (St.fresh h) o) : o = .stop := by
  have key : ∀ o, Go .other (.frame k_ctor) (St.fresh h) o → o = .stop := by
    intro o ho
    have inner : ∀ o, Go .other k_ctor (St.fresh h).call o → o = .stop := by
      intro o ho
      rcases ho with ⟨σ', h1, -⟩ | ⟨h1, -⟩
      · rw [Go, if_pos rfl] at h1; cases h1
      · rw [Go, if_pos rfl] at h1; exact h1
    rcases ho with ⟨σ', h1 | h1, -⟩ | ⟨σ', h1, -⟩ | ⟨-, h1⟩
    · cases inner _ h1
    · cases inner _ h1
    · cases inner _ h1
    · exact inner _ h1
  rcases hgo with ⟨σ', h1, -⟩ | ⟨h1, -⟩
  · cases key _ h1
  · exact key _ h1

example : Go .other (whole [k_homogenize]) (St.fresh ⟨7, [3, 5]⟩) .stop := by
  obtain ⟨o, ho⟩ := go_total .other (whole [k_homogenize]) (St.fresh ⟨7, [3, 5]⟩)
  rw [C102_dim ho] at ho
  exact ho

end Verif.Props
