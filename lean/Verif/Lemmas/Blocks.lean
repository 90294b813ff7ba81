import Verif.Model.Blocks
import Verif.Lemmas.Heap

/-!
# An analysis of the pointer skeletons, and its soundness

`post` computes from the kinds of the pointers before a statement the kinds after it.  `sound`: when it says `ok`, no
path is bad, and the heap holds the blocks that the pointers point to and the blocks of the others.
-/

set_option linter.constructorNameAsVariable false

namespace Verif.Blocks

/-- The kind of a pointer value. -/
inductive K
  | unset | null | live
  deriving DecidableEq

/-- Its kind. -/
def PV.kind : PV → K
  | .unset => .unset
  | .null => .null
  | .at _ => .live

/-- The kind of the entries of `gauss_list`: both pointers are NULL or both point to blocks; or both were
NULL or released. -/
inductive GK
  | ok | dead
  deriving DecidableEq

/-- The pairs of kinds of `GK`. -/
def GK.pairs : GK → List (K × K)
  | .ok => [(.null, .null), (.live, .live)]
  | .dead => [(.unset, .unset), (.null, .null)]

/-- Kinds of all pointers. -/
structure A where
  ptr : Ptr → K
  gs : GK

/-- Comparison. -/
def A.same (a b : A) : Bool := decide (a.gs = b.gs) && allPtrs.all fun p => decide (a.ptr p = b.ptr p)

theorem mem_allPtrs (p : Ptr) : p ∈ allPtrs := by cases p <;> decide

theorem nodup_allPtrs : allPtrs.Nodup := by decide

theorem A.same_eq {a b : A} (h : a.same b = true) : a = b := by
  obtain ⟨f, g⟩ := a
  obtain ⟨f', g'⟩ := b
  simp only [A.same, Bool.and_eq_true, decide_eq_true_eq, List.all_eq_true] at h
  have : f = f' := funext fun p => h.2 p (mem_allPtrs p)
  rw [this, h.1]

/-- Another kind for a pointer. -/
def A.set (a : A) (p : Ptr) (v : K) : A := { a with ptr := fun q => if q = p then v else a.ptr q }

/-- Kinds after a statement: at its end, at `return`, at `break`; and whether nothing bad can happen. -/
structure Res where
  go : List A
  ret : List A
  brk : List A
  ok : Bool

/-- Something bad can happen. -/
def Res.no : Res := ⟨[], [], [], false⟩

/-- Without repetitions. -/
def dd : List A → List A
  | [] => []
  | a :: l => if (dd l).any (a.same ·) then dd l else a :: dd l

theorem mem_dd {a : A} {l : List A} (h : a ∈ l) : a ∈ dd l := by
  induction l with
  | nil => exact h
  | cons b l ih =>
    rw [dd]
    rcases List.mem_cons.1 h with rfl | h
    · split
      · rename_i h'
        obtain ⟨c, hc, hs⟩ := List.any_eq_true.1 h'
        rw [A.same_eq hs]
        exact hc
      · exact List.mem_cons_self ..
    · split
      · exact ih h
      · exact List.mem_cons_of_mem _ (ih h)

/-- One or the other. -/
def Res.or (r q : Res) : Res := ⟨dd (r.go ++ q.go), dd (r.ret ++ q.ret), dd (r.brk ++ q.brk), r.ok && q.ok⟩

/-- From any of the given kinds. -/
def onAll (f : A → Res) : List A → Res
  | [] => ⟨[], [], [], true⟩
  | a :: l => (f a).or (onAll f l)

theorem onAll_spec {f : A → Res} {l : List A} (h : (onAll f l).ok = true) {a : A} (ha : a ∈ l) :
    (f a).ok = true ∧ (∀ b ∈ (f a).go, b ∈ (onAll f l).go) ∧ (∀ b ∈ (f a).ret, b ∈ (onAll f l).ret) ∧
      ∀ b ∈ (f a).brk, b ∈ (onAll f l).brk := by
  induction l with
  | nil => cases ha
  | cons c l ih =>
    simp only [onAll, Res.or, Bool.and_eq_true] at h ⊢
    rcases List.mem_cons.1 ha with rfl | ha
    · exact ⟨h.1, fun b hb => mem_dd (List.mem_append_left _ hb), fun b hb => mem_dd (List.mem_append_left _ hb),
        fun b hb => mem_dd (List.mem_append_left _ hb)⟩
    · obtain ⟨h1, h2, h3, h4⟩ := ih h.2 ha
      exact ⟨h1, fun b hb => mem_dd (List.mem_append_right _ (h2 b hb)),
        fun b hb => mem_dd (List.mem_append_right _ (h3 b hb)),
        fun b hb => mem_dd (List.mem_append_right _ (h4 b hb))⟩

/-- Passes of a loop, until nothing new appears. -/
def iter (f : A → Res) : Nat → List A → Res
  | 0, _ => .no
  | n + 1, S =>
    let r := onAll f S
    match r.go.filter fun b => ! S.any (b.same ·) with
    | [] => ⟨S ++ r.brk, r.ret, [], r.ok⟩
    | b :: l => iter f n (S ++ b :: l)

theorem iter_spec {f : A → Res} {n : Nat} {S : List A} (h : (iter f n S).ok = true) :
    ∃ T : List A, (∀ a ∈ S, a ∈ T) ∧ (∀ a ∈ T, (f a).ok = true ∧ (∀ b ∈ (f a).go, b ∈ T) ∧
      (∀ b ∈ (f a).ret, b ∈ (iter f n S).ret) ∧ ∀ b ∈ (f a).brk, b ∈ (iter f n S).go) ∧
      ∀ a ∈ T, a ∈ (iter f n S).go := by
  induction n generalizing S with
  | zero => exact absurd h (by simp [iter, Res.no])
  | succ n ih =>
    cases he : (onAll f S).go.filter fun b => ! S.any (b.same ·) with
    | nil =>
      have e : iter f (n + 1) S = ⟨S ++ (onAll f S).brk, (onAll f S).ret, [], (onAll f S).ok⟩ := by
        rw [iter]
        simp only [he]
      rw [e] at h ⊢
      refine ⟨S, fun a ha => ha, fun a ha => ?_, fun a ha => List.mem_append_left _ ha⟩
      obtain ⟨h1, h2, h3, h4⟩ := onAll_spec h ha
      refine ⟨h1, fun b hb => ?_, h3, fun b hb => List.mem_append_right _ (h4 b hb)⟩
      have := List.filter_eq_nil_iff.1 he b (h2 b hb)
      simp only [Bool.not_eq_true', Bool.not_eq_false, List.any_eq_true] at this
      obtain ⟨c, hc, hs⟩ := this
      rw [A.same_eq hs]
      exact hc
    | cons b l =>
      have e : iter f (n + 1) S = iter f n (S ++ b :: l) := by
        rw [iter]
        simp only [he]
      rw [e] at h ⊢
      obtain ⟨T, h1, h2, h3⟩ := ih h
      exact ⟨T, fun a ha => h1 a (List.mem_append_left _ ha), h2, h3⟩

/-- The entry of the loop over the list. -/
def A.enter (a : A) (g : K × K) : A := (a.set .g_n g.1).set .g_k g.2

/-- The entry is done. -/
def A.next (a : A) : A := (a.set .g_n .unset).set .g_k .unset

/-- One pass of a loop over the list. -/
def pass (k : GK) (f : A → Res) (a : A) : Res :=
  let r := onAll f (GK.ok.pairs.map a.enter)
  let fine := fun b : A => decide ((b.ptr .g_n, b.ptr .g_k) ∈ k.pairs) && decide (b.gs = k)
  if r.go.all fine && r.ret.all fine && r.brk.all fine &&
      (decide (k = .ok) || r.ret.isEmpty && r.brk.isEmpty) then
    ⟨r.go.map A.next, r.ret.map A.next, r.brk.map A.next, r.ok⟩
  else .no

/-- A call begins. -/
def A.call (a : A) : A := { a with ptr := fun p => if p.isMember then a.ptr p else .unset }

/-- A call ends. -/
def A.back (a a' : A) : A := { a' with ptr := fun p => if p.isMember then a'.ptr p else a.ptr p }

/-- Nothing is lost. -/
def A.tidy (a : A) : Bool := allPtrs.all fun p => p.isMember || ! decide (a.ptr p = .live)

/-- The kinds after a statement. -/
def post (d : Dim) : Skel → A → Res
  | .skip, a => ⟨[a], [], [], true⟩
  | .ret, a => ⟨[], [a], [], true⟩
  | .brk, a => ⟨[], [], [a], true⟩
  | .known, a => if d = .other then ⟨[], [], [], true⟩ else ⟨[a], [], [], true⟩
  | .push, a => if a.ptr .new_n = .null ∧ a.ptr .new_k = .null ∧ a.gs = .ok then ⟨[a], [], [], true⟩ else .no
  | .alloc p, a => if a.ptr p = .live then .no else ⟨[a.set p .live], [], [], true⟩
  | .free p, a =>
    match a.ptr p with
    | .unset => .no
    | .null => ⟨[a], [], [], true⟩
    | .live => ⟨[a.set p .unset], [], [], true⟩
  | .null p, a => if a.ptr p = .live then .no else ⟨[a.set p .null], [], [], true⟩
  | .use p, a => if a.ptr p = .live then ⟨[a], [], [], true⟩ else .no
  | .seq s t, a =>
    let r := post d s a
    let q := onAll (post d t) r.go
    ⟨q.go, dd (r.ret ++ q.ret), dd (r.brk ++ q.brk), r.ok && q.ok⟩
  | .alt s t, a => (post d s a).or (post d t a)
  | .loop s, a => iter (post d s) 6 [a]
  | .ifNull p s t, a =>
    match a.ptr p with
    | .unset => .no
    | .null => post d s a
    | .live => post d t a
  | .ifDim e s t, a => if d = e then post d s a else post d t a
  | .each s, a =>
    if a.ptr .g_n = .unset ∧ a.ptr .g_k = .unset ∧ a.gs = .ok then
      let r := iter (pass .ok (post d s)) 6 [a]
      if r.ok then r else iter (pass .dead (post d s)) 6 [{ a with gs := .dead }]
    else .no
  | .frame s, a =>
    let r := post d s a.call
    let l := dd (r.go ++ r.ret)
    if l.all A.tidy && r.brk.isEmpty then ⟨l.map a.back, [], [], r.ok⟩ else .no

/-! ## States -/

/-- The blocks of the entries. -/
def gsBlocks (l : List (PV × PV)) : List Nat := l.flatMap fun g => g.1.blocks ++ g.2.blocks

/-- The blocks of the pointers. -/
def ptrBlocks (f : Ptr → PV) : List Nat := allPtrs.flatMap fun p => (f p).blocks

/-- The blocks of the object and of the locals. -/
def own (σ : St) : List Nat := ptrBlocks σ.ptr ++ gsBlocks σ.gs

/-- The heap holds these and `R`. -/
def Good (R : List Nat) (σ : St) : Prop := σ.heap.Has (own σ ++ R)

/-- The kinds of the state. -/
def Abs (σ : St) (a : A) : Prop :=
  (∀ p, (σ.ptr p).kind = a.ptr p) ∧ ∀ g ∈ σ.gs, (g.1.kind, g.2.kind) ∈ a.gs.pairs

/-- The outcome is among those of `r`. -/
def Sat (d : Dim) (R : List Nat) (r : Res) : Out → Prop
  | .go σ => Good R σ ∧ ∃ a ∈ r.go, Abs σ a
  | .ret σ => Good R σ ∧ ∃ a ∈ r.ret, Abs σ a
  | .brk σ => Good R σ ∧ ∃ a ∈ r.brk, Abs σ a
  | .stop => d = .other
  | .bad => False

theorem Sat.mono {d : Dim} {R : List Nat} {r q : Res} {o : Out} (h : Sat d R r o)
    (h1 : ∀ a ∈ r.go, a ∈ q.go) (h2 : ∀ a ∈ r.ret, a ∈ q.ret) (h3 : ∀ a ∈ r.brk, a ∈ q.brk) : Sat d R q o := by
  cases o with
  | go σ => obtain ⟨g, a, ha, hb⟩ := h; exact ⟨g, a, h1 a ha, hb⟩
  | ret σ => obtain ⟨g, a, ha, hb⟩ := h; exact ⟨g, a, h2 a ha, hb⟩
  | brk σ => obtain ⟨g, a, ha, hb⟩ := h; exact ⟨g, a, h3 a ha, hb⟩
  | stop => exact h
  | bad => exact h

theorem ptrBlocks_split (f : Ptr → PV) (p : Ptr) :
    (ptrBlocks f).Perm ((f p).blocks ++ (allPtrs.erase p).flatMap fun q => (f q).blocks) := by
  have h := List.perm_cons_erase (mem_allPtrs p)
  exact h.flatMap_right _

theorem erase_congr (f : Ptr → PV) (p : Ptr) (v : PV) :
    ((allPtrs.erase p).flatMap fun q => (if q = p then v else f q).blocks) =
      (allPtrs.erase p).flatMap fun q => (f q).blocks := by
  refine List.flatMap_congr fun q hq => ?_
  have : q ≠ p := by
    rintro rfl
    exact (nodup_allPtrs.not_mem_erase) hq
  rw [if_neg this]

/-- Giving up the value of a pointer. -/
theorem own_clear (σ : St) (p : Ptr) (v : PV) (hv : v.blocks = []) :
    (own σ).Perm ((σ.ptr p).blocks ++ own (σ.set p v)) := by
  unfold own
  rw [← List.append_assoc]
  refine List.Perm.append_right _ ?_
  refine (ptrBlocks_split σ.ptr p).trans (List.Perm.append_left _ ?_)
  refine List.Perm.symm ((ptrBlocks_split (σ.set p v).ptr p).trans ?_)
  simp only [St.set, if_true, hv, List.nil_append]
  rw [erase_congr]

/-- A value for a pointer that held no block. -/
theorem own_set (σ : St) (p : Ptr) (v : PV) (h : (σ.ptr p).blocks = []) :
    (own (σ.set p v)).Perm (v.blocks ++ own σ) := by
  unfold own
  rw [← List.append_assoc]
  refine List.Perm.append_right _ ?_
  refine (ptrBlocks_split (σ.set p v).ptr p).trans ?_
  simp only [St.set, if_true]
  rw [erase_congr]
  refine List.Perm.append_left _ (List.Perm.symm ((ptrBlocks_split σ.ptr p).trans ?_))
  rw [h, List.nil_append]

theorem kind_blocks {v : PV} (h : v.kind ≠ .live) : v.blocks = [] := by
  cases v with
  | «at» n => exact absurd rfl h
  | _ => rfl

theorem kind_live {v : PV} (h : v.kind = .live) : ∃ n, v = .at n := by
  cases v with
  | «at» n => exact ⟨n, rfl⟩
  | _ => cases h

theorem Abs.set {σ : St} {a : A} (h : Abs σ a) (p : Ptr) (v : PV) : Abs (σ.set p v) (a.set p v.kind) := by
  refine ⟨fun q => ?_, h.2⟩
  simp only [St.set, A.set]
  split
  · rfl
  · exact h.1 q

theorem Good.live {R : List Nat} {σ : St} (h : Good R σ) {p : Ptr} {n : Nat} (hp : σ.ptr p = .at n) :
    n ∈ σ.heap.live := by
  refine h.1.symm.subset (List.mem_append_left _ (List.mem_append_left _ ?_))
  exact List.mem_flatMap.2 ⟨p, mem_allPtrs p, by rw [hp]; exact List.mem_cons_self ..⟩

section sound
variable {d : Dim} {R : List Nat} {σ : St} {a : A}

theorem alloc_sound (hg : Good R σ) (ha : Abs σ a) {p : Ptr} (hp : a.ptr p ≠ .live) :
    Sat d R ⟨[a.set p .live], [], [], true⟩ (allocTo p σ) := by
  have hk : (σ.ptr p).kind ≠ .live := by rw [ha.1]; exact hp
  have : allocTo p σ = .go { σ.set p (.at σ.heap.next) with
      heap := ⟨σ.heap.next + 1, σ.heap.next :: σ.heap.live⟩ } := by
    unfold allocTo
    split
    · rename_i n e
      exact absurd (by rw [e]; rfl) hk
    · rfl
  rw [this]
  refine ⟨?_, _, List.mem_cons_self .., ha.set p (.at σ.heap.next)⟩
  have hn : σ.heap.next ∉ σ.heap.live := fun hm => absurd (hg.2.2 _ hm) (lt_irrefl _)
  refine ⟨?_, List.nodup_cons.2 ⟨hn, hg.2.1⟩, ?_⟩
  · refine (hg.1.cons _).trans ?_
    have := (own_set σ p (.at σ.heap.next) (kind_blocks hk)).append_right R
    exact this.symm
  · intro q hq
    rcases List.mem_cons.1 hq with rfl | hq
    · exact Nat.lt_succ_self _
    · exact Nat.lt_succ_of_lt (hg.2.2 _ hq)

theorem free_sound (hg : Good R σ) (ha : Abs σ a) {p : Ptr} (hok : (post d (.free p) a).ok = true) :
    Sat d R (post d (.free p) a) (freeOf p σ) := by
  have hk := ha.1 p
  rw [post] at hok ⊢
  unfold freeOf
  cases hv : σ.ptr p with
  | unset =>
    rw [hv] at hk
    rw [← hk] at hok
    cases hok
  | null =>
    rw [hv] at hk
    rw [← hk]
    exact ⟨hg, a, List.mem_cons_self .., ha⟩
  | «at» n =>
    rw [hv] at hk
    rw [← hk]
    simp only [PV.kind]
    rw [if_pos (hg.live hv)]
    refine ⟨?_, _, List.mem_cons_self .., ha.set p .unset⟩
    have hp := (own_clear σ p .unset rfl).append_right R
    rw [hv] at hp
    have := hg.1.trans hp
    refine ⟨?_, hg.2.1.erase _, fun q hq => hg.2.2 q (List.mem_of_mem_erase hq)⟩
    have := this.erase n
    rwa [PV.blocks, List.append_assoc, List.singleton_append, List.erase_cons_head] at this

theorem null_sound (hg : Good R σ) (ha : Abs σ a) {p : Ptr} (hp : a.ptr p ≠ .live) :
    Sat d R ⟨[a.set p .null], [], [], true⟩ (nullTo p σ) := by
  have hk : (σ.ptr p).kind ≠ .live := by rw [ha.1]; exact hp
  have : nullTo p σ = .go (σ.set p .null) := by
    unfold nullTo
    split
    · rename_i n e
      exact absurd (by rw [e]; rfl) hk
    · rfl
  rw [this]
  refine ⟨?_, _, List.mem_cons_self .., ha.set p .null⟩
  refine ⟨hg.1.trans ?_, hg.2⟩
  exact ((own_set σ p .null (kind_blocks hk)).append_right R).symm

theorem use_sound (hg : Good R σ) (ha : Abs σ a) {p : Ptr} (hp : a.ptr p = .live) :
    Sat d R ⟨[a], [], [], true⟩ (useOf p σ) := by
  obtain ⟨n, hn⟩ := kind_live ((ha.1 p).trans hp)
  unfold useOf
  rw [hn]
  simp only
  rw [if_pos (hg.live hn)]
  exact ⟨hg, a, List.mem_cons_self .., ha⟩

theorem gsBlocks_append (l l' : List (PV × PV)) : gsBlocks (l ++ l') = gsBlocks l ++ gsBlocks l' :=
  List.flatMap_append

theorem push_sound (hg : Good R σ) (ha : Abs σ a)
    (hp : a.ptr .new_n = .null ∧ a.ptr .new_k = .null ∧ a.gs = .ok) :
    Sat d R ⟨[a], [], [], true⟩ (pushNew σ) := by
  have key : ∀ p, a.ptr p = .null → σ.ptr p = .null := by
    intro p h
    have := ha.1 p
    rw [h] at this
    cases hv : σ.ptr p with
    | null => rfl
    | _ => rw [hv] at this; cases this
  unfold pushNew
  rw [if_pos ⟨key _ hp.1, key _ hp.2.1⟩]
  refine ⟨?_, a, List.mem_cons_self .., ha.1, ?_⟩
  · have : own { σ with gs := σ.gs ++ [(.null, .null)] } = own σ := by
      unfold own
      rw [gsBlocks_append]
      show _ ++ (_ ++ []) = _
      rw [List.append_nil]
    unfold Good
    rw [this]
    exact hg
  · intro g hg'
    rcases List.mem_append.1 hg' with h | h
    · exact ha.2 g h
    · rw [List.mem_singleton.1 h, hp.2.2]
      exact List.mem_cons_self ..

/-- `Go` behaves like `f`. -/
def Snd (d : Dim) (G : St → Out → Prop) (f : A → Res) : Prop :=
  ∀ R σ a o, Good R σ → Abs σ a → (f a).ok = true → G σ o → Sat d R (f a) o

theorem loop_sound {G : St → Out → Prop} {f : A → Res} (hs : Snd d G f) (n : Nat) :
    Snd d (Iter G) fun a => iter f n [a] := by
  intro R σ a o hg ha hok h
  simp only at hok ⊢
  obtain ⟨T, h1, h2, h3⟩ := iter_spec hok
  have key : ∀ σ o, Iter G σ o → Good R σ → (∃ b ∈ T, Abs σ b) → Sat d R (iter f n [a]) o := by
    intro σ o h
    induction h with
    | done => rintro hg ⟨b, hb, hab⟩; exact ⟨hg, b, h3 b hb, hab⟩
    | more hG _ ih =>
      rintro hg ⟨b, hb, hab⟩
      obtain ⟨k1, k2, -, -⟩ := h2 b hb
      obtain ⟨hg', c, hc, hac⟩ := hs R _ b _ hg hab k1 hG
      exact ih hg' ⟨c, k2 c hc, hac⟩
    | brk hG =>
      rintro hg ⟨b, hb, hab⟩
      obtain ⟨k1, -, -, k4⟩ := h2 b hb
      obtain ⟨hg', c, hc, hac⟩ := hs R _ b _ hg hab k1 hG
      exact ⟨hg', c, k4 c hc, hac⟩
    | @leave σ o hl hG =>
      rintro hg ⟨b, hb, hab⟩
      obtain ⟨k1, -, k3, -⟩ := h2 b hb
      have := hs R _ b _ hg hab k1 hG
      cases o with
      | ret σ => obtain ⟨hg', c, hc, hac⟩ := this; exact ⟨hg', c, k3 c hc, hac⟩
      | stop => exact this
      | bad => exact this
      | _ => cases hl
  exact key σ o h hg ⟨a, h1 a (List.mem_cons_self ..), ha⟩

/-! ### The loop over the list -/

theorem good_enter {g : PV × PV} {l : List (PV × PV)} (h : Good (gsBlocks (g :: l) ++ R) σ)
    (h1 : σ.ptr .g_n = .unset) (h2 : σ.ptr .g_k = .unset) : Good (gsBlocks l ++ R) (σ.enter g) := by
  have p1 := own_set σ .g_n g.1 (by rw [h1]; rfl)
  have p2 := own_set (σ.set .g_n g.1) .g_k g.2 (by
    show (if Ptr.g_k = Ptr.g_n then g.1 else σ.ptr .g_k).blocks = []
    rw [if_neg (by decide), h2]; rfl)
  have p := (p2.trans (p1.append_left _)).append_right (gsBlocks l ++ R)
  refine ⟨h.1.trans (List.Perm.trans ?_ p.symm), h.2⟩
  show (own σ ++ ((g.1.blocks ++ g.2.blocks) ++ gsBlocks l ++ R)).Perm _
  have : ∀ x y o m r : List Nat, (o ++ ((x ++ y) ++ m ++ r)).Perm ((y ++ (x ++ o)) ++ (m ++ r)) := by
    intro x y o m r
    have e1 : (o ++ (x ++ y)).Perm (y ++ (x ++ o)) := by
      refine List.perm_append_comm.trans ?_
      rw [← List.append_assoc]
      exact List.Perm.append_right _ List.perm_append_comm
    have := e1.append_right (m ++ r)
    simpa only [List.append_assoc] using this
  exact this _ _ _ _ _

theorem good_next (h : Good R σ) : Good R σ.next := by
  have p1 := own_clear σ .g_n .unset rfl
  have p2 := own_clear (σ.set .g_n .unset) .g_k .unset rfl
  have e : (σ.set .g_n .unset).ptr .g_k = σ.ptr .g_k := by
    show (if Ptr.g_k = Ptr.g_n then PV.unset else σ.ptr .g_k) = _
    rw [if_neg (by decide)]
  rw [e] at p2
  have p := p1.trans (p2.append_left _)
  have q : own σ.next = own ((σ.set .g_n .unset).set .g_k .unset) ++
      ((σ.ptr .g_n).blocks ++ (σ.ptr .g_k).blocks) := by
    unfold own St.next
    rw [gsBlocks_append, ← List.append_assoc]
    show _ ++ (_ ++ []) = _
    rw [List.append_nil]
    rfl
  refine ⟨h.1.trans (List.Perm.append_right R ?_), h.2⟩
  rw [q]
  refine p.trans ?_
  rw [← List.append_assoc]
  exact List.perm_append_comm

theorem good_follow {l : List (PV × PV)} (h : Good (gsBlocks l ++ R) σ) : Good R (σ.follow l) := by
  have : own (σ.follow l) = own σ ++ gsBlocks l := by
    unfold own St.follow
    rw [gsBlocks_append, List.append_assoc]
  unfold Good at h ⊢
  rw [this, List.append_assoc]
  exact h

theorem abs_enter (h : Abs σ a) (g : PV × PV) : Abs (σ.enter g) (a.enter (g.1.kind, g.2.kind)) :=
  (h.set .g_n g.1).set .g_k g.2

theorem abs_next (h : Abs σ a) (hp : (a.ptr .g_n, a.ptr .g_k) ∈ a.gs.pairs) : Abs σ.next a.next := by
  have := (h.set .g_n .unset).set .g_k .unset
  refine ⟨this.1, fun g hg => ?_⟩
  rcases List.mem_append.1 hg with h' | h'
  · exact h.2 g h'
  · rw [List.mem_singleton.1 h', h.1, h.1]
    exact hp

theorem abs_follow (h : Abs σ a) {l : List (PV × PV)} (hl : ∀ g ∈ l, (g.1.kind, g.2.kind) ∈ a.gs.pairs) :
    Abs (σ.follow l) a := by
  refine ⟨h.1, fun g hg => ?_⟩
  rcases List.mem_append.1 hg with h' | h'
  · exact h.2 g h'
  · exact hl g h'

theorem next_unset (σ : St) : σ.next.ptr .g_n = .unset ∧ σ.next.ptr .g_k = .unset := by
  constructor
  · show (if Ptr.g_n = Ptr.g_k then PV.unset else (if Ptr.g_n = Ptr.g_n then PV.unset else σ.ptr .g_n)) = _
    rw [if_neg (by decide), if_pos rfl]
  · show (if Ptr.g_k = Ptr.g_k then PV.unset else (if Ptr.g_k = Ptr.g_n then PV.unset else σ.ptr .g_k)) = _
    rw [if_pos rfl]

theorem pass_spec {k : GK} {f : A → Res} {b : A} (h : (pass k f b).ok = true) :
    (∀ e ∈ GK.ok.pairs, (f (b.enter e)).ok = true ∧
      (∀ c ∈ (f (b.enter e)).go, c.next ∈ (pass k f b).go ∧ (c.ptr .g_n, c.ptr .g_k) ∈ c.gs.pairs ∧ c.gs = k) ∧
      (∀ c ∈ (f (b.enter e)).ret, c.next ∈ (pass k f b).ret ∧ (c.ptr .g_n, c.ptr .g_k) ∈ c.gs.pairs ∧ c.gs = k ∧
        k = .ok) ∧
      (∀ c ∈ (f (b.enter e)).brk, c.next ∈ (pass k f b).brk ∧ (c.ptr .g_n, c.ptr .g_k) ∈ c.gs.pairs ∧ c.gs = k ∧
        k = .ok)) := by
  unfold pass at h ⊢
  simp only at h ⊢
  split at h
  · rename_i hc
    rw [if_pos hc]
    simp only [Bool.and_eq_true, List.all_eq_true, decide_eq_true_eq, Bool.or_eq_true, List.isEmpty_iff] at hc
    obtain ⟨⟨⟨c1, c2⟩, c3⟩, c4⟩ := hc
    intro e he
    obtain ⟨k1, k2, k3, k4⟩ := onAll_spec h (List.mem_map_of_mem (f := b.enter) he)
    refine ⟨k1, fun c hc => ?_, fun c hc => ?_, fun c hc => ?_⟩
    · have := c1 c (k2 c hc)
      exact ⟨List.mem_map_of_mem (k2 c hc), by rw [this.2]; exact this.1, this.2⟩
    · have := c2 c (k3 c hc)
      refine ⟨List.mem_map_of_mem (k3 c hc), by rw [this.2]; exact this.1, this.2, ?_⟩
      rcases c4 with c4 | c4
      · exact c4
      · have := k3 c hc
        rw [c4.1] at this
        cases this
    · have := c3 c (k4 c hc)
      refine ⟨List.mem_map_of_mem (k4 c hc), by rw [this.2]; exact this.1, this.2, ?_⟩
      rcases c4 with c4 | c4
      · exact c4
      · have := k4 c hc
        rw [c4.2] at this
        cases this
  · cases h

theorem walk_sound {G : St → Out → Prop} {f : A → Res} (hs : Snd d G f) {k : GK} {n : Nat}
    (hok : (iter (pass k f) n [a]).ok = true) {l : List (PV × PV)} {o : Out} (h : Walk G l σ o)
    (hg : Good (gsBlocks l ++ R) σ) (ha : Abs σ a) (h1 : σ.ptr .g_n = .unset) (h2 : σ.ptr .g_k = .unset)
    (hl : ∀ g ∈ l, (g.1.kind, g.2.kind) ∈ GK.ok.pairs) : Sat d R (iter (pass k f) n [a]) o := by
  obtain ⟨T, t1, t2, t3⟩ := iter_spec hok
  have key : ∀ l σ o, Walk G l σ o → Good (gsBlocks l ++ R) σ → (∃ b ∈ T, Abs σ b) → σ.ptr .g_n = .unset →
      σ.ptr .g_k = .unset → (∀ g ∈ l, (g.1.kind, g.2.kind) ∈ GK.ok.pairs) →
      Sat d R (iter (pass k f) n [a]) o := by
    intro l σ o h
    induction h with
    | nil => rintro hg ⟨b, hb, hab⟩ - - -; exact ⟨hg, b, t3 b hb, hab⟩
    | @more g l σ σ' o hG _ ih =>
      rintro hg ⟨b, hb, hab⟩ h1 h2 hl
      obtain ⟨k1, k2, -, -⟩ := t2 b hb
      obtain ⟨p1, p2, -, -⟩ := pass_spec k1 _ (hl g (List.mem_cons_self ..))
      obtain ⟨hg', c, hc, hac⟩ := hs _ _ _ _ (good_enter hg h1 h2) (abs_enter hab g) p1 hG
      obtain ⟨q1, q2, -⟩ := p2 c hc
      exact ih (good_next hg') ⟨_, k2 _ q1, abs_next hac q2⟩ (next_unset _).1 (next_unset _).2
        fun g hg => hl g (List.mem_cons_of_mem _ hg)
    | @brk g l σ σ' hG =>
      rintro hg ⟨b, hb, hab⟩ h1 h2 hl
      obtain ⟨k1, -, -, k4⟩ := t2 b hb
      obtain ⟨p1, -, -, p4⟩ := pass_spec k1 _ (hl g (List.mem_cons_self ..))
      obtain ⟨hg', c, hc, hac⟩ := hs _ _ _ _ (good_enter hg h1 h2) (abs_enter hab g) p1 hG
      obtain ⟨q1, q2, q3, q4⟩ := p4 c hc
      refine ⟨good_follow (good_next hg'), _, k4 _ q1, abs_follow (abs_next hac q2) fun g hg => ?_⟩
      show _ ∈ c.gs.pairs
      rw [q3, q4]
      exact hl g (List.mem_cons_of_mem _ hg)
    | @ret g l σ σ' hG =>
      rintro hg ⟨b, hb, hab⟩ h1 h2 hl
      obtain ⟨k1, -, k3, -⟩ := t2 b hb
      obtain ⟨p1, -, p3, -⟩ := pass_spec k1 _ (hl g (List.mem_cons_self ..))
      obtain ⟨hg', c, hc, hac⟩ := hs _ _ _ _ (good_enter hg h1 h2) (abs_enter hab g) p1 hG
      obtain ⟨q1, q2, q3, q4⟩ := p3 c hc
      refine ⟨good_follow (good_next hg'), _, k3 _ q1, abs_follow (abs_next hac q2) fun g hg => ?_⟩
      show _ ∈ c.gs.pairs
      rw [q3, q4]
      exact hl g (List.mem_cons_of_mem _ hg)
    | @stop g l σ hG =>
      rintro hg ⟨b, hb, hab⟩ h1 h2 hl
      obtain ⟨k1, -, -, -⟩ := t2 b hb
      obtain ⟨p1, -, -, -⟩ := pass_spec k1 _ (hl g (List.mem_cons_self ..))
      exact hs _ _ _ _ (good_enter hg h1 h2) (abs_enter hab g) p1 hG
    | @bad g l σ hG =>
      rintro hg ⟨b, hb, hab⟩ h1 h2 hl
      obtain ⟨k1, -, -, -⟩ := t2 b hb
      obtain ⟨p1, -, -, -⟩ := pass_spec k1 _ (hl g (List.mem_cons_self ..))
      exact hs _ _ _ _ (good_enter hg h1 h2) (abs_enter hab g) p1 hG
  exact key l σ o h hg ⟨a, t1 a (List.mem_cons_self ..), ha⟩ h1 h2 hl

/-! ### Calls -/

/-- The blocks of the locals. -/
def locBlocks (f : Ptr → PV) : List Nat := (allPtrs.filter fun p => ! p.isMember).flatMap fun p => (f p).blocks

/-- The blocks of the members. -/
def memBlocks (f : Ptr → PV) : List Nat := (allPtrs.filter fun p => p.isMember).flatMap fun p => (f p).blocks

theorem ptrBlocks_mem_loc (f : Ptr → PV) : (ptrBlocks f).Perm (memBlocks f ++ locBlocks f) := by
  have h := (List.filter_append_perm (fun p : Ptr => p.isMember) allPtrs).symm
  have := h.flatMap_right fun p => (f p).blocks
  rwa [List.flatMap_append] at this

theorem memBlocks_congr {f f' : Ptr → PV} (h : ∀ p, p.isMember = true → f p = f' p) : memBlocks f = memBlocks f' :=
  List.flatMap_congr fun p hp => by rw [h p (List.mem_filter.1 hp).2]

theorem locBlocks_congr {f f' : Ptr → PV} (h : ∀ p, p.isMember = false → (f p).blocks = (f' p).blocks) :
    locBlocks f = locBlocks f' :=
  List.flatMap_congr fun p hp => by
    have := (List.mem_filter.1 hp).2
    rw [h p (by simpa using this)]

theorem good_call (h : Good R σ) : Good (locBlocks σ.ptr ++ R) σ.call := by
  refine ⟨h.1.trans ?_, h.2⟩
  have e1 : memBlocks σ.call.ptr = memBlocks σ.ptr := memBlocks_congr fun p hp => by
    show (if p.isMember then _ else _) = _
    rw [if_pos hp]
  have e2 : locBlocks σ.call.ptr = [] := by
    refine List.flatMap_eq_nil_iff.2 fun p hp => ?_
    have := (List.mem_filter.1 hp).2
    show (if p.isMember then σ.ptr p else PV.unset).blocks = []
    rw [if_neg (by simpa using this)]
    rfl
  have p1 := ptrBlocks_mem_loc σ.ptr
  have p2 := ptrBlocks_mem_loc σ.call.ptr
  rw [e1, e2, List.append_nil] at p2
  unfold own
  show (ptrBlocks σ.ptr ++ gsBlocks σ.gs ++ R).Perm (ptrBlocks σ.call.ptr ++ gsBlocks σ.gs ++ (locBlocks σ.ptr ++ R))
  refine ((p1.append_right _).append_right _).trans ?_
  refine List.Perm.trans ?_ ((p2.symm.append_right _).append_right _)
  simp only [List.append_assoc]
  refine List.Perm.append_left _ ?_
  rw [← List.append_assoc, ← List.append_assoc]
  exact List.Perm.append_right _ List.perm_append_comm

theorem abs_call (h : Abs σ a) : Abs σ.call a.call := by
  refine ⟨fun p => ?_, h.2⟩
  simp only [St.call, A.call]
  split
  · exact h.1 p
  · rfl

theorem back_sound {σ' : St} {a' : A} (ha : Abs σ a) (h : Good (locBlocks σ.ptr ++ R) σ') (ha' : Abs σ' a')
    (ht : a'.tidy = true) :
    ∃ τ, σ.back σ' = .go τ ∧ Good R τ ∧ Abs τ (a.back a') := by
  have hl : ∀ p, p.isMember = false → (σ'.ptr p).blocks = [] := by
    intro p hp
    simp only [A.tidy, List.all_eq_true, Bool.or_eq_true, Bool.not_eq_true', decide_eq_false_iff_not] at ht
    rcases ht p (mem_allPtrs p) with h' | h'
    · rw [hp] at h'; cases h'
    · exact kind_blocks (by rw [ha'.1]; exact h')
  refine ⟨{ σ' with ptr := fun p => if p.isMember then σ'.ptr p else σ.ptr p }, ?_, ?_, ?_⟩
  · unfold St.back
    rw [if_neg]
    rintro ⟨p, -, hp, hb⟩
    exact hb (hl p hp)
  · refine ⟨h.1.trans ?_, h.2⟩
    have e1 : memBlocks (fun p => if p.isMember then σ'.ptr p else σ.ptr p) = memBlocks σ'.ptr :=
      memBlocks_congr fun p hp => by rw [if_pos hp]
    have e2 : locBlocks (fun p => if p.isMember then σ'.ptr p else σ.ptr p) = locBlocks σ.ptr :=
      locBlocks_congr fun p hp => by rw [if_neg (by simp [hp])]
    have e3 : locBlocks σ'.ptr = [] := by
      refine List.flatMap_eq_nil_iff.2 fun p hp => ?_
      exact hl p (by simpa using (List.mem_filter.1 hp).2)
    have p1 := ptrBlocks_mem_loc σ'.ptr
    have p2 := ptrBlocks_mem_loc (fun p => if p.isMember then σ'.ptr p else σ.ptr p)
    rw [e1, e2] at p2
    rw [e3, List.append_nil] at p1
    unfold own
    show (ptrBlocks σ'.ptr ++ gsBlocks σ'.gs ++ (locBlocks σ.ptr ++ R)).Perm
      (ptrBlocks (fun p => if p.isMember then σ'.ptr p else σ.ptr p) ++ gsBlocks σ'.gs ++ R)
    refine ((p1.append_right _).append_right _).trans ?_
    refine List.Perm.trans ?_ ((p2.symm.append_right _).append_right _)
    simp only [List.append_assoc]
    refine List.Perm.append_left _ ?_
    rw [← List.append_assoc, ← List.append_assoc]
    exact List.Perm.append_right _ List.perm_append_comm
  · refine ⟨fun p => ?_, ha'.2⟩
    simp only [A.back]
    split
    · exact ha'.1 p
    · exact ha.1 p

end sound

/-- The analysis is sound. -/
theorem sound (d : Dim) (s : Skel) : Snd d (Go d s) (post d s) := by
  induction s with
  | skip => rintro R σ a o hg ha - rfl; exact ⟨hg, a, List.mem_cons_self .., ha⟩
  | ret => rintro R σ a o hg ha - rfl; exact ⟨hg, a, List.mem_cons_self .., ha⟩
  | brk => rintro R σ a o hg ha - rfl; exact ⟨hg, a, List.mem_cons_self .., ha⟩
  | known =>
    rintro R σ a o hg ha - rfl
    rw [post]
    split
    · assumption
    · exact ⟨hg, a, List.mem_cons_self .., ha⟩
  | push =>
    rintro R σ a o hg ha hok rfl
    rw [post] at hok ⊢
    split at hok
    · rename_i h
      rw [if_pos h]
      exact push_sound hg ha h
    · cases hok
  | alloc p =>
    rintro R σ a o hg ha hok rfl
    rw [post] at hok ⊢
    split at hok
    · cases hok
    · rename_i h
      rw [if_neg h]
      exact alloc_sound hg ha h
  | free p =>
    rintro R σ a o hg ha hok rfl
    exact free_sound hg ha hok
  | null p =>
    rintro R σ a o hg ha hok rfl
    rw [post] at hok ⊢
    split at hok
    · cases hok
    · rename_i h
      rw [if_neg h]
      exact null_sound hg ha h
  | use p =>
    rintro R σ a o hg ha hok rfl
    rw [post] at hok ⊢
    split at hok
    · rename_i h
      rw [if_pos h]
      exact use_sound hg ha h
    · cases hok
  | seq s t ihs iht =>
    intro R σ a o hg ha hok h
    simp only [post, Bool.and_eq_true] at hok ⊢
    rcases h with ⟨σ', h1, h2⟩ | ⟨h1, hne⟩
    · obtain ⟨hg', b, hb, hab⟩ := ihs R σ a _ hg ha hok.1 h1
      obtain ⟨k1, k2, k3, k4⟩ := onAll_spec hok.2 hb
      exact (iht R σ' b o hg' hab k1 h2).mono k2 (fun c hc => mem_dd (List.mem_append_right _ (k3 c hc)))
        fun c hc => mem_dd (List.mem_append_right _ (k4 c hc))
    · have := ihs R σ a _ hg ha hok.1 h1
      cases o with
      | go σ' => exact absurd rfl (hne σ')
      | ret σ' => obtain ⟨g, c, hc, hac⟩ := this; exact ⟨g, c, mem_dd (List.mem_append_left _ hc), hac⟩
      | brk σ' => obtain ⟨g, c, hc, hac⟩ := this; exact ⟨g, c, mem_dd (List.mem_append_left _ hc), hac⟩
      | stop => exact this
      | bad => exact this
  | alt s t ihs iht =>
    intro R σ a o hg ha hok h
    simp only [post, Res.or, Bool.and_eq_true] at hok ⊢
    rcases h with h | h
    · exact (ihs R σ a o hg ha hok.1 h).mono (fun c hc => mem_dd (List.mem_append_left _ hc))
        (fun c hc => mem_dd (List.mem_append_left _ hc)) fun c hc => mem_dd (List.mem_append_left _ hc)
    · exact (iht R σ a o hg ha hok.2 h).mono (fun c hc => mem_dd (List.mem_append_right _ hc))
        (fun c hc => mem_dd (List.mem_append_right _ hc)) fun c hc => mem_dd (List.mem_append_right _ hc)
  | loop s ih => exact loop_sound ih 6
  | ifNull p s t ihs iht =>
    intro R σ a o hg ha hok h
    have hk := ha.1 p
    rw [post] at hok ⊢
    rw [Go] at h
    cases hv : σ.ptr p with
    | unset => rw [hv] at hk; rw [← hk] at hok; cases hok
    | null =>
      rw [hv] at hk h
      rw [← hk] at hok ⊢
      exact ihs R σ a o hg ha hok h
    | «at» n =>
      rw [hv] at hk h
      rw [← hk] at hok ⊢
      exact iht R σ a o hg ha hok h
  | ifDim e s t ihs iht =>
    intro R σ a o hg ha hok h
    rw [post] at hok ⊢
    rw [Go] at h
    by_cases hd : d = e
    · rw [if_pos hd] at hok h ⊢
      exact ihs R σ a o hg ha hok h
    · rw [if_neg hd] at hok h ⊢
      exact iht R σ a o hg ha hok h
  | each s ih =>
    intro R σ a o hg ha hok h
    rw [post] at hok ⊢
    rw [Go] at h
    split at hok
    · rename_i hc
      rw [if_pos hc]
      have key : ∀ p, a.ptr p = .unset → σ.ptr p = .unset := by
        intro p h
        have := ha.1 p
        rw [h] at this
        cases hv : σ.ptr p with
        | unset => rfl
        | _ => rw [hv] at this; cases this
      have h1 := key _ hc.1
      have h2 := key _ hc.2.1
      rw [if_pos ⟨h1, h2⟩] at h
      have hl : ∀ g ∈ σ.gs, (g.1.kind, g.2.kind) ∈ GK.ok.pairs := by
        have := ha.2
        rwa [hc.2.2] at this
      have hg0 : Good (gsBlocks σ.gs ++ R) { σ with gs := [] } := by
        have : own { σ with gs := [] } = ptrBlocks σ.ptr := List.append_nil _
        unfold Good at hg ⊢
        rw [this, ← List.append_assoc]
        exact hg
      simp only at hok ⊢
      split at hok
      · rename_i hr
        rw [if_pos hr]
        exact walk_sound ih hok h hg0 ⟨ha.1, by intro g hg; cases hg⟩ h1 h2 hl
      · rename_i hr
        rw [if_neg hr]
        exact walk_sound ih hok h hg0 (a := { a with gs := .dead }) ⟨ha.1, by intro g hg; cases hg⟩ h1 h2 hl
    · cases hok
  | frame s ih =>
    intro R σ a o hg ha hok h
    simp only [post] at hok ⊢
    split at hok
    · rename_i hc
      rw [if_pos hc]
      simp only [Bool.and_eq_true, List.all_eq_true, List.isEmpty_iff] at hc
      have hs := fun o => ih (locBlocks σ.ptr ++ R) σ.call a.call o (good_call hg) (abs_call ha) hok
      rcases h with ⟨σ', h1, rfl⟩ | ⟨σ', h1, rfl⟩ | ⟨h0, h1⟩
      · have : Good (locBlocks σ.ptr ++ R) σ' ∧ ∃ b ∈ dd ((post d s a.call).go ++ (post d s a.call).ret), Abs σ' b := by
          rcases h1 with h1 | h1
          · obtain ⟨g, b, hb, hab⟩ := hs _ h1
            exact ⟨g, b, mem_dd (List.mem_append_left _ hb), hab⟩
          · obtain ⟨g, b, hb, hab⟩ := hs _ h1
            exact ⟨g, b, mem_dd (List.mem_append_right _ hb), hab⟩
        obtain ⟨g, b, hb, hab⟩ := this
        obtain ⟨τ, e, g', hab'⟩ := back_sound ha g hab (hc.1 b hb)
        rw [e]
        exact ⟨g', _, List.mem_map_of_mem hb, hab'⟩
      · obtain ⟨g, b, hb, -⟩ := hs _ h1
        rw [hc.2] at hb
        cases hb
      · have := hs _ h1
        rcases h0 with rfl | rfl
        · exact this
        · exact this
    · cases hok

/-! ## There is a path through every statement -/

theorem walk_total {G : St → Out → Prop} (h : ∀ σ, ∃ o, G σ o) (l : List (PV × PV)) (σ : St) : ∃ o, Walk G l σ o := by
  induction l generalizing σ with
  | nil => exact ⟨_, .nil⟩
  | cons g l ih =>
    obtain ⟨o, ho⟩ := h (σ.enter g)
    cases o with
    | go σ' => obtain ⟨o, h'⟩ := ih σ'.next; exact ⟨o, .more ho h'⟩
    | ret σ' => exact ⟨_, .ret ho⟩
    | brk σ' => exact ⟨_, .brk ho⟩
    | stop => exact ⟨_, .stop ho⟩
    | bad => exact ⟨_, .bad ho⟩

theorem go_total (d : Dim) (s : Skel) (σ : St) : ∃ o, Go d s σ o := by
  induction s generalizing σ with
  | seq s t ihs iht =>
    obtain ⟨o, h⟩ := ihs σ
    cases o with
    | go σ' => obtain ⟨o, h'⟩ := iht σ'; exact ⟨o, .inl ⟨σ', h, h'⟩⟩
    | ret σ' => exact ⟨_, .inr ⟨h, fun _ e => by cases e⟩⟩
    | brk σ' => exact ⟨_, .inr ⟨h, fun _ e => by cases e⟩⟩
    | stop => exact ⟨_, .inr ⟨h, fun _ e => by cases e⟩⟩
    | bad => exact ⟨_, .inr ⟨h, fun _ e => by cases e⟩⟩
  | alt s t ihs iht => obtain ⟨o, h⟩ := ihs σ; exact ⟨o, .inl h⟩
  | loop s ih => exact ⟨_, .done⟩
  | ifNull p s t ihs iht =>
    simp only [Go]
    cases σ.ptr p with
    | unset => exact ⟨_, rfl⟩
    | null => exact ihs σ
    | «at» n => exact iht σ
  | ifDim e s t ihs iht =>
    simp only [Go]
    split
    · exact ihs σ
    · exact iht σ
  | each s ih =>
    simp only [Go]
    split
    · exact walk_total ih _ _
    · exact ⟨_, rfl⟩
  | frame s ih =>
    obtain ⟨o, h⟩ := ih σ.call
    cases o with
    | go σ' => exact ⟨_, .inl ⟨σ', .inl h, rfl⟩⟩
    | ret σ' => exact ⟨_, .inl ⟨σ', .inr h, rfl⟩⟩
    | brk σ' => exact ⟨_, .inr (.inl ⟨σ', h, rfl⟩)⟩
    | stop => exact ⟨_, .inr (.inr ⟨.inl rfl, h⟩)⟩
    | bad => exact ⟨_, .inr (.inr ⟨.inr rfl, h⟩)⟩
  | _ => exact ⟨_, rfl⟩

/-! ## Bad steps -/

theorem seq_bad {d : Dim} {s t : Skel} {σ : St} {o : Out} (h : ∀ o, Go d s σ o → o = .bad)
    (hg : Go d (s +> t) σ o) : o = .bad := by
  rcases hg with ⟨σ', h1, -⟩ | ⟨h1, -⟩
  · cases h _ h1
  · exact h _ h1

theorem frame_bad {d : Dim} {s : Skel} {σ : St} {o : Out} (h : ∀ o, Go d s σ.call o → o = .bad)
    (hg : Go d (.frame s) σ o) : o = .bad := by
  rcases hg with ⟨σ', h1 | h1, -⟩ | ⟨σ', h1, -⟩ | ⟨-, h1⟩
  · cases h _ h1
  · cases h _ h1
  · cases h _ h1
  · exact h _ h1

/-! ## What a statement leaves alone -/

/-- Does the statement set or release `p` in this activation, or, if `p` is a member, in a call? -/
def writes (p : Ptr) : Skel → Bool
  | .alloc q | .free q | .null q => decide (q = p)
  | .seq s t | .alt s t | .ifNull _ s t | .ifDim _ s t => writes p s || writes p t
  | .loop s | .each s | .frame s => writes p s
  | _ => false

/-- Does it go through the list or add to it? -/
def lists : Skel → Bool
  | .push | .each _ => true
  | .seq s t | .alt s t | .ifNull _ s t | .ifDim _ s t => lists s || lists t
  | .loop s | .frame s => lists s
  | _ => false

/-- What is said of the state of an outcome. -/
def Out.All (P : St → Prop) : Out → Prop
  | .go σ | .ret σ | .brk σ => P σ
  | _ => True

theorem set_other {σ : St} {p q : Ptr} {v : PV} (h : q ≠ p) : (σ.set p v).ptr q = σ.ptr q := by
  show (if q = p then v else σ.ptr q) = _
  rw [if_neg h]

/-- A statement that does not go through the list and does not write `p` leaves both. -/
theorem go_keep {d : Dim} {s : Skel} {p : Ptr} (hp : p.isMember = true) (hw : writes p s = false) (hl : lists s = false)
    {σ : St} {o : Out} (h : Go d s σ o) : o.All fun σ' => σ'.ptr p = σ.ptr p ∧ σ'.gs = σ.gs := by
  induction s generalizing σ o with
  | skip => rw [Go] at h; rw [h]; exact ⟨rfl, rfl⟩
  | ret => rw [Go] at h; rw [h]; exact ⟨rfl, rfl⟩
  | brk => rw [Go] at h; rw [h]; exact ⟨rfl, rfl⟩
  | known =>
    rw [Go] at h
    rw [h]
    split
    · trivial
    · exact ⟨rfl, rfl⟩
  | push => cases hl
  | alloc q =>
    have hq : p ≠ q := fun e => by simp [writes, e] at hw
    rw [Go] at h
    rw [h, allocTo]
    split
    · trivial
    · exact ⟨set_other hq, rfl⟩
  | free q =>
    have hq : p ≠ q := fun e => by simp [writes, e] at hw
    rw [Go] at h
    rw [h, freeOf]
    split
    · trivial
    · exact ⟨rfl, rfl⟩
    · split
      · exact ⟨set_other hq, rfl⟩
      · trivial
  | null q =>
    have hq : p ≠ q := fun e => by simp [writes, e] at hw
    rw [Go] at h
    rw [h, nullTo]
    split
    · trivial
    · exact ⟨set_other hq, rfl⟩
  | use q =>
    rw [Go] at h
    rw [h, useOf]
    split
    · split
      · exact ⟨rfl, rfl⟩
      · trivial
    · trivial
  | seq s t ihs iht =>
    simp only [writes, lists, Bool.or_eq_false_iff] at hw hl
    rcases h with ⟨σ', h1, h2⟩ | ⟨h1, -⟩
    · have e1 := ihs hw.1 hl.1 h1
      have e2 := iht hw.2 hl.2 h2
      simp only [Out.All] at e1
      rw [← e1.1, ← e1.2]
      exact e2
    · exact ihs hw.1 hl.1 h1
  | alt s t ihs iht =>
    simp only [writes, lists, Bool.or_eq_false_iff] at hw hl
    rcases h with h | h
    · exact ihs hw.1 hl.1 h
    · exact iht hw.2 hl.2 h
  | loop s ih =>
    simp only [writes, lists] at hw hl
    rw [Go] at h
    induction h with
    | done => exact ⟨rfl, rfl⟩
    | more h1 _ ih' =>
      have e1 := ih hw hl h1
      simp only [Out.All] at e1
      rw [← e1.1, ← e1.2]
      exact ih'
    | brk h1 => have e := ih hw hl h1; exact e
    | leave _ h1 => exact ih hw hl h1
  | ifNull q s t ihs iht =>
    simp only [writes, lists, Bool.or_eq_false_iff] at hw hl
    simp only [Go] at h
    split at h
    · rw [h]; trivial
    · exact ihs hw.1 hl.1 h
    · exact iht hw.2 hl.2 h
  | ifDim e s t ihs iht =>
    simp only [writes, lists, Bool.or_eq_false_iff] at hw hl
    simp only [Go] at h
    split at h
    · exact ihs hw.1 hl.1 h
    · exact iht hw.2 hl.2 h
  | each s ih => cases hl
  | frame s ih =>
    simp only [writes, lists] at hw hl
    have ec : σ.call.ptr p = σ.ptr p := by
      show (if p.isMember then _ else PV.unset) = _
      rw [if_pos hp]
    have key : ∀ σ', σ'.ptr p = σ.call.ptr p ∧ σ'.gs = σ.call.gs →
        (σ.back σ').All fun τ => τ.ptr p = σ.ptr p ∧ τ.gs = σ.gs := by
      rintro σ' ⟨e1, e2⟩
      unfold St.back
      split
      · trivial
      · refine ⟨?_, e2⟩
        show (if p.isMember then σ'.ptr p else σ.ptr p) = _
        rw [if_pos hp, e1, ec]
    rcases h with ⟨σ', h1 | h1, rfl⟩ | ⟨σ', h1, rfl⟩ | ⟨h0, h1⟩
    · exact key _ (ih hw hl h1)
    · exact key _ (ih hw hl h1)
    · trivial
    · rcases h0 with rfl | rfl <;> trivial

end Verif.Blocks
