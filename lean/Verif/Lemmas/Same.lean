import Verif.Lemmas.SafeApi
import Verif.Lemmas.Fields
import Verif.Lemmas.Build

/-!
# Two runs from memory with different contents

`Rel R m m'`: the two computations end with the same fault, or return results related by `R`.
`Same b b'`: blocks of the same size that agree on every entry.
-/

namespace Verif

/-- The two computations fault alike or return related results. -/
def Rel {β γ : Type} (R : β → γ → Prop) : M β → M γ → Prop
  | .ok x, .ok y => R x y
  | .error e, .error e' => e = e'
  | _, _ => False

namespace Rel
variable {β β' γ γ' σ σ' : Type}

theorem ok {R : β → β' → Prop} {x : β} {y : β'} (h : R x y) : Rel R (.ok x) (.ok y) := h

theorem pure {R : β → β' → Prop} {x : β} {y : β'} (h : R x y) :
    Rel R (Pure.pure x) (Pure.pure y) := h

theorem error (e : Fault) {R : β → β' → Prop} : Rel R (.error e) (.error e) := rfl

theorem bind {R : β → β' → Prop} {Q : γ → γ' → Prop} {m : M β} {m' : M β'} {f : β → M γ}
    {f' : β' → M γ'} (h : Rel R m m') (hf : ∀ x y, R x y → Rel Q (f x) (f' y)) :
    Rel Q (m >>= f) (m' >>= f') := by
  rcases m with e | x <;> rcases m' with e' | y
  · exact h
  · exact h.elim
  · exact h.elim
  · exact hf x y h

theorem eqBind {Q : γ → γ' → Prop} {m m' : M β} {f : β → M γ} {f' : β → M γ'} (h : m = m')
    (hf : ∀ x, Rel Q (f x) (f' x)) : Rel Q (m >>= f) (m' >>= f') := by
  subst h
  rcases m with e | x
  · exact rfl
  · exact hf x

theorem loop {R : σ → σ' → Prop} {n : Nat} {f : Nat → σ → M σ} {f' : Nat → σ' → M σ'} {s : σ}
    {s' : σ'} (h0 : R s s') (h : ∀ i s s', i < n → R s s' → Rel R (f i s) (f' i s')) :
    Rel R (Verif.loop n f s) (Verif.loop n f' s') := by
  induction n with
  | zero => exact h0
  | succ n ih =>
    rw [loop_succ, loop_succ]
    exact bind (ih fun i s s' hi => h i s s' (by omega)) fun x y hxy => h n x y (by omega) hxy

theorem loopFrom {R : σ → σ' → Prop} {a b : Nat} {f : Nat → σ → M σ} {f' : Nat → σ' → M σ'} {s : σ}
    {s' : σ'} (h0 : R s s') (h : ∀ i s s', R s s' → Rel R (f i s) (f' i s')) :
    Rel R (Verif.loopFrom a b f s) (Verif.loopFrom a b f' s') :=
  loop h0 fun i s s' _ => h _ s s'

theorem loopList {R : σ → σ' → Prop} {ι : Type} {l : List ι} {f : ι → σ → M σ}
    {f' : ι → σ' → M σ'} {s : σ} {s' : σ'} (h0 : R s s')
    (h : ∀ i s s', R s s' → Rel R (f i s) (f' i s')) :
    Rel R (Verif.loopList l f s) (Verif.loopList l f' s') := by
  induction l generalizing s s' with
  | nil => exact h0
  | cons a l ih => exact bind (h a s s' h0) fun x y hxy => ih hxy

theorem ifRun {R : σ → σ' → Prop} {p : Prop} [Decidable p] {f : σ → M σ} {f' : σ' → M σ'} {s : σ}
    {s' : σ'} (h0 : R s s') (h : ∀ s s', R s s' → Rel R (f s) (f' s')) :
    Rel R (Verif.ifRun p f s) (Verif.ifRun p f' s') := by
  unfold Verif.ifRun
  split
  · exact h _ _ h0
  · exact h0

theorem mono {R Q : β → β' → Prop} {m : M β} {m' : M β'} (h : Rel R m m')
    (hRQ : ∀ x y, m = .ok x → m' = .ok y → R x y → Q x y) : Rel Q m m' := by
  rcases m with e | x <;> rcases m' with e' | y
  · exact h
  · exact h.elim
  · exact h.elim
  · exact hRQ x y rfl rfl h

theorem of_eq {R : β → β → Prop} (hR : ∀ x, R x x) {m m' : M β} (h : m = m') : Rel R m m' := by
  subst h
  rcases m with e | x
  · exact rfl
  · exact hR x

theorem eq {m m' : M β} (h : Rel (fun x y => x = y) m m') : m = m' := by
  rcases m with e | x <;> rcases m' with e' | y
  · rw [show e = e' from h]
  · exact h.elim
  · exact h.elim
  · rw [show x = y from h]

end Rel

/-- Same size, same entries. -/
def Same {α : Type} (b b' : Buf α) : Prop := b.size = b'.size ∧ ∀ k, k < b.size → b.val k = b'.val k

namespace Same
variable {α : Type}

theorem rfl' (b : Buf α) : Same b b := ⟨rfl, fun _ _ => rfl⟩

theorem symm {b b' : Buf α} (h : Same b b') : Same b' b :=
  ⟨h.1.symm, fun k hk => (h.2 k (by rw [h.1]; exact hk)).symm⟩

theorem read {b b' : Buf α} (h : Same b b') (i : Nat) : b.read i = b'.read i := by
  unfold Buf.read
  by_cases hi : i < b.size
  · rw [if_pos hi, if_pos (by rw [← h.1]; exact hi), h.2 i hi]
  · rw [if_neg hi, if_neg (by rw [← h.1]; exact hi)]

theorem readI {b b' : Buf α} (h : Same b b') (i : Int) : b.readI i = b'.readI i := by
  unfold Buf.readI
  split
  · exact h.read _
  · rfl

theorem write {b b' : Buf α} (h : Same b b') (i : Nat) (v : α) :
    Rel Same (b.write i v) (b'.write i v) := by
  unfold Buf.write
  by_cases hi : i < b.size
  · rw [if_pos hi, if_pos (by rw [← h.1]; exact hi)]
    refine ⟨h.1, fun k hk => ?_⟩
    show (if k = i then v else b.val k) = if k = i then v else b'.val k
    split
    · rfl
    · exact h.2 k hk
  · rw [if_neg hi, if_neg (by rw [← h.1]; exact hi)]
    exact rfl

end Same

variable {α : Type} [Scalar α]

/-! ## Matrices -/

/-- The same matrix as far as entries within the blocks go. -/
structure EllSame (m m' : Ell α) : Prop where
  nrow : m.nrow = m'.nrow
  ncol : m.ncol = m'.ncol
  nnz : m.nnz = m'.nnz
  cols : Same m.cols m'.cols
  vals : Same m.vals m'.vals

/-- The same shape; the values are arbitrary. -/
structure EllShape (m m' : Ell α) : Prop where
  nrow : m.nrow = m'.nrow
  ncol : m.ncol = m'.ncol
  nnz : m.nnz = m'.nnz
  cols : Same m.cols m'.cols

theorem EllSame.shape {m m' : Ell α} (h : EllSame m m') : EllShape m m' :=
  ⟨h.nrow, h.ncol, h.nnz, h.cols⟩

theorem setZero_same {m m' : Ell α} (hm : m.vals.size = m.nnz * m.nrow)
    (hm' : m'.vals.size = m'.nnz * m'.nrow) (h : EllShape m m') :
    Rel EllSame (ellSetZeroMat m) (ellSetZeroMat m') := by
  obtain ⟨v, h1, h2, h3⟩ := ellSetZeroMat_eq hm
  obtain ⟨v', h1', h2', h3'⟩ := ellSetZeroMat_eq hm'
  rw [h1, h1']
  refine ⟨h.nrow, h.ncol, h.nnz, h.cols, by show v.size = v'.size; rw [h2, h2', h.nnz, h.nrow], ?_⟩
  intro k hk
  have hk : k < v.size := hk
  rw [h2] at hk
  show v.val k = v'.val k
  rw [h3 k hk, h3' k (by rw [← h.nnz, ← h.nrow]; exact hk)]

theorem addStruct2D_same {m m' : Ell α} (h : EllSame m m') {Ae Ae' : Buf α} (hA : Same Ae Ae')
    (ex ey nF nx ny : Nat) :
    Rel EllSame (ellAddStruct2D m ex ey Ae nF nx ny) (ellAddStruct2D m' ex ey Ae' nF nx ny) := by
  unfold ellAddStruct2D
  simp only [h.nnz]
  refine Rel.bind (R := Same) ?_ fun v v' hv => Rel.pure ⟨h.nrow, h.ncol, rfl, h.cols, hv⟩
  refine Rel.loop h.vals fun i s s' _ hs => Rel.loop hs fun n s s' _ hs =>
    Rel.loop hs fun k s s' _ hs => Rel.loop hs fun j s s' _ hs => ?_
  refine Rel.eqBind (hs.read _) fun a => Rel.eqBind (hA.read _) fun e => hs.write _ _

theorem addStruct3D_same {m m' : Ell α} (h : EllSame m m') {Ae Ae' : Buf α} (hA : Same Ae Ae')
    (ex ey ez nF nx ny nz : Nat) :
    Rel EllSame (ellAddStruct3D m ex ey ez Ae nF nx ny nz)
      (ellAddStruct3D m' ex ey ez Ae' nF nx ny nz) := by
  unfold ellAddStruct3D
  simp only [h.nnz]
  refine Rel.bind (R := Same) ?_ fun v v' hv => Rel.pure ⟨h.nrow, h.ncol, rfl, h.cols, hv⟩
  refine Rel.loop h.vals fun i s s' _ hs => Rel.loop hs fun n s s' _ hs =>
    Rel.loop hs fun k s s' _ hs => Rel.loop hs fun j s s' _ hs => ?_
  refine Rel.eqBind (hs.read _) fun a => Rel.eqBind (hA.read _) fun e => hs.write _ _

theorem idRow_same (nF nnz slot n d : Nat) {v v' : Buf α} (h : Same v v') :
    Rel Same (idRow nF nnz slot n d v) (idRow nF nnz slot n d v') :=
  Rel.bind (Rel.loop h fun _ _ _ _ hs => hs.write _ _) fun _ _ hs => hs.write _ _

theorem zeroSlots_same (nF nnz n d1 : Nat) (tmp : List Nat) {v v' : Buf α} (h : Same v v') :
    Rel Same (zeroSlots nF nnz n d1 tmp v) (zeroSlots nF nnz n d1 tmp v') :=
  Rel.loopList h fun _ _ _ hs => Rel.loop hs fun _ _ _ _ hs => hs.write _ _

theorem setBc2D_same {m m' : Ell α} (h : EllSame m m') (nF nx ny : Nat) :
    Rel EllSame (ellSetBc2D m nF nx ny) (ellSetBc2D m' nF nx ny) := by
  unfold ellSetBc2D
  simp only [h.nnz]
  refine Rel.bind (R := Same) ?_ fun v v' hv => ?_
  · exact Rel.loop h.vals fun _ _ _ _ hs => Rel.loop hs fun _ _ _ _ hs => idRow_same _ _ _ _ _ hs
  iterate 3
    refine Rel.bind (R := Same) ?_ fun v v' hv => ?_
    · exact Rel.loop hv fun _ _ _ _ hs => Rel.loop hs fun _ _ _ _ hs => idRow_same _ _ _ _ _ hs
  iterate 4
    refine Rel.bind (R := Same) ?_ fun v v' hv => ?_
    · exact Rel.loop hv fun _ _ _ _ hs => Rel.loop hs fun _ _ _ _ hs => zeroSlots_same _ _ _ _ _ hs
  iterate 4
    refine Rel.bind (R := Same) ?_ fun v v' hv => ?_
    · exact Rel.loop hv fun _ _ _ _ hs => zeroSlots_same _ _ _ _ _ hs
  exact Rel.pure ⟨h.nrow, h.ncol, rfl, h.cols, hv⟩

theorem setBc3D_same {m m' : Ell α} (h : EllSame m m') (nF nx ny nz : Nat) :
    Rel EllSame (ellSetBc3D m nF nx ny nz) (ellSetBc3D m' nF nx ny nz) := by
  have id3 : ∀ (a b c : Nat) (f : Nat → Nat → Nat → Nat) {v v' : Buf α}, Same v v' →
      Rel Same (loop a (fun d v => loop b (fun i v => loop c (fun j v =>
        idRow nF m'.nnz 13 (f d i j) d v) v) v) v) (loop a (fun d v => loop b (fun i v => loop c
        (fun j v => idRow nF m'.nnz 13 (f d i j) d v) v) v) v') := fun a b c f v v' hv =>
    Rel.loop hv fun _ _ _ _ hs => Rel.loop hs fun _ _ _ _ hs => Rel.loop hs fun _ _ _ _ hs =>
      idRow_same _ _ _ _ _ hs
  have z3 : ∀ (a b b' c c' : Nat) (f : Nat → Nat → Nat → Nat) (l : List Nat) {v v' : Buf α},
      Same v v' → Rel Same (loop a (fun d v => loopFrom b b' (fun i v => loopFrom c c' (fun j v =>
        zeroSlots nF m'.nnz (f d i j) d l v) v) v) v) (loop a (fun d v => loopFrom b b' (fun i v =>
        loopFrom c c' (fun j v => zeroSlots nF m'.nnz (f d i j) d l v) v) v) v') :=
    fun a b b' c c' f l v v' hv =>
    Rel.loop hv fun _ _ _ _ hs => Rel.loopFrom hs fun _ _ _ hs => Rel.loopFrom hs fun _ _ _ hs =>
      zeroSlots_same _ _ _ _ _ hs
  unfold ellSetBc3D
  simp only [h.nnz]
  refine Rel.bind (id3 _ _ _ (fun _ i j => nodIndex nx ny i j 0) h.vals) fun v v' hv => ?_
  refine Rel.bind (id3 _ _ _ (fun _ i j => nodIndex nx ny i j (nz - 1)) hv) fun v v' hv => ?_
  refine Rel.bind (id3 _ _ _ (fun _ i k => nodIndex nx ny i 0 k) hv) fun v v' hv => ?_
  refine Rel.bind (id3 _ _ _ (fun _ i k => nodIndex nx ny i (ny - 1) k) hv) fun v v' hv => ?_
  refine Rel.bind (id3 _ _ _ (fun _ j k => nodIndex nx ny 0 j k) hv) fun v v' hv => ?_
  refine Rel.bind (id3 _ _ _ (fun _ j k => nodIndex nx ny (nx - 1) j k) hv) fun v v' hv => ?_
  refine Rel.bind (Rel.ifRun hv fun v v' hv =>
    z3 _ _ _ _ _ (fun _ i j => nodIndex nx ny i j 1) _ hv) fun v v' hv => ?_
  refine Rel.bind (Rel.ifRun hv fun v v' hv =>
    z3 _ _ _ _ _ (fun _ i j => nodIndex nx ny i j (nz - 2)) _ hv) fun v v' hv => ?_
  refine Rel.bind (Rel.ifRun hv fun v v' hv =>
    z3 _ _ _ _ _ (fun _ i k => nodIndex nx ny i 1 k) _ hv) fun v v' hv => ?_
  refine Rel.bind (z3 _ _ _ _ _ (fun _ i k => nodIndex nx ny i (ny - 2) k) _ hv) fun v v' hv => ?_
  refine Rel.bind (Rel.ifRun hv fun v v' hv =>
    z3 _ _ _ _ _ (fun _ j k => nodIndex nx ny 1 j k) _ hv) fun v v' hv => ?_
  refine Rel.bind (Rel.ifRun hv fun v v' hv =>
    z3 _ _ _ _ _ (fun _ j k => nodIndex nx ny (nx - 2) j k) _ hv) fun v v' hv => ?_
  exact Rel.pure ⟨h.nrow, h.ncol, rfl, h.cols, hv⟩

/-! ## Conjugate gradients -/

theorem dotA_congr {n : Nat} {a a' b b' : Nat → α} (ha : ∀ i, i < n → a i = a' i)
    (hb : ∀ i, i < n → b i = b' i) : dotA n a b = dotA n a' b' :=
  accum_congr (fun i s hi => by rw [ha i hi, hb i hi]) 0

theorem rowAcc_same {m m' : Ell α} (hm : m.WF) (h : EllSame m m') {x x' : Nat → α}
    (hx : ∀ i, i < m.nrow → x i = x' i) {i : Nat} (hi : i < m.nrow) :
    rowAcc m x i = rowAcc m' x' i := by
  unfold rowAcc
  rw [← h.nnz]
  refine accum_congr (fun j s hj => ?_) 0
  have hq : i * m.nnz + j < m.nnz * m.nrow := row_lt hi hj
  have h1 := h.vals.2 _ (by rw [hm.vals_size]; exact hq)
  have h2 := h.cols.2 _ (by rw [hm.cols_size]; exact hq)
  have h3 := hm.cols_range _ hq
  rw [← h1, ← h2, hx _ (by omega)]

/-- The parts of the solver state that are read later on. -/
structure CgSame (n : Nat) (s t : CgState α) : Prop where
  its : s.its = t.its
  x : ∀ i, i < n → s.x.val i = t.x.val i
  r : ∀ i, i < n → s.r.val i = t.r.val i
  p : s.its ≠ 0 → s.rho0 = t.rho0 ∧ ∀ i, i < n → s.p.val i = t.p.val i

theorem cgStep_same {m m' : Ell α} (hm : m.WF) (h : EllSame m m') {k k' : Nat → α}
    (hk : ∀ i, i < m.nrow → k i = k' i) {s s1 t t1 : CgState α} {e e' : α}
    (hs : CgStep m k s s1 e) (ht : CgStep m' k' t t1 e') (hst : CgSame m.nrow s t) :
    CgSame m.nrow s1 t1 := by
  have hn := h.nrow
  have hz : ∀ i, i < m.nrow → s1.z.val i = t1.z.val i := fun i hi => by
    rw [hs.z i hi, ht.z i (by omega), hk i hi, hst.r i hi]
  have hrho : s1.rho0 = t1.rho0 := by
    rw [hs.rho, ht.rho, ← hn]; exact dotA_congr hst.r hz
  have hp : ∀ i, i < m.nrow → s1.p.val i = t1.p.val i := fun i hi => by
    rw [hs.p i hi, ht.p i (by omega), hz i hi, hrho, ← hst.its]
    by_cases h0 : s.its = 0
    · rw [if_pos h0, if_pos h0]
    · obtain ⟨a, b⟩ := hst.p h0
      rw [if_neg h0, if_neg h0, a, b i hi]
  have hq : ∀ i, i < m.nrow → s1.q.val i = t1.q.val i := fun i hi => by
    rw [hs.q i hi, ht.q i (by omega)]
    exact rowAcc_same hm h hp hi
  have hd : dotA m.nrow s1.p.val s1.q.val = dotA m'.nrow t1.p.val t1.q.val := by
    rw [← hn]; exact dotA_congr hp hq
  refine ⟨by rw [hs.its, ht.its, hst.its], fun i hi => ?_, fun i hi => ?_, fun _ => ⟨hrho, hp⟩⟩
  · rw [hs.x i hi, ht.x i (by omega), hst.x i hi, hrho, hd, hp i hi]
  · rw [hs.r i hi, ht.r i (by omega), hst.r i hi, hrho, hd, hq i hi]

theorem cgLoop_same {m m' : Ell α} (hm : m.WF) (hm' : m'.WF) (h : EllSame m m') {k k' : Buf α}
    (hks : k.size = m.nrow) (hks' : k'.size = m'.nrow)
    (hk : ∀ i, i < m.nrow → k.val i = k'.val i) (maxIts : Int) (tol : α) :
    ∀ (f : Nat) (s t : CgState α), (maxIts - s.its).toNat ≤ f → s.WF m.nrow → t.WF m'.nrow →
      CgSame m.nrow s t →
      Rel (fun a b => (a.x.size = m.nrow ∧ b.x.size = m.nrow) ∧
        (∀ i, i < m.nrow → a.x.val i = b.x.val i) ∧ a.its = b.its ∧ a.err = b.err)
        (cgLoop m k maxIts tol s) (cgLoop m' k' maxIts tol t) := by
  intro f
  induction f with
  | zero =>
    intro s t hf hs ht hst
    have he : Scalar.sqrt (dotA m.nrow s.r.val s.r.val)
        = Scalar.sqrt (dotA m'.nrow t.r.val t.r.val) := by
      rw [← h.nrow, dotA_congr hst.r hst.r]
    rw [cgLoop, cgLoop, cgErr_eq hs, cgErr_eq ht, M_bind_ok', M_bind_ok', ← he]
    by_cases hlt : Scalar.lt (Scalar.sqrt (dotA m.nrow s.r.val s.r.val)) tol = true
    · rw [if_pos hlt, if_pos hlt]
      exact ⟨⟨hs.x, by rw [h.nrow]; exact ht.x⟩, hst.x, hst.its, rfl⟩
    · obtain ⟨s', a1, a2⟩ := cgBody_spec hm hks hs (Scalar.sqrt (dotA m.nrow s.r.val s.r.val))
      obtain ⟨t', b1, b2⟩ := cgBody_spec hm' hks' ht (Scalar.sqrt (dotA m.nrow s.r.val s.r.val))
      have c := cgStep_same hm h hk a2 b2 hst
      rw [if_neg hlt, if_neg hlt, a1, b1]
      show Rel _ (if _h : _ then _ else _) (if _h : _ then _ else _)
      have hti : (t.its : Int) = s.its := by rw [hst.its]
      rw [dif_neg (by omega), dif_neg (by omega)]
      exact ⟨⟨a2.wf.x, by rw [h.nrow]; exact b2.wf.x⟩, c.x, c.its, by rw [a2.err, b2.err]⟩
  | succ f ih =>
    intro s t hf hs ht hst
    have he : Scalar.sqrt (dotA m.nrow s.r.val s.r.val)
        = Scalar.sqrt (dotA m'.nrow t.r.val t.r.val) := by
      rw [← h.nrow, dotA_congr hst.r hst.r]
    rw [cgLoop, cgLoop, cgErr_eq hs, cgErr_eq ht, M_bind_ok', M_bind_ok', ← he]
    by_cases hlt : Scalar.lt (Scalar.sqrt (dotA m.nrow s.r.val s.r.val)) tol = true
    · rw [if_pos hlt, if_pos hlt]
      exact ⟨⟨hs.x, by rw [h.nrow]; exact ht.x⟩, hst.x, hst.its, rfl⟩
    · obtain ⟨s', a1, a2⟩ := cgBody_spec hm hks hs (Scalar.sqrt (dotA m.nrow s.r.val s.r.val))
      obtain ⟨t', b1, b2⟩ := cgBody_spec hm' hks' ht (Scalar.sqrt (dotA m.nrow s.r.val s.r.val))
      have c := cgStep_same hm h hk a2 b2 hst
      rw [if_neg hlt, if_neg hlt, a1, b1]
      show Rel _ (if _h : _ then _ else _) (if _h : _ then _ else _)
      have hti : (t.its : Int) = s.its := by rw [hst.its]
      by_cases hc : (s.its : Int) + 1 < maxIts
      · rw [dif_pos hc, dif_pos (by omega)]
        refine ih _ _ (by show (maxIts - ((s.its + 1 : Nat) : Int)).toNat ≤ f; omega)
          ⟨a2.wf.x, a2.wf.r, a2.wf.z, a2.wf.p, a2.wf.q⟩
          ⟨b2.wf.x, b2.wf.r, b2.wf.z, b2.wf.p, b2.wf.q⟩
          ⟨by show s.its + 1 = t.its + 1; rw [hst.its], c.x, c.r, fun _ => c.p (by rw [a2.its]; omega)⟩
      · rw [dif_neg hc, dif_neg (by omega)]
        exact ⟨⟨a2.wf.x, by rw [h.nrow]; exact b2.wf.x⟩, c.x, c.its, by rw [a2.err, b2.err]⟩

theorem cgSolve_same {m m' : Ell α} (hm : m.WF) (hm' : m'.WF) (h : EllSame m m')
    {nF W nn slot : Nat} (hnnz : m.nnz = W * nF) (hslot : slot < W) (hnn : nn * nF = m.nrow)
    {b b' x x' : Buf α} (hb : b.size = m.nrow) (hx : x.size = m.nrow) (hbb : Same b b')
    (hxx : Same x x') (junk junk' : Nat → Nat → α) (sv sv' : EllSolver α)
    (h1 : sv.maxIts = sv'.maxIts) (h2 : sv.minTol = sv'.minTol) :
    Rel (fun r r' => Same r.2 r'.2 ∧ r.1.its = r'.1.its ∧ r.1.err = r'.1.err)
      (cgSolve junk sv m nF nn slot b x) (cgSolve junk' sv' m' nF nn slot b' x') := by
  have hn := h.nrow
  obtain ⟨k, hk1, hk2, hk3⟩ := diagLoop_eq (k := ⟨m.nrow, junk 0⟩) hnnz hslot (le_of_eq hnn)
    hm.vals_size rfl
  obtain ⟨k', hk1', hk2', hk3'⟩ := diagLoop_eq (m := m') (k := ⟨m'.nrow, junk' 0⟩)
    (by rw [← h.nnz]; exact hnnz) hslot (by rw [← hn]; exact le_of_eq hnn) hm'.vals_size rfl
  have hx' : x'.size = m'.nrow := by rw [← hxx.1, hx, hn]
  have hb' : b'.size = m'.nrow := by rw [← hbb.1, hb, hn]
  have hk : ∀ i, i < m.nrow → k.val i = k'.val i := by
    intro i hi
    have hF : 0 < nF := by
      rcases Nat.eq_zero_or_pos nF with e | e
      · rw [e, Nat.mul_zero] at hnn; omega
      · exact e
    have hd : i % nF < nF := Nat.mod_lt _ hF
    have hq : i / nF < nn := Nat.div_lt_of_lt_mul (by rw [Nat.mul_comm, hnn]; exact hi)
    have e : i = i / nF * nF + i % nF := by rw [Nat.mul_comm]; exact (Nat.div_add_mod i nF).symm
    rw [e, hk3 _ _ hq hd, hk3' _ _ hq hd, h.vals.2]
    rw [hm.vals_size, hnnz, ← hnn]
    exact slotIx_lt hq hd hslot hd
  unfold cgSolve
  simp only
  rw [hk1, M_bind_ok', ellMvp2D_eq hm hx rfl, M_bind_ok', subLoop_eq hb rfl, M_bind_ok',
    hk1', M_bind_ok', ellMvp2D_eq hm' hx' rfl, M_bind_ok', subLoop_eq hb' rfl, M_bind_ok', ← h1, ← h2]
  refine Rel.bind (cgLoop_same hm hm' h hk2 hk2' hk _ _ _ _ _ (le_refl _) ⟨hx, rfl, rfl, rfl, rfl⟩
    ⟨hx', rfl, rfl, rfl, rfl⟩ ⟨rfl, fun i hi => hxx.2 i (by omega), ?_, fun h => absurd rfl h⟩) ?_
  · intro i hi
    have hi' : i < m'.nrow := by omega
    simp only [hi, hi', if_true]
    rw [hbb.2 i (by omega), rowAcc_same hm h (fun i hi => hxx.2 i (by omega)) hi]
  · rintro a c ⟨⟨e1, e2⟩, e3, e4, e5⟩
    exact Rel.pure ⟨⟨by rw [e1, e2], fun k hk => e3 k (by have hk : k < a.x.size := hk; omega)⟩, by
      show (a.its : Int) = c.its; rw [e4], e5⟩

end Verif
