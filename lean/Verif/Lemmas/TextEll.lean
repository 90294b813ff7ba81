import Verif.Lemmas.TextLaw

/-!
# Executing the statements of `ell.cpp`: zeroing, product, conjugate gradients
-/

namespace Verif.Text

variable {α : Type} [Scalar α]

theorem BufOn.mono {β : Type} {o : Option (Vec β)} {p : Buf β} {S T : Nat → Prop}
    (h : BufOn o p S) (hT : ∀ q, T q → S q) : BufOn o p T := by
  obtain ⟨a, h1, h2, h3⟩ := h
  exact ⟨a, h1, h2, fun q hq => h3 q (hT q hq)⟩

section
variable {c : Cfg α} {s : St α} {n : Nat}

/-- Reading an entry of a block. -/
theorem ev_brd {x : V} {i : IExp} {k : Nat} {p : Buf α} {S : Nat → Prop} {y : α}
    (hv : BufOn (s.l.v x) p S) (hi : i.eval c s.l = .ok (k : Int)) (hr : p.read k = .ok y)
    (hS : k < p.size → S k) : (DExp.rd1 x i).eval c s = .ok y := by
  obtain ⟨a, h1, h2, h3⟩ := hv
  unfold Buf.read at hr
  split at hr
  · rename_i hk
    cases hr
    have : (k : Int) < a.n := by omega
    simp [DExp.eval, hi, h1, need, Vec.rd, this, h3 _ (hS hk)]
  · cases hr

/-- Reading an entry of a block at an index that may be negative. -/
theorem ev_brdI {x : V} {i : IExp} {z : Int} {p : Buf α} {S : Nat → Prop} {y : α}
    (hv : BufOn (s.l.v x) p S) (hi : i.eval c s.l = .ok z) (hr : p.readI z = .ok y)
    (hS : ∀ k, k < p.size → S k) : (DExp.rd1 x i).eval c s = .ok y := by
  unfold Buf.readI at hr
  split at hr
  · rename_i h0
    obtain ⟨k, rfl⟩ := Int.eq_ofNat_of_zero_le h0
    exact ev_brd hv hi hr (hS k)
  · cases hr

/-- Reading an entry of a block of `int`. -/
theorem ev_bird {x : V} {i : IExp} {k : Nat} {p : Buf Int} {S : Nat → Prop} {y : Int}
    (hv : BufOn (s.l.iv x) p S) (hi : i.eval c s.l = .ok (k : Int)) (hr : p.read k = .ok y)
    (hS : k < p.size → S k) : (IExp.rd x i).eval c s.l = .ok y := by
  obtain ⟨a, h1, h2, h3⟩ := hv
  unfold Buf.read at hr
  split at hr
  · rename_i hk
    cases hr
    have : (k : Int) < a.n := by omega
    simp [IExp.eval, hi, h1, need, Vec.rd, this, h3 _ (hS hk)]
  · cases hr

/-- Assignment to an entry of a block. -/
theorem Gives.bst {x : V} {i : IExp} {e : DExp} {k : Nat} {p p' : Buf α} {S : Nat → Prop} {y : α}
    (hv : BufOn (s.l.v x) p S) (hi : i.eval c s.l = .ok (k : Int)) (he : e.eval c s = .ok y)
    (hw : p.write k y = .ok p') :
    Gives ((Stmt.st1 x i e).exec c (run c n) s)
      (fun t => BufOn (t.l.v x) p' (fun q => S q ∨ q = k)) := by
  obtain ⟨a, h1, h2, h3⟩ := hv
  unfold Buf.write at hw
  split at hw
  · rename_i hk
    cases hw
    have hka : (k : Int) < a.n := by omega
    refine ⟨_, by simp [Stmt.exec, hi, he, h1, need, Vec.wr, hka]; rfl, ?_⟩
    refine ⟨⟨a.n, fun q => if q = k then some y else a.val q⟩, by simp [upd], h2, ?_⟩
    intro q hq
    by_cases e : q = k
    · simp [e]
    · simp only [e, or_false] at hq
      simp [e, h3 q hq]
  · cases hw

/-- Assignment to an entry of a block of `int`. -/
theorem Gives.bstI {x : V} {i e : IExp} {k : Nat} {p p' : Buf Int} {S : Nat → Prop} {y : Int}
    (hv : BufOn (s.l.iv x) p S) (hi : i.eval c s.l = .ok (k : Int)) (he : e.eval c s.l = .ok y)
    (hw : p.write k y = .ok p') :
    Gives ((Stmt.stI x i e).exec c (run c n) s)
      (fun t => BufOn (t.l.iv x) p' (fun q => S q ∨ q = k)) := by
  obtain ⟨a, h1, h2, h3⟩ := hv
  unfold Buf.write at hw
  split at hw
  · rename_i hk
    cases hw
    have hka : (k : Int) < a.n := by omega
    refine ⟨_, by simp [Stmt.exec, hi, he, h1, need, Vec.wr, hka]; rfl, ?_⟩
    refine ⟨⟨a.n, fun q => if q = k then some y else a.val q⟩, by simp [upd], h2, ?_⟩
    intro q hq
    by_cases e : q = k
    · simp [e]
    · simp only [e, or_false] at hq
      simp [e, h3 q hq]
  · cases hw

/-- Assignment to an entry of the matrix behind `m`. -/
theorem Gives.stVal {i : IExp} {e : DExp} {k : Nat} {m : Ell α} {v v' : Buf α} {y : α}
    (hE : EllOn s.l { m with vals := v }) (hi : i.eval c s.l = .ok (k : Int))
    (he : e.eval c s = .ok y) (hw : v.write k y = .ok v') :
    Gives ((Stmt.st1 .m_vals i e).exec c (run c n) s)
      (fun t => EllOn t.l { m with vals := v' }) := by
  refine (Gives.bst hE.vals hi he hw).same.mono ?_
  rintro t ⟨hs, h⟩
  exact ⟨keep_i hs hE.nrow rfl, keep_i hs hE.ncol rfl, keep_i hs hE.nnz rfl,
    h.mono (fun q _ => Or.inl trivial), keep_bi hs hE.cols rfl⟩

theorem Gives.malloc {x : V} {e : IExp} {N : Nat} (h : e.eval c s.l = .ok (N : Int))
    (f : Nat → α) :
    Gives ((Stmt.malloc x e).exec c (run c n) s)
      (fun t => BufOn (t.l.v x) ⟨N, f⟩ (fun _ => False)) :=
  ⟨{ s with l.v := upd s.l.v x (some ⟨N, fun _ => .none⟩) }, by simp [Stmt.exec, h],
    ⟨N, fun _ => .none⟩, if_pos rfl, rfl, fun _ h => h.elim⟩

theorem Gives.mallocI {x : V} {e : IExp} {N : Nat} (h : e.eval c s.l = .ok (N : Int))
    (f : Nat → Int) :
    Gives ((Stmt.mallocI x e).exec c (run c n) s)
      (fun t => BufOn (t.l.iv x) ⟨N, f⟩ (fun _ => False)) :=
  ⟨{ s with l.iv := upd s.l.iv x (some ⟨N, fun _ => .none⟩) }, by simp [Stmt.exec, h],
    ⟨N, fun _ => .none⟩, if_pos rfl, rfl, fun _ h => h.elim⟩

theorem Gives.free {x : V} {p : Buf α} {S : Nat → Prop} (h : BufOn (s.l.v x) p S) :
    Gives ((Stmt.free x).exec c (run c n) s) (fun _ => True) := by
  obtain ⟨a, h1, -⟩ := h
  exact ⟨_, by simp [Stmt.exec, h1, need]; rfl, trivial⟩

theorem ev_ltI {a b : IExp} {x y : Int} (ha : a.eval c s.l = .ok x)
    (hb : b.eval c s.l = .ok y) :
    (BExp.ltI a b).eval c s = .ok (decide (x < y)) := by simp [BExp.eval, ha, hb]

/-- What a function leaves alone. -/
theorem Gives.runSame {f : Fn} {P : St α → Prop} (h : Gives (run c n f s) P) :
    Gives (run c n f s) (fun t => Same (runEff n f) s t ∧ P t) := by
  obtain ⟨t, h1, h2⟩ := h
  exact ⟨t, h1, run_same n f s t h1, h2⟩

theorem ofInt_zero' (L : LitLaws α) : (ofInt 0 : α) = 0 := L.zero
theorem ofInt_one' (L : LitLaws α) : (ofInt 1 : α) = 1 := L.one

/-! ## `ell_set_zero_mat`, `ell_mvp_2D` -/

theorem run_set_zero (L : LitLaws α) {m m' : Ell α} (hE : EllOn s.l m)
    (hm : ellSetZeroMat m = .ok m') :
    Gives (run c (n + 1) .ell_set_zero_mat s) (fun t => EllOn t.l m') := by
  show Gives (t_ell_set_zero_mat.exec c (run c n) s) _
  have hz : (OfScientific.ofScientific 0 true 1 : α) = 0 := L.zeroD
  unfold ellSetZeroMat at hm
  rw [bind_ok_iff] at hm
  obtain ⟨v, h1, h2⟩ := hm
  cases h2
  refine Gives.seq (P := fun t => EllOn t.l { m with vals := v }) ?_ ?_
  · refine Gives.sim (σ := Buf α) (fun v t => EllOn t.l { m with vals := v })
      (by rintro v t o ⟨a, b, c, d, e⟩; exact ⟨a, b, c, d, e⟩) (by have := hE.nrow; idx) h1 hE ?_
    intro i t v v' hi hs hti hE hf
    keep hs
    refine Gives.sim (σ := Buf α) (fun v t => EllOn t.l { m with vals := v })
      (by rintro v t o ⟨a, b, c, d, e⟩; exact ⟨a, b, c, d, e⟩) (by have := hE.nnz; idx) hf hE ?_
    intro j t v v' hj hs htj hE hf
    keep hs
    have := hE.nnz
    exact Gives.stVal hE (by idx) (ok_to (ev_lit _ _ _) hz) hf
  · intro t hs hE
    refine (Gives.setI rfl).same.mono ?_
    rintro t ⟨hs, -⟩
    keep hs
    exact hE

theorem run_mvp (L : LitLaws α) {m : Ell α} {x y y' : Buf α} {S T : Nat → Prop} (hE : EllOn s.l m)
    (hx : BufOn (s.l.v .x) x T) (hT : ∀ q, q < x.size → T q) (hy : BufOn (s.l.v .y) y S)
    (hm : ellMvp2D m x y = .ok y') :
    Gives (run c (n + 1) .ell_mvp_2D s) (fun t => Same (runEff (n + 1) .ell_mvp_2D) s t ∧
      BufOn (t.l.v .y) y' (fun q => S q ∨ q < m.nrow)) := by
  refine Gives.runSame ?_
  show Gives (t_ell_mvp_2D.exec c (run c n) s) _
  have hz := ofInt_zero' (α := α) L
  refine Gives.simK (σ := Buf α) (fun k y t => BufOn (t.l.v .y) y (fun q => S q ∨ q < k))
    (by intro _ _ _ _ h; exact h) (by have := hE.nrow; idx) hm (hy.mono (by intro q hq; simpa using hq)) ?_
  intro i t y y' hi hs hti hy hf
  keep hs
  rw [bind_ok_iff] at hf
  obtain ⟨y1, h1, hf⟩ := hf
  refine Gives.seq (Gives.bst hy (by idx) (ok_to (ev_ofInt (ev_ilit 0)) hz) h1) ?_
  intro t hs hy
  keep hs
  refine Gives.sim (σ := Buf α) (fun y t => BufOn (t.l.v .y) y (fun q => S q ∨ q < i + 1))
    (by intro _ _ _ h; exact h) (by have := hE.nnz; idx) hf (hy.mono (by
      intro q hq
      rcases hq with h | h
      · exact Or.inl (Or.inl h)
      · by_cases e : q = i
        · exact Or.inr e
        · exact Or.inl (Or.inr (by omega)))) ?_
  intro j t y y' hj hs htj hy hf
  keep hs
  simp only [bind_ok_iff] at hf
  obtain ⟨yi, e1, a, e2, k, e3, xc, e4, hf⟩ := hf
  have hn := hE.nnz
  have d1 : (DExp.rd1 .y (.var .i)).eval c t = .ok yi :=
    ev_brd hy (by idx) e1 (fun _ => Or.inr (by omega))
  have d2 : (DExp.rd1 .m_vals (.add (.mul (.var .i) (.var .m_nnz)) (.var .j))).eval c t = .ok a :=
    ev_brd hE.vals (by idx) e2 (fun _ => trivial)
  have d3 : (IExp.rd .m_cols (.add (.mul (.var .i) (.var .m_nnz)) (.var .j))).eval c t.l = .ok k :=
    ev_bird hE.cols (by idx) e3 (fun _ => trivial)
  have d4 : (DExp.rd1 .x (.rd .m_cols (.add (.mul (.var .i) (.var .m_nnz)) (.var .j)))).eval c t =
      .ok xc := ev_brdI hx d3 e4 hT
  refine (Gives.bst hy (by idx) (by ev) hf).mono ?_
  intro t h
  exact h.mono (fun q hq => Or.inl hq)


/-- A product called with two arrays of the caller. -/
theorem Gives.callMvp (L : LitLaws α) {X Y : V} (hXY : X ≠ Y) (hX : X ≠ .m_vals) (hY : Y ≠ .m_vals)
    {m : Ell α} {x y y' : Buf α} {S T : Nat → Prop} (hE : EllOn s.l m)
    (hx : BufOn (s.l.v X) x T) (hT : ∀ q, q < x.size → T q) (hy : BufOn (s.l.v Y) y S)
    (hm : ellMvp2D m x y = .ok y') :
    Gives ((Stmt.call .ell_mvp_2D [.ell, .ref X, .ref Y]).exec c (run c (n + 1)) s)
      (fun t => EllOn t.l m ∧ BufOn (t.l.v X) x T ∧
        BufOn (t.l.v Y) y' (fun q => S q ∨ q < m.nrow)) := by
  refine Gives.call (l := { copyEll s.l Loc.none with
      v := upd (upd (copyEll s.l Loc.none).v .x (s.l.v X)) .y (s.l.v Y) }) rfl
    (run_mvp L (m := m) (x := x) (y := y) (S := S) (T := T) ?_ hx hT hy hm) ?_
  · exact ⟨hE.nrow, hE.ncol, hE.nnz, hE.vals, hE.cols⟩
  · rintro r ⟨hs, hr⟩
    have e1 := (hs.i .m_nrow rfl).trans hE.nrow
    have e2 := (hs.i .m_ncol rfl).trans hE.ncol
    have e3 := (hs.i .m_nnz rfl).trans hE.nnz
    have e4 : BufOn (r.l.v .m_vals) m.vals fun _ => True := (hs.v .m_vals rfl).symm ▸ hE.vals
    have e5 : BufOn (r.l.iv .m_cols) m.cols fun _ => True := (hs.iv .m_cols rfl).symm ▸ hE.cols
    have e6 : BufOn (r.l.v .x) x T := (hs.v .x rfl).symm ▸ hx
    have f1 : (passBack r.l s.l (params .ell_mvp_2D) [.ell, .ref X, .ref Y]).v =
      upd (upd (copyEll r.l s.l).v X (r.l.v .x)) Y (r.l.v .y) := rfl
    refine ⟨⟨e1, e2, e3, ?_, e5⟩, ?_, ?_⟩
    · rw [f1]; simpa only [upd, hX.symm, hY.symm, if_false, copyEll, if_true] using e4
    · rw [f1]; simpa only [upd, hXY, if_false, if_true] using e6
    · rw [f1]; simpa only [upd, if_true] using hr

/-! ## The loops of the conjugate gradient solvers -/

section
variable {m : Ell α}

theorem Gives.dot {A B acc : V} {S T : Nat → Prop} {a b : Buf α} {z : α} (hE : EllOn s.l m)
    (ha : BufOn (s.l.v A) a S) (hb : BufOn (s.l.v B) b T) (hS : ∀ q, q < m.nrow → S q)
    (hT : ∀ q, q < m.nrow → T q) (h0 : s.l.d acc = some 0) (hm : dotLoop m.nrow a b = .ok z) :
    Gives ((Stmt.for .i (.lit 0) (.var .m_nrow) (.setD acc (.add (.var acc)
        (.mul (.rd1 A (.var .i)) (.rd1 B (.var .i)))))).exec c (run c n) s)
      (fun t => t.l.d acc = some z) := by
  refine Gives.sim (σ := α) (fun z t => t.l.d acc = some z) (by intro _ _ _ h; exact h)
    (by have := hE.nrow; idx) hm h0 ?_
  intro i t z z' hi hs hti hz hf
  keep hs
  simp only [bind_ok_iff] at hf
  obtain ⟨x, e1, y, e2, hf⟩ := hf
  cases hf
  have d1 : (DExp.rd1 A (.var .i)).eval c t = .ok x := ev_brd ha (by idx) e1 (fun _ => hS i hi)
  have d2 : (DExp.rd1 B (.var .i)).eval c t = .ok y := ev_brd hb (by idx) e2 (fun _ => hT i hi)
  exact Gives.setD (by ev)

/-- Loops that assign the entries of an array one after the other. -/
theorem Gives.bmap {A : V} {e : DExp} {S : Nat → Prop} {a z : Buf α} {f : Nat → Buf α → M (Buf α)}
    (hE : EllOn s.l m) (ha : BufOn (s.l.v A) a S) (hm : loop m.nrow f a = .ok z)
    (he : ∀ (i : Nat) (t : St α) (a a' : Buf α), i < m.nrow →
      Same { Eff.nil with i := fun y => decide (y = .i), v := fun y => decide (y = A) } s t →
      t.l.i .i = some (i : Int) → BufOn (t.l.v A) a S → f i a = .ok a' →
      ∃ y, e.eval c t = .ok y ∧ a.write i y = .ok a') :
    Gives ((Stmt.for .i (.lit 0) (.var .m_nrow) (.st1 A (.var .i) e)).exec c (run c n) s)
      (fun t => BufOn (t.l.v A) z (fun q => S q ∨ q < m.nrow)) := by
  refine Gives.simK (σ := Buf α) (fun k a t => BufOn (t.l.v A) a (fun q => S q ∨ q < k))
    (by intro _ _ _ _ h; exact h) (by have := hE.nrow; idx) hm
    (ha.mono (by intro q hq; simpa using hq)) ?_
  intro i t a a' hi hs hti ha hf
  have hs' : Same { Eff.nil with i := fun y => decide (y = .i), v := fun y => decide (y = A) } s t := by
    refine ⟨fun x hx => hs.i x ?_, fun x hx => hs.d x ?_, fun x hx => hs.v x ?_, fun x hx => hs.m x ?_,
      fun x hx => hs.iv x ?_, fun x hx => hs.g x ?_, fun hx => hs.A ?_, fun hx => hs.tick ?_, fun hx => hs.invMax ?_⟩ <;>
      simp_all [Stmt.eff, Eff.or, Eff.nil]
  obtain ⟨y, h1, h2⟩ := he i t a a' hi hs' hti (ha.mono fun q hq => Or.inl hq) hf
  refine (Gives.bst ha (by idx) h1 h2).mono ?_
  intro t h
  refine h.mono ?_
  intro q hq
  rcases hq with h | h
  · exact Or.inl (Or.inl h)
  · by_cases e : q = i
    · exact Or.inr e
    · exact Or.inl (Or.inr (by omega))

/-- The step of both `x` and `r`. -/
theorem Gives.step {d : α} {p q x r x' r' : Buf α} {S T : Nat → Prop} (hE : EllOn s.l m)
    (hd : s.l.d .d = some d) (hp : BufOn (s.l.v .p) p S) (hq : BufOn (s.l.v .q) q T)
    (hS : ∀ q, q < m.nrow → S q) (hT : ∀ q, q < m.nrow → T q)
    (hx : BufOn (s.l.v .x) x fun _ => True) (hr : BufOn (s.l.v .r) r (· < m.nrow))
    (hm : stepLoop m.nrow d p q (x, r) = .ok (x', r')) :
    Gives ((Stmt.for .i (.lit 0) (.var .m_nrow) (
        .st1 .x (.var .i) (.sub (.rd1 .x (.var .i)) (.mul (.var .d) (.rd1 .p (.var .i)))) ;;
        .st1 .r (.var .i) (.sub (.rd1 .r (.var .i)) (.mul (.var .d) (.rd1 .q (.var .i)))))).exec c
          (run c n) s)
      (fun t => BufOn (t.l.v .x) x' (fun _ => True) ∧ BufOn (t.l.v .r) r' (· < m.nrow)) := by
  refine Gives.sim (σ := Buf α × Buf α) (fun xr t => BufOn (t.l.v .x) xr.1 (fun _ => True) ∧
      BufOn (t.l.v .r) xr.2 (· < m.nrow)) (by intro _ _ _ h; exact h)
    (by have := hE.nrow; idx) hm ⟨hx, hr⟩ ?_
  clear hx hr
  rintro i t ⟨x, r⟩ ⟨x', r'⟩ hi hs hti ⟨hx, hr⟩ hf
  keep hs
  simp only [bind_ok_iff] at hf
  obtain ⟨xi, e1, pi, e2, x1, e3, ri, e4, qi, e5, r1, e6, hf⟩ := hf
  cases hf
  have d1 : (DExp.rd1 .x (.var .i)).eval c t = .ok xi := ev_brd hx (by idx) e1 (fun _ => trivial)
  have d2 : (DExp.rd1 .p (.var .i)).eval c t = .ok pi := ev_brd hp (by idx) e2 (fun _ => hS i hi)
  refine Gives.seq (Gives.bst hx (by idx) (by ev) e3) ?_
  intro t hs hx
  clear d1 d2
  keep hs
  have d1 : (DExp.rd1 .r (.var .i)).eval c t = .ok ri := ev_brd hr (by idx) e4 (fun _ => hi)
  have d2 : (DExp.rd1 .q (.var .i)).eval c t = .ok qi := ev_brd hq (by idx) e5 (fun _ => hT i hi)
  refine (Gives.bst hr (by idx) (by ev) e6).same.mono ?_
  rintro t ⟨hs, hr⟩
  clear d1 d2
  keep hs
  exact ⟨hx.mono fun _ _ => Or.inl trivial, hr.mono fun q hq => Or.inl hq⟩

/-! ## The body of the conjugate gradient loop -/

/-- The locals of the solvers at the start of a pass. -/
structure CgOn (t : St α) (m : Ell α) (k : Buf α) (mx : Int) (tol : α) (cs : CgState α) : Prop where
  ell : EllOn t.l m
  k : BufOn (t.l.v .k) k (· < m.nrow)
  x : BufOn (t.l.v .x) cs.x fun _ => True
  r : BufOn (t.l.v .r) cs.r (· < m.nrow)
  z : BufOn (t.l.v .z) cs.z fun _ => False
  p : BufOn (t.l.v .p) cs.p fun q => cs.its ≠ 0 ∧ q < m.nrow
  psize : cs.p.size = m.nrow
  q : BufOn (t.l.v .q) cs.q fun _ => False
  rho : cs.its ≠ 0 → t.l.d .rho_0 = some cs.rho0
  its : t.l.i .its = some (cs.its : Int)
  mx : t.l.i .solver_max_its = some mx
  tol : t.l.d .solver_min_tol = some tol

/-- The text before the `break`. -/
def cgHead : Stmt :=
  .setD .err (.ofInt (.lit 0)) ;;
  .for .i (.lit 0) (.var .m_nrow) (
    .setD .err (.add (.var .err) (.mul (.rd1 .r (.var .i)) (.rd1 .r (.var .i))))) ;;
  .setD .err (.sqrt (.var .err))

/-- The text after the `break`. -/
def cgRest : Stmt :=
  .for .i (.lit 0) (.var .m_nrow) (
    .st1 .z (.var .i) (.mul (.rd1 .k (.var .i)) (.rd1 .r (.var .i)))) ;;
  .setD .rho_1 (.lit (nat_lit 0) true (nat_lit 1)) ;;
  .for .i (.lit 0) (.var .m_nrow) (
    .setD .rho_1 (.add (.var .rho_1) (.mul (.rd1 .r (.var .i)) (.rd1 .z (.var .i))))) ;;
  .ite (.eqI (.var .its) (.lit 0)) (
    .for .i (.lit 0) (.var .m_nrow) (
      .st1 .p (.var .i) (.rd1 .z (.var .i)))) (
    .setD .beta (.div (.var .rho_1) (.var .rho_0)) ;;
    .for .i (.lit 0) (.var .m_nrow) (
      .st1 .p (.var .i) (.add (.rd1 .z (.var .i)) (.mul (.var .beta) (.rd1 .p (.var .i)))))) ;;
  .call .ell_mvp_2D [.ell, .ref .p, .ref .q] ;;
  .setD .aux (.ofInt (.lit 0)) ;;
  .for .i (.lit 0) (.var .m_nrow) (
    .setD .aux (.add (.var .aux) (.mul (.rd1 .p (.var .i)) (.rd1 .q (.var .i))))) ;;
  .setD .d (.div (.var .rho_1) (.var .aux)) ;;
  .for .i (.lit 0) (.var .m_nrow) (
    .st1 .x (.var .i) (.sub (.rd1 .x (.var .i)) (.mul (.var .d) (.rd1 .p (.var .i)))) ;;
    .st1 .r (.var .i) (.sub (.rd1 .r (.var .i)) (.mul (.var .d) (.rd1 .q (.var .i))))) ;;
  .setD .rho_0 (.var .rho_1) ;;
  .setI .its (.add (.var .its) (.lit 1))

theorem Gives.cgHead (L : LitLaws α) {k : Buf α} {mx : Int} {tol err : α} {cs : CgState α}
    (h : CgOn s m k mx tol cs) (hm : cgErr m cs = .ok err) :
    Gives (cgHead.exec c (run c n) s) (fun t => CgOn t m k mx tol cs ∧ t.l.d .err = some err) := by
  obtain ⟨hE, hk, hx, hr, hz, hp, hps, hq, hrho, hits, hmx, htol⟩ := h
  have z0 := ofInt_zero' (α := α) L
  unfold cgErr at hm
  rw [bind_ok_iff] at hm
  obtain ⟨e, h1, h2⟩ := hm
  cases h2
  refine Gives.seq (Gives.setD (ok_to (ev_ofInt (ev_ilit 0)) z0)) ?_
  intro t hs he
  keep hs
  refine Gives.seq (Gives.dot hE hr hr (fun _ h => h) (fun _ h => h) he h1) ?_
  intro t hs he
  keep hs
  refine (Gives.setD (by ev)).same.mono ?_
  rintro t ⟨hs, he⟩
  keep hs
  exact ⟨⟨hE, hk, hx, hr, hz, hp, hps, hq, hrho, hits, hmx, htol⟩, he⟩

theorem loop_size {N : Nat} {f : Nat → Buf α → M (Buf α)} {p p' : Buf α}
    (h : loop N f p = .ok p') (hf : ∀ i q q', f i q = .ok q' → q'.size = q.size) :
    p'.size = p.size :=
  loop_ok_inv (P := fun _ (q : Buf α) => q.size = p.size) h rfl fun i a a' _ ha h' =>
    (hf i a a' h').trans ha

theorem write_size {p p' : Buf α} {i : Nat} {y : α} (h : p.write i y = .ok p') :
    p'.size = p.size := by
  rw [(write_ok_inv h).2]

theorem cgDir_size {N its : Nat} {beta : α} {z p p' : Buf α}
    (h : cgDir N its beta z p = .ok p') : p'.size = p.size := by
  unfold cgDir at h
  split at h
  · refine loop_size h fun i q q' hf => ?_
    simp only [bind_ok_iff] at hf
    obtain ⟨_, _, hf⟩ := hf
    exact write_size hf
  · refine loop_size h fun i q q' hf => ?_
    simp only [bind_ok_iff] at hf
    obtain ⟨_, _, _, _, hf⟩ := hf
    exact write_size hf

theorem Gives.cgDir {its : Nat} {rho0 rho1 : α} {z p p' : Buf α} {S : Nat → Prop}
    (hE : EllOn s.l m) (hi : s.l.i .its = some (its : Int))
    (hrho : its ≠ 0 → s.l.d .rho_0 = some rho0) (h1 : s.l.d .rho_1 = some rho1)
    (hz : BufOn (s.l.v .z) z S) (hS : ∀ q, q < m.nrow → S q)
    (hp : BufOn (s.l.v .p) p fun q => its ≠ 0 ∧ q < m.nrow)
    (hm : cgDir m.nrow its (rho1 / rho0) z p = .ok p') :
    Gives ((Stmt.ite (.eqI (.var .its) (.lit 0)) (
        .for .i (.lit 0) (.var .m_nrow) (
          .st1 .p (.var .i) (.rd1 .z (.var .i)))) (
        .setD .beta (.div (.var .rho_1) (.var .rho_0)) ;;
        .for .i (.lit 0) (.var .m_nrow) (
          .st1 .p (.var .i) (.add (.rd1 .z (.var .i)) (.mul (.var .beta) (.rd1 .p (.var .i))))))).exec
            c (run c n) s)
      (fun t => BufOn (t.l.v .p) p' (· < m.nrow)) := by
  unfold Verif.cgDir at hm
  by_cases h0 : its = 0
  · rw [if_pos h0] at hm
    refine Gives.ite_pos (ok_to (ev_eqI (ev_ivar hi) (ev_ilit 0)) (by simp [h0])) ?_
    refine (Gives.bmap hE hp hm ?_).mono fun t h => h.mono fun q hq => Or.inr hq
    intro i t a a' hi' hs hti ha hf
    keep hs
    simp only [bind_ok_iff] at hf
    obtain ⟨y, e1, hf⟩ := hf
    exact ⟨y, ev_brd hz (by idx) e1 (fun _ => hS i hi'), hf⟩
  · rw [if_neg h0] at hm
    refine Gives.ite_neg (ok_to (ev_eqI (ev_ivar hi) (ev_ilit 0)) (by simp [h0])) ?_
    have hr := hrho h0
    refine Gives.seq (Gives.setD (by ev)) ?_
    intro t hs hb
    keep hs
    refine (Gives.bmap hE hp hm ?_).mono fun t h => h.mono fun q hq => Or.inr hq
    intro i t a a' hi' hs hti ha hf
    keep hs
    simp only [bind_ok_iff] at hf
    obtain ⟨y, e1, x, e2, hf⟩ := hf
    have d1 : (DExp.rd1 .z (.var .i)).eval c t = .ok y := ev_brd hz (by idx) e1 (fun _ => hS i hi')
    have d2 : (DExp.rd1 .p (.var .i)).eval c t = .ok x := ev_brd ha (by idx) e2 (fun _ => ⟨h0, hi'⟩)
    exact ⟨_, by ev, hf⟩

theorem Gives.cgRest (L : LitLaws α) {k : Buf α} {mx : Int} {tol err : α} {cs cs' : CgState α}
    (h : CgOn s m k mx tol cs) (he : s.l.d .err = some err)
    (hm : cgBody m k cs err = .ok cs') :
    Gives (cgRest.exec c (run c (n + 1)) s)
      (fun t => CgOn t m k mx tol cs' ∧ t.l.d .err = some err) := by
  obtain ⟨hE, hk, hx, hr, hz, hp, hps, hq, hrho, hits, hmx, htol⟩ := h
  have z0 := ofInt_zero' (α := α) L
  have z1 : (OfScientific.ofScientific 0 true 1 : α) = 0 := L.zeroD
  unfold cgBody at hm
  simp only [bind_ok_iff] at hm
  obtain ⟨z, e1, rho1, e2, p, e3, q, e4, aux, e5, ⟨x', r'⟩, e6, hm⟩ := hm
  cases hm
  have hps' := (cgDir_size e3).trans hps
  refine Gives.seq (Gives.bmap hE hz e1 ?_) ?_
  · intro i t a a' hi hs hti ha hf
    keep hs
    simp only [bind_ok_iff] at hf
    obtain ⟨u, d1, v, d2, hf⟩ := hf
    have d1 : (DExp.rd1 .k (.var .i)).eval c t = .ok u := ev_brd hk (by idx) d1 (fun _ => hi)
    have d2 : (DExp.rd1 .r (.var .i)).eval c t = .ok v := ev_brd hr (by idx) d2 (fun _ => hi)
    exact ⟨_, by ev, hf⟩
  intro t hs hz
  keep hs
  refine Gives.seq (Gives.setD (ok_to (ev_lit _ _ _) z1)) ?_
  intro t hs h1
  keep hs
  refine Gives.seq (Gives.dot hE hr hz (fun _ h => h) (fun _ h => Or.inr h) h1 e2) ?_
  intro t hs h1
  keep hs
  refine Gives.seq (Gives.cgDir hE hits hrho h1 hz (fun _ h => Or.inr h) hp e3) ?_
  intro t hs hp
  keep hs
  refine Gives.seq (Gives.callMvp L (by decide) (by decide) (by decide) hE hp ?_ hq e4) ?_
  · rw [hps']; exact fun _ h => h
  rintro t hs ⟨hE, hp, hq⟩
  keep hs
  refine Gives.seq (Gives.setD (ok_to (ev_ofInt (ev_ilit 0)) z0)) ?_
  intro t hs ha
  keep hs
  refine Gives.seq (Gives.dot hE hp hq (fun _ h => h) (fun _ h => Or.inr h) ha e5) ?_
  intro t hs ha
  keep hs
  refine Gives.seq (Gives.setD (by ev)) ?_
  intro t hs hd
  keep hs
  refine Gives.seq (Gives.step hE hd hp hq (fun _ h => h) (fun _ h => Or.inr h) hx hr e6) ?_
  rintro t hs ⟨hx, hr⟩
  keep hs
  refine Gives.seq (Gives.setD (by ev)) ?_
  intro t hs h0
  keep hs
  refine (Gives.setI (by ev)).same.mono ?_
  rintro t ⟨hs, hits⟩
  keep hs
  exact ⟨⟨hE, hk, hx, hr, hz.mono fun _ h => h.elim, hp.mono fun _ h => h.2, hps', hq.mono fun _ h => h.elim,
    fun _ => h0, by push_cast; exact hits, hmx, htol⟩, he⟩

/-- The loop of the text follows the loop of the model. -/
theorem Gives.cgIter (L : LitLaws α) {k : Buf α} {mx : Int} {tol : α} (N : Nat) {cs cs' : CgState α}
    (hN : mx ≤ N + cs.its) (h : CgOn s m k mx tol cs) (hm : cgLoop m k mx tol cs = .ok cs') :
    Gives (doIter (fun s => Text.cgHead.exec c (run c (n + 1)) s)
        (fun s => Text.cgRest.exec c (run c (n + 1)) s)
        (fun s => (BExp.ltD (.var .err) (.var .solver_min_tol)).eval c s)
        (fun s => (BExp.ltI (.var .its) (.var .solver_max_its)).eval c s) N s)
      (fun t => CgOn t m k mx tol cs' ∧ t.l.d .err = some cs'.err) := by
  induction N generalizing s cs with
  | zero =>
    rw [cgLoop, bind_ok_iff] at hm
    obtain ⟨err, h1, hm⟩ := hm
    obtain ⟨t, e1, h2, he⟩ := Gives.cgHead (c := c) (n := n + 1) L h h1
    unfold doIter
    simp only [e1, M_bind_ok', ev_ltD (ev_var he) (ev_var h2.tol)]
    split at hm
    · rename_i hlt
      cases hm
      rw [if_pos hlt]
      obtain ⟨hE, hk, hx, hr, hz, hp, hps, hq, hrho, hits, hmx, htol⟩ := h2
      exact ⟨t, rfl, ⟨hE, hk, hx, hr, hz, hp, hps, hq, hrho, hits, hmx, htol⟩, he⟩
    · rename_i hlt
      rw [if_neg hlt]
      rw [bind_ok_iff] at hm
      obtain ⟨s', h3, hm⟩ := hm
      obtain ⟨t', e2, h4, he'⟩ := Gives.cgRest (c := c) (n := n) L h2 he h3
      have hi : s'.its = cs.its + 1 ∧ s'.err = err := by
        unfold cgBody at h3
        simp only [bind_ok_iff] at h3
        obtain ⟨_, _, _, _, _, _, _, _, _, _, _, _, h3⟩ := h3
        cases h3; exact ⟨rfl, rfl⟩
      simp only [e2, M_bind_ok', ev_ltI (ev_ivar h4.its) (ev_ivar h4.mx)]
      rw [dif_neg (by omega)] at hm
      cases hm
      rw [if_neg (by simp [hi.1]; omega)]
      exact ⟨t', rfl, h4, by rw [he', hi.2]⟩
  | succ N ih =>
    rw [cgLoop, bind_ok_iff] at hm
    obtain ⟨err, h1, hm⟩ := hm
    obtain ⟨t, e1, h2, he⟩ := Gives.cgHead (c := c) (n := n + 1) L h h1
    unfold doIter
    simp only [e1, M_bind_ok', ev_ltD (ev_var he) (ev_var h2.tol)]
    split at hm
    · rename_i hlt
      cases hm
      rw [if_pos hlt]
      obtain ⟨hE, hk, hx, hr, hz, hp, hps, hq, hrho, hits, hmx, htol⟩ := h2
      exact ⟨t, rfl, ⟨hE, hk, hx, hr, hz, hp, hps, hq, hrho, hits, hmx, htol⟩, he⟩
    · rename_i hlt
      rw [if_neg hlt]
      rw [bind_ok_iff] at hm
      obtain ⟨s', h3, hm⟩ := hm
      obtain ⟨t', e2, h4, he'⟩ := Gives.cgRest (c := c) (n := n) L h2 he h3
      have hi : s'.its = cs.its + 1 ∧ s'.err = err := by
        unfold cgBody at h3
        simp only [bind_ok_iff] at h3
        obtain ⟨_, _, _, _, _, _, _, _, _, _, _, _, h3⟩ := h3
        cases h3; exact ⟨rfl, rfl⟩
      simp only [e2, M_bind_ok', ev_ltI (ev_ivar h4.its) (ev_ivar h4.mx)]
      split at hm
      · rename_i hlt'
        rw [if_pos (by simp [hi.1]; omega)]
        have : ({ s' with its := cs.its + 1 } : CgState α) = s' := by
          rw [← hi.1]
        rw [this] at hm
        exact ih (by rw [hi.1]; push_cast at hN ⊢; omega) h4 hm
      · cases hm
        rw [if_neg (by simp [hi.1]; omega)]
        exact ⟨t', rfl, h4, by rw [he', hi.2]⟩

/-- The preconditioner. -/
theorem Gives.diag (L : LitLaws α) {nF nn slot : Nat} {k k' : Buf α} {S : Nat → Prop} {hi : IExp}
    (hE : EllOn s.l m) (hF : s.l.i .nFields = some (nF : Int))
    (hn : hi.eval c s.l = .ok (nn : Int)) (hk : BufOn (s.l.v .k) k S)
    (hm : diagLoop m nF nn slot k = .ok k') :
    Gives ((Stmt.for .i (.lit 0) hi (
      .for .d (.lit 0) (.var .nFields) (
        .st1 .k (.add (.mul (.var .i) (.var .nFields)) (.var .d)) (.div (.ofInt (.lit 1))
          (.rd1 .m_vals (.add (.add (.add (.mul (.mul (.var .i) (.var .nFields)) (.var .m_nnz))
            (.mul (.lit slot) (.var .nFields))) (.mul (.var .d) (.var .m_nnz))) (.var .d))))))).exec
              c (run c n) s)
      (fun t => BufOn (t.l.v .k) k' (· < nn * nF)) := by
  have z1 := ofInt_one' (α := α) L
  refine Gives.simK (σ := Buf α) (fun i k t => BufOn (t.l.v .k) k (· < i * nF))
    (by intro _ _ _ _ h; exact h) hn hm (hk.mono (by intro q hq; simp at hq)) ?_
  intro i t k k' hi' hs hti hk hf
  keep hs
  refine (Gives.simK (σ := Buf α) (fun d k t => BufOn (t.l.v .k) k (· < i * nF + d))
    (by intro _ _ _ _ h; exact h) (by idx) hf hk ?_).mono fun t h => h.mono fun q hq => by
      rw [Nat.add_mul] at hq; omega
  intro d t k k' hd hs htd hk hf
  keep hs
  simp only [bind_ok_iff] at hf
  obtain ⟨a, e1, hf⟩ := hf
  have hz := hE.nnz
  have d1 : (DExp.rd1 .m_vals (.add (.add (.add (.mul (.mul (.var .i) (.var .nFields)) (.var .m_nnz))
            (.mul (.lit slot) (.var .nFields))) (.mul (.var .d) (.var .m_nnz))) (.var .d))).eval c t =
      .ok a := ev_brd hE.vals (by idx) e1 (fun _ => trivial)
  refine (Gives.bst hk (by idx) (ev_div (ok_to (ev_ofInt (ev_ilit 1)) z1) d1) hf).mono ?_
  intro t h
  refine h.mono fun q hq => ?_
  by_cases e : q = i * nF + d
  · exact Or.inr e
  · exact Or.inl (by omega)

/-- The text of both solvers after the preconditioner. -/
def cgTail : Stmt :=
  .call .ell_mvp_2D [.ell, .ref .x, .ref .r] ;;
  .for .i (.lit 0) (.var .m_nrow) (
    .st1 .r (.var .i) (.sub (.rd1 .r (.var .i)) (.rd1 .b (.var .i)))) ;;
  .doW (.var .solver_max_its) Text.cgHead (.ltD (.var .err) (.var .solver_min_tol)) Text.cgRest
    (.ltI (.var .its) (.var .solver_max_its)) ;;
  .setD .solver_err (.var .err) ;;
  .setI .solver_its (.var .its) ;;
  .free .k ;;
  .free .r ;;
  .free .z ;;
  .free .p ;;
  .free .q ;;
  .setI .ret (.lit 0)

theorem Gives.cgTail (L : LitLaws α) {k x b r1 r2 z p q : Buf α} {rho err0 tol : α} {mx : Int}
    {cs : CgState α} {r0 : Buf α} {S : Nat → Prop}
    (hE : EllOn s.l m) (hk : BufOn (s.l.v .k) k (· < m.nrow)) (hx : BufOn (s.l.v .x) x fun _ => True)
    (hb : BufOn (s.l.v .b) b fun _ => True) (hr : BufOn (s.l.v .r) r0 S)
    (hz : BufOn (s.l.v .z) z fun _ => False) (hp : BufOn (s.l.v .p) p fun _ => False)
    (hq : BufOn (s.l.v .q) q fun _ => False) (hps : p.size = m.nrow)
    (hits : s.l.i .its = some 0) (hmx : s.l.i .solver_max_its = some mx)
    (htol : s.l.d .solver_min_tol = some tol)
    (h1 : ellMvp2D m x r0 = .ok r1) (h2 : subLoop m.nrow b r1 = .ok r2)
    (h3 : cgLoop m k mx tol ⟨0, x, r2, z, p, q, rho, err0⟩ = .ok cs) :
    Gives (cgTail.exec c (run c (n + 1)) s) (fun t => EllOn t.l m ∧
      BufOn (t.l.v .x) cs.x (fun _ => True) ∧ BufOn (t.l.v .b) b (fun _ => True) ∧
      t.l.d .solver_err = some cs.err ∧ t.l.i .solver_its = some (cs.its : Int) ∧
      t.l.i .ret = some 0) := by
  refine Gives.seq (Gives.callMvp L (by decide) (by decide) (by decide) hE hx (fun _ _ => trivial) hr
    h1) ?_
  rintro t hs ⟨hE, hx, hr⟩
  keep hs
  refine Gives.seq (Gives.bmap hE hr h2 ?_) ?_
  · intro i t a a' hi hs hti ha hf
    keep hs
    simp only [bind_ok_iff] at hf
    obtain ⟨u, d1, v, d2, hf⟩ := hf
    have d1 : (DExp.rd1 .r (.var .i)).eval c t = .ok u := ev_brd ha (by idx) d1 (fun _ => Or.inr hi)
    have d2 : (DExp.rd1 .b (.var .i)).eval c t = .ok v := ev_brd hb (by idx) d2 (fun _ => trivial)
    exact ⟨_, by ev, hf⟩
  intro t hs hr
  keep hs
  refine Gives.seq (P := fun t => CgOn t m k mx tol cs ∧ t.l.d .err = some cs.err) ?_ ?_
  · have := Gives.cgIter (c := c) (n := n) (s := t) L mx.toNat (cs' := cs) (k := k) (mx := mx) (tol := tol)
      (cs := ⟨0, x, r2, z, p, q, rho, err0⟩)
      (by simp)
      ⟨hE, hk, hx, hr.mono fun _ h => Or.inr h, hz, hp.mono fun _ h => h.1 rfl, hps, hq,
        fun h => (h rfl).elim, hits, hmx, htol⟩ h3
    simpa only [Stmt.exec, ev_ivar hmx, M_bind_ok'] using this
  rintro t hs ⟨⟨hE, hk, hx, hr, hz, hp, hps, hq, hrho, hits, hmx, htol⟩, he⟩
  keep hs
  refine Gives.seq (Gives.setD (by ev)) ?_
  intro t hs h1
  keep hs
  refine Gives.seq (Gives.setI (by ev)) ?_
  intro t hs h2
  keep hs
  refine Gives.seq (Gives.free hk) ?_
  intro t hs _
  keep hs
  refine Gives.seq (Gives.free hr) ?_
  intro t hs _
  keep hs
  refine Gives.seq (Gives.free hz) ?_
  intro t hs _
  keep hs
  refine Gives.seq (Gives.free hp) ?_
  intro t hs _
  keep hs
  refine Gives.seq (Gives.free hq) ?_
  intro t hs _
  keep hs
  refine (Gives.setI rfl).same.mono ?_
  rintro t ⟨hs, h3⟩
  keep hs
  exact ⟨hE, hx, hb, h1, h2, h3⟩

theorem run_cgpd_2D (L : LitLaws α) {sv sv' : EllSolver α} {nF nx ny : Nat} {b x x' : Buf α}
    {junk : Nat → Nat → α} (hE : EllOn s.l m) (hx : BufOn (s.l.v .x) x fun _ => True)
    (hb : BufOn (s.l.v .b) b fun _ => True) (hF : s.l.i .nFields = some (nF : Int))
    (hnx : s.l.i .nx = some (nx : Int)) (hny : s.l.i .ny = some (ny : Int))
    (hmx : s.l.i .solver_max_its = some sv.maxIts) (htol : s.l.d .solver_min_tol = some sv.minTol)
    (hrow : m.nrow ≤ nx * ny * nF)
    (hm : cgSolve junk sv m nF (nx * ny) 4 b x = .ok (sv', x')) :
    Gives (run c (n + 2) .ell_solve_cgpd_2D s) (fun t => EllOn t.l m ∧
      BufOn (t.l.v .x) x' (fun _ => True) ∧ BufOn (t.l.v .b) b (fun _ => True) ∧
      t.l.d .solver_err = some sv'.err ∧ t.l.i .solver_its = some sv'.its ∧
      t.l.i .ret = some 0) := by
  show Gives (t_ell_solve_cgpd_2D.exec c (run c (n + 1)) s) _
  unfold cgSolve at hm
  simp only [bind_ok_iff] at hm
  obtain ⟨k, e1, r1, e2, r2, e3, cs, e4, hm⟩ := hm
  cases hm
  refine Gives.seq (Gives.setI rfl) ?_
  intro t hs hits
  keep hs
  refine Gives.seq (Gives.malloc (N := m.nrow) (by have := hE.nrow; idx) (junk 0)) ?_
  intro t hs hk
  keep hs
  refine Gives.seq (Gives.malloc (N := m.nrow) (by have := hE.nrow; idx) (junk 1)) ?_
  intro t hs hr
  keep hs
  refine Gives.seq (Gives.malloc (N := m.nrow) (by have := hE.nrow; idx) (junk 2)) ?_
  intro t hs hz
  keep hs
  refine Gives.seq (Gives.malloc (N := m.nrow) (by have := hE.nrow; idx) (junk 3)) ?_
  intro t hs hp
  keep hs
  refine Gives.seq (Gives.malloc (N := m.nrow) (by have := hE.nrow; idx) (junk 4)) ?_
  intro t hs hq
  keep hs
  refine Gives.seq Gives.declD ?_
  intro t hs _
  keep hs
  refine Gives.seq Gives.declD ?_
  intro t hs _
  keep hs
  refine Gives.seq Gives.declD ?_
  intro t hs _
  keep hs
  refine Gives.seq Gives.declD ?_
  intro t hs _
  keep hs
  refine Gives.seq (Gives.setI (k := ((nx * ny : Nat) : Int)) (by idx)) ?_
  intro t hs hnn
  keep hs
  refine Gives.seq (Gives.diag L hE hF (by idx) hk e1) ?_
  intro t hs hk
  keep hs
  exact Gives.cgTail L hE (hk.mono fun q hq => by omega) hx hb hr hz hp hq rfl hits hmx htol e2 e3 e4

theorem run_cgpd_struct (L : LitLaws α) {sv sv' : EllSolver α} {nF dim nn : Nat} {b x x' : Buf α}
    {junk : Nat → Nat → α} (hE : EllOn s.l m) (hx : BufOn (s.l.v .x) x fun _ => True)
    (hb : BufOn (s.l.v .b) b fun _ => True) (hF : s.l.i .nFields = some (nF : Int))
    (hdim : s.l.i .dim = some (dim : Int)) (hnn : s.l.i .nn = some (nn : Int))
    (hmx : s.l.i .solver_max_its = some sv.maxIts) (htol : s.l.d .solver_min_tol = some sv.minTol)
    (hrow : m.nrow ≤ nn * nF) (hd : dim = 2 ∨ dim = 3)
    (hm : cgSolve junk sv m nF (if dim = 2 ∨ dim = 3 then nn else 0)
      (if dim = 2 then 4 else 13) b x = .ok (sv', x')) :
    Gives (run c (n + 2) .ell_solve_cgpd_struct s) (fun t => EllOn t.l m ∧
      BufOn (t.l.v .x) x' (fun _ => True) ∧ BufOn (t.l.v .b) b (fun _ => True) ∧
      t.l.d .solver_err = some sv'.err ∧ t.l.i .solver_its = some sv'.its ∧
      t.l.i .ret = some 0) := by
  show Gives (t_ell_solve_cgpd_struct.exec c (run c (n + 1)) s) _
  unfold cgSolve at hm
  simp only [bind_ok_iff] at hm
  obtain ⟨k, e1, r1, e2, r2, e3, cs, e4, hm⟩ := hm
  cases hm
  rw [if_pos hd] at e1
  refine Gives.seq (Gives.setI rfl) ?_
  intro t hs hits
  keep hs
  refine Gives.seq (Gives.malloc (N := m.nrow) (by have := hE.nrow; idx) (junk 0)) ?_
  intro t hs hk
  keep hs
  refine Gives.seq (Gives.malloc (N := m.nrow) (by have := hE.nrow; idx) (junk 1)) ?_
  intro t hs hr
  keep hs
  refine Gives.seq (Gives.malloc (N := m.nrow) (by have := hE.nrow; idx) (junk 2)) ?_
  intro t hs hz
  keep hs
  refine Gives.seq (Gives.malloc (N := m.nrow) (by have := hE.nrow; idx) (junk 3)) ?_
  intro t hs hp
  keep hs
  refine Gives.seq (Gives.malloc (N := m.nrow) (by have := hE.nrow; idx) (junk 4)) ?_
  intro t hs hq
  keep hs
  refine Gives.seq Gives.declD ?_
  intro t hs _
  keep hs
  refine Gives.seq Gives.declD ?_
  intro t hs _
  keep hs
  refine Gives.seq Gives.declD ?_
  intro t hs _
  keep hs
  refine Gives.seq Gives.declD ?_
  intro t hs _
  keep hs
  refine Gives.seq (P := fun t => BufOn (t.l.v .k) k (· < nn * nF)) ?_ ?_
  · rcases hd with hd | hd
    · subst hd
      refine Gives.ite_pos (ok_to (ev_eqI (ev_ivar hdim) (ev_ilit 2)) (by simp)) ?_
      exact Gives.diag L hE hF (by idx) hk e1
    · subst hd
      refine Gives.ite_neg (ok_to (ev_eqI (ev_ivar hdim) (ev_ilit 2)) (by simp)) ?_
      refine Gives.ite_pos (ok_to (ev_eqI (ev_ivar hdim) (ev_ilit 3)) (by simp)) ?_
      exact Gives.diag L hE hF (by idx) hk e1
  intro t hs hk
  keep hs
  exact Gives.cgTail L hE (hk.mono fun q hq => by omega) hx hb hr hz hp hq rfl hits hmx htol e2 e3 e4

end

end

end Verif.Text
