import Verif.Lemmas.ObjSolve

/-!
# The fields of a Gauss point as variables
-/

namespace Verif.Text

variable {α : Type} [Scalar α] {c : Cfg α} {env : Env α} {s : St α} {n : Nat}

/-- A pointer field and its block hold `p`. -/
structure PtrOn (i : Option Int) (v : Option (Vec α)) (p : Option (Buf α)) : Prop where
  flag : i = some (ptr p)
  blk : ∀ b, p = some b → Blk v b (· < b.size)

/-- The variables of a Gauss point hold `gp`. -/
structure GpOn (c : Cfg α) (gp : Gp α) (l : Loc α) : Prop where
  id : l.i .g_id = some gp.id
  n : PtrOn (l.i .g_int_vars_n) (l.v .g_int_vars_n) gp.intVarsN
  k : PtrOn (l.i .g_int_vars_k) (l.v .g_int_vars_k) gp.intVarsK
  strain : VecOn (l.v .g_macro_strain) c.nvoi (fun _ => True) gp.macroStrain
  stress : VecOn (l.v .g_macro_stress) c.nvoi (fun _ => True) gp.macroStress
  ctan : VecOn (l.v .g_macro_ctan) 36 (fun _ => True) gp.macroCtan
  err : VecOn (l.v .g_nr_err) 7 (fun _ => True) gp.nrErr
  its : VecOn (l.iv .g_nr_its) 7 (fun _ => True) gp.nrIts
  inv : l.d .g_inv_max = some gp.invMax

theorem PtrOn.keep {E : Eff} {s t : St α} {x : V} {p : Option (Buf α)} (h : PtrOn (s.l.i x) (s.l.v x) p)
    (hs : Same E s t) (e : (E.i x, E.v x) = (false, false)) : PtrOn (t.l.i x) (t.l.v x) p := by
  simp only [Prod.mk.injEq] at e
  rw [hs.i _ e.1, hs.v _ e.2]
  exact h

/-- The assignments of a statement leave the variables of the Gauss point alone. -/
theorem GpOn.keep {E : Eff} {s t : St α} {gp : Gp α} (h : GpOn c gp s.l) (hs : Same E s t)
    (e : (E.i .g_id, (E.i .g_int_vars_n, E.v .g_int_vars_n), (E.i .g_int_vars_k, E.v .g_int_vars_k),
      E.v .g_macro_strain, E.v .g_macro_stress, E.v .g_macro_ctan, E.v .g_nr_err, E.iv .g_nr_its, E.d .g_inv_max) =
      (false, (false, false), (false, false), false, false, false, false, false, false)) : GpOn c gp t.l := by
  simp only [Prod.mk.injEq] at e
  obtain ⟨e1, ⟨a, b⟩, ⟨a', b'⟩, e4, e5, e6, e7, e8, e9⟩ := e
  exact ⟨keep_i hs h.id e1, h.n.keep hs (Prod.ext a b), h.k.keep hs (Prod.ext a' b'), keep_v hs h.strain e4, keep_v hs h.stress e5,
    keep_v hs h.ctan e6, keep_v hs h.err e7, (hs.iv _ e8).symm ▸ h.its, keep_d hs h.inv e9⟩

/-- One field has the new content, the others are left alone. -/
macro "gpset " hg:ident hs:ident h:term:max : tactic => `(tactic|
  (refine ⟨?_, ?_, ?_, ?_, ?_, ?_, ?_, ?_, ?_⟩
   · first | exact keep_i $hs ($hg).id rfl | exact $h
   · first | exact ($hg).n.keep $hs rfl | exact $h
   · first | exact ($hg).k.keep $hs rfl | exact $h
   · first | exact keep_v $hs ($hg).strain rfl | exact $h
   · first | exact keep_v $hs ($hg).stress rfl | exact $h
   · first | exact keep_v $hs ($hg).ctan rfl | exact $h
   · first | exact keep_v $hs ($hg).err rfl | exact $h
   · first | exact (Same.iv $hs .g_nr_its rfl).symm ▸ ($hg).its | exact $h
   · first | exact keep_d $hs ($hg).inv rfl | exact $h))

theorem gpIn_on (gp : Gp α) (l : Loc α) : GpOn c gp (gpIn gp l) := by
  have n6 := nvoi_le c
  refine ⟨rfl, ⟨rfl, ?_⟩, ⟨rfl, ?_⟩, ⟨_, rfl, n6, fun _ _ => rfl⟩, ⟨_, rfl, n6, fun _ _ => rfl⟩,
    ⟨_, rfl, le_rfl, fun _ _ => rfl⟩, ⟨_, rfl, le_rfl, fun _ _ => rfl⟩, ⟨_, rfl, le_rfl, fun _ _ => rfl⟩, rfl⟩
  · intro b hb
    refine ⟨Vec.ofBuf b, ?_, rfl, fun _ _ => rfl, fun _ => rfl⟩
    show gp.intVarsN.map Vec.ofBuf = _
    rw [hb]; rfl
  · intro b hb
    refine ⟨Vec.ofBuf b, ?_, rfl, fun _ _ => rfl, fun _ => rfl⟩
    show gp.intVarsK.map Vec.ofBuf = _
    rw [hb]; rfl

theorem allSet_of {β : Type} {a : Vec β} {n : Nat} (h : ∀ q, q < n → (a.val q).isSome = true) :
    allSet a n = true := by
  induction n with
  | zero => rfl
  | succ n ih => simp [allSet, ih fun q hq => h q (by omega), h n (by omega)]

theorem PtrOn.out {i : Option Int} {v : Option (Vec α)} {p old : Option (Buf α)} (h : PtrOn i v p) :
    ptrOut old i v = .ok p := by
  obtain ⟨h1, h2⟩ := h
  subst h1
  cases p with
  | none => rfl
  | some b =>
    obtain ⟨a, rfl, e1, e2, e3⟩ := h2 b rfl
    have h : allSet a a.n = true := allSet_of fun q hq => e2 q (by rw [← e1]; exact hq)
    show (if allSet a a.n = true then _ else _) = _
    rw [if_pos h]
    cases b with
    | mk sz val =>
      simp only at e1 e3
      subst e1
      congr 2
      exact congrArg _ (funext e3)

theorem VecOn.out {β : Type} {o : Option (Vec β)} {N : Nat} {f g : Nat → β} (h : VecOn o N (fun _ => True) f) :
    arrOut g o = f := by
  obtain ⟨a, rfl, -, h⟩ := h
  funext q
  simp [arrOut, h q trivial]

theorem GpOn.out {gp g : Gp α} {l : Loc α} (h : GpOn c gp l) : gpOut g l = .ok gp := by
  unfold gpOut
  rw [h.n.out, h.k.out, h.strain.out, h.stress.out, h.ctan.out, h.err.out, h.its.out, h.id, h.inv]
  rfl

/-! ## Blocks -/

theorem ev_blk {x : V} {i : IExp} {z : Int} {k : Nat} {p : Buf α} {S : Nat → Prop}
    (hb : Blk (s.l.v x) p S) (hi : i.eval c s.l = .ok z) (hz : z = k) (hS : S k) (hk : k < p.size) :
    (DExp.rd1 x i).eval c s = .ok (p.val k) := by
  obtain ⟨a, h1, h2, h3, h4⟩ := hb
  have hv : VecOn (s.l.v x) p.size (· = k) p.val := ⟨a, h1, h2.ge, by
    rintro q rfl
    have := h3 q hS
    obtain ⟨y, hy⟩ := Option.isSome_iff_exists.1 this
    rw [hy, ← h4 q, hy]; rfl⟩
  subst hz
  have := ev_rd1 hv hi (by omega) (by omega) (by simp)
  simpa using this

theorem Gives.blkSt {x : V} {i : IExp} {e : DExp} {k : Nat} {p : Buf α} {S : Nat → Prop} {y : α}
    (hb : Blk (s.l.v x) p S) (hi : i.eval c s.l = .ok (k : Int)) (he : e.eval c s = .ok y) (hk : k < p.size) :
    Gives ((Stmt.st1 x i e).exec c (run c n) s)
      (fun t => Blk (t.l.v x) ⟨p.size, fun q => if q = k then y else p.val q⟩ (fun q => S q ∨ q = k)) := by
  obtain ⟨a, h1, h2, h3, h4⟩ := hb
  have hka : (k : Int) < a.n := by omega
  refine ⟨_, by simp [Stmt.exec, hi, he, h1, need, Vec.wr, hka]; rfl, ?_⟩
  refine ⟨⟨a.n, fun q => if q = k then some y else a.val q⟩, by simp [upd], h2, ?_, ?_⟩
  · intro q hq
    by_cases e : q = k
    · simp [e]
    · simpa [e] using h3 q (hq.resolve_right e)
  · intro q
    by_cases e : q = k
    · simp [e]
    · simpa [e] using h4 q

theorem Gives.blkMalloc {x : V} {e : IExp} {N : Nat} (h : e.eval c s.l = .ok (N : Int)) :
    Gives ((Stmt.malloc x e).exec c (run c n) s)
      (fun t => Blk (t.l.v x) ⟨N, fun _ => 0⟩ (fun _ => False)) :=
  ⟨{ s with l.v := upd s.l.v x (some ⟨N, fun _ => .none⟩) }, by simp [Stmt.exec, h],
    ⟨N, fun _ => .none⟩, if_pos rfl, rfl, fun _ h => h.elim, fun _ => rfl⟩

/-- `for (i < num_int_vars) x[i] = e;`: /repo/src/homogenize.cpp:177-181, 215-216. -/
theorem Gives.blkLoop {x : V} {e : DExp} {p : Buf α} {S : Nat → Prop} {f : Nat → α}
    (hb : Blk (s.l.v x) p S) (hN : c.numIntVars ≤ p.size)
    (he : ∀ (k : Nat) (t : St α), k < c.numIntVars →
      Same ((Stmt.for .i (.lit 0) (.mem .num_int_vars) (.st1 x (.var .i) e)).eff (runEff n)) s t →
      t.l.i .i = some (k : Int) → e.eval c t = .ok (f k)) :
    Gives ((Stmt.for .i (.lit 0) (.mem .num_int_vars) (.st1 x (.var .i) e)).exec c (run c n) s) (fun t =>
      Blk (t.l.v x) ⟨p.size, fun q => if q < c.numIntVars then f q else p.val q⟩
        (fun q => S q ∨ q < c.numIntVars)) := by
  refine Gives.for0 (N := c.numIntVars) (fun m t => Blk (t.l.v x) ⟨p.size, fun q => if q < m then f q else p.val q⟩
    (fun q => S q ∨ q < m)) (fun _ _ _ h => h) (ev_imem _) ?_ ?_
  · simpa using hb
  intro k t hk hs hi h
  refine (Gives.blkSt h (ev_ivar hi) (he k t hk hs hi) (by show k < p.size; omega)).mono ?_
  rintro u ⟨a, h1, h2, h3, h4⟩
  refine ⟨a, h1, h2, fun q hq => h3 q ?_, fun q => (h4 q).trans ?_⟩
  · rcases hq with h | h
    · exact Or.inl (Or.inl h)
    · by_cases e : q = k
      · exact Or.inr e
      · exact Or.inl (Or.inr (by omega))
  · by_cases e : q = k
    · subst e; simp
    · have : q < k + 1 ↔ q < k := by omega
      simp only [e, this, if_false]

end Verif.Text
