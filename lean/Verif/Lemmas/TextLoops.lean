import Verif.Lemmas.TextRun
import Verif.Lemmas.State

/-!
# Executing the statements of `assembly.cpp`: loops, members and materials
-/

namespace Verif.Text

variable {α : Type} [Scalar α]

section
variable {c : Cfg α} {s : St α} {n : Nat}

theorem ev_ltD {a b : DExp} {x y : α} (ha : a.eval c s = .ok x) (hb : b.eval c s = .ok y) :
    (BExp.ltD a b).eval c s = .ok (Scalar.lt x y) := by simp [BExp.eval, ha, hb]

theorem ev_eqI {a b : IExp} {x y : Int} (ha : a.eval c s.l = .ok x)
    (hb : b.eval c s.l = .ok y) :
    (BExp.eqI a b).eval c s = .ok (decide (x = y)) := by simp [BExp.eval, ha, hb]

theorem ev_memRead {g : GA} {i : IExp} {k : Nat} {v : α} {p : Buf α}
    (hi : i.eval c s.l = .ok (k : Int)) (hg : g.get s.w = p) (hr : p.read k = .ok v) :
    (DExp.memRd g i).eval c s = .ok v := by
  simp [DExp.eval, hi, hg, Buf.readI, hr]

theorem ev_elemType {i : IExp} {z : Int} {k : Nat} {v : Int}
    (hi : i.eval c s.l = .ok z) (hz : z = k) (hr : c.elemType.read k = .ok v) :
    (IExp.elemType i).eval c s.l = .ok v := by
  subst hz
  simp [IExp.eval, hi, Buf.readI, hr]

theorem ev_mat {i : IExp} {f : Fld} {k : Nat} (hi : i.eval c s.l = .ok (k : Int)) (hk : k < 10) :
    (DExp.mat i f).eval c s = .ok (f.get (c.mats k)) := by
  have : (k : Int) < 10 := by omega
  simp [DExp.eval, hi, matAt, this]

theorem ev_matPl {i : IExp} {k : Nat} (hi : i.eval c s.l = .ok (k : Int)) (hk : k < 10) :
    (IExp.matPlasticity i).eval c s.l = .ok (if (c.mats k).plasticity = true then 1 else 0) := by
  have : (k : Int) < 10 := by omega
  simp [IExp.eval, hi, matAt, this]

theorem ev_ird {x : V} {i : IExp} {z : Int} {N : Nat} {S : Nat → Prop} {f : Nat → Int}
    (hv : VecOn (s.l.iv x) N S f) (hi : i.eval c s.l = .ok z) (h0 : 0 ≤ z) (hk : z < N)
    (hS : S z.toNat) : (IExp.rd x i).eval c s.l = .ok (f z.toNat) := by
  obtain ⟨a, h1, h2, h3⟩ := hv
  have : z < a.n := by omega
  simp [IExp.eval, hi, h1, need, Vec.rd, this, h0, h3 _ hS]

/-- Assignment to an entry of an array of `int`. -/
theorem Gives.stI {x : V} {i e : IExp} {z : Int} {k N : Nat} {S : Nat → Prop}
    {f : Nat → Int} {y : Int} (hv : VecOn (s.l.iv x) N S f) (hi : i.eval c s.l = .ok z) (hz : z = k)
    (hk : k < N) (he : e.eval c s.l = .ok y) :
    Gives ((Stmt.stI x i e).exec c (run c n) s)
      (fun t => VecOn (t.l.iv x) N (fun q => S q ∨ q = k) (fun q => if q = k then y else f q)) := by
  obtain ⟨a, h1, h2, h3⟩ := hv
  subst hz
  have hka : (k : Int) < a.n := by omega
  refine ⟨_, by simp [Stmt.exec, hi, he, h1, need, Vec.wr, hka]; rfl, ?_⟩
  refine ⟨⟨a.n, fun q => if q = k then some y else a.val q⟩, by simp [upd], h2, ?_⟩
  intro q hq
  by_cases e : q = k
  · simp [e]
  · simp only [e, or_false] at hq
    simp [e, h3 q hq]

/-- Assignment to an entry of a member array. -/
theorem Gives.memSt {g : GA} {i : IExp} {e : DExp} {k : Nat} {y : α} {w : Work α}
    {p : Buf α} (hw : s.w = w) (hi : i.eval c s.l = .ok (k : Int))
    (he : e.eval c s = .ok y) (hr : (g.get w).write k y = .ok p) :
    Gives ((Stmt.memSt g i e).exec c (run c n) s) (fun t => t.w = g.set w p) := by
  subst hw
  exact ⟨{ s with w := g.set s.w p }, by simp [Stmt.exec, hi, he, hr], rfl⟩

/-- Calls with evaluated arguments. -/
theorem Gives.call' {f : Fn} {args : List Arg} {P Q : St α → Prop}
    (h : ∃ l, passAll c s Loc.none (params f) args = .ok l ∧ Gives (run c n f ⟨s.w, l⟩) Q)
    (k : ∀ r, Q r → P ⟨memBack r.l r.w (params f) args, passBack r.l s.l (params f) args⟩) :
    Gives ((Stmt.call f args).exec c (run c n) s) P := by
  obtain ⟨l, h1, h2⟩ := h
  exact Gives.call h1 h2 k

/-- A loop of the text follows a loop of the model; the relation may use the counter. -/
theorem Gives.simK {σ : Type} {x : V} {hi : IExp} {b : Stmt} {N : Nat} {f : Nat → σ → M σ}
    {a z : σ} (R : Nat → σ → St α → Prop)
    (hR : ∀ k a t o, R k a t → R k a { t with l.i := upd t.l.i x o })
    (hz : hi.eval c s.l = .ok (N : Int))
    (hm : loop N f a = .ok z)
    (h0 : R 0 a s)
    (hs : ∀ (k : Nat) (t : St α) (a a' : σ), k < N →
      Same ((Stmt.for x (.lit 0) hi b).eff (runEff n)) s t → t.l.i x = some (k : Int) → R k a t →
      f k a = .ok a' → Gives (b.exec c (run c n) t) (R (k + 1) a')) :
    Gives ((Stmt.for x (.lit 0) hi b).exec c (run c n) s) (R N z) := by
  have hk : ∀ k, k ≤ N → ∃ a', loop k f a = .ok a' := by
    intro k hk
    obtain ⟨d, rfl⟩ := Nat.exists_eq_add_of_le hk
    clear hz hs
    induction d generalizing z with
    | zero => exact ⟨z, hm⟩
    | succ d ih =>
      rw [← Nat.add_assoc, loop_succ, bind_ok_iff'] at hm
      obtain ⟨y, h1, _⟩ := hm
      exact ih h1 (by omega)
  refine (Gives.for0 (fun k t => ∀ a', loop k f a = .ok a' → R k a' t)
    (fun k t o h a' e => hR _ _ _ _ (h a' e)) hz (fun a' e => by cases e; exact h0) ?_).mono
    (fun t h => h z hm)
  intro k t hkN h1 h2 h3
  obtain ⟨a1, e1⟩ := hk k (by omega)
  obtain ⟨a2, e2⟩ := hk (k + 1) hkN
  have e3 := e2
  rw [loop_succ, e1] at e3
  refine (hs k t a1 a2 hkN h1 h2 (h3 a1 e1) e3).mono fun t' h a' e => ?_
  rw [e2] at e
  cases e
  exact h

/-- A loop of the text follows a loop of the model. -/
theorem Gives.sim {σ : Type} {x : V} {hi : IExp} {b : Stmt} {N : Nat} {f : Nat → σ → M σ}
    {a z : σ} (R : σ → St α → Prop)
    (hR : ∀ a t o, R a t → R a { t with l.i := upd t.l.i x o })
    (hz : hi.eval c s.l = .ok (N : Int))
    (hm : loop N f a = .ok z)
    (h0 : R a s)
    (hs : ∀ (k : Nat) (t : St α) (a a' : σ), k < N →
      Same ((Stmt.for x (.lit 0) hi b).eff (runEff n)) s t → t.l.i x = some (k : Int) → R a t →
      f k a = .ok a' → Gives (b.exec c (run c n) t) (R a')) :
    Gives ((Stmt.for x (.lit 0) hi b).exec c (run c n) s) (R z) :=
  Gives.simK (fun _ => R) (fun _ => hR) hz hm h0 hs

/-- A loop of the text follows a loop of the model, with a lower bound. -/
theorem Gives.simFrom {σ : Type} {x : V} {hi : IExp} {b : Stmt} {m N : Nat} {f : Nat → σ → M σ}
    {a z : σ} (R : σ → St α → Prop)
    (hR : ∀ a t o, R a t → R a { t with l.i := upd t.l.i x o })
    (hz : hi.eval c s.l = .ok ((N : Int)))
    (hm : loopFrom m N f a = .ok z)
    (h0 : R a s)
    (hs : ∀ (k : Nat) (t : St α) (a a' : σ), m ≤ k → k < N →
      Same ((Stmt.for x (.lit m) hi b).eff (runEff n)) s t → t.l.i x = some (k : Int) → R a t →
      f k a = .ok a' → Gives (b.exec c (run c n) t) (R a')) :
    Gives ((Stmt.for x (.lit m) hi b).exec c (run c n) s) (R z) := by
  unfold loopFrom at hm
  have hk : ∀ k, k ≤ N - m → ∃ a', loop k (fun t => f (m + t)) a = .ok a' := by
    intro k hk
    obtain ⟨d, hd⟩ := Nat.exists_eq_add_of_le hk
    rw [hd] at hm
    clear hz hs hd
    induction d generalizing z with
    | zero => exact ⟨z, hm⟩
    | succ d ih =>
      rw [← Nat.add_assoc, loop_succ, bind_ok_iff'] at hm
      obtain ⟨y, h1, _⟩ := hm
      exact ih h1
  have key := Gives.for (c := c) (n := n) (x := x) (b := b) (a := m)
    (fun k t => ∀ a', loop k (fun t => f (m + t)) a = .ok a' → R a' t)
    (fun k t o h a' e => hR _ _ _ (h a' e)) rfl hz (fun a' e => by cases e; exact h0) (by
      intro k t hkN h1 h2 h3
      obtain ⟨a1, e1⟩ := hk k (by omega)
      obtain ⟨a2, e2⟩ := hk (k + 1) (by omega)
      have e3 := e2
      rw [loop_succ, e1] at e3
      refine (hs (m + k) t a1 a2 (by omega) (by omega) h1 (by simpa using h2) (h3 a1 e1) e3).mono
        fun t' h a' e => ?_
      rw [e2] at e
      cases e
      exact h)
  refine key.mono fun t h => h z ?_
  have e : ((N : Int) - (m : Int)).toNat = N - m := by omega
  rw [e]; exact hm

/-- Loops that assign one entry of a member array in each pass. -/
theorem Gives.memLoop {x : V} {hi i : IExp} {e : DExp} {g : GA} {N : Nat} {ix : Nat → Nat}
    {f : Nat → Buf α → M (Buf α)} {w : Work α} {p : Buf α}
    (hw : s.w = w) (hz : hi.eval c s.l = .ok (N : Int))
    (hm : loop N f (g.get w) = .ok p)
    (he : ∀ (k : Nat) (t : St α) (q q' : Buf α), k < N →
      Same ((Stmt.for x (.lit 0) hi (.memSt g i e)).eff (runEff n)) s t →
      t.l.i x = some (k : Int) → t.w = g.set w q → f k q = .ok q' →
      ∃ y, i.eval c t.l = .ok (ix k : Int) ∧ e.eval c t = .ok y ∧ q.write (ix k) y = .ok q') :
    Gives ((Stmt.for x (.lit 0) hi (.memSt g i e)).exec c (run c n) s)
      (fun t => t.w = g.set w p) := by
  have hg : ∀ q : Buf α, g.get (g.set w q) = q := by intro q; cases g <;> rfl
  have hss : ∀ q q' : Buf α, g.set (g.set w q) q' = g.set w q' := by intro q q'; cases g <;> rfl
  have h0 : g.set w (g.get w) = w := by cases g <;> rfl
  refine Gives.sim (σ := Buf α) (fun q t => t.w = g.set w q) (fun _ _ _ h => h) hz hm
    (by rw [h0]; exact hw) ?_
  intro k t q q' hk hs hi hq hf
  obtain ⟨y, h1, h2, h3⟩ := he k t q q' hk hs hi hq hf
  refine (Gives.memSt hq h1 h2 (by rw [hg]; exact h3)).mono fun t' h => ?_
  rw [h, hss]

/-- Loops with an arbitrary body that assigns `a[x]`. -/
theorem Gives.each1 {x a : V} {hi : IExp} {b : Stmt} {m N M : Nat} {S : Nat → Prop}
    {f : Nat → α} (g : Nat → α) (hv : VecOn (s.l.v a) M S f) (hm : m ≤ N)
    (hz : hi.eval c s.l = .ok (N : Int))
    (he : ∀ (k : Nat) (t : St α), m ≤ k → k < N →
      Same ((Stmt.for x (.lit m) hi b).eff (runEff n)) s t →
      t.l.i x = some (k : Int) →
      VecOn (t.l.v a) M (fun q => S q ∨ (m ≤ q ∧ q < k))
        (fun q => if m ≤ q ∧ q < k then g q else f q) →
      Gives (b.exec c (run c n) t) (fun t => VecOn (t.l.v a) M (fun q => S q ∨ (m ≤ q ∧ q < k + 1))
        (fun q => if m ≤ q ∧ q < k + 1 then g q else f q))) :
    Gives ((Stmt.for x (.lit m) hi b).exec c (run c n) s)
      (fun t => VecOn (t.l.v a) M (fun q => S q ∨ (m ≤ q ∧ q < N))
        (fun q => if m ≤ q ∧ q < N then g q else f q)) := by
  refine Gives.forFrom (fun k t => VecOn (t.l.v a) M (fun q => S q ∨ (m ≤ q ∧ q < k))
        (fun q => if m ≤ q ∧ q < k then g q else f q)) (fun _ _ _ h => h) hm hz
    (hv.congr le_rfl fun q hq => ⟨?_, ?_⟩) he
  · rcases hq with h | h
    · exact h
    · omega
  · rw [if_neg (by omega)]

/-- Loops that change one entry of an array again and again. -/
theorem Gives.fold1 {x a : V} {hi ie : IExp} {e : DExp} {N M i0 : Nat} {S : Nat → Prop}
    {f : Nat → α} (h : Nat → α → α) (hv : VecOn (s.l.v a) M S f) (hS : S i0) (hM : i0 < M)
    (hz : hi.eval c s.l = .ok (N : Int))
    (he : ∀ (k : Nat) (t : St α), k < N →
      Same ((Stmt.for x (.lit 0) hi (.st1 a ie e)).eff (runEff n)) s t →
      t.l.i x = some (k : Int) →
      VecOn (t.l.v a) M S (fun q => if q = i0 then accum k h (f i0) else f q) →
      ie.eval c t.l = .ok (i0 : Int) ∧ e.eval c t = .ok (h k (accum k h (f i0)))) :
    Gives ((Stmt.for x (.lit 0) hi (.st1 a ie e)).exec c (run c n) s)
      (fun t => VecOn (t.l.v a) M S (fun q => if q = i0 then accum N h (f i0) else f q)) := by
  refine Gives.for0 (fun k t => VecOn (t.l.v a) M S
    (fun q => if q = i0 then accum k h (f i0) else f q)) (fun _ _ _ h => h) hz
    (hv.congr le_rfl fun q hq => ⟨hq, ?_⟩) ?_
  · by_cases e : q = i0
    · subst e; simp [accum]
    · simp [e]
  · intro k t hk hs hi hP
    obtain ⟨h1, h2⟩ := he k t hk hs hi hP
    refine (Gives.st1 hP h1 rfl hM h2).mono fun t' h => h.congr le_rfl fun q hq => ⟨Or.inl hq, ?_⟩
    by_cases e : q = i0
    · simp [e, accum]
    · simp [e]

/-- Loops that change one entry of a matrix again and again. -/
theorem Gives.fold2 {x a : V} {hi ie je : IExp} {e : DExp} {N M K i0 j0 : Nat}
    {S : Nat → Nat → Prop} {f : Nat → Nat → α} (h : Nat → α → α) (hv : MtxOn (s.l.m a) M K S f)
    (hS : S i0 j0) (hM : i0 < M) (hK : j0 < K) (hz : hi.eval c s.l = .ok (N : Int))
    (he : ∀ (k : Nat) (t : St α), k < N →
      Same ((Stmt.for x (.lit 0) hi (.st2 a ie je e)).eff (runEff n)) s t →
      t.l.i x = some (k : Int) →
      MtxOn (t.l.m a) M K S (fun p q => if p = i0 ∧ q = j0 then accum k h (f i0 j0) else f p q) →
      ie.eval c t.l = .ok (i0 : Int) ∧ je.eval c t.l = .ok (j0 : Int) ∧
      e.eval c t = .ok (h k (accum k h (f i0 j0)))) :
    Gives ((Stmt.for x (.lit 0) hi (.st2 a ie je e)).exec c (run c n) s)
      (fun t => MtxOn (t.l.m a) M K S
        (fun p q => if p = i0 ∧ q = j0 then accum N h (f i0 j0) else f p q)) := by
  refine Gives.for0 (fun k t => MtxOn (t.l.m a) M K S
    (fun p q => if p = i0 ∧ q = j0 then accum k h (f i0 j0) else f p q)) (fun _ _ _ h => h) hz
    (hv.congr fun p q hq => ⟨hq, ?_⟩) ?_
  · by_cases e : p = i0 ∧ q = j0
    · obtain ⟨rfl, rfl⟩ := e; simp [accum]
    · simp [e]
  · intro k t hk hs hi hP
    obtain ⟨h1, h2, h3⟩ := he k t hk hs hi hP
    refine (Gives.st2 hP h1 h2 rfl rfl hM hK h3).mono fun t' h => h.congr fun p q hq =>
      ⟨Or.inl hq, ?_⟩
    by_cases e : p = i0 ∧ q = j0
    · simp [e, accum]
    · simp [e]

/-- Loops with an arbitrary body that assigns row `x` (`A := fun p q => p = x`) or other entries
`A x` of a matrix; each pass may use the entries of the earlier ones. -/
theorem Gives.each2 {x a : V} {hi : IExp} {b : Stmt} {m N M K : Nat}
    {F : Nat → Nat → Nat → α} {S : Nat → Nat → Nat → Prop}
    (hv : MtxOn (s.l.m a) M K (S m) (F m)) (hm : m ≤ N)
    (hz : hi.eval c s.l = .ok (N : Int))
    (he : ∀ (k : Nat) (t : St α), m ≤ k → k < N →
      Same ((Stmt.for x (.lit m) hi b).eff (runEff n)) s t →
      t.l.i x = some (k : Int) → MtxOn (t.l.m a) M K (S k) (F k) →
      Gives (b.exec c (run c n) t) (fun t => MtxOn (t.l.m a) M K (S (k + 1)) (F (k + 1)))) :
    Gives ((Stmt.for x (.lit m) hi b).exec c (run c n) s)
      (fun t => MtxOn (t.l.m a) M K (S N) (F N)) :=
  Gives.forFrom (fun k t => MtxOn (t.l.m a) M K (S k) (F k)) (fun _ _ _ h => h) hm hz hv he

/-- Assignment of the intended value to an entry of an array. -/
theorem Gives.st1g {x : V} {i : IExp} {e : DExp} {N : Nat} {S : Nat → Prop} {g : Nat → α} (k : Nat)
    (hv : VecOn (s.l.v x) N S g) (hi : i.eval c s.l = .ok (k : Int)) (hk : k < N)
    (he : e.eval c s = .ok (g k)) :
    Gives ((Stmt.st1 x i e).exec c (run c n) s)
      (fun t => VecOn (t.l.v x) N (fun q => S q ∨ q = k) g) :=
  (Gives.st1 hv hi rfl hk he).mono fun t h => h.congr le_rfl fun q hq => ⟨hq, by
    by_cases e : q = k <;> simp [e]⟩

/-- Assignment of the intended value to an entry of an array of `int`. -/
theorem Gives.stIg {x : V} {i e : IExp} {N : Nat} {S : Nat → Prop} {g : Nat → Int} (k : Nat)
    (hv : VecOn (s.l.iv x) N S g) (hi : i.eval c s.l = .ok (k : Int)) (hk : k < N)
    (he : e.eval c s.l = .ok (g k)) :
    Gives ((Stmt.stI x i e).exec c (run c n) s)
      (fun t => VecOn (t.l.iv x) N (fun q => S q ∨ q = k) g) :=
  (Gives.stI hv hi rfl hk he).mono fun t h => h.congr le_rfl fun q hq => ⟨hq, by
    by_cases e : q = k <;> simp [e]⟩

/-- Assignment of the intended value to an entry of a matrix. -/
theorem Gives.st2g {x : V} {i j : IExp} {e : DExp} {N K : Nat} {S : Nat → Nat → Prop}
    {g : Nat → Nat → α} (k r : Nat) (hv : MtxOn (s.l.m x) N K S g)
    (hi : i.eval c s.l = .ok (k : Int)) (hj : j.eval c s.l = .ok (r : Int)) (hk : k < N)
    (hr : r < K) (he : e.eval c s = .ok (g k r)) :
    Gives ((Stmt.st2 x i j e).exec c (run c n) s)
      (fun t => MtxOn (t.l.m x) N K (fun p q => S p q ∨ (p = k ∧ q = r)) g) :=
  (Gives.st2 hv hi hj rfl rfl hk hr he).mono fun t h => h.congr fun p q hq => ⟨hq, by
    by_cases e : p = k ∧ q = r <;> simp [e]⟩

/-- A matrix with an initialiser. -/
theorem Gives.initM {x : V} {K : Nat} {l : List (List DExp)} {v : List (List α)}
    (h : evalRows c s l = .ok v) :
    Gives ((Stmt.initM x K l).exec c (run c n) s)
      (fun t => MtxOn (t.l.m x) v.length K (fun p q => p < v.length ∧ q < (v.getD p []).length)
        (fun p q => (v.getD p []).getD q 0)) := by
  refine ⟨_, by simp only [Stmt.exec, h, M_bind_ok', M_pure]; rfl,
    ⟨⟨v.length, K, fun k j => v[k]?.bind (·[j]?)⟩, if_pos rfl, rfl, rfl, ?_⟩⟩
  rintro p q ⟨hp, hq⟩
  simp only [List.getD_eq_getElem?_getD, List.getElem?_eq_getElem hp, Option.getD_some] at hq ⊢
  simp only [Option.bind_some, List.getElem?_eq_getElem hq, Option.getD_some]

theorem gather_ok {N : Nat} {p : Buf α} {ix : Nat → Nat} {f : Nat → α}
    (h : gather N p ix = .ok f) : ∀ i, i < N → p.read (ix i) = .ok (f i) := by
  unfold gather at h
  refine loop_ok_inv (P := fun k (a : Nat → α) => ∀ i, i < k → p.read (ix i) = .ok (a i)) h
    (by intro i hi; omega) ?_
  intro i a a' hi hP hf j hj
  rw [bind_ok_iff] at hf
  obtain ⟨v, h1, h2⟩ := hf
  cases h2
  by_cases e : j = i
  · subst e; simpa using h1
  · simpa [e] using hP j (by omega)

end

/-- Evaluate an index. -/
macro "idx" : tactic => `(tactic|
  (evs
   try simp only [GI.get, intvarIx, gloElem3D, nodIndex, Cfg.npe, Cfg.nvoi, Cfg.nn]
   try push_cast [*]
   try ring))

end Verif.Text
