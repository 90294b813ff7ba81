import Verif.Lemmas.TextBc
import Verif.Model.EllInit3D

/-!
# Executing the statements of `ell.cpp`: `ell_init_2D`
-/

namespace Verif.Text

variable {α : Type} [Scalar α]

/-- The entries that are the same for two contents of the fresh block have been assigned. -/
theorem FillOn.all {o : Option (Vec Int)} {p q : Buf Int} (h0 : FillOn o p fun _ => 0)
    (h1 : FillOn o q fun _ => 1) (N : Nat) (h : ∀ k, k < N → p.val k = q.val k) :
    BufOn o p (· < N) := by
  obtain ⟨a, e, h2, h3⟩ := h0
  obtain ⟨b, e', h4, h5⟩ := h1
  rw [e] at e'
  cases e'
  refine ⟨a, e, h2, fun k hk => ?_⟩
  have d3 := h3 k
  have d5 := h5 k
  have d := h k hk
  cases hv : a.val k with
  | some y => rw [hv] at d3; simpa using d3
  | none =>
    rw [hv] at d3 d5
    simp only [Option.getD_none] at d3 d5
    omega

section
variable {c : Cfg α} {s : St α} {n : Nat}

theorem Gives.fst {x : V} {i e : IExp} {k : Nat} {p p' : Buf Int} {j : Nat → Int} {y : Int}
    (hv : FillOn (s.l.iv x) p j) (hi : i.eval c s.l = .ok (k : Int)) (he : e.eval c s.l = .ok y)
    (hw : p.write k y = .ok p') :
    Gives ((Stmt.stI x i e).exec c (run c n) s) (fun t => FillOn (t.l.iv x) p' j ∧ t.l.i = s.l.i) := by
  obtain ⟨a, h1, h2, h3⟩ := hv
  unfold Buf.write at hw
  split at hw
  · rename_i hk
    cases hw
    have hka : (k : Int) < a.n := by omega
    refine ⟨_, by simp [Stmt.exec, hi, he, h1, need, Vec.wr, hka]; rfl, ?_⟩
    refine ⟨?_, rfl⟩
    refine ⟨⟨a.n, fun q => if q = k then some y else a.val q⟩, by simp [upd], h2, ?_⟩
    intro q
    by_cases e : q = k
    · simp [e]
    · simp [e, h3 q]
  · cases hw

theorem Gives.mallocF {x : V} {e : IExp} {N : Nat} (h : e.eval c s.l = .ok (N : Int))
    (f : Nat → Int) :
    Gives ((Stmt.mallocI x e).exec c (run c n) s) (fun t => FillOn (t.l.iv x) ⟨N, f⟩ f) :=
  ⟨{ s with l.iv := upd s.l.iv x (some ⟨N, fun _ => .none⟩) }, by simp [Stmt.exec, h],
    ⟨N, fun _ => .none⟩, if_pos rfl, rfl, fun _ => rfl⟩

theorem Gives.mallocV {x : V} {e : IExp} {N : Nat} (h : e.eval c s.l = .ok (N : Int))
    (f : Nat → α) :
    Gives ((Stmt.malloc x e).exec c (run c n) s) (fun t => FillOn (t.l.v x) ⟨N, f⟩ f) :=
  ⟨{ s with l.v := upd s.l.v x (some ⟨N, fun _ => .none⟩) }, by simp [Stmt.exec, h],
    ⟨N, fun _ => .none⟩, if_pos rfl, rfl, fun _ => rfl⟩

/-! ## The assignments of one node -/

/-- The slot `k` of the row `d1` of a node: /repo/src/ell.cpp:727-735 and others. -/
def slotExp (k : Nat) : IExp :=
  .add (.var .mcols) (.add (.add (.mul (.lit k) (.var .nFields)) (.mul (.var .nnz) (.var .d1))) (.var .d2))

/-- Assignments to the slots from `k` on. -/
def leaf : Nat → List IExp → Stmt
  | _, [] => .skip
  | k, [e] => .stI .m_cols (slotExp k) e
  | k, e :: es => .stI .m_cols (slotExp k) e ;; leaf (k + 1) es

/-- The right-hand sides of a sequence of assignments. -/
def unleaf : Stmt → List IExp
  | .seq (.stI _ _ e) r => e :: unleaf r
  | .stI _ _ e => [e]
  | _ => []

/-- Value of an expression in the variables `nx`, `ny` and the node. -/
def den (n nx ny : Int) : IExp → Int
  | .lit k => k
  | .var .nx => nx
  | .var .ny => ny
  | .var _ => n
  | .add a b => den n nx ny a + den n nx ny b
  | .sub a b => den n nx ny a - den n nx ny b
  | .mul a b => den n nx ny a * den n nx ny b
  | _ => 0

/-- Expressions in the variables `nx`, `ny`, `X`. -/
def plain (X : V) : IExp → Bool
  | .lit _ => true
  | .var x => x = .nx || x = .ny || x = X
  | .add a b => plain X a && plain X b
  | .sub a b => plain X a && plain X b
  | .mul a b => plain X a && plain X b
  | _ => false

theorem ev_den {X : V} {k nx ny : Int} {l : Loc α} (hX : l.i X = some k) (hx : l.i .nx = some nx)
    (hy : l.i .ny = some ny) (h1 : X ≠ .nx) (h2 : X ≠ .ny) :
    ∀ e : IExp, plain X e = true → e.eval c l = .ok (den k nx ny e)
  | .lit _, _ => rfl
  | .var x, h => by
    simp only [plain, Bool.or_eq_true, decide_eq_true_eq] at h
    rcases h with (rfl | rfl) | rfl
    · exact ev_ivar hx
    · exact ev_ivar hy
    · have : den k nx ny (.var x) = k := by
        unfold den; split <;> simp_all
      rw [this]; exact ev_ivar hX
  | .add a b, h => by
    simp only [plain, Bool.and_eq_true] at h
    exact ev_iadd (ev_den hX hx hy h1 h2 a h.1) (ev_den hX hx hy h1 h2 b h.2)
  | .sub a b, h => by
    simp only [plain, Bool.and_eq_true] at h
    exact ev_isub (ev_den hX hx hy h1 h2 a h.1) (ev_den hX hx hy h1 h2 b h.2)
  | .mul a b, h => by
    simp only [plain, Bool.and_eq_true] at h
    exact ev_imul (ev_den hX hx hy h1 h2 a h.1) (ev_den hX hx hy h1 h2 b h.2)
  | .mem _, h | .rd _ _, h | .elemType _, h | .matPlasticity _, h | .mod _ _, h | .tab _ _ _, h => by
    simp [plain] at h

/-- The entry of a table that a right-hand side stands for. -/
def colOf (n nx ny : Int) : IExp → Option Int
  | .add (.mul e _) _ => some (den n nx ny e)
  | _ => none

/-- Right-hand sides `0` and `(e) * nFields + d2`. -/
def colWf (X : V) : IExp → Bool
  | .lit 0 => true
  | .add (.mul e (.var .nFields)) (.var .d2) => plain X e
  | _ => false

theorem ev_col {X : V} {k nx ny : Int} {nF d2 : Nat} {l : Loc α} (hX : l.i X = some k)
    (hx : l.i .nx = some nx) (hy : l.i .ny = some ny) (hF : l.i .nFields = some (nF : Int))
    (hd : l.i .d2 = some (d2 : Int)) (h1 : X ≠ .nx) (h2 : X ≠ .ny) {e : IExp} (h : colWf X e = true) :
    e.eval c l = .ok (colVal nF (colOf k nx ny e) d2) := by
  unfold colWf at h
  split at h
  · rfl
  · exact ev_iadd (ev_imul (ev_den hX hx hy h1 h2 _ h) (ev_ivar hF)) (ev_ivar hd)
  · cases h

/-- The assignments to the slots of one row of a node. -/
theorem Gives.leaf {X : V} {node nF nx ny nnz d1 d2 : Nat} {j : Nat → Int} (h1 : X ≠ .nx) (h2 : X ≠ .ny)
    {L : List IExp} (hL : L.all (colWf X) = true) {p z : Buf Int}
    (hm : loop L.length (fun q c => c.write (node * nF * nnz + (q * nF + nnz * d1 + d2))
      (colVal nF ((L.map (colOf node nx ny)).getD q none) d2)) p = .ok z) :
    ∀ (M : List IExp) (k : Nat) (s : St α) (a : Buf Int), M ≠ [] → L.drop k = M → s.l.i X = some (node : Int) →
      s.l.i .nx = some (nx : Int) → s.l.i .ny = some (ny : Int) → s.l.i .nFields = some (nF : Int) →
      s.l.i .nnz = some (nnz : Int) → s.l.i .mcols = some ((node * nF * nnz : Nat) : Int) →
      s.l.i .d1 = some (d1 : Int) → s.l.i .d2 = some (d2 : Int) →
      loop k (fun q c => c.write (node * nF * nnz + (q * nF + nnz * d1 + d2))
        (colVal nF ((L.map (colOf node nx ny)).getD q none) d2)) p = .ok a →
      FillOn (s.l.iv .m_cols) a j →
      Gives ((Text.leaf k M).exec c (run c n) s) (fun t => FillOn (t.l.iv .m_cols) z j) := by
  have hpre : ∀ k, k ≤ L.length → ∃ a, loop k (fun q c => c.write (node * nF * nnz + (q * nF + nnz * d1 + d2))
      (colVal nF ((L.map (colOf node nx ny)).getD q none) d2)) p = .ok a := by
    intro k hk
    obtain ⟨d, hd⟩ := Nat.exists_eq_add_of_le hk
    generalize L.length = N at *
    subst hd
    induction d generalizing z with
    | zero => exact ⟨z, hm⟩
    | succ d ih =>
      rw [← Nat.add_assoc, loop_succ, bind_ok_iff'] at hm
      obtain ⟨y, h1, _⟩ := hm
      exact ih h1 (by omega)
  intro M
  induction M with
  | nil => intro k s a h; exact absurd rfl h
  | cons e es ih =>
    intro k s a _ hM hX hx hy hF hnz hmc hd1 hd2 ha hv
    have hk : k < L.length := by
      by_contra hc
      rw [List.drop_eq_nil_of_le (by omega)] at hM
      cases hM
    have he : L[k] = e := by
      have := List.drop_eq_getElem_cons hk
      rw [this] at hM
      exact (List.cons.inj hM).1
    have hes : L.drop (k + 1) = es := by
      have := List.drop_eq_getElem_cons hk
      rw [this] at hM
      exact (List.cons.inj hM).2
    obtain ⟨b, hb⟩ := hpre (k + 1) hk
    have hw := hb
    rw [loop_succ, ha] at hw
    have hg : (L.map (colOf node nx ny)).getD k none = colOf node nx ny e := by
      rw [List.getD_eq_getElem?_getD, List.getElem?_map, List.getElem?_eq_getElem hk, he]; rfl
    have hwf : colWf X e = true := by
      have := List.all_eq_true.mp hL e (he ▸ List.getElem_mem hk)
      exact this
    have hval : e.eval c s.l = .ok (colVal nF (colOf node nx ny e) d2) :=
      ev_col hX hx hy hF hd2 h1 h2 hwf
    have hix : (slotExp k).eval c s.l = .ok ((node * nF * nnz + (k * nF + nnz * d1 + d2) : Nat) : Int) := by
      unfold slotExp
      idx
    have hst := Gives.fst (n := n) hv hix hval (by
      change a.write _ (colVal nF ((L.map (colOf node nx ny)).getD k none) d2) = .ok b at hw
      rwa [hg] at hw)
    cases hes' : es with
    | nil =>
      have hN : L.length = k + 1 := by
        have := congrArg List.length hM
        rw [List.length_drop, hes'] at this
        simp at this; omega
      have : b = z := by
        rw [hN, hb] at hm
        cases hm; rfl
      subst this
      exact hst.mono fun t h => h.1
    | cons e' es' =>
      refine Gives.seq hst ?_
      intro t _ ⟨h, hi⟩
      rw [hes'] at ih hes
      exact ih (k + 1) t b (by simp) hes (by rw [hi]; exact hX) (by rw [hi]; exact hx)
        (by rw [hi]; exact hy) (by rw [hi]; exact hF) (by rw [hi]; exact hnz) (by rw [hi]; exact hmc)
        (by rw [hi]; exact hd1) (by rw [hi]; exact hd2) hb h

/-- The loop nest of one node. -/
theorem Gives.node {X : V} {S : Stmt} {node nF nx ny nnz : Nat} {tab : List (Option Int)} {j : Nat → Int}
    (hXs : X = .nn ∨ X = .i) (hS : S = Text.leaf 0 (unleaf S)) (hwf : (unleaf S).all (colWf X) = true)
    (hne : (unleaf S).isEmpty = false) (htab : (unleaf S).map (colOf node nx ny) = tab) {p z : Buf Int}
    (hX : s.l.i X = some (node : Int))
    (hx : s.l.i .nx = some (nx : Int)) (hy : s.l.i .ny = some (ny : Int))
    (hF : s.l.i .nFields = some (nF : Int)) (hnz : s.l.i .nnz = some (nnz : Int))
    (hmc : s.l.i .mcols = some ((node * nF * nnz : Nat) : Int)) (hv : FillOn (s.l.iv .m_cols) p j)
    (hm : fillNode nF nnz node tab p = .ok z) :
    Gives ((Stmt.for .d1 (.lit 0) (.var .nFields) (.for .d2 (.lit 0) (.var .nFields) S)).exec c (run c n) s)
      (fun t => FillOn (t.l.iv .m_cols) z j) := by
  have h1 : X ≠ .nx := by rcases hXs with rfl | rfl <;> decide
  have h2 : X ≠ .ny := by rcases hXs with rfl | rfl <;> decide
  subst htab
  unfold fillNode at hm
  rw [hS]
  generalize unleaf S = L at *
  have heff : ∀ (M : List IExp) (k : Nat), ((Text.leaf k M).eff (runEff n)).i = fun _ => false := by
    intro M
    induction M with
    | nil => intro k; rfl
    | cons e es ih =>
      intro k
      cases es with
      | nil => rfl
      | cons e' es' =>
        funext x
        show (false || ((Text.leaf (k + 1) (e' :: es')).eff (runEff n)).i x) = false
        rw [ih]; rfl
  have keep : ∀ (t u : St α) (x : V) (y : Int), x ≠ .d1 → x ≠ .d2 →
      Same ((Stmt.for .d2 (.lit 0) (.var .nFields) (Text.leaf 0 L)).eff (runEff n)) t u →
      t.l.i x = some y → u.l.i x = some y := by
    intro t u x y _ hx2 hs h
    rw [← h]
    refine hs.i x ?_
    show ((decide (x = V.d2)) || ((Text.leaf 0 L).eff (runEff n)).i x) = false
    rw [heff]; simp [hx2]
  have keep1 : ∀ (t u : St α) (x : V) (y : Int), x ≠ .d1 → x ≠ .d2 →
      Same ((Stmt.for .d1 (.lit 0) (.var .nFields)
        (Stmt.for .d2 (.lit 0) (.var .nFields) (Text.leaf 0 L))).eff (runEff n)) t u →
      t.l.i x = some y → u.l.i x = some y := by
    intro t u x y hx1 hx2 hs h
    rw [← h]
    refine hs.i x ?_
    show ((decide (x = V.d1)) || ((decide (x = V.d2)) || ((Text.leaf 0 L).eff (runEff n)).i x)) = false
    rw [heff]; simp [hx1, hx2]
  have hX1 : X ≠ .d1 := by rcases hXs with rfl | rfl <;> decide
  have hX2 : X ≠ .d2 := by rcases hXs with rfl | rfl <;> decide
  refine Gives.sim (fun p t => FillOn (t.l.iv .m_cols) p j) (fun _ _ _ h => h) (ev_ivar hF) hm hv ?_
  intro d1 t p p' _ hs hd1 hv' hf
  replace hX := keep1 _ _ _ _ hX1 hX2 hs hX
  replace hx := keep1 _ _ _ _ (by decide) (by decide) hs hx
  replace hy := keep1 _ _ _ _ (by decide) (by decide) hs hy
  replace hF := keep1 _ _ _ _ (by decide) (by decide) hs hF
  replace hnz := keep1 _ _ _ _ (by decide) (by decide) hs hnz
  replace hmc := keep1 _ _ _ _ (by decide) (by decide) hs hmc
  clear hs hv
  refine Gives.sim (fun p t => FillOn (t.l.iv .m_cols) p j) (fun _ _ _ h => h) (ev_ivar hF) hf hv' ?_
  intro d2 t p p' _ hs hd2 hv' hf
  replace hX := keep _ _ _ _ hX1 hX2 hs hX
  replace hx := keep _ _ _ _ (by decide) (by decide) hs hx
  replace hy := keep _ _ _ _ (by decide) (by decide) hs hy
  replace hF := keep _ _ _ _ (by decide) (by decide) hs hF
  replace hnz := keep _ _ _ _ (by decide) (by decide) hs hnz
  replace hmc := keep _ _ _ _ (by decide) (by decide) hs hmc
  have hd1' : t.l.i .d1 = some (d1 : Int) := by
    rw [← hd1]
    refine hs.i _ ?_
    show ((decide (V.d1 = V.d2)) || ((Text.leaf 0 L).eff (runEff n)).i _) = false
    rw [heff]; rfl
  rw [List.length_map] at hf
  refine Gives.leaf h1 h2 hwf hf L 0 t p ?_ rfl hX hx hy hF hnz hmc hd1' hd2 rfl hv'
  rintro rfl
  cases hne

/-! ## `ell_init_2D` -/

theorem ev_imod {a b : IExp} {x y : Nat} {l : Loc α} (ha : a.eval c l = .ok (x : Int))
    (hb : b.eval c l = .ok (y : Int)) (h : 1 ≤ y) :
    (IExp.mod a b).eval c l = .ok ((x % y : Nat) : Int) := by
  have : (y : Int) ≠ 0 := by omega
  have e : (x : Int).tmod (y : Int) = ((x % y : Nat) : Int) := rfl
  simp only [IExp.eval, ha, hb, M_bind_ok', if_neg this, e, M_pure]

theorem run_init_2D {nF nx ny : Nat} (j : Nat → Int) (jv : Nat → α)
    (hF : s.l.i .nFields = some (nF : Int)) (hx : s.l.i .nx = some (nx : Int))
    (hy : s.l.i .ny = some (ny : Int)) (hx1 : 1 ≤ nx) (hy1 : 1 ≤ ny) {m : Ell α}
    (hm : ellInit2D j jv nF nx ny = .ok m) :
    Gives (run c (n + 1) .ell_init_2D s) (fun t => t.l.i .m_nrow = some (m.nrow : Int) ∧
      t.l.i .m_ncol = some (m.ncol : Int) ∧ t.l.i .m_nnz = some (m.nnz : Int) ∧
      FillOn (t.l.iv .m_cols) m.cols j ∧ FillOn (t.l.v .m_vals) m.vals jv) := by
  show Gives (t_ell_init_2D.exec c (run c n) s) _
  unfold ellInit2D at hm
  simp only [bind_ok_iff] at hm
  obtain ⟨cs, hm, h2⟩ := hm
  cases h2
  refine Gives.seq (Gives.setI (k := ((nx * ny : Nat) : Int)) (by idx)) ?_
  intro t hs hnn; keep hs
  refine Gives.seq (Gives.setI (k := ((9 * nF : Nat) : Int)) (by idx)) ?_
  intro t hs hnz; keep hs
  refine Gives.seq (Gives.setI (k := ((nx * ny * nF : Nat) : Int)) (by idx)) ?_
  intro t hs hr; keep hs
  refine Gives.seq (Gives.setI (ev_ivar hnz)) ?_
  intro t hs hmz; keep hs
  refine Gives.seq (Gives.setI (ev_ivar hr)) ?_
  intro t hs hmr; keep hs
  refine Gives.seq (Gives.setI (ev_ivar hr)) ?_
  intro t hs hmo; keep hs
  refine Gives.seq (P := fun t => FillOn (t.l.iv .m_cols) ⟨9 * nF * (nx * ny * nF), j⟩ j)
    (Gives.mallocF (N := 9 * nF * (nx * ny * nF)) (by idx) j) ?_
  intro t hs hv
  keep hs
  refine Gives.seq (P := fun t => FillOn (t.l.iv .m_cols) ⟨9 * nF * (nx * ny * nF), j⟩ j ∧
    FillOn (t.l.v .m_vals) ⟨9 * nF * (nx * ny * nF), jv⟩ jv)
    ((Gives.mallocV (N := 9 * nF * (nx * ny * nF)) (by idx) jv).same.mono fun u h =>
      ⟨(h.1.iv .m_cols rfl).symm ▸ hv, h.2⟩) ?_
  clear hv
  rintro t hs ⟨hv, hval⟩; keep hs
  refine ((Gives.sim (fun p t => FillOn (t.l.iv .m_cols) p j) (fun _ _ _ h => h) (ev_ivar hnn) hm hv ?_).same).mono ?_
  · intro i t p p' hin hs hi hv hf
    clear hval
    keep hs
    have c1 : ((nx - 1 : Nat) : Int) = nx - 1 := by omega
    have c2 : ((ny - 1 : Nat) : Int) = ny - 1 := by omega
    have c3 : ((nx * ny - 1 : Nat) : Int) = nx * ny - 1 := by
      have : 1 ≤ nx * ny := Nat.mul_pos hx1 hy1
      rw [Nat.cast_sub this]; push_cast; rfl
    refine Gives.seq (P := fun t => FillOn (t.l.iv .m_cols) p j ∧
        t.l.i .mcols = some ((i * nF * (9 * nF) : Nat) : Int))
      ((Gives.setI (k := ((i * nF * (9 * nF) : Nat) : Int)) (by idx)).same.mono fun u h =>
        ⟨(h.1.iv .m_cols rfl).symm ▸ hv, h.2⟩) ?_
    clear hv
    rintro t hs ⟨hv, hmc⟩; keep hs
    have hi0 : (IExp.var .i).eval c t.l = .ok (i : Int) := ev_ivar hi
    have hi1 : (IExp.add (.var .i) (.lit 1)).eval c t.l = .ok ((i + 1 : Nat) : Int) := by
      exact ok_to (ev_iadd hi0 (ev_ilit _)) (by push_cast; rfl)
    have hx0 : (IExp.var .nx).eval c t.l = .ok (nx : Int) := ev_ivar hx
    unfold stencil2D at hf
    dsimp only at hf
    by_cases hc0 : i = 0
    · rw [if_pos hc0] at hf
      refine Gives.ite_pos (ok_to (ev_eqI (ev_ivar hi) (ev_ilit _)) (by rw [decide_eq_true_eq]; clear hf; first | omega | (rw [hc0]; push_cast [c2]; rfl) | (zify [hy1] at hc0; linarith))) ?_
      exact Gives.node (Or.inr rfl) rfl rfl rfl rfl hi hx hy hF hnz hmc hv hf
    rw [if_neg hc0] at hf
    refine Gives.ite_neg (ok_to (ev_eqI (ev_ivar hi) (ev_ilit _)) (by rw [decide_eq_false_iff_not]; intro hd; apply hc0; clear hf; first | omega | (zify [hy1]; linarith))) ?_
    by_cases hc1 : i = nx - 1
    · rw [if_pos hc1] at hf
      refine Gives.ite_pos (ok_to (ev_eqI (ev_ivar hi) (ev_isub (ev_ivar hx) (ev_ilit _))) (by rw [decide_eq_true_eq]; clear hf; first | omega | (rw [hc1]; push_cast [c2]; rfl) | (zify [hy1] at hc1; linarith))) ?_
      exact Gives.node (Or.inr rfl) rfl rfl rfl rfl hi hx hy hF hnz hmc hv hf
    rw [if_neg hc1] at hf
    refine Gives.ite_neg (ok_to (ev_eqI (ev_ivar hi) (ev_isub (ev_ivar hx) (ev_ilit _))) (by rw [decide_eq_false_iff_not]; intro hd; apply hc1; clear hf; first | omega | (zify [hy1]; linarith))) ?_
    by_cases hc2 : i = nx * ny - 1
    · rw [if_pos hc2] at hf
      refine Gives.ite_pos (ok_to (ev_eqI (ev_ivar hi) (ev_isub (ev_imul (ev_ivar hx) (ev_ivar hy)) (ev_ilit _))) (by rw [decide_eq_true_eq]; clear hf; first | omega | (rw [hc2]; push_cast [c2]; rfl) | (zify [hy1] at hc2; linarith))) ?_
      exact Gives.node (Or.inr rfl) rfl rfl rfl rfl hi hx hy hF hnz hmc hv hf
    rw [if_neg hc2] at hf
    refine Gives.ite_neg (ok_to (ev_eqI (ev_ivar hi) (ev_isub (ev_imul (ev_ivar hx) (ev_ivar hy)) (ev_ilit _))) (by rw [decide_eq_false_iff_not]; intro hd; apply hc2; clear hf; first | omega | (zify [hy1]; linarith))) ?_
    by_cases hc3 : i = (ny - 1) * nx
    · rw [if_pos hc3] at hf
      refine Gives.ite_pos (ok_to (ev_eqI (ev_ivar hi) (ev_imul (ev_isub (ev_ivar hy) (ev_ilit _)) (ev_ivar hx))) (by rw [decide_eq_true_eq]; clear hf; first | omega | (rw [hc3]; push_cast [c2]; rfl) | (zify [hy1] at hc3; linarith))) ?_
      exact Gives.node (Or.inr rfl) rfl rfl rfl rfl hi hx hy hF hnz hmc hv hf
    rw [if_neg hc3] at hf
    refine Gives.ite_neg (ok_to (ev_eqI (ev_ivar hi) (ev_imul (ev_isub (ev_ivar hy) (ev_ilit _)) (ev_ivar hx))) (by rw [decide_eq_false_iff_not]; intro hd; apply hc3; clear hf; first | omega | (zify [hy1]; linarith))) ?_
    by_cases hc4 : i < nx
    · rw [if_pos hc4] at hf
      refine Gives.ite_pos (ok_to (ev_ltI (ev_ivar hi) (ev_ivar hx)) (by rw [decide_eq_true_eq]; clear hf; first | omega | (rw [hc4]; push_cast [c2]; rfl) | (zify [hy1] at hc4; linarith))) ?_
      exact Gives.node (Or.inr rfl) rfl rfl rfl rfl hi hx hy hF hnz hmc hv hf
    rw [if_neg hc4] at hf
    refine Gives.ite_neg (ok_to (ev_ltI (ev_ivar hi) (ev_ivar hx)) (by rw [decide_eq_false_iff_not]; intro hd; apply hc4; clear hf; first | omega | (zify [hy1]; linarith))) ?_
    by_cases hc5 : i > (ny - 1) * nx
    · rw [if_pos hc5] at hf
      refine Gives.ite_pos (ok_to (ev_ltI (ev_imul (ev_isub (ev_ivar hy) (ev_ilit _)) (ev_ivar hx)) (ev_ivar hi)) (by rw [decide_eq_true_eq]; clear hf; first | omega | (rw [hc5]; push_cast [c2]; rfl) | (zify [hy1] at hc5; linarith))) ?_
      exact Gives.node (Or.inr rfl) rfl rfl rfl rfl hi hx hy hF hnz hmc hv hf
    rw [if_neg hc5] at hf
    refine Gives.ite_neg (ok_to (ev_ltI (ev_imul (ev_isub (ev_ivar hy) (ev_ilit _)) (ev_ivar hx)) (ev_ivar hi)) (by rw [decide_eq_false_iff_not]; intro hd; apply hc5; clear hf; first | omega | (zify [hy1]; linarith))) ?_
    by_cases hc6 : i % nx = 0
    · rw [if_pos hc6] at hf
      refine Gives.ite_pos (ok_to (ev_eqI (ev_imod hi0 hx0 (by omega)) (ev_ilit _)) (by rw [decide_eq_true_eq]; clear hf; first | omega | (rw [hc6]; push_cast [c2]; rfl) | (zify [hy1] at hc6; linarith))) ?_
      exact Gives.node (Or.inr rfl) rfl rfl rfl rfl hi hx hy hF hnz hmc hv hf
    rw [if_neg hc6] at hf
    refine Gives.ite_neg (ok_to (ev_eqI (ev_imod hi0 hx0 (by omega)) (ev_ilit _)) (by rw [decide_eq_false_iff_not]; intro hd; apply hc6; clear hf; first | omega | (zify [hy1]; linarith))) ?_
    by_cases hc7 : (i + 1) % nx = 0
    · rw [if_pos hc7] at hf
      refine Gives.ite_pos (ok_to (ev_eqI (ev_imod hi1 hx0 (by omega)) (ev_ilit _)) (by rw [decide_eq_true_eq]; clear hf; first | omega | (rw [hc7]; push_cast [c2]; rfl) | (zify [hy1] at hc7; linarith))) ?_
      exact Gives.node (Or.inr rfl) rfl rfl rfl rfl hi hx hy hF hnz hmc hv hf
    rw [if_neg hc7] at hf
    refine Gives.ite_neg (ok_to (ev_eqI (ev_imod hi1 hx0 (by omega)) (ev_ilit _)) (by rw [decide_eq_false_iff_not]; intro hd; apply hc7; clear hf; first | omega | (zify [hy1]; linarith))) ?_
    exact Gives.node (Or.inr rfl) rfl rfl rfl rfl hi hx hy hF hnz hmc hv hf
  · rintro t ⟨hs, h⟩
    keep hs
    exact ⟨hmr, hmo, hmz, h, hval⟩

end

end Verif.Text
