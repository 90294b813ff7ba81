import Verif.Lemmas.TextEll

/-!
# Executing the statements of `ell.cpp`: element matrices and boundary rows
-/

namespace Verif.Text

variable {α : Type} [Scalar α]

theorem loopList_eq {σ : Type} (f : Nat → σ → M σ) (l : List Nat) (s : σ) :
    loopList l f s = loop l.length (fun i s => f (l.getD i 0) s) s := by
  have key : ∀ (l : List Nat) (a : Nat) (s : σ),
      loopList (l ++ [a]) f s = (loopList l f s).bind (f a) := by
    intro l a
    induction l with
    | nil => intro s; show (f a s).bind _ = f a s; cases f a s <;> rfl
    | cons b l ih =>
      intro s
      simp only [List.cons_append, loopList]
      cases f b s with
      | error e => rfl
      | ok t => exact ih t
  induction l using List.reverseRecOn with
  | nil => rfl
  | append_singleton l a ih =>
    rw [key, ih, List.length_append, List.length_singleton]
    show _ = (loop l.length _ s).bind _
    have e1 : loop l.length (fun i s => f (l.getD i 0) s) s =
        loop l.length (fun i s => f ((l ++ [a]).getD i 0) s) s := by
      have : ∀ N, N ≤ l.length → loop N (fun i s => f (l.getD i 0) s) s =
        loop N (fun i s => f ((l ++ [a]).getD i 0) s) s := by
        intro N hN
        induction N with
        | zero => rfl
        | succ N ih =>
          simp only [loop, ih (by omega)]
          congr 1
          funext s
          simp only [List.getD_eq_getElem?_getD, List.getElem?_append_left (show N < l.length by omega)]
      exact this _ le_rfl
    rw [e1]
    congr 1
    funext s
    simp [List.getD_eq_getElem?_getD]

section
variable {c : Cfg α} {s : St α} {n : Nat} {m : Ell α}

/-- A loop of the text follows a loop of the model; a negative bound means no pass. -/
theorem Gives.simZ {σ : Type} {x : V} {hi : IExp} {b : Stmt} {z : Int} {N : Nat} {f : Nat → σ → M σ}
    {a y : σ} (R : Nat → σ → St α → Prop)
    (hR : ∀ k a t o, R k a t → R k a { t with l.i := upd t.l.i x o })
    (hz : hi.eval c s.l = .ok z) (hN : z.toNat = N)
    (hm : loop N f a = .ok y)
    (h0 : R 0 a s)
    (hs : ∀ (k : Nat) (t : St α) (a a' : σ), k < N →
      Same ((Stmt.for x (.lit 0) hi b).eff (runEff n)) s t → t.l.i x = some (k : Int) → R k a t →
      f k a = .ok a' → Gives (b.exec c (run c n) t) (R (k + 1) a')) :
    Gives ((Stmt.for x (.lit 0) hi b).exec c (run c n) s) (R N y) := by
  by_cases h : 0 ≤ z
  · exact Gives.simK R hR (by rw [hz]; congr 1; omega) hm h0 hs
  · obtain rfl : N = 0 := by omega
    cases hm
    refine ⟨s, ?_, h0⟩
    have : (z - 0).toNat = 0 := by omega
    simp only [Stmt.exec, ev_ilit, hz, M_bind_ok', this, loop]

/-- An array of `int` with an initialiser. -/
theorem Gives.initIV {x : V} {l : List IExp} {v : List Int} (h : evalInts c s.l l = .ok v) :
    Gives ((Stmt.initIV x l).exec c (run c n) s)
      (fun t => VecOn (t.l.iv x) v.length (· < v.length) (fun q => v.getD q 0)) := by
  refine ⟨_, by simp only [Stmt.exec, h, M_bind_ok', M_pure]; rfl,
    ⟨⟨v.length, fun k => v[k]?⟩, if_pos rfl, le_rfl, ?_⟩⟩
  intro q hq
  simp only [List.getD_eq_getElem?_getD, List.getElem?_eq_getElem hq, Option.getD_some]

theorem ev_ints_nil {l : Loc α} : evalInts c l [] = .ok [] := rfl
theorem ev_ints_cons {l : Loc α} {e : IExp} {es : List IExp} {x : Int} {xs : List Int}
    (h : e.eval c l = .ok x) (hs : evalInts c l es = .ok xs) :
    evalInts c l (e :: es) = .ok (x :: xs) := by simp [evalInts, h, hs]

theorem ev_vrd {x : V} {i : IExp} {k N : Nat} {S : Nat → Prop} {f : Nat → α}
    (hv : VecOn (s.l.v x) N S f) (hi : i.eval c s.l = .ok (k : Int)) (hk : k < N)
    (hS : S k) : (DExp.rd1 x i).eval c s = .ok (f k) := by
  have := ev_rd1 (c := c) hv hi (by omega) (by omega) (by rwa [Int.toNat_natCast])
  rwa [Int.toNat_natCast] at this

/-! ## `ell_add_struct2D`, `ell_add_struct3D` -/

theorem ev_tab {t : List (List Int)} {i j : IExp} {k q : Nat} {y : Int}
    (hi : i.eval c s.l = .ok (k : Int)) (hj : j.eval c s.l = .ok (q : Int))
    (h : t[k]?.bind (·[q]?) = some y) : (IExp.tab t i j).eval c s.l = .ok y := by
  simp [IExp.eval, hi, hj, h]

theorem tab2 : ∀ k, k < 4 → ∀ n, n < 4 →
    c_cols_row_ell_add_struct2D[k]?.bind (·[n]?) = some (colsRow2D k n : Int) := by decide

theorem tab3 : ∀ k, k < 8 → ∀ n, n < 8 →
    c_cols_row_ell_add_struct3D[k]?.bind (·[n]?) = some (colsRow3D k n : Int) := by decide

theorem run_add_struct2D {m' : Ell α} {ex ey nF nx : Nat} {Ae : Buf α} (ny : Nat)
    (hE : EllOn s.l m) (hex : s.l.i .ex = some (ex : Int)) (hey : s.l.i .ey = some (ey : Int))
    (hF : s.l.i .nFields = some (nF : Int)) (hx : s.l.i .nx = some (nx : Int))
    (hA : VecOn (s.l.v .Ae) Ae.size (· < Ae.size) Ae.val)
    (hm : ellAddStruct2D m ex ey Ae nF nx ny = .ok m') :
    Gives (run c (n + 1) .ell_add_struct2D s) (fun t => EllOn t.l m') := by
  show Gives (t_ell_add_struct2D.exec c (run c n) s) _
  unfold ellAddStruct2D at hm
  simp only [bind_ok_iff] at hm
  obtain ⟨v, hm, h2⟩ := hm
  cases h2
  refine Gives.seq (Gives.setI (k := ((4 : Nat) : Int)) rfl) ?_
  intro t hs hnpe
  keep hs
  refine Gives.seq (Gives.setI (k := (m.nnz : Int)) (ev_ivar hE.nnz)) ?_
  intro t hs hnnz
  keep hs
  refine Gives.seq (Gives.initIV (ev_ints_cons (by ev) (ev_ints_cons (by ev) (ev_ints_cons (by ev)
    (ev_ints_cons (by ev) ev_ints_nil))))) ?_
  intro t hs hsn
  keep hs
  replace hsn : VecOn (t.l.iv .sn) 4 (· < 4) (fun q => (sn2D nx ex ey q : Int)) := by
    refine hsn.congr le_rfl fun q hq => ⟨hq, ?_⟩
    interval_cases q <;> simp [sn2D]
  refine Gives.seq (Gives.setI (k := ((nF * m.nnz : Nat) : Int)) (by idx)) ?_
  intro t hs h1
  keep hs
  refine Gives.seq (Gives.setI (k := ((4 * nF : Nat) : Int)) (by idx)) ?_
  intro t hs h2
  keep hs
  refine Gives.seq (Gives.setI (k := ((4 * nF * nF : Nat) : Int)) (by idx)) ?_
  intro t hs h3
  keep hs
  refine Gives.sim (σ := Buf α) (fun v t => EllOn t.l { m with vals := v })
      (by rintro v t o ⟨a, b, c, d, e⟩; exact ⟨a, b, c, d, e⟩) (by idx) hm hE ?_
  clear hE
  intro i t v v' hi hs hti hE hm
  keep hs
  refine Gives.sim (σ := Buf α) (fun v t => EllOn t.l { m with vals := v })
      (by rintro v t o ⟨a, b, c, d, e⟩; exact ⟨a, b, c, d, e⟩) (by ev) hm hE ?_
  clear hE
  intro p t v v' hp hs htp hE hm
  keep hs
  refine Gives.sim (σ := Buf α) (fun v t => EllOn t.l { m with vals := v })
      (by rintro v t o ⟨a, b, c, d, e⟩; exact ⟨a, b, c, d, e⟩) (by exact rfl) hm hE ?_
  clear hE
  intro k t v v' hk hs htk hE hm
  keep hs
  refine Gives.sim (σ := Buf α) (fun v t => EllOn t.l { m with vals := v })
      (by rintro v t o ⟨a, b, c, d, e⟩; exact ⟨a, b, c, d, e⟩) (by idx) hm hE ?_
  clear hE
  intro j t v v' hj hs htj hE hm
  keep hs
  simp only [bind_ok_iff] at hm
  obtain ⟨a, e1, e, e2, hm⟩ := hm
  have d1 : (IExp.rd .sn (.var .k)).eval c t.l = .ok (sn2D nx ex ey k : Int) := by
    have := ev_ird (c := c) hsn (ev_ivar htk) (by omega) (by omega) (by simpa using hk)
    simpa using this
  have d2 : (IExp.tab c_cols_row_ell_add_struct2D (.var .k) (.var .n)).eval c t.l =
      .ok (colsRow2D k p : Int) := ev_tab (ev_ivar htk) (ev_ivar htp) (tab2 k hk p hp)
  have d3 : (IExp.add (.add (.add (.mul (.rd .sn (.var .k)) (.var .nFieldsnnz))
      (.mul (.var .i) (.var .nnz))) (.mul (.tab c_cols_row_ell_add_struct2D (.var .k) (.var .n))
      (.var .nFields))) (.var .j)).eval c t.l =
      .ok ((sn2D nx ex ey k * (nF * m.nnz) + i * m.nnz + colsRow2D k p * nF + j : Nat) : Int) := by
    apply ok_to; ev; push_cast; ring
  have d4 := ev_brd hE.vals d3 e1 (fun _ => trivial)
  have d5 : (DExp.rd1 .Ae (.add (.add (.add (.mul (.var .k) (.var .npenFields2))
      (.mul (.var .i) (.var .npenFields))) (.mul (.var .n) (.var .nFields))) (.var .j))).eval c t =
      .ok e := by
    unfold Buf.read at e2
    split at e2
    · rename_i hlt
      cases e2
      exact ev_vrd hA (by apply ok_to; ev; push_cast; ring) hlt hlt
    · cases e2
  exact Gives.stVal hE d3 (ev_add d4 d5) hm

theorem run_add_struct3D {m' : Ell α} {ex ey ez nF nx ny : Nat} {Ae : Buf α} (nz : Nat)
    (hE : EllOn s.l m) (hex : s.l.i .ex = some (ex : Int)) (hey : s.l.i .ey = some (ey : Int))
    (hez : s.l.i .ez = some (ez : Int)) (hF : s.l.i .nFields = some (nF : Int)) (hx : s.l.i .nx = some (nx : Int))
    (hy : s.l.i .ny = some (ny : Int))
    (hA : VecOn (s.l.v .Ae) Ae.size (· < Ae.size) Ae.val)
    (hm : ellAddStruct3D m ex ey ez Ae nF nx ny nz = .ok m') :
    Gives (run c (n + 1) .ell_add_struct3D s) (fun t => EllOn t.l m') := by
  show Gives (t_ell_add_struct3D.exec c (run c n) s) _
  unfold ellAddStruct3D at hm
  simp only [bind_ok_iff] at hm
  obtain ⟨v, hm, h2⟩ := hm
  cases h2
  refine Gives.seq (Gives.setI (k := ((8 : Nat) : Int)) rfl) ?_
  intro t hs hnpe
  keep hs
  refine Gives.seq (Gives.setI (k := (m.nnz : Int)) (ev_ivar hE.nnz)) ?_
  intro t hs hnnz
  keep hs
  refine Gives.seq (Gives.setI (k := ((ez * (nx * ny) + ey * nx + ex : Nat) : Int)) (by idx)) ?_
  intro t hs hn0
  keep hs
  refine Gives.seq (Gives.setI (k := ((ez * (nx * ny) + ey * nx + ex + 1 : Nat) : Int)) (by idx)) ?_
  intro t hs hn1
  keep hs
  refine Gives.seq (Gives.setI (k := ((ez * (nx * ny) + (ey + 1) * nx + ex + 1 : Nat) : Int)) (by idx)) ?_
  intro t hs hn2
  keep hs
  refine Gives.seq (Gives.setI (k := ((ez * (nx * ny) + (ey + 1) * nx + ex : Nat) : Int)) (by idx)) ?_
  intro t hs hn3
  keep hs
  refine Gives.seq (Gives.initIV (ev_ints_cons (by ev) (ev_ints_cons (by ev) (ev_ints_cons (by ev)
    (ev_ints_cons (by ev) (ev_ints_cons (by ev) (ev_ints_cons (by ev) (ev_ints_cons (by ev)
    (ev_ints_cons (by ev) ev_ints_nil))))))))) ?_
  intro t hs hsn
  keep hs
  replace hsn : VecOn (t.l.iv .sn) 8 (· < 8) (fun q => (sn3D nx ny ex ey ez q : Int)) := by
    refine hsn.congr le_rfl fun q hq => ⟨hq, ?_⟩
    interval_cases q <;> simp [sn3D]
  refine Gives.seq (Gives.setI (k := ((nF * m.nnz : Nat) : Int)) (by idx)) ?_
  intro t hs h1
  keep hs
  refine Gives.seq (Gives.setI (k := ((8 * nF : Nat) : Int)) (by idx)) ?_
  intro t hs h2
  keep hs
  refine Gives.seq (Gives.setI (k := ((8 * nF * nF : Nat) : Int)) (by idx)) ?_
  intro t hs h3
  keep hs
  refine Gives.sim (σ := Buf α) (fun v t => EllOn t.l { m with vals := v })
      (by rintro v t o ⟨a, b, c, d, e⟩; exact ⟨a, b, c, d, e⟩) (by idx) hm hE ?_
  clear hE
  intro i t v v' hi hs hti hE hm
  keep hs
  refine Gives.sim (σ := Buf α) (fun v t => EllOn t.l { m with vals := v })
      (by rintro v t o ⟨a, b, c, d, e⟩; exact ⟨a, b, c, d, e⟩) (by ev) hm hE ?_
  clear hE
  intro p t v v' hp hs htp hE hm
  keep hs
  refine Gives.sim (σ := Buf α) (fun v t => EllOn t.l { m with vals := v })
      (by rintro v t o ⟨a, b, c, d, e⟩; exact ⟨a, b, c, d, e⟩) (by exact rfl) hm hE ?_
  clear hE
  intro k t v v' hk hs htk hE hm
  keep hs
  refine Gives.sim (σ := Buf α) (fun v t => EllOn t.l { m with vals := v })
      (by rintro v t o ⟨a, b, c, d, e⟩; exact ⟨a, b, c, d, e⟩) (by idx) hm hE ?_
  clear hE
  intro j t v v' hj hs htj hE hm
  keep hs
  simp only [bind_ok_iff] at hm
  obtain ⟨a, e1, e, e2, hm⟩ := hm
  have d1 : (IExp.rd .sn (.var .k)).eval c t.l = .ok (sn3D nx ny ex ey ez k : Int) := by
    have := ev_ird (c := c) hsn (ev_ivar htk) (by omega) (by omega) (by simpa using hk)
    simpa using this
  have d2 : (IExp.tab c_cols_row_ell_add_struct3D (.var .k) (.var .n)).eval c t.l =
      .ok (colsRow3D k p : Int) := ev_tab (ev_ivar htk) (ev_ivar htp) (tab3 k hk p hp)
  have d3 : (IExp.add (.add (.add (.mul (.rd .sn (.var .k)) (.var .nFieldsnnz))
      (.mul (.var .i) (.var .nnz))) (.mul (.tab c_cols_row_ell_add_struct3D (.var .k) (.var .n))
      (.var .nFields))) (.var .j)).eval c t.l =
      .ok ((sn3D nx ny ex ey ez k * (nF * m.nnz) + i * m.nnz + colsRow3D k p * nF + j : Nat) : Int) := by
    apply ok_to; ev; push_cast; ring
  have d4 := ev_brd hE.vals d3 e1 (fun _ => trivial)
  have d5 : (DExp.rd1 .Ae (.add (.add (.add (.mul (.var .k) (.var .npenFields2))
      (.mul (.var .i) (.var .npenFields))) (.mul (.var .n) (.var .nFields))) (.var .j))).eval c t =
      .ok e := by
    unfold Buf.read at e2
    split at e2
    · rename_i hlt
      cases e2
      exact ev_vrd hA (by apply ok_to; ev; push_cast; ring) hlt hlt
    · cases e2
  exact Gives.stVal hE d3 (ev_add d4 d5) hm

/-! ## Boundary rows -/

/-- A counter and the values of the matrix. -/
def cntEff (x : V) : Eff :=
  { Eff.nil with i := fun y => decide (y = x), v := fun y => decide (y = .m_vals) }

theorem EllOn.cnt {l : Loc α} {x : V} {o : Option Int} (h : EllOn l m) (hx : x ∉ ellI) :
    EllOn { l with i := upd l.i x o } m := by
  have hx' : V.m_nrow ≠ x ∧ V.m_ncol ≠ x ∧ V.m_nnz ≠ x := by
    refine ⟨?_, ?_, ?_⟩ <;> rintro rfl <;> exact hx (by decide)
  refine ⟨?_, ?_, ?_, h.vals, h.cols⟩
  · simpa only [upd, hx'.1, if_false] using h.nrow
  · simpa only [upd, hx'.2.1, if_false] using h.ncol
  · simpa only [upd, hx'.2.2, if_false] using h.nnz

/-- An identity row, counter `j`. -/
theorem Gives.idRow_j (L : LitLaws α) {N : IExp} {slot nF nn d : Nat} {v v' : Buf α}
    (hE : EllOn s.l { m with vals := v }) (hF : s.l.i .nFields = some (nF : Int))
    (hz : s.l.i .nnz = some (m.nnz : Int)) (hd : s.l.i .d = some (d : Int))
    (hN : ∀ t : St α, Same (cntEff .j) s t →
      N.eval c t.l = .ok (nn : Int))
    (hm : idRow nF m.nnz slot nn d v = .ok v') :
    Gives (Stmt.exec c (run c n)
      (.for .j (.lit 0) (.var .nnz) (
        .st1 .m_vals (.add (.add (.mul (.mul N (.var .nFields)) (.var .nnz)) (.mul (.var .d) (.var .nnz))) (.var .j)) (.ofInt (.lit 0))) ;;
      .st1 .m_vals (.add (.add (.add (.mul (.mul N (.var .nFields)) (.var .nnz)) (.mul (.var .d) (.var .nnz))) (.mul (.lit (slot : Int)) (.var .nFields))) (.var .d)) (.ofInt (.lit 1))) s)
      (fun t => EllOn t.l { m with vals := v' }) := by
  unfold idRow at hm
  rw [bind_ok_iff] at hm
  obtain ⟨v1, h1, h2⟩ := hm
  have conv : ∀ t : St α, Same ((Stmt.for .j (.lit 0) (.var .nnz) (.st1 .m_vals (.lit 0) (.ofInt (.lit 0)))).eff
      (runEff n)) s t → Same (cntEff .j) s t := by
    intro t hs
    refine ⟨fun x hx => hs.i x ?_, fun x hx => hs.d x ?_, fun x hx => hs.v x ?_, fun x hx => hs.m x ?_,
      fun x hx => hs.iv x ?_, fun x hx => hs.g x ?_, fun hx => hs.A ?_, fun hx => hs.tick ?_, fun hx => hs.invMax ?_⟩ <;>
      simp_all [Stmt.eff, Eff.or, Eff.nil, cntEff]
  refine Gives.seq (Gives.sim (σ := Buf α) (fun v t => EllOn t.l { m with vals := v }) (fun _ _ _ h => h.cnt (by decide)) (by idx) h1 hE ?_) ?_
  · intro j t v v' hj hs htj hE hf
    have e := hN t (conv t hs)
    clear hN
    keep hs
    exact Gives.stVal hE (by idx) (ok_to (ev_ofInt (ev_ilit 0)) (ofInt_zero' L)) hf
  · intro t hs hE
    have e := hN t (conv t hs)
    clear hN
    keep hs
    exact Gives.stVal hE (by idx) (ok_to (ev_ofInt (ev_ilit 1)) (ofInt_one' L)) h2

/-- An identity row, counter `col`. -/
theorem Gives.idRow_col (L : LitLaws α) {N : IExp} {slot nF nn d : Nat} {v v' : Buf α}
    (hE : EllOn s.l { m with vals := v }) (hF : s.l.i .nFields = some (nF : Int))
    (hz : s.l.i .nnz = some (m.nnz : Int)) (hd : s.l.i .d = some (d : Int))
    (hN : ∀ t : St α, Same (cntEff .col) s t →
      N.eval c t.l = .ok (nn : Int))
    (hm : idRow nF m.nnz slot nn d v = .ok v') :
    Gives (Stmt.exec c (run c n)
      (.for .col (.lit 0) (.var .nnz) (
        .st1 .m_vals (.add (.add (.mul (.mul N (.var .nFields)) (.var .nnz)) (.mul (.var .d) (.var .nnz))) (.var .col)) (.ofInt (.lit 0))) ;;
      .st1 .m_vals (.add (.add (.add (.mul (.mul N (.var .nFields)) (.var .nnz)) (.mul (.var .d) (.var .nnz))) (.mul (.lit (slot : Int)) (.var .nFields))) (.var .d)) (.ofInt (.lit 1))) s)
      (fun t => EllOn t.l { m with vals := v' }) := by
  unfold idRow at hm
  rw [bind_ok_iff] at hm
  obtain ⟨v1, h1, h2⟩ := hm
  have conv : ∀ t : St α, Same ((Stmt.for .col (.lit 0) (.var .nnz) (.st1 .m_vals (.lit 0) (.ofInt (.lit 0)))).eff
      (runEff n)) s t → Same (cntEff .col) s t := by
    intro t hs
    refine ⟨fun x hx => hs.i x ?_, fun x hx => hs.d x ?_, fun x hx => hs.v x ?_, fun x hx => hs.m x ?_,
      fun x hx => hs.iv x ?_, fun x hx => hs.g x ?_, fun hx => hs.A ?_, fun hx => hs.tick ?_, fun hx => hs.invMax ?_⟩ <;>
      simp_all [Stmt.eff, Eff.or, Eff.nil, cntEff]
  refine Gives.seq (Gives.sim (σ := Buf α) (fun v t => EllOn t.l { m with vals := v }) (fun _ _ _ h => h.cnt (by decide)) (by idx) h1 hE ?_) ?_
  · intro j t v v' hj hs htj hE hf
    have e := hN t (conv t hs)
    clear hN
    keep hs
    exact Gives.stVal hE (by idx) (ok_to (ev_ofInt (ev_ilit 0)) (ofInt_zero' L)) hf
  · intro t hs hE
    have e := hN t (conv t hs)
    clear hN
    keep hs
    exact Gives.stVal hE (by idx) (ok_to (ev_ofInt (ev_ilit 1)) (ofInt_one' L)) h2

/-- One slot of a row, for all fields. -/
theorem Gives.zeroSlot (L : LitLaws α) {Lx : IExp} {nF nn d1 l : Nat} {v v' : Buf α}
    (hE : EllOn s.l { m with vals := v }) (hF : s.l.i .nFields = some (nF : Int))
    (hz : s.l.i .nnz = some (m.nnz : Int)) (hd : s.l.i .d1 = some (d1 : Int))
    (hn : s.l.i .n = some (nn : Int))
    (hL : ∀ t : St α, Same (cntEff .d2) s t →
      Lx.eval c t.l = .ok (l : Int))
    (hm : loop nF (fun d2 v => v.write (nn * nF * m.nnz + d1 * m.nnz + l * nF + d2) 0) v = .ok v') :
    Gives (Stmt.exec c (run c n) (.for .d2 (.lit 0) (.var .nFields) (
          .st1 .m_vals (.add (.add (.add (.mul (.mul (.var .n) (.var .nFields)) (.var .nnz)) (.mul (.var .d1) (.var .nnz))) (.mul Lx (.var .nFields))) (.var .d2)) (.ofInt (.lit 0)))) s)
      (fun t => EllOn t.l { m with vals := v' }) := by
  refine Gives.sim (σ := Buf α) (fun v t => EllOn t.l { m with vals := v }) (fun _ _ _ h => h.cnt (by decide)) (by idx) hm hE ?_
  intro d2 t v v' hd2 hs htd hE hf
  have e := hL t (by
    refine ⟨fun x hx => hs.i x ?_, fun x hx => hs.d x ?_, fun x hx => hs.v x ?_, fun x hx => hs.m x ?_,
      fun x hx => hs.iv x ?_, fun x hx => hs.g x ?_, fun hx => hs.A ?_, fun hx => hs.tick ?_, fun hx => hs.invMax ?_⟩ <;>
      simp_all [Stmt.eff, Eff.or, Eff.nil, cntEff])
  clear hL
  keep hs
  exact Gives.stVal hE (by idx) (ok_to (ev_ofInt (ev_ilit 0)) (ofInt_zero' L)) hf

/-- Slots listed in `tmp`. -/
theorem Gives.zeroTmp (L : LitLaws α) {nF nn d1 N : Nat} {tmp : List Nat} {v v' : Buf α}
    (hN : tmp.length = N)
    (hE : EllOn s.l { m with vals := v }) (hF : s.l.i .nFields = some (nF : Int))
    (hz : s.l.i .nnz = some (m.nnz : Int)) (hd : s.l.i .d1 = some (d1 : Int))
    (hn : s.l.i .n = some (nn : Int))
    (ht : VecOn (s.l.iv .tmp) N (· < N) (fun q => (tmp.getD q 0 : Int)))
    (hm : zeroSlots nF m.nnz nn d1 tmp v = .ok v') :
    Gives (Stmt.exec c (run c n) (.for .it_l (.lit 0) (.lit (N : Int)) (
        .setI .l (.rd .tmp (.var .it_l)) ;;
        .for .d2 (.lit 0) (.var .nFields) (
          .st1 .m_vals (.add (.add (.add (.mul (.mul (.var .n) (.var .nFields)) (.var .nnz)) (.mul (.var .d1) (.var .nnz))) (.mul (.var .l) (.var .nFields))) (.var .d2)) (.ofInt (.lit 0))))) s)
      (fun t => EllOn t.l { m with vals := v' }) := by
  unfold zeroSlots at hm
  rw [loopList_eq, hN] at hm
  refine Gives.sim (σ := Buf α) (fun v t => EllOn t.l { m with vals := v }) (fun _ _ _ h => h.cnt (by decide)) (ev_ilit _) hm hE ?_
  intro k t v v' hk hs htk hE hf
  keep hs
  have d1 : (IExp.rd .tmp (.var .it_l)).eval c t.l = .ok (tmp.getD k 0 : Int) := by
    have := ev_ird (c := c) ht (ev_ivar htk) (by omega) (by omega) (by simpa using hk)
    simpa using this
  refine Gives.seq (Gives.setI d1) ?_
  intro t hs hl
  clear d1
  keep hs
  exact Gives.zeroSlot L hE hF hz hd hn (by intro t hs; keep hs; ev) hf

/-- Slots counted by `l`. -/
theorem Gives.zeroRng (L : LitLaws α) {Lx : IExp} {a b nF nn d1 : Nat} {g : Nat → Nat} {tmp : List Nat} {v v' : Buf α}
    (hN : tmp.length = b - a) (hg : ∀ k, k < b - a → tmp.getD k 0 = g (a + k))
    (hE : EllOn s.l { m with vals := v }) (hF : s.l.i .nFields = some (nF : Int))
    (hz : s.l.i .nnz = some (m.nnz : Int)) (hd : s.l.i .d1 = some (d1 : Int))
    (hn : s.l.i .n = some (nn : Int))
    (hL : ∀ (k : Nat) (t : St α), t.l.i .l = some (k : Int) → Lx.eval c t.l = .ok (g k : Int))
    (hm : zeroSlots nF m.nnz nn d1 tmp v = .ok v') :
    Gives (Stmt.exec c (run c n) (.for .l (.lit (a : Int)) (.lit (b : Int)) (.for .d2 (.lit 0) (.var .nFields) (
          .st1 .m_vals (.add (.add (.add (.mul (.mul (.var .n) (.var .nFields)) (.var .nnz)) (.mul (.var .d1) (.var .nnz))) (.mul Lx (.var .nFields))) (.var .d2)) (.ofInt (.lit 0))))) s)
      (fun t => EllOn t.l { m with vals := v' }) := by
  unfold zeroSlots at hm
  rw [loopList_eq, hN] at hm
  have hm' : loopFrom a b (fun l v =>
      loop nF (fun d2 v => v.write (nn * nF * m.nnz + d1 * m.nnz + g l * nF + d2) 0) v) v = .ok v' := by
    unfold loopFrom
    rw [← hm]
    have : ∀ N, N ≤ b - a → loop N (fun t v =>
        loop nF (fun d2 v => v.write (nn * nF * m.nnz + d1 * m.nnz + g (a + t) * nF + d2) 0) v) v =
        loop N (fun i v =>
        loop nF (fun d2 v => v.write (nn * nF * m.nnz + d1 * m.nnz + tmp.getD i 0 * nF + d2) 0) v) v := by
      intro N hN
      induction N with
      | zero => rfl
      | succ N ih => simp only [loop, ih (by omega), hg N (by omega)]
    exact this _ le_rfl
  refine Gives.simFrom (σ := Buf α) (fun v t => EllOn t.l { m with vals := v }) (fun _ _ _ h => h.cnt (by decide)) (ev_ilit _) hm' hE ?_
  intro k t v v' _ hk hs htk hE hf
  keep hs
  exact Gives.zeroSlot L hE hF hz hd hn (by intro t hs; keep hs; exact hL k t htk) hf

/-- A line of identity rows. -/
theorem Gives.bcLine (L : LitLaws α) {N B : IExp} {zB : Int} {nF nx ny nB : Nat} {g : Nat → Nat} {v v' : Buf α}
    (hE : EllOn s.l { m with vals := v }) (hF : s.l.i .nFields = some (nF : Int))
    (hz : s.l.i .nnz = some (m.nnz : Int)) (hx : s.l.i .nx = some (nx : Int))
    (hy : s.l.i .ny = some (ny : Int))
    (hB : ∀ t : St α, t.l.i .nx = some (nx : Int) → t.l.i .ny = some (ny : Int) → B.eval c t.l = .ok zB)
    (hzB : zB.toNat = nB)
    (hN : ∀ (k : Nat) (t : St α), k < nB → t.l.i .nx = some (nx : Int) → t.l.i .ny = some (ny : Int) →
      t.l.i .n = some (k : Int) → N.eval c t.l = .ok (g k : Int))
    (hm : loop nF (fun d v => loop nB (fun k v => idRow nF m.nnz 4 (g k) d v) v) v = .ok v') :
    Gives (Stmt.exec c (run c n) (.for .d (.lit 0) (.var .nFields) (
    .for .n (.lit 0) B (.for .j (.lit 0) (.var .nnz) (
        .st1 .m_vals (.add (.add (.mul (.mul N (.var .nFields)) (.var .nnz)) (.mul (.var .d) (.var .nnz))) (.var .j)) (.ofInt (.lit 0))) ;;
      .st1 .m_vals (.add (.add (.add (.mul (.mul N (.var .nFields)) (.var .nnz)) (.mul (.var .d) (.var .nnz))) (.mul (.lit 4) (.var .nFields))) (.var .d)) (.ofInt (.lit 1))))) s)
      (fun t => EllOn t.l { m with vals := v' }) := by
  refine Gives.sim (σ := Buf α) (fun v t => EllOn t.l { m with vals := v }) (fun _ _ _ h => h.cnt (by decide)) (by idx) hm hE ?_
  intro d t v v' hd hs htd hE hf
  keep hs
  refine Gives.simZ (σ := Buf α) (fun _ v t => EllOn t.l { m with vals := v }) (fun _ _ _ _ h => h.cnt (by decide)) (hB t hx hy) hzB hf hE ?_
  intro k t v v' hk hs htk hE hf
  keep hs
  exact Gives.idRow_j (slot := 4) L hE hF hz htd (by intro t hs; keep hs; exact hN k t hk hx hy htk) hf

/-- Nodes next to a side. -/
theorem Gives.bcNextTmp (L : LitLaws α) {N0 B Sx : IExp} {zB : Int} {nF nx ny nB n0 st : Nat} {N : Nat} {tmp : List Nat} {v v' : Buf α}
    (hlen : tmp.length = N)
    (ht : VecOn (s.l.iv .tmp) N (· < N) (fun q => (tmp.getD q 0 : Int)))
    (hE : EllOn s.l { m with vals := v }) (hF : s.l.i .nFields = some (nF : Int))
    (hz : s.l.i .nnz = some (m.nnz : Int)) (hx : s.l.i .nx = some (nx : Int))
    (hy : s.l.i .ny = some (ny : Int))
    (hB : ∀ t : St α, t.l.i .nx = some (nx : Int) → t.l.i .ny = some (ny : Int) → B.eval c t.l = .ok zB)
    (hzB : zB.toNat = nB)
    (hN : ∀ t : St α, t.l.i .nx = some (nx : Int) → t.l.i .ny = some (ny : Int) → N0.eval c t.l = .ok (n0 : Int))
    (hS : ∀ t : St α, t.l.i .nx = some (nx : Int) → t.l.i .ny = some (ny : Int) → Sx.eval c t.l = .ok (st : Int))
    (hm : loop nF (fun d1 v => loop nB (fun k v => zeroSlots nF m.nnz (n0 + k * st) d1 tmp v) v) v = .ok v') :
    Gives (Stmt.exec c (run c n) (.for .d1 (.lit 0) (.var .nFields) (
    .setI .n N0 ;;
    .for .i (.lit 0) B ((.for .it_l (.lit 0) (.lit (N : Int)) (
        .setI .l (.rd .tmp (.var .it_l)) ;;
        .for .d2 (.lit 0) (.var .nFields) (
          .st1 .m_vals (.add (.add (.add (.mul (.mul (.var .n) (.var .nFields)) (.var .nnz)) (.mul (.var .d1) (.var .nnz))) (.mul (.var .l) (.var .nFields))) (.var .d2)) (.ofInt (.lit 0))))) ;;
      .setI .n (.add (.var .n) Sx)))) s)
      (fun t => EllOn t.l { m with vals := v' }) := by
  refine Gives.sim (σ := Buf α) (fun v t => EllOn t.l { m with vals := v }) (fun _ _ _ h => h.cnt (by decide)) (by idx) hm hE ?_
  intro d t v v' hd hs htd hE hf
  keep hs
  refine Gives.seq (Gives.setI (hN t hx hy)) ?_
  intro t hs hn
  keep hs
  refine (Gives.simZ (σ := Buf α) (fun k v t => EllOn t.l { m with vals := v } ∧
      t.l.i .n = some ((n0 + k * st : Nat) : Int))
    (by exact fun _ _ _ _ h => ⟨h.1.cnt (by decide), h.2⟩) (hB t hx hy) hzB hf
    ⟨hE, by simpa using hn⟩ ?_).mono fun t h => h.1
  clear hE hn
  rintro k t v v' hk hs htk ⟨hE, hn⟩ hf
  keep hs
  refine Gives.seq (Gives.zeroTmp L hlen hE hF hz htd hn ht hf) ?_
  intro t hs hE
  keep hs
  have e := hS t hx hy
  refine (Gives.setI (k := ((n0 + (k + 1) * st : Nat) : Int)) (by idx)).same.mono ?_
  rintro t ⟨hs, hn⟩
  clear e
  keep hs
  exact ⟨hE, hn⟩

/-- A node next to a corner. -/
theorem Gives.bcCorner (L : LitLaws α) {N0 : IExp} {nF nx ny n0 : Nat} {N : Nat} {tmp : List Nat} {v v' : Buf α}
    (hlen : tmp.length = N)
    (ht : VecOn (s.l.iv .tmp) N (· < N) (fun q => (tmp.getD q 0 : Int)))
    (hE : EllOn s.l { m with vals := v }) (hF : s.l.i .nFields = some (nF : Int))
    (hz : s.l.i .nnz = some (m.nnz : Int)) (hx : s.l.i .nx = some (nx : Int))
    (hy : s.l.i .ny = some (ny : Int))
    (hN : ∀ t : St α, t.l.i .nx = some (nx : Int) → t.l.i .ny = some (ny : Int) → N0.eval c t.l = .ok (n0 : Int))
    (hm : loop nF (fun d1 v => zeroSlots nF m.nnz n0 d1 tmp v) v = .ok v') :
    Gives (Stmt.exec c (run c n) (.for .d1 (.lit 0) (.var .nFields) (
    .setI .n N0 ;;
    .for .it_l (.lit 0) (.lit (N : Int)) (
        .setI .l (.rd .tmp (.var .it_l)) ;;
        .for .d2 (.lit 0) (.var .nFields) (
          .st1 .m_vals (.add (.add (.add (.mul (.mul (.var .n) (.var .nFields)) (.var .nnz)) (.mul (.var .d1) (.var .nnz))) (.mul (.var .l) (.var .nFields))) (.var .d2)) (.ofInt (.lit 0)))))) s)
      (fun t => EllOn t.l { m with vals := v' }) := by
  refine Gives.sim (σ := Buf α) (fun v t => EllOn t.l { m with vals := v }) (fun _ _ _ h => h.cnt (by decide)) (by idx) hm hE ?_
  intro d t v v' hd hs htd hE hf
  keep hs
  refine Gives.seq (Gives.setI (hN t hx hy)) ?_
  intro t hs hn
  keep hs
  exact Gives.zeroTmp L hlen hE hF hz htd hn ht hf

/-- Nodes next to a face, counters `i` and `k`. -/
theorem Gives.bcNear_ik (L : LitLaws α) {N0 B C : IExp} {nF nx ny nz nB nC : Nat} {g : Nat → Nat → Nat} {N : Nat} {tmp : List Nat} {v v' : Buf α}
    (hlen : tmp.length = N)
    (ht : VecOn (s.l.iv .tmp) N (· < N) (fun q => (tmp.getD q 0 : Int)))
    (hE : EllOn s.l { m with vals := v }) (hF : s.l.i .nFields = some (nF : Int))
    (hz : s.l.i .nnz = some (m.nnz : Int)) (hx : s.l.i .nx = some (nx : Int))
    (hy : s.l.i .ny = some (ny : Int)) (hnz : s.l.i .nz = some (nz : Int))
    (hB : ∀ t : St α, t.l.i .nx = some (nx : Int) → t.l.i .ny = some (ny : Int) → t.l.i .nz = some (nz : Int) → B.eval c t.l = .ok (nB : Int))
    (hC : ∀ t : St α, t.l.i .nx = some (nx : Int) → t.l.i .ny = some (ny : Int) → t.l.i .nz = some (nz : Int) → C.eval c t.l = .ok (nC : Int))
    (hN : ∀ (p q : Nat) (t : St α), t.l.i .nx = some (nx : Int) → t.l.i .ny = some (ny : Int) → t.l.i .nz = some (nz : Int) → t.l.i .i = some (p : Int) → t.l.i .k = some (q : Int) →
      N0.eval c t.l = .ok (g p q : Int))
    (hm : loop nF (fun d1 v => loopFrom 1 nB (fun p v => loopFrom 1 nC (fun q v =>
      zeroSlots nF m.nnz (g p q) d1 tmp v) v) v) v = .ok v') :
    Gives (Stmt.exec c (run c n) (.for .d1 (.lit 0) (.var .nFields) (
    .for .i (.lit 1) B (.for .k (.lit 1) C (.setI .n N0 ;;
    .for .it_l (.lit 0) (.lit (N : Int)) (
        .setI .l (.rd .tmp (.var .it_l)) ;;
        .for .d2 (.lit 0) (.var .nFields) (
          .st1 .m_vals (.add (.add (.add (.mul (.mul (.var .n) (.var .nFields)) (.var .nnz)) (.mul (.var .d1) (.var .nnz))) (.mul (.var .l) (.var .nFields))) (.var .d2)) (.ofInt (.lit 0)))))))) s)
      (fun t => EllOn t.l { m with vals := v' }) := by
  refine Gives.sim (σ := Buf α) (fun v t => EllOn t.l { m with vals := v }) (fun _ _ _ h => h.cnt (by decide)) (by idx) hm hE ?_
  intro d t v v' hd hs htd hE hf
  keep hs
  refine Gives.simFrom (m := 1) (σ := Buf α) (fun v t => EllOn t.l { m with vals := v }) (fun _ _ _ h => h.cnt (by decide)) (hB t hx hy hnz) hf hE ?_
  intro p t v v' _ hp hs htp hE hf
  keep hs
  refine Gives.simFrom (m := 1) (σ := Buf α) (fun v t => EllOn t.l { m with vals := v }) (fun _ _ _ h => h.cnt (by decide)) (hC t hx hy hnz) hf hE ?_
  intro q t v v' _ hq hs htq hE hf
  keep hs
  refine Gives.seq (Gives.setI (hN p q t hx hy hnz htp htq)) ?_
  intro t hs hn
  keep hs
  exact Gives.zeroTmp L hlen hE hF hz htd hn ht hf

/-- Nodes next to a face, counters `j` and `k`. -/
theorem Gives.bcNear_jk (L : LitLaws α) {N0 B C : IExp} {nF nx ny nz nB nC : Nat} {g : Nat → Nat → Nat} {N : Nat} {tmp : List Nat} {v v' : Buf α}
    (hlen : tmp.length = N)
    (ht : VecOn (s.l.iv .tmp) N (· < N) (fun q => (tmp.getD q 0 : Int)))
    (hE : EllOn s.l { m with vals := v }) (hF : s.l.i .nFields = some (nF : Int))
    (hz : s.l.i .nnz = some (m.nnz : Int)) (hx : s.l.i .nx = some (nx : Int))
    (hy : s.l.i .ny = some (ny : Int)) (hnz : s.l.i .nz = some (nz : Int))
    (hB : ∀ t : St α, t.l.i .nx = some (nx : Int) → t.l.i .ny = some (ny : Int) → t.l.i .nz = some (nz : Int) → B.eval c t.l = .ok (nB : Int))
    (hC : ∀ t : St α, t.l.i .nx = some (nx : Int) → t.l.i .ny = some (ny : Int) → t.l.i .nz = some (nz : Int) → C.eval c t.l = .ok (nC : Int))
    (hN : ∀ (p q : Nat) (t : St α), t.l.i .nx = some (nx : Int) → t.l.i .ny = some (ny : Int) → t.l.i .nz = some (nz : Int) → t.l.i .j = some (p : Int) → t.l.i .k = some (q : Int) →
      N0.eval c t.l = .ok (g p q : Int))
    (hm : loop nF (fun d1 v => loopFrom 1 nB (fun p v => loopFrom 1 nC (fun q v =>
      zeroSlots nF m.nnz (g p q) d1 tmp v) v) v) v = .ok v') :
    Gives (Stmt.exec c (run c n) (.for .d1 (.lit 0) (.var .nFields) (
    .for .j (.lit 1) B (.for .k (.lit 1) C (.setI .n N0 ;;
    .for .it_l (.lit 0) (.lit (N : Int)) (
        .setI .l (.rd .tmp (.var .it_l)) ;;
        .for .d2 (.lit 0) (.var .nFields) (
          .st1 .m_vals (.add (.add (.add (.mul (.mul (.var .n) (.var .nFields)) (.var .nnz)) (.mul (.var .d1) (.var .nnz))) (.mul (.var .l) (.var .nFields))) (.var .d2)) (.ofInt (.lit 0)))))))) s)
      (fun t => EllOn t.l { m with vals := v' }) := by
  refine Gives.sim (σ := Buf α) (fun v t => EllOn t.l { m with vals := v }) (fun _ _ _ h => h.cnt (by decide)) (by idx) hm hE ?_
  intro d t v v' hd hs htd hE hf
  keep hs
  refine Gives.simFrom (m := 1) (σ := Buf α) (fun v t => EllOn t.l { m with vals := v }) (fun _ _ _ h => h.cnt (by decide)) (hB t hx hy hnz) hf hE ?_
  intro p t v v' _ hp hs htp hE hf
  keep hs
  refine Gives.simFrom (m := 1) (σ := Buf α) (fun v t => EllOn t.l { m with vals := v }) (fun _ _ _ h => h.cnt (by decide)) (hC t hx hy hnz) hf hE ?_
  intro q t v v' _ hq hs htq hE hf
  keep hs
  refine Gives.seq (Gives.setI (hN p q t hx hy hnz htp htq)) ?_
  intro t hs hn
  keep hs
  exact Gives.zeroTmp L hlen hE hF hz htd hn ht hf

/-- Nodes next to a side. -/
theorem Gives.bcNextRng (L : LitLaws α) {N0 B Sx : IExp} {zB : Int} {nF nx ny nB n0 st : Nat} {Lx : IExp} {a b : Nat} {h : Nat → Nat} {tmp : List Nat} {v v' : Buf α}
    (hlen : tmp.length = b - a)
    (hh : ∀ k, k < b - a → tmp.getD k 0 = h (a + k))
    (hL : ∀ (k : Nat) (t : St α), t.l.i .l = some (k : Int) → Lx.eval c t.l = .ok (h k : Int))
    (hE : EllOn s.l { m with vals := v }) (hF : s.l.i .nFields = some (nF : Int))
    (hz : s.l.i .nnz = some (m.nnz : Int)) (hx : s.l.i .nx = some (nx : Int))
    (hy : s.l.i .ny = some (ny : Int))
    (hB : ∀ t : St α, t.l.i .nx = some (nx : Int) → t.l.i .ny = some (ny : Int) → B.eval c t.l = .ok zB)
    (hzB : zB.toNat = nB)
    (hN : ∀ t : St α, t.l.i .nx = some (nx : Int) → t.l.i .ny = some (ny : Int) → N0.eval c t.l = .ok (n0 : Int))
    (hS : ∀ t : St α, t.l.i .nx = some (nx : Int) → t.l.i .ny = some (ny : Int) → Sx.eval c t.l = .ok (st : Int))
    (hm : loop nF (fun d1 v => loop nB (fun k v => zeroSlots nF m.nnz (n0 + k * st) d1 tmp v) v) v = .ok v') :
    Gives (Stmt.exec c (run c n) (.for .d1 (.lit 0) (.var .nFields) (
    .setI .n N0 ;;
    .for .i (.lit 0) B ((.for .l (.lit (a : Int)) (.lit (b : Int)) (.for .d2 (.lit 0) (.var .nFields) (
          .st1 .m_vals (.add (.add (.add (.mul (.mul (.var .n) (.var .nFields)) (.var .nnz)) (.mul (.var .d1) (.var .nnz))) (.mul Lx (.var .nFields))) (.var .d2)) (.ofInt (.lit 0))))) ;;
      .setI .n (.add (.var .n) Sx)))) s)
      (fun t => EllOn t.l { m with vals := v' }) := by
  refine Gives.sim (σ := Buf α) (fun v t => EllOn t.l { m with vals := v }) (fun _ _ _ h => h.cnt (by decide)) (by idx) hm hE ?_
  intro d t v v' hd hs htd hE hf
  keep hs
  refine Gives.seq (Gives.setI (hN t hx hy)) ?_
  intro t hs hn
  keep hs
  refine (Gives.simZ (σ := Buf α) (fun k v t => EllOn t.l { m with vals := v } ∧
      t.l.i .n = some ((n0 + k * st : Nat) : Int))
    (by exact fun _ _ _ _ h => ⟨h.1.cnt (by decide), h.2⟩) (hB t hx hy) hzB hf
    ⟨hE, by simpa using hn⟩ ?_).mono fun t h => h.1
  clear hE hn
  rintro k t v v' hk hs htk ⟨hE, hn⟩ hf
  keep hs
  refine Gives.seq (Gives.zeroRng L hlen hh hE hF hz htd hn hL hf) ?_
  intro t hs hE
  keep hs
  have e := hS t hx hy
  refine (Gives.setI (k := ((n0 + (k + 1) * st : Nat) : Int)) (by idx)).same.mono ?_
  rintro t ⟨hs, hn⟩
  clear e
  keep hs
  exact ⟨hE, hn⟩

/-- Nodes next to a face, counters `i` and `j`. -/
theorem Gives.bcNear_ij (L : LitLaws α) {N0 B C : IExp} {nF nx ny nz nB nC : Nat} {g : Nat → Nat → Nat} {Lx : IExp} {a b : Nat} {h : Nat → Nat} {tmp : List Nat} {v v' : Buf α}
    (hlen : tmp.length = b - a)
    (hh : ∀ k, k < b - a → tmp.getD k 0 = h (a + k))
    (hL : ∀ (k : Nat) (t : St α), t.l.i .l = some (k : Int) → Lx.eval c t.l = .ok (h k : Int))
    (hE : EllOn s.l { m with vals := v }) (hF : s.l.i .nFields = some (nF : Int))
    (hz : s.l.i .nnz = some (m.nnz : Int)) (hx : s.l.i .nx = some (nx : Int))
    (hy : s.l.i .ny = some (ny : Int)) (hnz : s.l.i .nz = some (nz : Int))
    (hB : ∀ t : St α, t.l.i .nx = some (nx : Int) → t.l.i .ny = some (ny : Int) → t.l.i .nz = some (nz : Int) → B.eval c t.l = .ok (nB : Int))
    (hC : ∀ t : St α, t.l.i .nx = some (nx : Int) → t.l.i .ny = some (ny : Int) → t.l.i .nz = some (nz : Int) → C.eval c t.l = .ok (nC : Int))
    (hN : ∀ (p q : Nat) (t : St α), t.l.i .nx = some (nx : Int) → t.l.i .ny = some (ny : Int) → t.l.i .nz = some (nz : Int) → t.l.i .i = some (p : Int) → t.l.i .j = some (q : Int) →
      N0.eval c t.l = .ok (g p q : Int))
    (hm : loop nF (fun d1 v => loopFrom 1 nB (fun p v => loopFrom 1 nC (fun q v =>
      zeroSlots nF m.nnz (g p q) d1 tmp v) v) v) v = .ok v') :
    Gives (Stmt.exec c (run c n) (.for .d1 (.lit 0) (.var .nFields) (
    .for .i (.lit 1) B (.for .j (.lit 1) C (.setI .n N0 ;;
    .for .l (.lit (a : Int)) (.lit (b : Int)) (.for .d2 (.lit 0) (.var .nFields) (
          .st1 .m_vals (.add (.add (.add (.mul (.mul (.var .n) (.var .nFields)) (.var .nnz)) (.mul (.var .d1) (.var .nnz))) (.mul Lx (.var .nFields))) (.var .d2)) (.ofInt (.lit 0)))))))) s)
      (fun t => EllOn t.l { m with vals := v' }) := by
  refine Gives.sim (σ := Buf α) (fun v t => EllOn t.l { m with vals := v }) (fun _ _ _ h => h.cnt (by decide)) (by idx) hm hE ?_
  intro d t v v' hd hs htd hE hf
  keep hs
  refine Gives.simFrom (m := 1) (σ := Buf α) (fun v t => EllOn t.l { m with vals := v }) (fun _ _ _ h => h.cnt (by decide)) (hB t hx hy hnz) hf hE ?_
  intro p t v v' _ hp hs htp hE hf
  keep hs
  refine Gives.simFrom (m := 1) (σ := Buf α) (fun v t => EllOn t.l { m with vals := v }) (fun _ _ _ h => h.cnt (by decide)) (hC t hx hy hnz) hf hE ?_
  intro q t v v' _ hq hs htq hE hf
  keep hs
  refine Gives.seq (Gives.setI (hN p q t hx hy hnz htp htq)) ?_
  intro t hs hn
  keep hs
  exact Gives.zeroRng L hlen hh hE hF hz htd hn hL hf

/-- A face of identity rows, counters `i` and `j`. -/
theorem Gives.bcFace_ij (L : LitLaws α) {N0 B C : IExp} {nF nx ny nz nB nC : Nat} {g : Nat → Nat → Nat} {v v' : Buf α}
    (hE : EllOn s.l { m with vals := v }) (hF : s.l.i .nFields = some (nF : Int))
    (hz : s.l.i .nnz = some (m.nnz : Int)) (hx : s.l.i .nx = some (nx : Int))
    (hy : s.l.i .ny = some (ny : Int)) (hnz : s.l.i .nz = some (nz : Int))
    (hB : ∀ t : St α, t.l.i .nx = some (nx : Int) → t.l.i .ny = some (ny : Int) → t.l.i .nz = some (nz : Int) → B.eval c t.l = .ok (nB : Int))
    (hC : ∀ t : St α, t.l.i .nx = some (nx : Int) → t.l.i .ny = some (ny : Int) → t.l.i .nz = some (nz : Int) → C.eval c t.l = .ok (nC : Int))
    (hN : ∀ (p q : Nat) (t : St α), t.l.i .nx = some (nx : Int) → t.l.i .ny = some (ny : Int) → t.l.i .nz = some (nz : Int) → t.l.i .i = some (p : Int) → t.l.i .j = some (q : Int) →
      N0.eval c t.l = .ok (g p q : Int))
    (hm : loop nF (fun d v => loop nB (fun p v => loop nC (fun q v =>
      idRow nF m.nnz 13 (g p q) d v) v) v) v = .ok v') :
    Gives (Stmt.exec c (run c n) (.for .d (.lit 0) (.var .nFields) (
    .for .i (.lit 0) B (.for .j (.lit 0) C (.setI .n N0 ;;
    .for .col (.lit 0) (.var .nnz) (
        .st1 .m_vals (.add (.add (.mul (.mul (.var .n) (.var .nFields)) (.var .nnz)) (.mul (.var .d) (.var .nnz))) (.var .col)) (.ofInt (.lit 0))) ;;
      .st1 .m_vals (.add (.add (.add (.mul (.mul (.var .n) (.var .nFields)) (.var .nnz)) (.mul (.var .d) (.var .nnz))) (.mul (.lit 13) (.var .nFields))) (.var .d)) (.ofInt (.lit 1)))))) s)
      (fun t => EllOn t.l { m with vals := v' }) := by
  refine Gives.sim (σ := Buf α) (fun v t => EllOn t.l { m with vals := v }) (fun _ _ _ h => h.cnt (by decide)) (by idx) hm hE ?_
  intro d t v v' hd hs htd hE hf
  keep hs
  refine Gives.sim (σ := Buf α) (fun v t => EllOn t.l { m with vals := v }) (fun _ _ _ h => h.cnt (by decide)) (hB t hx hy hnz) hf hE ?_
  intro p t v v' hp hs htp hE hf
  keep hs
  refine Gives.sim (σ := Buf α) (fun v t => EllOn t.l { m with vals := v }) (fun _ _ _ h => h.cnt (by decide)) (hC t hx hy hnz) hf hE ?_
  intro q t v v' hq hs htq hE hf
  keep hs
  refine Gives.seq (Gives.setI (hN p q t hx hy hnz htp htq)) ?_
  intro t hs hn
  keep hs
  exact Gives.idRow_col (slot := 13) L hE hF hz htd (by intro t hs; keep hs; ev) hf

/-- A face of identity rows, counters `i` and `k`. -/
theorem Gives.bcFace_ik (L : LitLaws α) {N0 B C : IExp} {nF nx ny nz nB nC : Nat} {g : Nat → Nat → Nat} {v v' : Buf α}
    (hE : EllOn s.l { m with vals := v }) (hF : s.l.i .nFields = some (nF : Int))
    (hz : s.l.i .nnz = some (m.nnz : Int)) (hx : s.l.i .nx = some (nx : Int))
    (hy : s.l.i .ny = some (ny : Int)) (hnz : s.l.i .nz = some (nz : Int))
    (hB : ∀ t : St α, t.l.i .nx = some (nx : Int) → t.l.i .ny = some (ny : Int) → t.l.i .nz = some (nz : Int) → B.eval c t.l = .ok (nB : Int))
    (hC : ∀ t : St α, t.l.i .nx = some (nx : Int) → t.l.i .ny = some (ny : Int) → t.l.i .nz = some (nz : Int) → C.eval c t.l = .ok (nC : Int))
    (hN : ∀ (p q : Nat) (t : St α), t.l.i .nx = some (nx : Int) → t.l.i .ny = some (ny : Int) → t.l.i .nz = some (nz : Int) → t.l.i .i = some (p : Int) → t.l.i .k = some (q : Int) →
      N0.eval c t.l = .ok (g p q : Int))
    (hm : loop nF (fun d v => loop nB (fun p v => loop nC (fun q v =>
      idRow nF m.nnz 13 (g p q) d v) v) v) v = .ok v') :
    Gives (Stmt.exec c (run c n) (.for .d (.lit 0) (.var .nFields) (
    .for .i (.lit 0) B (.for .k (.lit 0) C (.setI .n N0 ;;
    .for .col (.lit 0) (.var .nnz) (
        .st1 .m_vals (.add (.add (.mul (.mul (.var .n) (.var .nFields)) (.var .nnz)) (.mul (.var .d) (.var .nnz))) (.var .col)) (.ofInt (.lit 0))) ;;
      .st1 .m_vals (.add (.add (.add (.mul (.mul (.var .n) (.var .nFields)) (.var .nnz)) (.mul (.var .d) (.var .nnz))) (.mul (.lit 13) (.var .nFields))) (.var .d)) (.ofInt (.lit 1)))))) s)
      (fun t => EllOn t.l { m with vals := v' }) := by
  refine Gives.sim (σ := Buf α) (fun v t => EllOn t.l { m with vals := v }) (fun _ _ _ h => h.cnt (by decide)) (by idx) hm hE ?_
  intro d t v v' hd hs htd hE hf
  keep hs
  refine Gives.sim (σ := Buf α) (fun v t => EllOn t.l { m with vals := v }) (fun _ _ _ h => h.cnt (by decide)) (hB t hx hy hnz) hf hE ?_
  intro p t v v' hp hs htp hE hf
  keep hs
  refine Gives.sim (σ := Buf α) (fun v t => EllOn t.l { m with vals := v }) (fun _ _ _ h => h.cnt (by decide)) (hC t hx hy hnz) hf hE ?_
  intro q t v v' hq hs htq hE hf
  keep hs
  refine Gives.seq (Gives.setI (hN p q t hx hy hnz htp htq)) ?_
  intro t hs hn
  keep hs
  exact Gives.idRow_col (slot := 13) L hE hF hz htd (by intro t hs; keep hs; ev) hf

/-- A face of identity rows, counters `j` and `k`. -/
theorem Gives.bcFace_jk (L : LitLaws α) {N0 B C : IExp} {nF nx ny nz nB nC : Nat} {g : Nat → Nat → Nat} {v v' : Buf α}
    (hE : EllOn s.l { m with vals := v }) (hF : s.l.i .nFields = some (nF : Int))
    (hz : s.l.i .nnz = some (m.nnz : Int)) (hx : s.l.i .nx = some (nx : Int))
    (hy : s.l.i .ny = some (ny : Int)) (hnz : s.l.i .nz = some (nz : Int))
    (hB : ∀ t : St α, t.l.i .nx = some (nx : Int) → t.l.i .ny = some (ny : Int) → t.l.i .nz = some (nz : Int) → B.eval c t.l = .ok (nB : Int))
    (hC : ∀ t : St α, t.l.i .nx = some (nx : Int) → t.l.i .ny = some (ny : Int) → t.l.i .nz = some (nz : Int) → C.eval c t.l = .ok (nC : Int))
    (hN : ∀ (p q : Nat) (t : St α), t.l.i .nx = some (nx : Int) → t.l.i .ny = some (ny : Int) → t.l.i .nz = some (nz : Int) → t.l.i .j = some (p : Int) → t.l.i .k = some (q : Int) →
      N0.eval c t.l = .ok (g p q : Int))
    (hm : loop nF (fun d v => loop nB (fun p v => loop nC (fun q v =>
      idRow nF m.nnz 13 (g p q) d v) v) v) v = .ok v') :
    Gives (Stmt.exec c (run c n) (.for .d (.lit 0) (.var .nFields) (
    .for .j (.lit 0) B (.for .k (.lit 0) C (.setI .n N0 ;;
    .for .col (.lit 0) (.var .nnz) (
        .st1 .m_vals (.add (.add (.mul (.mul (.var .n) (.var .nFields)) (.var .nnz)) (.mul (.var .d) (.var .nnz))) (.var .col)) (.ofInt (.lit 0))) ;;
      .st1 .m_vals (.add (.add (.add (.mul (.mul (.var .n) (.var .nFields)) (.var .nnz)) (.mul (.var .d) (.var .nnz))) (.mul (.lit 13) (.var .nFields))) (.var .d)) (.ofInt (.lit 1)))))) s)
      (fun t => EllOn t.l { m with vals := v' }) := by
  refine Gives.sim (σ := Buf α) (fun v t => EllOn t.l { m with vals := v }) (fun _ _ _ h => h.cnt (by decide)) (by idx) hm hE ?_
  intro d t v v' hd hs htd hE hf
  keep hs
  refine Gives.sim (σ := Buf α) (fun v t => EllOn t.l { m with vals := v }) (fun _ _ _ h => h.cnt (by decide)) (hB t hx hy hnz) hf hE ?_
  intro p t v v' hp hs htp hE hf
  keep hs
  refine Gives.sim (σ := Buf α) (fun v t => EllOn t.l { m with vals := v }) (fun _ _ _ h => h.cnt (by decide)) (hC t hx hy hnz) hf hE ?_
  intro q t v v' hq hs htq hE hf
  keep hs
  refine Gives.seq (Gives.setI (hN p q t hx hy hnz htp htq)) ?_
  intro t hs hn
  keep hs
  exact Gives.idRow_col (slot := 13) L hE hF hz htd (by intro t hs; keep hs; ev) hf

end

end Verif.Text
