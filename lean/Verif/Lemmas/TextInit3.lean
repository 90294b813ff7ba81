import Verif.Lemmas.TextInit

/-!
# Executing the statements of `ell.cpp`: `ell_init_3D`
-/

namespace Verif.Text

variable {α : Type} [Scalar α]

section
variable {c : Cfg α} {s : St α} {n : Nat}

/-- Three statements, then the rest. -/
theorem Gives.seq3 {a b d r : Stmt} {P Q : St α → Prop}
    (h : Gives ((a ;; b ;; d).exec c (run c n) s) P)
    (k : ∀ t, Same ((a ;; b ;; d).eff (runEff n)) s t → P t → Gives (r.exec c (run c n) t) Q) :
    Gives ((a ;; b ;; d ;; r).exec c (run c n) s) Q := by
  obtain ⟨u, h1, h2⟩ := Gives.seq h k
  refine ⟨u, ?_, h2⟩
  rw [← h1]
  exact (M_bind_assoc (a.exec c (run c n) s) (fun s => (b ;; d).exec c (run c n) s)
    (fun s => r.exec c (run c n) s) |>.trans (congrArg _ (funext fun t =>
      M_bind_assoc (b.exec c (run c n) t) (fun s => d.exec c (run c n) s)
        (fun s => r.exec c (run c n) s)))).symm

/-- One node of `ell_init_3D`. -/
theorem Gives.node3 {e : IExp} {S : Stmt} {node nF nx ny nnz : Nat} {tab : List (Option Int)}
    {j : Nat → Int} {p z : Buf Int}
    (hS : S = Text.leaf 0 (unleaf S)) (hwf : (unleaf S).all (colWf .nn) = true)
    (hne : (unleaf S).isEmpty = false) (htab : (unleaf S).map (colOf node nx ny) = tab)
    (he : e.eval c s.l = .ok (node : Int))
    (hx : s.l.i .nx = some (nx : Int)) (hy : s.l.i .ny = some (ny : Int))
    (hF : s.l.i .nFields = some (nF : Int)) (hnz : s.l.i .nnz = some (nnz : Int))
    (hv : FillOn (s.l.iv .m_cols) p j) (hm : fillNode nF nnz node tab p = .ok z) :
    Gives ((Stmt.setI .nn e ;; .setI .mcols (.mul (.mul (.var .nn) (.var .nFields)) (.var .nnz)) ;;
      Stmt.for .d1 (.lit 0) (.var .nFields) (.for .d2 (.lit 0) (.var .nFields) S)).exec c (run c n) s)
      (fun t => FillOn (t.l.iv .m_cols) z j) := by
  refine Gives.seq (P := fun t => FillOn (t.l.iv .m_cols) p j ∧ t.l.i .nn = some (node : Int))
    ((Gives.setI he).same.mono fun u h => ⟨(h.1.iv .m_cols rfl).symm ▸ hv, h.2⟩) ?_
  clear hv
  rintro t hs ⟨hv, hn⟩; clear he; keep hs
  refine Gives.seq (P := fun t => FillOn (t.l.iv .m_cols) p j ∧
      t.l.i .mcols = some ((node * nF * nnz : Nat) : Int))
    ((Gives.setI (k := ((node * nF * nnz : Nat) : Int)) (by idx)).same.mono fun u h =>
      ⟨(h.1.iv .m_cols rfl).symm ▸ hv, h.2⟩) ?_
  clear hv
  rintro t hs ⟨hv, hmc⟩; keep hs
  exact Gives.node (Or.inl rfl) hS hwf hne htab hn hx hy hF hnz hmc hv hm

theorem run_init_3D {nF nx ny nz : Nat} (jn : Nat → Int) (jv : Nat → α)
    (hF : s.l.i .nFields = some (nF : Int)) (hx : s.l.i .nx = some (nx : Int))
    (hy : s.l.i .ny = some (ny : Int)) (hz : s.l.i .nz = some (nz : Int)) (hx1 : 1 ≤ nx) (hy1 : 1 ≤ ny)
    (hz1 : 1 ≤ nz) {m : Ell α} (hm : ellInit3D jn jv nF nx ny nz = .ok m) :
    Gives (run c (n + 1) .ell_init_3D s) (fun t => t.l.i .m_nrow = some (m.nrow : Int) ∧
      t.l.i .m_ncol = some (m.ncol : Int) ∧ t.l.i .m_nnz = some (m.nnz : Int) ∧
      FillOn (t.l.iv .m_cols) m.cols jn ∧ FillOn (t.l.v .m_vals) m.vals jv) := by
  show Gives (t_ell_init_3D.exec c (run c n) s) _
  unfold ellInit3D at hm
  simp only [bind_ok_iff] at hm
  obtain ⟨q0, e0, q1, e1, q2, e2, q3, e3, q4, e4, q5, e5, q6, e6, q7, e7, q8, e8, q9, e9, q10, e10, q11, e11, q12, e12, q13, e13, q14, e14, q15, e15, q16, e16, q17, e17, q18, e18, q19, e19, q20, e20, q21, e21, q22, e22, q23, e23, q24, e24, q25, e25, q26, e26, h2⟩ := hm
  cases h2
  have c1 : ((nx - 1 : Nat) : Int) = nx - 1 := by omega
  have c2 : ((ny - 1 : Nat) : Int) = ny - 1 := by omega
  have c3 : ((nz - 1 : Nat) : Int) = nz - 1 := by omega
  refine Gives.seq (Gives.setI (k := ((nx * ny * nz : Nat) : Int)) (by idx)) ?_
  intro t hs hnn; keep hs
  refine Gives.seq (Gives.setI (k := ((27 * nF : Nat) : Int)) (by idx)) ?_
  intro t hs hnz; keep hs
  refine Gives.seq (Gives.setI (k := ((nx * ny * nz * nF : Nat) : Int)) (by idx)) ?_
  intro t hs hr; keep hs
  refine Gives.seq Gives.declI ?_
  intro t hs _; keep hs
  refine Gives.seq (Gives.setI (ev_ivar hnz)) ?_
  intro t hs hmz; keep hs
  refine Gives.seq (Gives.setI (ev_ivar hr)) ?_
  intro t hs hmr; keep hs
  refine Gives.seq (Gives.setI (ev_ivar hr)) ?_
  intro t hs hmo; keep hs
  refine Gives.seq (P := fun t => FillOn (t.l.iv .m_cols) ⟨27 * nF * (nx * ny * nz * nF), jn⟩ jn)
    (Gives.mallocF (N := 27 * nF * (nx * ny * nz * nF)) (by idx) jn) ?_
  intro t hs hv
  keep hs
  refine Gives.seq (P := fun t => FillOn (t.l.iv .m_cols) ⟨27 * nF * (nx * ny * nz * nF), jn⟩ jn ∧
    FillOn (t.l.v .m_vals) ⟨27 * nF * (nx * ny * nz * nF), jv⟩ jv)
    ((Gives.mallocV (N := 27 * nF * (nx * ny * nz * nF)) (by idx) jv).same.mono fun u h =>
      ⟨(h.1.iv .m_cols rfl).symm ▸ hv, h.2⟩) ?_
  clear hv
  rintro t hs ⟨hv, hval⟩; clear hnn hr; keep hs
  refine Gives.seq3 (Gives.node3 rfl rfl rfl rfl (by idx) hx hy hF hnz hv e0) ?_
  clear hv e0
  intro t hs hv; keep hs
  refine Gives.seq3 (Gives.node3 rfl rfl rfl rfl (by idx) hx hy hF hnz hv e1) ?_
  clear hv e1
  intro t hs hv; keep hs
  refine Gives.seq3 (Gives.node3 rfl rfl rfl rfl (by idx) hx hy hF hnz hv e2) ?_
  clear hv e2
  intro t hs hv; keep hs
  refine Gives.seq3 (Gives.node3 rfl rfl rfl rfl (by idx) hx hy hF hnz hv e3) ?_
  clear hv e3
  intro t hs hv; keep hs
  refine Gives.seq3 (Gives.node3 rfl rfl rfl rfl (by idx) hx hy hF hnz hv e4) ?_
  clear hv e4
  intro t hs hv; keep hs
  refine Gives.seq3 (Gives.node3 rfl rfl rfl rfl (by idx) hx hy hF hnz hv e5) ?_
  clear hv e5
  intro t hs hv; keep hs
  refine Gives.seq3 (Gives.node3 rfl rfl rfl rfl (by idx) hx hy hF hnz hv e6) ?_
  clear hv e6
  intro t hs hv; keep hs
  refine Gives.seq3 (Gives.node3 rfl rfl rfl rfl (by idx) hx hy hF hnz hv e7) ?_
  clear hv e7
  intro t hs hv; keep hs
  refine Gives.seq (P := fun t => FillOn (t.l.iv .m_cols) q8 jn) ?_ ?_
  · clear hval hmo hmr hmz
    refine Gives.simFrom (fun p t => FillOn (t.l.iv .m_cols) p jn) (fun _ _ _ h => h) (by idx) e8 hv ?_
    clear hv
    intro k t p p' _ _ hs hk hv hf
    keep hs
    exact Gives.node3 rfl rfl rfl rfl (by idx) hx hy hF hnz hv hf
  clear hv e8
  intro t hs hv; keep hs
  refine Gives.seq (P := fun t => FillOn (t.l.iv .m_cols) q9 jn) ?_ ?_
  · clear hval hmo hmr hmz
    refine Gives.simFrom (fun p t => FillOn (t.l.iv .m_cols) p jn) (fun _ _ _ h => h) (by idx) e9 hv ?_
    clear hv
    intro k t p p' _ _ hs hk hv hf
    keep hs
    exact Gives.node3 rfl rfl rfl rfl (by idx) hx hy hF hnz hv hf
  clear hv e9
  intro t hs hv; keep hs
  refine Gives.seq (P := fun t => FillOn (t.l.iv .m_cols) q10 jn) ?_ ?_
  · clear hval hmo hmr hmz
    refine Gives.simFrom (fun p t => FillOn (t.l.iv .m_cols) p jn) (fun _ _ _ h => h) (by idx) e10 hv ?_
    clear hv
    intro k t p p' _ _ hs hk hv hf
    keep hs
    exact Gives.node3 rfl rfl rfl rfl (by idx) hx hy hF hnz hv hf
  clear hv e10
  intro t hs hv; keep hs
  refine Gives.seq (P := fun t => FillOn (t.l.iv .m_cols) q11 jn) ?_ ?_
  · clear hval hmo hmr hmz
    refine Gives.simFrom (fun p t => FillOn (t.l.iv .m_cols) p jn) (fun _ _ _ h => h) (by idx) e11 hv ?_
    clear hv
    intro k t p p' _ _ hs hk hv hf
    keep hs
    exact Gives.node3 rfl rfl rfl rfl (by idx) hx hy hF hnz hv hf
  clear hv e11
  intro t hs hv; keep hs
  refine Gives.seq (P := fun t => FillOn (t.l.iv .m_cols) q12 jn) ?_ ?_
  · clear hval hmo hmr hmz
    refine Gives.simFrom (fun p t => FillOn (t.l.iv .m_cols) p jn) (fun _ _ _ h => h) (by idx) e12 hv ?_
    clear hv
    intro i t p p' _ _ hs hi hv hf
    keep hs
    exact Gives.node3 rfl rfl rfl rfl (by idx) hx hy hF hnz hv hf
  clear hv e12
  intro t hs hv; keep hs
  refine Gives.seq (P := fun t => FillOn (t.l.iv .m_cols) q13 jn) ?_ ?_
  · clear hval hmo hmr hmz
    refine Gives.simFrom (fun p t => FillOn (t.l.iv .m_cols) p jn) (fun _ _ _ h => h) (by idx) e13 hv ?_
    clear hv
    intro i t p p' _ _ hs hi hv hf
    keep hs
    exact Gives.node3 rfl rfl rfl rfl (by idx) hx hy hF hnz hv hf
  clear hv e13
  intro t hs hv; keep hs
  refine Gives.seq (P := fun t => FillOn (t.l.iv .m_cols) q14 jn) ?_ ?_
  · clear hval hmo hmr hmz
    refine Gives.simFrom (fun p t => FillOn (t.l.iv .m_cols) p jn) (fun _ _ _ h => h) (by idx) e14 hv ?_
    clear hv
    intro i t p p' _ _ hs hi hv hf
    keep hs
    exact Gives.node3 rfl rfl rfl rfl (by idx) hx hy hF hnz hv hf
  clear hv e14
  intro t hs hv; keep hs
  refine Gives.seq (P := fun t => FillOn (t.l.iv .m_cols) q15 jn) ?_ ?_
  · clear hval hmo hmr hmz
    refine Gives.simFrom (fun p t => FillOn (t.l.iv .m_cols) p jn) (fun _ _ _ h => h) (by idx) e15 hv ?_
    clear hv
    intro i t p p' _ _ hs hi hv hf
    keep hs
    exact Gives.node3 rfl rfl rfl rfl (by idx) hx hy hF hnz hv hf
  clear hv e15
  intro t hs hv; keep hs
  refine Gives.seq (P := fun t => FillOn (t.l.iv .m_cols) q16 jn) ?_ ?_
  · clear hval hmo hmr hmz
    refine Gives.simFrom (fun p t => FillOn (t.l.iv .m_cols) p jn) (fun _ _ _ h => h) (by idx) e16 hv ?_
    clear hv
    intro j t p p' _ _ hs hj hv hf
    keep hs
    exact Gives.node3 rfl rfl rfl rfl (by idx) hx hy hF hnz hv hf
  clear hv e16
  intro t hs hv; keep hs
  refine Gives.seq (P := fun t => FillOn (t.l.iv .m_cols) q17 jn) ?_ ?_
  · clear hval hmo hmr hmz
    refine Gives.simFrom (fun p t => FillOn (t.l.iv .m_cols) p jn) (fun _ _ _ h => h) (by idx) e17 hv ?_
    clear hv
    intro j t p p' _ _ hs hj hv hf
    keep hs
    exact Gives.node3 rfl rfl rfl rfl (by idx) hx hy hF hnz hv hf
  clear hv e17
  intro t hs hv; keep hs
  refine Gives.seq (P := fun t => FillOn (t.l.iv .m_cols) q18 jn) ?_ ?_
  · clear hval hmo hmr hmz
    refine Gives.simFrom (fun p t => FillOn (t.l.iv .m_cols) p jn) (fun _ _ _ h => h) (by idx) e18 hv ?_
    clear hv
    intro j t p p' _ _ hs hj hv hf
    keep hs
    exact Gives.node3 rfl rfl rfl rfl (by idx) hx hy hF hnz hv hf
  clear hv e18
  intro t hs hv; keep hs
  refine Gives.seq (P := fun t => FillOn (t.l.iv .m_cols) q19 jn) ?_ ?_
  · clear hval hmo hmr hmz
    refine Gives.simFrom (fun p t => FillOn (t.l.iv .m_cols) p jn) (fun _ _ _ h => h) (by idx) e19 hv ?_
    clear hv
    intro j t p p' _ _ hs hj hv hf
    keep hs
    exact Gives.node3 rfl rfl rfl rfl (by idx) hx hy hF hnz hv hf
  clear hv e19
  intro t hs hv; keep hs
  refine Gives.seq (P := fun t => FillOn (t.l.iv .m_cols) q20 jn) ?_ ?_
  · clear hval hmo hmr hmz
    refine Gives.simFrom (fun p t => FillOn (t.l.iv .m_cols) p jn) (fun _ _ _ h => h) (by idx) e20 hv ?_
    clear hv
    intro i t p p' _ _ hs hi hv hf
    keep hs
    refine Gives.simFrom (fun p t => FillOn (t.l.iv .m_cols) p jn) (fun _ _ _ h => h) (by idx) hf hv ?_
    clear hv
    intro j t p p' _ _ hs hj hv hf
    keep hs
    exact Gives.node3 rfl rfl rfl rfl (by idx) hx hy hF hnz hv hf
  clear hv e20
  intro t hs hv; keep hs
  refine Gives.seq (P := fun t => FillOn (t.l.iv .m_cols) q21 jn) ?_ ?_
  · clear hval hmo hmr hmz
    refine Gives.simFrom (fun p t => FillOn (t.l.iv .m_cols) p jn) (fun _ _ _ h => h) (by idx) e21 hv ?_
    clear hv
    intro i t p p' _ _ hs hi hv hf
    keep hs
    refine Gives.simFrom (fun p t => FillOn (t.l.iv .m_cols) p jn) (fun _ _ _ h => h) (by idx) hf hv ?_
    clear hv
    intro j t p p' _ _ hs hj hv hf
    keep hs
    exact Gives.node3 rfl rfl rfl rfl (by idx) hx hy hF hnz hv hf
  clear hv e21
  intro t hs hv; keep hs
  refine Gives.seq (P := fun t => FillOn (t.l.iv .m_cols) q22 jn) ?_ ?_
  · clear hval hmo hmr hmz
    refine Gives.simFrom (fun p t => FillOn (t.l.iv .m_cols) p jn) (fun _ _ _ h => h) (by idx) e22 hv ?_
    clear hv
    intro i t p p' _ _ hs hi hv hf
    keep hs
    refine Gives.simFrom (fun p t => FillOn (t.l.iv .m_cols) p jn) (fun _ _ _ h => h) (by idx) hf hv ?_
    clear hv
    intro k t p p' _ _ hs hk hv hf
    keep hs
    exact Gives.node3 rfl rfl rfl rfl (by idx) hx hy hF hnz hv hf
  clear hv e22
  intro t hs hv; keep hs
  refine Gives.seq (P := fun t => FillOn (t.l.iv .m_cols) q23 jn) ?_ ?_
  · clear hval hmo hmr hmz
    refine Gives.simFrom (fun p t => FillOn (t.l.iv .m_cols) p jn) (fun _ _ _ h => h) (by idx) e23 hv ?_
    clear hv
    intro i t p p' _ _ hs hi hv hf
    keep hs
    refine Gives.simFrom (fun p t => FillOn (t.l.iv .m_cols) p jn) (fun _ _ _ h => h) (by idx) hf hv ?_
    clear hv
    intro k t p p' _ _ hs hk hv hf
    keep hs
    exact Gives.node3 rfl rfl rfl rfl (by idx) hx hy hF hnz hv hf
  clear hv e23
  intro t hs hv; keep hs
  refine Gives.seq (P := fun t => FillOn (t.l.iv .m_cols) q24 jn) ?_ ?_
  · clear hval hmo hmr hmz
    refine Gives.simFrom (fun p t => FillOn (t.l.iv .m_cols) p jn) (fun _ _ _ h => h) (by idx) e24 hv ?_
    clear hv
    intro j t p p' _ _ hs hj hv hf
    keep hs
    refine Gives.simFrom (fun p t => FillOn (t.l.iv .m_cols) p jn) (fun _ _ _ h => h) (by idx) hf hv ?_
    clear hv
    intro k t p p' _ _ hs hk hv hf
    keep hs
    exact Gives.node3 rfl rfl rfl rfl (by idx) hx hy hF hnz hv hf
  clear hv e24
  intro t hs hv; keep hs
  refine Gives.seq (P := fun t => FillOn (t.l.iv .m_cols) q25 jn) ?_ ?_
  · clear hval hmo hmr hmz
    refine Gives.simFrom (fun p t => FillOn (t.l.iv .m_cols) p jn) (fun _ _ _ h => h) (by idx) e25 hv ?_
    clear hv
    intro j t p p' _ _ hs hj hv hf
    keep hs
    refine Gives.simFrom (fun p t => FillOn (t.l.iv .m_cols) p jn) (fun _ _ _ h => h) (by idx) hf hv ?_
    clear hv
    intro k t p p' _ _ hs hk hv hf
    keep hs
    exact Gives.node3 rfl rfl rfl rfl (by idx) hx hy hF hnz hv hf
  clear hv e25
  intro t hs hv; keep hs
  refine (Gives.same (P := fun t => FillOn (t.l.iv .m_cols) q26 jn) ?_).mono ?_
  · clear hval hmo hmr hmz
    refine Gives.simFrom (fun p t => FillOn (t.l.iv .m_cols) p jn) (fun _ _ _ h => h) (by idx) e26 hv ?_
    clear hv
    intro i t p p' _ _ hs hi hv hf
    keep hs
    refine Gives.simFrom (fun p t => FillOn (t.l.iv .m_cols) p jn) (fun _ _ _ h => h) (by idx) hf hv ?_
    clear hv
    intro j t p p' _ _ hs hj hv hf
    keep hs
    refine Gives.simFrom (fun p t => FillOn (t.l.iv .m_cols) p jn) (fun _ _ _ h => h) (by idx) hf hv ?_
    clear hv
    intro k t p p' _ _ hs hk hv hf
    keep hs
    exact Gives.node3 rfl rfl rfl rfl (by idx) hx hy hF hnz hv hf
  · rintro t ⟨hs, h⟩
    keep hs
    exact ⟨hmr, hmo, hmz, h, hval⟩

end

end Verif.Text
