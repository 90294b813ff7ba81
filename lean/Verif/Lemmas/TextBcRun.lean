import Verif.Lemmas.TextBc

/-!
# Executing the statements of `ell.cpp`: `ell_set_bc_2D`, `ell_set_bc_3D`
-/

namespace Verif.Text

variable {α : Type} [Scalar α]

section
variable {c : Cfg α} {s : St α} {n : Nat} {m : Ell α}

theorem run_set_bc_2D (L : LitLaws α) {m' : Ell α} {nF nx ny : Nat} (hE : EllOn s.l m)
    (hF : s.l.i .nFields = some (nF : Int)) (hx : s.l.i .nx = some (nx : Int))
    (hy : s.l.i .ny = some (ny : Int)) (hx2 : 2 ≤ nx) (hy2 : 2 ≤ ny)
    (hm : ellSetBc2D m nF nx ny = .ok m') :
    Gives (run c (n + 1) .ell_set_bc_2D s) (fun t => EllOn t.l m') := by
  show Gives (t_ell_set_bc_2D.exec c (run c n) s) _
  unfold ellSetBc2D at hm
  simp only [bind_ok_iff] at hm
  obtain ⟨v1, e1, v2, e2, v3, e3, v4, e4, v5, e5, v6, e6, v7, e7, v8, e8, v9, e9, v10, e10, v11, e11,
    v12, e12, hm⟩ := hm
  cases hm
  have c1 : ((ny - 1 : Nat) : Int) = ny - 1 := by omega
  have c2 : ((ny - 2 : Nat) : Int) = ny - 2 := by omega
  have c3 : (((ny - 1) * nx - 1 : Nat) : Int) = (ny - 1) * nx - 1 := by
    have : 1 ≤ (ny - 1) * nx := Nat.mul_pos (by omega) (by omega)
    rw [Nat.cast_sub this]; push_cast [c1]; rfl
  have c4 : ((4 * nx - 1 : Nat) : Int) = 4 * nx - 1 := by omega
  have c5 : ((2 * nx - 2 : Nat) : Int) = 2 * nx - 2 := by omega
  refine Gives.seq (Gives.setI (ev_ivar hE.nnz)) ?_
  intro t hs hz
  keep hs
  refine Gives.seq (Gives.bcLine L hE hF hz hx hy (zB := nx) (by intro t hx hy; ev) (by omega) (by intro k t _ hx hy hk; apply ok_to; ev; push_cast [*]; ring) e1) ?_
  intro t hs hE
  keep hs
  refine Gives.seq (Gives.bcLine L hE hF hz hx hy (zB := nx) (by intro t hx hy; ev) (by omega) (by intro k t _ hx hy hk; apply ok_to; ev; push_cast [*]; ring) e2) ?_
  intro t hs hE
  keep hs
  refine Gives.seq (Gives.bcLine L hE hF hz hx hy (zB := ny - 2) (by intro t hx hy; ev) (by omega) (by intro k t _ hx hy hk; apply ok_to; ev; push_cast [*]; ring) e3) ?_
  intro t hs hE
  keep hs
  refine Gives.seq (Gives.bcLine L hE hF hz hx hy (zB := ny - 2) (by intro t hx hy; ev) (by omega) (by
      intro k t _ hx hy hk
      have : 1 ≤ (k + 2) * nx := Nat.mul_pos (by omega) (by omega)
      apply ok_to; ev; rw [Nat.cast_sub this]; push_cast; ring) e4) ?_
  intro t hs hE
  keep hs
  have e5' : loop nF (fun d1 v => loop (nx - 4) (fun k v => zeroSlots nF m.nnz (nx + 2 + k * 1) d1 [0, 1, 2] v) v) v4 = .ok v5 := by
    simpa only [Nat.mul_one] using e5
  refine Gives.seq (Gives.bcNextRng L (a := 0) (b := 3) (h := fun k => k) rfl (by intro k hk; change k < 3 at hk; interval_cases k <;> rfl) (by intro k t h; ev) hE hF hz hx hy (zB := nx - 4) (by intro t hx hy; ev) (by omega) (by intro t hx hy; apply ok_to; ev; push_cast [*]; ring) (by intro t hx hy; rfl) e5') ?_
  intro t hs hE
  keep hs
  have e6' : loop nF (fun d1 v => loop (nx - 4) (fun k v => zeroSlots nF m.nnz ((ny - 2) * nx + 2 + k * 1) d1 [6, 6, 6] v) v) v5 = .ok v6 := by
    simpa only [Nat.mul_one] using e6
  refine Gives.seq (Gives.bcNextRng L (a := 6) (b := 9) (h := fun _ => 6) rfl (by intro k hk; change k < 3 at hk; interval_cases k <;> rfl) (fun _ _ _ => rfl) hE hF hz hx hy (zB := nx - 4) (by intro t hx hy; ev) (by omega) (by intro t hx hy; apply ok_to; ev; push_cast [*]; ring) (by intro t hx hy; rfl) e6') ?_
  intro t hs hE
  keep hs
  refine Gives.seq (Gives.initIV (ev_ints_cons rfl (ev_ints_cons rfl (ev_ints_cons rfl ev_ints_nil)))) ?_
  intro t hs ht
  keep hs
  replace ht : VecOn (t.l.iv .tmp) 3 (· < 3) (fun q => (([0, 3, 6] : List Nat).getD q 0 : Int)) :=
    ht.congr le_rfl fun q hq => ⟨hq, by change q < 3 at hq; interval_cases q <;> rfl⟩
  refine Gives.seq (Gives.bcNextTmp L rfl ht hE hF hz hx hy (zB := ny - 4) (by intro t hx hy; ev) (by omega) (by intro t hx hy; apply ok_to; ev; push_cast [*]; ring) (by intro t hx hy; ev) e7) ?_
  intro t hs hE
  keep hs
  clear ht
  refine Gives.seq (Gives.initIV (ev_ints_cons rfl (ev_ints_cons rfl (ev_ints_cons rfl ev_ints_nil)))) ?_
  intro t hs ht
  keep hs
  replace ht : VecOn (t.l.iv .tmp) 3 (· < 3) (fun q => (([2, 5, 8] : List Nat).getD q 0 : Int)) :=
    ht.congr le_rfl fun q hq => ⟨hq, by change q < 3 at hq; interval_cases q <;> rfl⟩
  refine Gives.seq (Gives.bcNextTmp L rfl ht hE hF hz hx hy (zB := ny - 4) (by intro t hx hy; ev) (by omega) (by intro t hx hy; apply ok_to; ev; push_cast [*]; ring) (by intro t hx hy; ev) e8) ?_
  intro t hs hE
  keep hs
  clear ht
  refine Gives.seq (Gives.initIV (ev_ints_cons rfl (ev_ints_cons rfl (ev_ints_cons rfl (ev_ints_cons rfl (ev_ints_cons rfl ev_ints_nil)))))) ?_
  intro t hs ht
  keep hs
  replace ht : VecOn (t.l.iv .tmp) 5 (· < 5) (fun q => (([0, 1, 2, 3, 6] : List Nat).getD q 0 : Int)) :=
    ht.congr le_rfl fun q hq => ⟨hq, by change q < 5 at hq; interval_cases q <;> rfl⟩
  refine Gives.seq (Gives.bcCorner L rfl ht hE hF hz hx hy (by intro t hx hy; apply ok_to; ev; push_cast [*]; ring) e9) ?_
  intro t hs hE
  keep hs
  clear ht
  refine Gives.seq (Gives.initIV (ev_ints_cons rfl (ev_ints_cons rfl (ev_ints_cons rfl (ev_ints_cons rfl (ev_ints_cons rfl ev_ints_nil)))))) ?_
  intro t hs ht
  keep hs
  replace ht : VecOn (t.l.iv .tmp) 5 (· < 5) (fun q => (([0, 1, 2, 5, 8] : List Nat).getD q 0 : Int)) :=
    ht.congr le_rfl fun q hq => ⟨hq, by change q < 5 at hq; interval_cases q <;> rfl⟩
  refine Gives.seq (Gives.bcCorner L rfl ht hE hF hz hx hy (by intro t hx hy; apply ok_to; ev; push_cast [*]; ring) e10) ?_
  intro t hs hE
  keep hs
  clear ht
  refine Gives.seq (Gives.initIV (ev_ints_cons rfl (ev_ints_cons rfl (ev_ints_cons rfl (ev_ints_cons rfl (ev_ints_cons rfl ev_ints_nil)))))) ?_
  intro t hs ht
  keep hs
  replace ht : VecOn (t.l.iv .tmp) 5 (· < 5) (fun q => (([2, 5, 6, 7, 8] : List Nat).getD q 0 : Int)) :=
    ht.congr le_rfl fun q hq => ⟨hq, by change q < 5 at hq; interval_cases q <;> rfl⟩
  refine Gives.seq (Gives.bcCorner L rfl ht hE hF hz hx hy (by intro t hx hy; apply ok_to; ev; push_cast [*]; ring) e11) ?_
  intro t hs hE
  keep hs
  clear ht
  refine Gives.seq (Gives.initIV (ev_ints_cons rfl (ev_ints_cons rfl (ev_ints_cons rfl (ev_ints_cons rfl (ev_ints_cons rfl ev_ints_nil)))))) ?_
  intro t hs ht
  keep hs
  replace ht : VecOn (t.l.iv .tmp) 5 (· < 5) (fun q => (([0, 3, 6, 7, 8] : List Nat).getD q 0 : Int)) :=
    ht.congr le_rfl fun q hq => ⟨hq, by change q < 5 at hq; interval_cases q <;> rfl⟩
  exact Gives.bcCorner L rfl ht hE hF hz hx hy (by intro t hx hy; apply ok_to; ev; push_cast [*]; ring) e12

theorem run_set_bc_3D (L : LitLaws α) {m' : Ell α} {nF nx ny nz : Nat} (hE : EllOn s.l m)
    (hF : s.l.i .nFields = some (nF : Int)) (hx : s.l.i .nx = some (nx : Int))
    (hy : s.l.i .ny = some (ny : Int)) (hnz : s.l.i .nz = some (nz : Int))
    (hx2 : 2 ≤ nx) (hy2 : 2 ≤ ny) (hz2 : 2 ≤ nz)
    (hm : ellSetBc3D m nF nx ny nz = .ok m') :
    Gives (run c (n + 1) .ell_set_bc_3D s) (fun t => EllOn t.l m') := by
  show Gives (t_ell_set_bc_3D.exec c (run c n) s) _
  unfold ellSetBc3D at hm
  simp only [bind_ok_iff] at hm
  obtain ⟨v1, e1, v2, e2, v3, e3, v4, e4, v5, e5, v6, e6, v7, e7, v8, e8, v9, e9, v10, e10, v11, e11,
    v12, e12, hm⟩ := hm
  cases hm
  have c1 : ((nx - 1 : Nat) : Int) = nx - 1 := by omega
  have c2 : ((nx - 2 : Nat) : Int) = nx - 2 := by omega
  have c3 : ((ny - 1 : Nat) : Int) = ny - 1 := by omega
  have c4 : ((ny - 2 : Nat) : Int) = ny - 2 := by omega
  have c5 : ((nz - 1 : Nat) : Int) = nz - 1 := by omega
  have c6 : ((nz - 2 : Nat) : Int) = nz - 2 := by omega
  refine Gives.seq (Gives.setI (ev_ivar hE.nnz)) ?_
  intro t hs hz
  keep hs
  refine Gives.seq Gives.declI ?_
  intro t hs _
  keep hs
  refine Gives.seq (Gives.bcFace_ij L hE hF hz hx hy hnz (by intro t hx hy hnz; idx) (by intro t hx hy hnz; idx) (by intro p q t hx hy hnz hp hq; idx) e1) ?_
  intro t hs hE
  keep hs
  refine Gives.seq (Gives.bcFace_ij L hE hF hz hx hy hnz (by intro t hx hy hnz; idx) (by intro t hx hy hnz; idx) (by intro p q t hx hy hnz hp hq; idx) e2) ?_
  intro t hs hE
  keep hs
  refine Gives.seq (Gives.bcFace_ik L hE hF hz hx hy hnz (by intro t hx hy hnz; idx) (by intro t hx hy hnz; idx) (by intro p q t hx hy hnz hp hq; idx) e3) ?_
  intro t hs hE
  keep hs
  refine Gives.seq (Gives.bcFace_ik L hE hF hz hx hy hnz (by intro t hx hy hnz; idx) (by intro t hx hy hnz; idx) (by intro p q t hx hy hnz hp hq; idx) e4) ?_
  intro t hs hE
  keep hs
  refine Gives.seq (Gives.bcFace_jk L hE hF hz hx hy hnz (by intro t hx hy hnz; idx) (by intro t hx hy hnz; idx) (by intro p q t hx hy hnz hp hq; idx) e5) ?_
  intro t hs hE
  keep hs
  refine Gives.seq (Gives.bcFace_jk L hE hF hz hx hy hnz (by intro t hx hy hnz; idx) (by intro t hx hy hnz; idx) (by intro p q t hx hy hnz hp hq; idx) e6) ?_
  intro t hs hE
  keep hs
  refine Gives.seq (P := fun t => EllOn t.l { m with vals := v7 }) ?_ ?_
  · by_cases hg : 2 < nz
    · rw [ifRun, if_pos hg] at e7
      refine Gives.ite_pos (ok_to (ev_ltI (ev_ilit 2) (ev_ivar hnz)) (by simp; omega)) ?_
      exact Gives.bcNear_ij L (a := 0) (b := 9) (h := fun k => k) rfl (by intro k hk; change k < 9 at hk; interval_cases k <;> rfl) (by intro k t h; ev) hE hF hz hx hy hnz (by intro t hx hy hnz; idx) (by intro t hx hy hnz; idx) (by intro p q t hx hy hnz hp hq; idx) e7
    · rw [ifRun, if_neg hg] at e7
      cases e7
      refine Gives.ite_neg (ok_to (ev_ltI (ev_ilit 2) (ev_ivar hnz)) (by simp; omega)) ?_
      exact Gives.skip.mono (by rintro t rfl; exact hE)
  intro t hs hE
  keep hs
  refine Gives.seq (P := fun t => EllOn t.l { m with vals := v8 }) ?_ ?_
  · by_cases hg : 2 < nz
    · rw [ifRun, if_pos hg] at e8
      refine Gives.ite_pos (ok_to (ev_ltI (ev_ilit 2) (ev_ivar hnz)) (by simp; omega)) ?_
      exact Gives.bcNear_ij L (a := 18) (b := 27) (h := fun k => k) rfl (by intro k hk; change k < 9 at hk; interval_cases k <;> rfl) (by intro k t h; ev) hE hF hz hx hy hnz (by intro t hx hy hnz; idx) (by intro t hx hy hnz; idx) (by intro p q t hx hy hnz hp hq; idx) e8
    · rw [ifRun, if_neg hg] at e8
      cases e8
      refine Gives.ite_neg (ok_to (ev_ltI (ev_ilit 2) (ev_ivar hnz)) (by simp; omega)) ?_
      exact Gives.skip.mono (by rintro t rfl; exact hE)
  intro t hs hE
  keep hs
  refine Gives.seq (P := fun t => EllOn t.l { m with vals := v9 }) ?_ ?_
  · by_cases hg : 2 < ny
    · rw [ifRun, if_pos hg] at e9
      refine Gives.ite_pos (ok_to (ev_ltI (ev_ilit 2) (ev_ivar hy)) (by simp; omega)) ?_
      refine Gives.seq (Gives.initIV (ev_ints_cons rfl (ev_ints_cons rfl (ev_ints_cons rfl (ev_ints_cons rfl (ev_ints_cons rfl (ev_ints_cons rfl (ev_ints_cons rfl (ev_ints_cons rfl (ev_ints_cons rfl ev_ints_nil)))))))))) ?_
      intro t hs ht
      keep hs
      replace ht : VecOn (t.l.iv .tmp) 9 (· < 9) (fun q => (([0, 1, 2, 9, 10, 11, 18, 19, 20] : List Nat).getD q 0 : Int)) :=
        ht.congr le_rfl fun q hq => ⟨hq, by change q < 9 at hq; interval_cases q <;> rfl⟩
      exact Gives.bcNear_ik L rfl ht hE hF hz hx hy hnz (by intro t hx hy hnz; idx) (by intro t hx hy hnz; idx) (by intro p q t hx hy hnz hp hq; idx) e9
    · rw [ifRun, if_neg hg] at e9
      cases e9
      refine Gives.ite_neg (ok_to (ev_ltI (ev_ilit 2) (ev_ivar hy)) (by simp; omega)) ?_
      exact Gives.skip.mono (by rintro t rfl; exact hE)
  intro t hs hE
  keep hs
  refine Gives.seq (Gives.initIV (ev_ints_cons rfl (ev_ints_cons rfl (ev_ints_cons rfl (ev_ints_cons rfl (ev_ints_cons rfl (ev_ints_cons rfl (ev_ints_cons rfl (ev_ints_cons rfl (ev_ints_cons rfl ev_ints_nil)))))))))) ?_
  intro t hs ht
  keep hs
  replace ht : VecOn (t.l.iv .tmp) 9 (· < 9) (fun q => (([6, 7, 8, 15, 16, 17, 24, 25, 26] : List Nat).getD q 0 : Int)) :=
    ht.congr le_rfl fun q hq => ⟨hq, by change q < 9 at hq; interval_cases q <;> rfl⟩
  refine Gives.seq (Gives.bcNear_ik L rfl ht hE hF hz hx hy hnz (by intro t hx hy hnz; idx) (by intro t hx hy hnz; idx) (by intro p q t hx hy hnz hp hq; idx) e10) ?_
  intro t hs hE
  keep hs
  clear ht
  refine Gives.seq (P := fun t => EllOn t.l { m with vals := v11 }) ?_ ?_
  · by_cases hg : 2 < nx
    · rw [ifRun, if_pos hg] at e11
      refine Gives.ite_pos (ok_to (ev_ltI (ev_ilit 2) (ev_ivar hx)) (by simp; omega)) ?_
      refine Gives.seq (Gives.initIV (ev_ints_cons rfl (ev_ints_cons rfl (ev_ints_cons rfl (ev_ints_cons rfl (ev_ints_cons rfl (ev_ints_cons rfl (ev_ints_cons rfl (ev_ints_cons rfl (ev_ints_cons rfl ev_ints_nil)))))))))) ?_
      intro t hs ht
      keep hs
      replace ht : VecOn (t.l.iv .tmp) 9 (· < 9) (fun q => (([0, 3, 6, 9, 12, 15, 18, 21, 24] : List Nat).getD q 0 : Int)) :=
        ht.congr le_rfl fun q hq => ⟨hq, by change q < 9 at hq; interval_cases q <;> rfl⟩
      exact Gives.bcNear_jk L rfl ht hE hF hz hx hy hnz (by intro t hx hy hnz; idx) (by intro t hx hy hnz; idx) (by intro p q t hx hy hnz hp hq; idx) e11
    · rw [ifRun, if_neg hg] at e11
      cases e11
      refine Gives.ite_neg (ok_to (ev_ltI (ev_ilit 2) (ev_ivar hx)) (by simp; omega)) ?_
      exact Gives.skip.mono (by rintro t rfl; exact hE)
  intro t hs hE
  keep hs
  by_cases hg : 2 < nx
  · rw [ifRun, if_pos hg] at e12
    refine Gives.ite_pos (ok_to (ev_ltI (ev_ilit 2) (ev_ivar hx)) (by simp; omega)) ?_
    refine Gives.seq (Gives.initIV (ev_ints_cons rfl (ev_ints_cons rfl (ev_ints_cons rfl (ev_ints_cons rfl (ev_ints_cons rfl (ev_ints_cons rfl (ev_ints_cons rfl (ev_ints_cons rfl (ev_ints_cons rfl ev_ints_nil)))))))))) ?_
    intro t hs ht
    keep hs
    replace ht : VecOn (t.l.iv .tmp) 9 (· < 9) (fun q => (([2, 5, 8, 11, 14, 17, 20, 23, 26] : List Nat).getD q 0 : Int)) :=
      ht.congr le_rfl fun q hq => ⟨hq, by change q < 9 at hq; interval_cases q <;> rfl⟩
    exact Gives.bcNear_jk L rfl ht hE hF hz hx hy hnz (by intro t hx hy hnz; idx) (by intro t hx hy hnz; idx) (by intro p q t hx hy hnz hp hq; idx) e12
  · rw [ifRun, if_neg hg] at e12
    cases e12
    refine Gives.ite_neg (ok_to (ev_ltI (ev_ilit 2) (ev_ivar hx)) (by simp; omega)) ?_
    exact Gives.skip.mono (by rintro t rfl; exact hE)

end

end Verif.Text
