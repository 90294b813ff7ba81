import Verif.Lemmas.TextField

/-!
# The source text of `set_displ` prescribes the displacements of the model
-/

namespace Verif.Text

variable {α : Type} [Scalar α] {c : Cfg α} {n : Nat}

theorem setNode_two {k : Nat} {f : Nat → α} {u u' : Buf α} (h : setNode 2 k f u = .ok u') :
    ∃ v, u.write (k * 2) (f 0) = .ok v ∧ v.write (k * 2 + 1) (f 1) = .ok u' := by
  unfold setNode at h
  rw [loop_succ, bind_ok_iff', loop_succ] at h
  obtain ⟨v, h1, h2⟩ := h
  exact ⟨v, h1, h2⟩

theorem setNode_three {k : Nat} {f : Nat → α} {u u' : Buf α} (h : setNode 3 k f u = .ok u') :
    ∃ v v', u.write (k * 3) (f 0) = .ok v ∧ v.write (k * 3 + 1) (f 1) = .ok v' ∧
      v'.write (k * 3 + 2) (f 2) = .ok u' := by
  unfold setNode at h
  rw [loop_succ, bind_ok_iff', loop_succ] at h
  obtain ⟨v', h, h3⟩ := h
  rw [bind_ok_iff', loop_succ] at h
  obtain ⟨v, h1, h2⟩ := h
  exact ⟨v, v', h1, h2, h3⟩

theorem run_set_displ2 (L : LitLaws α) {s : St α} {w r : Work α} {eps : Nat → α} (hw : s.w = w)
    (hd : c.dim = 2) (hm : setDispl c w eps = .ok r)
    (hx : 2 ≤ c.nx) (hy : 2 ≤ c.ny)
    (he : VecOn (s.l.v .eps) 3 (· < 3) eps) :
    Gives (run c (n + 1) .set_displ s) (fun t => t.w = r) := by
  show Gives (t_set_displ.exec c (run c n) s) _
  have hz : (OfScientific.ofScientific 0 true 1 : α) = 0 := L.zeroD
  have hx1 : 1 ≤ c.nx := by omega
  have hy1 : 1 ≤ c.ny := by omega
  unfold setDispl at hm
  rw [if_pos hd, bind_ok_iff] at hm
  obtain ⟨u4, hm, hr⟩ := hm
  cases hr
  unfold setDispl2D at hm
  rw [bind_ok_iff] at hm
  obtain ⟨u1, hm1, hm⟩ := hm
  rw [bind_ok_iff] at hm
  obtain ⟨u2, hm2, hm⟩ := hm
  rw [bind_ok_iff] at hm
  obtain ⟨u3, hm3, hm4⟩ := hm
  refine Gives.ite_pos (ok_to (ev_eqI (ev_imem _) (ev_ilit _)) (by simp [GI.get, hd])) ?_
  refine Gives.seq (Gives.sim (N := c.nx) (fun u t => t.w = { w with u := u }) (by intro _ _ _ h; exact h)
    (by idx) hm1 hw ?_) ?_
  · intro i t u u' hi6 hs hi hw hf
    keep hs
    obtain ⟨v, hv1, hv2⟩ := setNode_two hf
    refine Gives.seq (Gives.setD (y := ((i : Nat) : α) * c.dx) (by evs; rfl)) ?_
    intro s hs hx; keep hs
    refine Gives.seq (Gives.setD (y := 0) (ok_to (ev_lit _ _ _) hz)) ?_
    intro s hs hy; keep hs
    refine Gives.seq (Gives.setD (y := affine2 eps (((i : Nat) : α) * c.dx) (0) 0) (by evs; rfl)) ?_
    intro s hs hdx; keep hs
    refine Gives.seq (Gives.setD (y := affine2 eps (((i : Nat) : α) * c.dx) (0) 1) (by evs; rfl)) ?_
    intro s hs hdy; keep hs
    refine Gives.seq (Gives.memSt (g := .u) (k := (i) * 2) hw (by idx) (ev_var hdx) hv1) ?_
    intro s hs hw; keep hs
    refine (Gives.memSt (g := .u) (k := (i) * 2 + 1) hw (by idx) (ev_var hdy) hv2).mono ?_
    intro t h; exact h
  intro s hs hw; keep hs
  refine Gives.seq (Gives.sim (N := c.nx) (fun u t => t.w = { w with u := u }) (by intro _ _ _ h; exact h)
    (by idx) hm2 hw ?_) ?_
  · intro i t u u' hi6 hs hi hw hf
    keep hs
    obtain ⟨v, hv1, hv2⟩ := setNode_two hf
    refine Gives.seq (Gives.setD (y := ((i : Nat) : α) * c.dx) (by evs; rfl)) ?_
    intro s hs hx; keep hs
    refine Gives.seq (Gives.setD (y := c.ly) (by evs; rfl)) ?_
    intro s hs hy; keep hs
    refine Gives.seq (Gives.setD (y := affine2 eps (((i : Nat) : α) * c.dx) (c.ly) 0) (by evs; rfl)) ?_
    intro s hs hdx; keep hs
    refine Gives.seq (Gives.setD (y := affine2 eps (((i : Nat) : α) * c.dx) (c.ly) 1) (by evs; rfl)) ?_
    intro s hs hdy; keep hs
    refine Gives.seq (Gives.memSt (g := .u) (k := (i + (c.ny - 1) * c.nx) * 2) hw (by idx) (ev_var hdx) hv1) ?_
    intro s hs hw; keep hs
    refine (Gives.memSt (g := .u) (k := (i + (c.ny - 1) * c.nx) * 2 + 1) hw (by idx) (ev_var hdy) hv2).mono ?_
    intro t h; exact h
  intro s hs hw; keep hs
  refine Gives.seq (Gives.sim (N := c.ny - 2) (fun u t => t.w = { w with u := u }) (by intro _ _ _ h; exact h)
    (by idx) hm3 hw ?_) ?_
  · intro i t u u' hi6 hs hi hw hf
    keep hs
    obtain ⟨v, hv1, hv2⟩ := setNode_two hf
    refine Gives.seq (Gives.setD (y := 0) (ok_to (ev_lit _ _ _) hz)) ?_
    intro s hs hx; keep hs
    refine Gives.seq (Gives.setD (y := ((i + 1 : Nat) : α) * c.dy) (by evs; rfl)) ?_
    intro s hs hy; keep hs
    refine Gives.seq (Gives.setD (y := affine2 eps (0) (((i + 1 : Nat) : α) * c.dy) 0) (by evs; rfl)) ?_
    intro s hs hdx; keep hs
    refine Gives.seq (Gives.setD (y := affine2 eps (0) (((i + 1 : Nat) : α) * c.dy) 1) (by evs; rfl)) ?_
    intro s hs hdy; keep hs
    refine Gives.seq (Gives.memSt (g := .u) (k := ((i + 1) * c.nx) * 2) hw (by idx) (ev_var hdx) hv1) ?_
    intro s hs hw; keep hs
    refine (Gives.memSt (g := .u) (k := ((i + 1) * c.nx) * 2 + 1) hw (by idx) (ev_var hdy) hv2).mono ?_
    intro t h; exact h
  intro s hs hw; keep hs
  refine Gives.sim (N := c.ny - 2) (fun u t => t.w = { w with u := u }) (by intro _ _ _ h; exact h)
    (by idx) hm4 hw ?_
  · intro i t u u' hi6 hs hi hw hf
    keep hs
    obtain ⟨v, hv1, hv2⟩ := setNode_two hf
    refine Gives.seq (Gives.setD (y := c.lx) (by evs; rfl)) ?_
    intro s hs hx; keep hs
    refine Gives.seq (Gives.setD (y := ((i + 1 : Nat) : α) * c.dy) (by evs; rfl)) ?_
    intro s hs hy; keep hs
    refine Gives.seq (Gives.setD (y := affine2 eps (c.lx) (((i + 1 : Nat) : α) * c.dy) 0) (by evs; rfl)) ?_
    intro s hs hdx; keep hs
    refine Gives.seq (Gives.setD (y := affine2 eps (c.lx) (((i + 1 : Nat) : α) * c.dy) 1) (by evs; rfl)) ?_
    intro s hs hdy; keep hs
    have h3 : 1 ≤ (i + 2) * c.nx := Nat.mul_pos (by omega) (by omega)
    refine Gives.seq (Gives.memSt (g := .u) (k := ((i + 2) * c.nx - 1) * 2) hw (by idx) (ev_var hdx) hv1) ?_
    intro s hs hw; keep hs
    refine (Gives.memSt (g := .u) (k := ((i + 2) * c.nx - 1) * 2 + 1) hw (by idx) (ev_var hdy) hv2).mono ?_
    intro t h; exact h

theorem run_set_displ3 (L : LitLaws α) {s : St α} {w r : Work α} {eps : Nat → α} (hw : s.w = w)
    (hd : c.dim = 3) (hm : setDispl c w eps = .ok r)
    (hx : 2 ≤ c.nx) (hy : 2 ≤ c.ny) (hz2 : 2 ≤ c.nz)
    (he : VecOn (s.l.v .eps) 6 (· < 6) eps) :
    Gives (run c (n + 1) .set_displ s) (fun t => t.w = r) := by
  show Gives (t_set_displ.exec c (run c n) s) _
  have hz : (OfScientific.ofScientific 0 true 1 : α) = 0 := L.zeroD
  have hx1 : 1 ≤ c.nx := by omega
  have hy1 : 1 ≤ c.ny := by omega
  have hz1 : 1 ≤ c.nz := by omega
  unfold setDispl at hm
  rw [if_neg (by omega), if_pos hd, bind_ok_iff] at hm
  obtain ⟨u6, hm, hr⟩ := hm
  cases hr
  unfold setDispl3D at hm
  rw [bind_ok_iff] at hm
  obtain ⟨u1, hm1, hm⟩ := hm
  rw [bind_ok_iff] at hm
  obtain ⟨u2, hm2, hm⟩ := hm
  rw [bind_ok_iff] at hm
  obtain ⟨u3, hm3, hm⟩ := hm
  rw [bind_ok_iff] at hm
  obtain ⟨u4, hm4, hm⟩ := hm
  rw [bind_ok_iff] at hm
  obtain ⟨u5, hm5, hm6⟩ := hm
  refine Gives.ite_neg (ok_to (ev_eqI (ev_imem _) (ev_ilit _)) (by simp [GI.get, hd])) ?_
  refine Gives.ite_pos (ok_to (ev_eqI (ev_imem _) (ev_ilit _)) (by simp [GI.get, hd])) ?_
  refine Gives.seq (Gives.sim (N := c.nx) (fun u t => t.w = { w with u := u })
    (by intro _ _ _ h; exact h) (by idx) hm1 hw ?_) ?_
  · intro i t u u' hl1 hs hii hw hf
    keep hs
    refine Gives.sim (N := c.ny) (fun u t => t.w = { w with u := u })
      (by intro _ _ _ h; exact h) (by idx) hf hw ?_
    intro j t u u' hl2 hs hij hw hf
    keep hs
    obtain ⟨v, v', hv1, hv2, hv3⟩ := setNode_three hf
    refine Gives.seq (Gives.setI (k := ((nodIndex c.nx c.ny i j 0 : Nat) : Int)) (by idx)) ?_
    intro s hs hn; keep hs
    generalize nodIndex c.nx c.ny i j 0 = nd at *
    refine Gives.seq (Gives.setD (y := ((i : Nat) : α) * c.dx) (by evs; rfl)) ?_
    intro s hs hx; keep hs
    refine Gives.seq (Gives.setD (y := ((j : Nat) : α) * c.dy) (by evs; rfl)) ?_
    intro s hs hy; keep hs
    refine Gives.seq (Gives.setD (y := 0) (ok_to (ev_lit _ _ _) hz)) ?_
    intro s hs hz; keep hs
    refine Gives.seq (Gives.setD (y := affine3 eps (((i : Nat) : α) * c.dx) (((j : Nat) : α) * c.dy) (0) 0) (by evs; rfl)) ?_
    intro s hs hdx; keep hs
    refine Gives.seq (Gives.setD (y := affine3 eps (((i : Nat) : α) * c.dx) (((j : Nat) : α) * c.dy) (0) 1) (by evs; rfl)) ?_
    intro s hs hdy; keep hs
    refine Gives.seq (Gives.setD (y := affine3 eps (((i : Nat) : α) * c.dx) (((j : Nat) : α) * c.dy) (0) 2) (by evs; rfl)) ?_
    intro s hs hdz; keep hs
    refine Gives.seq (Gives.memSt (g := .u) (k := nd * 3) hw (by idx) (ev_var hdx) hv1) ?_
    intro s hs hw; keep hs
    refine Gives.seq (Gives.memSt (g := .u) (k := nd * 3 + 1) hw (by idx) (ev_var hdy) hv2) ?_
    intro s hs hw; keep hs
    refine (Gives.memSt (g := .u) (k := nd * 3 + 2) hw (by idx) (ev_var hdz) hv3).mono ?_
    intro t h; exact h
  intro s hs hw; keep hs
  refine Gives.seq (Gives.sim (N := c.nx) (fun u t => t.w = { w with u := u })
    (by intro _ _ _ h; exact h) (by idx) hm2 hw ?_) ?_
  · intro i t u u' hl1 hs hii hw hf
    keep hs
    refine Gives.sim (N := c.ny) (fun u t => t.w = { w with u := u })
      (by intro _ _ _ h; exact h) (by idx) hf hw ?_
    intro j t u u' hl2 hs hij hw hf
    keep hs
    obtain ⟨v, v', hv1, hv2, hv3⟩ := setNode_three hf
    refine Gives.seq (Gives.setI (k := ((nodIndex c.nx c.ny i j (c.nz - 1) : Nat) : Int)) (by idx)) ?_
    intro s hs hn; keep hs
    generalize nodIndex c.nx c.ny i j (c.nz - 1) = nd at *
    refine Gives.seq (Gives.setD (y := ((i : Nat) : α) * c.dx) (by evs; rfl)) ?_
    intro s hs hx; keep hs
    refine Gives.seq (Gives.setD (y := ((j : Nat) : α) * c.dy) (by evs; rfl)) ?_
    intro s hs hy; keep hs
    refine Gives.seq (Gives.setD (y := c.lz) (by evs; rfl)) ?_
    intro s hs hz; keep hs
    refine Gives.seq (Gives.setD (y := affine3 eps (((i : Nat) : α) * c.dx) (((j : Nat) : α) * c.dy) (c.lz) 0) (by evs; rfl)) ?_
    intro s hs hdx; keep hs
    refine Gives.seq (Gives.setD (y := affine3 eps (((i : Nat) : α) * c.dx) (((j : Nat) : α) * c.dy) (c.lz) 1) (by evs; rfl)) ?_
    intro s hs hdy; keep hs
    refine Gives.seq (Gives.setD (y := affine3 eps (((i : Nat) : α) * c.dx) (((j : Nat) : α) * c.dy) (c.lz) 2) (by evs; rfl)) ?_
    intro s hs hdz; keep hs
    refine Gives.seq (Gives.memSt (g := .u) (k := nd * 3) hw (by idx) (ev_var hdx) hv1) ?_
    intro s hs hw; keep hs
    refine Gives.seq (Gives.memSt (g := .u) (k := nd * 3 + 1) hw (by idx) (ev_var hdy) hv2) ?_
    intro s hs hw; keep hs
    refine (Gives.memSt (g := .u) (k := nd * 3 + 2) hw (by idx) (ev_var hdz) hv3).mono ?_
    intro t h; exact h
  intro s hs hw; keep hs
  refine Gives.seq (Gives.sim (N := c.nx) (fun u t => t.w = { w with u := u })
    (by intro _ _ _ h; exact h) (by idx) hm3 hw ?_) ?_
  · intro i t u u' hl1 hs hii hw hf
    keep hs
    refine Gives.simFrom (m := 1) (N := c.nz - 1) (fun u t => t.w = { w with u := u })
      (by intro _ _ _ h; exact h) (by idx) hf hw ?_
    intro k t u u' _ hl2 hs hik hw hf
    keep hs
    obtain ⟨v, v', hv1, hv2, hv3⟩ := setNode_three hf
    refine Gives.seq (Gives.setI (k := ((nodIndex c.nx c.ny i 0 k : Nat) : Int)) (by idx)) ?_
    intro s hs hn; keep hs
    generalize nodIndex c.nx c.ny i 0 k = nd at *
    refine Gives.seq (Gives.setD (y := ((i : Nat) : α) * c.dx) (by evs; rfl)) ?_
    intro s hs hx; keep hs
    refine Gives.seq (Gives.setD (y := 0) (ok_to (ev_lit _ _ _) hz)) ?_
    intro s hs hy; keep hs
    refine Gives.seq (Gives.setD (y := ((k : Nat) : α) * c.dz) (by evs; rfl)) ?_
    intro s hs hz; keep hs
    refine Gives.seq (Gives.setD (y := affine3 eps (((i : Nat) : α) * c.dx) (0) (((k : Nat) : α) * c.dz) 0) (by evs; rfl)) ?_
    intro s hs hdx; keep hs
    refine Gives.seq (Gives.setD (y := affine3 eps (((i : Nat) : α) * c.dx) (0) (((k : Nat) : α) * c.dz) 1) (by evs; rfl)) ?_
    intro s hs hdy; keep hs
    refine Gives.seq (Gives.setD (y := affine3 eps (((i : Nat) : α) * c.dx) (0) (((k : Nat) : α) * c.dz) 2) (by evs; rfl)) ?_
    intro s hs hdz; keep hs
    refine Gives.seq (Gives.memSt (g := .u) (k := nd * 3) hw (by idx) (ev_var hdx) hv1) ?_
    intro s hs hw; keep hs
    refine Gives.seq (Gives.memSt (g := .u) (k := nd * 3 + 1) hw (by idx) (ev_var hdy) hv2) ?_
    intro s hs hw; keep hs
    refine (Gives.memSt (g := .u) (k := nd * 3 + 2) hw (by idx) (ev_var hdz) hv3).mono ?_
    intro t h; exact h
  intro s hs hw; keep hs
  refine Gives.seq (Gives.sim (N := c.nx) (fun u t => t.w = { w with u := u })
    (by intro _ _ _ h; exact h) (by idx) hm4 hw ?_) ?_
  · intro i t u u' hl1 hs hii hw hf
    keep hs
    refine Gives.simFrom (m := 1) (N := c.nz - 1) (fun u t => t.w = { w with u := u })
      (by intro _ _ _ h; exact h) (by idx) hf hw ?_
    intro k t u u' _ hl2 hs hik hw hf
    keep hs
    obtain ⟨v, v', hv1, hv2, hv3⟩ := setNode_three hf
    refine Gives.seq (Gives.setI (k := ((nodIndex c.nx c.ny i (c.ny - 1) k : Nat) : Int)) (by idx)) ?_
    intro s hs hn; keep hs
    generalize nodIndex c.nx c.ny i (c.ny - 1) k = nd at *
    refine Gives.seq (Gives.setD (y := ((i : Nat) : α) * c.dx) (by evs; rfl)) ?_
    intro s hs hx; keep hs
    refine Gives.seq (Gives.setD (y := c.ly) (by evs; rfl)) ?_
    intro s hs hy; keep hs
    refine Gives.seq (Gives.setD (y := ((k : Nat) : α) * c.dz) (by evs; rfl)) ?_
    intro s hs hz; keep hs
    refine Gives.seq (Gives.setD (y := affine3 eps (((i : Nat) : α) * c.dx) (c.ly) (((k : Nat) : α) * c.dz) 0) (by evs; rfl)) ?_
    intro s hs hdx; keep hs
    refine Gives.seq (Gives.setD (y := affine3 eps (((i : Nat) : α) * c.dx) (c.ly) (((k : Nat) : α) * c.dz) 1) (by evs; rfl)) ?_
    intro s hs hdy; keep hs
    refine Gives.seq (Gives.setD (y := affine3 eps (((i : Nat) : α) * c.dx) (c.ly) (((k : Nat) : α) * c.dz) 2) (by evs; rfl)) ?_
    intro s hs hdz; keep hs
    refine Gives.seq (Gives.memSt (g := .u) (k := nd * 3) hw (by idx) (ev_var hdx) hv1) ?_
    intro s hs hw; keep hs
    refine Gives.seq (Gives.memSt (g := .u) (k := nd * 3 + 1) hw (by idx) (ev_var hdy) hv2) ?_
    intro s hs hw; keep hs
    refine (Gives.memSt (g := .u) (k := nd * 3 + 2) hw (by idx) (ev_var hdz) hv3).mono ?_
    intro t h; exact h
  intro s hs hw; keep hs
  refine Gives.seq (Gives.simFrom (m := 1) (N := c.ny - 1) (fun u t => t.w = { w with u := u })
    (by intro _ _ _ h; exact h) (by idx) hm5 hw ?_) ?_
  · intro j t u u' _ hl1 hs hij hw hf
    keep hs
    refine Gives.simFrom (m := 1) (N := c.nz - 1) (fun u t => t.w = { w with u := u })
      (by intro _ _ _ h; exact h) (by idx) hf hw ?_
    intro k t u u' _ hl2 hs hik hw hf
    keep hs
    obtain ⟨v, v', hv1, hv2, hv3⟩ := setNode_three hf
    refine Gives.seq (Gives.setI (k := ((nodIndex c.nx c.ny 0 j k : Nat) : Int)) (by idx)) ?_
    intro s hs hn; keep hs
    generalize nodIndex c.nx c.ny 0 j k = nd at *
    refine Gives.seq (Gives.setD (y := 0) (ok_to (ev_lit _ _ _) hz)) ?_
    intro s hs hx; keep hs
    refine Gives.seq (Gives.setD (y := ((j : Nat) : α) * c.dy) (by evs; rfl)) ?_
    intro s hs hy; keep hs
    refine Gives.seq (Gives.setD (y := ((k : Nat) : α) * c.dz) (by evs; rfl)) ?_
    intro s hs hz; keep hs
    refine Gives.seq (Gives.setD (y := affine3 eps (0) (((j : Nat) : α) * c.dy) (((k : Nat) : α) * c.dz) 0) (by evs; rfl)) ?_
    intro s hs hdx; keep hs
    refine Gives.seq (Gives.setD (y := affine3 eps (0) (((j : Nat) : α) * c.dy) (((k : Nat) : α) * c.dz) 1) (by evs; rfl)) ?_
    intro s hs hdy; keep hs
    refine Gives.seq (Gives.setD (y := affine3 eps (0) (((j : Nat) : α) * c.dy) (((k : Nat) : α) * c.dz) 2) (by evs; rfl)) ?_
    intro s hs hdz; keep hs
    refine Gives.seq (Gives.memSt (g := .u) (k := nd * 3) hw (by idx) (ev_var hdx) hv1) ?_
    intro s hs hw; keep hs
    refine Gives.seq (Gives.memSt (g := .u) (k := nd * 3 + 1) hw (by idx) (ev_var hdy) hv2) ?_
    intro s hs hw; keep hs
    refine (Gives.memSt (g := .u) (k := nd * 3 + 2) hw (by idx) (ev_var hdz) hv3).mono ?_
    intro t h; exact h
  intro s hs hw; keep hs
  refine Gives.simFrom (m := 1) (N := c.ny - 1) (fun u t => t.w = { w with u := u })
    (by intro _ _ _ h; exact h) (by idx) hm6 hw ?_
  · intro j t u u' _ hl1 hs hij hw hf
    keep hs
    refine Gives.simFrom (m := 1) (N := c.nz - 1) (fun u t => t.w = { w with u := u })
      (by intro _ _ _ h; exact h) (by idx) hf hw ?_
    intro k t u u' _ hl2 hs hik hw hf
    keep hs
    obtain ⟨v, v', hv1, hv2, hv3⟩ := setNode_three hf
    refine Gives.seq (Gives.setI (k := ((nodIndex c.nx c.ny (c.nx - 1) j k : Nat) : Int)) (by idx)) ?_
    intro s hs hn; keep hs
    generalize nodIndex c.nx c.ny (c.nx - 1) j k = nd at *
    refine Gives.seq (Gives.setD (y := c.lx) (by evs; rfl)) ?_
    intro s hs hx; keep hs
    refine Gives.seq (Gives.setD (y := ((j : Nat) : α) * c.dy) (by evs; rfl)) ?_
    intro s hs hy; keep hs
    refine Gives.seq (Gives.setD (y := ((k : Nat) : α) * c.dz) (by evs; rfl)) ?_
    intro s hs hz; keep hs
    refine Gives.seq (Gives.setD (y := affine3 eps (c.lx) (((j : Nat) : α) * c.dy) (((k : Nat) : α) * c.dz) 0) (by evs; rfl)) ?_
    intro s hs hdx; keep hs
    refine Gives.seq (Gives.setD (y := affine3 eps (c.lx) (((j : Nat) : α) * c.dy) (((k : Nat) : α) * c.dz) 1) (by evs; rfl)) ?_
    intro s hs hdy; keep hs
    refine Gives.seq (Gives.setD (y := affine3 eps (c.lx) (((j : Nat) : α) * c.dy) (((k : Nat) : α) * c.dz) 2) (by evs; rfl)) ?_
    intro s hs hdz; keep hs
    refine Gives.seq (Gives.memSt (g := .u) (k := nd * 3) hw (by idx) (ev_var hdx) hv1) ?_
    intro s hs hw; keep hs
    refine Gives.seq (Gives.memSt (g := .u) (k := nd * 3 + 1) hw (by idx) (ev_var hdy) hv2) ?_
    intro s hs hw; keep hs
    refine (Gives.memSt (g := .u) (k := nd * 3 + 2) hw (by idx) (ev_var hdz) hv3).mono ?_
    intro t h; exact h

end Verif.Text
