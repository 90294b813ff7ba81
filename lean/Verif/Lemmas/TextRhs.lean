import Verif.Lemmas.TextDispl

/-!
# The source text of `assembly_rhs` computes the residual of the model
-/

namespace Verif.Text

variable {α : Type} [Scalar α] {c : Cfg α} {n : Nat}

theorem run_assembly_rhs2 (L : LitLaws α) {s : St α} {w : Work α} {r : RhsOut α}
    (hw : s.w = w) (hd : c.dim = 2) (hm : assemblyRhs c w = .ok r)
    (hx : 2 ≤ c.nx) (hy : 2 ≤ c.ny) (hz1 : 1 ≤ c.nz) :
    Gives (run c (n + 5) .assembly_rhs s) (fun t =>
      t.l.d .ret = some r.norm ∧ t.l.i .non_linear = some (if r.nl = true then 1 else 0) ∧
      t.w = r.work) := by
  show Gives (t_assembly_rhs.exec c (run c (n + 4)) s) _
  have hz : (OfScientific.ofScientific 0 true 1 : α) = 0 := L.zeroD
  have hx1 : 1 ≤ c.nx := by omega
  have hy1 : 1 ≤ c.ny := by omega
  unfold assemblyRhs at hm
  rw [bind_ok_iff] at hm
  obtain ⟨b0, hm0, hm⟩ := hm
  rw [if_pos hd, bind_ok_iff] at hm
  obtain ⟨b1, hm1, hm⟩ := hm
  rw [bind_ok_iff] at hm
  obtain ⟨b2, hm2, hm⟩ := hm
  rw [bind_ok_iff] at hm
  obtain ⟨rn, hm3, hr⟩ := hm
  cases hr
  unfold negNorm at hm3
  rw [bind_ok_iff] at hm3
  obtain ⟨b3, hm3, hm4⟩ := hm3
  rw [bind_ok_iff] at hm4
  obtain ⟨sq, hm4, hr⟩ := hm4
  cases hr
  refine Gives.seq (Gives.declIV (fun _ => 0)) ?_
  intro s hs hiv; keep hs
  refine Gives.seq Gives.declI ?_
  intro s hs _; keep hs
  refine Gives.seq Gives.declI ?_
  intro s hs _; keep hs
  refine Gives.seq Gives.declI ?_
  intro s hs _; keep hs
  refine Gives.seq Gives.declI ?_
  intro s hs _; keep hs
  refine Gives.seq Gives.declI ?_
  intro s hs _; keep hs
  refine Gives.seq Gives.declI ?_
  intro s hs _; keep hs
  refine Gives.seq Gives.declI ?_
  intro s hs _; keep hs
  refine Gives.seq Gives.declI ?_
  intro s hs _; keep hs
  refine Gives.seq (Gives.setI (k := 0) rfl) ?_
  intro s hs hno; keep hs
  refine Gives.seq (Gives.setI (k := 0) rfl) ?_
  intro s hs hnl; keep hs
  refine Gives.seq (Gives.memLoop (g := .b) (ix := fun i => i) (N := c.nn * c.dim) hw (by idx) hm0 ?_) ?_
  · intro k t q q' hk hs hi hw hf
    keep hs
    exact ⟨0, by idx, ok_to (ev_lit _ _ _) hz, hf⟩
  intro s hs hw; keep hs
  refine Gives.seq (P := fun t => t.l.i .non_linear = some 0 ∧ t.w = { w with b := b2 }) ?_ ?_
  · refine Gives.ite_pos (ok_to (ev_eqI (ev_imem _) (ev_ilit _)) (by simp [GI.get, hd])) ?_
    refine Gives.seq (Gives.declV (fun _ => 0)) ?_
    intro s hs hbe; keep hs
    refine Gives.seq (Gives.sim (fun b t => t.w = { w with b := b } ∧ t.l.i .non_linear_one_elem = some 0 ∧
      t.l.i .non_linear = some 0 ∧ VecOn (t.l.v .be) 8 (fun _ => False) (fun _ => (0 : α)) ∧
      VecOn (t.l.iv .index) 24 (fun _ => False) (fun _ => (0 : Int)))
      (by intro _ _ _ h; exact h) (by idx) hm1 ⟨hw, hno, hnl, hbe, hiv⟩ ?_) ?_
    · rintro ex t a a' hex' hs hex ⟨hw, hno, hnl, hbe, hiv⟩ hm
      keep hs
      refine Gives.sim (fun b t => t.w = { w with b := b } ∧ t.l.i .non_linear_one_elem = some 0 ∧
      t.l.i .non_linear = some 0 ∧ VecOn (t.l.v .be) 8 (fun _ => False) (fun _ => (0 : α)) ∧
      VecOn (t.l.iv .index) 24 (fun _ => False) (fun _ => (0 : Int)))
        (by intro _ _ _ h; exact h) (by idx) hm ⟨hw, hno, hnl, hbe, hiv⟩ ?_
      rintro ey t a a' hey' hs hey ⟨hw, hno, hnl, hbe, hiv⟩ hm
      keep hs
      unfold rhsElem2D at hm
      rw [bind_ok_iff] at hm
      obtain ⟨er, her, hm⟩ := hm
      unfold scatterAdd at hm
      refine Gives.seq (Gives.setI (k := ((rhsNode2D c.nx ex ey 0 : Nat) : Int)) ?_) ?_
      · evs
        simp [rhsNode2D, GI.get]
      intro s hs h0; keep hs
      refine Gives.seq (Gives.setI (k := ((rhsNode2D c.nx ex ey 1 : Nat) : Int)) ?_) ?_
      · evs
        simp [rhsNode2D, GI.get]
      intro s hs h1; keep hs
      refine Gives.seq (Gives.setI (k := ((rhsNode2D c.nx ex ey 2 : Nat) : Int)) ?_) ?_
      · evs
        simp [rhsNode2D, GI.get]
      intro s hs h2; keep hs
      refine Gives.seq (Gives.setI (k := ((rhsNode2D c.nx ex ey 3 : Nat) : Int)) ?_) ?_
      · evs
        simp [rhsNode2D, GI.get]
      intro s hs h3; keep hs
      replace hiv := hiv.congr (T := fun _ => False) (g := (fun i => (((rhsNode2D c.nx ex ey (i / 2)) * 2 + i % 2 : Nat) : Int))) le_rfl fun _ h => h.elim
      refine Gives.seq (Gives.stIg 0 hiv (by idx) (by omega) (by idx)) ?_
      intro s hs hiv; keep hs
      refine Gives.seq (Gives.stIg 1 hiv (by idx) (by omega) (by idx)) ?_
      intro s hs hiv; keep hs
      refine Gives.seq (Gives.stIg 2 hiv (by idx) (by omega) (by idx)) ?_
      intro s hs hiv; keep hs
      refine Gives.seq (Gives.stIg 3 hiv (by idx) (by omega) (by idx)) ?_
      intro s hs hiv; keep hs
      refine Gives.seq (Gives.stIg 4 hiv (by idx) (by omega) (by idx)) ?_
      intro s hs hiv; keep hs
      refine Gives.seq (Gives.stIg 5 hiv (by idx) (by omega) (by idx)) ?_
      intro s hs hiv; keep hs
      refine Gives.seq (Gives.stIg 6 hiv (by idx) (by omega) (by idx)) ?_
      intro s hs hiv; keep hs
      refine Gives.seq (Gives.stIg 7 hiv (by idx) (by omega) (by idx)) ?_
      intro s hs hiv; keep hs
      replace hiv := hiv.congr (T := (· < 8)) (g := (fun i => (((rhsNode2D c.nx ex ey (i / 2)) * 2 + i % 2 : Nat) : Int))) le_rfl
        fun q hq => ⟨by simp only [false_or]; omega, rfl⟩
      refine Gives.seq (Gives.call' (P := fun t =>
          t.l.i .non_linear_one_elem = some 0 ∧ VecOn (t.l.v .be) 8 (· < 8) er ∧ t.w = { w with b := a }) (Q := _) ?_ (fun _ h => h)) ?_
      · refine ⟨_, by simp only [params, passAll, passIn, ev_ivar hex, ev_ivar hey, ev_ivar hno, M_bind_ok', M_pure]; rfl, ?_⟩
        exact run_get_elem_rhs2D (w := { w with b := a }) L hw hd her hx1 hy1 rfl rfl hno hbe
      rintro s hs ⟨hno, hbe, hw⟩; keep hs
      refine Gives.seq (P := fun t => t.l.i .non_linear = some 0 ∧ t.w = { w with b := a }) ?_ ?_
      · refine Gives.ite_neg (ok_to (ev_eqI (ev_ivar hno) (ev_ilit _)) (by simp)) ?_
        exact Gives.skip.mono fun t h => by subst h; exact ⟨hnl, hw⟩
      rintro s hs ⟨hnl, hw⟩; keep hs
      refine (Gives.memLoop (g := .b) (w := { w with b := a }) (N := 8) (ix := fun i => (rhsNode2D c.nx ex ey (i / 2)) * 2 + i % 2) hw (by idx) hm ?_).same.mono ?_
      · intro k t q q' hk hs hi hw hf
        keep hs
        rw [bind_ok_iff] at hf
        obtain ⟨v, hf1, hf2⟩ := hf
        have hix : (IExp.rd .index (.var .i)).eval c t.l = .ok ((((rhsNode2D c.nx ex ey (k / 2)) * 2 + k % 2 : Nat)) : Int) := by
          have := ev_ird (c := c) hiv (ev_ivar hi) (by omega) (by omega) (by simpa using hk)
          simpa only [Int.toNat_natCast] using this
        have hbk : (DExp.rd1 .be (.var .i)).eval c t = .ok (er k) := by
          have := ev_rd1 (c := c) hbe (ev_ivar hi) (by omega) (by omega) (by simpa using hk)
          simpa only [Int.toNat_natCast] using this
        exact ⟨_, hix, ev_add (ev_memRead hix (by rw [hw]; rfl) hf1) hbk, hf2⟩
      · rintro t ⟨hs, h⟩; keep hs
        exact ⟨h, hno, hnl, hbe.congr (T := fun _ => False) (g := fun _ => 0) le_rfl fun _ h => h.elim,
          hiv.congr (T := fun _ => False) (g := fun _ => 0) le_rfl fun _ h => h.elim⟩
    rintro s hs ⟨hw, -, hnl, -, -⟩; keep hs
    unfold rhsBc2D at hm2
    rw [bind_ok_iff] at hm2
    obtain ⟨c0, hb0, hm2⟩ := hm2
    rw [bind_ok_iff] at hm2
    obtain ⟨c1, hb1, hm2⟩ := hm2
    rw [bind_ok_iff] at hm2
    obtain ⟨c2, hb2, hm2⟩ := hm2
    refine Gives.seq (Gives.sim (N := c.nx) (fun b t => t.w = { w with b := b })
      (by intro _ _ _ h; exact h) (by idx) hb0 hw ?_) ?_
    · intro i t q q' hl hs hi hw hf
      keep hs
      unfold zeroNode at hf
      refine (Gives.memLoop (g := .b) (w := { w with b := q }) (N := 2) (ix := fun d => (i) * 2 + d) hw (by idx) hf ?_).mono ?_
      · intro d t p p' hd2 hs hdv hw hf
        keep hs
        exact ⟨0, by idx, ok_to (ev_lit _ _ _) hz, hf⟩
      · intro t h; exact h
    intro s hs hw; keep hs
    refine Gives.seq (Gives.sim (N := c.nx) (fun b t => t.w = { w with b := b })
      (by intro _ _ _ h; exact h) (by idx) hb1 hw ?_) ?_
    · intro i t q q' hl hs hi hw hf
      keep hs
      unfold zeroNode at hf
      refine (Gives.memLoop (g := .b) (w := { w with b := q }) (N := 2) (ix := fun d => (i + (c.ny - 1) * c.nx) * 2 + d) hw (by idx) hf ?_).mono ?_
      · intro d t p p' hd2 hs hdv hw hf
        keep hs
        exact ⟨0, by idx, ok_to (ev_lit _ _ _) hz, hf⟩
      · intro t h; exact h
    intro s hs hw; keep hs
    refine Gives.seq (Gives.sim (N := c.ny - 2) (fun b t => t.w = { w with b := b })
      (by intro _ _ _ h; exact h) (by idx) hb2 hw ?_) ?_
    · intro i t q q' hl hs hi hw hf
      keep hs
      unfold zeroNode at hf
      refine (Gives.memLoop (g := .b) (w := { w with b := q }) (N := 2) (ix := fun d => ((i + 1) * c.nx) * 2 + d) hw (by idx) hf ?_).mono ?_
      · intro d t p p' hd2 hs hdv hw hf
        keep hs
        exact ⟨0, by idx, ok_to (ev_lit _ _ _) hz, hf⟩
      · intro t h; exact h
    intro s hs hw; keep hs
    refine (Gives.sim (N := c.ny - 2) (fun b t => t.w = { w with b := b })
      (by intro _ _ _ h; exact h) (by idx) hm2 hw ?_).same.mono ?_
    · intro i t q q' hl hs hi hw hf
      keep hs
      have h3 : 1 ≤ (i + 2) * c.nx := Nat.mul_pos (by omega) (by omega)
      unfold zeroNode at hf
      refine (Gives.memLoop (g := .b) (w := { w with b := q }) (N := 2) (ix := fun d => ((i + 2) * c.nx - 1) * 2 + d) hw (by idx) hf ?_).mono ?_
      · intro d t p p' hd2 hs hdv hw hf
        keep hs
        exact ⟨0, by idx, ok_to (ev_lit _ _ _) hz, hf⟩
      · intro t h; exact h
    · rintro t ⟨hs, h⟩; keep hs
      exact ⟨hnl, h⟩
  rintro s hs ⟨hnl, hw⟩; keep hs
  refine Gives.seq (Gives.memLoop (g := .b) (w := { w with b := b2 }) (ix := fun i => i) (N := c.nn * c.dim) hw (by idx) hm3 ?_) ?_
  · intro k t q q' hk hs hi hw hf
    keep hs
    rw [bind_ok_iff] at hf
    obtain ⟨v, hf1, hf2⟩ := hf
    exact ⟨_, by idx, ev_neg (ev_memRead (ev_ivar hi) (by rw [hw]; rfl) hf1), hf2⟩
  intro s hs hw; keep hs
  refine Gives.seq (Gives.setD (y := 0) (ok_to (ev_lit _ _ _) hz)) ?_
  intro s hs hno; keep hs
  refine Gives.seq (Gives.sim (N := c.nn * c.dim) (fun x t => t.l.d .norm = some x) (by intro _ _ _ h; exact h) (by idx) hm4 hno ?_) ?_
  · intro k t x x' hk hs hi hno hf
    keep hs
    rw [bind_ok_iff] at hf
    obtain ⟨v, hf1, hf2⟩ := hf
    cases hf2
    have hv : (DExp.memRd .b (.var .i)).eval c t = .ok v := ev_memRead (ev_ivar hi) (by rw [hw]; rfl) hf1
    exact Gives.setD (ev_add (ev_var hno) (ev_mul hv hv))
  intro s hs hno; keep hs
  refine Gives.seq (Gives.setD (ev_sqrt (ev_var hno))) ?_
  intro s hs hno; keep hs
  refine (Gives.setD (ev_var hno)).same.mono ?_
  rintro t ⟨hs, h⟩; keep hs
  exact ⟨h, hnl, hw⟩

theorem run_assembly_rhs3 (L : LitLaws α) {s : St α} {w : Work α} {r : RhsOut α}
    (hw : s.w = w) (hd : c.dim = 3) (hm : assemblyRhs c w = .ok r)
    (hx : 2 ≤ c.nx) (hy : 2 ≤ c.ny) (hz1 : 1 ≤ c.nz) :
    Gives (run c (n + 5) .assembly_rhs s) (fun t =>
      t.l.d .ret = some r.norm ∧ t.l.i .non_linear = some (if r.nl = true then 1 else 0) ∧
      t.w = r.work) := by
  show Gives (t_assembly_rhs.exec c (run c (n + 4)) s) _
  have hz : (OfScientific.ofScientific 0 true 1 : α) = 0 := L.zeroD
  have hx1 : 1 ≤ c.nx := by omega
  have hy1 : 1 ≤ c.ny := by omega
  unfold assemblyRhs at hm
  rw [bind_ok_iff] at hm
  obtain ⟨b0, hm0, hm⟩ := hm
  rw [if_neg (by omega), if_pos hd, bind_ok_iff] at hm
  obtain ⟨sr, hm1, hm⟩ := hm
  rw [bind_ok_iff] at hm
  obtain ⟨b2, hm2, hm⟩ := hm
  rw [bind_ok_iff] at hm
  obtain ⟨rn, hm3, hr⟩ := hm
  cases hr
  unfold negNorm at hm3
  rw [bind_ok_iff] at hm3
  obtain ⟨b3, hm3, hm4⟩ := hm3
  rw [bind_ok_iff] at hm4
  obtain ⟨sq, hm4, hr⟩ := hm4
  cases hr
  refine Gives.seq (Gives.declIV (fun _ => 0)) ?_
  intro s hs hiv; keep hs
  refine Gives.seq Gives.declI ?_
  intro s hs _; keep hs
  refine Gives.seq Gives.declI ?_
  intro s hs _; keep hs
  refine Gives.seq Gives.declI ?_
  intro s hs _; keep hs
  refine Gives.seq Gives.declI ?_
  intro s hs _; keep hs
  refine Gives.seq Gives.declI ?_
  intro s hs _; keep hs
  refine Gives.seq Gives.declI ?_
  intro s hs _; keep hs
  refine Gives.seq Gives.declI ?_
  intro s hs _; keep hs
  refine Gives.seq Gives.declI ?_
  intro s hs _; keep hs
  refine Gives.seq (Gives.setI (k := 0) rfl) ?_
  intro s hs hno; keep hs
  refine Gives.seq (Gives.setI (k := 0) rfl) ?_
  intro s hs hnl; keep hs
  refine Gives.seq (Gives.memLoop (g := .b) (ix := fun i => i) (N := c.nn * c.dim) hw (by idx) hm0 ?_) ?_
  · intro k t q q' hk hs hi hw hf
    keep hs
    exact ⟨0, by idx, ok_to (ev_lit _ _ _) hz, hf⟩
  intro s hs hw; keep hs
  refine Gives.seq (P := fun t => t.l.i .non_linear = some (if sr.nl = true then 1 else 0) ∧ t.w = { w with b := b2, varsNew := sr.varsNew }) ?_ ?_
  · refine Gives.ite_neg (ok_to (ev_eqI (ev_imem _) (ev_ilit _)) (by simp [GI.get, hd])) ?_
    refine Gives.ite_pos (ok_to (ev_eqI (ev_imem _) (ev_ilit _)) (by simp [GI.get, hd])) ?_
    refine Gives.seq (Gives.declV (fun _ => 0)) ?_
    intro s hs hbe; keep hs
    refine Gives.seq (Gives.sim (fun (a : RhsState α) t => t.w = { w with b := a.b, varsNew := a.varsNew } ∧
      t.l.i .non_linear_one_elem = some (if a.nlOne = true then 1 else 0) ∧
      t.l.i .non_linear = some (if a.nl = true then 1 else 0) ∧
      VecOn (t.l.v .be) 24 (fun _ => False) (fun _ => (0 : α)) ∧
      VecOn (t.l.iv .index) 24 (fun _ => False) (fun _ => (0 : Int)))
      (by intro _ _ _ h; exact h) (by idx) hm1 ⟨hw, hno, hnl, hbe, hiv⟩ ?_) ?_
    · rintro ex t a a' hex' hs hex ⟨hw, hno, hnl, hbe, hiv⟩ hm
      keep hs
      refine Gives.sim (fun (a : RhsState α) t => t.w = { w with b := a.b, varsNew := a.varsNew } ∧
      t.l.i .non_linear_one_elem = some (if a.nlOne = true then 1 else 0) ∧
      t.l.i .non_linear = some (if a.nl = true then 1 else 0) ∧
      VecOn (t.l.v .be) 24 (fun _ => False) (fun _ => (0 : α)) ∧
      VecOn (t.l.iv .index) 24 (fun _ => False) (fun _ => (0 : Int)))
        (by intro _ _ _ h; exact h) (by idx) hm ⟨hw, hno, hnl, hbe, hiv⟩ ?_
      rintro ey t a a' hey' hs hey ⟨hw, hno, hnl, hbe, hiv⟩ hm
      keep hs
      refine Gives.sim (fun (a : RhsState α) t => t.w = { w with b := a.b, varsNew := a.varsNew } ∧
      t.l.i .non_linear_one_elem = some (if a.nlOne = true then 1 else 0) ∧
      t.l.i .non_linear = some (if a.nl = true then 1 else 0) ∧
      VecOn (t.l.v .be) 24 (fun _ => False) (fun _ => (0 : α)) ∧
      VecOn (t.l.iv .index) 24 (fun _ => False) (fun _ => (0 : Int)))
        (by intro _ _ _ h; exact h) (by idx) hm ⟨hw, hno, hnl, hbe, hiv⟩ ?_
      rintro ez t a a' hez' hs hez ⟨hw, hno, hnl, hbe, hiv⟩ hm
      keep hs
      unfold rhsElem3D at hm
      rw [bind_ok_iff] at hm
      obtain ⟨er, her, hm⟩ := hm
      rw [bind_ok_iff] at hm
      obtain ⟨bs, hm, hr⟩ := hm
      cases hr
      unfold scatterAdd at hm
      refine Gives.seq (Gives.setI (k := ((rhsNode3D c.nx c.ny ex ey ez 0 : Nat) : Int)) ?_) ?_
      · evs
        simp [rhsNode3D, GI.get]
      intro s hs h0; keep hs
      refine Gives.seq (Gives.setI (k := ((rhsNode3D c.nx c.ny ex ey ez 1 : Nat) : Int)) ?_) ?_
      · evs
        simp [rhsNode3D, GI.get]
      intro s hs h1; keep hs
      refine Gives.seq (Gives.setI (k := ((rhsNode3D c.nx c.ny ex ey ez 2 : Nat) : Int)) ?_) ?_
      · evs
        simp [rhsNode3D, GI.get]
      intro s hs h2; keep hs
      refine Gives.seq (Gives.setI (k := ((rhsNode3D c.nx c.ny ex ey ez 3 : Nat) : Int)) ?_) ?_
      · evs
        simp [rhsNode3D, GI.get]
      intro s hs h3; keep hs
      refine Gives.seq (Gives.setI (k := ((rhsNode3D c.nx c.ny ex ey ez 4 : Nat) : Int)) ?_) ?_
      · evs
        simp [rhsNode3D, GI.get]
      intro s hs h4; keep hs
      refine Gives.seq (Gives.setI (k := ((rhsNode3D c.nx c.ny ex ey ez 5 : Nat) : Int)) ?_) ?_
      · evs
        simp [rhsNode3D, GI.get]
      intro s hs h5; keep hs
      refine Gives.seq (Gives.setI (k := ((rhsNode3D c.nx c.ny ex ey ez 6 : Nat) : Int)) ?_) ?_
      · evs
        simp [rhsNode3D, GI.get]
      intro s hs h6; keep hs
      refine Gives.seq (Gives.setI (k := ((rhsNode3D c.nx c.ny ex ey ez 7 : Nat) : Int)) ?_) ?_
      · evs
        simp [rhsNode3D, GI.get]
      intro s hs h7; keep hs
      replace hiv := hiv.congr (T := fun _ => False) (g := (fun i => (((rhsNode3D c.nx c.ny ex ey ez (i / 3)) * 3 + i % 3 : Nat) : Int))) le_rfl fun _ h => h.elim
      refine Gives.seq (Gives.forFrom (m := 0) (N := 3)
        (fun k t => VecOn (t.l.iv .index) 24 (fun q => q < 24 ∧ q % 3 < k) (fun i => (((rhsNode3D c.nx c.ny ex ey ez (i / 3)) * 3 + i % 3 : Nat) : Int)))
        (fun _ _ _ h => h) (by omega) (by idx) (hiv.congr le_rfl fun q hq => by omega) ?_) ?_
      · intro k t _ hk hs hi hP
        keep hs
        refine Gives.seq (Gives.stIg (0 * 3 + k) hP (by idx) (by omega) (by
          rw [show (0 * 3 + k) / 3 = 0 by omega, show (0 * 3 + k) % 3 = k by omega]; idx)) ?_
        intro s hs hP; keep hs
        refine Gives.seq (Gives.stIg (1 * 3 + k) hP (by idx) (by omega) (by
          rw [show (1 * 3 + k) / 3 = 1 by omega, show (1 * 3 + k) % 3 = k by omega]; idx)) ?_
        intro s hs hP; keep hs
        refine Gives.seq (Gives.stIg (2 * 3 + k) hP (by idx) (by omega) (by
          rw [show (2 * 3 + k) / 3 = 2 by omega, show (2 * 3 + k) % 3 = k by omega]; idx)) ?_
        intro s hs hP; keep hs
        refine Gives.seq (Gives.stIg (3 * 3 + k) hP (by idx) (by omega) (by
          rw [show (3 * 3 + k) / 3 = 3 by omega, show (3 * 3 + k) % 3 = k by omega]; idx)) ?_
        intro s hs hP; keep hs
        refine Gives.seq (Gives.stIg (4 * 3 + k) hP (by idx) (by omega) (by
          rw [show (4 * 3 + k) / 3 = 4 by omega, show (4 * 3 + k) % 3 = k by omega]; idx)) ?_
        intro s hs hP; keep hs
        refine Gives.seq (Gives.stIg (5 * 3 + k) hP (by idx) (by omega) (by
          rw [show (5 * 3 + k) / 3 = 5 by omega, show (5 * 3 + k) % 3 = k by omega]; idx)) ?_
        intro s hs hP; keep hs
        refine Gives.seq (Gives.stIg (6 * 3 + k) hP (by idx) (by omega) (by
          rw [show (6 * 3 + k) / 3 = 6 by omega, show (6 * 3 + k) % 3 = k by omega]; idx)) ?_
        intro s hs hP; keep hs
        refine (Gives.stIg (7 * 3 + k) hP (by idx) (by omega) (by
          rw [show (7 * 3 + k) / 3 = 7 by omega, show (7 * 3 + k) % 3 = k by omega]; idx)).mono ?_
        exact fun t h => h.congr le_rfl fun q hq => ⟨by omega, rfl⟩
      intro s hs hiv; keep hs
      replace hiv := hiv.congr (T := (· < 24)) (g := (fun i => (((rhsNode3D c.nx c.ny ex ey ez (i / 3)) * 3 + i % 3 : Nat) : Int))) le_rfl
        fun q hq => ⟨by omega, rfl⟩
      refine Gives.seq (Gives.call' (P := fun t =>
          t.l.i .non_linear_one_elem = some (if er.nl = true then 1 else 0) ∧ VecOn (t.l.v .be) 24 (· < 24) er.be ∧ t.w = { w with b := a.b, varsNew := er.varsNew }) (Q := _) ?_ (fun _ h => h)) ?_
      · refine ⟨_, by simp only [params, passAll, passIn, ev_ivar hex, ev_ivar hey, ev_ivar hez, ev_ivar hno, M_bind_ok', M_pure]; rfl, ?_⟩
        exact run_get_elem_rhs3D (w := { w with b := a.b, varsNew := a.varsNew }) L hw hd her hx1 hy1 rfl rfl rfl hno hbe
      rintro s hs ⟨hno, hbe, hw⟩; keep hs
      refine Gives.seq (P := fun t => t.l.i .non_linear = some (if (if er.nl = true then true else a.nl) = true then 1 else 0) ∧ t.w = { w with b := a.b, varsNew := er.varsNew }) ?_ ?_
      · by_cases hb : er.nl = true
        · refine Gives.ite_pos (ok_to (ev_eqI (ev_ivar hno) (ev_ilit _)) (by simp [hb])) ?_
          refine (Gives.setI (k := 1) rfl).same.mono ?_
          rintro t ⟨hs, h⟩; keep hs
          exact ⟨by rw [h, if_pos hb]; rfl, hw⟩
        · refine Gives.ite_neg (ok_to (ev_eqI (ev_ivar hno) (ev_ilit _)) (by simp [hb])) ?_
          exact Gives.skip.mono fun t h => by subst h; rw [if_neg hb]; exact ⟨hnl, hw⟩
      rintro s hs ⟨hnl, hw⟩; keep hs
      refine (Gives.memLoop (g := .b) (w := { w with b := a.b, varsNew := er.varsNew }) (N := 24) (ix := fun i => (rhsNode3D c.nx c.ny ex ey ez (i / 3)) * 3 + i % 3) hw (by idx) hm ?_).same.mono ?_
      · intro k t q q' hk hs hi hw hf
        keep hs
        rw [bind_ok_iff] at hf
        obtain ⟨v, hf1, hf2⟩ := hf
        have hix : (IExp.rd .index (.var .i)).eval c t.l = .ok ((((rhsNode3D c.nx c.ny ex ey ez (k / 3)) * 3 + k % 3 : Nat)) : Int) := by
          have := ev_ird (c := c) hiv (ev_ivar hi) (by omega) (by omega) (by simpa using hk)
          simpa only [Int.toNat_natCast] using this
        have hbk : (DExp.rd1 .be (.var .i)).eval c t = .ok (er.be k) := by
          have := ev_rd1 (c := c) hbe (ev_ivar hi) (by omega) (by omega) (by simpa using hk)
          simpa only [Int.toNat_natCast] using this
        exact ⟨_, hix, ev_add (ev_memRead hix (by rw [hw]; rfl) hf1) hbk, hf2⟩
      · rintro t ⟨hs, h⟩; keep hs
        exact ⟨h, hno, hnl, hbe.congr (T := fun _ => False) (g := fun _ => 0) le_rfl fun _ h => h.elim,
          hiv.congr (T := fun _ => False) (g := fun _ => 0) le_rfl fun _ h => h.elim⟩
    rintro s hs ⟨hw, -, hnl, -, -⟩; keep hs
    unfold rhsBc3D at hm2
    rw [bind_ok_iff] at hm2
    obtain ⟨c0, hb0, hm2⟩ := hm2
    rw [bind_ok_iff] at hm2
    obtain ⟨c1, hb1, hm2⟩ := hm2
    rw [bind_ok_iff] at hm2
    obtain ⟨c2, hb2, hm2⟩ := hm2
    rw [bind_ok_iff] at hm2
    obtain ⟨c3, hb3, hm2⟩ := hm2
    rw [bind_ok_iff] at hm2
    obtain ⟨c4, hb4, hm2⟩ := hm2
    refine Gives.seq (Gives.sim (N := c.nx) (fun b t => t.w = { w with b := b, varsNew := sr.varsNew })
      (by intro _ _ _ h; exact h) (by idx) hb0 hw ?_) ?_
    · intro i t q q' hl1 hs hii hw hf
      keep hs
      refine Gives.sim (N := c.ny) (fun b t => t.w = { w with b := b, varsNew := sr.varsNew })
        (by intro _ _ _ h; exact h) (by idx) hf hw ?_
      intro j t q q' hl2 hs hij hw hf
      keep hs
      refine Gives.seq (Gives.setI (k := ((nodIndex c.nx c.ny i j 0 : Nat) : Int)) (by idx)) ?_
      intro s hs hn; keep hs
      generalize nodIndex c.nx c.ny i j 0 = nd at *
      unfold zeroNode at hf
      refine (Gives.memLoop (g := .b) (w := { w with b := q, varsNew := sr.varsNew }) (N := 3) (ix := fun d => nd * 3 + d) hw (by idx) hf ?_).mono ?_
      · intro d t p p' hd2 hs hdv hw hf
        keep hs
        exact ⟨0, by idx, ok_to (ev_lit _ _ _) hz, hf⟩
      · intro t h; exact h
    intro s hs hw; keep hs
    refine Gives.seq (Gives.sim (N := c.nx) (fun b t => t.w = { w with b := b, varsNew := sr.varsNew })
      (by intro _ _ _ h; exact h) (by idx) hb1 hw ?_) ?_
    · intro i t q q' hl1 hs hii hw hf
      keep hs
      refine Gives.sim (N := c.ny) (fun b t => t.w = { w with b := b, varsNew := sr.varsNew })
        (by intro _ _ _ h; exact h) (by idx) hf hw ?_
      intro j t q q' hl2 hs hij hw hf
      keep hs
      refine Gives.seq (Gives.setI (k := ((nodIndex c.nx c.ny i j (c.nz - 1) : Nat) : Int)) (by idx)) ?_
      intro s hs hn; keep hs
      generalize nodIndex c.nx c.ny i j (c.nz - 1) = nd at *
      unfold zeroNode at hf
      refine (Gives.memLoop (g := .b) (w := { w with b := q, varsNew := sr.varsNew }) (N := 3) (ix := fun d => nd * 3 + d) hw (by idx) hf ?_).mono ?_
      · intro d t p p' hd2 hs hdv hw hf
        keep hs
        exact ⟨0, by idx, ok_to (ev_lit _ _ _) hz, hf⟩
      · intro t h; exact h
    intro s hs hw; keep hs
    refine Gives.seq (Gives.sim (N := c.nx) (fun b t => t.w = { w with b := b, varsNew := sr.varsNew })
      (by intro _ _ _ h; exact h) (by idx) hb2 hw ?_) ?_
    · intro i t q q' hl1 hs hii hw hf
      keep hs
      refine Gives.simFrom (m := 1) (N := c.nz - 1) (fun b t => t.w = { w with b := b, varsNew := sr.varsNew })
        (by intro _ _ _ h; exact h) (by idx) hf hw ?_
      intro k t q q' _ hl2 hs hik hw hf
      keep hs
      refine Gives.seq (Gives.setI (k := ((nodIndex c.nx c.ny i 0 k : Nat) : Int)) (by idx)) ?_
      intro s hs hn; keep hs
      generalize nodIndex c.nx c.ny i 0 k = nd at *
      unfold zeroNode at hf
      refine (Gives.memLoop (g := .b) (w := { w with b := q, varsNew := sr.varsNew }) (N := 3) (ix := fun d => nd * 3 + d) hw (by idx) hf ?_).mono ?_
      · intro d t p p' hd2 hs hdv hw hf
        keep hs
        exact ⟨0, by idx, ok_to (ev_lit _ _ _) hz, hf⟩
      · intro t h; exact h
    intro s hs hw; keep hs
    refine Gives.seq (Gives.sim (N := c.nx) (fun b t => t.w = { w with b := b, varsNew := sr.varsNew })
      (by intro _ _ _ h; exact h) (by idx) hb3 hw ?_) ?_
    · intro i t q q' hl1 hs hii hw hf
      keep hs
      refine Gives.simFrom (m := 1) (N := c.nz - 1) (fun b t => t.w = { w with b := b, varsNew := sr.varsNew })
        (by intro _ _ _ h; exact h) (by idx) hf hw ?_
      intro k t q q' _ hl2 hs hik hw hf
      keep hs
      refine Gives.seq (Gives.setI (k := ((nodIndex c.nx c.ny i (c.ny - 1) k : Nat) : Int)) (by idx)) ?_
      intro s hs hn; keep hs
      generalize nodIndex c.nx c.ny i (c.ny - 1) k = nd at *
      unfold zeroNode at hf
      refine (Gives.memLoop (g := .b) (w := { w with b := q, varsNew := sr.varsNew }) (N := 3) (ix := fun d => nd * 3 + d) hw (by idx) hf ?_).mono ?_
      · intro d t p p' hd2 hs hdv hw hf
        keep hs
        exact ⟨0, by idx, ok_to (ev_lit _ _ _) hz, hf⟩
      · intro t h; exact h
    intro s hs hw; keep hs
    refine Gives.seq (Gives.simFrom (m := 1) (N := c.ny - 1) (fun b t => t.w = { w with b := b, varsNew := sr.varsNew })
      (by intro _ _ _ h; exact h) (by idx) hb4 hw ?_) ?_
    · intro j t q q' _ hl1 hs hij hw hf
      keep hs
      refine Gives.simFrom (m := 1) (N := c.nz - 1) (fun b t => t.w = { w with b := b, varsNew := sr.varsNew })
        (by intro _ _ _ h; exact h) (by idx) hf hw ?_
      intro k t q q' _ hl2 hs hik hw hf
      keep hs
      refine Gives.seq (Gives.setI (k := ((nodIndex c.nx c.ny 0 j k : Nat) : Int)) (by idx)) ?_
      intro s hs hn; keep hs
      generalize nodIndex c.nx c.ny 0 j k = nd at *
      unfold zeroNode at hf
      refine (Gives.memLoop (g := .b) (w := { w with b := q, varsNew := sr.varsNew }) (N := 3) (ix := fun d => nd * 3 + d) hw (by idx) hf ?_).mono ?_
      · intro d t p p' hd2 hs hdv hw hf
        keep hs
        exact ⟨0, by idx, ok_to (ev_lit _ _ _) hz, hf⟩
      · intro t h; exact h
    intro s hs hw; keep hs
    refine (Gives.simFrom (m := 1) (N := c.ny - 1) (fun b t => t.w = { w with b := b, varsNew := sr.varsNew })
      (by intro _ _ _ h; exact h) (by idx) hm2 hw ?_).same.mono ?_
    · intro j t q q' _ hl1 hs hij hw hf
      keep hs
      refine Gives.simFrom (m := 1) (N := c.nz - 1) (fun b t => t.w = { w with b := b, varsNew := sr.varsNew })
        (by intro _ _ _ h; exact h) (by idx) hf hw ?_
      intro k t q q' _ hl2 hs hik hw hf
      keep hs
      refine Gives.seq (Gives.setI (k := ((nodIndex c.nx c.ny (c.nx - 1) j k : Nat) : Int)) (by idx)) ?_
      intro s hs hn; keep hs
      generalize nodIndex c.nx c.ny (c.nx - 1) j k = nd at *
      unfold zeroNode at hf
      refine (Gives.memLoop (g := .b) (w := { w with b := q, varsNew := sr.varsNew }) (N := 3) (ix := fun d => nd * 3 + d) hw (by idx) hf ?_).mono ?_
      · intro d t p p' hd2 hs hdv hw hf
        keep hs
        exact ⟨0, by idx, ok_to (ev_lit _ _ _) hz, hf⟩
      · intro t h; exact h
    · rintro t ⟨hs, h⟩; keep hs
      exact ⟨hnl, h⟩
  rintro s hs ⟨hnl, hw⟩; keep hs
  refine Gives.seq (Gives.memLoop (g := .b) (w := { w with b := b2, varsNew := sr.varsNew }) (ix := fun i => i) (N := c.nn * c.dim) hw (by idx) hm3 ?_) ?_
  · intro k t q q' hk hs hi hw hf
    keep hs
    rw [bind_ok_iff] at hf
    obtain ⟨v, hf1, hf2⟩ := hf
    exact ⟨_, by idx, ev_neg (ev_memRead (ev_ivar hi) (by rw [hw]; rfl) hf1), hf2⟩
  intro s hs hw; keep hs
  refine Gives.seq (Gives.setD (y := 0) (ok_to (ev_lit _ _ _) hz)) ?_
  intro s hs hno; keep hs
  refine Gives.seq (Gives.sim (N := c.nn * c.dim) (fun x t => t.l.d .norm = some x) (by intro _ _ _ h; exact h) (by idx) hm4 hno ?_) ?_
  · intro k t x x' hk hs hi hno hf
    keep hs
    rw [bind_ok_iff] at hf
    obtain ⟨v, hf1, hf2⟩ := hf
    cases hf2
    have hv : (DExp.memRd .b (.var .i)).eval c t = .ok v := ev_memRead (ev_ivar hi) (by rw [hw]; rfl) hf1
    exact Gives.setD (ev_add (ev_var hno) (ev_mul hv hv))
  intro s hs hno; keep hs
  refine Gives.seq (Gives.setD (ev_sqrt (ev_var hno))) ?_
  intro s hs hno; keep hs
  refine (Gives.setD (ev_var hno)).same.mono ?_
  rintro t ⟨hs, h⟩; keep hs
  exact ⟨h, hnl, hw⟩

end Verif.Text
