import Verif.Lemmas.Wild

/-!
# Cells with an edge of length zero or of infinite length

If a length is zero, the derivatives of the shape functions are infinite or NaN and the weights of the Gauss points
are zero; if it is infinite, it is the other way round.  In both cases every element vector is NaN.  Used by C108.
-/

namespace Verif
open Spec

variable {fp : Range} {c : Cfg (Dbl fp)} {u : Nat → Dbl fp} {vo : Buf (Dbl fp)}

/-- The elements have length zero, or NaN, in direction `d`. -/
structure Cfg.FlatIn (c : Cfg (Dbl fp)) (d : Nat) : Prop where
  lt : d < c.dim
  len : Nil (if d = 0 then c.dx else if d = 1 then c.dy else c.dz)

theorem Cfg.FlatIn.cases3 {d : Nat} (h : c.FlatIn d) (hd : c.dim = 3) :
    (d = 0 ∧ Nil c.dx) ∨ (d = 1 ∧ Nil c.dy) ∨ (d = 2 ∧ Nil c.dz) := by
  have h1 := h.lt
  have h2 := h.len
  rw [hd] at h1
  obtain rfl | rfl | rfl : d = 0 ∨ d = 1 ∨ d = 2 := by omega
  · exact Or.inl ⟨rfl, h2⟩
  · exact Or.inr (Or.inl ⟨rfl, h2⟩)
  · exact Or.inr (Or.inr ⟨rfl, h2⟩)

theorem Cfg.FlatIn.cases2 {d : Nat} (h : c.FlatIn d) (hd : c.dim = 2) :
    (d = 0 ∧ Nil c.dx) ∨ (d = 1 ∧ Nil c.dy) := by
  have h1 := h.lt
  have h2 := h.len
  rw [hd] at h1
  obtain rfl | rfl : d = 0 ∨ d = 1 := by omega
  · exact Or.inl ⟨rfl, h2⟩
  · exact Or.inr ⟨rfl, h2⟩

theorem strain3_flat {d : Nat} (h : c.FlatIn d) (hd : c.dim = 3) (ex ey ez gp : Nat) :
    NotFin (strain3 c u ex ey ez gp d) := by
  unfold strain3
  refine NotFin.accum (f := fun i => bmat3D c.dx c.dy c.dz gp d i * u (edof3 c.nx c.ny ex ey ez i)) (k := d)
    (by have := h.lt; omega) ?_ _
  refine NotFin.mul_l ?_ _
  rcases h.cases3 hd with ⟨rfl, hn⟩ | ⟨rfl, hn⟩ | ⟨rfl, hn⟩
  · exact NotFin.div_nil _ hn
  · exact NotFin.div_nil _ hn
  · exact NotFin.div_nil _ hn

theorem wg3_flat {d : Nat} (h : c.FlatIn d) (hd : c.dim = 3) : Nil (wg3D c) := by
  unfold wg3D
  rcases h.cases3 hd with ⟨rfl, hn⟩ | ⟨rfl, hn⟩ | ⟨rfl, hn⟩
  · exact Nil.mul_r (Nil.mul_r (Nil.mul_l _ hn) _) _
  · exact Nil.mul_r (Nil.mul_l _ hn) _
  · exact Nil.mul_l _ hn

/-- The trace of a strain with an infinity on the diagonal. -/
theorem trace_wild {eps : Nat → Dbl fp} {d : Nat} (hd : d < 3) (h : NotFin (eps d)) :
    NotFin (eps 0 + eps 1 + eps 2) := by
  obtain rfl | rfl | rfl : d = 0 ∨ d = 1 ∨ d = 2 := by omega
  · exact (h.add_l _).add_l _
  · exact (h.add_r _).add_l _
  · exact h.add_r _

theorem sig3_flat (m : Material (Dbl fp)) (e gp : Nat) {eps : Nat → Dbl fp} {d : Nat} (hd : d < 3)
    (h : NotFin (eps d)) : NotFin (sig3 m vo e gp eps 0) := by
  have ht := trace_wild hd h
  unfold sig3
  split
  · have key : ∀ (epsP : Nat → Dbl fp) (dl : Dbl fp) (n : Nat → Dbl fp),
        NotFin (plasticStress m eps (sigTrial m eps epsP) dl n 0) := by
      intro epsP dl n
      unfold plasticStress
      simp only
      refine NotFin.sub_l ?_ _
      rw [if_pos (by omega)]
      exact (ht.mul_r _).add_r _
    unfold plasticStep
    simp only
    split
    · dsimp only
      exact key _ _ _
    · dsimp only
      exact key _ _ _
  · unfold elasticStress3D
    rw [if_pos (by omega)]
    exact (ht.mul_r _).add_l _

theorem elemRhs3_flat {d : Nat} (h : c.FlatIn d) (hd : c.dim = 3) (ex ey ez i : Nat) :
    IsNan (elemRhs3 c u vo ex ey ez i) := by
  unfold elemRhs3
  refine accum_at (P := fun b : Nat → Dbl fp => IsNan (b i)) (k := 0) (by omega) (fun b => ?_) (fun gp b _ _ => ?_)
  all_goals
    refine accum_nan (f := fun j => bmat3D c.dx c.dy c.dz _ j i * gpSig c u vo ex ey ez _ j * wg3D c) (k := 0)
      (by omega) ?_
    unfold gpSig
    exact NotFin.mul_nil ((sig3_flat _ _ _ (by have := h.lt; omega) (strain3_flat h hd _ _ _ _)).mul_r _)
      (wg3_flat h hd)

theorem strain2_flat {d : Nat} (h : c.FlatIn d) (hd : c.dim = 2) (ex ey gp : Nat) :
    NotFin (strain2 c u ex ey gp d) := by
  unfold strain2
  refine NotFin.accum (f := fun i => bmat2D c.dx c.dy gp d i * u (edof2 c.nx ex ey i)) (k := d)
    (by have := h.lt; omega) ?_ _
  refine NotFin.mul_l ?_ _
  rcases h.cases2 hd with ⟨rfl, hn⟩ | ⟨rfl, hn⟩
  · exact NotFin.div_nil _ hn
  · exact NotFin.div_nil _ hn

theorem wg2_flat {d : Nat} (h : c.FlatIn d) (hd : c.dim = 2) : Nil (wg2D c) := by
  unfold wg2D
  rcases h.cases2 hd with ⟨rfl, hn⟩ | ⟨rfl, hn⟩
  · exact Nil.mul_r (Nil.mul_l _ hn) _
  · exact Nil.mul_l _ hn

theorem elemRhs2_flat {d : Nat} (h : c.FlatIn d) (hd : c.dim = 2) (ex ey i : Nat) :
    IsNan (elemRhs2 c u ex ey i) := by
  unfold elemRhs2
  refine accum_at (P := fun b : Nat → Dbl fp => IsNan (b i)) (k := 0) (by omega) (fun b => ?_) (fun gp b _ _ => ?_)
  all_goals
    refine accum_nan (f := fun j => bmat2D c.dx c.dy _ j i
      * sig2 (matOf c (c.el ex ey 0)) (strain2 c u ex ey _) j * wg2D c) (k := 0) (by omega) ?_
    refine NotFin.mul_nil (NotFin.mul_r ?_ _) (wg2_flat h hd)
    unfold sig2
    exact NotFin.accum (f := fun j => ctan2D (matOf c (c.el ex ey 0)) 0 j * strain2 c u ex ey _ j) (k := d)
      (by have := h.lt; omega) ((strain2_flat h hd _ _ _).mul_r _) _

/-! ## Infinite lengths -/

/-- The elements have infinite length in direction `d`. -/
structure Cfg.WideIn (c : Cfg (Dbl fp)) (d : Nat) : Prop where
  lt : d < c.dim
  len : NotFin (if d = 0 then c.dx else if d = 1 then c.dy else c.dz)

/-- `0 * inf`. -/
theorem Nil.mul_notFin {a b : Dbl fp} (h : Nil a) (hb : NotFin b) : IsNan (a * b) := by
  show (Dbl.mul a b).isNan = true
  cases b with
  | fin x h1 h2 => cases hb
  | nan => cases a <;> rfl
  | inf s =>
    rcases h with rfl | rfl
    · show Dbl.isNan (if (0 : ℝ) = 0 then _ else _) = true
      rw [if_pos rfl]; rfl
    · rfl

/-- `x / inf`. -/
theorem NotFin.div_nil_r {b : Dbl fp} (a : Dbl fp) (h : NotFin b) : Nil (a / b) := by
  show Nil (Dbl.div a b)
  cases b with
  | fin x h1 h2 => cases h
  | nan => right; cases a <;> rfl
  | inf s =>
    cases a with
    | fin x h1 h2 => left; exact round_zero
    | inf t => right; rfl
    | nan => right; rfl

theorem dsh3_wide {d : Nat} (h : c.WideIn d) (hd : c.dim = 3) (gp : Nat) {i : Nat} (hi : i < 8) :
    Nil (dsh3D c.dx c.dy c.dz gp i d) := by
  have h1 := h.lt
  have h2 := h.len
  rw [hd] at h1
  obtain rfl | rfl | rfl : d = 0 ∨ d = 1 ∨ d = 2 := by omega
  all_goals
    obtain rfl | rfl | rfl | rfl | rfl | rfl | rfl | rfl :
      i = 0 ∨ i = 1 ∨ i = 2 ∨ i = 3 ∨ i = 4 ∨ i = 5 ∨ i = 6 ∨ i = 7 := by omega
    all_goals exact NotFin.div_nil_r _ h2

theorem bmat3_wide {d : Nat} (h : c.WideIn d) (hd : c.dim = 3) (gp : Nat) {i : Nat} (hi : i < 24) :
    Nil (bmat3D c.dx c.dy c.dz gp d i) := by
  have h1 := h.lt
  rw [hd] at h1
  have k := dsh3_wide h hd gp (i := i / 3) (by omega)
  have hm : i % 3 < 3 := Nat.mod_lt _ (by omega)
  unfold bmat3D
  simp only
  generalize i % 3 = m at hm
  obtain rfl | rfl | rfl : d = 0 ∨ d = 1 ∨ d = 2 := by omega
  all_goals
    obtain rfl | rfl | rfl : m = 0 ∨ m = 1 ∨ m = 2 := by omega
    all_goals first | exact k | exact Nil.zero

theorem wg3_wide {d : Nat} (h : c.WideIn d) (hd : c.dim = 3) : NotFin (wg3D c) := by
  have h1 := h.lt
  have h2 := h.len
  rw [hd] at h1
  unfold wg3D
  obtain rfl | rfl | rfl : d = 0 ∨ d = 1 ∨ d = 2 := by omega
  · exact ((NotFin.mul_r h2 _).mul_l _).mul_l _
  · exact (NotFin.mul_r h2 _).mul_l _
  · exact NotFin.mul_r h2 _

theorem elemRhs3_wide {d : Nat} (h : c.WideIn d) (hd : c.dim = 3) (ex ey ez : Nat) {i : Nat} (hi : i < 24) :
    IsNan (elemRhs3 c u vo ex ey ez i) := by
  unfold elemRhs3
  refine accum_at (P := fun b : Nat → Dbl fp => IsNan (b i)) (k := 0) (by omega) (fun b => ?_) (fun gp b _ _ => ?_)
  all_goals
    refine accum_nan (f := fun j => bmat3D c.dx c.dy c.dz _ j i * gpSig c u vo ex ey ez _ j * wg3D c) (k := d)
      (by have := h.lt; omega) ?_
    exact Nil.mul_notFin (Nil.mul_r (bmat3_wide h hd _ hi) _) (wg3_wide h hd)

theorem dsh2_wide {d : Nat} (h : c.WideIn d) (hd : c.dim = 2) (gp : Nat) {i : Nat} (hi : i < 4) :
    Nil (dsh2D c.dx c.dy gp i d) := by
  have h1 := h.lt
  have h2 := h.len
  rw [hd] at h1
  obtain rfl | rfl : d = 0 ∨ d = 1 := by omega
  all_goals
    obtain rfl | rfl | rfl | rfl : i = 0 ∨ i = 1 ∨ i = 2 ∨ i = 3 := by omega
    all_goals exact NotFin.div_nil_r _ h2

theorem bmat2_wide {d : Nat} (h : c.WideIn d) (hd : c.dim = 2) (gp : Nat) {i : Nat} (hi : i < 8) :
    Nil (bmat2D c.dx c.dy gp d i) := by
  have h1 := h.lt
  rw [hd] at h1
  have k := dsh2_wide h hd gp (i := i / 2) (by omega)
  have hm : i % 2 < 2 := Nat.mod_lt _ (by omega)
  unfold bmat2D
  simp only
  generalize i % 2 = m at hm
  obtain rfl | rfl : d = 0 ∨ d = 1 := by omega
  all_goals
    obtain rfl | rfl : m = 0 ∨ m = 1 := by omega
    all_goals first | exact k | exact Nil.zero

theorem wg2_wide {d : Nat} (h : c.WideIn d) (hd : c.dim = 2) : NotFin (wg2D c) := by
  have h1 := h.lt
  have h2 := h.len
  rw [hd] at h1
  unfold wg2D
  obtain rfl | rfl : d = 0 ∨ d = 1 := by omega
  · exact (NotFin.mul_r h2 _).mul_l _
  · exact NotFin.mul_r h2 _

theorem elemRhs2_wide {d : Nat} (h : c.WideIn d) (hd : c.dim = 2) (ex ey : Nat) {i : Nat} (hi : i < 8) :
    IsNan (elemRhs2 c u ex ey i) := by
  unfold elemRhs2
  refine accum_at (P := fun b : Nat → Dbl fp => IsNan (b i)) (k := 0) (by omega) (fun b => ?_) (fun gp b _ _ => ?_)
  all_goals
    refine accum_nan (f := fun j => bmat2D c.dx c.dy _ j i
      * sig2 (matOf c (c.el ex ey 0)) (strain2 c u ex ey _) j * wg2D c) (k := d) (by have := h.lt; omega) ?_
    exact Nil.mul_notFin (Nil.mul_r (bmat2_wide h hd _ hi) _) (wg2_wide h hd)

/-! ## Newton iterations -/

/-- The element vectors are NaN, whatever the displacements are. -/
structure Cfg.NanForces (c : Cfg (Dbl fp)) : Prop where
  two : c.dim = 2 → ∀ u ex ey i, i < 8 → IsNan (elemRhs2 c u ex ey i)
  three : c.dim = 3 → ∀ u vo ex ey ez i, i < 24 → IsNan (elemRhs3 c u vo ex ey ez i)

theorem Cfg.FlatIn.forces {d : Nat} (h : c.FlatIn d) : c.NanForces :=
  ⟨fun hd _ _ _ _ _ => elemRhs2_flat h hd _ _ _, fun hd _ _ _ _ _ _ _ => elemRhs3_flat h hd _ _ _ _⟩

theorem Cfg.WideIn.forces {d : Nat} (h : c.WideIn d) : c.NanForces :=
  ⟨fun hd _ _ _ _ hi => elemRhs2_wide h hd _ _ hi, fun hd _ _ _ _ _ _ hi => elemRhs3_wide h hd _ _ _ hi⟩

/-- The residual of an interior node. -/
theorem rhs_forces (hc : c.Ok) (hB : c.Big) (hf : c.NanForces) {w : Work (Dbl fp)} (hw : w.Ok c)
    {r : RhsOut (Dbl fp)} (h : assemblyRhs c w = .ok r) :
    IsNan r.norm ∧ ∃ k, k < c.nn * c.dim ∧ IsNan (r.work.b.val k) := by
  have hx := hB.nx; have hy := hB.ny
  obtain ⟨k, hk, key⟩ : ∃ k, k < c.nn * c.dim ∧ IsNan (c.residV w.u.val w.varsOld w.b.val k) := by
    obtain ⟨a, ha, hb⟩ := exists_interior hc hB (inGrid_zero hc)
    have hdim : 0 < c.dim := by rcases hc.dim with h | h <;> omega
    obtain ⟨h1, h2⟩ := hb 0 hdim
    refine ⟨_, h1, ?_⟩
    have hi : a * c.dim + 0 < c.npe * c.dim := mul_add_lt ha hdim
    unfold Cfg.residV
    unfold Cfg.OnBdry at h2
    unfold Cfg.edof at h2 ⊢
    unfold Cfg.npe at hi
    rcases hc.dim with hd | hd
    · rw [if_pos hd] at hi
      rw [if_pos hd, if_pos hd] at h2
      rw [if_pos hd, if_pos hd]
      unfold resid2
      have key : ∀ f0, IsNan (fint2 c w.u.val f0 (edof2 c.nx 0 0 (a * c.dim + 0))) := fun f0 => by
        unfold fint2
        exact accum2_at (P := fun b : Nat → Dbl fp => IsNan (b (edof2 c.nx 0 0 (a * c.dim + 0)))) (by omega)
          (by omega) (fun b => scatterVal_nan (by rw [hd] at hi ⊢; exact hi) (hf.two hd _ _ _ _ (by rw [hd] at hi ⊢; exact hi)))
          (fun i j b hb => scatterVal_keep hb)
      simp only
      split
      · exact (key _).neg
      · exact key _
    · have hz := hB.nz hd
      rw [if_neg (by omega)] at hi
      rw [if_neg (by omega), if_neg (by omega)] at h2
      rw [if_neg (by omega), if_neg (by omega)]
      unfold resid3
      have key : ∀ f0, IsNan (fint3 c w.u.val w.varsOld f0 (edof3 c.nx c.ny 0 0 0 (a * c.dim + 0))) := fun f0 => by
        unfold fint3
        exact accum3_at (P := fun b : Nat → Dbl fp => IsNan (b (edof3 c.nx c.ny 0 0 0 (a * c.dim + 0)))) (by omega)
          (by omega) (by omega) (fun b => scatterVal_nan (by rw [hd] at hi ⊢; exact hi)
          (hf.three hd _ _ _ _ _ _ (by rw [hd] at hi ⊢; exact hi))) (fun i j k b hb => scatterVal_keep hb)
      simp only
      split
      · exact (key _).neg
      · exact key _
  refine ⟨?_, k, hk, ?_⟩
  · rw [assemblyRhs_gen hc hw h]
    exact normOf_nan hk key
  · unfold Cfg.residV at key
    rcases hc.dim with hd | hd
    · have hN : c.nn * c.dim = c.nx * c.ny * 2 := by rw [hc.nn2 hd, hd]
      rw [assemblyRhs2_eq hc hd (hw.u2 hc hd) (by rw [hw.b, hN])] at h
      cases h
      rw [if_pos hd] at key
      exact key
    · have hN : c.nn * c.dim = c.nx * c.ny * c.nz * 3 := by rw [hd]; rfl
      rw [assemblyRhs3_eq hc hd (hw.u3 hd) (by rw [hw.b, hN]) hw.varsOld hw.varsNew] at h
      cases h
      rw [if_neg (by omega)] at key
      exact key

/-- `newton_raphson` makes one correction and leaves NaN at every node. -/
theorem Cfg.NanForces.doomed (hc : c.Ok) (hB : c.Big) (hf : c.NanForces) : c.Doomed := by
  intro env w hw out h
  unfold newtonRaphson at h
  cases hfu : env.fuel with
  | zero => rw [hfu] at h; cases h
  | succ fuel =>
    rw [hfu] at h
    obtain ⟨b, vn, nm, nl, h1, h2⟩ := rhs_ok hc hw
    obtain ⟨h3, k, hk, h4⟩ := rhs_forces hc hB hf hw h1
    rw [nrLoop, h1, M_bind_ok'] at h
    rw [if_neg (by rw [h3.lt_l]; exact Bool.false_ne_true)] at h
    rw [bind_ok_iff] at h
    obtain ⟨w', h5, h⟩ := h
    have h6 := fun q hq => nrCorrect_nan hc h2.ok h5 hk h4 (q := q) hq
    cases hp : env.peek w'.tick with
    | none => rw [hp] at h; cases h
    | some v =>
      rw [hp] at h
      simp only at h
      rw [if_neg (by rw [h3.lt_r]; rintro ⟨-, h⟩; cases h)] at h
      cases h
      exact h6

end Verif
