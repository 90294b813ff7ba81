import Verif.Lemmas.Jacobi

/-!
# Linear solvers: properties C11 to C17
-/

namespace Verif.Props
open Spec Finset

/-- The two conjugate gradient entry points with their integer arguments. -/
inductive CgApi
  | cgpd2D (nF nx ny : Nat)
  | cgpdStruct (nF dim nn : Nat)

/-- The call `ell_solve_cgpd_2D(solver, m, nF, nx, ny, b, x)` or
`ell_solve_cgpd_struct(solver, m, nF, dim, nn, b, x)`. -/
def CgApi.call {α : Type} [Scalar α] (c : CgApi) (junk : Nat → Nat → α) (solver : EllSolver α)
    (m : Ell α) (b x : Buf α) : M (Int × EllSolver α × Option (Buf α)) :=
  match c with
  | .cgpd2D nF nx ny => ellSolveCgpd2D junk solver (some m) nF nx ny (some b) (some x)
  | .cgpdStruct nF dim nn => ellSolveCgpdStruct junk solver (some m) nF dim nn (some b) (some x)

/-- Fields per node. -/
def CgApi.fields : CgApi → Nat
  | .cgpd2D nF _ _ => nF
  | .cgpdStruct nF _ _ => nF

/-- Number of nodes. -/
def CgApi.nodes : CgApi → Nat
  | .cgpd2D _ nx ny => nx * ny
  | .cgpdStruct _ _ nn => nn

/-- The slot that holds the diagonal. -/
def CgApi.slot : CgApi → Nat
  | .cgpd2D _ _ _ => 4
  | .cgpdStruct _ dim _ => if dim = 2 then 4 else 13

/-- The integer arguments describe the matrix: its rows are the fields of its nodes, its slots
are groups of `nF` entries and include the diagonal slot, and the dimension is 2 or 3. -/
structure CgApi.Fits {α : Type} (c : CgApi) (m : Ell α) (b x : Buf α) : Prop where
  wf : m.WF
  rows : c.nodes * c.fields = m.nrow
  slots : ∃ W, c.slot < W ∧ m.nnz = W * c.fields
  dims : ∀ nF dim nn, c = .cgpdStruct nF dim nn → dim = 2 ∨ dim = 3
  b_size : b.size = m.nrow
  x_size : x.size = m.nrow

/-- The call runs `cgSolve` on the rows of all nodes. -/
theorem CgApi.call_eq {α : Type} [Scalar α] {c : CgApi} {m : Ell α} {b x : Buf α}
    (h : c.Fits m b x) (junk : Nat → Nat → α) (solver : EllSolver α)
    {s : EllSolver α} {y : Buf α}
    (hr : cgSolve junk solver m c.fields c.nodes c.slot b x = .ok (s, y)) :
    c.call junk solver m b x = .ok (0, s, some y) := by
  rcases c with ⟨nF, nx, ny⟩ | ⟨nF, dim, nn⟩
  · simp only [CgApi.fields, CgApi.nodes, CgApi.slot] at hr
    simp only [CgApi.call, ellSolveCgpd2D]
    rw [hr]; rfl
  · have hd := h.dims nF dim nn rfl
    simp only [CgApi.fields, CgApi.nodes, CgApi.slot] at hr
    simp only [CgApi.call, ellSolveCgpdStruct]
    rw [if_pos hd, hr]; rfl

/-- The calls in exact arithmetic. -/
theorem CgApi.call_real {c : CgApi} {m : Ell ℝ} {b x : Buf ℝ} (h : c.Fits m b x)
    (junk : Nat → Nat → ℝ) (solver : EllSolver ℝ) :
    ∃ (N : Nat) (x' : Buf ℝ) (err : ℝ) (k : Nat → ℝ) (xs r p : Nat → Nat → ℝ),
      c.call junk solver m b x = .ok (0, { solver with err := err, its := N }, some x') ∧
      x'.size = m.nrow ∧
      (∀ n d, n < c.nodes → d < c.fields → k (n * c.fields + d)
        = 1 / m.vals.val ((n * c.fields + d) * m.nnz + (c.slot * c.fields + d))) ∧
      PcgRun m.nrow (op m) k b.val solver.maxIts solver.minTol x.val N x'.val err xs r p := by
  obtain ⟨W, hs, hW⟩ := h.slots
  obtain ⟨N, x', err, k, xs, r, p, h1, h2, h3, h4⟩ :=
    cgSolve_real h.wf hW hs (le_of_eq h.rows) h.b_size h.x_size junk solver
  refine ⟨N, x', err, k, xs, r, p, CgApi.call_eq h junk solver h1, h2, fun n d hn hd => ?_, h4⟩
  rw [h3 n d hn hd, hW, slotIx_eq_row]

/-- Rows are pairs of a node and a field. -/
theorem CgApi.Fits.row {α : Type} {c : CgApi} {m : Ell α} {b x : Buf α} (h : c.Fits m b x) {i : Nat}
    (hi : i < m.nrow) : ∃ n d, n < c.nodes ∧ d < c.fields ∧ i = n * c.fields + d := by
  rw [← h.rows] at hi
  have h0 : 0 < c.fields := by
    rcases Nat.eq_zero_or_pos c.fields with h | h
    · simp [h] at hi
    · exact h
  refine ⟨i / c.fields, i % c.fields, Nat.div_lt_of_lt_mul (by rwa [Nat.mul_comm]),
    Nat.mod_lt _ h0, ?_⟩
  rw [Nat.mul_comm]; exact (Nat.div_add_mod i c.fields).symm

/-! ### A matrix for the examples

`[[2,1,w],[1,2,0],[0,0,1]]`: two unknowns and one boundary row; `w` is an entry in the boundary
column. -/

/-- Columns and values of the example matrix (9 slots per row, diagonal in slot 4). -/
noncomputable def exM (w : ℝ) : Ell ℝ where
  nrow := 3
  ncol := 3
  nnz := 9
  cols := ⟨27, fun q => if q = 4 ∨ q = 14 then 0 else if q = 13 ∨ q = 5 then 1
    else if q = 22 ∨ q = 6 then 2 else 0⟩
  vals := ⟨27, fun q => if q = 4 ∨ q = 13 then 2 else if q = 5 ∨ q = 14 ∨ q = 22 then 1
    else if q = 6 then w else 0⟩

theorem exM_wf (w : ℝ) : (exM w).WF := by
  refine ⟨rfl, rfl, rfl, fun q hq => ?_⟩
  simp only [exM]
  split_ifs <;> simp

theorem exM_op (w : ℝ) (x : Nat → ℝ) :
    op (exM w) x 0 = 2 * x 0 + x 1 + w * x 2 ∧ op (exM w) x 1 = x 0 + 2 * x 1 ∧
      op (exM w) x 2 = x 2 := by
  refine ⟨?_, ?_, ?_⟩ <;> simp [op, exM, sum_range_succ] <;> ring

theorem exM_spd (w : ℝ) : SpdOn 3 {0, 1} (op (exM w)) := by
  have h := exM_op w
  refine ⟨by decide, fun u v e => op_local (exM_wf w) e, fun u v c i => op_lin _ u v c i, ?_, ?_, ?_⟩
  · intro u i hi hI
    have : i = 2 := by simp at hI; omega
    subst this; exact (h u).2.2
  · intro u v hu hv
    have a := hu 2 (by omega) (by decide)
    have b := hv 2 (by omega) (by decide)
    simp only [dot, sum_range_succ, range_zero, sum_empty, (h u).1, (h u).2.1, (h u).2.2, (h v).1,
      (h v).2.1, (h v).2.2, a, b]
    ring
  · intro u hu hne
    have a := hu 2 (by omega) (by decide)
    simp only [dot, sum_range_succ, range_zero, sum_empty, (h u).1, (h u).2.1, (h u).2.2, a]
    have : u 0 ≠ 0 ∨ u 1 ≠ 0 := by
      obtain ⟨i, hi, hi0⟩ := hne
      interval_cases i
      · exact Or.inl hi0
      · exact Or.inr hi0
      · exact absurd a hi0
    rcases this with h | h
    · have := mul_self_pos.mpr h
      nlinarith [mul_self_nonneg (u 0 + u 1), mul_self_nonneg (u 1)]
    · have := mul_self_pos.mpr h
      nlinarith [mul_self_nonneg (u 0 + u 1), mul_self_nonneg (u 0)]

theorem exM_fits (w : ℝ) (f g : Nat → ℝ) :
    (CgApi.cgpdStruct 1 2 3).Fits (exM w) ⟨3, f⟩ ⟨3, g⟩ :=
  ⟨exM_wf w, rfl, ⟨9, by decide, rfl⟩, by intro _ _ _ h; cases h; exact Or.inl rfl, rfl, rfl⟩

theorem exM_diag (w : ℝ) : DiagSlot (exM w) 1 3 4 := by
  intro n d hn hd
  have hd : d = 0 := by omega
  subst hd
  interval_cases n
  · rw [show (0 * 1 + 0) = 0 from rfl, (exM_op w _).1]; simp [exM, unit]
  · rw [show (1 * 1 + 0) = 1 from rfl, (exM_op w _).2.1]; simp [exM, unit]
  · rw [show (2 * 1 + 0) = 2 from rfl, (exM_op w _).2.2]; simp [exM, unit]

/-! ## C11 -/

/-- **C11.** In exact arithmetic, for every matrix (no symmetry needed): if a CG solver returns
with fewer than `max 1 max_its` iterations, or with `err < min_tol`, the reported error is the norm of the true residual of
the returned `x` and below the tolerance. -/
theorem C11_truthful {c : CgApi} {m : Ell ℝ} {b x : Buf ℝ} (h : c.Fits m b x)
    (junk : Nat → Nat → ℝ) (solver : EllSolver ℝ) :
    ∃ solver' x', c.call junk solver m b x = .ok (0, solver', some x') ∧
      ((solver'.its : Int) < max 1 solver.maxIts ∨ solver'.err < solver.minTol →
        solver'.err = norm2 m.nrow (fun i => op m x'.val i - b.val i) ∧
        solver'.err < solver.minTol) := by
  obtain ⟨N, x', err, k, xs, r, p, h1, h2, h3, R⟩ := CgApi.call_real h junk solver
  refine ⟨_, _, h1, fun hc => ?_⟩
  have hres : norm2 m.nrow (r N) = norm2 m.nrow (fun i => op m x'.val i - b.val i) := by
    have := R.steps.residual (fun u v e => op_local h.wf e) (fun u v c i => op_lin m u v c i) N
      (le_refl N)
    rw [R.last] at this
    unfold norm2
    rw [dot_congr this this]
  rcases R.stop with ⟨a, e, -⟩ | ⟨a, e, f⟩
  · refine ⟨?_, ?_⟩
    · show err = _; rw [e, hres]
    · show err < _; rw [e]; exact a
  · exfalso
    rcases hc with hc | hc
    · have hc : (N : Int) < max 1 solver.maxIts := hc
      rcases lt_max_iff.mp hc with hc | hc <;> omega
    · have hc : err < solver.minTol := hc
      rw [f] at hc
      exact absurd hc (not_lt.mpr (R.notYet (N - 1) (by omega)))

/-- The hypotheses are met by the example system; the right hand side is not trivial. -/
example (w : ℝ) : ∃ solver' x', (CgApi.cgpdStruct 1 2 3).call (fun _ _ => 7)
    ⟨100, 0, 1 / 10, 0⟩ (exM w) ⟨3, fun i => if i < 2 then 1 else 0⟩ ⟨3, fun _ => 0⟩
      = .ok (0, solver', some x') ∧
    (solver'.its < 100 → norm2 3 (fun i => op (exM w) x'.val i - if i < 2 then 1 else 0) < 1 / 10) := by
  obtain ⟨s, y, h1, h2⟩ := C11_truthful (exM_fits w (fun i => if i < 2 then 1 else 0) fun _ => 0)
    (fun _ _ => 7) ⟨100, 0, 1 / 10, 0⟩
  refine ⟨s, y, h1, fun hs => ?_⟩
  have := h2 (Or.inl (by simpa using by omega))
  rw [this.1] at this
  exact this.2

/-! ## C12 -/

/-- **C12.** For every scalar arithmetic (so also IEEE doubles) and every `max_its`: the CG
solvers terminate without fault, return 0, keep the block of `x`, make at most `max 1 max_its`
iterations, leave the parameters of the solver alone; if the residual norm of the start vector,
computed in the order of the source, already passes the test, they report 0 iterations and leave
`x` untouched; the returned iteration count is 0 only in this case. -/
theorem C12_terminates {α : Type} [Scalar α] {c : CgApi} {m : Ell α} {b x : Buf α}
    (h : c.Fits m b x) (junk : Nat → Nat → α) (solver : EllSolver α) :
    ∃ solver' x', c.call junk solver m b x = .ok (0, solver', some x') ∧
      x'.size = x.size ∧ (solver'.its : Int) ≤ max 1 solver.maxIts ∧
      solver'.maxIts = solver.maxIts ∧ solver'.minTol = solver.minTol ∧
      (Scalar.lt (resErr m b.val x.val) solver.minTol = true → solver'.its = 0 ∧ x' = x) ∧
      (solver'.its = 0 → Scalar.lt (resErr m b.val x.val) solver.minTol = true) := by
  obtain ⟨W, hs, hW⟩ := h.slots
  obtain ⟨k, s, N, S, sF, hk, h0, hsx, hr, T, hF⟩ :=
    cgSolve_trace h.wf hW hs (le_of_eq h.rows) h.b_size h.x_size junk solver
  have he : errOf m (S 0) = resErr m b.val x.val := by
    rw [T.start]
    unfold errOf resErr dotA
    congr 1
    have : ∀ t, t ≤ m.nrow → accum t (fun i e => e + s.r.val i * s.r.val i) (0 : α)
        = accum t (fun i e => e + (rowAcc m x.val i - b.val i) * (rowAcc m x.val i - b.val i)) 0 := by
      intro t
      induction t with
      | zero => intro _; rfl
      | succ t ih => intro ht; rw [accum, accum, ih (by omega), hr t (by omega)]
    exact this _ le_rfl
  refine ⟨_, _, CgApi.call_eq h junk solver hF, ?_, ?_, rfl, rfl, ?_, ?_⟩
  · rw [(T.wf N (le_refl N)).x, h.x_size]
  · show (N : Int) ≤ _
    rcases Nat.lt_or_ge N 2 with h | h
    · omega
    · have := T.cont (N - 2) (by omega)
      rw [h0] at this
      push_cast [Nat.cast_sub h] at this
      omega
  · intro hlt
    rw [← he] at hlt
    have hN : N = 0 := by
      by_contra hc
      have := T.notYet 0 (by omega)
      rw [hlt] at this
      cases this
    refine ⟨by simp [hN], ?_⟩
    rw [hN, T.start, hsx]
  · intro hN
    have hN : N = 0 := by simpa using hN
    rcases T.stop with ⟨a, -, -⟩ | ⟨a, -, -⟩
    · rw [hN, he] at a; exact a
    · omega

/-- **C12, counting.** In exact arithmetic the reported number of iterations is the number of
conjugate gradient steps (with the inverse diagonal as preconditioner) that lead from the given
to the returned vector. -/
theorem C12_steps {c : CgApi} {m : Ell ℝ} {b x : Buf ℝ} (h : c.Fits m b x)
    (junk : Nat → Nat → ℝ) (solver : EllSolver ℝ) :
    ∃ N : Nat, ∃ solver' x' k xs r p,
      c.call junk solver m b x = .ok (0, solver', some x') ∧ solver'.its = (N : Int) ∧
      (∀ n d, n < c.nodes → d < c.fields → k (n * c.fields + d)
        = 1 / m.vals.val ((n * c.fields + d) * m.nnz + (c.slot * c.fields + d))) ∧
      PcgRun m.nrow (op m) k b.val solver.maxIts solver.minTol x.val N x'.val solver'.err
        xs r p := by
  obtain ⟨N, x', err, k, xs, r, p, h1, h2, h3, R⟩ := CgApi.call_real h junk solver
  exact ⟨N, _, x', k, xs, r, p, h1, rfl, h3, R⟩

/-- With the zero right hand side and start the solver stops at once (here over the doubles'
interface instantiated with the reals), even with `max_its = 0`. -/
example : ∃ solver' x', (CgApi.cgpdStruct 1 2 3).call (fun _ _ => 7)
    ⟨0, 5, 1 / 10, 5⟩ (exM 4) ⟨3, fun _ => 0⟩ ⟨3, fun _ => 0⟩ = .ok (0, solver', some x') ∧
    solver'.its = 0 ∧ x' = ⟨3, fun _ => 0⟩ := by
  obtain ⟨s, y, h1, -, -, -, -, h2, -⟩ := C12_terminates (exM_fits 4 (fun _ => 0) fun _ => 0)
    (fun _ _ => (7 : ℝ)) ⟨0, 5, 1 / 10, 5⟩
  refine ⟨s, y, h1, h2 ?_⟩
  rw [resErr_real, lt_real]
  have : norm2 3 (fun i => op (exM 4) (fun _ => 0) i - 0) = 0 := by
    simp [norm2, dot, op]
  show decide (norm2 3 (fun i => op (exM 4) (fun _ => 0) i - 0) < 1 / 10) = true
  rw [this]; norm_num

/-! ## C13, C14 -/

/-- **C13.** Let the operator be symmetric positive definite on the vectors supported on the
unknowns `I`, with identity rows elsewhere, let the diagonal slot hold the diagonal, and let `b`
and the start vector vanish outside `I`.  If `min_tol > 0` and `max_its` exceeds the number of
unknowns, the solver converges within that number of iterations: the true residual norm of the
returned vector is below the tolerance.  Every denominator of every iteration performed is
positive. -/
theorem C13_finite {c : CgApi} {m : Ell ℝ} {b x : Buf ℝ} (h : c.Fits m b x)
    (junk : Nat → Nat → ℝ) (solver : EllSolver ℝ) {I : Finset Nat} (hA : SpdOn m.nrow I (op m))
    (hdiag : DiagSlot m c.fields c.nodes c.slot) (hb : OnI m.nrow I b.val)
    (hx : OnI m.nrow I x.val) (htol : 0 < solver.minTol) (hmax : (I.card : Int) < solver.maxIts) :
    ∃ N : Nat, ∃ solver' x' k xs r p,
      c.call junk solver m b x = .ok (0, solver', some x') ∧ solver'.its = (N : Int) ∧
      N ≤ I.card ∧
      norm2 m.nrow (fun i => op m x'.val i - b.val i) < solver.minTol ∧
      PcgRun m.nrow (op m) k b.val solver.maxIts solver.minTol x.val N x'.val solver'.err
        xs r p ∧
      (∀ i, i ∈ I → 0 < op m (unit i) i ∧ k i = 1 / op m (unit i) i) ∧
      ∀ j, j < N → 0 < rho m.nrow k (r j) ∧
        0 < dot m.nrow (p j) (op m (p j)) := by
  obtain ⟨N, x', err, k, xs, r, p, h1, h2, h3, R⟩ := CgApi.call_real h junk solver
  have hkI : ∀ i, i ∈ I → 0 < op m (unit i) i ∧ k i = 1 / op m (unit i) i := by
    intro i hi
    have hn := mem_range.mp (hA.sub hi)
    obtain ⟨n, d, a1, a2, a3⟩ := h.row hn
    have := hA.pos (unit i) (by
      intro j hj hjI
      have : j ≠ i := fun e => hjI (e ▸ hi)
      simp [unit, this]) ⟨i, hn, by simp [unit]⟩
    rw [dot_unit hn] at this
    refine ⟨this, ?_⟩
    rw [a3, h3 n d a1 a2, hdiag n d a1 a2]
  have hk : ∀ i ∈ I, 0 < k i := by
    intro i hi
    rw [(hkI i hi).2]
    exact one_div_pos.mpr (hkI i hi).1
  have hx0 : OnI m.nrow I (xs 0) := by rw [R.first]; exact hx
  have hne : ∀ j, j < N → ∃ i, i < m.nrow ∧ r j i ≠ 0 := by
    intro j hj
    by_contra hc
    push Not at hc
    have h0 : norm2 m.nrow (r j) = 0 := by
      unfold norm2 dot
      rw [sum_eq_zero (fun i hi => by rw [hc i (mem_range.mp hi)]; ring), Real.sqrt_zero]
    have := R.notYet j hj
    linarith
  have hN := R.steps.finite hA hk hx0 hb hne
  refine ⟨N, _, x', k, xs, r, p, h1, rfl, hN, ?_, R, hkI, fun j hj =>
    (R.steps.inv hA hk hx0 hb hne j hj).2⟩
  rcases R.stop with ⟨a, -, -⟩ | ⟨-, e, -⟩
  · have := R.steps.residual (fun u v e => op_local h.wf e) (fun u v c i => op_lin m u v c i) N
      (le_refl N)
    rw [R.last] at this
    unfold norm2 at a ⊢
    rwa [dot_congr this this] at a
  · omega

/-- **C14.** In the situation of C13, without any condition on the iteration limit: every step
performed strictly lowers the energy functional. -/
theorem C14_energy {c : CgApi} {m : Ell ℝ} {b x : Buf ℝ} (h : c.Fits m b x)
    (junk : Nat → Nat → ℝ) (solver : EllSolver ℝ) {I : Finset Nat} (hA : SpdOn m.nrow I (op m))
    (hdiag : DiagSlot m c.fields c.nodes c.slot) (hb : OnI m.nrow I b.val)
    (hx : OnI m.nrow I x.val) (htol : 0 < solver.minTol) :
    ∃ N : Nat, ∃ solver' x' k xs r p,
      c.call junk solver m b x = .ok (0, solver', some x') ∧ solver'.its = (N : Int) ∧
      PcgRun m.nrow (op m) k b.val solver.maxIts solver.minTol x.val N x'.val solver'.err
        xs r p ∧
      (∀ j, j < N →
        energy m.nrow (op m) b.val (xs (j + 1)) < energy m.nrow (op m) b.val (xs j)) ∧
      energy m.nrow (op m) b.val x'.val ≤ energy m.nrow (op m) b.val x.val ∧
      (0 < N →
        energy m.nrow (op m) b.val x'.val < energy m.nrow (op m) b.val x.val) := by
  obtain ⟨N, x', err, k, xs, r, p, h1, h2, h3, R⟩ := CgApi.call_real h junk solver
  have hk : ∀ i ∈ I, 0 < k i := by
    intro i hi
    have hn := mem_range.mp (hA.sub hi)
    obtain ⟨n, d, a1, a2, a3⟩ := h.row hn
    have := hA.pos (unit i) (by
      intro j hj hjI
      have : j ≠ i := fun e => hjI (e ▸ hi)
      simp [unit, this]) ⟨i, hn, by simp [unit]⟩
    rw [dot_unit hn] at this
    rw [a3, h3 n d a1 a2, hdiag n d a1 a2, ← a3]
    exact one_div_pos.mpr this
  have hx0 : OnI m.nrow I (xs 0) := by rw [R.first]; exact hx
  have hne : ∀ j, j < N → ∃ i, i < m.nrow ∧ r j i ≠ 0 := by
    intro j hj
    by_contra hc
    push Not at hc
    have h0 : norm2 m.nrow (r j) = 0 := by
      unfold norm2 dot
      rw [sum_eq_zero (fun i hi => by rw [hc i (mem_range.mp hi)]; ring), Real.sqrt_zero]
    have := R.notYet j hj
    linarith
  have hstep : ∀ j, j < N →
      energy m.nrow (op m) b.val (xs (j + 1)) < energy m.nrow (op m) b.val (xs j) := by
    intro j hj
    have a := (R.steps.inv hA hk hx0 hb hne j hj).2
    rw [R.steps.energy_lt hA hk hx0 hb hne hj]
    have : 0 < rho m.nrow k (r j) ^ 2 / dot m.nrow (p j) (op m (p j)) / 2 := by
      have := a.1; have := a.2; positivity
    linarith
  have hall : ∀ j, j ≤ N →
      energy m.nrow (op m) b.val (xs j) ≤ energy m.nrow (op m) b.val (xs 0) := by
    intro j
    induction j with
    | zero => intro _; exact le_refl _
    | succ j ih => intro hj; exact le_trans (le_of_lt (hstep j (by omega))) (ih (by omega))
  refine ⟨N, _, x', k, xs, r, p, h1, rfl, R, hstep, ?_, ?_⟩
  · have := hall N (le_refl N)
    rwa [R.last, R.first] at this
  · intro hN
    have a := hstep (N - 1) (by omega)
    have b := hall (N - 1) (by omega)
    rw [Nat.sub_add_cancel hN, R.last] at a
    rw [R.first] at b
    linarith

/-- The example system has two unknowns: two iterations suffice. -/
example (w : ℝ) : ∃ solver' x', (CgApi.cgpdStruct 1 2 3).call (fun _ _ => 7)
    ⟨3, 0, 1 / 1000, 0⟩ (exM w) ⟨3, fun i => if i = 0 then 1 else 0⟩ ⟨3, fun _ => 0⟩
      = .ok (0, solver', some x') ∧ solver'.its ≤ 2 ∧
    norm2 3 (fun i => op (exM w) x'.val i - if i = 0 then 1 else 0) < 1 / 1000 := by
  obtain ⟨N, s, y, k, xs, r, p, h1, h0, h2, h3, -⟩ := C13_finite
    (exM_fits w (fun i => if i = 0 then 1 else 0) fun _ => 0)
    (fun _ _ => 7) ⟨3, 0, 1 / 1000, 0⟩ (exM_spd w) (exM_diag w)
    (by intro i _ hI
        show (if i = 0 then (1 : ℝ) else 0) = 0
        rw [if_neg]; rintro rfl; simp at hI)
    (fun _ _ _ => rfl) (by norm_num) (by simp)
  have h2 : N ≤ 2 := by simpa using h2
  exact ⟨s, y, h1, by omega, h3⟩

/-- The energy after the solve is strictly lower: the solver makes at least one step. -/
example (w : ℝ) : ∃ solver' x', (CgApi.cgpdStruct 1 2 3).call (fun _ _ => 7)
    ⟨1, 0, 1 / 1000, 0⟩ (exM w) ⟨3, fun i => if i = 0 then 1 else 0⟩ ⟨3, fun _ => 0⟩
      = .ok (0, solver', some x') ∧
    (0 < solver'.its → energy 3 (op (exM w)) (fun i => if i = 0 then 1 else 0) x'.val
      < energy 3 (op (exM w)) (fun i => if i = 0 then 1 else 0) (fun _ => 0)) := by
  obtain ⟨N, s, y, k, xs, r, p, h1, h0, -, -, -, h3⟩ := C14_energy
    (exM_fits w (fun i => if i = 0 then 1 else 0) fun _ => 0)
    (fun _ _ => 7) ⟨1, 0, 1 / 1000, 0⟩ (exM_spd w) (exM_diag w)
    (by intro i _ hI
        show (if i = 0 then (1 : ℝ) else 0) = 0
        rw [if_neg]; rintro rfl; simp at hI)
    (fun _ _ _ => rfl) (by norm_num)
  exact ⟨s, y, h1, fun h => h3 (by omega)⟩

/-! ## C15 -/

/-- **C15.** Let the rows outside `I` be identity rows and let `b` and the start vector vanish
there.  Then every iterate, in particular the returned vector, vanishes there. -/
theorem C15_fixed {c : CgApi} {m : Ell ℝ} {b x : Buf ℝ} (h : c.Fits m b x)
    (junk : Nat → Nat → ℝ) (solver : EllSolver ℝ) {I : Finset Nat}
    (hfix : ∀ u i, i < m.nrow → i ∉ I → op m u i = u i) (hb : OnI m.nrow I b.val)
    (hx : OnI m.nrow I x.val) :
    ∃ N : Nat, ∃ solver' x' k xs r p,
      c.call junk solver m b x = .ok (0, solver', some x') ∧ solver'.its = (N : Int) ∧
      PcgRun m.nrow (op m) k b.val solver.maxIts solver.minTol x.val N x'.val solver'.err
        xs r p ∧
      (∀ j, j ≤ N → OnI m.nrow I (xs j)) ∧ OnI m.nrow I x'.val := by
  obtain ⟨N, x', err, k, xs, r, p, h1, h2, h3, R⟩ := CgApi.call_real h junk solver
  have hx0 : OnI m.nrow I (xs 0) := by rw [R.first]; exact hx
  have on := R.steps.onI hfix hx0 hb
  refine ⟨N, _, x', k, xs, r, p, h1, rfl, R, fun j hj => (on j hj).1, ?_⟩
  rw [← R.last]; exact (on N (le_refl N)).1

/-- The example system: the third row is an identity row. -/
example (w : ℝ) (f : Nat → ℝ) (hf : f 2 = 0) : ∃ solver' x',
    (CgApi.cgpdStruct 1 2 3).call (fun _ _ => 7) ⟨3, 0, 1 / 1000, 0⟩ (exM w) ⟨3, f⟩ ⟨3, fun _ => 0⟩
      = .ok (0, solver', some x') ∧ x'.val 2 = 0 := by
  obtain ⟨N, s, y, k, xs, r, p, h1, -, -, -, h2⟩ := C15_fixed (exM_fits w f fun _ => 0) (fun _ _ => 7)
    ⟨3, 0, 1 / 1000, 0⟩ (I := {0, 1}) (exM_spd w).fixed
    (by intro i hi hI
        have hi : i < 3 := hi
        have : i = 2 := by simp at hI; omega
        subst this; exact hf)
    (fun _ _ _ => rfl)
  exact ⟨s, y, h1, h2 2 (by show 2 < 3; omega) (by simp)⟩

/-- **C15, boundary columns are irrelevant.** Two matrices that agree on the vectors vanishing
outside `I` and in the diagonal slots (they may differ in the boundary columns of the interior
rows) give the same solver report and the same solution. -/
theorem C15_columns {c : CgApi} {m m' : Ell ℝ} {b x : Buf ℝ} (h : c.Fits m b x)
    (h' : c.Fits m' b x) (junk junk' : Nat → Nat → ℝ) (solver : EllSolver ℝ) {I : Finset Nat}
    (hfix : ∀ u i, i < m.nrow → i ∉ I → op m u i = u i) (hb : OnI m.nrow I b.val)
    (hx : OnI m.nrow I x.val)
    (hop : ∀ u, OnI m.nrow I u → ∀ i, i < m.nrow → op m u i = op m' u i)
    (hdiag : ∀ n d, n < c.nodes → d < c.fields →
      m.vals.val ((n * c.fields + d) * m.nnz + (c.slot * c.fields + d))
        = m'.vals.val ((n * c.fields + d) * m'.nnz + (c.slot * c.fields + d))) :
    ∃ solver' y y', c.call junk solver m b x = .ok (0, solver', some y) ∧
      c.call junk' solver m' b x = .ok (0, solver', some y') ∧
      ∀ i, i < m.nrow → y.val i = y'.val i := by
  obtain ⟨N, y, err, k, xs, r, p, h1, h2, h3, R⟩ := CgApi.call_real h junk solver
  obtain ⟨N', y', err', k', xs', r', p', h1', h2', h3', R'⟩ := CgApi.call_real h' junk' solver
  have hn : m'.nrow = m.nrow := by rw [← h.rows, ← h'.rows]
  rw [hn] at R'
  have hx0 : OnI m.nrow I (xs 0) := by rw [R.first]; exact hx
  have hk : ∀ i, i < m.nrow → k i = k' i := by
    intro i hi
    obtain ⟨n, d, a1, a2, a3⟩ := h.row hi
    rw [a3, h3 n d a1 a2, h3' n d a1 a2, hdiag n d a1 a2]
  have E := R.steps.congr R'.steps hfix (fun u v e => op_local h.wf e) hop
    (fun u v e i hi => op_local h'.wf (by rwa [hn]) i (by rwa [hn])) hk hx0 hb
    (fun i _ => by rw [R.first, R'.first])
  have En : ∀ j, j ≤ N → j ≤ N' → norm2 m.nrow (r j) = norm2 m.nrow (r' j) := by
    intro j a b
    unfold norm2
    rw [dot_congr (E j a b).2.1 (E j a b).2.1]
  have hN : N = N' := by
    have stop : ∀ (N N' : Nat) (r r' : Nat → Nat → ℝ) (err : ℝ),
        (∀ j, j ≤ N → j ≤ N' → norm2 m.nrow (r j) = norm2 m.nrow (r' j)) →
        ((norm2 m.nrow (r N) < solver.minTol ∧ err = norm2 m.nrow (r N) ∧
          (N = 0 ∨ (N : Int) < solver.maxIts)) ∨
          (1 ≤ N ∧ solver.maxIts ≤ (N : Int) ∧ err = norm2 m.nrow (r (N - 1)))) →
        (∀ j, j < N' → solver.minTol ≤ norm2 m.nrow (r' j)) → (N' : Int) ≤ max 1 solver.maxIts →
        N' ≤ N := by
      intro N N' r r' err e s n l
      by_contra hc
      rcases s with ⟨a, -, -⟩ | ⟨a1, a2, -⟩
      · have := n N (by omega)
        rw [← e N (le_refl N) (by omega)] at this
        linarith
      · rcases le_max_iff.mp l with l | l <;> omega
    apply le_antisymm
    · exact stop N' N r' r err' (fun j a b => (En j b a).symm) R'.stop R.notYet R.limit
    · exact stop N N' r r' err En R.stop R'.notYet R'.limit
  subst hN
  have hy : ∀ i, i < m.nrow → y.val i = y'.val i := by
    intro i hi
    rw [← R.last, ← R'.last]
    exact (E N (le_refl N) (le_refl N)).1 i hi
  have herr : err = err' := by
    have eN := En N (le_refl N) (le_refl N)
    rcases R.stop with ⟨a, e, f⟩ | ⟨a, e, f⟩
    · rcases R'.stop with ⟨-, e', -⟩ | ⟨a', e', -⟩
      · rw [e, e', eN]
      · rcases f with f | f <;> omega
    · rcases R'.stop with ⟨-, -, f'⟩ | ⟨a', e', f'⟩
      · rcases f' with f' | f' <;> omega
      · rw [f, f', En (N - 1) (by omega) (by omega)]
  subst herr
  exact ⟨_, y, y', h1, h1', hy⟩

/-- The entry `w` in the boundary column does not influence the example. -/
example (w : ℝ) (f : Nat → ℝ) (hf : f 2 = 0) : ∃ solver' y y',
    (CgApi.cgpdStruct 1 2 3).call (fun _ _ => 7) ⟨3, 0, 1 / 1000, 0⟩ (exM w) ⟨3, f⟩ ⟨3, fun _ => 0⟩
      = .ok (0, solver', some y) ∧
    (CgApi.cgpdStruct 1 2 3).call (fun _ _ => 8) ⟨3, 0, 1 / 1000, 0⟩ (exM 0) ⟨3, f⟩ ⟨3, fun _ => 0⟩
      = .ok (0, solver', some y') ∧ ∀ i, i < 3 → y.val i = y'.val i := by
  refine C15_columns (exM_fits w f fun _ => 0) (exM_fits 0 f fun _ => 0) (fun _ _ => 7) (fun _ _ => 8)
    ⟨3, 0, 1 / 1000, 0⟩ (I := {0, 1}) (exM_spd w).fixed ?_ (fun _ _ _ => rfl) ?_ ?_
  · intro i hi hI
    have hi : i < 3 := hi
    have : i = 2 := by simp at hI; omega
    subst this; exact hf
  · intro u hu i hi
    have a := hu 2 (show 2 < 3 by omega) (by decide)
    have hi : i < 3 := hi
    interval_cases i
    · rw [(exM_op w u).1, (exM_op 0 u).1, a]; ring
    · rw [(exM_op w u).2.1, (exM_op 0 u).2.1]
    · rw [(exM_op w u).2.2, (exM_op 0 u).2.2]
  · intro n d hn hd
    have hd : d < 1 := hd
    have hn : n < 3 := hn
    have hd : d = 0 := by omega
    subst hd
    interval_cases n <;> simp [exM, CgApi.slot, CgApi.fields]

/-! ## C16 -/

/-- **C16.** With a NULL matrix, right hand side or solution vector each of the three solvers
returns 1 and changes neither the solver record nor `x`. -/
theorem C16_null {α : Type} [Scalar α] (junk : Nat → Nat → α) (solver : EllSolver α)
    (m : Option (Ell α)) (b x : Option (Buf α)) (hnull : m = none ∨ b = none ∨ x = none)
    (nF nx ny dim nn : Nat) :
    ellSolveCgpd2D junk solver m nF nx ny b x = .ok (1, solver, x) ∧
    ellSolveCgpdStruct junk solver m nF dim nn b x = .ok (1, solver, x) ∧
    ellSolveJacobi2D junk solver m nF nx ny b x = .ok (1, solver, x) := by
  rcases m with _ | m <;> rcases b with _ | b <;> rcases x with _ | x <;>
    first
    | exact ⟨rfl, rfl, rfl⟩
    | (rcases hnull with h | h | h <;> cases h)

/-- **C16, non-NULL.** Whenever one of the three solvers returns with non-NULL arguments, it
returns 0 and a non-NULL `x`. -/
theorem C16_nonnull {α : Type} [Scalar α] (junk : Nat → Nat → α) (solver : EllSolver α)
    (m : Ell α) (b x : Buf α) (nF nx ny dim nn : Nat) (out : Int × EllSolver α × Option (Buf α))
    (h : ellSolveCgpd2D junk solver (some m) nF nx ny (some b) (some x) = .ok out ∨
      ellSolveCgpdStruct junk solver (some m) nF dim nn (some b) (some x) = .ok out ∨
      ellSolveJacobi2D junk solver (some m) nF nx ny (some b) (some x) = .ok out) :
    out.1 = 0 ∧ out.2.2 ≠ none := by
  rcases h with h | h | h
  · simp only [ellSolveCgpd2D] at h
    cases hr : cgSolve junk solver m nF (nx * ny) 4 b x with
    | error e => rw [hr] at h; cases h
    | ok r => rw [hr] at h; cases h; exact ⟨rfl, by simp⟩
  · simp only [ellSolveCgpdStruct] at h
    cases hr : cgSolve junk solver m nF (if dim = 2 ∨ dim = 3 then nn else 0)
      (if dim = 2 then 4 else 13) b x with
    | error e => rw [hr] at h; cases h
    | ok r => rw [hr] at h; cases h; exact ⟨rfl, by simp⟩
  · simp only [ellSolveJacobi2D] at h
    cases hd : diagLoop m nF (nx * ny) 4 ⟨m.nrow, junk 0⟩ with
    | error e => rw [hd] at h; cases h
    | ok k =>
      rw [hd, M_bind_ok'] at h
      cases hr : jacobiLoop m k b solver.minTol solver.maxIts.toNat 0 (junk 2 0) x
        ⟨m.nrow, junk 1⟩ with
      | error e => rw [hr] at h; cases h
      | ok r => rw [hr] at h; cases h; exact ⟨rfl, by simp⟩

/-- A matrix is given, but `x` is NULL. -/
example : ellSolveJacobi2D (fun _ _ => 3) ⟨10, 2, 1, 5⟩ (some (exM 1)) 1 3 1 (some ⟨3, fun _ => 1⟩)
    none = .ok (1, ⟨10, 2, 1, 5⟩, none) :=
  (C16_null (fun _ _ => 3) ⟨10, 2, 1, 5⟩ (some (exM 1)) (some ⟨3, fun _ => 1⟩) none
    (Or.inr (Or.inr rfl)) 1 3 1 2 3).2.2

/-! ## C17 -/

/-- The relaxation solver in exact arithmetic, and what its sweeps do. -/
theorem jacobi_run {m : Ell ℝ} (hm : m.WF) {b x : Buf ℝ} {nF nx ny W : Nat}
    (hW : m.nnz = W * nF) (h4 : 4 < W) (hrow : nx * ny * nF = m.nrow) (hb : b.size = m.nrow)
    (hx : x.size = m.nrow) (junk : Nat → Nat → ℝ) (solver : EllSolver ℝ) :
    ∃ (k : Nat → ℝ) (n : Nat) (X : Nat → Nat → ℝ) (err' : ℝ) (its' : Nat),
      (∀ a d, a < nx * ny → d < nF → k (a * nF + d)
        = 1 / m.vals.val ((a * nF + d) * m.nnz + (4 * nF + d))) ∧
      n ≤ solver.maxIts.toNat ∧ X 0 = x.val ∧
      (∀ j, j < n → X (j + 1) = accum m.nrow (gsStep m k b.val) (X j)) ∧
      (∀ j, j + 1 < n → solver.minTol ≤ norm2 m.nrow (fun i => op m (X (j + 1)) i - b.val i)) ∧
      (0 < solver.maxIts → 0 < n ∧ err' = norm2 m.nrow (fun i => op m (X n) i - b.val i)) ∧
      ((0 < n ∧ its' + 1 = n ∧ err' < solver.minTol) ∨
          (n = solver.maxIts.toNat ∧ its' = n ∧ (0 < n → solver.minTol ≤ err'))) ∧
      ellSolveJacobi2D junk solver (some m) nF nx ny (some b) (some x)
        = .ok (0, { solver with err := err', its := its' }, some ⟨m.nrow, X n⟩) := by
  obtain ⟨k, hk1, hk2, hk3⟩ := diagLoop_eq (k := ⟨m.nrow, junk 0⟩) hW h4 (le_of_eq hrow)
    hm.vals_size rfl
  obtain ⟨n, X, err', its', a1, a2, a3, a4, -, a6, a7, a8⟩ := jacobiLoop_eq hm hk2 hb solver.minTol
    solver.maxIts.toNat 0 (junk 2 0) x ⟨m.nrow, junk 1⟩ hx rfl
  refine ⟨k.val, n, X, err', its', ?_, a1, a2, a3, ?_, ?_, ?_, ?_⟩
  · intro a d ha hd
    rw [hk3 a d ha hd, hW, slotIx_eq_row]
  · intro j hj
    have := a4 j hj
    rw [resErr_real] at this
    simpa using this
  · intro h
    have := a6 (by omega)
    rw [resErr_real] at this
    exact this
  · rcases a7 with ⟨b1, b2, b3⟩ | ⟨b1, b2, b3⟩
    · exact Or.inl ⟨b1, by omega, by simpa using b3⟩
    · exact Or.inr ⟨b1, by omega, fun h => by simpa using b3 h⟩
  · simp only [ellSolveJacobi2D]
    rw [hk1, M_bind_ok', a8]
    rfl

/-- **C17, report.** With `max_its > 0` the relaxation solver always reports the norm of the true
residual of the returned vector; it reports fewer than `max_its` sweeps exactly if that norm is
below the tolerance.  No property of the matrix is needed. -/
theorem C17_truthful {m : Ell ℝ} (hm : m.WF) {b x : Buf ℝ} {nF nx ny W : Nat}
    (hW : m.nnz = W * nF) (h4 : 4 < W) (hrow : nx * ny * nF = m.nrow) (hb : b.size = m.nrow)
    (hx : x.size = m.nrow) (junk : Nat → Nat → ℝ) (solver : EllSolver ℝ)
    (hmax : 0 < solver.maxIts) :
    ∃ solver' x', ellSolveJacobi2D junk solver (some m) nF nx ny (some b) (some x)
        = .ok (0, solver', some x') ∧
      solver'.err = norm2 m.nrow (fun i => op m x'.val i - b.val i) ∧
      (solver'.its : Int) ≤ solver.maxIts ∧
      ((solver'.its : Int) < solver.maxIts ↔ solver'.err < solver.minTol) := by
  obtain ⟨k, n, X, err', its', -, h2, -, -, -, h6, h7, h8⟩ := jacobi_run hm hW h4 hrow hb hx junk
    solver
  refine ⟨_, _, h8, (h6 hmax).2, ?_, ?_⟩
  · show (its' : Int) ≤ _
    omega
  · show (its' : Int) < _ ↔ err' < _
    rcases h7 with ⟨b1, b2, b3⟩ | ⟨b1, b2, b3⟩
    · exact ⟨fun _ => b3, fun _ => by omega⟩
    · constructor
      · intro h; omega
      · intro h
        have := b3 (h6 hmax).1
        linarith

/-- **C17, fixed points.** If the diagonal slot holds a non-zero diagonal and `x` solves the
system, the solver returns `x` unchanged; with `min_tol > 0` and `max_its > 0` it reports
convergence in the first sweep with error 0. -/
theorem C17_fixed_point {m : Ell ℝ} (hm : m.WF) {b x : Buf ℝ} {nF nx ny W : Nat}
    (hW : m.nnz = W * nF) (h4 : 4 < W) (hrow : nx * ny * nF = m.nrow) (hb : b.size = m.nrow)
    (hx : x.size = m.nrow) (junk : Nat → Nat → ℝ) (solver : EllSolver ℝ)
    (hdiag : DiagSlot m nF (nx * ny) 4) (hne : ∀ i, i < m.nrow → op m (unit i) i ≠ 0)
    (hsol : ∀ i, i < m.nrow → op m x.val i = b.val i) :
    ∃ solver', ellSolveJacobi2D junk solver (some m) nF nx ny (some b) (some x)
        = .ok (0, solver', some x) ∧
      (0 < solver.minTol → 0 < solver.maxIts → solver'.its = 0 ∧ solver'.err = 0) := by
  obtain ⟨k, n, X, err', its', h1, h2, h3, h4', h5, h6, h7, h8⟩ := jacobi_run hm hW h4 hrow hb hx
    junk solver
  have hk : ∀ i, i < m.nrow → k i = 1 / op m (unit i) i := by
    intro i hi
    rw [← hrow] at hi
    have h0 : 0 < nF := by
      rcases Nat.eq_zero_or_pos nF with h | h
      · simp [h] at hi
      · exact h
    have e : i = i / nF * nF + i % nF := by rw [Nat.mul_comm]; exact (Nat.div_add_mod i nF).symm
    have a := Nat.div_lt_of_lt_mul (by rwa [Nat.mul_comm] : i < nF * (nx * ny))
    have c := Nat.mod_lt i h0
    have := h1 _ _ a c
    rw [hdiag _ _ a c, ← e] at this
    exact this
  have hX : ∀ j, j ≤ n → X j = x.val := by
    intro j
    induction j with
    | zero => intro _; exact h3
    | succ j ih =>
      intro hj
      rw [h4' j (by omega), ih (by omega)]
      exact gsSweep_fix hm hk hne hsol _ le_rfl
  have hxn : (⟨m.nrow, X n⟩ : Buf ℝ) = x := by rw [hX n (le_refl n), ← hx]
  refine ⟨_, by rw [h8, hxn], ?_⟩
  intro ht hmx
  have herr : ∀ j, j ≤ n → norm2 m.nrow (fun i => op m (X j) i - b.val i) = 0 := by
    intro j hj
    unfold norm2 dot
    rw [hX j hj, sum_eq_zero (fun i hi => by
      show (op m x.val i - b.val i) * (op m x.val i - b.val i) = 0
      rw [hsol i (mem_range.mp hi)]; ring), Real.sqrt_zero]
  have he := (h6 hmx).2
  rw [herr n (le_refl n)] at he
  refine ⟨?_, he⟩
  show (its' : Int) = 0
  rcases h7 with ⟨b1, b2, b3⟩ | ⟨b1, b2, b3⟩
  · by_contra hc
    have := h5 (n - 2) (by omega)
    rw [herr _ (by omega)] at this
    linarith
  · have := b3 (h6 hmx).1
    rw [he] at this
    linarith

/-- **C17, energy.** On a symmetric matrix with positive diagonal (in particular a symmetric
positive definite one) no sweep increases the energy functional; so the returned vector has at
most the energy of the given one, for every iteration limit. -/
theorem C17_energy {m : Ell ℝ} (hm : m.WF) {b x : Buf ℝ} {nF nx ny W : Nat}
    (hW : m.nnz = W * nF) (h4 : 4 < W) (hrow : nx * ny * nF = m.nrow) (hb : b.size = m.nrow)
    (hx : x.size = m.nrow) (junk : Nat → Nat → ℝ) (solver : EllSolver ℝ)
    (hdiag : DiagSlot m nF (nx * ny) 4) (hpos : ∀ i, i < m.nrow → 0 < op m (unit i) i)
    (hsym : ∀ u v, dot m.nrow u (op m v) = dot m.nrow (op m u) v) :
    ∃ solver' x', ellSolveJacobi2D junk solver (some m) nF nx ny (some b) (some x)
        = .ok (0, solver', some x') ∧
      energy m.nrow (op m) b.val x'.val ≤ energy m.nrow (op m) b.val x.val := by
  obtain ⟨k, n, X, err', its', h1, h2, h3, h4', h5, h6, h7, h8⟩ := jacobi_run hm hW h4 hrow hb hx
    junk solver
  have hk : ∀ i, i < m.nrow → k i = 1 / op m (unit i) i := by
    intro i hi
    rw [← hrow] at hi
    have h0 : 0 < nF := by
      rcases Nat.eq_zero_or_pos nF with h | h
      · simp [h] at hi
      · exact h
    have e : i = i / nF * nF + i % nF := by rw [Nat.mul_comm]; exact (Nat.div_add_mod i nF).symm
    have a := Nat.div_lt_of_lt_mul (by rwa [Nat.mul_comm] : i < nF * (nx * ny))
    have c := Nat.mod_lt i h0
    have := h1 _ _ a c
    rw [hdiag _ _ a c, ← e] at this
    exact this
  refine ⟨_, _, h8, ?_⟩
  have : ∀ j, j ≤ n → energy m.nrow (op m) b.val (X j) ≤ energy m.nrow (op m) b.val x.val := by
    intro j
    induction j with
    | zero => intro _; rw [h3]
    | succ j ih =>
      intro hj
      rw [h4' j (by omega)]
      exact le_trans (gsSweep_energy hm hk hpos hsym _ _ le_rfl) (ih (by omega))
  exact this n (le_refl n)

/-- The example matrix with `w = 0`, right hand side `(3, 3, 1)`: the solution `(1, 1, 1)` is kept. -/
example : ∃ solver', ellSolveJacobi2D (fun _ _ => 9) ⟨10, 0, 1 / 10, 0⟩ (some (exM 0)) 1 3 1
      (some ⟨3, fun i => if i = 2 then 1 else 3⟩) (some ⟨3, fun _ => 1⟩)
        = .ok (0, solver', some ⟨3, fun _ => 1⟩) ∧ solver'.its = 0 ∧ solver'.err = 0 := by
  have hop : ∀ i, i < 3 → op (exM 0) (fun _ => 1) i = if i = 2 then 1 else 3 := by
    intro i hi
    interval_cases i
    · rw [(exM_op 0 _).1]; norm_num
    · rw [(exM_op 0 _).2.1]; norm_num
    · rw [(exM_op 0 _).2.2]; norm_num
  have hne : ∀ i, i < 3 → op (exM 0) (unit i) i ≠ 0 := by
    intro i hi
    interval_cases i
    · rw [(exM_op 0 _).1]; simp [unit]
    · rw [(exM_op 0 _).2.1]; simp [unit]
    · rw [(exM_op 0 _).2.2]; simp [unit]
  obtain ⟨s, h1, h2⟩ := C17_fixed_point (exM_wf 0) (b := ⟨3, fun i => if i = 2 then 1 else 3⟩)
    (x := ⟨3, fun _ => 1⟩) (nF := 1) (nx := 3) (ny := 1) (W := 9) rfl (by omega) rfl rfl rfl
    (fun _ _ => 9) ⟨10, 0, 1 / 10, 0⟩ (exM_diag 0) hne hop
  exact ⟨s, h1, h2 (by norm_num) (by norm_num)⟩

/-- The example matrix with `w = 0` meets the hypotheses of C17_truthful and C17_energy. -/
example (f g : Nat → ℝ) : ∃ solver' x', ellSolveJacobi2D (fun _ _ => 9) ⟨10, 0, 1 / 10, 0⟩
      (some (exM 0)) 1 3 1 (some ⟨3, f⟩) (some ⟨3, g⟩) = .ok (0, solver', some x') ∧
    solver'.err = norm2 3 (fun i => op (exM 0) x'.val i - f i) ∧
    energy 3 (op (exM 0)) f x'.val ≤ energy 3 (op (exM 0)) f g := by
  obtain ⟨s, y, h1, h2, -⟩ := C17_truthful (exM_wf 0) (b := ⟨3, f⟩)
    (x := ⟨3, g⟩) (nF := 1) (nx := 3) (ny := 1) (W := 9) rfl (by omega) rfl rfl rfl
    (fun _ _ => 9) ⟨10, 0, 1 / 10, 0⟩ (by norm_num)
  obtain ⟨s', y', h1', h2'⟩ := C17_energy (exM_wf 0) (b := ⟨3, f⟩)
    (x := ⟨3, g⟩) (nF := 1) (nx := 3) (ny := 1) (W := 9) rfl (by omega) rfl rfl rfl
    (fun _ _ => 9) ⟨10, 0, 1 / 10, 0⟩ (exM_diag 0) (by
      intro i hi
      have hi : i < 3 := hi
      interval_cases i
      · rw [(exM_op 0 _).1]; simp [unit]
      · rw [(exM_op 0 _).2.1]; simp [unit]
      · rw [(exM_op 0 _).2.2]; simp [unit]) (by
      intro u v
      have h := exM_op 0
      show dot 3 _ _ = dot 3 _ _
      simp only [dot, sum_range_succ, range_zero, sum_empty, (h u).1, (h u).2.1, (h u).2.2, (h v).1,
        (h v).2.1, (h v).2.2]
      ring)
  rw [h1] at h1'
  cases h1'
  exact ⟨s, y, h1, h2, h2'⟩

end Verif.Props
