import Verif.Lemmas.CgLoops
import Verif.Lemmas.Pcg
import Verif.Spec.Operator
import Verif.Lemmas.EllPattern

/-! # Runs of the CG solvers -/

namespace Verif
open Spec Finset

section generic
variable {α : Type} [Scalar α]

/-- The norm tested at the head of the loop. -/
def errOf (m : Ell α) (s : CgState α) : α := Scalar.sqrt (dotA m.nrow s.r.val s.r.val)

/-- A run of the CG loop from `s`: `N` steps through the states `S 0, …, S N`. -/
structure CgTrace (m : Ell α) (k : Nat → α) (maxIts : Int) (tol : α) (s : CgState α) (N : Nat)
    (S : Nat → CgState α) (sF : CgState α) : Prop where
  start : S 0 = s
  wf : ∀ i, i ≤ N → (S i).WF m.nrow
  step : ∀ i, i < N → CgStep m k (S i) (S (i + 1)) (errOf m (S i))
  notYet : ∀ i, i < N → Scalar.lt (errOf m (S i)) tol = false
  cont : ∀ i, i + 1 < N → (s.its : Int) + i + 1 < maxIts
  stop : (Scalar.lt (errOf m (S N)) tol = true ∧ (N = 0 ∨ (s.its : Int) + N < maxIts) ∧
      sF = { S N with err := errOf m (S N) }) ∨
    (1 ≤ N ∧ maxIts ≤ (s.its : Int) + N ∧ sF = S N)

theorem cgLoop_trace {m : Ell α} (hm : m.WF) {k : Buf α} (hk : k.size = m.nrow) (maxIts : Int)
    (tol : α) : ∀ (f : Nat) (s : CgState α), (maxIts - s.its).toNat ≤ f → s.WF m.nrow →
      ∃ N S sF, CgTrace m k.val maxIts tol s N S sF ∧ cgLoop m k maxIts tol s = .ok sF := by
  intro f
  induction f with
  | zero =>
    intro s hf hs
    have hE : cgErr m s = .ok (errOf m s) := cgErr_eq hs
    rw [cgLoop, hE, M_bind_ok']
    by_cases hlt : Scalar.lt (errOf m s) tol = true
    · refine ⟨0, fun _ => s, _, ⟨rfl, fun _ _ => hs, by omega, by omega, by omega,
        Or.inl ⟨hlt, Or.inl rfl, rfl⟩⟩, ?_⟩
      rw [if_pos hlt]; rfl
    · obtain ⟨s', h1, h2⟩ := cgBody_spec hm hk hs (errOf m s)
      have hf' : Scalar.lt (errOf m s) tol = false := by simpa using hlt
      refine ⟨1, fun i => if i = 0 then s else s', s', ⟨rfl, ?_, ?_, ?_, by omega,
        Or.inr ⟨le_refl 1, by simp only [Nat.cast_one]; omega, rfl⟩⟩, ?_⟩
      · intro i hi; rcases i with _ | i
        · exact hs
        · exact h2.wf
      · intro i hi; have : i = 0 := by omega
        subst this; exact h2
      · intro i hi; have : i = 0 := by omega
        subst this; exact hf'
      · rw [if_neg hlt]
        change (cgBody m k s (errOf m s)).bind _ = _
        rw [h1, M_bind_ok, dif_neg (by omega)]
        rfl
  | succ f ih =>
    intro s hf hs
    have hE : cgErr m s = .ok (errOf m s) := cgErr_eq hs
    rw [cgLoop, hE, M_bind_ok']
    by_cases hlt : Scalar.lt (errOf m s) tol = true
    · refine ⟨0, fun _ => s, _, ⟨rfl, fun _ _ => hs, by omega, by omega, by omega,
        Or.inl ⟨hlt, Or.inl rfl, rfl⟩⟩, ?_⟩
      rw [if_pos hlt]; rfl
    · obtain ⟨s', h1, h2⟩ := cgBody_spec hm hk hs (errOf m s)
      have hf' : Scalar.lt (errOf m s) tol = false := by simpa using hlt
      rw [if_neg hlt]
      by_cases hc : (s.its : Int) + 1 < maxIts
      · have es : { s' with its := s.its + 1 } = s' := by
          have := h2.its
          cases s'; simp only at this; subst this; rfl
        obtain ⟨N, S, sF, T, hF⟩ := ih s' (by rw [h2.its]; omega) h2.wf
        refine ⟨N + 1, fun i => if i = 0 then s else S (i - 1), sF, ⟨rfl, ?_, ?_, ?_, ?_, ?_⟩, ?_⟩
        · intro i hi; rcases i with _ | i
          · exact hs
          · simpa using T.wf i (by omega)
        · intro i hi; rcases i with _ | i
          · simpa [T.start] using h2
          · simpa using T.step i (by omega)
        · intro i hi; rcases i with _ | i
          · exact hf'
          · simpa using T.notYet i (by omega)
        · intro i hi; rcases i with _ | i
          · simpa using hc
          · have := T.cont i (by omega)
            rw [h2.its] at this
            push_cast at this ⊢; omega
        · have e := h2.its
          rcases T.stop with ⟨a, b, c⟩ | ⟨a, b, c⟩
          · refine Or.inl ⟨by simpa using a, Or.inr ?_, by simpa using c⟩
            rcases b with b | b
            · subst b; simpa using hc
            · rw [e] at b; push_cast at b ⊢; omega
          · refine Or.inr ⟨by omega, ?_, by simpa using c⟩
            rw [e] at b; push_cast at b ⊢; omega
        · change (cgBody m k s (errOf m s)).bind _ = _
          rw [h1, M_bind_ok, dif_pos hc, es, hF]
      · refine ⟨1, fun i => if i = 0 then s else s', s', ⟨rfl, ?_, ?_, ?_, by omega,
          Or.inr ⟨le_refl 1, by simp only [Nat.cast_one]; omega, rfl⟩⟩, ?_⟩
        · intro i hi; rcases i with _ | i
          · exact hs
          · exact h2.wf
        · intro i hi; have : i = 0 := by omega
          subst this; exact h2
        · intro i hi; have : i = 0 := by omega
          subst this; exact hf'
        · change (cgBody m k s (errOf m s)).bind _ = _
          rw [h1, M_bind_ok, dif_neg hc]
          rfl

theorem CgTrace.its {m : Ell α} {k : Nat → α} {maxIts : Int} {tol : α} {s sF : CgState α} {N : Nat}
    {S : Nat → CgState α} (T : CgTrace m k maxIts tol s N S sF) :
    ∀ i, i ≤ N → (S i).its = s.its + i := by
  intro i
  induction i with
  | zero => intro _; rw [T.start]; rfl
  | succ i ih => intro hi; rw [(T.step i (by omega)).its, ih (by omega)]; rfl

/-- The diagonal preconditioner: entry of row `(n, d)`. -/
theorem diagLoop_eq {m : Ell α} {nF W nn slot : Nat} (hnnz : m.nnz = W * nF) (hslot : slot < W)
    (hs : nn * nF ≤ m.nrow) (hv : m.vals.size = m.nnz * m.nrow) {k : Buf α}
    (hk : k.size = m.nrow) :
    ∃ k' : Buf α, diagLoop m nF nn slot k = .ok k' ∧ k'.size = m.nrow ∧
      ∀ n d, n < nn → d < nF → k'.val (n * nF + d) = 1 / m.vals.val (slotIx nF W n d slot d) := by
  unfold diagLoop
  have H : SetTo m.nrow (fun r => (1 : α) / m.vals.val (slotIx nF W (r / nF) (r % nF) slot (r % nF)))
      (fun q => ∃ i, i < nn ∧ ∃ d, d < nF ∧ q = i * nF + d)
      (loop nn (fun i k => loop nF (fun d k => do
        let a ← m.vals.read (i * nF * m.nnz + slot * nF + d * m.nnz + d)
        k.write (i * nF + d) (1 / a)) k)) := by
    refine SetTo.loop fun i hi => SetTo.loop fun d hd => ?_
    have hlt : i * nF + d < m.nrow := lt_of_lt_of_le (mul_add_lt hi hd) hs
    rw [hnnz, ix_form_diag, Buf.read_ok]
    · simp only [M_bind_ok']
      refine SetTo.write hlt ?_
      rw [mul_add_div' hd, mul_add_mod' hd]
    · rw [hv, hnnz, ← slotIx_eq_row]
      have := row_lt (nnz := W * nF) hlt (mul_add_lt hslot hd)
      exact this
  obtain ⟨k', h1, h2, h3, -⟩ := H k hk
  refine ⟨k', h1, h2, fun n d hn hd => ?_⟩
  rw [h3 _ ⟨n, hn, d, hd, rfl⟩]
  show (1 : α) / m.vals.val (slotIx nF W ((n * nF + d) / nF) ((n * nF + d) % nF) slot
    ((n * nF + d) % nF)) = _
  rw [mul_add_div' hd, mul_add_mod' hd]

/-- Complete description of a CG solve. -/
theorem cgSolve_trace {m : Ell α} (hm : m.WF) {nF W nn slot : Nat} (hnnz : m.nnz = W * nF)
    (hslot : slot < W) (hnn : nn * nF ≤ m.nrow) {b x : Buf α} (hb : b.size = m.nrow)
    (hx : x.size = m.nrow) (junk : Nat → Nat → α) (solver : EllSolver α) :
    ∃ (k : Buf α) (s : CgState α) (N : Nat) (S : Nat → CgState α) (sF : CgState α),
      (∀ n d, n < nn → d < nF → k.val (n * nF + d) = 1 / m.vals.val (slotIx nF W n d slot d)) ∧
      s.its = 0 ∧ s.x = x ∧ (∀ i, i < m.nrow → s.r.val i = rowAcc m x.val i - b.val i) ∧
      CgTrace m k.val solver.maxIts solver.minTol s N S sF ∧
      cgSolve junk solver m nF nn slot b x
        = .ok ({ solver with err := sF.err, its := N }, (S N).x) := by
  obtain ⟨k, hk1, hk2, hk3⟩ := diagLoop_eq (k := ⟨m.nrow, junk 0⟩) hnnz hslot hnn hm.vals_size rfl
  unfold cgSolve
  simp only
  rw [hk1, M_bind_ok', ellMvp2D_eq hm hx rfl, M_bind_ok', subLoop_eq hb rfl, M_bind_ok']
  obtain ⟨N, S, sF, T, hF⟩ := cgLoop_trace hm hk2 solver.maxIts solver.minTol _
    { its := 0, x := x,
      r := ⟨m.nrow, fun i => if i < m.nrow then
        (if i < m.nrow then rowAcc m x.val i else junk 1 i) - b.val i
        else (if i < m.nrow then rowAcc m x.val i else junk 1 i)⟩,
      z := ⟨m.nrow, junk 2⟩, p := ⟨m.nrow, junk 3⟩, q := ⟨m.nrow, junk 4⟩,
      rho0 := junk 5 0, err := junk 5 1 } (le_refl _) ⟨hx, rfl, rfl, rfl, rfl⟩
  refine ⟨k, _, N, S, sF, hk3, rfl, rfl, ?_, T, ?_⟩
  · intro i hi; simp [hi]
  · have hN := T.its N (le_refl N)
    simp only [Nat.zero_add] at hN
    rw [hF, M_bind_ok']
    show Except.ok _ = Except.ok _
    rcases T.stop with ⟨-, -, c⟩ | ⟨-, -, c⟩ <;> rw [c] <;> simp [hN]

end generic

/-! ## Exact arithmetic -/

theorem op_local {m : Ell ℝ} (hm : m.WF) {u v : Nat → ℝ} (h : ∀ i, i < m.nrow → u i = v i) :
    ∀ i, i < m.nrow → op m u i = op m v i := by
  intro i hi
  unfold op
  refine sum_congr rfl fun t ht => ?_
  have := hm.cols_range _ (row_lt hi (mem_range.mp ht))
  rw [h _ (by omega)]

theorem op_lin (m : Ell ℝ) (u v : Nat → ℝ) (c : ℝ) (i : Nat) :
    op m (fun j => u j + c * v j) i = op m u i + c * op m v i := by
  unfold op
  rw [mul_sum, ← sum_add_distrib]
  exact sum_congr rfl fun t _ => by ring

theorem errOf_real (m : Ell ℝ) (s : CgState ℝ) : errOf m s = norm2 m.nrow s.r.val := by
  unfold errOf norm2 dot
  rw [dotA_real]; rfl

/-- A run in exact arithmetic consists of the textbook recurrences. -/
theorem CgTrace.pcg {m : Ell ℝ} {k b : Nat → ℝ} {maxIts : Int} {tol : ℝ}
    {s sF : CgState ℝ} {N : Nat} {S : Nat → CgState ℝ} (T : CgTrace m k maxIts tol s N S sF)
    (h0 : s.its = 0) (hr : ∀ i, i < m.nrow → s.r.val i = rowAcc m s.x.val i - b i) :
    Pcg m.nrow (op m) k b N (fun j => (S j).x.val) (fun j => (S j).r.val)
      (fun j => (S (j + 1)).p.val) := by
  have hrho : ∀ j, j < N → (S (j + 1)).rho0 = rho m.nrow k (S j).r.val := by
    intro j hj
    rw [(T.step j hj).rho, dotA_real]
    unfold rho dot
    refine sum_congr rfl fun i hi => ?_
    rw [(T.step j hj).z i (mem_range.mp hi)]
  have hq : ∀ j, j < N → ∀ i, i < m.nrow → (S (j + 1)).q.val i = op m (S (j + 1)).p.val i := by
    intro j hj i hi
    rw [(T.step j hj).q i hi, rowAcc_real]; rfl
  have haux : ∀ j, j < N → dotA m.nrow (S (j + 1)).p.val (S (j + 1)).q.val
      = dot m.nrow (S (j + 1)).p.val (op m (S (j + 1)).p.val) := by
    intro j hj
    rw [dotA_real]
    unfold dot
    refine sum_congr rfl fun i hi => ?_
    rw [hq j hj i (mem_range.mp hi)]
  refine ⟨?_, ?_, ?_, ?_, ?_⟩
  · intro i hi
    simp only [T.start]
    rw [hr i hi, rowAcc_real]; rfl
  · intro hN i hi
    have := (T.step 0 hN).p i hi
    rw [T.start, h0, if_pos rfl, (T.step 0 hN).z i hi, T.start] at this
    simpa [T.start] using this
  · intro j hj i hi
    have hits := T.its (j + 1) (by omega)
    have := (T.step (j + 1) hj).p i hi
    rw [if_neg (by omega), (T.step (j + 1) hj).z i hi, hrho (j + 1) hj, hrho j (by omega)] at this
    exact this
  · intro j hj i hi
    have := (T.step j hj).x i hi
    rw [hrho j hj, haux j hj] at this
    exact this
  · intro j hj i hi
    have := (T.step j hj).r i hi
    rw [hrho j hj, haux j hj, hq j hj i hi] at this
    exact this

/-- A CG solve in exact arithmetic. -/
theorem cgSolve_real {m : Ell ℝ} (hm : m.WF) {nF W nn slot : Nat} (hnnz : m.nnz = W * nF)
    (hslot : slot < W) (hnn : nn * nF ≤ m.nrow) {b x : Buf ℝ} (hb : b.size = m.nrow)
    (hx : x.size = m.nrow) (junk : Nat → Nat → ℝ) (solver : EllSolver ℝ) :
    ∃ (N : Nat) (x' : Buf ℝ) (err : ℝ) (k : Nat → ℝ) (xs r p : Nat → Nat → ℝ),
      cgSolve junk solver m nF nn slot b x = .ok ({ solver with err := err, its := N }, x') ∧
      x'.size = m.nrow ∧
      (∀ n d, n < nn → d < nF → k (n * nF + d) = 1 / m.vals.val (slotIx nF W n d slot d)) ∧
      PcgRun m.nrow (op m) k b.val solver.maxIts solver.minTol x.val N x'.val err xs r p := by
  obtain ⟨k, s, N, S, sF, hk, h0, hsx, hr, T, hF⟩ :=
    cgSolve_trace hm hnnz hslot hnn hb hx junk solver
  refine ⟨N, (S N).x, sF.err, k.val, _, _, _, hF, (T.wf N (le_refl N)).x, hk,
    T.pcg h0 (b := b.val) (by rw [hsx]; exact hr), by rw [T.start, hsx], rfl, ?_, ?_, ?_⟩
  · intro j hj
    have := T.notYet j hj
    rw [errOf_real] at this
    simpa [Scalar.lt] using this
  · rcases Nat.lt_or_ge N 2 with h | h
    · omega
    · have := T.cont (N - 2) (by omega)
      rw [h0] at this
      push_cast [Nat.cast_sub h] at this
      omega
  · rcases T.stop with ⟨a, b, c⟩ | ⟨a, b, c⟩
    · left
      rw [errOf_real] at a
      refine ⟨by simpa [Scalar.lt] using a, by rw [c]; exact errOf_real m _, ?_⟩
      rw [h0] at b; simpa using b
    · right
      refine ⟨a, by rw [h0] at b; simpa using b, ?_⟩
      have := (T.step (N - 1) (by omega)).err
      rw [Nat.sub_add_cancel a] at this
      rw [c, this, errOf_real]

/-- The iterates depend on the operator only through vectors supported on `I`. -/
theorem Spec.Pcg.congr {n : Nat} {I : Finset Nat} {A A' : (Nat → ℝ) → Nat → ℝ} {k k' b : Nat → ℝ}
    {N N' : Nat} {x r p x' r' p' : Nat → Nat → ℝ} (h : Pcg n A k b N x r p)
    (h' : Pcg n A' k' b N' x' r' p')
    (hfix : ∀ u i, i < n → i ∉ I → A u i = u i)
    (hloc : ∀ u v, (∀ i, i < n → u i = v i) → ∀ i, i < n → A u i = A v i)
    (hA : ∀ u, OnI n I u → ∀ i, i < n → A u i = A' u i)
    (hloc' : ∀ u v, (∀ i, i < n → u i = v i) → ∀ i, i < n → A' u i = A' v i)
    (hk : ∀ i, i < n → k i = k' i) (hx0 : OnI n I (x 0)) (hb : OnI n I b)
    (h0 : ∀ i, i < n → x 0 i = x' 0 i) :
    ∀ j, j ≤ N → j ≤ N' → (∀ i, i < n → x j i = x' j i) ∧ (∀ i, i < n → r j i = r' j i) ∧
      (j < N → j < N' → ∀ i, i < n → p j i = p' j i) := by
  have on := h.onI hfix hx0 hb
  have rhoC : ∀ u v, (∀ i, i < n → u i = v i) → rho n k u = rho n k' v := fun u v huv =>
    dot_congr huv fun i hi => by rw [hk i hi, huv i hi]
  have AC : ∀ u v, OnI n I u → (∀ i, i < n → u i = v i) → ∀ i, i < n → A u i = A' v i :=
    fun u v hu huv i hi => by rw [hA u hu i hi]; exact hloc' u v huv i hi
  intro j
  induction j with
  | zero =>
    intro _ _
    have hr : ∀ i, i < n → r 0 i = r' 0 i := fun i hi => by
      rw [h.r0 i hi, h'.r0 i hi, AC _ _ hx0 h0 i hi]
    exact ⟨h0, hr, fun a b i hi => by rw [h.p0 a i hi, h'.p0 b i hi, hr i hi, hk i hi]⟩
  | succ j ih =>
    intro hj hj'
    obtain ⟨e1, e2, e3⟩ := ih (by omega) (by omega)
    have e3 := e3 (by omega) (by omega)
    have hp := (on j (by omega)).2.2 (by omega)
    have hd : dot n (p j) (A (p j)) = dot n (p' j) (A' (p' j)) := dot_congr e3 (AC _ _ hp e3)
    have hr : ∀ i, i < n → r (j + 1) i = r' (j + 1) i := fun i hi => by
      rw [h.rS j (by omega) i hi, h'.rS j (by omega) i hi, hd, rhoC _ _ e2, e2 i hi,
        AC _ _ hp e3 i hi]
    refine ⟨fun i hi => ?_, hr, fun a b i hi => ?_⟩
    · rw [h.xS j (by omega) i hi, h'.xS j (by omega) i hi, hd, rhoC _ _ e2, e1 i hi, e3 i hi]
    · rw [h.pS j a i hi, h'.pS j b i hi, rhoC _ _ hr, rhoC _ _ e2, hr i hi, hk i hi, e3 i hi]

end Verif
