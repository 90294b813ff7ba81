import Verif.Lemmas.CgRun

/-! # The relaxation solver -/

namespace Verif
open Spec Finset

section generic
variable {α : Type} [Scalar α]

/-- The sum over the slots of row `i` whose column is not `i`. -/
def offAcc (m : Ell α) (x : Nat → α) (i t : Nat) : α :=
  accum t (fun j s => if m.cols.val (i * m.nnz + j) ≠ (i : Int) then
    s + m.vals.val (i * m.nnz + j) * x (m.cols.val (i * m.nnz + j)).toNat else s) 0

theorem jacobiRow_eq {m : Ell α} (hm : m.WF) {x : Buf α} (hx : x.size = m.nrow) {i : Nat}
    (hi : i < m.nrow) : ∀ t j, j + t = m.nnz →
      jacobiRow m i x t j (offAcc m x.val i j) = .ok (offAcc m x.val i m.nnz) := by
  intro t
  induction t with
  | zero => intro j hj; simp only [Nat.add_zero] at hj; subst hj; rfl
  | succ t ih =>
    intro j hj
    have hlt : i * m.nnz + j < m.nnz * m.nrow := row_lt hi (by omega)
    have hr := hm.cols_range _ hlt
    rw [jacobiRow, Buf.read_ok (by rw [hm.cols_size]; exact hlt), M_bind_ok', if_neg (by omega)]
    have : ifRun (m.cols.val (i * m.nnz + j) ≠ (i : Int)) (fun aux => do
          let a ← m.vals.read (i * m.nnz + j)
          let xc ← x.readI (m.cols.val (i * m.nnz + j))
          pure (aux + a * xc)) (offAcc m x.val i j) = .ok (offAcc m x.val i (j + 1)) := by
      unfold ifRun
      by_cases hc : m.cols.val (i * m.nnz + j) ≠ (i : Int)
      · rw [if_pos hc]
        simp only
        rw [Buf.read_ok (by rw [hm.vals_size]; exact hlt), M_bind_ok',
          Buf.readI_ok hr.1 (by rw [hx]; exact hr.2), M_bind_ok']
        show Except.ok _ = Except.ok _
        unfold offAcc
        rw [accum, if_pos hc]
      · rw [if_neg hc]
        unfold offAcc
        rw [accum, if_neg hc]
    rw [this, M_bind_ok']
    exact ih (j + 1) (by omega)

/-- The update of component `i`. -/
def gsStep (m : Ell α) (k b : Nat → α) (i : Nat) (x : Nat → α) : Nat → α :=
  fun j => if j = i then k i * (-1 * offAcc m x i m.nnz + b i) else x j

theorem jacobiSweep_eq {m : Ell α} (hm : m.WF) {k b x : Buf α} (hk : k.size = m.nrow)
    (hb : b.size = m.nrow) (hx : x.size = m.nrow) :
    jacobiSweep m k b x = .ok ⟨m.nrow, accum m.nrow (gsStep m k.val b.val) x.val⟩ := by
  unfold jacobiSweep
  have key : ∀ n, n ≤ m.nrow → loop n (fun i x => do
      let aux ← jacobiRow m i x m.nnz 0 0
      let ki ← k.read i
      let bi ← b.read i
      x.write i (ki * ((-1) * aux + bi))) x
      = .ok ⟨m.nrow, accum n (gsStep m k.val b.val) x.val⟩ := by
    intro n
    induction n with
    | zero => intro _; cases x; subst hx; rfl
    | succ n ih =>
      intro hn
      rw [loop_succ, ih (by omega), M_bind_ok]
      have := jacobiRow_eq hm (x := ⟨m.nrow, accum n (gsStep m k.val b.val) x.val⟩) rfl
        (i := n) (by omega) m.nnz 0 (by omega)
      have e : (0 : α) = offAcc m (accum n (gsStep m k.val b.val) x.val) n 0 := rfl
      rw [← e] at this
      rw [this, M_bind_ok', Buf.read_ok (by omega), M_bind_ok', Buf.read_ok (by omega), M_bind_ok',
        Buf.write_ok _ (by simpa using by omega)]
      rfl
  exact key _ le_rfl

theorem jacobiErr_eq {m : Ell α} (hm : m.WF) {b x e : Buf α} (hb : b.size = m.nrow)
    (hx : x.size = m.nrow) (he : e.size = m.nrow) :
    ∃ e' : Buf α, e'.size = m.nrow ∧
      jacobiErr m b x e = .ok (Scalar.sqrt (accum m.nrow (fun i s => s +
        (rowAcc m x.val i - b.val i) * (rowAcc m x.val i - b.val i)) 0), e') := by
  unfold jacobiErr
  rw [ellMvp2D_eq hm hx he, M_bind_ok']
  have key : ∀ n, n ≤ m.nrow → ∃ e' : Buf α, e'.size = m.nrow ∧
      (∀ i, n ≤ i → i < m.nrow → e'.val i = rowAcc m x.val i) ∧
      loop n (fun i (s : α × Buf α) => do
        let ei ← s.2.read i
        let bi ← b.read i
        let e ← s.2.write i (ei - bi)
        let ei ← e.read i
        pure (s.1 + ei * ei, e))
        (0, ⟨m.nrow, fun i => if i < m.nrow then rowAcc m x.val i else e.val i⟩)
      = .ok (accum n (fun i s => s +
        (rowAcc m x.val i - b.val i) * (rowAcc m x.val i - b.val i)) 0, e') := by
    intro n
    induction n with
    | zero => intro _; exact ⟨_, rfl, fun i _ hi => by simp [hi], rfl⟩
    | succ n ih =>
      intro hn
      obtain ⟨e', h1, h2, h3⟩ := ih (by omega)
      refine ⟨⟨e'.size, fun q => if q = n then rowAcc m x.val n - b.val n else e'.val q⟩, h1, ?_, ?_⟩
      · intro i hi hi'
        show (if i = n then _ else _) = _
        rw [if_neg (by omega)]; exact h2 i (by omega) hi'
      · rw [loop_succ, h3, M_bind_ok]
        simp only
        rw [Buf.read_ok (by omega), M_bind_ok', Buf.read_ok (by omega), M_bind_ok',
          Buf.write_ok _ (by omega), M_bind_ok', Buf.read_ok (by simpa using by omega), M_bind_ok',
          h2 n (le_refl n) (by omega)]
        simp only [if_true]
        rfl
  obtain ⟨e', h1, -, h3⟩ := key _ le_rfl
  exact ⟨e', h1, by rw [h3]; rfl⟩

/-- The residual norm the solver tests. -/
def resErr (m : Ell α) (b x : Nat → α) : α :=
  Scalar.sqrt (accum m.nrow (fun i s => s +
        (rowAcc m x i - b i) * (rowAcc m x i - b i)) 0)

/-- A run of the sweeps: `n` sweeps were made; the last one converged iff `its < n`. -/
theorem jacobiLoop_eq {m : Ell α} (hm : m.WF) {k b : Buf α} (hk : k.size = m.nrow)
    (hb : b.size = m.nrow) (tol : α) : ∀ t its err (x e : Buf α), x.size = m.nrow →
      e.size = m.nrow →
      ∃ (n : Nat) (X : Nat → Nat → α) (err' : α) (its' : Nat), n ≤ t ∧ X 0 = x.val ∧
        (∀ j, j < n → X (j + 1) = accum m.nrow (gsStep m k.val b.val) (X j)) ∧
        (∀ j, j + 1 < n → Scalar.lt (resErr m b.val (X (j + 1))) tol = false) ∧
        (t = 0 → err' = err) ∧ (0 < t → 0 < n ∧ err' = resErr m b.val (X n)) ∧
        ((0 < n ∧ its' + 1 = its + n ∧ Scalar.lt err' tol = true) ∨
          (n = t ∧ its' = its + n ∧ (0 < n → Scalar.lt err' tol = false))) ∧
        jacobiLoop m k b tol t its err x e = .ok (err', its', ⟨m.nrow, X n⟩) := by
  intro t
  induction t with
  | zero =>
    intro its err x e hx he
    refine ⟨0, fun _ => x.val, err, its, le_refl 0, rfl, by omega, by omega, fun _ => rfl,
      by omega, Or.inr ⟨rfl, rfl, by omega⟩, ?_⟩
    cases x; subst hx; rfl
  | succ t ih =>
    intro its err x e hx he
    obtain ⟨e', h1, h2⟩ := jacobiErr_eq hm (b := b)
      (x := ⟨m.nrow, accum m.nrow (gsStep m k.val b.val) x.val⟩) hb rfl he
    have h2 : jacobiErr m b ⟨m.nrow, accum m.nrow (gsStep m k.val b.val) x.val⟩ e
      = .ok (resErr m b.val (accum m.nrow (gsStep m k.val b.val) x.val), e') := h2
    rw [jacobiLoop, jacobiSweep_eq hm hk hb hx, M_bind_ok', h2, M_bind_ok']
    simp only
    by_cases hlt : Scalar.lt (resErr m b.val (accum m.nrow (gsStep m k.val b.val) x.val)) tol = true
    · refine ⟨1, fun j => if j = 0 then x.val else accum m.nrow (gsStep m k.val b.val) x.val, _, its,
        by omega, rfl, ?_, by omega, by omega, fun _ => ⟨by omega, rfl⟩,
        Or.inl ⟨by omega, rfl, hlt⟩, ?_⟩
      · intro j hj; have : j = 0 := by omega
        subst this; rfl
      · rw [if_pos hlt]; rfl
    · obtain ⟨n, X, err', its', a1, a2, a3, a4, a5, a6, a7, a8⟩ := ih (its + 1)
        (resErr m b.val (accum m.nrow (gsStep m k.val b.val) x.val))
        ⟨m.nrow, accum m.nrow (gsStep m k.val b.val) x.val⟩ e' rfl h1
      have hf : Scalar.lt (resErr m b.val (accum m.nrow (gsStep m k.val b.val) x.val)) tol = false := by
        simpa using hlt
      refine ⟨n + 1, fun j => if j = 0 then x.val else X (j - 1), err', its', by omega, rfl, ?_, ?_,
        by omega, fun _ => ⟨by omega, ?_⟩, ?_, ?_⟩
      · intro j hj
        rcases j with _ | j
        · simpa using a2
        · simpa using a3 j (by omega)
      · intro j hj
        rcases j with _ | j
        · simpa [a2] using hf
        · simpa using a4 j (by omega)
      · rcases Nat.eq_zero_or_pos t with h0 | h0
        · have hn : n = 0 := by omega
          rw [a5 h0]; subst hn; simp [a2]
        · simpa using (a6 h0).2
      · rcases a7 with ⟨b1, b2, b3⟩ | ⟨b1, b2, b3⟩
        · exact Or.inl ⟨by omega, by omega, b3⟩
        · refine Or.inr ⟨by omega, by omega, fun _ => ?_⟩
          rcases Nat.eq_zero_or_pos n with h0 | h0
          · rw [a5 (by omega)]; exact hf
          · exact b3 h0
      · rw [if_neg hlt]; simpa using a8

end generic

/-! ## Exact arithmetic -/

theorem offAcc_real {m : Ell ℝ} (hm : m.WF) (x : Nat → ℝ) {i : Nat} (hi : i < m.nrow) :
    offAcc m x i m.nnz = op m x i - op m (unit i) i * x i := by
  have h1 : offAcc m x i m.nnz = ∑ j ∈ range m.nnz, (m.vals.val (i * m.nnz + j) *
      x (m.cols.val (i * m.nnz + j)).toNat - m.vals.val (i * m.nnz + j) *
      unit i (m.cols.val (i * m.nnz + j)).toNat * x i) := by
    unfold offAcc
    have : ∀ t, t ≤ m.nnz → accum t (fun j s => if m.cols.val (i * m.nnz + j) ≠ (i : Int) then
        s + m.vals.val (i * m.nnz + j) * x (m.cols.val (i * m.nnz + j)).toNat else s) (0 : ℝ)
        = ∑ j ∈ range t, (m.vals.val (i * m.nnz + j) *
      x (m.cols.val (i * m.nnz + j)).toNat - m.vals.val (i * m.nnz + j) *
      unit i (m.cols.val (i * m.nnz + j)).toNat * x i) := by
      intro t
      induction t with
      | zero => intro _; rfl
      | succ t ih =>
        intro ht
        have hr := hm.cols_range _ (row_lt hi (by omega : t < m.nnz))
        rw [accum, ih (by omega), sum_range_succ]
        by_cases hc : m.cols.val (i * m.nnz + t) ≠ (i : Int)
        · have : unit i (m.cols.val (i * m.nnz + t)).toNat = 0 := by
            unfold unit; rw [if_neg (by omega)]
          rw [if_pos hc, this]; ring
        · have hc' : m.cols.val (i * m.nnz + t) = (i : Int) := not_not.mp hc
          have : unit i (m.cols.val (i * m.nnz + t)).toNat = 1 := by
            unfold unit; rw [if_pos (by omega)]
          rw [if_neg hc, this, hc']; simp
    exact this _ le_rfl
  rw [h1, sum_sub_distrib]
  unfold op
  rw [sum_mul]

theorem resErr_real (m : Ell ℝ) (b x : Nat → ℝ) :
    resErr m b x = norm2 m.nrow (fun i => op m x i - b i) := by
  unfold resErr norm2 dot
  rw [accum_sum, zero_add]
  simp only [sqrt_real]
  congr 1
  refine sum_congr rfl fun i _ => ?_
  rw [rowAcc_real]; rfl

/-- With the true diagonal, the update of component `i` subtracts `residual_i / a_ii`. -/
theorem gsStep_real {m : Ell ℝ} (hm : m.WF) {k b x : Nat → ℝ} {i : Nat} (hi : i < m.nrow)
    (hk : k i = 1 / op m (unit i) i) (h0 : op m (unit i) i ≠ 0) :
    gsStep m k b i x = fun j => x j + -((op m x i - b i) / op m (unit i) i) * unit i j := by
  funext j
  unfold gsStep
  rw [offAcc_real hm x hi, hk]
  by_cases hj : j = i
  · subst hj
    rw [if_pos rfl]
    have : unit j j = 1 := by simp [unit]
    rw [this]; field_simp; ring
  · rw [if_neg hj]
    have : unit i j = 0 := by simp [unit, hj]
    rw [this]; ring

theorem dot_unit {n i : Nat} (hi : i < n) (v : Nat → ℝ) : dot n (unit i) v = v i := by
  unfold dot unit
  rw [sum_eq_single i]
  · simp
  · intro j _ hj; simp [hj]
  · intro h; exact absurd (mem_range.mpr hi) h

/-- Every component update lowers the energy by `residual_i² / (2 a_ii)`. -/
theorem gsStep_energy {m : Ell ℝ} (hm : m.WF) {k b x : Nat → ℝ} {i : Nat} (hi : i < m.nrow)
    (hk : k i = 1 / op m (unit i) i) (h0 : op m (unit i) i ≠ 0)
    (hsym : ∀ u v, dot m.nrow u (op m v) = dot m.nrow (op m u) v) :
    energy m.nrow (op m) b (gsStep m k b i x)
      = energy m.nrow (op m) b x - (op m x i - b i) ^ 2 / (2 * op m (unit i) i) := by
  rw [gsStep_real hm hi hk h0]
  set c := -((op m x i - b i) / op m (unit i) i) with hc
  have e1 : ∀ l, op m (fun j => x j + c * unit i j) l = op m x l + c * op m (unit i) l :=
    fun l => op_lin m x (unit i) c l
  unfold energy
  have e2 : dot m.nrow (fun j => x j + c * unit i j) (op m (fun j => x j + c * unit i j))
      = dot m.nrow x (op m x) + 2 * c * op m x i + c ^ 2 * op m (unit i) i := by
    rw [show op m (fun j => x j + c * unit i j) = fun l => op m x l + c * op m (unit i) l from
      funext e1, dot_add_mul, dot_add_mul', dot_add_mul', dot_unit hi, dot_unit hi,
      hsym x (unit i), dot_comm (op m x), dot_unit hi]
    ring
  rw [e2, dot_add_mul', dot_comm b (unit i), dot_unit hi, hc]
  field_simp
  ring

theorem gsSweep_energy {m : Ell ℝ} (hm : m.WF) {k b : Nat → ℝ}
    (hk : ∀ i, i < m.nrow → k i = 1 / op m (unit i) i)
    (h0 : ∀ i, i < m.nrow → 0 < op m (unit i) i)
    (hsym : ∀ u v, dot m.nrow u (op m v) = dot m.nrow (op m u) v) (x : Nat → ℝ) :
    ∀ n, n ≤ m.nrow → energy m.nrow (op m) b (accum n (gsStep m k b) x)
      ≤ energy m.nrow (op m) b x := by
  intro n
  induction n with
  | zero => intro _; exact le_refl _
  | succ n ih =>
    intro hn
    refine le_trans ?_ (ih (by omega))
    rw [accum, gsStep_energy hm (by omega) (hk n (by omega)) (h0 n (by omega)).ne' hsym]
    have := h0 n (by omega)
    have : 0 ≤ (op m (accum n (gsStep m k b) x) n - b n) ^ 2 / (2 * op m (unit n) n) := by positivity
    linarith

theorem gsSweep_fix {m : Ell ℝ} (hm : m.WF) {k b x : Nat → ℝ}
    (hk : ∀ i, i < m.nrow → k i = 1 / op m (unit i) i)
    (h0 : ∀ i, i < m.nrow → op m (unit i) i ≠ 0)
    (hsol : ∀ i, i < m.nrow → op m x i = b i) :
    ∀ n, n ≤ m.nrow → accum n (gsStep m k b) x = x := by
  intro n
  induction n with
  | zero => intro _; rfl
  | succ n ih =>
    intro hn
    rw [accum, ih (by omega), gsStep_real hm (by omega) (hk n (by omega)) (h0 n (by omega)),
      hsol n (by omega)]
    funext j; simp

end Verif
