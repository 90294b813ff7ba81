import Verif.Lemmas.EllStencil3D
import Verif.Lemmas.EllInit2D

/-! # Lemmas on the matrix routines -/

namespace Verif
open Spec Finset

/-- Sizes and column range of a usable square ELL matrix. -/
structure Ell.WF {α : Type} (m : Ell α) : Prop where
  ncol_eq : m.ncol = m.nrow
  cols_size : m.cols.size = m.nnz * m.nrow
  vals_size : m.vals.size = m.nnz * m.nrow
  cols_range : ∀ q, q < m.nnz * m.nrow → 0 ≤ m.cols.val q ∧ m.cols.val q < m.nrow

theorem row_lt {i j nrow nnz : Nat} (hi : i < nrow) (hj : j < nnz) : i * nnz + j < nnz * nrow := by
  have := mul_add_lt hi hj
  rw [Nat.mul_comm nnz nrow]; exact this

section mvp
variable {α : Type} [Scalar α]

/-- The value the inner loop of `ell_mvp_2D` accumulates for row `i`. -/
def rowAcc (m : Ell α) (x : Nat → α) (i : Nat) : α :=
  accum m.nnz (fun j s => s + m.vals.val (i * m.nnz + j) * x (m.cols.val (i * m.nnz + j)).toNat) 0

theorem ellMvp2D_eq {m : Ell α} (hm : m.WF) {x y : Buf α} (hx : x.size = m.nrow)
    (hy : y.size = m.nrow) :
    ellMvp2D m x y = .ok ⟨m.nrow, fun i => if i < m.nrow then rowAcc m x.val i else y.val i⟩ := by
  unfold ellMvp2D
  have key : ∀ n, n ≤ m.nrow → loop n (fun i y => do
    let y ← y.write i 0
    loop m.nnz (fun j y => do
      let yi ← y.read i
      let a ← m.vals.read ((i * m.nnz) + j)
      let c ← m.cols.read ((i * m.nnz) + j)
      let xc ← x.readI c
      y.write i (yi + a * xc)) y) y
      = .ok ⟨m.nrow, fun i => if i < n then rowAcc m x.val i else y.val i⟩ := by
    intro n
    induction n with
    | zero => intro _; simp [loop, ← hy]
    | succ n ih =>
      intro hn
      rw [loop_succ, ih (by omega), M_bind_ok]
      rw [Buf.write_ok _ (by simpa using by omega), M_bind_ok']
      have inner : ∀ t, t ≤ m.nnz → loop t (fun j (y : Buf α) => do
          let yi ← y.read n
          let a ← m.vals.read ((n * m.nnz) + j)
          let c ← m.cols.read ((n * m.nnz) + j)
          let xc ← x.readI c
          y.write n (yi + a * xc))
          (⟨m.nrow, fun k => if k = n then 0 else if k < n then rowAcc m x.val k else y.val k⟩ : Buf α)
          = .ok ⟨m.nrow, fun k => if k = n then
              accum t (fun j s => s + m.vals.val (n * m.nnz + j) *
                x.val (m.cols.val (n * m.nnz + j)).toNat) 0
              else if k < n then rowAcc m x.val k else y.val k⟩ := by
        intro t
        induction t with
        | zero => intro _; rfl
        | succ t iht =>
          intro ht
          have hlt : n * m.nnz + t < m.nnz * m.nrow := row_lt (by omega) (by omega)
          have hr := hm.cols_range _ hlt
          rw [loop_succ, iht (by omega), M_bind_ok, Buf.read_ok (by simpa using by omega),
            M_bind_ok', Buf.read_ok (by rw [hm.vals_size]; exact hlt), M_bind_ok',
            Buf.read_ok (by rw [hm.cols_size]; exact hlt), M_bind_ok',
            Buf.readI_ok hr.1 (by rw [hx]; exact hr.2), M_bind_ok',
            Buf.write_ok _ (by simpa using by omega)]
          congr 2
          funext k
          by_cases hk : k = n
          · simp [hk, accum]
          · simp [hk]
      have := inner m.nnz le_rfl
      simp only at this ⊢
      rw [this]
      congr 2
      funext k
      by_cases hk : k = n
      · subst hk; simp [rowAcc]
      · by_cases hk2 : k < n
        · simp [hk, hk2, Nat.lt_succ_of_lt hk2]
        · have : ¬ k < n + 1 := by omega
          simp [hk, hk2, this]
  exact key m.nrow le_rfl

end mvp

theorem rowAcc_real (m : Ell ℝ) (x : Nat → ℝ) (i : Nat) :
    rowAcc m x i = ∑ j ∈ range m.nnz,
      m.vals.val (i * m.nnz + j) * x (m.cols.val (i * m.nnz + j)).toNat := by
  unfold rowAcc
  rw [accum_sum, zero_add]

/-! ## Zeroing -/

theorem ellSetZeroMat_eq {α : Type} [Scalar α] {m : Ell α} (hm : m.vals.size = m.nnz * m.nrow) :
    ∃ v : Buf α, ellSetZeroMat m = .ok { m with vals := v } ∧ v.size = m.nnz * m.nrow ∧
      ∀ q, q < m.nnz * m.nrow → v.val q = 0 := by
  unfold ellSetZeroMat
  have H : SetTo (m.nnz * m.nrow) (fun _ => (0 : α))
      (fun q => ∃ i, i < m.nrow ∧ ∃ j, j < m.nnz ∧ q = i * m.nnz + j)
      (loop m.nrow (fun i v => loop m.nnz (fun j v => v.write (i * m.nnz + j) 0) v)) :=
    SetTo.loop fun i hi => SetTo.loop fun j hj => SetTo.write (row_lt hi hj) rfl
  obtain ⟨v, h1, h2, h3, -⟩ := H m.vals hm
  refine ⟨v, by rw [h1]; rfl, h2, ?_⟩
  intro q hq
  apply h3
  have hz : 0 < m.nnz := by
    rcases Nat.eq_zero_or_pos m.nnz with h | h
    · simp [h] at hq
    · exact h
  exact ⟨q / m.nnz, Nat.div_lt_of_lt_mul hq, q % m.nnz, Nat.mod_lt _ hz, by
    rw [Nat.mul_comm]; exact (Nat.div_add_mod q m.nnz).symm⟩

/-! ## Additive updates -/

/-- `f` never faults on blocks of `N` elements and adds `w`. -/
def AddTo (N : Nat) (w : Nat → ℝ) (f : Buf ℝ → M (Buf ℝ)) : Prop :=
  ∀ v : Buf ℝ, v.size = N → f v = .ok ⟨N, fun q => v.val q + w q⟩

namespace AddTo
variable {N : Nat}

theorem rmw {i : Nat} {e : ℝ} {g : M ℝ} (hi : i < N) (hg : g = .ok e) :
    AddTo N (fun q => if q = i then e else 0)
      (fun v => do let a ← v.read i; let e ← g; v.write i (a + e)) := by
  intro v hv
  simp only []
  rw [Buf.read_ok (by omega), M_bind_ok', hg, M_bind_ok', Buf.write_ok _ (by omega), hv]
  congr 2
  funext q
  by_cases h : q = i <;> simp [h]

theorem loop {n : Nat} {w : Nat → Nat → ℝ} {f : Nat → Buf ℝ → M (Buf ℝ)}
    (h : ∀ i, i < n → AddTo N (w i) (f i)) :
    AddTo N (fun q => ∑ i ∈ range n, w i q) (Verif.loop n f) := by
  induction n with
  | zero => intro v hv; simp [Verif.loop, ← hv]
  | succ n ih =>
    intro v hv
    rw [loop_succ, ih (fun i hi => h i (by omega)) v hv, M_bind_ok, h n (by omega) _ rfl]
    congr 2
    funext q
    simp only [sum_range_succ]; ring

theorem congr {w w' : Nat → ℝ} {f : Buf ℝ → M (Buf ℝ)} (h : AddTo N w f)
    (hw : ∀ q, w q = w' q) : AddTo N w' f := by
  have : w = w' := funext hw
  exact this ▸ h

end AddTo

/-- Contribution of one updated entry to a row product. -/
theorem sum_row_single {nnz r idx : Nat} {a : ℝ} {X : Nat → ℝ} (hz : 0 < nnz) :
    ∑ t ∈ range nnz, (if r * nnz + t = idx then a else 0) * X (r * nnz + t)
      = if idx / nnz = r then a * X idx else 0 := by
  by_cases h : idx / nnz = r
  · rw [if_pos h]
    have e : r * nnz + idx % nnz = idx := by
      rw [← h, Nat.mul_comm]; exact Nat.div_add_mod idx nnz
    rw [sum_eq_single (idx % nnz)]
    · rw [if_pos e, e]
    · intro t _ hne
      rw [if_neg (by omega), zero_mul]
    · intro hn
      exact absurd (mem_range.mpr (Nat.mod_lt _ hz)) hn
  · rw [if_neg h]
    apply sum_eq_zero
    intro t ht
    rw [if_neg, zero_mul]
    intro e
    apply h
    rw [← e, mul_add_div' (mem_range.mp ht)]

/-- Entry of the assembled contribution: rows/columns `(k, i)`, `(n, j)` of the element matrix
go to slot `cr k n` of node `sn k`. -/
theorem addStruct_vals {nF W npe nn : Nat} {sn : Nat → Nat} {cr : Nat → Nat → Nat} {Ae : Buf ℝ}
    (hAe : Ae.size = npe * nF * (npe * nF))
    (hsn : ∀ k, k < npe → sn k < nn) (hcr : ∀ k n, k < npe → n < npe → cr k n < W) :
    AddTo (W * nF * (nn * nF))
      (fun q => ∑ i ∈ range nF, ∑ n ∈ range npe, ∑ k ∈ range npe, ∑ j ∈ range nF,
        if q = slotIx nF W (sn k) i (cr k n) j then
          Ae.val ((k * nF + i) * (npe * nF) + (n * nF + j)) else 0)
      (Verif.loop nF (fun i v => Verif.loop npe (fun n v => Verif.loop npe (fun k v =>
        Verif.loop nF (fun j v => do
          let a ← v.read (sn k * (nF * (W * nF)) + i * (W * nF) + cr k n * nF + j)
          let e ← Ae.read (k * (npe * nF * nF) + i * (npe * nF) + n * nF + j)
          v.write (sn k * (nF * (W * nF)) + i * (W * nF) + cr k n * nF + j) (a + e)) v) v) v)) := by
  refine AddTo.loop fun i hi => AddTo.loop fun n hn => AddTo.loop fun k hk => AddTo.loop fun j hj => ?_
  have e1 : sn k * (nF * (W * nF)) + i * (W * nF) + cr k n * nF + j
      = slotIx nF W (sn k) i (cr k n) j := ix_form_add
  have e2 : k * (npe * nF * nF) + i * (npe * nF) + n * nF + j
      = (k * nF + i) * (npe * nF) + (n * nF + j) := by ring
  rw [e1, e2]
  refine AddTo.rmw (slotIx_lt (hsn k hk) hi (hcr k n hk hn) hj) ?_
  apply Buf.read_ok
  rw [hAe]
  exact mul_add_lt (mul_add_lt hk hi) (mul_add_lt hn hj)

/-- Effect of an assembled element matrix on the product, for a pattern in which slot `cr k n` of
node `sn k` holds node `sn n`. -/
theorem addStruct_mvp {nF W npe nn : Nat} {sn : Nat → Nat} {cr : Nat → Nat → Nat}
    {Ae : Nat → ℝ} {X : Nat → ℝ} {c : Nat → Int} (hW : 0 < W)
    (hcr : ∀ k n, k < npe → n < npe → cr k n < W)
    (N d : Nat) (hd : d < nF)
    (hc : ∀ k n i j, k < npe → n < npe → i < nF → j < nF → sn k = N →
      c (slotIx nF W (sn k) i (cr k n) j) = ((sn n * nF + j : Nat) : Int)) :
    ∑ t ∈ range (W * nF), (∑ i ∈ range nF, ∑ n ∈ range npe, ∑ k ∈ range npe, ∑ j ∈ range nF,
        if (N * nF + d) * (W * nF) + t = slotIx nF W (sn k) i (cr k n) j then
          Ae ((k * nF + i) * (npe * nF) + (n * nF + j)) else 0)
        * X (c ((N * nF + d) * (W * nF) + t)).toNat
      = ∑ k ∈ range npe, if sn k = N then
          ∑ n ∈ range npe, ∑ j ∈ range nF,
            Ae ((k * nF + d) * (npe * nF) + (n * nF + j)) * X (sn n * nF + j) else 0 := by
  have hF : 0 < nF := by omega
  have hz : 0 < W * nF := Nat.mul_pos hW hF
  simp only [sum_mul]
  have step : ∀ i ∈ range nF, ∀ n ∈ range npe, ∀ k ∈ range npe, ∀ j ∈ range nF,
      ∑ t ∈ range (W * nF), (if (N * nF + d) * (W * nF) + t = slotIx nF W (sn k) i (cr k n) j then
          Ae ((k * nF + i) * (npe * nF) + (n * nF + j)) else 0)
          * X (c ((N * nF + d) * (W * nF) + t)).toNat
        = if sn k = N ∧ i = d then
            Ae ((k * nF + i) * (npe * nF) + (n * nF + j)) * X (sn n * nF + j) else 0 := by
    intro i hi n hn k hk j hj
    simp only [mem_range] at hi hn hk hj
    rw [sum_row_single (X := fun q => X (c q).toNat) hz]
    have e : slotIx nF W (sn k) i (cr k n) j / (W * nF) = sn k * nF + i := by
      have : slotIx nF W (sn k) i (cr k n) j = (sn k * nF + i) * (W * nF) + (cr k n * nF + j) := by
        unfold slotIx; ring
      rw [this, mul_add_div' (mul_add_lt (hcr k n hk hn) hj)]
    rw [e]
    by_cases h : sn k = N ∧ i = d
    · rw [if_pos h, if_pos (by rw [h.1, h.2]), hc k n i j hk hn hi hj h.1, Int.toNat_natCast]
    · rw [if_neg h, if_neg]
      intro e2
      exact h (mul_add_inj hi hd e2)
  rw [sum_comm]
  refine Eq.trans (sum_congr rfl fun i hi => sum_comm.trans (sum_congr rfl fun n hn =>
    sum_comm.trans (sum_congr rfl fun k hk => sum_comm.trans (sum_congr rfl fun j hj =>
      step i hi n hn k hk j hj)))) ?_
  rw [sum_eq_single d]
  · rw [sum_comm]
    refine sum_congr rfl fun k _ => ?_
    by_cases h : sn k = N
    · simp [h]
    · simp [h]
  · intro i _ hne
    simp [hne]
  · intro h; exact absurd (mem_range.mpr hd) h

end Verif
