import Verif.Lemmas.NanRun
import Verif.Lemmas.FpMat

/-! # Nodes without stiffness in floating-point arithmetic -/

namespace Verif
open Spec

variable {fp : Range}

/-! ## Zero or NaN -/

/-- Zero or NaN. -/
def Nil (a : Dbl fp) : Prop := a = 0 ∨ a = .nan

theorem dbl_zero : (0 : Dbl fp) = .fin 0 fp.zero (by rw [abs_zero]; exact zero_le_one.trans fp.one_le) := rfl

theorem round_mem {x : ℝ} (h : x ∈ fp.F) (hx : |x| ≤ fp.top) : Dbl.round fp x = .fin x h hx := by
  have e : fp.rnd x = x := fp.fix x h
  unfold Dbl.round
  rw [dif_pos (by rw [e]; exact hx)]
  simp only [e]

theorem round_zero : Dbl.round fp 0 = (0 : Dbl fp) :=
  round_mem fp.zero (by rw [abs_zero]; exact zero_le_one.trans fp.one_le)

namespace Nil
variable {a b : Dbl fp}

theorem zero : Nil (0 : Dbl fp) := .inl rfl

theorem mul_r (h : Nil a) (b : Dbl fp) : Nil (a * b) := by
  rcases h with rfl | rfl
  · rw [dbl_zero]
    cases b with
    | fin x h1 h2 =>
      left
      show Dbl.round fp (0 * x) = 0
      rw [zero_mul, round_zero]
    | inf s =>
      right
      show (open Classical in if (0 : ℝ) = 0 then Dbl.nan else _) = _
      rw [if_pos rfl]
    | nan => right; rfl
  · right
    cases b <;> rfl

theorem mul_l (b : Dbl fp) (h : Nil a) : Nil (b * a) := by
  rcases h with rfl | rfl
  · rw [dbl_zero]
    cases b with
    | fin x h1 h2 =>
      left
      show Dbl.round fp (x * 0) = 0
      rw [mul_zero, round_zero]
    | inf s =>
      right
      show (open Classical in if (0 : ℝ) = 0 then Dbl.nan else _) = _
      rw [if_pos rfl]
    | nan => right; rfl
  · right
    cases b <;> rfl

theorem add (h : Nil a) (h' : Nil b) : Nil (a + b) := by
  rcases h with rfl | rfl
  · rcases h' with rfl | rfl
    · left
      show Dbl.round fp (0 + 0) = 0
      rw [add_zero, round_zero]
    · right; rfl
  · right
    cases b <;> rfl

theorem neg (h : Nil a) : Nil (-a) := by
  rcases h with rfl | rfl
  · left
    show Dbl.fin (-0) _ _ = Dbl.fin 0 _ _
    simp only [neg_zero]
  · right; rfl

theorem sub (h : Nil a) (h' : Nil b) : Nil (a - b) := h.add h'.neg

theorem div (h : Nil a) (b : Dbl fp) : Nil (a / b) := by
  rcases h with rfl | rfl
  · rw [dbl_zero]
    cases b with
    | fin x h1 h2 =>
      show Nil (open Classical in if x = 0 then (if (0 : ℝ) = 0 then Dbl.nan else _) else Dbl.round fp (0 / x))
      split
      · rw [if_pos rfl]; exact .inr rfl
      · rw [zero_div, round_zero]; exact .inl rfl
    | inf s => left; exact round_zero
    | nan => right; rfl
  · right
    cases b <;> rfl

/-- The preconditioner at a node without stiffness: `1 / 0` times zero. -/
theorem recip_mul (h : Nil a) (h' : Nil b) : IsNan (1 / a * b) := by
  have e1 : (1 : Dbl fp) / 0 = .inf (decide ((1 : ℝ) < 0)) := by
    show (open Classical in if (0 : ℝ) = 0 then (if (1 : ℝ) = 0 then Dbl.nan else Dbl.inf (decide ((1 : ℝ) < 0))) else _) = _
    rw [if_pos rfl, if_neg one_ne_zero]
  rcases h with rfl | rfl
  · rcases h' with rfl | rfl
    · rw [e1, dbl_zero]
      show Dbl.isNan (open Classical in if (0 : ℝ) = 0 then Dbl.nan else _) = true
      rw [if_pos rfl]; rfl
    · exact IsNan.mul_r _ rfl
  · exact IsNan.mul_l (NanLaws.div_right _ _ rfl) _

theorem accum {n : Nat} {f : Nat → Dbl fp} {s : Dbl fp} (hs : Nil s) (h : ∀ i, i < n → Nil (f i)) :
    Nil (Verif.accum n (fun i t => t + f i) s) :=
  accum_keep hs fun i _ hi ht => ht.add (h i hi)

end Nil

/-- The square of a difference from zero. -/
theorem sub_sq (b : Dbl fp) : (0 - b) * (0 - b) = b * b := by
  cases b with
  | fin x h1 h2 =>
    have e : (0 : Dbl fp) - .fin x h1 h2 = .fin (-x) (fp.neg x h1) (by rw [abs_neg]; exact h2) := by
      show Dbl.round fp (0 + -x) = _
      rw [zero_add]
      exact round_mem _ _
    rw [e]
    show Dbl.round fp (-x * -x) = Dbl.round fp (x * x)
    rw [neg_mul_neg]
  | inf s => cases s <;> rfl
  | nan => rfl

/-! ## The solver -/

/-- Conjugate gradients from zero with a zero (or NaN) on the diagonal and on the right-hand side of the same
row: when the first residual is not below the tolerance the solution is NaN everywhere. -/
theorem cgSolve_void {m : Ell (Dbl fp)} (hm : m.WF) {nF W nn slot : Nat} (hnnz : m.nnz = W * nF)
    (hslot : slot < W) (hnn : nn * nF ≤ m.nrow) {b x : Buf (Dbl fp)} (hb : b.size = m.nrow)
    (hx : x.size = m.nrow) (hx0 : ∀ i, i < m.nrow → x.val i = 0) (junk : Nat → Nat → Dbl fp)
    (solver : EllSolver (Dbl fp)) {s' : EllSolver (Dbl fp)} {y : Buf (Dbl fp)}
    (h : cgSolve junk solver m nF nn slot b x = .ok (s', y)) {n d : Nat} (hn : n < nn) (hd : d < nF)
    (hA : Nil (m.vals.val (slotIx nF W n d slot d))) (hbk : Nil (b.val (n * nF + d)))
    (hlt : Scalar.lt (normOf m.nrow b.val) solver.minTol = false) {i : Nat} (hi : i < m.nrow) :
    IsNan (y.val i) := by
  obtain ⟨kk, s, N, S, sF, h0, -, h1, h2, T, e⟩ :=
    cgSolve_trace hm hnnz hslot hnn hb hx junk solver
  rw [e] at h
  cases h
  have hk : n * nF + d < m.nrow := lt_of_lt_of_le (mul_add_lt hn hd) hnn
  have hrow : ∀ i, i < m.nrow → Nil (rowAcc m x.val i) := fun i hi =>
    Nil.accum Nil.zero fun j hj => by
      have := hm.cols_range (i * m.nnz + j) (row_lt hi hj)
      rw [hx0 _ (by have := hm.ncol_eq; omega)]
      exact Nil.mul_l _ Nil.zero
  have hr : (∃ k, k < m.nrow ∧ IsNan ((S 0).r.val k)) ∨ ∀ k, k < m.nrow → (S 0).r.val k = 0 - b.val k := by
    by_cases hz : ∀ k, k < m.nrow → rowAcc m x.val k = 0
    · right
      intro k hk
      rw [T.start, h2 k hk, hz k hk]
    · left
      push Not at hz
      obtain ⟨k, hk, hz⟩ := hz
      refine ⟨k, hk, ?_⟩
      rw [T.start, h2 k hk, (hrow k hk).resolve_left hz]
      exact NanLaws.sub_left _ _ rfl
  have hN : N ≠ 0 := by
    intro hN
    rcases T.stop with ⟨a, -⟩ | ⟨a, -⟩
    · rcases hr with ⟨k, hk, hr⟩ | hr
      · have : IsNan (errOf m (S N)) := by rw [hN]; exact (dotA_nan hk hr).sqrt
        rw [this.lt_l] at a; cases a
      · have : errOf m (S N) = normOf m.nrow b.val := by
          rw [hN]
          unfold errOf normOf dotA
          congr 1
          exact accum_congr (fun k s hk => by rw [hr k hk, sub_sq]) _
        rw [this, hlt] at a; cases a
    · omega
  have h1' : IsNan (S 1).rho0 := by
    rw [(T.step 0 (by omega)).rho]
    rcases hr with ⟨k, hk, hr⟩ | hr
    · exact dotA_nan hk hr
    · refine accum_nan (f := fun i => (S 0).r.val i * (S 1).z.val i) hk (IsNan.mul_r _ ?_)
      rw [(T.step 0 (by omega)).z _ hk, h0 n d hn hd, hr _ hk]
      exact Nil.recip_mul hA (Nil.zero.sub hbk)
  have hfin : ∀ j, j < N → IsNan ((S (j + 1)).x.val i) := by
    intro j
    induction j with
    | zero =>
      intro hj
      rw [(T.step 0 hj).x i hi]
      exact ((h1'.div_l _).mul_l _).sub_r _
    | succ j ih =>
      intro hj
      rw [(T.step (j + 1) hj).x i hi]
      exact (ih (by omega)).sub_l _
  obtain ⟨n', rfl⟩ := Nat.exists_eq_succ_of_ne_zero hN
  exact hfin n' (by omega)

/-! ## Elements and nodes without stiffness -/

variable {c : Cfg (Dbl fp)} {u : Nat → Dbl fp} {vo : Buf (Dbl fp)}

/-- A material without stiffness. -/
structure Material.Void (m : Material (Dbl fp)) : Prop where
  E : Nil m.E
  k : Nil m.k
  lambda : Nil m.lambda
  mu : Nil m.mu

theorem elasticStress3D_void {m : Material (Dbl fp)} (h : m.Void) (eps : Nat → Dbl fp) (v : Nat) :
    Nil (elasticStress3D m eps v) := by
  unfold elasticStress3D
  split
  · exact (h.lambda.mul_r _).add ((Nil.mul_l _ h.mu).mul_r _)
  · exact h.mu.mul_r _

/-- The plastic law of such a material. -/
theorem plasticStep_void {m : Material (Dbl fp)} (h : m.Void) (eps epsP : Nat → Dbl fp) (alpha : Dbl fp) (v : Nat) :
    Nil ((plasticStep m eps epsP alpha).stress v) := by
  have hs : ∀ i, Nil (sigTrial m eps epsP i) := fun i => by
    unfold sigTrial
    split
    · exact (Nil.mul_l _ h.mu).mul_r _
    · exact h.mu.mul_r _
  have key : ∀ (dl : Dbl fp) (n : Nat → Dbl fp), Nil (plasticStress m eps (sigTrial m eps epsP) dl n v) := by
    intro dl n
    unfold plasticStress
    simp only
    refine Nil.sub ?_ (((Nil.mul_l _ h.mu).mul_r _).mul_r _)
    split
    · exact (hs v).add (h.k.mul_r _)
    · exact hs v
  unfold plasticStep
  simp only
  split
  · dsimp only
    exact key _ _
  · dsimp only
    exact key _ _

theorem sig3_void {m : Material (Dbl fp)} (h : m.Void) (e gp : Nat) (eps : Nat → Dbl fp) (v : Nat) :
    Nil (sig3 m vo e gp eps v) := by
  unfold sig3
  split
  · exact plasticStep_void h _ _ _ _
  · exact elasticStress3D_void h _ _

theorem ctan3D_void {m : Material (Dbl fp)} (h : m.Void) (i j : Nat) : Nil (ctan3D m i j) := by
  unfold ctan3D
  simp only
  have h1 : Nil (if i < 3 ∧ j < 3 then 0 + m.lambda else 0) := by
    split
    · exact Nil.zero.add h.lambda
    · exact Nil.zero
  have h2 : Nil (if i < 3 ∧ i = j then (if i < 3 ∧ j < 3 then 0 + m.lambda else 0) + ((2 : Nat) : Dbl fp) * m.mu
      else if i < 3 ∧ j < 3 then 0 + m.lambda else 0) := by
    by_cases hij : i < 3 ∧ i = j
    · rw [if_pos hij]; exact h1.add (Nil.mul_l _ h.mu)
    · rw [if_neg hij]; exact h1
  by_cases hij : ¬ i < 3 ∧ i = j
  · rw [if_pos hij]; exact h2.add h.mu
  · rw [if_neg hij]; exact h2

/-- The material of an element has no stiffness. -/
def Cfg.VoidElem (c : Cfg (Dbl fp)) (ex ey ez : Nat) : Prop := (matOf c (c.el ex ey ez)).Void

theorem elemRhs3_void {ex ey ez : Nat} (h : c.VoidElem ex ey ez) (i : Nat) :
    Nil (elemRhs3 c u vo ex ey ez i) := by
  unfold elemRhs3
  refine accum_keep (P := fun b : Nat → Dbl fp => Nil (b i)) Nil.zero fun gp b _ hb => ?_
  refine Nil.accum hb fun j _ => (Nil.mul_l _ ?_).mul_r _
  unfold gpSig
  exact sig3_void h _ _ _ _

theorem elemMat3_void {ex ey ez : Nat} (h : c.VoidElem ex ey ez) (q : Nat) :
    Nil (elemMat3 c u vo ex ey ez q) := by
  unfold elemMat3
  refine accum_keep (P := fun b : Nat → Dbl fp => Nil (b q)) Nil.zero fun gp b _ hb => ?_
  refine Nil.accum hb fun j _ => (Nil.mul_l _ ?_).mul_r _
  refine Nil.accum Nil.zero fun l _ => Nil.mul_r ?_ _
  unfold gpCtan
  split
  · refine accum_keep (P := fun t : Nat → Nat → Dbl fp => ∀ j l, Nil (t j l)) (fun _ _ => Nil.zero)
      (fun i t _ ht j l => ?_) _ _
    split
    · exact Nil.div ((sig3_void h _ _ _ _).sub (sig3_void h _ _ _ _)) _
    · exact ht j l
  · exact ctan3D_void h _ _

/-- An interior node all of whose elements have no stiffness. -/
structure Cfg.VoidNode (c : Cfg (Dbl fp)) (ix iy iz : Nat) : Prop where
  x : 0 < ix ∧ ix + 1 < c.nx
  y : 0 < iy ∧ iy + 1 < c.ny
  z : 0 < iz ∧ iz + 1 < c.nz
  elems : ∀ ex ey ez, ex ≤ ix → ix ≤ ex + 1 → ey ≤ iy → iy ≤ ey + 1 → ez ≤ iz → iz ≤ ez + 1 →
    c.VoidElem ex ey ez

namespace Cfg.VoidNode
variable {ix iy iz : Nat}

/-- An element with that node among its nodes has no stiffness. -/
theorem of_node (h : c.VoidNode ix iy iz) {ex ey ez a : Nat} (hx : ex < c.nx - 1) (hy : ey < c.ny - 1)
    (ha : a < 8) (e : enode3 c.nx c.ny ex ey ez a = node3 c.nx c.ny ix iy iz) : c.VoidElem ex ey ez := by
  have h1 := cornerX_le a; have h2 := cornerY_le a; have h3 := cornerZ_le ha
  have hx' := h.x; have hy' := h.y
  unfold enode3 at e
  obtain ⟨e1, e2, e3⟩ := (node3_inj (by omega) (by omega) (by omega) (by omega)).1 e
  exact h.elems ex ey ez (by omega) (by omega) (by omega) (by omega) (by omega) (by omega)

theorem fint (h : c.VoidNode ix iy iz) {d : Nat} (hd : d < 3) {f : Nat → Dbl fp}
    (hf : Nil (f (node3 c.nx c.ny ix iy iz * 3 + d))) :
    Nil (fint3 c u vo f (node3 c.nx c.ny ix iy iz * 3 + d)) := by
  unfold fint3
  refine accum3_keep (P := fun f : Nat → Dbl fp => Nil (f (node3 c.nx c.ny ix iy iz * 3 + d))) hf ?_
  intro ex ey ez f hx hy hz hf
  unfold scatterVal
  refine accum_keep (P := fun f : Nat → Dbl fp => Nil (f (node3 c.nx c.ny ix iy iz * 3 + d))) hf ?_
  intro i f hi hf
  show Nil (if node3 c.nx c.ny ix iy iz * 3 + d = edof3 c.nx c.ny ex ey ez i then _ else _)
  split
  · rename_i e
    rw [← e]
    refine hf.add (elemRhs3_void (h.of_node hx hy (a := i / 3) (by omega) ?_) i)
    unfold edof3 at e
    exact (mul_add_inj (Nat.mod_lt _ (by omega)) hd e.symm).1
  · exact hf

/-- The residual at the node. -/
theorem resid (h : c.VoidNode ix iy iz) {d : Nat} (hd : d < 3) (f : Nat → Dbl fp) :
    Nil (resid3 c u vo f (node3 c.nx c.ny ix iy iz * 3 + d)) := by
  have hx := h.x; have hy := h.y; have hz := h.z
  have hlt : node3 c.nx c.ny ix iy iz * 3 + d < c.nx * c.ny * c.nz * 3 :=
    mul_add_lt (node3_lt (by omega) (by omega) (by omega)) hd
  unfold resid3
  simp only
  rw [if_pos hlt]
  refine Nil.neg ?_
  split
  · exact Nil.zero
  · refine h.fint hd ?_
    rw [if_pos hlt]
    exact Nil.zero

end Cfg.VoidNode

/-- Adding an element matrix keeps an entry zero (or NaN), unless the element has the row's node and
stiffness. -/
theorem addLoops_nil {nF W npe nn : Nat} {sn : Nat → Nat} {cr : Nat → Nat → Nat} {Ae v : Buf (Dbl fp)}
    (hAe : Ae.size = npe * nF * (npe * nF)) (hsn : ∀ k, k < npe → sn k < nn)
    (hcr : ∀ k n, k < npe → n < npe → cr k n < W) (hv : v.size = W * nF * (nn * nF)) {n0 d0 s0 d1 : Nat}
    (hd0 : d0 < nF) (hs0 : s0 < W) (hd1 : d1 < nF) (h0 : Nil (v.val (slotIx nF W n0 d0 s0 d1)))
    (hk : ∀ k, k < npe → sn k = n0 → ∀ q, Nil (Ae.val q)) :
    ∃ v', addLoops nF W npe sn cr Ae v = .ok v' ∧ v'.size = W * nF * (nn * nF) ∧
      Nil (v'.val (slotIx nF W n0 d0 s0 d1)) := by
  unfold addLoops
  refine loop_inv (fun _ (v : Buf (Dbl fp)) => v.size = W * nF * (nn * nF) ∧
    Nil (v.val (slotIx nF W n0 d0 s0 d1))) ⟨hv, h0⟩ fun i v hi hv => ?_
  refine loop_inv (fun _ (v : Buf (Dbl fp)) => v.size = W * nF * (nn * nF) ∧
    Nil (v.val (slotIx nF W n0 d0 s0 d1))) hv fun n v hn hv => ?_
  refine loop_inv (fun _ (v : Buf (Dbl fp)) => v.size = W * nF * (nn * nF) ∧
    Nil (v.val (slotIx nF W n0 d0 s0 d1))) hv fun k v hk' hv => ?_
  refine loop_inv (fun _ (v : Buf (Dbl fp)) => v.size = W * nF * (nn * nF) ∧
    Nil (v.val (slotIx nF W n0 d0 s0 d1))) hv fun j v hj hv => ?_
  have e1 : sn k * (nF * (W * nF)) + i * (W * nF) + cr k n * nF + j
      = slotIx nF W (sn k) i (cr k n) j := ix_form_add
  have e2 : k * (npe * nF * nF) + i * (npe * nF) + n * nF + j
      = (k * nF + i) * (npe * nF) + (n * nF + j) := by ring
  rw [e1, e2]
  have hlt := slotIx_lt (hsn k hk') hi (hcr k n hk' hn) hj
  have hlt2 : (k * nF + i) * (npe * nF) + (n * nF + j) < npe * nF * (npe * nF) :=
    mul_add_lt (mul_add_lt hk' hi) (mul_add_lt hn hj)
  rw [Buf.read_ok (by rw [hv.1]; exact hlt), M_bind_ok', Buf.read_ok (by rw [hAe]; exact hlt2), M_bind_ok',
    Buf.write_ok _ (by rw [hv.1]; exact hlt)]
  refine ⟨_, rfl, hv.1, ?_⟩
  show Nil (if slotIx nF W n0 d0 s0 d1 = slotIx nF W (sn k) i (cr k n) j then _ else _)
  split
  · rename_i e
    rw [← e]
    exact hv.2.add (hk k hk' ((slotIx_inj hd0 hs0 hd1 hi (hcr k n hk' hn) hj).1 e).1.symm _)
  · exact hv.2

/-- The diagonal of the assembled matrix at the node. -/
theorem assemblyMat_void (hc : c.Ok) (hd : c.dim = 3) {w w' : Work (Dbl fp)} (hw : w.Ok c)
    (h : assemblyMat c w = .ok w') {ix iy iz d : Nat} (hv : c.VoidNode ix iy iz) (hd3 : d < 3) :
    Nil (w'.A.vals.val (slotIx 3 27 (node3 c.nx c.ny ix iy iz) d 13 d)) := by
  unfold assemblyMat at h
  have hA := hw.A3 hd
  have hu := hw.u3 hd
  have hx := hv.x; have hy := hv.y; have hz := hv.z
  have hs : ∀ m : Ell (Dbl fp), Pattern3 m 3 c.nx c.ny c.nz →
      m.vals.size = 27 * 3 * (c.nx * c.ny * c.nz * 3) := fun m hm => by
    rw [hm.vals_size, hm.nnz, hm.nrow]
  have keep : ∀ (m : Ell (Dbl fp)) (v : Buf (Dbl fp)), Pattern3 m 3 c.nx c.ny c.nz →
      v.size = 27 * 3 * (c.nx * c.ny * c.nz * 3) → Pattern3 { m with vals := v } 3 c.nx c.ny c.nz :=
    fun m v hm hv => ⟨hm.nrow, hm.ncol, hm.nnz, hm.cols_size, by simp only; rw [hv, hm.nnz, hm.nrow], hm.cols⟩
  have hin := slotIx_lt (nF := 3) (W := 27) (s := 13) (node3_lt (i := ix) (j := iy) (k := iz) (nx := c.nx) (ny := c.ny) (nz := c.nz)
    (by omega) (by omega) (by omega)) hd3 (by omega) hd3
  obtain ⟨v0, h0, h0', h0''⟩ := ellSetZeroMat_eq hA.vals_size
  rw [h0, M_bind_ok', if_neg (by omega), if_pos hd] at h
  have hp0 : Nil (v0.val (slotIx 3 27 (node3 c.nx c.ny ix iy iz) d 13 d)) :=
    .inl (h0'' _ (by rw [hA.nnz, hA.nrow]; exact hin))
  obtain ⟨s1, h1, h1'⟩ := loop_inv (n := c.nx - 1)
    (f := fun ex s => loop (c.ny - 1) (fun ey s => loop (c.nz - 1) (fun ez s => do
      let r ← getElemMat3D c w.u w.varsOld s.varsNew ex ey ez
      let A ← ellAddStruct3D s.A ex ey ez ⟨576, r.Ae⟩ c.dim c.nx c.ny c.nz
      pure { A := A, varsNew := r.varsNew }) s) s)
    (fun _ (s : MatState (Dbl fp)) => (Pattern3 s.A 3 c.nx c.ny c.nz ∧ s.varsNew.size = c.numIntVars) ∧
      Nil (s.A.vals.val (slotIx 3 27 (node3 c.nx c.ny ix iy iz) d 13 d)))
    (s := ⟨{ w.A with vals := v0 }, w.varsNew⟩)
    ⟨⟨keep _ _ hA (by rw [h0', hA.nnz, hA.nrow]), hw.varsNew⟩, hp0⟩
    (by
      intro ex s hx hs1
      refine loop_inv (fun _ (s : MatState (Dbl fp)) => (Pattern3 s.A 3 c.nx c.ny c.nz ∧ s.varsNew.size = c.numIntVars) ∧
        Nil (s.A.vals.val (slotIx 3 27 (node3 c.nx c.ny ix iy iz) d 13 d))) hs1 ?_
      intro ey s hy hs1
      refine loop_inv (fun _ (s : MatState (Dbl fp)) => (Pattern3 s.A 3 c.nx c.ny c.nz ∧ s.varsNew.size = c.numIntVars) ∧
        Nil (s.A.vals.val (slotIx 3 27 (node3 c.nx c.ny ix iy iz) d 13 d))) hs1 ?_
      intro ez s hz hs1
      obtain ⟨v, e1, e2, e3⟩ := addLoops_nil (nF := 3) (W := 27) (npe := 8) (nn := c.nx * c.ny * c.nz)
        (sn := sn3D c.nx c.ny ex ey ez) (cr := colsRow3D)
        (Ae := ⟨576, elemMat3 c w.u.val w.varsOld ex ey ez⟩) (v := s.A.vals) rfl
        (fun k hk => by rw [sn3D_eq hk]; exact enode3_lt (by omega) (by omega) (by omega) hk)
        (fun k n hk hn => (colsRow3D_spec k hk n hn).1) (hs _ hs1.1.1) hd3 (by omega) hd3 hs1.2
        (fun k hk e q => elemMat3_void (hv.of_node hx hy hk (by rw [← sn3D_eq hk]; exact e)) q)
      refine ⟨⟨{ s.A with vals := v }, elemMatPut c w.u.val w.varsOld ex ey ez s.varsNew⟩, ?_,
        ⟨keep _ _ hs1.1.1 e2, by simpa using hs1.1.2⟩, e3⟩
      rw [getElemMat3D_eq hc hd hu hw.varsOld hs1.1.2 hx hy hz, M_bind_ok', hd,
        ellAddStruct3D_loops hs1.1.1.nnz e1]
      rfl)
  rw [h1, M_bind_ok'] at h
  obtain ⟨v, k1, k2, k3⟩ := ellSetBc3D_eq (m := s1.A) hc.nx hc.ny (hc.nz3 hd) h1'.1.1.nnz (hs _ h1'.1.1)
  rw [hd, k1, M_bind_ok'] at h
  cases h
  show Nil (v.val _)
  rw [(k3 ix iy iz d 13 d (by omega) (by omega) (by omega) hd3 (by omega) hd3).2 ?_]
  · exact h1'.2
  · unfold bc3 Bdry3
    omega

/-! ## Two dimensions -/

theorem ctan2D_void {m : Material (Dbl fp)} (h : m.Void) (i j : Nat) : Nil (ctan2D m i j) :=
  Nil.mul_l _ (Nil.div h.E _)

theorem elemRhs2_void {ex ey : Nat} (h : c.VoidElem ex ey 0) (i : Nat) : Nil (elemRhs2 c u ex ey i) := by
  unfold elemRhs2
  refine accum_keep (P := fun b : Nat → Dbl fp => Nil (b i)) Nil.zero fun gp b _ hb => ?_
  refine Nil.accum hb fun j _ => (Nil.mul_l _ ?_).mul_r _
  unfold sig2
  exact Nil.accum Nil.zero fun l _ => (ctan2D_void h _ _).mul_r _

theorem elemMat2_void {ex ey : Nat} (h : c.VoidElem ex ey 0) (q : Nat) : Nil (elemMat2 c ex ey q) := by
  unfold elemMat2
  refine accum_keep (P := fun b : Nat → Dbl fp => Nil (b q)) Nil.zero fun gp b _ hb => ?_
  refine Nil.accum hb fun j _ => (Nil.mul_l _ ?_).mul_r _
  exact Nil.accum Nil.zero fun l _ => (ctan2D_void h _ _).mul_r _

/-- An interior node all of whose elements have no stiffness. -/
structure Cfg.VoidNode2 (c : Cfg (Dbl fp)) (ix iy : Nat) : Prop where
  x : 0 < ix ∧ ix + 1 < c.nx
  y : 0 < iy ∧ iy + 1 < c.ny
  elems : ∀ ex ey, ex ≤ ix → ix ≤ ex + 1 → ey ≤ iy → iy ≤ ey + 1 → c.VoidElem ex ey 0

namespace Cfg.VoidNode2
variable {ix iy : Nat}

theorem of_node (h : c.VoidNode2 ix iy) {ex ey a : Nat} (hx : ex < c.nx - 1)
    (e : enode2 c.nx ex ey a = node2 c.nx ix iy) : c.VoidElem ex ey 0 := by
  have h1 := cornerX_le a; have h2 := cornerY_le a
  have hx' := h.x
  unfold enode2 at e
  obtain ⟨e1, e2⟩ := (node2_inj (by omega) (by omega)).1 e
  exact h.elems ex ey (by omega) (by omega) (by omega) (by omega)

theorem fint (h : c.VoidNode2 ix iy) {d : Nat} (hd : d < 2) {f : Nat → Dbl fp}
    (hf : Nil (f (node2 c.nx ix iy * 2 + d))) : Nil (fint2 c u f (node2 c.nx ix iy * 2 + d)) := by
  unfold fint2 accum2
  refine accum_keep (P := fun f : Nat → Dbl fp => Nil (f (node2 c.nx ix iy * 2 + d))) hf ?_
  intro ex f hx hf
  refine accum_keep (P := fun f : Nat → Dbl fp => Nil (f (node2 c.nx ix iy * 2 + d))) hf ?_
  intro ey f hy hf
  unfold scatterVal
  refine accum_keep (P := fun f : Nat → Dbl fp => Nil (f (node2 c.nx ix iy * 2 + d))) hf ?_
  intro i f hi hf
  show Nil (if node2 c.nx ix iy * 2 + d = edof2 c.nx ex ey i then _ else _)
  split
  · rename_i e
    rw [← e]
    refine hf.add (elemRhs2_void (h.of_node hx (a := i / 2) ?_) i)
    unfold edof2 at e
    exact (mul_add_inj (Nat.mod_lt _ (by omega)) hd e.symm).1
  · exact hf

/-- The residual at the node. -/
theorem resid (h : c.VoidNode2 ix iy) {d : Nat} (hd : d < 2) (f : Nat → Dbl fp) :
    Nil (resid2 c u f (node2 c.nx ix iy * 2 + d)) := by
  have hx := h.x; have hy := h.y
  have hlt : node2 c.nx ix iy * 2 + d < c.nx * c.ny * 2 := mul_add_lt (node2_lt (by omega) (by omega)) hd
  unfold resid2
  simp only
  rw [if_pos hlt]
  refine Nil.neg ?_
  split
  · exact Nil.zero
  · refine h.fint hd ?_
    rw [if_pos hlt]
    exact Nil.zero

end Cfg.VoidNode2

/-- The diagonal of the assembled matrix at the node. -/
theorem assemblyMat_void2 (hc : c.Ok) (hd : c.dim = 2) {w w' : Work (Dbl fp)} (hw : w.Ok c)
    (h : assemblyMat c w = .ok w') {ix iy d : Nat} (hv : c.VoidNode2 ix iy) (hd2 : d < 2) :
    Nil (w'.A.vals.val (slotIx 2 9 (node2 c.nx ix iy) d 4 d)) := by
  unfold assemblyMat at h
  have hA := hw.A2 hd
  have hx := hv.x; have hy := hv.y
  have hsz : w.A.vals.size = 9 * 2 * (c.nx * c.ny * 2) := by rw [hA.vals_size, hA.nnz, hA.nrow]
  have hin := slotIx_lt (nF := 2) (W := 9) (s := 4) (node2_lt (i := ix) (j := iy) (nx := c.nx) (ny := c.ny)
    (by omega) (by omega)) hd2 (by omega) hd2
  obtain ⟨v0, h0, h0', h0''⟩ := ellSetZeroMat_eq hA.vals_size
  rw [h0, M_bind_ok', if_pos hd] at h
  have hp0 : Nil (v0.val (slotIx 2 9 (node2 c.nx ix iy) d 4 d)) :=
    .inl (h0'' _ (by rw [hA.nnz, hA.nrow]; exact hin))
  obtain ⟨A1, h1, h1'⟩ := loop_inv (n := c.nx - 1)
    (f := fun ex A => loop (c.ny - 1) (fun ey A => do
      let Ae ← getElemMat2D c ex ey
      ellAddStruct2D A ex ey Ae c.dim c.nx c.ny) A)
    (fun _ (A : Ell (Dbl fp)) => (A.nnz = 9 * 2 ∧ A.vals.size = 9 * 2 * (c.nx * c.ny * 2)) ∧
      Nil (A.vals.val (slotIx 2 9 (node2 c.nx ix iy) d 4 d)))
    (s := { w.A with vals := v0 }) ⟨⟨hA.nnz, by show v0.size = _; rw [h0', hA.nnz, hA.nrow]⟩, hp0⟩
    (by
      intro ex A hx hA1
      refine loop_inv (fun _ (A : Ell (Dbl fp)) => (A.nnz = 9 * 2 ∧ A.vals.size = 9 * 2 * (c.nx * c.ny * 2)) ∧
        Nil (A.vals.val (slotIx 2 9 (node2 c.nx ix iy) d 4 d))) hA1 ?_
      intro ey A hy hA1
      obtain ⟨v, e1, e2, e3⟩ := addLoops_nil (nF := 2) (W := 9) (npe := 4) (nn := c.nx * c.ny)
        (sn := sn2D c.nx ex ey) (cr := colsRow2D) (Ae := ⟨64, elemMat2 c ex ey⟩) (v := A.vals) rfl
        (fun k hk => by rw [sn2D_eq hk]; exact enode2_lt (by omega) (by omega))
        (fun k n hk hn => (colsRow2D_spec k hk n hn).1) hA1.1.2 hd2 (by omega) hd2 hA1.2
        (fun k hk e q => elemMat2_void (hv.of_node hx (by rw [← sn2D_eq hk]; exact e)) q)
      refine ⟨{ A with vals := v }, ?_, ⟨hA1.1.1, e2⟩, e3⟩
      rw [getElemMat2D_eq hc hd hx hy, M_bind_ok', hd, ellAddStruct2D_loops hA1.1.1 e1])
  rw [h1, M_bind_ok'] at h
  obtain ⟨v, k1, k2, k3⟩ := ellSetBc2D_eq (m := A1) hc.nx hc.ny h1'.1.1 h1'.1.2
  rw [hd, k1, M_bind_ok'] at h
  cases h
  show Nil (v.val _)
  rw [(k3 ix iy d 4 d (by omega) (by omega) hd2 (by omega) hd2).2 ?_]
  · exact h1'.2
  · unfold bc2 Bdry2
    simp
    omega

/-! ## Either -/

/-- Node `n` has no stiffness: its diagonal and its residual are zero (or NaN).  `W` blocks in a row of the
matrix, block `slot` on the diagonal. -/
structure Cfg.Hole (c : Cfg (Dbl fp)) (W slot n : Nat) : Prop where
  inRow : slot < W
  node : n < c.nn
  dim : 0 < c.dim
  big : c.Big
  nnz : ∀ {w : Work (Dbl fp)}, w.Ok c → w.A.nnz = W * c.dim
  solve : ∀ (env : Env (Dbl fp)) (w : Work (Dbl fp)), Verif.solve env c w = (do
    let r ← cgSolve (env.cgJunk w.tick) { maxIts := cgMaxIts, its := env.solverIts w.tick, minTol := cgMaxTol,
                                          err := env.solverErr w.tick } w.A c.dim c.nn slot w.b w.du
    pure { w with du := r.2, tick := w.tick + 1 })
  mat : ∀ {w w' : Work (Dbl fp)}, w.Ok c → assemblyMat c w = .ok w' →
    Nil (w'.A.vals.val (slotIx c.dim W n 0 slot 0))
  rhs : ∀ {w : Work (Dbl fp)} {r : RhsOut (Dbl fp)}, w.Ok c → assemblyRhs c w = .ok r →
    Nil (r.work.b.val (n * c.dim + 0)) ∧ r.norm = normOf (c.nn * c.dim) r.work.b.val

theorem Cfg.VoidNode.hole {ix iy iz : Nat} (hv : c.VoidNode ix iy iz) (hc : c.Ok) (hd : c.dim = 3) :
    c.Hole 27 13 (node3 c.nx c.ny ix iy iz) where
  inRow := by omega
  node := by
    have hx := hv.x; have hy := hv.y; have hz := hv.z
    show _ < c.nx * c.ny * c.nz
    exact node3_lt (by omega) (by omega) (by omega)
  dim := by omega
  big := by
    have hx := hv.x; have hy := hv.y; have hz := hv.z
    exact ⟨by omega, by omega, fun _ => by omega⟩
  nnz hw := by rw [(hw.A3 hd).nnz, hd]
  solve env w := by
    unfold Verif.solve
    rw [if_neg (by omega), if_pos hd]
    simp only [ellSolveCgpdStruct]
    rw [if_pos (Or.inr hd), if_neg (by omega)]
    cases cgSolve (env.cgJunk w.tick) ⟨cgMaxIts, env.solverIts w.tick, cgMaxTol, env.solverErr w.tick⟩
      w.A c.dim c.nn 13 w.b w.du <;> rfl
  mat hw h := by rw [hd]; exact assemblyMat_void hc hd hw h hv (d := 0) (by omega)
  rhs {w r} hw h := by
    have hN : c.nn * c.dim = c.nx * c.ny * c.nz * 3 := by rw [hd]; rfl
    rw [assemblyRhs3_eq hc hd (hw.u3 hd) (by rw [hw.b, hN]) hw.varsOld hw.varsNew] at h
    cases h
    rw [hN, hd]
    exact ⟨hv.resid (by omega) _, rfl⟩

theorem Cfg.VoidNode2.hole {ix iy : Nat} (hv : c.VoidNode2 ix iy) (hc : c.Ok) (hd : c.dim = 2) :
    c.Hole 9 4 (node2 c.nx ix iy) where
  inRow := by omega
  node := by
    have hx := hv.x; have hy := hv.y
    rw [hc.nn2 hd]
    exact node2_lt (by omega) (by omega)
  dim := by omega
  big := by
    have hx := hv.x; have hy := hv.y
    exact ⟨by omega, by omega, fun h => by omega⟩
  nnz hw := by rw [(hw.A2 hd).nnz, hd]
  solve env w := by
    unfold Verif.solve
    rw [if_pos hd]
    simp only [ellSolveCgpd2D, hc.nn2 hd]
    cases cgSolve (env.cgJunk w.tick) ⟨cgMaxIts, env.solverIts w.tick, cgMaxTol, env.solverErr w.tick⟩
      w.A c.dim (c.nx * c.ny) 4 w.b w.du <;> rfl
  mat hw h := by rw [hd]; exact assemblyMat_void2 hc hd hw h hv (d := 0) (by omega)
  rhs {w r} hw h := by
    have hN : c.nn * c.dim = c.nx * c.ny * 2 := by rw [hc.nn2 hd, hd]
    rw [assemblyRhs2_eq hc hd (by rw [hw.u, hN]) (by rw [hw.b, hN])] at h
    cases h
    rw [hN, hd]
    exact ⟨hv.resid (by omega) _, rfl⟩

/-! ## Newton iterations -/

variable {env : Env (Dbl fp)}

/-- What is below the tolerance of the linear solver is below that of the Newton loop. -/
theorem lt_tol {a : Dbl fp} (h : Scalar.lt a cgMaxTol = true) : Scalar.lt a nrMaxTol = true := by
  have key : ∀ x : ℝ, 0 ≤ x → x ≤ 1 → ∃ h1 h2, Dbl.round fp x = .fin (fp.rnd x) h1 h2 := fun x h0 h1 => by
    have e0 : fp.rnd 0 = 0 := fp.fix _ fp.zero
    have e1 : fp.rnd 1 = 1 := fp.fix _ fp.one
    have k0 := fp.mono h0
    have k1 := fp.mono h1
    rw [e0] at k0
    rw [e1] at k1
    have : |fp.rnd x| ≤ fp.top := by rw [abs_of_nonneg k0]; exact k1.trans fp.one_le
    exact ⟨fp.mem x, this, by unfold Dbl.round; rw [dif_pos this]⟩
  obtain ⟨a1, a2, e1⟩ := key 1.0e-8 (by norm_num) (by norm_num)
  obtain ⟨b1, b2, e2⟩ := key 1.0e-5 (by norm_num) (by norm_num)
  have f1 : (cgMaxTol : Dbl fp) = .fin (fp.rnd 1.0e-8) a1 a2 := e1
  have f2 : (nrMaxTol : Dbl fp) = .fin (fp.rnd 1.0e-5) b1 b2 := e2
  have hle : fp.rnd 1.0e-8 ≤ fp.rnd 1.0e-5 := fp.mono (by norm_num)
  rw [f1] at h
  rw [f2]
  cases a with
  | fin x h1 h2 =>
    have h : decide (x < fp.rnd 1.0e-8) = true := h
    show decide (x < fp.rnd 1.0e-5) = true
    rw [decide_eq_true_iff] at h ⊢
    exact h.trans_le hle
  | inf s => exact h
  | nan => exact h

/-- A correction in a cell with a node without stiffness. -/
theorem nrCorrect_void (hc : c.Ok) {w w' : Work (Dbl fp)} (hw : w.Ok c) (h : nrCorrect env c w = .ok w')
    {W slot n : Nat} (hv : c.Hole W slot n) (hb : Nil (w.b.val (n * c.dim + 0)))
    (hlt : Scalar.lt (normOf (c.nn * c.dim) w.b.val) nrMaxTol = false) {q : Nat} (hq : q < c.nn * c.dim) :
    IsNan (w'.u.val q) := by
  obtain ⟨A, vn, du, h1, h2, h3, -⟩ := nrCorrect_eq (env := env) hc hw
  obtain ⟨A', vn', k1, k2, -, k4⟩ := assemblyMat_bc hc hw
  rw [h1] at k1
  cases k1
  rw [h3] at h
  cases h
  show IsNan (if q < c.nn * c.dim then w.u.val q + du.val q else w.u.val q)
  rw [if_pos hq]
  refine IsNan.add_r _ ?_
  let w1 : Work (Dbl fp) := { w with
    A := A, varsNew := vn
    du := ⟨c.nn * c.dim, fun k => if k < c.nn * c.dim then 0 else w.du.val k⟩ }
  have hw1 : w1.Ok c :=
    ⟨k2.u, rfl, k2.b, k2.elemStress, k2.elemStrain, k2.varsOld, k2.varsNew, k2.A2, k2.A3⟩
  obtain ⟨hwf, hnr⟩ := hw1.wf hc
  have hnr : A.nrow = c.nn * c.dim := hnr
  have hA := hv.mat hw h1
  have hcg : Scalar.lt (normOf A.nrow w.b.val) cgMaxTol = false := by
    rw [hnr]
    cases hl : Scalar.lt (normOf (c.nn * c.dim) w.b.val) cgMaxTol with
    | false => rfl
    | true => rw [lt_tol hl] at hlt; cases hlt
  rw [hv.solve, bind_ok_iff] at h2
  obtain ⟨⟨s', y⟩, e, h2⟩ := h2
  simp only [pure_ok_iff] at h2
  have e2 : du = y := (congrArg Work.du h2).symm
  rw [e2]
  exact cgSolve_void hwf (hv.nnz hw1) hv.inRow (by rw [hnr]) (by rw [hw1.b, hnr]) (by rw [hw1.du, hnr])
    (fun i hi => if_pos (by rw [← hnr]; exact hi)) _ _ e hv.node hv.dim hA hb hcg (by rw [hnr]; exact hq)

/-- A Newton loop that starts with a NaN in sight. -/
theorem nrLoop_hit (hc : c.Ok) : ∀ (fuel : Nat) {w : Work (Dbl fp)}, w.Ok c → w.Hit c → ∀ {out : NrOut (Dbl fp)},
    nrLoop env c fuel w = .ok out → ∀ q, q < c.nn * c.dim → IsNan (out.work.u.val q) := by
  intro fuel w hw hh out h
  cases fuel with
  | zero => cases h
  | succ fuel =>
    obtain ⟨b, vn, nm, nl, h1, h2⟩ := rhs_ok hc hw
    obtain ⟨h3, k, hk, h4⟩ := rhs_nan hc hw hh h1
    rw [nrLoop, h1, M_bind_ok'] at h
    rw [if_neg (by rw [h3.lt_l]; exact Bool.false_ne_true)] at h
    rw [bind_ok_iff] at h
    obtain ⟨w', h5, h⟩ := h
    have h6 := fun q hq => nrCorrect_nan hc h2.ok h5 hk h4 (q := q) hq
    cases hp : env.peek w'.tick with
    | none => rw [hp] at h; cases h
    | some v =>
      rw [hp] at h
      simp only at h
      rw [if_neg (by rw [h3.lt_r]; rintro ⟨-, h⟩; cases h)] at h
      cases h
      exact h6

/-- `newton_raphson` in a cell with a node without stiffness: it accepts the displacements it is given, or it
leaves NaN at every node. -/
theorem newtonRaphson_void (hc : c.Ok) {W slot n : Nat} (hv : c.Hole W slot n)
    {w : Work (Dbl fp)} (hw : w.Ok c) {out : NrOut (Dbl fp)} (h : newtonRaphson env c w = .ok out) :
    (Scalar.lt out.err nrMaxTol = true ∧ out.work.u = w.u) ∨
      ∀ q, q < c.nn * c.dim → IsNan (out.work.u.val q) := by
  unfold newtonRaphson at h
  cases hf : env.fuel with
  | zero => rw [hf] at h; cases h
  | succ fuel =>
    rw [hf] at h
    obtain ⟨b, vn, nm, nl, h1, h2⟩ := rhs_ok hc hw
    rw [nrLoop, h1, M_bind_ok'] at h
    obtain ⟨hb, hnm⟩ := hv.rhs hw h1
    have hnm : nm = normOf (c.nn * c.dim) b.val := hnm
    by_cases hlt : Scalar.lt nm nrMaxTol = true
    · rw [if_pos hlt] at h
      cases h
      exact Or.inl ⟨hlt, rfl⟩
    · rw [if_neg hlt, bind_ok_iff] at h
      obtain ⟨w', h5, h⟩ := h
      have h6 := fun q hq => nrCorrect_void hc h2.ok h5 hv hb
        (by show Scalar.lt (normOf _ b.val) _ = false
            rw [← hnm]; exact Bool.not_eq_true _ ▸ hlt) (q := q) hq
      right
      cases hp : env.peek w'.tick with
      | none => rw [hp] at h; cases h
      | some v =>
        rw [hp] at h
        simp only at h
        split at h
        · have hok : w'.Ok c := by
            obtain ⟨A, vn, du, h1, h2', h3, h4⟩ := nrCorrect_eq (env := env) hc h2.ok
            rw [h3] at h5; cases h5; exact h4.ok
          have hok' : Work.Ok c { w' with tick := w'.tick + 1 } :=
            ⟨hok.u, hok.du, hok.b, hok.elemStress, hok.elemStrain, hok.varsOld, hok.varsNew, hok.A2, hok.A3⟩
          have hp' : Work.Poisoned c { w' with tick := w'.tick + 1 } := fun q hq _ => h6 q hq
          exact nrLoop_hit hc fuel hok' ((hp'.tainted hc hv.big).hit hc) h
        · cases h
          exact h6

/-! ## Public calls -/

/-- The interior displacements are `f`, or all are NaN. -/
def Work.Frozen (c : Cfg (Dbl fp)) (f : Nat → Dbl fp) (w : Work (Dbl fp)) : Prop :=
  (∀ q, q < c.nn * c.dim → ¬ c.OnBdry q → w.u.val q = f q) ∨ w.Poisoned c

/-- Boundary displacements and Newton iterations. -/
theorem solved_frozen (hc : c.Ok) {W slot n : Nat} (hv : c.Hole W slot n)
    {w w1 : Work (Dbl fp)} (hw : w.Ok c) {eps f : Nat → Dbl fp} (hF : w.Frozen c f)
    (h1 : setDispl c w eps = .ok w1) {o : NrOut (Dbl fp)} (h2 : newtonRaphson env c w1 = .ok o) :
    o.work.Frozen c f := by
  obtain ⟨u, h1', hf1⟩ := setDispl_ok hc hw eps
  have hw1 : w1.Ok c := by rw [h1] at h1'; cases h1'; exact hf1.ok
  rcases hF with hF | hF
  · rcases newtonRaphson_void hc hv hw1 h2 with ⟨-, h⟩ | h
    · left
      intro q hq hb
      rw [h, setDispl_gen hc hw.u h1]
      show c.displV eps w.u.val q = _
      rw [displV_in hc _ _ hb]; exact hF q hq hb
    · exact Or.inr fun q hq _ => h q hq
  · exact Or.inr fun q hq _ => (newtonRaphson_nan hc hw1
      (setDispl_hit hc hw h1 (Or.inl (hF.tainted hc hv.big))) h2).2.1 q hq

theorem solveStrain_frozen (hc : c.Ok) {W slot n : Nat} (hv : c.Hole W slot n)
    {w : Work (Dbl fp)} (hw : w.Ok c) {eps f : Nat → Dbl fp} (hF : w.Frozen c f) {r : PertOut (Dbl fp)}
    (h : solveStrain env c w eps = .ok r) : r.nr.work.Frozen c f := by
  unfold solveStrain at h
  simp only [bind_ok_iff, pure_ok_iff] at h
  obtain ⟨w1, h1, o, h2, a, h3, rfl⟩ := h
  have : o.work.Frozen c f := solved_frozen hc hv hw hF h1 h2
  exact this

theorem solveGp_frozen (hc : c.Ok) {W slot n : Nat} (hv : c.Hole W slot n)
    {g : Gp (Dbl fp)} {w : Work (Dbl fp)} {s : GpWork (Dbl fp)} (hw : w.Ok c) {f : Nat → Dbl fp}
    (hF : w.Frozen c f) (h : solveGp env c g w = .ok s) : s.work.Frozen c f := by
  unfold solveGp at h
  simp only [bind_ok_iff] at h
  obtain ⟨r, hr, g1, hg1, hl⟩ := h
  refine (loop_ok_inv (fun n (s : GpWork (Dbl fp)) => s.work.Ok c ∧ s.work.Frozen c f) hl
    ⟨((solveStrain_safe (env := env) hc hw g.macroStrain).post hr).ok, solveStrain_frozen hc hv hw hF hr⟩ ?_).2
  rintro n s s' hn ⟨a1, a2⟩ hs
  unfold ctanGp at hs
  simp only [bind_ok_iff, pure_ok_iff] at hs
  obtain ⟨r', hr', rfl⟩ := hs
  exact ⟨((solveStrain_safe (env := env) hc a1 _).post hr').ok, solveStrain_frozen hc hv a1 a2 hr'⟩

theorem homogenizeGp_frozen (hc : c.Ok) {W slot n : Nat} (hv : c.Hole W slot n)
    {g : Gp (Dbl fp)} {w : Work (Dbl fp)} {s : GpWork (Dbl fp)} (hw : w.Ok c) (hg : g.Ok c) {f : Nat → Dbl fp}
    (hF : w.Frozen c f) (h : homogenizeGp env c g w = .ok s) : s.work.Frozen c f := by
  unfold homogenizeGp at h
  obtain ⟨old, h1, h2⟩ := loadVars_ok hg hw.varsOld
  obtain ⟨l, h3⟩ := isLinear_ok hc (-1.0e10) g.macroStrain
  rw [h1, M_bind_ok', h3, M_bind_ok'] at h
  have hw' : Work.Ok c { w with varsOld := old, invMax := l.2 } :=
    ⟨hw.u, hw.du, hw.b, hw.elemStress, hw.elemStrain, h2, hw.varsNew, hw.A2, hw.A3⟩
  by_cases hl : l.1 = true ∧ g.intVarsN.isNone = true
  · rw [if_pos hl, pure_ok_iff] at h
    subst h
    exact hF
  · rw [if_neg hl] at h
    simp only [bind_ok_iff, pure_ok_iff] at h
    obtain ⟨s2, h7, rfl⟩ := h
    have : s2.work.Frozen c f := solveGp_frozen hc hv hw' (f := f) hF h7
    exact this

theorem homogenizeList_frozen (hc : c.Ok) {W slot n : Nat} (hv : c.Hole W slot n)
    {l : List (Gp (Dbl fp))} {w : Work (Dbl fp)} {r : ListWork (Dbl fp)} (hw : w.Ok c) (hl : ∀ g ∈ l, g.Ok c)
    {f : Nat → Dbl fp} (hF : w.Frozen c f) (h : homogenizeList env c l w = .ok r) : r.work.Frozen c f := by
  induction l generalizing w r with
  | nil =>
    simp only [homogenizeList, pure_ok_iff] at h
    subst h; exact hF
  | cons gp l ih =>
    simp only [homogenizeList, bind_ok_iff, pure_ok_iff] at h
    obtain ⟨s, hs, r1, hr, rfl⟩ := h
    have hg := hl gp (by simp)
    have : r1.work.Frozen c f := ih ((homogenizeGp_safe (env := env) hc hw hg).post hs).1
      (fun g h => hl g (by simp [h])) (homogenizeGp_frozen hc hv hw hg hF hs) hr
    exact this

theorem output_frozen {W slot n : Nat} (hv : c.Hole W slot n) {s s' : ObjFiles (Dbl fp)}
    (hs : s.obj.Ok) (he : s.obj.cfg = c) {f : Nat → Dbl fp} (hF : s.obj.work.Frozen c f) {t id : Int}
    (h : output env s t id = .ok s') : s'.obj.work.Frozen c f := by
  subst he
  unfold output at h
  split at h
  · rw [pure_ok_iff] at h; subst h; exact hF
  · rename_i g hg
    have hmem := findGp_mem' hg
    obtain ⟨old, h1, h2⟩ := loadVars_ok (hs.gauss g hmem) hs.work.varsOld
    have hw : Work.Ok s.obj.cfg { s.obj.work with varsOld := old } :=
      ⟨hs.work.u, hs.work.du, hs.work.b, hs.work.elemStress, hs.work.elemStrain, h2,
        hs.work.varsNew, hs.work.A2, hs.work.A3⟩
    have hF' : Work.Frozen s.obj.cfg f { s.obj.work with varsOld := old } := hF
    obtain ⟨u, h3, h4⟩ := setDispl_ok hs.cfg hw g.macroStrain
    simp only at h
    rw [h1, M_bind_ok', h3, M_bind_ok'] at h
    simp only [bind_ok_iff, pure_ok_iff] at h
    obtain ⟨r, hr, w', hw', t', -, rfl⟩ := h
    have hr' := (newtonRaphson_safe hs.cfg h4.ok).post hr
    have k := solved_frozen hs.cfg hv hw hF' h3 hr
    have hu : w'.u = r.work.u := by
      rcases hs.cfg.dim with hd | hd
      · obtain ⟨e, s, h1, -⟩ := calcFields2_eq hs.cfg hd hr'.ok
        rw [h1] at hw'; cases hw'; rfl
      · obtain ⟨e, s, h1, -⟩ := calcFields3_eq hs.cfg hd hr'.ok
        rw [h1] at hw'; cases hw'; rfl
    unfold Work.Frozen Work.Poisoned at k ⊢
    show (∀ q, _ → _ → w'.u.val q = f q) ∨ (∀ q, _ → _ → IsNan (w'.u.val q))
    rw [hu]; exact k

theorem step_frozen {s : ObjFiles (Dbl fp)} {W slot n : Nat}
    (hv : s.obj.cfg.Hole W slot n) (hs : s.obj.Ok) {f : Nat → Dbl fp}
    (hp : s.obj.work.Frozen s.obj.cfg f) {k : Call (Dbl fp)} {r : Stepped (Dbl fp)} (h : step env s k = .ok r) :
    r.state.obj.work.Frozen s.obj.cfg f := by
  cases k with
  | setStrain id eps => simp only [step, pure_ok_iff] at h; subst h; exact hp
  | homogenize =>
    simp only [step, homogenize, bind_ok_iff, pure_ok_iff] at h
    obtain ⟨o, ⟨r1, h1, rfl⟩, rfl⟩ := h
    exact homogenizeList_frozen hs.cfg hv hs.work hs.gauss hp h1
  | getStress id buf =>
    simp only [step, pure_ok_iff] at h; subst h
    unfold getMacroStress; split <;> exact hp
  | getCtan id buf =>
    simp only [step, pure_ok_iff] at h; subst h
    unfold getMacroCtan; split <;> exact hp
  | getNl id =>
    simp only [step, pure_ok_iff] at h; subst h
    unfold getNlFlag; split <;> exact hp
  | updateVars =>
    simp only [step, updateVars, bind_ok_iff, pure_ok_iff] at h
    obtain ⟨o, ⟨l, h1, rfl⟩, rfl⟩ := h
    exact hp
  | output t id =>
    simp only [step, bind_ok_iff, pure_ok_iff] at h
    obtain ⟨s', h1, rfl⟩ := h
    exact output_frozen hv hs rfl hp h1
  | writeInfo =>
    simp only [step, writeInfoFiles, bind_ok_iff, pure_ok_iff] at h
    obtain ⟨o, ⟨v, h1, rfl⟩, rfl⟩ := h
    exact hp

theorem run_frozen {calls : List (Call (Dbl fp))} {s s' : ObjFiles (Dbl fp)}
    {W slot n : Nat} (hv : s.obj.cfg.Hole W slot n) (hs : s.obj.Ok) {f : Nat → Dbl fp}
    (hp : s.obj.work.Frozen s.obj.cfg f) (h : run env calls s = .ok s') : s'.obj.work.Frozen s.obj.cfg f := by
  induction calls generalizing s with
  | nil => simp only [run, pure_ok_iff] at h; subst h; exact hp
  | cons k l ih =>
    simp only [run, bind_ok_iff] at h
    obtain ⟨r, hr, h⟩ := h
    have e := step_cfg hr
    have := step_frozen hv hs hp hr
    rw [← e] at this hv ⊢
    exact ih hv ((step_sane hs k).post hr) this h

theorem calcCtanLin_frozen (hc : c.Ok) {W slot n : Nat} (hv : c.Hole W slot n)
    {w : Work (Dbl fp)} (hw : w.Ok c) {f : Nat → Dbl fp} (hF : w.Frozen c f) {ctan : Nat → Dbl fp}
    {r : CtanState (Dbl fp)} (h : calcCtanLin env c ctan w = .ok r) : r.work.Frozen c f := by
  unfold calcCtanLin at h
  refine (loop_ok_inv (fun n (s : CtanState (Dbl fp)) => s.work.Ok c ∧ s.work.Frozen c f) h ⟨hw, hF⟩ ?_).2
  rintro n s s' hn ⟨a1, a2⟩ hs
  simp only [bind_ok_iff, pure_ok_iff] at hs
  obtain ⟨r', hr', rfl⟩ := hs
  exact ⟨((solveStrain_safe (env := env) hc a1 _).post hr').ok, solveStrain_frozen hc hv a1 a2 hr'⟩

/-! ## Results -/

/-- A cell problem: nothing is corrected, or the stress is NaN. -/
theorem solveStrain_void (hc : c.Ok) {W slot n : Nat} (hv : c.Hole W slot n)
    {w : Work (Dbl fp)} (hw : w.Ok c) {eps : Nat → Dbl fp} {r : PertOut (Dbl fp)}
    (h : solveStrain env c w eps = .ok r) :
    Scalar.lt r.nr.err nrMaxTol = true ∨ ∀ v, IsNan (r.sig v) := by
  unfold solveStrain at h
  simp only [bind_ok_iff, pure_ok_iff] at h
  obtain ⟨w1, h1, o, h2, a, h3, rfl⟩ := h
  obtain ⟨u, h1', hf1⟩ := setDispl_ok hc hw eps
  have hw1 : w1.Ok c := by rw [h1] at h1'; cases h1'; exact hf1.ok
  have hwo := ((newtonRaphson_safe (env := env) hc hw1).post h2).ok
  rcases newtonRaphson_void hc hv hw1 h2 with ⟨h, -⟩ | h
  · exact Or.inl h
  · right
    intro v
    have hp : o.work.Poisoned c := fun q hq _ => h q hq
    show IsNan (a.ave v)
    rw [calcAveStress_gen hc hwo h3]
    exact aveV_nan hc (inGrid_zero hc) (hp.elem hc hv.big (inGrid_zero hc)) v

/-- Each of the results of a Gauss point: its error is below the tolerance, or it is NaN. -/
structure VoidResults (c : Cfg (Dbl fp)) (g : Gp (Dbl fp)) : Prop where
  stress : Scalar.lt (g.nrErr 0) nrMaxTol = true ∨ ∀ v, v < c.nvoi → IsNan (g.macroStress v)
  ctan : ∀ i, i < c.nvoi → Scalar.lt (g.nrErr (1 + i)) nrMaxTol = true ∨
    ∀ v, v < c.nvoi → IsNan (g.macroCtan (v * c.nvoi + i))

theorem solveGp_void (hc : c.Ok) {W slot n : Nat} (hv : c.Hole W slot n)
    {g : Gp (Dbl fp)} {w : Work (Dbl fp)} {s : GpWork (Dbl fp)} (hw : w.Ok c)
    (h : solveGp env c g w = .ok s) : VoidResults c s.gp := by
  unfold solveGp at h
  simp only [bind_ok_iff] at h
  obtain ⟨r, hr, g1, hg1, hl⟩ := h
  have k1 := solveStrain_void hc hv hw hr
  obtain ⟨-, hs1, -⟩ := storeVars_inv hg1
  have hs1' : g1.macroStress = setFirst c.nvoi r.sig g.macroStress := hs1
  have key := loop_ok_inv (fun n (s : GpWork (Dbl fp)) => s.work.Ok c ∧
      (Scalar.lt (s.gp.nrErr 0) nrMaxTol = true ∨ ∀ v, v < c.nvoi → IsNan (s.gp.macroStress v)) ∧
      (∀ i, i < n → Scalar.lt (s.gp.nrErr (1 + i)) nrMaxTol = true ∨
        ∀ v, v < c.nvoi → IsNan (s.gp.macroCtan (v * c.nvoi + i)))) hl
    ⟨((solveStrain_safe (env := env) hc hw g.macroStrain).post hr).ok, k1.imp id fun h v hv => by
      show IsNan (g1.macroStress v)
      rw [hs1']; unfold setFirst; rw [if_pos hv]; exact h v, fun _ h => absurd h (by omega)⟩ (by
      rintro n s s' hn ⟨a1, a2, a3⟩ hs
      unfold ctanGp at hs
      simp only [bind_ok_iff, pure_ok_iff] at hs
      obtain ⟨r', hr', rfl⟩ := hs
      have k1' := solveStrain_void hc hv a1 hr'
      refine ⟨((solveStrain_safe (env := env) hc a1 _).post hr').ok, ?_, fun i hi => ?_⟩
      · show Scalar.lt (if 0 = 1 + n then r'.nr.err else s.gp.nrErr 0) nrMaxTol = true ∨ _
        rw [if_neg (by omega)]; exact a2
      · show Scalar.lt (if 1 + i = 1 + n then r'.nr.err else s.gp.nrErr (1 + i)) nrMaxTol = true ∨
          ∀ v, v < c.nvoi → IsNan (setCol c.nvoi n _ s.gp.macroCtan (v * c.nvoi + i))
        by_cases e : i = n
        · subst e
          rw [if_pos rfl]
          refine k1'.imp id fun h v hv' => ?_
          rw [setCol_at hn hv']
          exact ((h v).sub_l _).div_l _
        · rw [if_neg (by omega)]
          refine (a3 i (by omega)).imp id fun h v hv' => ?_
          rw [setCol_off hn (by omega) e]
          exact h v hv')
  exact ⟨key.2.1, key.2.2⟩

theorem homogenizeGp_void (hc : c.Ok) {W slot n : Nat} (hv : c.Hole W slot n)
    {g : Gp (Dbl fp)} {w : Work (Dbl fp)} {s : GpWork (Dbl fp)} (hw : w.Ok c) (hg : g.Ok c)
    (h : homogenizeGp env c g w = .ok s) : Props.TakesLinearPath c g ∨ VoidResults c s.gp := by
  unfold homogenizeGp at h
  obtain ⟨old, h1, h2⟩ := loadVars_ok hg hw.varsOld
  obtain ⟨l, h3⟩ := isLinear_ok hc (-1.0e10) g.macroStrain
  rw [h1, M_bind_ok', h3, M_bind_ok'] at h
  have h6 := Props.isLinear_eq h3
  have hw' : Work.Ok c { w with varsOld := old, invMax := l.2 } :=
    ⟨hw.u, hw.du, hw.b, hw.elemStress, hw.elemStrain, h2, hw.varsNew, hw.A2, hw.A3⟩
  by_cases hl : l.1 = true ∧ g.intVarsN.isNone = true
  · exact Or.inl ⟨Option.isNone_iff_eq_none.mp hl.2, h6 ▸ hl.1⟩
  · rw [if_neg hl] at h
    simp only [bind_ok_iff, pure_ok_iff] at h
    obtain ⟨s2, h7, rfl⟩ := h
    have := solveGp_void hc hv hw' h7
    exact Or.inr ⟨this.stress, this.ctan⟩

theorem homogenizeList_void (hc : c.Ok) {W slot n : Nat} (hv : c.Hole W slot n)
    {l : List (Gp (Dbl fp))} {w : Work (Dbl fp)} {r : ListWork (Dbl fp)} (hw : w.Ok c) (hl : ∀ g ∈ l, g.Ok c)
    (h : homogenizeList env c l w = .ok r) :
    List.Forall₂ (fun g g' => Props.TakesLinearPath c g ∨ VoidResults c g') l r.gauss := by
  induction l generalizing w r with
  | nil =>
    simp only [homogenizeList, pure_ok_iff] at h
    subst h; exact List.Forall₂.nil
  | cons gp l ih =>
    simp only [homogenizeList, bind_ok_iff, pure_ok_iff] at h
    obtain ⟨s, hs, r1, hr, rfl⟩ := h
    have hg := hl gp (by simp)
    exact List.Forall₂.cons (homogenizeGp_void hc hv hw hg hs)
      (ih ((homogenizeGp_safe (env := env) hc hw hg).post hs).1 (fun g h => hl g (by simp [h])) hr)

end Verif
