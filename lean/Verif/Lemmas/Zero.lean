import Verif.Lemmas.Newton
import Verif.Lemmas.Fp
import Verif.Props.Newton

/-!
# Zeros in rounded arithmetic

Adding zero, multiplying by zero and by one are exact in every rounded arithmetic without infinities.
That is enough for the boundary rows of the stiffness matrix to stay rows of the identity, and for
the corrections of the solver to vanish there.
-/

namespace Verif
open Spec Finset

/-- Exact laws of zero. -/
class ZeroLaws (α : Type) [Scalar α] : Prop where
  mul_zero : ∀ x : α, x * 0 = 0
  zero_mul : ∀ x : α, 0 * x = 0
  add_zero : ∀ x : α, x + 0 = x
  sub_zero : ∀ x : α, x - 0 = x
  neg_zero : (-0 : α) = 0

instance : ZeroLaws ℝ := ⟨mul_zero, zero_mul, add_zero, sub_zero, neg_zero⟩

instance (fp : Fp) : ZeroLaws (Fl fp) where
  mul_zero x := Fl.ext (by simp)
  zero_mul x := Fl.ext (by simp)
  add_zero x := Fl.ext (by simp)
  sub_zero x := Fl.ext (by simp)
  neg_zero := Fl.ext (by simp)

section
variable {α : Type} [Scalar α] [ZeroLaws α]

theorem accum_zero {n : Nat} {f : Nat → α} (h : ∀ i, i < n → f i = 0) :
    accum n (fun i s => s + f i) (0 : α) = 0 := by
  induction n with
  | zero => rfl
  | succ n ih =>
    show accum n (fun i s => s + f i) 0 + f n = 0
    rw [ih fun i hi => h i (by omega), h n (by omega), ZeroLaws.add_zero]

/-- A row that maps vectors vanishing in its place to zero. -/
def ZeroRow (m : Ell α) (i : Nat) : Prop := ∀ x : Nat → α, x i = 0 → rowAcc m x i = 0

theorem zeroRow_id {m : Ell α} {nF W n d slot : Nat} (hnnz : m.nnz = W * nF)
    (hv : ∀ s d2, s < W → d2 < nF → m.vals.val (slotIx nF W n d s d2)
      = if s = slot ∧ d = d2 then 1 else 0)
    (hc : m.cols.val (slotIx nF W n d slot d) = ((n * nF + d : Nat) : Int)) :
    ZeroRow m (n * nF + d) := by
  intro x hx
  unfold rowAcc
  refine accum_zero fun t ht => ?_
  rw [hnnz] at ht ⊢
  obtain ⟨s, d2, hs, h2, rfl⟩ := row_slot ht
  rw [slotIx_eq_row, hv s d2 hs h2]
  by_cases h : s = slot ∧ d = d2
  · obtain ⟨rfl, rfl⟩ := h
    rw [hc, Int.toNat_natCast, hx, ZeroLaws.mul_zero]
  · rw [if_neg h, ZeroLaws.zero_mul]

/-- Dof `q` lies on the boundary of the grid of the object. -/
def Cfg.OnBdry {α : Type} (c : Cfg α) (q : Nat) : Prop :=
  if c.dim = 2 then BdryDof2 2 c.nx c.ny q else BdryDof3 3 c.nx c.ny c.nz q

theorem bcMat_zeroRow {c : Cfg α} (hc : c.Ok) {A : Ell α} (h : BcMat c A) {q : Nat}
    (hq : q < c.nn * c.dim) (hb : c.OnBdry q) : ZeroRow A q := by
  unfold Cfg.OnBdry at hb
  rcases hc.dim with hd | hd
  · obtain ⟨m, hm, e⟩ := h.1 hd
    rw [if_pos hd] at hb
    obtain ⟨v, e1, e2, e3⟩ := ellSetBc2D_eq (m := m) hc.nx hc.ny hm.nnz
      (by rw [hm.vals_size, hm.nnz, hm.nrow])
    rw [e1] at e
    cases e
    obtain ⟨i, j, d, hi, hj, hd', rfl⟩ := dof_surj2 (nF := 2) (nx := c.nx) (ny := c.ny)
      (by rwa [hc.nn2 hd, hd] at hq)
    have hB := (bdryDof2_iff hi hd').mp hb
    refine zeroRow_id (W := 9) (slot := 4) hm.nnz ?_ ?_
    · intro s d2 hs h2
      exact (e3 i j d s d2 hi hj hd' hs h2).1 (Or.inl hB)
    · simp only
      rw [hm.col hi hj hd' (by omega) hd' (by omega),
        nbr2_some (I := i) (J := j) (by omega) (by omega) hi hj]
      rfl
  · obtain ⟨m, hm, e⟩ := h.2 hd
    rw [if_neg (by omega)] at hb
    obtain ⟨v, e1, e2, e3⟩ := ellSetBc3D_eq (m := m) hc.nx hc.ny (hc.nz3 hd) hm.nnz
      (by rw [hm.vals_size, hm.nnz, hm.nrow])
    rw [e1] at e
    cases e
    obtain ⟨i, j, k, d, hi, hj, hk, hd', rfl⟩ := dof_surj3 (nF := 3) (nx := c.nx) (ny := c.ny)
      (nz := c.nz) (by rwa [hd] at hq)
    have hB := (bdryDof3_iff hi hj hd').mp hb
    refine zeroRow_id (W := 27) (slot := 13) hm.nnz ?_ ?_
    · intro s d2 hs h2
      exact (e3 i j k d s d2 hi hj hk hd' hs h2).1 (Or.inl hB)
    · simp only
      rw [hm.col hi hj hk hd' (by omega) hd',
        nbr3_some (I := i) (J := j) (K := k) (by omega) (by omega) (by omega) hi hj hk]
      rfl

/-- Conjugate gradients keep a zero: in the place of a zero row, if right-hand side and start are
zero there. -/
theorem cgSolve_zero {m : Ell α} (hm : m.WF) {nF W nn slot : Nat} (hnnz : m.nnz = W * nF)
    (hslot : slot < W) (hnn : nn * nF ≤ m.nrow) {b x : Buf α} (hb : b.size = m.nrow)
    (hx : x.size = m.nrow) (junk : Nat → Nat → α) (solver : EllSolver α) {s' : EllSolver α}
    {y : Buf α} (h : cgSolve junk solver m nF nn slot b x = .ok (s', y)) {i : Nat}
    (hi : i < m.nrow) (hr : ZeroRow m i) (hbi : b.val i = 0) (hxi : x.val i = 0) : y.val i = 0 := by
  obtain ⟨k, s, N, S, sF, -, h0, h1, h2, T, e⟩ :=
    cgSolve_trace hm hnnz hslot hnn hb hx junk solver
  rw [e] at h
  cases h
  have key : ∀ j, j ≤ N → (S j).x.val i = 0 ∧ (S j).r.val i = 0 ∧ (0 < j → (S j).p.val i = 0) ∧
      (S j).its = j := by
    intro j
    induction j with
    | zero =>
      intro _
      rw [T.start]
      refine ⟨by rw [h1, hxi], ?_, fun h => absurd h (lt_irrefl _), h0⟩
      rw [h2 i hi, hr _ hxi, hbi, ZeroLaws.sub_zero]
    | succ j ih =>
      intro hj
      obtain ⟨a1, a2, a3, a4⟩ := ih (by omega)
      have st := T.step j (by omega)
      have hz : (S (j + 1)).z.val i = 0 := by rw [st.z i hi, a2, ZeroLaws.mul_zero]
      have hp : (S (j + 1)).p.val i = 0 := by
        rw [st.p i hi]
        split
        · exact hz
        · rename_i hne
          rw [a3 (by omega), hz, ZeroLaws.mul_zero, ZeroLaws.add_zero]
      have hq : (S (j + 1)).q.val i = 0 := by rw [st.q i hi]; exact hr _ hp
      refine ⟨?_, ?_, fun _ => hp, by rw [st.its, a4]⟩
      · rw [st.x i hi, a1, hp, ZeroLaws.mul_zero, ZeroLaws.sub_zero]
      · rw [st.r i hi, a2, hq, ZeroLaws.mul_zero, ZeroLaws.sub_zero]
  exact (key N le_rfl).1

variable {c : Cfg α} {env : Env α}

theorem rhs_bdry (hc : c.Ok) {w : Work α} (hw : w.Ok c) {r : RhsOut α}
    (h : assemblyRhs c w = .ok r) {q : Nat} (hq : q < c.nn * c.dim) (hb : c.OnBdry q) :
    r.work.b.val q = 0 ∧ r.work.u = w.u := by
  unfold Cfg.OnBdry at hb
  rcases hc.dim with hd | hd
  · have hN : c.nn * c.dim = c.nx * c.ny * 2 := by rw [hc.nn2 hd, hd]
    rw [if_pos hd] at hb
    rw [assemblyRhs2_eq hc hd (hw.u2 hc hd) (by rw [hw.b, hN])] at h
    cases h
    refine ⟨?_, rfl⟩
    show resid2 c w.u.val w.b.val q = 0
    unfold resid2
    rw [hN] at hq
    simp only [hq, if_true, hb]
    exact ZeroLaws.neg_zero
  · have hN : c.nn * c.dim = c.nx * c.ny * c.nz * 3 := by rw [hd]; rfl
    rw [if_neg (by omega)] at hb
    rw [assemblyRhs3_eq hc hd (hw.u3 hd) (by rw [hw.b, hN]) hw.varsOld hw.varsNew] at h
    cases h
    refine ⟨?_, rfl⟩
    show resid3 c w.u.val w.varsOld w.b.val q = 0
    unfold resid3
    rw [hN] at hq
    simp only [hq, if_true, hb]
    exact ZeroLaws.neg_zero

theorem nrCorrect_bdry (hc : c.Ok) {w w' : Work α} (hw : w.Ok c)
    (h : nrCorrect env c w = .ok w') {q : Nat} (hq : q < c.nn * c.dim) (hb : c.OnBdry q)
    (hbq : w.b.val q = 0) : w'.u.val q = w.u.val q := by
  obtain ⟨A, vn, du, h1, h2, h3, -⟩ := nrCorrect_eq (env := env) hc hw
  obtain ⟨A', vn', k1, k2, -, k4⟩ := assemblyMat_bc hc hw
  rw [h1] at k1
  cases k1
  rw [h3] at h
  cases h
  show (if q < c.nn * c.dim then w.u.val q + du.val q else w.u.val q) = _
  rw [if_pos hq]
  suffices du.val q = 0 by rw [this, ZeroLaws.add_zero]
  let w1 : Work α := { w with
    A := A, varsNew := vn
    du := ⟨c.nn * c.dim, fun k => if k < c.nn * c.dim then 0 else w.du.val k⟩ }
  have hw1 : w1.Ok c :=
    ⟨k2.u, rfl, k2.b, k2.elemStress, k2.elemStrain, k2.varsOld, k2.varsNew, k2.A2, k2.A3⟩
  have hnr : A.nrow = c.nn * c.dim := (hw1.wf hc).2
  have main : ∀ api : Props.CgApi, api.Fits A w.b w1.du →
      (∀ r, api.call (env.cgJunk w.tick)
        { maxIts := cgMaxIts, its := env.solverIts w.tick, minTol := cgMaxTol, err := env.solverErr w.tick }
        A w.b w1.du = .ok r → r.2.2 = some du) → du.val q = 0 := by
    intro api hf hcall
    obtain ⟨W, hs, hW⟩ := hf.slots
    obtain ⟨k, s, N, S, sF, -, -, -, -, -, e⟩ := cgSolve_trace hf.wf hW hs (le_of_eq hf.rows)
      hf.b_size hf.x_size (env.cgJunk w.tick)
      { maxIts := cgMaxIts, its := env.solverIts w.tick, minTol := cgMaxTol, err := env.solverErr w.tick }
    have e2 := hcall _ (Props.CgApi.call_eq hf _ _ e)
    simp only [Option.some.injEq] at e2
    rw [e2] at e
    exact cgSolve_zero hf.wf hW hs (le_of_eq hf.rows) hf.b_size hf.x_size _ _ e
      (by rw [hnr]; exact hq) (bcMat_zeroRow hc k4 hq hb) hbq (if_pos hq)
  unfold solve at h2
  rcases hc.dim with hd | hd
  · refine main _ (fits2 hc hd hw1) ?_
    intro r hr
    obtain ⟨s, x, e1, -⟩ := Props.C12_terminates (fits2 hc hd hw1) (env.cgJunk w.tick)
      { maxIts := cgMaxIts, its := env.solverIts w.tick, minTol := cgMaxTol, err := env.solverErr w.tick }
    have e2 := e1
    simp only [Props.CgApi.call] at e2
    rw [hr] at e1
    cases e1
    rw [if_pos hd] at h2
    rw [e2] at h2
    cases h2
    rfl
  · refine main _ (fits3 hc hd hw1) ?_
    intro r hr
    obtain ⟨s, x, e1, -⟩ := Props.C12_terminates (fits3 hc hd hw1) (env.cgJunk w.tick)
      { maxIts := cgMaxIts, its := env.solverIts w.tick, minTol := cgMaxTol, err := env.solverErr w.tick }
    have e2 := e1
    simp only [Props.CgApi.call] at e2
    rw [hr] at e1
    cases e1
    rw [if_neg (by omega), if_pos hd] at h2
    rw [e2] at h2
    cases h2
    rfl

/-- `newton_raphson` leaves the boundary displacements as they are. -/
theorem newtonRaphson_bdry (hc : c.Ok) {w : Work α} (hw : w.Ok c) {out : NrOut α}
    (h : newtonRaphson env c w = .ok out) {q : Nat} (hq : q < c.nn * c.dim) (hb : c.OnBdry q) :
    out.work.u.val q = w.u.val q := by
  refine Props.nrLoop_inv (c := c) (env := env) hc
    (P := fun w' => w'.u.val q = w.u.val q)
    (Q := fun out => out.work.u.val q = w.u.val q)
    ?_ ?_ env.fuel hw rfl h
  · intro w' r hw' hP hr _
    show r.work.u.val q = _
    rw [(rhs_bdry hc hw' hr hq hb).2, hP]
  · intro w' r w'' v hw' hP hr _ hcr _
    obtain ⟨b, vn, nm, nl, h1, h2⟩ := rhs_ok hc hw'
    have hB := rhs_bdry hc hw' hr hq hb
    rw [h1] at hr
    cases hr
    have := nrCorrect_bdry hc h2.ok hcr hq hb hB.1
    exact ⟨fun _ => this.trans hP, fun _ => this.trans hP⟩

end

end Verif
