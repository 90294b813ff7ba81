import Verif.Lemmas.Nan
import Verif.Lemmas.FpFlag
import Verif.Lemmas.FpNewton

/-! # A NaN stays in the object -/

namespace Verif
open Spec

variable {α : Type} [Scalar α] [NanLaws α] {c : Cfg α} {env : Env α}

/-! ## The solver -/

/-- Conjugate gradients with a NaN in the right-hand side: the solution is NaN everywhere. -/
theorem cgSolve_nan {m : Ell α} (hm : m.WF) {nF W nn slot : Nat} (hnnz : m.nnz = W * nF)
    (hslot : slot < W) (hnn : nn * nF ≤ m.nrow) {b x : Buf α} (hb : b.size = m.nrow)
    (hx : x.size = m.nrow) (junk : Nat → Nat → α) (solver : EllSolver α) {s' : EllSolver α}
    {y : Buf α} (h : cgSolve junk solver m nF nn slot b x = .ok (s', y)) {k : Nat} (hk : k < m.nrow)
    (hbk : IsNan (b.val k)) {i : Nat} (hi : i < m.nrow) : IsNan (y.val i) := by
  obtain ⟨kk, s, N, S, sF, -, h0, h1, h2, T, e⟩ :=
    cgSolve_trace hm hnnz hslot hnn hb hx junk solver
  rw [e] at h
  cases h
  have rho : ∀ j, j < N → IsNan ((S j).r.val k) → IsNan (S (j + 1)).rho0 := fun j hj hr => by
    rw [(T.step j hj).rho]; exact dotA_nan hk hr
  have hr : ∀ j, j ≤ N → IsNan ((S j).r.val k) := by
    intro j
    induction j with
    | zero => intro _; rw [T.start, h2 k hk]; exact hbk.sub_r _
    | succ j ih =>
      intro hj
      rw [(T.step j (by omega)).r k hk]
      exact (ih (by omega)).sub_l _
  have hN : N ≠ 0 := by
    intro hN
    rcases T.stop with ⟨a, -⟩ | ⟨a, -⟩
    · have : IsNan (errOf m (S N)) := (dotA_nan hk (hr N le_rfl)).sqrt
      rw [this.lt_l] at a; cases a
    · omega
  obtain ⟨n, rfl⟩ := Nat.exists_eq_succ_of_ne_zero hN
  rw [(T.step n (by omega)).x i hi]
  exact (((rho n (by omega) (hr n (by omega))).div_l _).mul_l _).sub_r _

/-- One correction with a NaN in the right-hand side. -/
theorem nrCorrect_nan (hc : c.Ok) {w w' : Work α} (hw : w.Ok c) (h : nrCorrect env c w = .ok w')
    {k : Nat} (hk : k < c.nn * c.dim) (hb : IsNan (w.b.val k)) {q : Nat} (hq : q < c.nn * c.dim) :
    IsNan (w'.u.val q) := by
  obtain ⟨A, vn, du, h1, h2, h3, -⟩ := nrCorrect_eq (env := env) hc hw
  obtain ⟨A', vn', k1, k2, -, k4⟩ := assemblyMat_bc hc hw
  rw [h1] at k1
  cases k1
  rw [h3] at h
  cases h
  show IsNan (if q < c.nn * c.dim then w.u.val q + du.val q else w.u.val q)
  rw [if_pos hq]
  refine IsNan.add_r _ ?_
  let w1 : Work α := { w with
    A := A, varsNew := vn
    du := ⟨c.nn * c.dim, fun k => if k < c.nn * c.dim then 0 else w.du.val k⟩ }
  have hw1 : w1.Ok c :=
    ⟨k2.u, rfl, k2.b, k2.elemStress, k2.elemStrain, k2.varsOld, k2.varsNew, k2.A2, k2.A3⟩
  have hnr : A.nrow = c.nn * c.dim := (hw1.wf hc).2
  have main : ∀ api : Props.CgApi, api.Fits A w.b w1.du →
      (∀ r, api.call (env.cgJunk w.tick)
        { maxIts := cgMaxIts, its := env.solverIts w.tick, minTol := cgMaxTol, err := env.solverErr w.tick }
        A w.b w1.du = .ok r → r.2.2 = some du) → IsNan (du.val q) := by
    intro api hf hcall
    obtain ⟨W, hs, hW⟩ := hf.slots
    obtain ⟨kk, s, N, S, sF, -, -, -, -, -, e⟩ := cgSolve_trace hf.wf hW hs (le_of_eq hf.rows)
      hf.b_size hf.x_size (env.cgJunk w.tick)
      { maxIts := cgMaxIts, its := env.solverIts w.tick, minTol := cgMaxTol, err := env.solverErr w.tick }
    have e2 := hcall _ (Props.CgApi.call_eq hf _ _ e)
    simp only [Option.some.injEq] at e2
    rw [e2] at e
    exact cgSolve_nan hf.wf hW hs (le_of_eq hf.rows) hf.b_size hf.x_size _ _ e
      (by rw [hnr]; exact hk) hb (by rw [hnr]; exact hq)
  unfold solve at h2
  rcases hc.dim with hd | hd
  · refine main _ (fits2 hc hd hw1) ?_
    intro r hr
    obtain ⟨s, x, e1, -⟩ := Props.C12_terminates (fits2 hc hd hw1) (env.cgJunk w.tick)
      { maxIts := cgMaxIts, its := env.solverIts w.tick, minTol := cgMaxTol, err := env.solverErr w.tick }
    have e2 := e1
    simp only [Props.CgApi.call] at e2
    rw [hr] at e1
    cases e1
    rw [if_pos hd] at h2
    rw [e2] at h2
    cases h2
    rfl
  · refine main _ (fits3 hc hd hw1) ?_
    intro r hr
    obtain ⟨s, x, e1, -⟩ := Props.C12_terminates (fits3 hc hd hw1) (env.cgJunk w.tick)
      { maxIts := cgMaxIts, its := env.solverIts w.tick, minTol := cgMaxTol, err := env.solverErr w.tick }
    have e2 := e1
    simp only [Props.CgApi.call] at e2
    rw [hr] at e1
    cases e1
    rw [if_neg (by omega), if_pos hd] at h2
    rw [e2] at h2
    cases h2
    rfl

/-! ## Interior nodes -/

/-- Three nodes at least in every direction: there is an interior node. -/
structure Cfg.Big (c : Cfg α) : Prop where
  nx : 3 ≤ c.nx
  ny : 3 ≤ c.ny
  nz : c.dim = 3 → 3 ≤ c.nz

omit [NanLaws α] in
/-- Every element has an interior corner. -/
theorem exists_interior (hc : c.Ok) (hB : c.Big) {ex ey ez : Nat} (he : c.InGrid ex ey ez) :
    ∃ a, a < c.npe ∧ ∀ d, d < c.dim → c.edof ex ey ez (a * c.dim + d) < c.nn * c.dim ∧
      ¬ c.OnBdry (c.edof ex ey ez (a * c.dim + d)) := by
  obtain ⟨hx, hy, h2, h3⟩ := he
  have := hB.nx
  have := hB.ny
  unfold Cfg.OnBdry Cfg.edof Cfg.npe
  rcases hc.dim with hd | hd
  · simp only [if_pos hd, hd, hc.nn2 hd]
    have key : ∀ a, a < 4 → Bdry2 c.nx c.ny (ex + cornerX a) (ey + cornerY a) = False →
        ∃ a, a < 4 ∧ ∀ d, d < 2 → edof2 c.nx ex ey (a * 2 + d) < c.nx * c.ny * 2 ∧
          ¬ BdryDof2 2 c.nx c.ny (edof2 c.nx ex ey (a * 2 + d)) := by
      intro a ha hb
      refine ⟨a, ha, fun d hd' => ⟨edof2_lt hx hy, fun h => ?_⟩⟩
      unfold edof2 enode2 at h
      rw [mul_add_div' hd', mul_add_mod' hd', bdryDof2_iff (by unfold cornerX; split <;> omega) hd', hb] at h
      exact h
    by_cases e0 : ex = 0 <;> by_cases e1 : ey = 0
    · refine key 2 (by omega) (eq_false ?_); unfold Bdry2; simp [cornerX, cornerY]; omega
    · refine key 1 (by omega) (eq_false ?_); unfold Bdry2; simp [cornerX, cornerY]; omega
    · refine key 3 (by omega) (eq_false ?_); unfold Bdry2; simp [cornerX, cornerY]; omega
    · refine key 0 (by omega) (eq_false ?_); unfold Bdry2; simp [cornerX, cornerY]; omega
  · have hz := h3 hd
    have := hB.nz hd
    have hN : c.nn = c.nx * c.ny * c.nz := rfl
    simp only [if_neg (show ¬ c.dim = 2 by omega), hd, hN]
    have key : ∀ a, a < 8 → Bdry3 c.nx c.ny c.nz (ex + cornerX a) (ey + cornerY a) (ez + cornerZ a) = False →
        ∃ a, a < 8 ∧ ∀ d, d < 3 → edof3 c.nx c.ny ex ey ez (a * 3 + d) < c.nx * c.ny * c.nz * 3 ∧
          ¬ BdryDof3 3 c.nx c.ny c.nz (edof3 c.nx c.ny ex ey ez (a * 3 + d)) := by
      intro a ha hb
      refine ⟨a, ha, fun d hd' => ⟨edof3_lt hx hy hz (by omega), fun h => ?_⟩⟩
      unfold edof3 enode3 at h
      rw [mul_add_div' hd', mul_add_mod' hd', bdryDof3_iff (by unfold cornerX; split <;> omega)
        (by unfold cornerY; split <;> omega) hd', hb] at h
      exact h
    by_cases e0 : ex = 0 <;> by_cases e1 : ey = 0 <;> by_cases e2 : ez = 0
    · refine key 6 (by omega) (eq_false ?_); unfold Bdry3; simp [cornerX, cornerY, cornerZ]; omega
    · refine key 2 (by omega) (eq_false ?_); unfold Bdry3; simp [cornerX, cornerY, cornerZ]; omega
    · refine key 5 (by omega) (eq_false ?_); unfold Bdry3; simp [cornerX, cornerY, cornerZ]; omega
    · refine key 1 (by omega) (eq_false ?_); unfold Bdry3; simp [cornerX, cornerY, cornerZ]; omega
    · refine key 7 (by omega) (eq_false ?_); unfold Bdry3; simp [cornerX, cornerY, cornerZ]; omega
    · refine key 3 (by omega) (eq_false ?_); unfold Bdry3; simp [cornerX, cornerY, cornerZ]; omega
    · refine key 4 (by omega) (eq_false ?_); unfold Bdry3; simp [cornerX, cornerY, cornerZ]; omega
    · refine key 0 (by omega) (eq_false ?_); unfold Bdry3; simp [cornerX, cornerY, cornerZ]; omega

omit [NanLaws α] in
/-- A dof of an element. -/
theorem hit_of_edof (hc : c.Ok) {u : Nat → α} {ex ey ez i : Nat} (hi : i < c.npe * c.dim)
    (h : IsNan (u (c.edof ex ey ez i))) : c.HitElem u ex ey ez := by
  unfold Cfg.HitElem
  unfold Cfg.edof at h
  unfold Cfg.npe at hi
  rcases hc.dim with hd | hd
  · rw [if_pos hd, hd] at hi
    rw [if_pos hd] at h ⊢
    exact ⟨i, hi, h⟩
  · rw [if_neg (by omega), hd] at hi
    rw [if_neg (by omega)] at h ⊢
    exact ⟨i, hi, h⟩

omit [NanLaws α] in
/-- An interior dof belongs to an element. -/
theorem edof_of_interior (hc : c.Ok) {q : Nat} (hq : q < c.nn * c.dim) (hb : ¬ c.OnBdry q) :
    ∃ ex ey ez i, c.InGrid ex ey ez ∧ i < c.npe * c.dim ∧ c.edof ex ey ez i = q := by
  unfold Cfg.OnBdry at hb
  unfold Cfg.InGrid Cfg.edof Cfg.npe
  rcases hc.dim with hd | hd
  · rw [if_pos hd] at hb
    simp only [if_pos hd, hd]
    obtain ⟨i, j, d, hi, hj, hd', rfl⟩ := dof_surj2 (nF := 2) (nx := c.nx) (ny := c.ny)
      (by rwa [hc.nn2 hd, hd] at hq)
    rw [bdryDof2_iff hi hd'] at hb
    unfold Bdry2 at hb
    refine ⟨i, j, 0, d, ⟨by omega, by omega, fun _ => rfl, fun h => by omega⟩, by simp; omega, ?_⟩
    unfold edof2 enode2
    rw [Nat.div_eq_of_lt hd', Nat.mod_eq_of_lt hd']
    simp [cornerX, cornerY]
  · rw [if_neg (by omega)] at hb
    simp only [if_neg (show ¬ c.dim = 2 by omega), hd]
    obtain ⟨i, j, k, d, hi, hj, hk, hd', rfl⟩ := dof_surj3 (nF := 3) (nx := c.nx) (ny := c.ny)
      (nz := c.nz) (by rwa [hd] at hq)
    rw [bdryDof3_iff hi hj hd'] at hb
    unfold Bdry3 at hb
    refine ⟨i, j, k, d, ⟨by omega, by omega, fun h => by omega, fun _ => by omega⟩, by simp; omega, ?_⟩
    unfold edof3 enode3
    rw [Nat.div_eq_of_lt hd', Nat.mod_eq_of_lt hd']
    simp [cornerX, cornerY, cornerZ]

/-! ## Newton-Raphson -/

/-- An element with a NaN and a corner that is not on the boundary. -/
def Work.Hit (c : Cfg α) (w : Work α) : Prop :=
  ∃ ex ey ez i, c.InGrid ex ey ez ∧ c.HitElem w.u.val ex ey ez ∧ i < c.npe * c.dim ∧
    c.edof ex ey ez i < c.nn * c.dim ∧ ¬ c.OnBdry (c.edof ex ey ez i)

/-- NaN at every interior node. -/
def Work.Poisoned (c : Cfg α) (w : Work α) : Prop :=
  ∀ q, q < c.nn * c.dim → ¬ c.OnBdry q → IsNan (w.u.val q)

omit [NanLaws α] in
theorem Work.Poisoned.elem (hc : c.Ok) (hB : c.Big) {w : Work α} (h : w.Poisoned c) {ex ey ez : Nat}
    (he : c.InGrid ex ey ez) : c.HitElem w.u.val ex ey ez := by
  obtain ⟨a, ha, hd⟩ := exists_interior hc hB he
  have h0 : 0 < c.dim := by rcases hc.dim with h | h <;> omega
  obtain ⟨h1, h2⟩ := hd 0 h0
  refine hit_of_edof hc (i := a * c.dim + 0) ?_ (h _ h1 h2)
  exact mul_add_lt ha h0

omit [NanLaws α] in
theorem inGrid_zero (hc : c.Ok) : c.InGrid 0 0 0 := by
  have := hc.nx
  have := hc.ny
  refine ⟨by omega, by omega, fun _ => rfl, fun h => ?_⟩
  have := hc.nz3 h
  omega

omit [NanLaws α] in
theorem hit_of_elem (hc : c.Ok) (hB : c.Big) {w : Work α} {ex ey ez : Nat} (he : c.InGrid ex ey ez)
    (h : c.HitElem w.u.val ex ey ez) : w.Hit c := by
  obtain ⟨a, ha, hd⟩ := exists_interior hc hB he
  have h0 : 0 < c.dim := by rcases hc.dim with h | h <;> omega
  obtain ⟨h1, h2⟩ := hd 0 h0
  exact ⟨ex, ey, ez, _, he, h, mul_add_lt ha h0, h1, h2⟩

theorem rhs_nan (hc : c.Ok) {w : Work α} (hw : w.Ok c) (hh : w.Hit c) {r : RhsOut α}
    (h : assemblyRhs c w = .ok r) :
    IsNan r.norm ∧ ∃ k, k < c.nn * c.dim ∧ IsNan (r.work.b.val k) := by
  obtain ⟨ex, ey, ez, i, he, h1, h2, h3, h4⟩ := hh
  have key := residV_nan hc (vo := w.varsOld) (f := w.b.val) he h1 h2 h4
  refine ⟨?_, _, h3, ?_⟩
  · rw [assemblyRhs_gen hc hw h]
    exact normOf_nan h3 key
  · unfold Cfg.residV at key
    rcases hc.dim with hd | hd
    · have hN : c.nn * c.dim = c.nx * c.ny * 2 := by rw [hc.nn2 hd, hd]
      rw [assemblyRhs2_eq hc hd (hw.u2 hc hd) (by rw [hw.b, hN])] at h
      cases h
      rw [if_pos hd] at key
      exact key
    · have hN : c.nn * c.dim = c.nx * c.ny * c.nz * 3 := by rw [hd]; rfl
      rw [assemblyRhs3_eq hc hd (hw.u3 hd) (by rw [hw.b, hN]) hw.varsOld hw.varsNew] at h
      cases h
      rw [if_neg (by omega)] at key
      exact key

/-- With a NaN in sight, `newton_raphson` makes one correction, returns a NaN error and leaves NaN at every
node. -/
theorem newtonRaphson_nan (hc : c.Ok) {w : Work α} (hw : w.Ok c) (hh : w.Hit c) {out : NrOut α}
    (h : newtonRaphson env c w = .ok out) :
    IsNan out.err ∧ (∀ q, q < c.nn * c.dim → IsNan (out.work.u.val q)) ∧
      ∃ r, assemblyRhs c w = .ok r ∧ out.nl = r.nl := by
  unfold newtonRaphson at h
  cases hf : env.fuel with
  | zero => rw [hf] at h; cases h
  | succ fuel =>
    rw [hf] at h
    obtain ⟨b, vn, nm, nl, h1, h2⟩ := rhs_ok hc hw
    obtain ⟨h3, k, hk, h4⟩ := rhs_nan hc hw hh h1
    rw [nrLoop, h1, M_bind_ok'] at h
    rw [if_neg (by rw [h3.lt_l]; exact Bool.false_ne_true)] at h
    rw [bind_ok_iff] at h
    obtain ⟨w', h5, h⟩ := h
    have h6 := fun q hq => nrCorrect_nan hc h2.ok h5 hk h4 (q := q) hq
    cases hp : env.peek w'.tick with
    | none => rw [hp] at h; cases h
    | some v =>
      rw [hp] at h
      simp only at h
      rw [if_neg (by rw [h3.lt_r]; rintro ⟨-, h⟩; cases h)] at h
      cases h
      exact ⟨h3, h6, _, h1, rfl⟩

/-! ## A cell problem -/

/-- NaN at some interior node. -/
def Work.Tainted (c : Cfg α) (w : Work α) : Prop :=
  ∃ q, q < c.nn * c.dim ∧ ¬ c.OnBdry q ∧ IsNan (w.u.val q)

/-- A NaN among the components of a strain. -/
def NanStrain (c : Cfg α) (eps : Nat → α) : Prop := ∃ v, v < c.nvoi ∧ IsNan (eps v)

omit [NanLaws α] in
theorem Work.Tainted.hit (hc : c.Ok) {w : Work α} (h : w.Tainted c) : w.Hit c := by
  obtain ⟨q, hq, hb, hn⟩ := h
  obtain ⟨ex, ey, ez, i, he, hi, rfl⟩ := edof_of_interior hc hq hb
  exact ⟨ex, ey, ez, i, he, hit_of_edof hc hi hn, hi, hq, hb⟩

omit [NanLaws α] in
theorem Work.Poisoned.tainted (hc : c.Ok) (hB : c.Big) {w : Work α} (h : w.Poisoned c) : w.Tainted c := by
  obtain ⟨a, ha, hd⟩ := exists_interior hc hB (inGrid_zero hc)
  have h0 : 0 < c.dim := by rcases hc.dim with h | h <;> omega
  obtain ⟨h1, h2⟩ := hd 0 h0
  exact ⟨_, h1, h2, h _ h1 h2⟩

omit [NanLaws α] in
theorem setDispl_tainted (hc : c.Ok) {w w1 : Work α} (hw : w.Ok c) {eps : Nat → α}
    (h : setDispl c w eps = .ok w1) (ht : w.Tainted c) : w1.Tainted c := by
  rw [setDispl_gen hc hw.u h]
  obtain ⟨q, hq, hb, hn⟩ := ht
  refine ⟨q, hq, hb, ?_⟩
  show IsNan (c.displV eps w.u.val q)
  rw [displV_in hc _ _ hb]; exact hn

omit [NanLaws α] in
theorem setDispl_poisoned (hc : c.Ok) {w w1 : Work α} (hw : w.Ok c) {eps : Nat → α}
    (h : setDispl c w eps = .ok w1) (ht : w.Poisoned c) : w1.Poisoned c := by
  rw [setDispl_gen hc hw.u h]
  intro q hq hb
  show IsNan (c.displV eps w.u.val q)
  rw [displV_in hc _ _ hb]; exact ht q hq hb

/-- A NaN strain gives the corner of the cell a NaN displacement. -/
theorem setDispl_nan (hc : c.Ok) (hB : c.Big) {w w1 : Work α} (hw : w.Ok c) {eps : Nat → α}
    (h : setDispl c w eps = .ok w1) (hn : NanStrain c eps) : w1.Hit c := by
  refine hit_of_elem hc hB (inGrid_zero hc) ?_
  rw [setDispl_gen hc hw.u h]
  obtain ⟨v, hv, hn⟩ := hn
  show c.HitElem (c.displV eps w.u.val) 0 0 0
  unfold Cfg.HitElem Cfg.displV
  unfold Cfg.nvoi at hv
  have := hB.nx
  have := hB.ny
  rcases hc.dim with hd | hd
  · rw [if_pos hd] at hv ⊢
    rw [if_pos hd]
    have key : ∀ d, d < 2 → IsNan (displVal2 c eps 0 0 d) → ∃ i, i < 8 ∧ IsNan (displ2 c eps w.u.val (edof2 c.nx 0 0 i)) := by
      intro d hd' hn
      refine ⟨d, by omega, ?_⟩
      have e : edof2 c.nx 0 0 d = node2 c.nx 0 0 * 2 + d := by
        unfold edof2 enode2
        rw [Nat.div_eq_of_lt hd', Nat.mod_eq_of_lt hd']; simp [cornerX, cornerY]
      unfold displ2
      have hb : BdryDof2 2 c.nx c.ny (edof2 c.nx 0 0 d) := by
        rw [e, bdryDof2_iff (by omega) hd']; unfold Bdry2; omega
      rw [if_pos ⟨edof2_lt (by omega) (by omega), hb⟩, e, atDof2_node _ (by omega) hd']
      exact hn
    have e : ∀ d, displVal2 c eps 0 0 d = affine2 eps (((0 : Nat) : α) * c.dx) 0 d := fun d => by
      unfold displVal2; rw [if_pos rfl]
    unfold affine2 at e
    obtain rfl | rfl | rfl : v = 0 ∨ v = 1 ∨ v = 2 := by omega
    · exact key 0 (by omega) (by rw [e, if_pos rfl]; exact (hn.mul_l _).add_l _)
    · exact key 1 (by omega) (by rw [e, if_neg (by omega)]; exact (hn.mul_l _).add_r _)
    · exact key 0 (by omega) (by rw [e, if_pos rfl]; exact ((hn.mul_r _).mul_l _).add_r _)
  · have := hB.nz hd
    rw [if_neg (by omega)] at hv ⊢
    rw [if_neg (by omega)]
    have key : ∀ d, d < 3 → IsNan (displVal3 c eps 0 0 0 d) →
        ∃ i, i < 24 ∧ IsNan (displ3 c eps w.u.val (edof3 c.nx c.ny 0 0 0 i)) := by
      intro d hd' hn
      refine ⟨d, by omega, ?_⟩
      have e : edof3 c.nx c.ny 0 0 0 d = node3 c.nx c.ny 0 0 0 * 3 + d := by
        unfold edof3 enode3
        rw [Nat.div_eq_of_lt hd', Nat.mod_eq_of_lt hd']; simp [cornerX, cornerY, cornerZ]
      unfold displ3
      have hb : BdryDof3 3 c.nx c.ny c.nz (edof3 c.nx c.ny 0 0 0 d) := by
        rw [e, bdryDof3_iff (by omega) (by omega) hd']; unfold Bdry3; omega
      rw [if_pos ⟨edof3_lt (by omega) (by omega) (by omega) (by omega), hb⟩, e,
        atDof3_node _ (by omega) (by omega) hd']
      exact hn
    have e : ∀ d, displVal3 c eps 0 0 0 d
        = affine3 eps (((0 : Nat) : α) * c.dx) (((0 : Nat) : α) * c.dy) 0 d := fun d => by
      unfold displVal3; rw [if_pos rfl]
    unfold affine3 at e
    obtain rfl | rfl | rfl | rfl | rfl | rfl : v = 0 ∨ v = 1 ∨ v = 2 ∨ v = 3 ∨ v = 4 ∨ v = 5 := by omega
    · exact key 0 (by omega) (by rw [e, if_pos rfl]; exact ((hn.mul_l _).add_l _).add_l _)
    · exact key 1 (by omega) (by rw [e, if_neg (by omega), if_pos rfl]; exact ((hn.mul_l _).add_r _).add_l _)
    · exact key 2 (by omega) (by rw [e, if_neg (by omega), if_neg (by omega)]; exact (hn.mul_l _).add_r _)
    · exact key 0 (by omega) (by rw [e, if_pos rfl]; exact (((hn.mul_r _).mul_l _).add_r _).add_l _)
    · exact key 0 (by omega) (by rw [e, if_pos rfl]; exact ((hn.mul_r _).mul_l _).add_r _)
    · exact key 1 (by omega) (by rw [e, if_neg (by omega), if_pos rfl]; exact ((hn.mul_r _).mul_l _).add_r _)

/-- A strain that gives some node a NaN displacement. -/
def Poisons (c : Cfg α) (eps : Nat → α) : Prop :=
  ∀ w w1 : Work α, w.Ok c → setDispl c w eps = .ok w1 → w1.Hit c

theorem NanStrain.poisons (hc : c.Ok) (hB : c.Big) {eps : Nat → α} (hn : NanStrain c eps) : Poisons c eps :=
  fun _ _ hw h => setDispl_nan hc hB hw h hn

/-- Something is not a number, or will not be. -/
def Bad (c : Cfg α) (w : Work α) (eps : Nat → α) : Prop := w.Tainted c ∨ Poisons c eps

omit [NanLaws α] in
theorem setDispl_hit (hc : c.Ok) {w w1 : Work α} (hw : w.Ok c) {eps : Nat → α}
    (h : setDispl c w eps = .ok w1) (hb : Bad c w eps) : w1.Hit c :=
  hb.elim (fun ht => (setDispl_tainted hc hw h ht).hit hc) (fun hp => hp _ _ hw h)

theorem rhsNl_nan (hd : c.dim = 3) (hc : c.Ok) (hB : c.Big) {w : Work α} (h : w.Poisoned c) (vo : Buf α) :
    rhsNl c w.u.val vo = false := by
  by_contra hn
  rw [Bool.not_eq_false, rhsNl_iff] at hn
  obtain ⟨ex, hx, ey, hy, ez, hz, hn⟩ := hn
  rw [gpNl_nan hd (h.elem hc hB ⟨hx, hy, fun h => by omega, fun _ => hz⟩)] at hn
  cases hn

theorem rhs_nl_nan (hc : c.Ok) (hB : c.Big) {w : Work α} (hw : w.Ok c) (h : w.Poisoned c) {r : RhsOut α}
    (hr : assemblyRhs c w = .ok r) : r.nl = false := by
  rcases hc.dim with hd | hd
  · have hN : c.nn * c.dim = c.nx * c.ny * 2 := by rw [hc.nn2 hd, hd]
    rw [assemblyRhs2_eq hc hd (hw.u2 hc hd) (by rw [hw.b, hN])] at hr
    cases hr; rfl
  · have hN : c.nn * c.dim = c.nx * c.ny * c.nz * 3 := by rw [hd]; rfl
    rw [assemblyRhs3_eq hc hd (hw.u3 hd) (by rw [hw.b, hN]) hw.varsOld hw.varsNew] at hr
    cases hr
    exact rhsNl_nan hd hc hB h _

/-- A cell problem with a NaN. -/
structure NanAnswer (c : Cfg α) (r : PertOut α) : Prop where
  sig : ∀ v, IsNan (r.sig v)
  err : IsNan r.nr.err
  work : r.nr.work.Poisoned c

theorem solveStrain_nan (hc : c.Ok) (hB : c.Big) {w : Work α} (hw : w.Ok c) {eps : Nat → α} (hb : Bad c w eps)
    {r : PertOut α} (h : solveStrain env c w eps = .ok r) :
    NanAnswer c r ∧ (w.Poisoned c → r.nr.nl = false) := by
  unfold solveStrain at h
  simp only [bind_ok_iff, pure_ok_iff] at h
  obtain ⟨w1, h1, o, h2, a, h3, rfl⟩ := h
  obtain ⟨u, h1', hf1⟩ := setDispl_ok hc hw eps
  have hw1 : w1.Ok c := by rw [h1] at h1'; cases h1'; exact hf1.ok
  obtain ⟨k1, k2, r1, k3, k4⟩ := newtonRaphson_nan hc hw1 (setDispl_hit hc hw h1 hb) h2
  have hwo := ((newtonRaphson_safe (env := env) hc hw1).post h2).ok
  have hp : o.work.Poisoned c := fun q hq _ => k2 q hq
  refine ⟨⟨fun v => ?_, k1, hp⟩, fun hp => ?_⟩
  · show IsNan (a.ave v)
    rw [calcAveStress_gen hc hwo h3]
    exact aveV_nan hc (inGrid_zero hc) (hp.elem hc hB (inGrid_zero hc)) v
  · show o.nl = false
    rw [k4]
    exact rhs_nl_nan hc hB hw1 (setDispl_poisoned hc hw h1 hp) k3

omit [NanLaws α] in
/-- A column that is written. -/
theorem setCol_at {n i v : Nat} (hi : i < n) (hv : v < n) (f t : Nat → α) : setCol n i f t (v * n + i) = f v := by
  unfold setCol
  have key : ∀ m, v < m → accum m (fun v t => fun q => if q = v * n + i then f v else t q) t (v * n + i) = f v := by
    intro m
    induction m with
    | zero => intro h; omega
    | succ m ih =>
      intro h
      show (if v * n + i = m * n + i then f m else _) = _
      by_cases e : v = m
      · subst e; rw [if_pos rfl]
      · rw [if_neg fun h => e (Nat.eq_of_mul_eq_mul_right (by omega) (Nat.add_right_cancel h))]
        exact ih (by omega)
  exact key n hv

omit [NanLaws α] in
/-- A column that is not written. -/
theorem setCol_off {n i i' v : Nat} (hi : i < n) (hi' : i' < n) (hne : i' ≠ i) (f t : Nat → α) :
    setCol n i f t (v * n + i') = t (v * n + i') := by
  unfold setCol
  have key : ∀ m, accum m (fun v t => fun q => if q = v * n + i then f v else t q) t (v * n + i')
      = t (v * n + i') := by
    intro m
    induction m with
    | zero => rfl
    | succ m ih =>
      show (if v * n + i' = m * n + i then f m else _) = _
      rw [if_neg ?_]
      · exact ih
      · intro h
        have h1 : (v * n + i') % n = (m * n + i) % n := by rw [h]
        rw [mul_add_mod' hi', mul_add_mod' hi] at h1
        exact hne h1
  exact key n

theorem solveGp_nan (hc : c.Ok) (hB : c.Big) {g : Gp α} {w : Work α} {s : GpWork α} (hw : w.Ok c) (hg : g.Ok c)
    (hb : Bad c w g.macroStrain) (h : solveGp env c g w = .ok s) :
    NanResults c s.gp ∧ s.work.Poisoned c ∧
      (w.Poisoned c → s.gp.intVarsN = g.intVarsN ∧ s.gp.intVarsK = g.intVarsK) := by
  unfold solveGp at h
  simp only [bind_ok_iff] at h
  obtain ⟨r, hr, g1, hg1, hl⟩ := h
  obtain ⟨k1, k2⟩ := solveStrain_nan hc hB hw hb hr
  have hf := (solveStrain_safe (env := env) hc hw g.macroStrain).post hr
  obtain ⟨-, hs1, -, -, -, -, hs2, -⟩ := storeVars_inv hg1
  have hs1' : g1.macroStress = setFirst c.nvoi r.sig g.macroStress := hs1
  have hsig : ∀ v, v < c.nvoi → IsNan (g1.macroStress v) := fun v hv => by
    rw [hs1']; unfold setFirst; rw [if_pos hv]; exact k1.sig v
  have key := loop_ok_inv (fun n (s : GpWork α) => s.work.Ok c ∧ s.work.Poisoned c ∧
      s.gp.macroStress = g1.macroStress ∧ s.gp.intVarsN = g1.intVarsN ∧ s.gp.intVarsK = g1.intVarsK ∧
      (∀ i, i < 1 + n → IsNan (s.gp.nrErr i)) ∧
      (n ≤ c.nvoi → ∀ v i, v < c.nvoi → i < n → IsNan (s.gp.macroCtan (v * c.nvoi + i)))) hl
    ⟨hf.ok, k1.work, rfl, rfl, rfl, fun i hi => by
      obtain rfl : i = 0 := by omega
      exact k1.err, fun _ _ _ _ h => absurd h (by omega)⟩ (by
      rintro n s s' hn ⟨a1, a2, a3, a4, a5, a6, a7⟩ hs
      have hs0 := hs
      unfold ctanGp at hs
      simp only [bind_ok_iff, pure_ok_iff] at hs
      obtain ⟨r', hr', rfl⟩ := hs
      obtain ⟨k1', -⟩ := solveStrain_nan hc hB a1 (Or.inl (a2.tainted hc hB)) hr'
      refine ⟨((solveStrain_safe (env := env) hc a1 _).post hr').ok, k1'.work, a3, a4, a5, fun i hi => ?_,
        fun hn' v i hv hi => ?_⟩
      · show IsNan (if i = 1 + n then r'.nr.err else s.gp.nrErr i)
        split
        · exact k1'.err
        · exact a6 i (by omega)
      · show IsNan (setCol c.nvoi n _ s.gp.macroCtan (v * c.nvoi + i))
        by_cases e : i = n
        · subst e
          rw [setCol_at hn hv]
          exact ((k1'.sig v).sub_l _).div_l _
        · rw [setCol_off hn (by omega) e]
          exact a7 (by omega) v i hv (by omega))
  obtain ⟨-, a2, a3, a4, a5, a6, a7⟩ := key
  refine ⟨⟨fun v hv => by rw [a3]; exact hsig v hv, a7 le_rfl, a6⟩, a2, fun hp => ?_⟩
  have := hs2 (k2 hp)
  rw [a4, a5, this]
  exact ⟨rfl, rfl⟩

/-! ## Public calls -/

theorem abs_nan {a : α} (h : IsNan a) : IsNan (Scalar.abs a) := by
  unfold Scalar.abs
  rw [h.lt_l]
  exact h

/-- A NaN strain is not on the linear path. -/
theorem not_linear_nan (hc : c.Ok) {g : Gp α} (h : NanStrain c g.macroStrain) : ¬ Props.TakesLinearPath c g := by
  rintro ⟨-, hl⟩
  obtain ⟨v, hv, h⟩ := h
  have key : ∀ i, IsNan (Props.matVec c.nvoi c.ctanLin g.macroStrain i) := fun i => by
    have : Props.matVec c.nvoi c.ctanLin g.macroStrain i
        = accum c.nvoi (fun j s => s + c.ctanLin (i * c.nvoi + j) * g.macroStrain j) 0 := by
      rw [Props.accum_foldl]; rfl
    rw [this]
    exact accum_nan (f := fun j => c.ctanLin (i * c.nvoi + j) * g.macroStrain j) hv (h.mul_r _)
  have : IsNan (Props.traceV c.dim (Props.matVec c.nvoi c.ctanLin g.macroStrain)) := by
    unfold Props.traceV
    split
    · exact (key 0).add_l _
    · exact ((key 0).add_l _).add_l _
  rw [(abs_nan this).lt_l] at hl
  cases hl

theorem homogenizeGp_nan (hc : c.Ok) (hB : c.Big) {g : Gp α} {w : Work α} {s : GpWork α} (hw : w.Ok c)
    (hg : g.Ok c) (h : homogenizeGp env c g w = .ok s) :
    (Bad c w g.macroStrain → ¬ Props.TakesLinearPath c g → NanResults c s.gp ∧ s.work.Poisoned c) ∧
    (w.Poisoned c → s.work.Poisoned c ∧ s.gp.intVarsN = g.intVarsN ∧ s.gp.intVarsK = g.intVarsK) := by
  unfold homogenizeGp at h
  obtain ⟨old, h1, h2⟩ := loadVars_ok hg hw.varsOld
  obtain ⟨l, h3⟩ := isLinear_ok hc (-1.0e10) g.macroStrain
  rw [h1, M_bind_ok', h3, M_bind_ok'] at h
  have h6 := Props.isLinear_eq h3
  have hw' : Work.Ok c { w with varsOld := old, invMax := l.2 } :=
    ⟨hw.u, hw.du, hw.b, hw.elemStress, hw.elemStrain, h2, hw.varsNew, hw.A2, hw.A3⟩
  by_cases hl : l.1 = true ∧ g.intVarsN.isNone = true
  · rw [if_pos hl, pure_ok_iff] at h
    subst h
    refine ⟨fun _ hn => absurd ⟨Option.isNone_iff_eq_none.mp hl.2, h6 ▸ hl.1⟩ hn, fun hp => ⟨hp, rfl, rfl⟩⟩
  · rw [if_neg hl] at h
    simp only [bind_ok_iff, pure_ok_iff] at h
    obtain ⟨s2, h7, rfl⟩ := h
    refine ⟨fun hb _ => ?_, fun hp => ?_⟩
    · obtain ⟨a1, a2, -⟩ := solveGp_nan hc hB hw' hg hb h7
      exact ⟨⟨a1.stress, a1.ctan, a1.err⟩, a2⟩
    · have hp' : Work.Poisoned c { w with varsOld := old, invMax := l.2 } := hp
      obtain ⟨-, a2, a3⟩ := solveGp_nan hc hB hw' hg (Or.inl (hp'.tainted hc hB)) h7
      exact ⟨a2, a3 hp'⟩

theorem homogenizeList_nan (hc : c.Ok) (hB : c.Big) {l : List (Gp α)} {w : Work α}
    {r : ListWork α} (hw : w.Ok c) (hl : ∀ g ∈ l, g.Ok c) (hp : w.Poisoned c)
    (h : homogenizeList env c l w = .ok r) :
    r.work.Poisoned c ∧ List.Forall₂ (fun g g' => (¬ Props.TakesLinearPath c g → NanResults c g') ∧
      g'.intVarsN = g.intVarsN ∧ g'.intVarsK = g.intVarsK) l r.gauss := by
  induction l generalizing w r with
  | nil =>
    simp only [homogenizeList, pure_ok_iff] at h
    subst h; exact ⟨hp, List.Forall₂.nil⟩
  | cons gp l ih =>
    simp only [homogenizeList, bind_ok_iff, pure_ok_iff] at h
    obtain ⟨s, hs, r1, hr, rfl⟩ := h
    have hg := hl gp (by simp)
    obtain ⟨a1, a2⟩ := homogenizeGp_nan hc hB hw hg hs
    obtain ⟨b1, b2⟩ := ih ((homogenizeGp_safe (env := env) hc hw hg).post hs).1 (fun g h => hl g (by simp [h]))
      (a2 hp).1 hr
    exact ⟨b1, List.Forall₂.cons ⟨fun hn => (a1 (Or.inl (hp.tainted hc hB)) hn).1, (a2 hp).2⟩ b2⟩

/-- A Gauss point with such a strain: it and those behind it in the list get NaN, and the object is
poisoned. -/
theorem homogenizeList_strain (hc : c.Ok) (hB : c.Big) {l1 l2 : List (Gp α)} {g : Gp α} {w : Work α}
    {r : ListWork α} (hw : w.Ok c) (hl : ∀ g' ∈ l1 ++ g :: l2, g'.Ok c) (hn : Poisons c g.macroStrain)
    (hn' : ¬ Props.TakesLinearPath c g) (h : homogenizeList env c (l1 ++ g :: l2) w = .ok r) :
    r.work.Poisoned c ∧ ∃ m1 g' m2, r.gauss = m1 ++ g' :: m2 ∧ m1.length = l1.length ∧ NanResults c g' ∧
      List.Forall₂ (fun g g' => (¬ Props.TakesLinearPath c g → NanResults c g') ∧
        g'.intVarsN = g.intVarsN ∧ g'.intVarsK = g.intVarsK) l2 m2 := by
  induction l1 generalizing w r with
  | nil =>
    simp only [List.nil_append, homogenizeList, bind_ok_iff, pure_ok_iff] at h
    obtain ⟨s, hs, r1, hr, rfl⟩ := h
    have hg := hl g (by simp)
    obtain ⟨a1, a2⟩ := (homogenizeGp_nan hc hB hw hg hs).1 (Or.inr hn) hn'
    obtain ⟨b1, b2⟩ := homogenizeList_nan hc hB ((homogenizeGp_safe (env := env) hc hw hg).post hs).1
      (fun g h => hl g (by simp [h])) a2 hr
    exact ⟨b1, [], s.gp, r1.gauss, rfl, rfl, a1, b2⟩
  | cons gp l ih =>
    simp only [List.cons_append, homogenizeList, bind_ok_iff, pure_ok_iff] at h
    obtain ⟨s, hs, r1, hr, rfl⟩ := h
    have hg := hl gp (by simp)
    obtain ⟨b1, m1, g', m2, b2, b3, b4, b5⟩ := ih ((homogenizeGp_safe (env := env) hc hw hg).post hs).1
      (fun g' h => hl g' (by rw [List.cons_append]; exact List.mem_cons_of_mem _ h)) hr
    exact ⟨b1, s.gp :: m1, g', m2, by simp [b2], by simp [b3], b4, b5⟩

theorem output_nan (hB : c.Big) {s s' : ObjFiles α} (hs : s.obj.Ok) (he : s.obj.cfg = c)
    (hp : s.obj.work.Poisoned c) {t id : Int} (h : output env s t id = .ok s') : s'.obj.work.Poisoned c := by
  subst he
  unfold output at h
  split at h
  · rw [pure_ok_iff] at h; subst h; exact hp
  · rename_i g hg
    have hmem := findGp_mem' hg
    obtain ⟨old, h1, h2⟩ := loadVars_ok (hs.gauss g hmem) hs.work.varsOld
    have hw : Work.Ok s.obj.cfg { s.obj.work with varsOld := old } :=
      ⟨hs.work.u, hs.work.du, hs.work.b, hs.work.elemStress, hs.work.elemStrain, h2,
        hs.work.varsNew, hs.work.A2, hs.work.A3⟩
    have hp' : Work.Poisoned s.obj.cfg { s.obj.work with varsOld := old } := hp
    obtain ⟨u, h3, h4⟩ := setDispl_ok hs.cfg hw g.macroStrain
    simp only at h
    rw [h1, M_bind_ok', h3, M_bind_ok'] at h
    simp only [bind_ok_iff, pure_ok_iff] at h
    obtain ⟨r, hr, w', hw', t', -, rfl⟩ := h
    have hr' := (newtonRaphson_safe hs.cfg h4.ok).post hr
    have k := (newtonRaphson_nan hs.cfg h4.ok
      (setDispl_hit hs.cfg hw h3 (Or.inl (hp'.tainted hs.cfg hB))) hr).2.1
    have hu : w'.u = r.work.u := by
      rcases hs.cfg.dim with hd | hd
      · obtain ⟨e, s, h1, -⟩ := calcFields2_eq hs.cfg hd hr'.ok
        rw [h1] at hw'; cases hw'; rfl
      · obtain ⟨e, s, h1, -⟩ := calcFields3_eq hs.cfg hd hr'.ok
        rw [h1] at hw'; cases hw'; rfl
    intro q hq _
    show IsNan (w'.u.val q)
    rw [hu]; exact k q hq

theorem step_nan {s : ObjFiles α} (hB : s.obj.cfg.Big) (hs : s.obj.Ok) (hp : s.obj.work.Poisoned s.obj.cfg)
    {k : Call α} {r : Stepped α} (h : step env s k = .ok r) : r.state.obj.work.Poisoned s.obj.cfg := by
  cases k with
  | setStrain id eps => simp only [step, pure_ok_iff] at h; subst h; exact hp
  | homogenize =>
    simp only [step, homogenize, bind_ok_iff, pure_ok_iff] at h
    obtain ⟨o, ⟨r1, h1, rfl⟩, rfl⟩ := h
    exact (homogenizeList_nan hs.cfg hB hs.work hs.gauss hp h1).1
  | getStress id buf =>
    simp only [step, pure_ok_iff] at h; subst h
    unfold getMacroStress; split <;> exact hp
  | getCtan id buf =>
    simp only [step, pure_ok_iff] at h; subst h
    unfold getMacroCtan; split <;> exact hp
  | getNl id =>
    simp only [step, pure_ok_iff] at h; subst h
    unfold getNlFlag; split <;> exact hp
  | updateVars =>
    simp only [step, updateVars, bind_ok_iff, pure_ok_iff] at h
    obtain ⟨o, ⟨l, h1, rfl⟩, rfl⟩ := h
    exact hp
  | output t id =>
    simp only [step, bind_ok_iff, pure_ok_iff] at h
    obtain ⟨s', h1, rfl⟩ := h
    exact output_nan hB hs rfl hp h1
  | writeInfo =>
    simp only [step, writeInfoFiles, bind_ok_iff, pure_ok_iff] at h
    obtain ⟨o, ⟨v, h1, rfl⟩, rfl⟩ := h
    exact hp

theorem run_nan {calls : List (Call α)} {s s' : ObjFiles α} (hB : s.obj.cfg.Big) (hs : s.obj.Ok)
    (hp : s.obj.work.Poisoned s.obj.cfg) (h : run env calls s = .ok s') : s'.obj.work.Poisoned s.obj.cfg := by
  induction calls generalizing s with
  | nil => simp only [run, pure_ok_iff] at h; subst h; exact hp
  | cons k l ih =>
    simp only [run, bind_ok_iff] at h
    obtain ⟨r, hr, h⟩ := h
    have e := step_cfg hr
    have := step_nan hB hs hp hr
    rw [← e] at this hB ⊢
    exact ih hB ((step_sane hs k).post hr) this h

/-- The constructor on memory with a NaN. -/
theorem calcCtanLin_nan (hc : c.Ok) (hB : c.Big) {w : Work α} (hw : w.Ok c) (ht : w.Tainted c) {ctan : Nat → α}
    {r : CtanState α} (h : calcCtanLin env c ctan w = .ok r) :
    r.work.Poisoned c ∧ ∀ v i, v < c.nvoi → i < c.nvoi → IsNan (r.ctan (v * c.nvoi + i)) := by
  unfold calcCtanLin at h
  have key := loop_ok_inv (fun n (s : CtanState α) => s.work.Ok c ∧ s.work.Tainted c ∧
      (0 < n → s.work.Poisoned c) ∧
      (n ≤ c.nvoi → ∀ v i, v < c.nvoi → i < n → IsNan (s.ctan (v * c.nvoi + i)))) h
    ⟨hw, ht, fun h => absurd h (lt_irrefl _), fun _ _ _ _ h => absurd h (by omega)⟩ (by
      rintro n s s' hn ⟨a1, a2, -, a7⟩ hs
      simp only [bind_ok_iff, pure_ok_iff] at hs
      obtain ⟨r', hr', rfl⟩ := hs
      obtain ⟨k1', -⟩ := solveStrain_nan hc hB a1 (Or.inl a2) hr'
      refine ⟨((solveStrain_safe (env := env) hc a1 _).post hr').ok, k1'.work.tainted hc hB, fun _ => k1'.work,
        fun hn' v i hv hi => ?_⟩
      show IsNan (setCol c.nvoi n _ s.ctan (v * c.nvoi + i))
      by_cases e : i = n
      · subst e
        rw [setCol_at hn hv]
        exact (k1'.sig v).div_l _
      · rw [setCol_off hn (by omega) e]
        exact a7 (by omega) v i hv (by omega))
  have h0 : 0 < c.nvoi := by unfold Cfg.nvoi; split <;> omega
  exact ⟨key.2.2.1 h0, key.2.2.2 le_rfl⟩

end Verif
