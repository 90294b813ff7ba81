import Verif.Lemmas.Void
import Verif.Props.Nan
import Verif.Props.Client

/-!
# C106: nodes without stiffness

The preconditioner of the linear solver divides by the diagonal of the matrix (/repo/src/ell.cpp:231-260, and in
two dimensions the same in `ell_solve_cgpd_2D`).
At an interior node all of whose elements have a material with Young's modulus zero, elastic or plastic, the
diagonal is zero and so is the residual: in IEEE arithmetic the preconditioned residual there is `1 / 0 * 0`, NaN.  So
`newton_raphson` can accept the displacements it starts from, but it cannot correct them: its first correction
makes every displacement of the cell NaN.

test3d_8 is such a cell: the parameters meant for its second material stand at the wrong indices (C72).
-/

namespace Verif.Props
open Spec

section
variable {fp : Range} {env : Env (Dbl fp)} {a : Args (Dbl fp)} {j : Junk (Dbl fp)} {calls : List (Call (Dbl fp))}
  {s : ObjFiles (Dbl fp)}

/-- Number `m` of the two materials has Young's modulus zero. -/
structure NoStiffness (a : Args (Dbl fp)) (m : Nat) : Prop where
  lt : m < 2
  young : a.params (m * 10) = 0

/-- An interior node of the grid of the constructor. -/
structure InsideNode (a : Args (Dbl fp)) (ix iy iz : Nat) : Prop where
  x : 0 < ix ∧ ix + 1 < a.size 0
  y : 0 < iy ∧ iy + 1 < a.size 1
  z : if a.dim = 3 then 0 < iz ∧ iz + 1 < a.size 2 else iz = 0

/-- The elements around a node have material `m`: eight for an interior node in three dimensions, four in
two. -/
def Around (c : Cfg (Dbl fp)) (ix iy iz m : Nat) : Prop :=
  ∀ ex ey ez, ex ≤ ix → ix ≤ ex + 1 → ey ≤ iy → iy ≤ ey + 1 → ez ≤ iz → iz ≤ ez + 1 →
    elemTypeOf c ex ey ez = m

theorem mkMaterial_void {p : Nat → Dbl fp} (h : p 0 = 0) (ty : Int) (m : Material (Dbl fp)) :
    (mkMaterial p ty m).Void := by
  have h0 : Nil (p 0) := by rw [h]; exact Nil.zero
  refine ⟨h0, ?_, ?_, ?_⟩
  · show Nil (p 0 / _)
    exact Nil.div h0 _
  · show Nil ((p 1 * p 0) / _)
    exact Nil.div (Nil.mul_l _ h0) _
  · show Nil (p 0 / _)
    exact Nil.div h0 _

theorem voidElem_of {c : Cfg (Dbl fp)} (hb : BuiltFrom a j c) {m : Nat} (hm : NoStiffness a m) {ex ey ez : Nat}
    (hx : ex < c.nx - 1) (hy : ey < c.ny - 1) (h2 : c.dim = 2 → ez = 0) (h3 : c.dim = 3 → ez < c.nz - 1)
    (hr : elemTypeOf c ex ey ez = m) : c.VoidElem ex ey ez := by
  have k := hb.elem ex ey ez hx hy h2 h3
  obtain ⟨et, ct, e⟩ := hb.eq
  rw [hr] at k
  show (matOf c (gloElem3D c.nx c.ny ex ey ez)).Void
  unfold matOf
  rw [k]
  have hm2 := hm.lt
  have hidx : (if (m : Int) = 0 then 0 else 1) = m := by
    obtain rfl | rfl : m = 0 ∨ m = 1 := by omega
    · rfl
    · rfl
  rw [hidx]
  have hmat : c.mats m = mkMaterial (fun k => a.params (m * 10 + k)) (a.matTypes m) (j.mats m) := by
    rw [e]
    show (if m < 2 then _ else _) = _
    rw [if_pos hm2]
  rw [hmat]
  exact mkMaterial_void (by show a.params (m * 10 + 0) = 0; exact hm.young) _ _

theorem hole_of {c : Cfg (Dbl fp)} (hb : BuiltFrom a j c) (hc : c.Ok) {m : Nat} (hm : NoStiffness a m)
    {ix iy iz : Nat} (hi : InsideNode a ix iy iz) (hr : Around c ix iy iz m) :
    ∃ W slot n, c.Hole W slot n := by
  have hb' := hb
  obtain ⟨et, ct, e⟩ := hb'.eq
  have hnx : c.nx = a.size 0 := by rw [e]; rfl
  have hny : c.ny = a.size 1 := by rw [e]; rfl
  have hdim : c.dim = a.dim := by rw [e]; rfl
  have hx := hi.x; have hy := hi.y; have hz := hi.z
  rcases hc.dim with hd | hd
  · rw [if_neg (by omega)] at hz
    subst hz
    have hv : c.VoidNode2 ix iy := ⟨by rw [hnx]; exact hx, by rw [hny]; exact hy, fun ex ey h1 h2 h4 h5 =>
      voidElem_of hb hm (by omega) (by omega) (fun _ => rfl) (fun h => by omega)
        (hr ex ey 0 h1 h2 h4 h5 (by omega) (by omega))⟩
    exact ⟨_, _, _, hv.hole hc hd⟩
  · rw [if_pos (by omega)] at hz
    have hnz : c.nz = a.size 2 := by
      rw [e]; show (if a.dim = 2 then 1 else a.size 2) = _; rw [if_neg (by omega)]
    have hv : c.VoidNode ix iy iz := ⟨by rw [hnx]; exact hx, by rw [hny]; exact hy, by rw [hnz]; exact hz,
      fun ex ey ez h1 h2 h4 h5 h6 h7 => voidElem_of hb hm (by omega) (by omega) (fun h => by omega)
        (fun _ => by omega) (hr ex ey ez h1 h2 h4 h5 h6 h7)⟩
    exact ⟨_, _, _, hv.hole hc hd⟩

/-- **C106**, displacements: in a cell with an interior node all of whose elements have no stiffness, in
whatever state an object gets, the displacements of all interior nodes are what the memory held before the
constructor ran, or they are all NaN.  No solution is ever computed. -/
theorem C106_frozen (ha : a.Ok) {m : Nat} (hm : NoStiffness a m) {ix iy iz : Nat}
    (hi : InsideNode a ix iy iz) (hs : Reach env a j calls s) (hr : Around s.obj.cfg ix iy iz m) :
    (∀ kx ky kz d, InsideNode a kx ky kz → d < a.dim →
      s.obj.work.u.val (((kz * a.size 1 + ky) * a.size 0 + kx) * a.dim + d)
        = j.u (((kz * a.size 1 + ky) * a.size 0 + kx) * a.dim + d)) ∨
    ∀ kx ky kz d, InsideNode a kx ky kz → d < a.dim →
      Scalar.isNaN (s.obj.work.u.val (((kz * a.size 1 + ky) * a.size 0 + kx) * a.dim + d)) = true := by
  obtain ⟨hb, ho⟩ := reach_built ha hs
  obtain ⟨f, hf⟩ := hs
  rw [bind_ok_iff] at hf
  obtain ⟨s0, h0, hrun⟩ := hf
  simp only [constructF, bind_ok_iff, pure_ok_iff] at h0
  obtain ⟨o, h0, rfl⟩ := h0
  obtain ⟨hb0, ho0⟩ := construct_built ha h0
  have e := run_cfg hrun
  have e : s.obj.cfg = o.cfg := e
  obtain ⟨W, slot, n, hv⟩ := hole_of hb0 ho0.cfg hm hi (e ▸ hr)
  have hdim : s.obj.cfg.dim = a.dim := by obtain ⟨et, ct, e⟩ := hb.eq; rw [e]; rfl
  obtain ⟨et, A, hc, hw, hel, h1⟩ := construct_eq env ha j
  rw [h1] at h0
  have hF : o.work.Frozen o.cfg j.u := by
    cases hl : calcCtanLin env (mkCfg a j et) j.ctanLin (startWork (mkCfg a j et) j A) with
    | error e => rw [hl] at h0; cases h0
    | ok r0 =>
      rw [hl] at h0
      cases h0
      have hr' : Around (mkCfg a j et) ix iy iz m := by
        have hr := e ▸ hr
        exact fun ex ey ez => hr ex ey ez
      obtain ⟨W, slot, n, hv'⟩ := hole_of (c := mkCfg a j et) ⟨hc, ⟨et, j.ctanLin, rfl⟩, hel⟩ hc hm hi hr'
      exact calcCtanLin_frozen hc hv' hw (Or.inl fun q _ _ => rfl) hl
  have hF := run_frozen (s := { obj := o, files := _ }) hv ho0 hF hrun
  have hF : s.obj.work.Frozen o.cfg j.u := hF
  rw [← e] at hF
  have hnx : s.obj.cfg.nx = a.size 0 := by obtain ⟨et, ct, e⟩ := hb.eq; rw [e]; rfl
  have hny : s.obj.cfg.ny = a.size 1 := by obtain ⟨et, ct, e⟩ := hb.eq; rw [e]; rfl
  have key : ∀ kx ky kz d, InsideNode a kx ky kz → d < a.dim →
      ((kz * a.size 1 + ky) * a.size 0 + kx) * a.dim + d < s.obj.cfg.nn * s.obj.cfg.dim ∧
      ¬ s.obj.cfg.OnBdry (((kz * a.size 1 + ky) * a.size 0 + kx) * a.dim + d) := by
    intro kx ky kz d hk hd
    have hx := hk.x; have hy := hk.y; have hz := hk.z
    rcases ho.cfg.dim with h2 | h3
    · rw [if_neg (by omega)] at hz
      subst hz
      have had : a.dim = 2 := by omega
      rw [had] at hd ⊢
      rw [show (0 * a.size 1 + ky) * a.size 0 + kx = node2 (a.size 0) kx ky by unfold node2; ring]
      constructor
      · rw [h2, ho.cfg.nn2 h2, hnx, hny]
        exact mul_add_lt (node2_lt (by omega) (by omega)) hd
      · unfold Cfg.OnBdry
        rw [if_pos h2, hnx, hny, bdryDof2_iff (by omega) hd]
        unfold Bdry2; omega
    · rw [if_pos (by omega)] at hz
      have had : a.dim = 3 := by omega
      have hnz : s.obj.cfg.nz = a.size 2 := by
        obtain ⟨et, ct, e⟩ := hb.eq
        rw [e]; show (if a.dim = 2 then 1 else a.size 2) = _; rw [if_neg (by omega)]
      rw [had] at hd ⊢
      rw [show (kz * a.size 1 + ky) * a.size 0 + kx = node3 (a.size 0) (a.size 1) kx ky kz by
        unfold node3; ring]
      constructor
      · rw [h3]
        show _ < s.obj.cfg.nx * s.obj.cfg.ny * s.obj.cfg.nz * 3
        rw [hnx, hny, hnz]
        exact mul_add_lt (node3_lt (by omega) (by omega) (by omega)) hd
      · unfold Cfg.OnBdry
        rw [if_neg (by omega), hnx, hny, hnz, bdryDof3_iff (by omega) (by omega) hd]
        unfold Bdry3; omega
  rcases hF with h | h
  · exact Or.inl fun kx ky kz d hk hd => h _ (key kx ky kz d hk hd).1 (key kx ky kz d hk hd).2
  · exact Or.inr fun kx ky kz d hk hd => h _ (key kx ky kz d hk hd).1 (key kx ky kz d hk hd).2

/-- Components of a strain. -/
def components (a : Args (Dbl fp)) : Nat := if a.dim = 2 then 3 else 6

/-- **C106**, results: in such a cell, for every Gauss point that `homogenize` does not treat as linear, the
stress is that of displacements that were accepted as they were, with a reported error below the tolerance, or
all its components are NaN; and the same for every column of the tangent. -/
theorem C106_results (ha : a.Ok) {m : Nat} (hm : NoStiffness a m) {ix iy iz : Nat}
    (hi : InsideNode a ix iy iz) (hs : Reach env a j calls s) (hr : Around s.obj.cfg ix iy iz m)
    {r : Stepped (Dbl fp)} (hh : step env s .homogenize = .ok r) :
    List.Forall₂ (fun g g' => TakesLinearPath s.obj.cfg g ∨
      ((Scalar.lt (g'.nrErr 0) nrMaxTol = true ∨
          ∀ v, v < components a → Scalar.isNaN (g'.macroStress v) = true) ∧
        ∀ i, i < components a → Scalar.lt (g'.nrErr (1 + i)) nrMaxTol = true ∨
          ∀ v, v < components a → Scalar.isNaN (g'.macroCtan (v * components a + i)) = true))
      s.obj.gauss r.state.obj.gauss := by
  obtain ⟨hb, ho⟩ := reach_built ha hs
  obtain ⟨W, slot, n, hv⟩ := hole_of hb ho.cfg hm hi hr
  have hdim : s.obj.cfg.dim = a.dim := by obtain ⟨et, ct, e⟩ := hb.eq; rw [e]; rfl
  have hnv : s.obj.cfg.nvoi = components a := by unfold Cfg.nvoi components; rw [hdim]
  simp only [step, homogenize, bind_ok_iff, pure_ok_iff] at hh
  obtain ⟨o, ⟨r1, h1, rfl⟩, rfl⟩ := hh
  refine (homogenizeList_void ho.cfg hv ho.work ho.gauss h1).imp ?_
  rintro g g' (h | ⟨h1, h2⟩)
  · exact Or.inl h
  · rw [hnv] at h1 h2
    exact Or.inr ⟨h1, h2⟩

/-! ## test3d_8 -/

/-- Rounding of a number of the unit interval. -/
theorem round_unit (hu : fp.u ≤ 1 / 100) (he : fp.eta ≤ 1 / 1000) {x : ℝ} (h0 : 0 ≤ x) (h1 : x ≤ 1) :
    ∃ y m l, Dbl.round fp x = .fin y m l ∧ 0 ≤ y ∧ y ≤ 1.01 * x + 0.001 ∧ 0.99 * x - 0.001 ≤ y := by
  have e0 : fp.rnd 0 = 0 := fp.fix _ fp.zero
  have e1 : fp.rnd 1 = 1 := fp.fix _ fp.one
  have k0 := fp.mono h0
  have k1 := fp.mono h1
  rw [e0] at k0
  rw [e1] at k1
  have hl : |fp.rnd x| ≤ fp.top := by rw [abs_of_nonneg k0]; exact k1.trans fp.one_le
  refine ⟨fp.rnd x, fp.mem x, hl, by unfold Dbl.round; rw [dif_pos hl], k0, ?_⟩
  have := fp.err x
  rw [abs_of_nonneg h0, abs_le] at this
  have hux : fp.u * x ≤ 1 / 100 * x := mul_le_mul_of_nonneg_right hu h0
  constructor <;> norm_num <;> linarith [this.1, this.2]

/-- Quotient of a number of the unit interval by a natural number. -/
theorem div_unit (hu : fp.u ≤ 1 / 100) (he : fp.eta ≤ 1 / 1000) {x : ℝ} {m0 : x ∈ fp.F} {l0 : |x| ≤ fp.top}
    (h0 : 0 ≤ x) (h1 : x ≤ 1) {n : Nat} (hn : 2 ≤ n) :
    ∃ y m l, Dbl.div (.fin x m0 l0) (Dbl.round fp (n : ℝ)) = .fin y m l ∧ 0 ≤ y ∧
      y ≤ 1.01 * (x / (0.98 * n)) + 0.001 := by
  have hn' : (2 : ℝ) ≤ n := by exact_mod_cast hn
  by_cases hf : |fp.rnd n| ≤ fp.top
  · have e : Dbl.round fp (n : ℝ) = .fin (fp.rnd n) (fp.mem _) hf := by unfold Dbl.round; rw [dif_pos hf]
    have herr := fp.err (n : ℝ)
    rw [abs_of_nonneg (by linarith : (0 : ℝ) ≤ n), abs_le] at herr
    have hux : fp.u * n ≤ 1 / 100 * n := mul_le_mul_of_nonneg_right hu (by linarith)
    have hr : 0.98 * (n : ℝ) ≤ fp.rnd n := by norm_num; linarith [herr.1]
    have hpos : (0 : ℝ) < 0.98 * n := by norm_num; linarith
    have hdiv : x / fp.rnd n ≤ x / (0.98 * n) := div_le_div_of_nonneg_left h0 hpos hr
    have hle : x / fp.rnd n ≤ 1 := by
      rw [div_le_one (hpos.trans_le hr)]
      have : (1 : ℝ) ≤ 0.98 * n := by norm_num; linarith
      linarith
    obtain ⟨y, m, l, e1, e2, e3, -⟩ := round_unit hu he (div_nonneg h0 (hpos.trans_le hr).le) hle
    refine ⟨y, m, l, ?_, e2, e3.trans ?_⟩
    · rw [e]
      show (if fp.rnd n = 0 then _ else Dbl.round fp (x / fp.rnd n)) = _
      rw [if_neg (hpos.trans_le hr).ne', e1]
    · norm_num at hdiv ⊢
      linarith
  · obtain ⟨b, e⟩ : ∃ b, Dbl.round fp (n : ℝ) = .inf b := ⟨_, by unfold Dbl.round; rw [dif_neg hf]⟩
    obtain ⟨y, m, l, e1, e2, e3, -⟩ := round_unit hu he (le_refl 0) zero_le_one
    refine ⟨y, m, l, ?_, e2, e3.trans ?_⟩
    · rw [e]
      exact e1
    · have : 0 ≤ x / (0.98 * n) := div_nonneg h0 (by positivity)
      norm_num at this ⊢
      linarith

theorem lit (x : ℝ) (m : Nat) (b : Bool) (e : Nat) (h : (OfScientific.ofScientific m b e : ℝ) = x) :
    (OfScientific.ofScientific m b e : Dbl fp) = Dbl.round fp x := by
  rw [← h]; rfl

/-- The rows 0 and 1 of elements of test3d_8 are in its layer. -/
theorem layer8 (hu : fp.u ≤ 1 / 100) (he : fp.eta ≤ 1 / 1000) {ny : Nat} (hy : 21 ≤ ny) {ey : Nat} (hey : ey ≤ 1) :
    Scalar.lt (((ey : Nat) : Dbl fp) * ((1.0 : Dbl fp) / ((ny - 1 : Nat) : Dbl fp))
      + (1.0 : Dbl fp) / ((ny - 1 : Nat) : Dbl fp) / ((2 : Nat) : Dbl fp)) (0.1 : Dbl fp) = true := by
  have h1 : (1.0 : Dbl fp) = Dbl.round fp 1 := lit 1 10 true 1 (by norm_num)
  have h01 : (0.1 : Dbl fp) = Dbl.round fp (1 / 10) := lit (1 / 10) 1 true 1 (by norm_num)
  have hone : Dbl.round fp 1 = .fin 1 fp.one (by rw [abs_one]; exact fp.one_le) := by
    have e1 : fp.rnd 1 = 1 := fp.fix _ fp.one
    unfold Dbl.round
    simp only [e1]
    rw [dif_pos (by rw [abs_one]; exact fp.one_le)]
  obtain ⟨d, md, ld, e1, d0, d1⟩ := div_unit hu he (x := 1) (m0 := fp.one)
    (l0 := by rw [abs_one]; exact fp.one_le) zero_le_one (le_refl _) (n := ny - 1) (by omega)
  have hdy : (1.0 : Dbl fp) / ((ny - 1 : Nat) : Dbl fp) = .fin d md ld := by
    rw [h1, hone]; exact e1
  have hN : (20 : ℝ) ≤ ((ny - 1 : Nat) : ℝ) := by exact_mod_cast (by omega : 20 ≤ ny - 1)
  have hd : d ≤ 0.053 := by
    refine d1.trans ?_
    have : (1 : ℝ) / (0.98 * ((ny - 1 : Nat) : ℝ)) ≤ 1 / (0.98 * 20) :=
      div_le_div_of_nonneg_left zero_le_one (by norm_num) (by norm_num; linarith)
    norm_num at this ⊢
    linarith
  have hd1 : d ≤ 1 := hd.trans (by norm_num)
  obtain ⟨g, mg, lg, e2, g0, g1⟩ := div_unit hu he (m0 := md) (l0 := ld) d0 hd1 (n := 2) (le_refl _)
  have hg : g ≤ 0.0295 := by
    refine g1.trans ?_
    norm_num at hd ⊢
    linarith
  have hey' : ((ey : Nat) : ℝ) = 0 ∨ ((ey : Nat) : ℝ) = 1 := by
    obtain rfl | rfl : ey = 0 ∨ ey = 1 := by omega
    · left; norm_num
    · right; norm_num
  have hmul : ∃ t mt lt', ((ey : Nat) : Dbl fp) * (Dbl.fin d md ld) = .fin t mt lt' ∧ 0 ≤ t ∧ t ≤ d := by
    have hz : fp.rnd 0 = 0 := fp.fix _ fp.zero
    have he1 : fp.rnd 1 = 1 := fp.fix _ fp.one
    have hfix : fp.rnd d = d := fp.fix _ md
    have hzt : |(0 : ℝ)| ≤ fp.top := by rw [abs_zero]; exact zero_le_one.trans fp.one_le
    have hot : |(1 : ℝ)| ≤ fp.top := by rw [abs_one]; exact fp.one_le
    rcases hey' with h | h
    · refine ⟨0, fp.zero, hzt, ?_, le_refl _, d0⟩
      show Dbl.mul (Dbl.round fp (ey : ℝ)) (.fin d md ld) = _
      rw [h]
      have : Dbl.round fp 0 = .fin 0 fp.zero hzt := by
        unfold Dbl.round; simp only [hz]; rw [dif_pos hzt]
      rw [this]
      show Dbl.round fp (0 * d) = _
      rw [zero_mul, this]
    · refine ⟨d, md, ld, ?_, d0, le_refl _⟩
      show Dbl.mul (Dbl.round fp (ey : ℝ)) (.fin d md ld) = _
      rw [h, hone]
      show Dbl.round fp (1 * d) = _
      rw [one_mul]
      unfold Dbl.round; simp only [hfix]; rw [dif_pos ld]
  obtain ⟨t, mt, lt', e3, t0, t1⟩ := hmul
  obtain ⟨y, my, ly, e4, -, y1, -⟩ := round_unit hu he (add_nonneg t0 g0) (by norm_num at hd hg; linarith : t + g ≤ 1)
  obtain ⟨z, mz, lz, e5, -, -, z1⟩ := round_unit hu he (x := 1 / 10) (by norm_num) (by norm_num)
  rw [hdy, e3, h01, e5]
  have e2' : (Dbl.fin d md ld : Dbl fp) / ((2 : Nat) : Dbl fp) = .fin g mg lg := e2
  rw [e2']
  show Dbl.less (Dbl.round fp (t + g)) (.fin z mz lz) = true
  rw [e4]
  show (open Classical in decide (y < z)) = true
  rw [decide_eq_true_iff]
  norm_num at y1 z1 hd hg
  linarith

/-- **C106** for test3d_8, in every floating-point format that is not too coarse: on a grid with at least 21
nodes in the second direction its object never has a solution.  After any calls the displacements of all
interior nodes are what the memory held before, or they are all NaN; and every stress it returns for a Gauss
point that is not treated as linear is that of unsolved displacements, or NaN. -/
theorem C106_test8 (hu : fp.u ≤ 1 / 100) (he : fp.eta ≤ 1 / 1000) {nx ny nz : Nat} (hx : 3 ≤ nx) (hy : 21 ≤ ny)
    (hz : 3 ≤ nz) (hs : Reach env ((arrays3d8 nx ny nz).args 3 1) j calls s) :
    ((∀ kx ky kz d, 0 < kx → kx + 1 < nx → 0 < ky → ky + 1 < ny → 0 < kz → kz + 1 < nz → d < 3 →
      s.obj.work.u.val (((kz * ny + ky) * nx + kx) * 3 + d) = j.u (((kz * ny + ky) * nx + kx) * 3 + d)) ∨
    ∀ kx ky kz d, 0 < kx → kx + 1 < nx → 0 < ky → ky + 1 < ny → 0 < kz → kz + 1 < nz → d < 3 →
      Scalar.isNaN (s.obj.work.u.val (((kz * ny + ky) * nx + kx) * 3 + d)) = true) ∧
    ∀ r, step env s .homogenize = .ok r →
      List.Forall₂ (fun g g' => TakesLinearPath s.obj.cfg g ∨
        ((Scalar.lt (g'.nrErr 0) nrMaxTol = true ∨ ∀ v, v < 6 → Scalar.isNaN (g'.macroStress v) = true) ∧
          ∀ i, i < 6 → Scalar.lt (g'.nrErr (1 + i)) nrMaxTol = true ∨
            ∀ v, v < 6 → Scalar.isNaN (g'.macroCtan (v * 6 + i)) = true))
        s.obj.gauss r.state.obj.gauss := by
  have ha : ((arrays3d8 (α := Dbl fp) nx ny nz).args 3 1).Ok :=
    ⟨Or.inr rfl, Or.inr rfl, by show 2 ≤ nx; omega, by show 2 ≤ ny; omega, fun _ => by show 2 ≤ nz; omega⟩
  have hm : NoStiffness ((arrays3d8 (α := Dbl fp) nx ny nz).args 3 1) 1 := ⟨by omega, rfl⟩
  have hi : InsideNode ((arrays3d8 (α := Dbl fp) nx ny nz).args 3 1) 1 1 1 :=
    ⟨by show 0 < 1 ∧ 1 + 1 < nx; omega, by show 0 < 1 ∧ 1 + 1 < ny; omega, by show 0 < 1 ∧ 1 + 1 < nz; omega⟩
  obtain ⟨hb, -⟩ := reach_built ha hs
  have hr : Around s.obj.cfg 1 1 1 1 := by
    intro ex ey ez _ _ h _ _ _
    obtain ⟨et, ct, e⟩ := hb.eq
    have hdim : s.obj.cfg.dim = 3 := by rw [e]; rfl
    have hmt : s.obj.cfg.microType = 1 := by rw [e]; rfl
    have hw : s.obj.cfg.width = 0.1 := by rw [e]; rfl
    have hdy : s.obj.cfg.dy = 1.0 / ((ny - 1 : Nat) : Dbl fp) := by rw [e]; rfl
    unfold elemTypeOf getElemType3D
    rw [if_neg (by omega), if_neg (by omega), if_pos hmt, hw, hdy]
    simp only [layer8 hu he hy h, if_true]
    rfl
  refine ⟨?_, fun r hh => C106_results ha hm hi hs hr hh⟩
  rcases C106_frozen ha hm hi hs hr with h | h
  · exact Or.inl fun kx ky kz d h1 h2 h3 h4 h5 h6 hd => h kx ky kz d ⟨⟨h1, h2⟩, ⟨h3, h4⟩, ⟨h5, h6⟩⟩ hd
  · exact Or.inr fun kx ky kz d h1 h2 h3 h4 h5 h6 hd => h kx ky kz d ⟨⟨h1, h2⟩, ⟨h3, h4⟩, ⟨h5, h6⟩⟩ hd

end

theorem doubles_fine : doubles.u ≤ 1 / 100 ∧ doubles.eta ≤ 1 / 1000 := by
  constructor
  · show (2 : ℝ) ^ (-(53 : ℕ) : ℤ) ≤ 1 / 100
    norm_num
  · show (2 : ℝ) ^ (-1074 - 1 : ℤ) ≤ 1 / 1000
    have : (2 : ℝ) ^ (-1074 - 1 : ℤ) ≤ 2 ^ (-10 : ℤ) := zpow_le_zpow_right₀ (by norm_num) (by norm_num)
    refine this.trans ?_
    norm_num

/-- test3d_8 in double precision on a grid of 5 by 21 by 5 nodes, with a uniaxial strain for one Gauss
point. -/
example : ∃ (s : ObjFiles (Dbl doubles)) (r : Stepped (Dbl doubles)),
    Reach (tinyEnv _) ((arrays3d8 5 21 5).args 3 1) (tinyJunk _) [.setStrain 0 (fun i => if i = 2 then 1 else 0)] s ∧
    step (tinyEnv _) s .homogenize = .ok r ∧ s.obj.gauss ≠ [] ∧
    List.Forall₂ (fun g g' => TakesLinearPath s.obj.cfg g ∨
        ((Scalar.lt (g'.nrErr 0) nrMaxTol = true ∨ ∀ v, v < 6 → Scalar.isNaN (g'.macroStress v) = true) ∧
          ∀ i, i < 6 → Scalar.lt (g'.nrErr (1 + i)) nrMaxTol = true ∨
            ∀ v, v < 6 → Scalar.isNaN (g'.macroCtan (v * 6 + i)) = true))
        s.obj.gauss r.state.obj.gauss := by
  have ha : ((arrays3d8 (α := Dbl doubles) 5 21 5).args 3 1).Ok :=
    ⟨Or.inr rfl, Or.inr rfl, by show 2 ≤ 5; omega, by show 2 ≤ 21; omega, fun _ => by show 2 ≤ 5; omega⟩
  obtain ⟨o, h0, ho⟩ := (construct_sane (tinyEnv _) ha (tinyJunk (Dbl doubles))).returns tinyEnv_quick
  let F : Files (Dbl doubles) := ⟨[], [], [], [], fun _ _ => none⟩
  let s0 : ObjFiles (Dbl doubles) := { obj := o, files := ctorFiles o.cfg F }
  have hc0 : constructF (tinyEnv _) ((arrays3d8 5 21 5).args 3 1) (tinyJunk _) F = .ok s0 := by
    unfold constructF; rw [h0]; rfl
  obtain ⟨s, hs, hos⟩ := (run_sane (env := tinyEnv _) [.setStrain 0 (fun i => if i = 2 then 1 else 0)] (s := s0)
    ho).returns tinyEnv_quick
  have hreach : Reach (tinyEnv _) ((arrays3d8 5 21 5).args 3 1) (tinyJunk _)
      [.setStrain 0 (fun i => if i = 2 then 1 else 0)] s := ⟨F, by rw [hc0]; exact hs⟩
  obtain ⟨r, hr, -⟩ := (step_sane (env := tinyEnv _) hos .homogenize).returns tinyEnv_quick
  refine ⟨s, r, hreach, hr, ?_, (C106_test8 doubles_fine.1 doubles_fine.2 (by omega) (by omega) (by omega)
    hreach).2 r hr⟩
  cases hs
  show setStrainList _ _ _ _ o.gauss ≠ []
  cases o.gauss with
  | nil => simp [setStrainList]
  | cons g l => unfold setStrainList; split <;> simp

/-- The same layer in a cell of two dimensions, in double precision on a grid of 5 by 21 nodes. -/
example : ∃ (s : ObjFiles (Dbl doubles)) (r : Stepped (Dbl doubles)),
    Reach (tinyEnv _) ((arrays3d8 5 21 1).args 2 1) (tinyJunk _) [.setStrain 0 (fun i => if i = 2 then 1 else 0)] s ∧
    step (tinyEnv _) s .homogenize = .ok r ∧ s.obj.gauss ≠ [] ∧
    ((∀ kx ky d, 0 < kx ∧ kx < 4 → 0 < ky ∧ ky < 20 → d < 2 →
      s.obj.work.u.val ((ky * 5 + kx) * 2 + d) = (tinyJunk (Dbl doubles)).u ((ky * 5 + kx) * 2 + d)) ∨
    ∀ kx ky d, 0 < kx ∧ kx < 4 → 0 < ky ∧ ky < 20 → d < 2 →
      Scalar.isNaN (s.obj.work.u.val ((ky * 5 + kx) * 2 + d)) = true) ∧
    List.Forall₂ (fun g g' => TakesLinearPath s.obj.cfg g ∨
        ((Scalar.lt (g'.nrErr 0) nrMaxTol = true ∨ ∀ v, v < 3 → Scalar.isNaN (g'.macroStress v) = true) ∧
          ∀ i, i < 3 → Scalar.lt (g'.nrErr (1 + i)) nrMaxTol = true ∨
            ∀ v, v < 3 → Scalar.isNaN (g'.macroCtan (v * 3 + i)) = true))
        s.obj.gauss r.state.obj.gauss := by
  have ha : ((arrays3d8 (α := Dbl doubles) 5 21 1).args 2 1).Ok :=
    ⟨Or.inl rfl, Or.inr rfl, by show 2 ≤ 5; omega, by show 2 ≤ 21; omega, fun h => by cases h⟩
  obtain ⟨o, h0, ho⟩ := (construct_sane (tinyEnv _) ha (tinyJunk (Dbl doubles))).returns tinyEnv_quick
  let F : Files (Dbl doubles) := ⟨[], [], [], [], fun _ _ => none⟩
  let s0 : ObjFiles (Dbl doubles) := { obj := o, files := ctorFiles o.cfg F }
  have hc0 : constructF (tinyEnv _) ((arrays3d8 5 21 1).args 2 1) (tinyJunk _) F = .ok s0 := by
    unfold constructF; rw [h0]; rfl
  obtain ⟨s, hs, hos⟩ := (run_sane (env := tinyEnv _) [.setStrain 0 (fun i => if i = 2 then 1 else 0)] (s := s0)
    ho).returns tinyEnv_quick
  have hreach : Reach (tinyEnv _) ((arrays3d8 5 21 1).args 2 1) (tinyJunk _)
      [.setStrain 0 (fun i => if i = 2 then 1 else 0)] s := ⟨F, by rw [hc0]; exact hs⟩
  obtain ⟨r, hr, -⟩ := (step_sane (env := tinyEnv _) hos .homogenize).returns tinyEnv_quick
  have hm : NoStiffness ((arrays3d8 (α := Dbl doubles) 5 21 1).args 2 1) 1 := ⟨by omega, rfl⟩
  have hi : InsideNode ((arrays3d8 (α := Dbl doubles) 5 21 1).args 2 1) 1 1 0 :=
    ⟨by show 0 < 1 ∧ 1 + 1 < 5; omega, by show 0 < 1 ∧ 1 + 1 < 21; omega, by rw [if_neg (by show ¬ 2 = 3; omega)]⟩
  obtain ⟨hb, -⟩ := reach_built ha hreach
  have har : Around s.obj.cfg 1 1 0 1 := by
    intro ex ey ez _ _ h _ _ _
    obtain ⟨et, ct, e⟩ := hb.eq
    have hdim : s.obj.cfg.dim = 2 := by rw [e]; rfl
    have hmt : s.obj.cfg.microType = 1 := by rw [e]; rfl
    have hw : s.obj.cfg.width = 0.1 := by rw [e]; rfl
    have hdy : s.obj.cfg.dy = 1.0 / ((21 - 1 : Nat) : Dbl doubles) := by rw [e]; rfl
    unfold elemTypeOf getElemType2D
    rw [if_pos hdim, if_neg (by omega), if_pos hmt, hw, hdy]
    simp only [layer8 doubles_fine.1 doubles_fine.2 (le_refl 21) h, if_true]
    rfl
  have hin : ∀ kx ky, 0 < kx ∧ kx < 4 → 0 < ky ∧ ky < 20 →
      InsideNode ((arrays3d8 (α := Dbl doubles) 5 21 1).args 2 1) kx ky 0 := fun kx ky h1 h2 =>
    ⟨by show 0 < kx ∧ kx + 1 < 5; omega, by show 0 < ky ∧ ky + 1 < 21; omega, by rw [if_neg (by show ¬ 2 = 3; omega)]⟩
  refine ⟨s, r, hreach, hr, ?_, ?_, C106_results ha hm hi hreach har hr⟩
  · cases hs
    show setStrainList _ _ _ _ o.gauss ≠ []
    cases o.gauss with
    | nil => simp [setStrainList]
    | cons g l => unfold setStrainList; split <;> simp
  · have e0 : ∀ kx ky d, ((0 * 21 + ky) * 5 + kx) * 2 + d = (ky * 5 + kx) * 2 + d := fun kx ky d => by
      rw [Nat.zero_mul, Nat.zero_add]
    rcases C106_frozen ha hm hi hreach har with h | h
    · exact Or.inl fun kx ky d h1 h2 hd => by
        have := h kx ky 0 d (hin kx ky h1 h2) hd
        rw [← e0]; exact this
    · exact Or.inr fun kx ky d h1 h2 hd => by
        have := h kx ky 0 d (hin kx ky h1 h2) hd
        rw [← e0]; exact this

end Verif.Props
