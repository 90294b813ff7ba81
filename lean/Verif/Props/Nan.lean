import Verif.Lemmas.NanRun
import Verif.Lemmas.InfStrain
import Verif.Lemmas.FpBinary
import Verif.Props.Rounding

/-!
# C91: values that are not numbers

`set_displ` (/repo/src/assembly.cpp:28-167) writes the boundary nodes only, and `newton_raphson` adds its
corrections to what `u` holds (/repo/src/solve.cpp:60-61).  Nothing ever resets the interior of `u`
(/repo/src/micro.cpp:60 does not initialise it either).  So a NaN that once got there stays, and spreads to
every cell problem that is solved afterwards, of whatever Gauss point.

The theorems hold in every arithmetic with the laws of NaN of IEEE 754; `binary64` with infinities and NaN is
one.
-/

namespace Verif.Props
open Spec

section
variable {α : Type} [Scalar α] [NanLaws α] {env : Env α} {a : Args α} {j : Junk α} {calls : List (Call α)}
  {s : ObjFiles α}

/-- The grid has an interior node. -/
structure HasInterior (a : Args α) : Prop where
  nx : 3 ≤ a.size 0
  ny : 3 ≤ a.size 1
  nz : a.dim = 3 → 3 ≤ a.size 2

omit [NanLaws α] in
theorem built_big {c : Cfg α} (hb : BuiltFrom a j c) (hB : HasInterior a) : c.Big := by
  obtain ⟨et, ct, rfl⟩ := hb.eq
  refine ⟨hB.nx, hB.ny, fun h => ?_⟩
  show 3 ≤ if a.dim = 2 then 1 else a.size 2
  have h : a.dim = 3 := h
  rw [if_neg (by omega)]
  exact hB.nz h

theorem forall₂_right {β γ : Type} {R : β → γ → Prop} {l : List β} {l' : List γ} (h : List.Forall₂ R l l') {y : γ}
    (hy : y ∈ l') : ∃ x, x ∈ l ∧ R x y := by
  induction h with
  | nil => cases hy
  | cons h1 _ ih =>
    rcases List.mem_cons.mp hy with rfl | hy
    · exact ⟨_, List.mem_cons_self .., h1⟩
    · obtain ⟨x, hx, h⟩ := ih hy
      exact ⟨x, List.mem_cons_of_mem _ hx, h⟩

/-- What `homogenize` does to the Gauss points of an object that holds a NaN: those that are not on the
linear path get NaN for every result; none changes its internal variables. -/
def AllNan (c : Cfg α) : List (Gp α) → List (Gp α) → Prop :=
  List.Forall₂ fun g g' => (¬ TakesLinearPath c g → NanResults c g') ∧
    g'.intVarsN = g.intVarsN ∧ g'.intVarsK = g.intVarsK

/-- Core of `C91_spreads`. -/
theorem spreads_of (ha : a.Ok) (hB : HasInterior a) (hs : Reach env a j calls s) {r : Stepped α}
    (hr : step env s .homogenize = .ok r) {g : Gp α} (hg : g ∈ s.obj.gauss) (hp : Poisons s.obj.cfg g.macroStrain)
    (hl : ¬ TakesLinearPath s.obj.cfg g) {calls2 : List (Call α)} {s2 : ObjFiles α}
    (hs2 : run env calls2 r.state = .ok s2) {r2 : Stepped α} (hr2 : step env s2 .homogenize = .ok r2) :
    AllNan s.obj.cfg s2.obj.gauss r2.state.obj.gauss := by
  obtain ⟨hb, ho⟩ := reach_built ha hs
  have hbig := built_big hb hB
  have hor : r.state.obj.Ok := (step_sane ho .homogenize).post hr
  have hcr := step_cfg hr
  have hp2 : r.state.obj.work.Poisoned r.state.obj.cfg := by
    rw [hcr]
    simp only [step, homogenize, bind_ok_iff, pure_ok_iff] at hr
    obtain ⟨o, ⟨r1, h1, rfl⟩, rfl⟩ := hr
    obtain ⟨l1, l2, hl2⟩ := List.append_of_mem hg
    have hok := ho.gauss
    rw [hl2] at h1 hok
    exact (homogenizeList_strain ho.cfg hbig ho.work hok hp hl h1).1
  have hbr : r.state.obj.cfg.Big := by rw [hcr]; exact hbig
  have hp3 := run_nan hbr hor hp2 hs2
  have hc2 := run_cfg hs2
  have ho2 : s2.obj.Ok := (run_sane calls2 hor).post hs2
  simp only [step, homogenize, bind_ok_iff, pure_ok_iff] at hr2
  obtain ⟨o, ⟨r1, h1, rfl⟩, rfl⟩ := hr2
  rw [← hc2] at hp3 hbr
  have := (homogenizeList_nan ho2.cfg hbr ho2.work ho2.gauss hp3 h1).2
  rwa [hc2, hcr] at this

/-- Core of `C91_same_call`. -/
theorem same_call_of (ha : a.Ok) (hB : HasInterior a) (hs : Reach env a j calls s) {r : Stepped α}
    (hr : step env s .homogenize = .ok r) {l1 l2 : List (Gp α)} {g : Gp α} (hg : s.obj.gauss = l1 ++ g :: l2)
    (hp : Poisons s.obj.cfg g.macroStrain) (hl : ¬ TakesLinearPath s.obj.cfg g) :
    ∃ m1 g' m2, r.state.obj.gauss = m1 ++ g' :: m2 ∧ m1.length = l1.length ∧ NanResults s.obj.cfg g' ∧
      AllNan s.obj.cfg l2 m2 := by
  obtain ⟨hb, ho⟩ := reach_built ha hs
  simp only [step, homogenize, bind_ok_iff, pure_ok_iff] at hr
  obtain ⟨o, ⟨r1, h1, rfl⟩, rfl⟩ := hr
  have hok := ho.gauss
  rw [hg] at h1 hok
  exact (homogenizeList_strain ho.cfg (built_big hb hB) ho.work hok hp hl h1).2

/-- **C91**, spreading: let `homogenize` be called when the macro strain of one Gauss point has a NaN
component.  Then, whatever calls follow — also new strains for every Gauss point —, each later `homogenize`
returns NaN in every component of stress and tangent for every Gauss point that it does not treat as linear,
and no Gauss point gets or changes a history any more. -/
theorem C91_spreads (ha : a.Ok) (hB : HasInterior a) (hs : Reach env a j calls s) {r : Stepped α}
    (hr : step env s .homogenize = .ok r) {g : Gp α} (hg : g ∈ s.obj.gauss) {v : Nat} (hv : v < s.obj.cfg.nvoi)
    (hn : Scalar.isNaN (g.macroStrain v) = true) {calls2 : List (Call α)} {s2 : ObjFiles α}
    (hs2 : run env calls2 r.state = .ok s2) {r2 : Stepped α} (hr2 : step env s2 .homogenize = .ok r2) :
    AllNan s.obj.cfg s2.obj.gauss r2.state.obj.gauss := by
  obtain ⟨hb, ho⟩ := reach_built ha hs
  have hn : NanStrain s.obj.cfg g.macroStrain := ⟨v, hv, hn⟩
  exact spreads_of ha hB hs hr hg (hn.poisons ho.cfg (built_big hb hB)) (not_linear_nan ho.cfg hn) hs2 hr2

/-- **C91**, at once: in the very call that meets the NaN strain, that Gauss point gets NaN for every result,
and so does every Gauss point behind it in the list that is not on the linear path. -/
theorem C91_same_call (ha : a.Ok) (hB : HasInterior a) (hs : Reach env a j calls s) {r : Stepped α}
    (hr : step env s .homogenize = .ok r) {l1 l2 : List (Gp α)} {g : Gp α} (hg : s.obj.gauss = l1 ++ g :: l2)
    {v : Nat} (hv : v < s.obj.cfg.nvoi) (hn : Scalar.isNaN (g.macroStrain v) = true) :
    ∃ m1 g' m2, r.state.obj.gauss = m1 ++ g' :: m2 ∧ m1.length = l1.length ∧ NanResults s.obj.cfg g' ∧
      AllNan s.obj.cfg l2 m2 := by
  obtain ⟨hb, ho⟩ := reach_built ha hs
  have hn : NanStrain s.obj.cfg g.macroStrain := ⟨v, hv, hn⟩
  exact same_call_of ha hB hs hr hg (hn.poisons ho.cfg (built_big hb hB)) (not_linear_nan ho.cfg hn)

/-- **C91**, memory: the constructor does not initialise the displacements.  If the memory it gets holds a
NaN at an interior node, the linear tangent is NaN in every entry, and every `homogenize` ever called returns
NaN in every component of stress and tangent for every Gauss point. -/
theorem C91_memory (ha : a.Ok) {ix iy iz d : Nat} (hx : 0 < ix ∧ ix + 1 < a.size 0) (hy : 0 < iy ∧ iy + 1 < a.size 1)
    (hz : if a.dim = 2 then iz = 0 else 0 < iz ∧ iz + 1 < a.size 2) (hd : d < a.dim)
    (hn : Scalar.isNaN (j.u (((iz * a.size 1 + iy) * a.size 0 + ix) * a.dim + d)) = true)
    (hs : Reach env a j calls s) {r : Stepped α} (hr : step env s .homogenize = .ok r) :
    (∀ v i, v < s.obj.cfg.nvoi → i < s.obj.cfg.nvoi →
      Scalar.isNaN (s.obj.cfg.ctanLin (v * s.obj.cfg.nvoi + i)) = true) ∧
    ∀ g' ∈ r.state.obj.gauss, NanResults s.obj.cfg g' := by
  have hB : HasInterior a := ⟨by omega, by omega, fun h => by rw [if_neg (by omega)] at hz; omega⟩
  obtain ⟨hb, ho⟩ := reach_built ha hs
  obtain ⟨f, hf⟩ := hs
  rw [bind_ok_iff] at hf
  obtain ⟨s0, h0, hrun⟩ := hf
  simp only [constructF, bind_ok_iff, pure_ok_iff] at h0
  obtain ⟨o, h0, rfl⟩ := h0
  obtain ⟨hb0, ho0⟩ := construct_built ha h0
  obtain ⟨et, A, hc, hw, -, h1⟩ := construct_eq env ha j
  have hbig : (mkCfg a j et).Big := ⟨hB.nx, hB.ny, fun h => by
    show 3 ≤ if a.dim = 2 then 1 else a.size 2
    have h : a.dim = 3 := h
    rw [if_neg (by omega)]; exact hB.nz h⟩
  have ht : (startWork (mkCfg a j et) j A).Tainted (mkCfg a j et) := by
    refine ⟨_, ?_, ?_, hn⟩
    · show _ < a.size 0 * a.size 1 * (if a.dim = 2 then 1 else a.size 2) * a.dim
      refine mul_add_lt ?_ hd
      rw [show a.size 0 * a.size 1 * (if a.dim = 2 then 1 else a.size 2)
        = (if a.dim = 2 then 1 else a.size 2) * a.size 1 * a.size 0 by ring]
      refine mul_add_lt (mul_add_lt ?_ (by omega)) (by omega)
      by_cases h2 : a.dim = 2
      · rw [if_pos h2] at hz ⊢; omega
      · rw [if_neg h2] at hz ⊢; omega
    · show ¬ (if a.dim = 2 then BdryDof2 2 (a.size 0) (a.size 1) _
        else BdryDof3 3 (a.size 0) (a.size 1) (if a.dim = 2 then 1 else a.size 2) _)
      rcases ha.dim with h2 | h3
      · rw [if_pos h2] at hz ⊢
        rw [h2] at hd ⊢
        subst hz
        rw [show (0 * a.size 1 + iy) * a.size 0 + ix = node2 (a.size 0) ix iy by rw [node2_eq]; ring,
          bdryDof2_iff (by omega) hd]
        unfold Bdry2; omega
      · rw [if_neg (by omega)] at hz ⊢
        rw [if_neg (by omega)]
        rw [h3] at hd ⊢
        rw [show (iz * a.size 1 + iy) * a.size 0 + ix = node3 (a.size 0) (a.size 1) ix iy iz by
          unfold node3; ring, bdryDof3_iff (by omega) (by omega) hd]
        unfold Bdry3; omega
  rw [h1] at h0
  cases hl : calcCtanLin env (mkCfg a j et) j.ctanLin (startWork (mkCfg a j et) j A) with
  | error e => rw [hl] at h0; cases h0
  | ok r0 =>
    obtain ⟨k1, k2⟩ := calcCtanLin_nan hc hbig hw ht hl
    rw [hl] at h0
    cases h0
    have e := run_cfg hrun
    have hbig' : s.obj.cfg.Big := built_big hb hB
    have hct : ∀ v i, v < s.obj.cfg.nvoi → i < s.obj.cfg.nvoi →
        IsNan (s.obj.cfg.ctanLin (v * s.obj.cfg.nvoi + i)) := by rw [e]; exact k2
    have hp : s.obj.work.Poisoned s.obj.cfg := by
      have hb2 := built_big hb0 hB
      have := run_nan hb2 ho0 k1 hrun
      rwa [← e] at this
    refine ⟨hct, ?_⟩
    simp only [step, homogenize, bind_ok_iff, pure_ok_iff] at hr
    obtain ⟨o, ⟨r1, h2, rfl⟩, rfl⟩ := hr
    have hall := (homogenizeList_nan ho.cfg hbig' ho.work ho.gauss hp h2).2
    have hnl : ∀ g : Gp α, ¬ TakesLinearPath s.obj.cfg g := by
      rintro g ⟨-, hl⟩
      have h0 : 0 < s.obj.cfg.nvoi := by unfold Cfg.nvoi; split <;> omega
      have key : ∀ i, i < s.obj.cfg.nvoi → IsNan (matVec s.obj.cfg.nvoi s.obj.cfg.ctanLin g.macroStrain i) := by
        intro i hi
        have : matVec s.obj.cfg.nvoi s.obj.cfg.ctanLin g.macroStrain i = accum s.obj.cfg.nvoi
            (fun j s' => s' + s.obj.cfg.ctanLin (i * s.obj.cfg.nvoi + j) * g.macroStrain j) 0 := by
          rw [accum_foldl]; rfl
        rw [this]
        exact accum_nan (f := fun j => s.obj.cfg.ctanLin (i * s.obj.cfg.nvoi + j) * g.macroStrain j) h0
          ((hct i 0 hi h0).mul_l _)
      have : IsNan (traceV s.obj.cfg.dim (matVec s.obj.cfg.nvoi s.obj.cfg.ctanLin g.macroStrain)) := by
        unfold traceV
        split
        · exact (key 0 h0).add_l _
        · exact ((key 0 h0).add_l _).add_l _
      rw [(abs_nan this).lt_l] at hl
      cases hl
    intro g' hg'
    obtain ⟨g, -, hg⟩ := forall₂_right hall hg'
    exact hg.1 (hnl g)

/-- **C91**, what is left: a Gauss point on the linear path gets the linear response, whatever the memory
holds. -/
theorem C91_isolated_partial (ha : a.Ok) (hs : Reach env a j calls s) {r : Stepped α}
    (hr : step env s .homogenize = .ok r) :
    List.Forall₂ (fun g g' => TakesLinearPath s.obj.cfg g →
      (∀ i, i < s.obj.cfg.nvoi → g'.macroStress i = matVec s.obj.cfg.nvoi s.obj.cfg.ctanLin g.macroStrain i) ∧
      (∀ i, i < s.obj.cfg.nvoi * s.obj.cfg.nvoi → g'.macroCtan i = s.obj.cfg.ctanLin i))
      s.obj.gauss r.state.obj.gauss := by
  obtain ⟨hb, ho⟩ := reach_built ha hs
  simp only [step, homogenize, bind_ok_iff, pure_ok_iff] at hr
  obtain ⟨o, ⟨r1, h1, rfl⟩, rfl⟩ := hr
  refine (homogenizeList_full ho.cfg ho.work ho.gauss h1).imp ?_
  rintro g g' ⟨w0, s1, -, -, hs1, rfl⟩ hl
  obtain ⟨-, -, h2, h3, -⟩ := homogenizeGp_linear hs1 hl
  exact ⟨h2, h3⟩

end

section
variable {fp : Range} {env : Env (Dbl fp)} {a : Args (Dbl fp)} {j : Junk (Dbl fp)} {calls : List (Call (Dbl fp))}
  {s : ObjFiles (Dbl fp)}

/-- **C91**, infinite strains spread in the same way: `set_displ` multiplies the strain by the coordinates of
the corner, which are zero, and `inf * 0` is NaN.  An overflow in the program of the user costs the object as a
NaN does. -/
theorem C91_infinite (ha : a.Ok) (hB : HasInterior a) (hs : Reach env a j calls s) {r : Stepped (Dbl fp)}
    (hr : step env s .homogenize = .ok r) {g : Gp (Dbl fp)} (hg : g ∈ s.obj.gauss) {v : Nat} (hv : v < s.obj.cfg.nvoi)
    (hn : (g.macroStrain v).isFin = false) {calls2 : List (Call (Dbl fp))} {s2 : ObjFiles (Dbl fp)}
    (hs2 : run env calls2 r.state = .ok s2) {r2 : Stepped (Dbl fp)} (hr2 : step env s2 .homogenize = .ok r2) :
    AllNan s.obj.cfg s2.obj.gauss r2.state.obj.gauss := by
  obtain ⟨hb, ho⟩ := reach_built ha hs
  have hn : InfStrain s.obj.cfg g.macroStrain := ⟨v, hv, hn⟩
  exact spreads_of ha hB hs hr hg (hn.poisons ho.cfg (built_big hb hB)) (not_linear_inf hn) hs2 hr2

/-- **C91**, infinite strains at once: the Gauss point with the infinite strain gets NaN, not infinity. -/
theorem C91_infinite_same_call (ha : a.Ok) (hB : HasInterior a) (hs : Reach env a j calls s) {r : Stepped (Dbl fp)}
    (hr : step env s .homogenize = .ok r) {l1 l2 : List (Gp (Dbl fp))} {g : Gp (Dbl fp)} (hg : s.obj.gauss = l1 ++ g :: l2)
    {v : Nat} (hv : v < s.obj.cfg.nvoi) (hn : (g.macroStrain v).isFin = false) :
    ∃ m1 g' m2, r.state.obj.gauss = m1 ++ g' :: m2 ∧ m1.length = l1.length ∧ NanResults s.obj.cfg g' ∧
      AllNan s.obj.cfg l2 m2 := by
  obtain ⟨hb, ho⟩ := reach_built ha hs
  have hn : InfStrain s.obj.cfg g.macroStrain := ⟨v, hv, hn⟩
  exact same_call_of ha hB hs hr hg (hn.poisons ho.cfg (built_big hb hB)) (not_linear_inf hn)

end

/-! ## Double precision -/

/-- The range of `binary64`. -/
noncomputable def doubles : Range where
  toFp := binary64
  top := (2 - 2 ^ (-52 : ℤ)) * 2 ^ (1023 : ℤ)
  one_le := by
    have h1 : (1 : ℝ) ≤ 2 - 2 ^ (-52 : ℤ) := by
      have : (2 : ℝ) ^ (-52 : ℤ) ≤ 1 := zpow_le_one_of_nonpos₀ (by norm_num) (by norm_num)
      linarith
    have h2 : (1 : ℝ) ≤ 2 ^ (1023 : ℤ) := one_le_zpow₀ (by norm_num) (by norm_num)
    calc (1 : ℝ) = 1 * 1 := (one_mul 1).symm
      _ ≤ _ := mul_le_mul h1 h2 zero_le_one (by linarith)

/-- A cell of four square elements, two materials with Young's modulus 1. -/
noncomputable def fourArgs : Args (Dbl doubles) where
  dim := 2
  size := fun _ => 3
  microType := 1
  microParams := fun i => if i = 3 then 0 else 1
  matTypes := fun _ => 0
  params := fun i => if i % 10 = 0 then 1 else 0

theorem fourArgs_ok : fourArgs.Ok := ⟨Or.inl rfl, Or.inr rfl, by show 2 ≤ 3; omega, by show 2 ≤ 3; omega, fun h => by cases h⟩

theorem fourArgs_interior : HasInterior fourArgs := ⟨le_refl _, le_refl _, fun h => by cases h⟩

theorem Dbl.abs_not_neg {fp : Range} (a : Dbl fp) : Scalar.lt (Scalar.abs a) 0 = false := by
  cases a with
  | nan => rfl
  | inf s => cases s <;> rfl
  | fin x h1 h2 =>
    unfold Scalar.abs
    by_cases h : x < 0
    · have e : Scalar.lt (Dbl.fin x h1 h2) (0 : Dbl fp) = true := by
        show (open Classical in decide (x < 0)) = true
        simpa using h
      rw [e]
      show (open Classical in decide (-x < 0)) = false
      simp; linarith
    · have e : Scalar.lt (Dbl.fin x h1 h2) (0 : Dbl fp) = false := by
        show (open Classical in decide (x < 0)) = false
        simpa using h
      rw [e]
      exact e

/-- **C91** fails: in double precision, after the strain of one Gauss point was NaN in one call, a new Gauss
point whose strain is zero gets NaN for every result, although the other strain is zero, too, by now.  The
witness of `C91_spreads`. -/
theorem C91_isolated_fails : ∃ (s s2 r2 : ObjFiles (Dbl doubles)) (g g' : Gp (Dbl doubles)),
    Reach (tinyEnv _) fourArgs (tinyJunk _) [.setStrain 4 (fun _ => .nan), .homogenize, .setStrain 4 (fun _ => 0)] s ∧
    run (tinyEnv _) [.setStrain 9 (fun _ => 0)] s = .ok s2 ∧
    findGp 9 s.obj.gauss = none ∧ findGp 9 s2.obj.gauss = some g ∧
    (∀ v, v < s2.obj.cfg.nvoi → g.macroStrain v = 0) ∧ g.intVarsN = none ∧
    run (tinyEnv _) [.homogenize] s2 = .ok r2 ∧ findGp 9 r2.obj.gauss = some g' ∧ NanResults s2.obj.cfg g' := by
  obtain ⟨o, h0, ho⟩ := (construct_sane (tinyEnv _) fourArgs_ok (tinyJunk (Dbl doubles))).returns tinyEnv_quick
  have hb := (construct_built fourArgs_ok h0).1
  let F : Files (Dbl doubles) := ⟨[], [], [], [], fun _ _ => none⟩
  let s0 : ObjFiles (Dbl doubles) := { obj := o, files := ctorFiles o.cfg F }
  have hc0 : constructF (tinyEnv _) fourArgs (tinyJunk _) F = .ok s0 := by
    unfold constructF; rw [h0]; rfl
  have hg0 : o.gauss = [] := by
    obtain ⟨et, A, -, -, -, h1⟩ := construct_eq (tinyEnv _) fourArgs_ok (tinyJunk (Dbl doubles))
    rw [h1] at h0
    cases hl : calcCtanLin (tinyEnv _) (mkCfg fourArgs (tinyJunk _) et) (tinyJunk (Dbl doubles)).ctanLin
        (startWork (mkCfg fourArgs (tinyJunk _) et) (tinyJunk _) A) with
    | error e => rw [hl] at h0; cases h0
    | ok r0 => rw [hl] at h0; cases h0; rfl
  have hnv : o.cfg.nvoi = 3 := by obtain ⟨et, ct, e⟩ := hb.eq; rw [e]; rfl
  have hit : o.cfg.invTol = 0 := by obtain ⟨et, ct, e⟩ := hb.eq; rw [e]; rfl
  let s : ObjFiles (Dbl doubles) := { s0 with obj := setMacroStrain (tinyEnv _) o 4 (fun _ => .nan) }
  have hrs : run (tinyEnv _) [.setStrain 4 (fun _ => .nan)] s0 = .ok s := rfl
  have hreach : Reach (tinyEnv _) fourArgs (tinyJunk _) [.setStrain 4 (fun _ => .nan)] s :=
    ⟨F, by rw [hc0]; exact hrs⟩
  have hos : s.obj.Ok := (run_sane _ ho).post hrs
  obtain ⟨r, hr, hor⟩ := (step_sane (env := tinyEnv _) hos .homogenize).returns tinyEnv_quick
  have hsg : s.obj.gauss = setStrainList o.cfg.nvoi 4 (fun _ => .nan) ((tinyEnv (Dbl doubles)).gpJunk o.work.tick) [] := by
    show setStrainList _ _ _ _ o.gauss = _
    rw [hg0]
  obtain ⟨gr, hgr, hid⟩ : ∃ gr, r.state.obj.gauss = [gr] ∧ gr.id = 4 := by
    have hr' := hr
    simp only [step, homogenize, bind_ok_iff, pure_ok_iff] at hr'
    obtain ⟨o', ⟨r1, h1, rfl⟩, rfl⟩ := hr'
    have hf := homogenizeList_forall h1
    rw [hsg] at hf
    show ∃ gr, r1.gauss = [gr] ∧ gr.id = 4
    generalize r1.gauss = G at hf
    cases hf with
    | cons h2 h3 =>
      rename_i g1 l1
      cases h3
      exact ⟨g1, rfl, h2.id⟩
  have hrc : r.state.obj.cfg = o.cfg := step_cfg hr
  let s1 : ObjFiles (Dbl doubles) := { r.state with obj := setMacroStrain (tinyEnv _) r.state.obj 4 (fun _ => 0) }
  let s2 : ObjFiles (Dbl doubles) := { s1 with obj := setMacroStrain (tinyEnv _) s1.obj 9 (fun _ => 0) }
  have hr1 : run (tinyEnv _) [.homogenize, .setStrain 4 (fun _ => 0)] s = .ok s1 := by
    simp only [run, bind_ok_iff]
    exact ⟨r, hr, _, rfl, rfl⟩
  have hr12 : run (tinyEnv _) [.setStrain 4 (fun _ => 0), .setStrain 9 (fun _ => 0)] r.state = .ok s2 := rfl
  have hr2 : run (tinyEnv _) [.setStrain 9 (fun _ => 0)] s1 = .ok s2 := rfl
  have ho2 : s2.obj.Ok := (run_sane _ hor).post hr12
  obtain ⟨r2, hr2', hor2⟩ := (step_sane (env := tinyEnv _) ho2 .homogenize).returns tinyEnv_quick
  have hg1 : s1.obj.gauss = [{ gr with macroStrain := setFirst o.cfg.nvoi (fun _ => 0) gr.macroStrain }] := by
    show setStrainList r.state.obj.cfg.nvoi 4 _ _ r.state.obj.gauss = _
    rw [hgr, hrc]
    unfold setStrainList
    rw [if_pos hid]
  have hg2 : ∃ g, s2.obj.gauss = [{ gr with macroStrain := setFirst o.cfg.nvoi (fun _ => 0) gr.macroStrain }, g] ∧
      g.id = 9 ∧ g.intVarsN = none ∧ ∀ v, v < o.cfg.nvoi → g.macroStrain v = 0 := by
    refine ⟨{ (tinyEnv (Dbl doubles)).gpJunk s1.obj.work.tick with
      id := 9, intVarsN := none, intVarsK := none,
      macroStrain := setFirst r.state.obj.cfg.nvoi (fun _ => 0) ((tinyEnv (Dbl doubles)).gpJunk s1.obj.work.tick).macroStrain,
      invMax := -1.0e10 }, ?_, rfl, rfl, fun v hv => ?_⟩
    · show setStrainList r.state.obj.cfg.nvoi 9 _ _ s1.obj.gauss = _
      rw [hg1]
      unfold setStrainList
      rw [if_neg (by rw [hid]; decide)]
      rfl
    · show setFirst r.state.obj.cfg.nvoi (fun _ => (0 : Dbl doubles))
        ((tinyEnv (Dbl doubles)).gpJunk s1.obj.work.tick).macroStrain v = 0
      rw [hrc]; unfold setFirst; rw [if_pos hv]
  obtain ⟨g, hg2, hg3, hg4, hg5⟩ := hg2
  have hall := C91_spreads fourArgs_ok fourArgs_interior hreach hr (g := s.obj.gauss.head (by rw [hsg]; simp [setStrainList]))
    (List.head_mem _) (v := 0) (by show 0 < o.cfg.nvoi; omega) (by
      have : ∀ l (hl : l ≠ []), l = setStrainList o.cfg.nvoi 4 (fun _ => Dbl.nan)
          ((tinyEnv (Dbl doubles)).gpJunk o.work.tick) [] → Scalar.isNaN ((l.head hl).macroStrain 0) = true := by
        rintro l hl rfl
        show Scalar.isNaN (setFirst o.cfg.nvoi (fun _ => Dbl.nan) _ 0) = true
        unfold setFirst
        rw [if_pos (by omega)]
        rfl
      exact this _ _ hsg) hr12 hr2'
  unfold AllNan at hall
  rw [hg2] at hall
  have hf : List.Forall₂ (GpStep s2.obj.cfg) s2.obj.gauss r2.state.obj.gauss := by
    have hr' := hr2'
    simp only [step, homogenize, bind_ok_iff, pure_ok_iff] at hr'
    obtain ⟨o', ⟨r1, h1, rfl⟩, rfl⟩ := hr'
    exact homogenizeList_forall h1
  rw [hg2] at hf
  generalize hG : r2.state.obj.gauss = G at hall hf
  cases hall with
  | cons k1 k2 =>
    cases k2 with
    | cons k3 k4 =>
      cases k4
      cases hf with
      | cons f1 f2 =>
        cases f2 with
        | cons f3 f4 =>
          rename_i ga gb
          refine ⟨s1, s2, r2.state, g, gb, ⟨F, ?_⟩, hr2, ?_, ?_, ?_, hg4, ?_, ?_, ?_⟩
          · rw [hc0, M_bind_ok']
            show run (tinyEnv _) ([.setStrain 4 (fun _ => .nan)] ++ [.homogenize, .setStrain 4 (fun _ => 0)]) s0 = _
            exact run_append.mpr ⟨s, hrs, hr1⟩
          · rw [hg1]; unfold findGp; rw [if_neg (by rw [hid]; decide)]; rfl
          · rw [hg2]; unfold findGp; rw [if_neg (by rw [hid]; decide)]; unfold findGp; rw [if_pos hg3]
          · intro v hv
            exact hg5 v (by rw [← hrc]; exact hv)
          · simp only [run, bind_ok_iff]
            exact ⟨r2, hr2', rfl⟩
          · rw [hG]
            have e1 : ga.id = 4 := f1.id.trans hid
            have e2 : gb.id = 9 := f3.id.trans hg3
            unfold findGp; rw [if_neg (by rw [e1]; decide)]; unfold findGp; rw [if_pos e2]
          · have := k3.1 (by
              rintro ⟨-, hl⟩
              have hit' : s.obj.cfg.invTol = 0 := hit
              rw [hit', Dbl.abs_not_neg] at hl
              cases hl)
            show NanResults r.state.obj.cfg gb
            rw [hrc]; exact this

/-- Memory whose displacements are NaN: every stress of the object is NaN, for a strain of ones. -/
example : ∃ (s r : ObjFiles (Dbl doubles)),
    Reach (tinyEnv _) fourArgs { tinyJunk _ with u := fun _ => .nan } [.setStrain 4 (fun _ => 1)] s ∧
    run (tinyEnv _) [.homogenize] s = .ok r ∧ r.obj.gauss ≠ [] ∧
    ∀ g' ∈ r.obj.gauss, NanResults s.obj.cfg g' := by
  obtain ⟨o, h0, ho⟩ := (construct_sane (tinyEnv _) fourArgs_ok
    { tinyJunk (Dbl doubles) with u := fun _ => .nan }).returns tinyEnv_quick
  let F : Files (Dbl doubles) := ⟨[], [], [], [], fun _ _ => none⟩
  let s0 : ObjFiles (Dbl doubles) := { obj := o, files := ctorFiles o.cfg F }
  have hc0 : constructF (tinyEnv _) fourArgs { tinyJunk _ with u := fun _ => .nan } F = .ok s0 := by
    unfold constructF; rw [h0]; rfl
  obtain ⟨s, hs, hos⟩ := (run_sane (env := tinyEnv _) [.setStrain 4 (fun _ => 1)] (s := s0) ho).returns tinyEnv_quick
  have hreach : Reach (tinyEnv _) fourArgs { tinyJunk _ with u := fun _ => .nan } [.setStrain 4 (fun _ => 1)] s :=
    ⟨F, by rw [hc0]; exact hs⟩
  obtain ⟨r, hr, hor⟩ := (step_sane (env := tinyEnv _) hos .homogenize).returns tinyEnv_quick
  refine ⟨s, r.state, hreach, ?_, ?_, ?_⟩
  · simp only [run, bind_ok_iff]; exact ⟨r, hr, rfl⟩
  · have hne : s.obj.gauss ≠ [] := by
      cases hs
      show setStrainList _ _ _ _ o.gauss ≠ []
      cases o.gauss with
      | nil => simp [setStrainList]
      | cons g l => unfold setStrainList; split <;> simp
    simp only [step, homogenize, bind_ok_iff, pure_ok_iff] at hr
    obtain ⟨o', ⟨r1, h1, rfl⟩, rfl⟩ := hr
    intro e
    have hf := homogenizeList_forall h1
    have e : r1.gauss = [] := e
    rw [e] at hf
    exact hne (List.forall₂_nil_right_iff.mp hf)
  · exact (C91_memory fourArgs_ok (ix := 1) (iy := 1) (iz := 0) (d := 0) (by show 0 < 1 ∧ 1 + 1 < 3; omega)
      (by show 0 < 1 ∧ 1 + 1 < 3; omega) rfl (by show 0 < 2; omega) rfl hreach hr).2

/-- A strain of minus infinity in double precision: the only Gauss point gets NaN for every result, and again
after its strain is set to zero. -/
example : ∃ (s r s2 r2 : ObjFiles (Dbl doubles)),
    Reach (tinyEnv _) fourArgs (tinyJunk _) [.setStrain 4 (fun _ => .inf true)] s ∧
    run (tinyEnv _) [.homogenize] s = .ok r ∧ r.obj.gauss ≠ [] ∧ (∀ g' ∈ r.obj.gauss, NanResults s.obj.cfg g') ∧
    run (tinyEnv _) [.setStrain 4 (fun _ => 0)] r = .ok s2 ∧ run (tinyEnv _) [.homogenize] s2 = .ok r2 ∧
    AllNan s.obj.cfg s2.obj.gauss r2.obj.gauss := by
  obtain ⟨o, h0, ho⟩ := (construct_sane (tinyEnv _) fourArgs_ok (tinyJunk (Dbl doubles))).returns tinyEnv_quick
  have hb := (construct_built fourArgs_ok h0).1
  have hnv : o.cfg.nvoi = 3 := by obtain ⟨et, ct, e⟩ := hb.eq; rw [e]; rfl
  have hg0 : o.gauss = [] := by
    obtain ⟨et, A, -, -, -, h1⟩ := construct_eq (tinyEnv _) fourArgs_ok (tinyJunk (Dbl doubles))
    rw [h1] at h0
    cases hl : calcCtanLin (tinyEnv _) (mkCfg fourArgs (tinyJunk _) et) (tinyJunk (Dbl doubles)).ctanLin
        (startWork (mkCfg fourArgs (tinyJunk _) et) (tinyJunk _) A) with
    | error e => rw [hl] at h0; cases h0
    | ok r0 => rw [hl] at h0; cases h0; rfl
  let F : Files (Dbl doubles) := ⟨[], [], [], [], fun _ _ => none⟩
  let s0 : ObjFiles (Dbl doubles) := { obj := o, files := ctorFiles o.cfg F }
  have hc0 : constructF (tinyEnv _) fourArgs (tinyJunk _) F = .ok s0 := by
    unfold constructF; rw [h0]; rfl
  let s : ObjFiles (Dbl doubles) := { s0 with obj := setMacroStrain (tinyEnv _) o 4 (fun _ => .inf true) }
  have hrs : run (tinyEnv _) [.setStrain 4 (fun _ => .inf true)] s0 = .ok s := rfl
  have hreach : Reach (tinyEnv _) fourArgs (tinyJunk _) [.setStrain 4 (fun _ => .inf true)] s :=
    ⟨F, by rw [hc0]; exact hrs⟩
  have hos : s.obj.Ok := (run_sane _ ho).post hrs
  obtain ⟨r, hr, hor⟩ := (step_sane (env := tinyEnv _) hos .homogenize).returns tinyEnv_quick
  let s2 : ObjFiles (Dbl doubles) := { r.state with obj := setMacroStrain (tinyEnv _) r.state.obj 4 (fun _ => 0) }
  have hr12 : run (tinyEnv _) [.setStrain 4 (fun _ => 0)] r.state = .ok s2 := rfl
  have ho2 : s2.obj.Ok := (run_sane _ hor).post hr12
  obtain ⟨r2, hr2, -⟩ := (step_sane (env := tinyEnv _) ho2 .homogenize).returns tinyEnv_quick
  obtain ⟨g, hg, hinf⟩ : ∃ g, s.obj.gauss = [g] ∧ (g.macroStrain 0).isFin = false := by
    refine ⟨_, by show setStrainList _ _ _ _ o.gauss = _; rw [hg0]; rfl, ?_⟩
    show Dbl.isFin (setFirst o.cfg.nvoi (fun _ => Dbl.inf true) _ 0) = false
    unfold setFirst
    rw [if_pos (by omega)]
    rfl
  have h0v : 0 < s.obj.cfg.nvoi := by show 0 < o.cfg.nvoi; omega
  obtain ⟨m1, g', m2, e1, e2, e3, e4⟩ := C91_infinite_same_call fourArgs_ok fourArgs_interior hreach hr
    (l1 := []) (l2 := []) hg h0v hinf
  have hm1 : m1 = [] := List.length_eq_zero_iff.mp e2
  have hm2 : m2 = [] := by unfold AllNan at e4; cases e4; rfl
  subst hm1 hm2
  refine ⟨s, r.state, s2, r2.state, hreach, ?_, by rw [e1]; simp, fun x hx => ?_, hr12, ?_,
    C91_infinite fourArgs_ok fourArgs_interior hreach hr (by rw [hg]; exact List.mem_singleton_self _) h0v hinf
      hr12 hr2⟩
  · simp only [run, bind_ok_iff]; exact ⟨r, hr, rfl⟩
  · rw [e1] at hx
    rw [List.mem_singleton.mp hx]; exact e3
  · simp only [run, bind_ok_iff]; exact ⟨r2, hr2, rfl⟩

end Verif.Props
