import Verif.Lemmas.Wild
import Verif.Props.Nan
import Verif.Props.Void

/-!
# C107: material constants that divide by zero

The constructor computes the bulk modulus and the constants of Lamé with the denominators `1 - 2 nu` and `1 + nu`
(/repo/src/micro.cpp:90-98) and checks neither them nor the modulus.  Incompressible materials, Poisson's ratio
1/2, are a common limit in practice.  One element with such a material, elastic or plastic, makes everything NaN:
the tangent the constructor computes, and every stress and tangent any Gauss point ever gets.  No Gauss point takes
the linear path, either.
-/

namespace Verif.Props
open Spec

section
variable {fp : Range} {env : Env (Dbl fp)} {a : Args (Dbl fp)} {j : Junk (Dbl fp)} {calls : List (Call (Dbl fp))}
  {s : ObjFiles (Dbl fp)}

/-- Number `m` of the two materials: Poisson's ratio is 1/2 or -1, up to rounding, or NaN, or Young's modulus is
infinite or NaN. -/
structure BadConstants (a : Args (Dbl fp)) (m : Nat) : Prop where
  lt : m < 2
  bad : 1 - ((2 : Nat) : Dbl fp) * a.params (m * 10 + 1) = 0 ∨ 1 + a.params (m * 10 + 1) = 0 ∨
    Scalar.isNaN (a.params (m * 10 + 1)) = true ∨ (a.params (m * 10)).isFin = false

theorem mkMaterial_wild {p : Nat → Dbl fp} (h : 1 - ((2 : Nat) : Dbl fp) * p 1 = 0 ∨ 1 + p 1 = 0 ∨
    Scalar.isNaN (p 1) = true ∨ (p 0).isFin = false) (ty : Int) (m : Material (Dbl fp)) :
    (mkMaterial p ty m).Wild := by
  have nz : ∀ {x : Dbl fp}, x = 0 → Nil x := fun h => by rw [h]; exact Nil.zero
  refine ⟨?_, ?_, ?_⟩
  · show NotFin ((p 1 * p 0) / ((1 + p 1) * (1 - ((2 : Nat) : Dbl fp) * p 1)))
    rcases h with h | h | h | h
    · exact NotFin.div_nil _ (Nil.mul_l _ (nz h))
    · exact NotFin.div_nil _ (Nil.mul_r (nz h) _)
    · exact ((NotFin.of_nan h).mul_l _).div_l _
    · exact (NotFin.mul_r h _).div_l _
  · show NotFin (p 0 / ((1 + p 1) * (1 - ((2 : Nat) : Dbl fp) * p 1)))
    rcases h with h | h | h | h
    · exact NotFin.div_nil _ (Nil.mul_l _ (nz h))
    · exact NotFin.div_nil _ (Nil.mul_r (nz h) _)
    · have h : IsNan (p 1) := h
      exact NotFin.of_nan (NanLaws.div_right _ _ (IsNan.mul_l (IsNan.add_r _ h) _))
    · exact NotFin.div_l h _
  · show NotFin (p 0 / (((3 : Nat) : Dbl fp) * (1 - ((2 : Nat) : Dbl fp) * p 1))) ∨
      NotFin (p 0 / (((2 : Nat) : Dbl fp) * (1 + p 1)))
    rcases h with h | h | h | h
    · exact Or.inl (NotFin.div_nil _ (Nil.mul_l _ (nz h)))
    · exact Or.inr (NotFin.div_nil _ (Nil.mul_l _ (nz h)))
    · have h : IsNan (p 1) := h
      exact Or.inr (NotFin.of_nan (NanLaws.div_right _ _ (IsNan.mul_r _ (IsNan.add_r _ h))))
    · exact Or.inl (NotFin.div_l h _)

theorem wildElem_of {c : Cfg (Dbl fp)} (hb : BuiltFrom a j c) {m : Nat} (hm : BadConstants a m) {ex ey ez : Nat}
    (hx : ex < c.nx - 1) (hy : ey < c.ny - 1) (h2 : c.dim = 2 → ez = 0) (h3 : c.dim = 3 → ez < c.nz - 1)
    (hr : elemTypeOf c ex ey ez = m) : c.WildElem ex ey ez := by
  have k := hb.elem ex ey ez hx hy h2 h3
  obtain ⟨et, ct, e⟩ := hb.eq
  rw [hr] at k
  show (matOf c (gloElem3D c.nx c.ny ex ey ez)).Wild
  unfold matOf
  rw [k]
  have hm2 := hm.lt
  have hidx : (if (m : Int) = 0 then 0 else 1) = m := by
    obtain rfl | rfl : m = 0 ∨ m = 1 := by omega
    · rfl
    · rfl
  rw [hidx]
  have hmat : c.mats m = mkMaterial (fun k => a.params (m * 10 + k)) (a.matTypes m) (j.mats m) := by
    rw [e]
    show (if m < 2 then _ else _) = _
    rw [if_pos hm2]
  rw [hmat]
  exact mkMaterial_wild hm.bad _ _

/-- An element of the grid of the constructor. -/
structure InsideElem (a : Args (Dbl fp)) (ex ey ez : Nat) : Prop where
  x : ex + 1 < a.size 0
  y : ey + 1 < a.size 1
  z : if a.dim = 3 then ez + 1 < a.size 2 else ez = 0

/-- Every stress and tangent an object ever computes is NaN. -/
def OnlyNan (env : Env (Dbl fp)) (a : Args (Dbl fp)) (s : ObjFiles (Dbl fp)) : Prop :=
  (∀ v i, v < components a → i < components a →
    Scalar.isNaN (s.obj.cfg.ctanLin (v * components a + i)) = true) ∧
  ∀ r, step env s .homogenize = .ok r → ∀ g' ∈ r.state.obj.gauss, ∀ v, v < components a →
    Scalar.isNaN (g'.macroStress v) = true ∧
    ∀ i, i < components a → Scalar.isNaN (g'.macroCtan (v * components a + i)) = true

theorem onlyNan_of (ha : a.Ok) (hB : HasInterior a) (hs : Reach env a j calls s)
    (hD : ∀ c : Cfg (Dbl fp), BuiltFrom a j c → c.Big →
      (∀ ex ey ez, elemTypeOf c ex ey ez = elemTypeOf s.obj.cfg ex ey ez) → c.Doomed) : OnlyNan env a s := by
  unfold OnlyNan
  obtain ⟨hb, ho⟩ := reach_built ha hs
  have hdim : s.obj.cfg.dim = a.dim := by obtain ⟨et, ct, e⟩ := hb.eq; rw [e]; rfl
  have hnv : components a = s.obj.cfg.nvoi := by unfold Cfg.nvoi components; rw [hdim]
  rw [hnv]
  obtain ⟨f, hf⟩ := hs
  rw [bind_ok_iff] at hf
  obtain ⟨s0, h0, hrun⟩ := hf
  simp only [constructF, bind_ok_iff, pure_ok_iff] at h0
  obtain ⟨o, h0, rfl⟩ := h0
  obtain ⟨hb0, ho0⟩ := construct_built ha h0
  have e := run_cfg hrun
  have e : s.obj.cfg = o.cfg := e
  obtain ⟨et, A, hc, hw, hel, h1⟩ := construct_eq env ha j
  have hbig : (mkCfg a j et).Big := ⟨hB.nx, hB.ny, fun h => by
    show 3 ≤ if a.dim = 2 then 1 else a.size 2
    have h : a.dim = 3 := h
    rw [if_neg (by omega)]; exact hB.nz h⟩
  rw [h1] at h0
  cases hl : calcCtanLin env (mkCfg a j et) j.ctanLin (startWork (mkCfg a j et) j A) with
  | error e => rw [hl] at h0; cases h0
  | ok r0 =>
    rw [hl] at h0
    cases h0
    have hD' : (mkCfg a j et).Doomed := hD _ ⟨hc, ⟨et, j.ctanLin, rfl⟩, hel⟩ hbig fun ex ey ez => by
      rw [e]; rfl
    obtain ⟨k1, k2⟩ := calcCtanLin_doomed hc hbig hD' hw hl
    have hbig' : s.obj.cfg.Big := built_big hb hB
    have hct : ∀ v i, v < s.obj.cfg.nvoi → i < s.obj.cfg.nvoi →
        IsNan (s.obj.cfg.ctanLin (v * s.obj.cfg.nvoi + i)) := by rw [e]; exact k2
    have hp : s.obj.work.Poisoned s.obj.cfg := by
      have hb2 := built_big hb0 hB
      have := run_nan hb2 ho0 k1 hrun
      rwa [← e] at this
    refine ⟨hct, ?_⟩
    intro r hr
    simp only [step, homogenize, bind_ok_iff, pure_ok_iff] at hr
    obtain ⟨o, ⟨r1, h2, rfl⟩, rfl⟩ := hr
    have hall := (homogenizeList_nan ho.cfg hbig' ho.work ho.gauss hp h2).2
    have hnl : ∀ g : Gp (Dbl fp), ¬ TakesLinearPath s.obj.cfg g := by
      rintro g ⟨-, hl⟩
      have h0 : 0 < s.obj.cfg.nvoi := by unfold Cfg.nvoi; split <;> omega
      have key : ∀ i, i < s.obj.cfg.nvoi → IsNan (matVec s.obj.cfg.nvoi s.obj.cfg.ctanLin g.macroStrain i) := by
        intro i hi
        have : matVec s.obj.cfg.nvoi s.obj.cfg.ctanLin g.macroStrain i = accum s.obj.cfg.nvoi
            (fun j s' => s' + s.obj.cfg.ctanLin (i * s.obj.cfg.nvoi + j) * g.macroStrain j) 0 := by
          rw [accum_foldl]; rfl
        rw [this]
        exact accum_nan (f := fun j => s.obj.cfg.ctanLin (i * s.obj.cfg.nvoi + j) * g.macroStrain j) h0
          ((hct i 0 hi h0).mul_l _)
      have : IsNan (traceV s.obj.cfg.dim (matVec s.obj.cfg.nvoi s.obj.cfg.ctanLin g.macroStrain)) := by
        unfold traceV
        split
        · exact (key 0 h0).add_l _
        · exact ((key 0 h0).add_l _).add_l _
      rw [(abs_nan this).lt_l] at hl
      cases hl
    intro g' hg' v hv
    obtain ⟨g, -, hg⟩ := forall₂_right hall hg'
    have k := hg.1 (hnl g)
    exact ⟨k.stress v hv, fun i hi => k.ctan v i hv hi⟩

/-- **C107**: in a cell with interior nodes, if a single element has a material whose Poisson's ratio is 1/2 or
-1 or NaN, or whose Young's modulus is infinite or NaN, then in every state an object gets, whatever the strains
are, the linear tangent is NaN in every entry, and every `homogenize` gives every Gauss point NaN in every
component of stress and tangent. -/
theorem C107 (ha : a.Ok) (hB : HasInterior a) {m : Nat} (hm : BadConstants a m) (hs : Reach env a j calls s)
    {ex ey ez : Nat} (he : InsideElem a ex ey ez) (ht : elemTypeOf s.obj.cfg ex ey ez = m) : OnlyNan env a s := by
  refine onlyNan_of ha hB hs fun c hb hbig he' => ?_
  have hb' := hb
  obtain ⟨et, ct, e⟩ := hb'.eq
  have hnx : c.nx = a.size 0 := by rw [e]; rfl
  have hny : c.ny = a.size 1 := by rw [e]; rfl
  have hdim : c.dim = a.dim := by rw [e]; rfl
  have hx := he.x; have hy := he.y; have hz := he.z
  have h2 : c.dim = 2 → ez = 0 := fun h => by rw [if_neg (by omega)] at hz; exact hz
  have h3 : c.dim = 3 → ez < c.nz - 1 := fun h => by
    rw [if_pos (by omega)] at hz
    have : c.nz = a.size 2 := by
      rw [e]; show (if a.dim = 2 then 1 else a.size 2) = _; rw [if_neg (by omega)]
    omega
  obtain ⟨W, slot, n, hv⟩ := (wildElem_of hb hm (by omega) (by omega) h2 h3 ((he' ex ey ez).trans ht)).burst
    hb.ok hbig (by omega) (by omega) h2 h3
  exact hv.doomed hb.ok

/-- Poisson's ratio 0.5, in a format that has the numbers 1/2 and 2. -/
theorem half_bad (h1 : (1 / 2 : ℝ) ∈ fp.F) (h2 : (2 : ℝ) ∈ fp.F) (ht : 2 ≤ fp.top) {m : Nat} (hm : m < 2)
    (h : a.params (m * 10 + 1) = 0.5) : BadConstants a m := by
  refine ⟨hm, Or.inl ?_⟩
  rw [h, lit (1 / 2) 5 true 1 (by norm_num), round_mem h1 (by rw [abs_of_pos (by norm_num)]; linarith)]
  have e2 : ((2 : Nat) : Dbl fp) = Dbl.round fp 2 := by
    show Dbl.round fp ((2 : Nat) : ℝ) = _
    norm_num
  rw [e2, round_mem h2 (by rw [abs_of_pos (by norm_num)]; exact ht)]
  have e3 : (Dbl.fin 2 h2 (by rw [abs_of_pos (by norm_num)]; exact ht) : Dbl fp)
      * Dbl.fin (1 / 2) h1 (by rw [abs_of_pos (by norm_num)]; linarith) = Dbl.round fp (2 * (1 / 2)) := rfl
  rw [e3, show (2 : ℝ) * (1 / 2) = 1 by norm_num, round_mem fp.one (by rw [abs_one]; exact fp.one_le)]
  show Dbl.round fp (1 + -1) = 0
  rw [add_neg_cancel]
  exact round_zero

end

/-- A cell of 5 by 21 by 5 nodes with a layer of Poisson's ratio 0.5, elastic or plastic. -/
noncomputable def incompressible (ty : Int) : Args (Dbl doubles) :=
  { (arrays3d8 5 21 5).args 3 1 with
    matTypes := fun _ => ty
    params := fun i => if i = 11 then 0.5 else if i % 10 = 0 then 1 else 0 }

theorem incompressible_bad (ty : Int) : BadConstants (incompressible ty) 1 := by
  have hF : ∀ x : ℝ, ∀ e : ℤ, -1074 ≤ e → x = 2 ^ e → x ∈ doubles.F := fun x e he h =>
    ⟨1, e, by rw [abs_one]; exact one_lt_pow₀ (by norm_num) (by norm_num), he, by rw [h]; norm_num⟩
  refine half_bad (hF _ (-1) (by norm_num) (by norm_num)) (hF _ 1 (by norm_num) (by norm_num)) ?_ (by omega) ?_
  · have h1 : (1 : ℝ) ≤ 2 - 2 ^ (-52 : ℤ) := by
      have : (2 : ℝ) ^ (-52 : ℤ) ≤ 1 := zpow_le_one_of_nonpos₀ (by norm_num) (by norm_num)
      linarith
    have h2 : (2 : ℝ) ≤ 2 ^ (1023 : ℤ) := by
      calc (2 : ℝ) = 2 ^ (1 : ℤ) := by norm_num
        _ ≤ _ := zpow_le_zpow_right₀ (by norm_num) (by norm_num)
    calc (2 : ℝ) = 1 * 2 := (one_mul 2).symm
      _ ≤ _ := mul_le_mul h1 h2 (by norm_num) (by linarith)
  · show (if 1 * 10 + 1 = 11 then (0.5 : Dbl doubles) else if (1 * 10 + 1) % 10 = 0 then 1 else 0) = 0.5
    rw [if_pos rfl]

/-- Double precision, with a uniaxial strain for one Gauss point; the layer elastic (0) or plastic (1). -/
example (ty : Int) : ∃ (s : ObjFiles (Dbl doubles)) (r : Stepped (Dbl doubles)),
    Reach (tinyEnv _) (incompressible ty) (tinyJunk _) [.setStrain 0 (fun i => if i = 2 then 1 else 0)] s ∧
    step (tinyEnv _) s .homogenize = .ok r ∧ r.state.obj.gauss ≠ [] ∧
    (∀ v i, v < 6 → i < 6 → Scalar.isNaN (s.obj.cfg.ctanLin (v * 6 + i)) = true) ∧
    ∀ g' ∈ r.state.obj.gauss, ∀ v, v < 6 → Scalar.isNaN (g'.macroStress v) = true ∧
      ∀ i, i < 6 → Scalar.isNaN (g'.macroCtan (v * 6 + i)) = true := by
  have ha : (incompressible ty).Ok :=
    ⟨Or.inr rfl, Or.inr rfl, by show 2 ≤ 5; omega, by show 2 ≤ 21; omega, fun _ => by show 2 ≤ 5; omega⟩
  obtain ⟨o, h0, ho⟩ := (construct_sane (tinyEnv _) ha (tinyJunk (Dbl doubles))).returns tinyEnv_quick
  let F : Files (Dbl doubles) := ⟨[], [], [], [], fun _ _ => none⟩
  let s0 : ObjFiles (Dbl doubles) := { obj := o, files := ctorFiles o.cfg F }
  have hc0 : constructF (tinyEnv _) (incompressible ty) (tinyJunk _) F = .ok s0 := by
    unfold constructF; rw [h0]; rfl
  obtain ⟨s, hs, hos⟩ := (run_sane (env := tinyEnv _) [.setStrain 0 (fun i => if i = 2 then 1 else 0)] (s := s0)
    ho).returns tinyEnv_quick
  have hreach : Reach (tinyEnv _) (incompressible ty) (tinyJunk _)
      [.setStrain 0 (fun i => if i = 2 then 1 else 0)] s := ⟨F, by rw [hc0]; exact hs⟩
  obtain ⟨r, hr, -⟩ := (step_sane (env := tinyEnv _) hos .homogenize).returns tinyEnv_quick
  obtain ⟨hb, -⟩ := reach_built ha hreach
  have ht : elemTypeOf s.obj.cfg 0 0 0 = 1 := by
    obtain ⟨et, ct, e⟩ := hb.eq
    have hdim : s.obj.cfg.dim = 3 := by rw [e]; rfl
    have hmt : s.obj.cfg.microType = 1 := by rw [e]; rfl
    have hw : s.obj.cfg.width = 0.1 := by rw [e]; rfl
    have hdy : s.obj.cfg.dy = 1.0 / ((21 - 1 : Nat) : Dbl doubles) := by rw [e]; rfl
    unfold elemTypeOf getElemType3D
    rw [if_neg (by omega), if_neg (by omega), if_pos hmt, hw, hdy]
    simp only [layer8 doubles_fine.1 doubles_fine.2 (le_refl 21) (Nat.zero_le 1), if_true]
  obtain ⟨k1, k2⟩ := C107 ha ⟨by show 3 ≤ 5; omega, by show 3 ≤ 21; omega, fun _ => by show 3 ≤ 5; omega⟩
    (incompressible_bad ty) hreach (ex := 0) (ey := 0) (ez := 0)
    ⟨by show 0 + 1 < 5; omega, by show 0 + 1 < 21; omega, by show 0 + 1 < 5; omega⟩ ht
  refine ⟨s, r, hreach, hr, ?_, k1, k2 r hr⟩
  have hne : s.obj.gauss ≠ [] := by
    cases hs
    show setStrainList _ _ _ _ o.gauss ≠ []
    cases o.gauss with
    | nil => simp [setStrainList]
    | cons g l => unfold setStrainList; split <;> simp
  simp only [step, homogenize, bind_ok_iff, pure_ok_iff] at hr
  obtain ⟨o', ⟨r1, h1, rfl⟩, rfl⟩ := hr
  have hf := (homogenizeList_forall h1).length_eq
  intro h
  have h : r1.gauss = [] := h
  rw [h] at hf
  exact hne (List.length_eq_zero_iff.mp hf)

end Verif.Props
