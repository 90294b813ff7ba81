import Verif.Lemmas.Flat
import Verif.Props.Wild

/-!
# C108: edges of length zero, infinite edges

The constructor divides the lengths of the cell by the numbers of elements (/repo/src/micro.cpp:32-47) and checks
neither.  With a length of zero in one direction, for instance a third length that was left at zero in a
three-dimensional cell, or with a length that is infinite or NaN, nothing but NaN comes out of the object.
-/

namespace Verif.Props
open Spec

section
variable {fp : Range} {env : Env (Dbl fp)} {a : Args (Dbl fp)} {j : Junk (Dbl fp)} {calls : List (Call (Dbl fp))}
  {s : ObjFiles (Dbl fp)}

/-- **C108**: in a cell with interior nodes, if the length of the cell in one of its directions is zero, infinite or
NaN, then in every state an object gets, whatever the strains are, the linear tangent is NaN in every entry, and
every `homogenize` gives every Gauss point NaN in every component of stress and tangent. -/
theorem C108 (ha : a.Ok) (hB : HasInterior a) (hs : Reach env a j calls s) {d : Nat} (hd : d < a.dim)
    (hl : a.microParams d = 0 ∨ (a.microParams d).isFin = false) : OnlyNan env a s := by
  refine onlyNan_of ha hB hs fun c hb hbig _ => ?_
  obtain ⟨et, ct, e⟩ := hb.eq
  have hdim : c.dim = a.dim := by rw [e]; rfl
  obtain ⟨n, hlen⟩ : ∃ n : Dbl fp, (if d = 0 then c.dx else if d = 1 then c.dy else c.dz) = a.microParams d / n := by
    have hd3 : d < 3 := by rcases ha.dim with h | h <;> omega
    obtain rfl | rfl | rfl : d = 0 ∨ d = 1 ∨ d = 2 := by omega
    · exact ⟨_, show c.dx = a.microParams 0 / ((a.size 0 - 1 : Nat) : Dbl fp) by rw [e]; rfl⟩
    · exact ⟨_, show c.dy = a.microParams 1 / ((a.size 1 - 1 : Nat) : Dbl fp) by rw [e]; rfl⟩
    · have : c.dz = (if a.dim = 2 then 0 else a.microParams 2)
          / (((if a.dim = 2 then 1 else a.size 2) - 1 : Nat) : Dbl fp) := by rw [e]; rfl
      rw [if_neg (by omega)] at this
      exact ⟨_, this⟩
  refine Cfg.NanForces.doomed hb.ok hbig ?_
  rcases hl with h | h
  · exact Cfg.FlatIn.forces (d := d) ⟨by omega, by rw [hlen, h]; exact Nil.div Nil.zero _⟩
  · exact Cfg.WideIn.forces (d := d) ⟨by omega, by rw [hlen]; exact NotFin.div_l h _⟩

end

/-- A three-dimensional cell of 4 by 4 by 4 nodes whose third length was left at zero. -/
noncomputable def thirdZero : Args (Dbl doubles) where
  dim := 3
  size := fun _ => 4
  microType := 1
  microParams := fun i => if i < 2 then 1 else 0
  matTypes := fun _ => 0
  params := fun i => if i % 10 = 0 then 1 else 0

/-- Double precision, with a uniaxial strain for one Gauss point. -/
example : ∃ (s : ObjFiles (Dbl doubles)) (r : Stepped (Dbl doubles)),
    Reach (tinyEnv _) thirdZero (tinyJunk _) [.setStrain 0 (fun i => if i = 0 then 1 else 0)] s ∧
    step (tinyEnv _) s .homogenize = .ok r ∧ r.state.obj.gauss ≠ [] ∧
    (∀ v i, v < 6 → i < 6 → Scalar.isNaN (s.obj.cfg.ctanLin (v * 6 + i)) = true) ∧
    ∀ g' ∈ r.state.obj.gauss, ∀ v, v < 6 → Scalar.isNaN (g'.macroStress v) = true ∧
      ∀ i, i < 6 → Scalar.isNaN (g'.macroCtan (v * 6 + i)) = true := by
  have ha : thirdZero.Ok :=
    ⟨Or.inr rfl, Or.inr rfl, by show 2 ≤ 4; omega, by show 2 ≤ 4; omega, fun _ => by show 2 ≤ 4; omega⟩
  obtain ⟨o, h0, ho⟩ := (construct_sane (tinyEnv _) ha (tinyJunk (Dbl doubles))).returns tinyEnv_quick
  let F : Files (Dbl doubles) := ⟨[], [], [], [], fun _ _ => none⟩
  let s0 : ObjFiles (Dbl doubles) := { obj := o, files := ctorFiles o.cfg F }
  have hc0 : constructF (tinyEnv _) thirdZero (tinyJunk _) F = .ok s0 := by
    unfold constructF; rw [h0]; rfl
  obtain ⟨s, hs, hos⟩ := (run_sane (env := tinyEnv _) [.setStrain 0 (fun i => if i = 0 then 1 else 0)] (s := s0)
    ho).returns tinyEnv_quick
  have hreach : Reach (tinyEnv _) thirdZero (tinyJunk _) [.setStrain 0 (fun i => if i = 0 then 1 else 0)] s :=
    ⟨F, by rw [hc0]; exact hs⟩
  obtain ⟨r, hr, -⟩ := (step_sane (env := tinyEnv _) hos .homogenize).returns tinyEnv_quick
  obtain ⟨k1, k2⟩ := C108 ha ⟨by show 3 ≤ 4; omega, by show 3 ≤ 4; omega, fun _ => by show 3 ≤ 4; omega⟩ hreach
    (d := 2) (by show 2 < 3; omega) (Or.inl rfl)
  refine ⟨s, r, hreach, hr, ?_, k1, k2 r hr⟩
  have hne : s.obj.gauss ≠ [] := by
    cases hs
    show setStrainList _ _ _ _ o.gauss ≠ []
    cases o.gauss with
    | nil => simp [setStrainList]
    | cons g l => unfold setStrainList; split <;> simp
  simp only [step, homogenize, bind_ok_iff, pure_ok_iff] at hr
  obtain ⟨o', ⟨r1, h1, rfl⟩, rfl⟩ := hr
  have hf := (homogenizeList_forall h1).length_eq
  intro h
  have h : r1.gauss = [] := h
  rw [h] at hf
  exact hne (List.length_eq_zero_iff.mp hf)

end Verif.Props
