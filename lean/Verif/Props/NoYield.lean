import Verif.Lemmas.NoYield
import Verif.Props.Wild
import Verif.Props.History

/-!
# C109: a yield stress that is not a number

The constructor takes the yield stress and the hardening modulus without a check
(/repo/src/micro.cpp:92-93), and `plastic_step` compares the yield function with zero
(/repo/src/assembly.cpp:1007-1062).  With a NaN or an infinity in either of them the comparison is false from the
first call on, so the plastic material is silently elastic for ever.
-/

namespace Verif.Props
open Verif Spec

section
variable {fp : Range} {env : Env (Dbl fp)} {a : Args (Dbl fp)} {j : Junk (Dbl fp)} {calls : List (Call (Dbl fp))}
  {s : ObjFiles (Dbl fp)}

/-- Number `m` of the two materials: the yield stress is NaN or positive infinity, or the hardening modulus is
not finite. -/
def NoYieldStress (a : Args (Dbl fp)) (m : Nat) : Prop :=
  Scalar.isNaN (a.params (m * 10 + 2)) = true ∨ a.params (m * 10 + 2) = .inf false ∨
    (a.params (m * 10 + 3)).isFin = false

theorem noYield_mat {c : Cfg (Dbl fp)} (hb : BuiltFrom a j c) {m : Nat} (hm2 : m < 2)
    (h : a.matTypes m = 0 ∨ a.matTypes m = 2 ∨ NoYieldStress a m) (hp : (c.mats m).plasticity = true)
    (eps epsP : Nat → Dbl fp) : Scalar.lt 0 (fTrial (c.mats m) eps epsP 0) = false := by
  obtain ⟨et, ct, e⟩ := hb.eq
  have hmat : c.mats m = mkMaterial (fun k => a.params (m * 10 + k)) (a.matTypes m) (j.mats m) := by
    rw [e]
    show (if m < 2 then _ else _) = _
    rw [if_pos hm2]
  rw [hmat] at hp ⊢
  rcases h with h | h | h
  · simp [mkMaterial, h] at hp
  · simp [mkMaterial, h] at hp
  · refine High.not_yield (High.root_mul (high_threshold ?_) _) _
    rcases h with h | h | h
    · left; left
      show a.params (m * 10 + 2) = _
      revert h
      cases a.params (m * 10 + 2) with
      | nan => exact fun _ => rfl
      | inf b => intro h; cases h
      | fin x h1 h2 => intro h; cases h
    · exact Or.inl (Or.inr h)
    · exact Or.inr h

/-- **C109**: if each of the two materials is elastic (type 0 or 2), or has a yield stress that is NaN or infinite
or a hardening modulus that is NaN or infinite, then along every sequence of calls, whatever the strains are, no
Gauss point ever gets internal variables: the flag is 0 for every identifier, after `homogenize` and after
`update_vars`. -/
theorem C109 (ha : a.Ok) (hm : ∀ m, m < 2 → a.matTypes m = 0 ∨ a.matTypes m = 2 ∨ NoYieldStress a m)
    (hs : Reach env a j calls s) (id : Int) : nlFlag s id = 0 ∧ committed s id = none := by
  obtain ⟨hb, -⟩ := reach_built ha hs
  have hi : s.obj.cfg.Inert := by
    intro el hp eps epsP
    unfold matOf at hp ⊢
    have h2 : (if s.obj.cfg.elemType.val el = 0 then 0 else 1) < 2 := by split <;> omega
    exact noYield_mat hb h2 (hm _ h2) hp eps epsP
  have hn := reach_inert ha hs hi
  unfold nlFlag getNlFlag committed
  cases hf : findGp id s.obj.gauss with
  | none => exact ⟨rfl, rfl⟩
  | some g =>
    have h := hn g (findGp_mem' hf)
    refine ⟨?_, h⟩
    show (if g.intVarsN.isSome = true then (1 : Int) else 0) = 0
    rw [h]; rfl

/-- Internal variable number `v` at point `gp` of element `e` with which the next evaluation of a Gauss point
starts: zero when nothing is committed (/repo/src/homogenize.cpp:136-141). -/
noncomputable def startVar (s : ObjFiles (Dbl fp)) (id : Int) (e gp v : Nat) : Dbl fp :=
  match committed s id with
  | none => 0
  | some n => n.val ((e * 8 + gp) * 7 + v)

/-- **C109**, one material: whatever the other material does, plastic strain and hardening variable of the
elements with such a plastic material (type 1) are zero in every state. -/
theorem C109_local (ha : a.Ok) {m : Nat} (hm : m < 2) (hty : a.matTypes m = 1) (hn : NoYieldStress a m)
    (hs : Reach env a j calls s) {e : Nat} (he : e < s.obj.cfg.nelem)
    (hel : (if s.obj.cfg.elemType.val e = 0 then 0 else 1) = m) (id : Int) {gp v : Nat} (hg : gp < 8) (hv : v < 7) :
    startVar s id e gp v = 0 := by
  unfold startVar
  split
  · rfl
  rename_i n hc
  obtain ⟨hb, -⟩ := reach_built ha hs
  rcases ha.dim with hd | hd
  · rw [C53_elastic ha hs (Or.inl hd) id] at hc
    cases hc
  · unfold committed at hc
    cases hf : findGp id s.obj.gauss with
    | none => rw [hf] at hc; cases hc
    | some g =>
      rw [hf] at hc
      have hq : (e * 8 + gp) / 8 = e := by omega
      have hmo : matOf s.obj.cfg e = s.obj.cfg.mats m := by unfold matOf; rw [hel]
      have hp : (s.obj.cfg.mats m).plasticity = true := by
        obtain ⟨et, ct, e'⟩ := hb.eq
        rw [e']
        show (if m < 2 then mkMaterial _ (a.matTypes m) _ else _).plasticity = true
        rw [if_pos hm, hty]; rfl
      refine (reach_idle ha hd hs g (findGp_mem' hf)).comm n hc (e * 8 + gp) ⟨⟨by omega, ?_⟩, fun eps epsP => ?_⟩ v hv
      · rw [hq, hmo]; exact hp
      · rw [hq, hmo]; exact noYield_mat hb hm (Or.inr (Or.inr hn)) hp eps epsP

end

/-- A cell of 5 by 5 by 5 nodes with two plastic materials: the matrix with an infinite yield stress, the layer
with hardening modulus NaN. -/
noncomputable def neverYields : Args (Dbl doubles) :=
  { (arrays3d8 5 5 5).args 3 1 with
    matTypes := fun _ => 1
    params := fun i => if i = 2 then .inf false else if i = 13 then .nan else if i % 10 = 0 then 1 else 0 }

/-- Double precision: two Gauss points with strains, evaluated and committed twice. -/
example : ∃ s : ObjFiles (Dbl doubles),
    Reach (tinyEnv _) neverYields (tinyJunk _) [.setStrain 0 (fun i => if i = 2 then 1 else 0), .setStrain 7 (fun _ => 1),
      .homogenize, .updateVars, .homogenize, .updateVars] s ∧
    nlFlag s 0 = 0 ∧ committed s 7 = none := by
  have ha : neverYields.Ok :=
    ⟨Or.inr rfl, Or.inr rfl, by show 2 ≤ 5; omega, by show 2 ≤ 5; omega, fun _ => by show 2 ≤ 5; omega⟩
  have hm : ∀ m, m < 2 → neverYields.matTypes m = 0 ∨ neverYields.matTypes m = 2 ∨ NoYieldStress neverYields m := by
    intro m hm
    obtain rfl | rfl : m = 0 ∨ m = 1 := by omega
    · exact Or.inr (Or.inr (Or.inr (Or.inl rfl)))
    · exact Or.inr (Or.inr (Or.inr (Or.inr rfl)))
  obtain ⟨o, h0, ho⟩ := (construct_sane (tinyEnv _) ha (tinyJunk (Dbl doubles))).returns tinyEnv_quick
  let F : Files (Dbl doubles) := ⟨[], [], [], [], fun _ _ => none⟩
  let s0 : ObjFiles (Dbl doubles) := { obj := o, files := ctorFiles o.cfg F }
  have hc0 : constructF (tinyEnv _) neverYields (tinyJunk _) F = .ok s0 := by
    unfold constructF; rw [h0]; rfl
  obtain ⟨s, hs, hos⟩ := (run_sane (env := tinyEnv _) [.setStrain 0 (fun i => if i = 2 then 1 else 0),
    .setStrain 7 (fun _ => 1), .homogenize, .updateVars, .homogenize, .updateVars] (s := s0)
    ho).returns tinyEnv_quick
  have hreach : Reach (tinyEnv _) neverYields (tinyJunk _) [.setStrain 0 (fun i => if i = 2 then 1 else 0),
      .setStrain 7 (fun _ => 1), .homogenize, .updateVars, .homogenize, .updateVars] s :=
    ⟨F, by rw [hc0]; exact hs⟩
  exact ⟨s, hreach, (C109 ha hm hreach 0).1, (C109 ha hm hreach 7).2⟩

/-- The same cell, with yield stress 1 in the matrix. -/
noncomputable def layerNeverYields : Args (Dbl doubles) :=
  { neverYields with params := fun i => if i = 2 then 1 else neverYields.params i }

example : ∃ s : ObjFiles (Dbl doubles),
    Reach (tinyEnv _) layerNeverYields (tinyJunk _) [.setStrain 0 (fun i => if i = 2 then 1 else 0), .homogenize,
      .updateVars] s ∧
    ∀ e gp v, e < 64 → (if s.obj.cfg.elemType.val e = 0 then 0 else 1) = 1 → gp < 8 → v < 7 →
      startVar s 0 e gp v = 0 := by
  have ha : layerNeverYields.Ok :=
    ⟨Or.inr rfl, Or.inr rfl, by show 2 ≤ 5; omega, by show 2 ≤ 5; omega, fun _ => by show 2 ≤ 5; omega⟩
  obtain ⟨o, h0, ho⟩ := (construct_sane (tinyEnv _) ha (tinyJunk (Dbl doubles))).returns tinyEnv_quick
  let F : Files (Dbl doubles) := ⟨[], [], [], [], fun _ _ => none⟩
  let s0 : ObjFiles (Dbl doubles) := { obj := o, files := ctorFiles o.cfg F }
  have hc0 : constructF (tinyEnv _) layerNeverYields (tinyJunk _) F = .ok s0 := by
    unfold constructF; rw [h0]; rfl
  obtain ⟨s, hs, hos⟩ := (run_sane (env := tinyEnv _) [.setStrain 0 (fun i => if i = 2 then 1 else 0),
    .homogenize, .updateVars] (s := s0) ho).returns tinyEnv_quick
  have hreach : Reach (tinyEnv _) layerNeverYields (tinyJunk _) [.setStrain 0 (fun i => if i = 2 then 1 else 0),
      .homogenize, .updateVars] s := ⟨F, by rw [hc0]; exact hs⟩
  refine ⟨s, hreach, fun e gp v he hel hg hv => ?_⟩
  have hN : s.obj.cfg.nelem = 64 := by
    obtain ⟨et, ct, e'⟩ := (reach_built ha hreach).1.eq
    rw [e']; rfl
  exact C109_local ha (m := 1) (by omega) rfl (Or.inr (Or.inr rfl)) hreach (by omega) hel 0 hg hv

end Verif.Props
