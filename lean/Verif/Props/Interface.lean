import Verif.Props.State
import Verif.Lemmas.Built

/-!
# Tolerance, info files and the Fortran interface: properties C45, C51, C52
-/

namespace Verif.Props
open Verif

variable {α : Type} [Scalar α]

/-! ### C45 -/

/-- C45, refuted: the constructor does not look at `micro_params[4]`; whatever the user passes, the
resulting object is the same. -/
theorem C45_tolerance_fails (env : Env α) (a : Args α) (j : Junk α) (tol : α) :
    construct env { a with microParams := fun i => if i = 4 then tol else a.microParams i } j
      = construct env a j ∧
    ∀ o, construct env a j = .ok o → o.cfg.invTol = j.invTol := by
  refine ⟨?_, ?_⟩
  · have h : ∀ et, mkCfg { a with microParams := fun i => if i = 4 then tol else a.microParams i }
        j et = mkCfg a j et := by
      intro et
      simp [mkCfg]
    unfold construct
    simp only [h]
  · intro o ho
    unfold construct at ho
    split at ho
    · cases ho
    split at ho
    · cases ho
    simp only [bind_ok_iff, pure_ok_iff] at ho
    obtain ⟨et, _, ho⟩ := ho
    split at ho
    · simp only [bind_ok_iff, pure_ok_iff] at ho
      obtain ⟨_, _, _, _, rfl⟩ := ho
      rfl
    · simp only [bind_ok_iff, pure_ok_iff] at ho
      obtain ⟨_, _, _, _, rfl⟩ := ho
      rfl

/-- The tolerance 12345 passed by the user is not used; the object has the 1 found in the memory. -/
example : ∃ o, construct exEnv { exArgs3 with
      microParams := fun i => if i = 4 then 12345 else exArgs3.microParams i } exJunk = .ok o ∧
    o.cfg.invTol = 1 := by
  obtain ⟨o, ho, -⟩ := (construct_sane exEnv exArgs3_ok exJunk).returns exEnv_quick
  have h := C45_tolerance_fails exEnv exArgs3 exJunk 12345
  exact ⟨o, h.1.trans ho, h.2 o ho⟩

/-- C45, what holds: the member `inv_tol` (wherever it came from) decides.  A Gauss point runs no
solver, i.e. the displacement and iteration scratch memory are untouched, exactly when it was never
non-linear and its trace is below `inv_tol`; otherwise the cell problem is solved for its strain. -/
theorem C45_decides_partial (env : Env α) (c : Cfg α) (g : Gp α) (w : Work α) (s : GpWork α)
    (h : homogenizeGp env c g w = .ok s) :
    (TakesLinearPath c g → s.work.u = w.u ∧ s.work.tick = w.tick) ∧
    (¬ TakesLinearPath c g → ∃ w' r, solveStrain env c w' g.macroStrain = .ok r ∧ w'.u = w.u ∧
      ∀ i, i < c.nvoi → s.gp.macroStress i = r.sig i) := by
  unfold homogenizeGp at h
  simp only [bind_ok_iff] at h
  obtain ⟨old, _, l, hlin, h⟩ := h
  have h1 := isLinear_eq hlin
  refine ⟨fun hl => ?_, fun hl => ?_⟩
  · rw [hl.2] at h1
    rw [if_pos ⟨h1, by rw [hl.1]; rfl⟩, pure_ok_iff] at h
    subst h
    exact ⟨rfl, rfl⟩
  · rw [if_neg (fun hc => hl ⟨Option.isNone_iff_eq_none.mp hc.2, h1 ▸ hc.1⟩)] at h
    simp only [bind_ok_iff, pure_ok_iff] at h
    obtain ⟨s1, h2, rfl⟩ := h
    obtain ⟨r, g1, hr, _, _, _, _, _, hsig⟩ := solveGp_inv h2
    refine ⟨_, r, hr, rfl, fun i hi => ?_⟩
    simp only [hsig, setFirst, hi, if_true]

/-- Both cases occur: a point without strain is not solved, a point with internal variables is. -/
example : ∃ g s, TakesLinearPath ex3.cfg g ∧ homogenizeGp exEnv ex3.cfg g ex3.work = .ok s ∧
    s.work.u = ex3.work.u := by
  let g : Gp ℝ := ⟨3, fun _ => 0, none, none, fun _ => 0, fun _ => 0, fun _ => 0, fun _ => 0, 0⟩
  have hg : g.Ok ex3.cfg := ⟨fun b h => (by cases h), fun b h => (by cases h), rfl⟩
  have hl : TakesLinearPath ex3.cfg g := by
    refine ⟨rfl, ?_⟩
    have ht : ex3.cfg.invTol = 1 := by obtain ⟨et, ct, h⟩ := ex3_built.1.eq; rw [h]; rfl
    have : traceV ex3.cfg.dim (matVec ex3.cfg.nvoi ex3.cfg.ctanLin g.macroStrain) = 0 := by
      simp [traceV, matVec, g]
    rw [this, ht]
    simp [Scalar.lt, abs_real]
  obtain ⟨s, hs, -⟩ := (homogenizeGp_safe (env := exEnv) ex3_ok ex3_work hg).returns exEnv_quick
  exact ⟨g, s, hl, hs, ((C45_decides_partial exEnv _ g _ s hs).1 hl).1⟩

example : ∃ g s, ¬ TakesLinearPath ex3.cfg g ∧ homogenizeGp exEnv ex3.cfg g ex3.work = .ok s ∧
    ∃ w' r, solveStrain exEnv ex3.cfg w' g.macroStrain = .ok r ∧ w'.u = ex3.work.u ∧
      ∀ i, i < ex3.cfg.nvoi → s.gp.macroStress i = r.sig i := by
  let b : Buf ℝ := ⟨ex3.cfg.numIntVars, fun _ => 0⟩
  let g : Gp ℝ :=
    ⟨3, fun _ => 0, some b, some b, fun v => v, fun _ => 0, fun _ => 0, fun _ => 0, 0⟩
  have hg : g.Ok ex3.cfg := ⟨fun b h => (by cases h; rfl), fun b h => (by cases h; rfl), rfl⟩
  have hl : ¬ TakesLinearPath ex3.cfg g := fun h => by cases h.1
  obtain ⟨s, hs, -⟩ := (homogenizeGp_safe (env := exEnv) ex3_ok ex3_work hg).returns exEnv_quick
  exact ⟨g, s, hl, hs, (C45_decides_partial exEnv _ g _ s hs).2 hl⟩

/-! ### C51 -/

/-- The Gauss-point lists at the successive `write_info_files` calls of a run. -/
def infoSnaps (env : Env α) : List (Call α) → ObjFiles α → List (List (Gp α))
  | [], _ => []
  | k :: l, s =>
    (match k with
      | .writeInfo => [s.obj.gauss]
      | _ => []) ++
    (match step env s k with
      | .ok r => infoSnaps env l r.state
      | .error _ => [])

/-- A blank after each entry. -/
def blanks (l : List (Tok α)) : List (Tok α) := l.flatMap fun t => [t, .sp]

/-- The ids in registration order, as a comment line. -/
def specIds (l : List (Gp α)) : List (Tok α) :=
  .str "# gp_id : " :: blanks (l.map fun g => .int g.id)

/-- Entry of one Gauss point in the convergence file: flag, largest invariant, and for each of the
`1 + nvoi` solves its iterations and error. -/
def specConv (nvoi : Nat) (g : Gp α) : List (Tok α) :=
  blanks ([.int (match g.intVarsN with | none => 0 | some _ => 1), .num g.invMax]
    ++ (List.range (1 + nvoi)).flatMap (fun i => [.int (g.nrIts i), .num (g.nrErr i)]))
    ++ Tok.bar

/-- Entry in the strain/stress/tangent file. -/
def specEps (g : Gp α) : List (Tok α) :=
  blanks ((List.range 6).map (fun i => .num (g.macroStrain i))
    ++ (List.range 6).map (fun i => .num (g.macroStress i))
    ++ (List.range 36).map (fun i => .num (g.macroCtan i))) ++ Tok.bar

/-- Entry in the internal-variables file: the committed variables, zeros while linear. -/
def specVars (n : Nat) (g : Gp α) : List (Tok α) :=
  blanks ((List.range n).map (fun i => .num (match g.intVarsN with | none => 0 | some b => b.val i)))
    ++ Tok.bar

/-- A file: the header for the first snapshot, then one record per snapshot. -/
def specFile (header : List (Gp α) → List (Tok α)) (entry : Gp α → List (Tok α))
    (snaps : List (List (Gp α))) : List (Tok α) :=
  (match snaps with
    | [] => []
    | l :: _ => header l)
  ++ snaps.flatMap (fun l => l.flatMap entry ++ [.endl])

theorem recEps_eq (g : Gp α) : recEps g = specEps g := by
  simp only [recEps, specEps, emitP, blanks, List.flatMap_append, List.flatMap_map]

theorem recVars_eq {c : Cfg α} {g : Gp α} {t : List (Tok α)} (h : recVars c g = .ok t) :
    t = specVars c.numIntVars g := by
  unfold recVars emit at h
  simp only [bind_ok_iff, pure_ok_iff] at h
  obtain ⟨t1, h1, rfl⟩ := h
  unfold specVars
  congr 1
  have := loop_ok_inv (fun n (ts : List (Tok α)) => ts = blanks ((List.range n).map
    (fun i => Tok.num (match g.intVarsN with | none => 0 | some b => b.val i)))) h1 rfl (by
      rintro i ts ts' _ rfl hs
      rw [List.range_succ, List.map_append]
      show _ = List.flatMap _ _
      rw [List.flatMap_append]
      show _ = blanks _ ++ _
      cases hn : g.intVarsN with
      | none =>
        rw [hn] at hs
        simp only [bind_ok_iff, pure_ok_iff] at hs
        obtain ⟨_, rfl, rfl⟩ := hs
        rfl
      | some b =>
        rw [hn] at hs
        simp only [bind_ok_iff, pure_ok_iff] at hs
        obtain ⟨_, ⟨v, hv, rfl⟩, rfl⟩ := hs
        rw [(read_ok_inv hv).2]
        rfl)
  exact this

theorem recVarsList_eq {c : Cfg α} {l : List (Gp α)} {t : List (Tok α)}
    (h : recVarsList c l = .ok t) : t = l.flatMap (specVars c.numIntVars) := by
  induction l generalizing t with
  | nil => simp only [recVarsList, pure_ok_iff] at h; subst h; rfl
  | cons g l ih =>
    simp only [recVarsList, bind_ok_iff, pure_ok_iff] at h
    obtain ⟨t1, h1, t2, h2, rfl⟩ := h
    rw [List.flatMap_cons, recVars_eq h1, ih h2]

theorem recConv_eq (c : Cfg α) (g : Gp α) : recConv c g = specConv c.nvoi g := by
  unfold recConv specConv emitP blanks
  rw [List.flatMap_append, List.flatMap_assoc]
  cases g.intVarsN <;> rfl

theorem step_files {env : Env α} {s : ObjFiles α} {k : Call α} {r : Stepped α}
    (h : step env s k = .ok r) (hk : k ≠ .writeInfo) :
    r.state.obj.header = s.obj.header ∧ r.state.files.convergence = s.files.convergence ∧
      r.state.files.epsSigCtan = s.files.epsSigCtan ∧
      r.state.files.intVarsN = s.files.intVarsN ∧ r.state.files.materials = s.files.materials := by
  cases k with
  | setStrain id eps => simp only [step, pure_ok_iff] at h; subst h; exact ⟨rfl, rfl, rfl, rfl, rfl⟩
  | homogenize =>
    simp only [step, homogenize, bind_ok_iff, pure_ok_iff] at h
    obtain ⟨o, ⟨r1, h1, rfl⟩, rfl⟩ := h; exact ⟨rfl, rfl, rfl, rfl, rfl⟩
  | getStress id buf =>
    simp only [step, pure_ok_iff] at h; subst h
    unfold getMacroStress; split <;> exact ⟨rfl, rfl, rfl, rfl, rfl⟩
  | getCtan id buf =>
    simp only [step, pure_ok_iff] at h; subst h
    unfold getMacroCtan; split <;> exact ⟨rfl, rfl, rfl, rfl, rfl⟩
  | getNl id =>
    simp only [step, pure_ok_iff] at h; subst h
    unfold getNlFlag; split <;> exact ⟨rfl, rfl, rfl, rfl, rfl⟩
  | updateVars =>
    simp only [step, updateVars, bind_ok_iff, pure_ok_iff] at h
    obtain ⟨o, ⟨r1, h1, rfl⟩, rfl⟩ := h; exact ⟨rfl, rfl, rfl, rfl, rfl⟩
  | output t id =>
    simp only [step, bind_ok_iff, pure_ok_iff] at h
    obtain ⟨r1, h1, rfl⟩ := h
    unfold output at h1
    split at h1
    · rw [pure_ok_iff] at h1; subst h1; exact ⟨rfl, rfl, rfl, rfl, rfl⟩
    · simp only [bind_ok_iff, pure_ok_iff] at h1
      obtain ⟨_, _, _, _, _, _, _, _, _, _, rfl⟩ := h1; exact ⟨rfl, rfl, rfl, rfl, rfl⟩
  | writeInfo => exact absurd rfl hk

theorem infoSnaps_snoc {env : Env α} {l : List (Call α)} {k : Call α} {s0 s1 : ObjFiles α}
    (h : run env l s0 = .ok s1) :
    infoSnaps env (l ++ [k]) s0 = infoSnaps env l s0 ++ (match k with
      | .writeInfo => [s1.obj.gauss]
      | _ => []) := by
  induction l generalizing s0 with
  | nil =>
    simp only [run, pure_ok_iff] at h
    subst h
    simp only [infoSnaps, List.nil_append]
    cases step env s0 k <;> simp [infoSnaps]
  | cons a l ih =>
    simp only [run, bind_ok_iff] at h
    obtain ⟨r, h1, h2⟩ := h
    simp only [List.cons_append, infoSnaps, h1, ih h2, List.append_assoc]

/-- The two headers. -/
def specHeaderConv (l : List (Gp α)) : List (Tok α) :=
  specIds l ++ [.endl, .str "# nl_flag [1] # inv_max [2] # inv_tol [3]", .endl,
    .str "# nr_its  [4] # nr_tol  [5]", .endl]

/-- The two headers. -/
def specHeaderEps (l : List (Gp α)) : List (Tok α) :=
  specIds l ++
    [.str "# epsxx [1] # epsyy [2] # epszz[3] # epsxy[4] # epsxz[5] # epsyz[6]",
     .str "# sigxx [7] # sigyy [2] # sigzz[3] # sigxy[4] # sigxz[5] # sigyz[6]", .endl, .endl]

theorem idLine_eq (l : List (Gp α)) : idLine l = specIds l := by
  unfold idLine specIds blanks
  rw [List.flatMap_map]

theorem headerConv_eq (l : List (Gp α)) : headerConv l = specHeaderConv l := by
  unfold headerConv specHeaderConv
  rw [idLine_eq]

theorem headerEps_eq (l : List (Gp α)) : headerEps l = specHeaderEps l := by
  unfold headerEps specHeaderEps
  rw [idLine_eq]

theorem specFile_snoc (header : List (Gp α) → List (Tok α)) (entry : Gp α → List (Tok α))
    (snaps : List (List (Gp α))) (l : List (Gp α)) :
    specFile header entry (snaps ++ [l]) =
      specFile header entry snaps ++ (if snaps = [] then header l else []) ++
        (l.flatMap entry ++ [.endl]) := by
  unfold specFile
  cases snaps with
  | nil => simp
  | cons a b => simp

/-- C51: whatever the history, the three info files contain the header once, before everything
else, and one record per `write_info_files` call, each with one entry per Gauss point registered at
that time, in registration order (the internal-variables file has no header). -/
theorem C51_info (env : Env α) (calls : List (Call α)) (s0 s : ObjFiles α) (h0 : Fresh s0)
    (h : run env calls s0 = .ok s) :
    s.files.convergence
      = specFile specHeaderConv (specConv s0.obj.cfg.nvoi) (infoSnaps env calls s0) ∧
    s.files.epsSigCtan = specFile specHeaderEps specEps (infoSnaps env calls s0) ∧
    s.files.intVarsN
      = specFile (fun _ => []) (specVars s0.obj.cfg.numIntVars) (infoSnaps env calls s0) := by
  have key : (s.obj.header = true ↔ infoSnaps env calls s0 ≠ []) ∧ s.files.convergence
      = specFile specHeaderConv (specConv s0.obj.cfg.nvoi) (infoSnaps env calls s0) ∧
      s.files.epsSigCtan = specFile specHeaderEps specEps (infoSnaps env calls s0) ∧
      s.files.intVarsN
        = specFile (fun _ => []) (specVars s0.obj.cfg.numIntVars) (infoSnaps env calls s0) := by
    induction calls using List.reverseRecOn generalizing s with
    | nil =>
      simp only [run, pure_ok_iff] at h
      subst h
      refine ⟨by rw [h0.header]; simp [infoSnaps], h0.convergence, h0.epsSigCtan, h0.intVarsN⟩
    | append_singleton l k ih =>
      rw [run_snoc] at h
      obtain ⟨s1, r, h1, h2, rfl⟩ := h
      obtain ⟨i1, i2, i3, i4⟩ := ih s1 h1
      have hc := run_cfg h1
      rw [infoSnaps_snoc h1]
      by_cases hk : k = .writeInfo
      · subst hk
        simp only [step, writeInfoFiles, bind_ok_iff, pure_ok_iff] at h2
        obtain ⟨_, ⟨v, hv, rfl⟩, rfl⟩ := h2
        simp only
        rw [specFile_snoc, specFile_snoc, specFile_snoc, recVarsList_eq hv]
        refine ⟨by simp, ?_, ?_, ?_⟩
        · rw [← i2]
          have e : recConv s1.obj.cfg = specConv s0.obj.cfg.nvoi := by
            funext g; rw [recConv_eq, hc]
          rw [e]
          by_cases hh : s1.obj.header = true
          · rw [if_neg (i1.mp hh), hh]; simp
          · rw [if_pos (not_not.mp fun hn => hh (i1.mpr hn)), Bool.eq_false_iff.mpr hh, ← headerConv_eq]; rfl
        · rw [← i3]
          have e : (recEps : Gp α → List (Tok α)) = specEps := funext recEps_eq
          rw [e]
          by_cases hh : s1.obj.header = true
          · rw [if_neg (i1.mp hh), hh]; simp
          · rw [if_pos (not_not.mp fun hn => hh (i1.mpr hn)), Bool.eq_false_iff.mpr hh, ← headerEps_eq]; rfl
        · rw [← i4, hc]
          by_cases hh : s1.obj.header = true
          · rw [hh]; simp
          · rw [Bool.eq_false_iff.mpr hh]; simp
      · obtain ⟨a, b, d, e, _⟩ := step_files h2 hk
        have hm : (match k with
          | .writeInfo => [s1.obj.gauss]
          | _ => []) = [] := by
          cases k <;> first | rfl | exact absurd rfl hk
        rw [hm, List.append_nil, a, b, d, e]
        exact ⟨i1, i2, i3, i4⟩
  exact key.2

theorem recVars_linear (c : Cfg α) (g : Gp α) (hn : g.intVarsN = none) :
    ∃ t, recVars c g = .ok t := by
  unfold recVars emit
  rw [hn]
  simp only [M_pure, M_bind_ok']
  rw [loop_pure (f := fun _ ts => .ok (ts ++ [Tok.num 0, .sp])) (g := fun _ ts => ts ++ [Tok.num 0, .sp])
    (fun i s _ => rfl)]
  exact ⟨_, rfl⟩

theorem recVarsList_linear (c : Cfg α) (l : List (Gp α)) (hn : ∀ g ∈ l, g.intVarsN = none) :
    ∃ t, recVarsList c l = .ok t := by
  induction l with
  | nil => exact ⟨_, rfl⟩
  | cons g l ih =>
    obtain ⟨t1, h1⟩ := recVars_linear c g (hn g (by simp))
    obtain ⟨t2, h2⟩ := ih fun g hg => hn g (by simp [hg])
    simp only [recVarsList, h1, h2, M_bind_ok', M_pure]
    exact ⟨_, rfl⟩

/-- Two records over one header; the second Gauss point is registered in between. -/
example (env : Env ℝ) (m : Material ℝ) (e : Nat → ℝ) :
    ∃ s g1 g2, run env [.setStrain 7 e, .writeInfo, .setStrain 8 e, .writeInfo]
        (exObj 1 (fun _ => 0) m) = .ok s ∧
      s.files.convergence = specFile specHeaderConv (specConv 6) [[g1], [g1, g2]] ∧
      g1.id = 7 ∧ g2.id = 8 := by
  let s0 : ObjFiles ℝ := exObj 1 (fun _ => 0) m
  let s1 : ObjFiles ℝ := { s0 with obj := setMacroStrain env s0.obj 7 e }
  have h1 : step env s0 (.setStrain 7 e) = .ok ⟨s1, .unit⟩ := rfl
  obtain ⟨t1, ht1⟩ := recVarsList_linear s1.obj.cfg s1.obj.gauss (by
    intro g hg; rw [List.mem_singleton.mp hg])
  obtain ⟨s2, h2, hg2⟩ : ∃ s2, step env s1 .writeInfo = .ok ⟨s2, .unit⟩ ∧
      s2.obj = { s1.obj with header := true } := by
    simp only [step, writeInfoFiles, ht1, M_bind_ok', M_pure]
    exact ⟨_, rfl, rfl⟩
  let s3 : ObjFiles ℝ := { s2 with obj := setMacroStrain env s2.obj 8 e }
  have h3 : step env s2 (.setStrain 8 e) = .ok ⟨s3, .unit⟩ := rfl
  have hs3 : s3.obj = setMacroStrain env { s1.obj with header := true } 8 e := by rw [← hg2]
  have hg : ∃ g1 g2, s1.obj.gauss = [g1] ∧ s3.obj.gauss = [g1, g2] ∧ g1.intVarsN = none ∧
      g2.intVarsN = none ∧ g1.id = 7 ∧ g2.id = 8 := by
    rw [hs3]
    refine ⟨_, _, rfl, rfl, rfl, rfl, rfl, rfl⟩
  obtain ⟨g1, g2, e1, e2, n1, n2, i1, i2⟩ := hg
  obtain ⟨t2, ht2⟩ := recVarsList_linear s3.obj.cfg s3.obj.gauss (by
    intro g hg; rw [e2] at hg; simp at hg; rcases hg with rfl | rfl <;> assumption)
  obtain ⟨s4, h4⟩ : ∃ s4, step env s3 .writeInfo = .ok ⟨s4, .unit⟩ := by
    simp only [step, writeInfoFiles, ht2, M_bind_ok', M_pure]
    exact ⟨_, rfl⟩
  have hrun : run env [.setStrain 7 e, .writeInfo, .setStrain 8 e, .writeInfo] s0 = .ok s4 := by
    simp only [run, h1, h2, h3, h4, M_bind_ok', M_pure]
  refine ⟨s4, g1, g2, hrun, ?_, i1, i2⟩
  have := (C51_info env _ s0 s4 (exObj_fresh 1 (fun _ => 0) m) hrun).1
  rw [this]
  simp only [infoSnaps, h1, h2, h3, h4, e1, e2]
  rfl

/-- C51 over the life of an object: whatever the files held before (`f`), after construction and any calls
each file holds the records of this object and nothing else. -/
theorem C51_object (env : Env α) (a : Args α) (j : Junk α) (f : Files α) (calls : List (Call α)) (s : ObjFiles α)
    (h : (constructF env a j f >>= run env calls) = .ok s) :
    ∃ s0, constructF env a j f = .ok s0 ∧ s0.obj.gauss = [] ∧
    s.files.convergence
      = specFile specHeaderConv (specConv s0.obj.cfg.nvoi) (infoSnaps env calls s0) ∧
    s.files.epsSigCtan = specFile specHeaderEps specEps (infoSnaps env calls s0) ∧
    s.files.intVarsN
      = specFile (fun _ => []) (specVars s0.obj.cfg.numIntVars) (infoSnaps env calls s0) := by
  rw [bind_ok_iff] at h
  obtain ⟨s0, h0, h1⟩ := h
  exact ⟨s0, h0, (construct_fresh h0).gauss, C51_info env calls s0 s (construct_fresh h0) h1⟩

/-- An object that finds files of an earlier program run and never writes: they are empty. -/
example : ∃ s, (constructF exEnv exArgs3 exJunk ⟨[.str "old"], [.str "old"], [.str "old"], [.str "old"], fun _ _ => none⟩
      >>= run exEnv [.setStrain 7 (fun _ => 1), .homogenize]) = .ok s ∧
    s.files.convergence = [] ∧ s.files.epsSigCtan = [] ∧ s.files.intVarsN = [] := by
  have key : Sane exEnv (fun _ => True)
      (constructF exEnv exArgs3 exJunk ⟨[.str "old"], [.str "old"], [.str "old"], [.str "old"], fun _ _ => none⟩ >>=
        run exEnv [.setStrain 7 (fun _ => 1), .homogenize]) := by
    refine Sane.bind (P := fun s : ObjFiles ℝ => s.obj.Ok) ?_ fun s hs =>
      (run_sane _ hs).mono fun _ _ => trivial
    exact (construct_sane exEnv exArgs3_ok exJunk).bind fun o ho => Sane.ok ho
  obtain ⟨s, h, -⟩ := key.returns exEnv_quick
  obtain ⟨s0, -, -, h1, h2, h3⟩ := C51_object _ _ _ _ _ _ h
  have e : infoSnaps exEnv [.setStrain 7 (fun _ => (1 : ℝ)), .homogenize] s0 = [] := by
    simp only [infoSnaps]
    cases step exEnv s0 (.setStrain 7 fun _ => 1) with
    | error _ => simp [infoSnaps]
    | ok r => cases h : step exEnv r.state .homogenize <;> simp [infoSnaps, h]
  rw [e] at h1 h2 h3
  exact ⟨s, h, h1, h2, h3⟩

/-! ### C52 -/

/-- The wrapper function for each method. -/
def wrapper (env : Env α) (w : World α) : Call α → M (WStepped α)
  | .setStrain id eps => wSetStrain env w id eps
  | .homogenize => wHomogenize env w
  | .getStress id buf => wGetStress env w id buf
  | .getCtan id buf => wGetCtan env w id buf
  | .getNl id => wGetNl env w id
  | .updateVars => wUpdate env w
  | .output t id => wOutput env w t id
  | .writeInfo => wWriteInfo env w

/-- A sequence of wrapper calls with the values handed back. -/
def wRun (env : Env α) : List (Call α) → World α → M (World α × List (Ret α))
  | [], w => pure (w, [])
  | k :: l, w => do
    let r ← wrapper env w k
    let q ← wRun env l r.world
    pure (q.1, r.ret :: q.2)

/-- A sequence of method calls with the values handed back. -/
def runRets (env : Env α) : List (Call α) → ObjFiles α → M (ObjFiles α × List (Ret α))
  | [], s => pure (s, [])
  | k :: l, s => do
    let r ← step env s k
    let q ← runRets env l r.state
    pure (q.1, r.ret :: q.2)

/-- C52: after `micropp_construct_` any sequence of wrapper calls returns exactly what the same
methods of the constructed object return, with the same outcome (including errors). -/
theorem C52_forwards (env : Env α) (a : Args α) (j : Junk α) (w w1 : World α)
    (h : wConstruct env a j w = .ok w1) (calls : List (Call α)) :
    ∃ s0, constructF env a j w.files = .ok s0 ∧
      wRun env calls w1 = (runRets env calls s0).map
        (fun q => ({ w1 with micro := some q.1.obj, files := q.1.files }, q.2)) := by
  simp only [wConstruct, bind_ok_iff, pure_ok_iff] at h
  obtain ⟨s0, h0, rfl⟩ := h
  refine ⟨s0, h0, ?_⟩
  have key : ∀ (calls : List (Call α)) (s : ObjFiles α) (ab : List (Obj α)),
      wRun env calls { micro := some s.obj, files := s.files, abandoned := ab }
        = (runRets env calls s).map (fun q =>
          ({ micro := some q.1.obj, files := q.1.files, abandoned := ab }, q.2)) := by
    intro calls
    induction calls with
    | nil => intro s ab; rfl
    | cons k l ih =>
      intro s ab
      have hw : wrapper env { micro := some s.obj, files := s.files, abandoned := ab } k
          = wCall env { micro := some s.obj, files := s.files, abandoned := ab } k := by
        cases k <;> rfl
      simp only [wRun, runRets, hw, wCall]
      cases hs : step env s k with
      | error e => rfl
      | ok r =>
        simp only [M_bind_ok', M_pure]
        rw [ih]
        cases runRets env l r.state <;> rfl
  exact key calls s0 _

/-- C52: before construction every wrapper call dereferences NULL. -/
theorem C52_null (env : Env α) (w : World α) (h : w.micro = none) (k : Call α) :
    wrapper env w k = .error .null := by
  cases k <;> simp only [wrapper, wSetStrain, wHomogenize, wGetStress, wGetCtan, wGetNl, wUpdate,
    wOutput, wWriteInfo, wCall, h]

/-- C52: a second construction abandons the first object: no later call reaches it. -/
theorem C52_abandons (env : Env α) (a : Args α) (j : Junk α) (w w1 : World α) (o : Obj α)
    (h : wConstruct env a j w = .ok w1) (ho : w.micro = some o) (calls : List (Call α))
    (w2 : World α) (rets : List (Ret α)) (h2 : wRun env calls w1 = .ok (w2, rets)) :
    w2.abandoned = o :: w.abandoned := by
  obtain ⟨s0, _, h3⟩ := C52_forwards env a j w w1 h calls
  simp only [wConstruct, bind_ok_iff, pure_ok_iff] at h
  obtain ⟨s1, _, rfl⟩ := h
  rw [h3] at h2
  cases hr : runRets env calls s0 with
  | error e => rw [hr] at h2; cases h2
  | ok q =>
    rw [hr] at h2
    simp only [Except.map] at h2
    cases h2
    rw [ho]

theorem runRets_run (env : Env α) (calls : List (Call α)) (s : ObjFiles α) :
    (runRets env calls s).map (·.1) = run env calls s := by
  induction calls generalizing s with
  | nil => rfl
  | cons k l ih =>
    unfold run runRets
    rcases step env s k with e | r
    · rfl
    · have := ih r.state
      rw [M_bind_ok', M_bind_ok', ← this]
      rcases runRets env l r.state with e | q <;> rfl

/-- A world without an object. -/
def exWorld : World ℝ := ⟨none, ⟨[], [], [], [], fun _ _ => none⟩, []⟩

/-- Before construction the calls dereference NULL; the construction returns; then all calls return
and leave an object; a second construction abandons it. -/
example (calls : List (Call ℝ)) : wrapper exEnv exWorld .homogenize = .error .null ∧
    ∃ w1 w2 rets w3, wConstruct exEnv exArgs3 exJunk exWorld = .ok w1 ∧
      wRun exEnv calls w1 = .ok (w2, rets) ∧ rets.length = calls.length ∧
      wConstruct exEnv exArgs2 exJunk w2 = .ok w3 ∧ w3.abandoned.length = 1 := by
  refine ⟨C52_null exEnv exWorld rfl .homogenize, ?_⟩
  have hC : ∀ (a : Args ℝ), a.Ok → ∀ w : World ℝ, ∃ s w1, wConstruct exEnv a exJunk w = .ok w1 ∧
      constructF exEnv a exJunk w.files = .ok s ∧ s.obj.Ok ∧ w1.micro = some s.obj ∧
      w1.abandoned = (match w.micro with
        | some o => o :: w.abandoned
        | none => w.abandoned) := by
    intro a ha w
    obtain ⟨o, ho, hok⟩ := (construct_sane exEnv ha exJunk).returns exEnv_quick
    refine ⟨⟨o, ctorFiles o.cfg w.files⟩, ⟨some o, ctorFiles o.cfg w.files, match w.micro with
        | some o => o :: w.abandoned
        | none => w.abandoned⟩, ?_, ?_, hok, rfl, rfl⟩
    · unfold wConstruct constructF
      rw [ho]
      rcases w with ⟨_ | _, f, l⟩ <;> rfl
    · unfold constructF; rw [ho]; rfl
  obtain ⟨s0, w1, h1, h2, h3, h4, h5⟩ := hC exArgs3 exArgs3_ok exWorld
  obtain ⟨s0', e1, e2⟩ := C52_forwards exEnv exArgs3 exJunk exWorld w1 h1 calls
  rw [h2] at e1
  cases e1
  obtain ⟨s1, h6, -⟩ := (run_sane (env := exEnv) calls h3).returns exEnv_quick
  have hr := runRets_run exEnv calls s0
  rw [h6] at hr
  obtain ⟨q, hq⟩ : ∃ q, runRets exEnv calls s0 = .ok q := by
    cases h : runRets exEnv calls s0 with
    | error e => rw [h] at hr; cases hr
    | ok q => exact ⟨q, rfl⟩
  have hlen : ∀ (l : List (Call ℝ)) (s : ObjFiles ℝ) q, runRets exEnv l s = .ok q →
      q.2.length = l.length := by
    intro l
    induction l with
    | nil => intro s q h; cases h; rfl
    | cons k l ih =>
      intro s q h
      simp only [runRets, bind_ok_iff, pure_ok_iff] at h
      obtain ⟨r, h1, q', h2, rfl⟩ := h
      simp [ih _ _ h2]
  rw [hq] at e2
  obtain ⟨s2, w3, k1, k2, k3, k4, k5⟩ := hC exArgs2 exArgs2_ok
    { w1 with micro := some q.1.obj, files := q.1.files }
  refine ⟨w1, _, _, w3, h1, e2, hlen _ _ _ hq, k1, ?_⟩
  rw [k5]
  show (_ :: w1.abandoned).length = 1
  rw [h5]
  rfl

end Verif.Props
