import Verif.Props.Response

/-!
# The number `inv_max` of a Gauss point: property C87

`inv_max` is the second column of `micropp_convergence.dat` (/repo/src/output.cpp:240-247, property
C85 says how the file is read) and the number that `homogenize` compares with `inv_tol`.  The
specification is the absolute value of the trace of the linear answer to the strain that was in force
at the last `homogenize` call, a function of the calls alone.
-/

namespace Verif.Props
open Verif

section
variable {α : Type} [Scalar α]

/-- The calls up to the last `homogenize`; none of them if there is no `homogenize`. -/
def untilHom (calls : List (Call α)) : List (Call α) :=
  (calls.reverse.dropWhile fun | .homogenize => false | _ => true).reverse

/-- The strain of `id` in force at the last `homogenize` call. -/
def homStrain (id : Int) (calls : List (Call α)) : Option (Nat → α) :=
  lastStrain id (untilHom calls)

theorem isLinear_max {c : Cfg α} {m : α} {e : Nat → α} {l : Bool × α}
    (h : isLinear c m e = .ok l) :
    l.2 = if Scalar.lt m (Scalar.abs (traceV c.dim (matVec c.nvoi c.ctanLin e)))
      then Scalar.abs (traceV c.dim (matVec c.nvoi c.ctanLin e)) else m := by
  unfold isLinear getInv1 at h
  rw [linStress_eq] at h
  unfold traceV
  by_cases h2 : c.dim = 2
  · rw [if_pos h2] at h ⊢
    simp only [bind_ok_iff, pure_ok_iff, Except.ok.injEq, exists_eq_left'] at h
    rw [← h]
  · rw [if_neg h2] at h ⊢
    by_cases h3 : c.dim = 3
    · rw [if_pos h3] at h
      simp only [bind_ok_iff, pure_ok_iff, Except.ok.injEq, exists_eq_left'] at h
      rw [← h]
    · rw [if_neg h3] at h
      simp [bind_ok_iff] at h

theorem homogenizeGp_max {env : Env α} {c : Cfg α} (hc : c.Ok) {g : Gp α} {w : Work α}
    {s : GpWork α} (hw : w.Ok c) (hg : g.Ok c) (h : homogenizeGp env c g w = .ok s) :
    ∃ l, isLinear c (-1.0e10) g.macroStrain = .ok l ∧ s.gp.invMax = l.2 := by
  obtain ⟨old, l, -, -, hl, hcase⟩ := homogenizeGp_inv hc hw hg h
  refine ⟨l, hl, ?_⟩
  have e : s.work.invMax = l.2 := by
    rcases hcase with ⟨-, -, -, -, e⟩ | ⟨-, r, g1, -, -, hfr, -⟩
    · rw [e]
    · exact hfr.invMax
  rw [← e]
  unfold homogenizeGp at h
  simp only [bind_ok_iff] at h
  obtain ⟨old', -, l', -, h⟩ := h
  split at h
  · simp only [pure_ok_iff] at h; subst h; rfl
  · simp only [bind_ok_iff, pure_ok_iff] at h
    obtain ⟨s', -, rfl⟩ := h
    rfl

theorem homogenizeList_max {env : Env α} {c : Cfg α} (hc : c.Ok) {l : List (Gp α)} {w : Work α}
    {r : ListWork α} (hw : w.Ok c) (hl : ∀ g ∈ l, g.Ok c) (h : homogenizeList env c l w = .ok r) :
    List.Forall₂ (fun g g' => g'.invMax =
      if Scalar.lt (-1.0e10) (Scalar.abs (traceV c.dim (matVec c.nvoi c.ctanLin g.macroStrain)))
      then Scalar.abs (traceV c.dim (matVec c.nvoi c.ctanLin g.macroStrain)) else -1.0e10)
      l r.gauss := by
  induction l generalizing w r with
  | nil =>
    simp only [homogenizeList, pure_ok_iff] at h
    subst h; exact List.Forall₂.nil
  | cons gp l ih =>
    simp only [homogenizeList, bind_ok_iff, pure_ok_iff] at h
    obtain ⟨s, hs, r1, hr, rfl⟩ := h
    obtain ⟨x, h1, h2⟩ := homogenizeGp_max hc hw (hl _ (by simp)) hs
    refine List.Forall₂.cons (by rw [h2, isLinear_max h1]) (ih ?_ (fun g hg => hl g (by simp [hg])) hr)
    exact ((homogenizeGp_safe hc hw (hl _ (by simp))).post hs).1

theorem setStrainList_max {nvoi : Nat} {id : Int} {eps : Nat → α} {junk : Gp α} {l : List (Gp α)}
    {g' : Gp α} (h : g' ∈ setStrainList nvoi id eps junk l) :
    (∃ g ∈ l, g.id = g'.id ∧ g'.invMax = g.invMax) ∨
      (g'.id = id ∧ id ∉ l.map Gp.id ∧ g'.invMax = -1.0e10) := by
  induction l with
  | nil =>
    simp only [setStrainList, List.mem_singleton] at h
    subst h
    exact Or.inr ⟨rfl, by simp, rfl⟩
  | cons g l ih =>
    unfold setStrainList at h
    split at h
    · rename_i hid
      rcases List.mem_cons.mp h with rfl | h
      · exact Or.inl ⟨g, by simp, rfl, rfl⟩
      · exact Or.inl ⟨g', by simp [h], rfl, rfl⟩
    · rename_i hid
      rcases List.mem_cons.mp h with rfl | h
      · exact Or.inl ⟨g', by simp, rfl, rfl⟩
      · rcases ih h with ⟨g0, h0, e⟩ | ⟨e1, e2, e3⟩
        · exact Or.inl ⟨g0, by simp [h0], e⟩
        · refine Or.inr ⟨e1, ?_, e3⟩
          simp only [List.map_cons, List.mem_cons, not_or]
          exact ⟨fun h => hid h.symm, e2⟩

theorem untilHom_snoc (l : List (Call α)) (k : Call α) :
    untilHom (l ++ [k]) = match k with | .homogenize => l ++ [k] | _ => untilHom l := by
  unfold untilHom
  rw [List.reverse_append, List.reverse_singleton, List.singleton_append]
  cases k <;> simp

theorem untilHom_prefix (l : List (Call α)) : untilHom l <+: l := by
  unfold untilHom
  rw [← List.reverse_suffix, List.reverse_reverse]
  exact List.dropWhile_suffix _

theorem lastStrain_none {id : Int} {l : List (Call α)} (h : id ∉ setIds l) :
    lastStrain id l = none := by
  unfold lastStrain
  rw [List.findSome?_eq_none_iff]
  intro k hk
  cases k with
  | setStrain i eps =>
    have : i ≠ id := by
      rintro rfl
      refine h ?_
      unfold setIds
      exact List.mem_filterMap.mpr ⟨_, List.mem_reverse.mp hk, rfl⟩
    simp [this]
  | _ => rfl

theorem matVec_congr {n : Nat} (C : Nat → α) {e e' : Nat → α} (h : ∀ v, v < n → e v = e' v) :
    matVec n C e = matVec n C e' := by
  funext i
  unfold matVec
  have : ∀ (l : List Nat) (s : α), (∀ j ∈ l, j < n) →
      l.foldl (fun s j => s + C (i * n + j) * e j) s
        = l.foldl (fun s j => s + C (i * n + j) * e' j) s := by
    intro l
    induction l with
    | nil => intro s _; rfl
    | cons j l ih =>
      intro s hl
      simp only [List.foldl_cons]
      rw [h j (hl j (by simp)), ih _ fun k hk => hl k (by simp [hk])]
  exact this _ _ fun j hj => List.mem_range.mp hj

end

theorem forall₂_both {β γ : Type} {R S : β → γ → Prop} {l : List β} {l' : List γ}
    (h : List.Forall₂ R l l') (h' : List.Forall₂ S l l') :
    List.Forall₂ (fun a b => R a b ∧ S a b) l l' := by
  induction h with
  | nil => exact .nil
  | cons h _ ih => cases h' with | cons a b => exact .cons ⟨h, a⟩ (ih b)

/-- `|x|` exceeds the initial value of `inv_max`. -/
theorem max_real (x : ℝ) :
    (if Scalar.lt (-1.0e10 : ℝ) (Scalar.abs x) then Scalar.abs x else (-1.0e10 : ℝ)) = |x| := by
  have h : Scalar.lt (-1.0e10 : ℝ) (Scalar.abs x) = true := by
    rw [lt_real, abs_real]
    have := abs_nonneg x
    exact decide_eq_true (by norm_num; linarith)
  rw [if_pos h, abs_real]

/-- C87, one call: after `homogenize` on any object that satisfies the invariant, `inv_max` of every
Gauss point is the absolute trace of the linear answer `CL eps` to its own strain, whatever the
solver did and whatever the other Gauss points are; so a Gauss point without history was answered by
the linear law exactly when its `inv_max` is below `inv_tol`. -/
theorem C87_call (env : Env ℝ) (s : ObjFiles ℝ) (hs : s.obj.Ok) (r : Stepped ℝ)
    (h : step env s .homogenize = .ok r) :
    List.Forall₂ (fun g g' => g'.id = g.id ∧
      g'.invMax = |traceV s.obj.cfg.dim (matVec s.obj.cfg.nvoi s.obj.cfg.ctanLin g.macroStrain)| ∧
      (TakesLinearPath s.obj.cfg g ↔ g.intVarsN = none ∧ g'.invMax < s.obj.cfg.invTol))
      s.obj.gauss r.state.obj.gauss := by
  obtain ⟨w, h1, h2, -⟩ := step_gauss h
  rw [h2]
  refine (forall₂_both (homogenizeList_forall h1)
    (homogenizeList_max hs.cfg hs.work hs.gauss h1)).imp fun g g' ⟨hi, hm⟩ => ?_
  rw [max_real] at hm
  refine ⟨hi.id, hm, ?_⟩
  rw [hm]
  unfold TakesLinearPath
  refine and_congr_right fun _ => ?_
  rw [lt_real, abs_real, decide_eq_true_iff]

/-- C87: in every reachable state `inv_max` of a Gauss point is `-1e10` if `homogenize` has not been
called since its first strain was set, and otherwise the absolute trace of `CL eps`, where `eps` is
the strain that was set for it before the last `homogenize` call. -/
theorem C87_invMax (env : Env ℝ) (a : Args ℝ) (ha : a.Ok) (j : Junk ℝ) (calls : List (Call ℝ))
    (s : ObjFiles ℝ) (h : Reach env a j calls s) :
    ∀ g ∈ s.obj.gauss,
      (homStrain g.id calls = none → g.invMax = -1.0e10) ∧
      ∀ eps, homStrain g.id calls = some eps →
        g.invMax = |traceV s.obj.cfg.dim (matVec s.obj.cfg.nvoi s.obj.cfg.ctanLin eps)| := by
  induction calls using List.reverseRecOn generalizing s with
  | nil =>
    obtain ⟨f, h⟩ := h
    simp only [bind_ok_iff, run, pure_ok_iff] at h
    obtain ⟨s0, h0, rfl⟩ := h
    rw [(construct_fresh h0).gauss]
    intro g hg; cases hg
  | append_singleton l k ih =>
    obtain ⟨s1, r, h1, h2, rfl⟩ := reach_snoc.mp h
    have ih := ih s1 h1
    have hcfg := step_cfg h2
    have hg := step_gauss h2
    have hmap : ∀ {l : List (Call ℝ)} {s : ObjFiles ℝ}, Reach env a j l s →
        (s.obj.gauss.map Gp.id = (setIds l).reverse.dedup.reverse) ∧
        ∀ g ∈ s.obj.gauss, ∃ eps, lastStrain g.id l = some eps ∧
          ∀ v, v < s.obj.cfg.nvoi → g.macroStrain v = eps v := by
      intro l s hr
      obtain ⟨f, hr⟩ := hr
      simp only [bind_ok_iff] at hr
      obtain ⟨s0, h0, hr⟩ := hr
      obtain ⟨m1, -, m3⟩ := C39_map env l s0 s (construct_fresh h0) hr
      rw [run_cfg hr]
      exact ⟨m1, m3⟩
    have keep : (∀ id, homStrain id (l ++ [k]) = homStrain id l) →
        (∀ g' ∈ r.state.obj.gauss, ∃ g ∈ s1.obj.gauss, g.id = g'.id ∧ g'.invMax = g.invMax) →
        ∀ g' ∈ r.state.obj.gauss,
          (homStrain g'.id (l ++ [k]) = none → g'.invMax = -1.0e10) ∧
          ∀ eps, homStrain g'.id (l ++ [k]) = some eps → g'.invMax =
            |traceV r.state.obj.cfg.dim (matVec r.state.obj.cfg.nvoi r.state.obj.cfg.ctanLin eps)| := by
      intro e1 e2 g' hg'
      obtain ⟨g, hgm, hi, hm⟩ := e2 g' hg'
      rw [e1, hcfg, hm, ← hi]
      exact ih g hgm
    have hsame : (∀ id, homStrain id (l ++ [k]) = homStrain id l) →
        r.state.obj.gauss = s1.obj.gauss →
        ∀ g' ∈ r.state.obj.gauss,
          (homStrain g'.id (l ++ [k]) = none → g'.invMax = -1.0e10) ∧
          ∀ eps, homStrain g'.id (l ++ [k]) = some eps → g'.invMax =
            |traceV r.state.obj.cfg.dim (matVec r.state.obj.cfg.nvoi r.state.obj.cfg.ctanLin eps)| :=
      fun e1 e2 => keep e1 fun g' hg' => ⟨g', by rw [← e2]; exact hg', rfl, rfl⟩
    cases k with
    | setStrain id eps =>
      simp only at hg
      intro g' hg'
      rw [hg] at hg'
      have e1 : ∀ i, homStrain i (l ++ [.setStrain id eps]) = homStrain i l := fun i => by
        unfold homStrain; rw [untilHom_snoc]
      rw [e1]
      rcases setStrainList_max hg' with ⟨g, hgm, hi, hm⟩ | ⟨hi, hn, hm⟩
      · rw [hcfg, hm, ← hi]; exact ih g hgm
      · have hno : homStrain g'.id l = none := by
          rw [hi]
          unfold homStrain
          apply lastStrain_none
          rw [(hmap h1).1] at hn
          intro hc
          refine hn ?_
          simp only [List.mem_reverse, List.mem_dedup]
          unfold setIds at hc ⊢
          exact ((untilHom_prefix l).sublist.filterMap _).subset hc
        exact ⟨fun _ => hm, fun e he => by rw [hno] at he; cases he⟩
    | homogenize =>
      have hok := (reach_built ha h1).2
      intro g' hg'
      obtain ⟨g, hgm, hid, hm, -⟩ := forall₂_mem (C87_call env s1 hok r h2) hg'
      obtain ⟨eps, he, hv⟩ := (hmap h1).2 g hgm
      have e1 : homStrain g'.id (l ++ [.homogenize]) = some eps := by
        unfold homStrain
        rw [untilHom_snoc, hid]
        simp only
        rw [← he]
        simp [lastStrain]
      rw [e1, hcfg]
      refine ⟨fun h => (by cases h), fun e h => ?_⟩
      cases h
      rw [hm, matVec_congr _ hv]
    | updateVars =>
      refine keep (fun i => by unfold homStrain; rw [untilHom_snoc]) fun g' hg' => ?_
      obtain ⟨g, hgm, hu⟩ := forall₂_mem (updateList_forall hg) hg'
      exact ⟨g, hgm, hu.id.symm, hu.invMax⟩
    | getStress id buf => exact hsame (fun i => by unfold homStrain; rw [untilHom_snoc]) hg
    | getCtan id buf => exact hsame (fun i => by unfold homStrain; rw [untilHom_snoc]) hg
    | getNl id => exact hsame (fun i => by unfold homStrain; rw [untilHom_snoc]) hg
    | output t id => exact hsame (fun i => by unfold homStrain; rw [untilHom_snoc]) hg
    | writeInfo => exact hsame (fun i => by unfold homStrain; rw [untilHom_snoc]) hg

/-- Two Gauss points: 0 is set, evaluated, and set again; 5 is set after the evaluation. -/
example : ∃ s : ObjFiles ℝ,
    Reach exEnv exArgsP exJunk
      [.setStrain 0 exShear, .homogenize, .setStrain 0 (fun _ => 2), .setStrain 5 exShear] s ∧
    s.obj.gauss.map Gp.id = [0, 5] ∧
    homStrain 0 [.setStrain 0 exShear, .homogenize, .setStrain 0 (fun _ => 2), .setStrain 5 exShear]
      = some exShear ∧
    homStrain 5 [.setStrain 0 exShear, .homogenize, .setStrain 0 (fun _ => (2 : ℝ)),
      .setStrain 5 exShear] = none := by
  obtain ⟨s, hs⟩ := reach_exists exEnv_quick exArgsP_ok exJunk
    [.setStrain 0 exShear, .homogenize, .setStrain 0 (fun _ => 2), .setStrain 5 exShear]
  refine ⟨s, hs, ?_, rfl, rfl⟩
  obtain ⟨f, h⟩ := hs
  simp only [bind_ok_iff] at h
  obtain ⟨s0, h0, h⟩ := h
  exact (C39_map exEnv _ s0 s (construct_fresh h0) h).1

end Verif.Props
