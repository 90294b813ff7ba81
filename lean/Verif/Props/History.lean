import Verif.Lemmas.ThinRun
import Verif.Props.State

/-!
# Histories: properties C44, C46, C53
-/

namespace Verif.Props
open Verif Verif.Spec

/-! ### C53 -/

section
variable {α : Type} [Scalar α] {env : Env α}

/-- The material of element number `e` has no plasticity. -/
def ElasticElem (c : Cfg α) (e : Nat) : Prop :=
  (c.mats (if c.elemType.val e = 0 then 0 else 1)).plasticity = false

/-- C53, as far as it holds, for every scalar type, every sequence of calls and all contents of
malloc'ed memory: a committed internal variable of an element without plasticity is zero or what
`malloc` left in `vars_new` when the object was constructed. -/
theorem C53_partial {a : Args α} (ha : a.Ok) {j : Junk α} {calls : List (Call α)} {s : ObjFiles α}
    (h : Reach env a j calls s) {id : Int} {n : Buf α} (hn : committed s id = some n)
    {e gp v : Nat} (he : e < s.obj.cfg.nelem) (hg : gp < 8) (hv : v < 7)
    (hel : ElasticElem s.obj.cfg e) :
    n.val ((e * 8 + gp) * 7 + v) = 0 ∨
      n.val ((e * 8 + gp) * 7 + v) = j.varsNew ((e * 8 + gp) * 7 + v) := by
  have hk := reach_keeps ha h
  unfold committed at hn
  cases hf : findGp id s.obj.gauss with
  | none => rw [hf] at hn; cases hn
  | some g =>
    rw [hf] at hn
    refine (hk.gauss g (findGp_mem' hf)).comm n hn _ ?_ ?_
    · unfold Cfg.numIntVars; omega
    · rintro ⟨-, hp⟩
      have : ((e * 8 + gp) * 7 + v) / 56 = e := by omega
      rw [this] at hp
      unfold ElasticElem at hel
      unfold matOf at hp
      rw [hel] at hp
      cases hp

/-- C53 holds in a cell without plasticity, and in every two-dimensional cell: there are no committed
internal variables at all. -/
theorem C53_elastic {a : Args α} (ha : a.Ok) {j : Junk α} {calls : List (Call α)} {s : ObjFiles α}
    (h : Reach env a j calls s) (hel : a.dim = 2 ∨ ∀ e, e < s.obj.cfg.nelem → ElasticElem s.obj.cfg e)
    (id : Int) : committed s id = none := by
  have hk := reach_keeps ha h
  obtain ⟨hb, -⟩ := reach_built ha h
  have hdim : s.obj.cfg.dim = a.dim := by obtain ⟨et, ct, h⟩ := hb.eq; rw [h]; rfl
  unfold committed
  cases hf : findGp id s.obj.gauss with
  | none => rfl
  | some g =>
    by_contra hne
    obtain ⟨hd, ex, ey, ez, h1, h2, h3, h4⟩ := (hk.gauss g (findGp_mem' hf)).plastic hne
    rcases hel with h | h
    · omega
    · have := h (s.obj.cfg.el ex ey ez) (by rw [nelem3 hd]; exact gloElem3D_lt h1 h2 h3)
      unfold ElasticElem at this
      unfold matOf at h4
      rw [this] at h4
      cases h4

/-- With zeroed memory C53 holds. -/
theorem C53_zeroed {a : Args α} (ha : a.Ok) {j : Junk α} (hj : ∀ k, j.varsNew k = 0)
    {calls : List (Call α)} {s : ObjFiles α} (h : Reach env a j calls s) {id : Int} {n : Buf α}
    (hn : committed s id = some n) {e gp v : Nat} (he : e < s.obj.cfg.nelem) (hg : gp < 8)
    (hv : v < 7) (hel : ElasticElem s.obj.cfg e) : n.val ((e * 8 + gp) * 7 + v) = 0 := by
  rcases C53_partial ha h hn he hg hv hel with h | h
  · exact h
  · rw [h, hj]

/-- The thin cell of C53 with zeroed memory; element 1 is elastic. -/
example : ∃ (s : ObjFiles ℝ) (n : Buf ℝ), Reach exEnv exArgsT { exJunkT with varsNew := fun _ => 0 }
      [.setStrain 0 exShear, .homogenize] s ∧ (committed s 0 = some n → n.val ((1 * 8 + 0) * 7 + 3) = 0) := by
  obtain ⟨s, hs⟩ := reach_exists exEnv_quick exArgsT_ok { exJunkT with varsNew := fun _ => 0 }
    [.setStrain 0 exShear, .homogenize]
  have hT := (reach_built exArgsT_ok hs).1.isT
  refine ⟨s, ⟨0, fun _ => 0⟩, hs, fun hn => C53_zeroed exArgsT_ok (fun _ => rfl) hs hn
    (by rw [hT.nelem]; omega) (by omega) (by omega) ?_⟩
  have := hT.high
  unfold matOf at this
  unfold ElasticElem
  rw [this]

end

/-- The concrete cell after one evaluation at a shear strain: the trial values of the plastic element
are not zero, those of the elastic element are what `malloc` left. -/
theorem T_first {s : ObjFiles ℝ}
    (h : Reach exEnv exArgsT exJunkT [.setStrain 0 exShear, .homogenize] s) :
    ∃ g n b, s.obj.gauss = [g] ∧ g.id = 0 ∧ g.intVarsN = some n ∧ (∀ k, k < 112 → n.val k = 0) ∧
      g.intVarsK = some b ∧ b.val 3 ≠ 0 ∧ b.val 59 = 7 := by
  obtain ⟨s1, r, h1, h2, rfl⟩ := (reach_snoc (calls := [.setStrain 0 exShear])).mp h
  obtain ⟨hb1, ho1⟩ := reach_built exArgsT_ok h1
  have hk1 := reach_keeps exArgsT_ok h1
  obtain ⟨s0, r0, h0, h3, rfl⟩ := (reach_snoc (calls := [])).mp h1
  have hg0 : s0.obj.gauss = [] := by
    obtain ⟨f, h0⟩ := h0
    simp only [bind_ok_iff] at h0
    obtain ⟨s', h4, h5⟩ := h0
    simp only [run, pure_ok_iff] at h5
    subst h5
    exact (construct_fresh h4).gauss
  have hT := hb1.isT
  have hi : r0.state.obj.cfg.invTol = -1 := by
    obtain ⟨et, ct, h⟩ := hb1.eq; rw [h]; rfl
  have hg1 := step_gauss h3
  simp only [hg0, setStrainList] at hg1
  obtain ⟨w', out, g1, g', a1, a2, a3, a4, a5, a6, a7, a8⟩ :=
    T_hom (by decide) hT hi ho1 hg1 (fun b hb => by cases hb) h2
  have hv : s0.obj.cfg.nvoi = 6 := by
    unfold Cfg.nvoi
    rw [← step_cfg h3, hT.dim]; rfl
  obtain ⟨b1, b2, b3⟩ := T_shear hT a1 (fun v hv' => by simp [setFirst, hv, hv']) a3
  obtain ⟨c1, -, -, -, -, -, -, c2⟩ := storeVars_inv a4
  obtain ⟨n, b, d1, d2, d3⟩ := c2 b1
  have hn : ∀ k, n.val k = 0 := by
    rcases c1.fresh rfl with h | ⟨n', h, -, h'⟩
    · rw [h] at d1; cases d1
    · rw [h] at d1; cases d1; exact h'
  refine ⟨g', n, b, a5, a6.id, by rw [a7, d1], fun k _ => hn k, by rw [a8, d2], ?_, ?_⟩
  · rw [d3 3 (by rw [hT.num]; omega)]; exact b2
  · rw [d3 59 (by rw [hT.num]; omega), b3, a2]
    exact hk1.new 59 (hT.elastic (by omega) (by omega))

/-- C53 fails: after one evaluation and `update_vars`, in a cell of a plastic and an elastic element,
the committed variables of the elastic element are garbage. -/
theorem C53_fails : ∃ (env : Env ℝ) (a : Args ℝ) (j : Junk ℝ) (calls : List (Call ℝ)) (s : ObjFiles ℝ)
    (n : Buf ℝ) (e gp v : Nat), a.Ok ∧ a.Geom ∧ Reach env a j calls s ∧ committed s 0 = some n ∧
      e < s.obj.cfg.nelem ∧ gp < 8 ∧ v < 7 ∧ ElasticElem s.obj.cfg e ∧
      n.val ((e * 8 + gp) * 7 + v) ≠ 0 := by
  obtain ⟨s, hs⟩ := reach_exists exEnv_quick exArgsT_ok exJunkT
    ([.setStrain 0 exShear, .homogenize] ++ [.updateVars])
  obtain ⟨s1, r, h1, h2, h3⟩ := reach_snoc.mp hs
  obtain ⟨g, n, b, a1, a2, a3, a4, a5, a6, a7⟩ := T_first h1
  obtain ⟨hb, ho⟩ := reach_built exArgsT_ok hs
  have hT := hb.isT
  have hu := updateList_forall (step_gauss h2)
  rw [a1] at hu
  obtain ⟨g', l', hu1, hu2, hl⟩ := List.forall₂_cons_left_iff.mp hu
  obtain ⟨n', e1, -, e3⟩ := hu1.vars n a3
  refine ⟨exEnv, exArgsT, exJunkT, _, s, n', 1, 0, 3, exArgsT_ok, exArgsT_geom, hs, ?_, ?_, by omega,
    by omega, ?_, ?_⟩
  · unfold committed
    rw [← h3, hl]
    unfold findGp
    rw [if_pos (by rw [hu1.id, a2])]
    exact e1
  · rw [hT.nelem]; omega
  · have := hT.high
    unfold matOf at this
    unfold ElasticElem
    rw [this]
  · rw [e3 b a5 59 (by have := step_cfg h2; rw [← this, h3, hT.num]; omega), a7]
    norm_num

example : ∃ (s : ObjFiles ℝ) (n : Buf ℝ),
    Reach exEnv exArgsT exJunkT [.setStrain 0 exShear, .homogenize] s ∧ committed s 0 = some n ∧
    (n.val ((1 * 8 + 0) * 7 + 3) = 0 ∨ n.val ((1 * 8 + 0) * 7 + 3) = 7) := by
  obtain ⟨s, hs⟩ := reach_exists exEnv_quick exArgsT_ok exJunkT [.setStrain 0 exShear, .homogenize]
  obtain ⟨g, n, b, a1, a2, a3, -⟩ := T_first hs
  have hT := (reach_built exArgsT_ok hs).1.isT
  have hn : committed s 0 = some n := by
    unfold committed; rw [a1]; unfold findGp; rw [if_pos a2]; exact a3
  refine ⟨s, n, hs, hn, C53_partial exArgsT_ok hs hn (by rw [hT.nelem]; omega) (by omega) (by omega) ?_⟩
  have := hT.high
  unfold matOf at this
  unfold ElasticElem
  rw [this]

example (id : Int) : ∃ s, Reach exEnv exArgs2 exJunk exCalls s ∧ committed s id = none := by
  obtain ⟨s, hs⟩ := reach_exists exEnv_quick exArgs2_ok exJunk exCalls
  exact ⟨s, hs, C53_elastic exArgs2_ok hs (Or.inl rfl) id⟩

/-! ### C44 -/

section
variable {α : Type} [Scalar α] {env : Env α}

/-- The trial internal variables of Gauss point `id`. -/
def trialVars (s : ObjFiles α) (id : Int) : Option (Buf α) := (findGp id s.obj.gauss).bind Gp.intVarsK

/-- Value `k` of committed internal variables: zero when there are none. -/
def valueOf (n : Option (Buf α)) (k : Nat) : α :=
  match n with
  | none => 0
  | some b => b.val k

theorem find_setStrain' (nvoi : Nat) (id : Int) (eps : Nat → α) (junk : Gp α) (l : List (Gp α))
    {i : Int} {g : Gp α} (h : findGp i l = some g) :
    ∃ g', findGp i (setStrainList nvoi id eps junk l) = some g' ∧ g'.intVarsN = g.intVarsN ∧
      g'.intVarsK = g.intVarsK := by
  induction l with
  | nil => cases h
  | cons x l ih =>
    unfold setStrainList
    unfold findGp at h
    by_cases hx : x.id = id
    · rw [if_pos hx]
      unfold findGp
      simp only
      split at h
      · rename_i hi
        cases h
        exact ⟨_, if_pos hi, rfl, rfl⟩
      · rename_i hi
        exact ⟨g, by rw [if_neg hi]; exact h, rfl, rfl⟩
    · rw [if_neg hx]
      unfold findGp
      split at h
      · rename_i hi
        cases h
        exact ⟨_, if_pos hi, rfl, rfl⟩
      · rename_i hi
        rw [if_neg hi]
        exact ih h

theorem idle_run {calls : List (Call α)} {s s' : ObjFiles α}
    (hk : ∀ k ∈ calls, k ≠ .homogenize ∧ k ≠ .updateVars) (h : run env calls s = .ok s') {id : Int}
    {g : Gp α} (hg : findGp id s.obj.gauss = some g) :
    ∃ g', findGp id s'.obj.gauss = some g' ∧ g'.intVarsN = g.intVarsN ∧ g'.intVarsK = g.intVarsK := by
  induction calls generalizing s g with
  | nil => simp only [run, pure_ok_iff] at h; subst h; exact ⟨g, hg, rfl, rfl⟩
  | cons k l ih =>
    simp only [run, bind_ok_iff] at h
    obtain ⟨r, h1, h2⟩ := h
    have hs := step_gauss h1
    have : ∃ g', findGp id r.state.obj.gauss = some g' ∧ g'.intVarsN = g.intVarsN ∧
        g'.intVarsK = g.intVarsK := by
      cases k with
      | setStrain i eps =>
        simp only at hs
        rw [hs]
        exact find_setStrain' _ _ _ _ _ hg
      | homogenize => exact absurd rfl (hk _ (by simp)).1
      | updateVars => exact absurd rfl (hk _ (by simp)).2
      | getStress | getCtan | getNl | output | writeInfo =>
        simp only at hs
        rw [hs]
        exact ⟨g, hg, rfl, rfl⟩
    obtain ⟨g1, e1, e2, e3⟩ := this
    obtain ⟨g2, e4, e5, e6⟩ := ih (fun k h => hk k (by simp [h])) h2 e1
    exact ⟨g2, e4, by rw [e5, e2], by rw [e6, e3]⟩

/-- C44, as far as it holds, for every scalar type.  Take a `homogenize` call, then calls other than
`homogenize` and `update_vars` (new strains may be set), then `update_vars`.  A Gauss point that took
the linear path still has no internal variables.  For any other the cell was solved at its strain,
starting from its committed variables, and
* if that evaluation was flagged non-linear, the committed variables are now those it computed;
* if it was not, they are the trial variables from before the call, which belong to an earlier
  evaluation.
What is missing is the second case. -/
theorem C44_partial {s : ObjFiles α} (hs : s.obj.Ok) {r1 r3 : Stepped α} {s2 : ObjFiles α}
    (h1 : step env s .homogenize = .ok r1) {calls : List (Call α)}
    (hk : ∀ k ∈ calls, k ≠ .homogenize ∧ k ≠ .updateVars) (h2 : run env calls r1.state = .ok s2)
    (h3 : step env s2 .updateVars = .ok r3) {id : Int} {g : Gp α}
    (hg : findGp id s.obj.gauss = some g) :
    (TakesLinearPath s.obj.cfg g ∧ committed r3.state id = none) ∨
    ∃ w out, w.Ok s.obj.cfg ∧
      (∀ k, k < s.obj.cfg.numIntVars → w.varsOld.val k = valueOf (committed s id) k) ∧
      solveStrain env s.obj.cfg w g.macroStrain = .ok out ∧
      (out.nr.nl = true → ∃ n, committed r3.state id = some n ∧
        ∀ k, k < s.obj.cfg.numIntVars → n.val k = out.nr.work.varsNew.val k) ∧
      (out.nr.nl = false →
        (committed s id = none → committed r3.state id = none) ∧
        (committed s id ≠ none → ∃ n b, committed r3.state id = some n ∧ trialVars s id = some b ∧
          ∀ k, k < s.obj.cfg.numIntVars → n.val k = b.val k)) := by
  have hcom : committed s id = g.intVarsN := by unfold committed; rw [hg]; rfl
  have htri : trialVars s id = g.intVarsK := by unfold trialVars; rw [hg]; rfl
  obtain ⟨lw, h4, h5, -⟩ := step_gauss h1
  -- the Gauss point in the list
  have key : ∀ (l : List (Gp α)) (w : Work α) (lw : ListWork α), w.Ok s.obj.cfg →
      (∀ g ∈ l, g.Ok s.obj.cfg) → homogenizeList env s.obj.cfg l w = .ok lw →
      findGp id l = some g → ∃ w sg, w.Ok s.obj.cfg ∧ g.Ok s.obj.cfg ∧
        homogenizeGp env s.obj.cfg g w = .ok sg ∧ findGp id lw.gauss = some sg.gp := by
    intro l
    induction l with
    | nil => intro w lw _ _ _ h; cases h
    | cons x l ih =>
      intro w lw hw hl h hf
      simp only [homogenizeList, bind_ok_iff, pure_ok_iff] at h
      obtain ⟨sg, hsg, lw', hlw, rfl⟩ := h
      have hid := (homogenizeGp_step hsg).id
      unfold findGp at hf ⊢
      rw [hid]
      split at hf
      · rename_i hx
        cases hf
        exact ⟨w, sg, hw, hl _ (by simp), hsg, by simp [hx]⟩
      · rename_i hx
        obtain ⟨w', sg', a1, a2, a3, a4⟩ := ih sg.work lw'
          ((homogenizeGp_safe hs.cfg hw (hl _ (by simp))).post hsg).1
          (fun g h => hl g (by simp [h])) hlw hf
        exact ⟨w', sg', a1, a2, a3, by simp only [if_neg hx]; exact a4⟩
  obtain ⟨w, sg, hw, hgo, hsg, hf1⟩ := key _ _ _ hs.work hs.gauss h4 hg
  rw [← h5] at hf1
  obtain ⟨g2, hf2, e2, e3⟩ := idle_run hk h2 hf1
  have hcfg : s2.obj.cfg = s.obj.cfg := by rw [run_cfg h2, step_cfg h1]
  -- the commit
  have hu := updateList_forall (step_gauss h3)
  rcases find_forall₂ hu (fun a b h => h.id) id with ⟨h, -⟩ | ⟨g2', g3, f1, f2, hup⟩
  · rw [h] at hf2; cases hf2
  rw [hf2] at f1
  cases f1
  have hc3 : committed r3.state id = g3.intVarsN := by unfold committed; rw [f2]; rfl
  rw [hcfg] at hup
  obtain ⟨old, l, b1, b2, b3, b4⟩ := homogenizeGp_inv hs.cfg hw hgo hsg
  have hl := isLinear_eq b3
  rcases b4 with ⟨d1, d2, d3, d4, d5⟩ | ⟨-, r, g1, d1, -, -, -, d2, d3, d4, -⟩
  · refine Or.inl ⟨⟨d2, by rw [← hl, d1]⟩, ?_⟩
    rw [hc3, hup.lin (by rw [e2, d3]), e2, d3]
  · refine Or.inr ⟨{ w with varsOld := old, invMax := l.2 }, r,
      ⟨hw.u, hw.du, hw.b, hw.elemStress, hw.elemStrain, b1, hw.varsNew, hw.A2, hw.A3⟩, ?_, d1, ?_, ?_⟩
    · intro k hk
      show old.val k = _
      rw [b2 k hk, hcom]; rfl
    · intro hnl
      obtain ⟨-, -, -, -, -, -, -, c2⟩ := storeVars_inv d2
      obtain ⟨n, b, c3, c4, c5⟩ := c2 hnl
      obtain ⟨n', c6, -, c7⟩ := hup.vars n (by rw [e2, d3, c3])
      exact ⟨n', by rw [hc3, c6], fun k hk => by rw [c7 b (by rw [e3, d4, c4]) k hk, c5 k hk]⟩
    · intro hnl
      obtain ⟨-, -, -, -, -, -, c2, -⟩ := storeVars_inv d2
      have c2 := c2 hnl
      have hN : g2.intVarsN = g.intVarsN := by rw [e2, d3, c2]
      have hK : g2.intVarsK = g.intVarsK := by rw [e3, d4, c2]
      rw [hcom, htri]
      refine ⟨fun h => ?_, fun h => ?_⟩
      · rw [hc3, hup.lin (by rw [hN, h]), hN, h]
      · obtain ⟨n, hn⟩ := Option.ne_none_iff_exists'.mp h
        have hb := hgo.both
        rw [hn] at hb
        obtain ⟨b, hb⟩ := Option.isSome_iff_exists.mp (by rw [← hb]; rfl)
        obtain ⟨n', c6, -, c7⟩ := hup.vars n (by rw [hN, hn])
        exact ⟨n', b, by rw [hc3, c6], hb, fun k hk => c7 b (by rw [hK, hb]) k hk⟩

end

example : ∃ (s s2 : ObjFiles ℝ) (r1 r3 : Stepped ℝ) (g : Gp ℝ), s.obj.Ok ∧
    step exEnv s .homogenize = .ok r1 ∧ run exEnv [.setStrain 0 (fun _ => 2)] r1.state = .ok s2 ∧
    step exEnv s2 .updateVars = .ok r3 ∧ findGp 0 s.obj.gauss = some g := by
  obtain ⟨s4, h4⟩ := reach_exists exEnv_quick exArgsP_ok exJunk
    ([.setStrain 0 exShear] ++ [.homogenize] ++ [.setStrain 0 (fun _ => 2)] ++ [.updateVars])
  obtain ⟨s3, r4, h3, h5, rfl⟩ := reach_snoc.mp h4
  obtain ⟨s2, r3, h2, h6, rfl⟩ := reach_snoc.mp h3
  obtain ⟨s1, r2, h1, h7, rfl⟩ := reach_snoc.mp h2
  obtain ⟨s0, r1, h0, h8, rfl⟩ := (reach_snoc (calls := [])).mp h1
  have hg : s0.obj.gauss = [] := by
    obtain ⟨f, h0⟩ := h0
    simp only [bind_ok_iff] at h0
    obtain ⟨s', h4, h5⟩ := h0
    simp only [run, pure_ok_iff] at h5
    subst h5
    exact (construct_fresh h4).gauss
  have hg1 := step_gauss h8
  simp only [hg, setStrainList] at hg1
  obtain ⟨g, hgf⟩ : ∃ g, findGp 0 r1.state.obj.gauss = some g := by
    rw [hg1]; exact ⟨_, if_pos rfl⟩
  exact ⟨r1.state, r3.state, r2, r4, g, (reach_built exArgsP_ok h1).2, h7,
    by simp only [run, h6, M_bind_ok', M_pure], h5, hgf⟩

/-- C44 fails: a trial at a shear strain, then a last evaluation at zero strain, then `update_vars`:
the committed plastic strain is not zero, although the last evaluation computes zero. -/
theorem C44_fails : ∃ (a : Args ℝ) (j : Junk ℝ) (eps : Nat → ℝ) (s s' : ObjFiles ℝ) (n : Buf ℝ)
    (k : Nat), a.Ok ∧ a.Geom ∧
      Reach exEnv a j [.setStrain 0 eps, .homogenize, .setStrain 0 (fun _ => 0)] s ∧
      run exEnv [.homogenize, .updateVars] s = .ok s' ∧ committed s' 0 = some n ∧
      k < s.obj.cfg.numIntVars ∧ n.val k ≠ 0 ∧
      (∀ k, k < s.obj.cfg.numIntVars → valueOf (committed s 0) k = 0) ∧
      ∀ w out, w.Ok s.obj.cfg → (∀ k, k < s.obj.cfg.numIntVars → w.varsOld.val k = 0) →
        solveStrain exEnv s.obj.cfg w (fun _ => 0) = .ok out → out.nr.work.varsNew.val k = 0 := by
  obtain ⟨s5, hs5⟩ := reach_exists exEnv_quick exArgsT_ok exJunkT
    ([.setStrain 0 exShear, .homogenize] ++ [.setStrain 0 (fun _ => 0)] ++ [.homogenize] ++ [.updateVars])
  obtain ⟨s4, r5, h4, h5, rfl⟩ := reach_snoc.mp hs5
  obtain ⟨s3, r4, h3, h6, rfl⟩ := reach_snoc.mp h4
  obtain ⟨s2, r3, h2, h7, rfl⟩ := reach_snoc.mp h3
  obtain ⟨g, n, b, a1, a2, a3, a4, a5, a6, a7⟩ := T_first h2
  obtain ⟨hb3, ho3⟩ := reach_built exArgsT_ok h3
  have hT := hb3.isT
  have hi : r3.state.obj.cfg.invTol = -1 := by
    obtain ⟨et, ct, h⟩ := hb3.eq; rw [h]; rfl
  have hg3 := step_gauss h7
  simp only [a1, setStrainList, if_pos a2] at hg3
  have hv : s2.obj.cfg.nvoi = 6 := by
    unfold Cfg.nvoi
    rw [← step_cfg h7, hT.dim]; rfl
  obtain ⟨w', out, g1, g', b1, b2, b3, b4, b5, b6, b7, b8⟩ :=
    T_hom (by decide) hT hi ho3 hg3 (fun b hb => by rw [a3] at hb; cases hb; exact a4) h6
  obtain ⟨c1, -⟩ := T_null hT b1 (fun v hv' => by simp [setFirst, hv, hv']) b3
  obtain ⟨-, -, -, -, -, -, c2, -⟩ := storeVars_inv b4
  have c2 := c2 c1
  have hN : g'.intVarsN = some n := by rw [b7, c2]; exact a3
  have hK : g'.intVarsK = some b := by rw [b8, c2]; exact a5
  have hu := updateList_forall (step_gauss h5)
  rw [b5] at hu
  obtain ⟨g5, l', hu1, hu2, hl⟩ := List.forall₂_cons_left_iff.mp hu
  obtain ⟨n', e1, -, e3⟩ := hu1.vars n hN
  refine ⟨exArgsT, exJunkT, exShear, r3.state, r5.state, n', 3, exArgsT_ok, exArgsT_geom, h3, ?_, ?_, ?_,
    ?_, ?_, ?_⟩
  · simp only [run, h6, M_bind_ok', h5, M_pure]
  · unfold committed
    rw [hl]
    unfold findGp
    rw [if_pos (by rw [hu1.id, b6.id]; exact a2)]
    exact e1
  · rw [hT.num]; omega
  · rw [e3 b hK 3 (by rw [step_cfg h6, hT.num]; omega)]
    exact a6
  · intro k hk
    have : committed r3.state 0 = some n := by
      unfold committed
      rw [hg3]
      unfold findGp
      rw [if_pos a2]
      exact a3
    rw [this]
    exact a4 k (by rw [hT.num] at hk; exact hk)
  · intro w out hw hv hout
    obtain ⟨r', d1, d2⟩ := solveStrain_thin (env := exEnv) hT.ok hT.geom hT.dim hT.nx hw (by decide)
      (fun _ => 0)
    rw [hout] at d1
    cases d1
    exact (T_null hT (fun k hk => hv k (by rw [hT.num]; exact hk)) (fun _ _ => rfl) d2).2 3 (by omega)

/-! ### C46 -/

/-- Memory contents with the value `p` where `vars_old` holds a plastic shear strain. -/
noncomputable def exJunkP (p : ℝ) : Junk ℝ := { exJunk with varsOld := fun k => if k % 7 = 3 then p else 0 }

theorem setCol_at {α : Type} (n i : Nat) (hi : i < n) (f t : Nat → α) {m v : Nat} (hv : v < m) {q : Nat}
    (hq : q < n) : accum m (fun v t => fun k => if k = v * n + i then f v else t k) t (v * n + q)
      = if q = i then f v else t (v * n + q) := by
  induction m with
  | zero => omega
  | succ m ih =>
    rw [accum]
    by_cases hm : v = m
    · subst hm
      have : ∀ k, k ≤ v → accum k (fun v t => fun k => if k = v * n + i then f v else t k) t (v * n + q)
          = t (v * n + q) := by
        intro k hk
        induction k with
        | zero => rfl
        | succ k ih =>
          rw [accum]
          show (if v * n + q = k * n + i then _ else _) = _
          rw [if_neg, ih (by omega)]
          intro h
          have := (mul_add_inj hq hi h).1
          omega
      show (if v * n + q = v * n + i then _ else _) = _
      by_cases hqi : q = i
      · rw [if_pos (by omega), if_pos hqi]
      · rw [if_neg (by omega), if_neg hqi, this v (le_refl _)]
    · show (if v * n + q = m * n + i then _ else _) = _
      rw [if_neg, ih (by omega)]
      intro h
      exact hm (mul_add_inj hq hi h).1

/-- The linear tangent of the concrete cell depends on the memory that `malloc` returned. -/
theorem T_ctan {env : Env ℝ} (hf : 1 ≤ env.fuel) {p : ℝ} (h0 : 0 ≤ p) (h1 : p ≤ 1 / 100) {o : Obj ℝ}
    (h : construct env exArgsT (exJunkP p) = .ok o) : o.cfg.ctanLin 18 = -(2 * 10 ^ 8 * p) := by
  have hb := (construct_built exArgsT_ok h).1
  obtain ⟨et, A, hc, hw, hel, he⟩ := construct_eq env exArgsT_ok (exJunkP p)
  rw [he] at h
  cases hr : calcCtanLin env (mkCfg exArgsT (exJunkP p) et) (exJunkP p).ctanLin
      (startWork (mkCfg exArgsT (exJunkP p) et) (exJunkP p) A) with
  | error e => rw [hr] at h; cases h
  | ok r =>
    rw [hr] at h
    cases h
    show r.ctan 18 = _
    have hT : IsT (mkCfg exArgsT (exJunkP p) et) :=
      BuiltFrom.isT (j := exJunkP p) ⟨hc, ⟨et, _, rfl⟩, fun ex ey ez a b c d => hel ex ey ez a b c d⟩
    set c := mkCfg exArgsT (exJunkP p) et
    have hnv : c.nvoi = 6 := by unfold Cfg.nvoi; rw [hT.dim]; rfl
    unfold calcCtanLin at hr
    have := loop_ok_inv (fun i (s : CtanState ℝ) => s.work.Ok c ∧
      s.work.varsOld = ⟨c.numIntVars, (exJunkP p).varsOld⟩ ∧
      (0 < i → s.ctan 18 = -(2 * 10 ^ 8 * p))) hr ⟨hw, rfl, fun h => absurd h (by omega)⟩ ?_
    · exact this.2.2 (by rw [hnv]; omega)
    · intro i s s' hi hs hs'
      obtain ⟨a1, a2, a3⟩ := hs
      obtain ⟨out, b1, b2⟩ := solveStrain_thin (env := env) hT.ok hT.geom hT.dim hT.nx a1 hf
        (fun v => if v = i then 0 + 1.0e-8 else 0)
      rw [b1, M_bind_ok', M_pure] at hs'
      cases hs'
      refine ⟨b2.ok, by rw [b2.old, a2], fun _ => ?_⟩
      show setCol c.nvoi i (fun v => out.sig v / 1.0e-8) s.ctan 18 = _
      unfold setCol
      rw [hnv]
      rw [hnv] at hi
      rw [show (18 : Nat) = 3 * 6 + 0 by rfl, setCol_at 6 i hi _ _ (by omega) (by omega)]
      split
      · rename_i hi0
        subst hi0
        rw [b2.sig 3 (by omega)]
        have hcell : c.fe.cell = 1 ∧ c.fe.npe = 8 := by
          have hh : c.fe = fe3 2 3 2 1 1 1 := by
            rw [Cfg.fe_3 hT.dim]
            unfold Cfg.F3
            rw [hT.nx, hT.ny, hT.nz, hT.dx, hT.dy, hT.dz]
          rw [hh]
          constructor
          · simp [Fe.cell, fe3]
          · rfl
        have hel : c.fe.elems = {((0 : Nat), (0 : Nat), (0 : Nat)), ((0 : Nat), (1 : Nat), (0 : Nat))} := by
          ext e; rw [hT.mem]; simp
        have hlow : ∀ gp, gp < 8 → ptStress c s.work.varsOld 0 gp
            (fun v => if v = 0 then 0 + 1.0e-8 else 0) 3 = -(4 * p) := by
          intro gp hg
          unfold ptStress ptStep
          rw [hT.low, if_pos rfl]
          have e1 : epsPAt s.work.varsOld 0 gp = fun i => if i = 3 then p else 0 := by
            funext i
            unfold epsPAt intvarIx
            rw [a2]
            split
            · show (if (0 * 8 * 7 + gp * 7 + i) % 7 = 3 then p else 0) = _
              have : (0 * 8 * 7 + gp * 7 + i) % 7 = i ∨ 6 < i := by omega
              split <;> split <;> first | rfl | omega
            · rw [if_neg (by omega)]
          have e2 : alphaAt s.work.varsOld 0 gp = 0 := by
            unfold alphaAt intvarIx
            rw [a2]
            show (if (0 * 8 * 7 + gp * 7 + 6) % 7 = 3 then p else 0) = _
            rw [if_neg (by omega)]
          rw [e1, e2, plasticStep_elastic]
          · simp only [plasticStress, sigTrial_real]
            norm_num [dev]
          · rw [fTrial_real, sub_pos, not_lt]
            unfold yieldRadius stressNorm
            rw [show (1 : ℝ) + 1 * 0 = 1 by norm_num, mul_one]
            refine Real.sqrt_le_sqrt ?_
            simp only [sigTrial_real]
            norm_num [dev, tr]
            nlinarith
        have hhigh : ∀ gp, ptStress c s.work.varsOld 1 gp
            (fun v => if v = 0 then 0 + 1.0e-8 else 0) 3 = 0 := by
          intro gp
          unfold ptStress
          rw [hT.high]
          simp [hooke]
        unfold Fe.integral
        rw [hel, Finset.sum_pair (by simp), hcell.1, hcell.2]
        beta_reduce
        rw [hT.el0, hT.el1, hT.lx, hT.ly]
        simp only [hhigh]
        rw [Finset.sum_congr rfl fun gp hgp => by rw [hlow gp (Finset.mem_range.mp hgp)]]
        simp
        ring
      · exact a3 (by omega)

theorem T_reads {p : ℝ} (h0 : 0 ≤ p) (h1 : p ≤ 1 / 100) {s : ObjFiles ℝ}
    (h : Reach exEnv exArgsT (exJunkP p) [.setStrain 0 (fun _ => 0), .homogenize] s) :
    ∃ b, step exEnv s (.getCtan 0 (fun _ => 0)) = .ok ⟨s, .buf b⟩ ∧ b 18 = -(2 * 10 ^ 8 * p) := by
  have h' := h
  obtain ⟨f, hc⟩ := h
  simp only [bind_ok_iff] at hc
  obtain ⟨s0, hc, hrun⟩ := hc
  have hfr := construct_fresh hc
  have hct : s0.obj.cfg.ctanLin 18 = -(2 * 10 ^ 8 * p) := by
    simp only [constructF, bind_ok_iff, pure_ok_iff] at hc
    obtain ⟨o, ho, rfl⟩ := hc
    exact T_ctan (by decide) h0 h1 ho
  obtain ⟨hb, ho⟩ := reach_built exArgsT_ok h'
  have hT := hb.isT
  have hcfg := run_cfg hrun
  have hnv : s0.obj.cfg.nvoi = 6 := by unfold Cfg.nvoi; rw [← hcfg, hT.dim]; rfl
  obtain ⟨b1, b2, fl, -, e2, -, -, e3⟩ := C40_getters exEnv _ s0 s hfr hrun 0 (fun _ => 0)
  simp only [run, bind_ok_iff, pure_ok_iff] at hrun
  obtain ⟨r1, hs1, r2, hs2, rfl⟩ := hrun
  have hg1 := step_gauss hs1
  simp only [hfr.gauss, setStrainList] at hg1
  have hl := C41_linear exEnv r1.state r2 hs2
  rw [hg1] at hl
  obtain ⟨g', l', hl1, hl2, hl3⟩ := List.forall₂_cons_left_iff.mp hl
  refine ⟨b2, e2, ?_⟩
  have hc1 := step_cfg hs1
  have hlin := hl1 ⟨rfl, by
    have hz : ∀ i, matVec 6 r1.state.obj.cfg.ctanLin (fun v => if v < 6 then (0 : ℝ) else 7) i = 0 := by
      intro i; simp [matVec, List.range_succ]
    have hsf : (setFirst 6 (fun _ => (0 : ℝ)) (exEnv.gpJunk s0.obj.work.tick).macroStrain)
        = fun v => if v < 6 then (0 : ℝ) else 7 := rfl
    have hit : r1.state.obj.cfg.invTol = 1 := by
      obtain ⟨et, ct, hh⟩ := hb.eq
      rw [step_cfg hs2] at hh
      rw [hh]; rfl
    rw [hc1, hnv, hsf, ← hc1]
    unfold traceV
    rw [hz 0, hz 1, hz 2, hit, lt_real, abs_real]
    simp⟩
  obtain ⟨-, e4, -⟩ := e3 g' (by rw [hl3]; simp) hlin.1
  rw [e4 18, hnv, if_pos (by omega), hlin.2.2.2.1 18 (by rw [hc1, hnv]; omega), hc1]
  exact hct

/-- C46 fails: two objects constructed with the same arguments, whose memory differs only in what
`malloc` returned for `vars_old`, return different tangents. -/
theorem C46_fails : ∃ (env : Env ℝ) (a : Args ℝ) (j : Junk ℝ) (vo : Nat → ℝ) (s s' : ObjFiles ℝ)
    (b b' : Nat → ℝ), a.Ok ∧ a.Geom ∧
      Reach env a j [.setStrain 0 (fun _ => 0), .homogenize] s ∧
      Reach env a { j with varsOld := vo } [.setStrain 0 (fun _ => 0), .homogenize] s' ∧
      step env s (.getCtan 0 (fun _ => 0)) = .ok ⟨s, .buf b⟩ ∧
      step env s' (.getCtan 0 (fun _ => 0)) = .ok ⟨s', .buf b'⟩ ∧ b 18 ≠ b' 18 := by
  obtain ⟨s, hs⟩ := reach_exists exEnv_quick exArgsT_ok (exJunkP 0)
    [.setStrain 0 (fun _ => 0), .homogenize]
  obtain ⟨s', hs'⟩ := reach_exists exEnv_quick exArgsT_ok (exJunkP (1 / 100))
    [.setStrain 0 (fun _ => 0), .homogenize]
  obtain ⟨b, h1, h2⟩ := T_reads (le_refl _) (by norm_num) hs
  obtain ⟨b', h1', h2'⟩ := T_reads (by norm_num) (le_refl _) hs'
  refine ⟨exEnv, exArgsT, exJunkP 0, (exJunkP (1 / 100)).varsOld, s, s', b, b', exArgsT_ok, exArgsT_geom,
    hs, hs', h1, h1', ?_⟩
  rw [h2, h2']
  norm_num

/-- C46, as far as it holds, for every scalar type: with material types 0, 1 or 2, what the
constructor derives from its arguments does not depend on the memory it got.  Any two objects built
from the same arguments have the same grid, materials and element types, after any calls.  Missing:
the tolerance, `ctan_lin` and the start of the solver, which do depend on it. -/
theorem C46_partial {α : Type} [Scalar α] {env env' : Env α} {a : Args α} (ha : a.Ok)
    (ht : ∀ i, i < 2 → a.matTypes i = 0 ∨ a.matTypes i = 1 ∨ a.matTypes i = 2) {j j' : Junk α}
    {calls calls' : List (Call α)} {s s' : ObjFiles α} (h : Reach env a j calls s)
    (h' : Reach env' a j' calls' s') :
    s'.obj.cfg = { s.obj.cfg with invTol := s'.obj.cfg.invTol, mats := s'.obj.cfg.mats,
                                  elemType := s'.obj.cfg.elemType, ctanLin := s'.obj.cfg.ctanLin } ∧
    (∀ i, i < 2 → s'.obj.cfg.mats i = s.obj.cfg.mats i) ∧
    s'.obj.cfg.elemType.size = s.obj.cfg.elemType.size ∧
    ∀ e, e < s.obj.cfg.nelem → s'.obj.cfg.elemType.val e = s.obj.cfg.elemType.val e := by
  obtain ⟨hb, -⟩ := reach_built ha h
  obtain ⟨hb', -⟩ := reach_built ha h'
  obtain ⟨et, ct, e1⟩ := hb.eq
  obtain ⟨et', ct', e1'⟩ := hb'.eq
  have hcfg : s'.obj.cfg = { s.obj.cfg with
      invTol := s'.obj.cfg.invTol, mats := s'.obj.cfg.mats, elemType := s'.obj.cfg.elemType,
      ctanLin := s'.obj.cfg.ctanLin } := by
    rw [e1, e1']; rfl
  refine ⟨hcfg, fun i hi => ?_, ?_, fun e he => ?_⟩
  · rw [e1, e1']
    simp only [mkCfg, hi, if_true, mkMaterial]
    rcases ht i hi with h | h | h <;> simp [h]
  · have h1 := hb.ok.elem
    have h2 := hb'.ok.elem
    rw [h1, h2]
    rw [e1, e1']; rfl
  · have hel : ∀ ex ey ez, elemTypeOf s'.obj.cfg ex ey ez = elemTypeOf s.obj.cfg ex ey ez := by
      intro ex ey ez; rw [e1, e1']; rfl
    have hnx : s'.obj.cfg.nx = s.obj.cfg.nx := by rw [e1, e1']; rfl
    have hny : s'.obj.cfg.ny = s.obj.cfg.ny := by rw [e1, e1']; rfl
    have hnz : s'.obj.cfg.nz = s.obj.cfg.nz := by rw [e1, e1']; rfl
    have hd : s'.obj.cfg.dim = s.obj.cfg.dim := by rw [e1, e1']; rfl
    rcases hb.ok.dim with h2 | h3
    · obtain ⟨ex, ey, ez, h1, h4, h5, rfl⟩ := gloElem_surj (nx := s.obj.cfg.nx) (ny := s.obj.cfg.ny)
        (nz := 2) (e := e) (by unfold Cfg.nelem at he; rw [if_pos h2] at he; omega)
      obtain rfl : ez = 0 := by omega
      rw [hb.elem ex ey 0 h1 h4 (fun _ => rfl) (fun h => by omega), ← hel, ← hnx, ← hny]
      exact hb'.elem ex ey 0 (by omega) (by omega) (fun _ => rfl) (fun h => by omega)
    · obtain ⟨ex, ey, ez, h1, h4, h5, rfl⟩ := gloElem_surj (nx := s.obj.cfg.nx) (ny := s.obj.cfg.ny)
        (nz := s.obj.cfg.nz) (e := e) (by rw [nelem3 h3] at he; exact he)
      rw [hb.elem ex ey ez h1 h4 (fun h => by omega) (fun h => h5), ← hel, ← hnx, ← hny]
      exact hb'.elem ex ey ez (by omega) (by omega) (fun h => by omega) (fun h => by omega)

example : ∃ s s', Reach exEnv exArgsT (exJunkP 0) [] s ∧ Reach exEnv exArgsT exJunkT exCalls s' ∧
    ∀ e, e < 2 → s'.obj.cfg.elemType.val e = s.obj.cfg.elemType.val e := by
  obtain ⟨s, hs⟩ := reach_exists exEnv_quick exArgsT_ok (exJunkP 0) []
  obtain ⟨s', hs'⟩ := reach_exists exEnv_quick exArgsT_ok exJunkT exCalls
  refine ⟨s, s', hs, hs', ?_⟩
  have := (C46_partial exArgsT_ok (fun i _ => ?_) hs hs').2.2.2
  · rwa [(reach_built exArgsT_ok hs).1.isT.nelem] at this
  · by_cases h : i = 1 <;> simp [exArgsT, h]

end Verif.Props
