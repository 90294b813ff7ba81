import Verif.Lemmas.Built

/-!
# Internal variables of elastic elements along a run
-/

namespace Verif

variable {α : Type} [Scalar α] {env : Env α} {c : Cfg α}

theorem calcFields_same (hc : c.Ok) {w w' : Work α} (hw : w.Ok c) (h : calcFields c w = .ok w') :
    SameElastic c w.varsNew w'.varsNew := by
  rcases hc.dim with hd | hd
  · obtain ⟨e, s, h1, -⟩ := calcFields2_eq hc hd hw
    rw [h1] at h; cases h; exact SameElastic.rfl'
  · obtain ⟨e, s, h1, -⟩ := calcFields3_eq hc hd hw
    rw [h1] at h; cases h
    exact fun k hk => (allPut_puts hd w.varsNew k).2 hk

/-- Some element has a plastic material, in three dimensions. -/
def HasPlastic (c : Cfg α) : Prop :=
  c.dim = 3 ∧ ∃ ex ey ez, ex < c.nx - 1 ∧ ey < c.ny - 1 ∧ ez < c.nz - 1 ∧
    (matOf c (c.el ex ey ez)).plasticity = true

theorem rhs_nl_plastic (hc : c.Ok) {w : Work α} (hw : w.Ok c) {r : RhsOut α}
    (h : assemblyRhs c w = .ok r) (hn : r.nl = true) : HasPlastic c := by
  rcases hc.dim with hd | hd
  · have hN : c.nn * c.dim = c.nx * c.ny * 2 := by rw [hc.nn2 hd, hd]
    rw [assemblyRhs2_eq hc hd (hw.u2 hc hd) (by rw [hw.b, hN])] at h
    cases h; cases hn
  · have hN : c.nn * c.dim = c.nx * c.ny * c.nz * 3 := by rw [hd]; rfl
    rw [assemblyRhs3_eq hc hd (hw.u3 hd) (by rw [hw.b, hN]) hw.varsOld hw.varsNew] at h
    cases h
    obtain ⟨ex, h1, ey, h2, ez, h3, h4⟩ := rhsNl_iff.mp hn
    refine ⟨hd, ex, ey, ez, h1, h2, h3, ?_⟩
    unfold gpNl nl3 at h4
    split at h4
    · assumption
    · cases h4

theorem nrLoop_nl (hc : c.Ok) (fuel : Nat) {w : Work α} (hw : w.Ok c) {r : NrOut α}
    (h : nrLoop env c fuel w = .ok r) (hn : r.nl = true) : HasPlastic c := by
  induction fuel generalizing w with
  | zero => cases h
  | succ fuel ih =>
    obtain ⟨b, vn, nm, nl, h1, h2⟩ := rhs_ok hc hw
    rw [nrLoop, h1, M_bind_ok'] at h
    simp only at h
    split at h
    · rw [pure_ok_iff] at h; subst h
      exact rhs_nl_plastic hc hw h1 hn
    · obtain ⟨A, vn', du, -, -, h3, h4⟩ := nrCorrect_eq (env := env) hc h2.ok
      rw [h3, M_bind_ok'] at h
      simp only at h
      split at h
      · cases h
      · split at h
        · exact ih ((h2.trans h4).tick' (t := w.tick + 1 + 1) (by show w.tick + 1 ≤ _; omega)).ok h
        · rw [pure_ok_iff] at h; subst h
          exact rhs_nl_plastic hc hw h1 hn

theorem solveStrain_nl (hc : c.Ok) {w : Work α} (hw : w.Ok c) {eps : Nat → α} {r : PertOut α}
    (h : solveStrain env c w eps = .ok r) (hn : r.nr.nl = true) : HasPlastic c := by
  obtain ⟨u, h1, h2⟩ := setDispl_ok hc hw eps
  unfold solveStrain at h
  rw [h1, M_bind_ok'] at h
  simp only [bind_ok_iff, pure_ok_iff] at h
  obtain ⟨r1, h3, a, -, rfl⟩ := h
  exact nrLoop_nl hc env.fuel h2.ok h3 hn

/-- What a Gauss point stores for elastic elements: `v` as trial values, zero or `v` as committed
ones. -/
structure Gp.Keeps (c : Cfg α) (v : Nat → α) (g : Gp α) : Prop where
  trial : ∀ b, g.intVarsK = some b → ∀ k, k < c.numIntVars → ¬ PlasticVar c k → b.val k = v k
  comm : ∀ b, g.intVarsN = some b → ∀ k, k < c.numIntVars → ¬ PlasticVar c k →
    b.val k = 0 ∨ b.val k = v k
  plastic : g.intVarsN ≠ none → HasPlastic c

/-- The same for an object, with `v` in `vars_new`. -/
structure Obj.Keeps (v : Nat → α) (o : Obj α) : Prop where
  new : ∀ k, ¬ PlasticVar o.cfg k → o.work.varsNew.val k = v k
  gauss : ∀ g ∈ o.gauss, g.Keeps o.cfg v

/-- `homogenize` for one Gauss point, opened: the linear branch, or an evaluation. -/
theorem homogenizeGp_inv (hc : c.Ok) {g : Gp α} {w : Work α} {s : GpWork α} (hw : w.Ok c)
    (hg : g.Ok c) (h : homogenizeGp env c g w = .ok s) :
    ∃ (old : Buf α) (l : Bool × α), old.size = c.numIntVars ∧
      (∀ k, k < c.numIntVars →
        old.val k = match g.intVarsN with | none => 0 | some b => b.val k) ∧
      isLinear c (-1.0e10) g.macroStrain = .ok l ∧
      ((l.1 = true ∧ g.intVarsN = none ∧ s.gp.intVarsN = none ∧ s.gp.intVarsK = g.intVarsK ∧
          s.work = { w with varsOld := old, invMax := l.2 }) ∨
       (¬ (l.1 = true ∧ g.intVarsN = none) ∧ ∃ (r : PertOut α) (g1 : Gp α),
          solveStrain env c { w with varsOld := old, invMax := l.2 } g.macroStrain = .ok r ∧
          Frame c { w with varsOld := old, invMax := l.2 } r.nr.work ∧
          Frame c { w with varsOld := old, invMax := l.2 } s.work ∧
          (r.nr.nl = true → HasPlastic c) ∧
          storeVars c r.nr.nl r.nr.work.varsNew
            { g with macroStress := setFirst c.nvoi r.sig g.macroStress } = .ok g1 ∧
          s.gp.intVarsN = g1.intVarsN ∧ s.gp.intVarsK = g1.intVarsK ∧
          s.gp.macroStress = setFirst c.nvoi r.sig g.macroStress)) := by
  obtain ⟨old, h1, h2⟩ := loadVars_ok hg hw.varsOld
  obtain ⟨l, h3⟩ := isLinear_ok hc (-1.0e10) g.macroStrain
  have hw' : Work.Ok c { w with varsOld := old, invMax := l.2 } :=
    ⟨hw.u, hw.du, hw.b, hw.elemStress, hw.elemStrain, h2, hw.varsNew, hw.A2, hw.A3⟩
  unfold homogenizeGp at h
  rw [h1, M_bind_ok', h3, M_bind_ok'] at h
  simp only at h
  have hold : ∀ k, k < c.numIntVars →
      old.val k = match g.intVarsN with | none => 0 | some b => b.val k := by
    intro k hk
    unfold loadVars at h1
    split at h1
    · rename_i hb
      rw [zeroInto_eq (by rw [hw.varsOld])] at h1
      cases h1; simp [hk, hb]
    · rename_i b hb
      rw [copyInto_eq (by rw [hg.n _ hb]) (by rw [hw.varsOld])] at h1
      cases h1; simp [hk, hb]
  refine ⟨old, l, h2, hold, h3, ?_⟩
  split at h
  · rename_i hl
    rw [pure_ok_iff] at h
    subst h
    have hn : g.intVarsN = none := by simpa using hl.2
    exact Or.inl ⟨hl.1, hn, hn, rfl, rfl⟩
  · rename_i hl
    rw [bind_ok_iff] at h
    obtain ⟨s1, h4, h5⟩ := h
    rw [pure_ok_iff] at h5
    subst h5
    obtain ⟨r, g1, h6, h7, -, -, h8, h9, h10⟩ := solveGp_inv h4
    refine Or.inr ⟨fun h => hl ⟨h.1, by rw [h.2]; rfl⟩, r, g1, h6, (solveStrain_safe hc hw' _).post h6,
      ((solveGp_safe hc hw' hg).post h4).1, fun hn => solveStrain_nl hc hw' h6 hn, h7, h8, h9, h10⟩

theorem homogenizeGp_keeps (hc : c.Ok) {g : Gp α} {w : Work α} {s : GpWork α} (hw : w.Ok c)
    (hg : g.Ok c) {v : Nat → α} (hk : g.Keeps c v) (hv : ∀ k, ¬ PlasticVar c k → w.varsNew.val k = v k)
    (h : homogenizeGp env c g w = .ok s) :
    s.gp.Keeps c v ∧ ∀ k, ¬ PlasticVar c k → s.work.varsNew.val k = v k := by
  obtain ⟨old, l, -, -, -, h⟩ := homogenizeGp_inv hc hw hg h
  rcases h with ⟨-, h1, h2, h3, h4⟩ | ⟨-, r, g1, -, hr, hs, hnl', hst, hn, hkk, -⟩
  · refine ⟨⟨fun b hb => hk.trial b (h3 ▸ hb), fun b hb => ?_, fun hb => ?_⟩, fun k hk => ?_⟩
    · rw [h2] at hb; cases hb
    · exact absurd h2 hb
    · rw [h4]; exact hv k hk
  · obtain ⟨h1, -, -, -, -, -, h2, h3⟩ := storeVars_inv hst
    refine ⟨⟨fun b hb k hkn hp => ?_, fun b hb k hkn hp => ?_, fun hb => ?_⟩, fun k hk => ?_⟩
    · cases hnl : r.nr.nl with
      | false =>
        rw [hkk, h2 hnl] at hb
        exact hk.trial b hb k hkn hp
      | true =>
        obtain ⟨n, k', -, h4, h5⟩ := h3 hnl
        rw [hkk, h4] at hb
        cases hb
        rw [h5 k hkn, hr.same k hp]
        exact hv k hp
    · cases hN : g.intVarsN with
      | some n =>
        have := h1.vars n hN
        rw [hn, this] at hb
        cases hb
        exact hk.comm _ hN k hkn hp
      | none =>
        rcases h1.fresh hN with h | ⟨n, h, -, h0⟩
        · rw [hn, h] at hb; cases hb
        · rw [hn, h] at hb; cases hb
          exact Or.inl (h0 k)
    · cases hnl : r.nr.nl with
      | true => exact hnl' hnl
      | false =>
        rw [hn, h2 hnl] at hb
        exact hk.plastic hb
    · rw [hs.same k hk]
      exact hv k hk

theorem homogenizeList_keeps (hc : c.Ok) {l : List (Gp α)} {w : Work α} {r : ListWork α}
    (hw : w.Ok c) (hg : ∀ g ∈ l, g.Ok c) {v : Nat → α} (hk : ∀ g ∈ l, g.Keeps c v)
    (hv : ∀ k, ¬ PlasticVar c k → w.varsNew.val k = v k)
    (h : homogenizeList env c l w = .ok r) :
    (∀ g ∈ r.gauss, g.Keeps c v) ∧ ∀ k, ¬ PlasticVar c k → r.work.varsNew.val k = v k := by
  induction l generalizing w r with
  | nil =>
    simp only [homogenizeList, pure_ok_iff] at h
    subst h
    exact ⟨by simp, hv⟩
  | cons g l ih =>
    simp only [homogenizeList, bind_ok_iff, pure_ok_iff] at h
    obtain ⟨s, hs, r1, hr, rfl⟩ := h
    have hs' := (homogenizeGp_safe hc hw (hg g (by simp))).post hs
    obtain ⟨h1, h2⟩ := homogenizeGp_keeps hc hw (hg g (by simp)) (hk g (by simp)) hv hs
    obtain ⟨h3, h4⟩ := ih hs'.1 (fun g h => hg g (by simp [h])) (fun g h => hk g (by simp [h])) h2 hr
    refine ⟨fun g' hg' => ?_, h4⟩
    rcases List.mem_cons.mp hg' with rfl | h
    · exact h1
    · exact h3 g' h

theorem setStrainList_keeps {v : Nat → α} {l : List (Gp α)} (hk : ∀ g ∈ l, g.Keeps c v) (nvoi : Nat)
    (id : Int) (eps : Nat → α) (junk : Gp α) : ∀ g ∈ setStrainList nvoi id eps junk l, g.Keeps c v := by
  induction l with
  | nil =>
    intro g hg
    simp only [setStrainList, List.mem_singleton] at hg
    subst hg
    exact ⟨fun b hb => (by cases hb), fun b hb => (by cases hb), fun h => absurd rfl h⟩
  | cons a l ih =>
    intro g hg
    unfold setStrainList at hg
    have ha := hk a (by simp)
    split at hg
    · rcases List.mem_cons.mp hg with rfl | h
      · exact ⟨ha.trial, ha.comm, ha.plastic⟩
      · exact hk g (by simp [h])
    · rcases List.mem_cons.mp hg with rfl | h
      · exact ha
      · exact ih (fun g h => hk g (by simp [h])) g h

theorem updateList_keeps {v : Nat → α} {l l' : List (Gp α)} (hg : ∀ g ∈ l, g.Ok c)
    (hk : ∀ g ∈ l, g.Keeps c v) (h : updateList c l = .ok l') : ∀ g ∈ l', g.Keeps c v := by
  induction l generalizing l' with
  | nil => simp only [updateList, pure_ok_iff] at h; subst h; simp
  | cons a l ih =>
    simp only [updateList, bind_ok_iff, pure_ok_iff] at h
    obtain ⟨g1, h1, r, h2, rfl⟩ := h
    have ha := hk a (by simp)
    have hu := updateGp_inv h1
    intro g' hg'
    rcases List.mem_cons.mp hg' with rfl | h
    · refine ⟨fun b hb => ha.trial b (hu.trial ▸ hb), fun b hb k hkn hp => ?_, fun hb => ?_⟩
      · cases hN : a.intVarsN with
        | none => rw [hu.lin hN, hN] at hb; cases hb
        | some n =>
          obtain ⟨n', h3, -, h4⟩ := hu.vars n hN
          rw [h3] at hb
          cases hb
          have hb := (hg a (by simp)).both
          rw [hN] at hb
          cases hK : a.intVarsK with
          | none => rw [hK] at hb; cases hb
          | some k' => rw [h4 k' hK k hkn]; exact Or.inr (ha.trial k' hK k hkn hp)
      · exact ha.plastic fun hN => hb (by rw [hu.lin hN, hN])
    · exact ih (fun g h => hg g (by simp [h])) (fun g h => hk g (by simp [h])) h2 g' h

theorem findGp_mem' {id : Int} {l : List (Gp α)} {g : Gp α} (h : findGp id l = some g) : g ∈ l := by
  induction l with
  | nil => cases h
  | cons x l ih =>
    unfold findGp at h
    split at h
    · cases h; simp
    · exact List.mem_cons_of_mem _ (ih h)

theorem output_keeps {s s' : ObjFiles α} (hs : s.obj.Ok) {v : Nat → α} (hk : s.obj.Keeps v)
    {t id : Int} (h : output env s t id = .ok s') : s'.obj.Keeps v := by
  unfold output at h
  split at h
  · rw [pure_ok_iff] at h; subst h; exact hk
  · rename_i g hg
    have hmem := findGp_mem' hg
    obtain ⟨old, h1, h2⟩ := loadVars_ok (hs.gauss g hmem) hs.work.varsOld
    have hw : Work.Ok s.obj.cfg { s.obj.work with varsOld := old } :=
      ⟨hs.work.u, hs.work.du, hs.work.b, hs.work.elemStress, hs.work.elemStrain, h2,
        hs.work.varsNew, hs.work.A2, hs.work.A3⟩
    obtain ⟨u, h3, h4⟩ := setDispl_ok hs.cfg hw g.macroStrain
    simp only at h
    rw [h1, M_bind_ok', h3, M_bind_ok'] at h
    simp only [bind_ok_iff, pure_ok_iff] at h
    obtain ⟨r, hr, w', hw', t', -, rfl⟩ := h
    have hr' := (newtonRaphson_safe hs.cfg h4.ok).post hr
    refine ⟨fun k hp => ?_, hk.gauss⟩
    show w'.varsNew.val k = v k
    rw [calcFields_same hs.cfg hr'.ok hw' k hp, hr'.same k hp, h4.same k hp]
    exact hk.new k hp

theorem step_keeps {s : ObjFiles α} (hs : s.obj.Ok) {v : Nat → α} (hk : s.obj.Keeps v) {k : Call α}
    {r : Stepped α} (h : step env s k = .ok r) : r.state.obj.Keeps v := by
  cases k with
  | setStrain id eps =>
    simp only [step, pure_ok_iff] at h; subst h
    exact ⟨hk.new, setStrainList_keeps hk.gauss _ _ _ _⟩
  | homogenize =>
    simp only [step, homogenize, bind_ok_iff, pure_ok_iff] at h
    obtain ⟨o, ⟨r1, h1, rfl⟩, rfl⟩ := h
    obtain ⟨h2, h3⟩ := homogenizeList_keeps hs.cfg hs.work hs.gauss hk.gauss hk.new h1
    exact ⟨h3, h2⟩
  | getStress id buf =>
    simp only [step, pure_ok_iff] at h; subst h
    show (getMacroStress s.obj id buf).1.Keeps v
    unfold getMacroStress; split <;> exact hk
  | getCtan id buf =>
    simp only [step, pure_ok_iff] at h; subst h
    show (getMacroCtan s.obj id buf).1.Keeps v
    unfold getMacroCtan; split <;> exact hk
  | getNl id =>
    simp only [step, pure_ok_iff] at h; subst h
    show (getNlFlag s.obj id).1.Keeps v
    unfold getNlFlag; split <;> exact hk
  | updateVars =>
    simp only [step, updateVars, bind_ok_iff, pure_ok_iff] at h
    obtain ⟨o, ⟨r1, h1, rfl⟩, rfl⟩ := h
    exact ⟨hk.new, updateList_keeps hs.gauss hk.gauss h1⟩
  | output t id =>
    simp only [step, bind_ok_iff, pure_ok_iff] at h
    obtain ⟨r1, h1, rfl⟩ := h
    exact output_keeps hs hk h1
  | writeInfo =>
    simp only [step, writeInfoFiles, bind_ok_iff, pure_ok_iff] at h
    obtain ⟨r1, ⟨v, h1, rfl⟩, rfl⟩ := h
    exact ⟨hk.new, hk.gauss⟩

theorem run_keeps {calls : List (Call α)} {s s' : ObjFiles α} (hs : s.obj.Ok) {v : Nat → α}
    (hk : s.obj.Keeps v) (h : run env calls s = .ok s') : s'.obj.Keeps v := by
  induction calls generalizing s with
  | nil => simp only [run, pure_ok_iff] at h; subst h; exact hk
  | cons k l ih =>
    simp only [run, bind_ok_iff] at h
    obtain ⟨r, h1, h2⟩ := h
    exact ih ((step_sane hs k).post h1) (step_keeps hs hk h1) h2

theorem construct_keeps {a : Args α} (ha : a.Ok) {j : Junk α} {o : Obj α}
    (h : construct env a j = .ok o) : o.Keeps j.varsNew := by
  obtain ⟨et, A, hc, hw, -, h1⟩ := construct_eq env ha j
  rw [h1] at h
  cases hr : calcCtanLin env (mkCfg a j et) j.ctanLin (startWork (mkCfg a j et) j A) with
  | error e => rw [hr] at h; cases h
  | ok r =>
    have := (calcCtanLin_safe hc hw j.ctanLin).post hr
    rw [hr] at h
    cases h
    exact ⟨fun k hk => this.same k hk, by simp⟩

theorem reach_keeps {a : Args α} (ha : a.Ok) {j : Junk α} {calls : List (Call α)}
    {s : ObjFiles α} (h : Reach env a j calls s) : s.obj.Keeps j.varsNew := by
  obtain ⟨f, h⟩ := h
  simp only [bind_ok_iff, constructF, pure_ok_iff] at h
  obtain ⟨s0, ⟨o, h1, rfl⟩, h3⟩ := h
  exact run_keeps (s := { obj := o, files := ctorFiles o.cfg f }) (construct_built ha h1).2
    (construct_keeps ha h1) h3

theorem reach_snoc {a : Args α} {j : Junk α} {calls : List (Call α)} {k : Call α} {s : ObjFiles α} :
    Reach env a j (calls ++ [k]) s ↔
      ∃ s1 r, Reach env a j calls s1 ∧ step env s1 k = .ok r ∧ r.state = s := by
  unfold Reach
  constructor
  · rintro ⟨f, h⟩
    rw [bind_ok_iff] at h
    obtain ⟨s0, h0, h⟩ := h
    obtain ⟨s1, r, h1, h2, h3⟩ := run_snoc.mp h
    exact ⟨s1, r, ⟨f, by rw [h0, M_bind_ok']; exact h1⟩, h2, h3⟩
  · rintro ⟨s1, r, ⟨f, h⟩, h2, h3⟩
    rw [bind_ok_iff] at h
    obtain ⟨s0, h0, h⟩ := h
    exact ⟨f, by rw [h0, M_bind_ok']; exact run_snoc.mpr ⟨s1, r, h, h2, h3⟩⟩

end Verif
