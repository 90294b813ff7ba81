import Verif.Lemmas.SameApi

/-! # Two runs: construction and public calls -/

namespace Verif

open Spec

variable {α : Type} [Scalar α] {c c' : Cfg α} {env env' : Env α}

/-- A relation together with what is known about each run. -/
theorem Rel.sane {β γ : Type} {R : β → γ → Prop} {P : β → Prop} {Q : γ → Prop} {m : M β} {m' : M γ}
    (h : Rel R m m') (h1 : Sane env P m) (h2 : Sane env' Q m') :
    Rel (fun x y => R x y ∧ P x ∧ Q y) m m' := by
  rcases m with e | x <;> rcases m' with e' | y
  · exact h
  · exact h.elim
  · exact h.elim
  · refine ⟨h, ?_, ?_⟩
    · rcases h1 with ⟨z, hz, hp⟩ | ⟨hz, -⟩ | ⟨hz, -⟩
      · cases hz; exact hp
      · cases hz
      · cases hz
    · rcases h2 with ⟨z, hz, hp⟩ | ⟨hz, -⟩ | ⟨hz, -⟩
      · cases hz; exact hp
      · cases hz
      · cases hz

/-- Objects that cannot be told apart. -/
structure ObjSame (o o' : Obj α) : Prop where
  cfg : CfgSame o.cfg o'.cfg
  work : WorkSame o.cfg o.work o'.work
  gauss : List.Forall₂ GpSame o.gauss o'.gauss
  ok : o.Ok
  ok' : o'.Ok
  header : o.header = o'.header

theorem ObjSame.gaussOk' {o o' : Obj α} (h : ObjSame o o') : ∀ g ∈ o'.gauss, g.Ok o.cfg :=
  fun g hg => (h.ok'.gauss g hg).unalt h.cfg

theorem findGp_same {l l' : List (Gp α)} (h : List.Forall₂ GpSame l l') (id : Int) :
    (findGp id l = none ∧ findGp id l' = none) ∨
      ∃ g g', findGp id l = some g ∧ findGp id l' = some g' ∧ g ∈ l ∧ g' ∈ l' ∧ GpSame g g' := by
  induction h with
  | nil => exact Or.inl ⟨rfl, rfl⟩
  | cons hg hl ih =>
    unfold findGp
    rw [← hg.id]
    split
    · exact Or.inr ⟨_, _, rfl, rfl, by simp, by simp, hg⟩
    · rcases ih with h | ⟨g, g', h1, h2, h3, h4, h5⟩
      · exact Or.inl h
      · exact Or.inr ⟨g, g', h1, h2, by simp [h3], by simp [h4], h5⟩

theorem setStrainList_same {l l' : List (Gp α)} (h : List.Forall₂ GpSame l l') (n : Nat) (id : Int)
    (eps : Nat → α) (junk : Gp α) :
    List.Forall₂ GpSame (setStrainList n id eps junk l) (setStrainList n id eps junk l') := by
  induction h with
  | nil => exact .cons ⟨rfl, rfl, trivial, trivial, rfl, rfl, rfl, rfl, rfl⟩ .nil
  | cons hg hl ih =>
    unfold setStrainList
    rw [← hg.id]
    split
    · exact .cons ⟨rfl, hg.nrIts, hg.n, hg.k, by
        show setFirst _ _ _ = setFirst _ _ _
        rw [hg.strain], hg.stress, hg.ctan, hg.nrErr, hg.invMax⟩ hl
    · exact .cons hg ih

theorem updateGp_same (c : Cfg α) {g g' : Gp α} (h : GpSame g g') :
    Rel GpSame (updateGp c g) (updateGp c g') := by
  have hn := h.n
  have hk := h.k
  unfold updateGp
  generalize hN : g.intVarsN = N at hn
  generalize hN' : g'.intVarsN = N' at hn
  generalize hK : g.intVarsK = K at hk
  generalize hK' : g'.intVarsK = K' at hk
  rcases N with _ | b <;> rcases N' with _ | b'
  · exact Rel.pure h
  · exact hn.elim
  · exact hn.elim
  · rcases K with _ | k <;> rcases K' with _ | k'
    · dsimp only
      split
      · exact Rel.pure h
      · exact Rel.error _
    · exact hk.elim
    · exact hk.elim
    · refine Rel.bind (copyInto_same _ hk hn) fun q q' hq => Rel.pure ?_
      exact ⟨h.id, h.nrIts, hq, hk, h.strain, h.stress, h.ctan, h.nrErr, h.invMax⟩

theorem updateList_same (c : Cfg α) {l l' : List (Gp α)} (h : List.Forall₂ GpSame l l') :
    Rel (List.Forall₂ GpSame) (updateList c l) (updateList c l') := by
  induction h with
  | nil => exact Rel.pure .nil
  | cons hg hl ih =>
    unfold updateList
    refine Rel.bind (updateGp_same c hg) fun g g' hg => ?_
    exact Rel.bind ih fun r r' hr => Rel.pure (.cons hg hr)

theorem recVars_same (c : Cfg α) {g g' : Gp α} (h : GpSame g g') : recVars c g' = recVars c g := by
  have hn := h.n
  unfold recVars
  generalize hN : g.intVarsN = N at hn
  generalize hN' : g'.intVarsN = N' at hn
  rcases N with _ | b <;> rcases N' with _ | b'
  · rfl
  · exact hn.elim
  · exact hn.elim
  · have hb : Same b b' := hn
    dsimp only
    rw [funext hb.read]

theorem recVarsList_same (c : Cfg α) {l l' : List (Gp α)} (h : List.Forall₂ GpSame l l') :
    recVarsList c l' = recVarsList c l := by
  induction h with
  | nil => rfl
  | cons hg hl ih =>
    unfold recVarsList
    rw [ih, recVars_same c hg]

theorem idLine_same {l l' : List (Gp α)} (h : List.Forall₂ GpSame l l') :
    (l'.flatMap fun gp => [(.int gp.id : Tok α), .sp]) = l.flatMap fun gp => [.int gp.id, .sp] := by
  induction h with
  | nil => rfl
  | cons hg hl ih => rw [List.flatMap_cons, List.flatMap_cons, ih, hg.id]

theorem recConv_same (c : Cfg α) {l l' : List (Gp α)} (h : List.Forall₂ GpSame l l') :
    l'.flatMap (recConv c) = l.flatMap (recConv c) := by
  induction h with
  | nil => rfl
  | cons hg hl ih =>
    rw [List.flatMap_cons, List.flatMap_cons, ih]
    unfold recConv
    rw [hg.n.isNone, hg.invMax, hg.nrIts, hg.nrErr]

theorem recEps_same {l l' : List (Gp α)} (h : List.Forall₂ GpSame l l') :
    l'.flatMap recEps = l.flatMap recEps := by
  induction h with
  | nil => rfl
  | cons hg hl ih =>
    rw [List.flatMap_cons, List.flatMap_cons, ih]
    unfold recEps
    rw [hg.strain, hg.stress, hg.ctan]

/-- Objects that cannot be told apart, with the same files. -/
structure StateSame (s s' : ObjFiles α) : Prop where
  obj : ObjSame s.obj s'.obj
  files : s.files = s'.files

theorem output_same (he : EnvSame env env') {s s' : ObjFiles α} (h : StateSame s s') (t id : Int) :
    Rel StateSame (output env s t id) (output env' s' t id) := by
  have ho := h.obj
  have hc := ho.cfg
  have hL : loadVars s'.obj.cfg = loadVars s.obj.cfg := by
    have hV : s'.obj.cfg.numIntVars = s.obj.cfg.numIntVars := by rw [hc.alt]; rfl
    funext n o; unfold loadVars; rw [hV]
  have hD : setDispl s'.obj.cfg = setDispl s.obj.cfg := by rw [hc.alt]; rfl
  have hN : newtonRaphson env' s'.obj.cfg = newtonRaphson env' s.obj.cfg := by
    rw [hc.alt]; exact newtonRaphson_alt hc.mat env'
  have hF : calcFields s'.obj.cfg = calcFields s.obj.cfg := by
    rw [hc.alt]; exact calcFields_alt hc.mat
  have key : Rel (fun r r' => CfgSame r.obj.cfg r'.obj.cfg ∧
      WorkSame r.obj.cfg r.obj.work r'.obj.work ∧ List.Forall₂ GpSame r.obj.gauss r'.obj.gauss ∧
      r.obj.header = r'.obj.header ∧ r.files = r'.files)
      (output env s t id) (output env' s' t id) := by
    unfold output
    rcases findGp_same ho.gauss id with ⟨h1, h2⟩ | ⟨g, g', h1, h2, m1, m2, hg⟩
    · rw [h1, h2]
      exact Rel.pure ⟨hc, ho.work, ho.gauss, ho.header, h.files⟩
    · rw [h1, h2]
      dsimp only
      rw [hL, hD, hN, hF, ← hg.strain]
      obtain ⟨o1, e1, s1⟩ := loadVars_ok (ho.ok.gauss g m1) ho.work.ok.varsOld
      obtain ⟨o2, e2, s2⟩ := loadVars_ok (ho.gaussOk' g' m2) ho.work.ok'.varsOld
      have hl := loadVars_same s.obj.cfg hg.n ho.work.old
      rw [e1, e2] at hl
      rw [e1, e2, M_bind_ok', M_bind_ok']
      have hw := ho.work
      have hW : WorkSame s.obj.cfg { s.obj.work with varsOld := o1 }
          { s'.obj.work with varsOld := o2 } :=
        ⟨⟨hw.ok.u, hw.ok.du, hw.ok.b, hw.ok.elemStress, hw.ok.elemStrain, s1, hw.ok.varsNew,
          hw.ok.A2, hw.ok.A3⟩, ⟨hw.ok'.u, hw.ok'.du, hw.ok'.b, hw.ok'.elemStress, hw.ok'.elemStrain,
          s2, hw.ok'.varsNew, hw.ok'.A2, hw.ok'.A3⟩, hw.tick, hw.A, hw.u, hl, hw.new⟩
      refine Rel.bind (setDispl_same hc.ok hW _) fun w w' hw => ?_
      refine Rel.bind (newtonRaphson_same hc.ok he hw) fun r r' hr => ?_
      refine Rel.bind (calcFields_two hc.ok hr.1 hr.2.1) fun w w' hw => ?_
      rw [writeVtu_same hc hw.1 hw.2.1 hw.2.2.1 hw.2.2.2]
      refine Rel.eqBind rfl fun tk => Rel.pure ⟨hc, hw.1, ho.gauss, ho.header, ?_⟩
      rw [h.files]
  refine (key.sane (output_sane ho.ok t id) (output_sane ho.ok' t id)).mono ?_
  rintro r r' - - ⟨⟨k1, k2, k3, k4, k5⟩, q1, q2⟩
  exact ⟨⟨k1, k2, k3, q1, q2, k4⟩, k5⟩

theorem writeInfo_same {s s' : ObjFiles α} (h : StateSame s s') :
    Rel StateSame (writeInfoFiles s) (writeInfoFiles s') := by
  have ho := h.obj
  have e1 : recVarsList s'.obj.cfg s'.obj.gauss = recVarsList s.obj.cfg s.obj.gauss := by
    have : recVarsList s'.obj.cfg s'.obj.gauss = recVarsList s.obj.cfg s'.obj.gauss := by
      have hr : recVars s'.obj.cfg = recVars s.obj.cfg := by rw [ho.cfg.alt]; rfl
      generalize s'.obj.gauss = l
      induction l with
      | nil => rfl
      | cons g l ih => unfold recVarsList; rw [hr, ih]
    rw [this, recVarsList_same _ ho.gauss]
  have e2 : recConv s'.obj.cfg = recConv s.obj.cfg := by rw [ho.cfg.alt]; rfl
  have e3 : headerConv s'.obj.gauss = headerConv s.obj.gauss := by
    unfold headerConv idLine; rw [idLine_same ho.gauss]
  have e4 : headerEps s'.obj.gauss = headerEps s.obj.gauss := by
    unfold headerEps idLine; rw [idLine_same ho.gauss]
  unfold writeInfoFiles
  dsimp only
  rw [e1, e2, e3, e4, recConv_same _ ho.gauss, recEps_same ho.gauss, ← ho.header, ← h.files]
  exact Rel.eqBind rfl fun v => Rel.pure
    ⟨⟨ho.cfg, ho.work, ho.gauss, ⟨ho.ok.cfg, ho.ok.work, ho.ok.gauss⟩,
      ⟨ho.ok'.cfg, ho.ok'.work, ho.ok'.gauss⟩, rfl⟩, rfl⟩

theorem step_same (he : EnvSame env env') {s s' : ObjFiles α} (h : StateSame s s') (k : Call α) :
    Rel (fun r r' => StateSame r.state r'.state ∧ r.ret = r'.ret) (step env s k)
      (step env' s' k) := by
  have ho := h.obj
  have hc := ho.cfg
  have hV : s'.obj.cfg.nvoi = s.obj.cfg.nvoi := by rw [hc.alt]; rfl
  have key : Rel (fun r r' => (CfgSame r.state.obj.cfg r'.state.obj.cfg ∧
      WorkSame r.state.obj.cfg r.state.obj.work r'.state.obj.work ∧
      List.Forall₂ GpSame r.state.obj.gauss r'.state.obj.gauss ∧
      r.state.obj.header = r'.state.obj.header ∧ r.state.files = r'.state.files) ∧ r.ret = r'.ret)
      (step env s k) (step env' s' k) := by
    cases k with
    | setStrain id eps =>
      refine Rel.pure ⟨⟨hc, ⟨ho.work.ok.tickTo _, ho.work.ok'.tickTo _, ?_, ho.work.A, ho.work.u,
        ho.work.old, ho.work.new⟩, ?_, ho.header, h.files⟩, rfl⟩
      · show s.obj.work.tick + 1 = s'.obj.work.tick + 1
        rw [ho.work.tick]
      · show List.Forall₂ GpSame (setStrainList _ _ _ _ _) (setStrainList _ _ _ _ _)
        rw [hV, ← ho.work.tick, ← he.gpJunk]
        exact setStrainList_same ho.gauss _ _ _ _
    | homogenize =>
      unfold step homogenize
      rw [bind_assoc, bind_assoc]
      exact Rel.bind (homogenizeList_same hc he ho.gauss ho.ok.gauss ho.gaussOk' ho.work)
        fun r r' hr => Rel.pure ⟨⟨hc, hr.2, hr.1, ho.header, h.files⟩, rfl⟩
    | getStress id buf =>
      have e : (getMacroStress s.obj id buf).1 = s.obj ∧ (getMacroStress s'.obj id buf).1 = s'.obj ∧
          (getMacroStress s.obj id buf).2 = (getMacroStress s'.obj id buf).2 := by
        unfold getMacroStress
        rcases findGp_same ho.gauss id with ⟨h1, h2⟩ | ⟨g, g', h1, h2, m1, m2, hg⟩
        · rw [h1, h2]
          exact ⟨rfl, rfl, rfl⟩
        · rw [h1, h2]
          refine ⟨rfl, rfl, ?_⟩
          dsimp only
          rw [hV, hg.stress]
      refine Rel.pure ⟨?_, ?_⟩
      · dsimp only
        rw [e.1, e.2.1]
        exact ⟨hc, ho.work, ho.gauss, ho.header, h.files⟩
      · dsimp only
        rw [e.2.2]
    | getCtan id buf =>
      have e : (getMacroCtan s.obj id buf).1 = s.obj ∧ (getMacroCtan s'.obj id buf).1 = s'.obj ∧
          (getMacroCtan s.obj id buf).2 = (getMacroCtan s'.obj id buf).2 := by
        unfold getMacroCtan
        rcases findGp_same ho.gauss id with ⟨h1, h2⟩ | ⟨g, g', h1, h2, m1, m2, hg⟩
        · rw [h1, h2]
          exact ⟨rfl, rfl, rfl⟩
        · rw [h1, h2]
          refine ⟨rfl, rfl, ?_⟩
          dsimp only
          rw [hV, hg.ctan]
      refine Rel.pure ⟨?_, ?_⟩
      · dsimp only
        rw [e.1, e.2.1]
        exact ⟨hc, ho.work, ho.gauss, ho.header, h.files⟩
      · dsimp only
        rw [e.2.2]
    | getNl id =>
      have e : (getNlFlag s.obj id).1 = s.obj ∧ (getNlFlag s'.obj id).1 = s'.obj ∧
          (getNlFlag s.obj id).2 = (getNlFlag s'.obj id).2 := by
        unfold getNlFlag
        rcases findGp_same ho.gauss id with ⟨h1, h2⟩ | ⟨g, g', h1, h2, m1, m2, hg⟩
        · rw [h1, h2]
          exact ⟨rfl, rfl, rfl⟩
        · rw [h1, h2]
          have hi : g.intVarsN.isSome = g'.intVarsN.isSome := by
            have := hg.n.isNone
            cases h1 : g.intVarsN <;> cases h2 : g'.intVarsN <;> simp_all
          refine ⟨rfl, rfl, ?_⟩
          dsimp only
          rw [hi]
      refine Rel.pure ⟨?_, ?_⟩
      · dsimp only
        rw [e.1, e.2.1]
        exact ⟨hc, ho.work, ho.gauss, ho.header, h.files⟩
      · dsimp only
        rw [e.2.2]
    | updateVars =>
      have hU : updateList s'.obj.cfg = updateList s.obj.cfg := by
        have hr : updateGp s'.obj.cfg = updateGp s.obj.cfg := by rw [hc.alt]; rfl
        funext l
        induction l with
        | nil => rfl
        | cons g l ih => unfold updateList; rw [hr, ih]
      unfold step updateVars
      rw [bind_assoc, bind_assoc, hU]
      exact Rel.bind (updateList_same _ ho.gauss)
        fun r r' hr => Rel.pure ⟨⟨hc, ho.work, hr, ho.header, h.files⟩, rfl⟩
    | output t id =>
      exact Rel.bind (output_same he h t id) fun r r' hr => Rel.pure
        ⟨⟨hr.obj.cfg, hr.obj.work, hr.obj.gauss, hr.obj.header, hr.files⟩, rfl⟩
    | writeInfo =>
      exact Rel.bind (writeInfo_same h) fun r r' hr => Rel.pure
        ⟨⟨hr.obj.cfg, hr.obj.work, hr.obj.gauss, hr.obj.header, hr.files⟩, rfl⟩
  refine (key.sane (step_sane ho.ok k) (step_sane ho.ok' k)).mono ?_
  rintro r r' - - ⟨⟨⟨k1, k2, k3, k4, k5⟩, k6⟩, q1, q2⟩
  exact ⟨⟨⟨k1, k2, k3, q1, q2, k4⟩, k5⟩, k6⟩

/-! ## Construction -/

theorem setCol_same {n i k : Nat} (f t t' : Nat → α)
    (h : t k = t' k ∨ ∃ v, v < n ∧ k = v * n + i) : setCol n i f t k = setCol n i f t' k := by
  unfold setCol
  have key : ∀ m, (t k = t' k ∨ ∃ v, v < m ∧ k = v * n + i) →
      accum m (fun v t => fun q => if q = v * n + i then f v else t q) t k
        = accum m (fun v t => fun q => if q = v * n + i then f v else t q) t' k := by
    intro m
    induction m with
    | zero =>
      rintro (h | ⟨v, hv, -⟩)
      · exact h
      · omega
    | succ m ih =>
      intro h
      rw [accum, accum]
      split
      · rfl
      · rename_i hk
        refine ih ?_
        rcases h with h | ⟨v, hv, e⟩
        · exact Or.inl h
        · refine Or.inr ⟨v, ?_, e⟩
          rcases Nat.lt_succ_iff_lt_or_eq.mp hv with h | h
          · exact h
          · subst h; exact absurd e hk
  exact key n h

theorem calcCtanLin_same (hc : c.Ok) (he : EnvSame env env') {w w' : Work α} (hw : WorkSame c w w')
    (t t' : Nat → α) :
    Rel (fun r r' => (∀ k, k < c.nvoi * c.nvoi → r.ctan k = r'.ctan k) ∧ WorkSame c r.work r'.work)
      (calcCtanLin env c t w) (calcCtanLin env' c t' w') := by
  unfold calcCtanLin
  have key : ∀ n, n ≤ c.nvoi →
      Rel (fun (r r' : CtanState α) => (∀ v i, v < c.nvoi → i < n →
          r.ctan (v * c.nvoi + i) = r'.ctan (v * c.nvoi + i)) ∧ WorkSame c r.work r'.work)
        (loop n (fun i s => do
          let r ← solveStrain env c s.work (fun v => if v = i then 0 + (1.0e-8 : α) else 0)
          pure { ctan := setCol c.nvoi i (fun v => r.sig v / (1.0e-8 : α)) s.ctan
                 work := r.nr.work }) { ctan := t, work := w })
        (loop n (fun i s => do
          let r ← solveStrain env' c s.work (fun v => if v = i then 0 + (1.0e-8 : α) else 0)
          pure { ctan := setCol c.nvoi i (fun v => r.sig v / (1.0e-8 : α)) s.ctan
                 work := r.nr.work }) { ctan := t', work := w' }) := by
    intro n
    induction n with
    | zero => intro _; exact Rel.pure ⟨fun v i _ hi => absurd hi (by omega), hw⟩
    | succ n ih =>
      intro hn
      rw [loop_succ, loop_succ]
      refine Rel.bind (ih (by omega)) fun s s' hs => ?_
      refine Rel.bind (solveStrain_same hc he hs.2 _) fun r r' hr => Rel.pure ⟨?_, hr.2.1⟩
      intro v i hv hi
      dsimp only
      rw [hr.1]
      refine setCol_same _ _ _ ?_
      rcases Nat.lt_succ_iff_lt_or_eq.mp hi with h | h
      · exact Or.inl (hs.1 v i hv h)
      · subst h; exact Or.inr ⟨v, hv, rfl⟩
  refine (key c.nvoi (le_refl _)).mono ?_
  rintro r r' - - ⟨h1, h2⟩
  refine ⟨fun k hk => ?_, h2⟩
  have hn : 0 < c.nvoi := by unfold Cfg.nvoi; split <;> omega
  have := h1 (k / c.nvoi) (k % c.nvoi) (Nat.div_lt_of_lt_mul hk) (Nat.mod_lt _ hn)
  rwa [Nat.mul_comm, Nat.div_add_mod] at this

/-- Memory the results may depend on: the member read for the tolerance, the displacements and the
internal variables. -/
structure JunkSame (j j' : Junk α) : Prop where
  invTol : j.invTol = j'.invTol
  u : j.u = j'.u
  varsOld : j.varsOld = j'.varsOld
  varsNew : j.varsNew = j'.varsNew

theorem construct_same (he : EnvSame env env') {a : Args α} (ha : a.Ok)
    (hm : ∀ i, i < 2 → a.matTypes i = 0 ∨ a.matTypes i = 1 ∨ a.matTypes i = 2) {j j' : Junk α}
    (hj : JunkSame j j') : Rel ObjSame (construct env a j) (construct env' a j') := by
  have key : Rel (fun o o' => CfgSame o.cfg o'.cfg ∧ WorkSame o.cfg o.work o'.work ∧
      List.Forall₂ GpSame o.gauss o'.gauss ∧ o.header = o'.header)
      (construct env a j) (construct env' a j') := by
    obtain ⟨et, h1, h2, h3⟩ := fillElemType_eq (c := mkCfg a j ⟨0, j.elemType⟩) ha.micro ha.dim
      (et := ⟨(mkCfg a j ⟨0, j.elemType⟩).nelem, j.elemType⟩) rfl
    obtain ⟨et', h1', h2', h3'⟩ := fillElemType_eq (c := mkCfg a j' ⟨0, j'.elemType⟩) ha.micro ha.dim
      (et := ⟨(mkCfg a j' ⟨0, j'.elemType⟩).nelem, j'.elemType⟩) rfl
    have hc : (mkCfg a j et).Ok := by
      refine ⟨ha.dim, ha.nx, ha.ny, fun hd => ?_, fun hd => ?_, h2, ha.micro⟩
      · have hd : a.dim = 2 := hd
        simp [mkCfg, hd]
      · have hd : a.dim = 3 := hd
        simp [mkCfg, hd]
        exact ha.nz hd
    have hE : Same et et' := by
      refine ⟨by rw [h2, h2']; rfl, fun k hk => ?_⟩
      rw [h2] at hk
      have hT : ∀ ex ey ez, elemTypeOf (mkCfg a j ⟨0, j.elemType⟩) ex ey ez
          = elemTypeOf (mkCfg a j' ⟨0, j'.elemType⟩) ex ey ez := fun _ _ _ => rfl
      rcases ha.dim with hd | hd
      · have hk : k < (a.size 0 - 1) * (a.size 1 - 1) * (2 - 1) := by
          have : (mkCfg a j ⟨0, j.elemType⟩).nelem = (a.size 0 - 1) * (a.size 1 - 1) := by
            unfold Cfg.nelem
            rw [if_pos (show (mkCfg a j ⟨0, j.elemType⟩).dim = 2 from hd)]; rfl
          omega
        obtain ⟨ex, ey, ez, hx, hy, hz, e⟩ := gloElem_surj (nx := a.size 0) (ny := a.size 1)
          (nz := 2) hk
        have hz0 : ez = 0 := by omega
        subst hz0
        have q := h3 ex ey 0 hx hy (fun _ => rfl) (fun h => by
          have h : a.dim = 3 := h
          omega)
        have q' := h3' ex ey 0 hx hy (fun _ => rfl) (fun h => by
          have h : a.dim = 3 := h
          omega)
        rw [e]
        exact q.trans ((hT ex ey 0).trans q'.symm)
      · have hZ : (mkCfg a j ⟨0, j.elemType⟩).nz = a.size 2 := by simp [mkCfg, hd]
        have hZ' : (mkCfg a j' ⟨0, j'.elemType⟩).nz = a.size 2 := by simp [mkCfg, hd]
        have hk : k < (a.size 0 - 1) * (a.size 1 - 1) * (a.size 2 - 1) := by
          have : (mkCfg a j ⟨0, j.elemType⟩).nelem
              = (a.size 0 - 1) * (a.size 1 - 1) * (a.size 2 - 1) := by
            unfold Cfg.nelem
            rw [if_neg (show ¬ (mkCfg a j ⟨0, j.elemType⟩).dim = 2 from by
              show ¬ a.dim = 2
              omega), hZ]; rfl
          omega
        obtain ⟨ex, ey, ez, hx, hy, hz, e⟩ := gloElem_surj (nx := a.size 0) (ny := a.size 1)
          (nz := a.size 2) hk
        have q := h3 ex ey ez hx hy (fun h => by
          have h : a.dim = 2 := h
          omega) (fun _ => by rw [hZ]; exact hz)
        have q' := h3' ex ey ez hx hy (fun h => by
          have h : a.dim = 2 := h
          omega) (fun _ => by rw [hZ']; exact hz)
        rw [e]
        exact q.trans ((hT ex ey ez).trans q'.symm)
    have hM : ∀ i, i < 2 → (mkCfg a j' et').mats i = (mkCfg a j et).mats i := by
      intro i hi
      show (if i < 2 then mkMaterial _ (a.matTypes i) (j'.mats i) else j'.mats i)
        = (if i < 2 then mkMaterial _ (a.matTypes i) (j.mats i) else j.mats i)
      rw [if_pos hi, if_pos hi]
      unfold mkMaterial
      rcases hm i hi with h | h | h <;> simp [h]
    have hA0 : mkCfg a j' et'
        = (mkCfg a j et).alt (mkCfg a j' et').mats et' (mkCfg a j' et').ctanLin := by
      unfold Cfg.alt mkCfg
      simp [hj.invTol]
    have hCS : ∀ t t' : Nat → α, (∀ k, k < (mkCfg a j et).nvoi * (mkCfg a j et).nvoi → t k = t' k) →
        CfgSame { mkCfg a j et with ctanLin := t } { mkCfg a j' et' with ctanLin := t' } := by
      intro t t' ht
      refine ⟨⟨hc.dim, hc.nx, hc.ny, hc.nz2, hc.nz3, hc.elem, hc.micro⟩, ?_, hM, hE, ht⟩
      unfold Cfg.alt mkCfg
      simp [hj.invTol]
    have hmat : getMaterial ((mkCfg a j et).alt (mkCfg a j' et').mats et' (mkCfg a j' et').ctanLin)
        = getMaterial (mkCfg a j et) :=
      (hCS (mkCfg a j et).ctanLin (mkCfg a j et).ctanLin fun _ _ => rfl).mat
    have hS : ∀ A A' : Ell α, EllShape A A' →
        ((mkCfg a j et).dim = 2 → Pattern2Weak A 2 (mkCfg a j et).nx (mkCfg a j et).ny) →
        ((mkCfg a j et).dim = 3 → Pattern3 A 3 (mkCfg a j et).nx (mkCfg a j et).ny
          (mkCfg a j et).nz) →
        ((mkCfg a j et).dim = 2 → Pattern2Weak A' 2 (mkCfg a j et).nx (mkCfg a j et).ny) →
        ((mkCfg a j et).dim = 3 → Pattern3 A' 3 (mkCfg a j et).nx (mkCfg a j et).ny
          (mkCfg a j et).nz) →
        Rel (fun o o' => CfgSame o.cfg o'.cfg ∧ WorkSame o.cfg o.work o'.work ∧
          List.Forall₂ GpSame o.gauss o'.gauss ∧ o.header = o'.header)
          (calcCtanLin env (mkCfg a j et) j.ctanLin (startWork (mkCfg a j et) j A) >>= fun r =>
            pure ({ cfg := { mkCfg a j et with ctanLin := r.ctan }, work := r.work, gauss := [],
                    header := false } : Obj α))
          (calcCtanLin env' (mkCfg a j' et') j'.ctanLin (startWork (mkCfg a j' et') j' A') >>= fun r =>
            pure ({ cfg := { mkCfg a j' et' with ctanLin := r.ctan }, work := r.work, gauss := [],
                    header := false } : Obj α)) := by
      intro A A' hAA p1 p2 p3 p4
      have hcc : calcCtanLin env' (mkCfg a j' et') = calcCtanLin env' (mkCfg a j et) := by
        rw [hA0]; exact calcCtanLin_alt hmat env'
      rw [hcc]
      refine Rel.bind (calcCtanLin_same hc he (w := startWork (mkCfg a j et) j A)
        (w' := startWork (mkCfg a j' et') j' A') ?_ _ _) fun r r' hr => ?_
      · exact ⟨⟨rfl, rfl, rfl, rfl, rfl, rfl, rfl, p1, p2⟩, ⟨rfl, rfl, rfl, rfl, rfl, rfl, rfl, p3, p4⟩,
          rfl, hAA, ⟨rfl, fun k _ => congrFun hj.u k⟩, ⟨rfl, fun k _ => congrFun hj.varsOld k⟩,
          ⟨rfl, fun k _ => congrFun hj.varsNew k⟩⟩
      · refine Rel.pure ⟨hCS _ _ hr.1, ?_, .nil, rfl⟩
        exact ⟨hr.2.ok.ctan _, hr.2.ok'.ctan _, hr.2.tick, hr.2.A, hr.2.u, hr.2.old, hr.2.new⟩
    unfold construct
    rw [if_neg (not_not.mpr ha.dim), if_neg (not_not.mpr ha.micro), if_neg (not_not.mpr ha.dim),
      if_neg (not_not.mpr ha.micro)]
    dsimp only
    rw [h1, M_bind_ok', h1', M_bind_ok']
    rcases ha.dim with hd | hd
    · have d1 : (mkCfg a j et).dim = 2 := hd
      have d2 : (mkCfg a j' et').dim = 2 := hd
      obtain ⟨A, i1, i2, i3⟩ := ellInit2D_cols j.cols j.vals (nF := 2) hc.nx hc.ny
      obtain ⟨A', i1', i2', i3'⟩ := ellInit2D_cols j'.cols j'.vals (nF := 2) hc.nx hc.ny
      obtain ⟨m, e1, e2⟩ := pattern2_init j.cols j.vals (nF := 2) hc.nx hc.ny
      obtain ⟨m', e1', e2'⟩ := pattern2_init j'.cols j'.vals (nF := 2) hc.nx hc.ny
      have hm1 := i1.symm.trans e1
      have hm1' := i1'.symm.trans e1'
      have hsh : EllShape m m' := by
        injection hm1 with hm1
        injection hm1' with hm1'
        subst hm1 hm1'
        exact ⟨rfl, rfl, rfl, by rw [i2, i2'], fun q hq => by
          rw [i2] at hq
          rw [i3 q hq, i3' q hq]⟩
      have := hS m m' hsh (fun _ => e2) (fun h => by omega) (fun _ => e2') (fun h => by omega)
      rw [if_pos d1, if_pos d2]
      have f1 : ellInit2D j.cols j.vals (mkCfg a j et).dim (mkCfg a j et).nx (mkCfg a j et).ny = .ok m := by
        rw [d1]; exact e1
      have f2 : ellInit2D j'.cols j'.vals (mkCfg a j' et').dim (mkCfg a j' et').nx (mkCfg a j' et').ny
          = .ok m' := by
        rw [d2]; exact e1'
      rw [f1, f2]
      exact this
    · have d1 : (mkCfg a j et).dim = 3 := hd
      have d2 : (mkCfg a j' et').dim = 3 := hd
      have hZ' : (mkCfg a j' et').nz = (mkCfg a j et).nz := rfl
      obtain ⟨A, i1, i2, i3⟩ := ellInit3D_cols j.cols j.vals (nF := 3) hc.nx hc.ny (hc.nz3 d1)
      obtain ⟨A', i1', i2', i3'⟩ := ellInit3D_cols j'.cols j'.vals (nF := 3) hc.nx hc.ny (hc.nz3 d1)
      obtain ⟨m, e1, e2⟩ := pattern3_init j.cols j.vals (nF := 3) hc.nx hc.ny (hc.nz3 d1)
      obtain ⟨m', e1', e2'⟩ := pattern3_init j'.cols j'.vals (nF := 3) hc.nx hc.ny (hc.nz3 d1)
      have hm1 := i1.symm.trans e1
      have hm1' := i1'.symm.trans e1'
      have hsh : EllShape m m' := by
        injection hm1 with hm1
        injection hm1' with hm1'
        subst hm1 hm1'
        exact ⟨rfl, rfl, rfl, by rw [i2, i2'], fun q hq => by
          rw [i2] at hq
          rw [i3 q hq, i3' q hq]⟩
      have := hS m m' hsh (fun h => by omega) (fun _ => e2) (fun h => by omega) (fun _ => e2')
      rw [if_neg (by omega), if_neg (by omega)]
      have f1 : ellInit3D j.cols j.vals (mkCfg a j et).dim (mkCfg a j et).nx (mkCfg a j et).ny
          (mkCfg a j et).nz = .ok m := by
        rw [d1]; exact e1
      have f2 : ellInit3D j'.cols j'.vals (mkCfg a j' et').dim (mkCfg a j' et').nx (mkCfg a j' et').ny
          (mkCfg a j' et').nz = .ok m' := by
        rw [d2]; exact e1'
      rw [f1, f2]
      exact this
  refine (key.sane (construct_sane env ha j) (construct_sane env' ha j')).mono ?_
  rintro r r' - - ⟨⟨k1, k2, k3, k4⟩, q1, q2⟩
  exact ⟨k1, k2, k3, q1, q2, k4⟩

end Verif
