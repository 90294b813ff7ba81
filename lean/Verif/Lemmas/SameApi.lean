import Verif.Lemmas.SameFe

/-! # Two runs: objects and public calls -/

namespace Verif

variable {α : Type} [Scalar α]

/-! ## Configurations

`c'` differs from `c` in `material_list`, `elem_type` and `ctan_lin`; it selects the same materials. -/

section cfg
variable {c : Cfg α} {ma : Nat → Material α} {et : Buf Int} {ct : Nat → α}

/-- The configuration with other contents. -/
def Cfg.alt (c : Cfg α) (ma : Nat → Material α) (et : Buf Int) (ct : Nat → α) : Cfg α :=
  { c with mats := ma, elemType := et, ctanLin := ct }

variable (hM : getMaterial (c.alt ma et ct) = getMaterial c)
include hM

theorem getStress3D_alt : getStress3D (c.alt ma et ct) = getStress3D c := by
  unfold getStress3D; rw [hM]; rfl

theorem getStress2D_alt : getStress2D (c.alt ma et ct) = getStress2D c := by
  unfold getStress2D; rw [hM]; rfl

omit hM in
theorem getStrain3D_alt : getStrain3D (c.alt ma et ct) = getStrain3D c := rfl

omit hM in
theorem getStrain2D_alt : getStrain2D (c.alt ma et ct) = getStrain2D c := rfl

theorem assemblyRhs_alt : assemblyRhs (c.alt ma et ct) = assemblyRhs c := by
  have h2 : rhsElem2D (c.alt ma et ct) = rhsElem2D c := by
    unfold rhsElem2D getElemRhs2D
    rw [getStress2D_alt hM]; rfl
  have h3 : rhsElem3D (c.alt ma et ct) = rhsElem3D c := by
    unfold rhsElem3D getElemRhs3D
    rw [getStress3D_alt hM]; rfl
  unfold assemblyRhs
  rw [h2, h3]; rfl

theorem assemblyMat_alt : assemblyMat (c.alt ma et ct) = assemblyMat c := by
  have h2 : getElemMat2D (c.alt ma et ct) = getElemMat2D c := by
    unfold getElemMat2D
    rw [hM]; rfl
  have h3 : getElemMat3D (c.alt ma et ct) = getElemMat3D c := by
    unfold getElemMat3D getCtanPlastPert
    rw [getStress3D_alt hM, hM]; rfl
  unfold assemblyMat
  rw [h2, h3]; rfl

theorem newtonRaphson_alt (env : Env α) :
    newtonRaphson env (c.alt ma et ct) = newtonRaphson env c := by
  have h : nrCorrect env (c.alt ma et ct) = nrCorrect env c := by
    unfold nrCorrect
    rw [assemblyMat_alt hM]; rfl
  have h2 : ∀ n, nrLoop env (c.alt ma et ct) n = nrLoop env c n := by
    intro n
    induction n with
    | zero => rfl
    | succ n ih =>
      funext w
      rw [nrLoop, nrLoop, assemblyRhs_alt hM, h, ih]
  unfold newtonRaphson
  rw [h2]

theorem calcAveStress_alt : calcAveStress (c.alt ma et ct) = calcAveStress c := by
  unfold calcAveStress aveStressElem2D aveStressElem3D
  rw [getStress3D_alt hM, getStress2D_alt hM]; rfl

theorem calcFields_alt : calcFields (c.alt ma et ct) = calcFields c := by
  unfold calcFields fieldElem2D fieldElem3D
  rw [getStress3D_alt hM, getStress2D_alt hM]; rfl

theorem solveStrain_alt (env : Env α) : solveStrain env (c.alt ma et ct) = solveStrain env c := by
  unfold solveStrain
  rw [newtonRaphson_alt hM, calcAveStress_alt hM]; rfl

theorem calcCtanLin_alt (env : Env α) : calcCtanLin env (c.alt ma et ct) = calcCtanLin env c := by
  unfold calcCtanLin
  rw [solveStrain_alt hM]; rfl

theorem solveGp_alt (env : Env α) : solveGp env (c.alt ma et ct) = solveGp env c := by
  have h1 : ctanGp env (c.alt ma et ct) = ctanGp env c := by
    unfold ctanGp
    rw [solveStrain_alt hM]; rfl
  unfold solveGp
  rw [solveStrain_alt hM, h1]; rfl

end cfg

/-- `c'` differs from `c` only in memory that does not matter. -/
structure CfgSame (c c' : Cfg α) : Prop where
  ok : c.Ok
  alt : c' = c.alt c'.mats c'.elemType c'.ctanLin
  mats : ∀ i, i < 2 → c'.mats i = c.mats i
  elem : Same c.elemType c'.elemType
  ctan : ∀ k, k < c.nvoi * c.nvoi → c.ctanLin k = c'.ctanLin k

namespace CfgSame
variable {c c' : Cfg α}

theorem mat (h : CfgSame c c') : getMaterial (c.alt c'.mats c'.elemType c'.ctanLin) = getMaterial c := by
  funext e
  unfold getMaterial
  show (if c.microType = 0 ∨ c.microType = 1 then (do
    let t ← c'.elemType.read e
    pure (c'.mats (if t = 0 then 0 else 1))) else _) = _
  have e1 : ∀ t : Int, c'.mats (if t = 0 then 0 else 1) = c.mats (if t = 0 then 0 else 1) :=
    fun t => h.mats _ (by split <;> omega)
  simp only [e1, ← h.elem.read]

end CfgSame

theorem linStress_same {c c' : Cfg α} (h : CfgSame c c') (e : Nat → α) {i : Nat} (hi : i < c.nvoi) :
    linStress c' e i = linStress c e i := by
  have hn : c'.nvoi = c.nvoi := by rw [h.alt]; rfl
  unfold linStress
  rw [hn]
  refine accum_congr (fun j s hj => ?_) 0
  rw [h.ctan _ (mul_add_lt hi hj)]

/-! ## Gauss points -/

/-- Both absent, or the same contents. -/
def OptSame : Option (Buf α) → Option (Buf α) → Prop
  | none, none => True
  | some b, some b' => Same b b'
  | _, _ => False

/-- The same Gauss point. -/
structure GpSame (g g' : Gp α) : Prop where
  id : g.id = g'.id
  nrIts : g.nrIts = g'.nrIts
  n : OptSame g.intVarsN g'.intVarsN
  k : OptSame g.intVarsK g'.intVarsK
  strain : g.macroStrain = g'.macroStrain
  stress : g.macroStress = g'.macroStress
  ctan : g.macroCtan = g'.macroCtan
  nrErr : g.nrErr = g'.nrErr
  invMax : g.invMax = g'.invMax

theorem OptSame.isNone {n n' : Option (Buf α)} (h : OptSame n n') : n.isNone = n'.isNone := by
  rcases n with _ | b <;> rcases n' with _ | b' <;> first | rfl | exact h.elim

theorem OptSame.isSome {n n' : Option (Buf α)} (h : OptSame n n') : n.isSome = n'.isSome := by
  rcases n with _ | b <;> rcases n' with _ | b' <;> first | rfl | exact h.elim

theorem zeroInto_same (n : Nat) {b b' : Buf α} (h : Same b b') :
    Rel Same (zeroInto n b) (zeroInto n b') := Rel.loop h fun _ _ _ _ hs => hs.write _ _

theorem copyInto_same (n : Nat) {a a' b b' : Buf α} (ha : Same a a') (h : Same b b') :
    Rel Same (copyInto n a b) (copyInto n a' b') :=
  Rel.loop h fun _ _ _ _ hs => Rel.eqBind (ha.read _) fun _ => hs.write _ _

theorem loadVars_same (c : Cfg α) {n n' : Option (Buf α)} (h : OptSame n n') {o o' : Buf α}
    (ho : Same o o') : Rel Same (loadVars c n o) (loadVars c n' o') := by
  rcases n with _ | b <;> rcases n' with _ | b'
  · exact zeroInto_same _ ho
  · exact h.elim
  · exact h.elim
  · exact copyInto_same _ h ho

theorem storeVars_same (c : Cfg α) (nl : Bool) {v v' : Buf α} (hv : Same v v') {g g' : Gp α}
    (h : GpSame g g') : Rel GpSame (storeVars c nl v g) (storeVars c nl v' g') := by
  unfold storeVars
  have hn := h.n
  have hk := h.k
  split
  · generalize hN : g.intVarsN = N at hn
    generalize hN' : g'.intVarsN = N' at hn
    generalize hK : g.intVarsK = K at hk
    generalize hK' : g'.intVarsK = K' at hk
    rcases N with _ | b <;> rcases N' with _ | b'
    · refine Rel.eqBind rfl fun n => Rel.bind (copyInto_same _ hv (Same.rfl' _)) fun k k' hkk => ?_
      exact Rel.pure ⟨h.id, h.nrIts, Same.rfl' _, hkk, h.strain, h.stress, h.ctan, h.nrErr, h.invMax⟩
    · exact hn.elim
    · exact hn.elim
    · rcases K with _ | k <;> rcases K' with _ | k'
      · exact rfl
      · exact hk.elim
      · exact hk.elim
      · refine Rel.bind (copyInto_same _ hv hk) fun k k' hkk => ?_
        exact Rel.pure ⟨h.id, h.nrIts, hn, hkk, h.strain, h.stress, h.ctan, h.nrErr, h.invMax⟩
  · exact Rel.pure h

variable {env env' : Env α} {c c' : Cfg α}

theorem Sane.ofOk {β : Type} {P : β → Prop} {m : M β} (h : Sane env P m) {x : β}
    (hx : m = .ok x) : P x := by
  rcases h with ⟨y, hy, hP⟩ | ⟨h, -⟩ | ⟨h, -⟩
  · rw [hx] at hy; cases hy; exact hP
  · rw [hx] at h; cases h
  · rw [hx] at h; cases h

theorem solveGp_same (hc : c.Ok) (he : EnvSame env env') {g g' : Gp α} (hg : GpSame g g')
    {w w' : Work α} (hw : WorkSame c w w') :
    Rel (fun r r' => GpSame r.gp r'.gp ∧ WorkSame c r.work r'.work)
      (solveGp env c g w) (solveGp env' c g' w') := by
  unfold solveGp
  rw [← hg.strain]
  refine Rel.bind (solveStrain_same hc he hw _) fun r r' hr => ?_
  obtain ⟨h1, h2, h3, h4, h5⟩ := hr
  dsimp only
  rw [← h1, ← h3]
  refine Rel.bind (R := GpSame) (storeVars_same c r.nr.nl h2.new
    (g := { g with macroStress := setFirst c.nvoi r.sig g.macroStress })
    (g' := { g' with macroStrain := g.macroStrain
                     macroStress := setFirst c.nvoi r.sig g'.macroStress })
    ⟨hg.id, hg.nrIts, hg.n, hg.k, rfl, by rw [hg.stress], hg.ctan, hg.nrErr, hg.invMax⟩)
    fun q q' hq => ?_
  rw [← hq.stress]
  refine Rel.loop (n := c.nvoi) ⟨⟨hq.id, by rw [hq.nrIts, h4], hq.n, hq.k, hq.strain, rfl, hq.ctan,
    by rw [hq.nrErr, h5], hq.invMax⟩, h2⟩ fun i s s' _ hs => ?_
  unfold ctanGp
  rw [← hs.1.strain]
  refine Rel.bind (solveStrain_same hc he hs.2 _) fun r r' hr => ?_
  obtain ⟨k1, k2, k3, k4, k5⟩ := hr
  refine Rel.pure ⟨⟨hs.1.id, ?_, hs.1.n, hs.1.k, hs.1.strain, hs.1.stress, ?_, ?_, hs.1.invMax⟩, k2⟩
  · show (fun q => if q = 1 + i then r.nr.its else s.gp.nrIts q) = _
    rw [k4, hs.1.nrIts]
  · show setCol c.nvoi i _ _ = setCol c.nvoi i _ _
    rw [k1, hs.1.ctan]
  · show (fun q => if q = 1 + i then r.nr.err else s.gp.nrErr q) = _
    rw [k5, hs.1.nrErr]

theorem isLinear_same (h : CfgSame c c') (hi : c.invTol = c'.invTol) (m : α) (e : Nat → α) :
    isLinear c' m e = isLinear c m e := by
  have hd : c'.dim = c.dim := by rw [h.alt]; rfl
  have hn : ∀ i, i < 3 → linStress c' e i = linStress c e i := fun i hi =>
    linStress_same h e (by unfold Cfg.nvoi; split <;> omega)
  unfold isLinear getInv1
  rw [hd, hi, hn 0 (by omega), hn 1 (by omega), hn 2 (by omega)]

theorem homogenizeGp_same (h : CfgSame c c') (he : EnvSame env env') {g g' : Gp α}
    (hg : GpSame g g') (hgo : g.Ok c) (hgo' : g'.Ok c) {w w' : Work α} (hw : WorkSame c w w') :
    Rel (fun r r' => GpSame r.gp r'.gp ∧ WorkSame c r.work r'.work)
      (homogenizeGp env c g w) (homogenizeGp env' c' g' w') := by
  have hI : c.invTol = c'.invTol := by rw [h.alt]; rfl
  have hV : c'.numIntVars = c.numIntVars := by rw [h.alt]; rfl
  have hN : c'.nvoi = c.nvoi := by rw [h.alt]; rfl
  have hL : loadVars c' = loadVars c := by
    funext n o; unfold loadVars; rw [hV]
  obtain ⟨o1, e1, s1⟩ := loadVars_ok hgo hw.ok.varsOld
  obtain ⟨o2, e2, s2⟩ := loadVars_ok hgo' hw.ok'.varsOld
  have hl := loadVars_same c hg.n hw.old
  rw [e1, e2] at hl
  unfold homogenizeGp
  rw [hL, e1, e2, M_bind_ok', M_bind_ok', isLinear_same h hI, ← hg.strain]
  refine Rel.eqBind rfl fun l => ?_
  have hW : WorkSame c { w with varsOld := o1, invMax := l.2 }
      { w' with varsOld := o2, invMax := l.2 } :=
    ⟨⟨hw.ok.u, hw.ok.du, hw.ok.b, hw.ok.elemStress, hw.ok.elemStrain, s1, hw.ok.varsNew, hw.ok.A2,
      hw.ok.A3⟩, ⟨hw.ok'.u, hw.ok'.du, hw.ok'.b, hw.ok'.elemStress, hw.ok'.elemStrain, s2,
      hw.ok'.varsNew, hw.ok'.A2, hw.ok'.A3⟩, hw.tick, hw.A, hw.u, hl, hw.new⟩
  dsimp only
  rw [← hg.n.isNone]
  split
  · refine Rel.pure ⟨⟨hg.id, ?_, hg.n, hg.k, hg.strain, ?_, ?_, ?_, rfl⟩, hW⟩
    · show (fun i => if i < 1 + c.nvoi then 0 else g.nrIts i)
        = fun i => if i < 1 + c'.nvoi then 0 else g'.nrIts i
      rw [hN, hg.nrIts]
    · show setFirst c.nvoi _ _ = setFirst c'.nvoi _ _
      rw [hN, ← hg.stress, ← hg.strain]
      funext v
      unfold setFirst
      split
      · rename_i hv; rw [linStress_same h _ hv]
      · rfl
    · show setFirst (c.nvoi * c.nvoi) _ _ = setFirst (c'.nvoi * c'.nvoi) _ _
      rw [hN, ← hg.ctan]
      funext v
      unfold setFirst
      split
      · rename_i hv; rw [h.ctan _ hv]
      · rfl
    · show setFirst (1 + c.nvoi) _ _ = setFirst (1 + c'.nvoi) _ _
      rw [hN, hg.nrErr]
  · have S1 := solveGp_safe (env := env) h.ok hW.ok hgo
    have S2 := solveGp_safe (env := env') h.ok hW.ok' hgo'
    have hA : solveGp env' c' = solveGp env' c := by
      conv_lhs => rw [h.alt]
      exact solveGp_alt h.mat env'
    rw [hA]
    refine Rel.bind ((solveGp_same h.ok he hg hW).mono
      (Q := fun r r' => GpSame r.gp r'.gp ∧ WorkSame c r.work r'.work ∧ r.work.invMax = r'.work.invMax)
      fun x y hx hy hxy => ⟨hxy.1, hxy.2, ?_⟩) fun s s' hs => ?_
    · rw [(S1.ofOk hx).1.invMax, (S2.ofOk hy).1.invMax]
    · exact Rel.pure ⟨⟨hs.1.id, hs.1.nrIts, hs.1.n, hs.1.k, hs.1.strain, hs.1.stress, hs.1.ctan,
        hs.1.nrErr, hs.2.2⟩, hs.2.1⟩

theorem Gp.Ok.alt {g : Gp α} (h : CfgSame c c') (hg : g.Ok c) : g.Ok c' := by
  rw [h.alt]; exact ⟨hg.n, hg.k, hg.both⟩

theorem Gp.Ok.unalt {g : Gp α} (h : CfgSame c c') (hg : g.Ok c') : g.Ok c := by
  rw [h.alt] at hg; exact ⟨hg.n, hg.k, hg.both⟩

theorem CfgSame.ok' (h : CfgSame c c') : c'.Ok := by
  rw [h.alt]
  exact ⟨h.ok.dim, h.ok.nx, h.ok.ny, h.ok.nz2, h.ok.nz3, by
    show c'.elemType.size = c.nelem
    rw [← h.elem.1, h.ok.elem], h.ok.micro⟩

theorem Work.Ok.alt {w : Work α} (h : CfgSame c c') (hw : w.Ok c) : w.Ok c' := by
  rw [h.alt]
  exact ⟨hw.u, hw.du, hw.b, hw.elemStress, hw.elemStrain, hw.varsOld, hw.varsNew, hw.A2, hw.A3⟩

theorem homogenizeList_same (h : CfgSame c c') (he : EnvSame env env') {l l' : List (Gp α)}
    (hl : List.Forall₂ GpSame l l') (ho : ∀ g ∈ l, g.Ok c) (ho' : ∀ g ∈ l', g.Ok c)
    {w w' : Work α} (hw : WorkSame c w w') :
    Rel (fun r r' => List.Forall₂ GpSame r.gauss r'.gauss ∧ WorkSame c r.work r'.work)
      (homogenizeList env c l w) (homogenizeList env' c' l' w') := by
  induction hl generalizing w w' with
  | nil => exact Rel.pure ⟨.nil, hw⟩
  | cons hg hl ih =>
    unfold homogenizeList
    refine Rel.bind (homogenizeGp_same h he hg (ho _ (by simp)) (ho' _ (by simp)) hw)
      fun s s' hs => ?_
    refine Rel.bind (ih (fun g hg => ho g (by simp [hg])) (fun g hg => ho' g (by simp [hg])) hs.2)
      fun r r' hr => Rel.pure ⟨.cons hs.1 hr.1, hr.2⟩

/-! ## Fields and files -/

theorem calcFields_two (hc : c.Ok) {w w' : Work α} (h : WorkSame c w w') (hb : Same w.b w'.b) :
    Rel (fun r r' => WorkSame c r r' ∧ Same r.b r'.b ∧ Same r.elemStrain r'.elemStrain ∧
      Same r.elemStress r'.elemStress) (calcFields c w) (calcFields c w') := by
  -- a third run: the second memory with the fields of the first one
  have hm : (({ w' with elemStrain := w.elemStrain, elemStress := w.elemStress } : Work α)).Ok c :=
    ⟨h.ok'.u, h.ok'.du, h.ok'.b, h.ok.elemStress, h.ok.elemStrain, h.ok'.varsOld, h.ok'.varsNew,
      h.ok'.A2, h.ok'.A3⟩
  have key : Rel (fun r r' => Same r.varsNew r'.varsNew ∧ Same r.elemStrain r'.elemStrain ∧
      Same r.elemStress r'.elemStress) (calcFields c w)
      (calcFields c { w' with elemStrain := w.elemStrain, elemStress := w.elemStress }) := by
    have hst : ∀ (nv e : Nat) (vol : α) {r r' : FieldAux α} {s s' : FieldState α},
        r.strain = r'.strain → r.stress = r'.stress → Same r.varsNew r'.varsNew →
        (Same s.varsNew s'.varsNew ∧ Same s.strain s'.strain ∧ Same s.stress s'.stress) →
        Rel (fun s s' => Same s.varsNew s'.varsNew ∧ Same s.strain s'.strain ∧
          Same s.stress s'.stress) (fieldStore nv e vol r s) (fieldStore nv e vol r' s') := by
      intro nv e vol r r' s s' h1 h2 h3 hs
      unfold fieldStore
      refine Rel.loop ⟨h3, hs.2.1, hs.2.2⟩ fun v s s' _ hs => ?_
      rw [h1, h2]
      refine Rel.bind (hs.2.1.write _ _) fun a a' ha => ?_
      exact Rel.bind (hs.2.2.write _ _) fun b b' hb => Rel.pure ⟨hs.1, ha, hb⟩
    unfold calcFields
    split
    · refine Rel.bind (R := fun s s' => Same s.varsNew s'.varsNew ∧ Same s.strain s'.strain ∧
        Same s.stress s'.stress) ?_ fun s s' hs => Rel.pure hs
      refine Rel.loop ⟨h.new, Same.rfl' _, Same.rfl' _⟩ fun ex _ _ _ hs =>
        Rel.loop hs fun ey s s' _ hs => ?_
      unfold fieldElem2D
      refine Rel.bind (R := fun (r r' : FieldAux α) => r.strain = r'.strain ∧ r.stress = r'.stress ∧
        Same r.varsNew r'.varsNew) ?_ fun r r' hr => hst _ _ _ hr.1 hr.2.1 hr.2.2 hs
      refine Rel.loop ⟨rfl, rfl, hs.1⟩ fun gp a a' _ ha => ?_
      refine Rel.eqBind (by rw [getStrain2D_same c h.u]) fun eps => Rel.eqBind rfl fun sig => ?_
      exact Rel.pure ⟨by rw [ha.1], by rw [ha.2.1], ha.2.2⟩
    · split
      · refine Rel.bind (R := fun s s' => Same s.varsNew s'.varsNew ∧ Same s.strain s'.strain ∧
          Same s.stress s'.stress) ?_ fun s s' hs => Rel.pure hs
        refine Rel.loop ⟨h.new, Same.rfl' _, Same.rfl' _⟩ fun ex _ _ _ hs =>
          Rel.loop hs fun ey _ _ _ hs => Rel.loop hs fun ez s s' _ hs => ?_
        unfold fieldElem3D
        refine Rel.bind (R := fun (r r' : FieldAux α) => r.strain = r'.strain ∧ r.stress = r'.stress ∧
          Same r.varsNew r'.varsNew) ?_ fun r r' hr => hst _ _ _ hr.1 hr.2.1 hr.2.2 hs
        refine Rel.loop ⟨rfl, rfl, hs.1⟩ fun gp a a' _ ha => ?_
        refine Rel.eqBind (by rw [getStrain3D_same c h.u]) fun eps => ?_
        exact Rel.bind (getStress3D_same c h.old ha.2.2 _ _ _ _ _) fun r r' hr =>
          Rel.pure ⟨by rw [ha.1], by rw [ha.2.1, hr.2.1], hr.2.2⟩
      · exact Rel.pure ⟨h.new, Same.rfl' _, Same.rfl' _⟩
  have tr : ∀ {a b d : Buf α}, Same a b → Same b d → Same a d := fun h1 h2 =>
    ⟨h1.1.trans h2.1, fun k hk => (h1.2 k hk).trans (h2.2 k (by rw [← h1.1]; exact hk))⟩
  rcases hc.dim with hd | hd
  · have hv : c.nvoi = 3 := by unfold Cfg.nvoi; rw [if_pos hd]
    have hne : c.nelem = (c.nx - 1) * (c.ny - 1) * (2 - 1) := by
      unfold Cfg.nelem; rw [if_pos hd]; omega
    obtain ⟨e0, s0, h1, h2, h3, -⟩ := calcFields2_eq hc hd h.ok
    obtain ⟨e1, s1, k1, k2, k3, k4⟩ := calcFields2_eq hc hd hm
    obtain ⟨e2, s2, l1, l2, l3, l4⟩ := calcFields2_eq hc hd h.ok'
    rw [h1, k1] at key
    obtain ⟨a1, a2, a3⟩ := key
    have hE : ∀ k, k < c.nelem * c.nvoi → e1.val k = e2.val k ∧ s1.val k = s2.val k := by
      intro k hk
      rw [hv] at hk
      obtain ⟨ex, ey, ez, hx, hy, hz, e⟩ := gloElem_surj (nx := c.nx) (ny := c.ny) (nz := 2)
        (e := k / 3) (by rw [← hne]; omega)
      have hz0 : ez = 0 := by omega
      subst hz0
      have hk3 : k = c.el ex ey 0 * 3 + k % 3 := by
        show k = gloElem3D c.nx c.ny ex ey 0 * 3 + k % 3
        rw [← e]; omega
      have q1 := k4 ex ey (k % 3) hx hy (by omega)
      have q2 := l4 ex ey (k % 3) hx hy (by omega)
      rw [← hk3] at q1 q2
      exact ⟨q1.1.trans q2.1.symm, q1.2.trans q2.2.symm⟩
    rw [h1, l1]
    have b2 : Same e1 e2 := ⟨by rw [k2, l2], fun k hk => (hE k (by rw [← k2]; exact hk)).1⟩
    have b3 : Same s1 s2 := ⟨by rw [k3, l3], fun k hk => (hE k (by rw [← k3]; exact hk)).2⟩
    exact ⟨⟨⟨h.ok.u, h.ok.du, h.ok.b, h3, h2, h.ok.varsOld, h.ok.varsNew, h.ok.A2, h.ok.A3⟩,
      ⟨h.ok'.u, h.ok'.du, h.ok'.b, l3, l2, h.ok'.varsOld, h.ok'.varsNew, h.ok'.A2, h.ok'.A3⟩,
      h.tick, h.A, h.u, h.old, h.new⟩, hb, tr a2 b2, tr a3 b3⟩
  · have hv : c.nvoi = 6 := by unfold Cfg.nvoi; rw [if_neg (by omega)]
    have hne : c.nelem = (c.nx - 1) * (c.ny - 1) * (c.nz - 1) := by
      unfold Cfg.nelem; rw [if_neg (by omega)]
    obtain ⟨e0, s0, h1, h2, h3, -⟩ := calcFields3_eq hc hd h.ok
    obtain ⟨e1, s1, k1, k2, k3, k4⟩ := calcFields3_eq hc hd hm
    obtain ⟨e2, s2, l1, l2, l3, l4⟩ := calcFields3_eq hc hd h.ok'
    rw [h1, k1] at key
    obtain ⟨a1, a2, a3⟩ := key
    have hE : ∀ k, k < c.nelem * c.nvoi → e1.val k = e2.val k ∧ s1.val k = s2.val k := by
      intro k hk
      rw [hv] at hk
      obtain ⟨ex, ey, ez, hx, hy, hz, e⟩ := gloElem_surj (nx := c.nx) (ny := c.ny) (nz := c.nz)
        (e := k / 6) (by rw [← hne]; omega)
      have hk3 : k = c.el ex ey ez * 6 + k % 6 := by
        show k = gloElem3D c.nx c.ny ex ey ez * 6 + k % 6
        rw [← e]; omega
      have q1 := k4 ex ey ez (k % 6) hx hy hz (by omega)
      have q2 := l4 ex ey ez (k % 6) hx hy hz (by omega)
      rw [← hk3] at q1 q2
      exact ⟨q1.1.trans q2.1.symm, q1.2.trans q2.2.symm⟩
    rw [h1, l1]
    have b2 : Same e1 e2 := ⟨by rw [k2, l2], fun k hk => (hE k (by rw [← k2]; exact hk)).1⟩
    have b3 : Same s1 s2 := ⟨by rw [k3, l3], fun k hk => (hE k (by rw [← k3]; exact hk)).2⟩
    exact ⟨⟨⟨h.ok.u, h.ok.du, h.ok.b, h3, h2, h.ok.varsOld, by simpa using h.ok.varsNew, h.ok.A2,
      h.ok.A3⟩, ⟨h.ok'.u, h.ok'.du, h.ok'.b, l3, l2, h.ok'.varsOld, by simpa using h.ok'.varsNew,
      h.ok'.A2, h.ok'.A3⟩, h.tick, h.A, h.u, h.old, a1⟩, hb, tr a2 b2, tr a3 b3⟩

theorem writeVtu_alt {ma : Nat → Material α} {et : Buf Int} {ct : Nat → α} (h : Same c.elemType et)
    (w : Work α) : writeVtu (c.alt ma et ct) w = writeVtu c w := by
  have hE : vtuElemType (c.alt ma et ct) = vtuElemType c := by
    have hr : et.read = c.elemType.read := (funext h.read).symm
    unfold vtuElemType
    show emit c.nelem (fun e => do let t ← et.read e; pure [.int t, .sp]) = _
    rw [hr]
  unfold writeVtu
  rw [hE]; rfl

theorem writeVtu_same (h : CfgSame c c') {w w' : Work α} (hw : WorkSame c w w') (hb : Same w.b w'.b)
    (he : Same w.elemStrain w'.elemStrain) (hs : Same w.elemStress w'.elemStress) :
    writeVtu c' w' = writeVtu c w := by
  have h1 : vtuNodal c w'.u = vtuNodal c w.u := by unfold vtuNodal; rw [funext hw.u.read]
  have h2 : vtuNodal c w'.b = vtuNodal c w.b := by unfold vtuNodal; rw [funext hb.read]
  have h3 : vtuElem c w'.elemStrain = vtuElem c w.elemStrain := by
    unfold vtuElem; rw [funext he.read]
  have h4 : vtuElem c w'.elemStress = vtuElem c w.elemStress := by
    unfold vtuElem; rw [funext hs.read]
  have h5 : vtuPlasticity c w'.varsOld = vtuPlasticity c w.varsOld := by
    unfold vtuPlasticity plastNorm
    simp only [gather_same hw.old]
  have h6 : vtuHardening c w'.varsOld = vtuHardening c w.varsOld := by
    unfold vtuHardening; rw [funext hw.old.read]
  rw [h.alt, writeVtu_alt h.elem]
  unfold writeVtu
  rw [h1, h2, h3, h4, h5, h6]

end Verif
