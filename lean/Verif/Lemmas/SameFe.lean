import Verif.Lemmas.Same

/-! # Two runs: assembly, Newton and averages -/

namespace Verif

variable {α : Type} [Scalar α]

theorem Same.readFun {b b' : Buf α} (h : Same b b') : b.read = b'.read := funext h.read

theorem gather_same {u u' : Buf α} (h : Same u u') (n : Nat) (ix : Nat → Nat) :
    gather n u ix = gather n u' ix := by
  unfold gather
  rw [h.readFun]

theorem getStrain2D_same (c : Cfg α) {u u' : Buf α} (h : Same u u') :
    getStrain2D c u = getStrain2D c u' := by
  funext ex ey gp
  unfold getStrain2D getElemDisp2D
  rw [gather_same h]

theorem getStrain3D_same (c : Cfg α) {u u' : Buf α} (h : Same u u') :
    getStrain3D c u = getStrain3D c u' := by
  funext ex ey ez gp
  unfold getStrain3D getElemDisp3D
  rw [gather_same h]

theorem getStress3D_same (c : Cfg α) {o o' v v' : Buf α} (ho : Same o o') (hv : Same v v')
    (ex ey ez gp : Nat) (eps : Nat → α) :
    Rel (fun r r' => r.nl = r'.nl ∧ r.stress = r'.stress ∧ Same r.varsNew r'.varsNew)
      (getStress3D c o v ex ey ez gp eps) (getStress3D c o' v' ex ey ez gp eps) := by
  unfold getStress3D
  refine Rel.eqBind rfl fun m => ?_
  split
  · refine Rel.eqBind (gather_same ho _ _) fun p => Rel.eqBind (ho.read _) fun a => ?_
    refine Rel.bind (Rel.loop hv fun _ _ _ _ hs => hs.write _ _) fun s s' hs => ?_
    exact Rel.bind (hs.write _ _) fun s s' hs => Rel.pure ⟨rfl, rfl, hs⟩
  · exact Rel.pure ⟨rfl, rfl, hv⟩

theorem getElemRhs2D_same (c : Cfg α) {u u' : Buf α} (h : Same u u') :
    getElemRhs2D c u = getElemRhs2D c u' := by
  funext ex ey
  unfold getElemRhs2D
  rw [getStrain2D_same c h]

theorem getElemRhs3D_same (c : Cfg α) {u u' o o' v v' : Buf α} (hu : Same u u') (ho : Same o o')
    (hv : Same v v') (ex ey ez : Nat) (nl : Bool) :
    Rel (fun r r' => r.be = r'.be ∧ r.nl = r'.nl ∧ Same r.varsNew r'.varsNew)
      (getElemRhs3D c u o v ex ey ez nl) (getElemRhs3D c u' o' v' ex ey ez nl) := by
  unfold getElemRhs3D
  refine Rel.loop ⟨rfl, rfl, hv⟩ fun gp s s' _ hs => ?_
  refine Rel.eqBind (by rw [getStrain3D_same c hu]) fun eps => ?_
  refine Rel.bind (getStress3D_same c ho hs.2.2 _ _ _ _ _) fun r r' hr => Rel.pure ⟨?_, hr.1, hr.2.2⟩
  funext i
  rw [hs.1, hr.2.1]

theorem scatterAdd_same (n : Nat) (ix : Nat → Nat) (be : Nat → α) {b b' : Buf α} (h : Same b b') :
    Rel Same (scatterAdd n ix be b) (scatterAdd n ix be b') :=
  Rel.loop h fun _ _ _ _ hs => Rel.eqBind (hs.read _) fun _ => hs.write _ _

theorem zeroNode_same (dim n : Nat) {b b' : Buf α} (h : Same b b') :
    Rel Same (zeroNode dim n b) (zeroNode dim n b') :=
  Rel.loop h fun _ _ _ _ hs => hs.write _ _

theorem rhsBc2D_same (c : Cfg α) {b b' : Buf α} (h : Same b b') :
    Rel Same (rhsBc2D c b) (rhsBc2D c b') := by
  unfold rhsBc2D
  refine Rel.bind (Rel.loop h fun _ _ _ _ hs => zeroNode_same _ _ hs) fun b b' h => ?_
  refine Rel.bind (Rel.loop h fun _ _ _ _ hs => zeroNode_same _ _ hs) fun b b' h => ?_
  refine Rel.bind (Rel.loop h fun _ _ _ _ hs => zeroNode_same _ _ hs) fun b b' h => ?_
  exact Rel.loop h fun _ _ _ _ hs => zeroNode_same _ _ hs

theorem rhsBc3D_same (c : Cfg α) {b b' : Buf α} (h : Same b b') :
    Rel Same (rhsBc3D c b) (rhsBc3D c b') := by
  unfold rhsBc3D
  refine Rel.bind (Rel.loop h fun _ _ _ _ hs => Rel.loop hs fun _ _ _ _ hs => zeroNode_same _ _ hs)
    fun b b' h => ?_
  refine Rel.bind (Rel.loop h fun _ _ _ _ hs => Rel.loop hs fun _ _ _ _ hs => zeroNode_same _ _ hs)
    fun b b' h => ?_
  refine Rel.bind (Rel.loop h fun _ _ _ _ hs => Rel.loopFrom hs fun _ _ _ hs => zeroNode_same _ _ hs)
    fun b b' h => ?_
  refine Rel.bind (Rel.loop h fun _ _ _ _ hs => Rel.loopFrom hs fun _ _ _ hs => zeroNode_same _ _ hs)
    fun b b' h => ?_
  refine Rel.bind (Rel.loopFrom h fun _ _ _ hs => Rel.loopFrom hs fun _ _ _ hs =>
    zeroNode_same _ _ hs) fun b b' h => ?_
  exact Rel.loopFrom h fun _ _ _ hs => Rel.loopFrom hs fun _ _ _ hs => zeroNode_same _ _ hs

theorem negNorm_same (n : Nat) {b b' : Buf α} (h : Same b b') :
    Rel (fun r r' => Same r.1 r'.1 ∧ r.2 = r'.2) (negNorm n b) (negNorm n b') := by
  unfold negNorm
  refine Rel.bind (Rel.loop h fun _ _ _ _ hs => Rel.eqBind (hs.read _) fun _ => hs.write _ _)
    fun b b' h => ?_
  exact Rel.eqBind (by rw [h.readFun]) fun s => Rel.pure ⟨h, rfl⟩

theorem rhsElem3D_same (c : Cfg α) {u u' o o' : Buf α} (hu : Same u u') (ho : Same o o')
    (ex ey ez : Nat) {s s' : RhsState α}
    (hs : Same s.b s'.b ∧ s.nl = s'.nl ∧ s.nlOne = s'.nlOne ∧ Same s.varsNew s'.varsNew) :
    Rel (fun s s' => Same s.b s'.b ∧ s.nl = s'.nl ∧ s.nlOne = s'.nlOne ∧ Same s.varsNew s'.varsNew)
      (rhsElem3D c u o ex ey ez s) (rhsElem3D c u' o' ex ey ez s') := by
  unfold rhsElem3D
  rw [← hs.2.2.1, ← hs.2.1]
  refine Rel.bind (getElemRhs3D_same c hu ho hs.2.2.2 _ _ _ _) fun r r' hr => ?_
  rw [← hr.1, ← hr.2.1]
  exact Rel.bind (scatterAdd_same _ _ _ hs.1) fun b b' hb => Rel.pure ⟨hb, rfl, rfl, hr.2.2⟩

/-- Both states fit the configuration and agree on what is read before it is assigned: event
counter, matrix pattern, displacements and internal variables.  The residual, the increment, the
matrix values, the element fields and `inv_max` are arbitrary. -/
structure WorkSame (c : Cfg α) (w w' : Work α) : Prop where
  ok : w.Ok c
  ok' : w'.Ok c
  tick : w.tick = w'.tick
  A : EllShape w.A w'.A
  u : Same w.u w'.u
  old : Same w.varsOld w'.varsOld
  new : Same w.varsNew w'.varsNew

variable {c : Cfg α}

theorem WorkSame.of_ok {w w' w1 w1' : Work α} (h : WorkSame c w w') (hf : w1.Ok c) (hf' : w1'.Ok c)
    (ht : w1.tick = w1'.tick) (hA : EllShape w1.A w1'.A) (hu : Same w1.u w1'.u)
    (ho : Same w1.varsOld w1'.varsOld) (hn : Same w1.varsNew w1'.varsNew) : WorkSame c w1 w1' :=
  ⟨hf, hf', ht, hA, hu, ho, hn⟩

theorem zero_same {n : Nat} {b b' : Buf α} (hb : b.size = n) (hb' : b'.size = n) :
    Rel Same (loop n (fun i b => Buf.write b i 0) b) (loop n (fun i b => Buf.write b i 0) b') := by
  rw [zeroDu_eq hb, zeroDu_eq hb']
  refine ⟨rfl, fun k hk => ?_⟩
  have hk : k < n := hk
  show (if k < n then (0 : α) else _) = if k < n then 0 else _
  rw [if_pos hk, if_pos hk]

theorem assemblyRhs_same (hc : c.Ok) {w w' : Work α} (h : WorkSame c w w') :
    Rel (fun r r' => WorkSame c r.work r'.work ∧ Same r.work.b r'.work.b ∧
        (EllSame w.A w'.A → EllSame r.work.A r'.work.A) ∧ r.norm = r'.norm ∧ r.nl = r'.nl)
      (assemblyRhs c w) (assemblyRhs c w') := by
  obtain ⟨b, vn, nm, nl, e, F⟩ := rhs_ok hc h.ok
  obtain ⟨b', vn', nm', nl', e', F'⟩ := rhs_ok hc h.ok'
  have key : Rel (fun r r' => Same r.work.b r'.work.b ∧ Same r.work.varsNew r'.work.varsNew ∧
      r.norm = r'.norm ∧ r.nl = r'.nl) (assemblyRhs c w) (assemblyRhs c w') := by
    unfold assemblyRhs
    refine Rel.bind (zero_same h.ok.b h.ok'.b) fun b b' hb => ?_
    split
    · refine Rel.bind (R := Same) ?_ fun b b' hb => ?_
      · refine Rel.loop hb fun ex _ _ _ hs => Rel.loop hs fun ey _ _ _ hs => ?_
        unfold rhsElem2D
        exact Rel.eqBind (by rw [getElemRhs2D_same c h.u]) fun be => scatterAdd_same _ _ _ hs
      refine Rel.bind (rhsBc2D_same c hb) fun b b' hb => ?_
      exact Rel.bind (negNorm_same _ hb) fun r r' hr => Rel.pure ⟨hr.1, h.new, hr.2, rfl⟩
    · split
      · refine Rel.bind (R := fun s s' => Same s.b s'.b ∧ s.nl = s'.nl ∧ s.nlOne = s'.nlOne ∧
          Same s.varsNew s'.varsNew) ?_ fun s s' hs => ?_
        · exact Rel.loop ⟨hb, rfl, rfl, h.new⟩ fun ex _ _ _ hs => Rel.loop hs fun ey _ _ _ hs =>
            Rel.loop hs fun ez _ _ _ hs => rhsElem3D_same c h.u h.old _ _ _ hs
        refine Rel.bind (rhsBc3D_same c hs.1) fun b b' hb => ?_
        exact Rel.bind (negNorm_same _ hb) fun r r' hr => Rel.pure ⟨hr.1, hs.2.2.2, hr.2, hs.2.1⟩
      · exact Rel.bind (negNorm_same _ hb) fun r r' hr => Rel.pure ⟨hr.1, h.new, hr.2, rfl⟩
  refine key.mono fun x y hx hy hxy => ?_
  rw [e] at hx
  rw [e'] at hy
  cases hx
  cases hy
  exact ⟨⟨F.ok, F'.ok, h.tick, h.A, h.u, h.old, hxy.2.1⟩, hxy.1, fun hA => hA, hxy.2.2.1, hxy.2.2.2⟩

theorem getCtanPlastPert_same {u u' o o' v v' : Buf α} (hu : Same u u') (ho : Same o o')
    (hv : Same v v') (ex ey ez gp : Nat) :
    Rel (fun r r' => r.ctan = r'.ctan ∧ Same r.varsNew r'.varsNew)
      (getCtanPlastPert c u o v ex ey ez gp) (getCtanPlastPert c u' o' v' ex ey ez gp) := by
  unfold getCtanPlastPert
  refine Rel.eqBind (by rw [getStrain3D_same c hu]) fun eps => ?_
  refine Rel.bind (getStress3D_same c ho hv _ _ _ _ _) fun s0 s0' hs0 => ?_
  refine Rel.loop ⟨rfl, hs0.2.2⟩ fun i s s' _ hs => ?_
  refine Rel.bind (getStress3D_same c ho hs.2 _ _ _ _ _) fun r r' hr => Rel.pure ⟨?_, hr.2.2⟩
  funext j l
  rw [hr.2.1, hs0.2.1, hs.1]

theorem getElemMat3D_same {u u' o o' v v' : Buf α} (hu : Same u u') (ho : Same o o')
    (hv : Same v v') (ex ey ez : Nat) :
    Rel (fun r r' => r.Ae = r'.Ae ∧ Same r.varsNew r'.varsNew)
      (getElemMat3D c u o v ex ey ez) (getElemMat3D c u' o' v' ex ey ez) := by
  unfold getElemMat3D
  refine Rel.eqBind rfl fun m => ?_
  refine Rel.loop ⟨rfl, hv⟩ fun gp s s' _ hs => ?_
  dsimp only
  split
  · refine Rel.bind (getCtanPlastPert_same hu ho hs.2 _ _ _ _) fun r r' hr => Rel.pure ⟨?_, hr.2⟩
    funext q
    rw [hr.1, hs.1]
  · refine Rel.pure ⟨?_, hs.2⟩
    funext q
    rw [hs.1]

theorem assemblyMat_same (hc : c.Ok) {w w' : Work α} (h : WorkSame c w w') :
    Rel (fun r r' => EllSame r.A r'.A ∧ Same r.varsNew r'.varsNew)
      (assemblyMat c w) (assemblyMat c w') := by
  obtain ⟨hA, -⟩ := h.ok.wf hc
  obtain ⟨hA', -⟩ := h.ok'.wf hc
  unfold assemblyMat
  refine Rel.bind (setZero_same hA.vals_size hA'.vals_size h.A) fun A A' hA => ?_
  split
  · refine Rel.bind (R := EllSame) ?_ fun A A' hA => ?_
    · refine Rel.loop hA fun ex _ _ _ hs => Rel.loop hs fun ey _ _ _ hs => ?_
      exact Rel.eqBind rfl fun Ae => addStruct2D_same hs (Same.rfl' _) _ _ _ _ _
    · exact Rel.bind (setBc2D_same hA _ _ _) fun A A' hA => Rel.pure ⟨hA, h.new⟩
  · split
    · refine Rel.bind (R := fun s s' => EllSame s.A s'.A ∧ Same s.varsNew s'.varsNew) ?_
        fun s s' hs => ?_
      · refine Rel.loop ⟨hA, h.new⟩ fun ex _ _ _ hs => Rel.loop hs fun ey _ _ _ hs =>
          Rel.loop hs fun ez s s' _ hs => ?_
        refine Rel.bind (getElemMat3D_same h.u h.old hs.2 _ _ _) fun r r' hr => ?_
        refine Rel.bind (addStruct3D_same hs.1 (by rw [hr.1]; exact Same.rfl' _) _ _ _ _ _ _ _)
          fun A A' hA => Rel.pure ⟨hA, hr.2⟩
      · exact Rel.bind (setBc3D_same hs.1 _ _ _ _) fun A A' hA => Rel.pure ⟨hA, hs.2⟩
    · exact Rel.pure ⟨hA, h.new⟩

/-! ## Newton -/

/-- The environments agree on what decides the course of the program: the budget of the Newton
loop, the memory behind the iteration counter, and the members of a new Gauss point.  Work buffers
and unassigned locals of the solver are arbitrary. -/
structure EnvSame (env env' : Env α) : Prop where
  fuel : env.fuel = env'.fuel
  peek : env.peek = env'.peek
  gpJunk : env.gpJunk = env'.gpJunk

variable {env env' : Env α}

theorem solve_same (hc : c.Ok) {w w' : Work α} (h : WorkSame c w w') (hA : EllSame w.A w'.A)
    (hb : Same w.b w'.b) (hd : Same w.du w'.du) :
    Rel (fun r r' => Same r.du r'.du) (solve env c w) (solve env' c w') := by
  obtain ⟨hm, hn⟩ := h.ok.wf hc
  obtain ⟨hm', -⟩ := h.ok'.wf hc
  unfold solve
  rcases hc.dim with d | d
  · rw [if_pos d, if_pos d]
    unfold ellSolveCgpd2D
    refine Rel.bind (R := fun r r' => ∃ x x', r.2.2 = some x ∧ r'.2.2 = some x' ∧ Same x x') ?_ ?_
    · refine Rel.bind (cgSolve_same hm hm' hA (W := 9) ?_ (by omega) ?_ ?_ ?_ hb hd _ _ _ _ rfl rfl)
        fun r r' hr => Rel.pure ⟨_, _, rfl, rfl, hr.1⟩
      · rw [(h.ok.A2 d).nnz, d]
      · rw [hn, hc.nn2 d]
      · rw [hn, h.ok.b]
      · rw [hn, h.ok.du]
    · rintro r r' ⟨x, x', e, e', hx⟩
      refine Rel.pure ?_
      show Same (r.2.2.getD w.du) (r'.2.2.getD w'.du)
      rw [e, e']; exact hx
  · rw [if_neg (by omega), if_pos d, if_neg (by omega), if_pos d]
    unfold ellSolveCgpdStruct
    refine Rel.bind (R := fun r r' => ∃ x x', r.2.2 = some x ∧ r'.2.2 = some x' ∧ Same x x') ?_ ?_
    · refine Rel.bind (cgSolve_same hm hm' hA (W := 27) ?_ ?_ ?_ ?_ ?_ hb hd _ _ _ _ rfl rfl)
        fun r r' hr => Rel.pure ⟨_, _, rfl, rfl, hr.1⟩
      · rw [(h.ok.A3 d).nnz, d]
      · split <;> omega
      · rw [hn, if_pos (Or.inr d)]
      · rw [hn, h.ok.b]
      · rw [hn, h.ok.du]
    · rintro r r' ⟨x, x', e, e', hx⟩
      refine Rel.pure ?_
      show Same (r.2.2.getD w.du) (r'.2.2.getD w'.du)
      rw [e, e']; exact hx

theorem nrCorrect_same (hc : c.Ok) {w w' : Work α} (h : WorkSame c w w') (hb : Same w.b w'.b) :
    Rel (fun r r' => WorkSame c r r' ∧ Same r.b r'.b) (nrCorrect env c w) (nrCorrect env' c w') := by
  obtain ⟨A, vn, du, h1, h2, h3, F⟩ := nrCorrect_eq (env := env) hc h.ok
  obtain ⟨A', vn', du', h1', h2', h3', F'⟩ := nrCorrect_eq (env := env') hc h.ok'
  have hM := assemblyMat_same hc h
  rw [h1, h1'] at hM
  obtain ⟨hA, hv⟩ : EllSame A A' ∧ Same vn vn' := hM
  have hS := solve_same (env := env) (env' := env') hc
    (w := { w with
      A := A, varsNew := vn
      du := ⟨c.nn * c.dim, fun k => if k < c.nn * c.dim then 0 else w.du.val k⟩ })
    (w' := { w' with
      A := A', varsNew := vn'
      du := ⟨c.nn * c.dim, fun k => if k < c.nn * c.dim then 0 else w'.du.val k⟩ })
    ⟨⟨h.ok.u, rfl, h.ok.b, h.ok.elemStress, h.ok.elemStrain, h.ok.varsOld, F.ok.varsNew, F.ok.A2,
      F.ok.A3⟩, ⟨h.ok'.u, rfl, h.ok'.b, h.ok'.elemStress, h.ok'.elemStrain, h.ok'.varsOld,
      F'.ok.varsNew, F'.ok.A2, F'.ok.A3⟩, h.tick, hA.shape, h.u, h.old, hv⟩ hA hb
    ⟨rfl, fun k hk => by
      have hk : k < c.nn * c.dim := hk
      show (if k < c.nn * c.dim then (0 : α) else _) = if k < c.nn * c.dim then 0 else _
      rw [if_pos hk, if_pos hk]⟩
  rw [h2, h2'] at hS
  have hS : Same du du' := hS
  rw [h3, h3']
  refine ⟨⟨F.ok, F'.ok, by show w.tick + 1 = w'.tick + 1; rw [h.tick], hA.shape, ⟨rfl, ?_⟩, h.old,
    hv⟩, hb⟩
  intro k hk
  have hk : k < c.nn * c.dim := hk
  show (if k < c.nn * c.dim then _ else _) = if k < c.nn * c.dim then _ else _
  have e1 := h.u.2 k (by rw [h.ok.u]; exact hk)
  have e2 := hS.2 k (by have := F.ok.du; change du.size = _ at this; rw [this]; exact hk)
  rw [if_pos hk, if_pos hk, e1, e2]

theorem nrLoop_same (hc : c.Ok) (he : EnvSame env env') (fuel : Nat) {w w' : Work α}
    (h : WorkSame c w w') :
    Rel (fun r r' => WorkSame c r.work r'.work ∧ Same r.work.b r'.work.b ∧ r.nl = r'.nl ∧
      r.its = r'.its ∧ r.err = r'.err) (nrLoop env c fuel w) (nrLoop env' c fuel w') := by
  induction fuel generalizing w w' with
  | zero => exact rfl
  | succ fuel ih =>
    rw [nrLoop, nrLoop]
    refine Rel.bind (assemblyRhs_same hc h) fun r r' hr => ?_
    obtain ⟨h1, h2, -, h3, h4⟩ := hr
    rw [← h3, ← h4]
    split
    · exact Rel.pure ⟨h1, h2, rfl, rfl, rfl⟩
    · refine Rel.bind (nrCorrect_same hc h1 h2) fun v v' hv => ?_
      rw [← he.peek, ← hv.1.tick]
      have hT : WorkSame c { v with tick := v.tick + 1 } { v' with tick := v.tick + 1 } :=
        ⟨hv.1.ok.tickTo _, hv.1.ok'.tickTo _, rfl, hv.1.A, hv.1.u, hv.1.old, hv.1.new⟩
      split
      · exact rfl
      · dsimp only
        split
        · exact ih hT
        · exact Rel.pure ⟨hT, hv.2, rfl, rfl, rfl⟩

theorem newtonRaphson_same (hc : c.Ok) (he : EnvSame env env') {w w' : Work α}
    (h : WorkSame c w w') :
    Rel (fun r r' => WorkSame c r.work r'.work ∧ Same r.work.b r'.work.b ∧ r.nl = r'.nl ∧
      r.its = r'.its ∧ r.err = r'.err) (newtonRaphson env c w) (newtonRaphson env' c w') := by
  unfold newtonRaphson
  rw [← he.fuel]
  exact nrLoop_same hc he _ h

/-! ## Boundary values, averages -/

theorem setNode_same (dim n : Nat) (f : Nat → α) {u u' : Buf α} (h : Same u u') :
    Rel Same (setNode dim n f u) (setNode dim n f u') :=
  Rel.loop h fun _ _ _ _ hs => hs.write _ _

theorem setDispl2D_same (eps : Nat → α) {u u' : Buf α} (h : Same u u') :
    Rel Same (setDispl2D c eps u) (setDispl2D c eps u') := by
  unfold setDispl2D
  refine Rel.bind (Rel.loop h fun _ _ _ _ hs => setNode_same _ _ _ hs) fun b b' h => ?_
  refine Rel.bind (Rel.loop h fun _ _ _ _ hs => setNode_same _ _ _ hs) fun b b' h => ?_
  refine Rel.bind (Rel.loop h fun _ _ _ _ hs => setNode_same _ _ _ hs) fun b b' h => ?_
  exact Rel.loop h fun _ _ _ _ hs => setNode_same _ _ _ hs

theorem setDispl3D_same (eps : Nat → α) {u u' : Buf α} (h : Same u u') :
    Rel Same (setDispl3D c eps u) (setDispl3D c eps u') := by
  unfold setDispl3D
  refine Rel.bind (Rel.loop h fun _ _ _ _ hs => Rel.loop hs fun _ _ _ _ hs => setNode_same _ _ _ hs)
    fun b b' h => ?_
  refine Rel.bind (Rel.loop h fun _ _ _ _ hs => Rel.loop hs fun _ _ _ _ hs => setNode_same _ _ _ hs)
    fun b b' h => ?_
  refine Rel.bind (Rel.loop h fun _ _ _ _ hs => Rel.loopFrom hs fun _ _ _ hs =>
    setNode_same _ _ _ hs) fun b b' h => ?_
  refine Rel.bind (Rel.loop h fun _ _ _ _ hs => Rel.loopFrom hs fun _ _ _ hs =>
    setNode_same _ _ _ hs) fun b b' h => ?_
  refine Rel.bind (Rel.loopFrom h fun _ _ _ hs => Rel.loopFrom hs fun _ _ _ hs =>
    setNode_same _ _ _ hs) fun b b' h => ?_
  exact Rel.loopFrom h fun _ _ _ hs => Rel.loopFrom hs fun _ _ _ hs => setNode_same _ _ _ hs

theorem setDispl_same (hc : c.Ok) {w w' : Work α} (h : WorkSame c w w') (eps : Nat → α) :
    Rel (fun r r' => WorkSame c r r') (setDispl c w eps) (setDispl c w' eps) := by
  obtain ⟨u, e, F⟩ := setDispl_ok hc h.ok eps
  obtain ⟨u', e', F'⟩ := setDispl_ok hc h.ok' eps
  have key : Rel (fun r r' => Same r.u r'.u) (setDispl c w eps) (setDispl c w' eps) := by
    unfold setDispl
    split
    · exact Rel.bind (setDispl2D_same eps h.u) fun u u' hu => Rel.pure hu
    · split
      · exact Rel.bind (setDispl3D_same eps h.u) fun u u' hu => Rel.pure hu
      · exact Rel.pure h.u
  rw [e, e'] at key ⊢
  exact ⟨F.ok, F'.ok, h.tick, h.A, key, h.old, h.new⟩

theorem calcAveStress_same (hc : c.Ok) {w w' : Work α} (h : WorkSame c w w') :
    Rel (fun a a' => a.ave = a'.ave ∧ WorkSame c { w with varsNew := a.varsNew }
      { w' with varsNew := a'.varsNew }) (calcAveStress c w) (calcAveStress c w') := by
  obtain ⟨av, vn, e, F⟩ := calcAveStress_ok hc h.ok
  obtain ⟨av', vn', e', F'⟩ := calcAveStress_ok hc h.ok'
  have key : Rel (fun a a' => a.ave = a'.ave ∧ Same a.varsNew a'.varsNew)
      (calcAveStress c w) (calcAveStress c w') := by
    unfold calcAveStress
    split
    · refine Rel.eqBind ?_ fun a => Rel.pure ⟨rfl, h.new⟩
      unfold aveStressElem2D
      rw [getStrain2D_same c h.u]
    · split
      · refine Rel.bind (R := fun (a a' : AveState α) => a.ave = a'.ave ∧ Same a.varsNew a'.varsNew)
          ?_ fun a a' ha => Rel.pure ⟨by rw [ha.1], ha.2⟩
        refine Rel.loop ⟨rfl, h.new⟩ fun ex _ _ _ hs => Rel.loop hs fun ey _ _ _ hs =>
          Rel.loop hs fun ez s s' _ hs => ?_
        unfold aveStressElem3D
        refine Rel.bind
          (R := fun (a a' : AveState α) => a.ave = a'.ave ∧ Same a.varsNew a'.varsNew) ?_
          fun a a' ha => Rel.pure ⟨by rw [ha.1, hs.1], ha.2⟩
        refine Rel.loop ⟨rfl, hs.2⟩ fun gp a a' _ ha => ?_
        refine Rel.eqBind (by rw [getStrain3D_same c h.u]) fun eps => ?_
        exact Rel.bind (getStress3D_same c h.old ha.2 _ _ _ _ _) fun r r' hr =>
          Rel.pure ⟨by rw [ha.1, hr.2.1], hr.2.2⟩
      · exact Rel.pure ⟨rfl, h.new⟩
  rw [e, e'] at key ⊢
  exact ⟨key.1, F.ok, F'.ok, h.tick, h.A, h.u, h.old, key.2⟩

theorem solveStrain_same (hc : c.Ok) (he : EnvSame env env') {w w' : Work α}
    (h : WorkSame c w w') (eps : Nat → α) :
    Rel (fun r r' => r.sig = r'.sig ∧ WorkSame c r.nr.work r'.nr.work ∧ r.nr.nl = r'.nr.nl ∧
      r.nr.its = r'.nr.its ∧ r.nr.err = r'.nr.err)
      (solveStrain env c w eps) (solveStrain env' c w' eps) := by
  unfold solveStrain
  refine Rel.bind (setDispl_same hc h eps) fun w w' h => ?_
  refine Rel.bind (newtonRaphson_same hc he h) fun r r' hr => ?_
  exact Rel.bind (calcAveStress_same hc hr.1) fun a a' ha =>
    Rel.pure ⟨ha.1, ha.2, hr.2.2.1, hr.2.2.2.1, hr.2.2.2.2⟩

end Verif
