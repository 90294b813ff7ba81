import Verif.Lemmas.Build
import Verif.Lemmas.Fields
import Verif.Lemmas.State
import Verif.Props.Cg

/-!
# Memory safety of the solver for every scalar type

`Sane env P m`: the computation returns a value with `P`, or the step budget ends, or the strict
reading of `*its` is undefined behaviour.  In an environment where `*its` reads at least 40 the Newton
loop makes one pass and the budget does not end.
-/

namespace Verif
open Spec

variable {α : Type} [Scalar α]

/-- The Newton loop is left after its first pass. -/
def Env.Quick (env : Env α) : Prop := 1 ≤ env.fuel ∧ ∀ t, ∃ v, env.peek t = some v ∧ 40 ≤ v

def Sane {β : Type} (env : Env α) (P : β → Prop) (m : M β) : Prop :=
  (∃ x, m = .ok x ∧ P x) ∨ (m = .error .fuel ∧ ¬ env.Quick) ∨ (m = .error .oob ∧ ∃ t, env.peek t = none)

namespace Sane
variable {env : Env α}

theorem ok {β : Type} {P : β → Prop} {x : β} (h : P x) : Sane env P (.ok x) := Or.inl ⟨x, rfl, h⟩

theorem bind {β γ : Type} {P : β → Prop} {Q : γ → Prop} {m : M β} {f : β → M γ}
    (h : Sane env P m) (hf : ∀ x, P x → Sane env Q (f x)) : Sane env Q (m >>= f) := by
  rcases h with ⟨x, rfl, hx⟩ | ⟨rfl, hq⟩ | ⟨rfl, ht⟩
  · exact hf x hx
  · exact Or.inr (Or.inl ⟨rfl, hq⟩)
  · exact Or.inr (Or.inr ⟨rfl, ht⟩)

theorem returns {β : Type} {P : β → Prop} {m : M β} (h : Sane env P m) (hq : env.Quick) :
    ∃ x, m = .ok x ∧ P x := by
  rcases h with h | ⟨-, h⟩ | ⟨-, t, ht⟩
  · exact h
  · exact absurd hq h
  · obtain ⟨v, hv, -⟩ := hq.2 t
    rw [ht] at hv
    cases hv

theorem mono {β : Type} {P Q : β → Prop} {m : M β} (h : Sane env P m) (hPQ : ∀ x, P x → Q x) :
    Sane env Q m := by
  rcases h with ⟨x, rfl, hx⟩ | h | h
  · exact Or.inl ⟨x, rfl, hPQ x hx⟩
  · exact Or.inr (Or.inl h)
  · exact Or.inr (Or.inr h)

theorem loop {σ : Type} {P : σ → Prop} {n : Nat} {f : Nat → σ → M σ} {s : σ} (h0 : P s)
    (h : ∀ i s, i < n → P s → Sane env P (f i s)) : Sane env P (Verif.loop n f s) := by
  induction n with
  | zero => exact ok h0
  | succ n ih =>
    rw [loop_succ]
    exact bind (ih fun i s hi => h i s (by omega)) fun x hx => h n x (by omega) hx

end Sane

variable {env : Env α} {c : Cfg α}

/-- What the solver may change in the scratch memory. -/
structure Frame (c : Cfg α) (w w' : Work α) : Prop where
  ok : w'.Ok c
  elemStress : w'.elemStress = w.elemStress
  elemStrain : w'.elemStrain = w.elemStrain
  varsOld : w'.varsOld = w.varsOld
  invMax : w'.invMax = w.invMax
  same : SameElastic c w.varsNew w'.varsNew
  tick : w.tick ≤ w'.tick

theorem Frame.rfl' {w : Work α} (hw : w.Ok c) : Frame c w w :=
  ⟨hw, rfl, rfl, rfl, rfl, SameElastic.rfl', le_refl _⟩

theorem Frame.trans {w w' w'' : Work α} (h : Frame c w w') (h' : Frame c w' w'') : Frame c w w'' :=
  ⟨h'.ok, h'.elemStress.trans h.elemStress, h'.elemStrain.trans h.elemStrain,
    h'.varsOld.trans h.varsOld, h'.invMax.trans h.invMax, h.same.trans h'.same,
    le_trans h.tick h'.tick⟩

theorem rhs_ok (hc : c.Ok) {w : Work α} (hw : w.Ok c) :
    ∃ b vn nm nl, assemblyRhs c w = .ok
        { work := { w with b := b, varsNew := vn }, norm := nm, nl := nl } ∧
      Frame c w { w with b := b, varsNew := vn } := by
  rcases hc.dim with hd | hd
  · have hN : c.nn * c.dim = c.nx * c.ny * 2 := by rw [hc.nn2 hd, hd]
    refine ⟨_, w.varsNew, _, _, assemblyRhs2_eq hc hd (hw.u2 hc hd) (by rw [hw.b, hN]),
      ⟨⟨hw.u, hw.du, hN.symm, hw.elemStress, hw.elemStrain, hw.varsOld, hw.varsNew, hw.A2, hw.A3⟩,
       rfl, rfl, rfl, rfl, SameElastic.rfl', le_refl _⟩⟩
  · have hN : c.nn * c.dim = c.nx * c.ny * c.nz * 3 := by rw [hd]; rfl
    refine ⟨_, _, _, _, assemblyRhs3_eq hc hd (hw.u3 hd) (by rw [hw.b, hN]) hw.varsOld hw.varsNew,
      ⟨⟨hw.u, hw.du, hN.symm, hw.elemStress, hw.elemStrain, hw.varsOld, ?_, hw.A2, hw.A3⟩,
       rfl, rfl, rfl, rfl, fun k hk => (allPut_puts hd w.varsNew k).2 hk, le_refl _⟩⟩
    simpa using hw.varsNew

/-- The solver call of `solve` fits the matrix. -/
theorem fits2 (hc : c.Ok) (hd : c.dim = 2) {w : Work α} (hw : w.Ok c) :
    (Props.CgApi.cgpd2D c.dim c.nx c.ny).Fits w.A w.b w.du := by
  obtain ⟨h1, h2⟩ := hw.wf hc
  refine ⟨h1, by rw [h2, hc.nn2 hd]; rfl, ⟨9, by show 4 < 9; omega, ?_⟩, (by intro _ _ _ h; cases h),
    by rw [hw.b, h2], by rw [hw.du, h2]⟩
  rw [(hw.A2 hd).nnz]; show _ = 9 * c.dim; rw [hd]

theorem fits3 (hc : c.Ok) (hd : c.dim = 3) {w : Work α} (hw : w.Ok c) :
    (Props.CgApi.cgpdStruct c.dim c.dim c.nn).Fits w.A w.b w.du := by
  obtain ⟨h1, h2⟩ := hw.wf hc
  refine ⟨h1, by rw [h2]; rfl, ⟨27, ?_, ?_⟩, (by intro _ _ _ h; cases h; exact Or.inr hd),
    by rw [hw.b, h2], by rw [hw.du, h2]⟩
  · show (if c.dim = 2 then 4 else 13) < 27
    split <;> omega
  · rw [(hw.A3 hd).nnz]; show _ = 27 * c.dim; rw [hd]

theorem solve_ok (hc : c.Ok) {w : Work α} (hw : w.Ok c) :
    ∃ du, solve env c w = .ok { w with du := du, tick := w.tick + 1 } ∧
      du.size = c.nn * c.dim := by
  have hn := (hw.wf hc).2
  unfold solve
  rcases hc.dim with hd | hd
  · obtain ⟨s, x, h1, h2, -⟩ := Props.C12_terminates (fits2 hc hd hw) (env.cgJunk w.tick)
      { maxIts := cgMaxIts, its := env.solverIts w.tick, minTol := cgMaxTol,
        err := env.solverErr w.tick }
    simp only [Props.CgApi.call] at h1
    refine ⟨x, ?_, by rw [h2, hw.du]⟩
    rw [if_pos hd, h1]
    rfl
  · obtain ⟨s, x, h1, h2, -⟩ := Props.C12_terminates (fits3 hc hd hw) (env.cgJunk w.tick)
      { maxIts := cgMaxIts, its := env.solverIts w.tick, minTol := cgMaxTol,
        err := env.solverErr w.tick }
    simp only [Props.CgApi.call] at h1
    refine ⟨x, ?_, by rw [h2, hw.du]⟩
    rw [if_neg (by omega), if_pos hd, h1]
    rfl

theorem addLoop_eq {n : Nat} {u d : Buf α} (hu : u.size = n) (hd : d.size = n) :
    loop n (fun i u => do
      let a ← Buf.read u i
      let b ← d.read i
      u.write i (a + b)) u = .ok ⟨n, fun k => if k < n then u.val k + d.val k else u.val k⟩ := by
  have key : ∀ m, m ≤ n → loop m (fun i u => do
      let a ← Buf.read u i
      let b ← d.read i
      u.write i (a + b)) u = .ok ⟨n, fun k => if k < m then u.val k + d.val k else u.val k⟩ := by
    intro m
    induction m with
    | zero =>
      intro _
      simp only [loop, Nat.not_lt_zero, if_false]
      cases u; simp only at hu; subst hu; rfl
    | succ m ih =>
      intro hm
      rw [loop_succ, ih (by omega)]
      simp only [M_bind_ok]
      rw [Buf.read_ok (by show m < n; omega), M_bind_ok', Buf.read_ok (by omega), M_bind_ok',
        Buf.write_ok _ (by show m < n; omega)]
      congr 2
      funext k
      simp only [lt_irrefl, if_false]
      by_cases h : k = m
      · subst h; simp
      · have e : (k < m + 1) = (k < m) := by apply propext; omega
        simp only [h, e, if_false]
  exact key n le_rfl

theorem zeroDu_eq {n : Nat} {d : Buf α} (hd : d.size = n) :
    loop n (fun i du => Buf.write du i 0) d
      = .ok ⟨n, fun k => if k < n then 0 else d.val k⟩ := by
  have := zeroInto_eq (n := n) (dst := d) (by omega)
  unfold zeroInto at this
  rw [this, hd]

/-- One correction. -/
theorem nrCorrect_eq (hc : c.Ok) {w : Work α} (hw : w.Ok c) :
    ∃ A vn du, assemblyMat c w = .ok { w with A := A, varsNew := vn } ∧
      solve env c { w with
          A := A, varsNew := vn
          du := ⟨c.nn * c.dim, fun k => if k < c.nn * c.dim then 0 else w.du.val k⟩ }
        = .ok { w with A := A, varsNew := vn, du := du, tick := w.tick + 1 } ∧
      nrCorrect env c w = .ok
        { w with A := A, varsNew := vn, du := du, tick := w.tick + 1,
                 u := ⟨c.nn * c.dim, fun k => if k < c.nn * c.dim then w.u.val k + du.val k
                   else w.u.val k⟩ } ∧
      Frame c w { w with A := A, varsNew := vn, du := du, tick := w.tick + 1,
                         u := ⟨c.nn * c.dim, fun k => if k < c.nn * c.dim then w.u.val k + du.val k
                           else w.u.val k⟩ } := by
  obtain ⟨A, vn, h1, h2, h3⟩ := assemblyMat_ok hc hw
  have h4 : Work.Ok c { w with
      A := A, varsNew := vn
      du := ⟨c.nn * c.dim, fun k => if k < c.nn * c.dim then 0 else w.du.val k⟩ } :=
    ⟨h2.u, rfl, h2.b, h2.elemStress, h2.elemStrain, h2.varsOld, h2.varsNew, h2.A2, h2.A3⟩
  obtain ⟨du, h5, h6⟩ := solve_ok (env := env) hc h4
  refine ⟨A, vn, du, h1, h5, ?_, ?_⟩
  · unfold nrCorrect
    rw [h1, M_bind_ok']
    simp only
    rw [zeroDu_eq hw.du, M_bind_ok', h5, M_bind_ok']
    simp only
    rw [addLoop_eq hw.u h6]
    rfl
  · exact ⟨⟨rfl, h6, h2.b, h2.elemStress, h2.elemStrain, h2.varsOld, h2.varsNew, h2.A2, h2.A3⟩,
      rfl, rfl, rfl, rfl, h3, Nat.le_succ _⟩

theorem Frame.tick' {w w' : Work α} (h : Frame c w w') {t : Nat} (ht : w'.tick ≤ t) :
    Frame c w { w' with tick := t } :=
  ⟨⟨h.ok.u, h.ok.du, h.ok.b, h.ok.elemStress, h.ok.elemStrain, h.ok.varsOld, h.ok.varsNew, h.ok.A2,
    h.ok.A3⟩, h.elemStress, h.elemStrain, h.varsOld, h.invMax, h.same, le_trans h.tick ht⟩

theorem nrLoop_safe (hc : c.Ok) (fuel : Nat) (hf : 1 ≤ fuel ∨ ¬ env.Quick) {w : Work α}
    (hw : w.Ok c) : Sane env (fun r : NrOut α => Frame c w r.work) (nrLoop env c fuel w) := by
  induction fuel generalizing w with
  | zero => exact Or.inr (Or.inl ⟨rfl, by simpa using hf⟩)
  | succ fuel ih =>
    obtain ⟨b, vn, nm, nl, h1, h2⟩ := rhs_ok hc hw
    rw [nrLoop, h1, M_bind_ok']
    simp only
    split
    · exact Sane.ok h2
    · obtain ⟨A, vn', du, -, -, h3, h4⟩ := nrCorrect_eq (env := env) hc h2.ok
      rw [h3, M_bind_ok']
      simp only
      split
      · rename_i hp
        exact Or.inr (Or.inr ⟨rfl, _, hp⟩)
      · rename_i v hp
        have h5 := (h2.trans h4).tick' (t := w.tick + 1 + 1) (by show w.tick + 1 ≤ _; omega)
        split
        · rename_i hv
          refine (ih (Or.inr fun hq => ?_) h5.ok).mono fun r hr => h5.trans hr
          obtain ⟨v', e1, e2⟩ := hq.2 (w.tick + 1)
          rw [hp] at e1
          cases e1
          have := hv.1
          unfold nrMaxIts at this
          omega
        · exact Sane.ok h5

theorem newtonRaphson_safe (hc : c.Ok) {w : Work α} (hw : w.Ok c) :
    Sane env (fun r : NrOut α => Frame c w r.work) (newtonRaphson env c w) :=
  nrLoop_safe hc env.fuel (by
    by_cases h : 1 ≤ env.fuel
    · exact Or.inl h
    · exact Or.inr fun hq => h hq.1) hw

theorem setDispl_ok (hc : c.Ok) {w : Work α} (hw : w.Ok c) (eps : Nat → α) :
    ∃ u, setDispl c w eps = .ok { w with u := u } ∧ Frame c w { w with u := u } := by
  rcases hc.dim with hd | hd
  · have hN : c.nn * c.dim = c.nx * c.ny * 2 := by rw [hc.nn2 hd, hd]
    exact ⟨_, setDispl2_eq hc hd (by rw [hw.u, hN]),
      ⟨hN.symm, hw.du, hw.b, hw.elemStress, hw.elemStrain, hw.varsOld, hw.varsNew, hw.A2, hw.A3⟩,
      rfl, rfl, rfl, rfl, SameElastic.rfl', le_refl _⟩
  · have hN : c.nn * c.dim = c.nx * c.ny * c.nz * 3 := by rw [hd]; rfl
    exact ⟨_, setDispl3_eq hc hd (by rw [hw.u, hN]),
      ⟨hN.symm, hw.du, hw.b, hw.elemStress, hw.elemStrain, hw.varsOld, hw.varsNew, hw.A2, hw.A3⟩,
      rfl, rfl, rfl, rfl, SameElastic.rfl', le_refl _⟩

theorem calcAveStress_ok (hc : c.Ok) {w : Work α} (hw : w.Ok c) :
    ∃ ave vn, calcAveStress c w = .ok { ave := ave, varsNew := vn } ∧
      Frame c w { w with varsNew := vn } := by
  rcases hc.dim with hd | hd
  · exact ⟨_, _, calcAveStress2_eq hc hd (hw.u2 hc hd), Frame.rfl' hw⟩
  · refine ⟨_, _, calcAveStress3_eq hc hd (hw.u3 hd) hw.varsOld hw.varsNew,
      ⟨hw.u, hw.du, hw.b, hw.elemStress, hw.elemStrain, hw.varsOld, ?_, hw.A2, hw.A3⟩,
      rfl, rfl, rfl, rfl, fun k hk => (allPut_puts hd w.varsNew k).2 hk, le_refl _⟩
    simpa using hw.varsNew

theorem solveStrain_safe (hc : c.Ok) {w : Work α} (hw : w.Ok c) (eps : Nat → α) :
    Sane env (fun r : PertOut α => Frame c w r.nr.work) (solveStrain env c w eps) := by
  obtain ⟨u, h1, h2⟩ := setDispl_ok hc hw eps
  unfold solveStrain
  rw [h1, M_bind_ok']
  refine (newtonRaphson_safe hc h2.ok).bind fun r hr => ?_
  obtain ⟨ave, vn, h3, h4⟩ := calcAveStress_ok hc hr.ok
  rw [h3]
  exact Sane.ok ((h2.trans hr).trans h4)

theorem calcCtanLin_safe (hc : c.Ok) {w : Work α} (hw : w.Ok c) (ctan : Nat → α) :
    Sane env (fun r : CtanState α => Frame c w r.work) (calcCtanLin env c ctan w) := by
  unfold calcCtanLin
  refine Sane.loop (Frame.rfl' hw) fun i s _ hs => ?_
  refine (solveStrain_safe hc hs.ok _).bind fun r hr => ?_
  exact Sane.ok (hs.trans hr)

/-! ## Gauss points -/

/-- The buffers of a Gauss point. -/
structure Gp.Ok (c : Cfg α) (g : Gp α) : Prop where
  n : ∀ b, g.intVarsN = some b → b.size = c.numIntVars
  k : ∀ b, g.intVarsK = some b → b.size = c.numIntVars
  both : g.intVarsN.isSome = g.intVarsK.isSome

theorem loadVars_ok {g : Gp α} (hg : g.Ok c) {old : Buf α} (ho : old.size = c.numIntVars) :
    ∃ b, loadVars c g.intVarsN old = .ok b ∧ b.size = c.numIntVars := by
  unfold loadVars
  split
  · exact ⟨_, zeroInto_eq (by omega), ho⟩
  · rename_i b h
    exact ⟨_, copyInto_eq (by rw [hg.n _ h]) (by omega), ho⟩

theorem storeVars_ok {g : Gp α} (hg : g.Ok c) (nl : Bool) {vn : Buf α}
    (hv : vn.size = c.numIntVars) : ∃ g', storeVars c nl vn g = .ok g' ∧ g'.Ok c := by
  unfold storeVars
  split
  · split
    · rw [zeroInto_eq (by show _ ≤ c.numIntVars; omega), M_bind_ok',
        copyInto_eq (by omega) (by show _ ≤ c.numIntVars; omega), M_bind_ok']
      refine ⟨_, rfl, ?_, ?_, rfl⟩
      · intro b h; cases h; rfl
      · intro b h; cases h; rfl
    · rename_i b h
      have h2 := hg.both
      split
      · rename_i h3
        rw [h, h3] at h2; simp at h2
      · rename_i k h3
        rw [copyInto_eq (by omega) (by rw [hg.k _ h3]), M_bind_ok']
        refine ⟨_, rfl, hg.n, ?_, by rw [h]; rfl⟩
        intro b h; cases h; exact hg.k k h3
  · exact ⟨g, rfl, hg⟩

theorem ctanGp_safe (hc : c.Ok) (sig0 : Nat → α) (i : Nat) {s : GpWork α} (hw : s.work.Ok c)
    (hg : s.gp.Ok c) :
    Sane env (fun r : GpWork α => Frame c s.work r.work ∧ r.gp.Ok c) (ctanGp env c sig0 i s) := by
  unfold ctanGp
  refine (solveStrain_safe hc hw _).bind fun r hr => ?_
  exact Sane.ok ⟨hr, hg.n, hg.k, hg.both⟩

theorem solveGp_safe (hc : c.Ok) {g : Gp α} {w : Work α} (hw : w.Ok c) (hg : g.Ok c) :
    Sane env (fun r : GpWork α => Frame c w r.work ∧ r.gp.Ok c) (solveGp env c g w) := by
  unfold solveGp
  refine (solveStrain_safe hc hw _).bind fun r hr => ?_
  obtain ⟨g', h1, h2⟩ := storeVars_ok (g := { g with macroStress := setFirst c.nvoi r.sig g.macroStress })
    ⟨hg.n, hg.k, hg.both⟩ r.nr.nl hr.ok.varsNew
  simp only
  rw [h1, M_bind_ok']
  refine Sane.loop (P := fun r : GpWork α => Frame c w r.work ∧ r.gp.Ok c)
    ⟨hr, h2.n, h2.k, h2.both⟩ fun i s _ hs => ?_
  exact (ctanGp_safe hc _ i hs.1.ok hs.2).mono fun r hr => ⟨hs.1.trans hr.1, hr.2⟩

theorem isLinear_ok (hc : c.Ok) (m : α) (e : Nat → α) : ∃ l, isLinear c m e = .ok l := by
  unfold isLinear getInv1
  rcases hc.dim with hd | hd <;> simp [hd]

theorem homogenizeGp_safe (hc : c.Ok) {g : Gp α} {w : Work α} (hw : w.Ok c) (hg : g.Ok c) :
    Sane env (fun r : GpWork α => r.work.Ok c ∧ r.gp.Ok c) (homogenizeGp env c g w) := by
  obtain ⟨old, h1, h2⟩ := loadVars_ok hg hw.varsOld
  obtain ⟨l, h3⟩ := isLinear_ok hc (-1.0e10) g.macroStrain
  unfold homogenizeGp
  rw [h1, M_bind_ok', h3, M_bind_ok']
  simp only
  have hw' : Work.Ok c { w with varsOld := old, invMax := l.2 } :=
    ⟨hw.u, hw.du, hw.b, hw.elemStress, hw.elemStrain, h2, hw.varsNew, hw.A2, hw.A3⟩
  split
  · exact Sane.ok ⟨hw', hg.n, hg.k, hg.both⟩
  · refine (solveGp_safe hc hw' hg).bind fun r hr => ?_
    exact Sane.ok ⟨hr.1.ok, hr.2.n, hr.2.k, hr.2.both⟩

theorem homogenizeList_safe (hc : c.Ok) {l : List (Gp α)} {w : Work α} (hw : w.Ok c)
    (hl : ∀ g ∈ l, g.Ok c) :
    Sane env (fun r : ListWork α => r.work.Ok c ∧ ∀ g ∈ r.gauss, g.Ok c)
      (homogenizeList env c l w) := by
  induction l generalizing w with
  | nil => exact Sane.ok ⟨hw, by simp⟩
  | cons g l ih =>
    unfold homogenizeList
    refine (homogenizeGp_safe hc hw (hl g (by simp))).bind fun s hs => ?_
    refine (ih hs.1 fun g hg => hl g (by simp [hg])).bind fun r hr => ?_
    refine Sane.ok ⟨hr.1, fun g' hg' => ?_⟩
    rcases List.mem_cons.mp hg' with rfl | h
    · exact hs.2
    · exact hr.2 g' h

/-! ## Files -/

theorem emit_ok {n : Nat} {f : Nat → M (List (Tok α))} (h : ∀ i, i < n → ∃ t, f i = .ok t) :
    ∃ t, emit n f = .ok t := by
  unfold emit
  obtain ⟨t, h1, -⟩ := loop_inv (fun _ _ => True) (n := n) (s := ([] : List (Tok α))) trivial
    (f := fun i ts => do
      let t ← f i
      pure (ts ++ t)) (by
      intro i s hi _
      obtain ⟨t, ht⟩ := h i hi
      exact ⟨s ++ t, by rw [ht]; rfl, trivial⟩)
  exact ⟨t, h1⟩

theorem vtuNodal_ok (hc : c.Ok) {p : Buf α} (hp : p.size = c.nn * c.dim) :
    ∃ t, vtuNodal c p = .ok t := by
  unfold vtuNodal
  refine emit_ok fun n hn => ?_
  have h : ∀ d, d < c.dim → n * c.dim + d < p.size := fun d hd => by
    rw [hp]; exact mul_add_lt hn hd
  rcases hc.dim with hd | hd
  · rw [if_pos hd, Buf.read_ok (h 0 (by omega)), M_bind_ok', Buf.read_ok (h 1 (by omega)), M_bind_ok']
    exact ⟨_, rfl⟩
  · rw [if_neg (by omega), if_pos hd, Buf.read_ok (h 0 (by omega)), M_bind_ok',
      Buf.read_ok (h 1 (by omega)), M_bind_ok', Buf.read_ok (h 2 (by omega)), M_bind_ok']
    exact ⟨_, rfl⟩

theorem vtuElem_ok {p : Buf α} (hp : p.size = c.nelem * c.nvoi) : ∃ t, vtuElem c p = .ok t := by
  unfold vtuElem
  refine emit_ok fun e he => ?_
  obtain ⟨t, ht⟩ := emit_ok (n := c.nvoi) (f := fun v => do
      let a ← p.read (e * c.nvoi + v)
      pure [Tok.num a, .sp]) (fun v hv => by
    rw [Buf.read_ok (by rw [hp]; exact mul_add_lt he hv)]; exact ⟨_, rfl⟩)
  rw [ht]
  exact ⟨_, rfl⟩

theorem vtuElemType_ok (hc : c.Ok) : ∃ t, vtuElemType c = .ok t := by
  unfold vtuElemType
  refine emit_ok fun e he => ?_
  rw [Buf.read_ok (by rw [hc.elem]; exact he)]
  exact ⟨_, rfl⟩

theorem intvarIx_lt' {v : Buf α} (hv : v.size = c.numIntVars) {e gp i : Nat} (he : e < c.nelem)
    (hg : gp < 8) (hi : i < 7) : intvarIx e gp i < v.size := by
  rw [hv]
  unfold intvarIx Cfg.numIntVars
  omega

theorem vtuPlasticity_ok {v : Buf α} (hv : v.size = c.numIntVars) :
    ∃ t, vtuPlasticity c v = .ok t := by
  unfold vtuPlasticity
  refine emit_ok fun e he => ?_
  obtain ⟨p, h1, -⟩ := loop_inv (fun _ _ => True) (n := if c.dim = 3 then 8 else 0) (s := (0 : α))
    trivial (f := fun gp (p : α) => do
      let x ← plastNorm v e gp
      pure (p + x)) (by
      intro gp s hg _
      have hg8 : gp < 8 := by split at hg <;> omega
      unfold plastNorm
      rw [gather_eq fun i hi => intvarIx_lt' hv he hg8 (by omega)]
      exact ⟨_, rfl, trivial⟩)
  rw [h1]
  exact ⟨_, rfl⟩

theorem vtuHardening_ok {v : Buf α} (hv : v.size = c.numIntVars) :
    ∃ t, vtuHardening c v = .ok t := by
  unfold vtuHardening
  refine emit_ok fun e he => ?_
  obtain ⟨p, h1, -⟩ := loop_inv (fun _ _ => True) (n := if c.dim = 3 then 8 else 0) (s := (0 : α))
    trivial (f := fun gp (p : α) => do
      let x ← v.read (intvarIx e gp 6)
      pure (p + x)) (by
      intro gp s hg _
      have hg8 : gp < 8 := by split at hg <;> omega
      rw [Buf.read_ok (intvarIx_lt' hv he hg8 (by omega))]
      exact ⟨_, rfl, trivial⟩)
  rw [h1]
  exact ⟨_, rfl⟩

theorem writeVtu_ok (hc : c.Ok) {w : Work α} (hw : w.Ok c) : ∃ t, writeVtu c w = .ok t := by
  obtain ⟨_, h1⟩ := vtuNodal_ok hc hw.u
  obtain ⟨_, h2⟩ := vtuNodal_ok hc hw.b
  obtain ⟨_, h3⟩ := vtuElem_ok (c := c) hw.elemStrain
  obtain ⟨_, h4⟩ := vtuElem_ok (c := c) hw.elemStress
  obtain ⟨_, h5⟩ := vtuElemType_ok hc
  obtain ⟨_, h6⟩ := vtuPlasticity_ok (c := c) hw.varsOld
  obtain ⟨_, h7⟩ := vtuHardening_ok (c := c) hw.varsOld
  unfold writeVtu
  rw [h1, M_bind_ok', h2, M_bind_ok', h3, M_bind_ok', h4, M_bind_ok', h5, M_bind_ok', h6, M_bind_ok',
    h7, M_bind_ok']
  exact ⟨_, rfl⟩

theorem calcFields_ok (hc : c.Ok) {w : Work α} (hw : w.Ok c) :
    ∃ w', calcFields c w = .ok w' ∧ w'.Ok c := by
  rcases hc.dim with hd | hd
  · obtain ⟨e, s, h1, h2, h3, -⟩ := calcFields2_eq hc hd hw
    exact ⟨_, h1, hw.u, hw.du, hw.b, h3, h2, hw.varsOld, hw.varsNew, hw.A2, hw.A3⟩
  · obtain ⟨e, s, h1, h2, h3, -⟩ := calcFields3_eq hc hd hw
    exact ⟨_, h1, hw.u, hw.du, hw.b, h3, h2, hw.varsOld, by simpa using hw.varsNew, hw.A2, hw.A3⟩

theorem recVars_ok {g : Gp α} (hg : g.Ok c) : ∃ t, recVars c g = .ok t := by
  unfold recVars
  refine (?_ : ∀ m : M (List (Tok α)), (∃ t, m = .ok t) →
    ∃ t, (m >>= fun t => pure (t ++ Tok.bar)) = .ok t) _ (emit_ok fun i hi => ?_)
  · rintro m ⟨t, rfl⟩
    exact ⟨_, rfl⟩
  · split
    · rename_i n h
      rw [Buf.read_ok (by rw [hg.n _ h]; exact hi)]
      exact ⟨_, rfl⟩
    · exact ⟨_, rfl⟩

theorem recVarsList_ok {l : List (Gp α)} (hl : ∀ g ∈ l, g.Ok c) : ∃ t, recVarsList c l = .ok t := by
  induction l with
  | nil => exact ⟨_, rfl⟩
  | cons g l ih =>
    obtain ⟨t, h1⟩ := recVars_ok (hl g (by simp))
    obtain ⟨r, h2⟩ := ih fun g hg => hl g (by simp [hg])
    unfold recVarsList
    rw [h1, M_bind_ok', h2]
    exact ⟨_, rfl⟩

theorem updateGp_ok {g : Gp α} (hg : g.Ok c) : ∃ g', updateGp c g = .ok g' ∧ g'.Ok c := by
  unfold updateGp
  split
  · exact ⟨g, rfl, hg⟩
  · rename_i n h
    split
    · rename_i h2
      have := hg.both
      rw [h, h2] at this; simp at this
    · rename_i k h2
      rw [copyInto_eq (by rw [hg.k _ h2]) (by rw [hg.n _ h]), M_bind_ok']
      refine ⟨_, rfl, ?_, hg.k, by rw [h2]; rfl⟩
      intro b hb; cases hb; exact hg.n n h

theorem updateList_ok {l : List (Gp α)} (hl : ∀ g ∈ l, g.Ok c) :
    ∃ l', updateList c l = .ok l' ∧ ∀ g ∈ l', g.Ok c := by
  induction l with
  | nil => exact ⟨[], rfl, by simp⟩
  | cons g l ih =>
    obtain ⟨g', h1, h1'⟩ := updateGp_ok (hl g (by simp))
    obtain ⟨r, h2, h2'⟩ := ih fun g hg => hl g (by simp [hg])
    unfold updateList
    rw [h1, M_bind_ok', h2, M_bind_ok']
    refine ⟨_, rfl, fun x hx => ?_⟩
    rcases List.mem_cons.mp hx with rfl | h
    · exact h1'
    · exact h2' x h

theorem setStrainList_ok {l : List (Gp α)} (hl : ∀ g ∈ l, g.Ok c) (id : Int) (eps : Nat → α)
    (junk : Gp α) : ∀ g ∈ setStrainList c.nvoi id eps junk l, g.Ok c := by
  induction l with
  | nil =>
    intro g hg
    simp only [setStrainList, List.mem_singleton] at hg
    subst hg
    exact ⟨by simp, by simp, rfl⟩
  | cons x l ih =>
    intro g hg
    unfold setStrainList at hg
    split at hg
    · rcases List.mem_cons.mp hg with rfl | h
      · have := hl x (by simp)
        exact ⟨this.n, this.k, this.both⟩
      · exact hl g (by simp [h])
    · rcases List.mem_cons.mp hg with rfl | h
      · exact hl g (by simp)
      · exact ih (fun g hg => hl g (by simp [hg])) g h

end Verif
