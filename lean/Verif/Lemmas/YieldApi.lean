import Verif.Lemmas.Yield

/-! # Public calls of a plastic object below yield and of its elastic copy -/

namespace Verif
open Spec Finset

variable {F : Fe} {L : Nat × Nat × Nat → (Nat → ℝ) → Nat → ℝ} {c : Cfg ℝ} {ma : Nat → Material ℝ}
  {env : Env ℝ} {w : Work ℝ}

/-- The iterates of an elastic cell stay in a set of bounded displacements. -/
theorem newton_stays (hF : F.Good) (hL : F.Law L) {K : ℝ} (hK : 0 ≤ K) : ∃ M : ℝ, 0 < M ∧
    ∀ (c : Cfg ℝ), Like F L c → ∀ (env : Env ℝ) (w : Work ℝ) (eps : Nat → ℝ) (B : ℝ), w.Ok c → 0 ≤ B →
      w.Small c K B → (∀ v, v < c.nvoi → |eps v| ≤ 1 + B) → ∃ P : (Nat → ℝ) → Prop,
        (∀ w1, setDispl c w eps = .ok w1 → P w1.u.val) ∧
        (∀ u, P u → ∀ q, q < c.nn * c.dim → |u q| ≤ M * (1 + B)) ∧
        ∀ (w : Work ℝ) (r : RhsOut ℝ) (w' : Work ℝ), w.Ok c → P w.u.val → assemblyRhs c w = .ok r →
          Scalar.lt r.norm nrMaxTol = false → nrCorrect env c r.work = .ok w' → P w'.u.val := by
  obtain ⟨K1, hK1, h1⟩ := Fe.sol_bound hF hL
  obtain ⟨K3, hK3, h3⟩ := Fe.bil_lower hF hL
  obtain ⟨Λ, hΛ, h5⟩ := Fe.bil_upper hF hL
  obtain ⟨κ, hκ, hdrop⟩ := nrCorrect_drop hF hL
  let D : ℝ := Λ * (((F.nn * F.dim : ℕ) : ℝ) * (K + K1) ^ 2)
  have hD : 0 ≤ D := by positivity
  refine ⟨K1 + K3 * Real.sqrt D, by positivity, ?_⟩
  intro c hl env w eps B hw hB hu he
  have hdrop' := hdrop c hl.ok hl.geom hl.elastic hl.fe hl.law
  obtain ⟨hc, hg, hel, rfl, rfl⟩ := hl
  have hN := c.fe_nn hc
  have hB1 : 0 < 1 + B := by linarith
  obtain ⟨s, s1, s2, s3⟩ := h1 eps (1 + B) (by linarith) fun v hv => he v (by rw [← c.fe_nvoi]; exact hv)
  refine ⟨fun u => (∀ r, r < c.fe.nn * c.fe.dim → c.fe.Bd r → u r = s r) ∧
    c.fe.bil c.law (fun r => u r - s r) (fun r => u r - s r) ≤ D * (1 + B) ^ 2, ?_, ?_, ?_⟩
  · intro w1 e
    obtain ⟨u, e1, e2, e3, e4⟩ := setDispl_real hc hg.toDivided hw.u eps
    rw [e1] at e
    cases e
    have hb : ∀ r, r < c.fe.nn * c.fe.dim → c.fe.Bd r → u.val r = s r := fun r hr hb => by
      rw [e3 r hr hb, s2 r hr hb]
    refine ⟨hb, ?_⟩
    simp only
    refine (h5 _).trans ?_
    have : dot (c.fe.nn * c.fe.dim) (fun r => u.val r - s r) (fun r => u.val r - s r)
        ≤ ((c.fe.nn * c.fe.dim : ℕ) : ℝ) * ((K + K1) * (1 + B)) ^ 2 := by
      unfold dot
      have h6 : ∀ r ∈ range (c.fe.nn * c.fe.dim), (u.val r - s r) * (u.val r - s r)
          ≤ ((K + K1) * (1 + B)) ^ 2 := by
        intro r hr
        have hr := mem_range.mp hr
        rw [← sq]
        refine sq_le_sq' ?_ ?_ <;>
        · by_cases hb' : c.fe.Bd r
          · rw [hb r hr hb', sub_self]
            have : 0 ≤ (K + K1) * (1 + B) := by positivity
            linarith
          · rw [e4 r fun h => hb' h.2]
            have a1 := abs_le.mp (hu r (by rw [← hN]; exact hr))
            have a2 := abs_le.mp (s3 r hr)
            have : (K + K1) * (1 + B) = K * (1 + B) + K1 * (1 + B) := by ring
            linarith [a1.1, a1.2, a2.1, a2.2]
      have := sum_le_sum h6
      rwa [sum_const, card_range, nsmul_eq_mul] at this
    calc Λ * dot (c.fe.nn * c.fe.dim) (fun r => u.val r - s r) (fun r => u.val r - s r)
        ≤ Λ * (((c.fe.nn * c.fe.dim : ℕ) : ℝ) * ((K + K1) * (1 + B)) ^ 2) :=
          mul_le_mul_of_nonneg_left this hΛ.le
      _ = D * (1 + B) ^ 2 := by
          show _ = Λ * (((c.fe.nn * c.fe.dim : ℕ) : ℝ) * (K + K1) ^ 2) * (1 + B) ^ 2
          ring
  · rintro u ⟨hb, hgap⟩ q hq
    have hq' : q < c.fe.nn * c.fe.dim := by rw [hN]; exact hq
    have a3 := (h3 (fun r => u r - s r) (Real.sqrt D * (1 + B)) (by positivity)
      (fun r hr hb' => by rw [hb r hr hb', sub_self])
      (by rw [mul_pow, Real.sq_sqrt hD]; exact hgap)).1 q hq'
    have a4 := s3 q hq'
    have a5 : |u q| ≤ |u q - s q| + |s q| := by
      have := abs_add_le (u q - s q) (s q)
      rwa [sub_add_cancel] at this
    calc |u q| ≤ K3 * (Real.sqrt D * (1 + B)) + K1 * (1 + B) := a5.trans (add_le_add a3 a4)
      _ = (K1 + K3 * Real.sqrt D) * (1 + B) := by ring
  · rintro w r w' hw ⟨hb, hgap⟩ hr hge hcr
    obtain ⟨f, vn, nl, k1, hfr, k2⟩ := assemblyRhs_res hc hel hw
    rw [k1] at hr
    cases hr
    rw [lt_real, Props.nrMaxTol_real, decide_eq_false_iff_not, not_lt] at hge
    obtain ⟨w2, e1, -, -, e2, e3⟩ := hdrop' env _ hfr.ok k2 hge
    rw [e1] at hcr
    cases hcr
    have hb' : ∀ r, r < c.fe.nn * c.fe.dim → c.fe.Bd r → w'.u.val r = s r := fun r hr hb' =>
      (e2 r (by rw [← c.fe_nn hc]; exact hr) hb').trans (hb r hr hb')
    refine ⟨hb', ?_⟩
    have a1 := Fe.bil_split hF hL s1 hb
    have a2 := Fe.bil_split hF hL s1 hb'
    have a5 : 0 ≤ κ * norm2 (c.nn * c.dim) f ^ 2 := by positivity
    simp only at e3 ⊢
    linarith

/-- Constants of a cell for which all solves of both objects return alike. -/
structure Twins (F : Fe) (L : Nat × Nat × Nat → (Nat → ℝ) → Nat → ℝ) (K n M : ℝ) : Prop where
  one : 1 ≤ K
  pos : 0 < M
  solve : ∀ (c : Cfg ℝ) (ma : Nat → Material ℝ) (B : ℝ), c.Ok → Like F L (c.swap ma) → 0 ≤ B →
    Calm c ma (M * (1 + B)) → ∀ (env : Env ℝ) (w : Work ℝ) (eps : Nat → ℝ) (v0 : Buf ℝ), w.Ok c →
      w.varsOld.Blank c.numIntVars → v0.size = c.numIntVars → w.Small c K B →
      (∀ v, v < c.nvoi → |eps v| ≤ 1 + B) → env.Patient (n * (1 + B) ^ 2) →
      ∃ w1 out, setDispl c w eps = .ok w1 ∧ newtonRaphson env c w1 = .ok out ∧
        setDispl (c.swap ma) (w.new v0) eps = .ok (w1.new v0) ∧
        newtonRaphson env (c.swap ma) (w1.new v0) = .ok { out with work := out.work.new v0 } ∧
        out.nl = false ∧ Frame c w out.work ∧ out.work.Small c K B ∧
        ∀ q, q < c.nn * c.dim → |out.work.u.val q| ≤ M * (1 + B)

theorem twins_exist (hF : F.Good) (hL : F.Law L) : ∃ K n M, Twins F L K n M := by
  obtain ⟨K, n, hK, hb⟩ := displ_newton hF hL
  obtain ⟨M, hM, hs⟩ := newton_stays hF hL (K := K) (by linarith)
  refine ⟨K, n, M, hK, hM, ?_⟩
  intro c ma B hc hl hB hm env w eps v0 hw hz h0 hu he hp
  have hw0 := hw.swapNew ma h0
  obtain ⟨w1, out0, e1, e2, e3, e4⟩ := hb _ hl env (w.new v0) eps B hw0 hB hu he hp
  obtain ⟨P, p1, p2, p3⟩ := hs _ hl env (w.new v0) eps B hw0 hB hu he
  obtain ⟨u, f1, f2⟩ := setDispl_ok hc hw eps
  obtain ⟨u', f1', -⟩ := setDispl_ok hl.ok hw0 eps
  have hd : setDispl (c.swap ma) (w.new v0) eps = .ok (Work.new { w with u := u } v0) := by
    have key : Rel (fun (x x0 : Work ℝ) => x0 = x.new v0) (setDispl c w eps) (setDispl (c.swap ma) (w.new v0) eps) := by
      unfold setDispl
      rcases hc.dim with hd | hd
      · rw [if_pos hd, if_pos (show (c.swap ma).dim = 2 from hd)]
        exact Rel.eqBind rfl fun _ => Rel.pure rfl
      · rw [if_neg (by omega), if_pos hd, if_neg (show ¬ (c.swap ma).dim = 2 by show ¬ c.dim = 2; omega),
          if_pos (show (c.swap ma).dim = 3 from hd)]
        exact Rel.eqBind rfl fun _ => Rel.pure rfl
    obtain ⟨y, k1, rfl⟩ := key.left f1
    exact k1
  rw [hd] at e1
  cases e1
  have hP : P u.val := p1 _ hd
  have ht := nrLoop_twin hc hm env p2 p3 h0 env.fuel f2.ok hz hP
  obtain ⟨out, k1, k2, k3, k4⟩ := ht.right e2
  subst k2
  exact ⟨_, out, f1, k1, hd, e2, k3, f2.trans ((newtonRaphson_safe (env := env) hc f2.ok).post k1), e4, p2 _ k4⟩

theorem loop_both {σ σ' : Type} {R : σ → σ' → Prop} {n : Nat} {f : Nat → σ → M σ} {f' : Nat → σ' → M σ'} {s : σ}
    {s' : σ'} (h0 : R s s')
    (h : ∀ i s s', i < n → R s s' → ∃ x y, f i s = .ok x ∧ f' i s' = .ok y ∧ R x y) :
    ∃ x y, loop n f s = .ok x ∧ loop n f' s' = .ok y ∧ R x y := by
  induction n with
  | zero => exact ⟨s, s', rfl, rfl, h0⟩
  | succ n ih =>
    obtain ⟨x, y, h1, h2, h3⟩ := ih fun i s s' hi => h i s s' (by omega)
    rw [loop_succ, loop_succ, h1, h2]
    exact h n x y (by omega) h3

variable {K n M B : ℝ}

section
variable (ht : Twins F L K n M) (hc : c.Ok) (hl : Like F L (c.swap ma)) (hB : 0 ≤ B)
  (hm : Calm c ma (M * (1 + B))) (hp : env.Patient (n * (1 + B) ^ 2)) {v0 : Buf ℝ} (h0 : v0.size = c.numIntVars)
include ht hc hl hB hm hp h0

theorem solveStrain_twin {eps : Nat → ℝ} (hw : w.Ok c) (hz : w.varsOld.Blank c.numIntVars) (hu : w.Small c K B)
    (he : ∀ v, v < c.nvoi → |eps v| ≤ 1 + B) :
    ∃ r, solveStrain env c w eps = .ok r ∧ r.nr.nl = false ∧ Frame c w r.nr.work ∧ r.nr.work.Small c K B ∧
      solveStrain env (c.swap ma) (w.new v0) eps
        = .ok { r with nr := { r.nr with work := r.nr.work.new v0 } } := by
  obtain ⟨w1, out, h1, h2, h3, h4, h5, h6, h7, h8⟩ := ht.solve c ma B hc hl hB hm env w eps v0 hw hz h0 hu he hp
  obtain ⟨ave, vn, k1, k2⟩ := calcAveStress_ok hc h6.ok
  obtain ⟨y, k3, k4, -⟩ := (calcAveStress_twin hc hm h6.ok (by rw [h6.varsOld]; exact hz) h8 h0).left k1
  subst k4
  unfold solveStrain
  rw [h1, M_bind_ok', h2, M_bind_ok', k1, M_bind_ok', h3, M_bind_ok', h4, M_bind_ok', k3]
  exact ⟨_, rfl, h5, h6.trans k2, h7, rfl⟩

theorem calcCtanLin_twin (hw : w.Ok c) (hz : w.varsOld.Blank c.numIntVars) (hu : w.Small c K B) (ctan : Nat → ℝ) :
    ∃ r, calcCtanLin env c ctan w = .ok r ∧ Frame c w r.work ∧ r.work.Small c K B ∧
      calcCtanLin env (c.swap ma) ctan (w.new v0) = .ok { r with work := r.work.new v0 } := by
  have key : ∃ r r0, calcCtanLin env c ctan w = .ok r ∧ calcCtanLin env (c.swap ma) ctan (w.new v0) = .ok r0 ∧
      (r0 = { r with work := r.work.new v0 } ∧ Frame c w r.work ∧ r.work.Small c K B) := by
    unfold calcCtanLin
    refine loop_both (R := fun (s s0 : CtanState ℝ) => s0 = { s with work := s.work.new v0 } ∧ Frame c w s.work ∧
      s.work.Small c K B) ⟨rfl, Frame.rfl' hw, hu⟩ fun i s s0 _ hs => ?_
    obtain ⟨rfl, hs1, hs2⟩ := hs
    obtain ⟨r, h1, -, h2, h3, h4⟩ := solveStrain_twin ht hc hl hB hm hp h0
      (eps := fun v => if v = i then 0 + 1.0e-8 else 0) hs1.ok (by rw [hs1.varsOld]; exact hz) hs2 (fun v _ => by
        split
        · rw [abs_of_nonneg (by norm_num)]; norm_num; linarith
        · rw [abs_zero]; linarith)
    simp only
    rw [h1, M_bind_ok', h4, M_bind_ok']
    exact ⟨_, _, rfl, rfl, rfl, hs1.trans h2, h3⟩
  obtain ⟨r, r0, h1, h2, rfl, h3, h4⟩ := key
  exact ⟨r, h1, h3, h4, h2⟩

theorem homogenizeGp_twin {g : Gp ℝ} (hw : w.Ok c) (hu : w.Small c K B) (hg : g.intVarsN = none ∧ g.intVarsK = none)
    (he : ∀ v, v < c.nvoi → |g.macroStrain v| ≤ B) :
    ∃ s, homogenizeGp env c g w = .ok s ∧ s.work.Ok c ∧ s.work.varsOld.Blank c.numIntVars ∧ s.work.Small c K B ∧
      (s.gp.intVarsN = none ∧ s.gp.intVarsK = none) ∧ s.gp.macroStrain = g.macroStrain ∧
      homogenizeGp env (c.swap ma) g (w.new v0) = .ok { s with work := s.work.new v0 } := by
  obtain ⟨l, h3⟩ := isLinear_ok hc (-1.0e10) g.macroStrain
  have h3' : isLinear (c.swap ma) (-1.0e10) g.macroStrain = .ok l := h3
  have h1 : ∃ old : Buf ℝ, loadVars c g.intVarsN w.varsOld = .ok old ∧ old.size = c.numIntVars ∧
      old.Blank c.numIntVars ∧ loadVars (c.swap ma) g.intVarsN (w.new v0).varsOld = .ok old := by
    rw [hg.1]
    refine ⟨_, zeroInto_eq (by rw [hw.varsOld]), hw.varsOld, fun k hk => ?_, zeroInto_eq (by
      show c.numIntVars ≤ _; rw [hw.varsOld])⟩
    simp [hk]
  obtain ⟨old, h1, h2, h2z, h1'⟩ := h1
  have hw' : Work.Ok c { w with varsOld := old, invMax := l.2 } :=
    ⟨hw.u, hw.du, hw.b, hw.elemStress, hw.elemStrain, h2, hw.varsNew, hw.A2, hw.A3⟩
  unfold homogenizeGp
  rw [h1, M_bind_ok', h3, M_bind_ok', h1', M_bind_ok', h3', M_bind_ok']
  simp only
  by_cases hl' : l.1 = true ∧ g.intVarsN.isNone = true
  · rw [if_pos hl', if_pos hl']
    exact ⟨_, rfl, hw', h2z, hu, hg, rfl, rfl⟩
  · rw [if_neg hl', if_neg hl']
    obtain ⟨r, e1, enl, e2, e3, e1'⟩ := solveStrain_twin ht hc hl hB hm hp h0 (eps := g.macroStrain) hw' h2z hu
      fun v hv => by linarith [he v hv]
    have key : ∃ s s0, solveGp env c g { w with varsOld := old, invMax := l.2 } = .ok s ∧
        solveGp env (c.swap ma) g (Work.new { w with varsOld := old, invMax := l.2 } v0) = .ok s0 ∧
        (s0 = { s with work := s.work.new v0 } ∧
        Frame c { w with varsOld := old, invMax := l.2 } s.work ∧ s.work.Small c K B ∧
        (s.gp.intVarsN = none ∧ s.gp.intVarsK = none) ∧ s.gp.macroStrain = g.macroStrain) := by
      unfold solveGp
      rw [e1, M_bind_ok', e1', M_bind_ok']
      simp only [storeVars, enl, Bool.false_eq_true, if_false]
      refine loop_both (R := fun (s s0 : GpWork ℝ) => s0 = { s with work := s.work.new v0 } ∧
        Frame c { w with varsOld := old, invMax := l.2 } s.work ∧ s.work.Small c K B ∧
        (s.gp.intVarsN = none ∧ s.gp.intVarsK = none) ∧ s.gp.macroStrain = g.macroStrain)
        ⟨rfl, e2, e3, hg, rfl⟩ fun i s s0 hi hs => ?_
      obtain ⟨rfl, s1, s2, s3, s4⟩ := hs
      obtain ⟨r', f1, -, f2, f3, f4⟩ := solveStrain_twin ht hc hl hB hm hp h0
        (eps := fun v => if v = i then s.gp.macroStrain v + 1.0e-8 else s.gp.macroStrain v)
        s1.ok (by rw [s1.varsOld]; exact h2z) s2 (fun v hv => by
          have h := he v hv
          rw [s4]
          split
          · refine (abs_add_le _ _).trans ?_
            rw [abs_of_nonneg (by norm_num : (0 : ℝ) ≤ 1.0e-8)]
            have : (1.0e-8 : ℝ) ≤ 1 := by norm_num
            linarith
          · linarith)
      unfold ctanGp
      simp only
      rw [f1, M_bind_ok', f4, M_bind_ok']
      exact ⟨_, _, rfl, rfl, rfl, s1.trans f2, f3, s3, s4⟩
    obtain ⟨s, s0, k1, k2, rfl, k3, k4, k5, k6⟩ := key
    rw [k1, M_bind_ok', k2]
    exact ⟨_, rfl, k3.ok, by show Buf.Blank _ s.work.varsOld; rw [k3.varsOld]; exact h2z, k4, k5, k6, rfl⟩

theorem homogenizeList_twin {l : List (Gp ℝ)} (hw : w.Ok c) (hz : w.varsOld.Blank c.numIntVars) (hu : w.Small c K B)
    (hg : ∀ g ∈ l, g.intVarsN = none ∧ g.intVarsK = none)
    (he : ∀ g ∈ l, ∀ v, v < c.nvoi → |g.macroStrain v| ≤ B) :
    ∃ r, homogenizeList env c l w = .ok r ∧ r.work.Ok c ∧ r.work.varsOld.Blank c.numIntVars ∧ r.work.Small c K B ∧
      (∀ g ∈ r.gauss, g.intVarsN = none ∧ g.intVarsK = none) ∧
      (∀ g ∈ r.gauss, ∀ v, v < c.nvoi → |g.macroStrain v| ≤ B) ∧
      homogenizeList env (c.swap ma) l (w.new v0) = .ok { r with work := r.work.new v0 } := by
  induction l generalizing w with
  | nil => exact ⟨_, rfl, hw, hz, hu, by simp, by simp, rfl⟩
  | cons g l ih =>
    obtain ⟨s, h1, h2, h3, h4, h5, h6, h7⟩ :=
      homogenizeGp_twin ht hc hl hB hm hp h0 hw hu (hg g (by simp)) (he g (by simp))
    obtain ⟨r, k1, k2, k3, k4, k5, k6, k7⟩ := ih h2 h3 h4 (fun g h => hg g (by simp [h])) fun g h => he g (by simp [h])
    unfold homogenizeList
    rw [h1, M_bind_ok', k1, M_bind_ok', h7, M_bind_ok', k7]
    refine ⟨_, rfl, k2, k3, k4, fun x hx => ?_, fun x hx => ?_, rfl⟩
    · rcases List.mem_cons.mp hx with rfl | h
      · exact h5
      · exact k5 x h
    · rcases List.mem_cons.mp hx with rfl | h
      · rw [h6]; exact he g (by simp)
      · exact k6 x h

end

/-- The elastic copy of a state. -/
abbrev ObjFiles.copy (ma : Nat → Material ℝ) (v0 : Buf ℝ) (s : ObjFiles ℝ) : ObjFiles ℝ :=
  { s with obj := { s.obj with cfg := s.obj.cfg.swap ma, work := s.obj.work.new v0 } }

/-- What holds between the calls. -/
structure Below (F : Fe) (L : Nat × Nat × Nat → (Nat → ℝ) → Nat → ℝ) (K M B : ℝ) (ma : Nat → Material ℝ)
    (o : Obj ℝ) : Prop where
  ok : o.cfg.Ok
  work : o.work.Ok o.cfg
  like : Like F L (o.cfg.swap ma)
  calm : Calm o.cfg ma (M * (1 + B))
  blank : o.work.varsOld.Blank o.cfg.numIntVars
  small : o.work.Small o.cfg K B
  none : ∀ g ∈ o.gauss, g.intVarsN = none ∧ g.intVarsK = none
  strain : ∀ g ∈ o.gauss, ∀ v, v < o.cfg.nvoi → |g.macroStrain v| ≤ B

theorem setStrainList_none {l : List (Gp ℝ)} (hl : ∀ g ∈ l, g.intVarsN = none ∧ g.intVarsK = none) (nvoi : Nat)
    (eps : Nat → ℝ) (id : Int) (junk : Gp ℝ) :
    ∀ g ∈ setStrainList nvoi id eps junk l, g.intVarsN = none ∧ g.intVarsK = none := by
  induction l with
  | nil =>
    intro g hg
    simp only [setStrainList, List.mem_singleton] at hg
    subst hg
    exact ⟨rfl, rfl⟩
  | cons x l ih =>
    intro g hg
    unfold setStrainList at hg
    split at hg
    · rcases List.mem_cons.mp hg with rfl | h
      · exact hl x (by simp)
      · exact hl g (by simp [h])
    · rcases List.mem_cons.mp hg with rfl | h
      · exact hl g (by simp)
      · exact ih (fun g hg => hl g (by simp [hg])) g h

theorem updateList_none {l : List (Gp ℝ)} (hl : ∀ g ∈ l, g.intVarsN = none ∧ g.intVarsK = none) :
    updateList c l = .ok l := by
  induction l with
  | nil => rfl
  | cons x l ih =>
    unfold updateList
    rw [ih fun g hg => hl g (by simp [hg])]
    have : updateGp c x = .ok x := by
      unfold updateGp
      rw [(hl x (by simp)).1]
      rfl
    rw [this]
    rfl

/-- Every public call does the same to both objects. -/
theorem step_twin (ht : Twins F L K n M) (hB : 0 ≤ B) (hp : env.Patient (n * (1 + B) ^ 2)) {v0 : Buf ℝ}
    {s : ObjFiles ℝ} (h0 : v0.size = s.obj.cfg.numIntVars) (hs : Below F L K M B ma s.obj) {k : Call ℝ}
    (hk : k.Within s.obj.cfg.nvoi B) :
    ∃ r, step env s k = .ok r ∧ r.state.obj.cfg = s.obj.cfg ∧ Below F L K M B ma r.state.obj ∧
      step env (s.copy ma v0) k = .ok { r with state := r.state.copy ma v0 } := by
  cases k with
  | setStrain id eps =>
    exact ⟨_, rfl, rfl, ⟨hs.ok, hs.work.tickTo _, hs.like, hs.calm, hs.blank, hs.small,
      setStrainList_none hs.none _ _ _ _, setStrainList_within hs.strain hk id _⟩, rfl⟩
  | homogenize =>
    obtain ⟨r, h1, h2, h3, h4, h5, h6, h7⟩ := homogenizeList_twin ht hs.ok hs.like hB hs.calm hp h0 hs.work hs.blank
      hs.small hs.none hs.strain
    refine ⟨{ state := { s with obj := { s.obj with gauss := r.gauss, work := r.work } }, ret := .unit },
      ?_, rfl, ⟨hs.ok, h2, hs.like, hs.calm, h3, h4, h5, h6⟩, ?_⟩
    · show (homogenize env s.obj >>= fun o => _) = _
      unfold homogenize
      rw [h1]
      rfl
    · show (homogenize env (s.copy ma v0).obj >>= fun o => _) = _
      unfold homogenize
      rw [h7]
      rfl
  | getStress id buf =>
    cases hf : findGp id s.obj.gauss <;>
    · have h1 : step env s (.getStress id buf) = .ok
          { state := { s with obj := (getMacroStress s.obj id buf).1 }, ret := .buf (getMacroStress s.obj id buf).2 } := rfl
      have h2 : step env (s.copy ma v0) (.getStress id buf) = .ok
          { state := { s.copy ma v0 with obj := (getMacroStress (s.copy ma v0).obj id buf).1 },
            ret := .buf (getMacroStress (s.copy ma v0).obj id buf).2 } := rfl
      rw [h1, h2]
      unfold getMacroStress
      simp only [hf]
      exact ⟨_, rfl, rfl, hs, rfl⟩
  | getCtan id buf =>
    cases hf : findGp id s.obj.gauss <;>
    · have h1 : step env s (.getCtan id buf) = .ok
          { state := { s with obj := (getMacroCtan s.obj id buf).1 }, ret := .buf (getMacroCtan s.obj id buf).2 } := rfl
      have h2 : step env (s.copy ma v0) (.getCtan id buf) = .ok
          { state := { s.copy ma v0 with obj := (getMacroCtan (s.copy ma v0).obj id buf).1 },
            ret := .buf (getMacroCtan (s.copy ma v0).obj id buf).2 } := rfl
      rw [h1, h2]
      unfold getMacroCtan
      simp only [hf]
      exact ⟨_, rfl, rfl, hs, rfl⟩
  | getNl id =>
    cases hf : findGp id s.obj.gauss <;>
    · have h1 : step env s (.getNl id) = .ok
          { state := { s with obj := (getNlFlag s.obj id).1 }, ret := .flag (getNlFlag s.obj id).2 } := rfl
      have h2 : step env (s.copy ma v0) (.getNl id) = .ok
          { state := { s.copy ma v0 with obj := (getNlFlag (s.copy ma v0).obj id).1 },
            ret := .flag (getNlFlag (s.copy ma v0).obj id).2 } := rfl
      rw [h1, h2]
      unfold getNlFlag
      simp only [hf]
      exact ⟨_, rfl, rfl, hs, rfl⟩
  | updateVars =>
    refine ⟨{ state := s, ret := .unit }, ?_, rfl, hs, ?_⟩
    · show (updateVars s.obj >>= fun r => _) = _
      unfold updateVars
      rw [updateList_none hs.none]
      rfl
    · show (updateVars (s.copy ma v0).obj >>= fun r => _) = _
      unfold updateVars
      rw [updateList_none hs.none]
      rfl
  | output t id =>
    cases hf : findGp id s.obj.gauss with
    | none =>
      refine ⟨⟨s, .unit⟩, ?_, rfl, hs, ?_⟩
      · show (output env s t id >>= fun r => _) = _
        unfold output
        rw [hf]
        rfl
      · show (output env (s.copy ma v0) t id >>= fun r => _) = _
        unfold output
        rw [show findGp id (s.copy ma v0).obj.gauss = none from hf]
        rfl
    | some g =>
      have hg := findGp_mem hf
      have hw := hs.work
      have h1 : ∃ old : Buf ℝ, loadVars s.obj.cfg g.intVarsN s.obj.work.varsOld = .ok old ∧
          old.size = s.obj.cfg.numIntVars ∧ old.Blank s.obj.cfg.numIntVars ∧
          loadVars (s.obj.cfg.swap ma) g.intVarsN (s.obj.work.new v0).varsOld = .ok old := by
        rw [(hs.none g hg).1]
        refine ⟨_, zeroInto_eq (by rw [hw.varsOld]), hw.varsOld, fun k hk => ?_, zeroInto_eq (by
          show s.obj.cfg.numIntVars ≤ _; rw [hw.varsOld])⟩
        simp [hk]
      obtain ⟨old, h1, h2, h2z, h1'⟩ := h1
      have hw' : Work.Ok s.obj.cfg { s.obj.work with varsOld := old } :=
        ⟨hw.u, hw.du, hw.b, hw.elemStress, hw.elemStrain, h2, hw.varsNew, hw.A2, hw.A3⟩
      obtain ⟨w1, out, e1, e2, e1', e2', -, e3, e4, e5⟩ := ht.solve _ ma B hs.ok hs.like hB hs.calm env _
        g.macroStrain v0 hw' h2z h0 hs.small (fun v hv => by linarith [hs.strain g hg v hv]) hp
      have hcf : ∃ w', calcFields s.obj.cfg out.work = .ok w' ∧ w'.Ok s.obj.cfg ∧ w'.u = out.work.u ∧
          w'.varsOld = out.work.varsOld := by
        obtain ⟨w', k1, k2⟩ := calcFields_ok hs.ok e3.ok
        refine ⟨w', k1, k2, ?_⟩
        rcases hs.ok.dim with hd | hd
        · obtain ⟨_, _, k3, -⟩ := calcFields2_eq hs.ok hd e3.ok
          rw [k1] at k3; cases k3; exact ⟨rfl, rfl⟩
        · obtain ⟨_, _, k3, -⟩ := calcFields3_eq hs.ok hd e3.ok
          rw [k1] at k3; cases k3; exact ⟨rfl, rfl⟩
      obtain ⟨w', k1, k2, k3, k3'⟩ := hcf
      obtain ⟨y, k5, k6, -⟩ := (calcFields_twin hs.ok hs.calm e3.ok (by rw [e3.varsOld]; exact h2z) e5 h0).left k1
      subst k6
      obtain ⟨t', k4⟩ := writeVtu_ok hs.ok k2
      have k4' : writeVtu (s.obj.cfg.swap ma) (w'.new v0) = .ok t' := k4
      refine ⟨{ state := { obj := { s.obj with work := w' }
                           files := { s.files with vtu := fun g k =>
                             if g = id ∧ k = t then some t' else s.files.vtu g k } }, ret := .unit }, ?_, rfl,
        ⟨hs.ok, k2, hs.like, hs.calm, ?_, ?_, hs.none, hs.strain⟩, ?_⟩
      · show (output env s t id >>= fun r => _) = _
        unfold output
        rw [hf]
        simp only
        rw [h1, M_bind_ok', e1, M_bind_ok', e2, M_bind_ok', k1, M_bind_ok', k4]
        rfl
      · show Buf.Blank _ w'.varsOld
        rw [k3', e3.varsOld]; exact h2z
      · intro q hq
        show |w'.u.val q| ≤ _
        rw [k3]
        exact e4 q hq
      · show (output env (s.copy ma v0) t id >>= fun r => _) = _
        unfold output
        rw [show findGp id (s.copy ma v0).obj.gauss = some g from hf]
        simp only
        rw [h1', M_bind_ok', e1', M_bind_ok', e2', M_bind_ok', k5, M_bind_ok', k4']
        rfl
  | writeInfo =>
    obtain ⟨v, h1⟩ := recVarsList_ok (c := s.obj.cfg) (l := s.obj.gauss) fun g hg => by
      obtain ⟨a1, a2⟩ := hs.none g hg
      exact ⟨fun b h => (by rw [a1] at h; cases h), fun b h => (by rw [a2] at h; cases h), (by rw [a1, a2])⟩
    have h1' : ∀ l, recVarsList (s.obj.cfg.swap ma) l = recVarsList s.obj.cfg l := by
      intro l
      induction l with
      | nil => rfl
      | cons g l ih =>
        show (recVars _ _ >>= fun t => recVarsList _ _ >>= fun r => _) = (recVars _ _ >>= fun t => recVarsList _ _ >>= fun r => _)
        rw [ih]
        rfl
    have h2 : step env s .writeInfo = (writeInfoFiles s >>= fun r => pure ⟨r, .unit⟩) := rfl
    have h3 : step env (s.copy ma v0) .writeInfo = (writeInfoFiles (s.copy ma v0) >>= fun r => pure ⟨r, .unit⟩) := rfl
    rw [h2, h3]
    unfold writeInfoFiles
    simp only
    rw [h1', h1]
    exact ⟨_, rfl, rfl, ⟨hs.ok, hs.work, hs.like, hs.calm, hs.blank, hs.small, hs.none, hs.strain⟩, rfl⟩

/-- Sequences of calls do the same to both objects. -/
theorem run_twin (ht : Twins F L K n M) (hB : 0 ≤ B) (hp : env.Patient (n * (1 + B) ^ 2)) {v0 : Buf ℝ}
    {s : ObjFiles ℝ} (h0 : v0.size = s.obj.cfg.numIntVars) (hs : Below F L K M B ma s.obj) {calls : List (Call ℝ)}
    (hk : ∀ k ∈ calls, k.Within s.obj.cfg.nvoi B) :
    ∃ s', run env calls s = .ok s' ∧ s'.obj.cfg = s.obj.cfg ∧ Below F L K M B ma s'.obj ∧
      run env calls (s.copy ma v0) = .ok (s'.copy ma v0) := by
  induction calls generalizing s with
  | nil => exact ⟨s, rfl, rfl, hs, rfl⟩
  | cons k l ih =>
    obtain ⟨r, h1, h2, h3, h4⟩ := step_twin ht hB hp h0 hs (hk k (by simp))
    obtain ⟨s', k1, k2, k3, k4⟩ := ih (s := r.state) (by rw [h2]; exact h0) h3 fun k h => by
      rw [h2]; exact hk k (by simp [h])
    unfold run
    rw [h1, M_bind_ok', h4, M_bind_ok']
    exact ⟨s', k1, k2.trans h2, k3, k4⟩

end Verif
