import Verif.Lemmas.Converge
import Verif.Lemmas.Built
import Verif.Lemmas.State

/-! # Public calls on elastic cells return -/

namespace Verif
open Spec Finset

namespace Spec.Fe
variable {F : Fe} {L : Nat × Nat × Nat → (Nat → ℝ) → Nat → ℝ}

/-- Equilibria and boundary values are bounded by the macro strain. -/
theorem sol_bound (hF : F.Good) (hL : F.Law L) : ∃ K : ℝ, 0 < K ∧ ∀ (eps : Nat → ℝ) (B : ℝ), 0 ≤ B →
    (∀ v, v < F.nvoi → |eps v| ≤ B) → ∃ s : Nat → ℝ, F.Equil (F.stress L s) ∧ F.OnBd eps s ∧
      ∀ r, r < F.nn * F.dim → |s r| ≤ K * B := by
  obtain ⟨K, hK, h⟩ := stable hF hL
  let M : ℝ := ∑ r ∈ range (F.nn * F.dim), ∑ k ∈ range F.dim, |F.coord (r / F.dim) k|
  have hM : 0 ≤ M := sum_nonneg fun _ _ => sum_nonneg fun _ _ => abs_nonneg _
  refine ⟨K * (M + 1), by positivity, fun eps B hB he => ?_⟩
  obtain ⟨s, h1, h2⟩ := exists_sol hF hL (F.affine (F.symGrad eps) fun _ => 0) fun _ => 0
  have hd : 0 < F.dim := by rcases hF.kind with ⟨h1, -⟩ | ⟨h1, -⟩ <;> omega
  have hn : (F.dim = 2 ∧ F.nvoi = 3) ∨ (F.dim = 3 ∧ F.nvoi = 6) := by
    rcases hF.kind with ⟨h1, -, h2, -⟩ | ⟨h1, -, h2, -⟩
    · exact Or.inl ⟨h1, h2⟩
    · exact Or.inr ⟨h1, h2⟩
  have hG : ∀ i k, i < F.dim → k < F.dim → |F.symGrad eps i k| ≤ B := by
    intro i k hi hk
    unfold symGrad
    split
    · exact he _ (by omega)
    · rw [abs_div, abs_of_pos (by norm_num : (0 : ℝ) < 2)]
      have := he (if i + k = 1 then F.dim else i + k + 2) (by split <;> omega)
      linarith [abs_nonneg (eps (if i + k = 1 then F.dim else i + k + 2))]
  have hb : ∀ r, r < F.nn * F.dim → |F.affine (F.symGrad eps) (fun _ => 0) r| ≤ (M + 1) * B := by
    intro r hr
    unfold affine
    rw [zero_add]
    have h3 : |∑ j ∈ range F.dim, F.symGrad eps (r % F.dim) j * F.coord (r / F.dim) j|
        ≤ B * ∑ k ∈ range F.dim, |F.coord (r / F.dim) k| := by
      rw [mul_sum]
      refine (abs_sum_le_sum_abs _ _).trans (sum_le_sum fun k hk => ?_)
      rw [abs_mul]
      exact mul_le_mul_of_nonneg_right (hG _ _ (Nat.mod_lt _ hd) (mem_range.mp hk)) (abs_nonneg _)
    have h4 : ∑ k ∈ range F.dim, |F.coord (r / F.dim) k| ≤ M :=
      single_le_sum (f := fun r => ∑ k ∈ range F.dim, |F.coord (r / F.dim) k|)
        (fun _ _ => sum_nonneg fun _ _ => abs_nonneg _) (mem_range.mpr hr)
    nlinarith [mul_le_mul_of_nonneg_left h4 hB]
  refine ⟨s, h2, h1, fun r hr => ?_⟩
  have := (h s ((M + 1) * B) (by positivity) (fun r hr hb' => by rw [h1 r hr hb']; exact hb r hr)
    (fun r hr hb' => by rw [h2 r hr hb', abs_zero]; positivity)).1 r hr
  rw [mul_assoc]
  exact this

end Spec.Fe

variable {F : Fe} {L : Nat × Nat × Nat → (Nat → ℝ) → Nat → ℝ} {c : Cfg ℝ} {env : Env ℝ} {w : Work ℝ}

/-- The displacements are bounded by `K * (1 + B)`. -/
def Work.Small (c : Cfg ℝ) (K B : ℝ) (w : Work ℝ) : Prop := ∀ q, q < c.nn * c.dim → |w.u.val q| ≤ K * (1 + B)

/-- `set_displ` and `newton_raphson` return and leave bounded displacements. -/
theorem displ_newton (hF : F.Good) (hL : F.Law L) : ∃ K n : ℝ, 1 ≤ K ∧ ∀ (c : Cfg ℝ), Like F L c →
    ∀ (env : Env ℝ) (w : Work ℝ) (eps : Nat → ℝ) (B : ℝ), w.Ok c → 0 ≤ B → w.Small c K B →
      (∀ v, v < c.nvoi → |eps v| ≤ 1 + B) → env.Patient (n * (1 + B) ^ 2) →
      ∃ w1 out, setDispl c w eps = .ok w1 ∧ newtonRaphson env c w1 = .ok out ∧ Frame c w out.work ∧
        out.work.Small c K B := by
  obtain ⟨K1, hK1, h1⟩ := Fe.sol_bound hF hL
  obtain ⟨K2, hK2, h2⟩ := newton_close hF hL
  obtain ⟨K3, hK3, h3⟩ := Fe.bil_lower hF hL
  obtain ⟨δ, hδ, h4⟩ := newton_returns hF hL
  obtain ⟨Λ, hΛ, h5⟩ := Fe.bil_upper hF hL
  let K : ℝ := K1 + K3 * (Real.sqrt K2 * 1e-5) + 1
  have hK0 : 0 ≤ K3 * (Real.sqrt K2 * 1e-5) := by positivity
  let D : ℝ := Λ * (((F.nn * F.dim : ℕ) : ℝ) * (K + K1) ^ 2)
  have hD : 0 ≤ D := by positivity
  refine ⟨K, D / δ + 1, by show 1 ≤ K1 + K3 * (Real.sqrt K2 * 1e-5) + 1; linarith, ?_⟩
  intro c hl env w eps B hw hB hu he hp
  have h2' := h2 c hl
  have h4' := h4 c hl
  obtain ⟨hc, hg, hel, rfl, rfl⟩ := hl
  have hN := c.fe_nn hc
  obtain ⟨s, s1, s2, s3⟩ := h1 eps (1 + B) (by linarith) fun v hv => he v (by rw [← c.fe_nvoi]; exact hv)
  obtain ⟨u, e1, e2, e3, e4⟩ := setDispl_real hc hg.toDivided hw.u eps
  have hw1 : Work.Ok c { w with u := u } := Props.Work.Ok.setU hw e2
  have hfr : Frame c w { w with u := u } := ⟨hw1, rfl, rfl, rfl, rfl, SameElastic.rfl', le_refl _⟩
  have hb : ∀ r, r < c.fe.nn * c.fe.dim → c.fe.Bd r → u.val r = s r := fun r hr hb => by
    rw [e3 r hr hb, s2 r hr hb]
  have hB1 : 0 < 1 + B := by linarith
  have hgap : c.fe.bil c.law (fun r => u.val r - s r) (fun r => u.val r - s r) ≤ D * (1 + B) ^ 2 := by
    refine (h5 _).trans ?_
    have : dot (c.fe.nn * c.fe.dim) (fun r => u.val r - s r) (fun r => u.val r - s r)
        ≤ ((c.fe.nn * c.fe.dim : ℕ) : ℝ) * ((K + K1) * (1 + B)) ^ 2 := by
      unfold dot
      have h6 : ∀ r ∈ range (c.fe.nn * c.fe.dim), (u.val r - s r) * (u.val r - s r)
          ≤ ((K + K1) * (1 + B)) ^ 2 := by
        intro r hr
        have hr := mem_range.mp hr
        rw [← sq]
        refine sq_le_sq' ?_ ?_ <;>
        · by_cases hb' : c.fe.Bd r
          · rw [hb r hr hb', sub_self]
            have : 0 ≤ (K + K1) * (1 + B) := by positivity
            linarith
          · rw [e4 r fun h => hb' h.2]
            have a1 := abs_le.mp (hu r (by rw [← hN]; exact hr))
            have a2 := abs_le.mp (s3 r hr)
            have : (K + K1) * (1 + B) = K * (1 + B) + K1 * (1 + B) := by ring
            linarith [a1.1, a1.2, a2.1, a2.2]
      have := sum_le_sum h6
      rwa [sum_const, card_range, nsmul_eq_mul] at this
    calc Λ * dot (c.fe.nn * c.fe.dim) (fun r => u.val r - s r) (fun r => u.val r - s r)
        ≤ Λ * (((c.fe.nn * c.fe.dim : ℕ) : ℝ) * ((K + K1) * (1 + B)) ^ 2) :=
          mul_le_mul_of_nonneg_left this hΛ.le
      _ = D * (1 + B) ^ 2 := by
          show _ = Λ * (((c.fe.nn * c.fe.dim : ℕ) : ℝ) * (K + K1) ^ 2) * (1 + B) ^ 2
          ring
  have hfuel : D * (1 + B) ^ 2 < δ * env.fuel := by
    have h7 := mul_le_mul_of_nonneg_left hp.fuel hδ.le
    have h8 : δ * ((D / δ + 1) * (1 + B) ^ 2) = D * (1 + B) ^ 2 + δ * (1 + B) ^ 2 := by
      field_simp
    have : 0 < δ * (1 + B) ^ 2 := by positivity
    linarith
  obtain ⟨out, ho⟩ := h4' env _ s hw1 hp.peek s1 hb (lt_of_le_of_lt hgap hfuel)
  have hf2 := (newtonRaphson_safe (env := env) hc hw1).post ho
  refine ⟨_, out, e1, ho, hfr.trans hf2, fun q hq => ?_⟩
  have hpk : ∀ t v, env.peek t = some v → v < 40 := fun t v hv => by
    obtain ⟨v', hv', hlt⟩ := hp.peek t
    rw [hv] at hv'
    cases hv'
    exact hlt
  obtain ⟨-, a1, a2⟩ := h2' env _ out s hw1 hpk ho s1 hb
  have a3 := (h3 (fun r => out.work.u.val r - s r) (Real.sqrt K2 * 1e-5) (by positivity)
    (fun r hr hb' => by rw [a1 r hr hb', sub_self])
    (by rw [mul_pow, Real.sq_sqrt hK2.le]; exact a2)).1 q (by rw [hN]; exact hq)
  have a4 := s3 q (by rw [hN]; exact hq)
  have a5 : |out.work.u.val q| ≤ |out.work.u.val q - s q| + |s q| := by
    have := abs_add_le (out.work.u.val q - s q) (s q)
    rwa [sub_add_cancel] at this
  have a6 : K * (1 + B) = K1 * (1 + B) + (K3 * (Real.sqrt K2 * 1e-5)) * (1 + B) + (1 + B) := by
    show (K1 + K3 * (Real.sqrt K2 * 1e-5) + 1) * (1 + B) = _
    ring
  have a7 : K3 * (Real.sqrt K2 * 1e-5) ≤ K3 * (Real.sqrt K2 * 1e-5) * (1 + B) := by nlinarith
  rw [a6]
  linarith

/-- Constants of a cell for which all solves return. -/
structure Bounded (F : Fe) (L : Nat × Nat × Nat → (Nat → ℝ) → Nat → ℝ) (K n : ℝ) : Prop where
  one : 1 ≤ K
  solve : ∀ (c : Cfg ℝ), Like F L c →
    ∀ (env : Env ℝ) (w : Work ℝ) (eps : Nat → ℝ) (B : ℝ), w.Ok c → 0 ≤ B → w.Small c K B →
      (∀ v, v < c.nvoi → |eps v| ≤ 1 + B) → env.Patient (n * (1 + B) ^ 2) →
      ∃ w1 out, setDispl c w eps = .ok w1 ∧ newtonRaphson env c w1 = .ok out ∧ Frame c w out.work ∧
        out.work.Small c K B

variable {K n B : ℝ}

section
variable (hb : Bounded F L K n) (hl : Like F L c) (hB : 0 ≤ B) (hp : env.Patient (n * (1 + B) ^ 2))
include hb hl hB hp

theorem solveStrain_ends {eps : Nat → ℝ} (hw : w.Ok c) (hu : w.Small c K B)
    (he : ∀ v, v < c.nvoi → |eps v| ≤ 1 + B) :
    ∃ r, solveStrain env c w eps = .ok r ∧ Frame c w r.nr.work ∧ r.nr.work.Small c K B := by
  obtain ⟨w1, out, h1, h2, h3, h4⟩ := hb.solve c hl env w eps B hw hB hu he hp
  obtain ⟨ave, vn, h5, h6⟩ := calcAveStress_ok hl.ok h3.ok
  unfold solveStrain
  rw [h1, M_bind_ok', h2, M_bind_ok', h5]
  exact ⟨_, rfl, h3.trans h6, h4⟩

theorem calcCtanLin_ends (hw : w.Ok c) (hu : w.Small c K B) (ctan : Nat → ℝ) :
    ∃ r, calcCtanLin env c ctan w = .ok r ∧ Frame c w r.work ∧ r.work.Small c K B := by
  unfold calcCtanLin
  refine loop_inv (fun _ (s : CtanState ℝ) => Frame c w s.work ∧ s.work.Small c K B)
    ⟨Frame.rfl' hw, hu⟩ fun i s _ hs => ?_
  obtain ⟨r, h1, h2, h3⟩ := solveStrain_ends hb hl hB hp (eps := fun v => if v = i then 0 + 1.0e-8 else 0)
    hs.1.ok hs.2 (fun v _ => by
      split
      · rw [abs_of_nonneg (by norm_num)]; norm_num; linarith
      · rw [abs_zero]; linarith)
  rw [h1, M_bind_ok']
  exact ⟨_, rfl, hs.1.trans h2, h3⟩

theorem homogenizeGp_ends {g : Gp ℝ} (hw : w.Ok c) (hu : w.Small c K B) (hg : g.Ok c)
    (he : ∀ v, v < c.nvoi → |g.macroStrain v| ≤ B) :
    ∃ s, homogenizeGp env c g w = .ok s ∧ s.work.Ok c ∧ s.gp.Ok c ∧ s.work.Small c K B ∧
      s.gp.macroStrain = g.macroStrain := by
  obtain ⟨old, h1, h2⟩ := loadVars_ok hg hw.varsOld
  obtain ⟨l, h3⟩ := isLinear_ok hl.ok (-1.0e10) g.macroStrain
  have hw' : Work.Ok c { w with varsOld := old, invMax := l.2 } :=
    ⟨hw.u, hw.du, hw.b, hw.elemStress, hw.elemStrain, h2, hw.varsNew, hw.A2, hw.A3⟩
  unfold homogenizeGp
  rw [h1, M_bind_ok', h3, M_bind_ok']
  simp only
  split
  · exact ⟨_, rfl, hw', ⟨hg.n, hg.k, hg.both⟩, hu, rfl⟩
  · obtain ⟨r, e1, e2, e3⟩ := solveStrain_ends hb hl hB hp (eps := g.macroStrain) hw' hu
      fun v hv => by linarith [he v hv]
    obtain ⟨g', e4, e5⟩ := storeVars_ok (g := { g with macroStress := setFirst c.nvoi r.sig g.macroStress })
      ⟨hg.n, hg.k, hg.both⟩ r.nr.nl e2.ok.varsNew
    have e6 : g'.macroStrain = g.macroStrain := (storeVars_inv e4).1.strain
    have key : ∃ s, solveGp env c g { w with varsOld := old, invMax := l.2 } = .ok s ∧
        Frame c { w with varsOld := old, invMax := l.2 } s.work ∧ s.work.Small c K B ∧ s.gp.Ok c ∧
        s.gp.macroStrain = g.macroStrain := by
      unfold solveGp
      rw [e1, M_bind_ok']
      simp only
      rw [e4, M_bind_ok']
      refine loop_inv (fun _ (s : GpWork ℝ) => Frame c { w with varsOld := old, invMax := l.2 } s.work ∧
        s.work.Small c K B ∧ s.gp.Ok c ∧ s.gp.macroStrain = g.macroStrain)
        ⟨e2, e3, ⟨e5.n, e5.k, e5.both⟩, e6⟩ fun i s _ hs => ?_
      obtain ⟨r', f1, f2, f3⟩ := solveStrain_ends hb hl hB hp
        (eps := fun v => if v = i then s.gp.macroStrain v + 1.0e-8 else s.gp.macroStrain v)
        hs.1.ok hs.2.1 (fun v hv => by
          have h := he v hv
          rw [hs.2.2.2]
          split
          · refine (abs_add_le _ _).trans ?_
            rw [abs_of_nonneg (by norm_num : (0 : ℝ) ≤ 1.0e-8)]
            have : (1.0e-8 : ℝ) ≤ 1 := by norm_num
            linarith
          · linarith)
      unfold ctanGp
      simp only
      rw [f1, M_bind_ok']
      exact ⟨_, rfl, hs.1.trans f2, f3, ⟨hs.2.2.1.n, hs.2.2.1.k, hs.2.2.1.both⟩, hs.2.2.2⟩
    obtain ⟨s, k1, k2, k3, k4, k5⟩ := key
    rw [k1, M_bind_ok']
    exact ⟨_, rfl, k2.ok, ⟨k4.n, k4.k, k4.both⟩, k3, k5⟩

theorem homogenizeList_ends {l : List (Gp ℝ)} (hw : w.Ok c) (hu : w.Small c K B) (hg : ∀ g ∈ l, g.Ok c)
    (he : ∀ g ∈ l, ∀ v, v < c.nvoi → |g.macroStrain v| ≤ B) :
    ∃ r, homogenizeList env c l w = .ok r ∧ r.work.Ok c ∧ r.work.Small c K B ∧
      (∀ g ∈ r.gauss, g.Ok c) ∧ ∀ g ∈ r.gauss, ∀ v, v < c.nvoi → |g.macroStrain v| ≤ B := by
  induction l generalizing w with
  | nil => exact ⟨_, rfl, hw, hu, by simp, by simp⟩
  | cons g l ih =>
    obtain ⟨s, h1, h2, h3, h4, h5⟩ := homogenizeGp_ends hb hl hB hp hw hu (hg g (by simp)) (he g (by simp))
    obtain ⟨r, k1, k2, k3, k4, k5⟩ := ih h2 h4 (fun g h => hg g (by simp [h])) fun g h => he g (by simp [h])
    unfold homogenizeList
    rw [h1, M_bind_ok', k1, M_bind_ok']
    refine ⟨_, rfl, k2, k3, fun x hx => ?_, fun x hx => ?_⟩
    · rcases List.mem_cons.mp hx with rfl | h
      · exact h3
      · exact k4 x h
    · rcases List.mem_cons.mp hx with rfl | h
      · rw [h5]; exact he g (by simp)
      · exact k5 x h

end

/-- Bounds for displacements and prescribed strains. -/
structure Obj.Small (K B : ℝ) (o : Obj ℝ) : Prop where
  ok : o.Ok
  work : o.work.Small o.cfg K B
  strain : ∀ g ∈ o.gauss, ∀ v, v < o.cfg.nvoi → |g.macroStrain v| ≤ B

/-- The strains that the caller prescribes are bounded by `B`. -/
def Call.Within (nvoi : Nat) (B : ℝ) : Call ℝ → Prop
  | .setStrain _ eps => ∀ v, v < nvoi → |eps v| ≤ B
  | _ => True

theorem setStrainList_within {l : List (Gp ℝ)} {nvoi : Nat} (hl : ∀ g ∈ l, ∀ v, v < nvoi → |g.macroStrain v| ≤ B)
    {eps : Nat → ℝ} (he : ∀ v, v < nvoi → |eps v| ≤ B) (id : Int) (junk : Gp ℝ) :
    ∀ g ∈ setStrainList nvoi id eps junk l, ∀ v, v < nvoi → |g.macroStrain v| ≤ B := by
  have hs : ∀ (a : Nat → ℝ) v, v < nvoi → |setFirst nvoi eps a v| ≤ B := fun a v hv => by
    unfold setFirst; rw [if_pos hv]; exact he v hv
  induction l with
  | nil =>
    intro g hg
    simp only [setStrainList, List.mem_singleton] at hg
    subst hg
    exact hs _
  | cons x l ih =>
    intro g hg
    unfold setStrainList at hg
    split at hg
    · rcases List.mem_cons.mp hg with rfl | h
      · exact hs _
      · exact hl g (by simp [h])
    · rcases List.mem_cons.mp hg with rfl | h
      · exact hl g (by simp)
      · exact ih (fun g hg => hl g (by simp [hg])) g h

theorem findGp_mem {id : Int} {l : List (Gp ℝ)} {g : Gp ℝ} (h : findGp id l = some g) : g ∈ l := by
  induction l with
  | nil => cases h
  | cons x l ih =>
    unfold findGp at h
    split at h
    · cases h; simp
    · exact List.mem_cons_of_mem _ (ih h)

theorem updateList_strain {l l' : List (Gp ℝ)} (h : updateList c l = .ok l')
    (hl : ∀ g ∈ l, ∀ v, v < c.nvoi → |g.macroStrain v| ≤ B) :
    ∀ g ∈ l', ∀ v, v < c.nvoi → |g.macroStrain v| ≤ B := by
  induction l generalizing l' with
  | nil => cases h; simp
  | cons x l ih =>
    unfold updateList at h
    simp only [bind_ok_iff, pure_ok_iff] at h
    obtain ⟨g', h1, r, h2, rfl⟩ := h
    have hx : g'.macroStrain = x.macroStrain := by
      unfold updateGp at h1
      split at h1
      · cases h1; rfl
      · split at h1
        · split at h1
          · cases h1; rfl
          · cases h1
        · simp only [bind_ok_iff, pure_ok_iff] at h1
          obtain ⟨b, -, rfl⟩ := h1
          rfl
    intro g hg
    rcases List.mem_cons.mp hg with rfl | hm
    · rw [hx]; exact hl x (by simp)
    · exact ih h2 (fun g h => hl g (by simp [h])) g hm

/-- Every public call returns and keeps the bounds. -/
theorem step_ends (hb : Bounded F L K n) (hB : 0 ≤ B) (hp : env.Patient (n * (1 + B) ^ 2)) {s : ObjFiles ℝ}
    (hl : Like F L s.obj.cfg) (hs : s.obj.Small K B) {k : Call ℝ} (hk : k.Within s.obj.cfg.nvoi B) :
    ∃ r, step env s k = .ok r ∧ r.state.obj.cfg = s.obj.cfg ∧ r.state.obj.Small K B := by
  have hget : ∀ r : Stepped ℝ, step env s k = .ok r → r.state.obj = s.obj →
      ∃ r, step env s k = .ok r ∧ r.state.obj.cfg = s.obj.cfg ∧ r.state.obj.Small K B :=
    fun r h1 h2 => ⟨r, h1, by rw [h2], by rw [h2]; exact hs⟩
  cases k with
  | setStrain id eps =>
    exact ⟨_, rfl, rfl, ⟨hs.ok.cfg, hs.ok.work.tickTo _, setStrainList_ok hs.ok.gauss id eps _⟩, hs.work,
      setStrainList_within hs.strain hk id _⟩
  | homogenize =>
    obtain ⟨r, h1, h2, h3, h4, h5⟩ := homogenizeList_ends hb hl hB hp hs.ok.work hs.work hs.ok.gauss hs.strain
    refine ⟨{ state := { s with obj := { s.obj with gauss := r.gauss, work := r.work } }, ret := .unit },
      ?_, rfl, ⟨hs.ok.cfg, h2, h4⟩, h3, h5⟩
    show (homogenize env s.obj >>= fun o => _) = _
    unfold homogenize
    rw [h1]
    rfl
  | getStress id buf =>
    refine hget _ rfl ?_
    show (getMacroStress s.obj id buf).1 = _
    unfold getMacroStress
    split <;> rfl
  | getCtan id buf =>
    refine hget _ rfl ?_
    show (getMacroCtan s.obj id buf).1 = _
    unfold getMacroCtan
    split <;> rfl
  | getNl id =>
    refine hget _ rfl ?_
    show (getNlFlag s.obj id).1 = _
    unfold getNlFlag
    split <;> rfl
  | updateVars =>
    obtain ⟨l, h1, h2⟩ := updateList_ok hs.ok.gauss
    refine ⟨{ state := { s with obj := { s.obj with gauss := l } }, ret := .unit }, ?_, rfl,
      ⟨hs.ok.cfg, hs.ok.work, h2⟩, hs.work, updateList_strain h1 hs.strain⟩
    show (updateVars s.obj >>= fun r => _) = _
    unfold updateVars
    rw [h1]
    rfl
  | output t id =>
    cases hf : findGp id s.obj.gauss with
    | none =>
      refine hget ⟨s, .unit⟩ ?_ rfl
      show (output env s t id >>= fun r => _) = _
      unfold output
      rw [hf]
      rfl
    | some g =>
      have hm := findGp_mem hf
      obtain ⟨old, h1, h2⟩ := loadVars_ok (hs.ok.gauss g hm) hs.ok.work.varsOld
      have hw : Work.Ok s.obj.cfg { s.obj.work with varsOld := old } :=
        ⟨hs.ok.work.u, hs.ok.work.du, hs.ok.work.b, hs.ok.work.elemStress, hs.ok.work.elemStrain, h2,
          hs.ok.work.varsNew, hs.ok.work.A2, hs.ok.work.A3⟩
      obtain ⟨w1, out, e1, e2, e3, e4⟩ := hb.solve _ hl env _ g.macroStrain B hw hB hs.work
        (fun v hv => by linarith [hs.strain g hm v hv]) hp
      have hcf : ∃ w', calcFields s.obj.cfg out.work = .ok w' ∧ w'.Ok s.obj.cfg ∧ w'.u = out.work.u := by
        obtain ⟨w', k1, k2⟩ := calcFields_ok hl.ok e3.ok
        refine ⟨w', k1, k2, ?_⟩
        rcases hl.ok.dim with hd | hd
        · obtain ⟨_, _, k3, -⟩ := calcFields2_eq hl.ok hd e3.ok
          rw [k1] at k3; cases k3; rfl
        · obtain ⟨_, _, k3, -⟩ := calcFields3_eq hl.ok hd e3.ok
          rw [k1] at k3; cases k3; rfl
      obtain ⟨w', k1, k2, k3⟩ := hcf
      obtain ⟨t', k4⟩ := writeVtu_ok hl.ok k2
      refine ⟨{ state := { obj := { s.obj with work := w' }
                           files := { s.files with vtu := fun g k =>
                             if g = id ∧ k = t then some t' else s.files.vtu g k } }, ret := .unit }, ?_, rfl,
        ⟨hs.ok.cfg, k2, hs.ok.gauss⟩, ?_, hs.strain⟩
      · show (output env s t id >>= fun r => _) = _
        unfold output
        rw [hf]
        simp only
        rw [h1, M_bind_ok', e1, M_bind_ok', e2, M_bind_ok', k1, M_bind_ok', k4]
        rfl
      · intro q hq
        show |w'.u.val q| ≤ _
        rw [k3]
        exact e4 q hq
  | writeInfo =>
    obtain ⟨v, h1⟩ := recVarsList_ok hs.ok.gauss
    have h2 : ∃ r, step env s .writeInfo = .ok r ∧ r.state.obj.cfg = s.obj.cfg ∧
        r.state.obj.work = s.obj.work ∧ r.state.obj.gauss = s.obj.gauss := by
      show ∃ r, (writeInfoFiles s >>= fun r => _) = .ok r ∧ _
      unfold writeInfoFiles
      simp only
      rw [h1]
      exact ⟨_, rfl, rfl, rfl, rfl⟩
    obtain ⟨r, k1, k2, k3, k4⟩ := h2
    refine ⟨r, k1, k2, ⟨?_, ?_, ?_⟩, ?_, ?_⟩
    · rw [k2]; exact hs.ok.cfg
    · rw [k2, k3]; exact hs.ok.work
    · rw [k2, k4]; exact hs.ok.gauss
    · rw [k2, k3]; exact hs.work
    · rw [k2, k4]; exact hs.strain

/-- Sequences of calls return. -/
theorem run_ends (hb : Bounded F L K n) (hB : 0 ≤ B) (hp : env.Patient (n * (1 + B) ^ 2)) {s : ObjFiles ℝ}
    (hl : Like F L s.obj.cfg) (hs : s.obj.Small K B) {calls : List (Call ℝ)}
    (hk : ∀ k ∈ calls, k.Within s.obj.cfg.nvoi B) :
    ∃ s', run env calls s = .ok s' ∧ s'.obj.cfg = s.obj.cfg ∧ s'.obj.Small K B := by
  induction calls generalizing s with
  | nil => exact ⟨s, rfl, rfl, hs⟩
  | cons k l ih =>
    obtain ⟨r, h1, h2, h3⟩ := step_ends hb hB hp hl hs (hk k (by simp))
    obtain ⟨s', k1, k2, k3⟩ := ih (s := r.state) (by rw [h2]; exact hl) h3 fun k h => by
      rw [h2]; exact hk k (by simp [h])
    unfold run
    rw [h1, M_bind_ok']
    exact ⟨s', k1, k2.trans h2, k3⟩

/-- Construction and every sequence of calls return, with a step budget that depends on the arguments of
the constructor, the memory it finds and a bound of the prescribed strains. -/
theorem reach_ends {a : Args ℝ} (ha : a.Ok) (hg : a.Geom) (hel : a.Elastic) (j : Junk ℝ) {B : ℝ} (hB : 0 ≤ B) :
    ∃ N : ℝ, ∀ env : Env ℝ, env.Patient N → ∀ (f : Files ℝ) (calls : List (Call ℝ)),
      (∀ k ∈ calls, k.Within (if a.dim = 2 then 3 else 6) B) → ∃ s, (constructF env a j f >>= run env calls) = .ok s := by
  obtain ⟨et, A, hc, hw, hty, h⟩ := construct_any ha j
  have hbf : BuiltFrom a j (mkCfg a j et) := ⟨hc, ⟨et, (mkCfg a j et).ctanLin, rfl⟩, hty⟩
  have hl : Like (mkCfg a j et).fe (mkCfg a j et).law (mkCfg a j et) :=
    ⟨hc, hbf.geom hg, hbf.elastic hel, rfl, rfl⟩
  obtain ⟨K, n, h1, h2⟩ := displ_newton ((mkCfg a j et).good hc hl.geom) ((mkCfg a j et).law_ok hc hl.elastic)
  have hb : Bounded (mkCfg a j et).fe (mkCfg a j et).law K n := ⟨h1, h2⟩
  let B' : ℝ := B + ∑ q ∈ range ((mkCfg a j et).nn * (mkCfg a j et).dim), |j.u q|
  have hS : 0 ≤ ∑ q ∈ range ((mkCfg a j et).nn * (mkCfg a j et).dim), |j.u q| :=
    sum_nonneg fun _ _ => abs_nonneg _
  have hB' : 0 ≤ B' := add_nonneg hB hS
  have hBB : B ≤ B' := le_add_of_nonneg_right hS
  refine ⟨n * (1 + B') ^ 2, fun env hp f calls hk => ?_⟩
  have hu : (startWork (mkCfg a j et) j A).Small (mkCfg a j et) K B' := by
    intro q hq
    show |j.u q| ≤ _
    have := single_le_sum (f := fun q => |j.u q|) (fun _ _ => abs_nonneg _) (mem_range.mpr hq)
    have h3 : |j.u q| ≤ B' := by show |j.u q| ≤ B + _; linarith
    nlinarith
  obtain ⟨r, e1, e2, e3⟩ := calcCtanLin_ends hb hl hB' hp hw hu j.ctanLin
  let o : Obj ℝ := { cfg := { mkCfg a j et with ctanLin := r.ctan }, work := r.work, gauss := [], header := false }
  have hbf' : BuiltFrom a j o.cfg :=
    ⟨⟨hc.dim, hc.nx, hc.ny, hc.nz2, hc.nz3, hc.elem, hc.micro⟩, ⟨et, r.ctan, rfl⟩, hty⟩
  have hl' : Like (mkCfg a j et).fe (mkCfg a j et).law o.cfg :=
    ⟨hbf'.ok, hbf'.geom hg, hbf'.elastic hel, rfl, rfl⟩
  have ho : o.Small K B' := by
    refine ⟨⟨hbf'.ok, ?_, by simp [o]⟩, e3, by simp [o]⟩
    exact ⟨e2.ok.u, e2.ok.du, e2.ok.b, e2.ok.elemStress, e2.ok.elemStrain, e2.ok.varsOld, e2.ok.varsNew,
      e2.ok.A2, e2.ok.A3⟩
  have hk' : ∀ k ∈ calls, k.Within o.cfg.nvoi B' := by
    intro k hk'
    have := hk k hk'
    cases k with
    | setStrain id eps => exact fun v hv => (this v hv).trans hBB
    | _ => trivial
  obtain ⟨s', k1, -⟩ := run_ends (s := { obj := o, files := ctorFiles o.cfg f }) hb hB' hp hl' ho hk'
  unfold constructF
  rw [h env, e1]
  exact ⟨s', k1⟩

end Verif
