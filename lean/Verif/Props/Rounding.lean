import Verif.Lemmas.FpAnswer
import Verif.Lemmas.FpBinary
import Verif.Lemmas.FpElem

/-!
# Results in rounded arithmetic: properties C66, C67, C68, C69

Every operation of the model is followed by a rounding (`Verif.Spec.Fp`).  Nothing overflows.
-/

namespace Verif.Props
open Verif Spec Finset

/-! ### C69 -/

/-- No centre of an element lies on the interface. -/
def NoTie (a : Args ℝ) : Prop := ∀ ex ey ez, IsElem a ex ey ez →
  (a.microType = 0 → offCentre a ex ey ez ≠ |a.microParams 3|) ∧
  (a.microType = 1 → centre (a.microParams 1) (a.size 1) ey ≠ a.microParams 3)

/-- The type of an element (C48). -/
noncomputable def exactType (a : Args ℝ) (ex ey ez : Nat) : Int :=
  if a.microType = 0 then (if offCentre a ex ey ez < |a.microParams 3| then 1 else 0)
  else (if centre (a.microParams 1) (a.size 1) ey < a.microParams 3 then 1 else 0)

theorem lt_exact {a : Args ℝ} (ha : a.Ok) (ex ey ez : Nat) :
    (if lhsC a ex ey ez < rhsC a then (1 : Int) else 0) = exactType a ex ey ez := by
  unfold exactType
  rcases ha.micro with hm | hm
  · obtain ⟨h1, h2⟩ := lhsC_inc ha hm ex ey ez
    rw [if_pos hm, ← h1, ← Real.sqrt_mul_self_eq_abs]
    unfold rhsC
    rw [if_pos hm]
    simp only [Real.sqrt_lt_sqrt_iff h2]
  · have h0 : ¬ a.microType = 0 := by omega
    unfold lhsC rhsC
    rw [if_neg h0, if_neg h0, if_neg h0, centreC_real ha.ny]

theorem _root_.Verif.Spec.SameArgs.ok {fp : Fp} {a' : Args (Fl fp)} {a : Args ℝ} (h : SameArgs a' a) (ha : a.Ok) :
    a'.Ok :=
  ⟨by rw [h.dim]; exact ha.dim, by rw [h.microType]; exact ha.micro,
    by rw [h.size]; exact ha.nx, by rw [h.size]; exact ha.ny,
    fun h' => by rw [h.size]; exact ha.nz (h.dim ▸ h')⟩

/-- C69 for the cells that the constructor builds. -/
theorem built_types {a : Args ℝ} (ha : a.Ok) (ht : NoTie a) :
    ∃ u0 : ℝ, 0 < u0 ∧ ∀ (fp : Fp), fp.u ≤ u0 → fp.eta ≤ fp.u ^ 2 →
      ∀ (a' : Args (Fl fp)) (j : Junk (Fl fp)) (c' : Cfg (Fl fp)), SameArgs a' a → BuiltFrom a' j c' →
      ∀ ex ey ez, IsElem a ex ey ez →
        c'.elemType.val (gloElem3D (a.size 0) (a.size 1) ex ey ez) = exactType a ex ey ez := by
  have key : ∃ L : ℝ, 1 ≤ L ∧ ∀ ez, ez < a.size 2 + 1 → ∀ ey, ey < a.size 1 → ∀ ex, ex < a.size 0 →
      IsElem a ex ey ez → ∀ R : ArgsRun a, L * R.fp.u ≤ 1 →
        ((lhsC R.a' ex ey ez).val < (rhsC R.a').val ↔ lhsC a ex ey ez < rhsC a) := by
    have up : ∀ {L L' : ℝ} {R : ArgsRun a}, L ≤ L' → L' * R.fp.u ≤ 1 → L * R.fp.u ≤ 1 :=
      fun h h' => le_trans (mul_le_mul_of_nonneg_right h (Fp.u_nonneg _)) h'
    refine exists_common (fun _ _ _ h h1 ey hy ex hx he R hR => h1 ey hy ex hx he R (up h hR)) fun ez _ => ?_
    refine exists_common (fun _ _ _ h h1 ex hx he R hR => h1 ex hx he R (up h hR)) fun ey _ => ?_
    refine exists_common (fun _ _ _ h h1 he R hR => h1 he R (up h hR)) fun ex _ => ?_
    by_cases he : IsElem a ex ey ez
    · have hne : lhsC a ex ey ez ≠ rhsC a := by
        obtain ⟨t0, t1⟩ := ht ex ey ez he
        rcases ha.micro with hm | hm
        · obtain ⟨h1, h2⟩ := lhsC_inc ha hm ex ey ez
          intro h
          apply t0 hm
          rw [← h1, h]
          unfold rhsC
          rw [if_pos hm, Real.sqrt_mul_self_eq_abs]
        · have h0 : ¬ a.microType = 0 := by omega
          unfold lhsC rhsC
          rw [if_neg h0, if_neg h0, centreC_real ha.ny]
          exact t1 hm
      obtain ⟨L, hL, h⟩ := Near.lt (near_lhs ha ex ey ez) (near_rhs a) hne
      exact ⟨L, hL, fun _ R hR => h R hR⟩
    · exact ⟨1, le_refl _, fun h => absurd h he⟩
  obtain ⟨L, hL, key⟩ := key
  refine ⟨1 / L, by positivity, ?_⟩
  intro fp hu heta a' j c' hsame hs ex ey ez he
  have haok := hsame.ok ha
  obtain ⟨h0, h1, h2, h3⟩ := id he
  have hst := stored_eq haok hs (ex := ex) (ey := ey) (ez := ez)
    (by rw [hsame.size]; exact h0) (by rw [hsame.size]; exact h1) (by rw [hsame.dim]; exact h2)
    (by rw [hsame.dim, hsame.size]; exact h3)
  rw [hsame.size, hsame.size] at hst
  rw [hst, ← lt_exact ha]
  have hez : ez < a.size 2 + 1 := by
    rcases ha.dim with hd | hd
    · have := h2 hd; omega
    · have := h3 hd; omega
  have hk := key ez hez ey (by omega) ex (by omega) he ⟨fp, heta, a', hsame⟩ (by
    show L * fp.u ≤ 1
    have : L * fp.u ≤ L * (1 / L) := mul_le_mul_of_nonneg_left hu (by linarith)
    rwa [mul_one_div_cancel (by linarith)] at this)
  simp only [Fl.lt_iff]
  exact if_congr hk rfl rfl

/-- **C69**: if no centre of an element lies on the interface, there is a precision from which on the
constructor gives every element the same type as in exact arithmetic. -/
theorem C69_partial {a : Args ℝ} (ha : a.Ok) (ht : NoTie a) :
    ∃ u0 : ℝ, 0 < u0 ∧ ∀ (fp : Fp), fp.u ≤ u0 → fp.eta ≤ fp.u ^ 2 →
      ∀ (env : Env (Fl fp)) (a' : Args (Fl fp)) (j : Junk (Fl fp)) (calls : List (Call (Fl fp)))
        (s : ObjFiles (Fl fp)), SameArgs a' a → Reach env a' j calls s →
      ∀ ex ey ez, IsElem a ex ey ez →
        s.obj.cfg.elemType.val (gloElem3D (a.size 0) (a.size 1) ex ey ez) = exactType a ex ey ez := by
  obtain ⟨u0, hu0, H⟩ := built_types ha ht
  refine ⟨u0, hu0, ?_⟩
  intro fp hu heta env a' j calls s hsame hs
  have haok := hsame.ok ha
  exact H fp hu heta a' j _ hsame (reach_built haok hs).1

/-! ### C66 -/

theorem nrMaxTol_fl {fp : Fp} : (nrMaxTol : Fl fp).val = fp.rnd 1e-5 := by
  unfold nrMaxTol
  rw [Fl.val_sci]
  congr 1
  norm_num

/-- Objects built from arguments that describe `c`. -/
theorem computed_of_built {c : Cfg ℝ} (hc : c.Ok) {fp : Fp} {a : Args (Fl fp)} {j : Junk (Fl fp)}
    {c' : Cfg (Fl fp)} (ha : Describes a c) (hb : BuiltFrom a j c') (he : SameElements c' c) :
    Computed c' c := by
  have hok := hb.ok
  obtain ⟨et, ct, rfl⟩ := hb.eq
  have hd : a.dim = c.dim := ha.dim
  have hnz : (mkCfg a j et).nz = c.nz := by
    show (if a.dim = 2 then 1 else a.size 2) = c.nz
    rcases hc.dim with h | h
    · rw [if_pos (by omega), hc.nz2 h]
    · rw [if_neg (by omega), ha.nz h]
  have hlz : c.dim = 3 → (mkCfg a j et).lz = a.microParams 2 := fun h => by
    show (if a.dim = 2 then 0 else a.microParams 2) = _
    rw [if_neg (by omega)]
  have hm : ∀ k, k < 2 → (mkCfg a j et).mats k
      = mkMaterial (fun i => a.params (k * 10 + i)) (a.matTypes k) (j.mats k) := fun k hk => by
    show (if k < 2 then _ else _) = _
    rw [if_pos hk]
  refine ⟨hd, ha.nx, ha.ny, hnz, ?_, he, ha.micro, ha.lx, ha.ly, fun h => ?_, rfl, rfl, fun _ => rfl,
    fun hd k hk => ?_, fun k hk => ?_, fun k hk => ?_, fun k hk => ?_, fun k hk => ?_⟩
  · have h1 := hok.elem
    have h2 : Cfg.nelem { mkCfg a j et with ctanLin := ct } = c.nelem := by
      unfold Cfg.nelem
      show (if a.dim = 2 then (a.size 0 - 1) * (a.size 1 - 1)
        else (a.size 0 - 1) * (a.size 1 - 1) * ((mkCfg a j et).nz - 1)) = _
      rw [hd, ha.nx, ha.ny, hnz]
    rw [h1, h2, hc.elem]
  · show (mkCfg a j et).lz.val = c.lz
    rw [hlz h]; exact ha.lz h
  · show ((mkCfg a j et).mats k).plasticity = _
    rw [hm k hk]
    rcases ha.ty hd k hk with ⟨h1, h2⟩ | ⟨h1, h2 | h2⟩ <;> simp [mkMaterial, h1, h2]
  · show ((mkCfg a j et).mats k).E.val = _
    rw [hm k hk]; exact ha.E k hk
  · show ((mkCfg a j et).mats k).nu.val = _
    rw [hm k hk]; exact ha.nu k hk
  · show ((mkCfg a j et).mats k).mu
      = ((mkCfg a j et).mats k).E / (((2 : Nat) : Fl fp) * (1 + ((mkCfg a j et).mats k).nu))
    rw [hm k hk]; rfl
  · show ((mkCfg a j et).mats k).lambda
      = (((mkCfg a j et).mats k).nu * ((mkCfg a j et).mats k).E)
        / ((1 + ((mkCfg a j et).mats k).nu) * (1 - ((2 : Nat) : Fl fp) * ((mkCfg a j et).mats k).nu))
    rw [hm k hk]; rfl

variable {c : Cfg ℝ}

/-- C66 for one solve of the cell. -/
theorem answer_rounded (hc : c.Ok) (hg : c.Geom) (he : c.Elastic) :
    ∃ K u0 : ℝ, 0 < K ∧ 0 < u0 ∧ ∀ C, IsStiffness c C → ∀ (fp : Fp), fp.u ≤ u0 → fp.eta ≤ fp.u ^ 2 →
      ∀ (c' : Cfg (Fl fp)), Computed c' c → ∀ (env : Env (Fl fp)) old eps sig its err,
      CellAnswer env c' old eps sig its err → err.val < fp.rnd 1e-5 → ∀ M, 1 ≤ M →
      (∀ v, v < c.nvoi → |(eps v).val| ≤ M) → ∀ v, v < c.nvoi →
        |(sig v).val - ∑ j ∈ range c.nvoi, C v j * (eps j).val| ≤ K * (1e-5 + fp.u * M) := by
  obtain ⟨K, u0, hK, hu0, H⟩ := rounded_close hc hg he
  refine ⟨K * 3, min u0 (1 / 8), by positivity, by positivity, ?_⟩
  rintro C hC fp hu heta c' hcomp env old eps sig its err ⟨w0, w1, q, a, hw0, -, h1, h2, h3, h4, -, rfl⟩
    hlt M hM heps v hv
  have hfu := fp.u_nonneg
  have hu8 : fp.u ≤ 1 / 8 := le_trans hu (min_le_right _ _)
  have hok := hcomp.ok hc
  have hw1 := setDispl_gen hok hw0.u h1
  have hw1ok : w1.Ok c' := by
    rw [hw1]
    exact ⟨rfl, hw0.du, hw0.b, hw0.elemStress, hw0.elemStrain, hw0.varsOld, hw0.varsNew, hw0.A2, hw0.A3⟩
  have hqw : q.work.Ok c' := ((newtonRaphson_safe (env := env) hok hw1ok).post h2).ok
  obtain ⟨r, r1, r2, -⟩ := C27_truthful hok hw1ok h2 (by rw [Fl.lt_iff, nrMaxTol_fl]; exact hlt)
  have r3 := assemblyRhs_gen hok hqw r1
  rw [r2] at r3
  rw [r3] at hlt
  rw [h4 v (by rw [hcomp.nvoi]; exact hv), calcAveStress_gen hok hqw h3]
  have key := H fp (le_trans hu (min_le_left _ _)) heta c' hcomp q.work.u.val eps w0.u.val q.work.varsOld
    q.work.b.val (2 * (1e-5 + fp.u)) M (by positivity) (by norm_num; linarith) hM heps
    (fun r hr hb => by
      have hr' : r < c'.nn * c'.dim := by rw [hcomp.dofs]; exact hr
      rw [newtonRaphson_bdry hok hw1ok h2 hr' ((hcomp.onBdry r).mpr ((onBdry_iff hc r).mpr hb)), hw1])
    (fun r hr => norm_small hu8 heta (by norm_num) hlt.le (by rw [hcomp.dofs]; exact hr)) C hC v hv
  refine le_trans key ?_
  have : fp.u ≤ fp.u * M := by nlinarith
  nlinarith

/-- C66 when the types of the elements are right: for every elastic cell there are a constant `K` and a precision `u0` such that in every
arithmetic at least that precise, whatever the arguments, memory, calls and environment, the macro stress
that `homogenize` obtains by solving for a Gauss point and reports with an error below `NR_MAX_TOL` is
within `K * (1e-5 + u * M)` of the homogenised stiffness times the macro strain; `M` bounds the
strain. -/
theorem C66_classified (hc : c.Ok) (hg : c.Geom) (he : c.Elastic) :
    ∃ K u0 : ℝ, 0 < K ∧ 0 < u0 ∧ ∀ C, IsStiffness c C → ∀ (fp : Fp), fp.u ≤ u0 → fp.eta ≤ fp.u ^ 2 →
      ∀ (env : Env (Fl fp)) (a : Args (Fl fp)) (j : Junk (Fl fp)) (calls : List (Call (Fl fp)))
        (s : ObjFiles (Fl fp)) (r : Stepped (Fl fp)),
      Describes a c → Reach env a j calls s → SameElements s.obj.cfg c →
      step env s .homogenize = .ok r →
      List.Forall₂ (fun g g' => ¬ TakesLinearPath s.obj.cfg g → (g'.nrErr 0).val < fp.rnd 1e-5 →
        ∀ M, 1 ≤ M → (∀ v, v < c.nvoi → |(g.macroStrain v).val| ≤ M) → ∀ v, v < c.nvoi →
          |(g'.macroStress v).val - ∑ j ∈ range c.nvoi, C v j * (g.macroStrain j).val|
            ≤ K * (1e-5 + fp.u * M)) s.obj.gauss r.state.obj.gauss := by
  obtain ⟨K, u0, hK, hu0, H⟩ := answer_rounded hc hg he
  refine ⟨K, u0, hK, hu0, ?_⟩
  intro C hC fp hu heta env a j calls s r ha hs hel hr
  have haok : a.Ok := by
    refine ⟨by rw [ha.dim]; exact hc.dim, by rw [ha.micro]; exact hc.micro, by rw [ha.nx]; exact hc.nx,
      by rw [ha.ny]; exact hc.ny, fun hd => ?_⟩
    rw [ha.dim] at hd
    rw [ha.nz hd]; exact hc.nz3 hd
  obtain ⟨hb, ho⟩ := reach_built haok hs
  have hcomp := computed_of_built hc ha hb hel
  refine (C58_solved env s ho r hr).imp ?_
  intro g g' hgg hl hlt M hM hst v hv
  obtain ⟨old, sig, its, err, -, -, h1, h2, -, h3, -⟩ := hgg hl
  rw [h2 v (by rw [hcomp.nvoi]; exact hv)]
  exact H C hC fp hu heta _ hcomp env _ _ _ _ _ h1 (h3 ▸ hlt) M hM hst v hv

/-- Objects built from the same arguments. -/
theorem describes_of_built {a : Args ℝ} (he : a.Elastic) {j : Junk ℝ} {c : Cfg ℝ} (hb : BuiltFrom a j c)
    {fp : Fp} {a' : Args (Fl fp)} (h : SameArgs a' a) : Describes a' c := by
  obtain ⟨et, ct, rfl⟩ := hb.eq
  have hm : ∀ k, k < 2 → (mkCfg a j et).mats k
      = mkMaterial (fun i => a.params (k * 10 + i)) (a.matTypes k) (j.mats k) := fun k hk => by
    show (if k < 2 then _ else _) = _
    rw [if_pos hk]
  refine ⟨h.dim, h.size 0, h.size 1, fun hd => ?_, h.microType, h.microParams 0 (by omega),
    h.microParams 1 (by omega), fun hd => ?_, fun k hk => ?_, fun k hk => ?_, fun hd k hk => ?_⟩
  · have hd : a.dim = 3 := hd
    show a'.size 2 = if a.dim = 2 then 1 else a.size 2
    rw [if_neg (by omega), h.size]
  · have hd : a.dim = 3 := hd
    show (a'.microParams 2).val = if a.dim = 2 then 0 else a.microParams 2
    rw [if_neg (by omega), h.microParams 2 (by omega)]
  · show _ = ((mkCfg a j et).mats k).E
    rw [hm k hk]; exact h.params _ (by omega)
  · show _ = ((mkCfg a j et).mats k).nu
    rw [hm k hk]; exact h.params _ (by omega)
  · right
    have ht := he.ty hd k hk
    refine ⟨?_, by rw [h.matTypes k hk]; exact ht⟩
    show ((mkCfg a j et).mats k).plasticity = false
    rw [hm k hk]
    rcases ht with h | h <;> simp [mkMaterial, h]

/-- In precise enough arithmetic the constructor builds the elements of the exact cell. -/
theorem built_elements {a : Args ℝ} (ha : a.Ok) (ht : NoTie a) {j0 : Junk ℝ} {c : Cfg ℝ}
    (hb0 : BuiltFrom a j0 c) : ∃ u0 : ℝ, 0 < u0 ∧ ∀ (fp : Fp), fp.u ≤ u0 → fp.eta ≤ fp.u ^ 2 →
      ∀ (a' : Args (Fl fp)) (j : Junk (Fl fp)) (c' : Cfg (Fl fp)), SameArgs a' a → BuiltFrom a' j c' →
      SameElements c' c := by
  obtain ⟨u1, hu1, H1⟩ := built_types ha ht
  refine ⟨u1, hu1, ?_⟩
  intro fp hu heta a' j c' hsame hs
  have hsz : c.dim = a.dim ∧ c.nx = a.size 0 ∧ c.ny = a.size 1 ∧
      (a.dim = 3 → c.nz = a.size 2) := by
    obtain ⟨et, ct, h⟩ := hb0.eq
    rw [h]
    refine ⟨rfl, rfl, rfl, fun hd => ?_⟩
    show (if a.dim = 2 then 1 else a.size 2) = a.size 2
    rw [if_neg (by omega)]
  obtain ⟨hd, hnx, hny, hnz⟩ := hsz
  intro ex ey ez hx hy hz2 hz3
  rw [hnx] at hx ⊢
  rw [hny] at hy ⊢
  rw [hd] at hz2 hz3
  have hel : IsElem a ex ey ez := ⟨by omega, by omega, hz2, fun h => by
    have := hz3 h
    rw [hnz h] at this
    omega⟩
  rw [H1 fp hu heta a' j c' hsame hs ex ey ez hel,
    stored_eq ha hb0 hel.1 hel.2.1 hel.2.2.1 hel.2.2.2, ← lt_exact ha]
  simp only [lt_real, decide_eq_true_eq]

/-- **C66**: take arguments that describe an elastic cell with no element centre on the interface, and
the homogenised stiffness `C` of the cell that exact arithmetic builds from them.  There are a constant
`K` and a precision `u0` such that in every arithmetic at least that precise that represents the
arguments, whatever the memory, the calls and the environment, the macro stress that `homogenize` obtains
by solving for a Gauss point and reports with an error below `NR_MAX_TOL` is within `K * (1e-5 + u * M)`
of `C` times the macro strain; `M` bounds the strain. -/
theorem C66_stress {a : Args ℝ} (ha : a.Ok) (hg : a.Geom) (he : a.Elastic) (ht : NoTie a)
    {env0 : Env ℝ} {j0 : Junk ℝ} {calls0 : List (Call ℝ)} {s0 : ObjFiles ℝ}
    (hs0 : Reach env0 a j0 calls0 s0) :
    ∃ K u0 : ℝ, 0 < K ∧ 0 < u0 ∧ ∀ C, IsStiffness s0.obj.cfg C →
      ∀ (fp : Fp), fp.u ≤ u0 → fp.eta ≤ fp.u ^ 2 →
      ∀ (env : Env (Fl fp)) (a' : Args (Fl fp)) (j : Junk (Fl fp)) (calls : List (Call (Fl fp)))
        (s : ObjFiles (Fl fp)) (r : Stepped (Fl fp)),
      SameArgs a' a → Reach env a' j calls s → step env s .homogenize = .ok r →
      List.Forall₂ (fun g g' => ¬ TakesLinearPath s.obj.cfg g → (g'.nrErr 0).val < fp.rnd 1e-5 →
        ∀ M, 1 ≤ M → (∀ v, v < s0.obj.cfg.nvoi → |(g.macroStrain v).val| ≤ M) →
        ∀ v, v < s0.obj.cfg.nvoi →
          |(g'.macroStress v).val - ∑ j ∈ range s0.obj.cfg.nvoi, C v j * (g.macroStrain j).val|
            ≤ K * (1e-5 + fp.u * M)) s.obj.gauss r.state.obj.gauss := by
  obtain ⟨hb0, ho0⟩ := reach_built ha hs0
  obtain ⟨u1, hu1, H1⟩ := built_elements ha ht hb0
  obtain ⟨K, u2, hK, hu2, H2⟩ := C66_classified ho0.cfg (hb0.geom hg) (hb0.elastic he)
  refine ⟨K, min u1 u2, hK, lt_min hu1 hu2, ?_⟩
  intro C hC fp hu heta env a' j calls s r hsame hs hr
  have haok := hsame.ok ha
  refine H2 C hC fp (le_trans hu (min_le_right _ _)) heta env a' j calls s r
    (describes_of_built he hb0 hsame) hs ?_ hr
  exact H1 fp (le_trans hu (min_le_left _ _)) heta a' j _ hsame (reach_built haok hs).1

theorem accum_zero' {α : Type} [Scalar α] [ZeroLaws α] {n : Nat} {f : Nat → α} (h : ∀ i, i < n → f i = 0) :
    accum n (fun i s => s + f i) 0 = 0 := by
  induction n with
  | zero => rfl
  | succ n ih =>
    show accum n (fun i s => s + f i) 0 + f n = 0
    rw [ih fun i hi => h i (by omega), h n (by omega)]
    exact ZeroLaws.add_zero _

theorem forall₂_and {β γ : Type} {P Q : β → γ → Prop} {l : List β} {l' : List γ}
    (h : List.Forall₂ P l l') (h' : List.Forall₂ Q l l') : List.Forall₂ (fun a b => P a b ∧ Q a b) l l' := by
  induction h with
  | nil => exact .nil
  | cons h1 _ ih => cases h' with | cons h2 h3 => exact .cons ⟨h1, h2⟩ (ih h3)

/-! A cell of a single element whose data are representable in every format. -/

section
variable (α : Type) [Scalar α]

def tinyArgs : Args α where
  dim := 2
  size := fun _ => 2
  microType := 1
  microParams := fun i => if i = 3 then 0 else 1
  matTypes := fun _ => 0
  params := fun i => if i % 10 = 0 then 1 else 0

def tinyJunk : Junk α where
  invTol := 0
  mats := fun _ => ⟨0, 0, 0, 0, 0, 0, 0, true, true⟩
  ctanLin := fun _ => 1
  invMax := 1
  b := fun _ => 1
  du := fun _ => 1
  u := fun _ => 1
  elemStress := fun _ => 1
  elemStrain := fun _ => 1
  elemType := fun _ => 7
  varsOld := fun _ => 0
  varsNew := fun _ => 1
  cols := fun _ => 7
  vals := fun _ => 1

def tinyEnv : Env α where
  fuel := 3
  peek := fun _ => some 40
  cgJunk := fun _ _ _ => 1
  solverIts := fun _ => 7
  solverErr := fun _ => 1
  gpJunk := fun _ => ⟨7, fun _ => 1, none, none, fun _ => 1, fun _ => 1, fun _ => 7, fun _ => 1, 7⟩

def tinyCalls : List (Call α) := [.setStrain 4 (fun _ => 1), .setStrain 9 (fun v => if v = 0 then 1 else 0)]

end

theorem tinyArgs_ok {α : Type} [Scalar α] : (tinyArgs α).Ok :=
  ⟨Or.inl rfl, Or.inr rfl, le_refl _, le_refl _, fun h => by cases h⟩

theorem tinyEnv_quick {α : Type} [Scalar α] : (tinyEnv α).Quick :=
  ⟨by show 1 ≤ 3; omega, fun _ => ⟨40, rfl, le_refl _⟩⟩

theorem tiny_same (fp : Fp) : SameArgs (tinyArgs (Fl fp)) (tinyArgs ℝ) := by
  refine ⟨rfl, fun _ => rfl, rfl, fun i _ => ?_, fun _ _ => rfl, fun i _ => ?_⟩
  · simp only [tinyArgs]; split <;> simp
  · simp only [tinyArgs]; split <;> simp

theorem tiny_noTie : NoTie (tinyArgs ℝ) := by
  rintro ex ey ez -
  refine ⟨fun h => (by cases h), fun _ => ?_⟩
  have e : centre ((tinyArgs ℝ).microParams 1) ((tinyArgs ℝ).size 1) ey = ey + 1 / 2 := by
    norm_num [centre, tinyArgs]
  rw [e]
  show (ey : ℝ) + 1 / 2 ≠ 0
  positivity

theorem tiny_geom : (tinyArgs ℝ).Geom :=
  ⟨by norm_num [tinyArgs], by norm_num [tinyArgs], fun h => by cases h⟩

theorem tiny_elastic : (tinyArgs ℝ).Elastic :=
  ⟨fun i hi => by obtain rfl | rfl : i = 0 ∨ i = 1 := by omega
                  all_goals norm_num [tinyArgs],
   fun i hi => by obtain rfl | rfl : i = 0 ∨ i = 1 := by omega
                  all_goals norm_num [tinyArgs],
   fun i hi => by obtain rfl | rfl : i = 0 ∨ i = 1 := by omega
                  all_goals norm_num [tinyArgs], fun h => by cases h⟩

theorem newton_allBdry {fp : Fp} {c : Cfg (Fl fp)} (hc : c.Ok) (hb : ∀ q, q < c.nn * c.dim → c.OnBdry q)
    {env : Env (Fl fp)} {w : Work (Fl fp)} (hw : w.Ok c) {out : NrOut (Fl fp)}
    (h : newtonRaphson env c w = .ok out) : out.err = 0 := by
  have key : ∀ w r, w.Ok c → assemblyRhs c w = .ok r → r.norm = 0 := by
    intro w r hw h
    rw [assemblyRhs_gen hc hw h]
    unfold normOf
    rw [accum_zero']
    · exact Fl.ext (by simp)
    · intro i hi
      have : c.residV w.u.val w.varsOld w.b.val i = 0 := by
        have hb := hb i hi
        unfold Cfg.OnBdry at hb
        unfold Cfg.residV
        rcases hc.dim with hd | hd
        · rw [if_pos hd] at hb ⊢
          have hN : c.nn * c.dim = c.nx * c.ny * 2 := by rw [hc.nn2 hd, hd]
          unfold resid2
          rw [hN] at hi
          simp only [hi, if_true, hb]
          exact ZeroLaws.neg_zero
        · rw [if_neg (by omega)] at hb ⊢
          have hN : c.nn * c.dim = c.nx * c.ny * c.nz * 3 := by rw [hd]; rfl
          unfold resid3
          rw [hN] at hi
          simp only [hi, if_true, hb]
          exact ZeroLaws.neg_zero
      rw [this, ZeroLaws.mul_zero]
  refine nrLoop_inv (Q := fun o => o.err = 0) (P := fun _ => True) hc ?_ ?_ env.fuel hw trivial h
  · intro w r hw _ hr _
    exact key w r hw hr
  · intro w r w' v hw _ hr _ _ _
    exact ⟨fun _ => trivial, fun _ => key w r hw hr⟩

/-- Two Gauss points with non-zero strains, in a binary format of finite precision. -/
example : ∃ (s0 : ObjFiles ℝ) (K : ℝ) (p : Nat) (emin : ℤ) (hp : 1 ≤ p) (hem : emin ≤ 0)
    (s : ObjFiles (Fl (binary p emin hp hem))) (r : Stepped (Fl (binary p emin hp hem))),
    step (tinyEnv _) s .homogenize = .ok r ∧ s.obj.gauss.length = 2 ∧
    ∀ C, IsStiffness s0.obj.cfg C → List.Forall₂ (fun g g' => ∀ M, 1 ≤ M →
      (∀ v, v < s0.obj.cfg.nvoi → |(g.macroStrain v).val| ≤ M) → ∀ v, v < s0.obj.cfg.nvoi →
        |(g'.macroStress v).val - ∑ j ∈ range s0.obj.cfg.nvoi, C v j * (g.macroStrain j).val|
          ≤ K * (1e-5 + (binary p emin hp hem).u * M)) s.obj.gauss r.state.obj.gauss := by
  obtain ⟨s0, hs0⟩ := reach_exists (α := ℝ) tinyEnv_quick tinyArgs_ok (tinyJunk ℝ) []
  obtain ⟨K, u0, hK, hu0, H⟩ := C66_stress tinyArgs_ok tiny_geom tiny_elastic tiny_noTie hs0
  obtain ⟨p, emin, hp, hem, hu, heta⟩ := exists_format (u0 := min u0 1e-3) (by positivity)
  refine ⟨s0, K, p, emin, hp, hem, ?_⟩
  generalize binary p emin hp hem = fp at hu heta
  have hu3 : fp.u ≤ 1e-3 := le_trans hu (min_le_right _ _)
  have hu00 := fp.u_nonneg
  have htol : 0 < fp.rnd 1e-5 := by
    have h1 := (abs_le.mp (fp.err 1e-5)).1
    rw [abs_of_nonneg (by norm_num)] at h1
    norm_num at *
    nlinarith
  obtain ⟨s, hs⟩ := reach_exists (α := Fl fp) tinyEnv_quick tinyArgs_ok (tinyJunk _) (tinyCalls _)
  obtain ⟨hb, ho⟩ := reach_built tinyArgs_ok hs
  obtain ⟨r, hr, -⟩ := (step_sane (env := tinyEnv (Fl fp)) ho .homogenize).returns tinyEnv_quick
  have hlen : s.obj.gauss.length = 2 := by
    obtain ⟨f, hf⟩ := hs
    rw [bind_ok_iff] at hf
    obtain ⟨s1, h0, h1⟩ := hf
    have := (C39_map (tinyEnv _) (tinyCalls _) s1 s (construct_fresh h0) h1).1
    rw [← List.length_map (f := Gp.id), this]
    rfl
  refine ⟨s, r, hr, hlen, fun C hC => ?_⟩
  have hpath : ∀ g, ¬ TakesLinearPath s.obj.cfg g := by
    obtain ⟨et, ct, h⟩ := hb.eq
    intro g
    rw [h]
    rintro ⟨-, hlt⟩
    have hlt : Scalar.lt (Scalar.abs _) (0 : Fl fp) = true := hlt
    rw [Fl.lt_iff, Fl.val_zero] at hlt
    unfold Scalar.abs at hlt
    split at hlt
    · rename_i h'
      rw [Fl.lt_iff, Fl.val_zero] at h'
      rw [Fl.val_neg] at hlt
      linarith
    · rename_i h'
      rw [Fl.lt_iff, Fl.val_zero] at h'
      exact h' hlt
  have hall : ∀ q, q < s.obj.cfg.nn * s.obj.cfg.dim → s.obj.cfg.OnBdry q := by
    obtain ⟨et, ct, h⟩ := hb.eq
    rw [h]
    intro q hq
    have hq : q < 8 := hq
    show BdryDof2 2 2 2 q
    interval_cases q <;> decide
  have hH := H C hC fp (le_trans hu (min_le_left _ _)) heta (tinyEnv _) _ _ _ s r (tiny_same fp) hs hr
  have hC58 := C58_solved (tinyEnv _) s ho r hr
  refine (forall₂_and hH hC58).imp fun g g' h M hM hst => ?_
  refine h.1 (hpath g) ?_ M hM hst
  obtain ⟨old, sig, its, err, -, -, ⟨w, w1, o, a, h1, h2, h3, h4, h5⟩, -, -, h6, -⟩ := h.2 (hpath g)
  have hw1 := setDispl_gen ho.cfg h1.u h3
  have hw1ok : w1.Ok s.obj.cfg := by
    rw [hw1]
    exact ⟨rfl, h1.du, h1.b, h1.elemStress, h1.elemStrain, h1.varsOld, h1.varsNew, h1.A2, h1.A3⟩
  rw [h6, h5.2.2.2, newton_allBdry ho.cfg hall hw1ok h4]
  exact htol

/-! A tie: seven layers on a length of 3; the centre of the middle one is at 1.5. -/

section
variable (α : Type) [Scalar α]

def tieArgs : Args α where
  dim := 2
  size := fun i => if i = 1 then 8 else 2
  microType := 1
  microParams := fun i => if i = 1 then ((3 : Nat) : α) else if i = 3 then ((3 : Nat) : α) / ((2 : Nat) : α) else 1
  matTypes := fun _ => 0
  params := fun i => if i % 10 = 0 then 1 else 0

end

theorem tieArgs_ok {α : Type} [Scalar α] : (tieArgs α).Ok :=
  ⟨Or.inl rfl, Or.inr rfl, le_refl 2, by show 2 ≤ 8; omega, fun h => by cases h⟩

theorem rnd64 {x : ℝ} {m : ℤ} {k : Nat} (h1 : (2 : ℝ) ^ 52 ≤ x * 2 ^ k) (h2 : x * 2 ^ k < 2 ^ 53)
    (hk : k ≤ 1074) (h3 : (m : ℝ) - 1 / 2 ≤ x * 2 ^ k) (h4 : x * 2 ^ k < m + 1 / 2) :
    binary64.rnd x = m / 2 ^ k := by
  have hp : (0 : ℝ) < 2 ^ k := by positivity
  have hx : 0 < x := by
    by_contra h
    have : x * 2 ^ k ≤ 0 := mul_nonpos_of_nonpos_of_nonneg (not_lt.mp h) hp.le
    linarith [show (0 : ℝ) < 2 ^ 52 by positivity]
  have hlog : Int.log 2 x = 52 - k := by
    have a1 : (2 : ℝ) ^ (52 - k : ℤ) ≤ x := by
      rw [zpow_sub₀ (by norm_num), zpow_natCast, div_le_iff₀ hp]
      exact_mod_cast h1
    have a2 : x < (2 : ℝ) ^ (52 - k + 1 : ℤ) := by
      rw [show (52 - k + 1 : ℤ) = 53 - k by ring, zpow_sub₀ (by norm_num), zpow_natCast, lt_div_iff₀ hp]
      exact_mod_cast h2
    have b1 := (Int.zpow_le_iff_le_log (R := ℝ) (b := 2) (x := 52 - k) (by norm_num) hx).mp (by exact_mod_cast a1)
    have b2 := (Int.lt_zpow_iff_log_lt (R := ℝ) (b := 2) (x := 52 - k + 1) (by norm_num) hx).mp (by exact_mod_cast a2)
    omega
  have hexp : binExp 53 (-1074) x = -k := by
    unfold binExp
    rw [hlog]
    push_cast
    omega
  show binRnd 53 (-1074) x = _
  unfold binRnd
  rw [if_pos hx.le]
  unfold binPos
  rw [hexp, zpow_neg, zpow_natCast, div_inv_eq_mul]
  have : ⌊x * 2 ^ k + 1 / 2⌋ = m := by
    rw [Int.floor_eq_iff]
    constructor <;> linarith
  rw [this]
  rfl

/-- **C69** fails on a tie: in exact arithmetic the middle layer has type 0, in binary64 the object stores
type 1, with no rounding step on a tie. -/
theorem C69_fails : exactType (tieArgs ℝ) 0 3 0 = 0 ∧ SameArgs (tieArgs (Fl binary64)) (tieArgs ℝ) ∧
    ∀ (env : Env (Fl binary64)) (j : Junk (Fl binary64)) (calls : List (Call (Fl binary64)))
      (s : ObjFiles (Fl binary64)), Reach env (tieArgs _) j calls s →
      s.obj.cfg.elemType.val (gloElem3D 2 8 0 3 0) = 1 := by
  have nat : ∀ (n : Nat) (k : Nat), (2 : ℝ) ^ 52 ≤ n * 2 ^ k → (n : ℝ) * 2 ^ k < 2 ^ 53 → k ≤ 1074 →
      (((n : Nat) : Fl binary64)).val = n := fun n k h1 h2 h3 => by
    rw [Fl.val_nat, rnd64 (m := n * 2 ^ k) h1 h2 h3 (by push_cast; linarith) (by push_cast; linarith)]
    push_cast
    field_simp
  have n2 := nat 2 51 (by norm_num) (by norm_num) (by norm_num)
  have n3 := nat 3 51 (by norm_num) (by norm_num) (by norm_num)
  have n7 := nat 7 50 (by norm_num) (by norm_num) (by norm_num)
  have w : (((3 : Nat) : Fl binary64) / ((2 : Nat) : Fl binary64)).val = 3 / 2 := by
    rw [Fl.val_div (by rw [n2]; norm_num), n2, n3]
    rw [rnd64 (m := 6755399441055744) (k := 52) (by norm_num) (by norm_num) (by norm_num) (by norm_num)
      (by norm_num)]
    norm_num
  refine ⟨?_, ⟨rfl, fun _ => rfl, rfl, fun i _ => ?_, fun _ _ => rfl, fun i _ => ?_⟩, ?_⟩
  · unfold exactType
    rw [if_neg (by decide)]
    norm_num [centre, tieArgs]
  · simp only [tieArgs]
    split
    · exact n3
    · split
      · rw [w]; norm_num
      · rfl
  · simp only [tieArgs]; split <;> simp
  · intro env j calls s hs
    have hb := (reach_built tieArgs_ok hs).1
    have := stored_eq tieArgs_ok hb (ex := 0) (ey := 3) (ez := 0) (by show 0 + 1 < 2; omega)
      (by show 3 + 1 < 8; omega) (fun _ => rfl) (fun h => by cases h)
    refine Eq.trans this (if_pos ?_)
    rw [Fl.lt_iff]
    have e1 : rhsC (tieArgs (Fl binary64)) = ((3 : Nat) : Fl binary64) / ((2 : Nat) : Fl binary64) := rfl
    have e2 : lhsC (tieArgs (Fl binary64)) 0 3 0 = centreC ((3 : Nat) : Fl binary64) 8 3 := rfl
    rw [e1, e2, w]
    unfold centreC
    have d : (((3 : Nat) : Fl binary64) / ((8 - 1 : Nat) : Fl binary64)).val = 7720456504063707 / 2 ^ 54 := by
      rw [show 8 - 1 = 7 from rfl, Fl.val_div (by rw [n7]; norm_num), n7, n3]
      rw [rnd64 (m := 7720456504063707) (k := 54) (by norm_num) (by norm_num) (by norm_num) (by norm_num)
        (by norm_num)]
      norm_num
    have h : (((3 : Nat) : Fl binary64) / ((8 - 1 : Nat) : Fl binary64) / ((2 : Nat) : Fl binary64)).val
        = 7720456504063707 / 2 ^ 55 := by
      rw [Fl.val_div (by rw [n2]; norm_num), d, n2]
      rw [rnd64 (m := 7720456504063707) (k := 55) (by norm_num) (by norm_num) (by norm_num) (by norm_num)
        (by norm_num)]
      norm_num
    rw [Fl.val_add, Fl.val_mul, h, d, n3]
    have t : binary64.rnd (((3 : Nat) : ℝ) * (7720456504063707 / 2 ^ 54)) = 5790342378047780 / 2 ^ 52 := by
      rw [rnd64 (m := 5790342378047780) (k := 52) (by norm_num) (by norm_num) (by norm_num) (by norm_num)
        (by norm_num)]
      norm_num
    rw [t]
    have f : binary64.rnd (5790342378047780 / 2 ^ 52 + 7720456504063707 / 2 ^ 55 : ℝ) = 6755399441055743 / 2 ^ 52 := by
      rw [rnd64 (m := 6755399441055743) (k := 52) (by norm_num) (by norm_num) (by norm_num) (by norm_num)
        (by norm_num)]
      norm_num
    rw [f]
    norm_num

/-- A layered cell without ties. -/
noncomputable def exArgsL : Args ℝ :=
  { exArgs3 with microParams := fun i => if i = 0 then 3 else if i = 1 then 2 else if i = 2 then 5 else 3 / 4 }

example : exArgsL.Ok ∧ NoTie exArgsL ∧ exactType exArgsL 1 0 1 = 1 ∧ exactType exArgsL 1 1 1 = 0 := by
  refine ⟨⟨Or.inr rfl, Or.inr rfl, ?_, ?_, fun _ => ?_⟩, ?_, ?_, ?_⟩
  · simp [exArgsL, exArgs3]
  · simp [exArgsL, exArgs3]
  · simp [exArgsL, exArgs3]
  · rintro ex ey ez -
    refine ⟨fun h => (by cases h), fun _ h => ?_⟩
    have e : centre (exArgsL.microParams 1) (exArgsL.size 1) ey = ey + 1 / 2 := by
      norm_num [centre, exArgsL, exArgs3]
    have w : exArgsL.microParams 3 = 3 / 4 := by norm_num [exArgsL]
    rw [e, w] at h
    have h' : (4 * ey : ℝ) = 1 := by linarith
    have : 4 * ey = 1 := by exact_mod_cast h'
    omega
  · unfold exactType
    rw [if_neg (by decide)]
    norm_num [centre, exArgsL, exArgs3]
  · unfold exactType
    rw [if_neg (by decide)]
    norm_num [centre, exArgsL, exArgs3]

/-! ### C67 -/

/-- **C67**: in every arithmetic `newton_raphson` leaves each prescribed displacement exactly as
`set_displ` computed it: no rounding error accumulates on the boundary, whatever the solver did. -/
theorem C67_boundary {fp : Fp} {c : Cfg (Fl fp)} (hc : c.Ok) {w w1 : Work (Fl fp)} (hw : w.Ok c)
    {env : Env (Fl fp)} {eps : Nat → Fl fp} {out : NrOut (Fl fp)} (h1 : setDispl c w eps = .ok w1)
    (h : newtonRaphson env c w1 = .ok out) :
    ∀ q, q < c.nn * c.dim →
      (if c.dim = 2 then BdryDof2 2 c.nx c.ny q else BdryDof3 3 c.nx c.ny c.nz q) →
      out.work.u.val q = w1.u.val q := by
  intro q hq hb
  have hw1 := setDispl_gen hc hw.u h1
  have hw1ok : w1.Ok c := by
    rw [hw1]
    exact ⟨rfl, hw.du, hw.b, hw.elemStress, hw.elemStrain, hw.varsOld, hw.varsNew, hw.A2, hw.A3⟩
  exact newtonRaphson_bdry hc hw1ok h hq hb

/-- A three-dimensional cell with interior nodes, in binary64. -/
example : ∃ (c : Cfg (Fl binary64)) (w w1 : Work (Fl binary64)) (out : NrOut (Fl binary64)), c.Ok ∧ w.Ok c ∧
    setDispl c w (fun _ => 1) = .ok w1 ∧ newtonRaphson (tinyEnv _) c w1 = .ok out ∧
    ∀ q, q < 64 * 3 → BdryDof3 3 4 4 4 q → out.work.u.val q = w1.u.val q := by
  have ha : ({ tinyArgs (Fl binary64) with dim := 3, size := fun _ => 4 } : Args (Fl binary64)).Ok :=
    ⟨Or.inr rfl, Or.inr rfl, by show 2 ≤ 4; omega, by show 2 ≤ 4; omega, fun _ => by show 2 ≤ 4; omega⟩
  obtain ⟨s, hs⟩ := reach_exists (α := Fl binary64) tinyEnv_quick ha (tinyJunk _) (tinyCalls _)
  obtain ⟨hb, ho⟩ := reach_built ha hs
  have hd : s.obj.cfg.dim = 3 ∧ s.obj.cfg.nx = 4 ∧ s.obj.cfg.ny = 4 ∧ s.obj.cfg.nz = 4 := by
    obtain ⟨et, ct, h⟩ := hb.eq
    rw [h]
    exact ⟨rfl, rfl, rfl, rfl⟩
  obtain ⟨hd, hx, hy, hz⟩ := hd
  obtain ⟨u, h1, h2⟩ := setDispl_ok ho.cfg ho.work fun _ => 1
  obtain ⟨out, h3, -⟩ := (newtonRaphson_safe (env := tinyEnv (Fl binary64)) ho.cfg h2.ok).returns tinyEnv_quick
  refine ⟨s.obj.cfg, s.obj.work, _, out, ho.cfg, ho.work, h1, h3, fun q hq hB => ?_⟩
  refine C67_boundary ho.cfg ho.work h1 h3 q ?_ ?_
  · unfold Cfg.nn; rw [hd, hx, hy, hz]; exact hq
  · rw [if_neg (by omega), hx, hy, hz]; exact hB

/-! ### C68 -/

/-- Error of a rounded inner product. -/
theorem accum_err {fp : Fp} (a x : Nat → Fl fp) (n : Nat) :
    |(accum n (fun j s => s + a j * x j) (0 : Fl fp)).val - ∑ j ∈ range n, (a j).val * (x j).val|
      ≤ ((1 + fp.u) ^ (n + 1) - 1) * ∑ j ∈ range n, |(a j).val * (x j).val|
        + 2 * n * (1 + fp.u) ^ n * fp.eta := by
  have hu := fp.u_nonneg
  have he := fp.eta_nonneg
  induction n with
  | zero => simp [accum]
  | succ n ih =>
    rw [sum_range_succ, sum_range_succ]
    show |fp.rnd ((accum n (fun j s => s + a j * x j) (0 : Fl fp)).val + fp.rnd ((a n).val * (x n).val))
      - _| ≤ _
    have hA : |∑ j ∈ range n, (a j).val * (x j).val| ≤ ∑ j ∈ range n, |(a j).val * (x j).val| :=
      abs_sum_le_sum_abs _ _
    have hA0 : 0 ≤ ∑ j ∈ range n, |(a j).val * (x j).val| := sum_nonneg fun _ _ => abs_nonneg _
    set S := ∑ j ∈ range n, (a j).val * (x j).val
    set A := ∑ j ∈ range n, |(a j).val * (x j).val|
    set s := (accum n (fun j s => s + a j * x j) (0 : Fl fp)).val
    set t := (a n).val * (x n).val
    have h1 := fp.err t
    have h2 := fp.err (s + fp.rnd t)
    generalize fp.rnd (s + fp.rnd t) = y at *
    generalize fp.rnd t = z at *
    have hz : |z| ≤ (1 + fp.u) * |t| + fp.eta := by
      have : |z| ≤ |z - t| + |t| := by
        calc |z| = |(z - t) + t| := by ring_nf
          _ ≤ _ := abs_add_le _ _
      linarith
    have hs : |s| ≤ |s - S| + A := by
      have : |s| ≤ |s - S| + |S| := by
        calc |s| = |(s - S) + S| := by ring_nf
          _ ≤ _ := abs_add_le _ _
      linarith
    have hsz : |s + z| ≤ |s| + |z| := abs_add_le _ _
    have ht : |y - (S + t)| ≤ |y - (s + z)| + |s - S| + |z - t| := by
      calc |y - (S + t)| = |(y - (s + z)) + (s - S) + (z - t)| := by ring_nf
        _ ≤ |(y - (s + z)) + (s - S)| + |z - t| := abs_add_le _ _
        _ ≤ _ := by linarith [abs_add_le (y - (s + z)) (s - S)]
    have hb : (1 : ℝ) ≤ (1 + fp.u) ^ n := one_le_pow₀ (by linarith)
    have e1 : (1 + fp.u) ^ (n + 1) = (1 + fp.u) ^ n * (1 + fp.u) := pow_succ _ _
    have e2 : (1 + fp.u) ^ (n + 1 + 1) = (1 + fp.u) ^ n * (1 + fp.u) * (1 + fp.u) := by
      rw [pow_succ, pow_succ]
    rw [e1] at ih
    rw [e2, e1]
    generalize (1 + fp.u) ^ n = p at *
    generalize fp.u = u at *
    generalize fp.eta = eta at *
    push_cast
    have k1 : |y - (S + t)| ≤ (1 + u) * |s - S| + u * A + (2 * u + u * u) * |t| + (2 + u) * eta := by
      have : u * |s + z| ≤ u * (|s - S| + A + ((1 + u) * |t| + eta)) :=
        mul_le_mul_of_nonneg_left (by linarith) hu
      nlinarith
    have k2 : (1 + u) * |s - S| ≤ (1 + u) * ((p * (1 + u) - 1) * A + 2 * n * p * eta) :=
      mul_le_mul_of_nonneg_left ih (by linarith)
    have k3 : (2 * u + u * u) * |t| ≤ (p * (1 + u) * (1 + u) - 1) * |t| :=
      mul_le_mul_of_nonneg_right (by nlinarith [mul_nonneg hu hu]) (abs_nonneg _)
    have k4 : (2 + u) * eta ≤ 2 * (p * (1 + u)) * eta :=
      mul_le_mul_of_nonneg_right (by nlinarith) he
    calc _ ≤ _ := k1
      _ ≤ (1 + u) * ((p * (1 + u) - 1) * A + 2 * n * p * eta) + u * A
          + (p * (1 + u) * (1 + u) - 1) * |t| + 2 * (p * (1 + u)) * eta := by linarith
      _ = _ := by ring

/-- **C68**: in every arithmetic each entry of the product that `ell_mvp_2D` computes differs from the
exact product of the stored matrix with `x` by at most `((1 + u) ^ (nnz + 1) - 1)` times the sum of the
absolute values of its terms, and `2 * nnz * (1 + u) ^ nnz` times the underflow bound. -/
theorem C68_mvp {fp : Fp} {m : Ell (Fl fp)} (hm : m.WF) {x y : Buf (Fl fp)} (hx : x.size = m.nrow)
    (hy : y.size = m.nrow) :
    ∃ y', ellMvp2D m x y = .ok y' ∧ ∀ i, i < m.nrow →
      |(y'.val i).val - ∑ t ∈ range m.nnz, (m.vals.val (i * m.nnz + t)).val
          * (x.val (m.cols.val (i * m.nnz + t)).toNat).val|
        ≤ ((1 + fp.u) ^ (m.nnz + 1) - 1) * ∑ t ∈ range m.nnz, |(m.vals.val (i * m.nnz + t)).val
            * (x.val (m.cols.val (i * m.nnz + t)).toNat).val|
          + 2 * m.nnz * (1 + fp.u) ^ m.nnz * fp.eta := by
  refine ⟨_, ellMvp2D_eq hm hx hy, fun i hi => ?_⟩
  simp only [hi, if_true]
  exact accum_err (fun t => m.vals.val (i * m.nnz + t))
    (fun t => x.val (m.cols.val (i * m.nnz + t)).toNat) m.nnz

/-- A matrix of three rows with two entries each. -/
example : ∃ (m : Ell (Fl binary64)) (x y : Buf (Fl binary64)), m.WF ∧ x.size = m.nrow ∧ y.size = m.nrow ∧
    m.nrow = 3 ∧ m.nnz = 2 := by
  refine ⟨⟨3, 3, 2, ⟨6, fun q => (q % 3 : Nat)⟩, ⟨6, fun q => ((q : Nat) : Fl binary64) + 1⟩⟩,
    ⟨3, fun q => ((q : Nat) : Fl binary64)⟩, ⟨3, fun _ => 0⟩, ⟨rfl, rfl, rfl, fun q _ => ?_⟩, rfl, rfl, rfl, rfl⟩
  have := Nat.mod_lt q (show 3 > 0 by omega)
  constructor
  · exact Int.natCast_nonneg _
  · show ((q % 3 : Nat) : Int) < ((3 : Nat) : Int)
    exact_mod_cast this

end Verif.Props
