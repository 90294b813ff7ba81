import Verif.Lemmas.FpNewton
import Verif.Lemmas.Ends
import Verif.Props.Converge
import Verif.Props.Rounding

/-!
# Convergence and termination in rounded arithmetic: property C81

Every operation of the model is followed by a rounding (`Verif.Spec.Fp`).  Nothing overflows.  The precision
is one that exists for each cell and each bound of the data; it is not computed.
-/

namespace Verif.Props
open Verif Spec Finset

theorem rnd_le {fp : Fp} (hu : fp.u ≤ 1 / 8) (he : fp.eta ≤ fp.u ^ 2) {x b : ℝ} (h : |x| ≤ b) :
    |fp.rnd x| ≤ 9 / 8 * b + 1 / 64 := by
  have h0 := fp.u_nonneg
  have h1 := abs_le.mp (fp.err x)
  have h2 := abs_le.mp h
  have h3 : fp.u * |x| ≤ 1 / 8 * b := mul_le_mul hu h (abs_nonneg _) (by norm_num)
  have h4 : fp.u ^ 2 ≤ 1 / 64 := by nlinarith
  rw [abs_le]
  constructor <;> linarith [h1.1, h1.2, h2.1, h2.2]

/-- Strains of the solves of `homogenize` and `calc_ctan_lin`. -/
theorem strain_le {fp : Fp} (hu : fp.u ≤ 1 / 8) (he : fp.eta ≤ fp.u ^ 2) {x : Fl fp} {B : ℝ} (hB : 0 ≤ B)
    (h : |x.val| ≤ B) : |(x + (1.0e-8 : Fl fp)).val| ≤ 2 * (1 + B) := by
  have h1 : |(1.0e-8 : Fl fp).val| ≤ 1 / 32 := by
    rw [Fl.val_sci]
    have : |(OfScientific.ofScientific 10 true 9 : ℝ)| ≤ 1 / 1000 := by
      rw [abs_of_nonneg (by norm_num)]; norm_num
    refine (rnd_le hu he this).trans (by norm_num)
  rw [Fl.val_add]
  refine (rnd_le hu he ((abs_add_le _ _).trans (add_le_add h h1))).trans ?_
  linarith

/-- **C81**: take arguments that describe an elastic cell of any size with no element centre on the
interface, and the homogenised stiffness `C` of the cell that exact arithmetic builds from them.  There is a
constant `K` of the cell such that for every bound `B` there are a precision and a number of passes with
this property.  In every arithmetic at least that precise that represents the arguments, when the array of the
displacements begins with numbers up to `B`, each Newton loop may run that number of passes and the memory
behind `its` never reads 40 or more: construction and every sequence of calls that prescribe strains up to
`B` return; so does a `homogenize` after them; every Gauss point it solves reports errors of at most the
tolerance, and a macro stress within `K * 1e-5` of `C` times its macro strain. -/
theorem C81_converges {a : Args ℝ} (ha : a.Ok) (hg : a.Geom) (he : a.Elastic) (ht : NoTie a)
    {env0 : Env ℝ} {j0 : Junk ℝ} {calls0 : List (Call ℝ)} {s0 : ObjFiles ℝ}
    (hs0 : Reach env0 a j0 calls0 s0) :
    ∃ K : ℝ, 0 < K ∧ ∀ B : ℝ, 0 ≤ B → ∃ (u0 : ℝ) (N : Nat), 0 < u0 ∧
      ∀ (fp : Fp), fp.u < u0 → fp.eta ≤ fp.u ^ 2 →
      ∀ (env : Env (Fl fp)) (a' : Args (Fl fp)) (j : Junk (Fl fp)) (f : Files (Fl fp))
        (calls : List (Call (Fl fp))),
      SameArgs a' a → (∀ q, q < s0.obj.cfg.nn * s0.obj.cfg.dim → |(j.u q).val| ≤ B) →
      N ≤ env.fuel → (∀ t, ∃ v, env.peek t = some v ∧ v < 40) →
      (∀ id eps, .setStrain id eps ∈ calls → ∀ v, v < s0.obj.cfg.nvoi → |(eps v).val| ≤ B) →
      ∃ s r, (constructF env a' j f >>= run env calls) = .ok s ∧ step env s .homogenize = .ok r ∧
        List.Forall₂ (fun g g' => ¬ TakesLinearPath s.obj.cfg g →
          (∀ i, i < 1 + s0.obj.cfg.nvoi → (g'.nrErr i).val ≤ fp.rnd 1e-5) ∧
          ∀ C, IsStiffness s0.obj.cfg C → ∀ v, v < s0.obj.cfg.nvoi →
            |(g'.macroStress v).val - ∑ j ∈ range s0.obj.cfg.nvoi, C v j * (g.macroStrain j).val| ≤ K * 1e-5)
          s.obj.gauss r.state.obj.gauss := by
  obtain ⟨hb0, ho0⟩ := reach_built ha hs0
  have hc := ho0.cfg
  obtain ⟨K, hK, H⟩ := fp_solve hc (hb0.geom hg) (hb0.elastic he)
  obtain ⟨u1, hu1, H1⟩ := built_elements ha ht hb0
  refine ⟨K, by linarith, fun B hB => ?_⟩
  obtain ⟨u2, n, hu2, H⟩ := H B hB
  obtain ⟨N, hN⟩ := exists_nat_ge n
  refine ⟨min (min u1 u2) (1 / 8), N, by positivity, ?_⟩
  intro fp hu heta env a' j f calls hsame hj hfuel hpk hcalls
  have hul1 : fp.u ≤ u1 := hu.le.trans ((min_le_left _ _).trans (min_le_left _ _))
  have hul2 : fp.u < u2 := lt_of_lt_of_le hu ((min_le_left _ _).trans (min_le_right _ _))
  have hu8 : fp.u ≤ 1 / 8 := hu.le.trans (min_le_right _ _)
  set c := s0.obj.cfg with hcd
  let U : Cfg (Fl fp) → Buf (Fl fp) → Prop := fun _ b => ∀ q, q < c.nn * c.dim → |(b.val q).val| ≤ K * (1 + B)
  let V : Cfg (Fl fp) → (Nat → Fl fp) → Prop := fun _ eps => ∀ v, v < c.nvoi → |(eps v).val| ≤ 2 * (1 + B)
  let Q : Cfg (Fl fp) → (Nat → Fl fp) → Prop := fun _ eps => ∀ v, v < c.nvoi → |(eps v).val| ≤ B
  let Ans : Cfg (Fl fp) → (Nat → Fl fp) → (Nat → Fl fp) → Fl fp → Prop := fun _ eps sig err =>
    err.val ≤ fp.rnd 1e-5 ∧ ∀ C, IsStiffness c C → ∀ v, v < c.nvoi →
      |(sig v).val - ∑ j ∈ range c.nvoi, C v j * (eps j).val| ≤ K * 1e-5
  have hb : Solves env (fun c' => Computed c' c) U V Q Ans := by
    refine ⟨fun h => h.ok hc, ?_, ?_, ?_, ?_, ?_⟩
    · intro c' w eps hcomp hw hu hv
      obtain ⟨w1, out, h1, h2, h3, h4, h5, h6⟩ := H fp hul2 heta c' hcomp env
        ⟨hN.trans (by exact_mod_cast hfuel), hpk⟩ w eps hw hu hv
      refine ⟨w1, out, h1, h2, h3, h4, fun r hr => ⟨nrMaxTol_fl ▸ h5, fun C hC v hv => ?_⟩⟩
      rw [calcAveStress_gen (hcomp.ok hc) h3.ok hr]
      exact h6 C hC _ v hv
    · intro c' i _ v _
      simp only
      split
      · have := strain_le hu8 heta (x := 0) hB (by rw [Fl.val_zero, abs_zero]; exact hB)
        exact this
      · rw [Fl.val_zero, abs_zero]; linarith
    · intro c' eps _ h v hv
      linarith [h v hv]
    · intro c' eps i _ h v hv
      simp only
      split
      · exact strain_le hu8 heta hB (h v hv)
      · linarith [h v hv]
    · intro c' eps b hcomp h v hv
      have : setFirst c'.nvoi eps b v = eps v := by
        unfold setFirst; rw [if_pos (by rw [hcomp.nvoi]; exact hv)]
      rw [this]; exact h v hv
  have hcomp : ∀ c', BuiltFrom a' j c' → Computed c' c := fun c' hbf =>
    computed_of_built hc (describes_of_built he hb0 hsame) hbf (H1 fp hul1 heta a' j c' hsame hbf)
  obtain ⟨s, hs, ho⟩ := hb.reach (hsame.ok ha) (j := j) hcomp
    (fun c' _ b hbv q hq => by
      rw [hbv]
      have := hj q hq
      nlinarith)
    (fun _ _ _ h => h) (calls := calls)
    (fun c' _ k hk => by
      cases k with
      | setStrain id eps => exact hcalls id eps hk
      | _ => trivial) f
  obtain ⟨r, h1, -, -, h2⟩ := hb.step ho (k := .homogenize) trivial
  refine ⟨s, r, hs, h1, (h2 rfl).imp fun g g' h hn => ?_⟩
  obtain ⟨sig, k1, k2, k3⟩ := h hn
  have hnv : s.obj.cfg.nvoi = c.nvoi := ho.cell.nvoi
  refine ⟨fun i hi => ?_, fun C hC v hv => ?_⟩
  · match i, hi with
    | 0, _ => exact k1.1
    | i + 1, hi =>
      obtain ⟨sig', k4⟩ := k3 i (by rw [hnv]; omega)
      rw [Nat.add_comm]
      exact k4.1
  · rw [k2 v (by rw [hnv]; exact hv)]
    exact k1.2 C hC v hv

/-- A cell of 49 elements, whose data are representable in every format. -/
def tinyArgs8 (α : Type) [Scalar α] : Args α := { tinyArgs α with size := fun _ => 8 }

def exCallsR (α : Type) [Scalar α] : List (Call α) :=
  (List.replicate 1000 [.setStrain 4 (fun _ => 1), .setStrain 9 (fun v => if v = 0 then 1 else 0), .homogenize,
    .updateVars]).flatten

theorem exIdsR (α : Type) [Scalar α] : (setIds (exCallsR α)).reverse.dedup.length = 2 := by
  have key : ∀ n, (setIds (List.replicate n [Call.setStrain 4 (fun _ => (1 : α)),
      .setStrain 9 (fun v => if v = 0 then 1 else 0), .homogenize, .updateVars]).flatten)
      = (List.replicate n [4, 9]).flatten := by
    intro n
    induction n with
    | zero => rfl
    | succ n ih =>
      rw [List.replicate_succ, List.flatten_cons, List.replicate_succ, List.flatten_cons, ← ih]
      rfl
  unfold exCallsR
  rw [key, ← List.card_toFinset]
  have : ((List.replicate 1000 [4, 9]).flatten.reverse : List Int).toFinset = {4, 9} := by
    ext x
    rw [List.mem_toFinset, List.mem_reverse, List.mem_flatten]
    constructor
    · rintro ⟨l, hl, hx⟩
      rw [(List.mem_replicate.mp hl).2] at hx
      simpa using hx
    · intro hx
      exact ⟨[4, 9], List.mem_replicate.mpr ⟨by omega, rfl⟩, by simpa using hx⟩
  rw [this]
  decide

/-- C81 on this cell (72 inner unknowns): a thousand load steps at two Gauss points, in a binary format of finite
precision. -/
example : ∃ (s0 : ObjFiles ℝ) (K : ℝ) (p : Nat) (emin : ℤ) (hp : 1 ≤ p) (hem : emin ≤ 0)
    (env : Env (Fl (binary p emin hp hem))) (s : ObjFiles (Fl (binary p emin hp hem)))
    (r : Stepped (Fl (binary p emin hp hem))), Reach env (tinyArgs8 _) (tinyJunk _) (exCallsR _) s ∧
    step env s .homogenize = .ok r ∧ s.obj.gauss.length = 2 ∧
    ∀ C, IsStiffness s0.obj.cfg C → List.Forall₂ (fun g g' => ∀ v, v < s0.obj.cfg.nvoi →
        |(g'.macroStress v).val - ∑ j ∈ range s0.obj.cfg.nvoi, C v j * (g.macroStrain j).val| ≤ K * 1e-5)
        s.obj.gauss r.state.obj.gauss := by
  have hok : ∀ {α : Type} [Scalar α], (tinyArgs8 α).Ok := fun {α} _ =>
    ⟨Or.inl rfl, Or.inr rfl, by show 2 ≤ 8; omega, by show 2 ≤ 8; omega, fun h => by cases h⟩
  obtain ⟨s0, hs0⟩ := reach_exists (α := ℝ) tinyEnv_quick hok (tinyJunk ℝ) []
  have hgeo : (tinyArgs8 ℝ).Geom := ⟨tiny_geom.lx, tiny_geom.ly, tiny_geom.lz⟩
  have hel : (tinyArgs8 ℝ).Elastic := ⟨tiny_elastic.E, tiny_elastic.lo, tiny_elastic.hi, tiny_elastic.ty⟩
  have hnt : NoTie (tinyArgs8 ℝ) := by
    rintro ex ey ez -
    refine ⟨fun h => (by cases h), fun _ => ?_⟩
    have e : centre ((tinyArgs8 ℝ).microParams 1) ((tinyArgs8 ℝ).size 1) ey = (ey + 1 / 2) / 7 := by
      norm_num [centre, tinyArgs8, tinyArgs]; ring
    rw [e]
    show ((ey : ℝ) + 1 / 2) / 7 ≠ 0
    positivity
  obtain ⟨K, hK, H⟩ := C81_converges hok hgeo hel hnt hs0
  obtain ⟨u0, N, hu0, H⟩ := H 1 (by norm_num)
  obtain ⟨p, emin, hp, hem, hu, heta⟩ := exists_format (u0 := u0 / 2) (by positivity)
  refine ⟨s0, K, p, emin, hp, hem, ?_⟩
  generalize binary p emin hp hem = fp at hu heta
  have hsame : SameArgs (tinyArgs8 (Fl fp)) (tinyArgs8 ℝ) :=
    ⟨rfl, fun _ => rfl, rfl, (tiny_same fp).microParams, fun _ _ => rfl, (tiny_same fp).params⟩
  obtain ⟨s, r, h1, h2, h3⟩ := H fp (lt_of_le_of_lt hu (by linarith)) heta
    { tinyEnv (Fl fp) with fuel := N, peek := fun _ => some 0 } (tinyArgs8 _) (tinyJunk _)
    ⟨[], [], [], [], fun _ _ => none⟩ (exCallsR _) hsame
    (fun q _ => by show |(1 : Fl fp).val| ≤ 1; simp) (le_refl _) (fun t => ⟨0, rfl, by norm_num⟩)
    (fun id eps he v hv => by
      obtain ⟨l, hl, he⟩ := List.mem_flatten.mp he
      rw [(List.mem_replicate.mp hl).2] at he
      simp only [List.mem_cons, Call.setStrain.injEq, List.not_mem_nil, reduceCtorEq, or_false] at he
      rcases he with ⟨-, rfl⟩ | ⟨-, rfl⟩
      · simp
      · simp only; split <;> simp)
  have hs : Reach { tinyEnv (Fl fp) with fuel := N, peek := fun _ => some 0 } (tinyArgs8 _) (tinyJunk _)
    (exCallsR _) s := ⟨_, h1⟩
  obtain ⟨hb, ho⟩ := reach_built hok hs
  refine ⟨_, s, r, hs, h2, ?_, fun C hC => h3.imp fun g g' h => (h ?_).2 C hC⟩
  · rw [bind_ok_iff] at h1
    obtain ⟨s1, h0, h1⟩ := h1
    have := (C39_map _ (exCallsR _) s1 s (construct_fresh h0) h1).1
    rw [← List.length_map (f := Gp.id), this]
    rw [List.length_reverse, exIdsR]
  · obtain ⟨et, ct, h⟩ := hb.eq
    rw [h]
    rintro ⟨-, hlt⟩
    have hlt : Scalar.lt (Scalar.abs _) (0 : Fl fp) = true := hlt
    rw [Fl.lt_iff, Fl.val_zero] at hlt
    unfold Scalar.abs at hlt
    split at hlt
    · rename_i h'
      rw [Fl.lt_iff, Fl.val_zero] at h'
      rw [Fl.val_neg] at hlt
      linarith
    · rename_i h'
      rw [Fl.lt_iff, Fl.val_zero] at h'
      exact h' hlt

end Verif.Props
