import Verif.Lemmas.YieldCtor
import Verif.Props.Converge
import Verif.Props.PlasticCell

/-! # C83: below yield a plastic object is its elastic copy -/

namespace Verif.Props
open Verif Spec Finset

/-- C83: for every cell whose materials would be admissible elastic ones, there is a bound `Y`, which does not
depend on the yield data, the strains, the calls or their number, such that: whenever the yield stresses of the plastic
materials are at least `Y * (1 + B)`, then for every sequence of public calls that prescribes strains up to `B`, the
object and the object constructed with the plastic materials declared elastic return, with the same Gauss points (macro
stresses, tangents, iteration counts, errors), the same files and the same answers to every further call; no
Gauss point ever gets internal variables. -/
theorem C83_copy {a : Args ℝ} (ha : a.Ok) (hg : a.Geom) (hel : a.elasticCopy.Elastic)
    (hty : ∀ i, i < 2 → a.matTypes i = 0 ∨ a.matTypes i = 1 ∨ a.matTypes i = 2) (j : Junk ℝ)
    (hj : ∀ k, j.varsOld k = 0) :
    ∃ Y N : ℝ, 0 < Y ∧ ∀ p : Nat → ℝ,
      (∀ i, i < 2 → p (i * 10) = a.params (i * 10) ∧ p (i * 10 + 1) = a.params (i * 10 + 1)) →
      ∀ B : ℝ, 0 ≤ B → (∀ i, i < 2 → a.matTypes i = 1 → Y * (1 + B) ≤ p (i * 10 + 2)) →
      ∀ env : Env ℝ, N * (1 + B) ^ 2 ≤ env.fuel → (∀ t, ∃ v, env.peek t = some v ∧ v < 40) →
      ∀ (f : Files ℝ) (calls : List (Call ℝ)),
      (∀ id eps, .setStrain id eps ∈ calls → ∀ v, v < (if a.dim = 2 then 3 else 6) → |eps v| ≤ B) →
      ∃ s s0, (constructF env { a with params := p } j f >>= run env calls) = .ok s ∧
        (constructF env (Args.elasticCopy { a with params := p }) j f >>= run env calls) = .ok s0 ∧
        s.obj.gauss = s0.obj.gauss ∧ s.files = s0.files ∧ (∀ g ∈ s.obj.gauss, g.intVarsN = none) ∧
        ∀ k : Call ℝ, (∀ id eps, k = .setStrain id eps → ∀ v, v < (if a.dim = 2 then 3 else 6) → |eps v| ≤ B) →
          ∃ r r0, step env s k = .ok r ∧ step env s0 k = .ok r0 ∧ r.ret = r0.ret ∧
            r.state.obj.gauss = r0.state.obj.gauss ∧ r.state.files = r0.state.files := by
  obtain ⟨Y, N, hY, h⟩ := reach_twin ha hg hel hty j hj
  refine ⟨Y, N, hY, fun p hp B hB hSy env hf hpk f calls hk => ?_⟩
  obtain ⟨s, ma, v0, h1, h2, h3, h4⟩ := h p hp B hB hSy env ⟨hf, hpk⟩ f calls fun k hk' => by
    cases k with
    | setStrain id eps => exact hk id eps hk'
    | _ => trivial
  refine ⟨s, _, h1, h2, rfl, rfl, fun g hg => (h3 g hg).1, fun k hk' => ?_⟩
  obtain ⟨r, k1, k2⟩ := h4 k (by
    cases k with
    | setStrain id eps => exact hk' id eps rfl
    | _ => trivial)
  exact ⟨r, _, k1, k2, rfl, rfl, rfl⟩

/-- C83 on the cell with a plastic layer: some yield stress keeps ten thousand load steps at two Gauss points
elastic. -/
example : ∃ (n : Nat) (Sy : ℝ) (s s0 : ObjFiles ℝ), 0 < Sy ∧
    Reach (exEnvN n) { exArgsT with params := fun i => if i % 10 = 2 then Sy else exArgsT.params i } exJunkT
      (List.replicate 10000 [.setStrain 4 (fun v => v + 1), .setStrain 9 (fun _ => 0), .homogenize, .updateVars,
        .output 3 9, .writeInfo]).flatten s ∧
    Reach (exEnvN n) (Args.elasticCopy { exArgsT with params := fun i => if i % 10 = 2 then Sy else exArgsT.params i })
      exJunkT (List.replicate 10000 [.setStrain 4 (fun v => v + 1), .setStrain 9 (fun _ => 0), .homogenize, .updateVars,
        .output 3 9, .writeInfo]).flatten s0 ∧
    exArgsT.matTypes 1 = 1 ∧ s.obj.gauss = s0.obj.gauss ∧ s.files = s0.files := by
  have hel : exArgsT.elasticCopy.Elastic := by
    refine ⟨fun i hi => ?_, fun i hi => ?_, fun i hi => ?_, fun _ i hi => Or.inl ?_⟩ <;> interval_cases i <;>
      norm_num [exArgsT, Args.elasticCopy]
  obtain ⟨Y, N, hY, h⟩ := C83_copy exArgsT_ok exArgsT_geom hel
    (fun i hi => by interval_cases i <;> simp [exArgsT]) exJunkT (fun k => rfl)
  obtain ⟨n, hn⟩ := exists_nat_ge (N * (1 + 6) ^ 2)
  obtain ⟨s, s0, h1, h2, h3, h4, -⟩ := h (fun i => if i % 10 = 2 then Y * (1 + 6) else exArgsT.params i)
    (fun i hi => by interval_cases i <;> simp) 6 (by norm_num) (fun i hi _ => by interval_cases i <;> simp)
    (exEnvN n) hn (exEnvN_peek n) ⟨[], [], [], [], fun _ _ => none⟩
    (List.replicate 10000 [.setStrain 4 (fun v => v + 1), .setStrain 9 (fun _ => 0), .homogenize, .updateVars,
        .output 3 9, .writeInfo]).flatten
    (fun id eps he v hv => by
      obtain ⟨l, hl, he⟩ := List.mem_flatten.mp he
      rw [(List.mem_replicate.mp hl).2] at he
      have hv : v < 6 := hv
      have hv' : (v : ℝ) ≤ 5 := by exact_mod_cast (by omega : v ≤ 5)
      simp only [List.mem_cons, Call.setStrain.injEq, List.not_mem_nil, reduceCtorEq, or_false] at he
      rcases he with ⟨-, rfl⟩ | ⟨-, rfl⟩
      · simp only
        rw [abs_of_nonneg (by positivity)]
        linarith
      · norm_num)
  exact ⟨n, Y * (1 + 6), s, s0, by positivity, ⟨_, h1⟩, ⟨_, h2⟩, by simp [exArgsT], h3, h4⟩

end Verif.Props
