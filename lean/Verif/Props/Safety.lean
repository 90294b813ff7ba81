import Verif.Lemmas.Built

/-!
# Memory safety of the public interface: property C56

The theorems hold for every scalar type, hence for IEEE doubles with infinities and NaN, for every
content of uninitialised memory and for every call sequence.  The only ways not to return are the
Newton loop of /repo/src/solve.cpp:50-65, which the code does not bound, and the read of `*its`
after `*its++` when that read is undefined behaviour.
-/

namespace Verif

variable {α : Type} [Scalar α]

namespace Props

/-- C56: constructing an object from a two- or three-dimensional grid with at least two nodes in
each direction and a micro-structure type 0 or 1, and then making any sequence of public calls,
returns; or the Newton loop has used up its budget; or the environment makes the read past `its`
undefined.  In particular no execution reads or writes outside a buffer, dereferences NULL, reads an
unassigned loop bound or hits an assertion. -/
theorem C56_safe (env : Env α) (a : Args α) (j : Junk α) (f : Files α) (calls : List (Call α))
    (dim : a.dim = 2 ∨ a.dim = 3) (micro : a.microType = 0 ∨ a.microType = 1)
    (nx : 2 ≤ a.size 0) (ny : 2 ≤ a.size 1) (nz : a.dim = 3 → 2 ≤ a.size 2)
    : (∃ s, (constructF env a j f >>= run env calls) = .ok s) ∨
      (constructF env a j f >>= run env calls) = .error .fuel ∨
      ((constructF env a j f >>= run env calls) = .error .oob ∧ ∃ t, env.peek t = none) := by
  have key : Sane env (fun _ => True) (constructF env a j f >>= run env calls) := by
    refine Sane.bind (P := fun s : ObjFiles α => s.obj.Ok) ?_ fun s hs =>
      (run_sane calls hs).mono fun _ _ => trivial
    exact (construct_sane env ⟨dim, micro, nx, ny, nz⟩ j).bind fun o ho => Sane.ok ho
  rcases key with ⟨x, hx, -⟩ | ⟨hx, -⟩ | hx
  · exact Or.inl ⟨x, hx⟩
  · exact Or.inr (Or.inl hx)
  · exact Or.inr (Or.inr hx)

/-- A run of the example object. -/
example (f : Files ℝ) :=
  C56_safe exEnv exArgsP exJunk f exCalls exArgsP_ok.dim exArgsP_ok.micro exArgsP_ok.nx exArgsP_ok.ny
    exArgsP_ok.nz

/-- The alternatives of C56 are not the rule: whenever the memory behind `its` reads at least 40 (and
at least one Newton pass is allowed) every such program returns. -/
theorem C56_returns (env : Env α) (a : Args α) (j : Junk α) (f : Files α) (calls : List (Call α))
    (dim : a.dim = 2 ∨ a.dim = 3) (micro : a.microType = 0 ∨ a.microType = 1)
    (nx : 2 ≤ a.size 0) (ny : 2 ≤ a.size 1) (nz : a.dim = 3 → 2 ≤ a.size 2)
    (hfuel : 1 ≤ env.fuel) (hpeek : ∀ t, ∃ v, env.peek t = some v ∧ 40 ≤ v) :
    ∃ s, (constructF env a j f >>= run env calls) = .ok s := by
  have key : Sane env (fun _ => True) (constructF env a j f >>= run env calls) := by
    refine Sane.bind (P := fun s : ObjFiles α => s.obj.Ok) ?_ fun s hs =>
      (run_sane calls hs).mono fun _ _ => trivial
    exact (construct_sane env ⟨dim, micro, nx, ny, nz⟩ j).bind fun o ho => Sane.ok ho
  obtain ⟨s, h, -⟩ := key.returns ⟨hfuel, hpeek⟩
  exact ⟨s, h⟩

example : ∃ s, (constructF exEnv exArgsP exJunk ⟨[], [], [], [], fun _ _ => none⟩ >>=
    run exEnv (exCalls ++ [.output 3 4, .writeInfo, .getStress 4 fun _ => 0])) = .ok s :=
  C56_returns _ _ _ _ _ exArgsP_ok.dim exArgsP_ok.micro exArgsP_ok.nx exArgsP_ok.ny exArgsP_ok.nz
    exEnv_quick.1 exEnv_quick.2

/-- C56 through the Fortran interface: after `micropp_construct_` no wrapper call faults, whatever
was constructed before. -/
theorem C56_wrapper (env : Env α) (a : Args α) (j : Junk α) (w0 w : World α) (calls : List (Call α))
    (dim : a.dim = 2 ∨ a.dim = 3) (micro : a.microType = 0 ∨ a.microType = 1)
    (nx : 2 ≤ a.size 0) (ny : 2 ≤ a.size 1) (nz : a.dim = 3 → 2 ≤ a.size 2)
    (hw : wConstruct env a j w0 = .ok w) :
    (∃ w', calls.foldlM (fun w k => (wCall env w k).map WStepped.world) w = .ok w') ∨
    calls.foldlM (fun w k => (wCall env w k).map WStepped.world) w = .error .fuel ∨
    (calls.foldlM (fun w k => (wCall env w k).map WStepped.world) w = .error .oob ∧
      ∃ t, env.peek t = none) := by
  have hok : ∃ o, w.micro = some o ∧ o.Ok := by
    have h1 := construct_sane env ⟨dim, micro, nx, ny, nz⟩ j
    unfold wConstruct constructF at hw
    rcases h1 with ⟨x, hx, ho⟩ | ⟨hx, -⟩ | ⟨hx, -⟩
    · rw [hx] at hw
      cases hw
      exact ⟨x, rfl, ho⟩
    · rw [hx] at hw; cases hw
    · rw [hx] at hw; cases hw
  clear hw
  induction calls generalizing w with
  | nil => exact Or.inl ⟨w, rfl⟩
  | cons k l ih =>
    obtain ⟨o, h1, h2⟩ := hok
    have hk := step_sane (env := env) (s := { obj := o, files := w.files }) h2 k
    rw [List.foldlM_cons]
    unfold wCall
    rw [h1]
    simp only
    rcases hk with ⟨x, hx, hy⟩ | ⟨hx, -⟩ | ⟨hx, ht⟩
    · rw [hx]
      exact ih _ ⟨_, rfl, hy⟩
    · rw [hx]; exact Or.inr (Or.inl rfl)
    · rw [hx]; exact Or.inr (Or.inr ⟨rfl, ht⟩)

/-- The wrapper can be used: the constructor call returns. -/
example : ∃ w, wConstruct exEnv exArgs3 exJunk ⟨none, ⟨[], [], [], [], fun _ _ => none⟩, []⟩ = .ok w := by
  obtain ⟨o, h, -⟩ := (construct_sane exEnv exArgs3_ok exJunk).returns exEnv_quick
  refine ⟨⟨some o, ctorFiles o.cfg ⟨[], [], [], [], fun _ _ => none⟩, []⟩, ?_⟩
  unfold wConstruct constructF
  rw [h]; rfl

/-- Outside these arguments the constructor does fault: a dimension other than 2 or 3 aborts and a
micro-structure type other than 0 or 1 reads an unassigned loop bound. -/
theorem C56_needed (env : Env α) (a : Args α) (j : Junk α) :
    (¬ (a.dim = 2 ∨ a.dim = 3) → construct env a j = .error .abort) ∧
    ((a.dim = 2 ∨ a.dim = 3) → ¬ (a.microType = 0 ∨ a.microType = 1) →
      construct env a j = .error .uninit) := by
  refine ⟨fun h => ?_, fun h1 h2 => ?_⟩
  · unfold construct; rw [if_pos h]
  · unfold construct; rw [if_neg (not_not.mpr h1), if_pos h2]

example : construct exEnv { exArgs3 with dim := 4 } exJunk = .error .abort ∧
    construct exEnv { exArgs3 with microType := 2 } exJunk = .error .uninit :=
  ⟨(C56_needed exEnv { exArgs3 with dim := 4 } exJunk).1 (by decide),
   (C56_needed exEnv { exArgs3 with microType := 2 } exJunk).2 (Or.inr rfl) (by decide)⟩

end Props
end Verif
