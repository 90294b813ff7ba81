import Verif.Model.ProgText
import Verif.Lemmas.CtorRun
import Verif.Lemmas.FileOut
import Verif.Props.TextHomog

/-!
# C98: the text of the constructor, and of whole programs

As C95, C96 and C97, for the constructor (/repo/src/micro.cpp:28-146): the initialisers in the order of
the members, the allocations, the materials and their file, the loops over the elements,
`ell_init_2D`/`ell_init_3D`, `calc_ctan_lin` and the three files that start empty.  With it, the text of a whole program: constructor and calls in sequence.
-/

namespace Verif.Props
open Text Spec

variable {α : Type} [Scalar α]

/-- What the model does with a sequence of calls, with the values returned. -/
def modelCalls (env : Env α) : List (Call α) → ObjFiles α → M (ObjFiles α × List (Ret α))
  | [], s => pure (s, [])
  | k :: l, s => do
    let r ← step env s k
    let z ← modelCalls env l r.state
    pure (z.1, r.ret :: z.2)

/-- C98: executing the text of the constructor gives the object and the files of the model, from every junk
memory and whatever files there are; for
a dimension other than 2 and 3 both are the failing assertion, for a `micro_type` other than 0 and 1 both
are the use of a variable without value. -/
theorem C98_constructor (L : LitLaws α) (env : Env α) {a : Args α} (hx : 2 ≤ a.size 0) (hy : 2 ≤ a.size 1)
    (hz : a.dim ≠ 2 → 2 ≤ a.size 2) (j : Junk α) (f : Files α) :
    ctorText env a j f = constructF env a j f ∧ ObjFiles.obj <$> ctorText env a j f = construct env a j ∧
      (a.dim ≠ 2 → a.dim ≠ 3 → ctorText env a j f = .error .abort) ∧
      (a.dim = 2 ∨ a.dim = 3 → a.microType ≠ 0 → a.microType ≠ 1 → ctorText env a j f = .error .uninit) := by
  have h := ctorText_all L env hx hy hz j f
  refine ⟨h, ?_, fun h2 h3 => ?_, fun hd h0 h1 => ?_⟩
  · rw [h, constructF]
    cases construct env a j <;> rfl
  · rw [h, constructF, construct, if_pos (by simp [h2, h3])]
    rfl
  · rw [h, constructF, construct, if_neg (not_not.mpr hd), if_pos (by simp [h0, h1])]
    rfl

/-- C98: one call of a public function, executed from its text, is that of the model: the same object, the
same returned values, the same fault. -/
theorem C98_step (L : LitLaws α) (env : Env α) {s : ObjFiles α} (ho : s.obj.Ok) (k : Call α) :
    textStep env s k = step env s k := by
  have hn := nvoi_le s.obj.cfg
  cases k with
  | setStrain id eps =>
    obtain ⟨t, h1, h2⟩ := C97_set_macro_strain env s.obj (l := callLoc id .macro_strain 6 eps) (id := id) (eps := eps)
      rfl ⟨_, rfl, hn, fun _ _ => rfl⟩
    simp only [textStep, h1, M_bind_ok', h2]
    rfl
  | homogenize =>
    have h := C97_homogenize L env ho Loc.none
    simp only [textStep, step]
    rw [← h]
    cases tRun env .homogenize ⟨s.obj, Loc.none⟩ <;> rfl
  | getStress id buf =>
    obtain ⟨t, a, h1, h2, h3, h4⟩ := C97_get_macro_stress env s.obj (l := callLoc id .macro_stress 6 buf) (id := id)
      (buf := buf) rfl rfl hn (by intro q y h; exact Option.some.inj h)
    have e : arrOut buf (t.l.v .macro_stress) = (getMacroStress s.obj id buf).2 := by
      rw [h3]; funext q; simp [arrOut, h4 q (.inl rfl)]
    have e2 : (getMacroStress s.obj id buf).1 = s.obj := by unfold getMacroStress; split <;> rfl
    simp only [textStep, h1, M_bind_ok', h2, e, step, e2]
  | getCtan id buf =>
    obtain ⟨t, a, h1, h2, h3, h4⟩ := C97_get_macro_ctan env s.obj (l := callLoc id .macro_ctan 36 buf) (id := id)
      (buf := buf) rfl rfl (Nat.mul_le_mul hn hn) (by intro q y h; exact Option.some.inj h)
    have e : arrOut buf (t.l.v .macro_ctan) = (getMacroCtan s.obj id buf).2 := by
      rw [h3]; funext q; simp [arrOut, h4 q (.inl rfl)]
    have e2 : (getMacroCtan s.obj id buf).1 = s.obj := by unfold getMacroCtan; split <;> rfl
    simp only [textStep, h1, M_bind_ok', h2, e, step, e2]
  | getNl id =>
    obtain ⟨t, h1, h2, h3⟩ := C97_get_nl_flag env s.obj
      (l := { (Loc.none : Loc α) with i := fun y => if y = .gp_id then some id else none }) (id := id) rfl
    have e2 : (getNlFlag s.obj id).1 = s.obj := by unfold getNlFlag; split <;> rfl
    simp only [textStep, h1, M_bind_ok', h2, h3, need, step, e2]
  | updateVars =>
    have h := C97_update_vars env ho Loc.none
    simp only [textStep, step]
    rw [← h]
    cases tRun env .update_vars ⟨s.obj, Loc.none⟩ <;> rfl
  | output k id =>
    have h := fRun_output L env ho (l := { (Loc.none : Loc α) with
        i := fun y => if y = .time_step then some k else if y = .gp_id then some id else none }) (id := id) (k := k)
        rfl rfl 0
    simp only [textStep, step]
    rw [← h]
    cases fRun env s.obj.cfg s.obj.gauss 2 .output ⟨⟨s.obj.work, { (Loc.none : Loc α) with
      i := fun y => if y = .time_step then some k else if y = .gp_id then some id else none }⟩, s.files, none⟩ <;> rfl
  | writeInfo =>
    obtain ⟨t, h1, h2, h3, h4⟩ := fRun_write_info L env ho (l := { (Loc.none : Loc α) with
        i := fun y => if y = .output_files_header then some (if s.obj.header = true then 1 else 0) else none }) rfl 1
    simp only [textStep, step, h4]
    rw [show fRun env _ _ 2 _ _ = _ from h1]
    simp only [M_bind_ok', M_pure, h3, h2, need]
    rfl

theorem textCalls_eq (L : LitLaws α) (env : Env α) (calls : List (Call α)) {s : ObjFiles α} (ho : s.obj.Ok) :
    textCalls env calls s = modelCalls env calls s := by
  induction calls generalizing s with
  | nil => rfl
  | cons k l ih =>
    unfold textCalls modelCalls
    rw [C98_step L env ho k]
    cases hr : step env s k with
    | error e => rfl
    | ok r =>
      simp only [M_bind_ok']
      rw [ih ((step_sane ho k).post hr)]

theorem modelCalls_run (env : Env α) (calls : List (Call α)) (s : ObjFiles α) :
    (fun z => z.1) <$> modelCalls env calls s = Verif.run env calls s := by
  induction calls generalizing s with
  | nil => rfl
  | cons k l ih =>
    unfold modelCalls Verif.run
    cases step env s k with
    | error e => rfl
    | ok r =>
      simp only [M_bind_ok']
      rw [← ih]
      cases modelCalls env l r.state <;> rfl

/-- C98: a program executed from its text (constructor and any calls in any order) does what the model
does: the same object and files at the end, the same values returned on the way, or the same fault. -/
theorem C98_program (L : LitLaws α) (env : Env α) {a : Args α} (hx : 2 ≤ a.size 0) (hy : 2 ≤ a.size 1)
    (hz : a.dim ≠ 2 → 2 ≤ a.size 2) (j : Junk α) (f : Files α) (calls : List (Call α)) :
    textProg env a j f calls = (constructF env a j f >>= modelCalls env calls) ∧
      (fun z => z.1) <$> textProg env a j f calls = (constructF env a j f >>= Verif.run env calls) := by
  have key : textProg env a j f calls = (constructF env a j f >>= modelCalls env calls) := by
    unfold textProg
    rw [ctorText_all L env hx hy hz j f]
    unfold constructF
    cases ho : construct env a j with
    | error e => rfl
    | ok o =>
      have ha : a.Ok := by
        unfold construct at ho
        split at ho
        · cases ho
        · rename_i hd
          split at ho
          · cases ho
          · rename_i hm
            rw [not_not] at hd hm
            exact ⟨hd, hm, hx, hy, fun h => hz (by omega)⟩
      exact textCalls_eq L env calls (construct_built ha ho).2
  refine ⟨key, ?_⟩
  rw [key]
  cases constructF env a j f with
  | error e => rfl
  | ok s => exact modelCalls_run env calls s

/-- C98 for what the caller sees: after constructor and calls, the text of `get_macro_stress` hands back the
stress of the Gauss point in the model, and the text of `get_macro_ctan` its tangent. -/
theorem C98_returned (L : LitLaws α) {env : Env α} {a : Args α} (ha : a.Ok) {j : Junk α} {f : Files α}
    {calls : List (Call α)} {z : ObjFiles α × List (Ret α)} (h : textProg env a j f calls = .ok z) (id : Int)
    (buf : Nat → α) :
    Reach env a j calls z.1 ∧
      textStep env z.1 (.getStress id buf) = .ok ⟨z.1, .buf (getMacroStress z.1.obj id buf).2⟩ ∧
      textStep env z.1 (.getCtan id buf) = .ok ⟨z.1, .buf (getMacroCtan z.1.obj id buf).2⟩ := by
  have hp := (C98_program L env ha.nx ha.ny (fun h => ha.nz (by rcases ha.dim with h' | h' <;> omega)) j f calls).2
  rw [h] at hp
  have hr : Reach env a j calls z.1 := ⟨f, hp.symm⟩
  have ho := (reach_built ha hr).2
  refine ⟨hr, ?_, ?_⟩
  · rw [C98_step L env ho]
    have e2 : (getMacroStress z.1.obj id buf).1 = z.1.obj := by unfold getMacroStress; split <;> rfl
    simp only [step, e2]
    rfl
  · rw [C98_step L env ho]
    have e2 : (getMacroCtan z.1.obj id buf).1 = z.1.obj := by unfold getMacroCtan; split <;> rfl
    simp only [step, e2]
    rfl

/-! ## Examples -/

/-- A program in space, with plasticity and several calls, whose text runs to the end. -/
example : ∃ f z, textProg exEnv exArgsP exJunk f exCalls = .ok z ∧ Reach exEnv exArgsP exJunk exCalls z.1 := by
  obtain ⟨s, f, hs⟩ := reach_exists exEnv_quick exArgsP_ok exJunk exCalls
  have ha := exArgsP_ok
  have hp := (C98_program litLaws_real exEnv ha.nx ha.ny (fun h => ha.nz (by rcases ha.dim with h' | h' <;> omega))
    exJunk f exCalls).2
  rw [hs] at hp
  cases e : textProg exEnv exArgsP exJunk f exCalls with
  | ok z => exact ⟨f, z, e, (C98_returned litLaws_real ha e 0 fun _ => 0).1⟩
  | error e' => rw [e] at hp; cases hp

/-- The same in the arithmetic with a relative error in every operation. -/
example (fp : Fp) {a : Args (Fl fp)} (ha : a.Ok) (env : Env (Fl fp)) (j : Junk (Fl fp))
    (f : Files (Fl fp)) : ctorText env a j f = constructF env a j f :=
  (C98_constructor (litLaws_rounded fp) env ha.nx ha.ny
    (fun h => ha.nz (by rcases ha.dim with h' | h' <;> omega)) j f).1

/-- In one dimension the text of the constructor fails its assertion. -/
example (env : Env ℝ) (a : Args ℝ) (h : a.dim = 1) (hs : ∀ i, a.size i = 5) (j : Junk ℝ) (f : Files ℝ) :
    ctorText env a j f = .error .abort :=
  (C98_constructor litLaws_real env (by rw [hs]; omega) (by rw [hs]; omega) (fun _ => by rw [hs]; omega) j f).2.2.1
    (by omega) (by omega)

/-- A call of the interface on an object in space. -/
example (f : Files ℝ) : textStep exEnv ⟨exP, f⟩ (.setStrain 7 fun q => q) = step exEnv ⟨exP, f⟩ (.setStrain 7 fun q => q) :=
  C98_step litLaws_real exEnv (s := ⟨exP, f⟩) exP_built.2 _

end Verif.Props
