import Verif.Lemmas.MainText
import Verif.Props.Client
import Verif.Props.Text

/-!
# The text of the programs in /repo/test: property C103

The programs are the terms that `tools/gen_main.py` extracts from /repo/test.  Running one gives what the
model of the program gives (`Verif.Model.Client`), so C72 holds of the text.
-/

namespace Verif
open Spec MainText

variable {α : Type} [Scalar α]

namespace Props

/-- What a run of the text shows of what C72 is about: the value returned and, unless the program ended
with its usage, its object, its arrays and what it printed. -/
def shows (stress : DA) (r : Int × Option (St α)) : Int × Option (Drive α) :=
  (r.1, r.2.bind (St.drive stress))

/-- test3d_1, for all arguments. -/
theorem C103_test3d_1 (L : Text.LitLaws α) (env : Env α) (j : Junk α) (jk : Jk α) (f : Files α) (argv : List Int) :
    shows .sig <$> runProg ⟨.model env, j, jk, f, argv⟩ p_test3d_1
      = main3d1 env j (jk.main .sig) f argv := by
  match argv with
  | [] => rfl
  | [_] => rfl
  | [_, _] => rfl
  | [_, _, _] => rfl
  | nx :: ny :: nz :: dir :: rest =>
    exact prog_eq (env := env) rfl (R := Rel .sig dir) (init := init_test3d_1) (step := step_test3d_1)
      (fun s r => Rel.drive) (fun s r v h => h.setT v) (fun t s r h ht => step3_eq _ rfl h ht) rfl
      (show ¬ (rest.length + 1 + 1 + 1 + 1 + 1 < 5) by omega) rfl rfl
      (at_lib (init_test3d_1_ok L j jk f nx ny nz dir rest) _)

/-- test3d_7, for all arguments. -/
theorem C103_test3d_7 (L : Text.LitLaws α) (env : Env α) (j : Junk α) (jk : Jk α) (f : Files α) (argv : List Int) :
    shows .sig <$> runProg ⟨.model env, j, jk, f, argv⟩ p_test3d_7
      = main3d7 env j (jk.main .sig) f argv := by
  match argv with
  | [] => rfl
  | [_] => rfl
  | [_, _] => rfl
  | nx :: ny :: nz :: rest =>
    exact prog_eq (env := env) rfl (R := Rel .sig 2) (init := init_test3d_7) (step := step_test3d_7)
      (fun s r => Rel.drive) (fun s r v h => h.setT v) (fun t s r h ht => step3_eq _ rfl h ht) rfl
      (show ¬ (rest.length + 1 + 1 + 1 + 1 < 4) by omega) rfl rfl
      (at_lib (init_test3d_7_ok L j jk f nx ny nz rest) _)

/-- test2d_1, for all arguments. -/
theorem C103_test2d_1 (L : Text.LitLaws α) (env : Env α) (j : Junk α) (jk : Jk α) (f : Files α) (argv : List Int) :
    shows .MacroStress <$> runProg ⟨.model env, j, jk, f, argv⟩ p_test2d_1
      = main2d1 env j (jk.main .MacroStress) f argv := by
  match argv with
  | [] => rfl
  | [_] => rfl
  | nx :: ny :: rest =>
    unfold main2d1
    by_cases ha : nx > 1 ∧ ny > 1
    · simp only
      rw [if_neg (not_not.mpr ha)]
      exact prog_eq (env := env) rfl (R := Rel .MacroStress 2) (init := init_test2d_1) (step := step_test2d_1)
        (fun s r => Rel.drive) (fun s r v h => h.setT v) (fun t s r h ht => step2_eq _ rfl h ht) rfl
        (show ¬ (rest.length + 1 + 1 + 1 < 3) by omega) rfl rfl
        (at_lib (init_test2d_1_ok L j jk f nx ny rest ha) _)
    · simp only
      rw [if_pos ha, prog_error (c := ⟨.model env, j, jk, f, nx :: ny :: rest⟩) (p := p_test2d_1) (init := init_test2d_1) rfl
        (show ¬ (rest.length + 1 + 1 + 1 < 3) by omega) rfl (init_test2d_1_abort (.model env) j jk f nx ny rest ha)]
      rfl

/-- test3d_8, for all arguments. -/
theorem C103_test3d_8 (L : Text.LitLaws α) (env : Env α) (j : Junk α) (jk : Jk α) (f : Files α) (argv : List Int) :
    shows .sig <$> runProg ⟨.model env, j, jk, f, argv⟩ p_test3d_8
      = main3d8 env j (jk.main .sig) f argv := by
  match argv with
  | [] => rfl
  | [_] => rfl
  | [_, _] => rfl
  | nx :: ny :: nz :: rest =>
    unfold main3d8
    by_cases ha : nx > 1 ∧ ny > 1 ∧ nz > 1
    · simp only
      rw [if_neg (not_not.mpr ha)]
      exact prog_eq (env := env) rfl (R := Rel8) (init := init_test3d_8) (step := step_test3d_8)
        (fun s r h => h.toRel.drive) (fun s r v h => h.setT v) (fun t s r h ht => step8_eq _ rfl h ht) rfl
        (show ¬ (rest.length + 1 + 1 + 1 + 1 < 4) by omega) rfl rfl
        (at_lib (init_test3d_8_ok L j jk f nx ny nz rest ha) _)
    · simp only
      rw [if_pos ha, prog_error (c := ⟨.model env, j, jk, f, nx :: ny :: nz :: rest⟩)
        (p := p_test3d_8) (init := init_test3d_8) rfl
        (show ¬ (rest.length + 1 + 1 + 1 + 1 < 4) by omega) rfl (init_test3d_8_abort (.model env) j jk f nx ny nz rest ha)]
      rfl

/-- test3d_3.f90: the constructor reads past the four entries of `micro_params`. -/
theorem C103_fortran (env : Env α) (j : Junk α) (jk : Jk α) (f : Files α) (argv : List Int) :
    exec ⟨.model env, j, jk, f, argv⟩ p_test3d_3 start = .error .oob :=
  test3d_3_oob (.model env) (fun dim micro a j f e h => by
    show (ctorReads dim a >>= fun _ => _) = _
    rw [h]
    rfl) j jk f argv

/-- What C72 says of test3d_7 holds of its text. -/
theorem C103_drives (L : Text.LitLaws α) (env : Env α) (j : Junk α) (jk : Jk α) (f : Files α) (nx ny nz : Nat)
    (rest : List Int) (hx : 2 ≤ nx) (hy : 2 ≤ ny) (hz : 2 ≤ nz) :
    Ends env (Drives env ((arrays3d7 nx ny nz (jk.main .sig)).args 3 1) j f 2 "sig = " 6 (rest.headD 10).toNat)
      (shows .sig <$> runProg ⟨.model env, j, jk, f, (nx : Int) :: (ny : Int) :: (nz : Int) :: rest⟩ p_test3d_7) := by
  rw [C103_test3d_7 L]
  exact C72_test3d_7 env j _ f nx ny nz rest hx hy hz

/-- The text of test3d_1 with a direction that `eps` does not have reads outside of it. -/
theorem C103_dir (L : Text.LitLaws α) (env : Env α) (j : Junk α) (jk : Jk α) (f : Files α) (nx ny nz : Nat)
    (dir steps : Int) (rest : List Int) (hx : 2 ≤ nx) (hy : 2 ≤ ny) (hz : 2 ≤ nz) (hd : dir < 0 ∨ 6 ≤ dir)
    (hs : 1 ≤ steps) (hq : 1 ≤ env.fuel) (hp : ∀ t, ∃ v, env.peek t = some v ∧ 40 ≤ v) :
    runProg ⟨.model env, j, jk, f, (nx : Int) :: (ny : Int) :: (nz : Int) :: dir :: steps :: rest⟩ p_test3d_1
      = .error .oob := by
  have h := C103_test3d_1 L env j jk f ((nx : Int) :: (ny : Int) :: (nz : Int) :: dir :: steps :: rest)
  rw [C72_dir env j _ f nx ny nz dir steps rest hx hy hz hd hs hq hp] at h
  cases e : runProg ⟨.model env, j, jk, f, (nx : Int) :: (ny : Int) :: (nz : Int) :: dir :: steps :: rest⟩ p_test3d_1 with
  | ok r => rw [e] at h; cases h
  | error f =>
    rw [e] at h
    injection h with h
    rw [h]

/-- A run of the text of test3d_1 on a grid of 5 by 5 by 5 nodes. -/
example (jk : Jk ℝ) (f : Files ℝ) :
    ∃ r, runProg ⟨.model exEnv, exJunk, jk, f, [5, 5, 5, 1]⟩ p_test3d_1 = .ok r := by
  obtain ⟨x, hx, -⟩ := (main_sane exEnv exJunk (jk.main .sig) f (dim := 3)
    (arrays3d1 5 5 5 (jk.main .sig)) (le_refl 5) (show 14 ≤ 20 by omega) (le_refl 2) (le_refl 3)
    ⟨Or.inr rfl, Or.inr rfl, show 2 ≤ 5 by omega, show 2 ≤ 5 by omega, fun _ => show 2 ≤ 5 by omega⟩
    1 (by omega) "sig = " 6 rfl 10).returns exEnv_quick
  have h := C103_test3d_1 litLaws_real exEnv exJunk jk f [5, 5, 5, 1]
  have hx' : main3d1 exEnv exJunk (jk.main .sig) f [5, 5, 5, 1] = .ok x := hx
  cases e : runProg ⟨.model exEnv, exJunk, jk, f, [5, 5, 5, 1]⟩ p_test3d_1 with
  | ok r => exact ⟨r, rfl⟩
  | error z => rw [e] at h; rw [hx'] at h; cases h

/-- The other programs on concrete arguments: too few, a grid with one node in a direction, and a
direction that does not exist. -/
example (jk : Jk ℝ) (f : Files ℝ) :
    shows .sig <$> runProg ⟨.model exEnv, exJunk, jk, f, [5, 5]⟩ p_test3d_7 = .ok (1, none) ∧
    shows .MacroStress <$> runProg ⟨.model exEnv, exJunk, jk, f, [5, 1]⟩ p_test2d_1 = .error .abort ∧
    shows .sig <$> runProg ⟨.model exEnv, exJunk, jk, f, [5, 5, 1]⟩ p_test3d_8 = .error .abort ∧
    runProg ⟨.model exEnv, exJunk, jk, f, [5, 5, 5, 6, 1]⟩ p_test3d_1 = .error .oob ∧
    exec ⟨.model exEnv, exJunk, jk, f, []⟩ p_test3d_3 start = .error .oob := by
  refine ⟨?_, ?_, ?_, ?_, C103_fortran ..⟩
  · rw [C103_test3d_7 litLaws_real]
    exact (C72_usage exEnv exJunk _ f [5, 5]).2.1 (by decide)
  · rw [C103_test2d_1 litLaws_real]
    exact (C72_assert exEnv exJunk _ f 5 1 0 []).2 (by omega)
  · rw [C103_test3d_8 litLaws_real]
    exact (C72_assert exEnv exJunk _ f 5 5 1 []).1 (by omega)
  · exact C103_dir litLaws_real exEnv exJunk jk f 5 5 5 6 1 [] (by omega)
      (by omega) (by omega) (by omega) (by omega) exEnv_quick.1 exEnv_quick.2

/-- Four steps of test3d_7 on a grid of 4 by 3 by 5 nodes. -/
example (jk : Jk ℝ) (f : Files ℝ) :=
  C103_drives litLaws_real exEnv exJunk jk f 4 3 5 [4] (by omega) (by omega)
    (by omega)

end Props
end Verif
