import Verif.Lemmas.WholeText
import Verif.Props.TextMain

/-!
# The text of a program with the text of the library: property C104

Both the program and the library it calls are terms extracted from /repo.  The run is that of the model,
so the claims of C72 hold of the two texts together.
-/

namespace Verif
open Spec MainText

variable {α : Type} [Scalar α]

namespace Props

/-- test3d_1 with the text of the library, unless one of the three sizes is below 2. -/
theorem C104_test3d_1 (L : Text.LitLaws α) (env : Env α) (j : Junk α) (jk : Jk α) (f : Files α) (argv : List Int)
    (h : ∀ k n, k < 3 → argv[k]? = some n → 2 ≤ n) :
    runProg ⟨.text env, j, jk, f, argv⟩ p_test3d_1 = runProg ⟨.model env, j, jk, f, argv⟩ p_test3d_1 := by
  match argv, h with
  | [], _ => exact runProg_usage p_test3d_1 (fun _ => rfl) (show 1 < 5 by omega)
  | [_], _ => exact runProg_usage p_test3d_1 (fun _ => rfl) (show 2 < 5 by omega)
  | [_, _], _ => exact runProg_usage p_test3d_1 (fun _ => rfl) (show 3 < 5 by omega)
  | [_, _, _], _ => exact runProg_usage p_test3d_1 (fun _ => rfl) (show 4 < 5 by omega)
  | nx :: ny :: nz :: dir :: rest, h =>
    have hx := h 0 nx (by omega) rfl
    have hy := h 1 ny (by omega) rfl
    have hz := h 2 nz (by omega) rfl
    exact runProg_text L (R := Rel .sig dir) (init := init_test3d_1) (step := step_test3d_1) (fun s r h => h)
      (fun l => rfl) rfl rfl (init_test3d_1_ok L j jk f nx ny nz dir rest) (Or.inr rfl)
      (show 2 ≤ nx.toNat by omega) (show 2 ≤ ny.toNat by omega) (fun _ => show 2 ≤ nz.toNat by omega)

/-- test3d_7 in the same way. -/
theorem C104_test3d_7 (L : Text.LitLaws α) (env : Env α) (j : Junk α) (jk : Jk α) (f : Files α) (argv : List Int)
    (h : ∀ k n, k < 3 → argv[k]? = some n → 2 ≤ n) :
    runProg ⟨.text env, j, jk, f, argv⟩ p_test3d_7 = runProg ⟨.model env, j, jk, f, argv⟩ p_test3d_7 := by
  match argv, h with
  | [], _ => exact runProg_usage p_test3d_7 (fun _ => rfl) (show 1 < 4 by omega)
  | [_], _ => exact runProg_usage p_test3d_7 (fun _ => rfl) (show 2 < 4 by omega)
  | [_, _], _ => exact runProg_usage p_test3d_7 (fun _ => rfl) (show 3 < 4 by omega)
  | nx :: ny :: nz :: rest, h =>
    have hx := h 0 nx (by omega) rfl
    have hy := h 1 ny (by omega) rfl
    have hz := h 2 nz (by omega) rfl
    exact runProg_text L (R := Rel .sig 2) (init := init_test3d_7) (step := step_test3d_7) (fun s r h => h)
      (fun l => rfl) rfl rfl (init_test3d_7_ok L j jk f nx ny nz rest) (Or.inr rfl)
      (show 2 ≤ nx.toNat by omega) (show 2 ≤ ny.toNat by omega) (fun _ => show 2 ≤ nz.toNat by omega)

/-- test2d_1 with the text of the library, for all arguments. -/
theorem C104_test2d_1 (L : Text.LitLaws α) (env : Env α) (j : Junk α) (jk : Jk α) (f : Files α) (argv : List Int) :
    runProg ⟨.text env, j, jk, f, argv⟩ p_test2d_1 = runProg ⟨.model env, j, jk, f, argv⟩ p_test2d_1 := by
  match argv with
  | [] => exact runProg_usage p_test2d_1 (fun _ => rfl) (show 1 < 3 by omega)
  | [_] => exact runProg_usage p_test2d_1 (fun _ => rfl) (show 2 < 3 by omega)
  | nx :: ny :: rest =>
    by_cases ha : nx > 1 ∧ ny > 1
    · exact runProg_text L (R := Rel .MacroStress 2) (init := init_test2d_1) (step := step_test2d_1) (fun s r h => h)
        (fun l => rfl) rfl rfl (init_test2d_1_ok L j jk f nx ny rest ha) (Or.inl rfl)
        (show 2 ≤ nx.toNat by omega) (show 2 ≤ ny.toNat by omega) (fun h => absurd h (by decide))
    · have key : ∀ l : Lib α, runProg ⟨l, j, jk, f, nx :: ny :: rest⟩ p_test2d_1 = .error .abort := fun l =>
        prog_error (c := ⟨l, j, jk, f, nx :: ny :: rest⟩) (p := p_test2d_1) (init := init_test2d_1) rfl
          (show ¬ (rest.length + 1 + 1 + 1 < 3) by omega) rfl (init_test2d_1_abort l j jk f nx ny rest ha)
      rw [key, key]

/-- test3d_8 with the text of the library, for all arguments. -/
theorem C104_test3d_8 (L : Text.LitLaws α) (env : Env α) (j : Junk α) (jk : Jk α) (f : Files α) (argv : List Int) :
    runProg ⟨.text env, j, jk, f, argv⟩ p_test3d_8 = runProg ⟨.model env, j, jk, f, argv⟩ p_test3d_8 := by
  match argv with
  | [] => exact runProg_usage p_test3d_8 (fun _ => rfl) (show 1 < 4 by omega)
  | [_] => exact runProg_usage p_test3d_8 (fun _ => rfl) (show 2 < 4 by omega)
  | [_, _] => exact runProg_usage p_test3d_8 (fun _ => rfl) (show 3 < 4 by omega)
  | nx :: ny :: nz :: rest =>
    by_cases ha : nx > 1 ∧ ny > 1 ∧ nz > 1
    · exact runProg_text L (R := Rel8) (init := init_test3d_8) (step := step_test3d_8) (fun s r h => h.toRel)
        (fun l => rfl) rfl rfl (init_test3d_8_ok L j jk f nx ny nz rest ha) (Or.inr rfl)
        (show 2 ≤ nx.toNat by omega) (show 2 ≤ ny.toNat by omega) (fun _ => show 2 ≤ nz.toNat by omega)
    · have key : ∀ l : Lib α, runProg ⟨l, j, jk, f, nx :: ny :: nz :: rest⟩ p_test3d_8 = .error .abort := fun l =>
        prog_error (c := ⟨l, j, jk, f, nx :: ny :: nz :: rest⟩) (p := p_test3d_8) (init := init_test3d_8) rfl
          (show ¬ (rest.length + 1 + 1 + 1 + 1 < 4) by omega) rfl (init_test3d_8_abort l j jk f nx ny nz rest ha)
      rw [key, key]

/-- test3d_3.f90 with the text of the library. -/
theorem C104_fortran (env : Env α) (j : Junk α) (jk : Jk α) (f : Files α) (argv : List Int) :
    exec ⟨.text env, j, jk, f, argv⟩ p_test3d_3 start = .error .oob :=
  test3d_3_oob (.text env) (fun dim micro a j f e h => by
    show (ctorReads dim a >>= fun _ => _) = _
    rw [h]
    rfl) j jk f argv

theorem sizes_of {nx ny nz : Nat} (hx : 2 ≤ nx) (hy : 2 ≤ ny) (hz : 2 ≤ nz) (rest : List Int) :
    ∀ k n, k < 3 → ((nx : Int) :: (ny : Int) :: (nz : Int) :: rest)[k]? = some n → 2 ≤ n := by
  intro k n hk h
  match k, hk with
  | 0, _ => cases h; omega
  | 1, _ => cases h; omega
  | 2, _ => cases h; omega

/-- C104: what C72 says of the four programs holds of their text run with the text of the library. -/
theorem C104_drives (L : Text.LitLaws α) (env : Env α) (j : Junk α) (jk : Jk α) (f : Files α) (nx ny nz : Nat)
    (rest : List Int) (hx : 2 ≤ nx) (hy : 2 ≤ ny) (hz : 2 ≤ nz) :
    (∀ dir : Nat, dir < 6 →
      Ends env (Drives env ((arrays3d1 nx ny nz (jk.main .sig)).args 3 1) j f dir "sig = " 6 (rest.headD 10).toNat)
        (shows .sig <$>
          runProg ⟨.text env, j, jk, f, (nx : Int) :: (ny : Int) :: (nz : Int) :: (dir : Int) :: rest⟩ p_test3d_1)) ∧
    Ends env (Drives env ((arrays3d7 nx ny nz (jk.main .sig)).args 3 1) j f 2 "sig = " 6 (rest.headD 10).toNat)
      (shows .sig <$> runProg ⟨.text env, j, jk, f, (nx : Int) :: (ny : Int) :: (nz : Int) :: rest⟩ p_test3d_7) ∧
    Ends env (Drives env ((arrays2d1 nx ny (jk.main .MacroStress)).args 2 1) j f 2 "MacroStress = " 3
        (rest.headD 10).toNat)
      (shows .MacroStress <$> runProg ⟨.text env, j, jk, f, (nx : Int) :: (ny : Int) :: rest⟩ p_test2d_1) ∧
    Ends env (Drives8 env ((arrays3d8 nx ny nz).args 3 1) j f (rest.headD 10).toNat)
      (shows .sig <$> runProg ⟨.text env, j, jk, f, (nx : Int) :: (ny : Int) :: (nz : Int) :: rest⟩ p_test3d_8) := by
  refine ⟨fun dir hd => ?_, ?_, ?_, ?_⟩
  · rw [C104_test3d_1 L _ _ _ _ _ (sizes_of hx hy hz _), C103_test3d_1 L]
    exact C72_test3d_1_partial env j _ f nx ny nz dir rest hx hy hz hd
  · rw [C104_test3d_7 L _ _ _ _ _ (sizes_of hx hy hz _), C103_test3d_7 L]
    exact C72_test3d_7 env j _ f nx ny nz rest hx hy hz
  · rw [C104_test2d_1 L, C103_test2d_1 L]
    exact C72_test2d_1 env j _ f nx ny rest hx hy
  · rw [C104_test3d_8 L, C103_test3d_8 L]
    exact C72_test3d_8 env j _ f nx ny nz rest hx hy hz

/-- A grid of 4 by 3 by 5 nodes and four steps. -/
example (jk : Jk ℝ) (f : Files ℝ) :=
  C104_drives litLaws_real exEnv exJunk jk f 4 3 5 [4] (by omega) (by omega) (by omega)

/-- The text of test3d_1 with the text of the library returns on a grid of 5 by 5 by 5 nodes; with too few
arguments, with a grid of one layer, and from Fortran, the programs end as the model says. -/
example (jk : Jk ℝ) (f : Files ℝ) :
    (∃ r, runProg ⟨.text exEnv, exJunk, jk, f, [5, 5, 5, 1]⟩ p_test3d_1 = .ok r) ∧
    shows .sig <$> runProg ⟨.text exEnv, exJunk, jk, f, [5, 5]⟩ p_test3d_7 = .ok (1, none) ∧
    shows .MacroStress <$> runProg ⟨.text exEnv, exJunk, jk, f, [5, 1]⟩ p_test2d_1 = .error .abort ∧
    shows .sig <$> runProg ⟨.text exEnv, exJunk, jk, f, [5, 5, 1]⟩ p_test3d_8 = .error .abort ∧
    exec ⟨.text exEnv, exJunk, jk, f, []⟩ p_test3d_3 start = .error .oob := by
  refine ⟨?_, ?_, ?_, ?_, C104_fortran ..⟩
  · obtain ⟨x, hx, -⟩ := (main_sane exEnv exJunk (jk.main .sig) f (dim := 3)
      (arrays3d1 5 5 5 (jk.main .sig)) (le_refl 5) (show 14 ≤ 20 by omega) (le_refl 2) (le_refl 3)
      ⟨Or.inr rfl, Or.inr rfl, show 2 ≤ 5 by omega, show 2 ≤ 5 by omega, fun _ => show 2 ≤ 5 by omega⟩
      1 (by omega) "sig = " 6 rfl 10).returns exEnv_quick
    have h := C103_test3d_1 litLaws_real exEnv exJunk jk f [5, 5, 5, 1]
    have hx' : main3d1 exEnv exJunk (jk.main .sig) f [5, 5, 5, 1] = .ok x := hx
    rw [hx', ← C104_test3d_1 litLaws_real exEnv exJunk jk f [5, 5, 5, 1] (sizes_of (nx := 5) (ny := 5) (nz := 5) (by omega) (by omega)
      (by omega) [1])] at h
    cases e : runProg ⟨.text exEnv, exJunk, jk, f, [5, 5, 5, 1]⟩ p_test3d_1 with
    | ok r => exact ⟨r, rfl⟩
    | error z => rw [e] at h; cases h
  · rw [C104_test3d_7 litLaws_real, C103_test3d_7 litLaws_real]
    · exact (C72_usage exEnv exJunk _ f [5, 5]).2.1 (by decide)
    · intro k n hk h
      match k, hk with
      | 0, _ => cases h; omega
      | 1, _ => cases h; omega
      | 2, _ => cases h
  · rw [C104_test2d_1 litLaws_real, C103_test2d_1 litLaws_real]
    exact (C72_assert exEnv exJunk _ f 5 1 0 []).2 (by omega)
  · rw [C104_test3d_8 litLaws_real, C103_test3d_8 litLaws_real]
    exact (C72_assert exEnv exJunk _ f 5 5 1 []).1 (by omega)

end Props
end Verif
