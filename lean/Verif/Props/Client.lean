import Verif.Lemmas.Client

/-!
# Callers of the library: properties C72 and C73

C72 is about the programs in /repo/test, C73 about `ell_print`.
-/

namespace Verif
open Spec

variable {α : Type} [Scalar α]

namespace Props

/-- What C72 asks of a program with one Gauss point: it returns 0; its object is the one that the
public calls of `steps` steps produce from a new object; it prints one report per step; and the
numbers in the report of step `t` are the strain `e t` and the stress that the Gauss point holds after
the homogenization of that step. -/
def Drives (env : Env α) (a : Args α) (j : Junk α) (f : Files α) (dir : Nat) (label : String)
    (w steps : Nat) (r : Int × Option (Drive α)) : Prop :=
  r.1 = 0 ∧ ∃ (d : Drive α) (s0 : ObjFiles α) (e : Nat → α) (sg : Nat → Nat → α),
    r.2 = some d ∧ constructF env a j f = .ok s0 ∧ Ramp e ∧
    run env (allCalls dir e steps) s0 = .ok d.state ∧
    d.out = (List.range steps).flatMap (fun t => stepReport label w t (e t) (sg t)) ∧
    ∀ t, t < steps → Holds env (allCalls dir e t ++ [.setStrain 1 (uni dir (e t)), .homogenize]) s0 1
      w (uni dir (e t)) (sg t)

/-- The same for test3d_8 with its two Gauss points 0 and 1. -/
def Drives8 (env : Env α) (a : Args α) (j : Junk α) (f : Files α) (steps : Nat)
    (r : Int × Option (Drive α)) : Prop :=
  r.1 = 0 ∧ ∃ (d : Drive α) (s0 : ObjFiles α) (e : Nat → α) (sg : Nat → Nat → Nat → α),
    r.2 = some d ∧ constructF env a j f = .ok s0 ∧ Ramp e ∧
    run env (allCalls8 e steps) s0 = .ok d.state ∧
    d.out = (List.range steps).flatMap (fun t => stepReport8 t (uni 2 (e t)) (sg t)) ∧
    ∀ t, t < steps → ∀ k : Nat, k < 2 → Holds env (allCalls8 e t ++
      [.setStrain 0 (uni 2 (e t)), .setStrain 1 (uni 2 (e t)), .homogenize]) s0 k 6
      (uni 2 (e t)) (sg t k)

/-- A program returns a result with the property; or the Newton loop has used up its budget; or the
environment makes the read past `its` undefined. -/
def Ends {β : Type} (env : Env α) (P : β → Prop) (m : M β) : Prop :=
  (∃ r, m = .ok r ∧ P r) ∨ m = .error .fuel ∨ (m = .error .oob ∧ ∃ t, env.peek t = none)

theorem ends_of_sane {β : Type} {env : Env α} {P : β → Prop} {m : M β} (h : Sane env P m) :
    Ends env P m := by
  rcases h with h | ⟨h, -⟩ | h
  · exact Or.inl h
  · exact Or.inr (Or.inl h)
  · exact Or.inr (Or.inr h)

theorem main_sane (env : Env α) (j : Junk α) (mj : MainJunk α) (f : Files α) {dim : Nat}
    (ca : CtorArrays α) (hm : 5 ≤ ca.microParams.size) (hp : 14 ≤ ca.params.size)
    (ht : 2 ≤ ca.matTypes.size) (hs : 3 ≤ ca.size.size) (ha : (ca.args dim 1).Ok) (dir : Nat)
    (hd : dir < 6) (label : String) (w : Nat) (hw : w = if dim = 2 then 3 else 6) (steps : Int) :
    Sane env (Drives env (ca.args dim 1) j f dir label w steps.toNat) (do
      let s ← cConstruct env dim 1 ca j f
      let r ← mainLoop (mainStep env dir label w) steps mj s
      pure (r.1, some r.2)) := by
  have h1 : Sane env (fun s => s.obj.Ok ∧ constructF env (ca.args dim 1) j f = .ok s)
      (cConstruct env dim 1 ca j f) := by
    unfold cConstruct
    rw [ctorReads_ok hm hp ht hs, M_bind_ok']
    rcases construct_sane env ha j with ⟨o, ho, hok⟩ | ⟨ho, hq⟩ | ⟨ho, hq⟩
    · unfold constructF; rw [ho]; exact Sane.ok ⟨hok, rfl⟩
    · unfold constructF; rw [ho]; exact Or.inr (Or.inl ⟨rfl, hq⟩)
    · unfold constructF; rw [ho]; exact Or.inr (Or.inr ⟨rfl, hq⟩)
  refine h1.bind fun s0 ⟨hok, hc⟩ => ?_
  have h0 : Fresh s0 := construct_fresh hc
  have hnv : s0.obj.cfg.nvoi = w := by
    have hcon : construct env (ca.args dim 1) j = .ok s0.obj := by
      simp only [constructF, bind_ok_iff, pure_ok_iff] at hc
      obtain ⟨o, e1, rfl⟩ := hc
      exact e1
    obtain ⟨et, ct, e⟩ := (construct_built ha hcon).1.eq
    rw [hw, e]
    rfl
  unfold mainLoop
  simp only [bind_assoc, pure_bind]
  refine Sane.bind (P := MainInv env s0 dir label w steps.toNat) ?_ fun d hI => ?_
  · refine Sane.loopIx ?_ fun i s _ hi => mainStep_sane h0 hd (by rw [hw]; split <;> omega) hi
    refine ⟨⟨hok, rfl⟩, rfl, ?_, rfl, fun _ _ => 0, rfl, fun t ht => by omega⟩
    funext v
    simp [uni, loadAfter]
  · obtain ⟨sg, o1, o2⟩ := hI.out
    refine Sane.ok ⟨rfl, d, s0, fun t => loadAfter (t + 1), sg, rfl, hc, ramp_loadAfter,
      hI.state.run, o1, fun t ht => ?_⟩
    rw [hnv] at o2
    exact o2 t ht

/-- C72 for test3d_1, in part: the direction must be one of 0 to 5, which the program does not check
(`C72_dir` below).  Otherwise any grid of at least two nodes per direction, any number of steps (10 if
the argument is missing), any further arguments. -/
theorem C72_test3d_1_partial (env : Env α) (j : Junk α) (mj : MainJunk α) (f : Files α)
    (nx ny nz dir : Nat) (rest : List Int) (hx : 2 ≤ nx) (hy : 2 ≤ ny) (hz : 2 ≤ nz) (hd : dir < 6) :
    Ends env (Drives env ((arrays3d1 nx ny nz mj).args 3 1) j f dir "sig = " 6 (rest.headD 10).toNat)
      (main3d1 env j mj f ((nx : Int) :: (ny : Int) :: (nz : Int) :: (dir : Int) :: rest)) :=
  ends_of_sane (main_sane env j mj f (dim := 3) (arrays3d1 nx ny nz mj) (le_refl 5)
    (show 14 ≤ 20 by omega) (le_refl 2) (le_refl 3)
    ⟨Or.inr rfl, Or.inr rfl, hx, hy, fun _ => hz⟩ dir hd "sig = " 6 rfl (rest.headD 10))

/-- C72 for test3d_7. -/
theorem C72_test3d_7 (env : Env α) (j : Junk α) (mj : MainJunk α) (f : Files α)
    (nx ny nz : Nat) (rest : List Int) (hx : 2 ≤ nx) (hy : 2 ≤ ny) (hz : 2 ≤ nz) :
    Ends env (Drives env ((arrays3d7 nx ny nz mj).args 3 1) j f 2 "sig = " 6 (rest.headD 10).toNat)
      (main3d7 env j mj f ((nx : Int) :: (ny : Int) :: (nz : Int) :: rest)) :=
  ends_of_sane (main_sane env j mj f (dim := 3) (arrays3d7 nx ny nz mj) (le_refl 5)
    (show 14 ≤ 20 by omega) (le_refl 2) (le_refl 3)
    ⟨Or.inr rfl, Or.inr rfl, hx, hy, fun _ => hz⟩ 2 (by omega) "sig = " 6 rfl (rest.headD 10))

/-- C72 for test2d_1. -/
theorem C72_test2d_1 (env : Env α) (j : Junk α) (mj : MainJunk α) (f : Files α)
    (nx ny : Nat) (rest : List Int) (hx : 2 ≤ nx) (hy : 2 ≤ ny) :
    Ends env (Drives env ((arrays2d1 nx ny mj).args 2 1) j f 2 "MacroStress = " 3
        (rest.headD 10).toNat)
      (main2d1 env j mj f ((nx : Int) :: (ny : Int) :: rest)) := by
  have h : main2d1 env j mj f ((nx : Int) :: (ny : Int) :: rest) = (do
      let s ← cConstruct env 2 1 (arrays2d1 nx ny mj) j f
      let r ← mainLoop (mainStep env 2 "MacroStress = " 3) (rest.headD 10) mj s
      pure (r.1, some r.2)) := by
    unfold main2d1
    simp only
    rw [if_neg (by omega)]
    rfl
  rw [h]
  exact ends_of_sane (main_sane env j mj f (dim := 2) (arrays2d1 nx ny mj) (le_refl 5)
    (show 14 ≤ 20 by omega) (le_refl 2) (le_refl 3)
    ⟨Or.inl rfl, Or.inr rfl, hx, hy, fun h => by cases h⟩ 2 (by omega) "MacroStress = " 3 rfl
    (rest.headD 10))

/-- C72 for test3d_8. -/
theorem C72_test3d_8 (env : Env α) (j : Junk α) (mj : MainJunk α) (f : Files α)
    (nx ny nz : Nat) (rest : List Int) (hx : 2 ≤ nx) (hy : 2 ≤ ny) (hz : 2 ≤ nz) :
    Ends env (Drives8 env ((arrays3d8 nx ny nz).args 3 1) j f (rest.headD 10).toNat)
      (main3d8 env j mj f ((nx : Int) :: (ny : Int) :: (nz : Int) :: rest)) := by
  have ha : ((arrays3d8 (α := α) nx ny nz).args 3 1).Ok :=
    ⟨Or.inr rfl, Or.inr rfl, hx, hy, fun _ => hz⟩
  have h : main3d8 env j mj f ((nx : Int) :: (ny : Int) :: (nz : Int) :: rest) = (do
      let s ← cConstruct env 3 1 (arrays3d8 nx ny nz) j f
      let r ← mainLoop (mainStep8 env) (rest.headD 10) mj s
      pure (r.1, some r.2)) := by
    unfold main3d8
    simp only
    rw [if_neg (by omega)]
    rfl
  rw [h]
  apply ends_of_sane
  have h1 : Sane env (fun s => s.obj.Ok ∧
      constructF env ((arrays3d8 nx ny nz).args 3 1) j f = .ok s)
      (cConstruct env 3 1 (arrays3d8 nx ny nz) j f) := by
    unfold cConstruct
    rw [ctorReads_ok (le_refl 5) (show 14 ≤ 20 by omega) (le_refl 2) (le_refl 3), M_bind_ok']
    rcases construct_sane env ha j with ⟨o, ho, hok⟩ | ⟨ho, hq⟩ | ⟨ho, hq⟩
    · unfold constructF; rw [ho]; exact Sane.ok ⟨hok, rfl⟩
    · unfold constructF; rw [ho]; exact Or.inr (Or.inl ⟨rfl, hq⟩)
    · unfold constructF; rw [ho]; exact Or.inr (Or.inr ⟨rfl, hq⟩)
  refine h1.bind fun s0 ⟨hok, hc⟩ => ?_
  have h0 : Fresh s0 := construct_fresh hc
  have hnv : s0.obj.cfg.nvoi = 6 := by
    have hcon : construct env ((arrays3d8 nx ny nz).args 3 1) j = .ok s0.obj := by
      simp only [constructF, bind_ok_iff, pure_ok_iff] at hc
      obtain ⟨o, e1, rfl⟩ := hc
      exact e1
    obtain ⟨et, ct, e⟩ := (construct_built ha hcon).1.eq
    rw [e]
    rfl
  unfold mainLoop
  simp only [bind_assoc, pure_bind]
  refine Sane.bind (P := MainInv8 env s0 (rest.headD 10).toNat) ?_ fun d hI => ?_
  · refine Sane.loopIx ?_ fun i s _ hi => mainStep8_sane h0 hi
    refine ⟨⟨hok, rfl⟩, rfl, ?_, rfl, fun _ _ _ => 0, rfl, fun t ht => by omega⟩
    funext v
    simp [uni, loadAfter]
  · obtain ⟨sg, o1, o2⟩ := hI.out
    refine Sane.ok ⟨rfl, d, s0, fun t => loadAfter (t + 1), sg, rfl, hc, ramp_loadAfter,
      hI.state.run, o1, fun t ht k hk => ?_⟩
    rw [hnv] at o2
    exact o2 t ht k hk

/-- The load of the programs in exact arithmetic. -/
theorem C72_load {e : Nat → ℝ} (h : Ramp e) (t : Nat) : e t = hundredths (t + 1) / 100 :=
  ramp_real h t

/-- After 30, 80, 130 and 250 steps. -/
example {e : Nat → ℝ} (h : Ramp e) : e 29 = 0.3 ∧ e 79 = -0.2 ∧ e 129 = 0.3 ∧ e 249 = -0.9 := by
  refine ⟨?_, ?_, ?_, ?_⟩ <;> rw [C72_load h] <;> norm_num [hundredths]

/-- The programs of C72 do run to the end on some machine. -/
example (mj : MainJunk ℝ) (f : Files ℝ) : ∃ r, main3d1 exEnv exJunk mj f [5, 5, 5, 1] = .ok r := by
  rcases C72_test3d_1_partial exEnv exJunk mj f 5 5 5 1 [] (by omega) (by omega) (by omega) (by omega) with
    ⟨r, h, -⟩ | h | ⟨h, t, ht⟩
  · exact ⟨r, h⟩
  · exfalso
    obtain ⟨x, hx, -⟩ := (main_sane exEnv exJunk mj f (dim := 3) (arrays3d1 5 5 5 mj) (le_refl 5)
      (show 14 ≤ 20 by omega) (le_refl 2) (le_refl 3)
      ⟨Or.inr rfl, Or.inr rfl, show 2 ≤ 5 by omega, show 2 ≤ 5 by omega, fun _ => show 2 ≤ 5 by omega⟩
      1 (by omega) "sig = " 6 rfl 10).returns exEnv_quick
    have h' : main3d1 exEnv exJunk mj f [5, 5, 5, 1] = .error .fuel := h
    have hx' : main3d1 exEnv exJunk mj f [5, 5, 5, 1] = .ok x := hx
    rw [hx'] at h'
    cases h'
  · obtain ⟨v, hv, -⟩ := exEnv_quick.2 t
    rw [ht] at hv
    cases hv

/-- Without enough arguments the programs only print their usage. -/
theorem C72_usage (env : Env α) (j : Junk α) (mj : MainJunk α) (f : Files α) (argv : List Int) :
    (argv.length < 4 → main3d1 env j mj f argv = .ok (1, none)) ∧
    (argv.length < 3 → main3d7 env j mj f argv = .ok (1, none)) ∧
    (argv.length < 3 → main3d8 env j mj f argv = .ok (1, none)) ∧
    (argv.length < 2 → main2d1 env j mj f argv = .ok (1, none)) := by
  refine ⟨fun h => ?_, fun h => ?_, fun h => ?_, fun h => ?_⟩
  · match argv, h with
    | [], _ => rfl
    | [_], _ => rfl
    | [_, _], _ => rfl
    | [_, _, _], _ => rfl
  · match argv, h with
    | [], _ => rfl
    | [_], _ => rfl
    | [_, _], _ => rfl
  · match argv, h with
    | [], _ => rfl
    | [_], _ => rfl
    | [_, _], _ => rfl
  · match argv, h with
    | [], _ => rfl
    | [_], _ => rfl

example (env : Env ℝ) (j : Junk ℝ) (mj : MainJunk ℝ) (f : Files ℝ) : main3d7 env j mj f [5, 5] = .ok (1, none) :=
  (C72_usage env j mj f [5, 5]).2.1 (by decide)

/-- test3d_8 and test2d_1 refuse grids with fewer than two nodes in a direction. -/
theorem C72_assert (env : Env α) (j : Junk α) (mj : MainJunk α) (f : Files α) (nx ny nz : Int)
    (rest : List Int) :
    (nx < 2 ∨ ny < 2 ∨ nz < 2 → main3d8 env j mj f (nx :: ny :: nz :: rest) = .error .abort) ∧
    (nx < 2 ∨ ny < 2 → main2d1 env j mj f (nx :: ny :: rest) = .error .abort) := by
  refine ⟨fun h => ?_, fun h => ?_⟩
  · unfold main3d8; simp only; rw [if_pos (by omega)]
  · unfold main2d1; simp only; rw [if_pos (by omega)]

example (env : Env ℝ) (j : Junk ℝ) (mj : MainJunk ℝ) (f : Files ℝ) : main3d8 env j mj f [5, 1, 5] = .error .abort :=
  (C72_assert env j mj f 5 1 5 []).1 (by omega)

/-- C72 fails for test3d_1 when the direction is not one of 0 to 5: the program does not check it, and
the first step reads outside of `eps`. -/
theorem C72_dir (env : Env α) (j : Junk α) (mj : MainJunk α) (f : Files α)
    (nx ny nz : Nat) (dir steps : Int) (rest : List Int) (hx : 2 ≤ nx) (hy : 2 ≤ ny) (hz : 2 ≤ nz)
    (hd : dir < 0 ∨ 6 ≤ dir) (hs : 1 ≤ steps) (hq : 1 ≤ env.fuel)
    (hp : ∀ t, ∃ v, env.peek t = some v ∧ 40 ≤ v) :
    main3d1 env j mj f ((nx : Int) :: (ny : Int) :: (nz : Int) :: dir :: steps :: rest)
      = .error .oob := by
  obtain ⟨o, ho, -⟩ := (construct_sane env (a := (arrays3d1 nx ny nz mj).args 3 1)
    ⟨Or.inr rfl, Or.inr rfl, hx, hy, fun _ => hz⟩ j).returns ⟨hq, hp⟩
  have hc : cConstruct env 3 1 (arrays3d1 nx ny nz mj) j f
      = .ok ⟨o, ctorFiles o.cfg f⟩ := by
    unfold cConstruct
    rw [ctorReads_ok (le_refl 5) (show 14 ≤ 20 by omega) (le_refl 2) (le_refl 3), M_bind_ok']
    unfold constructF
    rw [ho]
    rfl
  have hb : ∀ (s : Drive α), s.eps.size = 6 → mainStep env dir "sig = " 6 0 s = .error .oob := by
    intro s hs
    unfold mainStep loadStep
    rw [Buf.readI_oob (by omega)]
    rfl
  have hl : ∀ (n : Nat) (s : Drive α), 1 ≤ n → s.eps.size = 6 →
      loop n (mainStep env dir "sig = " 6) s = .error .oob := by
    intro n s hn he
    induction n with
    | zero => omega
    | succ n ih =>
      cases n with
      | zero => rw [loop_succ]; exact hb s he
      | succ n => rw [loop_succ, ih (by omega)]; rfl
  show (do
    let s ← cConstruct env 3 1 (arrays3d1 nx ny nz mj) j f
    let r ← mainLoop (mainStep env dir "sig = " 6) steps mj s
    pure (r.1, some r.2) : M (Int × Option (Drive α))) = _
  rw [hc, M_bind_ok']
  unfold mainLoop
  rw [hl _ _ (by omega) rfl]
  rfl

example (mj : MainJunk ℝ) (f : Files ℝ) : main3d1 exEnv exJunk mj f [5, 5, 5, 6, 1] = .error .oob :=
  C72_dir exEnv exJunk mj f 5 5 5 6 1 [] (by omega) (by omega) (by omega) (by omega) (by omega)
    exEnv_quick.1 exEnv_quick.2

/-- C72 fails for test3d_3.f90: it hands over four parameters of the micro-structure and the
constructor reads five. -/
theorem C72_fortran (env : Env α) (j : Junk α) (mj : MainJunk α) (f : Files α) :
    mainF env j mj f = .error .oob := rfl

/-- Nor would the fifth parameter be enough: the radius is overwritten by 0, so whatever the caller
adds to `micro_params` no element belongs to the inclusion. -/
theorem C72_fortran_plain (env : Env ℝ) (j : Junk ℝ) (mj : MainJunk ℝ) (o : Obj ℝ)
    (h : construct env ((arraysF mj).args 2 0) j = .ok o) (ex ey : Nat) (hx : ex < 9) (hy : ey < 9) :
    o.cfg.elemType.val (gloElem3D 10 10 ex ey 0) = 0 := by
  have ha : ((arraysF (α := ℝ) mj).args 2 0).Ok :=
    ⟨Or.inl rfl, Or.inl rfl, show 2 ≤ 10 by omega, show 2 ≤ 10 by omega, fun h => by cases h⟩
  have hb := (construct_built ha h).1
  have he := hb.elem ex ey 0
  obtain ⟨et, ct, e⟩ := hb.eq
  have hnx : o.cfg.nx = 10 := by rw [e]; rfl
  have hny : o.cfg.ny = 10 := by rw [e]; rfl
  have hdim : o.cfg.dim = 2 := by rw [e]; rfl
  have hmt : o.cfg.microType = 0 := by rw [e]; rfl
  have hw : o.cfg.width = 0 := by
    rw [e]; show (if (3:Nat) = 3 then (0.0 : ℝ) else 1.0) = 0; norm_num
  rw [hnx, hny] at he
  have he := he (by omega) (by omega) (fun _ => rfl) (fun h => by rw [hdim] at h; cases h)
  rw [he]
  unfold elemTypeOf getElemType2D
  rw [if_pos hdim, if_pos hmt, hw]
  have hn : ∀ a b : ℝ, 0 ≤ a * a + b * b := fun a b =>
    add_nonneg (mul_self_nonneg a) (mul_self_nonneg b)
  simp [hn]

example (mj : MainJunk ℝ) : ∃ o, construct exEnv ((arraysF mj).args 2 0) exJunk = .ok o ∧
    o.cfg.elemType.val (gloElem3D 10 10 4 4 0) = 0 := by
  obtain ⟨o, ho, -⟩ := (construct_sane exEnv (a := (arraysF mj).args 2 0)
    ⟨Or.inl rfl, Or.inl rfl, show 2 ≤ 10 by omega, show 2 ≤ 10 by omega, fun h => by cases h⟩
    exJunk).returns exEnv_quick
  exact ⟨o, ho, C72_fortran_plain exEnv exJunk mj o ho 4 4 (by omega) (by omega)⟩

/-- test3d_8 does not have the layer it describes: the values meant for the second material are at
the indices 4 to 7 of `mat_params` and the constructor reads 10 to 13.  Every element whose centre is
below a tenth of the height has no stiffness: the elastic law of its material is zero. -/
theorem C72_soft (env : Env ℝ) (j : Junk ℝ) (nx ny nz : Nat) (hx : 2 ≤ nx) (hy : 2 ≤ ny)
    (hz : 2 ≤ nz) (o : Obj ℝ) (h : construct env ((arrays3d8 nx ny nz).args 3 1) j = .ok o)
    (ex ey ez : Nat) (h1 : ex < nx - 1) (h2 : ey < ny - 1) (h3 : ez < nz - 1)
    (hl : 5 * (2 * ey + 1) < ny - 1) (x : Nat → ℝ) (v : Nat) :
    o.cfg.law (ex, ey, ez) x v = 0 := by
  have ha : ((arrays3d8 (α := ℝ) nx ny nz).args 3 1).Ok :=
    ⟨Or.inr rfl, Or.inr rfl, hx, hy, fun _ => hz⟩
  have hb := (construct_built ha h).1
  have he := hb.elem ex ey ez
  obtain ⟨et, ct, e⟩ := hb.eq
  have hnx : o.cfg.nx = nx := by rw [e]; rfl
  have hny : o.cfg.ny = ny := by rw [e]; rfl
  have hnz : o.cfg.nz = nz := by rw [e]; rfl
  have hdim : o.cfg.dim = 3 := by rw [e]; rfl
  have hmt : o.cfg.microType = 1 := by rw [e]; rfl
  have hw : o.cfg.width = 0.1 := by rw [e]; rfl
  have hdy : o.cfg.dy = 1.0 / ((ny - 1 : Nat) : ℝ) := by rw [e]; rfl
  have hmat : o.cfg.mats 1 = mkMaterial (fun k => (arrays3d8 (α := ℝ) nx ny nz).params.val (1 * 10 + k))
      0 (j.mats 1) := by rw [e]; rfl
  have hlam : (o.cfg.mats 1).lambda = 0 := by
    rw [hmat]; simp [mkMaterial, arrays3d8]
  have hmu : (o.cfg.mats 1).mu = 0 := by
    rw [hmat]; simp [mkMaterial, arrays3d8]
  rw [hnx, hny, hnz] at he
  have he := he h1 h2 (fun h => by rw [hdim] at h; cases h) (fun _ => h3)
  have hN : (0 : ℝ) < ((ny - 1 : Nat) : ℝ) := by
    have : 0 < ny - 1 := by omega
    exact_mod_cast this
  have hty : elemTypeOf o.cfg ex ey ez = 1 := by
    unfold elemTypeOf getElemType3D
    rw [if_neg (by omega), if_neg (by omega), if_pos hmt, hw, hdy]
    have hlt : (ey : ℝ) * (1.0 / ((ny - 1 : Nat) : ℝ)) + 1.0 / ((ny - 1 : Nat) : ℝ) / ((2 : Nat) : ℝ)
        < 0.1 := by
      have hl' : (5 : ℝ) * (2 * ey + 1) < ((ny - 1 : Nat) : ℝ) := by exact_mod_cast hl
      have : (ey : ℝ) * (1.0 / ((ny - 1 : Nat) : ℝ)) + 1.0 / ((ny - 1 : Nat) : ℝ) / ((2 : Nat) : ℝ)
          = (2 * ey + 1) / (2 * ((ny - 1 : Nat) : ℝ)) := by
        have h10 : (1.0 : ℝ) = 1 := by norm_num
        rw [h10]
        push_cast
        field_simp
      rw [this, div_lt_iff₀ (by positivity)]
      norm_num
      linarith
    simp only [lt_real, hlt, decide_true, if_true]
  unfold Cfg.law Cfg.matAt
  rw [if_neg (by omega), hnx, hny]
  simp only
  rw [he, hty, if_neg (by decide), hlam, hmu]
  unfold hooke
  simp

/-- A grid of 17 nodes: both rows of elements next to the first row of interior nodes are void. -/
example (o : Obj ℝ) (h : construct exEnv ((arrays3d8 17 17 17).args 3 1) exJunk = .ok o)
    (x : Nat → ℝ) (v : Nat) : o.cfg.law (3, 0, 3) x v = 0 ∧ o.cfg.law (3, 1, 3) x v = 0 :=
  ⟨C72_soft exEnv exJunk 17 17 17 (by omega) (by omega) (by omega) o h 3 0 3 (by omega) (by omega)
      (by omega) (by omega) x v,
   C72_soft exEnv exJunk 17 17 17 (by omega) (by omega) (by omega) o h 3 1 3 (by omega) (by omega)
      (by omega) (by omega) x v⟩

/-! ### C73 -/

/-- One of the two tables: a title and, for each row, its number and its entries. -/
def table {β : Type} (title : String) (put : β → Tok α) (nrow nnz : Nat) (f : Nat → β) :
    List (Tok α) :=
  [.str title, .endl] ++ (List.range nrow).flatMap fun (i : Nat) =>
    [.str "row= ", .int i] ++ ((List.range nnz).flatMap fun k => [put (f (i * nnz + k)), .str " "])
      ++ [.endl]

theorem ellPrintBlock_eq {β : Type} (title : String) (put : β → Tok α) {nrow nnz : Nat}
    {p : Buf β} (h : nnz * nrow ≤ p.size) :
    ellPrintBlock title put nrow nnz p = .ok (table title put nrow nnz p.val) := by
  unfold ellPrintBlock
  rw [emit_eq (g := fun (i : Nat) => [.str "row= ", .int i] ++
    (emitP nnz fun k => [put (p.val (i * nnz + k)), .str " "]) ++ [.endl])]
  · rfl
  · intro i hi
    rw [emit_eq (g := fun k => [put (p.val (i * nnz + k)), .str " "])]
    · rfl
    · intro k hk
      unfold Buf.read
      have : i * nnz + k < nnz * nrow := by
        calc i * nnz + k < i * nnz + nnz := by omega
          _ = (i + 1) * nnz := by ring
          _ ≤ nrow * nnz := Nat.mul_le_mul_right _ (by omega)
          _ = nnz * nrow := Nat.mul_comm _ _
      rw [if_pos (by omega)]
      rfl

/-- C73: `ell_print` returns 1 for a missing matrix and 2 for a matrix without arrays and prints
nothing then; for a matrix whose arrays have `nnz * nrow` entries it returns 0, reads only inside the
arrays, and prints every column and every value once, row by row. -/
theorem C73_print (m : Ell α) (hc : m.nnz * m.nrow ≤ m.cols.size) (hv : m.nnz * m.nrow ≤ m.vals.size)
    (oc : Option (Buf Int)) (ov : Option (Buf α)) (hn : oc = none ∨ ov = none) :
    ellPrint (α := α) none = .ok (1, []) ∧
    ellPrint (some (m.nrow, m.nnz, oc, ov)) = .ok (2, []) ∧
    ellPrint (some (m.nrow, m.nnz, some m.cols, some m.vals)) = .ok (0,
      table "Cols = " .int m.nrow m.nnz m.cols.val ++ table "Vals = " .num m.nrow m.nnz m.vals.val) := by
  refine ⟨rfl, ?_, ?_⟩
  · rcases hn with rfl | rfl
    · rfl
    · cases oc <;> rfl
  · unfold ellPrint
    simp only
    rw [ellPrintBlock_eq _ _ hc, M_bind_ok', ellPrintBlock_eq _ _ hv]
    rfl

/-- The matrices of the library have such arrays. -/
theorem C73_library {env : Env α} {a : Args α} {j : Junk α} {calls : List (Call α)} {s : ObjFiles α}
    (ha : a.Ok) (h : Reach env a j calls s) : ∃ t,
    ellPrint (some (s.obj.work.A.nrow, s.obj.work.A.nnz, some s.obj.work.A.cols,
      some s.obj.work.A.vals)) = .ok (0, t) := by
  obtain ⟨-, hok⟩ := reach_built ha h
  have hw := (hok.work.wf hok.cfg).1
  exact ⟨_, (C73_print s.obj.work.A (by rw [hw.cols_size]) (by rw [hw.vals_size]) none none
    (Or.inl rfl)).2.2⟩

example : ellPrint (α := ℝ) (some (2, 1, some ⟨2, fun i => i⟩, some ⟨2, fun i => i⟩)) = .ok (0,
    [.str "Cols = ", .endl, .str "row= ", .int 0, .int 0, .str " ", .endl,
      .str "row= ", .int 1, .int 1, .str " ", .endl,
      .str "Vals = ", .endl, .str "row= ", .int 0, .num (0 : Nat), .str " ", .endl,
      .str "row= ", .int 1, .num (1 : Nat), .str " ", .endl]) :=
  (C73_print (α := ℝ) ⟨2, 2, 1, ⟨2, fun i => i⟩, ⟨2, fun i => i⟩⟩ (le_refl 2) (le_refl 2) none none
    (Or.inl rfl)).2.2

example : ∃ s t, Reach exEnv exArgs3 exJunk exCalls s ∧ ellPrint (some (s.obj.work.A.nrow,
    s.obj.work.A.nnz, some s.obj.work.A.cols, some s.obj.work.A.vals)) = .ok (0, t) := by
  obtain ⟨s, hs⟩ := reach_exists exEnv_quick exArgs3_ok exJunk exCalls
  obtain ⟨t, ht⟩ := C73_library exArgs3_ok hs
  exact ⟨s, t, hs, ht⟩

end Props
end Verif
