import Verif.Props.TextCtor
import Verif.Props.InfoText

/-!
# C99: the statements of `output.cpp` write the files of the model

As C95 to C98, for `output`, `write_vtu` and `write_info_files` (/repo/src/output.cpp:29-285).  A stream
is open or closed; what is written to it goes to the end of the open file.  With C98, the files of a
program executed from its text are those of C50 and C85.
-/

namespace Verif.Props
open Text Spec

variable {α : Type} [Scalar α] {c : Cfg α}

/-- C99: `write_vtu` returns, changes no member, and the file `micropp_<id>_<k>.vtu` has the content of the
model; no other file changes. -/
theorem C99_write_vtu (L : LitLaws α) (hc : c.Ok) {w : Work α} (hw : w.Ok c) (env : Env α) (gs : List (Gp α)) {l : Loc α}
    {id k : Int} (hid : l.i .gp_id = some id) (hk : l.i .time_step = some k) (F : Files α) (n : Nat) (hn : 1 ≤ n) :
    ∃ t ts, fRun env c gs n .write_vtu ⟨⟨w, l⟩, F, none⟩ = .ok t ∧ writeVtu c w = .ok ts ∧ t.st.w = w ∧
      t.files.vtu id k = some ts ∧ (∀ g m, ¬(g = id ∧ m = k) → t.files.vtu g m = F.vtu g m) ∧
      t.files.convergence = F.convergence ∧ t.files.epsSigCtan = F.epsSigCtan ∧
      t.files.intVarsN = F.intVarsN ∧ t.files.materials = F.materials := by
  obtain ⟨n, rfl⟩ := Nat.exists_eq_add_of_le' hn
  obtain ⟨t, ts, h1, h2, h3, h4⟩ := fRun_write_vtu (gs := gs) L env hc hw hid hk F n
  refine ⟨t, ts, h1, h2, h3, ?_, fun g m h => ?_, ?_, ?_, ?_, ?_⟩ <;> rw [h4] <;> simp only [FId.set]
  · simp
  · rw [if_neg h]

/-- C99: `write_info_files` returns, sets `output_files_header`, changes no other member, and the files are
those of the model. -/
theorem C99_write_info_files (L : LitLaws α) (env : Env α) {s : ObjFiles α} (ho : s.obj.Ok) {l : Loc α}
    (hl : l.i .output_files_header = some (if s.obj.header = true then 1 else 0)) (n : Nat) (hn : 1 ≤ n) :
    ∃ t, fRun env s.obj.cfg s.obj.gauss n .write_info_files ⟨⟨s.obj.work, l⟩, s.files, none⟩ = .ok t ∧
      t.st.w = s.obj.work ∧ t.st.l.i .output_files_header = some 1 ∧
      writeInfoFiles s = .ok ⟨{ s.obj with header := true }, t.files⟩ := by
  obtain ⟨n, rfl⟩ := Nat.exists_eq_add_of_le' hn
  exact fRun_write_info L env ho hl n

/-- C99: `output` leaves the members and the files of the model; where the model faults, the text has the
same fault; for a Gauss point that does not exist it does nothing. -/
theorem C99_output (L : LitLaws α) (env : Env α) {s : ObjFiles α} (ho : s.obj.Ok) {l : Loc α} {id k : Int}
    (hid : l.i .gp_id = some id) (hk : l.i .time_step = some k) (n : Nat) (hn : 2 ≤ n) :
    (fun t : FSt α => (⟨{ s.obj with work := t.st.w }, t.files⟩ : ObjFiles α)) <$>
        fRun env s.obj.cfg s.obj.gauss n .output ⟨⟨s.obj.work, l⟩, s.files, none⟩ = output env s k id ∧
      ((∀ g ∈ s.obj.gauss, g.id ≠ id) → ∃ t,
        fRun env s.obj.cfg s.obj.gauss n .output ⟨⟨s.obj.work, l⟩, s.files, none⟩ = .ok t ∧ t.st.w = s.obj.work ∧
        t.files = s.files) := by
  obtain ⟨n, rfl⟩ := Nat.exists_eq_add_of_le' hn
  have h := fRun_output L env ho hid hk n
  refine ⟨h, fun hg => ?_⟩
  have hf : findGp id s.obj.gauss = none := findGp_none_iff.2 fun h => by
    obtain ⟨g, h1, h2⟩ := List.mem_map.1 h
    exact hg g h1 h2
  have e : output env s k id = .ok s := by unfold output; rw [hf]; rfl
  rw [e] at h
  cases ht : fRun env s.obj.cfg s.obj.gauss (n + 2) .output ⟨⟨s.obj.work, l⟩, s.files, none⟩ with
  | error e => rw [ht] at h; cases h
  | ok t =>
    rw [ht] at h
    have h : (⟨{ s.obj with work := t.st.w }, t.files⟩ : ObjFiles α) = s := M_pure_inj h
    exact ⟨t, rfl, congrArg (fun z => z.obj.work) h, congrArg (fun z => z.files) h⟩

/-- C99 for the VTU files: after a program executed from its text, when the text of `output` runs for a known
Gauss point and returns, the file describes the grid and the data of the object after the call (C50). -/
theorem C99_vtu (L : LitLaws α) {env : Env α} {a : Args α} (ha : a.Ok) {j : Junk α} {f : Files α}
    {calls : List (Call α)} {z : ObjFiles α × List (Ret α)} (h : textProg env a j f calls = .ok z) {k id : Int}
    (hid : ∃ g ∈ z.1.obj.gauss, g.id = id) {r : Stepped α} (hr : textStep env z.1 (.output k id) = .ok r) :
    ∃ ts, r.state.files.vtu id k = some ts ∧ VtuOf r.state.obj.cfg r.state.obj.work ts ∧
      ∀ g m, ¬(g = id ∧ m = k) → r.state.files.vtu g m = z.1.files.vtu g m := by
  have hz := (C98_returned L ha h 0 fun _ => 0).1
  rw [C98_step L env (reach_built ha hz).2] at hr
  obtain ⟨g, hg, hgi⟩ := hid
  exact C50_vtu ha hz (fun h => findGp_none_iff.1 h (List.mem_map.2 ⟨g, hg, hgi⟩)) hr

/-- C99 for the other files: after a program executed from its text, a reader of text tables finds in the
three info files the rows of the calls of `write_info_files`, and in the file of the materials the
parameters the user passed (C85). -/
theorem C99_tables (L : LitLaws α) {env : Env α} {a : Args α} (ha : a.Ok) {j : Junk α} {f : Files α}
    {calls : List (Call α)} {z : ObjFiles α × List (Ret α)} (h : textProg env a j f calls = .ok z)
    {fmt : α → List Char} (hf : FmtCols fmt) (w : Nat → Nat) :
    ∃ s0, ctorText env a j f = .ok s0 ∧
    tableOf (textPad fmt w z.1.files.convergence)
      = ((infoSnaps env calls s0).filter fun l => !l.isEmpty).map
        (fun l => l.map (colsConv fmt (if a.dim = 2 then 3 else 6))) ∧
    tableOf (textPad fmt w z.1.files.epsSigCtan)
      = ((infoSnaps env calls s0).filter fun l => !l.isEmpty).map (fun l => l.map (colsEps fmt)) ∧
    tableOf (textPad fmt w z.1.files.intVarsN)
      = ((infoSnaps env calls s0).filter fun l => !l.isEmpty).map
        (fun l => l.map (colsVars fmt (if a.dim = 2 then (a.size 0 - 1) * (a.size 1 - 1) * 8 * 7
          else (a.size 0 - 1) * (a.size 1 - 1) * (a.size 2 - 1) * 8 * 7))) ∧
    rows (textPad fmt w z.1.files.materials)
      = [[fmt (a.params 0), fmt (a.params 1), fmt (a.params 2), fmt (a.params 3)],
         [fmt (a.params 10), fmt (a.params 11), fmt (a.params 12), fmt (a.params 13)]] := by
  have hz3 : a.dim ≠ 2 → 2 ≤ a.size 2 := fun h => ha.nz (by rcases ha.dim with h' | h' <;> omega)
  have hp := (C98_program L env ha.nx ha.ny hz3 j f calls).2
  rw [h] at hp
  obtain ⟨s0, h0, h1⟩ := C85_tables ha calls z.1 hp.symm hf w
  exact ⟨s0, (C98_constructor L env ha.nx ha.ny hz3 j f).1.trans h0, h1⟩

/-! ## Examples -/

/-- A program in space, with plasticity, several calls and both kinds of output, runs to the end from its
text. -/
example : ∃ f z, textProg exEnv exArgsP exJunk f (exCalls ++ [.writeInfo, .output 3 7, .writeInfo]) = .ok z := by
  obtain ⟨s, f, hs⟩ := reach_exists exEnv_quick exArgsP_ok exJunk (exCalls ++ [.writeInfo, .output 3 7, .writeInfo])
  have ha := exArgsP_ok
  have hp := (C98_program litLaws_real exEnv ha.nx ha.ny (fun h => ha.nz (by rcases ha.dim with h' | h' <;> omega))
    exJunk f (exCalls ++ [.writeInfo, .output 3 7, .writeInfo])).2
  rw [hs] at hp
  cases e : textProg exEnv exArgsP exJunk f (exCalls ++ [.writeInfo, .output 3 7, .writeInfo]) with
  | ok z => exact ⟨f, z, e⟩
  | error e' => rw [e] at hp; cases hp

/-- The same in the arithmetic with a relative error in every operation. -/
example (fp : Fp) {s : ObjFiles (Fl fp)} (ho : s.obj.Ok) (env : Env (Fl fp)) (l : Loc (Fl fp)) :
    (fun t : FSt (Fl fp) => (⟨{ s.obj with work := t.st.w }, t.files⟩ : ObjFiles (Fl fp))) <$>
      fRun env s.obj.cfg s.obj.gauss 2 .output ⟨⟨s.obj.work, { l with
        i := upd (upd l.i .gp_id (some 7)) .time_step (some 3) }⟩, s.files, none⟩ = output env s 3 7 :=
  (C99_output (litLaws_rounded fp) env ho rfl rfl 2 le_rfl).1

/-- Writing to a closed stream is a fault. -/
example (env : Env ℝ) (c : Cfg ℝ) (s : St ℝ) (F : Files ℝ) :
    FStmt.exec c [] (fun p => p.exec env c (oRun env c 3)) (fRun env c [] 1) (.put [.endl]) ⟨s, F, none⟩
      = .error .abort := rfl

/-- Without a time step the text of `write_vtu` faults. -/
example (env : Env ℝ) (c : Cfg ℝ) (w : Work ℝ) (F : Files ℝ) :
    fRun env c [] 1 .write_vtu ⟨⟨w, Loc.none⟩, F, none⟩ = .error .uninit := rfl

/-- The files of the object in space. -/
example (F : Files ℝ) : ∃ t ts, fRun exEnv exP.cfg exP.gauss 1 .write_vtu ⟨⟨exP.work, { (Loc.none : Loc ℝ) with
      i := upd (upd (Loc.none : Loc ℝ).i .gp_id (some 7)) .time_step (some 3) }⟩, F, none⟩ = .ok t ∧
    writeVtu exP.cfg exP.work = .ok ts ∧ t.files.vtu 7 3 = some ts := by
  obtain ⟨t, ts, h1, h2, -, h3, -⟩ := C99_write_vtu litLaws_real exP_ok exP_work exEnv exP.gauss (l := { (Loc.none : Loc ℝ) with
      i := upd (upd (Loc.none : Loc ℝ).i .gp_id (some 7)) .time_step (some 3) }) (id := 7) (k := 3) rfl rfl F 1 le_rfl
  exact ⟨t, ts, h1, h2, h3⟩

example (F : Files ℝ) : ∃ t, fRun exEnv exP.cfg exP.gauss 1 .write_info_files ⟨⟨exP.work, { (Loc.none : Loc ℝ) with
      i := upd (Loc.none : Loc ℝ).i .output_files_header (some (if exP.header = true then 1 else 0)) }⟩, F, none⟩ = .ok t ∧
    t.st.l.i .output_files_header = some 1 := by
  obtain ⟨t, h1, -, h2, -⟩ := C99_write_info_files litLaws_real exEnv (s := ⟨exP, F⟩) exP_built.2 (l := { (Loc.none : Loc ℝ) with
      i := upd (Loc.none : Loc ℝ).i .output_files_header (some (if exP.header = true then 1 else 0)) }) rfl 1 le_rfl
  exact ⟨t, h1, h2⟩

/-- A program run from its text, then `output` for Gauss point 9: the file describes the cell. -/
example : ∃ f z r ts, textProg exEnv exArgsP exJunk f exCalls = .ok z ∧ textStep exEnv z.1 (.output 3 9) = .ok r ∧
    r.state.files.vtu 9 3 = some ts ∧ VtuOf r.state.obj.cfg r.state.obj.work ts := by
  obtain ⟨s, f, hs⟩ := reach_exists exEnv_quick exArgsP_ok exJunk exCalls
  have ha := exArgsP_ok
  have hp := (C98_program litLaws_real exEnv ha.nx ha.ny (fun h => ha.nz (by rcases ha.dim with h' | h' <;> omega))
    exJunk f exCalls).2
  rw [hs] at hp
  cases e : textProg exEnv exArgsP exJunk f exCalls with
  | error e' => rw [e] at hp; cases hp
  | ok z =>
    have hz := (C98_returned litLaws_real ha e 0 fun _ => 0).1
    have ho := (reach_built ha hz).2
    obtain ⟨r, hr, -⟩ := (step_sane (env := exEnv) ho (.output 3 9)).returns exEnv_quick
    rw [← C98_step litLaws_real exEnv ho] at hr
    have hk : ∃ g ∈ z.1.obj.gauss, g.id = 9 := by
      have h9 := ex_known hz
      by_contra h
      exact h9 (findGp_none_iff.2 fun h9 => h (List.mem_map.1 h9))
    obtain ⟨ts, h1, h2, -⟩ := C99_vtu litLaws_real ha e hk hr
    exact ⟨f, z, r, ts, e, hr, h1, h2⟩

/-- The parameters of the materials in the file of a program run from its text. -/
example {f : Files ℝ} {z : ObjFiles ℝ × List (Ret ℝ)} (h : textProg exEnv exArgsP exJunk f exCalls = .ok z) :
    rows (textPad (fun _ : ℝ => "1.5".toList) (fun _ => 3) z.1.files.materials)
      = [List.replicate 4 "1.5".toList, List.replicate 4 "1.5".toList] := by
  obtain ⟨s0, -, -, -, -, h4⟩ := C99_tables litLaws_real exArgsP_ok h fmtCols_ex fun _ => 3
  exact h4

end Verif.Props
